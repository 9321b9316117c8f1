import Verif.Proofs.RimIn
import Verif.Properties.CondKeeps
import Verif.Properties.Rim
/-
C80: the boundary curves stay in their planes, and more generally in the convex sets that contain them.
-/
namespace Verif
set_option linter.unusedSectionVars false
variable {K P D : Type} [Field K] [LinearOrder K] [IsStrictOrderedRing K] [AddCommGroup P] [Module K P] {lib : QELib}
  {cosn : Nat → K} {f f' : Filt} {inp out : Mesh P D} {C : Set P}

/-- C80, one run of the Linear, Loop or SquareThree cell filter, with any selection and history: if all points of the boundary
curve through `v` lie in the convex set `C`, so they do in the output. Missing: ModifiedButterfly, see
`C80_butterfly_refuted`, and for Loop boundaries that touch themselves. -/
theorem C80_rim_kept_partial {sch : Scheme} (hs : sch ≠ .butterfly) (hC : Convex K C) (hn : sch.Needs inp)
    (hsb : sch = .loop → inp.SimpleBoundary) (hsel : inp.SelOK f.cells)
    (hmax : sch = .sqrt3 → inp.points.length + (inp.selected f.cells).length ≤ idMax)
    (h : cellUpdate sch lib cosn f inp = (.ok out, f')) (v : PId) (hr : inp.RimIn C v) : out.RimIn C v :=
  cellUpdate_rimIn hC hs hn hsb hsel hmax h hr

/-- C80, one run of the Linear or Loop edge filter. -/
theorem C80_rim_kept_edge_partial {sch : EdgeScheme} (hs : sch ≠ .butterfly) (hC : Convex K C) (hn : sch.toScheme.Needs inp)
    (hsel : inp.EdgeSelOK f.edgeSel) (h : edgeUpdate sch lib cosn f inp = (.ok out, f')) (v : PId) (hr : inp.RimIn C v) :
    out.RimIn C v :=
  edgeUpdate_rimIn hC hs hn hsel h hr

/-- C80, any number of levels. -/
theorem C80_rim_kept_iterative_partial {sch : Scheme} (hs : sch ≠ .butterfly) (hC : Convex K C) (hl : sch = .loop → lib.Lawful)
    (hn : sch.Needs inp) (hsb : sch = .loop → inp.SimpleBoundary) {f : Iter} (hsel : inp.SelOK f.cells)
    (hid : sch.IdsLeft (max 1 f.levels) inp f.cells) (h : (iterUpdate sch lib cosn f inp).1 = .ok out) (v : PId)
    (hr : inp.RimIn C v) : out.RimIn C v := by
  refine ((iter_induct (lib := lib) (cosn := cosn) (fun hb => hb.elim hl fun hb => absurd hb hs)
    (fun m _ => m.RimIn C v ∧ (sch = .loop → m.SimpleBoundary)) ?_ hn hsel hid ⟨hr, hsb⟩ h).elim fun _ h => h).1
  rintro m out sel f' hm hsel _ hmax h ⟨h1, h2⟩
  exact ⟨cellUpdate_rimIn (f := Filt.new.setCells sel) hC hs hm h2 hsel hmax h h1, fun hb => by
    subst hb; exact simple_split (by decide) hm (f := Filt.new.setCells sel) hsel h (h2 rfl)⟩

theorem rimIn_copy (lib : QELib) (hv : inp.Valid) {v : PId} (h : inp.RimIn C v) : (copyGeometry lib inp).RimIn C v := by
  unfold Mesh.RimIn Mesh.SameRim Mesh.RimLink Mesh.IsBoundary Mesh.pos at h ⊢
  rw [copyGeometry_tris lib hv, copyGeometry_points lib hv]
  exact h

/-- C80, the conditional filter with the Linear, Loop or SquareThree cell filter. -/
theorem C80_rim_kept_conditional_partial {sch : Scheme} (hs : sch ≠ .butterfly) (hC : Convex K C) (hl : sch = .loop → lib.Lawful)
    (hn : sch.Needs inp) (hsb : sch = .loop → inp.SimpleBoundary) {n : Nat}
    (hmax : sch = .sqrt3 → inp.points.length + 4 ^ n * inp.cells.length ≤ idMax)
    {area : P → P → P → K} {A : K} {c c' : Cond Filt CId}
    (h : condGenerate lib (condCellUpd sch lib cosn) (some (areaCompute area A)) n c inp = some (.ok out, c')) (v : PId)
    (hr : inp.RimIn C v) : out.RimIn C v := by
  refine (condArea_induct hn.valid (fun hb => hb.elim hl fun hb => absurd hb hs) hn.noIsolated hmax
    (fun m => m.RimIn C v ∧ (sch = .loop → m.SimpleBoundary))
    ⟨rimIn_copy lib hn.valid hr, fun hb => simple_copy lib hn.valid (hsb hb)⟩ ?_ h).1
  rintro m out sel f f' hm hn' hsel hnd hne hmax h ⟨h1, h2⟩
  exact ⟨cellUpdate_rimIn (f := f.setCells sel) hC hs hm h2 hsel hmax h h1, fun hb => by
    subst hb; exact simple_split (by decide) hm (f := f.setCells sel) hsel h (h2 rfl)⟩

/-- C80, the conditional filter with the Linear or Loop edge filter. -/
theorem C80_rim_kept_conditional_edge_partial {sch : EdgeScheme} (hs : sch ≠ .butterfly) (hC : Convex K C)
    (hl : sch = .loop → lib.Lawful) (hn : sch.toScheme.Needs inp) {n : Nat} {len : P → P → K} {L : K}
    {c c' : Cond Filt (Option Edge)}
    (h : condGenerate lib (condEdgeUpd sch lib cosn) (some (lengthCompute len L)) n c inp = some (.ok out, c')) (v : PId)
    (hr : inp.RimIn C v) : out.RimIn C v := by
  refine condLength_induct hn.valid (fun hb => hb.elim hl fun hb => absurd hb hs)
    (fun hb => hn.noIsolated (toScheme_loop.2 hb)) (fun m => m.RimIn C v) (rimIn_copy lib hn.valid hr) ?_ h
  intro m out sel f f' H hn' hne h h1
  exact edgeUpdate_rimIn (f := f.setEdges sel) hC hs H.needs H.selOK h h1

section samples

/-- An octahedron without its lowest face, standing on the three points around the hole. -/
def stool : Mesh Q3 Nat :=
  mk [(0, 0, 0), (8, 0, 0), (0, 8, 0), (4, 0, 8), (4, 4, 8), (0, 4, 8)]
    [(0, 1, 3), (1, 2, 4), (2, 0, 5), (1, 4, 3), (2, 5, 4), (0, 3, 5), (3, 4, 5)] none

theorem stool_ok : stool.Valid ∧ stool.RingOK ∧ stool.NoIsolated ∧
    stool.tris = [(0, 1, 3), (1, 2, 4), (2, 0, 5), (1, 4, 3), (2, 5, 4), (0, 3, 5), (3, 4, 5)] := mk_ok _ (by decide)

theorem stool_needs (sch : Scheme) : sch.Needs stool := ⟨stool_ok.1, fun _ => stool_ok.2.1, fun _ => stool_ok.2.2.1⟩

theorem stool_simple : stool.SimpleBoundary := simple_of_tris stool_ok.2.2.2 (by decide)

/-- the floor -/
def floor : Set Q3 := {p | p.2.2 = 0}

theorem floor_convex : Convex ℚ floor := by
  intro p hp q hq a b _ _ _
  change p.2.2 = 0 at hp; change q.2.2 = 0 at hq; change (a • p + b • q).2.2 = 0
  simp [hp, hq]

theorem stool_boundary {e : Edge} (h : stool.IsBoundary e) : e ∈ [((0 : PId), (1 : PId)), (1, 2), (2, 0)] := by
  unfold Mesh.IsBoundary at h
  rw [stool_ok.2.2.2] at h
  have : ∀ e ∈ dartsOf [(0, 1, 3), (1, 2, 4), (2, 0, 5), (1, 4, 3), (2, 5, 4), (0, 3, 5), (3, 4, 5)],
    e.sym ∉ dartsOf [(0, 1, 3), (1, 2, 4), (2, 0, 5), (1, 4, 3), (2, 5, 4), (0, 3, 5), (3, 4, 5)] →
      e ∈ [((0 : PId), (1 : PId)), (1, 2), (2, 0)] := by decide
  exact this e h.1 h.2

theorem stool_rim : stool.RimIn floor 0 := by
  refine ⟨⟨1, .inl ?_⟩, ?_⟩
  · unfold Mesh.IsBoundary; rw [stool_ok.2.2.2]; decide
  · intro w p hw hp
    have h3 : w ∈ [(0 : PId), 1, 2] := by
      induction hw with
      | refl => simp
      | tail _ hl _ =>
        rcases hl with hl | hl <;> have := stool_boundary hl <;>
          simp only [List.mem_cons, Prod.mk.injEq, List.not_mem_nil, or_false] at this ⊢
        · rcases this with ⟨_, h⟩ | ⟨_, h⟩ | ⟨_, h⟩ <;> simp [h]
        · rcases this with ⟨h, _⟩ | ⟨h, _⟩ | ⟨h, _⟩ <;> simp [h]
    simp only [List.mem_cons, List.not_mem_nil, or_false] at h3
    rcases h3 with rfl | rfl | rfl <;> (cases hp; rfl)

/-- after five levels the rim of the stool still stands on the floor -/
example (out : Mesh Q3 Nat) (h : (iterUpdate .loop someLib cos0 ⟨[], 5, []⟩ stool).1 = .ok out) : out.RimIn floor 0 :=
  C80_rim_kept_iterative_partial (by decide) floor_convex (fun _ => someLib_lawful) (stool_needs _) (fun _ => stool_simple)
    (f := ⟨[], 5, []⟩) (selOK_nil _) (by intro h; cases h) h 0 stool_rim

example (out : Mesh Q3 Nat) (f' : Filt) (h : cellUpdate .sqrt3 someLib cos0 (usedFilt [1, 3]) stool = (.ok out, f')) :
    out.RimIn floor 0 :=
  C80_rim_kept_partial (by decide) floor_convex (stool_needs _) (by intro h; cases h) (by unfold Mesh.SelOK; decide)
    (fun _ => by decide) h 0 stool_rim

theorem stool_edges : stool.EdgeSelOK [some (1, 0), none, some (4, 2)] := by
  intro e he
  simp only [List.mem_cons, Option.some.injEq, reduceCtorEq, List.not_mem_nil, or_false, false_or] at he
  rcases he with rfl | rfl <;> (unfold Mesh.IsEdge; decide)

example (out : Mesh Q3 Nat) (f' : Filt) (h : edgeUpdate .loop someLib cos0
    (Filt.new.setEdges [some (1, 0), none, some (4, 2)]) stool = (.ok out, f')) : out.RimIn floor 0 :=
  C80_rim_kept_edge_partial (sch := .loop) (by decide) floor_convex (stool_needs _) stool_edges h 0 stool_rim

example (n : Nat) (A : ℚ) (area : Q3 → Q3 → Q3 → ℚ) (out : Mesh Q3 Nat) (c c' : Cond Filt CId)
    (h : condGenerate someLib (condCellUpd .loop someLib cos0) (some (areaCompute area A)) n c stool = some (.ok out, c')) :
    out.RimIn floor 0 :=
  C80_rim_kept_conditional_partial (by decide) floor_convex (fun _ => someLib_lawful) (stool_needs _) (fun _ => stool_simple)
    (by intro h; cases h) h 0 stool_rim

example (n : Nat) (L : ℚ) (len : Q3 → Q3 → ℚ) (out : Mesh Q3 Nat) (c c' : Cond Filt (Option Edge))
    (h : condGenerate someLib (condEdgeUpd .linear someLib cos0) (some (lengthCompute len L)) n c stool =
      some (.ok out, c')) : out.RimIn floor 0 :=
  C80_rim_kept_conditional_edge_partial (sch := .linear) (by decide) floor_convex (by intro h; cases h) (stool_needs _) h 0
    stool_rim

end samples

/-- C80 is false of the ModifiedButterfly filter: the rim of the stool sinks below the floor. -/
theorem C80_butterfly_refuted : ∃ (inp out : Mesh Q3 Nat) (f' : Filt) (m : PId) (z : ℚ), Scheme.butterfly.Needs inp ∧
    inp.SimpleBoundary ∧ inp.RimIn floor 0 ∧ cellUpdate .butterfly someLib cos0 Filt.new inp = (.ok out, f') ∧
    out.RimLink 0 m ∧ out.pos m = some (4, 0, z) ∧ z = -1 ∧ ¬ out.RimIn floor 0 := by
  obtain ⟨out, f', h, -⟩ := cellUpdate_ok (sch := .butterfly) (by decide) someLib cos0 (f := Filt.new) (stool_needs _) (selOK_nil _)
  have h1 : (edgeList (stool.selected []))[0]? = some (0, 1) := by decide
  have hp : schemePoint .butterfly ℚ stool (0, 1) = .ok ((4 : ℚ), (0 : ℚ), (-1 : ℚ)) := by decide +kernel
  have hv : out.pos 6 = some ((4 : ℚ), (0 : ℚ), (-1 : ℚ)) := by
    have := pos_new (cellUpdate_result (by decide) (stool_needs _) (selOK_nil _) h).1.points h1
    rwa [valueOf_eq hp] at this
  have hb : out.RimLink 0 6 := by
    refine .inl (((C18_boundary_preserved (by decide) (stool_needs _) (selOK_nil _) h).1 _).2 ⟨(0, 1), ?_, .inr ⟨6, ?_, .inl rfl⟩⟩)
    · unfold Mesh.IsBoundary; rw [stool_ok.2.2.2]; decide
    · decide
  refine ⟨stool, out, f', 6, -1, stool_needs _, stool_simple, stool_rim, h, hb, hv, rfl, fun hc => ?_⟩
  have := hc.2 6 _ (Relation.ReflTransGen.single hb) hv
  exact absurd (show (-1 : ℚ) = 0 from this) (by decide)

end Verif
