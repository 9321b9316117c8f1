import Verif.Spec.Flat
import Verif.Properties.CondKeeps
import Verif.Properties.EdgeRuns
import Verif.Properties.Rim
/-
C81: flat meshes stay flat.
-/
namespace Verif
set_option linter.unusedSectionVars false
variable {K P D : Type} [Field K] [LinearOrder K] [IsStrictOrderedRing K] [AddCommGroup P] [Module K P] {lib : QELib}
  {cosn : Nat → K} {f f' : Filt} {inp out : Mesh P D} {S : AffineSubspace K P}

/-- the affine map that vanishes on a plane, and only there -/
theorem exists_vanishing (hS : (S : Set P).Nonempty) : ∃ φ : P →ᵃ[K] P ⧸ S.direction, ∀ p, φ p = 0 ↔ p ∈ S := by
  obtain ⟨o, ho⟩ := hS
  refine ⟨S.direction.mkQ.toAffineMap.comp (AffineMap.id K P - AffineMap.const K P o), fun p => ?_⟩
  change Submodule.Quotient.mk (p - o) = 0 ↔ _
  rw [Submodule.Quotient.mk_eq_zero]
  exact AffineSubspace.vsub_right_mem_direction_iff_mem ho p

theorem mapPoints_flat {P' : Type} {φ ψ : P → P'} (hd : inp.Valid) (h : ∀ v p, inp.pos v = some p → φ p = ψ p) :
    inp.mapPoints φ = inp.mapPoints ψ := by
  unfold Mesh.mapPoints
  congr 1
  refine List.map_congr_left fun kp hk => ?_
  obtain ⟨i, hi, rfl⟩ := List.getElem_of_mem hk
  rw [h i inp.points[i].2 ?_]
  have h1 : inp.pos i = (inp.points.map Prod.snd)[i]? := (congrArg (fun m => AMap.find? m i) hd.points_eq).trans (AMap.find?_dense _ _)
  rw [h1]
  simp [hi]

/-- a run that goes with affine maps keeps a flat mesh flat -/
theorem flat_of_affine (hv : inp.Valid) (run : ∀ {P' : Type} [AddCommGroup P'] [Module K P'], Mesh P' D → Except Err (Mesh P' D))
    (hr : ∀ {P' : Type} [AddCommGroup P'] [Module K P'] (φ : P →ᵃ[K] P'), run (inp.mapPoints φ) = (run inp).map (Mesh.mapPoints φ))
    (h : run inp = .ok out) (hS : (S : Set P).Nonempty) (hf : inp.FlatIn S) : out.FlatIn S := by
  obtain ⟨φ, hφ⟩ := exists_vanishing hS
  intro v p hp
  have h0 : inp.mapPoints φ = inp.mapPoints (AffineMap.const K P (0 : P ⧸ S.direction)) :=
    mapPoints_flat hv fun v p hp => (hφ p).2 (hf v p hp)
  have h1 := hr φ
  rw [h0, hr (AffineMap.const K P (0 : P ⧸ S.direction)), h] at h1
  have h2 := congrArg (fun m : Mesh _ D => m.pos v) (Except.ok.inj h1)
  have h3 : ∀ ψ : P → P ⧸ S.direction, (out.mapPoints ψ).pos v = (out.pos v).map ψ := fun ψ => AMap.find?_map ψ out.points v
  simp only [h3, hp, Option.map_some, Option.some.injEq] at h2
  exact (hφ p).1 h2.symm

/-- C81, one run of a cell filter, with any selection and history: if the points lie in a plane, so do those of the output. For
Loop the boundary must not touch itself. -/
theorem C81_flat_partial {sch : Scheme} (hn : sch.Needs inp) (hsb : sch = .loop → inp.SimpleBoundary) (hsel : inp.SelOK f.cells)
    (h : cellUpdate sch lib cosn f inp = (.ok out, f')) (hS : (S : Set P).Nonempty) (hf : inp.FlatIn S) : out.FlatIn S := by
  refine flat_of_affine hn.valid (fun m => (cellUpdate sch lib cosn f m).1) (fun φ => ?_) (congrArg Prod.fst h) hS hf
  cases sch with
  | linear => exact (C19_affine_linear_sqrt3 (.inl rfl) lib cosn f inp hn.valid.points_dense φ).1
  | sqrt3 => exact (C19_affine_linear_sqrt3 (.inr rfl) lib cosn f inp hn.valid.points_dense φ).1
  | butterfly => exact (C19_affine_butterfly lib cosn f hn.valid (hn.ring (.inr rfl)) φ).1
  | loop => exact (C19_affine_loop_partial lib cosn hn (hsb rfl) hsel φ).1

/-- C81, one run of an edge filter. -/
theorem C81_flat_edge {sch : EdgeScheme} (hn : sch.toScheme.Needs inp) (hsel : inp.EdgeSelOK f.edgeSel)
    (h : edgeUpdate sch lib cosn f inp = (.ok out, f')) (hS : (S : Set P).Nonempty) (hf : inp.FlatIn S) : out.FlatIn S :=
  flat_of_affine hn.valid (fun m => (edgeUpdate sch lib cosn f m).1) (fun φ => C19_affine_edge lib cosn hn hsel φ)
    (congrArg Prod.fst h) hS hf

/-- C81, any number of levels. -/
theorem C81_flat_iterative_partial {sch : Scheme} (hl : sch = .loop ∨ sch = .butterfly → lib.Lawful) (hn : sch.Needs inp)
    (hsb : sch = .loop → inp.SimpleBoundary) {f : Iter} (hsel : inp.SelOK f.cells)
    (hid : sch.IdsLeft (max 1 f.levels) inp f.cells) (h : (iterUpdate sch lib cosn f inp).1 = .ok out)
    (hS : (S : Set P).Nonempty) (hf : inp.FlatIn S) : out.FlatIn S := by
  refine ((iter_induct (lib := lib) (cosn := cosn) hl
    (fun m _ => m.FlatIn S ∧ (sch = .loop → m.SimpleBoundary)) ?_ hn hsel hid ⟨hf, hsb⟩ h).elim fun _ h => h).1
  rintro m out sel f' hm hsel _ hmax h ⟨h1, h2⟩
  exact ⟨C81_flat_partial (f := Filt.new.setCells sel) hm h2 hsel h hS h1, fun hb => by
    subst hb; exact simple_split (by decide) hm (f := Filt.new.setCells sel) hsel h (h2 rfl)⟩

theorem flat_copy (lib : QELib) (hv : inp.Valid) (h : inp.FlatIn S) : (copyGeometry lib inp).FlatIn S := by
  unfold Mesh.FlatIn Mesh.pos at h ⊢
  rwa [copyGeometry_points lib hv]

/-- C81, the conditional filter with a cell filter, whatever is measured. -/
theorem C81_flat_conditional_partial {sch : Scheme} (hl : sch = .loop ∨ sch = .butterfly → lib.Lawful)
    (hn : sch.Needs inp) (hsb : sch = .loop → inp.SimpleBoundary) {n : Nat}
    (hmax : sch = .sqrt3 → inp.points.length + 4 ^ n * inp.cells.length ≤ idMax)
    {area : P → P → P → K} {A : K} {c c' : Cond Filt CId}
    (h : condGenerate lib (condCellUpd sch lib cosn) (some (areaCompute area A)) n c inp = some (.ok out, c'))
    (hS : (S : Set P).Nonempty) (hf : inp.FlatIn S) : out.FlatIn S := by
  refine (condArea_induct hn.valid hl hn.noIsolated hmax (fun m => m.FlatIn S ∧ (sch = .loop → m.SimpleBoundary))
    ⟨flat_copy lib hn.valid hf, fun hb => simple_copy lib hn.valid (hsb hb)⟩ ?_ h).1
  rintro m out sel f f' hm hn' hsel hnd hne hmax h ⟨h1, h2⟩
  exact ⟨C81_flat_partial (f := f.setCells sel) hm h2 hsel h hS h1, fun hb => by
    subst hb; exact simple_split (by decide) hm (f := f.setCells sel) hsel h (h2 rfl)⟩

/-- C81, the conditional filter with an edge filter. -/
theorem C81_flat_conditional_edge {sch : EdgeScheme} (hl : sch = .loop ∨ sch = .butterfly → lib.Lawful)
    (hn : sch.toScheme.Needs inp) {n : Nat} {len : P → P → K} {L : K} {c c' : Cond Filt (Option Edge)}
    (h : condGenerate lib (condEdgeUpd sch lib cosn) (some (lengthCompute len L)) n c inp = some (.ok out, c'))
    (hS : (S : Set P).Nonempty) (hf : inp.FlatIn S) : out.FlatIn S := by
  refine condLength_induct hn.valid hl (fun hb => hn.noIsolated (toScheme_loop.2 hb)) (fun m => m.FlatIn S)
    (flat_copy lib hn.valid hf) ?_ h
  intro m out sel f f' H hn' hne h h1
  exact C81_flat_edge (f := f.setEdges sel) H.needs H.selOK h hS h1

section samples

/-- the plane of the lid -/
def ground : AffineSubspace ℚ Q3 := (LinearMap.ker ((LinearMap.snd ℚ ℚ ℚ).comp (LinearMap.snd ℚ ℚ (ℚ × ℚ)))).toAffineSubspace

theorem mem_ground {p : Q3} : p ∈ ground ↔ p.2.2 = 0 := Iff.rfl

theorem ground_nonempty : (ground : Set Q3).Nonempty := ⟨(1, 2, 0), rfl⟩

theorem lid_flat : lid.FlatIn ground := by
  intro v p hp
  rcases v with _ | _ | _ | v
  · cases hp; rfl
  · cases hp; rfl
  · cases hp; rfl
  · cases hp

example (n : Nat) (out : Mesh Q3 Nat) (h : (iterUpdate .butterfly someLib cos0 ⟨[], n, []⟩ lid).1 = .ok out) :
    out.FlatIn ground :=
  C81_flat_iterative_partial (sch := .butterfly) (fun _ => someLib_lawful) (lid_needs _) (by intro h; cases h) (selOK_nil _)
    (by intro h; cases h) h ground_nonempty lid_flat

example (f f' : Filt) (hf : f.cells = [0]) (out : Mesh Q3 Nat) (h : cellUpdate .loop someLib cos0 f lid = (.ok out, f')) :
    out.FlatIn ground :=
  C81_flat_partial (sch := .loop) (lid_needs _) (fun _ => lid_simple) (by rw [hf]; unfold Mesh.SelOK; decide) h ground_nonempty
    lid_flat

theorem lid_edges : lid.EdgeSelOK [some (1, 0), none] := by
  intro e he
  simp only [List.mem_cons, Option.some.injEq, reduceCtorEq, List.not_mem_nil, or_false] at he
  subst he; unfold Mesh.IsEdge; decide

example (out : Mesh Q3 Nat) (f' : Filt)
    (h : edgeUpdate .butterfly someLib cos0 (Filt.new.setEdges [some (1, 0), none]) lid = (.ok out, f')) : out.FlatIn ground :=
  C81_flat_edge (sch := .butterfly) (lid_needs _) lid_edges h ground_nonempty lid_flat

example (n : Nat) (A : ℚ) (area : Q3 → Q3 → Q3 → ℚ) (out : Mesh Q3 Nat) (c c' : Cond Filt CId)
    (h : condGenerate someLib (condCellUpd .butterfly someLib cos0) (some (areaCompute area A)) n c lid = some (.ok out, c')) :
    out.FlatIn ground :=
  C81_flat_conditional_partial (sch := .butterfly) (fun _ => someLib_lawful) (lid_needs _) (by intro h; cases h)
    (by intro h; cases h) h ground_nonempty lid_flat

example (n : Nat) (L : ℚ) (len : Q3 → Q3 → ℚ) (out : Mesh Q3 Nat) (c c' : Cond Filt (Option Edge))
    (h : condGenerate someLib (condEdgeUpd .loop someLib cos0) (some (lengthCompute len L)) n c lid = some (.ok out, c')) :
    out.FlatIn ground :=
  C81_flat_conditional_edge (sch := .loop) (fun _ => someLib_lawful) (lid_needs _) h ground_nonempty lid_flat

end samples

/-- C81, the area: the lid has the area 8 and one uniform level of ModifiedButterfly leaves a quarter of it, for the new points
of the boundary edges are drawn inwards.  With Loop five eighths are left. -/
theorem C81_area_refuted : ∃ inp out out' : Mesh Q3 Nat, inp.FlatIn ground ∧ Scheme.butterfly.Needs inp ∧ Scheme.loop.Needs inp ∧
    inp.SimpleBoundary ∧ inp.signedArea = 16 ∧
    (iterUpdate .butterfly someLib cos0 Iter.new inp).1 = .ok out ∧ out.signedArea = 4 ∧
    (iterUpdate .loop someLib cos0 Iter.new inp).1 = .ok out' ∧ out'.signedArea = 10 := by
  have h : (iterUpdate .butterfly someLib cos0 Iter.new lid).1.toOption.map Mesh.signedArea = some (4 : ℚ) := by decide +kernel
  have h' : (iterUpdate .loop someLib cos0 Iter.new lid).1.toOption.map Mesh.signedArea = some (10 : ℚ) := by decide +kernel
  rcases h1 : (iterUpdate .butterfly someLib cos0 Iter.new lid).1 with _ | a
  · rw [h1] at h; cases h
  rcases h2 : (iterUpdate .loop someLib cos0 Iter.new lid).1 with _ | b
  · rw [h2] at h'; cases h'
  rw [h1] at h
  rw [h2] at h'
  exact ⟨lid, a, b, lid_flat, lid_needs _, lid_needs _, lid_simple, by decide +kernel, h1, Option.some.inj h, h2, Option.some.inj h'⟩

end Verif
