import Verif.Proofs.Steady
import Verif.Properties.CondExact
import Verif.Properties.Geometry
import Verif.Properties.Converge
import Verif.Properties.Iterative
import Verif.Proofs.ShrinkLevels
/-
C95: noise in the positions of the input is not amplified, except by Butterfly (by at most 3/2 per level) and by the
conditional filters, which can jump.
-/
namespace Verif
set_option linter.unusedSectionVars false
variable {V D : Type} [NormedAddCommGroup V] [NormedSpace ℝ V]
variable {δ : ℝ} {lib : QELib} {cosn : Nat → ℝ} {inp inp' out : Mesh V D} {f f' : Filt}

/-- C95 for the cell filters: two meshes differ only in the positions, and no position by more than `δ`.  Then the two outputs
differ only in the positions, and no position by more than `δ` (for Butterfly: 3/2 of it).  For Loop: the boundary does not touch
itself, and `|cosn| ≤ 1`. -/
theorem C95_cell {sch : Scheme} (hc : sch = .loop → ∀ n, -1 ≤ cosn n ∧ cosn n ≤ 1) (h0 : 0 ≤ δ)
    (hn : sch.Needs inp) (hsel : inp.SelOK f.cells)
    (hmax : sch = .sqrt3 → inp.points.length + (inp.selected f.cells).length ≤ idMax)
    (hsb : sch = .loop → inp.SimpleBoundary) (hshape : inp'.shape = inp.shape)
    (hb : ∀ v p q, inp.pos v = some p → inp'.pos v = some q → ‖p - q‖ ≤ δ)
    (h : cellUpdate sch lib cosn f inp = (.ok out, f')) :
    ∃ out', (cellUpdate sch lib cosn f inp').1 = .ok out' ∧ out'.shape = out.shape ∧
      ∀ v p q, out.pos v = some p → out'.pos v = some q → ‖p - q‖ ≤ sch.growth * δ := by
  have h1 := (C64_positions_cell posHom_fst sch lib cosn f (inp.paired inp')).1
  have h2 := (C64_positions_cell posHom_snd sch lib cosn f (inp.paired inp')).1
  have h3 := (C64_positions_cell (posHom_blend 1 (-1)) sch lib cosn f (inp.paired inp')).1
  rw [paired_fst hshape, h] at h1
  rw [paired_snd hshape] at h2
  rcases hr : (cellUpdate sch lib cosn f (inp.paired inp')).1 with e | o
  · rw [hr] at h1; cases h1
  · rw [hr] at h1 h2 h3
    obtain rfl := Except.ok.inj h1
    refine ⟨_, h2, both_shape o, fun v p q hp hq => ?_⟩
    have key := size_cell hc h0 (inp := (inp.paired inp').mapPoints (blend (1 : ℝ) (-1))) (f := f) (paired_needs hshape hn) hsel
      (by rw [paired_length hshape]; exact hmax) hsb (paired_gap hshape hb) (Prod.ext h3 rfl) v _ (blend_pos 1 (-1) hp hq)
    rwa [one_smul, neg_one_smul, ← sub_eq_add_neg] at key

/-- C95 for the edge filters -/
theorem C95_edge {sch : EdgeScheme} (hc : sch.toScheme = .loop → ∀ n, -1 ≤ cosn n ∧ cosn n ≤ 1) (h0 : 0 ≤ δ)
    (hn : sch.toScheme.Needs inp) (hsel : inp.EdgeSelOK f.edgeSel) (hshape : inp'.shape = inp.shape)
    (hb : ∀ v p q, inp.pos v = some p → inp'.pos v = some q → ‖p - q‖ ≤ δ)
    (h : edgeUpdate sch lib cosn f inp = (.ok out, f')) :
    ∃ out', (edgeUpdate sch lib cosn f inp').1 = .ok out' ∧ out'.shape = out.shape ∧
      ∀ v p q, out.pos v = some p → out'.pos v = some q → ‖p - q‖ ≤ sch.toScheme.growth * δ := by
  have h1 := C64_positions_edge posHom_fst sch lib cosn f (inp.paired inp')
  have h2 := C64_positions_edge posHom_snd sch lib cosn f (inp.paired inp')
  have h3 := C64_positions_edge (posHom_blend 1 (-1)) sch lib cosn f (inp.paired inp')
  rw [paired_fst hshape, h] at h1
  rw [paired_snd hshape] at h2
  rcases hr : (edgeUpdate sch lib cosn f (inp.paired inp')).1 with e | o
  · rw [hr] at h1; cases h1
  · rw [hr] at h1 h2 h3
    obtain rfl := Except.ok.inj h1
    refine ⟨_, h2, both_shape o, fun v p q hp hq => ?_⟩
    have key := size_edge hc h0 (inp := (inp.paired inp').mapPoints (blend (1 : ℝ) (-1))) (f := f) (paired_needs hshape hn) hsel
      (paired_gap hshape hb) (Prod.ext h3 rfl) v _ (blend_pos 1 (-1) hp hq)
    rwa [one_smul, neg_one_smul, ← sub_eq_add_neg] at key

/-- C95 for any number of levels: no amplification at all for Linear, Loop and SquareThree; at most 3/2 per level for
Butterfly. -/
theorem C95_iterative {sch : Scheme} {f : Iter} (hc : sch = .loop → ∀ n, -1 ≤ cosn n ∧ cosn n ≤ 1) (h0 : 0 ≤ δ)
    (hl : sch = .loop ∨ sch = .butterfly → lib.Lawful) (hn : sch.Needs inp) (hsel : inp.SelOK f.cells)
    (hid : sch.IdsLeft (max 1 f.levels) inp f.cells) (hsb : sch = .loop → inp.SimpleBoundary) (hshape : inp'.shape = inp.shape)
    (hb : ∀ v p q, inp.pos v = some p → inp'.pos v = some q → ‖p - q‖ ≤ δ)
    (h : (iterUpdate sch lib cosn f inp).1 = .ok out) :
    ∃ out', (iterUpdate sch lib cosn f inp').1 = .ok out' ∧ out'.shape = out.shape ∧
      ∀ v p q, out.pos v = some p → out'.pos v = some q → ‖p - q‖ ≤ sch.growth ^ max 1 f.levels * δ := by
  have h1 := C64_positions_iterative posHom_fst sch lib cosn f (inp.paired inp')
  have h2 := C64_positions_iterative posHom_snd sch lib cosn f (inp.paired inp')
  have h3 := C64_positions_iterative (posHom_blend 1 (-1)) sch lib cosn f (inp.paired inp')
  rw [paired_fst hshape, h] at h1
  rw [paired_snd hshape] at h2
  rcases hr : (iterUpdate sch lib cosn f (inp.paired inp')).1 with e | o
  · rw [hr] at h1; cases h1
  · rw [hr] at h1 h2 h3
    obtain rfl := Except.ok.inj h1
    refine ⟨_, h2, both_shape o, fun v p q hp hq => ?_⟩
    rw [iterUpdate_eq] at h3
    rw [levelsOf_eq] at *
    rcases hm : manyLevels sch lib cosn (levelsOf f.levels) ((inp.paired inp').mapPoints (blend (1 : ℝ) (-1)), f.cells) with
      e | ⟨o', s⟩
    · rw [hm] at h3; cases h3
    · rw [hm] at h3
      obtain rfl : o' = o.mapPoints (blend (1 : ℝ) (-1)) := Except.ok.inj h3
      have key := size_levels hc h0 hl (paired_needs hshape hn) hsel
        (by unfold Scheme.IdsLeft at *; rw [paired_length hshape]; exact hid) hsb (paired_gap hshape hb) hm v _
        (blend_pos 1 (-1) hp hq)
      rwa [one_smul, neg_one_smul, ← sub_eq_add_neg] at key

/-- a corollary: Linear, Loop and SquareThree do not amplify, whatever the number of levels -/
theorem C95_no_growth {sch : Scheme} (hs : sch ≠ .butterfly) {f : Iter} (hc : sch = .loop → ∀ n, -1 ≤ cosn n ∧ cosn n ≤ 1)
    (h0 : 0 ≤ δ) (hl : sch = .loop → lib.Lawful) (hn : sch.Needs inp) (hsel : inp.SelOK f.cells)
    (hid : sch.IdsLeft (max 1 f.levels) inp f.cells) (hsb : sch = .loop → inp.SimpleBoundary) (hshape : inp'.shape = inp.shape)
    (hb : ∀ v p q, inp.pos v = some p → inp'.pos v = some q → ‖p - q‖ ≤ δ)
    (h : (iterUpdate sch lib cosn f inp).1 = .ok out) :
    ∃ out', (iterUpdate sch lib cosn f inp').1 = .ok out' ∧ out'.shape = out.shape ∧
      ∀ v p q, out.pos v = some p → out'.pos v = some q → ‖p - q‖ ≤ δ := by
  obtain ⟨out', h1, h2, h3⟩ := C95_iterative hc h0 (fun e => hl (e.resolve_right hs)) hn hsel hid hsb hshape hb h
  refine ⟨out', h1, h2, fun v p q hp hq => (h3 v p q hp hq).trans ?_⟩
  have : sch.growth = 1 := by cases sch <;> first | rfl | exact absurd rfl hs
  rw [this, one_pow, one_mul]

section bounds

/-- two triangles with the four neighbours the Butterfly stencil reads, all at one place -/
def wings : List Tri := [(0, 1, 2), (1, 0, 3), (2, 1, 4), (0, 2, 5), (3, 0, 6), (1, 3, 7)]
def flatWings : Mesh ℚ Nat := mk [0, 0, 0, 0, 0, 0, 0, 0] wings none
/-- the same with every point moved by 1 -/
def shakenWings : Mesh ℚ Nat := mk [1, 1, 1, 1, -1, -1, -1, -1] wings none

theorem flatWings_ok : flatWings.Valid ∧ flatWings.RingOK ∧ flatWings.NoIsolated ∧ flatWings.tris = wings := mk_ok _ (by decide)
theorem shakenWings_ok : shakenWings.Valid ∧ shakenWings.RingOK ∧ shakenWings.NoIsolated ∧ shakenWings.tris = wings :=
  mk_ok _ (by decide)

def posIn (r : Except Fail (Mesh ℚ Nat)) (v : PId) : Option ℚ := match r with
  | .ok m => m.pos v
  | .error _ => none

/-- The factor 3/2 of Butterfly is reached: every point is moved by 1, and the new point of the first edge by 3/2. -/
theorem C95_butterfly_reached : ∃ inp inp' : Mesh ℚ Nat, Scheme.butterfly.Needs inp ∧ inp'.shape = inp.shape ∧
    (∀ v p q, inp.pos v = some p → inp'.pos v = some q → |p - q| ≤ 1) ∧
    ∃ out out', (edgeUpdate .butterfly someLib cos0 (Filt.new.setEdges [some (0, 1)]) inp).1 = .ok out ∧
      (edgeUpdate .butterfly someLib cos0 (Filt.new.setEdges [some (0, 1)]) inp').1 = .ok out' ∧
      ∃ v p q, out.pos v = some p ∧ out'.pos v = some q ∧ |p - q| = 3 / 2 := by
  refine ⟨flatWings, shakenWings, ⟨flatWings_ok.1, fun _ => flatWings_ok.2.1, fun _ => flatWings_ok.2.2.1⟩, rfl, ?_, ?_⟩
  · intro v p q hp hq
    have hv := flatWings_ok.1.pos_lt hp
    have key : ∀ v < 8, ∀ p ∈ flatWings.pos v, ∀ q ∈ shakenWings.pos v, |p - q| ≤ 1 := by decide +kernel
    exact key v hv p hp q hq
  · have h1 : posIn (edgeUpdate .butterfly someLib cos0 (Filt.new.setEdges [some (0, 1)]) flatWings).1 8 = some 0 := by
      decide +kernel
    have h2 : posIn (edgeUpdate .butterfly someLib cos0 (Filt.new.setEdges [some (0, 1)]) shakenWings).1 8 = some (3 / 2) := by
      decide +kernel
    rcases e1 : (edgeUpdate .butterfly someLib cos0 (Filt.new.setEdges [some (0, 1)]) flatWings).1 with _ | out
    · rw [e1] at h1; cases h1
    rcases e2 : (edgeUpdate .butterfly someLib cos0 (Filt.new.setEdges [some (0, 1)]) shakenWings).1 with _ | out'
    · rw [e2] at h2; cases h2
    rw [e1] at h1
    rw [e2] at h2
    exact ⟨out, out', rfl, rfl, 8, 0, 3 / 2, h1, h2, by norm_num⟩

/-- a triangle on a line whose first edge has length `L` -/
noncomputable def onLine (L : ℝ) : Mesh ℝ Nat := mk [0, L, 0] [(0, 1, 2)] none

theorem onLine_ok (L : ℝ) : (onLine L).Valid ∧ (onLine L).RingOK ∧ (onLine L).NoIsolated ∧ (onLine L).tris = [(0, 1, 2)] :=
  mk_ok _ (show checkAll 3 [(0, 1, 2)] = true by decide)

/-- The conditional filters promise nothing of the kind: for every threshold and every `δ > 0` there are two meshes that differ
by at most `δ` in the positions, and for which the runs of the conditional Linear filter give different connections. -/
theorem C95_conditional_jumps (lib : QELib) {L : ℝ} (hL : 0 < L) (hd : 0 < δ) (cosn : Nat → ℝ) (c : Cond Filt (Option Edge)) :
    ∃ inp inp' : Mesh ℝ Nat, inp.Valid ∧ inp'.shape = inp.shape ∧
      (∀ v p q, inp.pos v = some p → inp'.pos v = some q → |p - q| ≤ δ) ∧
      ∃ n out c' out' c'',
        condGenerate lib (condEdgeUpd .linear lib cosn) (some (lengthCompute dist L)) n c inp = some (.ok out, c') ∧
        condGenerate lib (condEdgeUpd .linear lib cosn) (some (lengthCompute dist L)) n c inp' = some (.ok out', c'') ∧
        (0, 1) ∈ dartsOf out.tris ∧ (0, 1) ∉ dartsOf out'.tris := by
  refine ⟨onLine L, onLine (L + δ), (onLine_ok L).1, rfl, ?_, ?_⟩
  · intro v p q hp hq
    have hv : v < 3 := (onLine_ok L).1.pos_lt hp
    have key : ∀ v < 3, v = 0 ∨ v = 1 ∨ v = 2 := by omega
    rcases key v hv with rfl | rfl | rfl
    · cases hp; cases hq; simpa using hd.le
    · cases hp; cases hq
      rw [show L - (L + δ) = -δ by ring, abs_neg, abs_of_pos hd]
    · cases hp; cases hq; simpa using hd.le
  · obtain ⟨n₁, out, c', h1⟩ := C33_length_returns (onLine_ok L).1 hL lib cosn c
    obtain ⟨n₂, out', c'', h2⟩ := C33_length_returns (onLine_ok (L + δ)).1 hL lib cosn c
    have r1 := h1 (max n₁ n₂) (le_max_left _ _)
    have r2 := h2 (max n₁ n₂) (le_max_right _ _)
    refine ⟨_, out, c', out', c'', r1, r2, ?_, ?_⟩
    · obtain ⟨-, k, -⟩ := C60_length_exact (onLine_ok L).1 (fun h => by cases h <;> contradiction) (fun h => by cases h) dist_comm r1
      rw [(onLine_ok L).2.2.2] at k
      refine (k _ (by decide)).2 ?_
      rintro ⟨x, y, l1, l2, l3⟩
      cases l1; cases l2
      rw [Real.dist_eq, zero_sub, abs_neg, abs_of_pos hL] at l3
      exact lt_irrefl _ l3
    · obtain ⟨-, k, -⟩ := C60_length_exact (onLine_ok (L + δ)).1 (fun h => by cases h <;> contradiction) (fun h => by cases h)
        dist_comm r2
      rw [(onLine_ok (L + δ)).2.2.2] at k
      intro hc
      refine (k _ (by decide)).1 hc ⟨_, _, rfl, rfl, ?_⟩
      rw [Real.dist_eq, zero_sub, abs_neg, abs_of_pos (by linarith)]
      linarith

end bounds

section samples

/-- the patch with its points moved a little -/
noncomputable def patchShaken : Mesh ℝ Nat := mk [0.001, 4, 7.999, 12, 16.001, 20] patch none

theorem patchShaken_near : ∀ v p q, patchR.pos v = some p → patchShaken.pos v = some q → ‖p - q‖ ≤ 1 / 1000 := by
  intro v p q hp hq
  have hv : v < 6 := patchR_ok.1.pos_lt hp
  have key : ∀ v < 6, v = 0 ∨ v = 1 ∨ v = 2 ∨ v = 3 ∨ v = 4 ∨ v = 5 := by omega
  rcases key v hv with rfl | rfl | rfl | rfl | rfl | rfl <;> cases hp <;> cases hq <;> norm_num

/-- ten levels of Loop on two cells of the patch -/
example : ∃ out out', (iterUpdate .loop someLib realCos ⟨[1, 3], 10, []⟩ patchR).1 = .ok out ∧
    (iterUpdate .loop someLib realCos ⟨[1, 3], 10, []⟩ patchShaken).1 = .ok out' ∧ out'.shape = out.shape ∧
    ∀ v p q, out.pos v = some p → out'.pos v = some q → ‖p - q‖ ≤ 1 / 1000 := by
  have hn : Scheme.loop.Needs patchR := ⟨patchR_ok.1, fun _ => patchR_ok.2.1, fun _ => patchR_ok.2.2.1⟩
  have hsel : patchR.SelOK [1, 3] := by unfold Mesh.SelOK; decide
  obtain ⟨out, -, h, -, -⟩ := C24_iterative_selective (lib := someLib) realCos (fun _ => someLib_lawful) hn
    (f := ⟨[1, 3], 10, []⟩) (by decide) hsel (fun h => by cases h)
  obtain ⟨out', h1, h2, h3⟩ := C95_no_growth (f := ⟨[1, 3], 10, []⟩) (inp' := patchShaken) (by decide)
    (fun _ n => ⟨Real.neg_one_le_cos _, Real.cos_le_one _⟩) (by norm_num) (fun _ => someLib_lawful) hn hsel
    (fun h => by cases h) (fun _ => patchR_simple) rfl patchShaken_near h
  exact ⟨out, out', h, h1, h2, h3⟩

/-- two levels of Butterfly -/
example : ∃ out out', (iterUpdate .butterfly someLib realCos ⟨[1, 3], 2, []⟩ patchR).1 = .ok out ∧
    (iterUpdate .butterfly someLib realCos ⟨[1, 3], 2, []⟩ patchShaken).1 = .ok out' ∧
    ∀ v p q, out.pos v = some p → out'.pos v = some q → ‖p - q‖ ≤ 9 / 4000 := by
  have hn : Scheme.butterfly.Needs patchR := ⟨patchR_ok.1, fun _ => patchR_ok.2.1, fun _ => patchR_ok.2.2.1⟩
  have hsel : patchR.SelOK [1, 3] := by unfold Mesh.SelOK; decide
  obtain ⟨out, -, h, -, -⟩ := C24_iterative_selective (lib := someLib) realCos (fun _ => someLib_lawful) hn
    (f := ⟨[1, 3], 2, []⟩) (by decide) hsel (fun h => by cases h)
  obtain ⟨out', h1, -, h3⟩ := C95_iterative (f := ⟨[1, 3], 2, []⟩) (inp' := patchShaken) (δ := 1 / 1000)
    (fun h => by cases h) (by norm_num) (fun _ => someLib_lawful) hn hsel
    (fun h => by cases h) (fun h => by cases h) rfl patchShaken_near h
  refine ⟨out, out', h, h1, fun v p q hp hq => (h3 v p q hp hq).trans (le_of_eq ?_)⟩
  norm_num [Scheme.growth]

/-- one run of SquareThree, and one of the Loop edge filter -/
example : ∃ out f' out', cellUpdate .sqrt3 someLib realCos (usedFilt [1, 3]) patchR = (.ok out, f') ∧
    (cellUpdate .sqrt3 someLib realCos (usedFilt [1, 3]) patchShaken).1 = .ok out' ∧
    ∀ v p q, out.pos v = some p → out'.pos v = some q → ‖p - q‖ ≤ 1 / 1000 := by
  have hn : Scheme.sqrt3.Needs patchR := ⟨patchR_ok.1, fun _ => patchR_ok.2.1, fun _ => patchR_ok.2.2.1⟩
  have hsel : patchR.SelOK [1, 3] := by unfold Mesh.SelOK; decide
  have hmax : patchR.points.length + (patchR.selected [1, 3]).length ≤ idMax := by decide
  obtain ⟨out, f', h, -⟩ := sqrt3Update_ok hn.valid someLib realCos (f := usedFilt [1, 3]) hsel hmax
  obtain ⟨out', h1, -, h3⟩ := C95_cell (f := usedFilt [1, 3]) (inp' := patchShaken) (fun h => by cases h) (by norm_num) hn hsel
    (fun _ => hmax) (fun h => by cases h) rfl patchShaken_near h
  exact ⟨out, f', out', h, h1, fun v p q hp hq => (h3 v p q hp hq).trans (le_of_eq (by norm_num [Scheme.growth]))⟩

example : ∃ out f' out', edgeUpdate .loop someLib realCos (Filt.new.setEdges [some (1, 0), some (0, 3)]) patchR = (.ok out, f') ∧
    (edgeUpdate .loop someLib realCos (Filt.new.setEdges [some (1, 0), some (0, 3)]) patchShaken).1 = .ok out' ∧
    ∀ v p q, out.pos v = some p → out'.pos v = some q → ‖p - q‖ ≤ 1 / 1000 := by
  have hn : Scheme.loop.Needs patchR := ⟨patchR_ok.1, fun _ => patchR_ok.2.1, fun _ => patchR_ok.2.2.1⟩
  have hok : patchR.EdgeSelOK [some (1, 0), some (0, 3)] := by
    intro e he
    simp only [List.mem_cons, List.not_mem_nil, or_false, Option.some.injEq] at he
    unfold Mesh.IsEdge
    rcases he with rfl | rfl <;> decide
  obtain ⟨out, f', h, -⟩ := edgeUpdate_ok (sch := .loop) (f := Filt.new.setEdges [some (1, 0), some (0, 3)]) someLib realCos hn hok
  obtain ⟨out', h1, -, h3⟩ := C95_edge (sch := .loop) (f := Filt.new.setEdges [some (1, 0), some (0, 3)]) (inp' := patchShaken)
    (fun _ n => ⟨Real.neg_one_le_cos _, Real.cos_le_one _⟩) (by norm_num) hn hok rfl patchShaken_near h
  exact ⟨out, f', out', h, h1, fun v p q hp hq => (h3 v p q hp hq).trans (le_of_eq (by norm_num [Scheme.growth, EdgeScheme.toScheme]))⟩

end samples
end Verif
