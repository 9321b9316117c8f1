import Verif.Proofs.TwoTypes
import Verif.Properties.Rounding
/-
C69: filters with different mesh types for input and output.
-/
namespace Verif
set_option linter.unusedSectionVars false
section
variable {K P Q D : Type} [Field K] [Zero P] [Add P] [SMul K P] [Zero Q] {cast : P → Q} {lib : QELib} {cosn : Nat → K}
  {inp : Mesh P D} {f f' : Filt} {outQ : Mesh Q D}

/-- C69: a cell filter with two mesh types gives the output of the filter with one, with every position converted (once); it fails
when that one fails, in the same way, and it records the same cells.  For any mesh, valid or not, any filter object, and any
conversion that maps zero to zero. -/
theorem C69_cell (h0 : cast 0 = 0) (sch : TwoTypeScheme) (lib : QELib) (cosn : Nat → K) (f : Filt) (inp : Mesh P D) :
    (cellUpdateTo sch lib cast cosn f inp).1 = (cellUpdate sch.toScheme lib cosn f inp).1.map (Mesh.mapPoints cast) ∧
    (cellUpdateTo sch lib cast cosn f inp).2.cells = (cellUpdate sch.toScheme lib cosn f inp).2.cells :=
  cellUpdateTo_eq h0 sch lib cosn f inp

/-- C69 for the edge filters. -/
theorem C69_edge (h0 : cast 0 = 0) (sch : EdgeScheme) (lib : QELib) (cosn : Nat → K) (f : Filt) (inp : Mesh P D) :
    (edgeUpdateTo sch lib cast cosn f inp).1 = (edgeUpdate sch lib cosn f inp).1.map (Mesh.mapPoints cast) :=
  edgeUpdateTo_eq h0 sch lib cosn f inp

theorem cellUpdateTo_ok (h0 : cast 0 = 0) {sch : TwoTypeScheme} (h : cellUpdateTo sch lib cast cosn f inp = (.ok outQ, f')) :
    ∃ out g, cellUpdate sch.toScheme lib cosn f inp = (.ok out, g) ∧ outQ = out.mapPoints cast := by
  have h1 := (cellUpdateTo_eq h0 sch lib cosn f inp).1
  rw [h] at h1
  rcases hr : cellUpdate sch.toScheme lib cosn f inp with ⟨e | out, g⟩
  · rw [hr] at h1; cases h1
  · rw [hr] at h1
    exact ⟨out, g, rfl, Except.ok.inj h1⟩

theorem edgeUpdateTo_ok (h0 : cast 0 = 0) {sch : EdgeScheme} (h : edgeUpdateTo sch lib cast cosn f inp = (.ok outQ, f')) :
    ∃ out g, edgeUpdate sch lib cosn f inp = (.ok out, g) ∧ outQ = out.mapPoints cast := by
  have h1 := edgeUpdateTo_eq h0 sch lib cosn f inp
  rw [h] at h1
  rcases hr : edgeUpdate sch lib cosn f inp with ⟨e | out, g⟩
  · rw [hr] at h1; cases h1
  · rw [hr] at h1
    exact ⟨out, g, rfl, Except.ok.inj h1⟩

theorem pos_mapPoints (m : Mesh P D) (φ : P → Q) (v : PId) : (m.mapPoints φ).pos v = (m.pos v).map φ := AMap.find?_map φ m.points v

/-- C69: on a valid mesh the run returns, and the output is a valid mesh. -/
theorem C69_valid (h0 : cast 0 = 0) (lib : QELib) (cosn : Nat → K) {sch : TwoTypeScheme} (hn : sch.toScheme.Needs inp)
    (hsel : inp.SelOK f.cells) (hmax : sch = .sqrt3 → inp.points.length + (inp.selected f.cells).length ≤ idMax) :
    ∃ outQ f', cellUpdateTo sch lib cast cosn f inp = (.ok outQ, f') ∧ outQ.Valid := by
  obtain ⟨out, g, h, hv⟩ : ∃ out g, cellUpdate sch.toScheme lib cosn f inp = (.ok out, g) ∧ out.Valid := by
    by_cases hs : sch = .sqrt3
    · subst hs
      obtain ⟨out, g, h, -⟩ := C11_sqrt3_completes lib cosn hn.valid hsel (hmax rfl)
      exact ⟨out, g, h, (C13_sqrt3_valid hn.valid hsel (hmax rfl) h).1⟩
    · have hs' : sch.toScheme ≠ .sqrt3 := by cases sch <;> simp_all [TwoTypeScheme.toScheme]
      obtain ⟨out, g, h, -⟩ := C01_face_split_completes hs' lib cosn hn hsel
      exact ⟨out, g, h, (C04_output_valid hs' hn hsel h).1⟩
  have h1 := (cellUpdateTo_eq h0 sch lib cosn f inp).1
  rw [h] at h1
  exact ⟨out.mapPoints cast, _, Prod.ext h1 rfl, hv.mapPoints⟩

/-- C69: Butterfly and SquareThree convert the points of the input; the edge filters do as well. -/
theorem C69_points_kept (h0 : cast 0 = 0) {sch : TwoTypeScheme} (hs : sch ≠ .loop)
    (hp : inp.points.map Prod.fst = List.range inp.points.length)
    (h : cellUpdateTo sch lib cast cosn f inp = (.ok outQ, f')) :
    ∀ v p, inp.pos v = some p → outQ.pos v = some (cast p) := by
  obtain ⟨out, g, h1, rfl⟩ := cellUpdateTo_ok h0 h
  intro v p hv
  have := C06_original_points_kept (by cases sch <;> simp_all [TwoTypeScheme.toScheme]) hp h1 v p hv
  rw [pos_mapPoints, this]; rfl

theorem C69_points_kept_edge (h0 : cast 0 = 0) {sch : EdgeScheme} (hp : inp.points.map Prod.fst = List.range inp.points.length)
    (h : edgeUpdateTo sch lib cast cosn f inp = (.ok outQ, f')) :
    ∀ v p, inp.pos v = some p → outQ.pos v = some (cast p) := by
  obtain ⟨out, g, h1, rfl⟩ := edgeUpdateTo_ok h0 h
  intro v p hv
  rw [pos_mapPoints, C06_original_points_kept_edge hp h1 v p hv]; rfl

/-- C69: a wider output type brings no precision: every position of the output is the conversion of an input position. -/
theorem C69_no_extra_digits (h0 : cast 0 = 0) {sch : TwoTypeScheme} (h : cellUpdateTo sch lib cast cosn f inp = (.ok outQ, f')) :
    ∀ v q, outQ.pos v = some q → ∃ p : P, q = cast p := by
  obtain ⟨out, g, -, rfl⟩ := cellUpdateTo_ok h0 h
  intro v q hq
  rw [pos_mapPoints] at hq
  obtain ⟨p, -, rfl⟩ := Option.map_eq_some_iff.1 hq
  exact ⟨p, rfl⟩

end

section
variable {K P Q D : Type} [Field K] [Zero P] [Add P] [SMul K P] [Zero Q] [Add Q] [SMul K Q] {cast : P → Q}

/-- C69: if the conversion is exact (it keeps sums and multiples), it makes no difference whether the mesh is converted before or
after. -/
theorem C69_convert_first (h : PosHom K cast) (sch : TwoTypeScheme) (lib : QELib) (cosn : Nat → K) (f : Filt) (inp : Mesh P D) :
    (cellUpdateTo sch lib cast cosn f inp).1 = (cellUpdate sch.toScheme lib cosn f (inp.mapPoints cast)).1 := by
  rw [(C69_cell h.zero sch lib cosn f inp).1, (C64_positions_cell h sch.toScheme lib cosn f inp).1]

theorem C69_convert_first_edge (h : PosHom K cast) (sch : EdgeScheme) (lib : QELib) (cosn : Nat → K) (f : Filt) (inp : Mesh P D) :
    (edgeUpdateTo sch lib cast cosn f inp).1 = (edgeUpdate sch lib cosn f (inp.mapPoints cast)).1 := by
  rw [C69_edge h.zero sch lib cosn f inp, C64_positions_edge h sch lib cosn f inp]

end

section
variable {P Q V D : Type} [Zero P] [Add P] [SMul ℝ P] [Zero Q] [NormedAddCommGroup V] [NormedSpace ℝ V]
variable {ε η B M δ δ₀ : ℝ} {val : P → V} {valQ : Q → V} {cast : P → Q} {d : Nat} {lib : QELib} {cosn : Nat → ℝ}
  {inp : Mesh P D} {outQ : Mesh Q D} {f f' : Filt}

theorem cast_near {p : P} {q : V} {E : ℝ} (hδ : 0 ≤ δ) (hcast : CastNear δ δ₀ val valQ cast) (h : ‖val p - q‖ ≤ E) :
    ‖valQ (cast p) - q‖ ≤ E + δ * (‖q‖ + E) + δ₀ := by
  have h1 : ‖valQ (cast p) - q‖ ≤ ‖valQ (cast p) - val p‖ + ‖val p - q‖ := norm_sub_le_norm_sub_add_norm_sub ..
  have h2 : ‖val p‖ ≤ ‖q‖ + ‖val p - q‖ := norm_le_norm_add_norm_sub' (val p) q |>.trans (by linarith)
  have h3 := hcast p
  have h4 : δ * ‖val p‖ ≤ δ * (‖q‖ + E) := mul_le_mul_of_nonneg_left (by linarith) hδ
  linarith

/-- C69 in machine arithmetic: the error of the output is the error of the run in the input type (C66), plus that of one
conversion. -/
theorem C69_rounding {sch : TwoTypeScheme} (hR : Rounded ε η B val) (hδ : 0 ≤ δ) (hcast : CastNear δ δ₀ val valQ cast)
    (h0 : cast 0 = 0) (hc : sch = .loop → ∀ n, -1 ≤ cosn n ∧ cosn n ≤ 1) (hM : 0 ≤ M)
    (hn : sch.toScheme.Needs inp) (hsel : inp.SelOK f.cells)
    (hmax : sch = .sqrt3 → inp.points.length + (inp.selected f.cells).length ≤ idMax)
    (hsb : sch = .loop → inp.SimpleBoundary) (hd : sch = .loop → ∀ v, v < inp.points.length → inp.valence v ≤ d)
    (hb : ∀ v p, inp.pos v = some p → ‖val p‖ ≤ M) (hB : sch.toScheme.InRange d ε η B M 1)
    (h : cellUpdateTo sch lib cast cosn f inp = (.ok outQ, f')) :
    ∃ outE, (cellUpdate sch.toScheme lib cosn f (inp.mapPoints val)).1 = .ok outE ∧ outE.shape = outQ.shape ∧
      ∀ v p q, outQ.pos v = some p → outE.pos v = some q →
        ‖valQ p - q‖ ≤ sch.toScheme.errorBound d ε η M 1 + δ * (‖q‖ + sch.toScheme.errorBound d ε η M 1) + δ₀ := by
  obtain ⟨out, g, h1, rfl⟩ := cellUpdateTo_ok h0 h
  obtain ⟨outE, h2, h3, h4⟩ := C66_cell hR (fun hl => hc (by cases sch <;> simp_all [TwoTypeScheme.toScheme])) hM hn hsel
    (fun hl => hmax (by cases sch <;> simp_all [TwoTypeScheme.toScheme]))
    (fun hl => hsb (by cases sch <;> simp_all [TwoTypeScheme.toScheme]))
    (fun hl => hd (by cases sch <;> simp_all [TwoTypeScheme.toScheme])) hb hB h1
  refine ⟨outE, h2, h3.trans ?_, fun v p q hp hq => ?_⟩
  · unfold Mesh.shape Mesh.mapPoints
    simp [List.map_map, Function.comp_def]
  · rw [pos_mapPoints] at hp
    obtain ⟨p', hp', rfl⟩ := Option.map_eq_some_iff.1 hp
    exact cast_near hδ hcast (h4 v p' q hp' hq)

end

section examples

/-- conversion to whole numbers, as a `static_cast` to an integer type does with positive numbers -/
def toWhole (p : Q3) : ℤ × ℤ × ℤ := (⌊p.1⌋, ⌊p.2.1⌋, ⌊p.2.2⌋)

/-- the same, read as fractions again -/
def wholeAgain (p : Q3) : Q3 := (⌊p.1⌋, ⌊p.2.1⌋, ⌊p.2.2⌋)

theorem toWhole_zero : toWhole 0 = 0 := by simp [toWhole]
theorem wholeAgain_zero : wholeAgain 0 = 0 := by simp [wholeAgain]

/-- a tetrahedron with fractional coordinates -/
def tetraHalf : Mesh Q3 Nat :=
  mk [(0, 0, 0), (3 / 2, 0, 0), (0, 3 / 2, 0), (0, 0, 3 / 2)] tetra (some [(0, 10), (1, 11), (2, 12), (3, 13)])

theorem tetraHalf_ok : tetraHalf.Valid ∧ tetraHalf.RingOK ∧ tetraHalf.NoIsolated ∧ tetraHalf.tris = tetra := mk_ok _ (by decide)

theorem tetraHalf_needs (sch : Scheme) : sch.Needs tetraHalf :=
  ⟨tetraHalf_ok.1, fun _ => tetraHalf_ok.2.1, fun _ => tetraHalf_ok.2.2.1⟩

/-- If the conversion rounds, the order matters: converting the mesh first gives other positions than a filter with two mesh
types, even for SquareThree on a tetrahedron. -/
theorem C69_order_matters : ∃ (cast : Q3 → Q3) (inp : Mesh Q3 Nat), cast 0 = 0 ∧ inp.Valid ∧
    (cellUpdateTo .sqrt3 someLib cast cos0 Filt.new inp).1 ≠ (cellUpdate .sqrt3 someLib cos0 Filt.new (inp.mapPoints cast)).1 := by
  refine ⟨wholeAgain, tetraHalf, wholeAgain_zero, tetraHalf_ok.1, fun h => ?_⟩
  have h1 : ((cellUpdateTo .sqrt3 someLib wholeAgain cos0 Filt.new tetraHalf).1.toOption.bind fun m => m.pos 7) ≠
      ((cellUpdate .sqrt3 someLib cos0 Filt.new (tetraHalf.mapPoints wholeAgain)).1.toOption.bind fun m => m.pos 7) := by
    decide +kernel
  exact h1 (by rw [h])

/-- what such a run does to the tetrahedron: the old points and the centres are rounded down -/
example : ((cellUpdateTo .sqrt3 someLib toWhole cos0 Filt.new tetraHalf).1.toOption.map fun m => m.points) =
    some [(0, (0, 0, 0)), (1, (1, 0, 0)), (2, (0, 1, 0)), (3, (0, 0, 1)), (4, (0, 0, 0)), (5, (0, 0, 0)), (6, (0, 0, 0)),
      (7, (0, 0, 0))] := by
  decide +kernel

example : ∃ outQ f', cellUpdateTo .loop someLib toWhole cos0 (usedFilt [1, 3]) tetraHalf = (.ok outQ, f') ∧ outQ.Valid :=
  C69_valid toWhole_zero someLib cos0 (sch := .loop) (tetraHalf_needs _) (f := usedFilt [1, 3])
    (by unfold Mesh.SelOK; decide) (fun h => by cases h)

example {outQ : Mesh (ℤ × ℤ × ℤ) Nat} {f' : Filt}
    (h : cellUpdateTo .butterfly someLib toWhole cos0 (usedFilt [1]) tetraHalf = (.ok outQ, f')) : outQ.pos 1 = some (1, 0, 0) := by
  have := C69_points_kept toWhole_zero (sch := .butterfly) (by decide) (by decide) h 1 (3 / 2, 0, 0) rfl
  rw [this]
  decide +kernel

/-- the edge filters: a new point in the middle of an edge, rounded down -/
example : ((edgeUpdateTo .linear someLib toWhole cos0 (Filt.new.setEdges [some (1, 2)]) tetraHalf).1.toOption.map fun m => m.points) =
    some [(0, (0, 0, 0)), (1, (1, 0, 0)), (2, (0, 1, 0)), (3, (0, 0, 1)), (4, (0, 0, 0))] := by
  decide +kernel

/-- no halves in the output -/
example {outQ : Mesh Q3 Nat} {f' : Filt} (h : cellUpdateTo .loop someLib wholeAgain cos0 (usedFilt [1]) tetraHalf = (.ok outQ, f')) :
    ∀ v q, outQ.pos v = some q → q.1 ≠ 1 / 2 := by
  intro v q hq hhalf
  obtain ⟨p, rfl⟩ := C69_no_extra_digits wholeAgain_zero (sch := .loop) h v q hq
  have h2 : ((2 * ⌊p.1⌋ : ℤ) : ℚ) = ((1 : ℤ) : ℚ) := by
    have : ((⌊p.1⌋ : ℤ) : ℚ) = 1 / 2 := hhalf
    push_cast
    rw [this]; norm_num
  have h3 : (2 * ⌊p.1⌋ : ℤ) = 1 := Int.cast_injective h2
  omega

/-- conversions that are exact: doubling -/
example (lib : QELib) : (cellUpdateTo .loop lib (fun p : Q3 => p + p) cos0 (usedFilt [2]) patchMesh).1 =
    (cellUpdate .loop lib cos0 (usedFilt [2]) (patchMesh.mapPoints fun p => p + p)).1 :=
  C69_convert_first ⟨by simp, fun a b => add_add_add_comm .., fun k a => (smul_add ..).symm⟩ .loop lib cos0 _ _

/-- machine numbers of 53 digits written to a mesh with exact coordinates: the conversion is exact, and the error is that of C66 -/
example (outQ : Mesh (Fin 3 → ℝ) Nat) (f' : Filt)
    (h : cellUpdateTo .sqrt3 someLib m3val realCos (usedFilt []) patchM = (.ok outQ, f')) :
    ∃ outE, (cellUpdate .sqrt3 someLib realCos (usedFilt []) (patchM.mapPoints m3val)).1 = .ok outE ∧ outE.shape = outQ.shape ∧
    ∀ v p q, outQ.pos v = some p → outE.pos v = some q → ‖p - q‖ ≤ Scheme.sqrt3.errorBound 0
      (2 * (1 / 2) ^ 53 + ((1 / 2) ^ 53) ^ 2) 0 4 1 := by
  obtain ⟨oE, h2, h3, h4⟩ := C69_rounding (sch := .sqrt3) (f := usedFilt []) (valQ := id) (δ := 0) (δ₀ := 0) (d := 0) (M := 4)
    m3_rounded (le_refl _) (fun p => by simp) m3_rounded.zero (fun h => by cases h) (by norm_num) (patchM_needs _) (selOK_nil _)
    (fun _ => by
      have : patchM.selected [] = patch := by rw [← patchM_ok.2.2.2]; rfl
      change patchM.points.length + (patchM.selected []).length ≤ idMax
      rw [this]; exact (by decide : 6 + patch.length ≤ idMax)) (fun h => by cases h) (fun h => by cases h) patchM_size (by
      unfold Scheme.InRange
      refine le_trans (mul_le_mul_of_nonneg_right (powers_le _) ?_) ?_ <;>
        norm_num [TwoTypeScheme.toScheme, Scheme.sizeAfter, Scheme.tinyAfter, Scheme.growth, Scheme.multiples, Scheme.widest,
          Scheme.roundings]) h
  exact ⟨oE, h2, h3, fun v p q hp hq => (h4 v p q hp hq).trans (by simp [TwoTypeScheme.toScheme])⟩

end examples
end Verif
