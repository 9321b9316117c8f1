import Verif.Properties.Mirror
import Verif.Properties.CondPieces
import Verif.Properties.CondKeeps
import Verif.Properties.CondSqrt3
import Verif.Proofs.CondMirror

/-! C63 for the conditional filter: symmetric surfaces stay symmetric under adaptive subdivision. -/

namespace Verif
set_option linter.unusedSectionVars false

section
variable {K P D : Type} [Field K] [CharZero K] [LinearOrder K] [IsStrictOrderedRing K] [AddCommGroup P] [Module K P]
variable {lib : QELib} {ρ : PId → PId} {m : Mesh P D}

/-- C63, the conditional filter with the area criterion: if an affine map takes the surface to itself and keeps areas, then
what the filter returns is taken to itself as well, and the corners of the input are permuted as before.  SquareThree always;
Linear and Butterfly if the map takes the first corners of the cells to first corners, see `C58_first_corner_refuted`.
(Butterfly: closed meshes.) -/
theorem C63_symmetric_conditional_partial {sch : Scheme} (hs : sch ≠ .loop) (hl : sch = .butterfly → lib.Lawful)
    (cosn : Nat → K) {area : P → P → P → K} (hr : ∀ p q r, area q r p = area p q r) (A : K) (hn : sch.Needs m)
    (hc : sch = .butterfly → m.Closed) (n : Nat) (hmax : sch = .sqrt3 → m.points.length + 4 ^ n * m.cells.length ≤ idMax)
    (φ : P →ᵃ[K] P) (hA : ∀ p q r, area (φ p) (φ q) (φ r) = area p q r) (R : m.SymmetricBy φ ρ)
    (hst : sch = .sqrt3 ∨ SameStarts ρ (m.mapPoints φ) m) (c : Cond Filt CId) {out : Mesh P D} {d : Cond Filt CId}
    (h : condGenerate lib (condCellUpd sch lib cosn) (some (areaCompute area A)) n c m = some (.ok out, d)) :
    ∃ ρ', out.SymmetricBy φ ρ' ∧ ∀ v, v < m.points.length → ρ' v = ρ v := by
  have hl2 : sch = .loop ∨ sch = .butterfly → lib.Lawful := fun h => hl (h.resolve_left hs)
  have h1 := C19_affine_conditional_partial hl2 cosn hn (fun h => absurd h hs) hmax φ (area := area) (area' := area) (A := A)
    (A' := A) (fun p q r => by rw [hA]) c
  have hmax' : sch = .sqrt3 → (m.mapPoints φ).points.length + 4 ^ n * (m.mapPoints φ).cells.length ≤ idMax := fun e => by
    rw [mapPoints_length]; exact hmax e
  have hv' : (m.mapPoints φ).Valid := hn.mapPoints.valid
  rcases C58_listing_conditional_partial (lib := lib) (lib' := lib) hs hl hl cosn hr A R hv' hn.valid hc n hmax' hmax hst c c with
    ⟨o1, d1, o2, d2, ρ', k1, k2, k3, k4⟩ | ⟨-, k2⟩
  · rw [h] at k2
    cases k2
    rw [k1, h] at h1
    have e1 : o1 = out.mapPoints φ := by simpa [Except.map] using h1
    subst e1
    exact ⟨ρ', k4, fun v hv => k3 v (by rw [mapPoints_length]; exact hv)⟩
  · rw [h] at k2; cases k2

/-- C63, the conditional filter with the length criterion: the affine map takes the surface to itself and keeps lengths. -/
theorem C63_symmetric_conditional_edge_partial {sch : EdgeScheme} (hl : sch = .loop ∨ sch = .butterfly → lib.Lawful)
    (cosn : Nat → K) {len : P → P → K} (hr : ∀ p q, len q p = len p q) (L : K) (hn : sch.toScheme.Needs m)
    (hc : sch = .butterfly → m.Closed) (n : Nat) (φ : P →ᵃ[K] P) (hL : ∀ p q, len (φ p) (φ q) = len p q)
    (R : m.SymmetricBy φ ρ) (hst : SameStarts ρ (m.mapPoints φ) m) (c : Cond Filt (Option Edge)) {out : Mesh P D}
    {d : Cond Filt (Option Edge)}
    (h : condGenerate lib (condEdgeUpd sch lib cosn) (some (lengthCompute len L)) n c m = some (.ok out, d)) :
    ∃ ρ', out.SymmetricBy φ ρ' ∧ ∀ v, v < m.points.length → ρ' v = ρ v := by
  have h1 := C19_affine_conditional_edge hl cosn hn n φ (len := len) (len' := len) (L := L) (L' := L) (fun p q => by rw [hL]) c
  have hn' : sch.toScheme.Needs (m.mapPoints φ) := hn.mapPoints
  rcases C58_listing_conditional_edge_partial (lib := lib) (lib' := lib) hl hl cosn hr L R hn'.valid hn.valid hc n
    (fun e => hn'.noIsolated (toScheme_loop.2 e)) (fun e => hn.noIsolated (toScheme_loop.2 e)) hst c c with
    ⟨o1, d1, o2, d2, ρ', k1, k2, k3, k4⟩ | ⟨-, k2⟩
  · rw [h] at k2
    cases k2
    rw [k1, h] at h1
    have e1 : o1 = out.mapPoints φ := by simpa [Except.map] using h1
    subst e1
    exact ⟨ρ', k4, fun v hv => k3 v (by rw [mapPoints_length]; exact hv)⟩
  · rw [h] at k2; cases k2

variable {lib' : QELib} {m' : Mesh P D}

/-- C63, the conditional SquareThree filter with the area criterion: a surface and its other side are refined to the two sides
of one surface, after the same number of iterations.  (`area` is any function that does not depend on the order of the
corners.) -/
theorem C63_other_side_conditional_sqrt3 (cosn : Nat → K) {area : P → P → P → K} (hr : ∀ p q r, area q r p = area p q r)
    (hf : ∀ p q r, area r q p = area p q r) (A : K) (R : OtherSide ρ m m') (hv : m.Valid) (hv' : m'.Valid) (n : Nat)
    (hmax : m.points.length + 4 ^ n * m.cells.length ≤ idMax) (hmax' : m'.points.length + 4 ^ n * m'.cells.length ≤ idMax)
    (c c' : Cond Filt CId) :
    (∃ out d out' d' ρ',
      condGenerate lib (condCellUpd .sqrt3 lib cosn) (some (areaCompute area A)) n c m = some (.ok out, d) ∧
      condGenerate lib' (condCellUpd .sqrt3 lib' cosn) (some (areaCompute area A)) n c' m' = some (.ok out', d') ∧
      (∀ v, v < m.points.length → ρ' v = ρ v) ∧ OtherSide ρ' out out') ∨
    (condGenerate lib (condCellUpd .sqrt3 lib cosn) (some (areaCompute area A)) n c m = none ∧
      condGenerate lib' (condCellUpd .sqrt3 lib' cosn) (some (areaCompute area A)) n c' m' = none) := by
  obtain ⟨l, A₁, g₁⟩ := areaPiece_start (cosn := cosn) (lib := lib) (lib' := lib) (sch := .sqrt3) (by decide)
    (fun h => nomatch h) (PieceOf.self m) hv hv (fun h => nomatch h) (fun _ => hmax) (Or.inl rfl) c (area := area) (A := A)
  obtain ⟨l', A₀, g₀⟩ := areaPiece_start (cosn := cosn) (lib := lib') (lib' := lib') (sch := .sqrt3) (by decide)
    (fun h => nomatch h) (PieceOf.self m') hv' hv' (fun h => nomatch h) (fun _ => hmax') (Or.inl rfl) c' (area := area) (A := A)
  rw [g₁, g₀]
  have key := condLoop_other (lib := lib) (lib' := lib') (cosn := cosn) hr hf n c.inner c'.inner (copyGeometry_other hv hv' R)
    A₁.toAreaRound A₀.toAreaRound
  rw [copyGeometry_points lib hv] at key
  exact key

/-- C63, mirror symmetric surfaces and the conditional SquareThree filter. -/
theorem C63_mirrored_conditional_sqrt3 (cosn : Nat → K) {area : P → P → P → K} (hr : ∀ p q r, area q r p = area p q r)
    (hf : ∀ p q r, area r q p = area p q r) (A : K) (hv : m.Valid) (n : Nat)
    (hmax : m.points.length + 4 ^ n * m.cells.length ≤ idMax) (φ : P →ᵃ[K] P)
    (hA : ∀ p q r, area (φ p) (φ q) (φ r) = area p q r) (R : m.MirroredBy φ ρ) (c : Cond Filt CId) {out : Mesh P D}
    {d : Cond Filt CId}
    (h : condGenerate lib (condCellUpd .sqrt3 lib cosn) (some (areaCompute area A)) n c m = some (.ok out, d)) :
    ∃ ρ', out.MirroredBy φ ρ' ∧ ∀ v, v < m.points.length → ρ' v = ρ v := by
  have hn : Scheme.sqrt3.Needs m := ⟨hv, by simp, by simp⟩
  have h1 := C19_affine_conditional_partial (lib := lib) (sch := .sqrt3) (fun h => by cases h <;> contradiction) cosn hn
    (fun h => nomatch h) (fun _ => hmax) φ (area := area) (area' := area) (A := A) (A' := A) (fun p q r => by rw [hA]) c
  have hv' : (m.mapPoints φ).Valid := hn.mapPoints.valid
  rcases C63_other_side_conditional_sqrt3 (lib := lib) (lib' := lib) cosn hr hf A R hv' hv n
    (by rw [mapPoints_length]; exact hmax) hmax c c with ⟨o1, d1, o2, d2, ρ', k1, k2, k3, k4⟩ | ⟨-, k2⟩
  · rw [h] at k2
    cases k2
    rw [k1, h] at h1
    have e1 : o1 = out.mapPoints φ := by simpa [Except.map] using h1
    subst e1
    exact ⟨ρ', k4, fun v hv => k3 v (by rw [mapPoints_length]; exact hv)⟩
  · rw [h] at k2; cases k2

end

section
variable {E D : Type} [NormedAddCommGroup E] [InnerProductSpace ℝ E] {lib : QELib} {ρ : PId → PId} {m : Mesh E D}

theorem heronArea_isometry {φ : E → E} (hφ : ∀ p q, dist (φ p) (φ q) = dist p q) (p q r : E) :
    heronArea (φ p) (φ q) (φ r) = heronArea p q r := by
  unfold heronArea
  simp only [hφ]

/-- C63, Linear and a positive maximum area: the filter returns, and what it returns has the symmetry of the input. -/
theorem C63_symmetric_linear (cosn : Nat → ℝ) {A : ℝ} (hA : 0 < A) (hv : m.Valid) (φ : E →ᵃ[ℝ] E)
    (hφ : ∀ p q, dist (φ p) (φ q) = dist p q) (R : m.SymmetricBy φ ρ) (hst : SameStarts ρ (m.mapPoints φ) m)
    (c : Cond Filt CId) :
    ∃ n out d ρ', (∀ k, n ≤ k →
      condGenerate lib (condCellUpd .linear lib cosn) (some (areaCompute heronArea A)) k c m = some (.ok out, d)) ∧
      out.SymmetricBy φ ρ' ∧ ∀ v, v < m.points.length → ρ' v = ρ v := by
  obtain ⟨n, out, d, h⟩ := C32_area_returns hv hA lib cosn c
  obtain ⟨ρ', h1, h2⟩ := C63_symmetric_conditional_partial (sch := .linear) (by decide) (fun e => nomatch e) cosn
    (area := heronArea) (fun p q r => by rw [heronArea_eq, heronArea_eq, triArea_rotate]) A ⟨hv, by simp, by simp⟩
    (fun e => nomatch e) n (fun e => nomatch e) φ (heronArea_isometry hφ) R (Or.inr hst) c (h n (Nat.le_refl n))
  exact ⟨n, out, d, ρ', h, h1, h2⟩

/-- the same with a positive maximum length -/
theorem C63_symmetric_linear_edge (cosn : Nat → ℝ) {L : ℝ} (hL : 0 < L) (hv : m.Valid) (φ : E →ᵃ[ℝ] E)
    (hφ : ∀ p q, dist (φ p) (φ q) = dist p q) (R : m.SymmetricBy φ ρ) (hst : SameStarts ρ (m.mapPoints φ) m)
    (c : Cond Filt (Option Edge)) :
    ∃ n out d ρ', (∀ k, n ≤ k →
      condGenerate lib (condEdgeUpd .linear lib cosn) (some (lengthCompute dist L)) k c m = some (.ok out, d)) ∧
      out.SymmetricBy φ ρ' ∧ ∀ v, v < m.points.length → ρ' v = ρ v := by
  obtain ⟨n, out, d, h⟩ := C33_length_returns hv hL lib cosn c
  obtain ⟨ρ', h1, h2⟩ := C63_symmetric_conditional_edge_partial (sch := .linear) (fun e => by cases e <;> contradiction) cosn
    (len := dist) (fun p q => dist_comm q p) L ⟨hv, by simp [EdgeScheme.toScheme], by simp [EdgeScheme.toScheme]⟩
    (fun e => nomatch e) n φ hφ R hst c (h n (Nat.le_refl n))
  exact ⟨n, out, d, ρ', h, h1, h2⟩

/-- C63, SquareThree and a positive maximum area: if the ids suffice, the filter returns, and what it returns has all symmetries
of the input, rotations and reflections. -/
theorem C63_symmetric_sqrt3 {A : ℝ} (hA : 0 < A) (hv : m.Valid) : ∃ n : Nat,
    m.points.length + 4 ^ n * m.cells.length ≤ idMax → ∀ (lib : QELib) (cosn : Nat → ℝ) (c : Cond Filt CId), ∃ out d,
      (∀ k, n ≤ k →
        condGenerate lib (condCellUpd .sqrt3 lib cosn) (some (areaCompute heronArea A)) k c m = some (.ok out, d)) ∧
      ∀ (φ : E →ᵃ[ℝ] E) (ρ : PId → PId), (∀ p q, dist (φ p) (φ q) = dist p q) →
        (m.SymmetricBy φ ρ → ∃ ρ', out.SymmetricBy φ ρ' ∧ ∀ v, v < m.points.length → ρ' v = ρ v) ∧
        (m.MirroredBy φ ρ → ∃ ρ', out.MirroredBy φ ρ' ∧ ∀ v, v < m.points.length → ρ' v = ρ v) := by
  obtain ⟨n, hn⟩ := C70_sqrt3_area_returns hv hA
  refine ⟨n, fun hmax lib cosn c => ?_⟩
  obtain ⟨out, d, h⟩ := hn hmax lib cosn c
  have hr : ∀ p q r : E, heronArea q r p = heronArea p q r := fun p q r => by rw [heronArea_eq, heronArea_eq, triArea_rotate]
  have hf : ∀ p q r : E, heronArea r q p = heronArea p q r := fun p q r => by
    rw [heronArea_eq, heronArea_eq, ← triArea_rotate r q p, ← triArea_rotate q p r]
    unfold triArea
    rw [real_inner_comm, mul_comm (‖r - p‖ ^ 2)]
  refine ⟨out, d, h, fun φ ρ hφ => ⟨fun R => ?_, fun R => ?_⟩⟩
  · exact C63_symmetric_conditional_partial (sch := .sqrt3) (by decide) (fun e => nomatch e) cosn hr A ⟨hv, by simp, by simp⟩
      (fun e => nomatch e) n (fun _ => hmax) φ (heronArea_isometry hφ) R (Or.inl rfl) c (h n (Nat.le_refl n))
  · exact C63_mirrored_conditional_sqrt3 cosn hr hf A hv n hmax φ (heronArea_isometry hφ) R c (h n (Nat.le_refl n))

end

/-- the size of the box around the edges: does not depend on the order of the corners -/
def span3 (p q r : Q3) : ℚ :=
  (|p.1 - q.1| + |q.1 - r.1| + |r.1 - p.1|) + (|p.2.1 - q.2.1| + |q.2.1 - r.2.1| + |r.2.1 - p.2.1|) +
    (|p.2.2 - q.2.2| + |q.2.2 - r.2.2| + |r.2.2 - p.2.2|)

theorem span3_turn (p q r : Q3) : span3 q r p = span3 p q r := by
  unfold span3; ring

theorem span3_flip (p q r : Q3) : span3 r q p = span3 p q r := by
  unfold span3
  rw [abs_sub_comm r.1 q.1, abs_sub_comm q.1 p.1, abs_sub_comm p.1 r.1, abs_sub_comm r.2.1 q.2.1, abs_sub_comm q.2.1 p.2.1,
    abs_sub_comm p.2.1 r.2.1, abs_sub_comm r.2.2 q.2.2, abs_sub_comm q.2.2 p.2.2, abs_sub_comm p.2.2 r.2.2]
  ring

/-- SquareThree on the tetrahedron and on its other side, two iterations, any bound -/
example (A : ℚ) (c c' : Cond Filt CId) := C63_other_side_conditional_sqrt3 (lib := someLib) (lib' := someLib) cos0 span3_turn
  span3_flip A tetraBack_other tetraMesh_ok.1 tetraBack_ok.1 2 (by decide) (by decide) c c'

/-- and its symmetries -/
example (A : ℚ) (c d : Cond Filt CId) (out : Mesh Q3 Nat)
    (h : condGenerate someLib (condCellUpd .sqrt3 someLib cos0) (some (areaCompute span3 A)) 2 c tetraMesh = some (.ok out, d)) :
    (∃ ρ', out.SymmetricBy turnAxes ρ' ∧ ∀ v, v < tetraMesh.points.length → ρ' v = turn123 v) ∧
    ∃ ρ', out.MirroredBy swapAxes ρ' ∧ ∀ v, v < tetraMesh.points.length → ρ' v = swap12 v :=
  ⟨C63_symmetric_conditional_partial (sch := .sqrt3) (by decide) (fun e => nomatch e) cos0 span3_turn A (tetraMesh_needs _)
    (fun e => nomatch e) 2 (fun _ => by decide) turnAxes (fun p q r => by
      simp only [span3, turnAxes, LinearMap.toAffineMap, AffineMap.coe_mk, LinearMap.coe_mk, AddHom.coe_mk]; ring)
    tetraMesh_turn (Or.inl rfl) c h,
  C63_mirrored_conditional_sqrt3 cos0 span3_turn span3_flip A tetraMesh_ok.1 2 (by decide) swapAxes (fun p q r => by
      simp only [span3, swapAxes, LinearMap.toAffineMap, AffineMap.coe_mk, LinearMap.coe_mk, AddHom.coe_mk]; ring)
    tetraMesh_mirror c h⟩

/-- the second iteration finds nothing to do: the premise can be met -/
example : (condGenerate someLib (condCellUpd .sqrt3 someLib cos0) (some (areaCompute span3 20)) 2 ⟨Filt.new, []⟩ tetraMesh).isSome := by
  decide +kernel

/-- a parallelogram of two small triangles with a large triangle on each of two opposite sides -/
noncomputable def millP : Mesh R2 Nat :=
  mk [!₂[0, 0], !₂[6, 0], !₂[8, 5], !₂[2, 5], !₂[3, -20], !₂[5, 25]] [(0, 1, 2), (2, 3, 0), (1, 0, 4), (3, 2, 5)] none

theorem millP_ok : millP.Valid ∧ millP.RingOK ∧ millP.NoIsolated ∧ millP.tris = [(0, 1, 2), (2, 3, 0), (1, 0, 4), (3, 2, 5)] :=
  mk_ok _ (by decide)

/-- the half turn about its centre -/
noncomputable def halfTurn : R2 →ᵃ[ℝ] R2 := AffineMap.const ℝ R2 !₂[8, 5] - AffineMap.id ℝ R2

theorem halfTurn_apply (p : R2) : halfTurn p = !₂[8, 5] - p := rfl

def turnMill (v : PId) : PId :=
  if v = 0 then 2 else if v = 2 then 0 else if v = 1 then 3 else if v = 3 then 1 else if v = 4 then 5 else if v = 5 then 4 else v

theorem millP_turn : millP.SymmetricBy halfTurn turnMill := by
  refine sameSurface_of millP_ok.2.2.2 millP_ok.2.2.2 ?_ ?_ ?_ ?_
  · unfold HasTri; decide
  · unfold Tri.Is; decide
  · decide
  · intro t ht v hv
    have : v = 0 ∨ v = 1 ∨ v = 2 ∨ v = 3 ∨ v = 4 ∨ v = 5 :=
      (by decide : ∀ t ∈ ([(0, 1, 2), (2, 3, 0), (1, 0, 4), (3, 2, 5)] : List Tri), ∀ v ∈ Tri.verts t,
        v = 0 ∨ v = 1 ∨ v = 2 ∨ v = 3 ∨ v = 4 ∨ v = 5) t ht v hv
    have key : ∀ p q : R2, p 0 + q 0 = 8 → p 1 + q 1 = 5 → some p = some (halfTurn q) := fun p q h0 h1 => by
      rw [halfTurn_apply]
      congr 1
      ext i
      fin_cases i
      · simp; linarith
      · simp; linarith
    rcases this with rfl | rfl | rfl | rfl | rfl | rfl <;> refine key _ _ ?_ ?_ <;> simp <;> norm_num

theorem millP_starts : SameStarts turnMill (millP.mapPoints halfTurn) millP := by
  unfold SameStarts
  rw [mapPoints_tris, millP_ok.2.2.2]
  decide

theorem halfTurn_dist (p q : R2) : dist (halfTurn p) (halfTurn q) = dist p q := by
  rw [halfTurn_apply, halfTurn_apply, dist_sub_left]

example (c : Cond Filt CId) := C63_symmetric_linear (lib := someLib) realCos (show (0 : ℝ) < 1 / 100 by norm_num) millP_ok.1
  halfTurn halfTurn_dist millP_turn millP_starts c

example (c : Cond Filt (Option Edge)) := C63_symmetric_linear_edge (lib := someLib) realCos (show (0 : ℝ) < 1 / 10 by norm_num)
  millP_ok.1 halfTurn halfTurn_dist millP_turn millP_starts c

end Verif
