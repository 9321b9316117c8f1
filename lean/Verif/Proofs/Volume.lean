import Verif.Spec.Volume
import Verif.Proofs.Geometry
/-
Additive quantities of triangles: they add up over the children of a triangle that is split at midpoints.
-/
namespace Verif
set_option linter.unusedSectionVars false
set_option linter.unusedSimpArgs false
variable {E D M : Type} [NormedAddCommGroup E] [InnerProductSpace ℝ E]

namespace Additive
variable [AddCommMonoid M] {F : E → E → E → M} {p q r m0 m1 m2 : E}

/-- cut at the midpoint of the first side -/
theorem cut0 (hF : Additive F) (h0 : m0 = (1 / 2 : ℝ) • p + (1 / 2 : ℝ) • q) : F p q r = F m0 q r + F m0 r p := by
  rw [hF.halve p q r m0 h0, hF.turn p m0 r, add_comm]

/-- cut at the midpoints of the first two sides -/
theorem cut01 (hF : Additive F) (h0 : m0 = (1 / 2 : ℝ) • p + (1 / 2 : ℝ) • q) (h1 : m1 = (1 / 2 : ℝ) • q + (1 / 2 : ℝ) • r) :
    F p q r = F r p m0 + F r m0 m1 + F m0 q m1 := by
  rw [hF.halve p q r m0 h0, ← hF.turn r p m0, hF.turn m0 q r, hF.halve q r m0 m1 h1, ← hF.turn m0 q m1, hF.turn m1 r m0,
    add_comm (F m0 q m1), add_assoc]

/-- cut at the midpoints of the first and the last side -/
theorem cut02 (hF : Additive F) (h0 : m0 = (1 / 2 : ℝ) • p + (1 / 2 : ℝ) • q) (h2 : m2 = (1 / 2 : ℝ) • r + (1 / 2 : ℝ) • p) :
    F p q r = F q r m0 + F r m2 m0 + F m2 p m0 := by
  rw [hF.halve p q r m0 h0, hF.turn m0 q r, ← hF.turn r p m0, hF.halve r p m0 m2 h2, add_comm, add_assoc]

/-- cut at the midpoints of all sides -/
theorem cut012 (hF : Additive F) (h0 : m0 = (1 / 2 : ℝ) • p + (1 / 2 : ℝ) • q) (h1 : m1 = (1 / 2 : ℝ) • q + (1 / 2 : ℝ) • r)
    (h2 : m2 = (1 / 2 : ℝ) • r + (1 / 2 : ℝ) • p) :
    F p q r = F p m0 m2 + F m0 q m1 + F m1 r m2 + F m0 m1 m2 := by
  have hx : (1 / 2 : ℝ) • m2 + (1 / 2 : ℝ) • m1 = (1 / 2 : ℝ) • r + (1 / 2 : ℝ) • m0 := by
    subst h0 h1 h2; module
  generalize hxx : (1 / 2 : ℝ) • r + (1 / 2 : ℝ) • m0 = x at hx
  have e1 := hF.halve r m0 m1 x hxx.symm
  have e2 := hF.halve m0 r m2 x (by rw [← hxx, add_comm])
  have e3 := hF.halve m2 m1 r x hx.symm
  have e4 := hF.halve m1 m2 m0 x (by rw [← hx, add_comm])
  rw [hF.cut01 h0 h1, hF.halve r p m0 m2 h2, hF.turn r m2 m0, hF.turn m2 m0 r, hF.turn m2 p m0, hF.turn m0 m1 m2,
    ← hF.turn m2 m1 r, e1, e2, e3, e4, hF.turn m0 x m2, ← hF.turn m2 x r, ← hF.turn r x m1, ← hF.turn m1 x m0]
  abel

end Additive

variable [AddCommMonoid M] {F : E → E → E → M}

theorem children_sum (hF : Additive F) {μ : Edge → Option PId} {t : Tri} {g : PId → E} (h : AtMid μ g t) :
    ((t.children μ).map fun d => F (g d.1) (g d.2.1) (g d.2.2)).sum = F (g t.1) (g t.2.1) (g t.2.2) := by
  obtain ⟨a, b, c⟩ := t
  have h0 := h (a, b) (by simp [Tri.darts])
  have h1 := h (b, c) (by simp [Tri.darts])
  have h2 := h (c, a) (by simp [Tri.darts])
  simp only [Tri.children]
  cases hm0 : μ (a, b) <;> cases hm1 : μ (b, c) <;> cases hm2 : μ (c, a) <;>
    simp only [hm0, hm1, hm2, List.map_cons, List.map_nil, List.sum_cons, List.sum_nil, add_zero]
  · rw [← hF.turn (g c) (g a) (g b), hF.cut0 (h2 _ hm2)]
  · rw [hF.turn (g a) (g b) (g c), hF.cut0 (h1 _ hm1)]
  · rw [hF.turn (g a) (g b) (g c), hF.cut01 (h1 _ hm1) (h2 _ hm2), add_assoc]
  · rw [hF.cut0 (h0 _ hm0)]
  · rw [hF.cut02 (h0 _ hm0) (h2 _ hm2), add_assoc]
  · rw [hF.cut01 (h0 _ hm0) (h1 _ hm1), add_assoc]
  · rw [hF.cut012 (h0 _ hm0) (h1 _ hm1) (h2 _ hm2), add_assoc, add_assoc]

/-- the area is additive -/
theorem additive_area : Additive (triArea : E → E → E → ℝ) := by
  have turn : ∀ p q r : E, triArea p q r = triArea q r p := by
    intro p q r
    unfold triArea
    congr 2
    have : r - p = (r - q) + (q - p) := by abel
    have e : p - q = -(q - p) := by abel
    rw [this, e, norm_neg, inner_neg_right, inner_add_right, @norm_add_sq_real, real_inner_self_eq_norm_sq,
      real_inner_comm]
    ring
  refine ⟨turn, ?_⟩
  intro p q r m hm
  have h : AtMid (E := E) (fun e => if e = (0, 1) then some 3 else none)
      (fun v => if v = 0 then p else if v = 1 then q else if v = 2 then r else m) (0, 1, 2) := by
    intro e he k hk
    dsimp only at hk
    split at hk
    · next h => subst h; simpa [← Option.some.inj hk] using hm
    · cases hk
  have := children_area_sum h
  simp [Tri.children] at this
  rw [← this, add_comm, turn p m r]

section forms
variable {V : Type} [AddCommGroup V] [Module ℝ V]

theorem form3_turn (ω : E [⋀^Fin 3]→ₗ[ℝ] V) (x y z : E) : ω ![x, y, z] = ω ![y, z, x] := by
  have h1 := ω.map_swap ![x, y, z] (show (0 : Fin 3) ≠ 1 by decide)
  have h2 := ω.map_swap ![y, x, z] (show (1 : Fin 3) ≠ 2 by decide)
  have e1 : ![x, y, z] ∘ Equiv.swap (0 : Fin 3) 1 = ![y, x, z] := by ext i; fin_cases i <;> rfl
  have e2 : ![y, x, z] ∘ Equiv.swap (1 : Fin 3) 2 = ![y, z, x] := by ext i; fin_cases i <;> rfl
  rw [e1] at h1
  rw [e2] at h2
  rw [h2, h1, neg_neg]

theorem form3_swap (ω : E [⋀^Fin 3]→ₗ[ℝ] V) (x y z : E) : ω ![x, y, z] = -ω ![x, z, y] := by
  have h2 := ω.map_swap ![x, y, z] (show (1 : Fin 3) ≠ 2 by decide)
  have e2 : ![x, y, z] ∘ Equiv.swap (1 : Fin 3) 2 = ![x, z, y] := by ext i; fin_cases i <;> rfl
  rw [e2] at h2
  rw [h2, neg_neg]

theorem form3_same (ω : E [⋀^Fin 3]→ₗ[ℝ] V) (x z : E) : ω ![x, x, z] = 0 :=
  ω.map_eq_zero_of_eq _ (i := 0) (j := 1) rfl (by decide)

theorem form3_add (ω : E [⋀^Fin 3]→ₗ[ℝ] V) (x x' y z : E) : ω ![x + x', y, z] = ω ![x, y, z] + ω ![x', y, z] :=
  ω.map_vecCons_add _ _ _

theorem form3_smul (ω : E [⋀^Fin 3]→ₗ[ℝ] V) (c : ℝ) (x y z : E) : ω ![c • x, y, z] = c • ω ![x, y, z] :=
  ω.map_vecCons_smul _ _ _

theorem form2_swap (ω : E [⋀^Fin 2]→ₗ[ℝ] V) (x y : E) : ω ![x, y] = -ω ![y, x] := by
  have h2 := ω.map_swap ![x, y] (show (0 : Fin 2) ≠ 1 by decide)
  have e2 : ![x, y] ∘ Equiv.swap (0 : Fin 2) 1 = ![y, x] := by ext i; fin_cases i <;> rfl
  rw [e2] at h2
  rw [h2, neg_neg]

theorem form2_same (ω : E [⋀^Fin 2]→ₗ[ℝ] V) (x : E) : ω ![x, x] = 0 :=
  ω.map_eq_zero_of_eq _ (i := 0) (j := 1) rfl (by decide)

theorem form2_add (ω : E [⋀^Fin 2]→ₗ[ℝ] V) (x x' y : E) : ω ![x + x', y] = ω ![x, y] + ω ![x', y] :=
  ω.map_vecCons_add _ _ _

theorem form2_smul (ω : E [⋀^Fin 2]→ₗ[ℝ] V) (c : ℝ) (x y : E) : ω ![c • x, y] = c • ω ![x, y] :=
  ω.map_vecCons_smul _ _ _

/-- the volume below a triangle is additive, for every volume form and apex -/
theorem additive_coneVolume (ω : E [⋀^Fin 3]→ₗ[ℝ] ℝ) (o : E) : Additive (coneVolume ω o) := by
  refine ⟨fun p q r => by unfold coneVolume; rw [form3_turn], ?_⟩
  intro p q r m hm
  have hmo : m - o = (1 / 2 : ℝ) • (p - o) + (1 / 2 : ℝ) • (q - o) := by rw [hm]; module
  unfold coneVolume
  rw [hmo, form3_turn ω (p - o) (_ + _), form3_add, form3_add, form3_smul, form3_smul, form3_smul, form3_smul,
    ← form3_turn ω (p - o) (p - o), ← form3_turn ω (p - o) (q - o), form3_same, form3_same]
  simp only [smul_eq_mul]
  ring

/-- the vector area is additive -/
theorem additive_vectorArea (ω : E [⋀^Fin 2]→ₗ[ℝ] V) : Additive (vectorArea ω) := by
  constructor
  · intro p q r
    unfold vectorArea
    have e1 : r - q = (r - p) + (-1 : ℝ) • (q - p) := by module
    have e2 : p - q = (-1 : ℝ) • (q - p) := by module
    rw [e1, e2, form2_swap ω _ ((-1 : ℝ) • (q - p)), form2_smul, form2_swap ω (q - p) (_ + _), form2_add, form2_smul,
      form2_same, form2_swap ω (r - p)]
    module
  · intro p q r m hm
    unfold vectorArea
    have e1 : m - p = (1 / 2 : ℝ) • (q - p) := by rw [hm]; module
    have e2 : q - m = (1 / 2 : ℝ) • (q - p) := by rw [hm]; module
    have e3 : r - m = (r - p) + (-1 / 2 : ℝ) • (q - p) := by rw [hm]; module
    rw [e1, e2, e3, form2_smul, form2_smul, form2_swap ω (q - p) (_ + _), form2_add, form2_smul, form2_same,
      form2_swap ω (r - p)]
    module

/-- on a closed surface a quantity of directed edges that changes sign with the direction has sum zero -/
theorem Mesh.Closed.sum_darts {m : Mesh E D} (hv : m.Valid) (hc : m.Closed) {g : Edge → V} (hg : ∀ e, g e.sym = -g e) :
    ((dartsOf m.tris).map g).sum = 0 := by
  have hin : ∀ e, e ∈ dartsOf m.tris → e.sym ∈ dartsOf m.tris := fun e he => by
    by_contra h
    exact hc e ⟨he, h⟩
  have hperm : ((dartsOf m.tris).map Edge.sym).Perm (dartsOf m.tris) := by
    refine (List.perm_ext_iff_of_nodup ?_ hv.good.oriented).2 fun e => ?_
    · exact hv.good.oriented.map (fun a b h => by
        have := congrArg Edge.sym h
        simpa [Edge.sym] using this)
    · constructor
      · intro h
        obtain ⟨e', he', rfl⟩ := List.mem_map.1 h
        exact hin e' he'
      · intro h
        exact List.mem_map.2 ⟨e.sym, hin e h, rfl⟩
  have h1 := (hperm.map g).sum_eq
  rw [List.map_map] at h1
  have h2 : ((dartsOf m.tris).map (g ∘ Edge.sym)).sum = -((dartsOf m.tris).map g).sum := by
    induction dartsOf m.tris with
    | nil => simp
    | cons e l ih =>
      simp only [List.map_cons, List.sum_cons, ih, Function.comp, hg e, neg_add]
  rw [h2] at h1
  generalize ((dartsOf m.tris).map g).sum = S at h1
  have h3 : S = (1 / 2 : ℝ) • (S + S) := by module
  rw [h3]
  nth_rw 1 [← h1]
  simp

/-- The volume that a closed mesh encloses does not depend on the point from which it is measured. -/
theorem Mesh.Closed.volume_apex {m : Mesh E D} (hv : m.Valid) (hc : m.Closed) (ω : E [⋀^Fin 3]→ₗ[ℝ] ℝ) (o o' : E) :
    m.volume ω o = m.volume ω o' := by
  let g : Edge → ℝ := fun e => 1 / 6 * ω ![o - o', m.place e.1 - o', m.place e.2 - o']
  have hg : ∀ e, g e.sym = -g e := by
    intro e
    show 1 / 6 * ω ![_, m.place e.2 - o', m.place e.1 - o'] = -(1 / 6 * ω ![_, m.place e.1 - o', m.place e.2 - o'])
    rw [form3_swap]; ring
  have h0 := Mesh.Closed.sum_darts hv hc hg
  have one : ∀ p q r : E, coneVolume ω o' p q r = coneVolume ω o p q r + 1 / 6 * ω ![o - o', p - o', q - o'] +
      1 / 6 * ω ![o - o', q - o', r - o'] + 1 / 6 * ω ![o - o', r - o', p - o'] := by
    intro p q r
    unfold coneVolume
    generalize ho : o - o' = d
    have e : ∀ x : E, x - o' = (x - o) + d := fun x => by rw [← ho]; abel
    rw [e p, e q, e r]
    generalize p - o = a
    generalize q - o = b
    generalize r - o = c
    have z : ∀ x y : E, ω ![x, y, y] = 0 := fun x y => by rw [form3_turn]; exact form3_same ω y x
    have z' : ∀ x y : E, ω ![x, y, x] = 0 := fun x y => by rw [form3_turn]; exact z y x
    have a1 : ∀ x y y' w : E, ω ![x, y + y', w] = ω ![x, y, w] + ω ![x, y', w] := fun x y y' w => by
      rw [form3_turn, form3_add, ← form3_turn ω x y, ← form3_turn ω x y']
    have a2 : ∀ x y w w' : E, ω ![x, y, w + w'] = ω ![x, y, w] + ω ![x, y, w'] := fun x y w w' => by
      rw [form3_turn, a1, ← form3_turn ω x y, ← form3_turn ω x y]
    simp only [form3_add, a1, a2, z, z', form3_same]
    rw [form3_turn ω a d c, form3_turn ω a b d, form3_turn ω b d a]
    ring
  have key : ∀ T : List Tri, (T.map fun t => coneVolume ω o' (m.place t.1) (m.place t.2.1) (m.place t.2.2)).sum =
      (T.map fun t => coneVolume ω o (m.place t.1) (m.place t.2.1) (m.place t.2.2)).sum + ((dartsOf T).map g).sum := by
    intro T
    induction T with
    | nil => simp [dartsOf]
    | cons t T ih =>
      rw [List.map_cons, List.sum_cons, ih, List.map_cons, List.sum_cons, one, show dartsOf (t :: T) = t.darts ++ dartsOf T from rfl,
        List.map_append, List.sum_append]
      simp only [Tri.darts, List.map_cons, List.sum_cons, List.map_nil, List.sum_nil, g]
      ring
  unfold Mesh.volume Mesh.total
  rw [key, h0, add_zero]

end forms

end Verif
