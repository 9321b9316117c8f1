import Verif.Spec.Cost
import Verif.Proofs.CondExact
import Verif.Properties.Geometry
/-
What one level takes off `Mesh.excess`.
-/
namespace Verif
set_option linter.unusedSectionVars false
section area
variable {E D : Type} [NormedAddCommGroup E] [InnerProductSpace ℝ E] {inp out : Mesh E D}

/-- what is left to split below a triangle with area `a` -/
theorem potential_step {A a : ℝ} (hA : 0 < A) (ha : A < a) :
    4 * (if A < 1 / 4 * a then 4 * (1 / 4 * a) / A - 1 else 0) + 3 ≤ 4 * a / A - 1 := by
  have h1 : 4 * (1 / 4 * a) / A = a / A := by ring
  have h2 : 1 < a / A := (one_lt_div hA).2 ha
  have h3 : 4 * a / A = 4 * (a / A) := by ring
  rw [h1, h3]
  split
  · linarith
  · linarith

theorem sum_filter_eq {α : Type} (l : List α) (p : α → Bool) (g : α → ℝ) :
    ((l.filter p).map g).sum = (l.map fun x => if p x then g x else 0).sum := by
  induction l with
  | nil => rfl
  | cons x l ih =>
    by_cases h : p x = true
    · simp [h, ih]
    · simp [h, ih]

open Classical in
theorem excess_step (hv : inp.Valid) {sel : List CId} (hne : sel ≠ []) {A : ℝ} (hA : 0 < A)
    (hs : ∀ k, k ∈ sel ↔ inp.TooLarge heronArea A k) (S : SplitAtMid inp out (inp.edgePoint sel)) :
    out.excess A + 3 * ((inp.tris.filter fun t => decide (A < inp.areaOf t)).length : ℝ) ≤ inp.excess A := by
  unfold Mesh.excess
  rw [sum_filter_eq, sum_filter_eq, S.tris]
  have key : ∀ T : List Tri, (∀ t ∈ T, t ∈ inp.tris) →
      ((T.flatMap (Tri.children (inp.edgePoint sel))).map fun x =>
          if decide (A < out.areaOf x) = true then 4 * out.areaOf x / A - 1 else 0).sum +
        3 * ((T.filter fun t => decide (A < inp.areaOf t)).length : ℝ) ≤
      (T.map fun x => if decide (A < inp.areaOf x) = true then 4 * inp.areaOf x / A - 1 else 0).sum := by
    intro T
    induction T with
    | nil => intro; simp
    | cons t T ih =>
      intro hT
      have ht := hT t (by simp)
      have ih := ih fun x hx => hT x (by simp [hx])
      rw [List.flatMap_cons, List.map_append, List.sum_append, List.map_cons, List.sum_cons]
      obtain ⟨k, hk⟩ := hv.mem_tris.1 ht
      by_cases hb : A < inp.areaOf t
      · have h1 : t ∈ inp.selected sel := (hv.mem_selected hne).2 ⟨k, (hs k).2 ((tooLarge_iff hv hk).2 hb), hk⟩
        have h2 : (t.children (inp.edgePoint sel)).map (fun x =>
            if decide (A < out.areaOf x) = true then 4 * out.areaOf x / A - 1 else 0) =
            List.replicate 4 (if A < 1 / 4 * inp.areaOf t then 4 * (1 / 4 * inp.areaOf t) / A - 1 else 0) := by
          rw [List.eq_replicate_iff, List.length_map]
          refine ⟨children_all _ _ (selected_split h1), fun b hb => ?_⟩
          obtain ⟨d, hd, rfl⟩ := List.mem_map.1 hb
          simp only [S.area_quarter ht (selected_split h1) hd, decide_eq_true_eq]
        have hd : decide (A < inp.areaOf t) = true := by simpa using hb
        rw [h2, List.sum_replicate, List.filter_cons_of_pos (by simpa using hb), List.length_cons, if_pos hd]
        have := potential_step hA hb
        simp only [nsmul_eq_mul, Nat.cast_ofNat, Nat.cast_add, Nat.cast_one]
        linarith
      · have h2 : ∀ x ∈ (t.children (inp.edgePoint sel)).map (fun x =>
            if decide (A < out.areaOf x) = true then 4 * out.areaOf x / A - 1 else 0), x = 0 := by
          intro x hx
          obtain ⟨d, hd, rfl⟩ := List.mem_map.1 hx
          rw [if_neg]
          simpa using (S.area_le ht hd).trans (not_lt.1 hb)
        rw [List.sum_eq_zero h2, List.filter_cons_of_neg (by simpa using hb), if_neg (by simpa using hb)]
        linarith
  exact key _ fun _ h => h

theorem excess_nonneg {A : ℝ} (hA : 0 < A) : 0 ≤ out.excess A := by
  unfold Mesh.excess
  refine List.sum_nonneg fun x hx => ?_
  obtain ⟨t, ht, rfl⟩ := List.mem_map.1 hx
  have h1 : A < out.areaOf t := by simpa using (List.mem_filter.1 ht).2
  have h2 : 1 < out.areaOf t / A := (one_lt_div hA).2 h1
  have h3 : 4 * out.areaOf t / A = 4 * (out.areaOf t / A) := by ring
  rw [h3]; linarith

theorem excess_le_total {A : ℝ} (hA : 0 < A) : inp.excess A ≤ 4 * inp.totalArea / A := by
  unfold Mesh.excess Mesh.totalArea
  rw [sum_filter_eq]
  induction inp.tris with
  | nil => simp
  | cons t T ih =>
    rw [List.map_cons, List.sum_cons, List.map_cons, List.sum_cons]
    have h0 : 0 ≤ inp.areaOf t := triArea_nonneg _ _ _
    have h1 : 0 ≤ 4 * inp.areaOf t / A := by positivity
    have h2 : 4 * (inp.areaOf t + (T.map inp.areaOf).sum) / A = 4 * inp.areaOf t / A + 4 * (T.map inp.areaOf).sum / A := by
      ring
    rw [h2]
    split
    · linarith
    · linarith

end area
end Verif
