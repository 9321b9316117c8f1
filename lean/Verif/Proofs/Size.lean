import Verif.Spec.Size
import Verif.Proofs.Cost
import Verif.Proofs.Topology
/-
The number of triangles a depth function predicts does not change when the triangles with positive depth are cut.
-/
namespace Verif
set_option linter.unusedSectionVars false

theorem depthAt_cases (T : List Tri) (e : Edge) :
    (∃ s ∈ T, e ∈ s.darts ∧ ∀ d, depthAt T d e = d s) ∨ ((∀ s ∈ T, e ∉ s.darts) ∧ ∀ d, depthAt T d e = 0) := by
  unfold depthAt
  generalize hf : List.find? _ T = o
  rcases o with _ | s
  · rw [List.find?_eq_none] at hf
    exact Or.inr ⟨fun s hs h => hf s hs (decide_eq_true h), fun d => rfl⟩
  · exact Or.inl ⟨s, List.mem_of_find?_eq_some hf, by simpa using List.find?_some hf, fun d => rfl⟩

theorem depthAt_of_mem {T : List Tri} (hT : GoodTris T) (d : Tri → ℕ) {t : Tri} {e : Edge} (ht : t ∈ T) (he : e ∈ t.darts) :
    depthAt T d e = d t := by
  rcases depthAt_cases T e with ⟨s, hs, h1, h2⟩ | ⟨h1, -⟩
  · rw [h2, hT.eq_of_dart hs ht h1 he]
  · exact absurd he (h1 t ht)

theorem depthAt_of_not {T : List Tri} (d : Tri → ℕ) {e : Edge} (he : e ∉ dartsOf T) : depthAt T d e = 0 := by
  rcases depthAt_cases T e with ⟨s, hs, h1, -⟩ | ⟨-, h1⟩
  · exact absurd (mem_dartsOf.2 ⟨s, hs, h1⟩) he
  · exact h1 d

/-- the sum over the directed edges of the children, if inner edges do not count -/
theorem children_dart_sum {μ : Edge → Option PId} {t : Tri} (g : Edge → ℕ)
    (hg : ∀ e ∈ dartsOf (t.children μ), e.sym ∈ dartsOf (t.children μ) → g e = 0) :
    ((t.children μ).map fun c => (c.darts.map g).sum).sum = (t.darts.map fun e => ((e.pieces μ).map g).sum).sum := by
  obtain ⟨a, b, c⟩ := t
  rcases h0 : μ (a, b) with _ | m0 <;> rcases h1 : μ (b, c) with _ | m1 <;>
    rcases h2 : μ (c, a) with _ | m2 <;>
    simp [dartsOf, Tri.children, Tri.darts, Edge.pieces, Edge.sym, h0, h1, h2] at hg ⊢ <;> grind

section
variable {T : List Tri} {μ : Edge → Option PId} (hg : GoodTris T) (hμ : Labelling T μ) {d d' : Tri → ℕ}
  (hd : ∀ t ∈ T, ∀ c ∈ t.children μ, d' c = d t - 1)
include hg hμ hd

theorem depthAt_child {t : Tri} (ht : t ∈ T) {e : Edge} (he : e ∈ dartsOf (t.children μ)) :
    depthAt (T.flatMap (Tri.children μ)) d' e = d t - 1 := by
  obtain ⟨c, hc, he⟩ := mem_dartsOf.1 he
  rw [depthAt_of_mem (hg.children hμ) d' (List.mem_flatMap.2 ⟨t, ht, hc⟩) he, hd t ht c hc]

theorem depthAt_outer {t : Tri} (ht : t ∈ T) {e : Edge} (he : e ∈ t.darts) {p q : PId} (ho : OuterOf μ e p q) :
    depthAt (T.flatMap (Tri.children μ)) d' (q, p) = depthAt T d e.sym - 1 := by
  by_cases h : e.sym ∈ dartsOf T
  · obtain ⟨t', ht', he'⟩ := mem_dartsOf.1 h
    rw [depthAt_of_mem hg d ht' he', depthAt_child hg hμ hd ht' (outer_mem_children he' (ho.symm hμ))]
  · rw [depthAt_of_not d h, depthAt_of_not]
    intro hc
    obtain ⟨c, hc, hqp⟩ := mem_dartsOf.1 hc
    obtain ⟨t', ht', hc⟩ := List.mem_flatMap.1 hc
    exact h (mem_dartsOf.2 ⟨t', ht', child_across hg hμ ht ht' he hc ho hqp⟩)

variable (hs : ∀ e ∈ dartsOf T, (μ e).isSome ↔ 0 < depthAt T d e ∨ 0 < depthAt T d e.sym)
include hs

theorem piecesOf_children {t : Tri} (ht : t ∈ T) :
    ((t.children μ).map (piecesOf (T.flatMap (Tri.children μ)) d')).sum = piecesOf T d t := by
  have h1 : ((t.children μ).map (piecesOf (T.flatMap (Tri.children μ)) d')).sum =
      (t.children μ).length * 4 ^ (d t - 1) + ((t.children μ).map fun c => (c.darts.map fun e =>
        2 ^ max (d t - 1) (depthAt (T.flatMap (Tri.children μ)) d' e.sym) - 2 ^ (d t - 1)).sum).sum := by
    rw [List.map_congr_left (g := fun c => 4 ^ (d t - 1) + (c.darts.map fun e =>
        2 ^ max (d t - 1) (depthAt (T.flatMap (Tri.children μ)) d' e.sym) - 2 ^ (d t - 1)).sum)]
    · rw [List.sum_map_add]; simp
    · intro c hc
      unfold piecesOf
      rw [hd t ht c hc]
  rw [h1, children_dart_sum, children_length]
  · have h2 : ∀ e ∈ t.darts, ((e.pieces μ).map fun e =>
        2 ^ max (d t - 1) (depthAt (T.flatMap (Tri.children μ)) d' e.sym) - 2 ^ (d t - 1)).sum =
        (e.pieces μ).length * (2 ^ max (d t - 1) (depthAt T d e.sym - 1) - 2 ^ (d t - 1)) := by
      intro e he
      rw [List.map_congr_left (g := fun _ => 2 ^ max (d t - 1) (depthAt T d e.sym - 1) - 2 ^ (d t - 1))]
      · simp
      · rintro ⟨p, q⟩ hp
        have := depthAt_outer hg hμ hd ht he (mem_pieces.1 hp)
        change 2 ^ max (d t - 1) (depthAt _ d' (q, p)) - _ = _
        rw [this]
    rw [List.map_congr_left h2]
    have h3 : ∀ e ∈ t.darts, ((μ e).isSome ↔ 0 < d t ∨ 0 < depthAt T d e.sym) := by
      intro e he
      rw [hs e (mem_dartsOf.2 ⟨t, ht, he⟩), depthAt_of_mem hg d ht he]
    unfold piecesOf
    rcases Nat.eq_zero_or_pos (d t) with h0 | h0
    · rw [h0] at h3 ⊢
      have h4 : ∀ e ∈ t.darts, (e.pieces μ).length * (2 ^ max (0 - 1) (depthAt T d e.sym - 1) - 2 ^ (0 - 1)) +
          (if (μ e).isSome then 1 else 0) = 2 ^ max 0 (depthAt T d e.sym) - 2 ^ 0 := by
        intro e he
        have h5 := h3 e he
        rcases hm : μ e with _ | m
        · rw [hm] at h5
          have : depthAt T d e.sym = 0 := by simpa using h5
          simp [this]
        · rw [hm] at h5
          have h6 : 0 < depthAt T d e.sym := by simpa using h5
          obtain ⟨k, hk⟩ := Nat.exists_eq_succ_of_ne_zero h6.ne'
          rw [hk]
          have := Nat.one_le_two_pow (n := k)
          simp [Edge.pieces, hm, Nat.pow_succ]
          omega
      rw [← List.map_congr_left h4, List.sum_map_add]
      have h7 : (t.darts.map fun e => if (μ e).isSome then 1 else 0).sum = (t.darts.filter fun e => (μ e).isSome).length := by
        generalize t.darts = l
        induction l with
        | nil => rfl
        | cons e l ih => rw [List.map_cons, List.sum_cons, ih, List.filter_cons]; split <;> (simp; try omega)
      rw [h7]
      simp
      omega
    · have h4 : ∀ e ∈ t.darts, (e.pieces μ).length * (2 ^ max (d t - 1) (depthAt T d e.sym - 1) - 2 ^ (d t - 1)) =
          2 ^ max (d t) (depthAt T d e.sym) - 2 ^ d t := by
        intro e he
        obtain ⟨m, hm⟩ := Option.isSome_iff_exists.1 ((h3 e he).2 (Or.inl h0))
        obtain ⟨k, hk⟩ := Nat.exists_eq_succ_of_ne_zero h0.ne'
        have h5 : max (k + 1) (depthAt T d e.sym) = max k (depthAt T d e.sym - 1) + 1 := by omega
        rw [hk, h5]
        simp [Edge.pieces, hm, Nat.pow_succ, Nat.mul_sub]
        ring_nf
      rw [List.map_congr_left h4, List.filter_eq_self.2 fun e he => (h3 e he).2 (Or.inl h0)]
      obtain ⟨k, hk⟩ := Nat.exists_eq_succ_of_ne_zero h0.ne'
      rw [hk, show t.darts.length = 3 from rfl]
      simp [Nat.pow_succ]
      ring
  · intro e he hes
    have := depthAt_child hg hμ hd ht hes
    simp [this]

/-- the prediction is the same after one iteration -/
theorem pieces_invariant :
    ((T.flatMap (Tri.children μ)).map (piecesOf (T.flatMap (Tri.children μ)) d')).sum = (T.map (piecesOf T d)).sum := by
  have key : ∀ S : List Tri, (∀ t ∈ S, t ∈ T) →
      ((S.flatMap (Tri.children μ)).map (piecesOf (T.flatMap (Tri.children μ)) d')).sum = (S.map (piecesOf T d)).sum := by
    intro S
    induction S with
    | nil => intro _; rfl
    | cons t S ih =>
      intro hS
      rw [List.flatMap_cons, List.map_append, List.sum_append, ih fun t h => hS t (by simp [h]), List.map_cons, List.sum_cons,
        piecesOf_children hg hμ hd hs (hS t (by simp))]
  exact key T fun _ h => h

/-- the prediction for the boundary is the same after one iteration -/
theorem rim_invariant :
    ((boundaryOf (T.flatMap (Tri.children μ))).map fun e => 2 ^ depthAt (T.flatMap (Tri.children μ)) d' e).sum =
      ((boundaryOf T).map fun e => 2 ^ depthAt T d e).sum := by
  rw [((boundary_children_perm hg hμ).map _).sum_eq]
  have key : ∀ B : List Edge, (∀ e ∈ B, e ∈ boundaryOf T) →
      ((B.flatMap (Edge.pieces μ)).map fun e => 2 ^ depthAt (T.flatMap (Tri.children μ)) d' e).sum =
        (B.map fun e => 2 ^ depthAt T d e).sum := by
    intro B
    induction B with
    | nil => intro _; rfl
    | cons e B ih =>
      intro hB
      rw [List.flatMap_cons, List.map_append, List.sum_append, ih fun e h => hB e (by simp [h]), List.map_cons, List.sum_cons]
      congr 1
      obtain ⟨h1, h2⟩ := mem_boundaryOf.1 (hB e (by simp))
      obtain ⟨t, ht, he⟩ := mem_dartsOf.1 h1
      have h3 := hs e h1
      rw [depthAt_of_not d h2, depthAt_of_mem hg d ht he] at h3
      rw [depthAt_of_mem hg d ht he, List.map_congr_left (g := fun _ => 2 ^ (d t - 1))]
      · rcases hm : μ e with _ | m
        · rw [hm] at h3
          have : d t = 0 := by simpa using h3
          simp [Edge.pieces, hm, this]
        · rw [hm] at h3
          have h4 : 0 < d t := by simpa using h3
          obtain ⟨k, hk⟩ := Nat.exists_eq_succ_of_ne_zero h4.ne'
          rw [hk]
          simp [Edge.pieces, hm, Nat.pow_succ]
          ring
      · rintro ⟨p, q⟩ hp
        rw [depthAt_child hg hμ hd ht (outer_mem_children he (mem_pieces.1 hp))]
  exact key _ fun _ h => h

end

theorem depthAt_zero {T : List Tri} {d : Tri → ℕ} (h : ∀ t ∈ T, d t = 0) (e : Edge) : depthAt T d e = 0 := by
  rcases depthAt_cases T e with ⟨s, hs, -, h1⟩ | ⟨-, h1⟩
  · rw [h1, h s hs]
  · exact h1 d

/-- no triangle has to be cut -/
theorem pieces_zero {T : List Tri} {d : Tri → ℕ} (h : ∀ t ∈ T, d t = 0) : (T.map (piecesOf T d)).sum = T.length := by
  have h0 := depthAt_zero h
  rw [List.map_congr_left (g := fun _ => 1)]
  · simp
  · intro t ht
    simp [piecesOf, h0, h t ht]

theorem depthAt_mono {T : List Tri} {d d' : Tri → ℕ} (h : ∀ t ∈ T, d t ≤ d' t) (e : Edge) : depthAt T d e ≤ depthAt T d' e := by
  rcases depthAt_cases T e with ⟨s, hs, -, h1⟩ | ⟨-, h1⟩
  · rw [h1, h1]; exact h s hs
  · rw [h1, h1]

/-- one more cut of a triangle never makes the prediction smaller -/
theorem four_step (k x y z : ℕ) :
    4 ^ k + ((2 ^ max k x - 2 ^ k) + ((2 ^ max k y - 2 ^ k) + (2 ^ max k z - 2 ^ k))) ≤
      4 ^ (k + 1) + ((2 ^ max (k + 1) x - 2 ^ (k + 1)) + ((2 ^ max (k + 1) y - 2 ^ (k + 1)) + (2 ^ max (k + 1) z - 2 ^ (k + 1)))) := by
  have key : ∀ x, 2 ^ max k x - 2 ^ k ≤ (2 ^ max (k + 1) x - 2 ^ (k + 1)) + 2 ^ k := by
    intro x
    have h1 : 2 ^ max k x ≤ 2 ^ max (k + 1) x := Nat.pow_le_pow_right (by norm_num) (by omega)
    rw [Nat.pow_succ]
    omega
  have h2 : 2 ^ k ≤ 4 ^ k := Nat.pow_le_pow_left (by norm_num) k
  have := key x
  have := key y
  have := key z
  rw [Nat.pow_succ 4 k]
  omega

theorem four_mono {k k' : ℕ} (h : k ≤ k') (x y z : ℕ) :
    4 ^ k + ((2 ^ max k x - 2 ^ k) + ((2 ^ max k y - 2 ^ k) + (2 ^ max k z - 2 ^ k))) ≤
      4 ^ k' + ((2 ^ max k' x - 2 ^ k') + ((2 ^ max k' y - 2 ^ k') + (2 ^ max k' z - 2 ^ k'))) := by
  induction h with
  | refl => exact le_rfl
  | step _ ih => exact ih.trans (four_step _ x y z)

theorem piecesOf_mono {T : List Tri} {d d' : Tri → ℕ} (h : ∀ t ∈ T, d t ≤ d' t) {t : Tri} (ht : t ∈ T) :
    piecesOf T d t ≤ piecesOf T d' t := by
  have key : ∀ e, 2 ^ max (d t) (depthAt T d e) - 2 ^ d t ≤ 2 ^ max (d t) (depthAt T d' e) - 2 ^ d t := fun e =>
    Nat.sub_le_sub_right (Nat.pow_le_pow_right (by norm_num) (max_le_max le_rfl (depthAt_mono h e))) _
  obtain ⟨a, b, c⟩ := t
  have h1 := four_mono (h _ ht) (depthAt T d' (b, a)) (depthAt T d' (c, b)) (depthAt T d' (a, c))
  have k1 := key (b, a)
  have k2 := key (c, b)
  have k3 := key (a, c)
  simp only [piecesOf, Tri.darts, List.map_cons, List.map_nil, List.sum_cons, List.sum_nil, Nat.add_zero, Edge.sym]
  omega

section
variable {A a : ℝ}

theorem quarterings_le {n : ℕ} (h : a ≤ 4 ^ n * A) : quarterings A a ≤ n := Nat.sInf_le h

theorem quarterings_spec (hA : 0 < A) (a : ℝ) : a ≤ 4 ^ quarterings A a * A := by
  have : {n : ℕ | a ≤ 4 ^ n * A}.Nonempty := by
    obtain ⟨N, hN⟩ := pow_unbounded_of_one_lt (a / A) (show (1 : ℝ) < 4 by norm_num)
    rw [div_lt_iff₀ hA] at hN
    exact ⟨N, hN.le⟩
  exact Nat.sInf_mem this

theorem quarterings_zero (hA : 0 < A) : quarterings A a = 0 ↔ a ≤ A := by
  constructor
  · intro h
    have := quarterings_spec hA a
    rw [h] at this
    simpa using this
  · intro h
    exact Nat.le_zero.1 (quarterings_le (by simpa using h))

theorem quarterings_quarter (hA : 0 < A) (h : A < a) : quarterings A (1 / 4 * a) = quarterings A a - 1 := by
  have h0 : quarterings A a ≠ 0 := fun hc => absurd ((quarterings_zero hA).1 hc) (not_le.2 h)
  obtain ⟨k, hk⟩ := Nat.exists_eq_succ_of_ne_zero h0
  have h1 := quarterings_spec hA a
  rw [hk, pow_succ] at h1
  have h2 : quarterings A (1 / 4 * a) ≤ k := quarterings_le (by linarith)
  have h3 := quarterings_spec hA (1 / 4 * a)
  have h4 : quarterings A a ≤ quarterings A (1 / 4 * a) + 1 := quarterings_le (by rw [pow_succ]; linarith)
  omega

theorem quarterings_anti {A' : ℝ} (hA : 0 < A) (h : A ≤ A') (a : ℝ) : quarterings A' a ≤ quarterings A a :=
  quarterings_le ((quarterings_spec hA a).trans (mul_le_mul_of_nonneg_left h (by positivity)))

end
end Verif
