import Verif.Model.Basic
/-
Lemmas about `AMap`; maps with keys `0 … n-1` are written `dense l`.
-/
namespace Verif
namespace AMap
variable {α : Type}

theorem find?_set (m : AMap α) (k : Nat) (v : α) (k' : Nat) :
    (m.set k v).find? k' = if k' = k then some v else m.find? k' := by
  induction m with
  | nil => simp [set, find?]
  | cons x m ih =>
    obtain ⟨q, w⟩ := x
    simp only [set]
    split
    · subst_vars; simp only [find?]; split <;> simp_all
    · split
      · simp [find?]
      · simp only [find?, ih]
        split
        · subst_vars; simp_all; omega
        · rfl

/-- a map with keys `i, i+1, …` -/
def denseFrom (i : Nat) : List α → AMap α
  | [] => []
  | v :: l => (i, v) :: denseFrom (i + 1) l

/-- a map with keys `0, 1, …` -/
def dense (l : List α) : AMap α := denseFrom 0 l

theorem length_denseFrom (i : Nat) (l : List α) : (denseFrom i l).length = l.length := by
  induction l generalizing i with
  | nil => rfl
  | cons v l ih => simp [denseFrom, ih]

@[simp] theorem length_dense (l : List α) : (dense l).length = l.length := length_denseFrom 0 l

theorem set_denseFrom_lt (i : Nat) (l : List α) (k : Nat) (v : α) (h : k < l.length) :
    (denseFrom i l).set (i + k) v = denseFrom i (l.set k v) := by
  induction l generalizing i k with
  | nil => simp at h
  | cons w l ih =>
    cases k with
    | zero => simp [denseFrom, set]
    | succ k =>
      have h1 : ¬ i + (k + 1) = i := by omega
      have h2 : ¬ i + (k + 1) < i := by omega
      simp only [denseFrom, set, h1, h2, if_false, List.set_cons_succ]
      have := ih (i + 1) k (by simpa using h)
      rw [show i + 1 + k = i + (k + 1) by omega] at this
      rw [this]

theorem set_denseFrom_length (i : Nat) (l : List α) (v : α) :
    (denseFrom i l).set (i + l.length) v = denseFrom i (l ++ [v]) := by
  induction l generalizing i with
  | nil => simp [denseFrom, set]
  | cons w l ih =>
    have h1 : ¬ i + (w :: l).length = i := by simp
    have h2 : ¬ i + (w :: l).length < i := by omega
    simp only [denseFrom, set, h1, h2, if_false, List.cons_append]
    have := ih (i + 1)
    rw [show i + 1 + l.length = i + (w :: l).length by simp; omega] at this
    rw [this]

theorem set_dense_lt (l : List α) (k : Nat) (v : α) (h : k < l.length) :
    (dense l).set k v = dense (l.set k v) := by
  have := set_denseFrom_lt 0 l k v h
  simpa [dense] using this

theorem set_dense_length (l : List α) (v : α) : (dense l).set l.length v = dense (l ++ [v]) := by
  have := set_denseFrom_length 0 l v
  simpa [dense] using this

theorem find?_denseFrom (i : Nat) (l : List α) (k : Nat) :
    (denseFrom i l).find? k = if k < i then none else l[k - i]? := by
  induction l generalizing i with
  | nil => simp [denseFrom, find?]
  | cons w l ih =>
    simp only [denseFrom, find?, ih]
    by_cases h : k = i
    · simp [h]
    · by_cases h2 : k < i
      · simp [h, h2]; omega
      · have h3 : ¬ k < i + 1 := by omega
        obtain ⟨d, rfl⟩ : ∃ d, k = i + d + 1 := ⟨k - i - 1, by omega⟩
        simp [show i + d + 1 - i = d + 1 by omega, show i + d + 1 - (i + 1) = d by omega, show ¬ i + d + 1 = i by omega,
          show ¬ i + d + 1 < i by omega]
        intro; omega

@[simp] theorem find?_dense (l : List α) (k : Nat) : (dense l).find? k = l[k]? := by
  simp [dense, find?_denseFrom]

theorem denseFrom_append (i : Nat) (l l' : List α) :
    denseFrom i (l ++ l') = denseFrom i l ++ denseFrom (i + l.length) l' := by
  induction l generalizing i with
  | nil => simp [denseFrom]
  | cons w l ih => simp [denseFrom, ih, Nat.add_assoc, Nat.add_comm 1]

theorem nextKey_dense (l : List α) : (dense l).nextKey = l.length := by
  unfold nextKey dense
  rcases List.eq_nil_or_concat l with rfl | ⟨l', v, rfl⟩
  · simp [denseFrom]
  · rw [List.concat_eq_append, denseFrom_append]; simp [denseFrom]

theorem map_fst_denseFrom (i : Nat) (l : List α) : (denseFrom i l).map Prod.fst = List.range' i l.length := by
  induction l generalizing i with
  | nil => rfl
  | cons v l ih => simp [denseFrom, ih, List.range'_succ]

theorem map_fst_dense (l : List α) : (dense l).map Prod.fst = List.range l.length := by
  simp [dense, map_fst_denseFrom, List.range_eq_range']

theorem map_snd_denseFrom (i : Nat) (l : List α) : (denseFrom i l).map Prod.snd = l := by
  induction l generalizing i with
  | nil => rfl
  | cons v l ih => simp [denseFrom, ih]

@[simp] theorem map_snd_dense (l : List α) : (dense l).map Prod.snd = l := map_snd_denseFrom 0 l

theorem eq_denseFrom (i : Nat) (m : AMap α) (h : m.map Prod.fst = List.range' i m.length) :
    m = denseFrom i (m.map Prod.snd) := by
  induction m generalizing i with
  | nil => rfl
  | cons x m ih =>
    obtain ⟨k, v⟩ := x
    simp only [List.map_cons, List.length_cons, List.range'_succ, List.cons.injEq] at h
    simp only [List.map_cons, denseFrom]
    rw [← ih (i + 1) h.2, h.1]

theorem eq_dense (m : AMap α) (h : m.map Prod.fst = List.range m.length) : m = dense (m.map Prod.snd) :=
  eq_denseFrom 0 m (by simpa [List.range_eq_range'] using h)

theorem mem_denseFrom (i : Nat) (l : List α) (k : Nat) (v : α) :
    (k, v) ∈ denseFrom i l ↔ i ≤ k ∧ l[k - i]? = some v := by
  induction l generalizing i with
  | nil => simp [denseFrom]
  | cons w l ih =>
    simp only [denseFrom, List.mem_cons, Prod.mk.injEq, ih]
    constructor
    · rintro (⟨rfl, rfl⟩ | ⟨h1, h2⟩)
      · simp
      · refine ⟨by omega, ?_⟩
        rw [show k - i = (k - (i + 1)) + 1 by omega]; simpa using h2
    · rintro ⟨h1, h2⟩
      by_cases h : k = i
      · subst h; simp at h2; simp [h2]
      · right
        refine ⟨by omega, ?_⟩
        rw [show k - i = (k - (i + 1)) + 1 by omega] at h2; simpa using h2

@[simp] theorem mem_dense (l : List α) (k : Nat) (v : α) : (k, v) ∈ dense l ↔ l[k]? = some v := by
  simp [dense, mem_denseFrom]

theorem foldl_set_replicate (n : Nat) (l : List α) (d : α) (h : l.length = 0) :
    (List.range n).foldl (fun m i => AMap.set m i d) (dense l) = dense (List.replicate n d) := by
  have hl : l = [] := List.length_eq_zero_iff.mp h
  subst hl
  induction n with
  | zero => rfl
  | succ n ih =>
    rw [List.range_succ, List.foldl_append, ih]
    simp only [List.foldl_cons, List.foldl_nil]
    have := set_dense_length (List.replicate n d) d
    rw [List.length_replicate] at this
    rw [this, List.replicate_succ']

theorem reserve_nil (n : Nat) (d : α) : AMap.reserve [] n d = dense (List.replicate n d) :=
  foldl_set_replicate n [] d rfl

/-- writing the entries of a dense map over a dense map of the same length -/
theorem foldl_set_dense (l l' : List α) (h : l'.length = l.length) :
    (dense l).foldl (fun m kp => AMap.set m kp.1 kp.2) (dense l') = dense l := by
  suffices H : ∀ (r p : List α) (q : List α), q.length = r.length →
      (denseFrom p.length r).foldl (fun m kp => AMap.set m kp.1 kp.2) (dense (p ++ q)) = dense (p ++ r) by
    have := H l [] l' h
    simpa [dense] using this
  intro r
  induction r with
  | nil => intro p q hq; simp at hq; simp [denseFrom, hq]
  | cons v r ih =>
    intro p q hq
    cases q with
    | nil => simp at hq
    | cons w q =>
      simp only [denseFrom, List.foldl_cons]
      rw [set_dense_lt _ _ _ (by simp)]
      have : (p ++ w :: q).set p.length v = (p ++ [v]) ++ q := by simp
      rw [this]
      have h2 := ih (p ++ [v]) q (by simpa using hq)
      simpa using h2

/-- sorted maps stay sorted -/
theorem keys_set (m : AMap α) (k : Nat) (v : α) (x : Nat) :
    x ∈ (m.set k v).map Prod.fst ↔ x = k ∨ x ∈ m.map Prod.fst := by
  induction m with
  | nil => simp [set]
  | cons y m ih =>
    obtain ⟨q, w⟩ := y
    simp only [set]
    split
    · subst_vars; simp
    · split
      · simp
      · rw [List.map_cons, List.map_cons, List.mem_cons, List.mem_cons, ih]; exact or_left_comm

theorem sorted_set (m : AMap α) (k : Nat) (v : α) (h : (m.map Prod.fst).Pairwise (· < ·)) :
    ((m.set k v).map Prod.fst).Pairwise (· < ·) := by
  induction m with
  | nil => simp [set]
  | cons y m ih =>
    obtain ⟨q, w⟩ := y
    simp only [List.map_cons, List.pairwise_cons] at h
    simp only [set]
    split
    · subst_vars; simpa using h
    · split
      · simp only [List.map_cons, List.pairwise_cons, List.mem_cons]
        refine ⟨?_, h.1, h.2⟩
        rintro x (rfl | hx)
        · assumption
        · exact Nat.lt_trans ‹_› (h.1 x hx)
      · rw [List.map_cons, List.pairwise_cons]
        refine ⟨?_, ih h.2⟩
        intro x hx
        rw [keys_set] at hx
        rcases hx with rfl | hx
        · show q < _; omega
        · exact h.1 x hx

theorem find?_isSome (m : AMap α) (k : Nat) : (m.find? k).isSome ↔ k ∈ m.map Prod.fst := by
  induction m with
  | nil => simp [find?]
  | cons y m ih =>
    obtain ⟨q, w⟩ := y
    simp only [find?]
    split
    · simp_all
    · simp [ih]; intro h; exact absurd h ‹_›

theorem find?_eq_some_of_sorted (m : AMap α) (h : (m.map Prod.fst).Pairwise (· < ·)) (k : Nat) (v : α) :
    m.find? k = some v ↔ (k, v) ∈ m := by
  induction m with
  | nil => simp [find?]
  | cons y m ih =>
    obtain ⟨q, w⟩ := y
    simp only [List.map_cons, List.pairwise_cons] at h
    simp only [find?, List.mem_cons, Prod.mk.injEq]
    split
    · subst_vars
      constructor
      · intro hh; simp at hh; simp [hh]
      · rintro (⟨_, rfl⟩ | hm)
        · rfl
        · have := h.1 _ (List.mem_map.2 ⟨_, hm, rfl⟩); simp at this
    · rw [ih h.2]; simp_all

end AMap
end Verif
