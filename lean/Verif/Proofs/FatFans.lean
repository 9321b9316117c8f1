import Verif.Proofs.Fat
import Verif.Proofs.RoundingLevels
/-
How many triangles adaptive Linear refinement makes at a point.
-/
namespace Verif
set_option linter.unusedSectionVars false

section weights
variable {P D : Type} {lib : QELib} {m out : Mesh P D} {f f' : Filt} {u : Bool} {μ : Edge → Option PId} {pts : List P}

/-- the triangles at `v`, each counted as often as the fan that can come out of it has triangles -/
def fanWeight (T : List Tri) (K : ℕ) (J : Tri → ℕ) (v : PId) : ℕ :=
  (T.map fun t => if v ∈ t.verts then 2 ^ (K - J t) else 0).sum

theorem fanWeight_ge (T : List Tri) (K : ℕ) (J : Tri → ℕ) (v : PId) :
    T.countP (fun t => decide (v ∈ t.verts)) ≤ fanWeight T K J v := by
  unfold fanWeight
  induction T with
  | nil => simp
  | cons t T ih =>
    rw [List.countP_cons, List.map_cons, List.sum_cons]
    have : 1 ≤ 2 ^ (K - J t) := Nat.one_le_two_pow
    by_cases h : v ∈ t.verts <;> simp only [h, decide_true, decide_false, if_true, if_false, Bool.false_eq_true] <;> omega

theorem fanWeight_le {T : List Tri} {K : ℕ} {J : Tri → ℕ} {v : PId} {c : ℕ} (h : ∀ t ∈ T, 2 ^ (K - J t) ≤ c) :
    fanWeight T K J v ≤ T.countP (fun t => decide (v ∈ t.verts)) * c := by
  unfold fanWeight
  induction T with
  | nil => simp
  | cons t T ih =>
    rw [List.countP_cons, List.map_cons, List.sum_cons, Nat.add_mul]
    have h1 := h t (by simp)
    have h2 := ih fun t ht => h t (by simp [ht])
    by_cases h : v ∈ t.verts <;> simp only [h, decide_true, decide_false, if_true, if_false, Bool.false_eq_true] <;> omega

theorem fanWeight_flatMap (T : List Tri) (g : Tri → List Tri) (K : ℕ) (J : Tri → ℕ) (v : PId) :
    fanWeight (T.flatMap g) K J v = (T.map fun t => fanWeight (g t) K J v).sum := by
  unfold fanWeight
  induction T with
  | nil => rfl
  | cons t T ih => rw [List.flatMap_cons, List.map_append, List.sum_append, ih, List.map_cons, List.sum_cons]

/-- one level: the weight of an old point does not grow, and a new point has at most six triangles -/
theorem fan_step (R : FaceSplitResult lib m out f f' u μ pts) (hv : m.Valid) {K : ℕ} {J J' : Tri → ℕ}
    (h : ∀ t ∈ m.tris, ∀ d ∈ t.children μ, J t ≤ J' d ∧
      ((∀ e ∈ t.darts, (μ e).isSome) ∨ (∀ e ∈ t.darts, μ e = none) ∨ J t < K ∧ J t + 1 ≤ J' d)) (v : PId) :
    fanWeight out.tris K J' v ≤ max (fanWeight m.tris K J v) (6 * 2 ^ K) := by
  by_cases hlt : v < m.points.length
  · refine le_max_of_le_left ?_
    rw [R.tris, fanWeight_flatMap]
    unfold fanWeight
    refine List.sum_le_sum fun t ht => ?_
    have hno : ∀ e, μ e ≠ some v := fun e he => absurd hlt (Nat.not_lt.2 (R.fresh _ _ he).1)
    have hl := loc hv.good R.label ht
    have hle : (t.children μ).countP (fun t => decide (v ∈ t.verts)) ≤ if v ∈ t.verts then 2 else 0 := by
      obtain ⟨a, b, c⟩ := t
      refine le_trans (children_countP_le hl v) ?_
      simp only [hno, or_self, if_false, Tri.verts, List.mem_cons, List.not_mem_nil, or_false]
      exact le_refl _
    change fanWeight (t.children μ) K J' v ≤ _
    by_cases hvt : v ∈ t.verts
    · rw [if_pos hvt] at hle ⊢
      have hone : (t.children μ).countP (fun t => decide (v ∈ t.verts)) ≤ 1 → fanWeight (t.children μ) K J' v ≤ 2 ^ (K - J t) := by
        intro h1
        refine (fanWeight_le (c := 2 ^ (K - J t)) fun d hd => ?_).trans ((Nat.mul_le_mul_right _ h1).trans (by rw [one_mul]))
        have := (h t ht d hd).1
        exact Nat.pow_le_pow_right (by norm_num) (by omega)
      by_cases hall : ∀ e ∈ t.darts, (μ e).isSome
      · apply hone
        obtain ⟨a, b, c⟩ := t
        obtain ⟨m0, h0⟩ := Option.isSome_iff_exists.1 (hall (a, b) (by simp [Tri.darts]))
        obtain ⟨m1, h1⟩ := Option.isSome_iff_exists.1 (hall (b, c) (by simp [Tri.darts]))
        obtain ⟨m2, h2⟩ := Option.isSome_iff_exists.1 (hall (c, a) (by simp [Tri.darts]))
        rw [children_countP hl h0 h1 h2, if_pos (by simpa [Tri.verts] using hvt)]
      by_cases hnone : ∀ e ∈ t.darts, μ e = none
      · apply hone
        rw [children_none _ _ hnone]
        exact List.countP_le_length
      · have hJ : ∀ d ∈ t.children μ, J t < K ∧ J t + 1 ≤ J' d := fun d hd =>
          ((h t ht d hd).2.resolve_left hall).resolve_left hnone
        by_cases hK : J t < K
        · refine (fanWeight_le (c := 2 ^ (K - J t - 1)) fun d hd => ?_).trans ((Nat.mul_le_mul_right _ hle).trans ?_)
          · have := (hJ d hd).2
            exact Nat.pow_le_pow_right (by norm_num) (by omega)
          · rw [← Nat.pow_succ']
            exact Nat.pow_le_pow_right (by norm_num) (by omega)
        · have : t.children μ = [] := List.eq_nil_iff_forall_not_mem.2 fun d hd => hK (hJ d hd).1
          rw [this]
          exact Nat.zero_le _
    · rw [if_neg hvt] at hle ⊢
      refine (fanWeight_le (c := 2 ^ K) fun d _ => Nat.pow_le_pow_right (by norm_num) (by omega)).trans ?_
      rw [Nat.le_zero.1 hle, zero_mul]
  · refine le_max_of_le_right ?_
    refine (fanWeight_le (c := 2 ^ K) fun d _ => Nat.pow_le_pow_right (by norm_num) (by omega)).trans ?_
    exact Nat.mul_le_mul_right _ (R.valence_new_le hv (Nat.not_lt.1 hlt))

/-- a number for each child can be chosen as a function of the child alone -/
theorem child_choice {T : List Tri} (hg : GoodTris T) (hμ : Labelling T μ) {p : Tri → Tri → ℕ → Prop}
    (h : ∀ t ∈ T, ∀ d ∈ t.children μ, ∃ j, p t d j) : ∃ J : Tri → ℕ, ∀ t ∈ T, ∀ d ∈ t.children μ, p t d (J d) := by
  have key : ∀ d, ∃ j, ∀ t ∈ T, d ∈ t.children μ → p t d j := by
    intro d
    by_cases hd : ∃ t ∈ T, d ∈ t.children μ
    · obtain ⟨t, ht, hd⟩ := hd
      obtain ⟨j, hj⟩ := h t ht d hd
      refine ⟨j, fun t' ht' hd' => ?_⟩
      have e : t = t' := child_parent_unique hg hμ ht ht' hd hd' (p := d.1) (q := d.2.1) (by simp [Tri.darts]) (by simp [Tri.darts])
      rwa [← e]
    · exact ⟨0, fun t ht hd' => absurd ⟨t, ht, hd'⟩ hd⟩
  choose J hJ using key
  exact ⟨J, fun t ht d hd => hJ d t ht hd⟩

/-- the largest number of levels -/
theorem exists_levels {x : ℝ} (hx : 0 < x) (hx1 : x ≤ 1) : ∃ K : ℕ, (∀ j : ℕ, 2 ^ (j + 1) * x < 1 → j < K) ∧ 2 ^ K * x ≤ 1 := by
  classical
  have hex : ∃ K : ℕ, 1 ≤ 2 ^ (K + 1) * x := by
    obtain ⟨n, hn⟩ := pow_unbounded_of_one_lt (1 / x) (show (1 : ℝ) < 2 by norm_num)
    refine ⟨n, ?_⟩
    rw [div_lt_iff₀ hx] at hn
    rw [pow_succ]
    linarith
  refine ⟨Nat.find hex, fun j hj => ?_, ?_⟩
  · by_contra hc
    have h1 := Nat.find_spec hex
    have h2 : (2 : ℝ) ^ (Nat.find hex + 1) ≤ 2 ^ (j + 1) := pow_le_pow_right₀ (by norm_num) (by omega)
    have := mul_le_mul_of_nonneg_right h2 hx.le
    linarith
  · rcases h : Nat.find hex with _ | k
    · simpa using hx1
    · have := Nat.find_min hex (m := k) (by omega)
      exact (not_le.1 this).le

end weights

section steps
variable {E D : Type} [NormedAddCommGroup E] [InnerProductSpace ℝ E] {inp out m : Mesh E D} {lib : QELib} {cosn : Nat → ℝ}

/-- the number of levels of each triangle, and the weights -/
def FanInv (F : Mesh E D → Tri → ℕ → Prop) (K : ℕ) (B : PId → ℕ) (m : Mesh E D) : Prop :=
  ∃ J : Tri → ℕ, (∀ t ∈ m.tris, F m t (J t)) ∧ ∀ v, fanWeight m.tris K J v ≤ max (B v) 6 * 2 ^ K

theorem fanInv_start {F : Mesh E D → Tri → ℕ → Prop} {K : ℕ} (h : ∀ t ∈ m.tris, F m t 0) : FanInv F K m.valence m := by
  refine ⟨fun _ => 0, h, fun v => (fanWeight_le (c := 2 ^ K) fun t _ => Nat.pow_le_pow_right (by norm_num) (by omega)).trans ?_⟩
  exact Nat.mul_le_mul_right _ (le_max_left _ _)

theorem fanInv_step {F : Mesh E D → Tri → ℕ → Prop} {K : ℕ} {B : PId → ℕ} {f f' : Filt} {u : Bool} {μ : Edge → Option PId}
    {pts : List E} (R : FaceSplitResult lib m out f f' u μ pts) (hv : m.Valid)
    (h : ∀ t ∈ m.tris, ∀ d ∈ t.children μ, ∀ j, F m t j → ∃ j', F out d j' ∧ j ≤ j' ∧
      ((∀ e ∈ t.darts, (μ e).isSome) ∨ (∀ e ∈ t.darts, μ e = none) ∨ j < K ∧ j + 1 ≤ j'))
    (hI : FanInv F K B m) : FanInv F K B out := by
  obtain ⟨J, h1, h2⟩ := hI
  obtain ⟨J', h3⟩ := child_choice hv.good R.label fun t ht d hd => h t ht d hd (J t) (h1 t ht)
  refine ⟨J', fun d hd => ?_, fun v => (fan_step R hv (fun t ht d hd => (h3 t ht d hd).2) v).trans (max_le (h2 v) ?_)⟩
  · rw [R.tris] at hd
    obtain ⟨t, ht, hd⟩ := List.mem_flatMap.1 hd
    exact (h3 t ht d hd).1
  · exact Nat.mul_le_mul_right _ (le_max_right _ _)

theorem FanInv.valence_le {F : Mesh E D → Tri → ℕ → Prop} {K : ℕ} {B : PId → ℕ} (h : FanInv F K B m) (v : PId) :
    m.valence v ≤ max (B v) 6 * 2 ^ K := by
  obtain ⟨J, -, h2⟩ := h
  exact (fanWeight_ge _ _ _ _).trans (h2 v)

/-- large and fat, or `j` levels after the last such triangle -/
def FatAt (q A : ℝ) (m : Mesh E D) (t : Tri) (j : ℕ) : Prop :=
  ((A < m.areaOf t ∧ ∀ e ∈ t.darts, q * sqd (m.place e.1) (m.place e.2) ≤ m.areaOf t) ∧ j = 0) ∨ ∃ s, PieceBy q A 0 m t s j

theorem FatAt.fatOrPiece {q A : ℝ} {t : Tri} {j : ℕ} (h : FatAt q A m t j) : FatOrPiece q A 0 m t := by
  rcases h with h | ⟨s, h⟩
  · exact Or.inl h.1
  · exact Or.inr ⟨s, j, h⟩

theorem fatAt_of {q A : ℝ} (hq : 0 ≤ q) {t : Tri} (h : ∀ e ∈ t.darts, q * sqd (m.place e.1) (m.place e.2) ≤ m.areaOf t) :
    FatAt q A m t 0 := by
  by_cases hA : A < m.areaOf t
  · exact Or.inl ⟨⟨hA, h⟩, rfl⟩
  · have hA' := not_lt.1 hA
    refine Or.inr ⟨m.areaOf t, hA', hA', triArea_nonneg _ _ _, fat_le hq h, by simp, h, fun e he => Or.inl ?_⟩
    simpa using h e he

theorem fan_step_area {q A : ℝ} (hq : 0 < q) (hA : 0 < A) {K : ℕ} (hK : ∀ j : ℕ, 2 ^ (j + 1) * q < 1 → j < K) {B : PId → ℕ}
    {sel : List CId} {f f' : Filt} (hv : m.Valid) (hsel : m.SelOK sel) (hne : sel ≠ [])
    (hex : ∀ k, k ∈ sel ↔ m.TooLarge heronArea A k) (h : cellUpdate .linear lib cosn (f.setCells sel) m = (.ok out, f'))
    (hI : FanInv (FatAt q A) K B m) : FanInv (FatAt q A) K B out := by
  have hn : Scheme.linear.Needs m := ⟨hv, by simp, by simp⟩
  have hF : ∀ t ∈ m.tris, FatOrPiece q A 0 m t := fun t ht => by
    obtain ⟨J, h1, -⟩ := hI
    exact (h1 t ht).fatOrPiece
  refine fanInv_step (cellUpdate_result (by decide) hn (f := f.setCells sel) hsel h).1 hv (fun t ht d hd j hj => ?_) hI
  obtain ⟨h1, h2⟩ := fat_child hq hA (by linarith) hv hsel hne hex h hF ht hd
  rcases hj with ⟨h3, rfl⟩ | ⟨s, h3⟩
  · obtain ⟨h4, -, h5⟩ := h1 h3
    exact ⟨0, fatAt_of hq.le h5, le_refl _, Or.inl h4⟩
  · obtain ⟨h4, h5⟩ := h2 s j h3
    exact ⟨j + 1, Or.inr ⟨s, h4⟩, Nat.le_succ _, Or.inr (h5.imp_right fun h6 => ⟨hK j h6, le_refl _⟩)⟩

/-- all sides long and fat, or `j` levels after the last such triangle -/
def ShortAt (q L : ℝ) (m : Mesh E D) (t : Tri) (j : ℕ) : Prop :=
  (((∀ e ∈ t.darts, L ^ 2 < sqd (m.place e.1) (m.place e.2)) ∧
    ∀ e ∈ t.darts, q * sqd (m.place e.1) (m.place e.2) ≤ m.areaOf t) ∧ j = 0) ∨ ∃ s, ShortBy q L 0 m t s j

theorem shortAt_of {q L : ℝ} (hq : 0 ≤ q) {t : Tri} (h : ∀ e ∈ t.darts, q * sqd (m.place e.1) (m.place e.2) ≤ m.areaOf t) :
    ShortAt q L m t 0 := by
  by_cases hA : ∀ e ∈ t.darts, L ^ 2 < sqd (m.place e.1) (m.place e.2)
  · exact Or.inl ⟨⟨hA, h⟩, rfl⟩
  · push Not at hA
    obtain ⟨e0, he0, h0⟩ := hA
    have h1 := fat_le hq h
    refine Or.inr ⟨m.areaOf t, triArea_nonneg _ _ _, (fat_side hq h he0).trans h0, ?_, by simp, h, fun e he => Or.inr ?_⟩
    · have := mul_le_mul_of_nonneg_left h1 (sq_nonneg q)
      calc q ^ 4 * m.areaOf t = q ^ 2 * (q ^ 2 * m.areaOf t) := by ring
        _ ≤ _ := this.trans h1
    · have := h e he
      have := mul_nonneg hq (sq_nonneg L)
      rw [pow_zero]
      linarith

theorem fan_step_length {q L : ℝ} (hq : 0 < q) (hL : 0 < L) {K : ℕ} (hK : ∀ j : ℕ, 2 ^ (j + 1) * q ^ 2 < 1 → j < K) {B : PId → ℕ}
    {l : List Edge} {f f' : Filt} (hv : m.Valid) (hsel : m.EdgeSelOK (l.map some)) (hne : l ≠ [])
    (hex : ∀ e, e ∈ l ↔ e ∈ m.edges ∧ m.TooLong dist L e)
    (h : edgeUpdate .linear lib cosn (f.setEdges (l.map some)) m = (.ok out, f'))
    (hI : FanInv (ShortAt q L) K B m) : FanInv (ShortAt q L) K B out := by
  have hn : EdgeScheme.linear.toScheme.Needs m := ⟨hv, by simp [EdgeScheme.toScheme], by simp [EdgeScheme.toScheme]⟩
  refine fanInv_step (edgeUpdate_result hn (f := f.setEdges (l.map some)) hsel h) hv (fun t ht d hd j hj => ?_) hI
  obtain ⟨h1, h2⟩ := fat_child_length (b := 0) hq hL (by positivity) hv hsel hne hex h ht hd
  rcases hj with ⟨h3, rfl⟩ | ⟨s, h3⟩
  · obtain ⟨h4, -, h5⟩ := h1 h3
    exact ⟨0, shortAt_of hq.le h5, le_refl _, Or.inl h4⟩
  · obtain ⟨h4, h5⟩ := h2 s j h3
    exact ⟨j + 1, Or.inr ⟨s, h4⟩, Nat.le_succ _, Or.inr (h5.imp_right fun h6 => ⟨hK j h6, le_refl _⟩)⟩

end steps

end Verif
