import Verif.Proofs.Rounding
import Verif.Proofs.Rim
import Verif.Properties.Valence
/-
The number of triangles around a point, and the error, over several levels.
-/
namespace Verif
set_option linter.unusedSectionVars false
set_option linter.unusedSimpArgs false

section valence
variable {P D : Type}

/-- the children of a triangle: at most two at each corner, at most three at each midpoint -/
theorem children_countP_le {μ : Edge → Option PId} {a b c : PId} (hl : Local μ a b c) (v : PId) :
    (Tri.children μ (a, b, c)).countP (fun t => decide (v ∈ t.verts)) ≤
      if v = a ∨ v = b ∨ v = c then 2 else if μ (a, b) = some v ∨ μ (b, c) = some v ∨ μ (c, a) = some v then 3 else 0 := by
  obtain ⟨n1, n2, n3, f0, f1, f2, d01, d12, d02⟩ := hl
  rcases h0 : μ (a, b) with _ | m0 <;> rcases h1 : μ (b, c) with _ | m1 <;> rcases h2 : μ (c, a) with _ | m2 <;>
    simp only [h0, h1, h2, reduceCtorEq, Option.some.injEq, forall_eq', false_implies, forall_const, implies_true] at f0 f1 f2 d01 d12 d02 <;>
    simp only [Tri.children, h0, h1, h2, Tri.verts, List.countP_cons, List.countP_nil, List.mem_cons, List.not_mem_nil, or_false,
      decide_eq_true_eq, reduceCtorEq, Option.some.injEq, false_or] <;> grind

theorem countP_sum_le {α β : Type} (l : List α) (g : α → List β) (p : β → Bool) (q : α → Bool) (k : Nat)
    (h : ∀ a ∈ l, (g a).countP p ≤ if q a then k else 0) : (l.flatMap g).countP p ≤ k * l.countP q := by
  induction l with
  | nil => simp
  | cons a l ih =>
    rw [List.flatMap_cons, List.countP_append, List.countP_cons]
    have h1 := h a (by simp)
    have h2 := ih fun b hb => h b (by simp [hb])
    split at h1 <;> rename_i hq <;> simp only [hq, if_true, Bool.false_eq_true, if_false, Nat.mul_add, Nat.mul_one] <;> omega

variable {lib : QELib} {inp out : Mesh P D} {f f' : Filt} {u : Bool} {μ : Edge → Option PId} {pts : List P}

theorem FaceSplitResult.valence_old_le (R : FaceSplitResult lib inp out f f' u μ pts) (hv : inp.Valid) {v : PId}
    (hlt : v < inp.points.length) : out.valence v ≤ 2 * inp.valence v := by
  unfold Mesh.valence
  rw [R.tris]
  refine countP_sum_le _ _ _ (fun t : Tri => decide (v ∈ t.verts)) 2 fun t ht => ?_
  obtain ⟨a, b, c⟩ := t
  refine le_trans (children_countP_le (loc hv.good R.label ht) v) ?_
  have hno : ∀ e, μ e ≠ some v := fun e he => absurd hlt (Nat.not_lt.2 (R.fresh _ _ he).1)
  simp only [hno, or_self, if_false, Tri.verts, List.mem_cons, List.not_mem_nil, or_false, decide_eq_true_eq]
  exact le_refl _

theorem FaceSplitResult.valence_new_le (R : FaceSplitResult lib inp out f f' u μ pts) (hv : inp.Valid) {v : PId}
    (hge : inp.points.length ≤ v) : out.valence v ≤ 6 := by
  have hnv : ∀ t ∈ inp.tris, v ∉ t.verts := fun t ht hvt => absurd (hv.verts_lt ht hvt) (Nat.not_lt.2 hge)
  by_cases hm : ∃ e, μ e = some v
  · obtain ⟨e, hm⟩ := hm
    have key : inp.tris.countP (fun t => decide (e ∈ t.darts) || decide (e.sym ∈ t.darts)) ≤ 2 := by
      rw [countP_or, count_dart hv.good.oriented, count_dart hv.good.oriented]
      · split <;> split <;> decide
      rintro t ht ⟨h1, h2⟩
      exact Tri.dart_not_sym (hv.good.nd t ht) (by simpa using h1) (by simpa using h2)
    unfold Mesh.valence
    rw [R.tris]
    refine le_trans (countP_sum_le _ _ _ (fun t => decide (e ∈ t.darts) || decide (e.sym ∈ t.darts)) 3 fun t ht => ?_)
      (Nat.mul_le_mul_left 3 key)
    have h1 := hnv t ht
    obtain ⟨a, b, c⟩ := t
    refine le_trans (children_countP_le (loc hv.good R.label ht) v) ?_
    rw [if_neg (by simpa [Tri.verts] using h1)]
    have hin : ∀ e', μ e' = some v → e' ∈ Tri.darts (a, b, c) →
        (decide (e ∈ Tri.darts (a, b, c)) || decide (e.sym ∈ Tri.darts (a, b, c))) = true := by
      intro e' h2 h3
      rw [Bool.or_eq_true, decide_eq_true_eq, decide_eq_true_eq]
      rcases R.label.inj _ _ _ hm h2 with rfl | rfl
      · exact .inl h3
      · exact .inr h3
    split
    · rename_i h2
      rw [if_pos]
      rcases h2 with h2 | h2 | h2
      · exact hin _ h2 (by simp [Tri.darts])
      · exact hin _ h2 (by simp [Tri.darts])
      · exact hin _ h2 (by simp [Tri.darts])
    · exact Nat.zero_le _
  · unfold Mesh.valence
    rw [R.tris]
    refine le_trans (countP_sum_le _ _ _ (fun _ => false) 0 fun t ht => ?_) (by simp)
    have h1 := hnv t ht
    obtain ⟨a, b, c⟩ := t
    refine le_trans (children_countP_le (loc hv.good R.label ht) v) ?_
    rw [if_neg (by simpa [Tri.verts] using h1), if_neg]
    · exact Nat.zero_le _
    · rintro (h2 | h2 | h2) <;> exact hm ⟨_, h2⟩

end valence

section levels
variable {K P D : Type} [Field K] [Zero P] [Add P] [SMul K P] {m out : Mesh P D} {lib : QELib} {cosn : Nat → K} {f' : Filt}
  {sel : List CId} {L d : Nat}

theorem Mesh.RoomFor.now (h : m.RoomFor sel (L + 1) d) : ∀ v, v < m.points.length → m.valence v ≤ d := by
  rcases h with ⟨-, -, h⟩ | ⟨n, -, h2, h3⟩
  · exact h
  · intro v hv
    refine le_trans (h3 v hv) ?_
    have : 1 ≤ 2 ^ L := Nat.one_le_two_pow
    rw [Nat.pow_succ] at h2
    nlinarith

theorem Mesh.RoomFor.next {sch : Scheme} (hs : sch ≠ .sqrt3) (hn : sch.Needs m) (hsel : m.SelOK sel)
    (hc : cellUpdate sch lib cosn (Filt.new.setCells sel) m = (.ok out, f')) (hu : sel = [] → f'.cells = [])
    (h : m.RoomFor sel (L + 1 + 1) d) : out.RoomFor f'.cells (L + 1) d := by
  rcases h with ⟨rfl, h1, h2⟩ | ⟨n, h1, h2, h3⟩
  · have h6 : 6 ≤ d := h1.resolve_left (by omega)
    refine .inl ⟨hu rfl, .inr h6, fun v hlt => ?_⟩
    obtain ⟨g1, g2⟩ := C53_uniform_level hs hn hc
    by_cases hv : v < m.points.length
    · rw [(g1 v hv).1]; exact h2 v hv
    · rcases g2 v (Nat.not_lt.1 hv) hlt with ⟨-, h⟩ | ⟨-, h⟩ <;> rw [h] <;> omega
  · have R := (cellUpdate_result (f := Filt.new.setCells sel) hs hn hsel hc).1
    refine .inr ⟨2 * n, by omega, ?_, fun v hlt => ?_⟩
    · rw [Nat.pow_succ] at h2
      calc 2 ^ (L + 1) * (2 * n) = 2 ^ (L + 1) * 2 * n := by ring
        _ ≤ _ := h2
    · by_cases hv : v < m.points.length
      · exact le_trans (R.valence_old_le hn.valid hv) (Nat.mul_le_mul_left 2 (h3 v hv))
      · exact le_trans (R.valence_new_le hn.valid (Nat.not_lt.1 hv)) (by omega)

end levels

section bounds
variable {ε η B M : ℝ} {sch : Scheme} {d : Nat}

theorem Scheme.one_le_growth (sch : Scheme) : 1 ≤ sch.growth := by cases sch <;> norm_num [Scheme.growth]
theorem Scheme.multiples_nonneg (sch : Scheme) : 0 ≤ sch.multiples := by cases sch <;> norm_num [Scheme.multiples]
theorem Scheme.widest_nonneg (sch : Scheme) (d : Nat) : 0 ≤ sch.widest d := by
  cases sch <;> simp only [Scheme.widest] <;> positivity

theorem Scheme.sizeAfter_nonneg (hM : 0 ≤ M) (i : Nat) : 0 ≤ sch.sizeAfter M i :=
  mul_nonneg (pow_nonneg (by linarith [sch.one_le_growth]) _) hM

theorem Scheme.tinyAfter_nonneg (hη : 0 ≤ η) (i : Nat) : 0 ≤ sch.tinyAfter η i :=
  mul_nonneg (mul_nonneg (mul_nonneg (Nat.cast_nonneg _) sch.multiples_nonneg)
    (pow_nonneg (by linarith [sch.one_le_growth]) _)) hη

theorem Scheme.sizeAfter_succ (i : Nat) : sch.growth * sch.sizeAfter M i = sch.sizeAfter M (i + 1) := by
  unfold Scheme.sizeAfter; rw [pow_succ]; ring

theorem Scheme.tinyAfter_succ (hη : 0 ≤ η) (i : Nat) :
    sch.growth * sch.tinyAfter η i + sch.multiples * η ≤ sch.tinyAfter η (i + 1) := by
  unfold Scheme.tinyAfter
  have h1 : 1 ≤ sch.growth ^ (i + 1) := one_le_pow₀ sch.one_le_growth
  have h2 := mul_nonneg sch.multiples_nonneg hη
  have h3 : sch.multiples * η ≤ sch.multiples * η * sch.growth ^ (i + 1) := by nlinarith
  rw [pow_succ] at *
  push_cast
  nlinarith

theorem Scheme.sizeAfter_mono (hM : 0 ≤ M) {i j : Nat} (h : i ≤ j) : sch.sizeAfter M i ≤ sch.sizeAfter M j :=
  mul_le_mul_of_nonneg_right (pow_le_pow_right₀ sch.one_le_growth h) hM

theorem Scheme.tinyAfter_mono (hη : 0 ≤ η) {i j : Nat} (h : i ≤ j) : sch.tinyAfter η i ≤ sch.tinyAfter η j := by
  unfold Scheme.tinyAfter
  have hg : (0 : ℝ) ≤ sch.growth := by linarith [sch.one_le_growth]
  refine mul_le_mul_of_nonneg_right (mul_le_mul (mul_le_mul_of_nonneg_right (Nat.cast_le.2 h) sch.multiples_nonneg)
    (pow_le_pow_right₀ sch.one_le_growth h) (pow_nonneg hg _) (mul_nonneg (Nat.cast_nonneg _) sch.multiples_nonneg)) hη

theorem Scheme.InRange.mono (he : 0 ≤ ε) (hη : 0 ≤ η) (hM : 0 ≤ M) {i j : Nat} (h : i ≤ j) (hB : sch.InRange d ε η B M j) :
    sch.InRange d ε η B M i := by
  refine le_trans (mul_le_mul (pow_le_pow_right₀ (by linarith) (Nat.mul_le_mul_right _ h)) ?_ ?_ (by positivity)) hB
  · exact mul_le_mul_of_nonneg_left (add_le_add (sch.sizeAfter_mono hM h) (sch.tinyAfter_mono hη h)) (sch.widest_nonneg d)
  · exact mul_nonneg (sch.widest_nonneg d) (add_nonneg (sch.sizeAfter_nonneg hM i) (sch.tinyAfter_nonneg hη i))

end bounds

section runs
variable {P V D : Type} [Zero P] [Add P] [SMul ℝ P] [NormedAddCommGroup V] [NormedSpace ℝ V]
variable {ε η B M : ℝ} {val : P → V} {sch : Scheme} {d : Nat} {lib : QELib} {cosn : Nat → ℝ}

/-- from level `i` to the next -/
theorem Rounded.stable_level (hR : Rounded ε η B val) (hc : sch = .loop → ∀ n, -1 ≤ cosn n ∧ cosn n ≤ 1) (hM : 0 ≤ M) (i : Nat)
    (hB : sch.InRange d ε η B M (i + 1)) :
    Stable sch cosn d {x : P × V | Fits ε val (i * sch.roundings d) (sch.sizeAfter M i) (sch.tinyAfter η i) x}
      {x | Fits ε val ((i + 1) * sch.roundings d) (sch.sizeAfter M (i + 1)) (sch.tinyAfter η (i + 1)) x} := by
  have he := hR.eps
  have e1 : (i + 1) * sch.roundings d = i * sch.roundings d + sch.roundings d := Nat.succ_mul _ _
  have e2 := sch.sizeAfter_succ (M := M) i
  have e3 := sch.tinyAfter_succ hR.eta i
  have S := hR.stable sch hc d (i * sch.roundings d) (sch.sizeAfter_nonneg hM i) (sch.tinyAfter_nonneg hR.eta i) (by
    refine le_trans ?_ hB
    rw [e1, e2]
    exact mul_le_mul_of_nonneg_left (mul_le_mul_of_nonneg_left (by linarith) (sch.widest_nonneg d)) (by positivity))
  have up : ∀ x, Fits ε val (i * sch.roundings d + sch.roundings d) (sch.growth * sch.sizeAfter M i)
      (sch.growth * sch.tinyAfter η i + sch.multiples * η) x →
      Fits ε val ((i + 1) * sch.roundings d) (sch.sizeAfter M (i + 1)) (sch.tinyAfter η (i + 1)) x := fun x hx =>
    hx.mono he (le_of_eq e1.symm) (le_of_eq e2) e3
  exact ⟨fun p hp => up _ (S.keep p hp), fun h p hp q hq => up _ (S.mid h p hp q hq),
    fun h p hp q hq r hr => up _ (S.third h p hp q hq r hr), fun h p hp q hq r hr s hs => up _ (S.inner h p hp q hq r hr s hs),
    fun h p0 h0 p1 h1 p2 h2 p3 h3 p4 h4 p5 h5 p6 h6 p7 h7 => up _ (S.eight h p0 h0 p1 h1 p2 h2 p3 h3 p4 h4 p5 h5 p6 h6 p7 h7),
    fun h p hp l hl h1 h2 => up _ (S.around h p hp l hl h1 h2), fun h p hp q hq r hr => up _ (S.along h p hp q hq r hr)⟩

/-- any number of levels -/
theorem Rounded.manyLevels_fits (hR : Rounded ε η B val) (hc : sch = .loop → ∀ n, -1 ≤ cosn n ∧ cosn n ≤ 1) (hM : 0 ≤ M)
    (hl : sch = .loop ∨ sch = .butterfly → lib.Lawful) (L i : Nat) {m out : Mesh (P × V) D} {sel sel' : List CId}
    (hn : sch.Needs m) (hsel : m.SelOK sel) (hid : sch.IdsLeft L m sel) (hsb : sch = .loop → m.SimpleBoundary)
    (hroom : sch = .loop → m.RoomFor sel L d) (h : manyLevels sch lib cosn L (m, sel) = .ok (out, sel'))
    (hB : sch.InRange d ε η B M (i + L))
    (hC : ∀ v p, m.pos v = some p → Fits ε val (i * sch.roundings d) (sch.sizeAfter M i) (sch.tinyAfter η i) p) :
    ∀ v p, out.pos v = some p →
      Fits ε val ((i + L) * sch.roundings d) (sch.sizeAfter M (i + L)) (sch.tinyAfter η (i + L)) p := by
  induction L generalizing m sel i with
  | zero => cases h; exact hC
  | succ L ih =>
    obtain ⟨m1, s1, h1, hn1, hs1, hid1, hu1, -⟩ := oneLevel_ok cosn hl hn hsel hid
    have h2 : manyLevels sch lib cosn L (m1, s1) = .ok (out, sel') := by
      unfold manyLevels at h
      rw [h1] at h
      exact h
    have h1c : ∃ f1, cellUpdate sch lib cosn (Filt.new.setCells sel) m = (.ok m1, f1) ∧ s1 = f1.cells := by
      unfold oneLevel at h1
      rcases hc : cellUpdate sch lib cosn (Filt.new.setCells sel) m with ⟨_ | _, f1⟩
      · simp [hc] at h1
      · simp only [hc] at h1; cases h1; exact ⟨f1, rfl, rfl⟩
    obtain ⟨f1, hcu, rfl⟩ := h1c
    have hC1 := (hR.stable_level hc hM i (hB.mono hR.eps hR.eta hM (by omega))).cell (f := Filt.new.setCells sel) hn hsel
      (IdsLeft.now hid) hsb (fun hs => (hroom hs).now) hcu hC
    have e : i + (L + 1) = i + 1 + L := by omega
    rw [e] at hB ⊢
    cases L with
    | zero => cases h2; exact hC1
    | succ L =>
      have hu : sel = [] → f1.cells = [] := fun h => (hu1 h).1
      have hsb1 : sch = .loop → m1.SimpleBoundary := fun hs =>
        simple_split (f := Filt.new.setCells sel) (by rw [hs]; decide) hn hsel hcu (hsb hs)
      have hr1 : sch = .loop → m1.RoomFor f1.cells (L + 1) d := fun hs =>
        Mesh.RoomFor.next (sch := sch) (by rw [hs]; decide) hn hsel hcu hu (hroom hs)
      exact ih (i + 1) hn1 hs1 hid1 hsb1 hr1 h2 hB hC1

end runs
end Verif
