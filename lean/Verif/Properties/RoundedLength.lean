import Verif.Proofs.RoundedLength
import Verif.Properties.Rounding
/-
C93  in machine arithmetic the conditional filter with the Linear edge filter and the length criterion ends.
-/
namespace Verif

section
variable {P V D : Type} [Zero P] [Add P] [SMul ℝ P] [NormedAddCommGroup V] [InnerProductSpace ℝ V] {val : P → V}
  {lib : QELib} {inp : Mesh P D} {len : P → P → ℝ} {L R κ : ℝ}

/-- C93. Midpoints and distances are computed with errors up to `κ`, and `MaximumLength` `L` is at least 50 times as large.  If no
edge of the input is longer than `(10 / 9) ^ n * (49 / 50) * L`, `Update()` returns within `n` iterations (in a ball that leaves
room for `n` errors).  The output is valid, keeps the points of the input, and none of its edges is longer than `L` as computed,
or than `51 / 50 * L` in fact. -/
theorem C93_rounded_length_terminates (H : Measured val len R κ) (hv : inp.Valid) (hL : 0 < L) (h0 : 0 ≤ κ) (hκ : κ ≤ L / 50) {n : Nat}
    (hR : ∀ v p, inp.pos v = some p → ‖val p‖ ≤ R - n * κ)
    (hn : ∀ e ∈ dartsOf inp.tris, ∀ p q, inp.pos e.1 = some p → inp.pos e.2 = some q →
      dist (val p) (val q) ≤ (10 / 9) ^ n * (49 / 50 * L))
    (cosn : Nat → ℝ) (c : Cond Filt (Option Edge)) :
    ∃ out c', (∀ fuel, n ≤ fuel →
        condGenerate lib (condEdgeUpd .linear lib cosn) (some (lengthCompute len L)) fuel c inp = some (.ok out, c')) ∧
      out.Valid ∧ (∀ v p, inp.pos v = some p → out.pos v = some p) ∧ (∀ v p, out.pos v = some p → ‖val p‖ ≤ R) ∧
      ∀ e ∈ dartsOf out.tris, ∀ p q, out.pos e.1 = some p → out.pos e.2 = some q →
        len p q ≤ L ∧ dist (val p) (val q) ≤ 51 / 50 * L := by
  have hcrit : ∀ (m : Mesh P D) (old : List (Option Edge)), m.Valid → ∃ l : List Edge,
      lengthCompute len L m old = (.ok (), l.map some) ∧ (∀ e, e ∈ l ↔ e ∈ m.edges ∧ m.TooLong len L e) ∧
      DistinctEdges l := by
    intro m old hm
    obtain ⟨l, h1, -, h2, h3⟩ := C29_length_exact len L hm.has_edge_cells hm.endsExist old
    exact ⟨l, h1, h2, h3 hm.edges_once⟩
  have hnc := copyGeometry_needs (sch := Scheme.linear) (lib := lib) hv (by simp) (by simp)
  have hv' := hnc.valid
  obtain ⟨l, h1, h2, h2'⟩ := hcrit (copyGeometry lib inp) c.sel hv'
  let I : Nat → Cond Filt (Option Edge) → Mesh P D → Prop := fun k c cur =>
    EdgeScheme.linear.toScheme.Needs cur ∧
      (∀ v p, inp.pos v = some p → cur.pos v = some p) ∧
      (∀ v p, cur.pos v = some p → ‖val p‖ ≤ R - k * κ) ∧
      (∀ e, cur.IsEdge e → dist (cur.spot val e.1) (cur.spot val e.2) ≤ (10 / 9) ^ k * (49 / 50 * L) ∨ ¬ cur.TooLong len L e) ∧
      ∃ l : List Edge, c.sel = l.map some ∧ (∀ e, e ∈ l ↔ e ∈ cur.edges ∧ cur.TooLong len L e) ∧ DistinctEdges l
  have shrink : ∀ k : Nat, R - k * κ ≤ R := fun k => by
    have : 0 ≤ (k : ℝ) * κ := by positivity
    linarith
  have hzero : ∀ c cur, I 0 c cur → c.sel = [] := by
    rintro c cur ⟨k1, -, k0, k2, l, k3, k4, -⟩
    have : l = [] := by
      rw [List.eq_nil_iff_forall_not_mem]
      intro e he
      obtain ⟨h3, h4⟩ := (k4 e).1 he
      rcases k2 e (Or.inl h3) with h5 | h5
      · obtain ⟨p, q, hp, hq, h6⟩ := h4
        rw [spot_of_pos hp, spot_of_pos hq, pow_zero, one_mul] at h5
        have := abs_le.1 (H.near p q ((k0 _ _ hp).trans (shrink 0)) ((k0 _ _ hq).trans (shrink 0)))
        linarith [this.2]
      · exact h5 h4
    rw [k3, this]; rfl
  have hstep : ∀ k c cur, I (k + 1) c cur → c.sel ≠ [] → ∃ m s' sel', condEdgeUpd .linear lib cosn c.inner c.sel cur =
      (.ok m, s') ∧ lengthCompute len L m c.sel = (.ok (), sel') ∧ I k ⟨s', sel'⟩ m := by
    rintro k c cur ⟨k1, k4, k0, k5, l, k6, k7, k8⟩ hs
    have hne : l ≠ [] := by rintro rfl; exact hs k6
    have hE : ∀ e ∈ l, cur.IsEdge e := fun e he => Or.inl ((k7 e).1 he).1
    obtain ⟨m, f', h4, h5, h6, h7⟩ := condEdgeUpd_ok (sch := .linear) (lib := lib) cosn (by simp) k1 hne hE k8 c.inner
    obtain ⟨l', h8, h9, h10⟩ := hcrit m c.sel h6.valid
    refine ⟨m, f', _, by rw [k6]; exact h4, h8, h6, fun v p h => ?_, fun v p h => ?_, fun e he => ?_, l', rfl, h9, h10⟩
    · exact C06_original_points_kept_edge k1.valid.points_dense h5 v p (k4 v p h)
    · refine (rounded_ball H k1.valid hE h0 (shrink _) k0 h5 v p h).trans ?_
      push_cast
      linarith
    · have hbig : 98 / 90 * L ≤ (10 / 9) ^ (k + 1) * (49 / 50 * L) := by
        have : (1 : ℝ) ≤ (10 / 9) ^ k := one_le_pow₀ (by norm_num)
        rw [pow_succ]
        nlinarith
      have := rounded_length_iteration H k1.valid hne hL hκ hbig k7 (fun v p h => (k0 v p h).trans (shrink _)) k5 h5 h6.valid e he
      rw [pow_succ] at this
      refine this.imp_left fun h => h.trans (le_of_eq (by ring))
  have hinit : I n ⟨c.inner, l.map some⟩ (copyGeometry lib inp) := by
    have hpos : ∀ v, (copyGeometry lib inp).pos v = inp.pos v := fun v => by
      simp only [Mesh.pos, copyGeometry_points lib hv]
    refine ⟨hnc, fun v p h => by rw [hpos]; exact h, fun v p h => hR v p (by rw [← hpos]; exact h), fun e he => Or.inl ?_,
      l, rfl, h2, h2'⟩
    have key : ∀ e ∈ dartsOf inp.tris, dist ((copyGeometry lib inp).spot val e.1) ((copyGeometry lib inp).spot val e.2) ≤
        (10 / 9) ^ n * (49 / 50 * L) := by
      intro e he
      have hlt := hv.isEdge_lt (hv.isEdge_of_dart he)
      have p1 := hv.pos_eq hlt.1
      have p2 := hv.pos_eq hlt.2
      rw [spot_of_pos ((hpos _).trans p1), spot_of_pos ((hpos _).trans p2)]
      exact hn e he _ _ p1 p2
    rcases (hv'.edges_iff e).1 he with h | h
    · exact key e (by rwa [copyGeometry_tris lib hv] at h)
    · rw [dist_comm]; exact key _ (by rwa [copyGeometry_tris lib hv] at h)
  obtain ⟨out, c', k, h3, -, h4, h5, h6, h7⟩ := condLoop_ends I hzero hstep n hinit
  have h10 : condGenerate lib (condEdgeUpd .linear lib cosn) (some (lengthCompute len L)) n c inp =
      some (.ok out, c') := by
    unfold condGenerate
    simp only [h1]
    exact h3
  have h8 : ∀ v p, out.pos v = some p → ‖val p‖ ≤ R := fun v p h => (h6 v p h).trans (shrink _)
  refine ⟨out, c', fun fuel hf => condGenerate_mono h10 hf, h4.valid, h5, h8, fun e he p q hp hq => ?_⟩
  have h11 := (C30_length_postcondition h10).2.1
  have h12 : len p q ≤ L := by
    rcases h4.valid.isEdge_of_dart he with h | h
    · exact not_lt.1 fun hlt => h11 _ h ⟨p, q, hp, hq, hlt⟩
    · exact not_lt.1 fun hlt => h11 _ h ⟨q, p, hq, hp, by rw [H.symm]; exact hlt⟩
  refine ⟨h12, ?_⟩
  have := abs_le.1 (H.near p q (h8 _ _ hp) (h8 _ _ hq))
  linarith [this.1]

theorem Rounded.mid {ε η B : ℝ} (hRd : Rounded ε η B val) {p q : P} (hp : ‖val p‖ ≤ R) (hq : ‖val q‖ ≤ R)
    (hB : 2 * (1 + ε) * R ≤ B) :
    ‖val ((1 / 2 : ℝ) • (p + q)) - (1 / 2 : ℝ) • (val p + val q)‖ ≤ (2 * ε + ε ^ 2) * R + η := by
  have he := hRd.eps
  have hη := hRd.eta
  have hR0 : 0 ≤ R := (norm_nonneg _).trans hp
  have hR1 : R ≤ B := by nlinarith
  have h1 := hRd.add p q (hp.trans hR1) (hq.trans hR1)
  have h2 : ‖val p + val q‖ ≤ 2 * R := (norm_add_le _ _).trans (by linarith)
  have h3 : ‖val (p + q)‖ ≤ (1 + ε) * (2 * R) := by
    have := norm_add_le (val (p + q) - (val p + val q)) (val p + val q)
    rw [sub_add_cancel] at this
    nlinarith
  have h4 := hRd.smul (1 / 2) (p + q) (by rw [abs_of_nonneg] <;> norm_num) (h3.trans (by linarith))
  have e2 : ‖(1 / 2 : ℝ)‖ = 1 / 2 := by norm_num
  rw [norm_smul, e2] at h4
  have e : val ((1 / 2 : ℝ) • (p + q)) - (1 / 2 : ℝ) • (val p + val q) = (val ((1 / 2 : ℝ) • (p + q)) -
      (1 / 2 : ℝ) • val (p + q)) + (1 / 2 : ℝ) • (val (p + q) - (val p + val q)) := by module
  rw [e]
  refine (norm_add_le _ _).trans ?_
  rw [norm_smul, e2]
  nlinarith

/-- C93 for operations with relative error `ε` and absolute error `η` (`Rounded`, C66), and distances with errors up to `κ`. -/
theorem C93_floating {ε η B : ℝ} (hRd : Rounded ε η B val) (hB : 2 * (1 + ε) * R ≤ B) (hmid : (2 * ε + ε ^ 2) * R + η ≤ κ)
    (hsym : ∀ p q, len p q = len q p)
    (hlen : ∀ p q, ‖val p‖ ≤ R → ‖val q‖ ≤ R → |len p q - dist (val p) (val q)| ≤ κ)
    (hv : inp.Valid) (hL : 0 < L) (hR0 : 0 ≤ R) (hκ : κ ≤ L / 50) {n : Nat}
    (hR : ∀ v p, inp.pos v = some p → ‖val p‖ ≤ R - n * κ)
    (hn : ∀ e ∈ dartsOf inp.tris, ∀ p q, inp.pos e.1 = some p → inp.pos e.2 = some q →
      dist (val p) (val q) ≤ (10 / 9) ^ n * (49 / 50 * L))
    (cosn : Nat → ℝ) (c : Cond Filt (Option Edge)) :
    ∃ out c', (∀ fuel, n ≤ fuel →
        condGenerate lib (condEdgeUpd .linear lib cosn) (some (lengthCompute len L)) fuel c inp = some (.ok out, c')) ∧
      out.Valid ∧ (∀ v p, inp.pos v = some p → out.pos v = some p) ∧
      ∀ e ∈ dartsOf out.tris, ∀ p q, out.pos e.1 = some p → out.pos e.2 = some q →
        len p q ≤ L ∧ dist (val p) (val q) ≤ 51 / 50 * L := by
  have he := hRd.eps
  have hη := hRd.eta
  have H : Measured val len R κ := by
    refine ⟨fun p q hp hq => ?_, hlen, hsym⟩
    exact (hRd.mid hp hq hB).trans hmid
  have h0 : 0 ≤ κ := le_trans (by positivity) hmid
  obtain ⟨out, c', k1, k2, k3, -, k4⟩ := C93_rounded_length_terminates (lib := lib) H hv hL h0 hκ hR hn cosn c
  exact ⟨out, c', k1, k2, k3, k4⟩

/-- C93, the other side: an edge between two machine positions with none between them, longer than `MaximumLength`.  Its computed
midpoint is one of its ends, so that one half of it is as long as the whole, and `Update()` never returns.  (`none`: the iterations
of the model are used up, however many they are.) -/
theorem C93_neighbours_never_return {x y : P} (hN : Neighbours x y) (h1 : L < len x y) (h2 : L < len y x) (hv : inp.Valid)
    {e : Edge} (he : e ∈ dartsOf inp.tris) (hx : inp.pos e.1 = some x) (hy : inp.pos e.2 = some y) (cosn : Nat → ℝ) (n : Nat)
    (c : Cond Filt (Option Edge)) :
    condGenerate lib (condEdgeUpd .linear lib cosn) (some (lengthCompute len L)) n c inp = none := by
  obtain ⟨sel, k1, k2, k3⟩ := condLength_start (sch := .linear) (lib := lib) hv (by simp) (by simp) (n := n)
    (condEdgeUpd .linear lib cosn) len L c
  rw [k3]
  have hm := copyGeometry_valid lib hv
  obtain ⟨l, k4, -, k5, -⟩ := C29_length_exact len L hm.has_edge_cells hm.endsExist c.sel
  rw [k1] at k4
  cases k4
  have hpos : ∀ v, (copyGeometry lib inp).pos v = inp.pos v := fun v => by
    simp only [Mesh.pos, copyGeometry_points lib hv]
  exact neighbours_loop hN h1 h2 n k2 k5 ⟨e, by rw [copyGeometry_tris lib hv]; exact he, Or.inl ⟨by rw [hpos]; exact hx,
    by rw [hpos]; exact hy⟩⟩

end

section examples
open WithLp

/-- the exact values, with the euclidean distance -/
noncomputable def m3place (p : M3) : EuclideanSpace ℝ (Fin 3) := toLp 2 (m3val p)

/-- the distance, rounded to 53 digits -/
noncomputable def m3len (p q : M3) : ℝ := toDigits 53 (dist (m3place p) (m3place q))

theorem euclid_le {k : ℝ} (hk : 0 ≤ k) {v w : EuclideanSpace ℝ (Fin 3)} (h : ∀ i, |v i| ≤ k * |w i|) : ‖v‖ ≤ k * ‖w‖ := by
  rw [EuclideanSpace.norm_eq, EuclideanSpace.norm_eq, ← Real.sqrt_sq hk, ← Real.sqrt_mul (sq_nonneg k)]
  apply Real.sqrt_le_sqrt
  rw [Finset.mul_sum]
  refine Finset.sum_le_sum fun i _ => ?_
  rw [Real.norm_eq_abs, Real.norm_eq_abs, ← mul_pow]
  exact pow_le_pow_left₀ (abs_nonneg _) (h i) 2

theorem euclid_coord (v : EuclideanSpace ℝ (Fin 3)) (i : Fin 3) : |v i| ≤ ‖v‖ := by
  have := EuclideanSpace.norm_eq v
  rw [this]
  refine Real.le_sqrt_of_sq_le ?_
  rw [← Real.norm_eq_abs]
  exact Finset.single_le_sum (f := fun i => ‖v i‖ ^ 2) (fun i _ => by positivity) (Finset.mem_univ i)

theorem m3place_rounded : Rounded (2 * (1 / 2) ^ 53 + ((1 / 2) ^ 53) ^ 2) 0 ((2 : ℝ) ^ 200 / 2) m3place := by
  have H := rounded_double (F := 2 ^ 200) (one_le_pow₀ (by norm_num))
  refine ⟨H.eps, le_refl _, ?_, fun p q hp hq => euclid_le H.eps fun i => ?_, fun k p hk hp => ?_⟩
  · ext i; exact H.zero
  · exact H.add (p i) (q i) ((euclid_coord (m3place p) i).trans hp) ((euclid_coord (m3place q) i).trans hq)
  · rw [add_zero]
    refine euclid_le H.eps fun i => ?_
    have := H.smul k (p i) hk ((euclid_coord (m3place p) i).trans hp)
    rw [add_zero] at this
    exact this

theorem patchM_place (v : PId) (p : M3) (h : patchM.pos v = some p) : ‖m3place p‖ ≤ 6 := by
  have hm : p ∈ [m3 0 0 0, m3 4 0 0, m3 0 4 0, m3 2 (-4) 0, m3 4 4 1, m3 (-4) 2 0] :=
    in_of_dense (C := {p | p ∈ [m3 0 0 0, m3 4 0 0, m3 0 4 0, m3 2 (-4) 0, m3 4 4 1, m3 (-4) 2 0]}) (out := patchM) rfl
      (fun _ h => h) v p h
  rw [EuclideanSpace.norm_eq, Fin.sum_univ_three]
  refine Real.sqrt_le_iff.2 ⟨by norm_num, ?_⟩
  simp only [List.mem_cons, List.not_mem_nil, or_false] at hm
  rcases hm with rfl | rfl | rfl | rfl | rfl | rfl <;> simp only [m3place, m3val, m3, Matrix.cons_val, Real.norm_eq_abs, sq_abs] <;>
    norm_num

/-- In `double`, with lengths up to a thousandth: at most 90 iterations. -/
example (c : Cond Filt (Option Edge)) : ∃ out c', (∀ fuel, 90 ≤ fuel →
      condGenerate someLib (condEdgeUpd .linear someLib realCos) (some (lengthCompute m3len (1 / 1000))) fuel c patchM =
        some (.ok out, c')) ∧ out.Valid ∧ (∀ v p, patchM.pos v = some p → out.pos v = some p) ∧
      ∀ e ∈ dartsOf out.tris, ∀ p q, out.pos e.1 = some p → out.pos e.2 = some q →
        m3len p q ≤ 1 / 1000 ∧ dist (m3place p) (m3place q) ≤ 51 / 50 * (1 / 1000) := by
  refine C93_floating (R := 7) (κ := 1 / 50000) (n := 90) m3place_rounded (by norm_num) (by norm_num)
    (fun p q => by unfold m3len; rw [dist_comm]) (fun p q hp hq => ?_) patchM_ok.1 (by norm_num) (by norm_num) (by norm_num)
    (fun v p h => (patchM_place v p h).trans (by norm_num)) (fun e _ p q hp hq => ?_) _ c
  · refine (toDigits_near 53 _).trans ?_
    rw [abs_of_nonneg dist_nonneg]
    have : dist (m3place p) (m3place q) ≤ 14 := (dist_le_norm_add_norm _ _).trans (by linarith)
    norm_num
    linarith
  · refine (dist_le_norm_add_norm _ _).trans ?_
    have := patchM_place _ _ hp
    have := patchM_place _ _ hq
    norm_num
    linarith

theorem toDigits_exact {p : Nat} {x : ℝ} {z k : ℤ} (h0 : (2 : ℝ) ^ z ≤ |x|) (h1 : |x| < (2 : ℝ) ^ (z + 1))
    (hk : round (x / (2 : ℝ) ^ (z + 1 - p)) = k) : toDigits p x = k * (2 : ℝ) ^ (z + 1 - p) := by
  have hx : 0 < |x| := lt_of_lt_of_le (by positivity) h0
  have hz : Int.log 2 |x| = z := by
    refine le_antisymm ?_ ?_
    · exact Int.lt_add_one_iff.1 ((Int.lt_zpow_iff_log_lt (by norm_num) hx).1 (by exact_mod_cast h1))
    · exact (Int.zpow_le_iff_le_log (by norm_num) hx).1 (by exact_mod_cast h0)
  unfold toDigits
  rw [hz, hk]

/-- the number after 1 -/
noncomputable def next1 : ℝ := 1 + (1 / 2) ^ 52

theorem next_mid : (1 / 2 : ℝ) • ((⟨1⟩ : Double) + ⟨next1⟩) = ⟨next1⟩ ∧ (1 / 2 : ℝ) • ((⟨next1⟩ : Double) + ⟨1⟩) = ⟨next1⟩ := by
  have h1 : toDigits 53 (1 + next1) = (2 ^ 52 + 1 : ℤ) * (2 : ℝ) ^ (1 + 1 - (53 : ℕ) : ℤ) := by
    refine toDigits_exact (z := 1) ?_ ?_ ?_
    · unfold next1; rw [abs_of_pos (by positivity)]; norm_num
    · unfold next1; rw [abs_of_pos (by positivity)]; norm_num
    · rw [round_eq, Int.floor_eq_iff]
      unfold next1
      norm_num
  have h2 : toDigits 53 (1 / 2) = (2 ^ 52 : ℤ) * (2 : ℝ) ^ (-1 + 1 - (53 : ℕ) : ℤ) := by
    refine toDigits_exact (z := -1) ?_ ?_ ?_
    · rw [abs_of_pos (by positivity)]; norm_num
    · rw [abs_of_pos (by positivity)]; norm_num
    · rw [round_eq, Int.floor_eq_iff]
      norm_num
  have h3 : toDigits 53 (toDigits 53 (1 / 2) * toDigits 53 (1 + next1)) = next1 := by
    have e : toDigits 53 (1 / 2) * toDigits 53 (1 + next1) = next1 := by
      rw [h1, h2]; unfold next1; norm_num
    rw [e, toDigits_exact (z := 0) (k := 2 ^ 52 + 1)]
    · unfold next1; norm_num
    · unfold next1; rw [abs_of_pos (by positivity)]; norm_num
    · unfold next1; rw [abs_of_pos (by positivity)]; norm_num
    · rw [round_eq, Int.floor_eq_iff]
      unfold next1
      norm_num
  refine ⟨congrArg Mach.mk h3, ?_⟩
  have h4 : toDigits 53 (toDigits 53 (1 / 2) * toDigits 53 (next1 + 1)) = next1 := by rw [add_comm next1]; exact h3
  exact congrArg Mach.mk h4

theorem zero_mid : (1 / 2 : ℝ) • ((0 : Double) + 0) = 0 := by
  have h : toDigits 53 (toDigits 53 (1 / 2) * toDigits 53 (0 + 0)) = 0 := by simp [toDigits]
  exact congrArg Mach.mk h

theorem next_neighbours : Neighbours (m3 1 0 0) (m3 next1 0 0) := by
  have h0 := zero_mid
  constructor
  · right
    funext i
    fin_cases i
    · exact next_mid.1
    · exact h0
    · exact h0
  · right
    funext i
    fin_cases i
    · exact next_mid.2
    · exact h0
    · exact h0

theorem next_long : (1 / 2) ^ 53 < m3len (m3 1 0 0) (m3 next1 0 0) := by
  have h1 : (1 / 2) ^ 52 ≤ dist (m3place (m3 1 0 0)) (m3place (m3 next1 0 0)) := by
    rw [dist_comm, dist_eq_norm]
    refine le_trans ?_ (euclid_coord _ 0)
    have : (m3place (m3 next1 0 0) - m3place (m3 1 0 0)) 0 = (1 / 2) ^ 52 := by
      change next1 - 1 = _
      unfold next1; ring
    rw [this]
    exact le_abs_self _
  have h2 := abs_le.1 (toDigits_near 53 (dist (m3place (m3 1 0 0)) (m3place (m3 next1 0 0))))
  rw [abs_of_nonneg dist_nonneg] at h2
  unfold m3len
  generalize dist (m3place (m3 1 0 0)) (m3place (m3 next1 0 0)) = d at *
  have := h2.1
  norm_num at *
  linarith

/-- In `double`, a triangle with an edge from 1 to the next number, and a maximum less than that: `Update()` never returns. -/
example (n : Nat) (c : Cond Filt (Option Edge)) :
    condGenerate someLib (condEdgeUpd .linear someLib realCos) (some (lengthCompute m3len ((1 / 2) ^ 53))) n c
      (mk [m3 1 0 0, m3 next1 0 0, m3 1 1 0] [(0, 1, 2)] (some [(0, 7)])) = none := by
  have hok := mk_ok (P := M3) (pts := [m3 1 0 0, m3 next1 0 0, m3 1 1 0]) (T := [(0, 1, 2)]) (some [(0, 7)]) (by decide)
  refine C93_neighbours_never_return next_neighbours next_long ?_ hok.1 (e := (0, 1)) ?_ rfl rfl _ n c
  · unfold m3len; rw [dist_comm]; exact next_long
  · rw [hok.2.2.2]; decide

end examples
end Verif
