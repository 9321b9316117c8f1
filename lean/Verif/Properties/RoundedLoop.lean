import Verif.Proofs.RoundedLoop
import Verif.Properties.RoundedLength
/-
C98  in machine arithmetic the conditional filter with the Loop edge filter and the length criterion ends.
-/
namespace Verif

section
variable {P V D : Type} [Zero P] [Add P] [SMul ℝ P] [NormedAddCommGroup V] [InnerProductSpace ℝ V] {val : P → V}
  {lib : QELib} {inp : Mesh P D} {len : P → P → ℝ} {L R κ : ℝ}

/-- C98. New points and distances are computed with errors up to `κ`, and `MaximumLength` `L` is at least 50 times as large.  If no
edge of the input is longer than `(20 / 19) ^ n * (49 / 50) * L`, `Update()` returns within `n` iterations (in a ball that leaves
room for `n` errors).  The output is valid, keeps the points of the input, and none of its edges is longer than `L` as computed,
or than `51 / 50 * L` in fact. -/
theorem C98_rounded_loop_terminates (H : MeasuredLoop val len R κ) (hv : inp.Valid) (hi : inp.NoIsolated) (hl : lib.Lawful)
    (hL : 0 < L) (h0 : 0 ≤ κ) (hκ : κ ≤ L / 50) {n : Nat}
    (hR : ∀ v p, inp.pos v = some p → ‖val p‖ ≤ R - n * κ)
    (hn : ∀ e ∈ dartsOf inp.tris, ∀ p q, inp.pos e.1 = some p → inp.pos e.2 = some q →
      dist (val p) (val q) ≤ (20 / 19) ^ n * (49 / 50 * L))
    (cosn : Nat → ℝ) (c : Cond Filt (Option Edge)) :
    ∃ out c', (∀ fuel, n ≤ fuel →
        condGenerate lib (condEdgeUpd .loop lib cosn) (some (lengthCompute len L)) fuel c inp = some (.ok out, c')) ∧
      out.Valid ∧ (∀ v p, inp.pos v = some p → out.pos v = some p) ∧ (∀ v p, out.pos v = some p → ‖val p‖ ≤ R) ∧
      ∀ e ∈ dartsOf out.tris, ∀ p q, out.pos e.1 = some p → out.pos e.2 = some q →
        len p q ≤ L ∧ dist (val p) (val q) ≤ 51 / 50 * L := by
  have hcrit : ∀ (m : Mesh P D) (old : List (Option Edge)), m.Valid → ∃ l : List Edge,
      lengthCompute len L m old = (.ok (), l.map some) ∧ (∀ e, e ∈ l ↔ e ∈ m.edges ∧ m.TooLong len L e) ∧
      DistinctEdges l := by
    intro m old hm
    obtain ⟨l, h1, -, h2, h3⟩ := C29_length_exact len L hm.has_edge_cells hm.endsExist old
    exact ⟨l, h1, h2, h3 hm.edges_once⟩
  have hnc := copyGeometry_needs (sch := Scheme.loop) (lib := lib) hv (fun _ => hl) (fun _ => hi)
  have hv' := hnc.valid
  obtain ⟨l, h1, h2, h2'⟩ := hcrit (copyGeometry lib inp) c.sel hv'
  let I : Nat → Cond Filt (Option Edge) → Mesh P D → Prop := fun k c cur =>
    EdgeScheme.loop.toScheme.Needs cur ∧
      (∀ v p, inp.pos v = some p → cur.pos v = some p) ∧
      (∀ v p, cur.pos v = some p → ‖val p‖ ≤ R - k * κ) ∧
      (∀ e, cur.IsEdge e → dist (cur.spot val e.1) (cur.spot val e.2) ≤ (20 / 19) ^ k * (49 / 50 * L) ∨ ¬ cur.TooLong len L e) ∧
      ∃ l : List Edge, c.sel = l.map some ∧ (∀ e, e ∈ l ↔ e ∈ cur.edges ∧ cur.TooLong len L e) ∧ DistinctEdges l
  have shrink : ∀ k : Nat, R - k * κ ≤ R := fun k => by
    have : 0 ≤ (k : ℝ) * κ := by positivity
    linarith
  have hzero : ∀ c cur, I 0 c cur → c.sel = [] := by
    rintro c cur ⟨k1, -, k0, k2, l, k3, k4, -⟩
    have : l = [] := by
      rw [List.eq_nil_iff_forall_not_mem]
      intro e he
      obtain ⟨h3, h4⟩ := (k4 e).1 he
      rcases k2 e (Or.inl h3) with h5 | h5
      · obtain ⟨p, q, hp, hq, h6⟩ := h4
        rw [spot_of_pos hp, spot_of_pos hq, pow_zero, one_mul] at h5
        have := abs_le.1 (H.near p q ((k0 _ _ hp).trans (shrink 0)) ((k0 _ _ hq).trans (shrink 0)))
        linarith [this.2]
      · exact h5 h4
    rw [k3, this]; rfl
  have hstep : ∀ k c cur, I (k + 1) c cur → c.sel ≠ [] → ∃ m s' sel', condEdgeUpd .loop lib cosn c.inner c.sel cur =
      (.ok m, s') ∧ lengthCompute len L m c.sel = (.ok (), sel') ∧ I k ⟨s', sel'⟩ m := by
    rintro k c cur ⟨k1, k4, k0, k5, l, k6, k7, k8⟩ hs
    have hne : l ≠ [] := by rintro rfl; exact hs k6
    have hE : ∀ e ∈ l, cur.IsEdge e := fun e he => Or.inl ((k7 e).1 he).1
    obtain ⟨m, f', h4, h5, h6, h7⟩ := condEdgeUpd_ok (sch := .loop) (lib := lib) cosn (fun _ => hl) k1 hne hE k8 c.inner
    obtain ⟨l', h8, h9, h10⟩ := hcrit m c.sel h6.valid
    refine ⟨m, f', _, by rw [k6]; exact h4, h8, h6, fun v p h => ?_, fun v p h => ?_, fun e he => ?_, l', rfl, h9, h10⟩
    · exact C06_original_points_kept_edge k1.valid.points_dense h5 v p (k4 v p h)
    · refine (rounded_loop_ball H k1 hE h0 (shrink _) k0 h5 v p h).trans ?_
      push_cast
      linarith
    · have hbig : 98 / 95 * L ≤ (20 / 19) ^ (k + 1) * (49 / 50 * L) := by
        have : (1 : ℝ) ≤ (20 / 19) ^ k := one_le_pow₀ (by norm_num)
        rw [pow_succ]
        nlinarith
      have := rounded_loop_iteration H k1 hne hL hκ hbig k7 (fun v p h => (k0 v p h).trans (shrink _)) k5 h5 h6.valid e he
      rw [pow_succ] at this
      refine this.imp_left fun h => h.trans (le_of_eq (by ring))
  have hinit : I n ⟨c.inner, l.map some⟩ (copyGeometry lib inp) := by
    have hpos : ∀ v, (copyGeometry lib inp).pos v = inp.pos v := fun v => by
      simp only [Mesh.pos, copyGeometry_points lib hv]
    refine ⟨hnc, fun v p h => by rw [hpos]; exact h, fun v p h => hR v p (by rw [← hpos]; exact h), fun e he => Or.inl ?_,
      l, rfl, h2, h2'⟩
    have key : ∀ e ∈ dartsOf inp.tris, dist ((copyGeometry lib inp).spot val e.1) ((copyGeometry lib inp).spot val e.2) ≤
        (20 / 19) ^ n * (49 / 50 * L) := by
      intro e he
      have hlt := hv.isEdge_lt (hv.isEdge_of_dart he)
      have p1 := hv.pos_eq hlt.1
      have p2 := hv.pos_eq hlt.2
      rw [spot_of_pos ((hpos _).trans p1), spot_of_pos ((hpos _).trans p2)]
      exact hn e he _ _ p1 p2
    rcases (hv'.edges_iff e).1 he with h | h
    · exact key e (by rwa [copyGeometry_tris lib hv] at h)
    · rw [dist_comm]; exact key _ (by rwa [copyGeometry_tris lib hv] at h)
  obtain ⟨out, c', k, h3, -, h4, h5, h6, h7⟩ := condLoop_ends I hzero hstep n hinit
  have h10 : condGenerate lib (condEdgeUpd .loop lib cosn) (some (lengthCompute len L)) n c inp =
      some (.ok out, c') := by
    unfold condGenerate
    simp only [h1]
    exact h3
  have h8 : ∀ v p, out.pos v = some p → ‖val p‖ ≤ R := fun v p h => (h6 v p h).trans (shrink _)
  refine ⟨out, c', fun fuel hf => condGenerate_mono h10 hf, h4.valid, h5, h8, fun e he p q hp hq => ?_⟩
  have h11 := (C30_length_postcondition h10).2.1
  have h12 : len p q ≤ L := by
    rcases h4.valid.isEdge_of_dart he with h | h
    · exact not_lt.1 fun hlt => h11 _ h ⟨p, q, hp, hq, hlt⟩
    · exact not_lt.1 fun hlt => h11 _ h ⟨q, p, hq, hp, by rw [H.symm]; exact hlt⟩
  refine ⟨h12, ?_⟩
  have := abs_le.1 (H.near p q (h8 _ _ hp) (h8 _ _ hq))
  linarith [this.1]

/-- C98 for operations with relative error `ε` and absolute error `η` (`Rounded`, C66), and distances with errors up to `κ`. -/
theorem C98_floating {ε η B : ℝ} (hRd : Rounded ε η B val) (hB : (1 + ε) ^ 5 * (2 * (R + 4 * η)) ≤ B)
    (hnew : ((1 + ε) ^ 5 - 1) * R + (1 + ε) ^ 5 * (4 * η) ≤ κ) (hsym : ∀ p q, len p q = len q p)
    (hlen : ∀ p q, ‖val p‖ ≤ R → ‖val q‖ ≤ R → |len p q - dist (val p) (val q)| ≤ κ)
    (hv : inp.Valid) (hi : inp.NoIsolated) (hl : lib.Lawful) (hL : 0 < L) (hR0 : 0 ≤ R) (hκ : κ ≤ L / 50) {n : Nat}
    (hR : ∀ v p, inp.pos v = some p → ‖val p‖ ≤ R - n * κ)
    (hn : ∀ e ∈ dartsOf inp.tris, ∀ p q, inp.pos e.1 = some p → inp.pos e.2 = some q →
      dist (val p) (val q) ≤ (20 / 19) ^ n * (49 / 50 * L))
    (cosn : Nat → ℝ) (c : Cond Filt (Option Edge)) :
    ∃ out c', (∀ fuel, n ≤ fuel →
        condGenerate lib (condEdgeUpd .loop lib cosn) (some (lengthCompute len L)) fuel c inp = some (.ok out, c')) ∧
      out.Valid ∧ (∀ v p, inp.pos v = some p → out.pos v = some p) ∧
      ∀ e ∈ dartsOf out.tris, ∀ p q, out.pos e.1 = some p → out.pos e.2 = some q →
        len p q ≤ L ∧ dist (val p) (val q) ≤ 51 / 50 * L := by
  have he := hRd.eps
  have hη := hRd.eta
  have h5 : 1 ≤ (1 + ε) ^ 5 := one_le_powers he 5
  have h0 : 0 ≤ κ := le_trans (by nlinarith) hnew
  have St := hRd.stable .loop (cosn := fun _ => 0) (fun _ _ => by norm_num) 0 0 (M := R) (a := 0) hR0 (le_refl _)
    (by simpa [Scheme.roundings, Scheme.widest, Scheme.growth, Scheme.multiples] using hB)
  have start : ∀ {p : P}, ‖val p‖ ≤ R → Fits ε val 0 R 0 (p, val p) := fun hp => ⟨le_refl _, hp, by simp⟩
  have fin : ∀ {x : P × V}, Fits ε val (0 + Scheme.loop.roundings 0) (Scheme.loop.growth * R)
      (Scheme.loop.growth * 0 + Scheme.loop.multiples * η) x → ‖val x.1 - x.2‖ ≤ κ := by
    intro x hx
    have := hx.near
    simp only [Scheme.roundings, Scheme.growth, Scheme.multiples] at this
    norm_num at this
    exact this.trans hnew
  have H : MeasuredLoop val len R κ := by
    refine ⟨⟨fun p q hp hq => ?_, hlen, hsym⟩, fun p q r s hp hq hr hs => ?_⟩
    · exact fin (St.2 (Or.inr rfl) _ (start hp) _ (start hq))
    · have := fin (St.4 rfl _ (start hp) _ (start hq) _ (start hr) _ (start hs))
      simpa only [Prod.fst_add, Prod.snd_add, Prod.fst_zero, Prod.snd_zero, Prod.smul_fst, Prod.smul_snd, zero_add] using this
  obtain ⟨out, c', k1, k2, k3, -, k4⟩ := C98_rounded_loop_terminates (lib := lib) H hv hi hl hL h0 hκ hR hn cosn c
  exact ⟨out, c', k1, k2, k3, k4⟩

/-- C98, the other side: a boundary edge between two machine positions with none between them, longer than `MaximumLength`.  The
Loop filter puts the new point of a boundary edge in the middle, and the computed midpoint is one of the ends, so that one half
is as long as the whole, and `Update()` never returns.  (`none`: the iterations of the model are used up, however many they are.) -/
theorem C98_neighbours_never_return {x y : P} (hN : Neighbours x y) (h1 : L < len x y) (h2 : L < len y x) (hv : inp.Valid)
    (hi : inp.NoIsolated) (hl : lib.Lawful) {e : Edge} (he : inp.IsBoundary e) (hx : inp.pos e.1 = some x)
    (hy : inp.pos e.2 = some y) (cosn : Nat → ℝ) (n : Nat) (c : Cond Filt (Option Edge)) :
    condGenerate lib (condEdgeUpd .loop lib cosn) (some (lengthCompute len L)) n c inp = none := by
  obtain ⟨sel, k1, k2, k3⟩ := condLength_start (sch := .loop) (lib := lib) hv (fun _ => hl) (fun _ => hi) (n := n)
    (condEdgeUpd .loop lib cosn) len L c
  rw [k3]
  have hm := copyGeometry_valid lib hv
  obtain ⟨l, k4, -, k5, -⟩ := C29_length_exact len L hm.has_edge_cells hm.endsExist c.sel
  rw [k1] at k4
  cases k4
  have hpos : ∀ v, (copyGeometry lib inp).pos v = inp.pos v := fun v => by
    simp only [Mesh.pos, copyGeometry_points lib hv]
  have hb : (copyGeometry lib inp).IsBoundary e := by
    unfold Mesh.IsBoundary
    rw [copyGeometry_tris lib hv]; exact he
  exact rim_neighbours_loop hl hN h1 h2 n k2 k5 ⟨e, hb, Or.inl ⟨by rw [hpos]; exact hx, by rw [hpos]; exact hy⟩⟩

end

section examples

/-- In `double`, with lengths up to a thousandth: at most 200 iterations. -/
example (c : Cond Filt (Option Edge)) : ∃ out c', (∀ fuel, 200 ≤ fuel →
      condGenerate someLib (condEdgeUpd .loop someLib realCos) (some (lengthCompute m3len (1 / 1000))) fuel c patchM =
        some (.ok out, c')) ∧ out.Valid ∧ (∀ v p, patchM.pos v = some p → out.pos v = some p) ∧
      ∀ e ∈ dartsOf out.tris, ∀ p q, out.pos e.1 = some p → out.pos e.2 = some q →
        m3len p q ≤ 1 / 1000 ∧ dist (m3place p) (m3place q) ≤ 51 / 50 * (1 / 1000) := by
  refine C98_floating (R := 7) (κ := 1 / 50000) (n := 200) m3place_rounded (by norm_num) (by norm_num)
    (fun p q => by unfold m3len; rw [dist_comm]) (fun p q hp hq => ?_) patchM_ok.1 patchM_ok.2.2.1 someLib_lawful (by norm_num)
    (by norm_num) (by norm_num) (fun v p h => (patchM_place v p h).trans (by norm_num)) (fun e _ p q hp hq => ?_) _ c
  · refine (toDigits_near 53 _).trans ?_
    rw [abs_of_nonneg dist_nonneg]
    have : dist (m3place p) (m3place q) ≤ 14 := (dist_le_norm_add_norm _ _).trans (by linarith)
    norm_num
    linarith
  · refine (dist_le_norm_add_norm _ _).trans ?_
    have := patchM_place _ _ hp
    have := patchM_place _ _ hq
    norm_num
    linarith

/-- In `double`, a triangle with an edge from 1 to the next number, and a maximum less than that: `Update()` never returns. -/
example (n : Nat) (c : Cond Filt (Option Edge)) :
    condGenerate someLib (condEdgeUpd .loop someLib realCos) (some (lengthCompute m3len ((1 / 2) ^ 53))) n c
      (mk [m3 1 0 0, m3 next1 0 0, m3 1 1 0] [(0, 1, 2)] (some [(0, 7)])) = none := by
  have hok := mk_ok (P := M3) (pts := [m3 1 0 0, m3 next1 0 0, m3 1 1 0]) (T := [(0, 1, 2)]) (some [(0, 7)]) (by decide)
  refine C98_neighbours_never_return next_neighbours next_long ?_ hok.1 hok.2.2.1 someLib_lawful (e := (0, 1)) ⟨?_, ?_⟩ rfl rfl
    _ n c
  · unfold m3len; rw [dist_comm]; exact next_long
  · rw [hok.2.2.2]; decide
  · rw [hok.2.2.2]; decide

end examples
end Verif
