import Verif.Proofs.LoopLength
import Verif.Properties.CondKeeps
/-
C75  the conditional filter with the Loop edge filter and the length criterion ends.
-/
namespace Verif
variable {E D : Type} [NormedAddCommGroup E] [InnerProductSpace ℝ E] {lib : QELib} {inp : Mesh E D}

/-- C75. With the Loop edge filter and a positive `MaximumLength` `L`, `Update()` of the conditional filter returns within `n`
iterations when no edge of the input is longer than `(10 / 9) ^ n * L`; the output is valid and inside the convex hull of the
input, keeps the points of the input, and none of its edges is longer than `L`. -/
theorem C75_loop_length_terminates (hv : inp.Valid) (hi : inp.NoIsolated) (hl : lib.Lawful) {L : ℝ} (hL : 0 < L) {n : Nat}
    (hn : ∀ e ∈ dartsOf inp.tris, dist (inp.place e.1) (inp.place e.2) ≤ (10 / 9) ^ n * L)
    (cosn : Nat → ℝ) (c : Cond Filt (Option Edge)) :
    ∃ out c', (∀ fuel, n ≤ fuel →
        condGenerate lib (condEdgeUpd .loop lib cosn) (some (lengthCompute dist L)) fuel c inp = some (.ok out, c')) ∧
      out.Valid ∧ (∀ v p, inp.pos v = some p → out.pos v = some p) ∧ (∀ v p, out.pos v = some p → p ∈ inp.hull ℝ) ∧
      ∀ e ∈ dartsOf out.tris, dist (out.place e.1) (out.place e.2) ≤ L := by
  have hl' : EdgeScheme.loop = .loop ∨ EdgeScheme.loop = .butterfly → lib.Lawful := fun _ => hl
  have hcrit : ∀ (m : Mesh E D) (old : List (Option Edge)), m.Valid → ∃ l : List Edge,
      lengthCompute dist L m old = (.ok (), l.map some) ∧ (∀ e, e ∈ l ↔ e ∈ m.edges ∧ m.TooLong dist L e) ∧
      DistinctEdges l := by
    intro m old hm
    obtain ⟨l, h1, -, h2, h3⟩ := C29_length_exact dist L hm.has_edge_cells hm.endsExist old
    exact ⟨l, h1, h2, h3 hm.edges_once⟩
  have hnc := copyGeometry_needs (sch := Scheme.loop) hv (fun _ => hl) (fun _ => hi)
  have hv' := hnc.valid
  obtain ⟨l, h1, h2, h2'⟩ := hcrit _ c.sel hv'
  let I : Nat → Cond Filt (Option Edge) → Mesh E D → Prop := fun k c cur =>
    EdgeScheme.loop.toScheme.Needs cur ∧
      (∀ v p, inp.pos v = some p → cur.pos v = some p) ∧
      (∀ e, cur.IsEdge e → dist (cur.place e.1) (cur.place e.2) ≤ (10 / 9) ^ k * L) ∧
      ∃ l : List Edge, c.sel = l.map some ∧ (∀ e, e ∈ l ↔ e ∈ cur.edges ∧ cur.TooLong dist L e) ∧ DistinctEdges l
  have hzero : ∀ c cur, I 0 c cur → c.sel = [] := by
    rintro c cur ⟨k1, -, k2, l, k3, k4, -⟩
    have : l = [] := by
      rw [List.eq_nil_iff_forall_not_mem]
      intro e he
      obtain ⟨h3, h4⟩ := (k4 e).1 he
      rw [tooLong_iff k1.valid (Or.inl h3)] at h4
      exact absurd (k2 e (Or.inl h3)) (by simpa using h4)
    rw [k3, this]; rfl
  have hstep : ∀ k c cur, I (k + 1) c cur → c.sel ≠ [] → ∃ m s' sel', condEdgeUpd .loop lib cosn c.inner c.sel cur =
      (.ok m, s') ∧ lengthCompute dist L m c.sel = (.ok (), sel') ∧ I k ⟨s', sel'⟩ m := by
    rintro k c cur ⟨k1, k4, k5, l, k6, k7, k8⟩ hs
    have hne : l ≠ [] := by rintro rfl; exact hs k6
    have hE : ∀ e ∈ l, cur.IsEdge e := fun e he => Or.inl ((k7 e).1 he).1
    obtain ⟨m, f', h4, h5, h6, h7⟩ := condEdgeUpd_ok (sch := .loop) (lib := lib) cosn hl' k1 hne hE k8 c.inner
    obtain ⟨l', h8, h9, h10⟩ := hcrit m c.sel h6.valid
    have hbig : L ≤ (10 / 9) ^ k * L := le_mul_of_one_le_left hL.le (one_le_pow₀ (by norm_num))
    refine ⟨m, f', _, by rw [k6]; exact h4, h8, h6, fun v p h => ?_, fun e he => ?_, l', rfl, h9, h10⟩
    · exact C06_original_points_kept_edge k1.valid.points_dense h5 v p (k4 v p h)
    · refine (loop_length_iteration k1 hne hL.le ?_ k7 k5 h5 h6.valid e he).trans (max_le hbig ?_)
      · exact le_mul_of_one_le_left hL.le (one_le_pow₀ (by norm_num))
      · rw [pow_succ]; linarith
  have hinit : I n ⟨c.inner, l.map some⟩ (copyGeometry lib inp) := by
    refine ⟨hnc, fun v p h => by simpa only [Mesh.pos, copyGeometry_points lib hv] using h, fun e he => ?_, l, rfl, h2, h2'⟩
    rw [place_copyGeometry hv]
    rcases (hv.edges_iff e).1 he with h | h
    · exact hn e h
    · rw [dist_comm]; exact hn _ h
  obtain ⟨out, c', k, h3, -, h4, h5, h6, h7⟩ := condLoop_ends I hzero hstep n hinit
  have h10 : condGenerate lib (condEdgeUpd .loop lib cosn) (some (lengthCompute dist L)) n c inp =
      some (.ok out, c') := by
    unfold condGenerate
    simp only [h1]
    exact h3
  refine ⟨out, c', fun fuel hf => condGenerate_mono h10 hf, h4.valid, h5, ?_, fun e he => ?_⟩
  · have key := condLength_induct hv hl' (fun _ => hi) (fun m => m.hull ℝ ⊆ inp.hull ℝ) (hull_copy lib hv).subset
      (fun m out sel f f' H _ _ h h1 => (hull_mono (C20_hull_edge (by decide) H.needs (f := f.setEdges sel) H.selOK h)).trans h1) h10
    exact fun v p hp => key (subset_convexHull ℝ _ ⟨v, hp⟩)
  have h11 := (C30_length_postcondition h10).2.1
  rcases h4.valid.isEdge_of_dart he with h | h
  · have := h11 _ h
    rw [tooLong_iff h4.valid (Or.inl h)] at this
    exact not_lt.1 this
  · have := h11 _ h
    rw [tooLong_iff h4.valid (Or.inl h)] at this
    rw [dist_comm]
    exact not_lt.1 this

/-- C75: hence `Update()` returns, for every positive threshold. -/
theorem C75_loop_length_returns (hv : inp.Valid) (hi : inp.NoIsolated) (hl : lib.Lawful) {L : ℝ} (hL : 0 < L)
    (cosn : Nat → ℝ) (c : Cond Filt (Option Edge)) : ∃ n out c', ∀ fuel, n ≤ fuel →
      condGenerate lib (condEdgeUpd .loop lib cosn) (some (lengthCompute dist L)) fuel c inp = some (.ok out, c') := by
  obtain ⟨M, hM⟩ : ∃ M : ℝ, ∀ e ∈ dartsOf inp.tris, dist (inp.place e.1) (inp.place e.2) ≤ M := by
    refine ⟨((dartsOf inp.tris).map fun e => dist (inp.place e.1) (inp.place e.2)).sum, fun e he => ?_⟩
    exact List.single_le_sum (fun x hx => by obtain ⟨e, -, rfl⟩ := List.mem_map.1 hx; exact dist_nonneg) _
      (List.mem_map.2 ⟨e, he, rfl⟩)
  obtain ⟨n, hn⟩ := pow_unbounded_of_one_lt (M / L) (show (1 : ℝ) < 10 / 9 by norm_num)
  obtain ⟨out, c', h, -⟩ := C75_loop_length_terminates hv hi hl hL (n := n)
    (fun e he => (hM e he).trans (by rw [div_lt_iff₀ hL] at hn; exact hn.le)) cosn c
  exact ⟨n, out, c', h⟩

example : ∃ n out c', ∀ fuel, n ≤ fuel → condGenerate someLib (condEdgeUpd .loop someLib realCos)
    (some (lengthCompute dist (1 / 100))) fuel ⟨Filt.new, [none]⟩ patchP = some (.ok out, c') :=
  C75_loop_length_returns patchP_ok.1 patchP_ok.2.2.1 someLib_lawful (by norm_num) _ _

end Verif
