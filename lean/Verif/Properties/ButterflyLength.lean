import Verif.Proofs.ButterflyLength
import Verif.Properties.CondKeeps
/-
C83  the conditional filter with the ModifiedButterfly edge filter and the length criterion ends on closed meshes.
-/
namespace Verif
variable {E D : Type} [NormedAddCommGroup E] [InnerProductSpace ℝ E] {lib : QELib} {inp : Mesh E D}

/-- C83 for closed meshes. With the ModifiedButterfly edge filter and a positive `MaximumLength` `L`, `Update()` of the conditional
filter returns within `n + 2` iterations when no edge of the input is longer than `(100 / 99) ^ n * (11 / 10 * L)`; the output is
valid and closed, keeps the points of the input, and none of its edges is longer than `L`.

The edges become shorter in each iteration until none is longer than `11 / 10 * L`.  From then on new edges longer than `L` arise
between a new point and an opposite corner only; the triangles at such an edge have a short and a very short side, and the next
iteration is the last one.

What is missing for the full claim are meshes with boundary, where the filter takes points from along the boundary. -/
theorem C83_butterfly_length_partial (hv : inp.Valid) (hcl : inp.Closed) (hl : lib.Lawful) {L : ℝ} (hL : 0 < L) {n : Nat}
    (hn : ∀ e ∈ dartsOf inp.tris, dist (inp.place e.1) (inp.place e.2) ≤ (100 / 99) ^ n * (11 / 10 * L))
    (cosn : Nat → ℝ) (c : Cond Filt (Option Edge)) :
    ∃ out c', (∀ fuel, n + 2 ≤ fuel →
        condGenerate lib (condEdgeUpd .butterfly lib cosn) (some (lengthCompute dist L)) fuel c inp = some (.ok out, c')) ∧
      out.Valid ∧ out.Closed ∧ (∀ v p, inp.pos v = some p → out.pos v = some p) ∧
      ∀ e ∈ dartsOf out.tris, dist (out.place e.1) (out.place e.2) ≤ L := by
  have hl' : EdgeScheme.butterfly = .loop ∨ EdgeScheme.butterfly = .butterfly → lib.Lawful := fun _ => hl
  have hcrit : ∀ (m : Mesh E D) (old : List (Option Edge)), m.Valid → ∃ l : List Edge,
      lengthCompute dist L m old = (.ok (), l.map some) ∧ (∀ e, e ∈ l ↔ e ∈ m.edges ∧ m.TooLong dist L e) ∧
      DistinctEdges l := by
    intro m old hm
    obtain ⟨l, h1, -, h2, h3⟩ := C29_length_exact dist L hm.has_edge_cells hm.endsExist old
    exact ⟨l, h1, h2, h3 hm.edges_once⟩
  have hnc := copyGeometry_needs (sch := Scheme.butterfly) hv (fun _ => hl) (by simp)
  have hv' := hnc.valid
  obtain ⟨l, h1, h2, h2'⟩ := hcrit _ c.sel hv'
  let B : Nat → Mesh E D → Prop
    | 0, cur => ∀ e, cur.IsEdge e → dist (cur.place e.1) (cur.place e.2) ≤ L
    | 1, cur => (∀ e, cur.IsEdge e → dist (cur.place e.1) (cur.place e.2) ≤ 109 / 100 * L) ∧
        ∀ x y z, HasTri cur.tris x y z → L < dist (cur.place x) (cur.place y) →
          (dist (cur.place x) (cur.place z) ≤ 33 / 40 * L ∧ dist (cur.place y) (cur.place z) ≤ L) ∨
          (dist (cur.place x) (cur.place z) ≤ L ∧ dist (cur.place y) (cur.place z) ≤ 33 / 40 * L)
    | k + 2, cur => ∀ e, cur.IsEdge e → dist (cur.place e.1) (cur.place e.2) ≤ (100 / 99) ^ k * (11 / 10 * L)
  let I : Nat → Cond Filt (Option Edge) → Mesh E D → Prop := fun k c cur =>
    EdgeScheme.butterfly.toScheme.Needs cur ∧ cur.Closed ∧
      (∀ v p, inp.pos v = some p → cur.pos v = some p) ∧ B k cur ∧
      ∃ l : List Edge, c.sel = l.map some ∧ (∀ e, e ∈ l ↔ e ∈ cur.edges ∧ cur.TooLong dist L e) ∧ DistinctEdges l
  have hzero : ∀ c cur, I 0 c cur → c.sel = [] := by
    rintro c cur ⟨k1, -, -, k2, l, k3, k4, -⟩
    have : l = [] := by
      rw [List.eq_nil_iff_forall_not_mem]
      intro e he
      obtain ⟨h3, h4⟩ := (k4 e).1 he
      rw [tooLong_iff k1.valid (Or.inl h3)] at h4
      exact absurd (k2 e (Or.inl h3)) (by simpa using h4)
    rw [k3, this]; rfl
  -- the medians
  have med : ∀ {cur : Mesh E D} {M : ℝ}, cur.Valid → L ≤ M →
      (∀ e, cur.IsEdge e → dist (cur.place e.1) (cur.place e.2) ≤ M) → ∀ {S : ℝ}, 0 ≤ S → L ^ 2 + 2 * M ^ 2 ≤ S ^ 2 →
      ∀ x y z, HasTri cur.tris x y z → L < dist (cur.place x) (cur.place y) →
      (dist (cur.place x) (cur.place z) ≤ L ∨ dist (cur.place y) (cur.place z) ≤ L) →
      ‖(cur.place x - cur.place z) + (cur.place y - cur.place z)‖ ≤ S := by
    intro cur M hcv hLM hM S hS hSM x y z ht hlong hshort
    have d1 := hM _ (hcv.isEdge_of_dart ht.rot.dart)
    have d2 := hM _ (hcv.isEdge_of_dart ht.rot.rot.dart)
    rw [dist_comm] at d2
    have q1 := pow_le_pow_left₀ dist_nonneg d1 2
    have q2 := pow_le_pow_left₀ dist_nonneg d2 2
    refine median_le hL.le hS hlong (B := L ^ 2 + M ^ 2) ?_ (by linarith)
    rcases hshort with hs | hs
    · have := pow_le_pow_left₀ dist_nonneg hs 2
      simp only at q1
      linarith
    · have := pow_le_pow_left₀ dist_nonneg hs 2
      simp only at q2
      linarith
  have hB : ∀ k cur out (l : List Edge) (f f' : Filt), EdgeScheme.butterfly.toScheme.Needs cur → cur.Closed → l ≠ [] →
      (∀ e, e ∈ l ↔ e ∈ cur.edges ∧ cur.TooLong dist L e) →
      edgeUpdate .butterfly lib cosn (f.setEdges (l.map some)) cur = (.ok out, f') → out.Valid → B (k + 1) cur → B k out := by
    intro k cur out l f f' kn kc hne hs h hvo hb
    match k, hb with
    | 0, hb =>
      obtain ⟨hb, hcalm⟩ := hb
      refine fun e he => ((butterfly_length_iteration kn kc hne (S := 77 / 50 * L) hs hb ?_ h hvo).1 e he).trans ?_
      · intro x y z ht hlong _
        refine median_le hL.le (by positivity) hlong (B := (33 / 40 * L) ^ 2 + L ^ 2) ?_ (by nlinarith [sq_nonneg L])
        rcases hcalm x y z ht hlong with ⟨c1, c2⟩ | ⟨c1, c2⟩
        · have q1 := pow_le_pow_left₀ dist_nonneg c1 2
          have q2 := pow_le_pow_left₀ dist_nonneg c2 2
          linarith
        · have q1 := pow_le_pow_left₀ dist_nonneg c1 2
          have q2 := pow_le_pow_left₀ dist_nonneg c2 2
          linarith
      · exact max_le (max_le le_rfl (by linarith)) (by linarith)
    | 1, hb =>
      have hb' : ∀ e, cur.IsEdge e → dist (cur.place e.1) (cur.place e.2) ≤ 11 / 10 * L := by
        intro e he
        have := hb e he
        rwa [pow_zero, one_mul] at this
      obtain ⟨r1, r2⟩ := butterfly_length_iteration kn kc hne (S := 37 / 20 * L) hs hb'
        (med kn.valid (by linarith) hb' (by positivity) (by nlinarith [sq_nonneg L])) h hvo
      refine ⟨fun e he => (r1 e he).trans (max_le (max_le (by linarith) (by linarith)) (by linarith)), ?_⟩
      intro x y z ht hlong
      have := r2 (by linarith) x y z ht hlong
      rwa [show (3 / 4 * (11 / 10 * L) : ℝ) = 33 / 40 * L by ring] at this
    | k + 2, hb =>
      set M := (100 / 99 : ℝ) ^ (k + 1) * (11 / 10 * L) with hMdef
      have hM1 : (11 / 10 * L : ℝ) ≤ M := le_mul_of_one_le_left (by positivity) (one_le_pow₀ (by norm_num))
      have hM2 : (100 / 99 : ℝ) ^ k * (11 / 10 * L) = 99 / 100 * M := by rw [hMdef, pow_succ]; ring
      refine fun e he => ((butterfly_length_iteration kn kc hne (S := 169 / 100 * M) hs hb
        (med kn.valid (by linarith) hb (by linarith) ?_) h hvo).1 e he).trans ?_
      · nlinarith
      · rw [hM2]
        exact max_le (max_le (by linarith) (by linarith)) (by linarith)
  have hstep : ∀ k c cur, I (k + 1) c cur → c.sel ≠ [] → ∃ m s' sel', condEdgeUpd .butterfly lib cosn c.inner c.sel cur =
      (.ok m, s') ∧ lengthCompute dist L m c.sel = (.ok (), sel') ∧ I k ⟨s', sel'⟩ m := by
    rintro k c cur ⟨k1, kc, k4, k5, l, k6, k7, k8⟩ hs
    have hne : l ≠ [] := by rintro rfl; exact hs k6
    have hE : ∀ e ∈ l, cur.IsEdge e := fun e he => Or.inl ((k7 e).1 he).1
    obtain ⟨m, f', h4, h5, h6, h7⟩ := condEdgeUpd_ok (sch := .butterfly) (lib := lib) cosn hl' k1 hne hE k8 c.inner
    obtain ⟨l', h8, h9, h10⟩ := hcrit m c.sel h6.valid
    have hsel : cur.EdgeSelOK (c.inner.setEdges (l.map some)).edgeSel := by
      intro e he
      obtain ⟨e', he', h⟩ := List.mem_map.1 he
      cases h
      exact hE _ he'
    exact ⟨m, f', _, by rw [k6]; exact h4, h8, h6, (C18_boundary_preserved_edge k1 hsel h5).2.1 kc,
      fun v p h => C06_original_points_kept_edge k1.valid.points_dense h5 v p (k4 v p h),
      hB k cur m l c.inner f' k1 kc hne k7 h5 h6.valid k5, l', rfl, h9, h10⟩
  have hinit : I (n + 2) ⟨c.inner, l.map some⟩ (copyGeometry lib inp) := by
    refine ⟨hnc, ?_, fun v p h => by simpa only [Mesh.pos, copyGeometry_points lib hv] using h, fun e he => ?_, l, rfl, h2, h2'⟩
    · unfold Mesh.Closed Mesh.IsBoundary
      rw [copyGeometry_tris lib hv]
      exact hcl
    rw [place_copyGeometry hv]
    rcases (hv.edges_iff e).1 he with h | h
    · exact hn e h
    · rw [dist_comm]; exact hn _ h
  obtain ⟨out, c', k, h3, -, h4, h4', h5, -, -⟩ := condLoop_ends I hzero hstep (n + 2) hinit
  have h10 : condGenerate lib (condEdgeUpd .butterfly lib cosn) (some (lengthCompute dist L)) (n + 2) c inp =
      some (.ok out, c') := by
    unfold condGenerate
    simp only [h1]
    exact h3
  refine ⟨out, c', fun fuel hf => condGenerate_mono h10 hf, h4.valid, h4', h5, fun e he => ?_⟩
  have h11 := (C30_length_postcondition h10).2.1
  rcases h4.valid.isEdge_of_dart he with h | h
  · have := h11 _ h
    rw [tooLong_iff h4.valid (Or.inl h)] at this
    exact not_lt.1 this
  · have := h11 _ h
    rw [tooLong_iff h4.valid (Or.inl h)] at this
    rw [dist_comm]
    exact not_lt.1 this

/-- C83 for closed meshes: hence `Update()` returns, for every positive threshold. -/
theorem C83_butterfly_length_returns_partial (hv : inp.Valid) (hcl : inp.Closed) (hl : lib.Lawful) {L : ℝ} (hL : 0 < L)
    (cosn : Nat → ℝ) (c : Cond Filt (Option Edge)) : ∃ n out c', ∀ fuel, n ≤ fuel →
      condGenerate lib (condEdgeUpd .butterfly lib cosn) (some (lengthCompute dist L)) fuel c inp = some (.ok out, c') := by
  obtain ⟨M, hM⟩ : ∃ M : ℝ, ∀ e ∈ dartsOf inp.tris, dist (inp.place e.1) (inp.place e.2) ≤ M := by
    refine ⟨((dartsOf inp.tris).map fun e => dist (inp.place e.1) (inp.place e.2)).sum, fun e he => ?_⟩
    exact List.single_le_sum (fun x hx => by obtain ⟨e, -, rfl⟩ := List.mem_map.1 hx; exact dist_nonneg) _
      (List.mem_map.2 ⟨e, he, rfl⟩)
  obtain ⟨n, hn⟩ := pow_unbounded_of_one_lt (M / (11 / 10 * L)) (show (1 : ℝ) < 100 / 99 by norm_num)
  obtain ⟨out, c', h, -⟩ := C83_butterfly_length_partial hv hcl hl hL (n := n)
    (fun e he => (hM e he).trans (by rw [div_lt_iff₀ (by positivity)] at hn; exact hn.le)) cosn c
  exact ⟨n + 2, out, c', h⟩

/-- a tetrahedron in space -/
noncomputable def tetraE : Mesh (EuclideanSpace ℝ (Fin 3)) Nat := mk [!₂[0, 0, 0], !₂[4, 0, 0], !₂[0, 4, 0], !₂[0, 0, 4]] tetra none

theorem tetraE_ok : tetraE.Valid ∧ tetraE.RingOK ∧ tetraE.NoIsolated ∧ tetraE.tris = tetra := mk_ok _ (by decide)

theorem tetraE_closed : tetraE.Closed := by
  rintro e ⟨h1, h2⟩
  have : ∀ e ∈ dartsOf tetra, e.sym ∈ dartsOf tetra := by decide
  rw [tetraE_ok.2.2.2] at h1 h2
  exact h2 (this e h1)

example : ∃ n out c', ∀ fuel, n ≤ fuel → condGenerate someLib (condEdgeUpd .butterfly someLib realCos)
    (some (lengthCompute dist (1 / 100))) fuel ⟨Filt.new, [none]⟩ tetraE = some (.ok out, c') :=
  C83_butterfly_length_returns_partial tetraE_ok.1 tetraE_closed someLib_lawful (by norm_num) _ _

/-- with the threshold 5.5, at most three iterations -/
example : ∃ out c', ∀ fuel, 3 ≤ fuel → condGenerate someLib (condEdgeUpd .butterfly someLib realCos)
    (some (lengthCompute dist (11 / 2))) fuel ⟨Filt.new, []⟩ tetraE = some (.ok out, c') := by
  refine (C83_butterfly_length_partial tetraE_ok.1 tetraE_closed someLib_lawful (L := 11 / 2) (by norm_num) (n := 1) ?_ _ _).imp
    fun _ => Exists.imp fun _ h => h.1
  rw [tetraE_ok.2.2.2]
  have p0 : tetraE.place 0 = !₂[0, 0, 0] := rfl
  have p1 : tetraE.place 1 = !₂[4, 0, 0] := rfl
  have p2 : tetraE.place 2 = !₂[0, 4, 0] := rfl
  have p3 : tetraE.place 3 = !₂[0, 0, 4] := rfl
  have v2 : ∀ a b c : ℝ, (![a, b, c] : Fin 3 → ℝ) 2 = c := fun _ _ _ => rfl
  intro e he
  have he' : e ∈ [(0, 1), (1, 2), (2, 0), (0, 2), (2, 3), (3, 0), (0, 3), (3, 1), (1, 0), (1, 3), (3, 2), (2, 1)] := by
    revert he; revert e; decide
  simp only [List.mem_cons, List.not_mem_nil, or_false] at he'
  rcases he' with rfl | rfl | rfl | rfl | rfl | rfl | rfl | rfl | rfl | rfl | rfl | rfl <;>
    simp only [p0, p1, p2, p3, EuclideanSpace.dist_eq] <;>
    refine Real.sqrt_le_iff.2 ⟨by norm_num, ?_⟩ <;>
    norm_num [Fin.sum_univ_three, Real.dist_eq, v2]

end Verif
