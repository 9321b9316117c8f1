import Verif.Proofs.Cost
import Verif.Proofs.CostArea
import Verif.Properties.CondSqrt3
import Verif.Properties.Geometry
import Verif.Properties.Iterative
import Verif.Proofs.CondExact
/-
C76  the size of a refinement is bounded by what is refined.
-/
namespace Verif
set_option linter.unusedSectionVars false
section levels
variable {K P D : Type} [Field K] [Zero P] [Add P] [SMul K P] {lib : QELib} {cosn : Nat → K} {f f' : Filt}
  {inp out : Mesh P D} {sch : Scheme}

/-- C76, one run of a cell filter with a list: at most six more triangles and three more points for each entry of the list,
whatever the rest of the mesh. -/
theorem C76_level_cost (hs : sch ≠ .sqrt3) (hn : sch.Needs inp) (hsel : inp.SelOK f.cells) (hne : f.cells ≠ [])
    (h : cellUpdate sch lib cosn f inp = (.ok out, f')) :
    out.tris.length ≤ inp.tris.length + 6 * f.cells.length ∧ out.points.length ≤ inp.points.length + 3 * f.cells.length := by
  have := level_cost hs hn hsel h (S := inp.selected f.cells) (fun _ => Iff.rfl)
  rwa [selected_len hn.valid hsel hne] at this

example (out : Mesh Q3 Nat) (f' : Filt) (h : cellUpdate .loop someLib cos0 (usedFilt [1, 3]) patchMesh = (.ok out, f')) :
    out.tris.length ≤ 16 ∧ out.points.length ≤ 12 := by
  have := C76_level_cost (by decide) (patchMesh_needs .loop) patchMesh_sel (by simp [usedFilt]) h
  rw [patchMesh_ok.2.2.2] at this
  exact this

/-- C76, one run of an edge filter with a list: at most two more triangles for each entry, and a point for each entry that is
not null. -/
theorem C76_edge_cost {sch : EdgeScheme} (hn : sch.toScheme.Needs inp) (hsel : inp.EdgeSelOK f.edgeSel) (hne : f.edgeSel ≠ [])
    (h : edgeUpdate sch lib cosn f inp = (.ok out, f')) :
    out.tris.length ≤ inp.tris.length + 2 * f.edgeSel.length ∧ out.points.length ≤ inp.points.length + f.edgeSel.length := by
  have R := edgeUpdate_result hn hsel h
  have hu : f.edgeSel.isEmpty = false := by simp [hne]
  have hlen : (inp.selectedEdges f.edgeSel).length ≤ f.edgeSel.length := by
    unfold Mesh.selectedEdges
    rw [hu]
    exact List.length_filterMap_le _ _
  refine ⟨?_, ?_⟩
  · rw [R.tris, length_children]
    have hsub : ((dartsOf inp.tris).filter fun e => (inp.listPoint f.edgeSel e).isSome) ⊆
        inp.selectedEdges f.edgeSel ++ (inp.selectedEdges f.edgeSel).map Edge.sym := by
      intro e he
      rw [List.mem_filter] at he
      rw [List.mem_append, List.mem_map]
      have := he.2
      unfold Mesh.listPoint at this
      rw [lastLabel_isSome] at this
      rcases this with h | h
      · exact Or.inl h
      · exact Or.inr ⟨_, h, rfl⟩
    have := (List.subperm_of_subset (hn.valid.good.oriented.filter _) hsub).length_le
    rw [List.length_append, List.length_map] at this
    omega
  · rw [R.points, AMap.length_dense]
    simp only [List.length_append, List.length_map, List.length_range]
    omega

example (out : Mesh Q3 Nat) (f' : Filt)
    (h : edgeUpdate .butterfly someLib cos0 (Filt.new.setEdges [some (1, 0), none, some (4, 2)]) patchMesh = (.ok out, f')) :
    out.tris.length ≤ 10 ∧ out.points.length ≤ 9 := by
  have := C76_edge_cost (sch := .butterfly) (patchMesh_needs _) patchMesh_edges (List.cons_ne_nil _ _) h
  rw [patchMesh_ok.2.2.2] at this
  exact this

/-- C76, `n` levels of the iterative filter with a list: at most `4 (4 ^ n - 1)` more triangles and `2 (4 ^ n - 1)` more points
for each entry of the list. -/
theorem C76_iterative_cost (hs : sch ≠ .sqrt3) (hl : sch = .loop ∨ sch = .butterfly → lib.Lawful) {f : Iter}
    (hn : sch.Needs inp) (hne : f.cells ≠ []) (hsel : inp.SelOK f.cells)
    (h : (iterUpdate sch lib cosn f inp).1 = .ok out) :
    out.tris.length ≤ inp.tris.length + 4 * (4 ^ max 1 f.levels - 1) * f.cells.length ∧
      out.points.length ≤ inp.points.length + 2 * (4 ^ max 1 f.levels - 1) * f.cells.length := by
  let I : Nat → Mesh P D → List CId → Prop := fun n m sel => (n = 0 ∧ m = inp ∧ sel = f.cells) ∨
    (m.tris.length + 4 * f.cells.length ≤ inp.tris.length + 4 * 4 ^ n * f.cells.length ∧
      m.points.length + 2 * f.cells.length ≤ inp.points.length + 2 * 4 ^ n * f.cells.length ∧
      sel ≠ [] ∧ sel.length ≤ 2 * 4 ^ n * f.cells.length ∧ NoMore m sel)
  have hstep : ∀ (n : Nat) (m out : Mesh P D) (sel : List CId) (f' : Filt), sch.Needs m → m.SelOK sel → sch.Needs out →
      (sch = .sqrt3 → m.points.length + (m.selected sel).length ≤ idMax) →
      cellUpdate sch lib cosn (Filt.new.setCells sel) m = (.ok out, f') → I n m sel → I (n + 1) out f'.cells := by
    rintro n m out sel f' hnm hselm hno - h (⟨rfl, rfl, rfl⟩ | ⟨h1, h2, h3, h4, h5⟩)
    · right
      have k1 := C76_level_cost hs hnm (f := Filt.new.setCells f.cells) hselm hne h
      have k2 := next_count hs hnm (f := Filt.new.setCells f.cells) hselm hne h
      have k3 := allSplit_count (μ := m.edgePoint f.cells) hnm.valid.good.oriented (fun e => edgePoint_isSome _ _ e)
      rw [selected_len hnm.valid hselm hne] at k3
      have k4 := ((C16_selection_after_run hs hnm (f := Filt.new.setCells f.cells) hselm h).2 hne).1
      have k5 := next_noMore hs hnm (f := Filt.new.setCells f.cells) hselm hne h
      change _ = 4 * (m.tris.filter (allSplit (m.edgePoint f.cells))).length at k2
      obtain ⟨k6, k7⟩ := k1
      change _ ≤ _ + 6 * f.cells.length at k6
      change _ ≤ _ + 3 * f.cells.length at k7
      refine ⟨by omega, by omega, k4, by omega, k5⟩
    · right
      have k1 := C76_level_cost hs hnm (f := Filt.new.setCells sel) hselm h3 h
      have k2 := next_count hs hnm (f := Filt.new.setCells sel) hselm h3 h
      have k3 := allSplit_count_closed (μ := m.edgePoint sel) hnm.valid.good.oriented h5
      rw [selected_len hnm.valid hselm h3] at k3
      have k4 := ((C16_selection_after_run hs hnm (f := Filt.new.setCells sel) hselm h).2 h3).1
      have k5 := next_noMore hs hnm (f := Filt.new.setCells sel) hselm h3 h
      change _ = 4 * (m.tris.filter (allSplit (m.edgePoint sel))).length at k2
      obtain ⟨k6, k7⟩ := k1
      change _ ≤ _ + 6 * sel.length at k6
      change _ ≤ _ + 3 * sel.length at k7
      rw [pow_succ]
      refine ⟨by nlinarith, by nlinarith, k4, by nlinarith, k5⟩
  obtain ⟨m', sel', h1, -, h2⟩ := manyLevels_count (lib := lib) (cosn := cosn) hl
    I hstep (levelsOf f.levels) 0 hn hsel (fun hc => absurd hc hs) (Or.inl ⟨rfl, rfl, rfl⟩)
  rw [iterUpdate_eq, h1] at h
  cases h
  rw [levelsOf_eq] 
  have : 1 ≤ levelsOf f.levels := by unfold levelsOf; split <;> omega
  rcases h2 with h2 | h2
  · omega
  · rw [Nat.zero_add] at h2
    have h4 : 1 ≤ 4 ^ levelsOf f.levels := Nat.one_le_pow _ _ (by omega)
    obtain ⟨k, hk⟩ := Nat.exists_eq_add_of_le h4
    rw [hk] at h2 ⊢
    refine ⟨?_, ?_⟩
    · have := h2.1
      rw [Nat.add_sub_cancel_left]
      nlinarith
    · have := h2.2.1
      rw [Nat.add_sub_cancel_left]
      nlinarith

example (out : Mesh Q3 Nat) (h : (iterUpdate .loop someLib cos0 ⟨[1, 3], 3, []⟩ patchMesh).1 = .ok out) :
    out.tris.length ≤ 4 + 4 * 63 * 2 ∧ out.points.length ≤ 6 + 2 * 63 * 2 := by
  have := C76_iterative_cost (by decide) (fun _ => someLib_lawful) (f := ⟨[1, 3], 3, []⟩) (patchMesh_needs .loop) (by simp)
    patchMesh_sel h
  rw [patchMesh_ok.2.2.2] at this
  exact this

end levels

section area
variable {E D : Type} [NormedAddCommGroup E] [InnerProductSpace ℝ E] {lib : QELib} {cosn : Nat → ℝ} {inp out : Mesh E D}

open Classical in
/-- C76, the conditional filter with the Linear filter and the area criterion: the new points are at most the sum of
`4 a / A - 1` over the areas `a` of the input triangles larger than the threshold `A`, and the new triangles at most twice as
many. -/
theorem C76_conditional_cost (hv : inp.Valid) {A : ℝ} (hA : 0 < A) {n : Nat} {c c' : Cond Filt CId}
    (h : condGenerate lib (condCellUpd .linear lib cosn) (some (areaCompute heronArea A)) n c inp = some (.ok out, c')) :
    (out.tris.length : ℝ) ≤ inp.tris.length + 2 * inp.excess A ∧ (out.points.length : ℝ) ≤ inp.points.length + inp.excess A := by
  have key := condArea_induct_exact (sch := .linear) hv (by simp) (by simp) (by simp)
    (fun m => (m.tris.length : ℝ) + 2 * m.excess A ≤ inp.tris.length + 2 * inp.excess A ∧
      (m.points.length : ℝ) + m.excess A ≤ inp.points.length + inp.excess A) ?_ ?_ h
  · have h0 : 0 ≤ out.excess A := excess_nonneg hA
    exact ⟨by linarith [key.1], by linarith [key.2]⟩
  · have e : (copyGeometry lib inp).excess A = inp.excess A := by
      unfold Mesh.excess
      rw [areaOf_copyGeometry hv, copyGeometry_tris lib hv]
    rw [e, copyGeometry_tris lib hv, copyGeometry_points lib hv]
    exact ⟨le_rfl, le_rfl⟩
  · rintro m out sel f f' hn hno hsel hne hex - hrun ⟨k1, k2⟩
    have hvm := hn.valid
    have S : SplitAtMid m out (m.edgePoint sel) := linear_split hvm (f := f.setCells sel) hsel hrun
    have hx := excess_step hvm hne hA hex S
    obtain ⟨h1, h2⟩ := level_cost (by decide) hn (f := f.setCells sel) hsel hrun
      (S := m.tris.filter fun t => decide (A < m.areaOf t)) (fun t => by
        change _ ↔ t ∈ m.selected sel
        rw [hvm.mem_selected hne, List.mem_filter, decide_eq_true_eq]
        constructor
        · rintro ⟨ht, hb⟩
          obtain ⟨k, hk⟩ := hvm.mem_tris.1 ht
          exact ⟨k, (hex k).2 ((tooLarge_iff hvm hk).2 hb), hk⟩
        · rintro ⟨k, hk, hc⟩
          exact ⟨hvm.mem_tris.2 ⟨k, hc⟩, (tooLarge_iff hvm hc).1 ((hex k).1 hk)⟩)
    have h1' : (out.tris.length : ℝ) ≤ m.tris.length + 6 * ((m.tris.filter fun t => decide (A < m.areaOf t)).length : ℝ) := by
      exact_mod_cast h1
    have h2' : (out.points.length : ℝ) ≤ m.points.length + 3 * ((m.tris.filter fun t => decide (A < m.areaOf t)).length : ℝ) := by
      exact_mod_cast h2
    exact ⟨by linarith, by linarith⟩

/-- C76, the same in terms of the total area, with the least number of triangles any result can have: the result is within a
constant factor of it, apart from the triangles of the input. -/
theorem C76_conditional_total (hv : inp.Valid) {A : ℝ} (hA : 0 < A) {n : Nat} {c c' : Cond Filt CId}
    (h : condGenerate lib (condCellUpd .linear lib cosn) (some (areaCompute heronArea A)) n c inp = some (.ok out, c')) :
    inp.totalArea / A ≤ out.tris.length ∧ (out.tris.length : ℝ) ≤ inp.tris.length + 8 * (inp.totalArea / A) := by
  constructor
  · obtain ⟨N, hN⟩ : ∃ N : Nat, ∀ t ∈ inp.tris, inp.areaOf t ≤ 4 ^ N * A := by
      obtain ⟨N, hN⟩ := pow_unbounded_of_one_lt (inp.totalArea / A) (show (1 : ℝ) < 4 by norm_num)
      refine ⟨N, fun t ht => ?_⟩
      rw [div_lt_iff₀ hA] at hN
      exact (List.single_le_sum (fun x hx => by obtain ⟨t, -, rfl⟩ := List.mem_map.1 hx; exact triArea_nonneg _ _ _) _
        (List.mem_map.2 ⟨t, ht, rfl⟩)).trans hN.le
    obtain ⟨out', c'', h', -, -, h2, -, h3⟩ := C32_area_terminates hv hA hN lib cosn c
    have e : out = out' := by
      have h1 := condGenerate_mono h (Nat.le_max_left n N)
      have h2 := h' _ (Nat.le_max_right n N)
      rw [h1] at h2
      simp only [Option.some.injEq, Prod.mk.injEq, Except.ok.injEq] at h2
      exact h2.1
    subst e
    rw [div_le_iff₀ hA, ← h2]
    unfold Mesh.totalArea
    calc (out.tris.map out.areaOf).sum ≤ (out.tris.map fun _ => A).sum := List.sum_le_sum h3
      _ = out.tris.length * A := by simp
  · have h1 := (C76_conditional_cost hv hA h).1
    have h2 := excess_le_total (inp := inp) hA
    have h3 : 4 * inp.totalArea / A = 4 * (inp.totalArea / A) := by ring
    rw [h3] at h2
    linarith

theorem patchP_areas : ∀ t ∈ patchP.tris, patchP.areaOf t = 8 := by
  have hp : ∀ v, patchP.place v = (([!₂[0, 0], !₂[4, 0], !₂[0, 4], !₂[3, -4], !₂[4, 4], !₂[-4, 1]] : List R2)[v]?).getD 0 := by
    intro v
    rw [← AMap.find?_dense, ← mapIdx_eq_dense]; rfl
  rw [patchP_ok.2.2.2]
  intro t ht
  simp only [patch, List.mem_cons, List.not_mem_nil, or_false] at ht
  rcases ht with rfl | rfl | rfl | rfl <;>
    simp only [Mesh.areaOf, triArea_R2, hp] <;> simp <;> norm_num

theorem patchP_excess : patchP.excess 2 = 60 := by
  classical
  unfold Mesh.excess
  have h1 : ∀ T : List Tri, (∀ t ∈ T, patchP.areaOf t = 8) →
      ((T.filter fun t => decide (2 < patchP.areaOf t)).map fun t => 4 * patchP.areaOf t / 2 - 1).sum = 15 * T.length := by
    intro T hT
    rw [sum_filter_eq, List.map_congr_left (g := fun _ => (15 : ℝ))]
    · simp; ring
    · intro t ht
      rw [hT t ht, if_pos (by norm_num)]
      norm_num
  rw [h1 _ patchP_areas, patchP_ok.2.2.2]
  norm_num [patch]

example : ∃ out c', condGenerate someLib (condCellUpd .linear someLib realCos) (some (areaCompute heronArea 2)) 1 ⟨usedFilt [1], [7]⟩
      patchP = some (.ok out, c') ∧ (out.tris.length : ℝ) ≤ 4 + 2 * 60 ∧ (out.points.length : ℝ) ≤ 6 + 60 ∧ 16 ≤ (out.tris.length : ℝ) := by
  obtain ⟨out, c', h, -⟩ := C32_area_terminates patchP_ok.1 (A := 2) (by norm_num) (n := 1)
    (fun t ht => by rw [patchP_areas t ht]; norm_num) someLib realCos ⟨usedFilt [1], [7]⟩
  have h := h 1 le_rfl
  have h1 := C76_conditional_cost patchP_ok.1 (by norm_num) h
  have h2 := (C76_conditional_total patchP_ok.1 (by norm_num) h).1
  have h3 : patchP.totalArea = 32 := by
    unfold Mesh.totalArea
    rw [List.map_congr_left patchP_areas, patchP_ok.2.2.2]
    norm_num [patch]
  rw [patchP_excess, patchP_ok.2.2.2] at h1
  rw [h3] at h2
  refine ⟨out, c', h, by simpa [patch] using h1.1, ?_, by rw [show (32 : ℝ) / 2 = 16 by norm_num] at h2; exact h2⟩
  simpa [patchP, mk, meshOf] using h1.2

end area
end Verif
