import Verif.Proofs.Result
import Verif.Proofs.EdgeFilters
import Mathlib.Tactic.Abel
import Mathlib.Tactic.Module
/-
Coordinates of the output points of the face-split filters.
-/
namespace Verif
set_option linter.unusedSectionVars false
variable {K P D : Type} [Field K] [Zero P] [Add P] [SMul K P]

theorem Mesh.Valid.pos_eq {m : Mesh P D} (h : m.Valid) {v : PId} (hv : v < m.points.length) :
    m.pos v = some (m.coord v) := h.points_find? hv

theorem Mesh.coord_of_pos {m : Mesh P D} {v : PId} {p : P} (h : m.pos v = some p) : m.coord v = p := by
  unfold Mesh.coord
  have : m.points.find? v = some p := h
  rw [this]; rfl

theorem lastLabelRev_some {n : Nat} {r : List Edge} {e : Edge} {m : PId} (h : lastLabelRev n r e = some m) :
    ∃ i e', r.reverse[i]? = some e' ∧ (e' = e ∨ e' = e.sym) ∧ m = n + i := by
  induction r with
  | nil => cases h
  | cons x r ih =>
    unfold lastLabelRev at h
    split at h
    · rename_i hx
      refine ⟨r.length, x, ?_, hx, (Option.some.inj h).symm⟩
      rw [List.reverse_cons, List.getElem?_append_right (by simp)]
      simp
    · obtain ⟨i, e', h1, h2, h3⟩ := ih h
      refine ⟨i, e', ?_, h2, h3⟩
      rw [List.reverse_cons, List.getElem?_append_left]
      · exact h1
      · exact (List.getElem?_eq_some_iff.1 h1).1

theorem lastLabel_some {n : Nat} {es : List Edge} {e : Edge} {m : PId} (h : lastLabel n es e = some m) :
    ∃ i e', es[i]? = some e' ∧ (e' = e ∨ e' = e.sym) ∧ m = n + i := by
  simpa using lastLabelRev_some h

theorem pos_base {out : Mesh P D} {n : Nat} {w : PId → P} {l : List P}
    (h : out.points = AMap.dense ((List.range n).map w ++ l)) {v : PId} (hv : v < n) : out.pos v = some (w v) := by
  unfold Mesh.pos
  rw [h, AMap.find?_dense, List.getElem?_append_left (by simpa using hv)]
  have : (List.range n)[v]? = some v := List.getElem?_range hv
  rw [List.getElem?_map, this]; rfl

theorem pos_new {out : Mesh P D} {n i : Nat} {w : PId → P} {es : List Edge} {pt : Edge → P} {e : Edge}
    (h : out.points = AMap.dense ((List.range n).map w ++ es.map pt)) (hi : es[i]? = some e) :
    out.pos (n + i) = some (pt e) := by
  unfold Mesh.pos
  rw [h, AMap.find?_dense, List.getElem?_append_right (by simp)]
  rw [List.getElem?_map]
  simp [hi]

variable {lib : QELib} {cosn : Nat → K} {f f' : Filt} {inp out : Mesh P D}

theorem cellUpdate_base {sch : Scheme} (hs : sch ≠ .sqrt3) (hn : sch.Needs inp) (hsel : inp.SelOK f.cells)
    (h : cellUpdate sch lib cosn f inp = (.ok out, f')) {v : PId} (hv : v < inp.points.length) :
    out.pos v = some (schemeBase sch cosn inp f v) :=
  pos_base (cellUpdate_result hs hn hsel h).1.points hv

theorem selected_isEdge {inp : Mesh P D} (hv : inp.Valid) {sel : List CId} {e : Edge}
    (he : e ∈ edgeList (inp.selected sel)) : inp.IsEdge e := by
  have : (inp.edgePoint sel e).isSome := by
    rw [Mesh.edgePoint, labelOf_isSome]; exact Or.inl he
  obtain ⟨m, hm⟩ := Option.isSome_iff_exists.1 this
  obtain ⟨e', he', h⟩ := edgePoint_dart hv hm
  rcases h with rfl | rfl
  · exact hv.isEdge_of_dart he'
  · exact (hv.isEdge_of_dart he').sym

theorem cellUpdate_edgeValue {sch : Scheme} (hs : sch ≠ .sqrt3) (hn : sch.Needs inp) (hsel : inp.SelOK f.cells)
    (h : cellUpdate sch lib cosn f inp = (.ok out, f')) {e : Edge} {m : PId} (hm : inp.edgePoint f.cells e = some m) :
    ∃ e' p, (e' = e ∨ e' = e.sym) ∧ inp.IsEdge e' ∧ schemePoint sch K inp e' = .ok p ∧ out.pos m = some p := by
  obtain ⟨i, e', h1, h2, rfl⟩ := labelOf_some hm
  have he' := selected_isEdge hn.valid (List.mem_of_getElem? h1)
  exact ⟨e', _, h2, he', valueOf_ok (schemePoint_ok hn he'), pos_new (cellUpdate_result hs hn hsel h).1.points h1⟩

theorem Mesh.Valid.isAtBorder_iff (hv : inp.Valid) {e : Edge} (he : inp.IsEdge e) :
    inp.isAtBorder e = true ↔ ¬ (e ∈ dartsOf inp.tris ∧ e.sym ∈ dartsOf inp.tris) := by
  have e1 := hv.leftSet_dart e
  have e2 := hv.leftSet_dart e.sym
  have e3 : inp.rightSet e = inp.leftSet e.sym := rfl
  unfold Mesh.isAtBorder
  rw [e3, ← e1, ← e2]
  have := (hv.edges_iff e).1 he
  rw [← e1, ← e2] at this
  clear e1 e2 e3
  revert this
  cases inp.leftSet e <;> cases inp.leftSet e.sym <;> simp

/-! Stencils that are rearranged: here the points form a vector space. -/
section vector
variable {K P D : Type} [Field K] [AddCommGroup P] [Module K P]
variable {lib : QELib} {cosn : Nat → K} {f f' : Filt} {inp out : Mesh P D}

theorem added_eq (l : List P) : added l = l.sum := by
  unfold added
  rw [List.sum_eq_foldl]

theorem midPoint_comm (a b : P) : midPoint K a b = midPoint K b a := by
  unfold midPoint; rw [add_comm]

theorem linearPoint_sym (hv : inp.Valid) {e : Edge} (he : inp.IsEdge e) :
    linearPoint K inp e.sym = linearPoint K inp e := by
  rw [linearPoint_ok hv he, linearPoint_ok hv he.sym]
  exact congrArg _ (midPoint_comm _ _)

theorem loopPoint_sym (hv : inp.Valid) (hr : inp.RingOK) {e : Edge} (he : inp.IsEdge e) :
    loopPoint K inp e.sym = loopPoint K inp e := by
  by_cases hb : e ∈ dartsOf inp.tris ∧ e.sym ∈ dartsOf inp.tris
  · obtain ⟨a, b⟩ := e
    obtain ⟨c, hc⟩ := dartsOf_iff_hasTri.1 hb.1
    obtain ⟨d, hd⟩ := dartsOf_iff_hasTri.1 hb.2
    rw [loopPoint_inner hv hr hc hd]
    refine (loopPoint_inner hv hr hd hc).trans (congrArg _ ?_)
    abel
  · rw [loopPoint_border hv he hb, loopPoint_border hv he.sym (by rw [Edge.sym_sym]; tauto)]
    exact congrArg _ (midPoint_comm _ _)

theorem butterflyPoint_stencil (hv : inp.Valid) (hr : inp.RingOK) {a b c d w₁ w₂ w₃ w₄ : PId}
    (hc : HasTri inp.tris a b c) (hd : HasTri inp.tris b a d)
    (h1 : HasTri inp.tris c b w₁) (h2 : HasTri inp.tris a c w₂) (h3 : HasTri inp.tris d a w₃) (h4 : HasTri inp.tris b d w₄)
    {pa pb pc pd q₁ q₂ q₃ q₄ : P} (ha : inp.pos a = some pa) (hb : inp.pos b = some pb) (hpc : inp.pos c = some pc)
    (hpd : inp.pos d = some pd) (hq₁ : inp.pos w₁ = some q₁) (hq₂ : inp.pos w₂ = some q₂) (hq₃ : inp.pos w₃ = some q₃)
    (hq₄ : inp.pos w₄ = some q₄) {e' : Edge} {p : P} (g1 : e' = (a, b) ∨ e' = Edge.sym (a, b))
    (g5 : butterflyPoint K inp e' = .ok p) :
    p = (1 / 2 : K) • (pa + pb) + (1 / 8 : K) • (pc + pd) - (1 / 16 : K) • (q₁ + q₂ + q₃ + q₄) := by
  rcases g1 with rfl | rfl
  · rw [butterflyPoint_inner hv hr hc hd h1 h4 h2 h3] at g5
    rw [← Except.ok.inj g5, Mesh.coord_of_pos ha, Mesh.coord_of_pos hb, Mesh.coord_of_pos hpc, Mesh.coord_of_pos hpd,
      Mesh.coord_of_pos hq₁, Mesh.coord_of_pos hq₂, Mesh.coord_of_pos hq₃, Mesh.coord_of_pos hq₄]
    simp only [neg_div, neg_smul, smul_add]
    abel
  · have := butterflyPoint_inner (K := K) hv hr hd hc h3 h2 h4 h1
    have g6 := this.symm.trans g5
    rw [← Except.ok.inj g6, Mesh.coord_of_pos ha, Mesh.coord_of_pos hb, Mesh.coord_of_pos hpc, Mesh.coord_of_pos hpd,
      Mesh.coord_of_pos hq₁, Mesh.coord_of_pos hq₂, Mesh.coord_of_pos hq₃, Mesh.coord_of_pos hq₄]
    simp only [neg_div, neg_smul, smul_add]
    abel

/-- the ring of a point is its list of neighbours -/
theorem smoothingPoint_neighbours (cosn : Nat → K) (hv : inp.Valid) (hr : inp.RingOK) {v : PId} {N : List PId}
    (hnd : N.Nodup) (hN : ∀ w, w ∈ N ↔ inp.IsEdge (v, w)) (hne : N ≠ []) (p : P) :
    ∃ r : List Edge, r.Perm (N.map fun w => (v, w)) ∧ smoothingPoint cosn inp v p = .ok (smoothed cosn inp r p) := by
  obtain ⟨w, hw⟩ := List.exists_mem_of_ne_nil _ hne
  obtain ⟨r, h1, h2, h3⟩ := smoothingPoint_ok cosn hv hr ((hN w).1 hw) p
  refine ⟨r, ?_, h3⟩
  refine (List.perm_ext_iff_of_nodup h1 ?_).2 ?_
  · exact hnd.map (fun a b hab => (Prod.mk.inj hab).2)
  · rintro ⟨a, b⟩
    rw [h2, List.mem_map]
    constructor
    · rintro ⟨h, rfl⟩; exact ⟨b, (hN b).2 h, rfl⟩
    · rintro ⟨x, hx, hxe⟩
      cases hxe
      exact ⟨(hN b).1 hx, rfl⟩

/-- a point all of whose edges have faces on both sides -/
theorem smoothed_inner (cosn : Nat → K) (hv : inp.Valid) {v : PId} {N : List PId} {r : List Edge}
    (hr : r.Perm (N.map fun w => (v, w))) (hN : ∀ w, w ∈ N ↔ inp.IsEdge (v, w))
    (hb : ∀ w ∈ N, (v, w) ∈ dartsOf inp.tris ∧ (w, v) ∈ dartsOf inp.tris) (p : P) :
    smoothed cosn inp r p = (1 - (N.length : K) * loopBeta cosn N.length) • p +
      loopBeta cosn N.length • (N.map inp.coord).sum := by
  have hlen : r.length = N.length := by rw [hr.length_eq, List.length_map]
  have hsum : (r.map fun e => inp.coord e.2).sum = (N.map inp.coord).sum := by
    rw [(hr.map _).sum_eq, List.map_map]; rfl
  have hno : r.filter inp.isAtBorder = [] := by
    rw [List.filter_eq_nil_iff]
    intro e he
    obtain ⟨w, hw, rfl⟩ := List.mem_map.1 (hr.mem_iff.1 he)
    rw [hv.isAtBorder_iff ((hN w).1 hw)]
    exact fun hc => hc (hb w hw)
  simp only [smoothed, added_eq]
  rw [hno, hlen, hsum]
  simp

/-- a point with exactly two boundary edges -/
theorem smoothed_border (cosn : Nat → K) (hv : inp.Valid) {v : PId} {N : List PId} {r : List Edge}
    (hr : r.Perm (N.map fun w => (v, w))) (hnd : N.Nodup) (hN : ∀ w, w ∈ N ↔ inp.IsEdge (v, w)) {B : List PId}
    (hB0 : B ≠ []) (hBnd : B.Nodup)
    (hB : ∀ w, w ∈ B ↔ inp.IsEdge (v, w) ∧ ¬ ((v, w) ∈ dartsOf inp.tris ∧ (w, v) ∈ dartsOf inp.tris)) (p : P) :
    smoothed cosn inp r p = (3 / 4 : K) • p + (1 / 8 : K) • (B.map inp.coord).sum := by
  have hperm : (r.filter inp.isAtBorder).Perm (B.map fun w => (v, w)) := by
    refine (List.perm_ext_iff_of_nodup ?_ ?_).2 ?_
    · refine List.Nodup.filter _ (hr.nodup_iff.2 (hnd.map (fun a b hab => (Prod.mk.inj hab).2)))
    · exact hBnd.map (fun a b hab => (Prod.mk.inj hab).2)
    · intro e
      rw [List.mem_filter, hr.mem_iff, List.mem_map, List.mem_map]
      constructor
      · rintro ⟨⟨w, hw, rfl⟩, h2⟩
        exact ⟨w, (hB w).2 ⟨(hN w).1 hw, (hv.isAtBorder_iff ((hN w).1 hw)).1 h2⟩, rfl⟩
      · rintro ⟨w, hw, rfl⟩
        obtain ⟨h1, h2⟩ := (hB w).1 hw
        exact ⟨⟨w, (hN w).2 h1, rfl⟩, (hv.isAtBorder_iff h1).2 h2⟩
  have hne : (r.filter inp.isAtBorder).length ≠ 0 := by
    rw [hperm.length_eq, List.length_map]
    exact fun hc => hB0 (List.length_eq_zero_iff.1 hc)
  simp only [smoothed, added_eq]
  rw [if_pos hne, (hperm.map _).sum_eq, List.map_map]
  rfl

end vector

/-! The edge filters. -/
section edges
variable {sch : EdgeScheme}

theorem edgeUpdate_result (hn : sch.toScheme.Needs inp) (hsel : inp.EdgeSelOK f.edgeSel)
    (h : edgeUpdate sch lib cosn f inp = (.ok out, f')) :
    FaceSplitResult lib inp out f f' f.edgeSel.isEmpty (inp.listPoint f.edgeSel)
        ((List.range inp.points.length).map inp.coord ++
          (inp.selectedEdges f.edgeSel).map (valueOf (schemePoint sch.toScheme K inp))) := by
  obtain ⟨out', f'', h', R⟩ := edgeUpdate_ok lib cosn hn hsel
  rw [h] at h'
  cases h'
  exact R

theorem selectedEdges_isEdge (hsel : inp.EdgeSelOK f.edgeSel) {e : Edge} (he : e ∈ inp.selectedEdges f.edgeSel) :
    inp.IsEdge e := by
  unfold Mesh.selectedEdges at he
  split at he
  · exact Or.inl he
  · obtain ⟨oe, h1, h2⟩ := List.mem_filterMap.1 he
    rw [id] at h2
    rw [h2] at h1
    exact hsel e h1

theorem listPoint_isEdge (hsel : inp.EdgeSelOK f.edgeSel) {e : Edge} {m : PId}
    (hm : inp.listPoint f.edgeSel e = some m) : inp.IsEdge e := by
  obtain ⟨i, e', h1, h2, _⟩ := lastLabel_some hm
  have := selectedEdges_isEdge hsel (List.mem_of_getElem? h1)
  rcases h2 with rfl | rfl
  · exact this
  · exact this.sym

theorem edgeUpdate_edgeValue (hn : sch.toScheme.Needs inp) (hsel : inp.EdgeSelOK f.edgeSel)
    (h : edgeUpdate sch lib cosn f inp = (.ok out, f')) {e : Edge} {m : PId} (hm : inp.listPoint f.edgeSel e = some m) :
    ∃ e' p, (e' = e ∨ e' = e.sym) ∧ inp.IsEdge e' ∧ schemePoint sch.toScheme K inp e' = .ok p ∧ out.pos m = some p := by
  obtain ⟨i, e', h1, h2, rfl⟩ := lastLabel_some hm
  have he' := selectedEdges_isEdge hsel (List.mem_of_getElem? h1)
  exact ⟨e', _, h2, he', valueOf_ok (schemePoint_ok hn he'), pos_new (edgeUpdate_result hn hsel h).points h1⟩

end edges
end Verif
