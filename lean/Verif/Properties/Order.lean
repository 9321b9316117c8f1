import Verif.Proofs.Relabel
import Verif.Properties.Edge
import Verif.Properties.Topology
import Verif.Properties.FaceSplit
import Verif.Properties.Sqrt3
/-
C27, C41: order and repetitions in a selection.
-/
namespace Verif
set_option linter.unusedSectionVars false
variable {K P D : Type} [Field K] [AddCommGroup P] [Module K P]

/-- C27. Two lists with the same cell ids, in any order and with any repetitions, given to the same filter object: the
same triangles at the same positions in the same order, the same number of points, and the same positions for the
original points.  Linear and Loop on all meshes; Butterfly on closed ones. -/
theorem C27_selection_order {sch : Scheme} {lib : QELib} {cosn : Nat → K} {f f₁ f₂ : Filt} {inp out₁ out₂ : Mesh P D}
    {l₁ l₂ : List CId} (hs : sch = .linear ∨ sch = .loop ∨ sch = .butterfly ∧ inp.Closed) (hn : sch.Needs inp)
    (hsel : inp.SelOK l₁) (hsame : ∀ k, k ∈ l₁ ↔ k ∈ l₂)
    (h₁ : cellUpdate sch lib cosn (f.setCells l₁) inp = (.ok out₁, f₁))
    (h₂ : cellUpdate sch lib cosn (f.setCells l₂) inp = (.ok out₂, f₂)) :
    out₁.coordTris = out₂.coordTris ∧ out₁.points.length = out₂.points.length ∧
      ∀ v, v < inp.points.length → out₁.pos v = out₂.pos v := by
  have hs3 : sch ≠ .sqrt3 := by rcases hs with rfl | rfl | ⟨rfl, _⟩ <;> decide
  have hv := hn.valid
  have hsel₂ : inp.SelOK l₂ := fun k hk => hsel k ((hsame k).2 hk)
  have hsym := fun e he => schemePoint_sym (K := K) hn (by
    intro hb; rcases hs with h | h | ⟨_, h⟩
    · rw [hb] at h; cases h
    · rw [hb] at h; cases h
    · exact h) (e := e) he
  have R₁ := (cellUpdate_result hs3 hn (f := f.setCells l₁) hsel h₁).1
  have R₂ := (cellUpdate_result hs3 hn (f := f.setCells l₂) hsel₂ h₂).1
  have hbase : ∀ v, v < inp.points.length → out₁.pos v = out₂.pos v := by
    intro v hlt
    rw [cellUpdate_base hs3 hn (f := f.setCells l₁) hsel h₁ hlt, cellUpdate_base hs3 hn (f := f.setCells l₂) hsel₂ h₂ hlt]
    cases sch with
    | loop =>
      have : l₁.contains v = l₂.contains v := by
        rw [Bool.eq_iff_iff, List.contains_iff_mem, List.contains_iff_mem]; exact hsame v
      exact congrArg some (if_congr (by simp only [Filt.setCells, this]) rfl rfl)
    | _ => rfl
  refine ⟨?_, ?_, hbase⟩
  · refine coordTris_children (ρ := id) R₁.tris (by rw [rename_id]; exact R₂.tris)
      (fun t ht v hvv => hbase v (hv.verts_lt ht hvv)) fun e he => ?_
    have e1 := cellUpdate_edgeMap hs3 hn hsym (f := f.setCells l₁) hsel h₁ e
    have e2 := cellUpdate_edgeMap hs3 hn hsym (f := f.setCells l₂) hsel₂ h₂ e
    refine e1.trans (Eq.trans ?_ e2.symm)
    exact if_congr (Bool.eq_iff_iff.1 (edgePoint_congr hv hsame e)) rfl rfl
  · have k1 := (C05_new_points hs3 hn (f := f.setCells l₁) hsel h₁).2.2.1 (edgeList (inp.selected l₁)) (pairwise_edgeList _)
      (fun e => by rw [mem_edgeList]; rfl)
    have k2 := (C05_new_points hs3 hn (f := f.setCells l₂) hsel₂ h₂).2.2.1 (edgeList (inp.selected l₁)) (pairwise_edgeList _)
      (fun e => by
        rw [mem_edgeList]
        simp only [mem_dartsOf, selected_congr hv hsame]; rfl)
    rw [k1, k2]

example (out₁ out₂ : Mesh Q3 Nat) (f₁ f₂ : Filt)
    (h₁ : cellUpdate .loop someLib cos0 ((usedFilt []).setCells [1, 3]) patchMesh = (.ok out₁, f₁))
    (h₂ : cellUpdate .loop someLib cos0 ((usedFilt []).setCells [3, 1, 3]) patchMesh = (.ok out₂, f₂)) :
    out₁.coordTris = out₂.coordTris :=
  (C27_selection_order (Or.inr (Or.inl rfl)) (patchMesh_needs _) patchMesh_sel (by simp [or_comm]) h₁ h₂).1

/-- C41, edge filters, the part that holds: two lists with the same edges, in any order, direction and number, give the
same triangles at the same positions in the same order and the same positions for the original points.
Missing: the number of points differs, see `C41_repeated_edges_refuted`. -/
theorem C41_repeated_edges_partial {sch : EdgeScheme} {lib : QELib} {cosn : Nat → K} {f f₁ f₂ : Filt}
    {inp out₁ out₂ : Mesh P D} {l₁ l₂ : List (Option Edge)} (hs : sch = .butterfly → inp.Closed)
    (hn : sch.toScheme.Needs inp) (hsel : inp.EdgeSelOK l₁) (hsel₂ : inp.EdgeSelOK l₂) (hne₁ : l₁ ≠ []) (hne₂ : l₂ ≠ [])
    (hsame : ∀ e : Edge, (some e ∈ l₁ ∨ some e.sym ∈ l₁) ↔ (some e ∈ l₂ ∨ some e.sym ∈ l₂))
    (h₁ : edgeUpdate sch lib cosn (f.setEdges l₁) inp = (.ok out₁, f₁))
    (h₂ : edgeUpdate sch lib cosn (f.setEdges l₂) inp = (.ok out₂, f₂)) :
    out₁.coordTris = out₂.coordTris ∧ ∀ v, v < inp.points.length → out₁.pos v = out₂.pos v := by
  have hv := hn.valid
  have hsym := fun e he => schemePoint_sym (K := K) hn (fun hb => hs (by cases sch <;> first | rfl | cases hb)) (e := e) he
  have R₁ := edgeUpdate_result hn (f := f.setEdges l₁) hsel h₁
  have R₂ := edgeUpdate_result hn (f := f.setEdges l₂) hsel₂ h₂
  have hbase : ∀ v, v < inp.points.length → out₁.pos v = out₂.pos v := fun v hlt =>
    (pos_base R₁.points hlt).trans (pos_base R₂.points hlt).symm
  refine ⟨?_, hbase⟩
  refine coordTris_children (ρ := id) R₁.tris (by rw [rename_id]; exact R₂.tris)
    (fun t ht v hvv => hbase v (hv.verts_lt ht hvv)) fun e he => ?_
  have e1 := edgeUpdate_edgeMap hn hsym (f := f.setEdges l₁) hsel h₁ e
  have e2 := edgeUpdate_edgeMap hn hsym (f := f.setEdges l₂) hsel₂ h₂ e
  refine e1.trans (Eq.trans ?_ e2.symm)
  have hmem : ∀ (l : List (Option Edge)), l ≠ [] → ∀ e, e ∈ inp.selectedEdges l ↔ some e ∈ l := by
    intro l hl e
    unfold Mesh.selectedEdges
    rw [if_neg (by simpa using hl), List.mem_filterMap]
    simp
  have : (inp.listPoint l₁ e).isSome = (inp.listPoint l₂ e).isSome := by
    rw [Bool.eq_iff_iff]
    unfold Mesh.listPoint
    rw [lastLabel_isSome, lastLabel_isSome, hmem _ hne₁, hmem _ hne₁, hmem _ hne₂, hmem _ hne₂]
    exact hsame e
  exact if_congr (Bool.eq_iff_iff.1 this) rfl rfl

theorem patch_edges1 : patchMesh.EdgeSelOK [some (0, 1), none, some (2, 1)] := by
  intro e he
  simp at he
  rcases he with rfl | rfl <;> (unfold Mesh.IsEdge; decide)

theorem patch_edges2 : patchMesh.EdgeSelOK [some (1, 2), some (1, 0), some (0, 1)] := by
  intro e he
  simp at he
  rcases he with rfl | rfl | rfl <;> (unfold Mesh.IsEdge; decide)

example (out₁ out₂ : Mesh Q3 Nat) (f₁ f₂ : Filt)
    (h₁ : edgeUpdate .loop someLib cos0 ((usedFilt []).setEdges [some (0, 1), none, some (2, 1)]) patchMesh = (.ok out₁, f₁))
    (h₂ : edgeUpdate .loop someLib cos0 ((usedFilt []).setEdges [some (1, 2), some (1, 0), some (0, 1)]) patchMesh = (.ok out₂, f₂)) :
    out₁.coordTris = out₂.coordTris := by
  refine (C41_repeated_edges_partial (sch := .loop) (f := usedFilt []) (inp := patchMesh) (fun h => nomatch h)
    (patchMesh_needs _) patch_edges1 patch_edges2 (List.cons_ne_nil _ _) (List.cons_ne_nil _ _) ?_ h₁ h₂).1
  rintro ⟨a, b⟩
  simp only [List.mem_cons, Option.some.injEq, Prod.mk.injEq, Edge.sym, reduceCtorEq, List.not_mem_nil]
  grind

/-- C41 is false for the edge filters: listing any edge of any valid mesh twice, or in both directions, makes one more
point than listing it once, and no triangle uses one of the two points. -/
theorem C41_repeated_edges_refuted {sch : EdgeScheme} {lib : QELib} {cosn : Nat → K} {f f₁ f₂ : Filt}
    {inp out₁ out₂ : Mesh P D} (hn : sch.toScheme.Needs inp) {e e' : Edge} (he : inp.IsEdge e) (hee : e' = e ∨ e' = e.sym)
    (h₁ : edgeUpdate sch lib cosn (f.setEdges [some e]) inp = (.ok out₁, f₁))
    (h₂ : edgeUpdate sch lib cosn (f.setEdges [some e, some e']) inp = (.ok out₂, f₂)) :
    out₂.points.length = out₁.points.length + 1 ∧ ∀ t ∈ out₂.tris, inp.points.length ∉ t.verts := by
  have hv := hn.valid
  have he' : inp.IsEdge e' := by rcases hee with rfl | rfl; exacts [he, he.sym]
  have s1 : inp.EdgeSelOK [some e] := by intro x hx; simp at hx; rw [hx]; exact he
  have s2 : inp.EdgeSelOK [some e, some e'] := by
    intro x hx; simp at hx
    rcases hx with rfl | rfl
    · exact he
    · exact he'
  have R₁ := edgeUpdate_result hn (f := f.setEdges [some e]) s1 h₁
  have R₂ := edgeUpdate_result hn (f := f.setEdges [some e, some e']) s2 h₂
  have l1 : inp.selectedEdges [some e] = [e] := rfl
  have l2 : inp.selectedEdges [some e, some e'] = [e, e'] := rfl
  constructor
  · rw [R₁.points, R₂.points, AMap.length_dense, AMap.length_dense]
    simp only [Filt.setEdges, l1, l2, List.length_append, List.length_map, List.length_range, List.length_cons, List.length_nil]
  · intro t ht hmem
    rw [R₂.tris] at ht
    obtain ⟨t0, ht0, hd⟩ := List.mem_flatMap.1 ht
    rcases children_verts (a := t0.1) (b := t0.2.1) (c := t0.2.2) t hd _ hmem with hb | ⟨x, -, hx⟩
    · exact absurd (hv.verts_lt ht0 hb) (Nat.lt_irrefl _)
    · have hx' : lastLabel inp.points.length [e, e'] x = some inp.points.length := hx
      unfold lastLabel at hx'
      simp only [List.reverse_cons, List.reverse_nil, List.nil_append, List.cons_append, lastLabelRev, List.length_cons,
        List.length_nil] at hx'
      split at hx'
      · simp at hx'
      · rename_i hne
        split at hx'
        · rename_i h1
          apply hne
          rcases hee with rfl | rfl
          · exact h1
          · rcases h1 with rfl | rfl
            · right; rfl
            · left; exact Edge.sym_sym _
        · cases hx'

/-- the hypotheses of the refutation can be met -/
example : ∃ (out₁ out₂ : Mesh Q3 Nat) (f₁ f₂ : Filt),
    edgeUpdate .linear someLib cos0 (Filt.new.setEdges [some (0, 1)]) tetraMesh = (.ok out₁, f₁) ∧
    edgeUpdate .linear someLib cos0 (Filt.new.setEdges [some (0, 1), some (1, 0)]) tetraMesh = (.ok out₂, f₂) ∧
    out₂.points.length = out₁.points.length + 1 := by
  have he : tetraMesh.IsEdge (0, 1) := by unfold Mesh.IsEdge; decide
  obtain ⟨out₁, f₁, h₁, -⟩ := edgeUpdate_ok (sch := .linear) someLib cos0 (f := Filt.new.setEdges [some (0, 1)])
    (tetraMesh_needs _) (by intro x hx; simp [Filt.setEdges] at hx; rw [hx]; exact he)
  obtain ⟨out₂, f₂, h₂, -⟩ := edgeUpdate_ok (sch := .linear) someLib cos0 (f := Filt.new.setEdges [some (0, 1), some (1, 0)])
    (tetraMesh_needs _) (by
      intro x hx; simp [Filt.setEdges] at hx
      rcases hx with rfl | rfl
      · exact he
      · exact he.sym)
  exact ⟨out₁, out₂, f₁, f₂, h₁, h₂, (C41_repeated_edges_refuted (tetraMesh_needs _) he (Or.inr rfl) h₁ h₂).1⟩

/-- C41, SquareThree, the part that holds (and the analogue of C27): two lists with the same cell ids give the same
triangles at the same positions in the same order, and the same original points.
Missing: the number of points differs, see `C41_repeated_cells_refuted`. -/
theorem C41_repeated_cells_partial {lib : QELib} {cosn : Nat → K} {f f₁ f₂ : Filt} {inp out₁ out₂ : Mesh P D}
    {l₁ l₂ : List CId} (hv : inp.Valid) (hsel : inp.SelOK l₁) (hsame : ∀ k, k ∈ l₁ ↔ k ∈ l₂)
    (hmax₁ : inp.points.length + (inp.selected l₁).length ≤ idMax)
    (hmax₂ : inp.points.length + (inp.selected l₂).length ≤ idMax)
    (h₁ : cellUpdate .sqrt3 lib cosn (f.setCells l₁) inp = (.ok out₁, f₁))
    (h₂ : cellUpdate .sqrt3 lib cosn (f.setCells l₂) inp = (.ok out₂, f₂)) :
    out₁.coordTris = out₂.coordTris ∧ ∀ v, v < inp.points.length → out₁.pos v = out₂.pos v := by
  have hsel₂ : inp.SelOK l₂ := fun k hk => hsel k ((hsame k).2 hk)
  have R₁ := sqrt3Update_result hv (f := f.setCells l₁) hsel hmax₁ h₁
  have R₂ := sqrt3Update_result hv (f := f.setCells l₂) hsel₂ hmax₂ h₂
  have hbase : ∀ v, v < inp.points.length → out₁.pos v = out₂.pos v := fun v hlt =>
    (pos_base R₁.points hlt).trans (pos_base R₂.points hlt).symm
  have hsome : ∀ t ∈ inp.tris, ∀ e ∈ t.darts, (inp.centreOf l₁ e).isSome = (inp.centreOf l₂ e).isSome := by
    intro t ht e he
    rw [Bool.eq_iff_iff, centreOf_isSome hv ht he, centreOf_isSome hv ht he, selected_congr hv hsame]
  have hmap : ∀ e, (inp.centreOf l₁ e).map out₁.pos = (inp.centreOf l₂ e).map out₂.pos := by
    intro e
    by_cases he : e ∈ dartsOf inp.tris
    · obtain ⟨t, ht, hd⟩ := mem_dartsOf.1 he
      have e1 := sqrt3_centreMap hv (f := f.setCells l₁) hsel hmax₁ h₁ ht hd
      have e2 := sqrt3_centreMap hv (f := f.setCells l₂) hsel₂ hmax₂ h₂ ht hd
      refine e1.trans (Eq.trans ?_ e2.symm)
      exact if_congr (Bool.eq_iff_iff.1 (hsome t ht e hd)) rfl rfl
    · rcases g1 : inp.centreOf l₁ e with _ | v
      · rcases g2 : inp.centreOf l₂ e with _ | v
        · rfl
        · exact absurd (R₂.centres.only _ _ g2) he
      · exact absurd (R₁.centres.only _ _ g1) he
  refine ⟨?_, hbase⟩
  have ht : ∀ c ∈ inp.cells, ∀ t, Cell.tri? c.2 = some t → t ∈ inp.tris := fun c hc t ht =>
    List.mem_filterMap.2 ⟨c, hc, ht⟩
  have hjobs : sq3Jobs (inp.centreOf l₁) inp.cells = sq3Jobs (inp.centreOf l₂) inp.cells :=
    sq3Jobs_congr fun c hc t h => hsome t (ht c hc t h) _ (by simp [Tri.darts])
  have hu : l₁.isEmpty = l₂.isEmpty := by
    rw [Bool.eq_iff_iff, List.isEmpty_iff, List.isEmpty_iff, List.eq_nil_iff_forall_not_mem, List.eq_nil_iff_forall_not_mem]
    simp only [hsame]
  have hitems := sq3Items_coords (g₁ := out₁.pos) (g₂ := out₂.pos) (σ₁ := inp.centreOf l₁) (σ₂ := inp.centreOf l₂)
    l₁.isEmpty (J := sq3Jobs (inp.centreOf l₁) inp.cells) (by
      intro id t hj v hvv
      obtain ⟨c, hc, hct, -⟩ := sq3Jobs_tri hj
      exact hbase v (hv.verts_lt (ht c hc t hct) hvv)) (by
      intro id t e hj
      obtain ⟨c, hc, hct, he⟩ := sq3Jobs_tri hj
      obtain ⟨he, hs⟩ := he e rfl
      have htT := ht c hc t hct
      have hlt := hv.isEdge_lt (hv.isEdge_of_dart (mem_dartsOf.2 ⟨t, htT, he⟩))
      have hsm : inp.centreOf l₁ e = inp.centreOf l₁ (t.1, t.2.1) :=
        R₁.centres.same t htT e he _ (by simp [Tri.darts] : (t.1, t.2.1) ∈ t.darts)
      exact ⟨by rw [hsm]; exact hs, hmap e, hmap e.sym, hbase _ hlt.1, hbase _ hlt.2⟩) []
  have t1 : out₁.tris = (sq3Items (inp.centreOf l₁) l₁.isEmpty [] (sq3Jobs (inp.centreOf l₁) inp.cells)).map fun x => x.2.1 :=
    R₁.built.tris
  have t2 : out₂.tris = (sq3Items (inp.centreOf l₂) l₂.isEmpty [] (sq3Jobs (inp.centreOf l₂) inp.cells)).map fun x => x.2.1 :=
    R₂.built.tris
  unfold Mesh.coordTris
  rw [t1, t2, List.map_map, List.map_map, ← hjobs, ← hu]
  exact hitems

example (out₁ out₂ : Mesh Q3 Nat) (f₁ f₂ : Filt)
    (h₁ : cellUpdate .sqrt3 someLib cos0 ((usedFilt []).setCells [1, 3]) patchMesh = (.ok out₁, f₁))
    (h₂ : cellUpdate .sqrt3 someLib cos0 ((usedFilt []).setCells [3, 1, 3]) patchMesh = (.ok out₂, f₂)) :
    out₁.coordTris = out₂.coordTris :=
  (C41_repeated_cells_partial patchMesh_ok.1 patchMesh_sel (by simp [or_comm]) (by decide) (by decide) h₁ h₂).1

/-- C41 is false for SquareThree: listing any cell of any valid mesh twice makes one more point than listing it once, and
no triangle uses the second point. -/
theorem C41_repeated_cells_refuted {lib : QELib} {cosn : Nat → K} {f f₁ f₂ : Filt} {inp out₁ out₂ : Mesh P D}
    (hv : inp.Valid) {k : CId} (hk : k ∈ inp.cells.map Prod.fst) (hmax : inp.points.length + 2 ≤ idMax)
    (h₁ : cellUpdate .sqrt3 lib cosn (f.setCells [k]) inp = (.ok out₁, f₁))
    (h₂ : cellUpdate .sqrt3 lib cosn (f.setCells [k, k]) inp = (.ok out₂, f₂)) :
    out₂.points.length = out₁.points.length + 1 ∧ ∀ t ∈ out₂.tris, inp.points.length + 1 ∉ t.verts := by
  have s1 : inp.SelOK [k] := by intro x hx; simp at hx; rw [hx]; exact hk
  have s2 : inp.SelOK [k, k] := by intro x hx; simp at hx; rw [hx]; exact hk
  obtain ⟨t0, ht0, ht0'⟩ := hv.sel_tri s1 (k := k) (by simp)
  have l1 : inp.selected [k] = [t0] := by simp [Mesh.selected, ht0']
  have l2 : inp.selected [k, k] = [t0, t0] := by simp [Mesh.selected, ht0']
  have R₁ := sqrt3Update_result hv (f := f.setCells [k]) s1 (by simp only [Filt.setCells, l1, List.length_cons, List.length_nil]; omega) h₁
  have R₂ := sqrt3Update_result hv (f := f.setCells [k, k]) s2 (by simp only [Filt.setCells, l2, List.length_cons, List.length_nil]; omega) h₂
  constructor
  · rw [R₁.points, R₂.points, AMap.length_dense, AMap.length_dense]
    simp only [Filt.setCells, l1, l2, List.length_append, List.length_map, List.length_range, List.length_cons, List.length_nil]
  · intro t ht hmem
    rcases sq3_verts R₂.centres ((R₂.mem_tris hv).1 ht) hmem with ⟨t', ht', hb⟩ | ⟨x, hx⟩
    · exact absurd (hv.verts_lt ht' hb) (Nat.not_lt.2 (Nat.le_succ _))
    · have hx' : (List.findIdx? (fun t => t.darts.contains x) [t0, t0]).map (inp.points.length + ·) = some (inp.points.length + 1) := by
        rw [← l2]; exact hx
      rcases hb : t0.darts.contains x <;> simp [List.findIdx?_cons, -List.contains_eq_mem, hb] at hx'

example : ∃ (out₁ out₂ : Mesh Q3 Nat) (f₁ f₂ : Filt),
    cellUpdate .sqrt3 someLib cos0 (Filt.new.setCells [2]) tetraMesh = (.ok out₁, f₁) ∧
    cellUpdate .sqrt3 someLib cos0 (Filt.new.setCells [2, 2]) tetraMesh = (.ok out₂, f₂) ∧
    out₂.points.length = out₁.points.length + 1 := by
  obtain ⟨out₁, f₁, h₁, -⟩ := C11_sqrt3_completes (f := Filt.new.setCells [2]) someLib cos0 tetraMesh_ok.1
    (by unfold Mesh.SelOK; decide) (by decide)
  obtain ⟨out₂, f₂, h₂, -⟩ := C11_sqrt3_completes (f := Filt.new.setCells [2, 2]) someLib cos0 tetraMesh_ok.1
    (by unfold Mesh.SelOK; decide) (by decide)
  exact ⟨out₁, out₂, f₁, f₂, h₁, h₂, (C41_repeated_cells_refuted tetraMesh_ok.1 (by decide) (by decide) h₁ h₂).1⟩

end Verif
