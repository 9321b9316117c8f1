import Verif.Proofs.RenameRun
/-
Every valid mesh has a copy without its isolated points.
-/
namespace Verif
set_option linter.unusedSectionVars false
variable {K P D : Type} [Field K] [AddCommGroup P] [Module K P]

theorem getD_lt {α : Type} {l : List α} {i : Nat} {d : α} (h : i < l.length) : l.getD i d = l[i] := by
  rw [List.getD_eq_getElem?_getD, List.getElem?_eq_getElem h]; rfl

theorem getD_ge {α : Type} {l : List α} {i : Nat} {d : α} (h : l.length ≤ i) : l.getD i d = d := by
  rw [List.getD_eq_getElem?_getD, List.getElem?_eq_none h]; rfl

theorem Tri.rename_inj {ρ : PId → PId} {V : PId → Prop} (h : InjOn ρ V) {t t' : Tri} (h1 : ∀ v ∈ t.verts, V v)
    (h2 : ∀ v ∈ t'.verts, V v) (he : t.rename ρ = t'.rename ρ) : t = t' := by
  obtain ⟨a, b, c⟩ := t
  obtain ⟨a', b', c'⟩ := t'
  simp only [Tri.rename, Prod.mk.injEq] at he
  simp only [Tri.verts, List.mem_cons, List.not_mem_nil, or_false, forall_eq_or_imp, forall_eq] at h1 h2
  rw [h _ _ h1.1 h2.1 he.1, h _ _ h1.2.1 h2.2.1 he.2.1, h _ _ h1.2.2 h2.2.2 he.2.2]

theorem hasTri_rename {ρ : PId → PId} {T : List Tri} {x y z : PId} (h : HasTri (T.map (Tri.rename ρ)) x y z) :
    ∃ a b c, HasTri T a b c ∧ ρ a = x ∧ ρ b = y ∧ ρ c = z := by
  unfold HasTri at *
  rcases h with h | h | h <;> obtain ⟨⟨a, b, c⟩, ht, he⟩ := List.mem_map.1 h <;>
    simp only [Tri.rename, Prod.mk.injEq] at he <;> obtain ⟨rfl, rfl, rfl⟩ := he
  · exact ⟨a, b, c, Or.inl ht, rfl, rfl, rfl⟩
  · exact ⟨c, a, b, Or.inr (Or.inl ht), rfl, rfl, rfl⟩
  · exact ⟨b, c, a, Or.inr (Or.inr ht), rfl, rfl, rfl⟩

theorem hasTri_used {T : List Tri} {x y z : PId} (h : HasTri T x y z) : usedBy T x ∧ usedBy T y ∧ usedBy T z := by
  rcases h with h | h | h
  · exact ⟨⟨_, h, by simp [Tri.verts]⟩, ⟨_, h, by simp [Tri.verts]⟩, ⟨_, h, by simp [Tri.verts]⟩⟩
  · exact ⟨⟨_, h, by simp [Tri.verts]⟩, ⟨_, h, by simp [Tri.verts]⟩, ⟨_, h, by simp [Tri.verts]⟩⟩
  · exact ⟨⟨_, h, by simp [Tri.verts]⟩, ⟨_, h, by simp [Tri.verts]⟩, ⟨_, h, by simp [Tri.verts]⟩⟩

theorem hasTri_map {ρ : PId → PId} {T : List Tri} {x y z : PId} (h : HasTri T x y z) :
    HasTri (T.map (Tri.rename ρ)) (ρ x) (ρ y) (ρ z) := by
  rcases h with h | h | h
  · exact Or.inl (List.mem_map_of_mem (f := Tri.rename ρ) h)
  · exact Or.inr (Or.inl (List.mem_map_of_mem (f := Tri.rename ρ) h))
  · exact Or.inr (Or.inr (List.mem_map_of_mem (f := Tri.rename ρ) h))

theorem GoodTris.rename {ρ : PId → PId} {T : List Tri} (h : GoodTris T) (hi : InjOn ρ (usedBy T)) :
    GoodTris (T.map (Tri.rename ρ)) := by
  have hu : ∀ t ∈ T, ∀ v ∈ t.verts, usedBy T v := fun t ht v hv => ⟨t, ht, hv⟩
  refine ⟨?_, ?_, ?_, ?_⟩
  · intro t' ht'
    obtain ⟨t, ht, rfl⟩ := List.mem_map.1 ht'
    obtain ⟨h1, h2, h3⟩ := h.nondeg t ht
    have u0 := hu t ht t.1 (by simp [Tri.verts])
    have u1 := hu t ht t.2.1 (by simp [Tri.verts])
    have u2 := hu t ht t.2.2 (by simp [Tri.verts])
    exact ⟨fun e => h1 (hi _ _ u0 u1 e), fun e => h2 (hi _ _ u1 u2 e), fun e => h3 (hi _ _ u2 u0 e)⟩
  · rw [dartsOf_rename]
    refine List.Nodup.map_on ?_ h.oriented
    intro x hx y hy hxy
    exact (Edge.rename_inj hi (usedBy_dart hx) (usedBy_dart hy)).1 hxy
  · intro t1 ht1 t2 ht2 hs
    obtain ⟨t, ht, rfl⟩ := List.mem_map.1 ht1
    obtain ⟨t', ht', rfl⟩ := List.mem_map.1 ht2
    refine congrArg _ (h.simplicial t ht t' ht' fun v hv => ?_)
    have := hs (ρ v) (by rw [Tri.rename_verts]; exact List.mem_map_of_mem hv)
    rw [Tri.rename_verts] at this
    obtain ⟨w, hw, hwv⟩ := List.mem_map.1 this
    rwa [hi _ _ (hu t' ht' w hw) (hu t ht v hv) hwv] at hw
  · intro v' A hA hne hcl x' y' hxy
    obtain ⟨x0, y0, h0⟩ := hne
    obtain ⟨v, a, b, hv, rfl, rfl, rfl⟩ := hasTri_rename (hA x0 y0 h0)
    have vu := (hasTri_used hv).1
    have back : ∀ p' q', A p' q' → ∃ p q, HasTri T v p q ∧ ρ p = p' ∧ ρ q = q' := by
      intro p' q' h1
      obtain ⟨v1, p, q, h2, h3, h4, h5⟩ := hasTri_rename (hA p' q' h1)
      rw [hi _ _ (hasTri_used h2).1 vu h3] at h2
      exact ⟨p, q, h2, h4, h5⟩
    have key := h.fans v (fun p q => HasTri T v p q ∧ A (ρ p) (ρ q)) (fun x y h => h.1) ⟨a, b, hv, h0⟩ (by
      rintro x y ⟨h1, h2⟩
      obtain ⟨⟨w, hw⟩, ⟨z, hz⟩⟩ := hcl _ _ h2
      obtain ⟨p, q, k1, rfl, k3⟩ := back _ _ hw
      obtain ⟨r, s, l1, l2, rfl⟩ := back _ _ hz
      have e1 := hi _ _ (hasTri_used k1).2.2 (hasTri_used h1).2.1 k3
      have e2 := hi _ _ (hasTri_used l1).2.1 (hasTri_used h1).2.2 l2
      rw [e1] at k1
      rw [e2] at l1
      exact ⟨⟨p, k1, hw⟩, ⟨s, l1, hz⟩⟩)
    obtain ⟨v2, x, y, h3, h4, rfl, rfl⟩ := hasTri_rename hxy
    rw [hi _ _ (hasTri_used h3).1 vu h4] at h3
    exact (key x y h3).2

section
variable (m : Mesh P D)

open Classical in
/-- the ids of the points that belong to triangles -/
noncomputable def usedIds : List PId := (List.range m.points.length).filter fun v => decide (usedBy m.tris v)

/-- the new id of a point -/
noncomputable def rankId (v : PId) : PId := (usedIds m).idxOf v

/-- the old id of a point; ids that do not exist go to an id that does not exist -/
noncomputable def unrankId (i : PId) : PId := (usedIds m).getD i m.points.length

/-- the mesh without its isolated points -/
noncomputable def compactMesh : Mesh P D where
  points := AMap.dense ((usedIds m).map m.coord)
  cells := renameCells (rankId m) m.cells
  cellData := m.cellData
  hasEdgeCells := m.hasEdgeCells
  edges := m.edges.map (Edge.rename (rankId m))
  left := fun e => m.left (e.rename (unrankId m))
  ring :=
    { onext := fun e => (m.ring.onext (e.rename (unrankId m))).map (Edge.rename (rankId m))
      oprev := fun e => (m.ring.oprev (e.rename (unrankId m))).map (Edge.rename (rankId m))
      pointEdge := fun v => (m.ring.pointEdge (unrankId m v)).map (Edge.rename (rankId m)) }
end

variable {m : Mesh P D}

theorem mem_usedIds (hv : m.Valid) {v : PId} : v ∈ usedIds m ↔ usedBy m.tris v := by
  unfold usedIds
  simp only [List.mem_filter, List.mem_range, decide_eq_true_eq]
  exact ⟨fun h => h.2, fun h => ⟨Renamed.used_lt hv h, h⟩⟩

theorem nodup_usedIds : (usedIds m).Nodup := List.Nodup.filter _ List.nodup_range

theorem unrank_rank (hv : m.Valid) {v : PId} (h : usedBy m.tris v) : unrankId m (rankId m v) = v := by
  unfold unrankId rankId
  have hm := (mem_usedIds hv).2 h
  rw [getD_lt (List.idxOf_lt_length_of_mem hm)]
  exact List.getElem_idxOf _

theorem rank_inj (hv : m.Valid) : InjOn (rankId m) (usedBy m.tris) := by
  intro v w h1 h2 h
  rw [← unrank_rank hv h1, ← unrank_rank hv h2, h]

theorem unrank_used (hv : m.Valid) {i : PId} (h : usedBy m.tris (unrankId m i)) :
    i < (usedIds m).length ∧ rankId m (unrankId m i) = i := by
  by_cases hi : i < (usedIds m).length
  · refine ⟨hi, ?_⟩
    unfold unrankId rankId
    rw [getD_lt hi]
    exact nodup_usedIds.idxOf_getElem i hi
  · exfalso
    unfold unrankId at h
    rw [getD_ge (Nat.not_lt.1 hi)] at h
    exact absurd (Renamed.used_lt hv h) (Nat.lt_irrefl _)

theorem rank_lt (hv : m.Valid) {v : PId} (h : usedBy m.tris v) : rankId m v < (usedIds m).length :=
  List.idxOf_lt_length_of_mem ((mem_usedIds hv).2 h)

theorem unrank_edge (hv : m.Valid) {e : Edge} (h : usedBy m.tris e.1 ∧ usedBy m.tris e.2) :
    (e.rename (rankId m)).rename (unrankId m) = e :=
  Prod.ext (unrank_rank hv h.1) (unrank_rank hv h.2)

theorem rank_edge (hv : m.Valid) {e : Edge} (h : usedBy m.tris (unrankId m e.1) ∧ usedBy m.tris (unrankId m e.2)) :
    (e.rename (unrankId m)).rename (rankId m) = e :=
  Prod.ext (unrank_used hv h.1).2 (unrank_used hv h.2).2

theorem compact_renamed (hv : m.Valid) : Renamed (rankId m) m (compactMesh m) := by
  refine ⟨rfl, ?_, ?_⟩
  · intro t ht t' ht' v hvt w hwt h
    exact rank_inj hv v w ⟨t, ht, hvt⟩ ⟨t', ht', hwt⟩ h
  · intro t ht v hvt
    have h : usedBy m.tris v := ⟨t, ht, hvt⟩
    rw [hv.pos_eq (hv.verts_lt ht hvt)]
    show AMap.find? (AMap.dense ((usedIds m).map m.coord)) (rankId m v) = _
    rw [AMap.find?_dense, List.getElem?_map, List.getElem?_eq_getElem (rank_lt hv h), Option.map_some]
    congr 2
    exact List.getElem_idxOf _

theorem compact_tris (hv : m.Valid) : (compactMesh m).tris = m.tris.map (Tri.rename (rankId m)) := (compact_renamed hv).tris

theorem compact_dart (hv : m.Valid) (e : Edge) :
    e ∈ dartsOf (compactMesh m).tris ↔ e.rename (unrankId m) ∈ dartsOf m.tris := by
  rw [compact_tris hv, dartsOf_rename, List.mem_map]
  constructor
  · rintro ⟨x, hx, rfl⟩
    rw [unrank_edge hv (usedBy_dart hx)]; exact hx
  · exact fun h => ⟨_, h, rank_edge hv (usedBy_dart h)⟩

theorem mem_renamed_edges (hv : m.Valid) (e : Edge) :
    e ∈ (compactMesh m).edges ↔ e.rename (unrankId m) ∈ m.edges := by
  have hu : ∀ {x}, x ∈ m.edges → usedBy m.tris x.1 ∧ usedBy m.tris x.2 := fun h => Renamed.used_of_edge hv (Or.inl h)
  show e ∈ m.edges.map _ ↔ _
  rw [List.mem_map]
  constructor
  · rintro ⟨x, hx, rfl⟩
    rw [unrank_edge hv (hu hx)]; exact hx
  · exact fun h => ⟨_, h, rank_edge hv (hu h)⟩

theorem compact_isEdge (hv : m.Valid) (e : Edge) : (compactMesh m).IsEdge e ↔ m.IsEdge (e.rename (unrankId m)) := by
  unfold Mesh.IsEdge
  rw [mem_renamed_edges hv, mem_renamed_edges hv, Edge.rename_sym]

theorem compact_valid (hv : m.Valid) : (compactMesh m).Valid := by
  refine ⟨?_, ?_, ?_, ?_, ?_, ?_, ?_, hv.has_edge_cells⟩
  · show (AMap.dense _).map Prod.fst = List.range (AMap.dense _).length
    rw [AMap.map_fst_dense, AMap.length_dense]
  · show ((renameCells _ _).map Prod.fst).Pairwise _
    unfold renameCells
    rw [List.map_map]
    exact hv.cells_sorted
  · intro c hc
    obtain ⟨c0, h0, rfl⟩ := List.mem_map.1 hc
    obtain ⟨t, h1, h2⟩ := hv.cells_tri c0 h0
    refine ⟨t.rename (rankId m), by rw [h1]; rfl, ?_⟩
    intro v hvt
    rw [Tri.rename_verts] at hvt
    obtain ⟨w, hw, rfl⟩ := List.mem_map.1 hvt
    show _ < (AMap.dense _).length
    rw [AMap.length_dense, List.length_map]
    exact rank_lt hv ⟨t, mem_tris_of_cell h0 (by rw [h1]; rfl), hw⟩
  · rw [compact_tris hv]
    exact hv.good.rename (rank_inj hv)
  · intro e k
    show m.left (e.rename (unrankId m)) = some k ↔ _
    rw [hv.left_iff]
    constructor
    · rintro ⟨t, h1, h2⟩
      refine ⟨t.rename (rankId m), List.mem_map.2 ⟨_, h1, rfl⟩, ?_⟩
      rw [Tri.rename_darts]
      have hu := usedBy_dart (mem_dartsOf.2 ⟨t, mem_tris_of_cell h1 rfl, h2⟩)
      exact List.mem_map.2 ⟨_, h2, rank_edge hv hu⟩
    · rintro ⟨t', h1, h2⟩
      obtain ⟨c, hc, he⟩ := List.mem_map.1 h1
      obtain ⟨t, h3, h4⟩ := hv.cells_tri c hc
      have htm := mem_tris_of_cell hc (t := t) (by rw [h3]; rfl)
      simp only [h3, Option.map_some, Prod.mk.injEq, Option.some.injEq] at he
      have : t.rename (rankId m) = t' := by
        have := he.2
        obtain ⟨a, b, c⟩ := t
        obtain ⟨a', b', c'⟩ := t'
        simp only [Tri.cell, List.map_cons, List.map_nil, Cell.mk.injEq, List.cons.injEq, and_true, true_and] at this
        simp [Tri.rename, this]
      subst this
      rw [Tri.rename_darts] at h2
      obtain ⟨x, hx, rfl⟩ := List.mem_map.1 h2
      refine ⟨t, ?_, ?_⟩
      · rw [← he.1, ← h3]; exact hc
      · rw [unrank_edge hv (usedBy_dart (mem_dartsOf.2 ⟨t, htm, hx⟩))]; exact hx
  · intro e
    have := hv.edges_iff (e.rename (unrankId m))
    rw [Edge.rename_sym, ← mem_renamed_edges hv, ← mem_renamed_edges hv, ← compact_dart hv, ← compact_dart hv] at this
    exact this
  · show (m.edges.map _).Pairwise _
    rw [List.pairwise_map]
    refine hv.edges_once.imp_of_mem ?_
    intro x y hx hy hxy
    have ux := Renamed.used_of_edge hv (Or.inl hx)
    have uy := Renamed.used_of_edge hv (Or.inl hy)
    rw [Edge.rename_sym]
    exact ⟨fun h => hxy.1 ((Edge.rename_inj (rank_inj hv) ux uy).1 h),
      fun h => hxy.2 ((Edge.rename_inj (rank_inj hv) ux ⟨uy.2, uy.1⟩).1 h)⟩

theorem compact_noIsolated (hv : m.Valid) : (compactMesh m).NoIsolated := by
  intro v h
  have h' : v < (usedIds m).length := by
    have : v < (AMap.dense ((usedIds m).map m.coord)).length := h
    rwa [AMap.length_dense, List.length_map] at this
  have hu : usedBy m.tris (unrankId m v) := by
    refine (mem_usedIds hv).1 ?_
    unfold unrankId
    rw [getD_lt h']
    exact List.getElem_mem h'
  have hr := (unrank_used hv hu).2
  obtain ⟨t, ht, hvt⟩ := hu
  refine ⟨t.rename (rankId m), ?_, ?_⟩
  · rw [compact_tris hv]; exact List.mem_map_of_mem ht
  · rw [Tri.rename_verts]
    have := List.mem_map_of_mem (f := rankId m) hvt
    rwa [hr] at this

theorem compact_ringRenamed (hv : m.Valid) : RingRenamed (rankId m) m (compactMesh m) := by
  intro e he
  show (m.ring.onext _).map _ = _
  rw [unrank_edge hv (Renamed.used_of_edge hv he)]

theorem compact_onextIter (hv : m.Valid) (hr : m.RingOK) {e : Edge} (he : m.IsEdge e) (k : Nat) :
    (compactMesh m).onextIter k (e.rename (rankId m)) = (m.onextIter k e).map (Edge.rename (rankId m)) ∧
      ∀ x, m.onextIter k e = some x → m.IsEdge x := by
  induction k with
  | zero => exact ⟨rfl, fun x hx => by cases hx; exact he⟩
  | succ k ih =>
    obtain ⟨h1, h2⟩ := ih
    unfold Mesh.onextIter
    rw [h1]
    rcases hx : m.onextIter k e with _ | x
    · exact ⟨rfl, fun x hx => by cases hx⟩
    · have hxe := h2 x hx
      refine ⟨compact_ringRenamed hv x hxe, ?_⟩
      intro y hy
      obtain ⟨z, h3, h4, _⟩ := hr.onext_some x hxe
      have : m.ring.onext x = some y := hy
      rw [h3] at this
      cases this
      exact h4

theorem compact_ringOK (hv : m.Valid) (hr : m.RingOK) : (compactMesh m).RingOK := by
  have hR := compact_renamed hv
  have edge : ∀ {e : Edge}, (compactMesh m).IsEdge e → ∃ x, m.IsEdge x ∧ x.rename (rankId m) = e ∧
      e.rename (unrankId m) = x := by
    intro e he
    have h1 := (compact_isEdge hv e).1 he
    exact ⟨_, h1, rank_edge hv (Renamed.used_of_edge hv h1), rfl⟩
  have edge' : ∀ {x : Edge}, m.IsEdge x → (compactMesh m).IsEdge (x.rename (rankId m)) := fun h =>
    hR.isEdge (compact_valid hv) hv h
  refine ⟨?_, ?_, ?_, ?_, ?_, ?_⟩
  · intro e he
    obtain ⟨x, hx, rfl, -⟩ := edge he
    obtain ⟨y, h1, h2, h3⟩ := hr.onext_some x hx
    exact ⟨y.rename (rankId m), by rw [compact_ringRenamed hv x hx, h1]; rfl, edge' h2, congrArg (rankId m) h3⟩
  · intro e e' he he'
    obtain ⟨x, hx, rfl, -⟩ := edge he
    obtain ⟨y, hy, rfl, -⟩ := edge he'
    rw [compact_ringRenamed hv x hx]
    have hop : (compactMesh m).ring.oprev (y.rename (rankId m)) = (m.ring.oprev y).map (Edge.rename (rankId m)) := by
      show (m.ring.oprev _).map _ = _
      rw [unrank_edge hv (Renamed.used_of_edge hv hy)]
    rw [hop]
    obtain ⟨z, h1, h2, _⟩ := hr.oprev_some hy
    obtain ⟨w, h3, h4, _⟩ := hr.onext_some x hx
    have h5 := hr.oprev_iff x y hx hy
    rw [h1, h3] at h5 ⊢
    simp only [Option.map_some, Option.some.injEq] at h5 ⊢
    rw [Edge.rename_inj (rank_inj hv) (Renamed.used_of_edge hv h2) (Renamed.used_of_edge hv hx),
      Edge.rename_inj (rank_inj hv) (Renamed.used_of_edge hv h4) (Renamed.used_of_edge hv hy)]
    exact h5
  · intro e e' he he' h
    obtain ⟨x, hx, rfl, -⟩ := edge he
    obtain ⟨y, hy, rfl, -⟩ := edge he'
    have hxy := rank_inj hv _ _ (Renamed.used_of_edge hv hx).1 (Renamed.used_of_edge hv hy).1 h
    obtain ⟨k, hk⟩ := hr.one_ring x y hx hy hxy
    exact ⟨k, by rw [(compact_onextIter hv hr hx k).1, hk]; rfl⟩
  · intro x y z h
    rw [compact_tris hv] at h
    obtain ⟨a, b, c, h1, rfl, rfl, rfl⟩ := hasTri_rename h
    have := compact_ringRenamed hv (a, b) (hv.isEdge_of_dart h1.dart)
    rw [hr.face a b c h1] at this
    exact this
  · intro v e h
    have h' : (m.ring.pointEdge (unrankId m v)).map (Edge.rename (rankId m)) = some e := h
    obtain ⟨x, hx, rfl⟩ := Option.map_eq_some_iff.1 h'
    obtain ⟨h1, h2⟩ := hr.point_edge _ _ hx
    have hu := (Renamed.used_of_edge hv h1).1
    rw [h2] at hu
    refine ⟨edge' h1, ?_⟩
    show rankId m x.1 = v
    rw [h2]; exact (unrank_used hv hu).2
  · intro e he
    obtain ⟨x, hx, rfl, -⟩ := edge he
    show ((m.ring.pointEdge (unrankId m (rankId m x.1))).map _).isSome = true
    rw [unrank_rank hv (Renamed.used_of_edge hv hx).1, Option.isSome_map]
    exact hr.point_edge_some x hx

/-- every valid mesh has a copy without isolated points -/
theorem exists_compact (hv : m.Valid) : ∃ (ρ : PId → PId) (m' : Mesh P D), m'.Valid ∧ m'.NoIsolated ∧ Renamed ρ m m' ∧
    RingRenamed ρ m m' ∧ (m.RingOK → m'.RingOK) ∧ m'.edges = m.edges.map (Edge.rename ρ) ∧ m'.cellData = m.cellData :=
  ⟨rankId m, compactMesh m, compact_valid hv, compact_noIsolated hv, compact_renamed hv, compact_ringRenamed hv,
    compact_ringOK hv, rfl, rfl⟩

end Verif
