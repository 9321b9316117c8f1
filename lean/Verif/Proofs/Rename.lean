import Verif.Proofs.Relabel
/-
Runs on two meshes that differ in the numbering of their points only.
-/
namespace Verif
set_option linter.unusedSectionVars false
variable {K P D : Type} [Field K] [AddCommGroup P] [Module K P]

/-- the points of the triangles -/
def usedBy (T : List Tri) (v : PId) : Prop := ∃ t ∈ T, v ∈ t.verts

/-- renaming is injective on a set of points -/
def InjOn (ρ : PId → PId) (V : PId → Prop) : Prop := ∀ v w, V v → V w → ρ v = ρ w → v = w

theorem usedBy_dart {T : List Tri} {e : Edge} (h : e ∈ dartsOf T) : usedBy T e.1 ∧ usedBy T e.2 := by
  obtain ⟨t, ht, he⟩ := mem_dartsOf.1 h
  refine ⟨⟨t, ht, ?_⟩, ⟨t, ht, ?_⟩⟩ <;>
  · simp only [Tri.darts, List.mem_cons, List.not_mem_nil, or_false] at he
    rcases he with rfl | rfl | rfl <;> simp [Tri.verts]

theorem usedBy_edge {T : List Tri} {e : Edge} (h : e ∈ dartsOf T ∨ e.sym ∈ dartsOf T) : usedBy T e.1 ∧ usedBy T e.2 := by
  rcases h with h | h
  · exact usedBy_dart h
  · exact ⟨(usedBy_dart h).2, (usedBy_dart h).1⟩

theorem Edge.rename_sym (ρ : PId → PId) (e : Edge) : (e.rename ρ).sym = e.sym.rename ρ := rfl

theorem Edge.rename_inj {ρ : PId → PId} {V : PId → Prop} (h : InjOn ρ V) {e e' : Edge} (h1 : V e.1 ∧ V e.2)
    (h2 : V e'.1 ∧ V e'.2) : e.rename ρ = e'.rename ρ ↔ e = e' := by
  refine ⟨fun he => ?_, fun he => he ▸ rfl⟩
  have := Prod.mk.inj he
  exact Prod.ext (h _ _ h1.1 h2.1 this.1) (h _ _ h1.2 h2.2 this.2)

theorem Tri.rename_darts (ρ : PId → PId) (t : Tri) : (t.rename ρ).darts = t.darts.map (Edge.rename ρ) := rfl

theorem Tri.rename_verts (ρ : PId → PId) (t : Tri) : (t.rename ρ).verts = t.verts.map ρ := rfl

theorem dartsOf_rename (ρ : PId → PId) (T : List Tri) :
    dartsOf (T.map (Tri.rename ρ)) = (dartsOf T).map (Edge.rename ρ) := by
  unfold dartsOf
  rw [List.map_flatMap, List.flatMap_map]
  rfl

theorem mem_map_rename {ρ : PId → PId} {V : PId → Prop} (h : InjOn ρ V) {E : List Edge} (hE : ∀ e ∈ E, V e.1 ∧ V e.2)
    {e : Edge} (he : V e.1 ∧ V e.2) : e.rename ρ ∈ E.map (Edge.rename ρ) ↔ e ∈ E := by
  rw [List.mem_map]
  constructor
  · rintro ⟨x, hx, hxe⟩
    rwa [(Edge.rename_inj h (hE x hx) he).1 hxe] at hx
  · exact fun hx => ⟨e, hx, rfl⟩

theorem foldl_addEdgeTo_rename {ρ : PId → PId} {V : PId → Prop} (h : InjOn ρ V) (ds : List Edge) :
    ∀ E : List Edge, (∀ e ∈ E, V e.1 ∧ V e.2) → (∀ e ∈ ds, V e.1 ∧ V e.2) →
      (ds.map (Edge.rename ρ)).foldl addEdgeTo (E.map (Edge.rename ρ)) = (ds.foldl addEdgeTo E).map (Edge.rename ρ) ∧
        ∀ e ∈ ds.foldl addEdgeTo E, V e.1 ∧ V e.2 := by
  induction ds with
  | nil => intro E hE _; exact ⟨rfl, hE⟩
  | cons d ds ih =>
    intro E hE hd
    have hdd := hd d (by simp)
    have hstep : addEdgeTo (E.map (Edge.rename ρ)) (d.rename ρ) = (addEdgeTo E d).map (Edge.rename ρ) := by
      unfold addEdgeTo
      have e1 : (E.map (Edge.rename ρ)).contains (d.rename ρ) = E.contains d := by
        rw [Bool.eq_iff_iff, List.contains_iff_mem, List.contains_iff_mem, mem_map_rename h hE hdd]
      have e2 : (E.map (Edge.rename ρ)).contains (d.rename ρ).sym = E.contains d.sym := by
        rw [Bool.eq_iff_iff, List.contains_iff_mem, List.contains_iff_mem, Edge.rename_sym, mem_map_rename h hE ⟨hdd.2, hdd.1⟩]
      rw [e1, e2]
      split <;> simp
    rw [List.map_cons, List.foldl_cons, List.foldl_cons, hstep]
    refine ih _ ?_ fun e he => hd e (by simp [he])
    intro e he
    unfold addEdgeTo at he
    split at he
    · exact hE e he
    · rcases List.mem_append.1 he with h1 | h1
      · exact hE e h1
      · rw [List.mem_singleton] at h1; exact h1 ▸ hdd

theorem edgeList_rename {ρ : PId → PId} {T : List Tri} (h : InjOn ρ (usedBy T)) :
    edgeList (T.map (Tri.rename ρ)) = (edgeList T).map (Edge.rename ρ) := by
  unfold edgeList
  rw [dartsOf_rename]
  exact (foldl_addEdgeTo_rename h (dartsOf T) [] (by simp) fun e he => usedBy_dart he).1

theorem edgeList_used {T : List Tri} {e : Edge} (h : e ∈ edgeList T) : usedBy T e.1 ∧ usedBy T e.2 :=
  usedBy_edge ((mem_edgeList T e).1 (Or.inl h))

theorem findIdx?_congr' {α : Type} {p q : α → Bool} {l : List α} (h : ∀ x ∈ l, p x = q x) : l.findIdx? p = l.findIdx? q := by
  induction l with
  | nil => rfl
  | cons x l ih =>
    rw [List.findIdx?_cons, List.findIdx?_cons, h x (by simp), ih fun y hy => h y (by simp [hy])]

theorem extendId_new (n n' i : Nat) (ρ : PId → PId) : extendId n n' ρ (n + i) = n' + i := by
  unfold extendId
  rw [if_neg (Nat.not_lt.2 (Nat.le_add_right n i)), Nat.add_sub_cancel_left]

theorem labelOf_rename {ρ : PId → PId} {V : PId → Prop} (h : InjOn ρ V) {n n' : Nat} {E : List Edge}
    (hE : ∀ e ∈ E, V e.1 ∧ V e.2) {e : Edge} (he : V e.1 ∧ V e.2) :
    labelOf n' (E.map (Edge.rename ρ)) (e.rename ρ) = (labelOf n E e).map (extendId n n' ρ) := by
  unfold labelOf
  rw [List.findIdx?_map]
  have : E.findIdx? ((fun e' => e' == e.rename ρ || e' == (e.rename ρ).sym) ∘ Edge.rename ρ) =
      E.findIdx? (fun e' => e' == e || e' == e.sym) := by
    refine findIdx?_congr' fun x hx => ?_
    simp only [Function.comp, Edge.rename_sym]
    rw [Bool.eq_iff_iff]
    simp only [Bool.or_eq_true, beq_iff_eq]
    rw [Edge.rename_inj h (hE x hx) he, Edge.rename_inj h (hE x hx) ⟨he.2, he.1⟩]
  rw [this, Option.map_map]
  refine Option.map_congr fun i _ => ?_
  exact (extendId_new n n' i ρ).symm

theorem lastLabelRev_rename {ρ : PId → PId} {V : PId → Prop} (h : InjOn ρ V) {n n' : Nat} {E : List Edge}
    (hE : ∀ e ∈ E, V e.1 ∧ V e.2) {e : Edge} (he : V e.1 ∧ V e.2) :
    lastLabelRev n' (E.map (Edge.rename ρ)) (e.rename ρ) = (lastLabelRev n E e).map (extendId n n' ρ) := by
  induction E with
  | nil => rfl
  | cons x E ih =>
    rw [List.map_cons]
    unfold lastLabelRev
    have hiff : (x.rename ρ = e.rename ρ ∨ x.rename ρ = (e.rename ρ).sym) ↔ (x = e ∨ x = e.sym) := by
      rw [Edge.rename_sym, Edge.rename_inj h (hE x (by simp)) he, Edge.rename_inj h (hE x (by simp)) ⟨he.2, he.1⟩]
    by_cases hx : x = e ∨ x = e.sym
    · rw [if_pos hx, if_pos (hiff.2 hx), Option.map_some, List.length_map, extendId_new]
    · rw [if_neg hx, if_neg fun h => hx (hiff.1 h)]
      exact ih fun y hy => hE y (by simp [hy])

theorem lastLabel_rename {ρ : PId → PId} {V : PId → Prop} (h : InjOn ρ V) {n n' : Nat} {E : List Edge}
    (hE : ∀ e ∈ E, V e.1 ∧ V e.2) {e : Edge} (he : V e.1 ∧ V e.2) :
    lastLabel n' (E.map (Edge.rename ρ)) (e.rename ρ) = (lastLabel n E e).map (extendId n n' ρ) := by
  unfold lastLabel
  rw [← List.map_reverse]
  exact lastLabelRev_rename h (fun x hx => hE x (List.mem_reverse.1 hx)) he

theorem children_rename {ρ ρ' : PId → PId} {μ μ' : Edge → Option PId} {t : Tri} (hb : ∀ v ∈ t.verts, ρ' v = ρ v)
    (he : ∀ e ∈ t.darts, μ' (e.rename ρ) = (μ e).map ρ') :
    (t.rename ρ).children μ' = (t.children μ).map (Tri.rename ρ') ∧ allSplit μ' (t.rename ρ) = allSplit μ t := by
  have h0 : μ' (ρ t.1, ρ t.2.1) = _ := he (t.1, t.2.1) (by simp [Tri.darts])
  have h1 : μ' (ρ t.2.1, ρ t.2.2) = _ := he (t.2.1, t.2.2) (by simp [Tri.darts])
  have h2 : μ' (ρ t.2.2, ρ t.1) = _ := he (t.2.2, t.1) (by simp [Tri.darts])
  have v0 := hb t.1 (by simp [Tri.verts])
  have v1 := hb t.2.1 (by simp [Tri.verts])
  have v2 := hb t.2.2 (by simp [Tri.verts])
  unfold Tri.children allSplit Tri.rename
  dsimp only
  rw [h0, h1, h2]
  constructor
  · rcases μ (t.1, t.2.1) with _ | m0 <;> rcases μ (t.2.1, t.2.2) with _ | m1 <;> rcases μ (t.2.2, t.1) with _ | m2 <;>
      simp [v0, v1, v2]
  · simp

/-- an item with other point ids -/
def Item.rename (ρ : PId → PId) (x : Item) : Item := (x.1, x.2.1.rename ρ, x.2.2)

theorem pushed_rename (ρ : PId → PId) (L : List Item) (k : Nat) : pushed k (L.map (Item.rename ρ)) = pushed k L := by
  induction L generalizing k with
  | nil => rfl
  | cons x L ih => simp only [List.map_cons, pushed, ih, Item.rename]

/-- the cells with other point ids -/
def renameCells (ρ : PId → PId) (cells : AMap (Option Cell)) : AMap (Option Cell) :=
  cells.map fun c => (c.1, c.2.map fun x => ⟨x.type, x.pts.map ρ⟩)

theorem tri?_rename (ρ : PId → PId) (c : Option Cell) :
    Cell.tri? (c.map fun x => ⟨x.type, x.pts.map ρ⟩) = (Cell.tri? c).map (Tri.rename ρ) := by
  rcases c with _ | ⟨ty, ps⟩
  · rfl
  · rcases ty with _ | _ <;> rcases ps with _ | ⟨a, _ | ⟨b, _ | ⟨c, _ | ⟨d, l⟩⟩⟩⟩ <;> rfl

theorem childItems_rename {ρ ρ' : PId → PId} {μ μ' : Edge → Option PId} (u : Bool) {cells : AMap (Option Cell)}
    (hb : ∀ c ∈ cells, ∀ t, Cell.tri? c.2 = some t → ∀ v ∈ t.verts, ρ' v = ρ v)
    (he : ∀ c ∈ cells, ∀ t, Cell.tri? c.2 = some t → ∀ e ∈ t.darts, μ' (e.rename ρ) = (μ e).map ρ') :
    childItems μ' u (renameCells ρ cells) = (childItems μ u cells).map (Item.rename ρ') := by
  unfold childItems renameCells
  rw [List.map_flatMap, List.flatMap_map]
  refine List.flatMap_congr fun c hc => ?_
  dsimp only
  rw [tri?_rename]
  rcases ht : Cell.tri? c.2 with _ | t
  · rfl
  · obtain ⟨h1, h2⟩ := children_rename (hb c hc t ht) (he c hc t ht)
    simp only [Option.map_some, childItemsOf, h1, h2, List.map_map]
    rfl

namespace Renamed
variable {ρ : PId → PId} {m m' : Mesh P D}

theorem tris (R : Renamed ρ m m') : m'.tris = m.tris.map (Tri.rename ρ) := by
  unfold Mesh.tris
  rw [R.cells, List.filterMap_map, List.map_filterMap]
  refine List.filterMap_congr fun c _ => ?_
  simp only [Function.comp]
  exact tri?_rename ρ c.2

theorem injOn (R : Renamed ρ m m') : InjOn ρ (usedBy m.tris) := by
  rintro v w ⟨t, ht, hv⟩ ⟨t', ht', hw⟩ h
  exact R.inj t ht t' ht' v hv w hw h

theorem triAt (R : Renamed ρ m m') (k : CId) : m'.triAt k = (m.triAt k).map (Tri.rename ρ) := by
  unfold Mesh.triAt
  rw [R.cells]
  generalize m.cells = C
  induction C with
  | nil => rfl
  | cons c C ih =>
    obtain ⟨i, c⟩ := c
    by_cases h : k = i
    · simp only [List.map_cons, AMap.find?, h, if_true, Option.bind_some]
      exact tri?_rename ρ c
    · simpa [AMap.find?, h] using ih

theorem selected (R : Renamed ρ m m') (sel : List CId) : m'.selected sel = (m.selected sel).map (Tri.rename ρ) := by
  unfold Mesh.selected
  split
  · exact R.tris
  · rw [List.map_filterMap]
    exact List.filterMap_congr fun k _ => R.triAt k

theorem selOK (R : Renamed ρ m m') {sel : List CId} (h : m.SelOK sel) : m'.SelOK sel := by
  intro k hk
  rw [R.cells, List.map_map]
  exact h k hk

theorem hasTri (R : Renamed ρ m m') {a b c : PId} (h : HasTri m.tris a b c) : HasTri m'.tris (ρ a) (ρ b) (ρ c) := by
  unfold HasTri at *
  rw [R.tris]
  rcases h with h | h | h
  · exact Or.inl (List.mem_map_of_mem (f := Tri.rename ρ) h)
  · exact Or.inr (Or.inl (List.mem_map_of_mem (f := Tri.rename ρ) h))
  · exact Or.inr (Or.inr (List.mem_map_of_mem (f := Tri.rename ρ) h))

theorem used_of_edge (hv : m.Valid) {e : Edge} (h : m.IsEdge e) : usedBy m.tris e.1 ∧ usedBy m.tris e.2 :=
  usedBy_edge ((hv.edges_iff e).1 h)

theorem dart_iff (R : Renamed ρ m m') {e : Edge} (h : usedBy m.tris e.1 ∧ usedBy m.tris e.2) :
    e.rename ρ ∈ dartsOf m'.tris ↔ e ∈ dartsOf m.tris := by
  rw [R.tris, dartsOf_rename]
  exact mem_map_rename R.injOn (fun x hx => usedBy_dart hx) h

theorem isEdge (R : Renamed ρ m m') (hv' : m'.Valid) (hv : m.Valid) {e : Edge} (h : m.IsEdge e) :
    m'.IsEdge (e.rename ρ) := by
  have hu := used_of_edge hv h
  refine (hv'.edges_iff _).2 ?_
  rw [Edge.rename_sym, R.dart_iff hu, R.dart_iff ⟨hu.2, hu.1⟩]
  exact (hv.edges_iff e).1 h

/-- every edge of `m'` is a renamed edge -/
theorem isEdge' (R : Renamed ρ m m') (hv' : m'.Valid) (hv : m.Valid) {e : Edge} (h : m'.IsEdge e) :
    ∃ x, m.IsEdge x ∧ x.rename ρ = e := by
  have : ∀ e, e ∈ dartsOf m'.tris → ∃ x, m.IsEdge x ∧ x.rename ρ = e := by
    intro e he
    rw [R.tris, dartsOf_rename] at he
    obtain ⟨x, hx, hxe⟩ := List.mem_map.1 he
    exact ⟨x, hv.isEdge_of_dart hx, hxe⟩
  rcases (hv'.edges_iff e).1 h with he | he
  · exact this e he
  · obtain ⟨x, hx, hxe⟩ := this _ he
    exact ⟨x.sym, hx.sym, by rw [← Edge.rename_sym, hxe, Edge.sym_sym]⟩

theorem coord (R : Renamed ρ m m') {v : PId} (h : usedBy m.tris v) : m'.coord (ρ v) = m.coord v := by
  obtain ⟨t, ht, hv⟩ := h
  have := R.pos t ht v hv
  unfold Mesh.coord
  unfold Mesh.pos at this
  rw [this]

theorem getPoint (R : Renamed ρ m m') {v : PId} (h : usedBy m.tris v) : m'.getPoint (ρ v) = m.getPoint v := by
  obtain ⟨t, ht, hv⟩ := h
  have := R.pos t ht v hv
  unfold Mesh.pos at this
  unfold Mesh.getPoint
  rw [this]

theorem used_lt (hv : m.Valid) {v : PId} (h : usedBy m.tris v) : v < m.points.length := by
  obtain ⟨t, ht, h⟩ := h
  exact hv.verts_lt ht h

theorem extend_eq (hv : m.Valid) {v : PId} (h : usedBy m.tris v) (n' : Nat) :
    extendId m.points.length n' ρ v = ρ v := by
  unfold extendId; rw [if_pos (used_lt hv h)]

theorem linearPoint (R : Renamed ρ m m') (hv : m.Valid) {e : Edge} (he : m.IsEdge e) :
    Verif.linearPoint K m' (e.rename ρ) = Verif.linearPoint K m e := by
  have hu := used_of_edge hv he
  unfold Verif.linearPoint
  have h1 : m'.getPoint (e.rename ρ).1 = _ := R.getPoint hu.1
  have h2 : m'.getPoint (e.rename ρ).2 = _ := R.getPoint hu.2
  rw [h1, h2]

theorem loopPoint (R : Renamed ρ m m') (hv : m.Valid) (hv' : m'.Valid) (hr : m.RingOK) (hr' : m'.RingOK) {e : Edge}
    (he : m.IsEdge e) : Verif.loopPoint K m' (e.rename ρ) = Verif.loopPoint K m e := by
  have hu := used_of_edge hv he
  by_cases hb : e ∈ dartsOf m.tris ∧ e.sym ∈ dartsOf m.tris
  · obtain ⟨a, b⟩ := e
    obtain ⟨c, hc⟩ := dartsOf_iff_hasTri.1 hb.1
    obtain ⟨d, hd⟩ := dartsOf_iff_hasTri.1 hb.2
    have h3 := used_of_edge hv (hv.edge13 hc)
    have h4 := used_of_edge hv (hv.edge13 hd)
    rw [loopPoint_inner hv hr hc hd]
    refine (loopPoint_inner hv' hr' (R.hasTri hc) (R.hasTri hd)).trans ?_
    rw [R.coord hu.1, R.coord hu.2, R.coord h3.2, R.coord h4.2]
  · rw [loopPoint_border hv he hb, loopPoint_border hv' (R.isEdge hv' hv he)
      (by rw [Edge.rename_sym, R.dart_iff hu, R.dart_iff ⟨hu.2, hu.1⟩]; exact hb)]
    have h1 : m'.coord (e.rename ρ).1 = _ := R.coord hu.1
    have h2 : m'.coord (e.rename ρ).2 = _ := R.coord hu.2
    rw [h1, h2]

section Ring
variable (R : Renamed ρ m m') (hv : m.Valid) (hv' : m'.Valid) (hr : m.RingOK) (hr' : m'.RingOK) (Q : RingRenamed ρ m m')
include R hv hv' hr hr' Q

theorem oprev {e : Edge} (he : m.IsEdge e) : m'.ring.oprev (e.rename ρ) = (m.ring.oprev e).map (Edge.rename ρ) := by
  obtain ⟨x, h1, h2, _⟩ := hr.oprev_some he
  rw [h1, Option.map_some]
  refine (hr'.oprev_iff _ _ (R.isEdge hv' hv h2) (R.isEdge hv' hv he)).2 ?_
  rw [Q x h2, (hr.oprev_iff x e h2 he).1 h1]; rfl

theorem lnext {e : Edge} (he : m.IsEdge e) : m'.lnext (e.rename ρ) = (m.lnext e).map (Edge.rename ρ) :=
  R.oprev hv hv' hr hr' Q he.sym

omit R hv hv' hr hr' in
theorem rprev {e : Edge} (he : m.IsEdge e) : m'.rprev (e.rename ρ) = (m.rprev e).map (Edge.rename ρ) := Q _ he.sym

omit R hv hv' hr hr' in
theorem lprev {e : Edge} (he : m.IsEdge e) : m'.lprev (e.rename ρ) = (m.lprev e).map (Edge.rename ρ) := by
  unfold Mesh.lprev; rw [Q _ he, Option.map_map, Option.map_map]; rfl

theorem rnext {e : Edge} (he : m.IsEdge e) : m'.rnext (e.rename ρ) = (m.rnext e).map (Edge.rename ρ) := by
  unfold Mesh.rnext; rw [R.oprev hv hv' hr hr' Q he, Option.map_map, Option.map_map]; rfl

theorem butterflyPoint {e : Edge} (he : m.IsEdge e) :
    Verif.butterflyPoint K m' (e.rename ρ) = Verif.butterflyPoint K m e := by
  obtain ⟨e2, h2, g2⟩ := hr.lnext_some he
  obtain ⟨e4, h4, g4⟩ := hr.rprev_some g2
  obtain ⟨e3, h3, g3⟩ := hr.rprev_some he
  obtain ⟨e5, h5, g5⟩ := hr.lnext_some g3
  obtain ⟨e6, h6, g6⟩ := hr.lprev_some he
  obtain ⟨e6', h6', g6'⟩ := hr.rprev_some g6
  obtain ⟨e7, h7, g7⟩ := hr.rnext_some he
  obtain ⟨e7', h7', g7'⟩ := hr.lnext_some g7
  have hu := used_of_edge hv he
  have hd : ∀ {x : Edge}, m.IsEdge x → destOrZero m' (some (x.rename ρ)) = destOrZero m (some x) :=
    fun hx => R.getPoint (used_of_edge hv hx).2
  have k1 : m'.getPoint (e.rename ρ).1 = _ := R.getPoint hu.1
  have k2 : m'.getPoint (e.rename ρ).2 = _ := R.getPoint hu.2
  unfold Verif.butterflyPoint
  rw [R.lnext hv hv' hr hr' Q he, rprev Q he, lprev Q he, R.rnext hv hv' hr hr' Q he, h2, h3, h6, h7]
  simp only [Option.map_some, Option.bind_some]
  rw [rprev Q g2, R.lnext hv hv' hr hr' Q g3, rprev Q g6, R.lnext hv hv' hr hr' Q g7, h4, h5, h6', h7']
  simp only [Option.map_some]
  rw [k1, k2, hd g2, hd g3, hd g4, hd g5, hd g6', hd g7']

end Ring

theorem isAtBorder (R : Renamed ρ m m') (hv : m.Valid) (hv' : m'.Valid) {e : Edge} (he : m.IsEdge e) :
    m'.isAtBorder (e.rename ρ) = m.isAtBorder e := by
  have hu := used_of_edge hv he
  rw [Bool.eq_iff_iff, hv'.isAtBorder_iff (R.isEdge hv' hv he), hv.isAtBorder_iff he, Edge.rename_sym, R.dart_iff hu,
    R.dart_iff ⟨hu.2, hu.1⟩]

theorem smoothingPoint (R : Renamed ρ m m') (hv : m.Valid) (hv' : m'.Valid) (hr : m.RingOK) (hr' : m'.RingOK)
    (cosn : Nat → K) {v : PId} (h : usedBy m.tris v) (p : P) :
    Verif.smoothingPoint cosn m' (ρ v) p = Verif.smoothingPoint cosn m v p := by
  obtain ⟨w, hw⟩ : ∃ w, m.IsEdge (v, w) := by
    obtain ⟨t, ht, hvt⟩ := h
    obtain ⟨y, z, hi⟩ := Tri.mem_verts.1 hvt
    exact ⟨y, hv.isEdge_of_dart (mem_dartsOf.2 ⟨t, ht, hi.dart⟩)⟩
  obtain ⟨r, h1, h2, h3⟩ := smoothingPoint_ok cosn hv hr hw p
  obtain ⟨r', k1, k2, k3⟩ := smoothingPoint_ok cosn hv' hr' (show m'.IsEdge (ρ v, ρ w) from R.isEdge hv' hv hw) p
  rw [h3, k3]
  have hre : ∀ e ∈ r, m.IsEdge e := fun e he => ((h2 e).1 he).1
  have hperm : r'.Perm (r.map (Edge.rename ρ)) := by
    refine (List.perm_ext_iff_of_nodup k1 ?_).2 ?_
    · refine List.Nodup.map_on ?_ h1
      intro x hx y hy hxy
      exact (Edge.rename_inj R.injOn (used_of_edge hv (hre x hx)) (used_of_edge hv (hre y hy))).1 hxy
    · intro e
      rw [k2, List.mem_map]
      constructor
      · rintro ⟨a1, a2⟩
        obtain ⟨x, hx, rfl⟩ := R.isEdge' hv' hv a1
        refine ⟨x, (h2 x).2 ⟨hx, ?_⟩, rfl⟩
        exact R.injOn _ _ (used_of_edge hv hx).1 h a2
      · rintro ⟨x, hx, rfl⟩
        obtain ⟨b1, b2⟩ := (h2 x).1 hx
        exact ⟨R.isEdge hv' hv b1, congrArg ρ b2⟩
  have hf : (r'.filter m'.isAtBorder).Perm ((r.filter m.isAtBorder).map (Edge.rename ρ)) := by
    refine (hperm.filter _).trans (List.Perm.of_eq ?_)
    rw [List.filter_map]
    congr 1
    refine List.filter_congr fun x hx => ?_
    exact R.isAtBorder hv hv' (hre x hx)
  have hsum : ∀ {l' l : List Edge}, l'.Perm (l.map (Edge.rename ρ)) → (∀ e ∈ l, m.IsEdge e) →
      (l'.map fun e => m'.coord e.2).sum = (l.map fun e => m.coord e.2).sum := by
    intro l' l hl he
    rw [(hl.map _).sum_eq, List.map_map]
    congr 1
    exact List.map_congr_left fun x hx => R.coord (used_of_edge hv (he x hx)).2
  have l1 : (r'.filter m'.isAtBorder).length = (r.filter m.isAtBorder).length := by rw [hf.length_eq, List.length_map]
  have l2 : r'.length = r.length := by rw [hperm.length_eq, List.length_map]
  simp only [smoothed, added_eq]
  rw [l1, l2, hsum hperm hre, hsum hf fun e he => hre e (List.mem_filter.1 he).1]

theorem schemePoint {sch : Scheme} (R : Renamed ρ m m') (hn : sch.Needs m) (hn' : sch.Needs m')
    (Q : sch = .butterfly → RingRenamed ρ m m') {e : Edge} (he : m.IsEdge e) :
    Verif.schemePoint sch K m' (e.rename ρ) = Verif.schemePoint sch K m e := by
  cases sch with
  | linear => exact R.linearPoint hn.valid he
  | loop => exact R.loopPoint hn.valid hn'.valid (hn.ring (Or.inl rfl)) (hn'.ring (Or.inl rfl)) he
  | butterfly =>
    exact R.butterflyPoint hn.valid hn'.valid (hn.ring (Or.inr rfl)) (hn'.ring (Or.inr rfl)) (Q rfl) he
  | sqrt3 => rfl

/-- triangles at the same places -/
theorem coordTris (R : Renamed ρ m m') : m'.coordTris = m.coordTris := by
  unfold Mesh.coordTris
  rw [R.tris, List.map_map]
  refine List.map_congr_left fun t ht => ?_
  simp only [Function.comp, Tri.rename]
  rw [R.pos t ht _ (by simp [Tri.verts]), R.pos t ht _ (by simp [Tri.verts]), R.pos t ht _ (by simp [Tri.verts])]
end Renamed

end Verif
