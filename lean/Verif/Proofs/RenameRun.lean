import Verif.Proofs.Rename
/-
Whole runs on two meshes that differ in the numbering of their points only.
-/
namespace Verif
set_option linter.unusedSectionVars false
variable {K P D : Type} [Field K] [AddCommGroup P] [Module K P]

theorem pos_base' {out : Mesh P D} {n : Nat} {w : PId → P} {l : List P}
    (h : out.points = AMap.dense ((List.range n).map w ++ l)) (i : Nat) : out.pos (n + i) = l[i]? := by
  unfold Mesh.pos
  rw [h, AMap.find?_dense, List.getElem?_append_right (by simp)]
  simp

theorem AMap.dense_map {α β : Type} (g : α → β) (l : List α) :
    AMap.dense (l.map g) = (AMap.dense l).map fun c => (c.1, g c.2) := by
  unfold AMap.dense
  generalize 0 = i
  induction l generalizing i with
  | nil => rfl
  | cons x l ih => simp only [List.map_cons, AMap.denseFrom, ih]

theorem renamed_build {ρ : PId → PId} {m m' out out' : Mesh P D} (hv : m.Valid) (hv' : m'.Valid) (R : Renamed ρ m m')
    {I : List Item} (hb : Built out (I.map fun x => x.2.1))
    (hb' : Built out' ((I.map (Item.rename (extendId m.points.length m'.points.length ρ))).map fun x => x.2.1))
    (hverts : ∀ x ∈ I, ∀ v ∈ x.2.1.verts, usedBy m.tris v ∨ m.points.length ≤ v)
    (hold : ∀ v, usedBy m.tris v → out'.pos (ρ v) = out.pos v)
    (hnew : ∀ i, out'.pos (m'.points.length + i) = out.pos (m.points.length + i)) :
    Renamed (extendId m.points.length m'.points.length ρ) out out' := by
  have hT := hb.tris
  have hvert : ∀ t ∈ out.tris, ∀ v ∈ t.verts, usedBy m.tris v ∨ m.points.length ≤ v := by
    intro t ht
    rw [hT] at ht
    obtain ⟨x, hx, rfl⟩ := List.mem_map.1 ht
    exact hverts x hx
  have hsmall : ∀ v, usedBy m.tris v → ρ v < m'.points.length := by
    rintro v ⟨t, ht, hvt⟩
    refine hv'.verts_lt (t := t.rename ρ) ?_ ?_
    · rw [R.tris]; exact List.mem_map_of_mem ht
    · rw [Tri.rename_verts]; exact List.mem_map_of_mem hvt
  refine ⟨?_, ?_, ?_⟩
  · rw [hb'.cells, hb.cells, ← AMap.dense_map]
    congr 1
    simp only [List.map_map]
    rfl
  · intro t ht t' ht' v hvt w hwt h
    rcases hvert t ht v hvt with h1 | h1 <;> rcases hvert t' ht' w hwt with h2 | h2
    · rw [Renamed.extend_eq hv h1, Renamed.extend_eq hv h2] at h
      exact R.injOn v w h1 h2 h
    · rw [Renamed.extend_eq hv h1] at h
      obtain ⟨i, rfl⟩ := Nat.exists_eq_add_of_le h2
      rw [extendId_new] at h
      exact absurd (hsmall v h1) (h ▸ Nat.not_lt.2 (Nat.le_add_right _ _))
    · rw [Renamed.extend_eq hv h2] at h
      obtain ⟨i, rfl⟩ := Nat.exists_eq_add_of_le h1
      rw [extendId_new] at h
      exact absurd (hsmall w h2) (h ▸ Nat.not_lt.2 (Nat.le_add_right _ _))
    · obtain ⟨i, rfl⟩ := Nat.exists_eq_add_of_le h1
      obtain ⟨j, rfl⟩ := Nat.exists_eq_add_of_le h2
      rw [extendId_new, extendId_new] at h
      rw [Nat.add_left_cancel h]
  · intro t ht v hvt
    rcases hvert t ht v hvt with h1 | h1
    · rw [Renamed.extend_eq hv h1]; exact hold v h1
    · obtain ⟨i, rfl⟩ := Nat.exists_eq_add_of_le h1
      rw [extendId_new]; exact hnew i

theorem childItems_mem {μ : Edge → Option PId} {u : Bool} {m : Mesh P D} {x : Item}
    (hx : x ∈ childItems μ u m.cells) : ∃ t ∈ m.tris, x.2.1 ∈ t.children μ := by
  have : x.2.1 ∈ (childItems μ u m.cells).map fun x => x.2.1 := List.mem_map_of_mem (f := fun x : Item => x.2.1) hx
  rw [childItems_tris] at this
  obtain ⟨t, ht, h⟩ := List.mem_flatMap.1 this
  exact ⟨t, ht, h⟩

theorem mem_tris_of_cell {m : Mesh P D} {c : CId × Option Cell} (hc : c ∈ m.cells) {t : Tri} (ht : Cell.tri? c.2 = some t) :
    t ∈ m.tris := List.mem_filterMap.2 ⟨c, hc, ht⟩

theorem FaceSplitResult.item_verts {lib : QELib} {m out : Mesh P D} {f f' : Filt} {u : Bool} {μ : Edge → Option PId}
    {pts : List P} (A : FaceSplitResult lib m out f f' u μ pts) {x : Item} (hx : x ∈ childItems μ u m.cells) {v : PId}
    (hvx : v ∈ x.2.1.verts) : usedBy m.tris v ∨ m.points.length ≤ v := by
  obtain ⟨t, ht, h⟩ := childItems_mem hx
  have : v ∈ t.verts ∨ ∃ e, μ e = some v := by
    obtain ⟨a, b, c⟩ := t
    rcases children_verts _ h v hvx with h | ⟨e, _, h⟩
    · exact Or.inl h
    · exact Or.inr ⟨e, h⟩
  rcases this with h | ⟨e, h⟩
  · exact Or.inl ⟨t, ht, h⟩
  · exact Or.inr (A.fresh e v h).1

/-- an isolated point stays isolated -/
theorem FaceSplitResult.isolated {lib : QELib} {m out : Mesh P D} {f f' : Filt} {u : Bool} {μ : Edge → Option PId}
    {pts : List P} (A : FaceSplitResult lib m out f f' u μ pts) {v : PId} (h : m.Isolated v) : out.Isolated v := by
  refine ⟨?_, ?_⟩
  · rw [A.points, AMap.length_dense]
    exact Nat.lt_of_lt_of_le h.1 A.longer
  · intro t ht hvt
    rw [A.built.tris, ← childItems_tris μ u m] at ht
    obtain ⟨x, hx, rfl⟩ := List.mem_map.1 ht
    rcases A.item_verts hx hvt with ⟨t, ht, h1⟩ | h1
    · exact h.2 t ht h1
    · exact absurd h.1 (Nat.not_lt.2 h1)

/-- face split runs whose labels and points correspond -/
theorem faceSplit_rename {lib lib' : QELib} {ρ : PId → PId} {m m' out out' : Mesh P D} {f f' g g' : Filt} {u : Bool}
    {μ μ' : Edge → Option PId} {w w' : PId → P} {E : List Edge} {q q' : Edge → P} (hv : m.Valid) (hv' : m'.Valid)
    (R : Renamed ρ m m')
    (A : FaceSplitResult lib m out f f' u μ ((List.range m.points.length).map w ++ E.map q))
    (B : FaceSplitResult lib' m' out' g g' u μ' ((List.range m'.points.length).map w' ++ (E.map (Edge.rename ρ)).map q'))
    (hμ : ∀ e ∈ dartsOf m.tris, μ' (e.rename ρ) = (μ e).map (extendId m.points.length m'.points.length ρ))
    (hw : ∀ v, usedBy m.tris v → w' (ρ v) = w v) (hq : ∀ e ∈ E, q' (e.rename ρ) = q e) :
    Renamed (extendId m.points.length m'.points.length ρ) out out' ∧ g'.cells = f'.cells ∧
      ((∀ k, m'.dataAt k = m.dataAt k) → ∀ k, out'.dataAt k = out.dataAt k) := by
  have hI : childItems μ' u m'.cells =
      (childItems μ u m.cells).map (Item.rename (extendId m.points.length m'.points.length ρ)) := by
    rw [R.cells]
    refine childItems_rename u ?_ ?_
    · intro c hc t ht v hvt
      exact Renamed.extend_eq hv ⟨t, mem_tris_of_cell hc ht, hvt⟩ _
    · intro c hc t ht e he
      exact hμ e (mem_dartsOf.2 ⟨t, mem_tris_of_cell hc ht, he⟩)
  refine ⟨?_, ?_, ?_⟩
  · refine renamed_build hv hv' R (I := childItems μ u m.cells) ?_ ?_ ?_ ?_ ?_
    · rw [childItems_tris]; exact A.built
    · rw [← hI, childItems_tris]; exact B.built
    · exact fun x hx v hvx => A.item_verts hx hvx
    · intro v h
      have h1 := Renamed.used_lt hv h
      obtain ⟨t, ht, hvt⟩ := h
      have h2 : ρ v < m'.points.length := by
        refine hv'.verts_lt (t := t.rename ρ) ?_ ?_
        · rw [R.tris]; exact List.mem_map_of_mem ht
        · rw [Tri.rename_verts]; exact List.mem_map_of_mem hvt
      rw [pos_base A.points h1, pos_base B.points h2, hw v ⟨t, ht, hvt⟩]
    · intro i
      rw [pos_base' A.points, pos_base' B.points, List.map_map]
      congr 1
      exact List.map_congr_left hq
  · rw [A.filt, B.filt]
    simp only [hI, pushed_rename]
  · intro hd k
    rw [A.data, B.data, hI, List.getElem?_map, Option.bind_map]
    congr 1
    funext x
    exact hd x.1

theorem valueOf_congr {α β P : Type} [Zero P] {f : α → Except Fail P} {g : β → Except Fail P} {a : α} {b : β} (h : f a = g b) :
    valueOf f a = valueOf g b := by
  unfold valueOf; rw [h]

theorem Renamed.schemeBase {ρ : PId → PId} {m m' : Mesh P D} {sch : Scheme} (R : Renamed ρ m m') (hn : sch.Needs m)
    (hn' : sch.Needs m') {f g : Filt} (cosn : Nat → K) (hl : sch = .loop → f.uniform = true ∧ g.uniform = true) {v : PId}
    (h : usedBy m.tris v) : Verif.schemeBase sch cosn m' g (ρ v) = Verif.schemeBase sch cosn m f v := by
  cases sch with
  | loop =>
    obtain ⟨h1, h2⟩ := hl rfl
    show loopBase cosn m' g (ρ v) = loopBase cosn m f v
    unfold loopBase
    rw [h1, h2]
    simp only [Bool.true_or, if_true]
    refine valueOf_congr ?_
    rw [R.coord h]
    exact R.smoothingPoint hn.valid hn'.valid (hn.ring (Or.inl rfl)) (hn'.ring (Or.inl rfl)) cosn h _
  | linear => exact R.coord h
  | butterfly => exact R.coord h
  | sqrt3 => exact R.coord h

theorem cellUpdate_rename {sch : Scheme} (hs : sch ≠ .sqrt3) {ρ : PId → PId} {m m' : Mesh P D} (R : Renamed ρ m m')
    (hn : sch.Needs m) (hn' : sch.Needs m') (Q : sch = .butterfly → RingRenamed ρ m m') (lib lib' : QELib)
    (cosn : Nat → K) {f g : Filt} (hfg : g.cells = f.cells) (hl : sch = .loop → f.uniform = true ∧ g.uniform = true)
    (hsel : m.SelOK f.cells) :
    ∃ out f' out' g', cellUpdate sch lib cosn f m = (.ok out, f') ∧ cellUpdate sch lib' cosn g m' = (.ok out', g') ∧
      Renamed (extendId m.points.length m'.points.length ρ) out out' ∧ g'.cells = f'.cells ∧
      ((∀ k, m'.dataAt k = m.dataAt k) → ∀ k, out'.dataAt k = out.dataAt k) := by
  obtain ⟨out, f', h1, A⟩ := cellUpdate_ok hs lib cosn hn hsel
  obtain ⟨out', g', h2, B⟩ := cellUpdate_ok hs lib' cosn (f := g) hn' (hfg ▸ R.selOK hsel)
  have hsub : ∀ v, usedBy (m.selected f.cells) v → usedBy m.tris v := by
    rintro v ⟨t, ht, h⟩
    exact ⟨t, hn.valid.selected_subset _ t ht, h⟩
  have hinj : InjOn ρ (usedBy (m.selected f.cells)) := fun v w a b => R.injOn v w (hsub v a) (hsub w b)
  rw [hfg, R.selected, edgeList_rename hinj] at B
  refine ⟨out, f', out', g', h1, h2, faceSplit_rename hn.valid hn'.valid R A B ?_ ?_ ?_⟩
  · intro e he
    refine labelOf_rename R.injOn (fun x hx => ?_) (usedBy_dart he)
    obtain ⟨a, b⟩ := edgeList_used hx
    exact ⟨hsub _ a, hsub _ b⟩
  · exact fun v h => R.schemeBase hn hn' cosn hl h
  · exact fun e he => valueOf_congr (R.schemePoint hn hn' Q (selected_isEdge hn.valid he))

theorem edgeUpdate_rename {sch : EdgeScheme} {ρ : PId → PId} {m m' : Mesh P D} (R : Renamed ρ m m')
    (hn : sch.toScheme.Needs m) (hn' : sch.toScheme.Needs m') (Q : sch = .butterfly → RingRenamed ρ m m')
    (lib lib' : QELib)
    (cosn : Nat → K) {f g : Filt} (hne : g.edgeSel.isEmpty = f.edgeSel.isEmpty)
    (hfg : m'.selectedEdges g.edgeSel = (m.selectedEdges f.edgeSel).map (Edge.rename ρ))
    (hsel : m.EdgeSelOK f.edgeSel) (hsel' : m'.EdgeSelOK g.edgeSel) :
    ∃ out f' out' g', edgeUpdate sch lib cosn f m = (.ok out, f') ∧ edgeUpdate sch lib' cosn g m' = (.ok out', g') ∧
      Renamed (extendId m.points.length m'.points.length ρ) out out' ∧ g'.cells = f'.cells ∧
      ((∀ k, m'.dataAt k = m.dataAt k) → ∀ k, out'.dataAt k = out.dataAt k) := by
  obtain ⟨out, f', h1, A⟩ := edgeUpdate_ok lib cosn hn hsel
  obtain ⟨out', g', h2, B⟩ := edgeUpdate_ok lib' cosn (f := g) hn' hsel'
  have Q' : sch.toScheme = .butterfly → RingRenamed ρ m m' := by
    intro h; cases sch <;> first | exact Q rfl | cases h
  rw [hne, hfg] at B
  refine ⟨out, f', out', g', h1, h2, faceSplit_rename hn.valid hn'.valid R A B ?_ ?_ ?_⟩
  · intro e he
    exact lastLabel_rename R.injOn (fun x hx => Renamed.used_of_edge hn.valid (selectedEdges_isEdge hsel hx)) (usedBy_dart he)
  · exact fun v h => R.coord h
  · exact fun e he => valueOf_congr (R.schemePoint hn hn' Q' (selectedEdges_isEdge hsel he))

/-- a step with other point ids -/
def Job.rename (ρ : PId → PId) (j : Job) : Job := (j.1, j.2.1.rename ρ, j.2.2.map (Edge.rename ρ))

theorem sq3Jobs_rename {ρ ρ' : PId → PId} {σ σ' : Edge → Option PId} {cells : AMap (Option Cell)}
    (he : ∀ c ∈ cells, ∀ t, Cell.tri? c.2 = some t → ∀ e ∈ t.darts, σ' (e.rename ρ) = (σ e).map ρ') :
    sq3Jobs σ' (renameCells ρ cells) = (sq3Jobs σ cells).map (Job.rename ρ) := by
  unfold sq3Jobs renameCells
  rw [List.map_flatMap, List.flatMap_map]
  refine List.flatMap_congr fun c hc => ?_
  dsimp only
  rw [tri?_rename]
  rcases ht : Cell.tri? c.2 with _ | t
  · rfl
  · have h0 : σ' ((t.rename ρ).1, (t.rename ρ).2.1) = _ := he c hc t ht (t.1, t.2.1) (by simp [Tri.darts])
    simp only [Option.map_some, sq3JobsOf, h0]
    rcases σ (t.1, t.2.1) with _ | v
    · rfl
    · simp only [Option.map_some, Tri.rename_darts, List.map_map]; rfl

theorem sq3Piece_rename {ρ ρ' : PId → PId} {σ σ' : Edge → Option PId} {e : Edge} (hb : ρ' e.1 = ρ e.1 ∧ ρ' e.2 = ρ e.2)
    (he : σ' (e.rename ρ).sym = (σ e.sym).map ρ') (v : PId) :
    sq3Piece σ' (ρ' v) (e.rename ρ) = (sq3Piece σ v e).rename ρ' := by
  unfold sq3Piece
  rw [he]
  rcases σ e.sym with _ | v'
  · simp only [Option.map_none, Tri.rename, Edge.rename, hb.1, hb.2]
  · simp only [Option.map_some, Tri.rename, Edge.rename, hb.2]

theorem sq3Items_rename {ρ ρ' : PId → PId} {V : PId → Prop} (hinj : InjOn ρ V) {σ σ' : Edge → Option PId} (u : Bool)
    (hb : ∀ v, V v → ρ' v = ρ v) {J : List Job} (hk : ∀ j ∈ J, j.2.2 = none → ∀ v ∈ j.2.1.verts, V v)
    (he : ∀ j ∈ J, ∀ e, j.2.2 = some e → (V e.1 ∧ V e.2) ∧ (σ e).isSome ∧ σ' (e.rename ρ) = (σ e).map ρ' ∧
      σ' (e.sym.rename ρ) = (σ e.sym).map ρ') :
    ∀ M : List Edge, (∀ e ∈ M, V e.1 ∧ V e.2) →
      sq3Items σ' u (M.map (Edge.rename ρ)) (J.map (Job.rename ρ)) = (sq3Items σ u M J).map (Item.rename ρ') := by
  induction J with
  | nil => intro M _; rfl
  | cons j J ih =>
    intro M hM
    have ih' := ih (fun j hj => hk j (by simp [hj])) (fun j hj => he j (by simp [hj]))
    obtain ⟨id, t, oe⟩ := j
    rcases oe with _ | e
    · have hv := hk (id, t, none) (by simp) rfl
      have ht : t.rename ρ = t.rename ρ' := by
        unfold Tri.rename
        rw [hb _ (hv t.1 (by simp [Tri.verts])), hb _ (hv t.2.1 (by simp [Tri.verts])), hb _ (hv t.2.2 (by simp [Tri.verts]))]
      simp only [List.map_cons, Job.rename, Option.map_none, sq3Items, ih' M hM, Item.rename, ht]
    · obtain ⟨hV, hs, h1, h2⟩ := he (id, t, some e) (by simp) e rfl
      obtain ⟨v, hvσ⟩ := Option.isSome_iff_exists.1 hs
      have hm : e.rename ρ ∈ M.map (Edge.rename ρ) ↔ e ∈ M := mem_map_rename hinj hM hV
      simp only [List.map_cons, Job.rename, Option.map_some, sq3Items]
      by_cases hmem : e ∈ M
      · rw [if_pos hmem, if_pos (hm.2 hmem)]
        exact ih' M hM
      · rw [if_neg hmem, if_neg (fun h => hmem (hm.1 h)), Edge.rename_sym]
        have p1 := sq3Piece_rename (σ := σ) (σ' := σ') (e := e) ⟨hb _ hV.1, hb _ hV.2⟩ h2 v
        have p2 : ∀ w, sq3Piece σ' (ρ' w) (e.sym.rename ρ) = (sq3Piece σ w e.sym).rename ρ' := fun w =>
          sq3Piece_rename (σ := σ) (σ' := σ') (e := e.sym) ⟨hb _ hV.2, hb _ hV.1⟩
            (by rw [Edge.rename_sym, Edge.sym_sym]; exact h1) w
        rw [h2, h1, hvσ]
        rcases σ e.sym with _ | v'
        · simp only [Option.map_none, Option.map_some, Option.getD_some, List.map_cons, Item.rename, p1, ih' M hM]
        · have := ih' (e.sym :: M) (by
            intro x hx
            rcases List.mem_cons.1 hx with rfl | hx
            · exact ⟨hV.2, hV.1⟩
            · exact hM x hx)
          rw [List.map_cons] at this
          simp only [Option.map_some, Option.getD_some, List.map_cons, Item.rename, p1, p2, this]

theorem centreIn_rename {ρ : PId → PId} {V : PId → Prop} (h : InjOn ρ V) {n n' : Nat} {L : List Tri}
    (hL : ∀ t ∈ L, ∀ v ∈ t.verts, V v) {e : Edge} (he : V e.1 ∧ V e.2) :
    centreIn n' (L.map (Tri.rename ρ)) (e.rename ρ) = (centreIn n L e).map (extendId n n' ρ) := by
  unfold centreIn
  rw [List.findIdx?_map]
  have : L.findIdx? ((fun t => t.darts.contains (e.rename ρ)) ∘ Tri.rename ρ) = L.findIdx? (fun t => t.darts.contains e) := by
    refine findIdx?_congr' fun t ht => ?_
    simp only [Function.comp, Tri.rename_darts]
    rw [Bool.eq_iff_iff, List.contains_iff_mem, List.contains_iff_mem]
    refine mem_map_rename h (fun x hx => ?_) he
    have := usedBy_dart (T := [t]) (e := x) (mem_dartsOf.2 ⟨t, by simp, hx⟩)
    obtain ⟨⟨t1, h1, h2⟩, ⟨t2, h3, h4⟩⟩ := this
    rw [List.mem_singleton] at h1 h3
    rw [h1] at h2
    rw [h3] at h4
    exact ⟨hL t ht _ h2, hL t ht _ h4⟩
  rw [this, Option.map_map]
  refine Option.map_congr fun i _ => ?_
  exact (extendId_new n n' i ρ).symm

theorem sq3Jobs_mem {σ : Edge → Option PId} {m : Mesh P D} {j : Job} (hj : j ∈ sq3Jobs σ m.cells) :
    j.2.1 ∈ m.tris ∧ ∀ e, j.2.2 = some e → e ∈ j.2.1.darts ∧ (σ (j.2.1.1, j.2.1.2.1)).isSome := by
  obtain ⟨c, hc, h⟩ := List.mem_flatMap.1 hj
  rcases ht : Cell.tri? c.2 with _ | t
  · rw [ht] at h; cases h
  · rw [ht] at h
    have htm := mem_tris_of_cell hc ht
    unfold sq3JobsOf at h
    rcases hs : σ (t.1, t.2.1) with _ | v
    · simp only [hs, List.mem_singleton] at h
      subst h
      exact ⟨htm, fun e he => by cases he⟩
    · simp only [hs] at h
      obtain ⟨e, he, rfl⟩ := List.mem_map.1 h
      exact ⟨htm, fun e' he' => by cases he'; exact ⟨he, by rw [hs]; rfl⟩⟩

theorem Sqrt3Result.item_verts {lib : QELib} {m out : Mesh P D} {f f' : Filt} {u : Bool} {σ : Edge → Option PId}
    {pts : List P} (A : Sqrt3Result lib m out f f' u σ pts) (hv : m.Valid) {x : Item}
    (hx : x ∈ sq3Items σ u [] (sq3Jobs σ m.cells)) {v : PId}
    (hvx : v ∈ x.2.1.verts) : usedBy m.tris v ∨ m.points.length ≤ v := by
  obtain ⟨k, hk⟩ := List.getElem?_of_mem hx
  obtain ⟨t, h3, h4, -⟩ := A.madeFrom hv hk
  have htm := hv.mem_tris.2 ⟨_, h3⟩
  rcases h4 with ⟨h4, -⟩ | ⟨e, he, w, hw, h4⟩
  · exact Or.inl ⟨t, htm, h4 ▸ hvx⟩
  · have hu := usedBy_dart (mem_dartsOf.2 ⟨t, htm, he⟩)
    rcases h4 with h4 | ⟨w', hw', h4⟩
    · rw [h4] at hvx
      rcases sq3Piece_verts hvx with rfl | rfl | rfl | h
      · exact Or.inl hu.1
      · exact Or.inl hu.2
      · exact Or.inr (A.fresh _ _ hw).1
      · exact Or.inr (A.fresh _ _ h).1
    · rw [h4] at hvx
      rcases sq3Piece_verts hvx with rfl | rfl | rfl | h
      · exact Or.inl hu.2
      · exact Or.inl hu.1
      · exact Or.inr (A.fresh _ _ hw').1
      · exact Or.inr (A.fresh _ _ h).1

theorem Sqrt3Result.isolated {lib : QELib} {m out : Mesh P D} {f f' : Filt} {u : Bool} {σ : Edge → Option PId}
    {pts : List P} (A : Sqrt3Result lib m out f f' u σ pts) (hv : m.Valid) {v : PId} (h : m.Isolated v) : out.Isolated v := by
  refine ⟨?_, ?_⟩
  · rw [A.points, AMap.length_dense]
    exact Nat.lt_of_lt_of_le h.1 A.longer
  · intro t ht hvt
    rw [A.built.tris] at ht
    obtain ⟨x, hx, rfl⟩ := List.mem_map.1 ht
    rcases A.item_verts hv hx hvt with ⟨t, ht, h1⟩ | h1
    · exact h.2 t ht h1
    · exact absurd h.1 (Nat.not_lt.2 h1)

theorem sqrt3Update_rename {ρ : PId → PId} {m m' : Mesh P D} (R : Renamed ρ m m') (hv : m.Valid) (hv' : m'.Valid)
    (lib lib' : QELib) (cosn : Nat → K) {f g : Filt} (hfg : g.cells = f.cells) (hsel : m.SelOK f.cells)
    (hmax : m.points.length + (m.selected f.cells).length ≤ idMax)
    (hmax' : m'.points.length + (m.selected f.cells).length ≤ idMax) :
    ∃ out f' out' g', cellUpdate .sqrt3 lib cosn f m = (.ok out, f') ∧ cellUpdate .sqrt3 lib' cosn g m' = (.ok out', g') ∧
      Renamed (extendId m.points.length m'.points.length ρ) out out' ∧ g'.cells = f'.cells ∧
      ((∀ k, m'.dataAt k = m.dataAt k) → ∀ k, out'.dataAt k = out.dataAt k) := by
  obtain ⟨out, f', h1, A⟩ := sqrt3Update_ok hv lib cosn hsel hmax
  obtain ⟨out', g', h2, B⟩ := sqrt3Update_ok (f := g) hv' lib' cosn (hfg ▸ R.selOK hsel)
    (by rw [hfg, R.selected, List.length_map]; exact hmax')
  have hsub : ∀ t ∈ m.selected f.cells, ∀ v ∈ t.verts, usedBy m.tris v :=
    fun t ht v h => ⟨t, hv.selected_subset _ t ht, h⟩
  have hσ : ∀ e : Edge, usedBy m.tris e.1 ∧ usedBy m.tris e.2 →
      m'.centreOf g.cells (e.rename ρ) = (m.centreOf f.cells e).map (extendId m.points.length m'.points.length ρ) := by
    intro e he
    show centreIn _ (m'.selected g.cells) _ = (centreIn _ _ _).map _
    rw [hfg, R.selected]
    exact centreIn_rename R.injOn hsub he
  have hjobs : sq3Jobs (m'.centreOf g.cells) m'.cells = (sq3Jobs (m.centreOf f.cells) m.cells).map (Job.rename ρ) := by
    rw [R.cells]
    exact sq3Jobs_rename fun c hc t ht e he => hσ e (usedBy_dart (mem_dartsOf.2 ⟨t, mem_tris_of_cell hc ht, he⟩))
  have hI : sq3Items (m'.centreOf g.cells) g.cells.isEmpty [] (sq3Jobs (m'.centreOf g.cells) m'.cells) =
      (sq3Items (m.centreOf f.cells) f.cells.isEmpty [] (sq3Jobs (m.centreOf f.cells) m.cells)).map
        (Item.rename (extendId m.points.length m'.points.length ρ)) := by
    rw [hjobs, hfg]
    rw [hfg] at hσ
    refine sq3Items_rename (V := usedBy m.tris) R.injOn _ (fun v h => Renamed.extend_eq hv h _) ?_ ?_ [] (by simp)
    · intro j hj _ v hvj
      exact ⟨j.2.1, (sq3Jobs_mem hj).1, hvj⟩
    · intro j hj e hje
      obtain ⟨a1, a2⟩ := sq3Jobs_mem hj
      obtain ⟨a3, a4⟩ := a2 e hje
      have hu := usedBy_dart (mem_dartsOf.2 ⟨_, a1, a3⟩)
      refine ⟨hu, ?_, hσ e hu, hσ e.sym ⟨hu.2, hu.1⟩⟩
      rw [A.centres.same _ a1 e a3 (j.2.1.1, j.2.1.2.1) (by simp [Tri.darts])]
      exact a4
  refine ⟨out, f', out', g', h1, h2, ?_, ?_, ?_⟩
  · refine renamed_build hv hv' R A.built ?_ ?_ ?_ ?_
    · rw [← hI]; exact B.built
    · exact fun x hx v hvx => A.item_verts hv hx hvx
    · intro v h
      have h3 := Renamed.used_lt hv h
      have h6 := R.coord h
      obtain ⟨t, ht, hvt⟩ := h
      have h4 : ρ v < m'.points.length := by
        refine hv'.verts_lt (t := t.rename ρ) ?_ ?_
        · rw [R.tris]; exact List.mem_map_of_mem ht
        · rw [Tri.rename_verts]; exact List.mem_map_of_mem hvt
      rw [pos_base A.points h3, pos_base B.points h4, h6]
    · intro i
      rw [pos_base' A.points, pos_base' B.points, hfg, R.selected, List.map_map]
      congr 1
      refine List.map_congr_left fun t ht => ?_
      have hc : ∀ v ∈ t.verts, m'.coord (ρ v) = m.coord v := fun v h => R.coord (hsub t ht v h)
      have c0 : m'.coord (t.rename ρ).1 = _ := hc t.1 (by simp [Tri.verts])
      have c1 : m'.coord (t.rename ρ).2.1 = _ := hc t.2.1 (by simp [Tri.verts])
      have c2 : m'.coord (t.rename ρ).2.2 = _ := hc t.2.2 (by simp [Tri.verts])
      simp only [Function.comp, Mesh.centroid, c0, c1, c2]
  · rw [A.cells, B.cells, hI, pushed_rename]
  · intro hd k
    rw [A.data, B.data, hI, List.getElem?_map, Option.bind_map]
    congr 1
    funext x
    exact hd x.1

end Verif
