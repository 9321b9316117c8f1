import Verif.Spec.Gaps
import Verif.Proofs.Schemes
import Verif.Proofs.Criteria
import Verif.Proofs.Keep
import Verif.Proofs.EdgeAlike
/-
A run on a mesh whose gaps are among the first `n` ids is the run on the mesh with the gaps filled.
-/
namespace Verif
set_option linter.unusedSectionVars false
variable {K P D : Type} [Field K] [AddCommGroup P] [Module K P]

theorem AMap.find?_nil {α : Type} (k : Nat) : AMap.find? ([] : AMap α) k = none := rfl

theorem AMap.ext_sorted {α : Type} {a b : AMap α} (ha : (a.map Prod.fst).Pairwise (· < ·))
    (hb : (b.map Prod.fst).Pairwise (· < ·)) (h : ∀ k, a.find? k = b.find? k) : a = b := by
  have hm : ∀ x, x ∈ a ↔ x ∈ b := by
    rintro ⟨k, v⟩
    rw [← AMap.find?_eq_some_of_sorted _ ha, ← AMap.find?_eq_some_of_sorted _ hb, h]
  have na : a.Pairwise (fun x y => x.1 < y.1) := List.pairwise_map.1 ha
  have nb : b.Pairwise (fun x y => x.1 < y.1) := List.pairwise_map.1 hb
  have da : a.Nodup := na.imp (fun h he => absurd (he ▸ h) (Nat.lt_irrefl _))
  have db : b.Nodup := nb.imp (fun h he => absurd (he ▸ h) (Nat.lt_irrefl _))
  refine List.Perm.eq_of_pairwise (le := fun x y => x.1 < y.1) ?_ na nb ((List.perm_ext_iff_of_nodup da db).2 hm)
  intro x y _ _ h1 h2
  exact absurd h1 (Nat.lt_asymm h2)

theorem AMap.find?_foldl_set {α : Type} (l base : AMap α) (h : (l.map Prod.fst).Pairwise (· < ·)) (k : Nat) :
    (l.foldl (fun m kp => m.set kp.1 kp.2) base).find? k = (l.find? k).orElse fun _ => base.find? k := by
  induction l generalizing base with
  | nil => rfl
  | cons x l ih =>
    obtain ⟨k', v⟩ := x
    rw [List.map_cons, List.pairwise_cons] at h
    rw [List.foldl_cons, ih _ h.2, AMap.find?_set]
    have : AMap.find? ((k', v) :: l) k = if k = k' then some v else AMap.find? l k := rfl
    rw [this]
    by_cases he : k = k'
    · subst he
      have hn : AMap.find? l k = none := by
        rw [← Option.not_isSome_iff_eq_none, AMap.find?_isSome]
        intro hc
        exact absurd (h.1 _ hc) (Nat.lt_irrefl _)
      rw [hn, if_pos rfl]
      simp
    · rw [if_neg he]
      simp [he]

theorem AMap.foldl_set_sorted {α : Type} (l base : AMap α) (h : (base.map Prod.fst).Pairwise (· < ·)) :
    ((l.foldl (fun m kp => m.set kp.1 kp.2) base).map Prod.fst).Pairwise (· < ·) := by
  induction l generalizing base with
  | nil => exact h
  | cons x l ih => exact ih _ (AMap.sorted_set _ _ _ h)

theorem AMap.foldl_set_self {α : Type} {l base : AMap α} (h : (l.map Prod.fst).Pairwise (· < ·))
    (hb : (base.map Prod.fst).Pairwise (· < ·)) (hk : ∀ k, (base.find? k).isSome → (l.find? k).isSome) :
    l.foldl (fun m kp => m.set kp.1 kp.2) base = l := by
  refine AMap.ext_sorted (AMap.foldl_set_sorted _ _ hb) h ?_
  intro k
  rw [AMap.find?_foldl_set _ _ h]
  rcases hl : l.find? k with _ | v
  · rcases hb' : base.find? k with _ | w
    · rfl
    · have := hk k (by rw [hb']; rfl)
      rw [hl] at this
      cases this
  · rfl

section
variable {m : Mesh P D} {N : Nat}

theorem reserve_sorted (n : Nat) : ((AMap.reserve ([] : AMap P) n 0).map Prod.fst).Pairwise (· < ·) := by
  rw [AMap.reserve_nil, AMap.map_fst_dense]
  exact List.pairwise_lt_range

theorem reserve_find (n k : Nat) : (AMap.reserve ([] : AMap P) n 0).find? k = if k < n then some 0 else none := by
  rw [AMap.reserve_nil, AMap.find?_dense, List.getElem?_replicate]

theorem fill_keys : (m.fill N).points.map Prod.fst = List.range N := by
  unfold Mesh.fill
  simp [List.map_map, Function.comp_def]

theorem fill_length : (m.fill N).points.length = N := by simp [Mesh.fill]

theorem fill_pos (v : PId) : (m.fill N).pos v = if v < N then some ((m.pos v).getD 0) else none := by
  unfold Mesh.pos
  have h : (m.fill N).points = AMap.dense ((List.range N).map fun v => (m.pos v).getD 0) := by
    rw [AMap.eq_dense (m.fill N).points (by rw [fill_keys, fill_length])]
    congr 1
    simp [Mesh.fill, List.map_map, Function.comp_def]
  rw [h, AMap.find?_dense]
  by_cases hv : v < N
  · rw [if_pos hv, List.getElem?_map, List.getElem?_range hv]; rfl
  · rw [if_neg hv, List.getElem?_eq_none (by simpa using hv)]

theorem fill_pos_some (hN : m.GapsBelow N) {v : PId} (h : (m.pos v).isSome) : (m.fill N).pos v = m.pos v := by
  rw [fill_pos, if_pos ((hN v).2 (Or.inr h))]
  obtain ⟨p, hp⟩ := Option.isSome_iff_exists.1 h
  rw [hp]; rfl

theorem fill_getPoint (hN : m.GapsBelow N) {v : PId} (h : (m.pos v).isSome) : (m.fill N).getPoint v = m.getPoint v := by
  have := fill_pos_some hN h
  unfold Mesh.pos at this
  unfold Mesh.getPoint
  rw [this]

/-- the copy of the points fills the gaps -/
theorem copyPoints_fill (hs : (m.points.map Prod.fst).Pairwise (· < ·)) (hN : m.GapsBelow N) (f : Filt) :
    copyPoints m ⟨f, (Mesh.empty : Mesh P D)⟩ = copyPoints (m.fill N) ⟨f, Mesh.empty⟩ := by
  have h1 : m.points.foldl (fun m kp => m.set kp.1 kp.2) (AMap.reserve ([] : AMap P) m.points.length 0) = (m.fill N).points := by
    refine AMap.ext_sorted (AMap.foldl_set_sorted _ _ (reserve_sorted _)) ?_ ?_
    · rw [fill_keys]; exact List.pairwise_lt_range
    · intro k
      rw [AMap.find?_foldl_set _ _ hs, reserve_find]
      have := fill_pos (m := m) (N := N) k
      unfold Mesh.pos at this
      rw [this]
      have hk := hN k
      unfold Mesh.pos at hk
      rcases hf : m.points.find? k with _ | p
      · rw [hf] at hk
        by_cases hl : k < m.points.length
        · rw [if_pos (hk.2 (Or.inl hl)), if_pos hl]; rfl
        · rw [if_neg hl, if_neg (fun h => (hk.1 h).elim hl (by simp))]; rfl
      · rw [hf] at hk
        rw [if_pos (hk.2 (Or.inr rfl))]; rfl
  have h2 : (m.fill N).points.foldl (fun m kp => m.set kp.1 kp.2) (AMap.reserve ([] : AMap P) (m.fill N).points.length 0) =
      (m.fill N).points := by
    refine AMap.foldl_set_self ?_ (reserve_sorted _) ?_
    · rw [fill_keys]; exact List.pairwise_lt_range
    · intro k hk
      rw [AMap.find?_isSome, fill_keys, List.mem_range]
      rw [reserve_find, fill_length] at hk
      by_contra hc
      rw [if_neg hc] at hk
      cases hk
  unfold copyPoints modifyOut
  simp only [Mesh.empty]
  rw [h1, h2]

theorem forEach_congr_mem {σ α : Type} {f g : α → Prog σ Unit} {l : List α} (h : ∀ x ∈ l, f x = g x) :
    Prog.forEach f l = Prog.forEach g l := by
  induction l with
  | nil => rfl
  | cons x l ih =>
    unfold Prog.forEach
    rw [h x (by simp), ih (fun y hy => h y (by simp [hy]))]

theorem fill_valid (hv : m.GapValid) (hN : m.GapsBelow N) : (m.fill N).Valid where
  points_dense := by rw [fill_keys, fill_length]
  cells_sorted := hv.cells_sorted
  cells_tri := by
    intro c hc
    obtain ⟨t, h1, h2⟩ := hv.cells_tri c hc
    refine ⟨t, h1, fun v hvt => ?_⟩
    rw [fill_length]
    exact (hN v).2 (Or.inr (h2 v hvt))
  good := hv.good
  left_iff := hv.left_iff
  edges_iff := hv.edges_iff
  edges_once := hv.edges_once
  has_edge_cells := hv.has_edge_cells

theorem ringOK_points (hr : m.RingOK) (pts : AMap P) : Mesh.RingOK { m with points := pts } where
  onext_some := hr.onext_some
  oprev_iff := hr.oprev_iff
  one_ring := by
    intro e e' he he' h
    obtain ⟨k, hk⟩ := hr.one_ring e e' he he' h
    refine ⟨k, ?_⟩
    rw [← hk]
    have : ∀ k, Mesh.onextIter { m with points := pts } k e = m.onextIter k e := by
      intro k
      induction k with
      | zero => rfl
      | succ k ih =>
        unfold Mesh.onextIter
        rw [ih]
    exact this k
  face := hr.face
  point_edge := hr.point_edge
  point_edge_some := hr.point_edge_some

theorem fill_ringOK (hr : m.RingOK) : (m.fill N).RingOK := ringOK_points hr _

theorem GapValid.edge_pos (hv : m.GapValid) {e : Edge} (he : m.IsEdge e) : (m.pos e.1).isSome ∧ (m.pos e.2).isSome := by
  have key : ∀ d ∈ dartsOf m.tris, (m.pos d.1).isSome ∧ (m.pos d.2).isSome := by
    intro d hd
    obtain ⟨t, ht, hdt⟩ := mem_dartsOf.1 hd
    obtain ⟨c, hc, hct⟩ := List.mem_filterMap.1 ht
    obtain ⟨t', h1, h2⟩ := hv.cells_tri c hc
    rw [h1] at hct
    have : t' = t := by simpa [Tri.cell, Cell.tri?] using hct
    subst this
    exact ⟨h2 _ (Tri.dart_fst hdt), h2 _ (Tri.dart_snd hdt)⟩
  rcases (hv.edges_iff e).1 he with h | h
  · exact key _ h
  · exact ⟨(key _ h).2, (key _ h).1⟩

theorem fill_destOrZero (hv : m.GapValid) (hN : m.GapsBelow N) {o : Option Edge} (h : ∃ e, o = some e ∧ m.IsEdge e) :
    destOrZero (m.fill N) o = destOrZero m o := by
  obtain ⟨e, rfl, he⟩ := h
  exact fill_getPoint hN (GapValid.edge_pos hv he).2

theorem fill_linearPoint (hv : m.GapValid) (hN : m.GapsBelow N) {e : Edge} (he : m.IsEdge e) :
    linearPoint K (m.fill N) e = linearPoint K m e := by
  unfold linearPoint
  rw [fill_getPoint hN (GapValid.edge_pos hv he).1, fill_getPoint hN (GapValid.edge_pos hv he).2]

theorem fill_butterflyPoint (hv : m.GapValid) (hr : m.RingOK) (hN : m.GapsBelow N) {e : Edge} (he : m.IsEdge e) :
    butterflyPoint K (m.fill N) e = butterflyPoint K m e := by
  have b : ∀ {o : Option Edge} {g : Edge → Option Edge}, (∃ e, o = some e ∧ m.IsEdge e) →
      (∀ e, m.IsEdge e → ∃ e', g e = some e' ∧ m.IsEdge e') → ∃ e, o.bind g = some e ∧ m.IsEdge e := by
    rintro o g ⟨e, rfl, h⟩ hg
    exact hg e h
  have ln := fun e (h : m.IsEdge e) => hr.lnext_some h
  have rp := fun e (h : m.IsEdge e) => hr.rprev_some h
  have e1 := fill_getPoint hN (GapValid.edge_pos hv he).1
  have e2 := fill_getPoint hN (GapValid.edge_pos hv he).2
  have d1 : destOrZero (m.fill N) ((m.fill N).lnext e) = _ := fill_destOrZero hv hN (ln e he)
  have d2 : destOrZero (m.fill N) (((m.fill N).lnext e).bind (m.fill N).rprev) = _ := fill_destOrZero hv hN (b (ln e he) rp)
  have d3 : destOrZero (m.fill N) ((m.fill N).rprev e) = _ := fill_destOrZero hv hN (rp e he)
  have d4 : destOrZero (m.fill N) (((m.fill N).rprev e).bind (m.fill N).lnext) = _ := fill_destOrZero hv hN (b (rp e he) ln)
  have d5 : destOrZero (m.fill N) (((m.fill N).lprev e).bind (m.fill N).rprev) = _ :=
    fill_destOrZero hv hN (b (hr.lprev_some he) rp)
  have d6 : destOrZero (m.fill N) (((m.fill N).rnext e).bind (m.fill N).lnext) = _ :=
    fill_destOrZero hv hN (b (hr.rnext_some he) ln)
  unfold butterflyPoint
  rw [e1, e2, d1, d2, d3, d4, d5, d6]
  rfl

theorem fill_addEdgePoint {np np' : Edge → Except Fail P} (h : ∀ e, m.IsEdge e → np' e = np e) (x y : PId) :
    addEdgePoint (m.fill N) np' x y = addEdgePoint m np x y := by
  funext n
  unfold addEdgePoint
  have hf : (m.fill N).findEdge x y = m.findEdge x y := rfl
  rw [hf]
  rcases he : m.findEdge x y with _ | e
  · rfl
  · have : m.IsEdge e := by
      unfold Mesh.findEdge Mesh.hasEdge at he
      split at he
      · rename_i h1
        rw [Bool.or_eq_true, List.contains_iff_mem, List.contains_iff_mem] at h1
        cases he
        exact h1
      · cases he
    simp only [h e this]
    rfl

theorem fill_addThree {np np' : Edge → Except Fail P} (h : ∀ e, m.IsEdge e → np' e = np e) (c : Option Cell) :
    addThree (m.fill N) np' c = addThree m np c := by
  unfold addThree
  simp only [fill_addEdgePoint h]

theorem fill_sq3AddNew (hv : m.GapValid) (hN : m.GapsBelow N) {c : CId × Option Cell} (hc : c ∈ m.cells) :
    sq3AddNew K (m.fill N) c.2 = sq3AddNew K m c.2 := by
  obtain ⟨t, h1, h2⟩ := hv.cells_tri c hc
  have e1 := fill_getPoint hN (h2 t.1 (by simp [Tri.verts]))
  have e2 := fill_getPoint hN (h2 t.2.1 (by simp [Tri.verts]))
  have e3 := fill_getPoint hN (h2 t.2.2 (by simp [Tri.verts]))
  rw [h1]
  have hr : ∀ {α : Type} (g : PId × PId × PId → M P D α), Prog.bind (requireTriangle (some t.cell)) g = g t := fun g => rfl
  unfold sq3AddNew
  rw [hr, hr, e1, e2, e3]
  rfl

theorem generateOutputPoints_fill {copy copy' : M P D Unit} {add add' : Option Cell → M P D Unit} {f : Filt}
    (hc : copy ⟨f, Mesh.empty⟩ = copy' ⟨f, Mesh.empty⟩) (ha : ∀ c ∈ m.cells, add' c.2 = add c.2) :
    generateOutputPoints copy add m ⟨f, Mesh.empty⟩ = generateOutputPoints copy' add' (m.fill N) ⟨f, Mesh.empty⟩ := by
  unfold generateOutputPoints
  have hb : ∀ {g g' : Unit → M P D Unit}, g = g' → Prog.bind copy g ⟨f, Mesh.empty⟩ = Prog.bind copy' g' ⟨f, Mesh.empty⟩ := by
    rintro g g' rfl
    unfold Prog.bind
    rw [hc]
  apply hb
  have h1 : Prog.forEach (fun c : CId × Option Cell => add c.2) m.cells =
      Prog.forEach (fun c : CId × Option Cell => add' c.2) m.cells := forEach_congr_mem fun x hx => (ha x hx).symm
  have h2 : ∀ l : List CId, (Prog.forEach (fun id =>
        match m.cells.find? id with
        | none => Prog.fail (.ub .missingKey)
        | some none => Prog.pure ()
        | some (some c) => add (some c)) l : M P D Unit) = Prog.forEach (fun id =>
        match m.cells.find? id with
        | none => Prog.fail (.ub .missingKey)
        | some none => Prog.pure ()
        | some (some c) => add' (some c)) l := by
    intro l
    refine forEach_congr_mem fun id _ => ?_
    rcases hf : m.cells.find? id with _ | _ | c
    · rfl
    · rfl
    · exact (ha _ (mem_of_find? hf)).symm
  funext _
  unfold Prog.bind
  funext s
  simp only [modifyFilt]
  by_cases hu : s.filt.cells.isEmpty = true
  · rw [if_pos hu, if_pos hu]
    exact congrFun h1 _
  · rw [if_neg hu, if_neg hu]
    exact congrFun (h2 _) _

/-- the run on the mesh with gaps is the run on the filled mesh -/
theorem cellUpdate_fill {sch : Scheme} (hs : sch ≠ .loop) (hv : m.GapValid) (hr : sch = .butterfly → m.RingOK)
    (hN : m.GapsBelow N) (lib : QELib) (cosn : Nat → K) (f : Filt) :
    cellUpdate sch lib cosn f m = cellUpdate sch lib cosn f (m.fill N) := by
  have hcopy := copyPoints_fill hv.points_sorted hN f
  have hb : ∀ {p p' c c' : M P D Unit}, p ⟨f, Mesh.empty⟩ = p' ⟨f, Mesh.empty⟩ → c = c' →
      runFilter lib (generateData p c) f = runFilter lib (generateData p' c') f := by
    rintro p p' c c' h rfl
    unfold runFilter generateData Prog.bind
    rw [h]
  unfold cellUpdate
  cases sch with
  | linear => exact hb (generateOutputPoints_fill hcopy fun _ _ => rfl) rfl
  | loop => exact absurd rfl hs
  | butterfly =>
    exact hb (generateOutputPoints_fill hcopy fun c _ => fill_addThree (fun e he => fill_butterflyPoint hv (hr rfl) hN he) _) rfl
  | sqrt3 => exact hb (generateOutputPoints_fill hcopy fun c hc => fill_sq3AddNew hv hN hc) rfl

theorem edgeOutputPoints_fill {copy copy' : M P D Unit} {np np' : Edge → Except Fail P} {f : Filt}
    (hc : copy ⟨f, Mesh.empty⟩ = copy' ⟨f, Mesh.empty⟩) (hk : ∀ s, (copy s).2.filt.edgeSel = s.filt.edgeSel)
    (hsel : m.EdgeSelOK f.edgeSel) (ha : ∀ e, m.IsEdge e → np' e = np e) :
    edgeOutputPoints copy (addNewEdgePoint np) m ⟨f, Mesh.empty⟩ =
      edgeOutputPoints copy' (addNewEdgePoint np') (m.fill N) ⟨f, Mesh.empty⟩ := by
  have ha' : ∀ e, m.IsEdge e → (addNewEdgePoint np' e : M P D Unit) = addNewEdgePoint np e := by
    intro e he
    unfold addNewEdgePoint
    rw [ha e he]
  have h1 : Prog.forEach (addNewEdgePoint np : Edge → M P D Unit) m.edges = Prog.forEach (addNewEdgePoint np') m.edges :=
    forEach_congr_mem fun e he => (ha' e (Or.inl he)).symm
  have h2 : (Prog.forEach (fun oe : Option Edge =>
        match oe with
        | some e => addNewEdgePoint np e
        | none => Prog.pure ()) f.edgeSel : M P D Unit) = Prog.forEach (fun oe =>
        match oe with
        | some e => addNewEdgePoint np' e
        | none => Prog.pure ()) f.edgeSel := by
    refine forEach_congr_mem fun oe hoe => ?_
    rcases oe with _ | e
    · rfl
    · exact (ha' e (hsel e hoe)).symm
  unfold edgeOutputPoints Prog.bind
  rw [← hc]
  have hk0 := hk ⟨f, Mesh.empty⟩
  rcases hcp : copy ⟨f, Mesh.empty⟩ with ⟨r, s⟩
  rw [hcp] at hk0
  simp only at hk0
  cases r with
  | error e => rfl
  | ok _ =>
    simp only [modifyFilt, hk0]
    have hE : (m.fill N).edges = m.edges := rfl
    have hC : (m.fill N).hasEdgeCells = m.hasEdgeCells := rfl
    rw [hE, hC, h1]
    by_cases hu : f.edgeSel.isEmpty = true
    · rw [if_pos hu, if_pos hu]
    · rw [if_neg hu, if_neg hu]
      exact congrFun h2 _

theorem edgeUpdate_fill {sch : EdgeScheme} (hs : sch ≠ .loop) (hv : m.GapValid) (hr : sch = .butterfly → m.RingOK)
    (hN : m.GapsBelow N) (lib : QELib) (cosn : Nat → K) (f : Filt) (hsel : m.EdgeSelOK f.edgeSel) :
    edgeUpdate sch lib cosn f m = edgeUpdate sch lib cosn f (m.fill N) := by
  have hcopy := copyPoints_fill hv.points_sorted hN f
  have hb : ∀ {p p' c c' : M P D Unit}, p ⟨f, Mesh.empty⟩ = p' ⟨f, Mesh.empty⟩ → c = c' →
      runFilter lib (generateData p c) f = runFilter lib (generateData p' c') f := by
    rintro p p' c c' h rfl
    unfold runFilter generateData Prog.bind
    rw [h]
  unfold edgeUpdate
  cases sch with
  | linear =>
    exact hb (edgeOutputPoints_fill hcopy (fun _ => rfl) hsel fun e he => fill_linearPoint hv hN he) rfl
  | loop => exact absurd rfl hs
  | butterfly =>
    exact hb (edgeOutputPoints_fill hcopy (fun _ => rfl) hsel fun e he => fill_butterflyPoint hv (hr rfl) hN he) rfl

/-- the points of the output after the copy -/
def copied (m : Mesh P D) : AMap P :=
  m.points.foldl (fun m kp => m.set kp.1 kp.2) (AMap.reserve ([] : AMap P) m.points.length 0)

theorem copied_sorted (m : Mesh P D) : ((copied m).map Prod.fst).Pairwise (· < ·) :=
  AMap.foldl_set_sorted _ _ (reserve_sorted _)

theorem copied_keys (hs : (m.points.map Prod.fst).Pairwise (· < ·)) (v : PId) :
    v ∈ (copied m).map Prod.fst ↔ v < m.points.length ∨ (m.pos v).isSome := by
  rw [← AMap.find?_isSome]
  unfold copied
  rw [AMap.find?_foldl_set _ _ hs, reserve_find]
  unfold Mesh.pos
  rcases m.points.find? v with _ | p
  · by_cases h : v < m.points.length
    · simp [h]
    · simp [h]
  · simp

theorem copied_length (hs : (m.points.map Prod.fst).Pairwise (· < ·)) : (copied m).length =
    m.points.length + (m.points.filter fun kp => decide (m.points.length ≤ kp.1)).length := by
  have hnd : ∀ {l : AMap P}, (l.map Prod.fst).Pairwise (· < ·) → (l.map Prod.fst).Nodup :=
    fun h => h.imp fun h he => absurd (he ▸ h) (Nat.lt_irrefl _)
  have h1 := hnd (copied_sorted m)
  have hf : ((m.points.filter fun kp => decide (m.points.length ≤ kp.1)).map Prod.fst).Nodup :=
    (hnd hs).sublist (List.Sublist.map _ List.filter_sublist)
  have h2 : (List.range m.points.length ++
      (m.points.filter fun kp => decide (m.points.length ≤ kp.1)).map Prod.fst).Nodup := by
    rw [List.nodup_append]
    refine ⟨List.nodup_range, hf, ?_⟩
    intro a ha b hb he
    subst he
    obtain ⟨kp, h3, rfl⟩ := List.mem_map.1 hb
    have := (List.mem_filter.1 h3).2
    rw [decide_eq_true_eq] at this
    exact absurd (List.mem_range.1 ha) (Nat.not_lt.2 this)
  have := ((List.perm_ext_iff_of_nodup h1 h2).2 (by
    intro v
    rw [copied_keys hs, List.mem_append, List.mem_range]
    unfold Mesh.pos
    rw [AMap.find?_isSome]
    constructor
    · rintro (h | h)
      · exact Or.inl h
      · by_cases hl : v < m.points.length
        · exact Or.inl hl
        · obtain ⟨kp, h3, rfl⟩ := List.mem_map.1 h
          exact Or.inr (List.mem_map.2 ⟨kp, List.mem_filter.2 ⟨h3, by simpa using hl⟩, rfl⟩)
    · rintro (h | h)
      · exact Or.inl h
      · obtain ⟨kp, h3, rfl⟩ := List.mem_map.1 h
        exact Or.inr (List.mem_map_of_mem (List.mem_filter.1 h3).1))).length_eq
  simpa using this

/-- either all is well or there is a clash -/
theorem gaps_or_clash (hs : (m.points.map Prod.fst).Pairwise (· < ·)) :
    (∃ N, m.GapsBelow N) ∨ ∃ N v, m.Clash N v := by
  classical
  by_cases h : ∃ v, (copied m).length ≤ v ∧ (m.pos v).isSome
  · right
    refine ⟨(copied m).length, Nat.find h, copied_length hs, (Nat.find_spec h).2, (Nat.find_spec h).1, ?_⟩
    intro w h1 h2
    have := Nat.find_min h h2
    rw [← Option.not_isSome_iff_eq_none]
    exact fun hc => this ⟨h1, hc⟩
  · left
    refine ⟨(copied m).length, ?_⟩
    intro v
    rw [← copied_keys hs]
    have hsub : ∀ w ∈ (copied m).map Prod.fst, w < (copied m).length := by
      intro w hw
      rcases (copied_keys hs w).1 hw with h1 | h1
      · rw [copied_length hs]; exact Nat.lt_of_lt_of_le h1 (Nat.le_add_right _ _)
      · by_contra hc
        exact h ⟨w, Nat.not_lt.1 hc, h1⟩
    have hnd : ((copied m).map Prod.fst).Nodup :=
      (copied_sorted m).imp fun h he => absurd (he ▸ h) (Nat.lt_irrefl _)
    have hsub' : (copied m).map Prod.fst ⊆ List.range (copied m).length := fun w hw => List.mem_range.2 (hsub w hw)
    have hp := (List.subperm_of_subset hnd hsub').perm_of_length_le (by simp)
    rw [hp.mem_iff, List.mem_range]

theorem gaps_not_clash (hs : (m.points.map Prod.fst).Pairwise (· < ·)) {N M v : Nat} (h : m.GapsBelow N) :
    ¬ m.Clash M v := by
  intro hc
  have h1 : v < N := (h v).2 (Or.inr hc.mem)
  have hnd : ((copied m).map Prod.fst).Nodup :=
    (copied_sorted m).imp fun h he => absurd (he ▸ h) (Nat.lt_irrefl _)
  have hp : ((copied m).map Prod.fst).Perm (List.range N) := (List.perm_ext_iff_of_nodup hnd List.nodup_range).2 (by
    intro w
    rw [copied_keys hs, List.mem_range]
    exact (h w).symm)
  have h2 := hp.length_eq
  rw [List.length_map, List.length_range, copied_length hs, ← hc.count] at h2
  exact absurd h1 (Nat.not_lt.2 (h2 ▸ hc.le))

/-- write a list of points one after the other under the id that is the number of points so far -/
def pushPts (L : AMap P) (ps : List P) : AMap P := ps.foldl (fun L p => L.set L.length p) L

theorem set_length {L : AMap P} (k : Nat) (p : P) (hs : (L.map Prod.fst).Pairwise (· < ·)) :
    (L.set k p).length = if k ∈ L.map Prod.fst then L.length else L.length + 1 := by
  induction L with
  | nil => rfl
  | cons x L ih =>
    obtain ⟨k', p'⟩ := x
    rw [List.map_cons, List.pairwise_cons] at hs
    unfold AMap.set
    by_cases h1 : k = k'
    · simp [h1]
    · rw [if_neg h1]
      by_cases h2 : k < k'
      · rw [if_pos h2, if_neg]
        · rfl
        · intro hc
          rcases List.mem_cons.1 hc with h | h
          · exact h1 h
          · exact absurd (Nat.lt_trans h2 (hs.1 _ h)) (Nat.lt_irrefl _)
      · rw [if_neg h2, List.length_cons, ih hs.2, List.map_cons, List.length_cons]
        simp only [List.mem_cons, h1, false_or]
        split <;> rfl

theorem pushPts_find {L : AMap P} (hs : (L.map Prod.fst).Pairwise (· < ·)) {v : Nat} (hv : v ∈ L.map Prod.fst)
    (hle : L.length ≤ v) (hno : ∀ w, L.length ≤ w → w < v → w ∉ L.map Prod.fst) {ps : List P}
    (hl : v - L.length < ps.length) : (pushPts L ps).find? v = ps.getLast? := by
  induction ps generalizing L with
  | nil => exact absurd hl (Nat.not_lt_zero _)
  | cons p ps ih =>
    have hs' := AMap.sorted_set L L.length p hs
    have hv' : v ∈ (L.set L.length p).map Prod.fst := (AMap.keys_set _ _ _ _).2 (Or.inr hv)
    show (pushPts (L.set L.length p) ps).find? v = _
    rcases Nat.eq_or_lt_of_le hle with he | hlt
    · have hlen : (L.set L.length p).length = L.length := by
        rw [set_length _ _ hs, if_pos (by rw [he]; exact hv)]
      rcases ps with _ | ⟨q, ps⟩
      · show (L.set L.length p).find? v = some p
        rw [AMap.find?_set, if_pos he.symm]
      · rw [List.getLast?_cons_cons]
        refine ih hs' hv' (by rw [hlen]; exact hle) ?_ ?_
        · intro w h1 h2
          rw [hlen, he] at h1
          exact absurd h2 (Nat.not_lt.2 h1)
        · rw [hlen, he, Nat.sub_self]; exact Nat.succ_pos _
    · have hlen : (L.set L.length p).length = L.length + 1 := by
        rw [set_length _ _ hs, if_neg (hno _ (Nat.le_refl _) hlt)]
      rcases ps with _ | ⟨q, ps⟩
      · rw [List.length_singleton, Nat.lt_one_iff] at hl
        exact absurd hlt (Nat.not_lt.2 (Nat.le_of_sub_eq_zero hl))
      · rw [List.getLast?_cons_cons]
        refine ih hs' hv' (by rw [hlen]; exact hlt) ?_ ?_
        · intro w h1 h2 hc
          rw [hlen] at h1
          rcases (AMap.keys_set _ _ _ _).1 hc with h | h
          · rw [h] at h1; exact absurd h1 (Nat.not_succ_le_self _)
          · exact hno w (Nat.le_of_succ_le h1) h2 h
        · rw [hlen]
          rw [List.length_cons] at hl
          omega

theorem clash_find (hs : (m.points.map Prod.fst).Pairwise (· < ·)) {N v : Nat} (hc : m.Clash N v) {ps : List P}
    (hl : v - N < ps.length) : (pushPts (copied m) ps).find? v = ps.getLast? := by
  have hN : (copied m).length = N := (copied_length hs).trans hc.count.symm
  refine pushPts_find (copied_sorted m) ((copied_keys hs v).2 (Or.inr hc.mem)) (by rw [hN]; exact hc.le) ?_
    (by rw [hN]; exact hl)
  intro w h1 h2 hw
  rw [hN] at h1
  rcases (copied_keys hs w).1 hw with h | h
  · rw [hc.count] at h1
    exact absurd h (Nat.not_lt.2 (Nat.le_trans (Nat.le_add_right _ _) h1))
  · rw [hc.least w h1 h2] at h; cases h

theorem addNewEdgePoint_push (np : Edge → Except Fail P) (e : Edge) (X : AMap P) :
    Triple (PtsAre (D := D) X) (addNewEdgePoint np e) (fun _ s => ∃ p, np e = .ok p ∧ PtsAre (pushPts X [p]) s) := by
  intro s a s' h h1
  unfold addNewEdgePoint Prog.bind Prog.lift at h1
  rcases hp : np e with e | p
  · rw [hp] at h1; cases h1
  · rw [hp] at h1
    cases h1
    refine ⟨p, rfl, ?_⟩
    show s.out.points.set s.out.points.length p = _
    rw [show s.out.points = X from h]; rfl

/-- the points a list of edges adds -/
theorem forEach_push {ι : Type} (f : ι → M P D Unit) (pt : ι → P → Prop) (l : List ι)
    (hf : ∀ x ∈ l, ∀ X, Triple (PtsAre (D := D) X) (f x) (fun _ s => ∃ p, pt x p ∧ PtsAre (pushPts X [p]) s)) (X : AMap P) :
    Triple (PtsAre (D := D) X) (Prog.forEach f l)
      (fun _ s => ∃ ps, List.Forall₂ pt l ps ∧ PtsAre (pushPts X ps) s) := by
  induction l generalizing X with
  | nil => exact Triple.pure' () fun s h => ⟨[], .nil, h⟩
  | cons x l ih =>
    refine Triple.bind (hf x (by simp) X) fun _ => ?_
    intro s a s' ⟨p, h1, h2⟩ h3
    obtain ⟨ps, h4, h5⟩ := ih (fun y hy => hf y (by simp [hy])) _ s a s' h2 h3
    exact ⟨p :: ps, .cons h1 h4, h5⟩

theorem copyPoints_are (m : Mesh P D) : Triple Fresh (copyPoints m) (fun _ => PtsAre (copied m)) := by
  intro s a s' h h1
  cases h1
  have h0 : s.out.points = [] := by rw [h]; rfl
  show m.points.foldl _ (s.out.points.reserve _ 0) = _
  rw [h0]; rfl

theorem getPoint_pos {v : PId} {p : P} (h : m.getPoint v = .ok p) : m.pos v = some p := by
  unfold Mesh.getPoint at h
  unfold Mesh.pos
  split at h
  · rename_i q hq
    cases h; exact hq
  · cases h

theorem linearPoint_middle {e : Edge} {p : P} (h : linearPoint K m e = .ok p) : m.IsMiddle K e p := by
  unfold linearPoint at h
  rcases h1 : m.getPoint e.1 with x | a
  · rw [h1] at h; cases h
  · rcases h2 : m.getPoint e.2 with x | b
    · rw [h1, h2] at h; cases h
    · rw [h1, h2] at h
      cases h
      exact ⟨a, b, getPoint_pos h1, getPoint_pos h2, rfl⟩

theorem edgePoints_push (np : Edge → Except Fail P) (f : Filt) :
    Triple (fun s : St P D => s = ⟨f, Mesh.empty⟩) (edgeOutputPoints (copyPoints m) (addNewEdgePoint np) m)
      (fun _ s => ∃ ps, List.Forall₂ (fun e p => np e = .ok p) (m.selectedEdges f.edgeSel) ps ∧
        PtsAre (pushPts (copied m) ps) s) := by
  rintro s a s' rfl h
  unfold edgeOutputPoints Prog.bind copyPoints modifyOut modifyFilt at h
  simp only at h
  unfold Mesh.selectedEdges
  by_cases hu : f.edgeSel.isEmpty = true
  · rw [if_pos hu] at h
    by_cases he : m.hasEdgeCells = true
    · rw [if_pos he] at h
      rw [if_pos hu]
      exact forEach_push _ _ _ (fun e _ X => addNewEdgePoint_push np e X) (copied m) _ _ _ (by exact rfl) h
    · rw [if_neg he] at h; cases h
  · rw [if_neg hu] at h
    rw [if_neg hu]
    have h := (forEach_filterMap _ _ _).symm.trans h
    exact forEach_push _ _ _ (fun e _ X => addNewEdgePoint_push np e X) (copied m) _ _ _ (by exact rfl) h

theorem requireTriangle_some {c : Option Cell} {s s' : St P D} {t : PId × PId × PId}
    (h : requireTriangle c s = (.ok t, s')) : s' = s ∧ Cell.tri? c = some t := by
  unfold requireTriangle at h
  rcases c with _ | c
  · cases h
  · rw [← asTriangle_eq]
    rcases ht : asTriangle (some c) with _ | t'
    · simp only [ht] at h; cases h
    · simp only [ht] at h; cases h; exact ⟨rfl, rfl⟩

theorem sq3Mark_keep (newId : PId) (l : List (PId × PId)) (X : AMap P) :
    Triple (PtsAre (D := D) X) (sq3Mark m newId l) (fun _ => PtsAre X) := by
  refine Triple.forEach ?_
  intro xy _
  split
  · exact Triple.pure ()
  · intro s a s' h h1
    simp only at h1
    split at h1
    · cases h1; exact h
    · exact setEpi_keep _ _ s a s' h h1

theorem sq3AddNew_push (c : Option Cell) (X : AMap P) :
    Triple (PtsAre (D := D) X) (sq3AddNew K m c)
      (fun _ s => ∃ p, (∃ t, Cell.tri? c = some t ∧ m.IsCentroid K t p) ∧ PtsAre (pushPts X [p]) s) := by
  intro s a s' h h1
  unfold sq3AddNew Prog.bind at h1
  rcases hr : (requireTriangle c : M P D _) s with ⟨r, s1⟩
  rw [hr] at h1
  cases r with
  | error e => cases h1
  | ok t =>
    obtain ⟨rfl, ht⟩ := requireTriangle_some hr
    simp only [Prog.lift] at h1
    rcases e1 : m.getPoint t.1 with x | pa
    · rw [e1] at h1; cases h1
    rcases e2 : m.getPoint t.2.1 with x | pb
    · rw [e1, e2] at h1; cases h1
    rcases e3 : m.getPoint t.2.2 with x | pc
    · rw [e1, e2, e3] at h1; cases h1
    rw [e1, e2, e3] at h1
    simp only [numberOfPoints, modifyOut] at h1
    refine ⟨(1 / 3 : K) • (0 + pa + pb + pc), ⟨t, ht, pa, pb, pc, getPoint_pos e1, getPoint_pos e2, getPoint_pos e3, by
      rw [zero_add]⟩, ?_⟩
    refine sq3Mark_keep _ _ _ _ a s' ?_ h1
    show s1.out.points.set s1.out.points.length _ = _
    rw [show s1.out.points = X from h]; rfl

theorem forall₂_filterMap {α β γ : Type} {g : α → Option β} {R : β → γ → Prop} {l : List α} {ps : List γ}
    (h : List.Forall₂ (fun x p => ∃ t, g x = some t ∧ R t p) l ps) : List.Forall₂ R (l.filterMap g) ps := by
  induction h with
  | nil => exact .nil
  | cons h _ ih =>
    obtain ⟨t, h1, h2⟩ := h
    rw [List.filterMap_cons, h1]
    exact .cons h2 ih

theorem sq3Points_push (hv : m.GapValid) (f : Filt) :
    Triple (fun s : St P D => s = ⟨f, Mesh.empty⟩) (generateOutputPoints (copyPoints m) (sq3AddNew K m) m)
      (fun _ s => ∃ ps, List.Forall₂ (m.IsCentroid K) (m.selected f.cells) ps ∧ PtsAre (pushPts (copied m) ps) s) := by
  rintro s a s' rfl h
  unfold generateOutputPoints Prog.bind copyPoints modifyOut modifyFilt at h
  simp only at h
  unfold Mesh.selected
  by_cases hu : f.cells.isEmpty = true
  · rw [if_pos hu] at h
    rw [if_pos hu]
    obtain ⟨ps, h1, h2⟩ := forEach_push _ (fun (c : CId × Option Cell) p => ∃ t, Cell.tri? c.2 = some t ∧ m.IsCentroid K t p) _
      (fun c _ X => sq3AddNew_push c.2 X) (copied m) _ _ _ (by exact rfl) h
    exact ⟨ps, forall₂_filterMap h1, h2⟩
  · rw [if_neg hu] at h
    rw [if_neg hu]
    obtain ⟨ps, h1, h2⟩ := forEach_push _ (fun (id : CId) p => ∃ t, m.triAt id = some t ∧ m.IsCentroid K t p) _
      (fun id _ X => by
        unfold Mesh.triAt
        rcases hf : m.cells.find? id with _ | _ | c
        · exact Triple.fail _
        · obtain ⟨t, h3, _⟩ := hv.cells_tri _ (mem_of_find? hf)
          cases h3
        · exact sq3AddNew_push (some c) X) (copied m) _ _ _ (by exact rfl) h
    exact ⟨ps, forall₂_filterMap h1, h2⟩

theorem runFilter_points {lib : QELib} {points cells : M P D Unit} {f f' : Filt} {out : Mesh P D} {Q : AMap P → Prop}
    (hp : Triple (fun s : St P D => s = ⟨f, Mesh.empty⟩) points (fun _ s => Q s.out.points))
    (hc : ∀ X, Triple (PtsAre (D := D) X) cells (fun _ => PtsAre X))
    (h : runFilter lib (generateData points cells) f = (.ok out, f')) : Q out.points := by
  unfold runFilter at h
  split at h
  · rename_i a s hs
    have := Triple.bind (R := fun _ s => Q s.out.points) hp (fun _ s a s' h1 h2 => by
      have h3 : s'.out.points = s.out.points := hc _ s a s' rfl h2
      show Q s'.out.points
      rw [h3]; exact h1) _ _ _ rfl hs
    cases h
    exact this
  · cases h

theorem forall₂_getLast {α β : Type} {R : α → β → Prop} {l : List α} {l' : List β} (h : List.Forall₂ R l l') (hne : l ≠ []) :
    ∃ a b, l.getLast? = some a ∧ l'.getLast? = some b ∧ R a b := by
  induction h with
  | nil => exact absurd rfl hne
  | @cons a b l l' h h1 ih =>
    cases h1 with
    | nil => exact ⟨a, b, rfl, rfl, h⟩
    | @cons a' b' l l' h2 h3 =>
      obtain ⟨x, y, h4, h5, h6⟩ := ih (by simp)
      exact ⟨x, y, by rw [List.getLast?_cons_cons]; exact h4, by rw [List.getLast?_cons_cons]; exact h5, h6⟩

theorem gapValid_of {m : Mesh P D} (h : m.Valid) {pts : AMap P} (hs : (pts.map Prod.fst).Pairwise (· < ·))
    (hc : ∀ t ∈ m.tris, ∀ v ∈ t.verts, (AMap.find? pts v).isSome) : Mesh.GapValid { m with points := pts } where
  points_sorted := hs
  cells_sorted := h.cells_sorted
  cells_tri := by
    intro c hcm
    obtain ⟨t, h1, -⟩ := h.cells_tri c hcm
    exact ⟨t, h1, hc t (List.mem_filterMap.2 ⟨c, hcm, by rw [h1]; rfl⟩)⟩
  good := h.good
  left_iff := h.left_iff
  edges_iff := h.edges_iff
  edges_once := h.edges_once
  has_edge_cells := h.has_edge_cells

theorem runFilter_lib (lib lib' : QELib) (gen : M P D Unit) (f : Filt) :
    (runFilter lib gen f).1.map (fun o => (o.points, o.cells)) = (runFilter lib' gen f).1.map (fun o => (o.points, o.cells)) := by
  unfold runFilter
  rcases gen ⟨f, Mesh.empty⟩ with ⟨r, s⟩
  cases r <;> rfl

end
end Verif
