import Verif.Proofs.Criteria
import Verif.Proofs.Check
import Verif.Properties.FaceSplit
import Verif.Properties.Edge
/-
The conditional filter: the copied mesh and the loop.
-/
namespace Verif
set_option linter.unusedSectionVars false
variable {K P D : Type} [Field K] [Zero P] [Add P] [SMul K P]

theorem polyDarts_tri (t : Tri) : polyDarts t.cell.pts = t.darts := rfl

theorem leftOf_dense (i : Nat) (T : List Tri) (e : Edge) :
    leftOf (AMap.denseFrom i (T.map fun t => some t.cell)) e =
      (T.findIdx? fun t => t.darts.contains e).map (i + ·) := by
  unfold leftOf
  induction T generalizing i with
  | nil => rfl
  | cons t T ih =>
    rw [List.map_cons, AMap.denseFrom, List.findSome?_cons, List.findIdx?_cons]
    simp only [polyDarts_tri]
    by_cases h : t.darts.contains e
    · simp only [h, if_true, Option.map_some, Nat.add_zero]
    · simp only [h, Bool.false_eq_true, if_false]
      rw [ih, Option.map_map]
      congr 1
      funext j
      simp only [Function.comp]
      omega

theorem renumber_valid {m : Mesh P D} (h : m.Valid) : renumber m.cells = AMap.dense (m.tris.map fun t => some t.cell) := by
  unfold renumber
  rw [← mapIdx_eq_dense]
  have key : ∀ l : AMap (Option Cell), (∀ c ∈ l, ∃ t : Tri, c.2 = some t.cell) →
      (l.filterMap fun c => c.2).filter (fun c => c.type = .polygon) = (l.filterMap fun c => Cell.tri? c.2).map Tri.cell := by
    intro l
    induction l with
    | nil => intro _; rfl
    | cons c l ih =>
      intro hl
      obtain ⟨t, ht⟩ := hl c (by simp)
      have h1 : Cell.tri? c.2 = some t := by rw [ht]; rfl
      have h2 : (c :: l).filterMap (fun c => Cell.tri? c.2) = t :: l.filterMap (fun c => Cell.tri? c.2) :=
        List.filterMap_cons_some h1
      have h3 : (c :: l).filterMap (fun c => c.2) = t.cell :: l.filterMap (fun c => c.2) :=
        List.filterMap_cons_some ht
      rw [h2, h3, List.map_cons, ← ih fun c hc => hl c (by simp [hc])]
      rw [List.filter_cons_of_pos (by rfl)]
  rw [key m.cells fun c hc => (h.cells_tri c hc).imp fun _ h => h.1]
  change ((m.tris.map Tri.cell).mapIdx fun i c => (i, some c)) = _
  apply List.ext_getElem?
  intro i
  simp only [List.getElem?_mapIdx, List.getElem?_map, Option.map_map]
  rfl

section copy
variable {inp : Mesh P D} (lib : QELib) (h : inp.Valid)
include h

theorem copyGeometry_cells : (copyGeometry lib inp).cells = AMap.dense (inp.tris.map fun t => some t.cell) :=
  renumber_valid h

theorem copyGeometry_points : (copyGeometry lib inp).points = inp.points := by
  change inp.points.foldl (fun m kp => m.set kp.1 kp.2) (AMap.reserve [] inp.points.length 0) = inp.points
  rw [AMap.reserve_nil]
  have := AMap.foldl_set_dense (inp.points.map Prod.snd) (List.replicate inp.points.length (0 : P)) (by simp)
  rw [← h.points_eq] at this
  exact this

theorem copyGeometry_tris : (copyGeometry lib inp).tris = inp.tris := by
  unfold Mesh.tris
  rw [copyGeometry_cells lib h]
  have : ∀ (i : Nat) (L : List Tri),
      (AMap.denseFrom i (L.map fun t => some t.cell)).filterMap (fun c => Cell.tri? c.2) = L := by
    intro i L
    induction L generalizing i with
    | nil => rfl
    | cons t L ih =>
      rw [List.map_cons, AMap.denseFrom, List.filterMap_cons_some (b := t) (by rfl), ih]
  exact this 0 _

theorem copyGeometry_left {e : Edge} {k : Nat} :
    (copyGeometry lib inp).left e = some k ↔ ∃ t, inp.tris[k]? = some t ∧ e ∈ t.darts := by
  change leftOf (renumber inp.cells) e = some k ↔ _
  rw [renumber_valid h, AMap.dense, leftOf_dense]
  simp only [Nat.zero_add, Option.map_id']
  rw [List.findIdx?_eq_some_iff_getElem]
  constructor
  · rintro ⟨h1, h2, _⟩
    exact ⟨inp.tris[k], by simp, by simpa [List.contains_iff_mem] using h2⟩
  · rintro ⟨t, ht, he⟩
    obtain ⟨h1, h2⟩ := List.getElem?_eq_some_iff.1 ht
    refine ⟨h1, by rw [h2]; simpa [List.contains_iff_mem] using he, ?_⟩
    intro j hj hc
    have := dart_position h.good.oriented (i := j) (j := k) (t := inp.tris[j]) (t' := t) (by simp) ht
      (by simpa [List.contains_iff_mem] using hc) he
    omega

theorem copyGeometry_valid : (copyGeometry lib inp).Valid where
  points_dense := by rw [copyGeometry_points lib h]; exact h.points_dense
  cells_sorted := by
    rw [copyGeometry_cells lib h, AMap.map_fst_dense]
    exact List.pairwise_lt_range
  cells_tri := by
    rintro ⟨k, c⟩ hc
    rw [copyGeometry_cells lib h, AMap.mem_dense, List.getElem?_map, Option.map_eq_some_iff] at hc
    obtain ⟨t, ht, rfl⟩ := hc
    refine ⟨t, rfl, fun v hv => ?_⟩
    rw [copyGeometry_points lib h]
    exact h.verts_lt (List.mem_of_getElem? ht) hv
  good := by rw [copyGeometry_tris lib h]; exact h.good
  left_iff := by
    intro e k
    rw [copyGeometry_left lib h]
    apply exists_congr
    intro t
    rw [copyGeometry_cells lib h, AMap.mem_dense, List.getElem?_map, Option.map_eq_some_iff]
    constructor
    · rintro ⟨h1, h2⟩; exact ⟨⟨t, h1, rfl⟩, h2⟩
    · rintro ⟨⟨t', h1, h3⟩, h2⟩
      have h4 : t' = t := by
        have := congrArg Cell.tri? h3
        simpa only [tri?_cell, Option.some.injEq] using this
      rw [← h4]; exact ⟨h1, h4 ▸ h2⟩
  edges_iff := by
    intro e
    rw [copyGeometry_tris lib h]
    exact h.edges_iff e
  edges_once := h.edges_once
  has_edge_cells := rfl

theorem copyGeometry_noIsolated (hi : inp.NoIsolated) : (copyGeometry lib inp).NoIsolated := by
  unfold Mesh.NoIsolated
  rw [copyGeometry_points lib h, copyGeometry_tris lib h]
  exact hi

end copy

theorem copyGeometry_ringOK {inp : Mesh P D} {lib : QELib} (h : inp.Valid) (hl : lib.Lawful) :
    (copyGeometry lib inp).RingOK := hl _ _ _ (copyGeometry_valid lib h)

/-- the copy meets what the schemes need -/
theorem copyGeometry_needs {inp : Mesh P D} {lib : QELib} {sch : Scheme} (h : inp.Valid)
    (hl : sch = .loop ∨ sch = .butterfly → lib.Lawful) (hi : sch = .loop → inp.NoIsolated) :
    sch.Needs (copyGeometry lib inp) :=
  ⟨copyGeometry_valid lib h, fun hs => copyGeometry_ringOK h (hl hs), fun hs => copyGeometry_noIsolated lib h (hi hs)⟩

section loop
variable {S ι : Type} {upd : S → List ι → Mesh P D → Except Fail (Mesh P D) × S} {crit : Mesh P D → Prog (List ι) Unit}

theorem condLoop_done {n : Nat} {c : Cond S ι} {cur : Mesh P D} (h : c.sel = []) :
    condLoop upd crit n c cur = some (.ok cur, c) := by
  unfold condLoop; rw [if_pos (by rw [h]; rfl)]

theorem condLoop_zero {c : Cond S ι} {cur : Mesh P D} (h : c.sel ≠ []) : condLoop upd crit 0 c cur = none := by
  unfold condLoop; rw [if_neg (by simpa using h)]

theorem condLoop_step {n : Nat} {c : Cond S ι} {cur m : Mesh P D} {s' : S} {sel' : List ι} (h : c.sel ≠ [])
    (hu : upd c.inner c.sel cur = (.ok m, s')) (hc : crit m c.sel = (.ok (), sel')) :
    condLoop upd crit (n + 1) c cur = condLoop upd crit n ⟨s', sel'⟩ m := by
  conv_lhs => unfold condLoop
  rw [if_neg (by simpa using h)]
  simp only [hu, hc]

/-- a loop that ended normally ended because the criterion found nothing in the mesh that is returned -/
theorem condLoop_ok_inv {n : Nat} {c c' : Cond S ι} {cur out : Mesh P D} (h0 : ∃ old, crit cur old = (.ok (), c.sel))
    (h : condLoop upd crit n c cur = some (.ok out, c')) : c'.sel = [] ∧ ∃ old, crit out old = (.ok (), []) := by
  induction n generalizing c cur with
  | zero =>
    by_cases hs : c.sel = []
    · rw [condLoop_done hs] at h
      cases h
      rw [hs] at h0
      exact ⟨hs, h0⟩
    · rw [condLoop_zero hs] at h; cases h
  | succ n ih =>
    by_cases hs : c.sel = []
    · rw [condLoop_done hs] at h
      cases h
      rw [hs] at h0
      exact ⟨hs, h0⟩
    · unfold condLoop at h
      rw [if_neg (by simpa using hs)] at h
      simp only at h
      split at h
      · cases h
      · rename_i m s' hu
        split at h
        · cases h
        · rename_i sel' hc
          exact ih ⟨_, hc⟩ h

theorem condGenerate_ok_inv {lib : QELib} {n : Nat} {c c' : Cond S ι} {inp out : Mesh P D}
    (h : condGenerate lib upd (some crit) n c inp = some (.ok out, c')) :
    c'.sel = [] ∧ ∃ old, crit out old = (.ok (), []) := by
  unfold condGenerate at h
  simp only at h
  split at h
  · cases h
  · rename_i sel hc
    exact condLoop_ok_inv ⟨_, hc⟩ h

/-- a loop whose every iteration returns and finds something never ends -/
theorem condLoop_diverges (I : Cond S ι → Mesh P D → Prop) (hne : ∀ c cur, I c cur → c.sel ≠ [])
    (hstep : ∀ c cur, I c cur → ∃ m s' sel', upd c.inner c.sel cur = (.ok m, s') ∧ crit m c.sel = (.ok (), sel') ∧
      I ⟨s', sel'⟩ m) (n : Nat) {c : Cond S ι} {cur : Mesh P D} (h : I c cur) : condLoop upd crit n c cur = none := by
  induction n generalizing c cur with
  | zero => exact condLoop_zero (hne _ _ h)
  | succ n ih =>
    obtain ⟨m, s', sel', h1, h2, h3⟩ := hstep _ _ h
    rw [condLoop_step (hne _ _ h) h1 h2]
    exact ih h3

/-- a loop with a bound that decreases in every iteration ends -/
theorem condLoop_ends (I : Nat → Cond S ι → Mesh P D → Prop) (hzero : ∀ c cur, I 0 c cur → c.sel = [])
    (hstep : ∀ k c cur, I (k + 1) c cur → c.sel ≠ [] → ∃ m s' sel', upd c.inner c.sel cur = (.ok m, s') ∧
      crit m c.sel = (.ok (), sel') ∧ I k ⟨s', sel'⟩ m) (n : Nat) {c : Cond S ι} {cur : Mesh P D} (h : I n c cur) :
    ∃ out c' k, condLoop upd crit n c cur = some (.ok out, c') ∧ k ≤ n ∧ I k c' out := by
  induction n generalizing c cur with
  | zero => exact ⟨cur, c, 0, condLoop_done (hzero _ _ h), Nat.le_refl _, h⟩
  | succ n ih =>
    by_cases hs : c.sel = []
    · exact ⟨cur, c, n + 1, condLoop_done hs, Nat.le_refl _, h⟩
    · obtain ⟨m, s', sel', h1, h2, h3⟩ := hstep _ _ _ h hs
      obtain ⟨out, c', k, h4, h5, h6⟩ := ih h3
      exact ⟨out, c', k, by rw [condLoop_step hs h1 h2, h4], Nat.le_succ_of_le h5, h6⟩

/-- more fuel does not change a run that has ended -/
theorem condLoop_mono {n m : Nat} {c : Cond S ι} {cur : Mesh P D} {r : Except Fail (Mesh P D) × Cond S ι}
    (h : condLoop upd crit n c cur = some r) (hnm : n ≤ m) : condLoop upd crit m c cur = some r := by
  induction n generalizing c cur m with
  | zero =>
    by_cases hs : c.sel = []
    · rw [condLoop_done hs] at h ⊢; exact h
    · rw [condLoop_zero hs] at h; cases h
  | succ n ih =>
    by_cases hs : c.sel = []
    · rw [condLoop_done hs] at h ⊢; exact h
    · obtain ⟨m, rfl⟩ : ∃ k, m = k + 1 := ⟨m - 1, by omega⟩
      unfold condLoop at h ⊢
      rw [if_neg (by simpa using hs)] at h ⊢
      simp only at h ⊢
      split at h
      · exact h
      · split at h
        · exact h
        · exact ih h (by omega)

theorem condGenerate_mono {lib : QELib} {n m : Nat} {c : Cond S ι} {inp : Mesh P D}
    {crit : Option (Mesh P D → Prog (List ι) Unit)} {r : Except Fail (Mesh P D) × Cond S ι}
    (h : condGenerate lib upd crit n c inp = some r) (hnm : n ≤ m) : condGenerate lib upd crit m c inp = some r := by
  unfold condGenerate at h ⊢
  cases crit with
  | none => exact h
  | some crit =>
    simp only at h ⊢
    split at h
    · exact h
    · exact condLoop_mono h hnm

/-- an invariant of the loop -/
theorem condLoop_inv (I : Mesh P D → Prop)
    (hstep : ∀ s sel cur m s', sel ≠ [] → I cur → upd s sel cur = (.ok m, s') → I m) {n : Nat} {c c' : Cond S ι}
    {cur out : Mesh P D} (h0 : I cur) (h : condLoop upd crit n c cur = some (.ok out, c')) : I out := by
  induction n generalizing c cur with
  | zero =>
    by_cases hs : c.sel = []
    · rw [condLoop_done hs] at h
      cases h
      exact h0
    · rw [condLoop_zero hs] at h; cases h
  | succ n ih =>
    by_cases hs : c.sel = []
    · rw [condLoop_done hs] at h
      cases h
      exact h0
    · unfold condLoop at h
      rw [if_neg (by simpa using hs)] at h
      simp only at h
      split at h
      · cases h
      · rename_i m s' hu
        split at h
        · cases h
        · exact ih (hstep _ _ _ _ _ hs h0 hu) h

end loop

/-- one iteration with a cell filter -/
theorem condCellUpd_ok {sch : Scheme} {lib : QELib} (cosn : Nat → K) (hs : sch ≠ .sqrt3)
    (hl : sch = .loop ∨ sch = .butterfly → lib.Lawful) {cur : Mesh P D} (hn : sch.Needs cur) {sel : List CId}
    (hsel : cur.SelOK sel) (f : Filt) : ∃ m f', condCellUpd sch lib cosn f sel cur = (.ok m, f') ∧
      cellUpdate sch lib cosn (f.setCells sel) cur = (.ok m, f') ∧ sch.Needs m ∧
      m.tris = cur.tris.flatMap (Tri.children (cur.edgePoint sel)) := by
  obtain ⟨out, f', h, h1, -⟩ := C01_face_split_completes (f := f.setCells sel) hs lib cosn hn hsel
  obtain ⟨hov, hring, hiso, -⟩ := C04_output_valid hs hn (f := f.setCells sel) hsel h
  exact ⟨out, f', h, h, ⟨hov, fun hb => hring (hl hb), fun hb => hiso (hn.noIsolated hb)⟩, h1⟩

theorem selectedEdges_some (m : Mesh P D) {l : List Edge} (h : l ≠ []) : m.selectedEdges (l.map some) = l := by
  unfold Mesh.selectedEdges
  rw [if_neg (by simpa using h), List.filterMap_map]
  simp

/-- one iteration with an edge filter -/
theorem condEdgeUpd_ok {sch : EdgeScheme} {lib : QELib} (cosn : Nat → K)
    (hl : sch = .loop ∨ sch = .butterfly → lib.Lawful) {cur : Mesh P D} (hn : sch.toScheme.Needs cur) {l : List Edge}
    (hne : l ≠ []) (hsel : ∀ e ∈ l, cur.IsEdge e) (hd : DistinctEdges l) (f : Filt) :
    ∃ m f', condEdgeUpd sch lib cosn f (l.map some) cur = (.ok m, f') ∧
      edgeUpdate sch lib cosn (f.setEdges (l.map some)) cur = (.ok m, f') ∧ sch.toScheme.Needs m ∧
      m.tris = cur.tris.flatMap (Tri.children (cur.listPoint (l.map some))) := by
  have hsel' : cur.EdgeSelOK (f.setEdges (l.map some)).edgeSel := by
    intro e he
    obtain ⟨e', he', h⟩ := List.mem_map.1 he
    cases h
    exact hsel _ he'
  obtain ⟨out, f', h, -, h1, -, h2, h3, -⟩ := C39_edge_filter_completes (f := f.setEdges (l.map some)) lib cosn hn hsel'
  have hd' : DistinctEdges (cur.selectedEdges (f.setEdges (l.map some)).edgeSel) := by
    have : (f.setEdges (l.map some)).edgeSel = l.map some := rfl
    rw [this, selectedEdges_some _ hne]; exact hd
  obtain ⟨-, -, hi, -⟩ := C39_edge_filter_points hn hsel' hd' h
  refine ⟨out, f', h, h, ⟨h2, fun hb => h3 (hl ?_), fun hb => hi (hn.noIsolated hb)⟩, h1⟩
  cases sch with
  | linear => rcases hb with hb | hb <;> cases hb
  | loop => exact Or.inl rfl
  | butterfly => exact Or.inr rfl

end Verif
