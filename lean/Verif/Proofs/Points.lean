import Verif.Proofs.FaceSplit
/-
The point phase of the face-split filters: one new point per edge, numbered consecutively.
-/
namespace Verif
variable {K P D : Type}

theorem labelOf_nil (n : Nat) : labelOf n [] = fun _ => none := by
  funext e; simp [labelOf]

theorem labelOf_isSome (n : Nat) (es : List Edge) (e : Edge) :
    (labelOf n es e).isSome ↔ e ∈ es ∨ e.sym ∈ es := by
  unfold labelOf
  rw [Option.isSome_map, List.findIdx?_isSome, List.any_eq_true]
  constructor
  · rintro ⟨x, hx, h⟩
    simp only [Bool.or_eq_true, beq_iff_eq] at h
    rcases h with rfl | rfl
    · exact Or.inl hx
    · exact Or.inr hx
  · rintro (h | h)
    · exact ⟨_, h, by simp⟩
    · exact ⟨_, h, by simp⟩

theorem labelOf_sym (n : Nat) (es : List Edge) (e : Edge) : labelOf n es e.sym = labelOf n es e := by
  unfold labelOf
  congr 2
  funext x
  rw [Edge.sym_sym, Bool.or_comm]

theorem labelOf_some {n : Nat} {es : List Edge} {e : Edge} {m : PId} (h : labelOf n es e = some m) :
    ∃ i e', es[i]? = some e' ∧ (e' = e ∨ e' = e.sym) ∧ m = n + i := by
  unfold labelOf at h
  rw [Option.map_eq_some_iff] at h
  obtain ⟨i, hi, rfl⟩ := h
  rw [List.findIdx?_eq_some_iff_getElem] at hi
  obtain ⟨h1, h2, _⟩ := hi
  refine ⟨i, es[i], by simp, ?_, rfl⟩
  simpa using h2

theorem labelOf_append {n : Nat} {es : List Edge} {e : Edge} (h1 : e ∉ es) (h2 : e.sym ∉ es) (x : Edge) :
    labelOf n (es ++ [e]) x = if x = e ∨ x = e.sym then some (n + es.length) else labelOf n es x := by
  unfold labelOf
  rw [List.findIdx?_append]
  by_cases hx : x = e ∨ x = e.sym
  · rw [if_pos hx]
    have : es.findIdx? (fun e' => e' == x || e' == x.sym) = none := by
      rw [List.findIdx?_eq_none_iff]
      intro y hy
      rw [Bool.eq_false_iff]
      intro hc
      simp only [Bool.or_eq_true, beq_iff_eq] at hc
      rcases hx with rfl | rfl <;> rcases hc with rfl | rfl
      · exact h1 hy
      · exact h2 hy
      · exact h2 hy
      · exact h1 hy
    rw [this]
    have : (e == x || e == x.sym) = true := by
      rcases hx with rfl | rfl <;> simp
    simp [List.findIdx?_cons, this]
  · rw [if_neg hx]
    have : (e == x || e == x.sym) = false := by
      rw [Bool.eq_false_iff]
      intro hc
      simp only [Bool.or_eq_true, beq_iff_eq] at hc
      rcases hc with rfl | rfl
      · exact hx (Or.inl rfl)
      · exact hx (Or.inr rfl)
    simp [List.findIdx?_cons, this]

theorem labelOf_inj {n : Nat} {es : List Edge} {e e' : Edge} {m : PId} (h : labelOf n es e = some m)
    (h' : labelOf n es e' = some m) : e' = e ∨ e' = e.sym := by
  obtain ⟨i, x, hx, h1, h2⟩ := labelOf_some h
  obtain ⟨j, y, hy, h3, h4⟩ := labelOf_some h'
  have : i = j := Nat.add_left_cancel (h2.symm.trans h4)
  subst this
  rw [hx] at hy
  have := Option.some.inj hy
  subst this
  rcases h1 with rfl | rfl <;> rcases h3 with h3 | h3
  · exact Or.inl h3.symm
  · exact Or.inr (Edge.sym_eq_iff.1 h3.symm)
  · exact Or.inr h3.symm
  · exact Or.inl (Edge.sym_inj h3).symm

theorem labelOf_range {n : Nat} {es : List Edge} {e : Edge} {m : PId} (h : labelOf n es e = some m) :
    n ≤ m ∧ m < n + es.length := by
  obtain ⟨i, e', hi, _, rfl⟩ := labelOf_some h
  exact ⟨Nat.le_add_right _ _, Nat.add_lt_add_left (List.getElem?_eq_some_iff.1 hi).1 _⟩

theorem labelling_labelOf {T : List Tri} {n : Nat} (h : ∀ t ∈ T, ∀ v ∈ t.verts, v < n) (es : List Edge) :
    Labelling T (labelOf n es) := by
  refine ⟨labelOf_sym n es, ?_, fun e e' m => labelOf_inj⟩
  intro e m hm t ht hv
  obtain ⟨i, _, _, _, rfl⟩ := labelOf_some hm
  have h1 : n + i < n := h t ht _ hv
  exact absurd h1 (by simp)

/-- the state during the point phase: points `base`, then one point per edge of `es` -/
def ptState (s0 : St P D) (base : List P) (pt : Edge → P) (es : List Edge) : St P D :=
  ⟨{ s0.filt with epi := labelOf base.length es },
   { s0.out with points := AMap.dense (base ++ es.map pt) }⟩

theorem ptState_append {s0 : St P D} {base : List P} {pt : Edge → P} {es : List Edge} {e : Edge} (h1 : e ∉ es)
    (h2 : e.sym ∉ es) :
    (⟨{ s0.filt with
        epi := fun x => if x = e.sym then some (base.length + es.length)
          else if x = e then some (base.length + es.length) else labelOf base.length es x },
      { s0.out with points := (AMap.dense (base ++ es.map pt)).set (base.length + es.length) (pt e) }⟩ : St P D) =
    ptState s0 base pt (es ++ [e]) := by
  have e1 : (fun x => if x = e.sym then some (base.length + es.length)
          else if x = e then some (base.length + es.length) else labelOf base.length es x) =
      labelOf base.length (es ++ [e]) := by
    funext x
    rw [labelOf_append h1 h2]
    by_cases hx : x = e.sym
    · simp [hx]
    · by_cases hx2 : x = e <;> simp [hx, hx2]
  have e2 : (AMap.dense (base ++ es.map pt)).set (base.length + es.length) (pt e) =
      AMap.dense (base ++ (es ++ [e]).map pt) := by
    have := AMap.set_dense_length (base ++ es.map pt) (pt e)
    simp only [List.length_append, List.length_map] at this
    rw [this]
    simp
  unfold ptState
  rw [e1, e2]

theorem addEdgePoint_ok {inp : Mesh P D} {np : Edge → Except Fail P} {pt : Edge → P} {x y : PId}
    (hE : inp.hasEdge (x, y) = true) (hp : np (x, y) = .ok (pt (x, y))) (s0 : St P D) (base : List P) (es : List Edge) :
    addEdgePoint inp np x y (base.length + es.length) (ptState s0 base pt es) =
      (.ok (base.length + (addEdgeTo es (x, y)).length), ptState s0 base pt (addEdgeTo es (x, y))) := by
  unfold addEdgePoint
  rw [findEdge_of_hasEdge hE]
  simp only
  have hs := labelOf_isSome base.length es (x, y)
  by_cases h : (x, y) ∈ es ∨ Edge.sym (x, y) ∈ es
  · have h' : addEdgeTo es (x, y) = es := by
      unfold addEdgeTo; rw [if_pos]; simpa [List.contains_eq_mem] using h
    rw [h', if_pos (by exact hs.2 h)]
  · have h' : addEdgeTo es (x, y) = es ++ [(x, y)] := by
      unfold addEdgeTo; rw [if_neg]; simpa [List.contains_eq_mem] using h
    rw [h', if_neg (by exact fun hc => h (hs.1 hc)), hp, lift_ok_bind]
    rw [not_or] at h
    rw [← ptState_append h.1 h.2]
    simp [Prog.bind, setEpi, modifyFilt, modifyOut, Prog.pure, ptState, Mesh.setPoint, Nat.add_assoc]

theorem requireTriangle_cell (t : Tri) : (requireTriangle (some t.cell) : M P D _) = Prog.pure t := rfl

theorem addThree_ok {inp : Mesh P D} {np : Edge → Except Fail P} {pt : Edge → P} {t : Tri}
    (hE : ∀ e ∈ t.darts, inp.hasEdge e = true) (hp : ∀ e ∈ t.darts, np e = .ok (pt e)) (s0 : St P D) (base : List P)
    (es : List Edge) :
    addThree inp np (some t.cell) (ptState s0 base pt es) = (.ok (), ptState s0 base pt (t.darts.foldl addEdgeTo es)) := by
  obtain ⟨a, b, c⟩ := t
  unfold addThree
  rw [requireTriangle_cell, Prog.pure_bind', numberOfPoints_bind]
  have hn : (ptState s0 base pt es).out.points.length = base.length + es.length := by simp [ptState]
  rw [hn]
  have m0 : (a, b) ∈ Tri.darts (a, b, c) := by simp [Tri.darts]
  have m1 : (b, c) ∈ Tri.darts (a, b, c) := by simp [Tri.darts]
  have m2 : (c, a) ∈ Tri.darts (a, b, c) := by simp [Tri.darts]
  rw [Prog.bind_ok (addEdgePoint_ok (hE _ m0) (hp _ m0) s0 base es),
    Prog.bind_ok (addEdgePoint_ok (hE _ m1) (hp _ m1) s0 base _),
    Prog.bind_ok (addEdgePoint_ok (hE _ m2) (hp _ m2) s0 base _)]
  rfl

theorem addEdgePoint_congr {inp : Mesh P D} {np np' : Edge → Except Fail P} {x y : PId} (h : np (x, y) = np' (x, y))
    (n : PId) : (addEdgePoint inp np x y n : M P D PId) = addEdgePoint inp np' x y n := by
  unfold addEdgePoint Mesh.findEdge
  by_cases hE : inp.hasEdge (x, y) = true
  · simp only [hE, if_true, h]
    rfl
  · simp [hE]

theorem forEach_points {ι : Type} {addNew : ι → M P D Unit} {tri : ι → Tri} (s0 : St P D) (base : List P)
    (pt : Edge → P) (xs : List ι)
    (hnew : ∀ x ∈ xs, ∀ es, addNew x (ptState s0 base pt es) =
      (.ok (), ptState s0 base pt ((tri x).darts.foldl addEdgeTo es))) (es : List Edge) :
    Prog.forEach addNew xs (ptState s0 base pt es) =
      (.ok (), ptState s0 base pt ((dartsOf (xs.map tri)).foldl addEdgeTo es)) := by
  induction xs generalizing es with
  | nil => rfl
  | cons x xs ih =>
    simp only [Prog.forEach]
    rw [Prog.bind_ok (hnew x (by simp) es), ih (fun x hx => hnew x (by simp [hx]))]
    simp [dartsOf]

namespace Mesh.Valid
variable {m : Mesh P D} (h : m.Valid)
include h

theorem tris_eq_map : ∃ f : CId × Option Cell → Tri, m.tris = m.cells.map f ∧
    ∀ c ∈ m.cells, c.2 = some (f c).cell ∧ f c ∈ m.tris := by
  refine ⟨fun c => (Cell.tri? c.2).getD (0, 0, 0), ?_, ?_⟩
  · have hh := h.cells_tri
    unfold Mesh.tris
    revert hh
    induction m.cells with
    | nil => intro _; rfl
    | cons c cs ih =>
      intro hh
      obtain ⟨t, ht, _⟩ := hh c (by simp)
      rw [List.filterMap_cons_some (b := t) (by rw [ht]; rfl), ih (fun c hc => hh c (by simp [hc])), List.map_cons]
      rw [ht]; rfl
  · rintro ⟨k, c⟩ hc
    obtain ⟨t, rfl, _⟩ := h.cells_tri _ hc
    exact ⟨rfl, h.mem_tris.2 ⟨k, hc⟩⟩

theorem triAt_of_mem {k : CId} {t : Tri} (hk : (k, some t.cell) ∈ m.cells) : m.triAt k = some t := by
  unfold Mesh.triAt
  rw [h.find?_tri.2 hk]; rfl

theorem triAt_iff {k : CId} {t : Tri} : m.triAt k = some t ↔ (k, some t.cell) ∈ m.cells := by
  constructor
  · intro hk
    unfold Mesh.triAt at hk
    rw [Option.bind_eq_some_iff] at hk
    obtain ⟨c, h1, h2⟩ := hk
    rw [AMap.find?_eq_some_of_sorted _ h.cells_sorted] at h1
    obtain ⟨t', h3, _⟩ := h.cells_tri _ h1
    simp only at h3
    subst h3
    simp only [tri?_cell, Option.some.injEq] at h2
    subst h2
    exact h1
  · exact h.triAt_of_mem

theorem sel_tri {sel : List CId} (hs : m.SelOK sel) {k : CId} (hk : k ∈ sel) :
    ∃ t, (k, some t.cell) ∈ m.cells ∧ m.triAt k = some t := by
  have := hs k hk
  rw [List.mem_map] at this
  obtain ⟨⟨k', c⟩, hc, rfl⟩ := this
  obtain ⟨t, rfl, _⟩ := h.cells_tri _ hc
  exact ⟨t, hc, h.triAt_of_mem hc⟩

theorem selected_subset (sel : List CId) : ∀ t ∈ m.selected sel, t ∈ m.tris := by
  intro t ht
  unfold Mesh.selected at ht
  split at ht
  · exact ht
  · rw [List.mem_filterMap] at ht
    obtain ⟨k, _, hk⟩ := ht
    exact h.mem_tris.2 ⟨k, h.triAt_iff.1 hk⟩

end Mesh.Valid

/-- The point phase of the cell filters. -/
theorem generateOutputPoints_ok [Zero P] {inp : Mesh P D} (hv : inp.Valid) {f : Filt} (hsel : inp.SelOK f.cells)
    {copy : M P D Unit} {addNew : Option Cell → M P D Unit} {base : List P} {pt : Edge → P}
    (hcopy : copy ⟨f, Mesh.empty⟩ = (.ok (), ⟨f, { (Mesh.empty : Mesh P D) with points := AMap.dense base }⟩))
    (hnew : ∀ t ∈ inp.tris, ∀ (s0 : St P D) (es : List Edge), addNew (some t.cell) (ptState s0 base pt es) =
      (.ok (), ptState s0 base pt (t.darts.foldl addEdgeTo es))) :
    generateOutputPoints copy addNew inp ⟨f, Mesh.empty⟩ =
      (.ok (), ptState ⟨{ f with uniform := f.cells.isEmpty }, Mesh.empty⟩ base pt (edgeList (inp.selected f.cells))) := by
  unfold generateOutputPoints
  rw [Prog.bind_ok hcopy]
  change (if f.cells.isEmpty = true then Prog.forEach (fun c => addNew c.2) inp.cells _ else
    Prog.forEach _ f.cells _) = _
  have hstart : (⟨{ cells := f.cells, edgeSel := f.edgeSel, uniform := f.cells.isEmpty, epi := fun _ => none },
      { (Mesh.empty : Mesh P D) with points := AMap.dense base }⟩ : St P D) =
      ptState ⟨{ f with uniform := f.cells.isEmpty }, Mesh.empty⟩ base pt [] := by
    simp [ptState, labelOf_nil]
  rw [hstart]
  by_cases he : f.cells = []
  · have hu : f.cells.isEmpty = true := by simp [he]
    rw [if_pos hu]
    obtain ⟨tri, h1, h2⟩ := hv.tris_eq_map
    rw [forEach_points (tri := tri)]
    · simp [Mesh.selected, he, h1, edgeList]
    · intro c hc es
      rw [(h2 c hc).1]
      exact hnew _ (h2 c hc).2 _ _
  · have hu : f.cells.isEmpty = false := by simp [he]
    rw [if_neg (by simp [hu])]
    have hmap : inp.selected f.cells = f.cells.map fun k => (inp.triAt k).getD (0, 0, 0) := by
      unfold Mesh.selected
      rw [hu]
      simp only [Bool.false_eq_true, if_false]
      clear hu he hcopy hstart
      revert hsel
      induction f.cells with
      | nil => intro _; rfl
      | cons k ks ih =>
        intro hsel
        obtain ⟨t, _, ht⟩ := hv.sel_tri hsel (k := k) (by simp)
        rw [List.filterMap_cons_some ht, List.map_cons, ih (fun k hk => hsel k (by simp [hk])), ht]
        rfl
    rw [hmap]
    rw [forEach_points (tri := fun k => (inp.triAt k).getD (0, 0, 0))]
    · rfl
    · intro k hk es
      obtain ⟨t, h1, h2⟩ := hv.sel_tri hsel hk
      rw [hv.find?_tri.2 h1, h2]
      exact hnew t (hv.mem_tris.2 ⟨k, h1⟩) _ _

/-- the mesh with the rings of the mesh library -/
def linked (lib : QELib) (m : Mesh P D) : Mesh P D := { m with ring := lib.link m.edges m.left m.cells }

/-- What a face-split filter produces: the points `pts` and the children of the input triangles under `μ`. -/
structure FaceSplitResult (lib : QELib) (inp out : Mesh P D) (f f' : Filt) (u : Bool) (μ : Edge → Option PId)
    (pts : List P) : Prop where
  label : Labelling inp.tris μ
  fresh : ∀ e m, μ e = some m → inp.points.length ≤ m ∧ m < pts.length
  longer : inp.points.length ≤ pts.length
  points : out.points = AMap.dense pts
  built : Built out (inp.tris.flatMap (Tri.children μ))
  data : ∀ k : Nat, out.dataAt k = (childItems μ u inp.cells)[k]?.bind fun x => inp.dataAt x.1
  dataSorted : ∀ d, out.cellData = some d → (d.map Prod.fst).Pairwise (· < ·)
  ring : out.ring = lib.link out.edges out.left out.cells
  edgeCells : out.hasEdgeCells = true
  filt : f' = { f with cells := pushed 0 (childItems μ u inp.cells), uniform := u, epi := μ }
  out : out = linked lib (((childItems μ u inp.cells).map Item.plain).foldl (addOne inp)
    { (Mesh.empty : Mesh P D) with points := AMap.dense pts })

theorem cellPhase_ok {inp : Mesh P D} (hv : inp.Valid) (lib : QELib) {gen1 : M P D Unit} {f : Filt} {u : Bool}
    {μ : Edge → Option PId} {pts : List P} (hL : Labelling inp.tris μ)
    (hf : ∀ e m, μ e = some m → inp.points.length ≤ m ∧ m < pts.length) (hlen : inp.points.length ≤ pts.length)
    (h1 : gen1 ⟨f, Mesh.empty⟩ =
      (.ok (), ⟨{ f with uniform := u, epi := μ }, { (Mesh.empty : Mesh P D) with points := AMap.dense pts }⟩)) :
    ∃ out f', runFilter lib (generateData gen1 (generateOutputCells inp)) f = (.ok out, f') ∧
      FaceSplitResult lib inp out f f' u μ pts := by
  have hgood := hv.good.children hL
  have heq := generateOutputCells_eq hv
    (s := ⟨{ f with uniform := u, epi := μ }, { (Mesh.empty : Mesh P D) with points := AMap.dense pts }⟩) (μ := μ) (u := u)
    rfl rfl
  obtain ⟨s', hs', hem⟩ := emit_ok (inp := inp)
    (s0 := ⟨{ f with uniform := u, epi := μ, cells := [] }, { (Mesh.empty : Mesh P D) with points := AMap.dense pts }⟩)
    (items := childItems μ u inp.cells) (built_empty.congr rfl rfl rfl) rfl
    (by rw [childItems_tris]; exact hgood)
    (by
      intro x hx v hvx
      have hm : x.2.1 ∈ inp.tris.flatMap (Tri.children μ) := by
        rw [← childItems_tris μ u]; exact List.mem_map.2 ⟨x, hx, rfl⟩
      obtain ⟨t, ht, hd⟩ := List.mem_flatMap.1 hm
      have hlt' : (v : Nat) < pts.length := by
        rcases children_verts _ hd v hvx with h | ⟨e, he, hm⟩
        · exact Nat.lt_of_lt_of_le (hv.verts_lt ht h) hlen
        · exact (hf _ _ hm).2
      simp only [AMap.find?_dense]
      rw [List.getElem?_eq_getElem hlt']
      rfl)
  refine ⟨{ s'.out with ring := lib.link s'.out.edges s'.out.left s'.out.cells }, s'.filt, ?_, ?_⟩
  · unfold runFilter generateData
    rw [Prog.bind_ok h1, heq, hs']
  · refine ⟨hL, hf, hlen, ?_, ?_, ?_, ?_, rfl, ?_, ?_, ?_⟩
    · exact hem.points
    · have := hem.built
      rw [childItems_tris] at this
      exact this.congr rfl rfl rfl
    · exact hem.data
    · exact hem.sorted
    · exact hem.edgeCells
    · rw [hem.filt]; simp
    · rw [hem.out]; rfl

end Verif
