import Verif.Spec.Support
import Verif.Proofs.Coords
import Verif.Proofs.Sqrt3Result
import Verif.Proofs.Shape
import Verif.Proofs.Levels
import Verif.Properties.Shape
import Verif.Proofs.Local
/-
Runs on two meshes that differ only in the positions of points far away.
-/
namespace Verif
set_option linter.unusedSectionVars false
variable {K P D : Type} [Field K] [Zero P] [Add P] [SMul K P] {m m' : Mesh P D} {A B : PId → Prop}

namespace Mesh.Within

theorem refl (m : Mesh P D) (k : Nat) (v : PId) : m.Within k v v := by
  cases k with
  | zero => rfl
  | succ k => exact Or.inl rfl

theorem succ {k : Nat} {v w : PId} (h : m.Within k v w) : m.Within (k + 1) v w := by
  induction k generalizing v with
  | zero => exact Or.inl h
  | succ k ih =>
    rcases h with h | ⟨u, h1, h2⟩
    · exact Or.inl h
    · exact Or.inr ⟨u, h1, ih h2⟩

theorem mono {k l : Nat} (hkl : k ≤ l) {v w : PId} (h : m.Within k v w) : m.Within l v w := by
  induction hkl with
  | refl => exact h
  | step _ ih => exact ih.succ

theorem trans {k l : Nat} {u v w : PId} (h : m.Within k u v) (h' : m.Within l v w) : m.Within (l + k) u w := by
  induction k generalizing u with
  | zero => obtain rfl : u = v := h; exact h'
  | succ k ih =>
    rcases h with rfl | ⟨x, h1, h2⟩
    · exact h'.mono (Nat.le_add_right _ _)
    · exact Or.inr ⟨x, h1, ih h2⟩

theorem edge {e : Edge} (h : m.IsEdge e) : m.Within 1 e.1 e.2 := Or.inr ⟨e.2, h, rfl⟩

end Mesh.Within

namespace AgreeOn

theorem mono (h : AgreeOn B m m') (hAB : ∀ w, A w → B w) : AgreeOn A m m' := ⟨h.shape, fun w hw => h.pos w (hAB w hw)⟩

theorem ring (h : AgreeOn A m m') : m'.ring = m.ring := congrArg (fun x : Mesh Unit D => x.ring) h.shape
theorem left (h : AgreeOn A m m') : m'.left = m.left := congrArg (fun x : Mesh Unit D => x.left) h.shape
theorem edges (h : AgreeOn A m m') : m'.edges = m.edges := congrArg (fun x : Mesh Unit D => x.edges) h.shape
theorem cells (h : AgreeOn A m m') : m'.cells = m.cells := congrArg (fun x : Mesh Unit D => x.cells) h.shape
theorem ids (h : AgreeOn A m m') : m'.points.map Prod.fst = m.points.map Prod.fst := by
  have := congrArg (fun x : Mesh Unit D => x.points.map Prod.fst) h.shape
  simpa [Mesh.shape, Mesh.mapPoints, Function.comp_def] using this
theorem length (h : AgreeOn A m m') : m'.points.length = m.points.length := by
  simpa using congrArg List.length h.ids

theorem getPoint (h : AgreeOn A m m') {w : PId} (hw : A w) : m'.getPoint w = m.getPoint w := by
  unfold Mesh.getPoint
  rw [show m'.points.find? w = m.points.find? w from h.pos w hw]

theorem coord (h : AgreeOn A m m') {w : PId} (hw : A w) : m'.coord w = m.coord w := by
  unfold Mesh.coord
  rw [show m'.points.find? w = m.points.find? w from h.pos w hw]

theorem dest (h : AgreeOn A m m') {o : Option Edge} (hw : ∀ e, o = some e → A e.2) : destOrZero m' o = destOrZero m o := by
  cases o with
  | none => rfl
  | some e => exact h.getPoint (hw e rfl)

theorem valid (h : AgreeOn A m m') (hv : m.Valid) : m'.Valid where
  points_dense := by rw [h.ids, h.length]; exact hv.points_dense
  cells_sorted := by rw [h.cells]; exact hv.cells_sorted
  cells_tri := by rw [h.cells, h.length]; exact hv.cells_tri
  good := by
    have : m'.tris = m.tris := by unfold Mesh.tris; rw [h.cells]
    rw [this]; exact hv.good
  left_iff := by rw [h.left, h.cells]; exact hv.left_iff
  edges_iff := by
    have : m'.tris = m.tris := by unfold Mesh.tris; rw [h.cells]
    rw [this, h.edges]; exact hv.edges_iff
  edges_once := by rw [h.edges]; exact hv.edges_once
  has_edge_cells := by
    have : m'.hasEdgeCells = m.hasEdgeCells := congrArg (fun x : Mesh Unit D => x.hasEdgeCells) h.shape
    rw [this]; exact hv.has_edge_cells

theorem tris (h : AgreeOn A m m') : m'.tris = m.tris := by unfold Mesh.tris; rw [h.cells]

theorem needs (h : AgreeOn A m m') {sch : Scheme} (hn : sch.Needs m) : sch.Needs m' where
  valid := h.valid hn.valid
  ring := fun hs => (hn.ring hs).congr h.edges h.cells h.ring
  noIsolated := fun hs v hv => by
    rw [h.length] at hv
    rw [h.tris]
    exact hn.noIsolated hs v hv

theorem selected (h : AgreeOn A m m') (sel : List CId) : m'.selected sel = m.selected sel := by
  unfold Mesh.selected Mesh.triAt
  rw [h.tris, h.cells]

theorem selOK (h : AgreeOn A m m') {sel : List CId} (hs : m.SelOK sel) : m'.SelOK sel := by
  unfold Mesh.SelOK; rw [h.cells]; exact hs

theorem edgePoint (h : AgreeOn A m m') (sel : List CId) : m'.edgePoint sel = m.edgePoint sel := by
  unfold Mesh.edgePoint; rw [h.length, h.selected]

end AgreeOn

section stencils
variable {e : Edge}

theorem Mesh.RingOK.lnext_from (hr : m.RingOK) (he : m.IsEdge e) : ∃ e', m.lnext e = some e' ∧ m.IsEdge e' ∧ e'.1 = e.2 := by
  obtain ⟨e', h1, h2, h3⟩ := hr.oprev_some he.sym
  exact ⟨e', h1, h2, h3⟩

theorem Mesh.RingOK.rprev_from (hr : m.RingOK) (he : m.IsEdge e) : ∃ e', m.rprev e = some e' ∧ m.IsEdge e' ∧ e'.1 = e.2 := by
  obtain ⟨e', h1, h2, h3⟩ := hr.onext_some _ he.sym
  exact ⟨e', h1, h2, h3⟩

/-- `Lprev` ends where the edge starts -/
theorem Mesh.RingOK.lprev_to (hr : m.RingOK) (he : m.IsEdge e) : ∃ e', m.lprev e = some e' ∧ m.IsEdge e' ∧ e'.2 = e.1 := by
  obtain ⟨e', h1, h2, h3⟩ := hr.onext_some _ he
  exact ⟨e'.sym, by simp [Mesh.lprev, h1], h2.sym, h3⟩

theorem Mesh.RingOK.rnext_to (hr : m.RingOK) (he : m.IsEdge e) : ∃ e', m.rnext e = some e' ∧ m.IsEdge e' ∧ e'.2 = e.1 := by
  obtain ⟨e', h1, h2, h3⟩ := hr.oprev_some he
  exact ⟨e'.sym, by simp [Mesh.rnext, h1], h2.sym, h3⟩

theorem linearPoint_near (h : AgreeOn A m m') (h1 : A e.1) (h2 : A e.2) : linearPoint K m' e = linearPoint K m e := by
  unfold linearPoint
  rw [h.getPoint h1, h.getPoint h2]

theorem loopPoint_near (h : AgreeOn A m m') (hr : m.RingOK) (he : m.IsEdge e)
    (hA : ∀ w, m.Within 1 e.1 w ∨ m.Within 1 e.2 w → A w) : loopPoint K m' e = loopPoint K m e := by
  have hin : m'.isInternal e = m.isInternal e := by
    unfold Mesh.isInternal Mesh.leftSet Mesh.rightSet; rw [h.left]
  have hbo : m'.isAtBorder e = m.isAtBorder e := by
    unfold Mesh.isAtBorder Mesh.leftSet Mesh.rightSet; rw [h.left]
  have hl : m'.lnext e = m.lnext e := by unfold Mesh.lnext; rw [h.ring]
  have hp : m'.rprev e = m.rprev e := by unfold Mesh.rprev; rw [h.ring]
  obtain ⟨e2, g2, i2, j2⟩ := hr.lnext_from he
  obtain ⟨e3, g3, i3, j3⟩ := hr.rprev_from he
  have a1 : A e.1 := hA _ (Or.inl (.refl _ _ _))
  have a2 : A e.2 := hA _ (Or.inr (.refl _ _ _))
  have a3 : A e2.2 := hA _ (Or.inr (j2 ▸ .edge i2))
  have a4 : A e3.2 := hA _ (Or.inr (j3 ▸ .edge i3))
  unfold loopPoint
  rw [hin, hbo, hl, hp, g2, g3, h.getPoint a1, h.getPoint a2, h.dest (o := some e2) (by rintro _ ⟨⟩; exact a3),
    h.dest (o := some e3) (by rintro _ ⟨⟩; exact a4)]

theorem butterflyPoint_near (h : AgreeOn A m m') (hr : m.RingOK) (he : m.IsEdge e)
    (hA : ∀ w, m.Within 2 e.1 w ∨ m.Within 2 e.2 w → A w) : butterflyPoint K m' e = butterflyPoint K m e := by
  have hl : m'.lnext = m.lnext := by funext e; unfold Mesh.lnext; rw [h.ring]
  have hp : m'.rprev = m.rprev := by funext e; unfold Mesh.rprev; rw [h.ring]
  have hlp : m'.lprev = m.lprev := by funext e; unfold Mesh.lprev; rw [h.ring]
  have hrn : m'.rnext = m.rnext := by funext e; unfold Mesh.rnext; rw [h.ring]
  obtain ⟨e2, g2, i2, j2⟩ := hr.lnext_from he
  obtain ⟨e4, g4, i4, j4⟩ := hr.rprev_from i2
  obtain ⟨e3, g3, i3, j3⟩ := hr.rprev_from he
  obtain ⟨e5, g5, i5, j5⟩ := hr.lnext_from i3
  obtain ⟨e6, g6, i6, j6⟩ := hr.lprev_to he
  obtain ⟨e6', g6', i6', j6'⟩ := hr.rprev_from i6
  obtain ⟨e7, g7, i7, j7⟩ := hr.rnext_to he
  obtain ⟨e7', g7', i7', j7'⟩ := hr.lnext_from i7
  have a1 : A e.1 := hA _ (Or.inl (.refl _ _ _))
  have a2 : A e.2 := hA _ (Or.inr (.refl _ _ _))
  have w2 : m.Within 1 e.2 e2.2 := j2 ▸ .edge i2
  have w3 : m.Within 1 e.2 e3.2 := j3 ▸ .edge i3
  have b2 : A e2.2 := hA _ (Or.inr w2.succ)
  have b3 : A e3.2 := hA _ (Or.inr w3.succ)
  have b4 : A e4.2 := hA _ (Or.inr (w2.trans (j4 ▸ .edge i4)))
  have b5 : A e5.2 := hA _ (Or.inr (w3.trans (j5 ▸ .edge i5)))
  have b6 : A e6'.2 := hA _ (Or.inl (Mesh.Within.succ (by
    have := Mesh.Within.edge i6'
    rw [j6', j6] at this
    exact this)))
  have b7 : A e7'.2 := hA _ (Or.inl (Mesh.Within.succ (by
    have := Mesh.Within.edge i7'
    rw [j7', j7] at this
    exact this)))
  have hd : ∀ {x : Edge}, A x.2 → destOrZero m' (some x) = destOrZero m (some x) := fun hx => h.getPoint hx
  unfold butterflyPoint
  rw [hl, hp, hlp, hrn, g2, g3, g6, g7]
  simp only [Option.bind_some]
  rw [g4, g5, g6', g7', h.getPoint a1, h.getPoint a2, hd b2, hd b3, hd b4, hd b5, hd b6, hd b7]

/-- the new point of an edge depends only on the points within reach of its ends -/
theorem schemePoint_near {sch : Scheme} (h : AgreeOn A m m') (hn : sch.Needs m) (he : m.IsEdge e)
    (hA : ∀ w, m.Within sch.reach e.1 w ∨ m.Within sch.reach e.2 w → A w) :
    schemePoint sch K m' e = schemePoint sch K m e := by
  cases sch with
  | linear => exact linearPoint_near h (hA _ (Or.inl rfl)) (hA _ (Or.inr rfl))
  | loop => exact loopPoint_near h (hn.ring (.inl rfl)) he hA
  | butterfly => exact butterflyPoint_near h (hn.ring (.inr rfl)) he hA
  | sqrt3 => rfl

theorem sumFrom_near (h : AgreeOn A m m') (es : List Edge) (hA : ∀ e ∈ es, A e.2) (acc : P) :
    sumFrom m' acc es = sumFrom m acc es := by
  induction es generalizing acc with
  | nil => rfl
  | cons x es ih =>
    unfold sumFrom
    rw [h.getPoint (hA x (by simp))]
    cases m.getPoint x.2 with
    | error _ => rfl
    | ok p => exact ih (fun e he => hA e (by simp [he])) _

theorem smoothingPoint_near (cosn : Nat → K) (h : AgreeOn A m m') (hr : m.RingOK) {v : PId}
    (hA : ∀ w, m.Within 1 v w → A w) (p : P) : smoothingPoint cosn m' v p = smoothingPoint cosn m v p := by
  unfold smoothingPoint
  rw [h.ring]
  rcases hpe : m.ring.pointEdge v with _ | e
  · rfl
  obtain ⟨he, rfl⟩ := hr.point_edge _ _ hpe
  obtain ⟨r, h3, -, h5⟩ := ringAt_ok hr he
  have hra : ringAt m' e = ringAt m e := by
    have : ∀ n cur, ringFrom m' e n cur = ringFrom m e n cur := by
      intro n
      induction n with
      | zero => intro _; rfl
      | succ n ih => intro cur; unfold ringFrom; rw [h.ring]; simp only [ih]
    unfold ringAt
    rw [h.edges, this]
  have hb : m'.isAtBorder = m.isAtBorder := by
    funext e; unfold Mesh.isAtBorder Mesh.leftSet Mesh.rightSet; rw [h.left]
  have hall : ∀ x ∈ r, A x.2 := fun x hx => by
    obtain ⟨i, j⟩ := (h5 x).1 hx
    exact hA _ (j ▸ .edge i)
  simp only
  rw [hra, h3, hb]
  have s1 : sumDest m' r = sumDest m r := sumFrom_near h r hall 0
  have s2 : sumDest m' (r.filter m.isAtBorder) = sumDest m (r.filter m.isAtBorder) :=
    sumFrom_near h _ (fun x hx => hall x (List.mem_of_mem_filter hx)) 0
  simp only [bind, Except.bind, s1, s2]

theorem schemeBase_near {sch : Scheme} (cosn : Nat → K) (h : AgreeOn A m m') (hn : sch.Needs m) (f : Filt) {v : PId}
    (hA : ∀ w, m.Within sch.reach v w → A w) : schemeBase sch cosn m' f v = schemeBase sch cosn m f v := by
  have hc : m'.coord v = m.coord v := h.coord (hA v (.refl _ _ _))
  cases sch with
  | linear => exact hc
  | butterfly => exact hc
  | sqrt3 => exact hc
  | loop =>
    show loopBase cosn m' f v = loopBase cosn m f v
    unfold loopBase valueOf
    simp only [hc, smoothingPoint_near cosn h (hn.ring (.inl rfl)) hA]

end stencils

section runs
variable {lib : QELib} {cosn : Nat → K} {f f' g' : Filt} {out out' : Mesh P D}

/-- one run of a face-split filter -/
theorem faceSplit_near {sch : Scheme} (hs : sch ≠ .sqrt3) (hn : sch.Needs m) (hsel : m.SelOK f.cells)
    (h : cellUpdate sch lib cosn f m = (.ok out, f')) (ha : AgreeOn A m m')
    (h' : cellUpdate sch lib cosn f m' = (.ok out', g')) {v : PId}
    (hA : ∀ u, m.BelongsTo (m.edgePoint f.cells) v u → ∀ w, m.Within sch.reach u w → A w) : out'.pos v = out.pos v := by
  have R := (cellUpdate_result hs hn hsel h).1
  have hn' := ha.needs hn
  have hsel' := ha.selOK hsel
  have R' := (cellUpdate_result hs hn' hsel' h').1
  have hp := R.points
  have hp' := R'.points
  rw [ha.length, ha.selected] at hp'
  unfold Mesh.pos
  rw [hp, hp', AMap.find?_dense, AMap.find?_dense]
  by_cases hlt : v < m.points.length
  · rw [List.getElem?_append_left (by simpa using hlt), List.getElem?_append_left (by simpa using hlt),
      List.getElem?_map, List.getElem?_map]
    have hrange : (List.range m.points.length)[v]? = some v := List.getElem?_range hlt
    rw [hrange]
    exact congrArg some (schemeBase_near cosn ha hn f (hA v (Or.inl ⟨hlt, rfl⟩)))
  · have hge := Nat.le_of_not_lt hlt
    rw [List.getElem?_append_right (by simpa using hge), List.getElem?_append_right (by simpa using hge)]
    simp only [List.length_map, List.length_range, List.getElem?_map]
    rcases hi : (edgeList (m.selected f.cells))[v - m.points.length]? with _ | e
    · rfl
    · have hed := selected_isEdge hn.valid (List.mem_of_getElem? hi)
      have hlab : m.edgePoint f.cells e = some v := by
        have := labelOf_getElem (n := m.points.length) (pairwise_edgeList (m.selected f.cells)) hi
        rw [Nat.add_sub_of_le hge] at this
        exact this
      refine congrArg some ?_
      unfold valueOf
      rw [schemePoint_near ha hn hed]
      rintro w (hw | hw)
      · exact hA _ (Or.inr ⟨e, hlab, Or.inl rfl⟩) w hw
      · exact hA _ (Or.inr ⟨e, hlab, Or.inr rfl⟩) w hw

/-- one run of SquareThree -/
theorem sqrt3_near (hv : m.Valid) (hsel : m.SelOK f.cells)
    (hmax : m.points.length + (m.selected f.cells).length ≤ idMax)
    (h : cellUpdate .sqrt3 lib cosn f m = (.ok out, f')) (ha : AgreeOn A m m')
    (h' : cellUpdate .sqrt3 lib cosn f m' = (.ok out', g')) {v : PId}
    (hA : ∀ u, m.CentreOf f.cells v u → A u) : out'.pos v = out.pos v := by
  have hp := (sqrt3Update_result hv hsel hmax h).points
  have hp' := (sqrt3Update_result (ha.valid hv) (ha.selOK hsel) (by rw [ha.length, ha.selected]; exact hmax) h').points
  rw [ha.length, ha.selected] at hp'
  unfold Mesh.pos
  rw [hp, hp', AMap.find?_dense, AMap.find?_dense]
  by_cases hlt : v < m.points.length
  · rw [List.getElem?_append_left (by simpa using hlt), List.getElem?_append_left (by simpa using hlt),
      List.getElem?_map, List.getElem?_map]
    have hrange : (List.range m.points.length)[v]? = some v := List.getElem?_range hlt
    rw [hrange]
    exact congrArg some (ha.coord (hA v (Or.inl ⟨hlt, rfl⟩)))
  · have hge := Nat.le_of_not_lt hlt
    rw [List.getElem?_append_right (by simpa using hge), List.getElem?_append_right (by simpa using hge)]
    simp only [List.length_map, List.length_range, List.getElem?_map]
    rcases hi : (m.selected f.cells)[v - m.points.length]? with _ | t
    · rfl
    · have hc : ∀ u ∈ t.verts, m'.coord u = m.coord u := fun u hu =>
        ha.coord (hA u (Or.inr ⟨_, t, hi, (Nat.add_sub_of_le hge).symm, hu⟩))
      refine congrArg some ?_
      unfold Mesh.centroid
      rw [hc t.1 (by simp [Tri.verts]), hc t.2.1 (by simp [Tri.verts]), hc t.2.2 (by simp [Tri.verts])]

/-- one run of any cell filter -/
theorem cell_near {sch : Scheme} (hn : sch.Needs m) (hsel : m.SelOK f.cells)
    (hmax : sch = .sqrt3 → m.points.length + (m.selected f.cells).length ≤ idMax)
    (h : cellUpdate sch lib cosn f m = (.ok out, f')) (ha : AgreeOn A m m')
    (h' : cellUpdate sch lib cosn f m' = (.ok out', g')) {v : PId}
    (hA : ∀ u, sch.Anchor m f.cells v u → ∀ w, m.Within sch.reach u w → A w) : out'.pos v = out.pos v := by
  cases sch with
  | sqrt3 => exact sqrt3_near hn.valid hsel (hmax rfl) h ha h' fun u hu => hA u hu u rfl
  | linear => exact faceSplit_near (by decide) hn hsel h ha h' hA
  | loop => exact faceSplit_near (by decide) hn hsel h ha h' hA
  | butterfly => exact faceSplit_near (by decide) hn hsel h ha h' hA

/-- one run of an edge filter -/
theorem edge_near {sch : EdgeScheme} (hn : sch.toScheme.Needs m) (hsel : m.EdgeSelOK f.edgeSel)
    (h : edgeUpdate sch lib cosn f m = (.ok out, f')) (ha : AgreeOn A m m')
    (h' : edgeUpdate sch lib cosn f m' = (.ok out', g')) :
    (∀ v, v < m.points.length → A v → out'.pos v = out.pos v) ∧
    ∀ i e, (m.selectedEdges f.edgeSel)[i]? = some e →
      (∀ w, m.Within sch.toScheme.reach e.1 w ∨ m.Within sch.toScheme.reach e.2 w → A w) →
      out'.pos (m.points.length + i) = out.pos (m.points.length + i) := by
  have hse : m'.selectedEdges f.edgeSel = m.selectedEdges f.edgeSel := by unfold Mesh.selectedEdges; rw [ha.edges]
  have hsel' : m'.EdgeSelOK f.edgeSel := by
    unfold Mesh.EdgeSelOK Mesh.IsEdge at *; rw [ha.edges]; exact hsel
  have hp := (edgeUpdate_result hn hsel h).points
  have hp' := (edgeUpdate_result (ha.needs hn) hsel' h').points
  rw [ha.length, hse] at hp'
  unfold Mesh.pos
  rw [hp, hp']
  refine ⟨fun v hlt hAv => ?_, fun i e hi hA => ?_⟩
  · rw [AMap.find?_dense, AMap.find?_dense, List.getElem?_append_left (by simpa using hlt),
      List.getElem?_append_left (by simpa using hlt), List.getElem?_map, List.getElem?_map]
    have hrange : (List.range m.points.length)[v]? = some v := List.getElem?_range hlt
    rw [hrange]
    exact congrArg some (ha.coord hAv)
  · rw [AMap.find?_dense, AMap.find?_dense, List.getElem?_append_right (by simp), List.getElem?_append_right (by simp)]
    simp only [List.length_map, List.length_range, List.getElem?_map, Nat.add_sub_cancel_left, hi]
    refine congrArg some ?_
    unfold valueOf
    rw [schemePoint_near ha hn (selectedEdges_isEdge hsel (List.mem_of_getElem? hi)) hA]

end runs

section levels

/-- how the points of the output of one level sit over those of its input -/
structure Layer (m m₁ : Mesh P D) (An : PId → PId → Prop) (δ : Nat) : Prop where
  pair : ∀ s ∈ m₁.tris, ∀ x ∈ s.verts, ∀ y ∈ s.verts, ∃ t ∈ m.tris, (∃ a ∈ t.verts, An x a) ∧ ∀ u, An y u → u ∈ t.verts
  parent : ∀ s ∈ m₁.tris, ∃ t ∈ m.tris, (∀ x ∈ s.verts, ∀ a, An x a → ∃ c ∈ t.verts, m.Within δ c a) ∧
    ∀ x ∈ s.verts, x < m.points.length → x ∈ t.verts

theorem Tri.within (hv : m.Valid) {t : Tri} (ht : t ∈ m.tris) {a b : PId} (ha : a ∈ t.verts) (hb : b ∈ t.verts) :
    m.Within 1 a b := by
  by_cases hab : a = b
  · exact Or.inl hab
  · refine Or.inr ⟨b, ?_, rfl⟩
    have hd : (a, b) ∈ t.darts ∨ (b, a) ∈ t.darts := by
      obtain ⟨p, q, r⟩ := t
      simp only [Tri.verts, Tri.darts, List.mem_cons, List.not_mem_nil, or_false, Prod.mk.injEq] at *
      grind
    rcases hd with hd | hd
    · exact hv.isEdge_of_dart (mem_dartsOf.2 ⟨t, ht, hd⟩)
    · exact (hv.isEdge_of_dart (mem_dartsOf.2 ⟨t, ht, hd⟩)).sym

theorem Mesh.Valid.edge_tri (hv : m.Valid) {e : Edge} (he : m.IsEdge e) : ∃ t ∈ m.tris, e.1 ∈ t.verts ∧ e.2 ∈ t.verts := by
  rcases (hv.edges_iff e).1 he with h | h
  · obtain ⟨t, ht, hd⟩ := mem_dartsOf.1 h
    exact ⟨t, ht, Tri.dart_mem_verts hd⟩
  · obtain ⟨t, ht, hd⟩ := mem_dartsOf.1 h
    exact ⟨t, ht, (Tri.dart_mem_verts hd).2, (Tri.dart_mem_verts hd).1⟩

/-- a path in the output is no shorter than one between the points below -/
theorem Layer.walk {m₁ : Mesh P D} {An : PId → PId → Prop} {δ : Nat} (hL : Layer m m₁ An δ) (hv : m.Valid) (hv₁ : m₁.Valid)
    {k : Nat} {x w u : PId} (h : m₁.Within k x w) (hu : An w u) : ∃ a, An x a ∧ m.Within k a u := by
  induction k generalizing x with
  | zero => obtain rfl : x = w := h; exact ⟨u, hu, rfl⟩
  | succ k ih =>
    rcases h with rfl | ⟨y, h1, h2⟩
    · exact ⟨u, hu, .refl _ _ _⟩
    · obtain ⟨a', ha', hw⟩ := ih h2
      obtain ⟨s, hs, hx, hy⟩ := hv₁.edge_tri h1
      obtain ⟨t, ht, ⟨a, ha, hxa⟩, hall⟩ := hL.pair s hs _ hx _ hy
      exact ⟨a, hxa, (Tri.within hv ht ha (hall a' ha')).trans hw⟩

variable {lib : QELib} {cosn : Nat → K} {f f' g' : Filt} {out out' : Mesh P D}

theorem faceSplit_layer {sch : Scheme} (hs : sch ≠ .sqrt3) (hn : sch.Needs m) (hsel : m.SelOK f.cells)
    (h : cellUpdate sch lib cosn f m = (.ok out, f')) : Layer m out (m.BelongsTo (m.edgePoint f.cells)) 0 := by
  have R := (cellUpdate_result hs hn hsel h).1
  have key : ∀ s ∈ out.tris, ∃ t ∈ m.tris, ∀ x ∈ s.verts,
      (∃ a ∈ t.verts, m.BelongsTo (m.edgePoint f.cells) x a) ∧
      (∀ u, m.BelongsTo (m.edgePoint f.cells) x u → u ∈ t.verts) ∧ (x < m.points.length → x ∈ t.verts) := by
    intro s hs'
    rw [R.built.tris] at hs'
    obtain ⟨t, ht, hd⟩ := List.mem_flatMap.1 hs'
    refine ⟨t, ht, fun x hx => ?_⟩
    rcases children_verts (a := t.1) (b := t.2.1) (c := t.2.2) s hd x hx with hc | ⟨e, he, hm⟩
    · have hlt := hn.valid.verts_lt ht hc
      refine ⟨⟨x, hc, Or.inl ⟨hlt, rfl⟩⟩, ?_, fun _ => hc⟩
      rintro u (⟨-, rfl⟩ | ⟨e, he, -⟩)
      · exact hc
      · exact absurd (R.fresh e x he).1 (Nat.not_le_of_lt hlt)
    · have hge := (R.fresh e x hm).1
      have hev := Tri.dart_mem_verts he
      refine ⟨⟨e.1, hev.1, Or.inr ⟨e, hm, Or.inl rfl⟩⟩, ?_, fun hlt => absurd hge (Nat.not_le_of_lt hlt)⟩
      rintro u (⟨hlt, -⟩ | ⟨e', he', hu⟩)
      · exact absurd hge (Nat.not_le_of_lt hlt)
      · rcases labelOf_inj hm he' with rfl | rfl
        · rcases hu with rfl | rfl
          · exact hev.1
          · exact hev.2
        · rcases hu with rfl | rfl
          · exact hev.2
          · exact hev.1
  refine ⟨fun s hs' x hx y hy => ?_, fun s hs' => ?_⟩
  · obtain ⟨t, ht, hk⟩ := key s hs'
    exact ⟨t, ht, (hk x hx).1, (hk y hy).2.1⟩
  · obtain ⟨t, ht, hk⟩ := key s hs'
    exact ⟨t, ht, fun x hx a ha => ⟨a, (hk x hx).2.1 a ha, rfl⟩, fun x hx => (hk x hx).2.2⟩

theorem sqrt3_layer (hv : m.Valid) (hsel : m.SelOK f.cells)
    (hmax : m.points.length + (m.selected f.cells).length ≤ idMax)
    (h : cellUpdate .sqrt3 lib cosn f m = (.ok out, f')) : Layer m out (m.CentreOf f.cells) 1 := by
  have R := sqrt3Update_result hv hsel hmax h
  have old : ∀ {x u}, x < m.points.length → m.CentreOf f.cells x u → u = x := by
    rintro x u hx (⟨-, h⟩ | ⟨i, t, -, rfl, -⟩)
    · exact h
    · exact absurd hx (Nat.not_lt_of_le (Nat.le_add_right _ _))
  -- the new point of a triangle belongs to its corners
  have new : ∀ {e x}, m.centreOf f.cells e = some x → ∃ t ∈ m.tris, e ∈ t.darts ∧
      ∀ u, m.CentreOf f.cells x u ↔ u ∈ t.verts := by
    intro e x he
    obtain ⟨i, t, h1, h2, rfl⟩ := centreIn_some (n := m.points.length) (L := m.selected f.cells) he
    refine ⟨t, hv.selected_subset _ t (List.mem_of_getElem? h1), h2, fun u => ⟨?_, fun hu => Or.inr ⟨i, t, h1, rfl, hu⟩⟩⟩
    rintro (⟨hlt, -⟩ | ⟨j, t', g1, g2, g3⟩)
    · exact absurd hlt (Nat.not_lt_of_le (Nat.le_add_right _ _))
    · have : i = j := Nat.add_left_cancel g2
      subst this
      rw [h1] at g1
      cases g1
      exact g3
  -- a triangle of the output at the edge `e`
  have piece : ∀ {e v}, m.centreOf f.cells e = some v →
      (∀ x ∈ (sq3Piece (m.centreOf f.cells) v e).verts, ∀ y ∈ (sq3Piece (m.centreOf f.cells) v e).verts,
        ∃ t ∈ m.tris, (∃ a ∈ t.verts, m.CentreOf f.cells x a) ∧ ∀ u, m.CentreOf f.cells y u → u ∈ t.verts) ∧
      ∃ t ∈ m.tris, (∀ x ∈ (sq3Piece (m.centreOf f.cells) v e).verts, ∀ a, m.CentreOf f.cells x a →
        ∃ c ∈ t.verts, m.Within 1 c a) ∧ ∀ x ∈ (sq3Piece (m.centreOf f.cells) v e).verts, x < m.points.length → x ∈ t.verts := by
    intro e v he
    obtain ⟨t, ht, het, hvt⟩ := new he
    have hev := Tri.dart_mem_verts het
    have l1 := hv.verts_lt ht hev.1
    have l2 := hv.verts_lt ht hev.2
    have vge := (R.fresh e v he).1
    unfold sq3Piece
    rcases hs' : m.centreOf f.cells e.sym with _ | v'
    · simp only
      have hall : ∀ x ∈ Tri.verts (e.1, e.2, v), (∃ a ∈ t.verts, m.CentreOf f.cells x a) ∧
          (∀ u, m.CentreOf f.cells x u → u ∈ t.verts) ∧ (x < m.points.length → x ∈ t.verts) := by
        intro x hx
        simp only [Tri.verts, List.mem_cons, List.not_mem_nil, or_false] at hx
        rcases hx with rfl | rfl | rfl
        · exact ⟨⟨_, hev.1, Or.inl ⟨l1, rfl⟩⟩, fun u hu => old l1 hu ▸ hev.1, fun _ => hev.1⟩
        · exact ⟨⟨_, hev.2, Or.inl ⟨l2, rfl⟩⟩, fun u hu => old l2 hu ▸ hev.2, fun _ => hev.2⟩
        · exact ⟨⟨_, hev.1, (hvt _).2 hev.1⟩, fun u hu => (hvt u).1 hu, fun hlt => absurd vge (Nat.not_le_of_lt hlt)⟩
      exact ⟨fun x hx y hy => ⟨t, ht, (hall x hx).1, (hall y hy).2.1⟩,
        t, ht, fun x hx a ha => ⟨a, (hall x hx).2.1 a ha, .refl _ _ _⟩, fun x hx => (hall x hx).2.2⟩
    · simp only
      obtain ⟨t', ht', het', hvt'⟩ := new hs'
      have hev' := Tri.dart_mem_verts het'
      have vge' := (R.fresh _ v' hs').1
      have e2' : e.2 ∈ t'.verts := hev'.1
      -- every point of the piece belongs to `e.2` and belongs to one triangle with `e.2`
      have hall : ∀ x ∈ Tri.verts (v, v', e.2), m.CentreOf f.cells x e.2 ∧
          (∃ t ∈ m.tris, e.2 ∈ t.verts ∧ ∀ u, m.CentreOf f.cells x u → u ∈ t.verts) ∧
          (x < m.points.length → x = e.2) := by
        intro x hx
        simp only [Tri.verts, List.mem_cons, List.not_mem_nil, or_false] at hx
        rcases hx with rfl | rfl | rfl
        · exact ⟨(hvt _).2 hev.2, ⟨t, ht, hev.2, fun u hu => (hvt u).1 hu⟩, fun hlt => absurd vge (Nat.not_le_of_lt hlt)⟩
        · exact ⟨(hvt' _).2 e2', ⟨t', ht', e2', fun u hu => (hvt' u).1 hu⟩, fun hlt => absurd vge' (Nat.not_le_of_lt hlt)⟩
        · exact ⟨Or.inl ⟨l2, rfl⟩, ⟨t, ht, hev.2, fun u hu => old l2 hu ▸ hev.2⟩, fun _ => rfl⟩
      refine ⟨fun x hx y hy => ?_, t, ht, fun x hx a ha => ?_, fun x hx hlt => (hall x hx).2.2 hlt ▸ hev.2⟩
      · obtain ⟨-, ⟨r, hr, hre, hru⟩, -⟩ := hall y hy
        exact ⟨r, hr, ⟨e.2, hre, (hall x hx).1⟩, hru⟩
      · obtain ⟨-, ⟨r, hr, hre, hru⟩, -⟩ := hall x hx
        exact ⟨e.2, hev.2, Tri.within hv hr hre (hru a ha)⟩
  have made : ∀ s ∈ out.tris, s ∈ m.tris ∨ ∃ e v, m.centreOf f.cells e = some v ∧ s = sq3Piece (m.centreOf f.cells) v e := by
    intro s hs'
    rw [R.built.tris] at hs'
    obtain ⟨x, hx, rfl⟩ := List.mem_map.1 hs'
    obtain ⟨k, hk⟩ := List.getElem?_of_mem hx
    obtain ⟨t, h3, h4, -⟩ := R.madeFrom hv hk
    rcases h4 with ⟨h4, -⟩ | ⟨e, -, w, hw, h4 | ⟨w', hw', h4⟩⟩
    · exact Or.inl (h4 ▸ hv.mem_tris.2 ⟨_, h3⟩)
    · exact Or.inr ⟨e, w, hw, h4⟩
    · exact Or.inr ⟨e.sym, w', hw', h4⟩
  have kept : ∀ {s}, s ∈ m.tris → ∀ x ∈ s.verts, ∀ u, m.CentreOf f.cells x u ↔ u = x := fun hs' x hx u =>
    ⟨old (hv.verts_lt hs' hx), fun hu => Or.inl ⟨hv.verts_lt hs' hx, hu⟩⟩
  refine ⟨fun s hs' => ?_, fun s hs' => ?_⟩
  · rcases made s hs' with hk | ⟨e, v, he, rfl⟩
    · exact fun x hx y hy => ⟨s, hk, ⟨x, hx, (kept hk x hx x).2 rfl⟩, fun u hu => (kept hk y hy u).1 hu ▸ hy⟩
    · exact (piece he).1
  · rcases made s hs' with hk | ⟨e, v, he, rfl⟩
    · exact ⟨s, hk, fun x hx a ha => ⟨x, hx, Or.inl ((kept hk x hx a).1 ha).symm⟩, fun x hx _ => hx⟩
    · exact (piece he).2

theorem cell_layer {sch : Scheme} (hn : sch.Needs m) (hsel : m.SelOK f.cells)
    (hmax : sch = .sqrt3 → m.points.length + (m.selected f.cells).length ≤ idMax)
    (h : cellUpdate sch lib cosn f m = (.ok out, f')) : Layer m out (sch.Anchor m f.cells) (sch.spread - sch.reach) := by
  cases sch with
  | sqrt3 => exact sqrt3_layer hn.valid hsel (hmax rfl) h
  | linear => exact faceSplit_layer (by decide) hn hsel h
  | loop => exact faceSplit_layer (by decide) hn hsel h
  | butterfly => exact faceSplit_layer (by decide) hn hsel h

/-- any number of levels -/
theorem manyLevels_near {sch : Scheme} (hl : sch = .loop ∨ sch = .butterfly → lib.Lawful) (L : Nat) {m : Mesh P D}
    {sel sel₁ : List CId} (hn : sch.Needs m) (hsel : m.SelOK sel) (hid : sch.IdsLeft L m sel)
    (h : manyLevels sch lib cosn L (m, sel) = .ok (out, sel₁)) {s : Tri} (hs : s ∈ out.tris) :
    ∃ t ∈ m.tris, (∀ x ∈ s.verts, x < m.points.length → x ∈ t.verts) ∧
      ∀ m' out' sel₁', AgreeOn (fun w => ∃ c ∈ t.verts, m.Within (L * sch.spread) c w) m m' →
        manyLevels sch lib cosn L (m', sel) = .ok (out', sel₁') → ∀ v ∈ s.verts, out'.pos v = out.pos v := by
  induction L generalizing m sel with
  | zero =>
    cases h
    refine ⟨s, hs, fun x hx _ => hx, ?_⟩
    rintro m' out' sel' ha ⟨⟩ v hv
    exact ha.pos v ⟨v, hv, .refl _ _ _⟩
  | succ L ih =>
    obtain ⟨m1, s1, h1, hn1, hs1, hid1, -, -⟩ := oneLevel_ok cosn hl hn hsel hid
    have h2 : manyLevels sch lib cosn L (m1, s1) = .ok (out, sel₁) := by
      unfold manyLevels at h
      rw [h1] at h
      exact h
    have hmax : sch = .sqrt3 → m.points.length + (m.selected sel).length ≤ idMax := fun hq => by
      have := hid hq
      have h3 : 1 ≤ (3 ^ (L + 1) - 1) / 2 := by
        have : 1 ≤ 3 ^ L := Nat.one_le_pow _ _ (by decide)
        rw [Nat.pow_succ]; omega
      have := Nat.mul_le_mul_left (m.selected sel).length h3
      omega
    obtain ⟨t1, ht1, hcor1, hih⟩ := ih hn1 hs1 hid1 h2
    have h1c : ∃ f1, cellUpdate sch lib cosn (Filt.new.setCells sel) m = (.ok m1, f1) ∧ s1 = f1.cells := by
      unfold oneLevel at h1
      rcases hc : cellUpdate sch lib cosn (Filt.new.setCells sel) m with ⟨_ | _, f1⟩
      · simp [hc] at h1
      · simp only [hc] at h1; cases h1; exact ⟨f1, rfl, rfl⟩
    obtain ⟨f1, hc, rfl⟩ := h1c
    have lay := cell_layer (f := Filt.new.setCells sel) hn hsel hmax hc
    obtain ⟨t, ht, hpar, hcor⟩ := lay.parent t1 ht1
    have hlen : m.points.length ≤ m1.points.length := cellUpdate_more_points hn hsel hmax hc
    refine ⟨t, ht, fun x hx hlt => hcor x (hcor1 x hx (Nat.lt_of_lt_of_le hlt hlen)) hlt, ?_⟩
    intro m' out' sel' ha h' v hv
    unfold manyLevels at h'
    have hsh := C49_shape_only sch lib cosn cosn (Filt.new.setCells sel) ha.shape
    rcases hc' : cellUpdate sch lib cosn (Filt.new.setCells sel) m' with ⟨e | m1', f1'⟩
    · rw [hc, hc'] at hsh
      cases hsh.1
    · rw [hc, hc'] at hsh
      have hfc : f1'.cells = f1.cells := hsh.2
      have hs1 : m1'.shape = m1.shape := Except.ok.inj hsh.1
      have h1' : oneLevel sch lib cosn (m', sel) = .ok (m1', f1.cells) := by
        unfold oneLevel
        simp only [hc', hfc]
      rw [h1'] at h'
      refine hih m1' out' sel' ⟨hs1, ?_⟩ h' v hv
      rintro w ⟨x, hx, hw⟩
      refine cell_near (f := Filt.new.setCells sel) hn hsel hmax hc ha hc' fun u hu z hz => ?_
      obtain ⟨a, ha1, ha2⟩ := lay.walk hn.valid hn1.valid hw hu
      obtain ⟨c, hc1, hc2⟩ := hpar x hx a ha1
      refine ⟨c, hc1, ?_⟩
      have := hc2.trans (ha2.trans hz)
      refine this.mono ?_
      rw [Nat.succ_mul]
      have hr : sch.reach ≤ sch.spread := by cases sch <;> decide
      omega

theorem anchor_old {sch : Scheme} (hn : sch.Needs m) (hsel : m.SelOK f.cells)
    (hmax : sch = .sqrt3 → m.points.length + (m.selected f.cells).length ≤ idMax)
    (h : cellUpdate sch lib cosn f m = (.ok out, f')) {v u : PId} (hv : v < m.points.length)
    (hu : sch.Anchor m f.cells v u) : u = v := by
  by_cases hs : sch = .sqrt3
  · subst hs
    rcases hu with ⟨-, hu⟩ | ⟨i, t, -, rfl, -⟩
    · exact hu
    · exact absurd hv (Nat.not_lt_of_le (Nat.le_add_right _ _))
  · have R := (cellUpdate_result hs hn hsel h).1
    have hb : m.BelongsTo (m.edgePoint f.cells) v u := by
      cases sch <;> first | exact hu | exact absurd rfl hs
    rcases hb with ⟨-, hu⟩ | ⟨e, he, -⟩
    · exact hu
    · exact absurd (R.fresh e v he).1 (Nat.not_le_of_lt hv)

/-- the points of the input, after any number of levels -/
theorem manyLevels_near_old {sch : Scheme} (hl : sch = .loop ∨ sch = .butterfly → lib.Lawful) (L : Nat) {m : Mesh P D}
    {sel sel₁ : List CId} (hn : sch.Needs m) (hsel : m.SelOK sel) (hid : sch.IdsLeft L m sel)
    (h : manyLevels sch lib cosn L (m, sel) = .ok (out, sel₁)) {v : PId} (hv : v < m.points.length) {m' : Mesh P D}
    {sel₁' : List CId} (ha : AgreeOn (fun w => m.Within (L * sch.reach) v w) m m')
    (h' : manyLevels sch lib cosn L (m', sel) = .ok (out', sel₁')) : out'.pos v = out.pos v := by
  induction L generalizing m m' sel with
  | zero =>
    cases h
    cases h'
    exact ha.pos v (.refl _ _ _)
  | succ L ih =>
    obtain ⟨m1, s1, h1, hn1, hs1, hid1, -, -⟩ := oneLevel_ok cosn hl hn hsel hid
    have h2 : manyLevels sch lib cosn L (m1, s1) = .ok (out, sel₁) := by
      unfold manyLevels at h
      rw [h1] at h
      exact h
    have hmax : sch = .sqrt3 → m.points.length + (m.selected sel).length ≤ idMax := fun hq => by
      have := hid hq
      have h3 : 1 ≤ (3 ^ (L + 1) - 1) / 2 := by
        have : 1 ≤ 3 ^ L := Nat.one_le_pow _ _ (by decide)
        rw [Nat.pow_succ]; omega
      have := Nat.mul_le_mul_left (m.selected sel).length h3
      omega
    have h1c : ∃ f1, cellUpdate sch lib cosn (Filt.new.setCells sel) m = (.ok m1, f1) ∧ s1 = f1.cells := by
      unfold oneLevel at h1
      rcases hc : cellUpdate sch lib cosn (Filt.new.setCells sel) m with ⟨_ | _, f1⟩
      · simp [hc] at h1
      · simp only [hc] at h1; cases h1; exact ⟨f1, rfl, rfl⟩
    obtain ⟨f1, hc, rfl⟩ := h1c
    have lay := cell_layer (f := Filt.new.setCells sel) hn hsel hmax hc
    have hlen : m.points.length ≤ m1.points.length := cellUpdate_more_points hn hsel hmax hc
    unfold manyLevels at h'
    have hsh := C49_shape_only sch lib cosn cosn (Filt.new.setCells sel) ha.shape
    rcases hc' : cellUpdate sch lib cosn (Filt.new.setCells sel) m' with ⟨e | m1', f1'⟩
    · rw [hc, hc'] at hsh
      cases hsh.1
    · rw [hc, hc'] at hsh
      have hfc : f1'.cells = f1.cells := hsh.2
      have hsm : m1'.shape = m1.shape := Except.ok.inj hsh.1
      have h1' : oneLevel sch lib cosn (m', sel) = .ok (m1', f1.cells) := by
        unfold oneLevel
        simp only [hc', hfc]
      rw [h1'] at h'
      refine ih hn1 hs1 hid1 h2 (Nat.lt_of_lt_of_le hv hlen) ⟨hsm, ?_⟩ h'
      intro w hw
      refine cell_near (f := Filt.new.setCells sel) hn hsel hmax hc ha hc' fun u hu z hz => ?_
      obtain ⟨a, ha1, ha2⟩ := lay.walk hn.valid hn1.valid hw hu
      obtain rfl := anchor_old (f := Filt.new.setCells sel) hn hsel hmax hc hv ha1
      refine (ha2.trans hz).mono ?_
      rw [Nat.succ_mul]
      omega

end levels
end Verif
