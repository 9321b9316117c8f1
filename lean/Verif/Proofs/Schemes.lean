import Verif.Proofs.Points
import Verif.Proofs.Rings
import Verif.Spec.Run
/-
The face-split cell filters and the edge filters, from end to end: on valid meshes they return and produce a
`FaceSplitResult`.
-/
namespace Verif
set_option linter.unusedSectionVars false
variable {K P D : Type} [Field K] [Zero P] [Add P] [SMul K P]

/-- coordinates of a point, zero for an absent id -/
def Mesh.coord {P D : Type} [Zero P] (m : Mesh P D) (v : PId) : P := (m.points.find? v).getD 0

/-- the value of a computation, zero if it fails -/
def valueOf {α P : Type} [Zero P] (np : α → Except Fail P) (a : α) : P :=
  match np a with
  | .ok p => p
  | .error _ => 0

theorem valueOf_ok {α P : Type} [Zero P] {np : α → Except Fail P} {a : α} (h : ∃ p, np a = .ok p) :
    np a = .ok (valueOf np a) := by
  obtain ⟨p, hp⟩ := h
  unfold valueOf; rw [hp]

theorem valueOf_eq {α P : Type} [Zero P] {np : α → Except Fail P} {a : α} {p : P} (h : np a = .ok p) :
    valueOf np a = p := by
  unfold valueOf; rw [h]

section points
variable {P : Type} [Zero P]

theorem Mesh.Valid.points_find? {m : Mesh P D} (h : m.Valid) {v : PId} (hv : v < m.points.length) :
    m.points.find? v = some (m.coord v) := by
  unfold Mesh.coord
  rw [h.points_eq, AMap.find?_dense, List.getElem?_eq_getElem (by simpa using hv)]
  rfl

theorem Mesh.Valid.getPoint_ok {m : Mesh P D} (h : m.Valid) {v : PId} (hv : v < m.points.length) :
    m.getPoint v = .ok (m.coord v) := by
  unfold Mesh.getPoint; rw [h.points_find? hv]

theorem Mesh.Valid.isEdge_lt {m : Mesh P D} (h : m.Valid) {e : Edge} (he : m.IsEdge e) :
    e.1 < m.points.length ∧ e.2 < m.points.length := by
  rcases (h.edges_iff e).1 he with hd | hd
  · obtain ⟨t, ht, hd⟩ := mem_dartsOf.1 hd
    exact ⟨h.verts_lt ht (Tri.dart_fst hd), h.verts_lt ht (Tri.dart_snd hd)⟩
  · obtain ⟨t, ht, hd⟩ := mem_dartsOf.1 hd
    exact ⟨h.verts_lt ht (Tri.dart_snd hd), h.verts_lt ht (Tri.dart_fst hd)⟩

theorem Mesh.Valid.isEdge_of_dart {m : Mesh P D} (h : m.Valid) {e : Edge} (he : e ∈ dartsOf m.tris) : m.IsEdge e :=
  (h.edges_iff e).2 (Or.inl he)

theorem Mesh.IsEdge.sym {m : Mesh P D} {e : Edge} (he : m.IsEdge e) : m.IsEdge e.sym := by
  unfold Mesh.IsEdge at *
  rw [Edge.sym_sym]
  exact he.symm

theorem Mesh.Valid.values {m : Mesh P D} (h : m.Valid) :
    m.points.map Prod.snd = (List.range m.points.length).map m.coord := by
  apply List.ext_getElem?
  intro i
  by_cases hi : i < m.points.length
  · have h1 := h.points_find? hi
    rw [h.points_eq, AMap.find?_dense] at h1
    rw [h1]
    simp [hi]
  · rw [List.getElem?_eq_none (by simpa using hi), List.getElem?_eq_none (by simpa using hi)]

/-- `CopyInputMeshToOutputMeshPoints` of the base class -/
theorem copyPoints_ok {inp : Mesh P D} (hv : inp.Valid) (f : Filt) :
    copyPoints inp ⟨f, Mesh.empty⟩ =
      (.ok (), ⟨f, { (Mesh.empty : Mesh P D) with points := AMap.dense ((List.range inp.points.length).map inp.coord) }⟩) := by
  unfold copyPoints modifyOut
  congr 2
  have : (Mesh.empty : Mesh P D).points = [] := rfl
  simp only [this]
  rw [AMap.reserve_nil, ← hv.values]
  conv_lhs => rw [hv.points_eq]
  rw [AMap.foldl_set_dense _ _ (by simp)]

/-- writing one value per point -/
theorem writePoints_ok {inp : Mesh P D} (hv : inp.Valid) {val : PId → P → Except Fail P} {w : PId → P}
    (hw : ∀ v, v < inp.points.length → val v (inp.coord v) = .ok (w v)) (f : Filt) :
    writePoints val inp.points ⟨f, { (Mesh.empty : Mesh P D) with
      points := AMap.reserve (Mesh.empty : Mesh P D).points inp.points.length 0 }⟩ =
      (.ok (), ⟨f, { (Mesh.empty : Mesh P D) with points := AMap.dense ((List.range inp.points.length).map w) }⟩) := by
  have H : ∀ (r p q : List P), q.length = r.length →
      (∀ j x, r[j]? = some x → val (p.length + j) x = .ok (w (p.length + j))) →
      writePoints val (AMap.denseFrom p.length r) ⟨f, { (Mesh.empty : Mesh P D) with points := AMap.dense (p ++ q) }⟩ =
      (.ok (), ⟨f, { (Mesh.empty : Mesh P D) with
        points := AMap.dense (p ++ (List.range' p.length r.length).map w) }⟩) := by
    intro r
    induction r with
    | nil => intro p q hq _; simp at hq; subst hq; simp [writePoints, AMap.denseFrom, Prog.forEach, Prog.pure]
    | cons x r ih =>
      intro p q hq hval
      obtain ⟨y, q, rfl⟩ : ∃ y q', q = y :: q' := by
        cases q with
        | nil => simp at hq
        | cons y q => exact ⟨y, q, rfl⟩
      have h0 := hval 0 x rfl
      have hset : (AMap.dense (p ++ y :: q)).set p.length (w p.length) = AMap.dense ((p ++ [w p.length]) ++ q) := by
        rw [AMap.set_dense_lt _ _ _ (by simp)]
        simp
      have hrec := ih (p ++ [w p.length]) q (by simpa using hq) (by
        intro j z hz
        have := hval (j + 1) z (by simpa using hz)
        rw [List.length_append, List.length_singleton, Nat.add_assoc, Nat.add_comm 1 j]
        exact this)
      simp only [Nat.add_zero] at h0
      rw [List.length_append, List.length_singleton] at hrec
      have hstep : writePoints val (AMap.denseFrom p.length (x :: r))
          ⟨f, { (Mesh.empty : Mesh P D) with points := AMap.dense (p ++ y :: q) }⟩ =
          writePoints val (AMap.denseFrom (p.length + 1) r)
          ⟨f, { (Mesh.empty : Mesh P D) with points := (AMap.dense (p ++ y :: q)).set p.length (w p.length) }⟩ := by
        unfold writePoints
        rw [AMap.denseFrom, Prog.forEach]
        simp only
        rw [h0]
        rfl
      rw [hstep, hset, hrec]
      simp [List.range'_succ]
  have := H (inp.points.map Prod.snd) [] (List.replicate inp.points.length 0) (by simp) (by
    intro j x hx
    have hj : j < inp.points.length := by
      have := (List.getElem?_eq_some_iff.1 hx).1
      simpa using this
    have hc := hv.points_find? hj
    rw [hv.points_eq, AMap.find?_dense, hx] at hc
    rw [Option.some.inj hc]
    simpa using hw j hj)
  have hemp : (Mesh.empty : Mesh P D).points = [] := rfl
  rw [hemp, AMap.reserve_nil]
  simp only [List.nil_append, List.length_nil, List.length_map] at this
  rw [List.range_eq_range', ← this]
  congr 1
  exact hv.points_eq

end points

section stencils

theorem linearPoint_ok {inp : Mesh P D} (hv : inp.Valid) {e : Edge} (he : inp.IsEdge e) :
    linearPoint K inp e = .ok (midPoint K (inp.coord e.1) (inp.coord e.2)) := by
  unfold linearPoint
  rw [hv.getPoint_ok (hv.isEdge_lt he).1, hv.getPoint_ok (hv.isEdge_lt he).2]
  rfl

theorem destOrZero_edge {inp : Mesh P D} (hv : inp.Valid) {e : Edge} (he : inp.IsEdge e) :
    destOrZero inp (some e) = .ok (inp.coord e.2) := hv.getPoint_ok (hv.isEdge_lt he).2

namespace Mesh.RingOK
variable {inp : Mesh P D} (hr : inp.RingOK)
include hr

theorem lnext_some {e : Edge} (he : inp.IsEdge e) : ∃ e', inp.lnext e = some e' ∧ inp.IsEdge e' := by
  obtain ⟨e', h1, h2, _⟩ := hr.oprev_some he.sym
  exact ⟨e', h1, h2⟩

theorem rprev_some {e : Edge} (he : inp.IsEdge e) : ∃ e', inp.rprev e = some e' ∧ inp.IsEdge e' := by
  obtain ⟨e', h1, h2, _⟩ := hr.onext_some _ he.sym
  exact ⟨e', h1, h2⟩

theorem lprev_some {e : Edge} (he : inp.IsEdge e) : ∃ e', inp.lprev e = some e' ∧ inp.IsEdge e' := by
  obtain ⟨e', h1, h2, _⟩ := hr.onext_some _ he
  exact ⟨e'.sym, by simp [Mesh.lprev, h1], h2.sym⟩

theorem rnext_some {e : Edge} (he : inp.IsEdge e) : ∃ e', inp.rnext e = some e' ∧ inp.IsEdge e' := by
  obtain ⟨e', h1, h2, _⟩ := hr.oprev_some he
  exact ⟨e'.sym, by simp [Mesh.rnext, h1], h2.sym⟩

end Mesh.RingOK

/-- `Lnext` goes along the triangle on the left -/
theorem lnext_face {inp : Mesh P D} (hv : inp.Valid) (hr : inp.RingOK) {a b c : PId} (h : HasTri inp.tris a b c) :
    inp.lnext (a, b) = some (b, c) := by
  unfold Mesh.lnext
  have h1 := hr.face b c a h.rot
  exact (hr.oprev_iff (b, c) (b, a) (hv.isEdge_of_dart h.rot.dart) (hv.isEdge_of_dart h.dart).sym).2 h1

theorem rprev_face {inp : Mesh P D} (hr : inp.RingOK) {a b d : PId} (h : HasTri inp.tris b a d) :
    inp.rprev (a, b) = some (b, d) := hr.face b a d h

theorem lprev_face {inp : Mesh P D} (hr : inp.RingOK) {a b c : PId} (h : HasTri inp.tris a b c) :
    inp.lprev (a, b) = some (c, a) := by
  unfold Mesh.lprev; rw [hr.face a b c h]; rfl

theorem rnext_face {inp : Mesh P D} (hv : inp.Valid) (hr : inp.RingOK) {a b d : PId} (h : HasTri inp.tris b a d) :
    inp.rnext (a, b) = some (d, a) := by
  unfold Mesh.rnext
  have h1 := hr.face a d b h.rot
  rw [(hr.oprev_iff (a, d) (a, b) (hv.isEdge_of_dart h.rot.dart) (hv.isEdge_of_dart h.dart).sym).2 h1]
  rfl

theorem Mesh.Valid.leftSet_dart {m : Mesh P D} (h : m.Valid) (e : Edge) :
    m.leftSet e = true ↔ e ∈ dartsOf m.tris := by
  unfold Mesh.leftSet
  rw [Option.isSome_iff_exists]
  exact h.left_tri

/-- the third side of a corner is an edge -/
theorem Mesh.Valid.edge13 {m : Mesh P D} (h : m.Valid) {x y z : PId} (ht : HasTri m.tris x y z) : m.IsEdge (x, z) :=
  (h.isEdge_of_dart ht.rot.rot.dart).sym

theorem loopPoint_inner {inp : Mesh P D} (hv : inp.Valid) (hr : inp.RingOK) {a b c d : PId}
    (h1 : HasTri inp.tris a b c) (h2 : HasTri inp.tris b a d) :
    loopPoint K inp (a, b) = .ok (0 + (3 / 8 : K) • inp.coord a + (3 / 8 : K) • inp.coord b + (1 / 8 : K) • inp.coord c
      + (1 / 8 : K) • inp.coord d) := by
  have hi : inp.isInternal (a, b) = true := by
    unfold Mesh.isInternal Mesh.rightSet
    rw [Bool.and_eq_true]
    exact ⟨(hv.leftSet_dart _).2 h1.dart, (hv.leftSet_dart _).2 h2.dart⟩
  unfold loopPoint
  rw [if_pos hi, lnext_face hv hr h1, rprev_face hr h2, destOrZero_edge hv (hv.isEdge_of_dart h1.rot.dart),
    destOrZero_edge hv (hv.edge13 h2),
    hv.getPoint_ok (hv.isEdge_lt (hv.isEdge_of_dart h1.dart)).1,
    hv.getPoint_ok (hv.isEdge_lt (hv.isEdge_of_dart h1.dart)).2]
  rfl

theorem loopPoint_border {inp : Mesh P D} (hv : inp.Valid) {e : Edge} (he : inp.IsEdge e)
    (hb : ¬ (e ∈ dartsOf inp.tris ∧ e.sym ∈ dartsOf inp.tris)) :
    loopPoint K inp e = .ok (midPoint K (inp.coord e.1) (inp.coord e.2)) := by
  have e1 := hv.leftSet_dart e
  have e2 := hv.leftSet_dart e.sym
  have e3 : inp.rightSet e = inp.leftSet e.sym := rfl
  have hi : inp.isInternal e = false := by
    rw [Bool.eq_false_iff]
    intro hc
    unfold Mesh.isInternal at hc
    rw [Bool.and_eq_true, e3] at hc
    exact hb ⟨e1.1 hc.1, e2.1 hc.2⟩
  have hbd : inp.isAtBorder e = true := by
    unfold Mesh.isAtBorder
    rw [bne_iff_ne, e3]
    intro hc
    have := (hv.edges_iff e).1 he
    rw [← e1, ← e2, hc] at this
    rw [← e1, ← e2, hc] at hb
    tauto
  unfold loopPoint
  rw [hi, hbd, hv.getPoint_ok (hv.isEdge_lt he).1, hv.getPoint_ok (hv.isEdge_lt he).2]
  rfl

theorem loopPoint_ok {inp : Mesh P D} (hv : inp.Valid) (hr : inp.RingOK) {e : Edge} (he : inp.IsEdge e) :
    ∃ p, loopPoint K inp e = .ok p := by
  by_cases hb : e ∈ dartsOf inp.tris ∧ e.sym ∈ dartsOf inp.tris
  · obtain ⟨a, b⟩ := e
    obtain ⟨c, hc⟩ := dartsOf_iff_hasTri.1 hb.1
    obtain ⟨d, hd⟩ := dartsOf_iff_hasTri.1 hb.2
    exact ⟨_, loopPoint_inner hv hr hc hd⟩
  · exact ⟨_, loopPoint_border hv he hb⟩

theorem butterflyPoint_ok {inp : Mesh P D} (hv : inp.Valid) (hr : inp.RingOK) {e : Edge} (he : inp.IsEdge e) :
    ∃ p, butterflyPoint K inp e = .ok p := by
  obtain ⟨e2, h2, g2⟩ := hr.lnext_some he
  obtain ⟨e4, h4, g4⟩ := hr.rprev_some g2
  obtain ⟨e3, h3, g3⟩ := hr.rprev_some he
  obtain ⟨e5, h5, g5⟩ := hr.lnext_some g3
  obtain ⟨e6, h6, g6⟩ := hr.lprev_some he
  obtain ⟨e6', h6', g6'⟩ := hr.rprev_some g6
  obtain ⟨e7, h7, g7⟩ := hr.rnext_some he
  obtain ⟨e7', h7', g7'⟩ := hr.lnext_some g7
  unfold butterflyPoint
  rw [h2, h3, h6, h7]
  simp only [Option.bind_some]
  rw [h4, h5, h6', h7', destOrZero_edge hv g2, destOrZero_edge hv g4, destOrZero_edge hv g3, destOrZero_edge hv g5,
    destOrZero_edge hv g6', destOrZero_edge hv g7', hv.getPoint_ok (hv.isEdge_lt he).1,
    hv.getPoint_ok (hv.isEdge_lt he).2]
  exact ⟨_, rfl⟩

/-- the eight-point stencil -/
theorem butterflyPoint_inner {inp : Mesh P D} (hv : inp.Valid) (hr : inp.RingOK) {a b c d w4 w5 w6 w7 : PId}
    (h1 : HasTri inp.tris a b c) (h2 : HasTri inp.tris b a d) (h4 : HasTri inp.tris c b w4) (h5 : HasTri inp.tris b d w5)
    (h6 : HasTri inp.tris a c w6) (h7 : HasTri inp.tris d a w7) :
    butterflyPoint K inp (a, b) = .ok (0 + (1 / 2 : K) • inp.coord a + (1 / 2 : K) • inp.coord b + (1 / 8 : K) • inp.coord c
      + (1 / 8 : K) • inp.coord d + (-1 / 16 : K) • inp.coord w4 + (-1 / 16 : K) • inp.coord w5
      + (-1 / 16 : K) • inp.coord w6 + (-1 / 16 : K) • inp.coord w7) := by
  have he := hv.isEdge_of_dart h1.dart
  unfold butterflyPoint
  rw [lnext_face hv hr h1, rprev_face hr h2, lprev_face hr h1, rnext_face hv hr h2]
  simp only [Option.bind_some]
  rw [rprev_face hr h4, lnext_face hv hr h5, rprev_face hr h6, lnext_face hv hr h7,
    destOrZero_edge hv (hv.isEdge_of_dart h1.rot.dart),
    destOrZero_edge hv (hv.edge13 h4),
    destOrZero_edge hv (hv.edge13 h2),
    destOrZero_edge hv (hv.isEdge_of_dart h5.rot.dart),
    destOrZero_edge hv (hv.edge13 h6),
    destOrZero_edge hv (hv.isEdge_of_dart h7.rot.dart),
    hv.getPoint_ok (hv.isEdge_lt he).1, hv.getPoint_ok (hv.isEdge_lt he).2]
  rfl

end stencils

section smoothing

/-- the sum of a list of points, added up from the left -/
def added (l : List P) : P := l.foldl (· + ·) 0

theorem sumFrom_ok {inp : Mesh P D} (hv : inp.Valid) (r : List Edge) (hr : ∀ e ∈ r, inp.IsEdge e) (acc : P) :
    sumFrom inp acc r = .ok ((r.map fun e => inp.coord e.2).foldl (· + ·) acc) := by
  induction r generalizing acc with
  | nil => rfl
  | cons e r ih =>
    unfold sumFrom
    rw [hv.getPoint_ok (hv.isEdge_lt (hr e (by simp))).2]
    exact ih (fun e he => hr e (by simp [he])) _

theorem sumDest_ok {inp : Mesh P D} (hv : inp.Valid) (r : List Edge) (hr : ∀ e ∈ r, inp.IsEdge e) :
    sumDest inp r = .ok (added (r.map fun e => inp.coord e.2)) := sumFrom_ok hv r hr 0

/-- the weighted mean of `SmoothingPoint` over a list of edges -/
def smoothed (cosn : Nat → K) (inp : Mesh P D) (r : List Edge) (p : P) : P :=
  if (r.filter inp.isAtBorder).length ≠ 0 then
    (3 / 4 : K) • p + (1 / 8 : K) • added ((r.filter inp.isAtBorder).map fun e => inp.coord e.2)
  else (1 - (r.length : K) * loopBeta cosn r.length) • p + loopBeta cosn r.length • added (r.map fun e => inp.coord e.2)

theorem Mesh.NoIsolated.edge {inp : Mesh P D} (hn : inp.NoIsolated) (hv : inp.Valid) {v : PId}
    (h : v < inp.points.length) : ∃ w, inp.IsEdge (v, w) := by
  obtain ⟨t, ht, hvt⟩ := hn v h
  obtain ⟨y, z, hi⟩ := Tri.mem_verts.1 hvt
  exact ⟨y, hv.isEdge_of_dart (mem_dartsOf.2 ⟨t, ht, hi.dart⟩)⟩

theorem smoothingPoint_ok (cosn : Nat → K) {inp : Mesh P D} (hv : inp.Valid) (hr : inp.RingOK) {v w : PId}
    (hw : inp.IsEdge (v, w)) (p : P) :
    ∃ r, r.Nodup ∧ (∀ e', e' ∈ r ↔ inp.IsEdge e' ∧ e'.1 = v) ∧
      smoothingPoint cosn inp v p = .ok (smoothed cosn inp r p) := by
  obtain ⟨e, he⟩ := Option.isSome_iff_exists.1 (hr.point_edge_some _ hw)
  obtain ⟨h1, h2⟩ := hr.point_edge _ _ he
  obtain ⟨r, h3, h4, h5⟩ := ringAt_ok hr h1
  refine ⟨r, h4, ?_, ?_⟩
  · simp only at h2
    rw [h2] at h5; exact h5
  · unfold smoothingPoint
    simp only at he
    rw [he]
    simp only
    rw [h3]
    have hall : ∀ e' ∈ r, inp.IsEdge e' := fun e' he' => ((h5 e').1 he').1
    show (sumDest inp r).bind _ = _
    rw [sumDest_ok hv r hall]
    show (sumDest inp (r.filter inp.isAtBorder)).bind _ = _
    rw [sumDest_ok hv _ (fun e' he' => hall e' (List.mem_of_mem_filter he'))]
    unfold smoothed
    show (if _ then _ else _) = _
    split <;> rfl

theorem loopSmoothSet_ok {inp : Mesh P D} (hv : inp.Valid) (sel : List CId) (hs : inp.SelOK sel) :
    ∃ set, loopSmoothSet inp sel = .ok set ∧ ∀ k, k ∈ set ↔ k ∈ sel := by
  induction sel with
  | nil => exact ⟨[], rfl, by simp⟩
  | cons k sel ih =>
    obtain ⟨set, h1, h2⟩ := ih (fun k hk => hs k (by simp [hk]))
    obtain ⟨t, ht, _⟩ := hv.sel_tri hs (k := k) (by simp)
    refine ⟨[k, k, k] ++ set, ?_, ?_⟩
    · unfold loopSmoothSet
      rw [hv.find?_tri.2 ht, h1]
      rfl
    · intro k'
      simp [h2]

/-- the original points as the Loop filter writes them -/
def loopBase (cosn : Nat → K) (inp : Mesh P D) (f : Filt) (v : PId) : P :=
  if f.uniform || f.cells.contains v then valueOf (fun v => smoothingPoint cosn inp v (inp.coord v)) v
  else inp.coord v

/-- every point that the copy phase of the Loop filter smooths has an edge -/
def SmoothedOK (inp : Mesh P D) (f : Filt) : Prop :=
  ∀ v, v < inp.points.length → (f.uniform || f.cells.contains v) = true → ∃ w, inp.IsEdge (v, w)

theorem loopCopy_ok' (cosn : Nat → K) {inp : Mesh P D} (hv : inp.Valid) (hr : inp.RingOK) (f : Filt) (hn : SmoothedOK inp f)
    (hs : inp.SelOK f.cells) :
    loopCopy cosn inp ⟨f, Mesh.empty⟩ = (.ok (), ⟨f, { (Mesh.empty : Mesh P D) with
      points := AMap.dense ((List.range inp.points.length).map (loopBase cosn inp f)) }⟩) := by
  have hsm : ∀ v, v < inp.points.length → (f.uniform || f.cells.contains v) = true → smoothingPoint cosn inp v (inp.coord v) =
      .ok (valueOf (fun v => smoothingPoint cosn inp v (inp.coord v)) v) := by
    intro v hvn hsv
    obtain ⟨w, hw⟩ := hn v hvn hsv
    obtain ⟨r, _, _, h⟩ := smoothingPoint_ok cosn hv hr hw (inp.coord v)
    exact valueOf_ok (np := fun v => smoothingPoint cosn inp v (inp.coord v)) ⟨_, h⟩
  unfold loopCopy
  change (if f.uniform = true then writePoints _ _ _ else Prog.bind (Prog.lift (loopSmoothSet inp f.cells)) _ _) = _
  by_cases hu : f.uniform = true
  · rw [if_pos hu]
    refine writePoints_ok hv (fun v hvn => ?_) f
    rw [hsm v hvn (by rw [hu]; rfl)]
    unfold loopBase
    rw [hu]; rfl
  · rw [if_neg hu]
    obtain ⟨set, h1, h2⟩ := loopSmoothSet_ok hv f.cells hs
    rw [h1, lift_ok_bind]
    refine writePoints_ok hv (fun v hvn => ?_) f
    have hc : set.contains v = f.cells.contains v := by
      rw [Bool.eq_iff_iff, List.contains_iff_mem, List.contains_iff_mem]
      exact h2 v
    unfold loopBase
    rw [hc]
    rw [Bool.not_eq_true] at hu
    rw [hu, Bool.false_or]
    split
    · exact hsm v hvn (by rw [hu, Bool.false_or]; assumption)
    · rfl

theorem loopCopy_ok (cosn : Nat → K) {inp : Mesh P D} (hv : inp.Valid) (hr : inp.RingOK) (hn : inp.NoIsolated) (f : Filt)
    (hs : inp.SelOK f.cells) :
    loopCopy cosn inp ⟨f, Mesh.empty⟩ = (.ok (), ⟨f, { (Mesh.empty : Mesh P D) with
      points := AMap.dense ((List.range inp.points.length).map (loopBase cosn inp f)) }⟩) :=
  loopCopy_ok' cosn hv hr f (fun _ h _ => hn.edge hv h) hs

theorem loopEdgeValue_ok (cosn : Nat → K) {inp : Mesh P D} (hr : inp.RingOK) {v w : PId} (hw : inp.IsEdge (v, w))
    (sel : List (Option Edge)) (p : P) : loopEdgeValue cosn inp sel v p = .ok p := by
  obtain ⟨e, he⟩ := Option.isSome_iff_exists.1 (hr.point_edge_some _ hw)
  obtain ⟨h1, h2⟩ := hr.point_edge _ _ he
  unfold loopEdgeValue
  simp only at he
  rw [he]
  simp only
  rw [loopEdgeWalk_ok hr h1]
  rfl

theorem loopEdgeCopy_ok (cosn : Nat → K) {inp : Mesh P D} (hv : inp.Valid) (hr : inp.RingOK) (hn : inp.NoIsolated)
    (f : Filt) :
    loopEdgeCopy cosn inp ⟨f, Mesh.empty⟩ = (.ok (), ⟨f, { (Mesh.empty : Mesh P D) with
      points := AMap.dense ((List.range inp.points.length).map inp.coord) }⟩) := by
  unfold loopEdgeCopy
  change writePoints (loopEdgeValue cosn inp f.edgeSel) _ _ = _
  refine writePoints_ok hv (fun v hvn => ?_) f
  obtain ⟨w, hw⟩ := hn.edge hv hvn
  exact loopEdgeValue_ok cosn hr hw _ _

end smoothing

/-- the new point on an edge -/
def schemePoint (sch : Scheme) (K : Type) {P D : Type} [Field K] [Zero P] [Add P] [SMul K P] (inp : Mesh P D) :
    Edge → Except Fail P :=
  match sch with
  | .linear => linearPoint K inp
  | .loop => loopPoint K inp
  | .butterfly => butterflyPoint K inp
  | .sqrt3 => fun _ => .ok 0

/-- the new coordinates of an original point -/
def schemeBase (sch : Scheme) (cosn : Nat → K) (inp : Mesh P D) (f : Filt) (v : PId) : P :=
  match sch with
  | .loop => loopBase cosn inp f v
  | _ => inp.coord v

theorem schemePoint_ok' {sch : Scheme} {inp : Mesh P D} (hv : inp.Valid) (hr : sch = .loop ∨ sch = .butterfly → inp.RingOK)
    {e : Edge} (he : inp.IsEdge e) : ∃ p, schemePoint sch K inp e = .ok p := by
  cases sch with
  | linear => exact ⟨_, linearPoint_ok hv he⟩
  | loop => exact loopPoint_ok hv (hr (Or.inl rfl)) he
  | butterfly => exact butterflyPoint_ok hv (hr (Or.inr rfl)) he
  | sqrt3 => exact ⟨_, rfl⟩

theorem schemePoint_ok {sch : Scheme} {inp : Mesh P D} (hn : sch.Needs inp) {e : Edge} (he : inp.IsEdge e) :
    ∃ p, schemePoint sch K inp e = .ok p := schemePoint_ok' hn.valid hn.ring he

theorem linearAddNew_ok {inp : Mesh P D} (hv : inp.Valid) {t : Tri} (ht : t ∈ inp.tris) (s0 : St P D) (pt : Edge → P)
    (hpt : ∀ e ∈ t.darts, linearPoint K inp e = .ok (pt e)) (es : List Edge) :
    linearAddNew K inp (some t.cell) (ptState s0 ((List.range inp.points.length).map inp.coord) pt es) =
      (.ok (), ptState s0 ((List.range inp.points.length).map inp.coord) pt (t.darts.foldl addEdgeTo es)) := by
  have hget : ∀ v ∈ t.verts, ∀ (k : P → M P D Unit), Prog.bind (getOutPoint v) k
      (ptState s0 ((List.range inp.points.length).map inp.coord) pt es) = k (inp.coord v)
      (ptState s0 ((List.range inp.points.length).map inp.coord) pt es) := by
    intro v hvt k
    apply Prog.bind_ok
    unfold getOutPoint
    congr 1
    unfold Mesh.getPoint
    have hlt := hv.verts_lt ht hvt
    have : AMap.find? (ptState s0 ((List.range inp.points.length).map inp.coord) pt es).out.points v =
        some (inp.coord v) := by
      simp only [ptState, AMap.find?_dense]
      rw [List.getElem?_append_left (by simpa using hlt)]
      simp [hlt]
    rw [this]
  have hE : ∀ e ∈ t.darts, inp.hasEdge e = true := fun e he => hv.hasEdge (mem_dartsOf.2 ⟨t, ht, he⟩)
  obtain ⟨a, b, c⟩ := t
  have m0 : (a, b) ∈ Tri.darts (a, b, c) := by simp [Tri.darts]
  have m1 : (b, c) ∈ Tri.darts (a, b, c) := by simp [Tri.darts]
  have m2 : (c, a) ∈ Tri.darts (a, b, c) := by simp [Tri.darts]
  have key := addThree_ok hE hpt s0 ((List.range inp.points.length).map inp.coord) es
  rw [← key]
  unfold linearAddNew addThree
  rw [requireTriangle_cell, Prog.pure_bind', Prog.pure_bind', numberOfPoints_bind, numberOfPoints_bind]
  rw [hget a (by simp [Tri.verts]), hget b (by simp [Tri.verts]), hget c (by simp [Tri.verts])]
  have hl : ∀ e ∈ Tri.darts (a, b, c), linearPoint K inp e = .ok (midPoint K (inp.coord e.1) (inp.coord e.2)) :=
    fun e he => linearPoint_ok hv (hv.isEdge_of_dart (mem_dartsOf.2 ⟨_, ht, he⟩))
  rw [addEdgePoint_congr (np' := linearPoint K inp) (hl _ m0).symm]
  simp only [addEdgePoint_congr (np := fun _ => Except.ok (midPoint K (inp.coord b) (inp.coord c)))
    (np' := linearPoint K inp) (hl _ m1).symm]
  simp only [addEdgePoint_congr (np := fun _ => Except.ok (midPoint K (inp.coord c) (inp.coord a)))
    (np' := linearPoint K inp) (hl _ m2).symm]

/-- The face-split cell filters return, and this is what they produce. -/
theorem cellUpdate_ok' {sch : Scheme} (hsch : sch ≠ .sqrt3) (lib : QELib) (cosn : Nat → K) {f : Filt} {inp : Mesh P D}
    (hv : inp.Valid) (hr : sch = .loop ∨ sch = .butterfly → inp.RingOK) (hi : sch = .loop → SmoothedOK inp f)
    (hsel : inp.SelOK f.cells) :
    ∃ out f', cellUpdate sch lib cosn f inp = (.ok out, f') ∧
      FaceSplitResult lib inp out f f' f.cells.isEmpty
        (labelOf inp.points.length (edgeList (inp.selected f.cells)))
        ((List.range inp.points.length).map (schemeBase sch cosn inp f) ++
          (edgeList (inp.selected f.cells)).map (valueOf (schemePoint sch K inp))) := by
  have hlt : ∀ t ∈ inp.tris, ∀ v ∈ t.verts, v < inp.points.length := fun t ht v hvv => hv.verts_lt ht hvv
  have main : ∀ (copy : M P D Unit) (addNew : Option Cell → M P D Unit),
      copy ⟨f, Mesh.empty⟩ = (.ok (), ⟨f, { (Mesh.empty : Mesh P D) with
        points := AMap.dense ((List.range inp.points.length).map (schemeBase sch cosn inp f)) }⟩) →
      (∀ t ∈ inp.tris, ∀ (s0 : St P D) (es : List Edge),
        addNew (some t.cell) (ptState s0 ((List.range inp.points.length).map (schemeBase sch cosn inp f))
          (valueOf (schemePoint sch K inp)) es) =
        (.ok (), ptState s0 ((List.range inp.points.length).map (schemeBase sch cosn inp f))
          (valueOf (schemePoint sch K inp)) (t.darts.foldl addEdgeTo es))) →
      ∃ out f', runFilter lib (generateData (generateOutputPoints copy addNew inp) (generateOutputCells inp)) f =
          (.ok out, f') ∧
        FaceSplitResult lib inp out f f' f.cells.isEmpty
        (labelOf inp.points.length (edgeList (inp.selected f.cells)))
        ((List.range inp.points.length).map (schemeBase sch cosn inp f) ++
          (edgeList (inp.selected f.cells)).map (valueOf (schemePoint sch K inp))) := by
    intro copy addNew hcopy hnew
    have h1 := generateOutputPoints_ok hv hsel hcopy hnew
    refine cellPhase_ok hv lib (labelling_labelOf hlt _) ?_ (by simp) ?_
    · intro e m hm
      have := labelOf_range hm
      simpa using this
    · rw [h1]
      unfold ptState
      simp
  have hE : ∀ t ∈ inp.tris, ∀ e ∈ t.darts, inp.hasEdge e = true :=
    fun t ht e he => hv.hasEdge (mem_dartsOf.2 ⟨t, ht, he⟩)
  have hP : ∀ t ∈ inp.tris, ∀ e ∈ t.darts, schemePoint sch K inp e = .ok (valueOf (schemePoint sch K inp) e) :=
    fun t ht e he => valueOf_ok (schemePoint_ok' hv hr (hv.isEdge_of_dart (mem_dartsOf.2 ⟨t, ht, he⟩)))
  cases sch with
  | linear =>
    exact main _ _ (copyPoints_ok hv f) (fun t ht s0 es => linearAddNew_ok hv ht s0 _ (hP t ht) es)
  | loop =>
    exact main _ _ (loopCopy_ok' cosn hv (hr (Or.inl rfl)) f (hi rfl) hsel)
      (fun t ht s0 es => addThree_ok (hE t ht) (hP t ht) s0 _ es)
  | butterfly =>
    exact main _ _ (copyPoints_ok hv f) (fun t ht s0 es => addThree_ok (hE t ht) (hP t ht) s0 _ es)
  | sqrt3 => exact absurd rfl hsch

theorem cellUpdate_ok {sch : Scheme} (hsch : sch ≠ .sqrt3) (lib : QELib) (cosn : Nat → K) {f : Filt} {inp : Mesh P D}
    (hn : sch.Needs inp) (hsel : inp.SelOK f.cells) :
    ∃ out f', cellUpdate sch lib cosn f inp = (.ok out, f') ∧
      FaceSplitResult lib inp out f f' f.cells.isEmpty
        (labelOf inp.points.length (edgeList (inp.selected f.cells)))
        ((List.range inp.points.length).map (schemeBase sch cosn inp f) ++
          (edgeList (inp.selected f.cells)).map (valueOf (schemePoint sch K inp))) :=
  cellUpdate_ok' hsch lib cosn hn.valid hn.ring (fun h _ hlt _ => (hn.noIsolated h).edge hn.valid hlt) hsel

end Verif
