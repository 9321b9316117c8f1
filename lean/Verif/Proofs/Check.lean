import Verif.Proofs.Build
import Mathlib.Data.List.Nodup
/-
Meshes given by a list of triangles, and executable tests that imply validity; used for the concrete cases that
accompany the theorems.
-/
namespace Verif
variable {P D : Type}

/-- the corner `z` with `x y z` in the list -/
def third (T : List Tri) (x y : PId) : Option PId :=
  T.findSome? fun t =>
    if (t.1, t.2.1) = (x, y) then some t.2.2
    else if (t.2.1, t.2.2) = (x, y) then some t.1
    else if (t.2.2, t.1) = (x, y) then some t.2.1
    else none

/-- the arrows met when turning around `v` from the triangle `v x y` -/
def turn (T : List Tri) (v : PId) : Nat → PId → PId → List (PId × PId)
  | 0, x, y => [(x, y)]
  | n + 1, x, y =>
    match third T v y with
    | some z => (x, y) :: turn T v n y z
    | none => [(x, y)]

/-- the turn around `v` from `v x y` ends at a boundary -/
def deadEnd (T : List Tri) (v : PId) : Nat → PId → Bool
  | 0, _ => false
  | n + 1, y =>
    match third T v y with
    | some z => deadEnd T v n z
    | none => true

/-- all arrows `(v, x, y)` with `v x y` a triangle -/
def corners (T : List Tri) : List Tri := T.flatMap fun t => [t, (t.2.1, t.2.2, t.1), (t.2.2, t.1, t.2.1)]

/-- executable version of `GoodTris` -/
def checkGood (T : List Tri) : Bool :=
  T.all (fun t => t.1 ≠ t.2.1 && t.2.1 ≠ t.2.2 && t.2.2 ≠ t.1) &&
  decide (dartsOf T).Nodup &&
  T.all (fun t => T.all fun t' => decide (t = t') || !(t.verts.all fun v => t'.verts.contains v)) &&
  (corners T).all fun c =>
    deadEnd T c.1 T.length c.2.2 ||
    (corners T).all fun c' => decide (c'.1 ≠ c.1) || (turn T c.1 T.length c.2.1 c.2.2).contains (c'.2.1, c'.2.2)

theorem mem_corners {T : List Tri} {v x y : PId} : (v, x, y) ∈ corners T ↔ HasTri T v x y := by
  unfold corners HasTri
  rw [List.mem_flatMap]
  constructor
  · rintro ⟨⟨a, b, c⟩, ht, h⟩
    simp only [List.mem_cons, Prod.mk.injEq, List.not_mem_nil, or_false] at h
    rcases h with ⟨rfl, rfl, rfl⟩ | ⟨rfl, rfl, rfl⟩ | ⟨rfl, rfl, rfl⟩
    · exact Or.inl ht
    · exact Or.inr (Or.inr ht)
    · exact Or.inr (Or.inl ht)
  · rintro (h | h | h)
    · exact ⟨_, h, by simp⟩
    · exact ⟨_, h, by simp⟩
    · exact ⟨_, h, by simp⟩

theorem third_isSome {T : List Tri} {x y z : PId} (h : HasTri T x y z) : ∃ w, third T x y = some w := by
  rw [← Option.isSome_iff_exists]
  unfold third
  rw [List.isSome_findSome?, List.any_eq_true]
  rcases h with h | h | h
  · exact ⟨_, h, by simp⟩
  · refine ⟨_, h, ?_⟩; simp only; split <;> (try simp); split <;> simp_all
  · refine ⟨_, h, ?_⟩; simp only; split <;> simp

theorem third_some {T : List Tri} {x y z : PId} (h : third T x y = some z) : HasTri T x y z := by
  unfold third at h
  obtain ⟨⟨a, b, c⟩, ht, h'⟩ := List.exists_of_findSome?_eq_some h
  clear h
  rename' h' => h
  simp only [Prod.mk.injEq] at h
  unfold HasTri
  split at h
  · rename_i hc; obtain ⟨rfl, rfl⟩ := hc; cases h; exact Or.inl ht
  · split at h
    · rename_i hc; obtain ⟨rfl, rfl⟩ := hc; cases h; exact Or.inr (Or.inr ht)
    · split at h
      · rename_i hc; obtain ⟨rfl, rfl⟩ := hc; cases h; exact Or.inr (Or.inl ht)
      · cases h

theorem checkGood_sound {T : List Tri} (h : checkGood T = true) : GoodTris T := by
  unfold checkGood at h
  simp only [Bool.and_eq_true, List.all_eq_true, decide_eq_true_eq, Bool.or_eq_true, Bool.not_eq_true',
    List.contains_iff_mem] at h
  obtain ⟨⟨⟨h1, h2⟩, h3⟩, h4⟩ := h
  have hn : ∀ t ∈ T, t.Nondeg := fun t ht => by
    have := h1 t ht
    exact ⟨this.1.1, this.1.2, this.2⟩
  refine ⟨hn, h2, ?_, ?_⟩
  · intro t ht t' ht' hv
    rcases h3 t ht t' ht' with h | h
    · exact h
    · rw [Bool.eq_false_iff] at h
      exact absurd (List.all_eq_true.2 fun v hvt => by simpa [List.contains_iff_mem] using hv v hvt) h
  · intro v A hA hne hcl x y hxy
    obtain ⟨x0, y0, h0⟩ := hne
    have hun : ∀ {a b c c' : PId}, HasTri T a b c → HasTri T a b c' → c = c' :=
      fun ha hb => hasTri_unique hn h2 ha hb
    have hstep : ∀ {a b : PId}, A a b → ∃ w, third T v b = some w ∧ A b w := by
      intro a b hab
      obtain ⟨w, hw⟩ := (hcl a b hab).2
      obtain ⟨w', hw'⟩ := third_isSome (hA b w hw)
      have := hun (hA b w hw) (third_some hw')
      subst this
      exact ⟨w, hw', hw⟩
    have hturn : ∀ n a b, A a b → ∀ p ∈ turn T v n a b, A p.1 p.2 := by
      intro n
      induction n with
      | zero => intro a b hab p hp; simp [turn] at hp; subst hp; exact hab
      | succ n ih =>
        intro a b hab p hp
        obtain ⟨w, hw, hw'⟩ := hstep hab
        simp only [turn, hw, List.mem_cons] at hp
        rcases hp with rfl | hp
        · exact hab
        · exact ih _ _ hw' p hp
    have hdead : ∀ n a b, A a b → deadEnd T v n b = false := by
      intro n
      induction n with
      | zero => intro a b _; rfl
      | succ n ih =>
        intro a b hab
        obtain ⟨w, hw, hw'⟩ := hstep hab
        simp only [deadEnd, hw]
        exact ih _ _ hw'
    rcases h4 (v, x0, y0) (mem_corners.2 (hA _ _ h0)) with h | h
    · rw [hdead _ _ _ h0] at h; cases h
    · rcases h (v, x, y) (mem_corners.2 hxy) with h | h
      · exact absurd rfl h
      · exact hturn _ _ _ h0 _ h

/-- the mesh with points `pts`, triangles `T` and cell data `data` -/
def meshOf (pts : List P) (T : List Tri) (data : Option (AMap D)) (ring : Ring) : Mesh P D where
  points := pts.mapIdx (fun i p => (i, p))
  cells := T.mapIdx (fun i t => (i, some t.cell))
  cellData := data
  hasEdgeCells := true
  edges := edgeList T
  left := fun e => T.findIdx? (fun t => t.darts.contains e)
  ring := ring

theorem mapIdx_eq_dense {α : Type} (l : List α) : l.mapIdx (fun i p => (i, p)) = AMap.dense l := by
  have : ∀ (k : Nat) (l : List α), l.mapIdx (fun i p => (k + i, p)) = AMap.denseFrom k l := by
    intro k l
    induction l generalizing k with
    | nil => rfl
    | cons x l ih =>
      rw [List.mapIdx_cons, AMap.denseFrom, ← ih (k + 1)]
      simp only [Nat.add_zero, List.cons.injEq, true_and]
      congr 1
      funext i p
      rw [Nat.add_assoc, Nat.add_comm 1]
  have := this 0 l
  simp only [Nat.zero_add] at this
  exact this

theorem meshOf_built (pts : List P) (T : List Tri) (h : (dartsOf T).Nodup) (data : Option (AMap D)) (ring : Ring) :
    Built (meshOf pts T data ring) T := by
  refine ⟨?_, ?_, rfl⟩
  · show T.mapIdx _ = _
    rw [← mapIdx_eq_dense]
    apply List.ext_getElem?
    intro i
    simp only [List.getElem?_mapIdx, List.getElem?_map, Option.map_map]
    rfl
  · intro e k
    show T.findIdx? _ = some k ↔ _
    rw [List.findIdx?_eq_some_iff_getElem]
    constructor
    · rintro ⟨h1, h2, _⟩
      exact ⟨T[k], by simp, by simpa [List.contains_iff_mem] using h2⟩
    · rintro ⟨t, ht, he⟩
      obtain ⟨h1, h2⟩ := List.getElem?_eq_some_iff.1 ht
      refine ⟨h1, by rw [h2]; simpa [List.contains_iff_mem] using he, ?_⟩
      intro j hj hc
      have := dart_position h (i := j) (j := k) (t := T[j]) (t' := t) (by simp) ht
        (by simpa [List.contains_iff_mem] using hc) he
      omega

theorem meshOf_valid {pts : List P} {T : List Tri} (h : checkGood T = true)
    (hv : (T.all fun t => t.verts.all fun v => decide (v < pts.length)) = true) (data : Option (AMap D)) (ring : Ring) :
    (meshOf pts T data ring).Valid := by
  have hg := checkGood_sound h
  refine (meshOf_built pts T hg.oriented data ring).valid hg pts ?_ ?_ rfl
  · exact mapIdx_eq_dense pts
  · intro t ht v hvt
    have := List.all_eq_true.1 hv t ht
    have := List.all_eq_true.1 this v hvt
    simpa using this

theorem meshOf_tris {pts : List P} {T : List Tri} (h : (dartsOf T).Nodup) (data : Option (AMap D)) (ring : Ring) :
    (meshOf pts T data ring).tris = T := (meshOf_built pts T h data ring).tris

/-- rings of a mesh given by its triangles: turn inside triangles; from the last edge of a fan go to the first edge of
the next fan -/
def ringOf (T : List Tri) : Ring :=
  let nbrs := fun v => ((edgeList T).filterMap fun e => if e.1 = v then some e.2 else if e.2 = v then some e.1 else none)
  let pred := fun v y => (nbrs v).find? fun x => third T v x = some y
  let firsts := fun v => (nbrs v).filter fun y => (pred v y).isNone
  let rec back (v : PId) : Nat → PId → PId
    | 0, y => y
    | n + 1, y => match pred v y with
      | some x => back v n x
      | none => y
  let rec fwd (v : PId) : Nat → PId → PId
    | 0, y => y
    | n + 1, y => match third T v y with
      | some x => fwd v n x
      | none => y
  let cyc := fun (l : List PId) (y : PId) => ((l.dropWhile (· != y)).drop 1 ++ l).head?
  { onext := fun e =>
      if (nbrs e.1).contains e.2 then
        match third T e.1 e.2 with
        | some z => some (e.1, z)
        | none => (cyc (firsts e.1) (back e.1 T.length e.2)).map fun y => (e.1, y)
      else none
    oprev := fun e =>
      if (nbrs e.1).contains e.2 then
        match pred e.1 e.2 with
        | some z => some (e.1, z)
        | none => (cyc (firsts e.1).reverse e.2).map fun y => (e.1, fwd e.1 T.length y)
      else none
    pointEdge := fun v => (nbrs v).head?.map fun w => (v, w) }

/-- both directions of all edges -/
def allEdges (T : List Tri) : List Edge := edgeList T ++ (edgeList T).map Edge.sym

/-- executable version of `RingOK` -/
def checkRing (T : List Tri) (R : Ring) : Bool :=
  let es := allEdges T
  let rec reach (n : Nat) (e : Edge) (goal : Edge) : Bool :=
    match n with
    | 0 => decide (e = goal)
    | n + 1 => decide (e = goal) || match R.onext e with
      | some e' => reach n e' goal
      | none => false
  es.all (fun e => match R.onext e with
    | some e' => es.contains e' && e'.1 == e.1 && R.oprev e' == some e
    | none => false) &&
  es.all (fun e => match R.oprev e with
    | some e' => es.contains e' && R.onext e' == some e
    | none => false) &&
  es.all (fun e => es.all fun e' => decide (e.1 ≠ e'.1) || reach es.length e e') &&
  (corners T).all (fun c => R.onext (c.1, c.2.1) == some (c.1, c.2.2)) &&
  es.all (fun e => match R.pointEdge e.1 with
    | some e' => es.contains e' && e'.1 == e.1
    | none => false)

theorem reach_sound {m : Mesh P D} {R : Ring} (hm : m.ring = R) (n : Nat) (e goal : Edge) (h : checkRing.reach R n e goal = true) :
    ∃ k, m.onextIter k e = some goal := by
  have iter_succ : ∀ (k : Nat) (e e' : Edge), m.ring.onext e = some e' → m.onextIter (k + 1) e = m.onextIter k e' := by
    intro k
    induction k with
    | zero => intro e e' h; simp [Mesh.onextIter, h]
    | succ k ih => intro e e' h; rw [Mesh.onextIter, ih e e' h]; rfl
  induction n generalizing e with
  | zero =>
    unfold checkRing.reach at h
    exact ⟨0, by rw [decide_eq_true_eq] at h; rw [h]; rfl⟩
  | succ n ih =>
    unfold checkRing.reach at h
    rw [Bool.or_eq_true] at h
    rcases h with h | h
    · exact ⟨0, by rw [decide_eq_true_eq] at h; rw [h]; rfl⟩
    · rcases hx : R.onext e with _ | e'
      · rw [hx] at h; cases h
      · rw [hx] at h
        obtain ⟨k, hk⟩ := ih e' h
        exact ⟨k + 1, by rw [iter_succ k e e' (by rw [hm]; exact hx)]; exact hk⟩

theorem checkRing_sound {pts : List P} {T : List Tri} (hd : (dartsOf T).Nodup) {R : Ring} (h : checkRing T R = true)
    (hp : (T.all fun t => t.verts.all fun v => (R.pointEdge v).all fun e => (allEdges T).contains e && e.1 == v) = true)
    (hp' : ∀ v, (∀ t ∈ T, v ∉ t.verts) → R.pointEdge v = none)
    (data : Option (AMap D)) :
    (meshOf pts T data R).RingOK := by
  have hes : ∀ e, (meshOf pts T data R).IsEdge e ↔ e ∈ allEdges T := by
    intro e
    unfold Mesh.IsEdge allEdges
    rw [List.mem_append, List.mem_map]
    constructor
    · rintro (h | h)
      · exact Or.inl h
      · exact Or.inr ⟨_, h, by simp⟩
    · rintro (h | ⟨x, h, rfl⟩)
      · exact Or.inl h
      · exact Or.inr (by rw [Edge.sym_sym]; exact h)
  unfold checkRing at h
  simp only [Bool.and_eq_true, List.all_eq_true, decide_eq_true_eq, Bool.or_eq_true] at h
  obtain ⟨⟨⟨⟨h1, h2⟩, h3⟩, h4⟩, h5⟩ := h
  refine ⟨?_, ?_, ?_, ?_, ?_, ?_⟩
  · intro e he
    have := h1 e ((hes e).1 he)
    rcases hx : R.onext e with _ | e'
    · rw [hx] at this; cases this
    · rw [hx] at this
      simp only [Bool.and_eq_true, List.contains_iff_mem, beq_iff_eq] at this
      exact ⟨e', hx, (hes e').2 this.1.1, this.1.2⟩
  · intro e e' he he'
    constructor
    · intro hx
      have := h2 e' ((hes e').1 he')
      change R.oprev e' = some e at hx
      rw [hx] at this
      simp only [Bool.and_eq_true, beq_iff_eq] at this
      exact this.2
    · intro hx
      have := h1 e ((hes e).1 he)
      change R.onext e = some e' at hx
      rw [hx] at this
      simp only [Bool.and_eq_true, beq_iff_eq] at this
      exact this.2
  · intro e e' he he' heq
    rcases h3 e ((hes e).1 he) e' ((hes e').1 he') with h | h
    · exact absurd heq h
    · exact reach_sound rfl _ _ _ h
  · intro x y z hxyz
    rw [meshOf_tris hd] at hxyz
    have := h4 (x, y, z) (mem_corners.2 hxyz)
    exact beq_iff_eq.1 this
  · intro v e he
    change R.pointEdge v = some e at he
    by_cases hv : ∃ t ∈ T, v ∈ t.verts
    · obtain ⟨t, ht, hvt⟩ := hv
      have := List.all_eq_true.1 (List.all_eq_true.1 hp t ht) v hvt
      rw [he] at this
      simp only [Option.all_some, Bool.and_eq_true, List.contains_iff_mem, beq_iff_eq] at this
      exact ⟨(hes e).2 this.1, this.2⟩
    · rw [hp' v (fun t ht hvt => hv ⟨t, ht, hvt⟩)] at he
      cases he
  · intro e he
    have := h5 e ((hes e).1 he)
    show (R.pointEdge e.1).isSome = true
    rcases hx : R.pointEdge e.1 with _ | e'
    · rw [hx] at this; cases this
    · rfl

/-- the mesh with its rings, from coordinates and triangles -/
def mk (pts : List P) (T : List Tri) (data : Option (AMap D)) : Mesh P D := meshOf pts T data (ringOf T)

theorem pointEdge_none (T : List Tri) (v : PId) (h : ∀ t ∈ T, v ∉ t.verts) : (ringOf T).pointEdge v = none := by
  unfold ringOf
  simp only [Option.map_eq_none_iff, List.head?_eq_none_iff, List.filterMap_eq_nil_iff]
  intro e he
  have := (mem_edgeList T e).1 (Or.inl he)
  have hv : e.1 ≠ v ∧ e.2 ≠ v := by
    rcases this with h1 | h1
    · obtain ⟨t, ht, hd⟩ := mem_dartsOf.1 h1
      exact ⟨fun hc => h t ht (hc ▸ Tri.dart_fst hd), fun hc => h t ht (hc ▸ Tri.dart_snd hd)⟩
    · obtain ⟨t, ht, hd⟩ := mem_dartsOf.1 h1
      exact ⟨fun hc => h t ht (hc ▸ Tri.dart_snd hd), fun hc => h t ht (hc ▸ Tri.dart_fst hd)⟩
  simp [hv.1, hv.2]

/-- one executable test for everything a filter needs of its input -/
def checkAll (n : Nat) (T : List Tri) : Bool :=
  checkGood T && (T.all fun t => t.verts.all fun v => decide (v < n)) && checkRing T (ringOf T) &&
  (T.all fun t => t.verts.all fun v => ((ringOf T).pointEdge v).all fun e => (allEdges T).contains e && e.1 == v) &&
  (List.range n).all fun v => T.any fun t => t.verts.contains v

theorem mk_ok {pts : List P} {T : List Tri} (data : Option (AMap D)) (h : checkAll pts.length T = true) :
    (mk pts T data).Valid ∧ (mk pts T data).RingOK ∧ (mk pts T data).NoIsolated ∧ (mk pts T data).tris = T := by
  unfold checkAll at h
  simp only [Bool.and_eq_true] at h
  obtain ⟨⟨⟨⟨h1, h2⟩, h3⟩, h4⟩, h5⟩ := h
  have hg := checkGood_sound h1
  refine ⟨meshOf_valid h1 h2 _ _, checkRing_sound hg.oriented h3 h4 (pointEdge_none T) _, ?_, meshOf_tris hg.oriented _ _⟩
  intro v hv
  have hlen : (mk pts T data).points.length = pts.length := by simp [mk, meshOf]
  rw [hlen] at hv
  have := List.all_eq_true.1 h5 v (List.mem_range.2 hv)
  rw [List.any_eq_true] at this
  obtain ⟨t, ht, hvt⟩ := this
  rw [show (mk pts T data).tris = T from meshOf_tris hg.oriented _ _]
  exact ⟨t, ht, by simpa [List.contains_iff_mem] using hvt⟩

/-- `checkAll` but for the isolated points -/
def checkIso (n : Nat) (T : List Tri) : Bool :=
  checkGood T && (T.all fun t => t.verts.all fun v => decide (v < n)) && checkRing T (ringOf T) &&
  (T.all fun t => t.verts.all fun v => ((ringOf T).pointEdge v).all fun e => (allEdges T).contains e && e.1 == v)

theorem mk_ok_iso {pts : List P} {T : List Tri} (data : Option (AMap D)) (h : checkIso pts.length T = true) :
    (mk pts T data).Valid ∧ (mk pts T data).RingOK ∧ (mk pts T data).tris = T := by
  unfold checkIso at h
  simp only [Bool.and_eq_true] at h
  obtain ⟨⟨⟨h1, h2⟩, h3⟩, h4⟩ := h
  have hg := checkGood_sound h1
  exact ⟨meshOf_valid h1 h2 _ _, checkRing_sound hg.oriented h3 h4 (pointEdge_none T) _, meshOf_tris hg.oriented _ _⟩

/-- a tetrahedron -/
def tetra : List Tri := [(0, 1, 2), (0, 2, 3), (0, 3, 1), (1, 3, 2)]

/-- four triangles around an edge, with boundary -/
def patch : List Tri := [(0, 1, 2), (1, 0, 3), (2, 1, 4), (0, 2, 5)]

/-- two triangles that share one point only -/
def bowtie : List Tri := [(0, 1, 2), (0, 3, 4)]

example : checkAll 4 tetra = true := by decide
example : checkAll 6 patch = true := by decide
example : checkAll 5 bowtie = true := by decide

end Verif
