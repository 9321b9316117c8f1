import Verif.Proofs.Surface
import Verif.Proofs.AMap
import Verif.Spec.FaceSplit
/-
Adding the triangles of a good list one by one to a mesh always succeeds.
-/
namespace Verif
variable {P D : Type}

theorem mem_foldl_addEdgeTo (ds E : List Edge) (e : Edge) :
    (e ∈ ds.foldl addEdgeTo E ∨ e.sym ∈ ds.foldl addEdgeTo E) ↔
      (e ∈ E ∨ e.sym ∈ E) ∨ (e ∈ ds ∨ e.sym ∈ ds) := by
  induction ds generalizing E with
  | nil => simp
  | cons d ds ih =>
    rw [List.foldl_cons, ih]
    have : (e ∈ addEdgeTo E d ∨ e.sym ∈ addEdgeTo E d) ↔ (e ∈ E ∨ e.sym ∈ E) ∨ (e = d ∨ e.sym = d) := by
      unfold addEdgeTo
      split
      · rename_i h
        simp only [List.contains_eq_mem, Bool.or_eq_true, decide_eq_true_eq] at h
        constructor
        · intro h'; exact Or.inl h'
        · rintro (h' | rfl | rfl)
          · exact h'
          · exact h
          · rw [Edge.sym_sym] at h; tauto
      · simp only [List.mem_append, List.mem_singleton]; tauto
    rw [this]
    simp only [List.mem_cons]
    tauto

theorem mem_edgeList (T : List Tri) (e : Edge) :
    (e ∈ edgeList T ∨ e.sym ∈ edgeList T) ↔ (e ∈ dartsOf T ∨ e.sym ∈ dartsOf T) := by
  unfold edgeList
  rw [mem_foldl_addEdgeTo]
  simp

theorem pairwise_foldl_addEdgeTo (ds E : List Edge) (h : E.Pairwise fun e e' => e ≠ e' ∧ e ≠ e'.sym) :
    (ds.foldl addEdgeTo E).Pairwise fun e e' => e ≠ e' ∧ e ≠ e'.sym := by
  induction ds generalizing E with
  | nil => simpa
  | cons d ds ih =>
    rw [List.foldl_cons]
    apply ih
    unfold addEdgeTo
    split
    · exact h
    · rename_i hh
      simp only [List.contains_eq_mem, Bool.or_eq_true, decide_eq_true_eq, not_or] at hh
      rw [List.pairwise_append]
      refine ⟨h, by simp, ?_⟩
      intro a ha b hb
      simp only [List.mem_singleton] at hb
      subst hb
      exact ⟨fun hh2 => hh.1 (hh2 ▸ ha), fun hh2 => hh.2 (hh2 ▸ ha)⟩

theorem pairwise_edgeList (T : List Tri) : (edgeList T).Pairwise fun e e' => e ≠ e' ∧ e ≠ e'.sym :=
  pairwise_foldl_addEdgeTo _ _ List.Pairwise.nil

/-- The mesh consists of the triangles `T`, numbered `0, 1, …`. -/
structure Built (m : Mesh P D) (T : List Tri) : Prop where
  cells : m.cells = AMap.dense (T.map fun t => some t.cell)
  left : ∀ (e : Edge) (k : Nat), m.left e = some k ↔ ∃ t, T[k]? = some t ∧ e ∈ t.darts
  edges : m.edges = edgeList T

theorem hasEdge_iff (m : Mesh P D) (e : Edge) : m.hasEdge e = true ↔ e ∈ m.edges ∨ e.sym ∈ m.edges := by
  simp [Mesh.hasEdge]

theorem Built.hasEdge {m : Mesh P D} {T : List Tri} (h : Built m T) (e : Edge) :
    m.hasEdge e = true ↔ e ∈ dartsOf T ∨ e.sym ∈ dartsOf T := by
  rw [hasEdge_iff, h.edges, mem_edgeList]

theorem Built.leftSet {m : Mesh P D} {T : List Tri} (h : Built m T) (e : Edge) :
    m.leftSet e = true ↔ e ∈ dartsOf T := by
  unfold Mesh.leftSet
  rw [Option.isSome_iff_exists, mem_dartsOf]
  constructor
  · rintro ⟨k, hk⟩
    obtain ⟨t, ht, he⟩ := (h.left e k).1 hk
    exact ⟨t, List.mem_of_getElem? ht, he⟩
  · rintro ⟨t, ht, he⟩
    obtain ⟨k, hk⟩ := List.getElem?_of_mem ht
    exact ⟨k, (h.left e k).2 ⟨t, hk, he⟩⟩

theorem getElem?_append_cons_length {α : Type} (L : List α) (x : α) (R : List α) :
    (L ++ x :: R)[L.length]? = some x := by simp

/-- no point of the next triangle is surrounded by faces already -/
theorem closedAt_eq_false {m m1 : Mesh P D} {L R : List Tri} {t : Tri} (hb : Built m L)
    (hg : GoodTris (L ++ t :: R)) (hl : m1.left = m.left) (hE : ∀ e ∈ m.edges, e ∈ m1.edges)
    {v : PId} (hv : v ∈ t.verts) : m1.closedAt v = false := by
  rw [Bool.eq_false_iff]
  intro hc
  unfold Mesh.closedAt at hc
  simp only [Bool.and_eq_true, Bool.not_eq_true', List.all_eq_true, List.isEmpty_eq_false_iff_exists_mem,
    List.mem_filter, Bool.or_eq_true, beq_iff_eq] at hc
  obtain ⟨⟨e0, he0, hat⟩, hall⟩ := hc
  have hint : ∀ e ∈ m1.edges, (e.1 = v ∨ e.2 = v) → e ∈ dartsOf L ∧ e.sym ∈ dartsOf L := by
    intro e he hev
    have := hall e ⟨he, hev⟩
    unfold Mesh.isInternal Mesh.leftSet Mesh.rightSet at this
    rw [hl] at this
    have h1 := hb.leftSet e
    have h2 := hb.leftSet e.sym
    unfold Mesh.leftSet at h1 h2
    rw [Bool.and_eq_true] at this
    exact ⟨h1.1 this.1, h2.1 this.2⟩
  have hint2 : ∀ e : Edge, (e.1 = v ∨ e.2 = v) → (e ∈ dartsOf L ∨ e.sym ∈ dartsOf L) →
      e ∈ dartsOf L ∧ e.sym ∈ dartsOf L := by
    intro e hev hd
    have h3 := (hb.hasEdge e).2 hd
    rw [hasEdge_iff] at h3
    rcases h3 with h3 | h3
    · exact hint e (hE _ h3) hev
    · have := hint e.sym (hE _ h3) (by simpa [or_comm] using hev)
      simpa [and_comm] using this
  obtain ⟨y, z, hi⟩ := Tri.mem_verts.1 hv
  have hall2 := hg.fans v (fun x y => HasTri L v x y) (fun x y h => h.mono (by intro t ht; simp [ht]))
    (by
      have := hint e0 he0 hat
      obtain ⟨x, w⟩ := e0
      rcases hat with rfl | rfl
      · obtain ⟨z, hz⟩ := dartsOf_iff_hasTri.1 this.1
        exact ⟨_, _, hz⟩
      · obtain ⟨z, hz⟩ := dartsOf_iff_hasTri.1 this.2
        exact ⟨_, _, hz⟩)
    (by
      intro x y h
      constructor
      · have := (hint2 (v, x) (Or.inl rfl) (Or.inl h.dart)).2
        obtain ⟨w, hw⟩ := dartsOf_iff_hasTri.1 this
        exact ⟨w, hw.rot⟩
      · have := (hint2 (y, v) (Or.inr rfl) (Or.inl h.rot.rot.dart)).2
        obtain ⟨w, hw⟩ := dartsOf_iff_hasTri.1 this
        exact ⟨w, hw⟩)
    y z (hasTri_iff.2 ⟨t, by simp, hi⟩)
  obtain ⟨t', ht', hi'⟩ := hasTri_iff.1 hall2
  obtain ⟨i, hi2⟩ := List.getElem?_of_mem ht'
  have hlt : i < L.length := by
    by_contra hcon
    rw [List.getElem?_eq_none (by omega)] at hi2
    simp at hi2
  have := dart_position hg.oriented (i := i) (j := L.length) (t := t') (t' := t)
    (by rw [List.getElem?_append_left hlt]; exact hi2) (getElem?_append_cons_length L t R) hi'.dart hi.dart
  omega

theorem ensureEdge_ok (m : Mesh P D) (e : Edge) (h1 : m.closedAt e.1 = false) (h2 : m.closedAt e.2 = false) :
    m.ensureEdge e = ({ m with edges := addEdgeTo m.edges e }, true) := by
  unfold Mesh.ensureEdge addEdgeTo Mesh.hasEdge
  split
  · rename_i h; simp [h]
  · rename_i h; simp [h1, h2, h]

theorem subset_addEdgeTo (E : List Edge) (e x : Edge) (h : x ∈ E) : x ∈ addEdgeTo E e := by
  unfold addEdgeTo; split <;> simp [h]

/-- One `AddFaceTriangle` of a good list succeeds. -/
theorem addFaceTriangle_ok {m : Mesh P D} {L R : List Tri} {a b c : PId} (hb : Built m L)
    (hg : GoodTris (L ++ (a, b, c) :: R)) (hp : ∀ v ∈ Tri.verts (a, b, c), (m.points.find? v).isSome) :
    m.addFaceTriangle a b c =
      (Mesh.pushFace { m with edges := edgeList (L ++ [(a, b, c)]) } a b c, some (a, b)) := by
  have hmem : ((a, b, c) : Tri) ∈ L ++ (a, b, c) :: R := by simp
  have hnd := hg.nondeg _ hmem
  have hleft : ∀ e ∈ Tri.darts (a, b, c), m.leftSet e = false := by
    intro e he
    rw [Bool.eq_false_iff]
    intro hc
    rw [hb.leftSet, mem_dartsOf] at hc
    obtain ⟨t', ht', hi'⟩ := hc
    obtain ⟨i, hi2⟩ := List.getElem?_of_mem ht'
    have hlt : i < L.length := by
      by_contra hcon
      rw [List.getElem?_eq_none (by omega)] at hi2
      simp at hi2
    have := dart_position hg.oriented (i := i) (j := L.length) (t := t') (t' := (a, b, c))
      (by rw [List.getElem?_append_left hlt]; exact hi2) (getElem?_append_cons_length L _ R) hi' he
    omega
  have hcl : ∀ (E : List Edge), (∀ e ∈ m.edges, e ∈ E) → ∀ v ∈ Tri.verts (a, b, c),
      Mesh.closedAt { m with edges := E } v = false := by
    intro E hE v hv
    exact closedAt_eq_false (m1 := { m with edges := E }) hb hg rfl hE hv
  have va : a ∈ Tri.verts (a, b, c) := by simp [Tri.verts]
  have vb : b ∈ Tri.verts (a, b, c) := by simp [Tri.verts]
  have vc : c ∈ Tri.verts (a, b, c) := by simp [Tri.verts]
  have s0 : ∀ e ∈ m.edges, e ∈ m.edges := fun _ h => h
  have s1 : ∀ e ∈ m.edges, e ∈ addEdgeTo m.edges (a, b) := fun _ h => subset_addEdgeTo _ _ _ h
  have s2 : ∀ e ∈ m.edges, e ∈ addEdgeTo (addEdgeTo m.edges (a, b)) (b, c) :=
    fun _ h => subset_addEdgeTo _ _ _ (s1 _ h)
  have e1 : m.ensureEdge (a, b) = ({ m with edges := addEdgeTo m.edges (a, b) }, true) :=
    ensureEdge_ok m (a, b) (hcl _ s0 a va) (hcl _ s0 b vb)
  have e2 := ensureEdge_ok { m with edges := addEdgeTo m.edges (a, b) } (b, c) (hcl _ s1 b vb) (hcl _ s1 c vc)
  have e3 := ensureEdge_ok { m with edges := addEdgeTo (addEdgeTo m.edges (a, b)) (b, c) } (c, a)
    (hcl _ s2 c vc) (hcl _ s2 a va)
  have hEdges : edgeList (L ++ [(a, b, c)]) = addEdgeTo (addEdgeTo (addEdgeTo m.edges (a, b)) (b, c)) (c, a) := by
    unfold edgeList
    rw [dartsOf_append, List.foldl_append, ← edgeList, ← hb.edges]
    rfl
  have l1 := hleft (a, b) (by simp [Tri.darts])
  have l2 := hleft (b, c) (by simp [Tri.darts])
  have l3 := hleft (c, a) (by simp [Tri.darts])
  unfold Mesh.addFaceTriangle
  rw [if_neg (by intro h; rcases h with h | h | h; exacts [hnd.1 h, hnd.2.1 h, hnd.2.2 h])]
  rw [if_neg (by simp [hp a va, hp b vb, hp c vc])]
  rw [if_neg (by simp [l1, l2, l3])]
  rw [e1]; dsimp only
  rw [e2]; dsimp only
  rw [e3]; dsimp only
  rw [hEdges]

theorem Built.push {m : Mesh P D} {L R : List Tri} {a b c : PId} (hb : Built m L)
    (hg : GoodTris (L ++ (a, b, c) :: R)) :
    Built (Mesh.pushFace { m with edges := edgeList (L ++ [(a, b, c)]) } a b c) (L ++ [(a, b, c)]) := by
  have hk : AMap.nextKey m.cells = L.length := by rw [hb.cells, AMap.nextKey_dense]; simp
  refine ⟨?_, ?_, rfl⟩
  · show AMap.set m.cells (AMap.nextKey m.cells) _ = _
    rw [hk, hb.cells]
    have := AMap.set_dense_length (L.map fun t => some t.cell) (some (Tri.cell (a, b, c)))
    simp only [List.length_map] at this
    rw [List.map_append]
    exact this
  · intro e k
    show (if e = (a, b) ∨ e = (b, c) ∨ e = (c, a) then some (AMap.nextKey m.cells) else m.left e) = some k ↔ _
    have hd : (e = (a, b) ∨ e = (b, c) ∨ e = (c, a)) ↔ e ∈ Tri.darts (a, b, c) := by simp [Tri.darts]
    rw [hk]
    constructor
    · split
      · rename_i h
        intro hk2
        have hk2 := Option.some.inj hk2
        subst hk2
        exact ⟨(a, b, c), by simp, hd.1 h⟩
      · intro h
        obtain ⟨t, ht, he⟩ := (hb.left e k).1 h
        have hlt : k < L.length := (List.getElem?_eq_some_iff.1 ht).1
        exact ⟨t, by rw [List.getElem?_append_left hlt]; exact ht, he⟩
    · rintro ⟨t, ht, he⟩
      by_cases hlt : k < L.length
      · rw [List.getElem?_append_left hlt] at ht
        rw [if_neg]
        · exact (hb.left e k).2 ⟨t, ht, he⟩
        · intro h
          have := dart_position hg.oriented (i := k) (j := L.length) (t := t) (t' := (a, b, c))
            (by rw [List.getElem?_append_left hlt]; exact ht) (getElem?_append_cons_length L _ R) he (hd.1 h)
          omega
      · have hkl : k < (L ++ [(a, b, c)]).length := (List.getElem?_eq_some_iff.1 ht).1
        simp at hkl
        have : k = L.length := by omega
        subst this
        simp at ht
        subst ht
        rw [if_pos (hd.2 he)]

theorem built_empty : Built (Mesh.empty : Mesh P D) [] :=
  ⟨rfl, by simp [Mesh.empty], rfl⟩

theorem Built.congr {m m' : Mesh P D} {T : List Tri} (h : Built m T) (h1 : m'.cells = m.cells)
    (h2 : m'.left = m.left) (h3 : m'.edges = m.edges) : Built m' T :=
  ⟨h1.trans h.cells, by rw [h2]; exact h.left, h3.trans h.edges⟩

/-- a built mesh of a good list is a valid mesh -/
theorem Built.tris {m : Mesh P D} {T : List Tri} (h : Built m T) : m.tris = T := by
  unfold Mesh.tris
  rw [h.cells]
  have : ∀ (i : Nat) (L : List Tri),
      (AMap.denseFrom i (L.map fun t => some t.cell)).filterMap (fun c => Cell.tri? c.2) = L := by
    intro i L
    induction L generalizing i with
    | nil => rfl
    | cons t L ih =>
      simp only [List.map_cons, AMap.denseFrom]
      rw [List.filterMap_cons_some (f := fun c : Nat × Option Cell => Cell.tri? c.2) (a := (i, some t.cell)) (b := t) rfl,
        ih]
  exact this 0 T

theorem Built.valid {m : Mesh P D} {T : List Tri} (h : Built m T) (hg : GoodTris T) (l : List P)
    (hp : m.points = AMap.dense l) (hv : ∀ t ∈ T, ∀ v ∈ t.verts, v < l.length) (hE : m.hasEdgeCells = true) :
    m.Valid := by
  refine ⟨?_, ?_, ?_, ?_, ?_, ?_, ?_, hE⟩
  · rw [hp, AMap.map_fst_dense]; simp
  · rw [h.cells, AMap.map_fst_dense]
    exact List.pairwise_lt_range
  · intro c hc
    obtain ⟨k, c⟩ := c
    rw [h.cells, AMap.mem_dense] at hc
    simp only [List.getElem?_map, Option.map_eq_some_iff] at hc
    obtain ⟨t, ht, rfl⟩ := hc
    refine ⟨t, rfl, ?_⟩
    rw [hp, AMap.length_dense]
    exact hv t (List.mem_of_getElem? ht)
  · rw [h.tris]; exact hg
  · intro e k
    rw [h.left]
    constructor
    · rintro ⟨t, ht, he⟩
      exact ⟨t, by rw [h.cells, AMap.mem_dense]; simp [ht], he⟩
    · rintro ⟨t, ht, he⟩
      rw [h.cells, AMap.mem_dense] at ht
      simp only [List.getElem?_map, Option.map_eq_some_iff, Option.some.injEq] at ht
      obtain ⟨t', ht', hc⟩ := ht
      refine ⟨t, ?_, he⟩
      rw [ht']
      simp only [Tri.cell, Cell.mk.injEq, List.cons.injEq, true_and, and_true] at hc
      obtain ⟨h1, h2, h3⟩ := hc
      exact congrArg some (Prod.ext h1 (Prod.ext h2 h3))
  · intro e; rw [h.tris, ← mem_edgeList, h.edges]
  · rw [h.edges]; exact pairwise_edgeList T

end Verif
