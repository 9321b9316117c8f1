import Verif.Spec.Undo
import Verif.Proofs.Limit
import Verif.Proofs.Affine
import Verif.Properties.Sqrt3
import Verif.Properties.FaceSplit
/-
A uniform level can be undone.
-/
namespace Verif
set_option linter.unusedSectionVars false

theorem children_inj {μ μ' : Edge → Option PId} : ∀ {T T' : List Tri}, (∀ t ∈ T, ∀ e ∈ t.darts, (μ e).isSome) →
    (∀ t ∈ T', ∀ e ∈ t.darts, (μ' e).isSome) → T'.flatMap (Tri.children μ') = T.flatMap (Tri.children μ) → T' = T := by
  have four : ∀ {μ : Edge → Option PId} {t : Tri}, (∀ e ∈ t.darts, (μ e).isSome) →
      ∃ x y z, t.children μ = [(t.1, x, z), (x, t.2.1, y), (y, t.2.2, z), (x, y, z)] := by
    rintro μ ⟨a, b, c⟩ h
    obtain ⟨x, hx⟩ := Option.isSome_iff_exists.1 (h (a, b) (by simp [Tri.darts]))
    obtain ⟨y, hy⟩ := Option.isSome_iff_exists.1 (h (b, c) (by simp [Tri.darts]))
    obtain ⟨z, hz⟩ := Option.isSome_iff_exists.1 (h (c, a) (by simp [Tri.darts]))
    exact ⟨x, y, z, by simp only [Tri.children, hx, hy, hz]⟩
  intro T
  induction T with
  | nil =>
    intro T' _ h' h
    cases T' with
    | nil => rfl
    | cons t T' =>
      obtain ⟨x, y, z, h1⟩ := four (h' t (by simp))
      rw [List.flatMap_cons, h1] at h
      cases h
  | cons t T ih =>
    intro T' h0 h' h
    obtain ⟨x, y, z, h1⟩ := four (h0 t (by simp))
    cases T' with
    | nil =>
      rw [List.flatMap_cons, h1] at h
      cases h
    | cons t' T' =>
      obtain ⟨x', y', z', h2⟩ := four (h' t' (by simp))
      rw [List.flatMap_cons, List.flatMap_cons, h1, h2] at h
      simp only [List.cons_append, List.nil_append, List.cons.injEq, Prod.mk.injEq] at h
      obtain ⟨⟨e1, -, -⟩, ⟨-, e2, -⟩, ⟨-, e3, -⟩, -, h⟩ := h
      rw [ih (fun t ht => h0 t (by simp [ht])) (fun t ht => h' t (by simp [ht])) h,
        show t' = t from Prod.ext e1 (Prod.ext e2 e3)]

section
variable {K P D : Type} [Field K] [AddCommGroup P] [Module K P] {lib lib' : QELib} {cosn : Nat → K} {m m' out out' : Mesh P D} {f f' g g' : Filt}
  {sch : Scheme}

theorem points_ext (hv : m.Valid) (hv' : m'.Valid) (hl : m'.points.length = m.points.length)
    (h : ∀ v, v < m.points.length → m'.coord v = m.coord v) : m'.points = m.points := by
  rw [hv.points_eq, hv'.points_eq]
  congr 1
  apply List.ext_getElem?
  intro i
  by_cases hi : i < m.points.length
  · have h1 := hv.pos_eq hi
    have h2 := hv'.pos_eq (v := i) (by rw [hl]; exact hi)
    unfold Mesh.pos at h1 h2
    rw [hv.points_eq, AMap.find?_dense] at h1
    rw [hv'.points_eq, AMap.find?_dense] at h2
    rw [h1, h2, h i hi]
  · rw [List.getElem?_eq_none (by rw [List.length_map, hl]; exact Nat.not_lt.1 hi),
      List.getElem?_eq_none (by rw [List.length_map]; exact Nat.not_lt.1 hi)]

/-- the triangles and the number of points -/
theorem face_undo (hs : sch ≠ .sqrt3) (hn : sch.Needs m) (hn' : sch.Needs m') (hf : f.cells = []) (hg : g.cells = [])
    (h : cellUpdate sch lib cosn f m = (.ok out, f')) (h' : cellUpdate sch lib' cosn g m' = (.ok out', g'))
    (hp : out'.points.length = out.points.length) (ht : out'.tris = out.tris) : m'.tris = m.tris ∧ m'.points.length = m.points.length := by
  have R := (cellUpdate_result hs hn (by rw [hf]; exact selOK_nil _) h).1
  have R' := (cellUpdate_result hs hn' (by rw [hg]; exact selOK_nil _) h').1
  have all : ∀ (M : Mesh P D) (s : List CId), s = [] → ∀ t ∈ M.tris, ∀ e ∈ t.darts, (M.edgePoint s e).isSome := by
    intro M s hs t ht e he
    rw [edgePoint_isSome, hs]
    exact Or.inl (mem_dartsOf.2 ⟨t, by simpa [Mesh.selected] using ht, he⟩)
  have h1 : m'.tris = m.tris := by
    refine children_inj (all m _ hf) (all m' _ hg) ?_
    rw [← R.tris, ← R'.tris, ht]
  refine ⟨h1, ?_⟩
  have l1 := R.points
  have l2 := R'.points
  have k1 := congrArg List.length l1
  have k2 := congrArg List.length l2
  rw [AMap.length_dense] at k1 k2
  simp only [List.length_append, List.length_map, List.length_range, Mesh.selected, hf, hg, List.isEmpty_nil, if_true] at k1 k2
  rw [h1] at k2
  omega

theorem edges_alike (hv : m.Valid) (hv' : m'.Valid) (ht : m'.tris = m.tris) : m'.edges.length = m.edges.length :=
  distinct_length_eq hv'.edges_once hv.edges_once fun e => by
    have h1 := hv.edges_iff e
    have h2 := hv'.edges_iff e
    rw [h1, h2, ht]

theorem isEdge_alike (hv : m.Valid) (hv' : m'.Valid) (ht : m'.tris = m.tris) {e : Edge} : m'.IsEdge e ↔ m.IsEdge e := by
  have h1 := hv.edges_iff e
  have h2 := hv'.edges_iff e
  unfold Mesh.IsEdge
  rw [h1, h2, ht]

theorem edge_undo {sch : EdgeScheme} (hn : sch.toScheme.Needs m) (hn' : sch.toScheme.Needs m') (hf : f.edgeSel = []) (hg : g.edgeSel = [])
    (h : edgeUpdate sch lib cosn f m = (.ok out, f')) (h' : edgeUpdate sch lib' cosn g m' = (.ok out', g'))
    (hp : out'.points = out.points) (ht : out'.tris = out.tris) : SameDrawing m m' := by
  have hv := hn.valid
  have hv' := hn'.valid
  have R := edgeUpdate_result hn (f := f) (by rw [hf]; intro e he; cases he) h
  have R' := edgeUpdate_result hn' (f := g) (by rw [hg]; intro e he; cases he) h'
  have all : ∀ (M : Mesh P D) (s : List (Option Edge)), M.Valid → s = [] → ∀ t ∈ M.tris, ∀ e ∈ t.darts, (M.listPoint s e).isSome := by
    intro M s hM hs t ht e he
    have h1 := (hM.edges_iff e).2 (.inl (mem_dartsOf.2 ⟨t, ht, he⟩))
    unfold Mesh.listPoint
    rw [lastLabel_isSome, hs]
    exact h1
  have h1 : m'.tris = m.tris := by
    refine children_inj (all m _ hv hf) (all m' _ hv' hg) ?_
    rw [← R.tris, ← R'.tris, ht]
  have k1 := congrArg List.length R.points
  have k2 := congrArg List.length R'.points
  rw [AMap.length_dense] at k1 k2
  simp only [List.length_append, List.length_map, List.length_range, Mesh.selectedEdges, hf, hg, List.isEmpty_nil, if_true] at k1 k2
  rw [hp, edges_alike hv hv' h1] at k2
  have hl : m'.points.length = m.points.length := by omega
  refine ⟨points_ext hv hv' hl fun v hlt => ?_, h1⟩
  have a1 := C06_original_points_kept_edge hv.points_dense h v _ (hv.pos_eq hlt)
  have a2 := C06_original_points_kept_edge hv'.points_dense h' v _ (hv'.pos_eq (by rw [hl]; exact hlt))
  unfold Mesh.pos at a1 a2
  rw [hp, a1] at a2
  exact (Option.some.inj a2).symm

/-- Linear and Butterfly -/
theorem interp_undo (hs : sch = .linear ∨ sch = .butterfly) (hn : sch.Needs m) (hn' : sch.Needs m') (hf : f.cells = []) (hg : g.cells = [])
    (h : cellUpdate sch lib cosn f m = (.ok out, f')) (h' : cellUpdate sch lib' cosn g m' = (.ok out', g'))
    (hp : out'.points = out.points) (ht : out'.tris = out.tris) : SameDrawing m m' := by
  have hv := hn.valid
  have hv' := hn'.valid
  have h3 : sch ≠ .sqrt3 := by rcases hs with rfl | rfl <;> decide
  have h4 : sch ≠ .loop := by rcases hs with rfl | rfl <;> decide
  obtain ⟨h1, hl⟩ := face_undo h3 hn hn' hf hg h h' (by rw [hp]) ht
  refine ⟨points_ext hv hv' hl fun v hlt => ?_, h1⟩
  have a1 := C06_original_points_kept h4 hv.points_dense h v _ (hv.pos_eq hlt)
  have a2 := C06_original_points_kept h4 hv'.points_dense h' v _ (hv'.pos_eq (by rw [hl]; exact hlt))
  unfold Mesh.pos at a1 a2
  rw [hp, a1] at a2
  exact (Option.some.inj a2).symm

/-- `b` comes after `a` round the new point `v`, new points being passed over -/
def Follows (T : List Tri) (n : Nat) (v a b : PId) : Prop :=
  HasTri T v a b ∨ ∃ w, n ≤ w ∧ HasTri T v a w ∧ HasTri T v w b

theorem hasTri_length {T T' : List Tri} (hT : (dartsOf T).Nodup) (hT' : (dartsOf T').Nodup)
    (h : ∀ a b c, HasTri T' a b c ↔ HasTri T a b c) : T'.length = T.length := by
  have : (dartsOf T').Perm (dartsOf T) := by
    refine (List.perm_ext_iff_of_nodup hT' hT).2 fun e => ?_
    obtain ⟨a, b⟩ := e
    rw [dartsOf_iff_hasTri, dartsOf_iff_hasTri]
    exact exists_congr fun c => h a b c
  have := this.length_eq
  rw [dartsOf_length, dartsOf_length] at this
  omega

theorem follows_iff (hv : m.Valid) (hmax : m.points.length + (m.selected []).length ≤ idMax) (hf : f.cells = [])
    (h : cellUpdate .sqrt3 lib cosn f m = (.ok out, f')) {v a b : PId} (ha : a < m.points.length) (hb : b < m.points.length)
    (hw : m.points.length ≤ v) : Follows out.tris m.points.length v a b ↔ m.centreOf [] (a, b) = some v := by
  have R := sqrt3Update_result hv (f := f) (by rw [hf]; exact selOK_nil _) (by rw [hf]; exact hmax) h
  rw [hf] at R
  have hC := R.centres
  have key : ∀ {x y z}, HasTri out.tris x y z ↔ ∃ e w, m.centreOf [] e = some w ∧ (sq3Piece (m.centreOf []) w e).Is x y z := by
    intro x y z
    rw [hasTri_iff]
    constructor
    · rintro ⟨t, ht, hi⟩
      rcases (mem_sq3 hC).1 ((R.tris hv).mem_iff.1 ht) with ⟨h1, h2⟩ | ⟨e, w, h1, rfl⟩
      · have := (centreOf_isSome hv (sel := []) h1 (e := (t.1, t.2.1)) (by simp [Tri.darts])).2 (by simpa [Mesh.selected] using h1)
        rw [h2] at this; cases this
      · exact ⟨e, w, h1, hi⟩
    · rintro ⟨e, w, h1, hi⟩
      exact ⟨_, (R.tris hv).mem_iff.2 ((mem_sq3 hC).2 (.inr ⟨e, w, h1, rfl⟩)), hi⟩
  have hfr : ∀ {e w}, m.centreOf [] e = some w → m.points.length ≤ w := fun h => (R.fresh _ _ h).1
  have hlt : ∀ {e w}, m.centreOf [] e = some w → e.1 < m.points.length ∧ e.2 < m.points.length := fun h =>
    hv.isEdge_lt (hv.isEdge_of_dart (hC.only _ _ h))
  have big : ∀ {x y : Nat}, x < m.points.length → m.points.length ≤ y → x ≠ y := fun h1 h2 h3 => absurd h1 (Nat.not_lt.2 (h3 ▸ h2))
  have one : ∀ {x y : PId}, x < m.points.length → y < m.points.length → HasTri out.tris v x y → m.centreOf [] (x, y) = some v := by
    intro x y hx hy hh
    obtain ⟨⟨p, q⟩, w, h1, h2⟩ := key.1 hh
    obtain ⟨l1, l2⟩ := hlt h1
    have l3 := hfr h1
    unfold sq3Piece at h2
    rcases h3 : m.centreOf [] (Edge.sym (p, q)) with _ | w'
    · rw [h3] at h2
      unfold Tri.Is at h2
      simp only [Prod.mk.injEq] at h2
      rcases h2 with ⟨e1, e2, e3⟩ | ⟨e1, e2, e3⟩ | ⟨e1, e2, e3⟩
      · exact absurd e1 (big l1 hw)
      · rw [← e1, ← e2, ← e3]; exact h1
      · exact absurd e2 (big l2 hw)
    · rw [h3] at h2
      have l4 := hfr h3
      unfold Tri.Is at h2
      simp only [Prod.mk.injEq] at h2
      rcases h2 with ⟨e1, e2, e3⟩ | ⟨e1, e2, e3⟩ | ⟨e1, e2, e3⟩
      · exact absurd e2.symm (big hx l4)
      · exact absurd e1.symm (big hx l3)
      · exact absurd e1.symm (big hy l3)
  have two : ∀ {x w b : PId}, m.points.length ≤ x → m.points.length ≤ w → b < m.points.length → HasTri out.tris x w b →
      ∃ c, m.centreOf [] (c, b) = some x ∧ m.centreOf [] (b, c) = some w := by
    intro x w0 b hx hw0 hb hh
    obtain ⟨⟨p, q⟩, w, h1, h2⟩ := key.1 hh
    obtain ⟨l1, l2⟩ := hlt h1
    have l3 := hfr h1
    unfold sq3Piece at h2
    rcases h3 : m.centreOf [] (Edge.sym (p, q)) with _ | w'
    · rw [h3] at h2
      unfold Tri.Is at h2
      simp only [Prod.mk.injEq] at h2
      rcases h2 with ⟨e1, e2, e3⟩ | ⟨e1, e2, e3⟩ | ⟨e1, e2, e3⟩
      · exact absurd e1 (big l1 hx)
      · exact absurd e1 (big l1 hw0)
      · exact absurd e2 (big l2 hx)
    · rw [h3] at h2
      have l4 := hfr h3
      unfold Tri.Is at h2
      simp only [Prod.mk.injEq] at h2
      rcases h2 with ⟨e1, e2, e3⟩ | ⟨e1, e2, e3⟩ | ⟨e1, e2, e3⟩
      · refine ⟨p, ?_, ?_⟩
        · rw [← e1, ← e3]; exact h1
        · rw [← e2, ← e3]; exact h3
      · exact absurd e2.symm (big hb l4)
      · exact absurd e1.symm (big hb l3)
  constructor
  · rintro (h1 | ⟨w, hw0, h1, h2⟩)
    · exact one ha hb h1
    · obtain ⟨c, c1, c2⟩ := two hw0 hw ha h1.rot.rot
      obtain ⟨d, d1, d2⟩ := two hw hw0 hb h2
      obtain ⟨t, ht, x1⟩ := mem_dartsOf.1 (hC.only _ _ c2)
      obtain ⟨t', ht', y1⟩ := mem_dartsOf.1 (hC.only _ _ c1)
      have x2 := hC.inj _ _ _ c2 d1 t ht x1
      have y2 := hC.inj _ _ _ c1 d2 t' ht' y1
      have hn := hv.good.nondeg t ht
      by_cases he : (d, b) = (a, c)
      · rw [show (a, b) = (d, b) by rw [(Prod.mk.inj he).1]]; exact d1
      · exfalso
        have hsub : t = t' := by
          refine hv.good.simplicial t ht t' ht' fun u hu => ?_
          obtain ⟨p, q, r⟩ := t
          obtain ⟨p', q', r'⟩ := t'
          simp only [Tri.darts, Tri.verts, List.mem_cons, Prod.mk.injEq, List.not_mem_nil, or_false] at *
          grind
        subst hsub
        exact Tri.dart_not_sym hn x1 y1
  · intro h1
    rcases h3 : m.centreOf [] (b, a) with _ | w
    · refine .inl (key.2 ⟨_, _, h1, ?_⟩)
      unfold sq3Piece
      rw [show Edge.sym (a, b) = (b, a) from rfl, h3]
      exact .inr (.inl rfl)
    · refine .inr ⟨w, hfr h3, key.2 ⟨_, _, h3, ?_⟩, key.2 ⟨_, _, h1, ?_⟩⟩
      · unfold sq3Piece
        rw [show Edge.sym (b, a) = (a, b) from rfl, h1]
        exact .inr (.inr rfl)
      · unfold sq3Piece
        rw [show Edge.sym (a, b) = (b, a) from rfl, h3]
        exact .inl rfl

theorem sqrt3_undo (hv : m.Valid) (hv' : m'.Valid) (hmax : m.points.length + (m.selected []).length ≤ idMax)
    (hmax' : m'.points.length + (m'.selected []).length ≤ idMax) (hf : f.cells = []) (hg : g.cells = [])
    (h : cellUpdate .sqrt3 lib cosn f m = (.ok out, f')) (h' : cellUpdate .sqrt3 lib' cosn g m' = (.ok out', g'))
    (hs : SameUnordered out out') : SameUnordered m m' := by
  obtain ⟨hp, ht⟩ := hs
  have R := sqrt3Update_result hv (f := f) (by rw [hf]; exact selOK_nil _) (by rw [hf]; exact hmax) h
  have R' := sqrt3Update_result hv' (f := g) (by rw [hg]; exact selOK_nil _) (by rw [hg]; exact hmax') h'
  have count : ∀ {lib : QELib} {M o : Mesh P D} {f f' : Filt}, M.Valid → M.points.length + (M.selected []).length ≤ idMax → f.cells = [] →
      cellUpdate .sqrt3 lib cosn f M = (.ok o, f') → o.Valid ∧ o.tris.length = 3 * M.tris.length ∧
        o.points.length = M.points.length + M.tris.length := by
    intro lib M o f f' hM hm hf h
    obtain ⟨o', f'', h1, -, h2, h3, -⟩ := C11_sqrt3_completes lib cosn hM (f := f) (by rw [hf]; exact selOK_nil _) (by rw [hf]; exact hm)
    rw [h] at h1
    cases h1
    have ho := (sqrt3Update_result hM (f := f) (by rw [hf]; exact selOK_nil _) (by rw [hf]; exact hm) h).valid hM
    exact ⟨ho, by rw [ho.tris_length, hM.tris_length]; exact (h3 hf).1, by rw [hM.tris_length]; exact (h3 hf).2⟩
  obtain ⟨o1, c1, c2⟩ := count hv hmax hf h
  obtain ⟨o2, d1, d2⟩ := count hv' hmax' hg h'
  have hlen := hasTri_length o1.good.oriented o2.good.oriented ht
  have hpl := congrArg List.length hp
  have hl : m'.points.length = m.points.length := by omega
  refine ⟨points_ext hv hv' hl fun v hlt => ?_, ?_⟩
  · have a1 := C06_original_points_kept (by decide) hv.points_dense h v _ (hv.pos_eq hlt)
    have a2 := C06_original_points_kept (by decide) hv'.points_dense h' v _ (hv'.pos_eq (by rw [hl]; exact hlt))
    unfold Mesh.pos at a1 a2
    rw [hp, a1] at a2
    exact (Option.some.inj a2).symm
  · have hF : ∀ n v a b, Follows out'.tris n v a b ↔ Follows out.tris n v a b := by
      intro n v a b; unfold Follows; simp only [ht]
    have hσ : ∀ {v a b}, a < m.points.length → b < m.points.length → m.points.length ≤ v →
        (m'.centreOf [] (a, b) = some v ↔ m.centreOf [] (a, b) = some v) := by
      intro v a b ha hb hw
      rw [← follows_iff hv hmax hf h ha hb hw, ← follows_iff hv' hmax' hg h' (by rw [hl]; exact ha) (by rw [hl]; exact hb) (by rw [hl]; exact hw),
        hl, hF]
    have tri : ∀ {M : Mesh P D} (hM : M.Valid) (hC : Centres M.tris (M.centreOf [])), ∀ a b c,
        HasTri M.tris a b c ↔ ∃ v, M.centreOf [] (a, b) = some v ∧ M.centreOf [] (b, c) = some v := by
      intro M hM hC a b c
      constructor
      · intro hh
        obtain ⟨t, ht, hi⟩ := hasTri_iff.1 hh
        obtain ⟨v, hx⟩ := Option.isSome_iff_exists.1 ((centreOf_isSome hM (sel := []) ht hi.dart).2 (by simpa [Mesh.selected] using ht))
        exact ⟨v, hx, (hC.same t ht _ hi.rot.dart _ hi.dart).trans hx⟩
      · rintro ⟨v, h1, h2⟩
        obtain ⟨t, ht, x1⟩ := mem_dartsOf.1 (hC.only _ _ h1)
        have x2 := hC.inj _ _ _ h1 h2 t ht x1
        have hn := hM.good.nondeg t ht
        refine hasTri_iff.2 ⟨t, ht, ?_⟩
        obtain ⟨p, q, r⟩ := t
        unfold Tri.Is
        simp only [Tri.darts, List.mem_cons, Prod.mk.injEq, List.not_mem_nil, or_false] at *
        grind
    have hC := R.centres
    have hC' := R'.centres
    rw [hf] at hC
    rw [hg] at hC'
    have low : ∀ {M o : Mesh P D} {lb : QELib} {F F' : Filt} {u : Bool} {pts : List P}, M.Valid → Sqrt3Result lb M o F F' u (M.centreOf []) pts →
        ∀ {e v}, M.centreOf [] e = some v → e.1 < M.points.length ∧ e.2 < M.points.length ∧ M.points.length ≤ v := by
      intro M o lb F F' u pts hM hR e v he
      have := hM.isEdge_lt (hM.isEdge_of_dart (hR.centres.only _ _ he))
      exact ⟨this.1, this.2, (hR.fresh _ _ he).1⟩
    rw [hf] at R
    rw [hg] at R'
    intro a b c
    rw [tri hv hC, tri hv' hC']
    refine exists_congr fun v => ⟨?_, ?_⟩
    · rintro ⟨h1, h2⟩
      obtain ⟨l1, l2, l3⟩ := low hv' R' h1
      obtain ⟨l4, l5, l6⟩ := low hv' R' h2
      rw [hl] at l1 l2 l3 l4 l5 l6
      exact ⟨(hσ l1 l2 l3).1 h1, (hσ l4 l5 l6).1 h2⟩
    · rintro ⟨h1, h2⟩
      obtain ⟨l1, l2, l3⟩ := low hv R h1
      obtain ⟨l4, l5, l6⟩ := low hv R h2
      exact ⟨(hσ l1 l2 l3).2 h1, (hσ l4 l5 l6).2 h2⟩

end

section loop
variable {V D : Type} [AddCommGroup V] [Module ℝ V] {lib lib' : QELib} {m m' out out' : Mesh V D} {f' g' : Filt}

theorem loopRate_pos (k : Nat) : 0 < loopRate k := by
  unfold loopRate
  have := Real.neg_one_le_cos (2 * Real.pi / k)
  have h : (0 : ℝ) < 3 / 8 + Real.cos (2 * Real.pi / k) / 4 := by linarith
  positivity

/-- a point of a mesh whose boundary does not touch itself is an inner one, or has two edges on the boundary -/
theorem inner_or_rim (hv : m.Valid) (hsb : m.SimpleBoundary) (v : PId) : (∃ N, m.InnerAt v N) ∨ ∃ a b, m.RimAt v a b := by
  classical
  set N := (List.range m.points.length).filter fun w => decide (m.IsEdge (v, w)) with hN
  have hnd : N.Nodup := List.nodup_range.filter _
  have hmem : ∀ w, w ∈ N ↔ m.IsEdge (v, w) := by
    intro w
    rw [hN, List.mem_filter, List.mem_range, decide_eq_true_iff]
    exact ⟨fun h => h.2, fun h => ⟨(hv.isEdge_lt h).2, h⟩⟩
  have hnd' : (N.map fun w => (v, w)).Nodup := hnd.map fun a b h => (Prod.mk.inj h).2
  have hr : ∀ e : Edge, e ∈ N.map (fun w => (v, w)) ↔ m.IsEdge e ∧ e.1 = v := by
    rintro ⟨x, y⟩
    rw [List.mem_map]
    constructor
    · rintro ⟨w, hw, h⟩
      obtain ⟨rfl, rfl⟩ := Prod.mk.inj h
      exact ⟨(hmem _).1 hw, rfl⟩
    · rintro ⟨h1, h2⟩
      simp only at h2
      subst h2
      exact ⟨y, (hmem y).2 h1, rfl⟩
  have bd : ∀ w, (v, w) ∈ (N.map fun w => (v, w)).filter m.isAtBorder ↔
      m.IsEdge (v, w) ∧ ((∀ c, ¬ HasTri m.tris v w c) ∨ ∀ c, ¬ HasTri m.tris w v c) := by
    intro w
    rw [List.mem_filter, hr]
    constructor
    · rintro ⟨⟨h1, -⟩, h2⟩
      refine ⟨h1, ?_⟩
      have h3 := (hv.isAtBorder_iff h1).1 h2
      by_contra hc
      rw [not_or] at hc
      simp only [not_forall, not_not] at hc
      exact h3 ⟨dartsOf_iff_hasTri.2 hc.1, dartsOf_iff_hasTri.2 hc.2⟩
    · rintro ⟨h1, h2⟩
      refine ⟨⟨h1, rfl⟩, (hv.isAtBorder_iff h1).2 fun hd => ?_⟩
      obtain ⟨c, hc⟩ := dartsOf_iff_hasTri.1 hd.1
      obtain ⟨d, hd⟩ := dartsOf_iff_hasTri.1 hd.2
      rcases h2 with h2 | h2
      · exact h2 c hc
      · exact h2 d hd
  have hnf := hnd'.filter m.isAtBorder
  have hmf : ∀ e ∈ (N.map fun w => (v, w)).filter m.isAtBorder, e.1 = v := fun e he => ((hr e).1 (List.mem_of_mem_filter he)).2
  rcases border_edges hv hsb hnd' hr with h0 | h2
  · left
    refine ⟨N, hnd, hmem, fun w hw => ?_⟩
    have := (bd w).not.1 (by rw [List.length_eq_zero_iff.1 h0]; simp)
    have h1 := (hmem w).1 hw
    by_contra hc
    exact this ⟨h1, by
      by_contra hd
      rw [not_or] at hd
      simp only [not_forall, not_not] at hd
      exact hc hd⟩
  · right
    generalize hl : (N.map fun w => (v, w)).filter m.isAtBorder = l at h2 bd hnf hmf
    match l, h2 with
    | [x, y], _ =>
      have hx := hmf x (by simp)
      have hy := hmf y (by simp)
      refine ⟨x.2, y.2, fun h => ?_, fun w => ?_⟩
      · rw [List.nodup_cons] at hnf
        exact hnf.1 (List.mem_singleton.2 (Prod.ext (hx.trans hy.symm) h))
      · rw [← bd w]
        simp only [List.mem_cons, List.not_mem_nil, or_false]
        constructor
        · rintro (rfl | rfl)
          · exact .inl (Prod.ext hx.symm rfl)
          · exact .inr (Prod.ext hy.symm rfl)
        · rintro (h | h)
          · exact .inl (congrArg Prod.snd h)
          · exact .inr (congrArg Prod.snd h)

/-- where an inner point was -/
theorem inner_undo (hn : Scheme.loop.Needs m) (h : cellUpdate .loop lib realCos (Filt.new.setCells []) m = (.ok out, f'))
    {v : PId} (hlt : v < m.points.length) {N : List PId} (hN : m.InnerAt v N) :
    ∃ N', out.InnerAt v N' ∧ m.coord v = loopUndo N'.length (out.coord v) (N'.map out.coord).sum := by
  have hv := hn.valid
  have hp := hv.pos_eq hlt
  obtain ⟨N', h1, h2, h3, h4⟩ := inner_level hn h hp hN rfl
  refine ⟨N', h1, ?_⟩
  have hk0 : (N.length : ℝ) ≠ 0 := by
    obtain ⟨w, hw⟩ := (hn.noIsolated rfl).edge hv hlt
    exact_mod_cast (List.length_pos_of_mem ((hN.all w).2 hw)).ne'
  have hr := (loopRate_pos N.length).ne'
  unfold loopUndo
  rw [h2, Mesh.coord_of_pos h3, h4]
  set S := (N.map m.coord).sum
  set k : ℝ := (N.length : ℝ)
  set r := loopRate N.length
  have e1 : (5 / 8 : ℝ) • ((1 - k * ((5 / 8 - r) / k)) • m.coord v + ((5 / 8 - r) / k) • S) -
      ((5 / 8 - r) / k) • ((3 / 8 * k) • m.coord v + (5 / 8 : ℝ) • S) =
      (5 / 8 * (1 - k * ((5 / 8 - r) / k)) - ((5 / 8 - r) / k) * (3 / 8 * k)) • m.coord v := by module
  rw [e1, smul_smul]
  have e2 : 1 / r * (5 / 8 * (1 - k * ((5 / 8 - r) / k)) - ((5 / 8 - r) / k) * (3 / 8 * k)) = 1 := by
    field_simp
    ring
  rw [e2, one_smul]

/-- where a point of the boundary was -/
theorem rim_undo (hn : Scheme.loop.Needs m) (h : cellUpdate .loop lib realCos (Filt.new.setCells []) m = (.ok out, f'))
    {v : PId} (hlt : v < m.points.length) {a b : PId} (hab : m.RimAt v a b) :
    ∃ x y, out.RimAt v x y ∧ m.coord v = loopRimUndo (out.coord v) (out.coord x) (out.coord y) := by
  obtain ⟨x, y, h1, h2, h3, h4⟩ := rim_level hn h (hn.valid.pos_eq hlt) hab
  refine ⟨x, y, h1, ?_⟩
  unfold loopRimUndo
  rw [Mesh.coord_of_pos h2, h3, h4]
  module

theorem InnerAt.alike (hv : m.Valid) (hv' : m'.Valid) (ht : m'.tris = m.tris) {v : PId} {N : List PId} (h : m.InnerAt v N) : m'.InnerAt v N :=
  ⟨h.nodup, fun w => by rw [isEdge_alike hv hv' ht]; exact h.all w, fun w hw => by rw [ht]; exact h.inner w hw⟩

theorem RimAt.alike (hv : m.Valid) (hv' : m'.Valid) (ht : m'.tris = m.tris) {v a b : PId} (h : m.RimAt v a b) : m'.RimAt v a b :=
  ⟨h.ne, fun w => by rw [isEdge_alike hv hv' ht, ht]; exact h.only w⟩

theorem loop_undo (hn : Scheme.loop.Needs m) (hn' : Scheme.loop.Needs m') (hsb : m.SimpleBoundary)
    (h : cellUpdate .loop lib realCos (Filt.new.setCells []) m = (.ok out, f'))
    (h' : cellUpdate .loop lib' realCos (Filt.new.setCells []) m' = (.ok out', g'))
    (hp : out'.points = out.points) (ht : out'.tris = out.tris) : SameDrawing m m' := by
  have hv := hn.valid
  have hv' := hn'.valid
  have ho := (C04_output_valid (sch := .loop) (by decide) hn (selOK_nil _) h).1
  have ho' := (C04_output_valid (sch := .loop) (by decide) hn' (selOK_nil _) h').1
  obtain ⟨h1, hl⟩ := face_undo (by decide) hn hn' (f := Filt.new.setCells []) (g := Filt.new.setCells []) rfl rfl h h' (by rw [hp]) ht
  have hc : out'.coord = out.coord := by funext v; unfold Mesh.coord; rw [hp]
  refine ⟨points_ext hv hv' hl fun v hlt => ?_, h1⟩
  have hlt' : v < m'.points.length := by rw [hl]; exact hlt
  rcases inner_or_rim hv hsb v with ⟨N, hN⟩ | ⟨a, b, hab⟩
  · obtain ⟨N1, a1, a2⟩ := inner_undo hn h hlt hN
    obtain ⟨N2, b1, b2⟩ := inner_undo hn' h' hlt' (InnerAt.alike hv hv' h1 hN)
    have hperm : N2.Perm N1 := (List.perm_ext_iff_of_nodup b1.nodup a1.nodup).2 fun w => by
      rw [a1.all, b1.all, isEdge_alike ho ho' ht]
    rw [a2, b2, hc, hperm.length_eq, (hperm.map _).sum_eq]
  · obtain ⟨x, y, a1, a2⟩ := rim_undo hn h hlt hab
    obtain ⟨x', y', b1, b2⟩ := rim_undo hn' h' hlt' (RimAt.alike hv hv' h1 hab)
    have b1' := RimAt.alike ho' ho ht.symm b1
    have e1 : x' = x ∨ x' = y := (a1.only x').2 ((b1'.only x').1 (.inl rfl))
    have e2 : y' = x ∨ y' = y := (a1.only y').2 ((b1'.only y').1 (.inr rfl))
    rw [a2, b2, hc]
    rcases e1 with rfl | rfl <;> rcases e2 with rfl | rfl
    · exact absurd rfl b1.ne
    · rfl
    · unfold loopRimUndo; module
    · exact absurd rfl b1.ne

end loop
section levels
variable {K P D : Type} [Field K] [AddCommGroup P] [Module K P] {lib lib' : QELib} {cosn : Nat → K} {sch : Scheme}

/-- from one level to many -/
theorem levels_undo (hl : sch = .loop ∨ sch = .butterfly → lib.Lawful) (hl' : sch = .loop ∨ sch = .butterfly → lib'.Lawful)
    (I : Mesh P D → Prop) (Rel : Mesh P D → Mesh P D → Prop)
    (hI : ∀ (m out : Mesh P D) (f' : Filt), sch.Needs m → I m → cellUpdate sch lib cosn (Filt.new.setCells []) m = (.ok out, f') → I out)
    (hstep : ∀ (m m' out out' : Mesh P D) (f' g' : Filt), sch.Needs m → sch.Needs m' → I m →
      (sch = .sqrt3 → m.points.length + (m.selected []).length ≤ idMax) → (sch = .sqrt3 → m'.points.length + (m'.selected []).length ≤ idMax) →
      cellUpdate sch lib cosn (Filt.new.setCells []) m = (.ok out, f') → cellUpdate sch lib' cosn (Filt.new.setCells []) m' = (.ok out', g') →
      Rel out out' → Rel m m') (L : Nat) {m m' out out' : Mesh P D} {s s' : List CId} (hn : sch.Needs m) (hn' : sch.Needs m') (hi : I m)
    (hid : sch.IdsLeft L m []) (hid' : sch.IdsLeft L m' []) (h : manyLevels sch lib cosn L (m, []) = .ok (out, s))
    (h' : manyLevels sch lib' cosn L (m', []) = .ok (out', s')) (hr : Rel out out') : Rel m m' := by
  induction L generalizing m m' with
  | zero => cases h; cases h'; exact hr
  | succ n ih =>
    obtain ⟨m1, s1, k1, hn1, -, hid1, hu1, -⟩ := oneLevel_ok cosn hl hn (selOK_nil _) hid
    obtain ⟨m2, s2, k2, hn2, -, hid2, hu2, -⟩ := oneLevel_ok cosn hl' hn' (selOK_nil _) hid'
    obtain rfl := (hu1 rfl).1
    obtain rfl := (hu2 rfl).1
    unfold manyLevels at h h'
    rw [k1] at h
    rw [k2] at h'
    have up : ∀ {lb : QELib} {a b : Mesh P D}, oneLevel sch lb cosn (a, []) = .ok (b, []) →
        ∃ f', cellUpdate sch lb cosn (Filt.new.setCells []) a = (.ok b, f') := by
      intro lb a b hk
      unfold oneLevel at hk
      rcases hc : cellUpdate sch lb cosn (Filt.new.setCells []) a with ⟨_ | o, f'⟩
      · simp only [hc] at hk; cases hk
      · simp only [hc] at hk
        injection hk with hk
        injection hk with hk _
        subst hk
        exact ⟨f', rfl⟩
    obtain ⟨f', c1⟩ := up k1
    obtain ⟨g', c2⟩ := up k2
    exact hstep m m' m1 m2 f' g' hn hn' hi (IdsLeft.now hid) (IdsLeft.now hid') c1 c2 (ih hn1 hn2 (hI m m1 f' hn hi c1) hid1 hid2 h h')

end levels

end Verif
