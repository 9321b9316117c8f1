import Verif.Proofs.Embedded
import Verif.Properties.CondKeeps
import Verif.Properties.EdgeRuns
/-
C82: a surface that does not meet itself does not do so after Linear refinement.
-/
namespace Verif
set_option linter.unusedSectionVars false
variable {K P D : Type} [Field K] [LinearOrder K] [IsStrictOrderedRing K] [AddCommGroup P] [Module K P] {lib : QELib}
  {cosn : Nat → K} {f f' : Filt} {inp out : Mesh P D}

/-- how a mesh is split at the midpoints of some of its edges -/
structure MidSplit (K : Type) [Field K] {P D : Type} [AddCommGroup P] [Module K P] (inp out : Mesh P D) (μ : Edge → Option PId) :
    Prop where
  label : Labelling inp.tris μ
  tris : out.tris = inp.tris.flatMap (Tri.children μ)
  kept : ∀ t ∈ inp.tris, ∀ v ∈ t.verts, (out.pos v).getD 0 = (inp.pos v).getD 0
  mid : ∀ t ∈ inp.tris, MidOf K μ (fun v => (out.pos v).getD 0) t

theorem MidSplit.embedded {μ : Edge → Option PId} (hv : inp.Valid) (S : MidSplit K inp out μ) (h : inp.Embedded K) :
    out.Embedded K := by
  have hloc : ∀ t ∈ inp.tris, Local μ t.1 t.2.1 t.2.2 := fun t ht => S.label.local ht (hv.good.nd t ht)
  constructor
  · intro d hd d' hd' w w' hw hw' he
    rw [S.tris] at hd hd'
    obtain ⟨t, ht, hd⟩ := List.mem_flatMap.1 hd
    obtain ⟨t', ht', hd'⟩ := List.mem_flatMap.1 hd'
    have key : ∀ {t d : Tri} {w : PId → K}, t ∈ inp.tris → d ∈ Tri.children μ t → Weights d w →
        Weights t (parentWeights μ t w) ∧ inp.blend t (parentWeights μ t w) = out.blend d w := by
      intro t d w ht hd hw
      have hl := hloc t ht
      refine ⟨parent_weights hl hd hw, ?_⟩
      have := child_blend hl hd hw (S.mid t ht)
      obtain ⟨h1, h2, h3⟩ := parent_corners hl w
      unfold Mesh.blend
      rw [this, ← S.kept t ht t.1 (by simp [Tri.verts]), ← S.kept t ht t.2.1 (by simp [Tri.verts]),
        ← S.kept t ht t.2.2 (by simp [Tri.verts])]
      exact congrArg₂ _ (congrArg₂ _ (congrArg (· • _) h1) (congrArg (· • _) h2)) (congrArg (· • _) h3)
    obtain ⟨k1, k2⟩ := key ht hd hw
    obtain ⟨k1', k2'⟩ := key ht' hd' hw'
    have hu := h.once t ht t' ht' _ _ k1 k1' (by rw [k2, k2', he])
    by_cases hs : ∀ v ∈ Tri.verts t, v ∈ Tri.verts t'
    · obtain rfl := h.single t ht t' ht' hs
      exact same_parent (hloc t ht) hd hd' hw hw' hu
    by_cases hs' : ∀ v ∈ Tri.verts t', v ∈ Tri.verts t
    · obtain rfl := h.single t' ht' t ht hs'
      exact same_parent (hloc _ ht) hd hd' hw hw' hu
    push Not at hs hs'
    obtain ⟨x, hx, hx'⟩ := hs
    obtain ⟨y, hy, hy'⟩ := hs'
    have z1 : parentWeights μ t w x = 0 := by rw [hu]; exact k1'.off x hx'
    have z2 : parentWeights μ t' w' y = 0 := by rw [← hu]; exact k1.off y hy'
    obtain ⟨p, q, o1⟩ := exists_onEdge (hloc t ht) hd hw hx z1
    obtain ⟨p', q', o2⟩ := exists_onEdge (hloc t' ht') hd' hw' hy z2
    refine o1.unique S.label.sym (x := p') (y := q') ?_
    change OnEdge μ (parentWeights μ t w) _ _ _
    rw [hu]
    exact o2
  · intro d hd d' hd' hs
    rw [S.tris] at hd hd'
    obtain ⟨t, ht, hd⟩ := List.mem_flatMap.1 hd
    obtain ⟨t', ht', hd'⟩ := List.mem_flatMap.1 hd'
    have : t = t' := by
      refine h.single t ht t' ht' fun v hv => ?_
      rcases child_covers hd hv with h1 | ⟨e, -, m, h1, h2, h3⟩
      · rcases children_verts (a := t'.1) (b := t'.2.1) (c := t'.2.2) d' hd' v (hs v h1) with h4 | ⟨e', -, h4⟩
        · exact h4
        · exact absurd hv (S.label.fresh e' v h4 t ht)
      · rcases children_verts (a := t'.1) (b := t'.2.1) (c := t'.2.2) d' hd' m (hs m h2) with h4 | ⟨e', he', h4⟩
        · exact absurd h4 (S.label.fresh e m h1 t' ht')
        · have : v = e'.1 ∨ v = e'.2 := by
            rcases S.label.inj e e' m h1 h4 with rfl | rfl
            · exact h3
            · exact h3.symm
          have k : e'.1 ∈ Tri.verts t' ∧ e'.2 ∈ Tri.verts t' := by
            simp only [Tri.darts, List.mem_cons, List.not_mem_nil, or_false] at he'
            rcases he' with rfl | rfl | rfl <;> simp [Tri.verts]
          rcases this with rfl | rfl
          · exact k.1
          · exact k.2
    subst this
    exact children_apart (hloc t ht) hd hd' hs

theorem MidSplit.of_pos {μ : Edge → Option PId} (hv : inp.Valid) (hl : Labelling inp.tris μ)
    (ht : out.tris = inp.tris.flatMap (Tri.children μ)) (hk : ∀ v p, inp.pos v = some p → out.pos v = some p)
    (hm : ∀ {a b m : PId} {pa pb : P}, μ (a, b) = some m → inp.pos a = some pa → inp.pos b = some pb →
      out.pos m = some ((1 / 2 : K) • pa + (1 / 2 : K) • pb)) : MidSplit K inp out μ := by
  refine ⟨hl, ht, fun t ht v hvt => ?_, ?_⟩
  · rw [hk v _ (hv.pos_eq (hv.verts_lt ht hvt)), hv.pos_eq (hv.verts_lt ht hvt)]
  · rintro t ht ⟨a, b⟩ he m hab
    have h1 := hv.isEdge_lt (hv.isEdge_of_dart (mem_dartsOf.2 ⟨t, ht, he⟩))
    have ha := hv.pos_eq h1.1
    have hb := hv.pos_eq h1.2
    simp only
    rw [hm hab ha hb, hk _ _ ha, hk _ _ hb]
    rfl

/-- C82, one run of the Linear cell filter, with any selection: if the surface does not meet itself, neither does the output. -/
theorem C82_embedded_partial (hv : inp.Valid) (hsel : inp.SelOK f.cells) (h : cellUpdate .linear lib cosn f inp = (.ok out, f'))
    (he : inp.Embedded K) : out.Embedded K := by
  have R := (cellUpdate_result (by decide) ⟨hv, by simp, by simp⟩ hsel h).1
  exact (MidSplit.of_pos hv R.label R.tris (C06_original_points_kept (by decide) hv.points_dense h)
    (fun hm ha hb => C07_linear_midpoints hv hsel h hm ha hb)).embedded hv he

/-- C82, one run of the Linear edge filter. -/
theorem C82_embedded_edge_partial (hv : inp.Valid) (hsel : inp.EdgeSelOK f.edgeSel)
    (h : edgeUpdate .linear lib cosn f inp = (.ok out, f')) (he : inp.Embedded K) : out.Embedded K := by
  have hn : EdgeScheme.linear.toScheme.Needs inp := ⟨hv, by simp [EdgeScheme.toScheme], by simp [EdgeScheme.toScheme]⟩
  have R := edgeUpdate_result hn hsel h
  refine (MidSplit.of_pos hv R.label R.tris (C06_original_points_kept_edge hv.points_dense h) ?_).embedded hv he
  intro a b m pa pb hm ha hb
  obtain ⟨e', p, h1, h2, h3, h4⟩ := edgeUpdate_edgeValue hn hsel h hm
  have h5 : linearPoint K inp e' = .ok p := h3
  have h6 : linearPoint K inp (a, b) = .ok p := by
    rcases h1 with rfl | rfl
    · exact h5
    · exact (linearPoint_sym hv h2).trans h5
  have h7 : inp.IsEdge (a, b) := by
    rcases h1 with rfl | rfl
    · exact h2
    · exact h2.sym
  rw [linearPoint_ok hv h7] at h6
  rw [h4, ← Except.ok.inj h6]
  simp only [midPoint, Mesh.coord_of_pos ha, Mesh.coord_of_pos hb, smul_add]

/-- C82, any number of levels. -/
theorem C82_embedded_iterative_partial (hv : inp.Valid) {f : Iter} (hsel : inp.SelOK f.cells)
    (h : (iterUpdate .linear lib cosn f inp).1 = .ok out) (he : inp.Embedded K) : out.Embedded K := by
  refine (iter_induct (sch := .linear) (lib := lib) (cosn := cosn) (by simp) (fun m _ => m.Embedded K) ?_
    ⟨hv, by simp, by simp⟩ hsel (fun hc => nomatch hc) he h).elim fun _ h => h
  rintro m out sel f' hm hsel _ _ h h1
  exact C82_embedded_partial hm.valid (f := Filt.new.setCells sel) hsel h h1

theorem embedded_copy (lib : QELib) (hv : inp.Valid) (h : inp.Embedded K) : (copyGeometry lib inp).Embedded K := by
  have hb : ∀ t (w : PId → K), (copyGeometry lib inp).blend t w = inp.blend t w := by
    intro t w
    unfold Mesh.blend Mesh.pos
    rw [copyGeometry_points lib hv]
  constructor
  · rw [copyGeometry_tris lib hv]
    intro t ht t' ht' w w' hw hw' he
    rw [hb, hb] at he
    exact h.once t ht t' ht' w w' hw hw' he
  · rw [copyGeometry_tris lib hv]
    exact h.single

/-- C82, the conditional filter with the Linear cell filter. -/
theorem C82_embedded_conditional_partial (hv : inp.Valid) {n : Nat} {area : P → P → P → K} {A : K} {c c' : Cond Filt CId}
    (h : condGenerate lib (condCellUpd .linear lib cosn) (some (areaCompute area A)) n c inp = some (.ok out, c'))
    (he : inp.Embedded K) : out.Embedded K := by
  refine condArea_induct hv (by simp) (by simp) (by simp) (fun m => m.Embedded K) (embedded_copy lib hv he) ?_ h
  rintro m out sel f f' hm hn' hsel hnd hne hmax h h1
  exact C82_embedded_partial hm.valid (f := f.setCells sel) hsel h h1

/-- C82, the conditional filter with the Linear edge filter. -/
theorem C82_embedded_conditional_edge_partial (hv : inp.Valid) {n : Nat} {len : P → P → K} {L : K}
    {c c' : Cond Filt (Option Edge)}
    (h : condGenerate lib (condEdgeUpd .linear lib cosn) (some (lengthCompute len L)) n c inp = some (.ok out, c'))
    (he : inp.Embedded K) : out.Embedded K := by
  refine condLength_induct hv (by simp) (by simp) (fun m => m.Embedded K) (embedded_copy lib hv he) ?_ h
  rintro m out sel f f' H hn' hne h h1
  exact C82_embedded_edge_partial H.needs.valid (f := f.setEdges sel) H.selOK h h1

section samples

/-- two triangles of the plane that form the head of an arrow -/
def arrow : Mesh (ℚ × ℚ) Nat := mk [(7, 7), (0, 6), (8, 7), (0, 8)] [(0, 1, 2), (0, 2, 3)] none

theorem arrow_ok : arrow.Valid ∧ arrow.RingOK ∧ arrow.NoIsolated ∧ arrow.tris = [(0, 1, 2), (0, 2, 3)] := mk_ok _ (by decide)

theorem arrow_needs (sch : Scheme) : sch.Needs arrow := ⟨arrow_ok.1, fun _ => arrow_ok.2.1, fun _ => arrow_ok.2.2.1⟩

theorem arrow_embedded : arrow.Embedded ℚ := by
  constructor
  · rw [arrow_ok.2.2.2]
    intro t ht t' ht' w w' hw hw' he
    have n := hw.nonneg
    have n' := hw'.nonneg
    have o := hw.off
    have o' := hw'.off
    have s := hw.sum
    have s' := hw'.sum
    have p0 : (arrow.pos 0).getD 0 = (7, 7) := rfl
    have p1 : (arrow.pos 1).getD 0 = (0, 6) := rfl
    have p2 : (arrow.pos 2).getD 0 = (8, 7) := rfl
    have p3 : (arrow.pos 3).getD 0 = (0, 8) := rfl
    simp only [List.mem_cons, List.not_mem_nil, or_false] at ht ht'
    have key : w 0 = w' 0 ∧ w 1 = w' 1 ∧ w 2 = w' 2 ∧ w 3 = w' 3 := by
      have := n 0; have := n 1; have := n 2; have := n 3
      have := n' 0; have := n' 1; have := n' 2; have := n' 3
      rcases ht with rfl | rfl <;> rcases ht' with rfl | rfl <;>
        simp only [Mesh.blend, p0, p1, p2, p3, Prod.smul_mk, smul_eq_mul, Prod.mk_add_mk, Prod.mk.injEq] at he s s' <;>
        simp only [Tri.verts] at o o' <;>
        have h1 := o 1 <;> have h1' := o' 1 <;> have h3 := o 3 <;> have h3' := o' 3 <;>
        simp at h1 h1' h3 h3' <;> refine ⟨?_, ?_, ?_, ?_⟩ <;> linarith
    funext v
    have big : ∀ t ∈ [((0, 1, 2) : Tri), (0, 2, 3)], ∀ v : PId, v + 4 ∉ Tri.verts t := by
      simp [Tri.verts]
    match v with
    | 0 => exact key.1
    | 1 => exact key.2.1
    | 2 => exact key.2.2.1
    | 3 => exact key.2.2.2
    | v + 4 => rw [o _ (big t (by simpa using ht) v), o' _ (big t' (by simpa using ht') v)]
  · rw [arrow_ok.2.2.2]
    decide

theorem arrow_simple : arrow.SimpleBoundary := simple_of_tris arrow_ok.2.2.2 (by decide)

example (out : Mesh (ℚ × ℚ) Nat) (f f' : Filt) (hf : f.cells = [1]) (h : cellUpdate .linear someLib cos0 f arrow = (.ok out, f')) :
    out.Embedded ℚ :=
  C82_embedded_partial arrow_ok.1 (by rw [hf]; unfold Mesh.SelOK; decide) h arrow_embedded

theorem arrow_edges : arrow.EdgeSelOK [some (2, 0), none, some (0, 1)] := by
  intro e he
  simp only [List.mem_cons, Option.some.injEq, reduceCtorEq, List.not_mem_nil, or_false, false_or] at he
  rcases he with rfl | rfl <;> unfold Mesh.IsEdge <;> decide

example (out : Mesh (ℚ × ℚ) Nat) (f' : Filt)
    (h : edgeUpdate .linear someLib cos0 (Filt.new.setEdges [some (2, 0), none, some (0, 1)]) arrow = (.ok out, f')) :
    out.Embedded ℚ :=
  C82_embedded_edge_partial arrow_ok.1 arrow_edges h arrow_embedded

example (n : Nat) (out : Mesh (ℚ × ℚ) Nat) (h : (iterUpdate .linear someLib cos0 ⟨[0], n, []⟩ arrow).1 = .ok out) :
    out.Embedded ℚ :=
  C82_embedded_iterative_partial arrow_ok.1 (by unfold Mesh.SelOK; exact (by decide : ∀ k ∈ [(0 : CId)], k ∈ arrow.cells.map Prod.fst)) h arrow_embedded

example (n : Nat) (A : ℚ) (area : ℚ × ℚ → ℚ × ℚ → ℚ × ℚ → ℚ) (out : Mesh (ℚ × ℚ) Nat) (c c' : Cond Filt CId)
    (h : condGenerate someLib (condCellUpd .linear someLib cos0) (some (areaCompute area A)) n c arrow = some (.ok out, c')) :
    out.Embedded ℚ :=
  C82_embedded_conditional_partial arrow_ok.1 h arrow_embedded

example (n : Nat) (L : ℚ) (len : ℚ × ℚ → ℚ × ℚ → ℚ) (out : Mesh (ℚ × ℚ) Nat) (c c' : Cond Filt (Option Edge))
    (h : condGenerate someLib (condEdgeUpd .linear someLib cos0) (some (lengthCompute len L)) n c arrow = some (.ok out, c')) :
    out.Embedded ℚ :=
  C82_embedded_conditional_edge_partial arrow_ok.1 h arrow_embedded

/-- three triangles of the plane in a row -/
def boot : Mesh (ℚ × ℚ) Nat := mk [(8, 0), (2, 4), (0, 5), (2, 5), (7, 7)] [(0, 1, 2), (2, 1, 3), (2, 3, 4)] none

theorem boot_ok : boot.Valid ∧ boot.RingOK ∧ boot.NoIsolated ∧ boot.tris = [(0, 1, 2), (2, 1, 3), (2, 3, 4)] := mk_ok _ (by decide)

theorem boot_needs (sch : Scheme) : sch.Needs boot := ⟨boot_ok.1, fun _ => boot_ok.2.1, fun _ => boot_ok.2.2.1⟩

theorem boot_embedded : boot.Embedded ℚ := by
  constructor
  · rw [boot_ok.2.2.2]
    intro t ht t' ht' w w' hw hw' he
    have n := hw.nonneg
    have n' := hw'.nonneg
    have o := hw.off
    have o' := hw'.off
    have s := hw.sum
    have s' := hw'.sum
    have p0 : (boot.pos 0).getD 0 = (8, 0) := rfl
    have p1 : (boot.pos 1).getD 0 = (2, 4) := rfl
    have p2 : (boot.pos 2).getD 0 = (0, 5) := rfl
    have p3 : (boot.pos 3).getD 0 = (2, 5) := rfl
    have p4 : (boot.pos 4).getD 0 = (7, 7) := rfl
    simp only [List.mem_cons, List.not_mem_nil, or_false] at ht ht'
    have key : w 0 = w' 0 ∧ w 1 = w' 1 ∧ w 2 = w' 2 ∧ w 3 = w' 3 ∧ w 4 = w' 4 := by
      have := n 0; have := n 1; have := n 2; have := n 3; have := n 4
      have := n' 0; have := n' 1; have := n' 2; have := n' 3; have := n' 4
      rcases ht with rfl | rfl | rfl <;> rcases ht' with rfl | rfl | rfl <;>
        simp only [Mesh.blend, p0, p1, p2, p3, p4, Prod.smul_mk, smul_eq_mul, Prod.mk_add_mk, Prod.mk.injEq] at he s s' <;>
        simp only [Tri.verts] at o o' <;>
        have h0 := o 0 <;> have h0' := o' 0 <;> have h1 := o 1 <;> have h1' := o' 1 <;>
        have h3 := o 3 <;> have h3' := o' 3 <;> have h4 := o 4 <;> have h4' := o' 4 <;>
        simp at h0 h0' h1 h1' h3 h3' h4 h4' <;> refine ⟨?_, ?_, ?_, ?_, ?_⟩ <;> linarith
    funext v
    have big : ∀ t ∈ [((0, 1, 2) : Tri), (2, 1, 3), (2, 3, 4)], ∀ v : PId, v + 5 ∉ Tri.verts t := by
      simp [Tri.verts]
    match v with
    | 0 => exact key.1
    | 1 => exact key.2.1
    | 2 => exact key.2.2.1
    | 3 => exact key.2.2.2.1
    | 4 => exact key.2.2.2.2
    | v + 5 => rw [o _ (big t (by simpa using ht) v), o' _ (big t' (by simpa using ht') v)]
  · rw [boot_ok.2.2.2]
    decide

theorem boot_simple : boot.SimpleBoundary := simple_of_tris boot_ok.2.2.2 (by decide)

/-- the corner `a` with the share `x`, `b` with `y` and `c` with `z` -/
def shares (a b c : PId) (x y z : ℚ) (v : PId) : ℚ := if v = a then x else if v = b then y else if v = c then z else 0

theorem shares_weights {a b c : PId} {x y z : ℚ} (hab : a ≠ b) (hbc : b ≠ c) (hca : c ≠ a) (hx : 0 ≤ x) (hy : 0 ≤ y) (hz : 0 ≤ z)
    (h : x + y + z = 1) : Weights (a, b, c) (shares a b c x y z) := by
  refine ⟨fun v => ?_, fun v hv => ?_, ?_⟩
  · unfold shares; split_ifs <;> first | assumption | exact le_refl _
  · simp only [Tri.verts, List.mem_cons, List.not_mem_nil, or_false, not_or] at hv
    simp [shares, hv]
  · simp [shares, hab.symm, hbc.symm, hca, h]

/-- the point of `t` with the shares `x` is the point of `t'` with the shares `x'` -/
def crosses (m : Mesh (ℚ × ℚ) Nat) (t t' : Tri) (x x' : ℚ × ℚ × ℚ) : Bool := m.tris.contains t && m.tris.contains t' &&
  m.blend t (shares t.1 t.2.1 t.2.2 x.1 x.2.1 x.2.2) == m.blend t' (shares t'.1 t'.2.1 t'.2.2 x'.1 x'.2.1 x'.2.2)

theorem not_embedded {m : Mesh (ℚ × ℚ) Nat} {t t' : Tri} {x x' : ℚ × ℚ × ℚ} (h : crosses m t t' x x' = true)
    (hw : Weights t (shares t.1 t.2.1 t.2.2 x.1 x.2.1 x.2.2)) (hw' : Weights t' (shares t'.1 t'.2.1 t'.2.2 x'.1 x'.2.1 x'.2.2))
    {v : PId} (hv : shares t.1 t.2.1 t.2.2 x.1 x.2.1 x.2.2 v ≠ shares t'.1 t'.2.1 t'.2.2 x'.1 x'.2.1 x'.2.2 v) : ¬ m.Embedded ℚ := by
  intro hc
  simp only [crosses, Bool.and_eq_true, List.contains_iff_mem, beq_iff_eq] at h
  exact hv (congrFun (hc.once t h.1.1 t' h.1.2 _ _ hw hw' h.2) v)

end samples

/-- C82 is false of the other schemes, already for flat surfaces: after one uniform run of ModifiedButterfly and of SquareThree on the
head of an arrow, the point between its wings lies in a new triangle; Loop makes the boot cross itself. -/
theorem C82_embedded_refuted {sch : Scheme} (hs : sch ≠ .linear) : ∃ (inp out : Mesh (ℚ × ℚ) Nat) (f' : Filt), sch.Needs inp ∧
    inp.SimpleBoundary ∧ inp.Embedded ℚ ∧ cellUpdate sch someLib cos0 Filt.new inp = (.ok out, f') ∧ ¬ out.Embedded ℚ := by
  have key : ∀ {sch : Scheme} {inp : Mesh (ℚ × ℚ) Nat} {t t' : Tri} {x x' : ℚ × ℚ × ℚ} {v : PId}, 
      Weights t (shares t.1 t.2.1 t.2.2 x.1 x.2.1 x.2.2) → Weights t' (shares t'.1 t'.2.1 t'.2.2 x'.1 x'.2.1 x'.2.2) →
      shares t.1 t.2.1 t.2.2 x.1 x.2.1 x.2.2 v ≠ shares t'.1 t'.2.1 t'.2.2 x'.1 x'.2.1 x'.2.2 v →
      (cellUpdate sch someLib cos0 Filt.new inp).1.toOption.map (fun m => crosses m t t' x x') = some true →
      ∃ out f', cellUpdate sch someLib cos0 Filt.new inp = (.ok out, f') ∧ ¬ out.Embedded ℚ := by
    intro sch inp t t' x x' v h1 h2 h3 h
    rcases h4 : cellUpdate sch someLib cos0 Filt.new inp with ⟨_ | out, f'⟩
    · rw [h4] at h; cases h
    · rw [h4] at h
      exact ⟨out, f', rfl, not_embedded (Option.some.inj h) h1 h2 h3⟩
  cases sch with
  | linear => exact absurd rfl hs
  | butterfly =>
    obtain ⟨out, f', h1, h2⟩ := key (sch := .butterfly) (inp := arrow) (t := (0, 4, 6)) (t' := (5, 2, 6)) (x := (1, 0, 0))
      (x' := (0, 1 / 3, 2 / 3)) (v := 0)
      (shares_weights (by decide) (by decide) (by decide) (by norm_num) (by norm_num) (by norm_num) (by norm_num))
      (shares_weights (by decide) (by decide) (by decide) (by norm_num) (by norm_num) (by norm_num) (by norm_num))
      (by decide) (by decide +kernel)
    exact ⟨arrow, out, f', arrow_needs _, arrow_simple, arrow_embedded, h1, h2⟩
  | sqrt3 =>
    obtain ⟨out, f', h1, h2⟩ := key (sch := .sqrt3) (inp := arrow) (t := (4, 5, 0)) (t' := (5, 4, 2)) (x := (0, 0, 1))
      (x' := (1 / 6, 1 / 6, 2 / 3)) (v := 0)
      (shares_weights (by decide) (by decide) (by decide) (by norm_num) (by norm_num) (by norm_num) (by norm_num))
      (shares_weights (by decide) (by decide) (by decide) (by norm_num) (by norm_num) (by norm_num) (by norm_num))
      (by decide +kernel) (by decide +kernel)
    exact ⟨arrow, out, f', arrow_needs _, arrow_simple, arrow_embedded, h1, h2⟩
  | loop =>
    obtain ⟨out, f', h1, h2⟩ := key (sch := .loop) (inp := boot) (t := (2, 9, 11)) (t' := (8, 3, 9)) (x := (3 / 4, 0, 1 / 4))
      (x' := (1 / 4, 1 / 2, 1 / 4)) (v := 2)
      (shares_weights (by decide) (by decide) (by decide) (by norm_num) (by norm_num) (by norm_num) (by norm_num))
      (shares_weights (by decide) (by decide) (by decide) (by norm_num) (by norm_num) (by norm_num) (by norm_num))
      (by decide +kernel) (by decide +kernel)
    exact ⟨boot, out, f', boot_needs _, boot_simple, boot_embedded, h1, h2⟩

end Verif
