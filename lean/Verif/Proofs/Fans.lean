import Verif.Spec.Fans
import Verif.Proofs.Levels
import Verif.Proofs.RoundingLevels
/-
C68: how the triangles at a point multiply.
-/
namespace Verif
set_option linter.unusedSectionVars false
set_option linter.unusedSimpArgs false

section one
variable {μ : Edge → Option PId} {a b c v : PId}

/-- the children at a corner whose sides are not split -/
theorem children_fan (hl : Local μ a b c) (hnew : ∀ e, μ e ≠ some v)
    (hside : ∀ e ∈ Tri.darts (a, b, c), v = e.1 ∨ v = e.2 → μ e = none) :
    (Tri.children μ (a, b, c)).countP (fun t => decide (v ∈ t.verts)) =
      (if v ∈ Tri.verts (a, b, c) then 1 else 0) +
      if v ∈ Tri.verts (a, b, c) ∧ ∃ e ∈ Tri.darts (a, b, c), v ≠ e.1 ∧ v ≠ e.2 ∧ (μ e).isSome then 1 else 0 := by
  obtain ⟨n1, n2, n3, f0, f1, f2, d01, d12, d02⟩ := hl
  have g0 := hnew (a, b)
  have g1 := hnew (b, c)
  have g2 := hnew (c, a)
  simp only [Tri.darts, Tri.verts, List.mem_cons, List.not_mem_nil, or_false, forall_eq_or_imp, forall_eq, exists_eq_or_imp,
    exists_eq_left] at hside ⊢
  rcases h0 : μ (a, b) with _ | m0 <;> rcases h1 : μ (b, c) with _ | m1 <;> rcases h2 : μ (c, a) with _ | m2 <;>
    simp only [h0, h1, h2, reduceCtorEq, Option.some.injEq, forall_eq', false_implies, forall_const, implies_true, imp_false, not_or,
      true_and, and_true, ne_eq] at f0 f1 f2 d01 d12 d02 hside g0 g1 g2 <;>
    simp only [Tri.children, h0, h1, h2, Tri.verts, List.countP_cons, List.countP_nil, List.mem_cons, List.not_mem_nil, or_false,
      decide_eq_true_eq, reduceCtorEq, Option.some.injEq, false_or, Option.isSome_none, Option.isSome_some, Bool.false_eq_true] <;> grind

/-- the ones among them that lie beside the refined part again -/
theorem children_beside (hl : Local μ a b c) (hnew : ∀ e, μ e ≠ some v) {N : Edge → Prop} [DecidablePred N]
    (hside : ∀ e ∈ Tri.darts (a, b, c), v = e.1 ∨ v = e.2 → μ e = none)
    (hsome : ∀ e ∈ Tri.darts (a, b, c), ∀ m, μ e = some m → N (e.1, m) ∧ N (m, e.2))
    (hnone : ∀ e ∈ Tri.darts (a, b, c), μ e = none → ¬ N e) :
    (Tri.children μ (a, b, c)).countP (fun t => decide (v ∈ t.verts ∧ ∃ e ∈ t.darts, v ≠ e.1 ∧ v ≠ e.2 ∧ N e)) =
      if v ∈ Tri.verts (a, b, c) ∧ ∃ e ∈ Tri.darts (a, b, c), v ≠ e.1 ∧ v ≠ e.2 ∧ (μ e).isSome then 2 else 0 := by
  obtain ⟨n1, n2, n3, f0, f1, f2, d01, d12, d02⟩ := hl
  have g0 := hnew (a, b)
  have g1 := hnew (b, c)
  have g2 := hnew (c, a)
  simp only [Tri.darts, Tri.verts, List.mem_cons, List.not_mem_nil, or_false, forall_eq_or_imp, forall_eq, exists_eq_or_imp,
    exists_eq_left] at hside hsome hnone ⊢
  rcases h0 : μ (a, b) with _ | m0 <;> rcases h1 : μ (b, c) with _ | m1 <;> rcases h2 : μ (c, a) with _ | m2 <;>
    simp only [h0, h1, h2, reduceCtorEq, Option.some.injEq, forall_eq', false_implies, forall_const, implies_true, imp_false, not_or,
      true_and, and_true, ne_eq, true_implies] at f0 f1 f2 d01 d12 d02 hside hsome hnone g0 g1 g2 <;>
    simp only [Tri.children, h0, h1, h2, Tri.verts, List.countP_cons, List.countP_nil, List.mem_cons, List.not_mem_nil, or_false,
      decide_eq_true_eq, reduceCtorEq, Option.some.injEq, false_or, Option.isSome_none, Option.isSome_some, Bool.false_eq_true] <;> grind

end one

section step
variable {P D : Type} {m m' : Mesh P D} {sel sel' : List CId} {v : PId}

theorem countP_flatMap_add {α β : Type} (l : List α) (g : α → List β) (p : β → Bool) (q r : α → Bool)
    (h : ∀ a ∈ l, (g a).countP p = (if q a then 1 else 0) + if r a then 1 else 0) :
    (l.flatMap g).countP p = l.countP q + l.countP r := by
  induction l with
  | nil => simp
  | cons a l ih =>
    rw [List.flatMap_cons, List.countP_append, List.countP_cons, List.countP_cons, h a (by simp),
      ih fun b hb => h b (by simp [hb])]
    omega

theorem countP_flatMap_two {α β : Type} (l : List α) (g : α → List β) (p : β → Bool) (r : α → Bool)
    (h : ∀ a ∈ l, (g a).countP p = if r a then 2 else 0) : (l.flatMap g).countP p = 2 * l.countP r := by
  induction l with
  | nil => simp
  | cons a l ih =>
    rw [List.flatMap_cons, List.countP_append, List.countP_cons, h a (by simp), ih fun b hb => h b (by simp [hb])]
    split <;> omega

theorem Mesh.SelEdge.iff {e : Edge} : m.SelEdge sel e ↔ (m.edgePoint sel e).isSome := (edgePoint_isSome m sel e).symm

/-- the next selected triangles: children of the triangles with three split edges -/
theorem FaceSplitStep.mem_next (h : FaceSplitStep m sel m' sel') : ∀ d, d ∈ m'.selected sel' ↔
    ∃ t ∈ m.tris, d ∈ t.children (m.edgePoint sel) ∧ ∀ e ∈ t.darts, (m.edgePoint sel e).isSome := by
  have full : ∀ {t : Tri}, t ∈ m.tris → ((t.children (m.edgePoint sel)).length = 4 ↔ ∀ e ∈ t.darts, (m.edgePoint sel e).isSome) := by
    rintro ⟨a, b, c⟩ -
    rcases h0 : m.edgePoint sel (a, b) with _ | m0 <;> rcases h1 : m.edgePoint sel (b, c) with _ | m1 <;>
      rcases h2 : m.edgePoint sel (c, a) with _ | m2 <;> simp [Tri.children, Tri.darts, h0, h1, h2]
  intro d
  rw [h.valid.mem_selected h.next_some]
  constructor
  · rintro ⟨k, hk, hc⟩
    obtain ⟨t, ht, h1, h2⟩ := (h.next k d hc).1 hk
    exact ⟨t, ht, h1, (full ht).1 h2⟩
  · rintro ⟨t, ht, h1, h2⟩
    have : d ∈ m'.tris := by rw [h.tris]; exact List.mem_flatMap.2 ⟨t, ht, h1⟩
    obtain ⟨k, hk⟩ := h.valid.mem_tris.1 this
    exact ⟨k, (h.next k d hk).2 ⟨t, ht, h1, (full ht).2 h2⟩, hk⟩

/-- the halves of an edge of the refined part are edges of the refined part -/
theorem FaceSplitStep.halves (h : FaceSplitStep m sel m' sel') (hv : m.Valid) : ∀ e x, m.edgePoint sel e = some x →
    m'.SelEdge sel' (e.1, x) ∧ m'.SelEdge sel' (x, e.2) := by
  have hsel' := h.mem_next
  have symN : ∀ e : Edge, m'.SelEdge sel' e → m'.SelEdge sel' e.sym := fun e he => by
    unfold Mesh.SelEdge at *
    rw [Edge.sym_sym]; exact he.symm
  have key : ∀ e x, e ∈ dartsOf (m.selected sel) → m.edgePoint sel e = some x →
      m'.SelEdge sel' (e.1, x) ∧ m'.SelEdge sel' (x, e.2) := by
    intro e x he hx
    obtain ⟨t, ht, het⟩ := mem_dartsOf.1 he
    have htm := hv.selected_subset _ t ht
    have hall : ∀ e ∈ t.darts, (m.edgePoint sel e).isSome := fun e' he' =>
      (edgePoint_isSome m sel e').2 (Or.inl (mem_dartsOf.2 ⟨t, ht, he'⟩))
    obtain ⟨g1, g2⟩ := children_halves _ t het hx
    obtain ⟨d1, k1, k2⟩ := mem_dartsOf.1 g1
    obtain ⟨d2, k3, k4⟩ := mem_dartsOf.1 g2
    exact ⟨Or.inl (mem_dartsOf.2 ⟨d1, (hsel' d1).2 ⟨t, htm, k1, hall⟩, k2⟩),
      Or.inl (mem_dartsOf.2 ⟨d2, (hsel' d2).2 ⟨t, htm, k3, hall⟩, k4⟩)⟩
  intro e x hx
  rcases (edgePoint_isSome m sel e).1 (by rw [hx]; rfl) with h1 | h1
  · exact key e x h1 hx
  · obtain ⟨g1, g2⟩ := key _ x h1 ((labelOf_sym _ _ e).trans hx)
    exact ⟨symN _ g2, symN _ g1⟩

/-- the edges at a point outside are not split -/
theorem Mesh.Outside.side (ho : m.Outside sel v) : ∀ e : Edge, v = e.1 ∨ v = e.2 → m.edgePoint sel e = none := by
  intro e he
  by_contra hc
  rcases (edgePoint_isSome m sel e).1 (Option.isSome_iff_ne_none.2 hc) with h1 | h1
  all_goals
    obtain ⟨t, ht, het⟩ := mem_dartsOf.1 h1
    have := Tri.dart_mem_verts het
    refine ho.2 t ht ?_
    rcases he with rfl | rfl
    · first | exact this.1 | exact this.2
    · first | exact this.2 | exact this.1

/-- one level: the triangles beside the refined part double -/
theorem FaceSplitStep.fan (h : FaceSplitStep m sel m' sel') (hv : m.Valid) (ho : m.Outside sel v) :
    m'.valence v = m.valence v + m.beside sel v ∧ m'.beside sel' v = 2 * m.beside sel v ∧ m'.Outside sel' v := by
  obtain ⟨⟨t0, ht0, hvt0⟩, hout⟩ := ho
  have hlt := hv.verts_lt ht0 hvt0
  have hL : Labelling m.tris (m.edgePoint sel) := 
    ⟨fun e => labelOf_sym _ _ e, fun e x hx t ht hxt => absurd (hv.verts_lt ht hxt) (Nat.not_lt.2 (labelOf_range hx).1),
      fun e e' x h1 h2 => labelOf_inj h1 h2⟩
  have hnew : ∀ e, m.edgePoint sel e ≠ some v := fun e he => absurd hlt (Nat.not_lt.2 (labelOf_range he).1)
  have hside := Mesh.Outside.side ⟨⟨t0, ht0, hvt0⟩, hout⟩
  have hsel' := h.mem_next
  have hsome := h.halves hv
  -- an edge between old points is not an edge of the refined part
  have hold : ∀ t ∈ m.tris, ∀ d ∈ t.children (m.edgePoint sel), (∀ e ∈ t.darts, (m.edgePoint sel e).isSome) → ∀ e ∈ d.darts,
      ¬ (e.1 < m.points.length ∧ e.2 < m.points.length) := by
    rintro ⟨a, b, c⟩ - d hd hall e he ⟨l1, l2⟩
    simp only [Tri.darts, List.mem_cons, List.not_mem_nil, or_false, forall_eq_or_imp, forall_eq, Option.isSome_iff_exists] at hall
    obtain ⟨⟨m0, h0⟩, ⟨m1, h1⟩, m2, h2⟩ := hall
    have r0 := (labelOf_range h0).1
    have r1 := (labelOf_range h1).1
    have r2 := (labelOf_range h2).1
    simp only [Tri.children, h0, h1, h2, List.mem_cons, List.not_mem_nil, or_false] at hd
    rcases hd with rfl | rfl | rfl | rfl <;> simp only [Tri.darts, List.mem_cons, List.not_mem_nil, or_false] at he <;>
      rcases he with rfl | rfl | rfl <;> first
        | exact absurd l1 (Nat.not_lt.2 r0) | exact absurd l1 (Nat.not_lt.2 r1) | exact absurd l1 (Nat.not_lt.2 r2)
        | exact absurd l2 (Nat.not_lt.2 r0) | exact absurd l2 (Nat.not_lt.2 r1) | exact absurd l2 (Nat.not_lt.2 r2)
  have hnone : ∀ t ∈ m.tris, ∀ e ∈ t.darts, m.edgePoint sel e = none → ¬ m'.SelEdge sel' e := by
    intro t ht e he _ hse
    have hb := Tri.dart_mem_verts he
    rcases hse with h1 | h1
    all_goals
      obtain ⟨d, hd, hed⟩ := mem_dartsOf.1 h1
      obtain ⟨t1, ht1, k1, k2⟩ := (hsel' d).1 hd
      refine hold t1 ht1 d k1 k2 _ hed ?_
    · exact ⟨hv.verts_lt ht hb.1, hv.verts_lt ht hb.2⟩
    · exact ⟨hv.verts_lt ht hb.2, hv.verts_lt ht hb.1⟩
  have hopp : ∀ t : Tri, m.Opposite sel v t ↔ v ∈ t.verts ∧ ∃ e ∈ t.darts, v ≠ e.1 ∧ v ≠ e.2 ∧ (m.edgePoint sel e).isSome := by
    intro t
    unfold Mesh.Opposite
    simp only [Mesh.SelEdge.iff]
  have hval : m'.valence v = m.valence v + m.beside sel v := by
    unfold Mesh.valence Mesh.beside
    rw [h.tris]
    refine countP_flatMap_add _ _ _ _ _ ?_
    rintro ⟨a, b, c⟩ ht
    simp only [decide_eq_true_eq, hopp]
    exact children_fan (loc hv.good hL ht) hnew fun e _ => hside e
  refine ⟨hval, ?_, ?_, ?_⟩
  · unfold Mesh.beside
    rw [h.tris]
    refine countP_flatMap_two _ _ _ _ ?_
    rintro ⟨a, b, c⟩ ht
    simp only [decide_eq_true_eq, hopp]
    exact children_beside (N := m'.SelEdge sel') (loc hv.good hL ht) hnew (fun e _ => hside e) (fun e _ => hsome e) (hnone _ ht)
  · have : 0 < m'.tris.countP fun t => decide (v ∈ t.verts) := by
      change 0 < m'.valence v
      rw [hval]
      have : 0 < m.valence v := List.countP_pos_iff.2 ⟨t0, ht0, by simpa using hvt0⟩
      omega
    obtain ⟨t, ht, h1⟩ := List.countP_pos_iff.1 this
    exact ⟨t, ht, by simpa using h1⟩
  · intro d hd hvd
    obtain ⟨t, ht, k1, k2⟩ := (hsel' d).1 hd
    have hvt : v ∈ t.verts := by
      obtain ⟨a, b, c⟩ := t
      rcases children_verts d k1 v hvd with h1 | ⟨e, -, h1⟩
      · exact h1
      · exact absurd h1 (hnew e)
    obtain ⟨e, he, h1⟩ : ∃ e ∈ t.darts, v = e.1 := by
      obtain ⟨a, b, c⟩ := t
      simp only [Tri.verts, List.mem_cons, List.not_mem_nil, or_false] at hvt
      rcases hvt with rfl | rfl | rfl
      · exact ⟨(v, b), by simp [Tri.darts], rfl⟩
      · exact ⟨(v, c), by simp [Tri.darts], rfl⟩
      · exact ⟨(v, a), by simp [Tri.darts], rfl⟩
    have := k2 e he
    rw [hside e (.inl h1)] at this
    cases this

/-- any number of levels -/
theorem Refined.fan {sch : Scheme} (hs : sch ≠ .sqrt3) {n : Nat} (h : Refined sch n m sel m' sel') (hv : m.Valid)
    (ho : m.Outside sel v) : m'.valence v = m.valence v + (2 ^ n - 1) * m.beside sel v ∧
      m'.beside sel' v = 2 ^ n * m.beside sel v ∧ m'.Outside sel' v := by
  induction h with
  | refl => exact ⟨by simp, by simp, ho⟩
  | @step n m m₁ _ sel sel₁ _ h1 _ ih =>
    have h1' : FaceSplitStep m sel m₁ sel₁ := by
      cases sch with
      | sqrt3 => exact absurd rfl hs
      | _ => exact h1
    obtain ⟨g1, g2, g3⟩ := h1'.fan hv ho
    obtain ⟨k1, k2, k3⟩ := ih h1'.valid g3
    refine ⟨?_, ?_, k3⟩
    · rw [k1, g1, g2]
      have : 1 ≤ 2 ^ n := Nat.one_le_two_pow
      obtain ⟨k, hk⟩ := Nat.exists_eq_add_of_le this
      rw [Nat.pow_succ, hk]
      have e1 : 1 + k - 1 = k := by omega
      have e2 : (1 + k) * 2 - 1 = 1 + 2 * k := by omega
      rw [e1, e2]; ring
    · rw [k2, g2, Nat.pow_succ, Nat.mul_assoc]

end step
end Verif
