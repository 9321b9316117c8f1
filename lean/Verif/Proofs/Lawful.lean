import Verif.Proofs.FaceSplit
import Mathlib.GroupTheory.Perm.Cycle.Basic
import Mathlib.Logic.Equiv.Fintype
import Mathlib.Data.Fintype.Perm
/-
The ring laws asked of the mesh library can be met: every valid mesh has rings that obey them.
-/
namespace Verif
open Equiv

section cycles
variable {α : Type} [Fintype α] [DecidableEq α]

omit [Fintype α] [DecidableEq α] in
theorem sameCycle_of_closed (π : Perm α) [Finite α] (B : α → Prop) (hB : ∀ x, B x → B (π x)) {x y : α} (hx : B x)
    (h : π.SameCycle x y) : B y := by
  obtain ⟨n, hn⟩ := h.exists_nat_pow_eq
  rw [← hn]
  clear hn h
  induction n generalizing x with
  | zero => simpa using hx
  | succ n ih => rw [pow_succ, Perm.mul_apply]; exact ih (hB x hx)

/-- A partial injection without proper closed parts extends to a single cycle. -/
theorem exists_cycle (s : α → Option α) (inj : ∀ a b c, s a = some c → s b = some c → a = b)
    (closed : ∀ B : α → Prop, (∃ x, B x) → (∀ x, B x → ∃ y, s x = some y ∧ B y) → ∀ x, B x) :
    ∃ π : Perm α, (∀ x y, s x = some y → π x = y) ∧ ∀ x y, π.SameCycle x y := by
  classical
  -- some permutation extends `s`
  have hex : ∃ π : Perm α, ∀ x y, s x = some y → π x = y := by
    let f : {x // (s x).isSome} → {y // ∃ x, s x = some y} :=
      fun x => ⟨(s x.1).get x.2, x.1, by simp⟩
    have hf : Function.Bijective f := by
      constructor
      · rintro ⟨a, ha⟩ ⟨b, hb⟩ hab
        simp only [f, Subtype.mk.injEq] at hab ⊢
        exact inj a b ((s a).get ha) (by simp) (by rw [hab]; simp)
      · rintro ⟨y, x, hx⟩
        exact ⟨⟨x, by rw [hx]; rfl⟩, by simp [f, hx]⟩
    let e := Equiv.ofBijective f hf
    refine ⟨e.extendSubtype, ?_⟩
    intro x y hxy
    have hx : (s x).isSome := by rw [hxy]; rfl
    rw [Equiv.extendSubtype_apply_of_mem e x hx]
    simp [e, f, hxy]
  by_cases hne : Nonempty α
  · obtain ⟨x0⟩ := hne
    let good : Finset (Perm α) := Finset.univ.filter fun π => ∀ x y, s x = some y → π x = y
    let size : Perm α → Nat := fun π => (Finset.univ.filter fun y => π.SameCycle x0 y).card
    obtain ⟨π0, hπ0⟩ := hex
    obtain ⟨π, hπ, hmax⟩ := good.exists_max_image size ⟨π0, by simpa [good] using hπ0⟩
    have hext : ∀ x y, s x = some y → π x = y := by simpa [good] using hπ
    refine ⟨π, hext, ?_⟩
    have free : ∀ x, (∃ z, ¬ π.SameCycle x z) → ∃ a, π.SameCycle x a ∧ s a = none := by
      intro x ⟨z, hz⟩
      by_contra hcon
      push Not at hcon
      apply hz
      apply closed (fun y => π.SameCycle x y) ⟨x, Perm.SameCycle.refl _ _⟩
      intro y hy
      obtain ⟨w, hw⟩ := Option.ne_none_iff_exists'.1 (hcon y hy)
      exact ⟨w, hw, by rw [← hext y w hw]; exact hy.apply_right⟩
    have hall : ∀ y, π.SameCycle x0 y := by
      by_contra hcon
      push Not at hcon
      obtain ⟨y0, hy0⟩ := hcon
      obtain ⟨a, ha, hsa⟩ := free x0 ⟨y0, hy0⟩
      obtain ⟨a', ha', hsa'⟩ := free y0 ⟨x0, fun h => hy0 h.symm⟩
      have hna : ¬ π.SameCycle x0 a' := fun h => hy0 (h.trans ha'.symm)
      have haa : a ≠ a' := fun h => hna (h ▸ ha)
      let π' : Perm α := π * swap a a'
      have hπ'a : π' a = π a' := by simp [π']
      have hπ'a' : π' a' = π a := by simp [π']
      have hπ'x : ∀ x, x ≠ a → x ≠ a' → π' x = π x := by
        intro x h1 h2; simp [π', swap_apply_of_ne_of_ne h1 h2]
      have hext' : π' ∈ good := by
        simp only [good, Finset.mem_filter, Finset.mem_univ, true_and]
        intro x y hxy
        rw [hπ'x x (by rintro rfl; rw [hsa] at hxy; cases hxy) (by rintro rfl; rw [hsa'] at hxy; cases hxy)]
        exact hext x y hxy
      have h1 : π'.SameCycle x0 a := by
        by_contra hc
        apply hc
        have := sameCycle_of_closed π (fun y => π'.SameCycle x0 y ∧ π.SameCycle x0 y) (x := x0) (y := a) ?_
          ⟨Perm.SameCycle.refl _ _, Perm.SameCycle.refl _ _⟩ ha
        · exact this.1
        · rintro x ⟨h1, h2⟩
          refine ⟨?_, h2.apply_right⟩
          rw [← hπ'x x (by rintro rfl; exact hc h1) (by rintro rfl; exact hna h2)]
          exact h1.apply_right
      have h2 : π'.SameCycle x0 a' := by
        by_contra hc
        apply hc
        have := sameCycle_of_closed π (fun y => π'.SameCycle x0 y ∧ π.SameCycle y0 y) (x := π a') (y := a') ?_
          ⟨by rw [← hπ'a]; exact h1.apply_right, ha'.apply_right⟩ (Perm.SameCycle.refl π a').apply_left
        · exact this.1
        · rintro x ⟨h1, h2⟩
          refine ⟨?_, h2.apply_right⟩
          rw [← hπ'x x (by rintro rfl; exact hy0 (ha.trans h2.symm)) (by rintro rfl; exact hc h1)]
          exact h1.apply_right
      have hsub : ∀ y, π.SameCycle x0 y → π'.SameCycle x0 y := by
        intro y hy
        refine sameCycle_of_closed π (fun y => π'.SameCycle x0 y) ?_ (Perm.SameCycle.refl _ _) hy
        intro x hx
        by_cases hxa : x = a
        · rw [hxa, ← hπ'a']; exact h2.apply_right
        · by_cases hxa' : x = a'
          · rw [hxa', ← hπ'a]; exact h1.apply_right
          · rw [← hπ'x x hxa hxa']; exact hx.apply_right
      have hlt : size π < size π' := by
        apply Finset.card_lt_card
        rw [Finset.ssubset_iff_of_subset]
        · exact ⟨a', by simpa using h2, by simpa using hna⟩
        · intro y hy
          simp only [Finset.mem_filter, Finset.mem_univ, true_and] at hy ⊢
          exact hsub y hy
      exact absurd (hmax π' hext') (by omega)
    exact fun x y => (hall x).symm.trans (hall y)
  · refine ⟨Equiv.refl α, ?_, ?_⟩
    · intro x; exact absurd ⟨x⟩ hne
    · intro x; exact absurd ⟨x⟩ hne

end cycles

variable {P D : Type}

/-- Every valid mesh has rings that obey the laws. -/
theorem Mesh.Valid.exists_ring {m : Mesh P D} (h : m.Valid) : ∃ R, Mesh.RingOK { m with ring := R } := by
  classical
  -- the cycle around each point
  have hcyc : ∀ v : PId, ∃ nx pv : PId → PId, (∀ x, m.IsEdge (v, x) → m.IsEdge (v, nx x) ∧ m.IsEdge (v, pv x) ∧
      pv (nx x) = x ∧ nx (pv x) = x) ∧ (∀ x y, HasTri m.tris v x y → nx x = y) ∧
      ∀ x y, m.IsEdge (v, x) → m.IsEdge (v, y) → ∃ k, nx^[k] x = y := by
    intro v
    let α := {w : PId // m.IsEdge (v, w)}
    have hfin : Finite α := by
      have : Set.Finite {w : PId | m.IsEdge (v, w)} := by
        refine Set.Finite.subset (List.finite_toSet ((m.edges ++ m.edges.map Edge.sym).map Prod.snd)) ?_
        intro w hw
        simp only [Set.mem_setOf_eq] at hw ⊢
        rw [List.mem_map]
        refine ⟨(v, w), ?_, rfl⟩
        rw [List.mem_append, List.mem_map]
        rcases hw with hw | hw
        · exact Or.inl hw
        · exact Or.inr ⟨_, hw, by simp⟩
      exact this
    have : Fintype α := Fintype.ofFinite α
    have e1 : ∀ {x y}, HasTri m.tris v x y → m.IsEdge (v, x) := fun ht => (h.edges_iff _).2 (Or.inl ht.dart)
    have e2 : ∀ {x y}, HasTri m.tris v x y → m.IsEdge (v, y) := fun ht => (h.edges_iff _).2 (Or.inr ht.rot.rot.dart)
    let s : α → Option α := fun x =>
      if hx : ∃ y, HasTri m.tris v x.1 y then some ⟨hx.choose, e2 hx.choose_spec⟩ else none
    have hs : ∀ (x y : α), s x = some y ↔ HasTri m.tris v x.1 y.1 := by
      intro x y
      simp only [s]
      constructor
      · intro hxy
        split at hxy
        · rename_i hx
          have := Option.some.inj hxy
          rw [← this]
          exact hx.choose_spec
        · cases hxy
      · intro hxy
        have hx : ∃ y, HasTri m.tris v x.1 y := ⟨_, hxy⟩
        rw [dif_pos hx]
        congr 1
        apply Subtype.ext
        exact h.good.hasTri_unique hx.choose_spec hxy
    have hinj : ∀ a b c, s a = some c → s b = some c → a = b := by
      intro a b c hac hbc
      rw [hs] at hac hbc
      have : HasTri m.tris c.1 v a.1 := hac.rot.rot
      have h2 : HasTri m.tris c.1 v b.1 := hbc.rot.rot
      exact Subtype.ext (h.good.hasTri_unique this h2)
    have hcl : ∀ B : α → Prop, (∃ x, B x) → (∀ x, B x → ∃ y, s x = some y ∧ B y) → ∀ x, B x := by
      intro B ⟨x0, hx0⟩ hB
      -- the closed part has predecessors as well
      have hsurj : ∀ x, B x → ∃ w, B w ∧ s w = some x := by
        let g : {x // B x} → {x // B x} := fun x => ⟨(hB x.1 x.2).choose, (hB x.1 x.2).choose_spec.2⟩
        have hg : Function.Injective g := by
          rintro ⟨a, ha⟩ ⟨b, hb⟩ hab
          simp only [g, Subtype.mk.injEq] at hab ⊢
          have h1 := (hB a ha).choose_spec.1
          have h2 := (hB b hb).choose_spec.1
          rw [hab] at h1
          rw [hs] at h1 h2
          have h1' : HasTri m.tris _ v a.1 := h1.rot.rot
          have h2' : HasTri m.tris _ v b.1 := h2.rot.rot
          exact Subtype.ext (h.good.hasTri_unique h1' h2')
        have hg2 := Finite.surjective_of_injective hg
        intro x hx
        obtain ⟨⟨w, hw⟩, hwx⟩ := hg2 ⟨x, hx⟩
        refine ⟨w, hw, ?_⟩
        have h1 := (hB w hw).choose_spec.1
        simp only [g, Subtype.mk.injEq] at hwx
        rw [hwx] at h1
        exact h1
      let A : PId → PId → Prop := fun x y => ∃ (a b : α), a.1 = x ∧ b.1 = y ∧ B a ∧ B b ∧ HasTri m.tris v a.1 b.1
      have hA := h.good.fans v A ?_ ?_ ?_
      · intro x
        rcases (h.edges_iff _).1 x.2 with hd | hd
        · obtain ⟨z, hz⟩ := dartsOf_iff_hasTri.1 hd
          obtain ⟨a, b, h1, _, h3, _⟩ := hA _ _ hz
          rw [← Subtype.ext h1]; exact h3
        · obtain ⟨z, hz⟩ := dartsOf_iff_hasTri.1 hd
          obtain ⟨a, b, _, h1, _, h3, _⟩ := hA _ _ hz.rot
          rw [← Subtype.ext h1]; exact h3
      · rintro x y ⟨a, b, rfl, rfl, _, _, ht⟩; exact ht
      · obtain ⟨y, h1, h2⟩ := hB x0 hx0
        exact ⟨x0.1, y.1, x0, y, rfl, rfl, hx0, h2, (hs _ _).1 h1⟩
      · rintro x y ⟨a, b, rfl, rfl, ha, hb, ht⟩
        obtain ⟨w, hw, hw'⟩ := hsurj a ha
        obtain ⟨z, hz, hz'⟩ := hB b hb
        exact ⟨⟨w.1, w, a, rfl, rfl, hw, ha, (hs _ _).1 hw'⟩, ⟨z.1, b, z, rfl, rfl, hb, hz', (hs _ _).1 hz⟩⟩
    obtain ⟨π, hπ, hπc⟩ := exists_cycle s hinj hcl
    let nx : PId → PId := fun x => if hx : m.IsEdge (v, x) then (π ⟨x, hx⟩).1 else x
    let pv : PId → PId := fun x => if hx : m.IsEdge (v, x) then (π.symm ⟨x, hx⟩).1 else x
    have hnx : ∀ (x : α), nx x.1 = (π x).1 := by intro x; simp only [nx]; rw [dif_pos x.2]
    have hpv : ∀ (x : α), pv x.1 = (π.symm x).1 := by intro x; simp only [pv]; rw [dif_pos x.2]
    refine ⟨nx, pv, ?_, ?_, ?_⟩
    · intro x hx
      have a1 := hnx ⟨x, hx⟩
      have a2 := hpv ⟨x, hx⟩
      simp only at a1 a2
      refine ⟨by rw [a1]; exact (π ⟨x, hx⟩).2, by rw [a2]; exact (π.symm ⟨x, hx⟩).2, ?_, ?_⟩
      · rw [a1, hpv]; simp
      · rw [a2, hnx]; simp
    · intro x y hxy
      rw [show x = (⟨x, e1 hxy⟩ : α).1 from rfl, hnx]
      rw [hπ _ ⟨y, e2 hxy⟩ ((hs _ _).2 hxy)]
    · intro x y hx hy
      obtain ⟨n, hn⟩ := (hπc ⟨x, hx⟩ ⟨y, hy⟩).exists_nat_pow_eq
      refine ⟨n, ?_⟩
      have : ∀ (n : Nat) (x : α), nx^[n] x.1 = ((π ^ n) x).1 := by
        intro n
        induction n with
        | zero => intro x; rfl
        | succ n ih => intro x; rw [Function.iterate_succ_apply, hnx, ih, pow_succ, Perm.mul_apply]
      have h2 := this n ⟨x, hx⟩
      rw [hn] at h2
      exact h2
  choose nx pv h1 h2 h3 using hcyc
  have hpe : ∃ pe : PId → Option Edge, (∀ v e, pe v = some e → m.IsEdge e ∧ e.1 = v) ∧
      ∀ e, m.IsEdge e → (pe e.1).isSome := by
    refine ⟨fun v => if hv : ∃ w, m.IsEdge (v, w) then some (v, hv.choose) else none, ?_, ?_⟩
    · intro v e he
      simp only at he
      split at he
      · rename_i hv
        cases he
        exact ⟨hv.choose_spec, rfl⟩
      · cases he
    · rintro ⟨v, w⟩ he
      have : ∃ w, m.IsEdge (v, w) := ⟨w, he⟩
      simp [this]
  obtain ⟨pe, hpe1, hpe2⟩ := hpe
  refine ⟨⟨fun e => some (e.1, nx e.1 e.2), fun e => some (e.1, pv e.1 e.2), pe⟩, ?_, ?_, ?_, ?_, hpe1, hpe2⟩
  · rintro ⟨v, x⟩ he
    exact ⟨_, rfl, (h1 v x he).1, rfl⟩
  · rintro ⟨v, x⟩ ⟨v', x'⟩ he he'
    simp only [Option.some.injEq, Prod.mk.injEq]
    constructor
    · rintro ⟨rfl, rfl⟩
      exact ⟨rfl, (h1 _ x' he').2.2.2⟩
    · rintro ⟨rfl, rfl⟩
      exact ⟨rfl, (h1 _ x he).2.2.1⟩
  · rintro ⟨v, x⟩ ⟨v', x'⟩ he he' heq
    simp only at heq
    subst heq
    obtain ⟨k, hk⟩ := h3 v x x' he he'
    refine ⟨k, ?_⟩
    have : ∀ (k : Nat), Mesh.onextIter { m with ring := ⟨fun e => some (e.1, nx e.1 e.2), fun e => some (e.1, pv e.1 e.2),
        pe⟩ } k (v, x) = some (v, (nx v)^[k] x) := by
      intro k
      induction k with
      | zero => rfl
      | succ k ih => rw [Mesh.onextIter, ih, Function.iterate_succ_apply']; rfl
    rw [this k, hk]
  · intro x y z ht
    have := h2 x y z ht
    simp only [this]

/-- the laws only speak about edges, faces and rings -/
theorem Mesh.RingOK.congr {P' D' : Type} {m : Mesh P D} {m' : Mesh P' D'} (h : m.RingOK) (h1 : m'.edges = m.edges)
    (h2 : m'.cells = m.cells) (h3 : m'.ring = m.ring) : m'.RingOK := by
  have hE : ∀ e, m'.IsEdge e ↔ m.IsEdge e := by intro e; unfold Mesh.IsEdge; rw [h1]
  have hT : m'.tris = m.tris := by unfold Mesh.tris; rw [h2]
  have hI : ∀ k e, m'.onextIter k e = m.onextIter k e := by
    intro k e
    induction k with
    | zero => rfl
    | succ k ih => simp only [Mesh.onextIter, ih, h3]
  constructor
  · intro e he
    obtain ⟨e', a, b, c⟩ := h.onext_some e ((hE e).1 he)
    exact ⟨e', by rw [h3]; exact a, (hE _).2 b, c⟩
  · intro e e' he he'
    rw [h3]; exact h.oprev_iff e e' ((hE _).1 he) ((hE _).1 he')
  · intro e e' he he' heq
    obtain ⟨k, hk⟩ := h.one_ring e e' ((hE _).1 he) ((hE _).1 he') heq
    exact ⟨k, (hI k e).trans hk⟩
  · intro x y z hx
    rw [hT] at hx
    rw [h3]; exact h.face x y z hx
  · intro v e he
    rw [h3] at he
    have := h.point_edge v e he
    exact ⟨(hE _).2 this.1, this.2⟩
  · intro e he
    rw [h3]; exact h.point_edge_some e ((hE _).1 he)

open Classical in
/-- some library that obeys the laws -/
noncomputable def someLib : QELib where
  link edges left cells :=
    if h : ∃ R, Mesh.RingOK (⟨[], cells, none, true, edges, left, R, none⟩ : Mesh Unit Unit) then h.choose
    else ⟨fun _ => none, fun _ => none, fun _ => none⟩

/-- The laws asked of the library are satisfiable. -/
theorem someLib_lawful : someLib.Lawful := by
  intro P D m hm
  obtain ⟨R, hR⟩ := hm.exists_ring
  have h : ∃ R, Mesh.RingOK (⟨[], m.cells, none, true, m.edges, m.left, R, none⟩ : Mesh Unit Unit) :=
    ⟨R, hR.congr rfl rfl rfl⟩
  have h2 := h.choose_spec
  unfold someLib
  simp only
  rw [dif_pos h]
  exact h2.congr rfl rfl rfl

end Verif
