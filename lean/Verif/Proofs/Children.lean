import Verif.Spec.FaceSplit
import Verif.Proofs.Surface
/-
Cutting the triangles of a good list gives a good list.
-/
namespace Verif

/-- directed edge `p → q` is `e` or a half of `e` -/
def OuterOf (μ : Edge → Option PId) (e : Edge) (p q : PId) : Prop :=
  (e = (p, q) ∧ μ e = none) ∨ (e.1 = p ∧ μ e = some q) ∨ (e.2 = q ∧ μ e = some p)

/-- `p → q` joins a new point with the opposite corner or with another new point, inside `t` -/
def InnerOf (μ : Edge → Option PId) (t : Tri) (p q : PId) : Prop :=
  (∃ e ∈ t.darts, μ e = some p ∧ q ∈ t.verts ∧ q ≠ e.1 ∧ q ≠ e.2) ∨
  (∃ e ∈ t.darts, μ e = some q ∧ p ∈ t.verts ∧ p ≠ e.1 ∧ p ≠ e.2) ∨
  (∃ e ∈ t.darts, ∃ e' ∈ t.darts, e ≠ e' ∧ μ e = some p ∧ μ e' = some q)

theorem InnerOf.symm {μ : Edge → Option PId} {t : Tri} {p q : PId} (h : InnerOf μ t p q) : InnerOf μ t q p := by
  rcases h with h | h | ⟨e, he, e', he', hne, h1, h2⟩
  · exact Or.inr (Or.inl h)
  · exact Or.inl h
  · exact Or.inr (Or.inr ⟨e', he', e, he, hne.symm, h2, h1⟩)

theorem OuterOf.symm {T : List Tri} {μ : Edge → Option PId} (hμ : Labelling T μ) {e : Edge} {p q : PId}
    (h : OuterOf μ e p q) : OuterOf μ e.sym q p := by
  unfold OuterOf at *
  rw [hμ.sym]
  rcases h with ⟨rfl, h⟩ | ⟨rfl, h⟩ | ⟨rfl, h⟩
  · exact Or.inl ⟨rfl, h⟩
  · exact Or.inr (Or.inr ⟨rfl, h⟩)
  · exact Or.inr (Or.inl ⟨rfl, h⟩)

section
variable {T : List Tri} {μ : Edge → Option PId} (hμ : Labelling T μ)
include hμ

theorem fresh_ne {t : Tri} (ht : t ∈ T) {e : Edge} {m v : PId} (h : μ e = some m) (hv : v ∈ t.verts) : v ≠ m :=
  fun hc => hμ.fresh e m h t ht (hc ▸ hv)

/-- an outer directed edge determines the edge it is part of -/
theorem outer_unique {t t' : Tri} (ht : t ∈ T) (ht' : t' ∈ T) {e e' : Edge} (he : e ∈ t.darts) (he' : e' ∈ t'.darts)
    {p q : PId} (h : OuterOf μ e p q) (h' : OuterOf μ e' p q) : e = e' := by
  have f1 := Tri.dart_fst he
  have f2 := Tri.dart_snd he
  have f1' := Tri.dart_fst he'
  have f2' := Tri.dart_snd he'
  rcases h with ⟨rfl, h⟩ | ⟨h1, h⟩ | ⟨h1, h⟩ <;> rcases h' with ⟨h1', h'⟩ | ⟨h1', h'⟩ | ⟨h1', h'⟩
  · exact h1'.symm
  · exact absurd rfl (fresh_ne hμ ht h' f2)
  · exact absurd rfl (fresh_ne hμ ht h' f1)
  · subst h1'; exact absurd rfl (fresh_ne hμ ht' h f2')
  · rcases hμ.inj e e' q h h' with hh | hh
    · exact hh.symm
    · subst hh
      have : e.1 = e.2 := by rw [h1, ← h1']; rfl
      rw [Prod.ext_iff]; exact ⟨this, this.symm⟩
  · exact absurd h1 (fresh_ne hμ ht h' f1)
  · subst h1'; exact absurd rfl (fresh_ne hμ ht' h f1')
  · exact absurd h1' (fresh_ne hμ ht' h f1')
  · rcases hμ.inj e e' p h h' with hh | hh
    · exact hh.symm
    · subst hh
      have : e.1 = e.2 := by rw [h1, ← h1']; rfl
      rw [Prod.ext_iff]; exact ⟨this, this.symm⟩

/-- end points of an edge with the same new point -/
theorem endpoints_eq {e e' : Edge} {m : PId} (h : μ e = some m) (h' : μ e' = some m) (v : PId) :
    (v = e'.1 ∨ v = e'.2) ↔ (v = e.1 ∨ v = e.2) := by
  rcases hμ.inj e e' m h h' with rfl | rfl
  · rfl
  · simp only [Edge.sym_fst, Edge.sym_snd]; exact or_comm

theorem outer_not_inner {t t' : Tri} (ht : t ∈ T) (ht' : t' ∈ T) {e : Edge} (he : e ∈ t.darts)
    {p q : PId} (h : OuterOf μ e p q) (h' : InnerOf μ t' p q) : False := by
  have f1 := Tri.dart_fst he
  have f2 := Tri.dart_snd he
  rcases h with ⟨rfl, h⟩ | ⟨rfl, h⟩ | ⟨rfl, h⟩ <;>
    rcases h' with ⟨d, hd, h1, h2, h3, h4⟩ | ⟨d, hd, h1, h2, h3, h4⟩ | ⟨d, hd, d', hd', hne, h1, h2⟩
  · exact fresh_ne hμ ht h1 f1 rfl
  · exact fresh_ne hμ ht h1 f2 rfl
  · exact fresh_ne hμ ht h1 f1 rfl
  · exact fresh_ne hμ ht h1 f1 rfl
  · have := (endpoints_eq hμ h h1 e.1).2 (Or.inl rfl); tauto
  · exact fresh_ne hμ ht h1 f1 rfl
  · have := (endpoints_eq hμ h h1 e.2).2 (Or.inr rfl); tauto
  · exact fresh_ne hμ ht h1 f2 rfl
  · exact fresh_ne hμ ht h2 f2 rfl

/-- the corners of a triangle are the end points of two of its edges -/
theorem verts_of_two {t : Tri} {e e' : Edge} (he : e ∈ t.darts) (he' : e' ∈ t.darts) (hne : e ≠ e')
    {v : PId} (hv : v ∈ t.verts) : (v = e.1 ∨ v = e.2) ∨ (v = e'.1 ∨ v = e'.2) := by
  obtain ⟨a, b, c⟩ := t
  simp only [Tri.darts, Tri.verts, List.mem_cons, List.not_mem_nil, or_false] at he he' hv
  rcases he with rfl | rfl | rfl <;> rcases he' with rfl | rfl | rfl <;> rcases hv with rfl | rfl | rfl <;> simp at * 

theorem verts_of_opp {t : Tri} {e : Edge} (he : e ∈ t.darts) {z : PId} (hz : z ∈ t.verts) (h1 : z ≠ e.1)
    (h2 : z ≠ e.2) {v : PId} (hv : v ∈ t.verts) : (v = e.1 ∨ v = e.2) ∨ v = z := by
  obtain ⟨a, b, c⟩ := t
  simp only [Tri.darts, Tri.verts, List.mem_cons, List.not_mem_nil, or_false] at he hz hv
  rcases he with rfl | rfl | rfl <;> rcases hz with rfl | rfl | rfl <;> rcases hv with rfl | rfl | rfl <;> simp at *

/-- an inner directed edge determines the triangle it is in -/
theorem inner_unique (hg : GoodTris T) {t t' : Tri} (ht : t ∈ T) (ht' : t' ∈ T) {p q : PId}
    (h : InnerOf μ t p q) (h' : InnerOf μ t' p q) : t = t' := by
  refine hg.simplicial t ht t' ht' (fun v hv => ?_)
  have ends : ∀ {e d : Edge} {m : PId}, d ∈ t'.darts → μ e = some m → μ d = some m → (v = e.1 ∨ v = e.2) →
      v ∈ t'.verts := by
    intro e d m hd h1 h2 hve
    rcases (endpoints_eq hμ h1 h2 v).2 hve with rfl | rfl
    · exact Tri.dart_fst hd
    · exact Tri.dart_snd hd
  rcases h with ⟨e, he, h1, h2, h3, h4⟩ | ⟨e, he, h1, h2, h3, h4⟩ | ⟨e, he, e', he', hne, h1, h2⟩ <;>
    rcases h' with ⟨d, hd, g1, g2, g3, g4⟩ | ⟨d, hd, g1, g2, g3, g4⟩ | ⟨d, hd, d', hd', gne, g1, g2⟩
  · rcases verts_of_opp hμ he h2 h3 h4 hv with hve | rfl
    · exact ends hd h1 g1 hve
    · exact g2
  · exact absurd rfl (fresh_ne hμ ht' h1 g2)
  · exact absurd rfl (fresh_ne hμ ht g2 h2)
  · exact absurd rfl (fresh_ne hμ ht g1 h2)
  · rcases verts_of_opp hμ he h2 h3 h4 hv with hve | rfl
    · exact ends hd h1 g1 hve
    · exact g2
  · exact absurd rfl (fresh_ne hμ ht g1 h2)
  · exact absurd rfl (fresh_ne hμ ht' h2 g2)
  · exact absurd rfl (fresh_ne hμ ht' h1 g2)
  · rcases verts_of_two hμ he he' hne hv with hve | hve
    · exact ends hd h1 g1 hve
    · exact ends hd' h2 g2 hve

end

/-- the ids in and around one triangle are different -/
structure Local (μ : Edge → Option PId) (a b c : PId) : Prop where
  ab : a ≠ b
  bc : b ≠ c
  ca : c ≠ a
  f0 : ∀ m, μ (a, b) = some m → m ≠ a ∧ m ≠ b ∧ m ≠ c
  f1 : ∀ m, μ (b, c) = some m → m ≠ a ∧ m ≠ b ∧ m ≠ c
  f2 : ∀ m, μ (c, a) = some m → m ≠ a ∧ m ≠ b ∧ m ≠ c
  d01 : ∀ m m', μ (a, b) = some m → μ (b, c) = some m' → m ≠ m'
  d12 : ∀ m m', μ (b, c) = some m → μ (c, a) = some m' → m ≠ m'
  d02 : ∀ m m', μ (a, b) = some m → μ (c, a) = some m' → m ≠ m'

theorem Labelling.local {T : List Tri} {μ : Edge → Option PId} (hμ : Labelling T μ) {a b c : PId}
    (ht : ((a, b, c) : Tri) ∈ T) (hn : Tri.Nondeg (a, b, c)) : Local μ a b c := by
  obtain ⟨h1, h2, h3⟩ := hn
  simp only at h1 h2 h3
  have fr : ∀ e m, μ e = some m → m ≠ a ∧ m ≠ b ∧ m ≠ c := by
    intro e m h
    have := hμ.fresh e m h _ ht
    simpa [Tri.verts, not_or] using this
  have dd : ∀ {e e' : Edge} {m m' : PId}, e ≠ e' → e ≠ e'.sym → μ e = some m → μ e' = some m' → m ≠ m' := by
    rintro e e' m m' n1 n2 g1 g2 rfl
    rcases hμ.inj e' e m g2 g1 with rfl | rfl
    · exact n1 rfl
    · exact n2 rfl
  refine ⟨h1, h2, h3, fr _, fr _, fr _, ?_, ?_, ?_⟩
  · intro m m'; apply dd <;> simp <;> tauto
  · intro m m'; apply dd <;> simp <;> tauto
  · intro m m'; apply dd <;> simp <;> tauto

theorem children_nodup {μ : Edge → Option PId} {a b c : PId} (hl : Local μ a b c) :
    (dartsOf (Tri.children μ (a, b, c))).Nodup ∧ ∀ d ∈ Tri.children μ (a, b, c), d.Nondeg := by
  obtain ⟨n1, n2, n3, f0, f1, f2, d01, d12, d02⟩ := hl
  rcases h0 : μ (a, b) with _ | m0 <;> rcases h1 : μ (b, c) with _ | m1 <;>
    rcases h2 : μ (c, a) with _ | m2 <;>
    simp [h0, h1, h2] at f0 f1 f2 d01 d12 d02 <;>
    simp [dartsOf, Tri.children, Tri.darts, h0, h1, h2, Tri.Nondeg] <;> grind

theorem children_darts {μ : Edge → Option PId} {a b c : PId} (hl : Local μ a b c) :
    ∀ d ∈ Tri.children μ (a, b, c), ∀ p q, (p, q) ∈ d.darts →
      (∃ e ∈ Tri.darts (a, b, c), OuterOf μ e p q) ∨ InnerOf μ (a, b, c) p q := by
  obtain ⟨n1, n2, n3, f0, f1, f2, d01, d12, d02⟩ := hl
  rcases h0 : μ (a, b) with _ | m0 <;> rcases h1 : μ (b, c) with _ | m1 <;>
    rcases h2 : μ (c, a) with _ | m2 <;>
    simp [h0, h1, h2] at f0 f1 f2 d01 d12 d02 <;>
    simp [OuterOf, InnerOf, Tri.children, Tri.darts, Tri.verts, h0, h1, h2] <;> grind

theorem children_inner {μ : Edge → Option PId} {a b c : PId} (hl : Local μ a b c) :
    ∀ d ∈ Tri.children μ (a, b, c), (∃ e ∈ d.darts, InnerOf μ (a, b, c) e.1 e.2) ∨ d = (a, b, c) := by
  obtain ⟨n1, n2, n3, f0, f1, f2, d01, d12, d02⟩ := hl
  rcases h0 : μ (a, b) with _ | m0 <;> rcases h1 : μ (b, c) with _ | m1 <;>
    rcases h2 : μ (c, a) with _ | m2 <;>
    simp [h0, h1, h2] at f0 f1 f2 d01 d12 d02 <;>
    simp [InnerOf, Tri.children, Tri.darts, Tri.verts, h0, h1, h2] <;> grind

theorem children_no_reverse' {μ : Edge → Option PId} {a b c : PId} (hl : Local μ a b c) :
    ∀ d ∈ Tri.children μ (a, b, c), ∀ d' ∈ Tri.children μ (a, b, c), d' ≠ (d.2.2, d.2.1, d.1) ∧
      d' ≠ (d.2.1, d.1, d.2.2) ∧ d' ≠ (d.1, d.2.2, d.2.1) := by
  obtain ⟨n1, n2, n3, f0, f1, f2, d01, d12, d02⟩ := hl
  rcases h0 : μ (a, b) with _ | m0 <;> rcases h1 : μ (b, c) with _ | m1 <;>
    rcases h2 : μ (c, a) with _ | m2 <;>
    simp [h0, h1, h2] at f0 f1 f2 d01 d12 d02 <;>
    simp [Tri.children, h0, h1, h2] <;> grind

theorem children_no_reverse {μ : Edge → Option PId} {a b c : PId} (hl : Local μ a b c) :
    ∀ d ∈ Tri.children μ (a, b, c), ∀ d' ∈ Tri.children μ (a, b, c), ∀ x y z, d.Is x y z → d'.Is z y x → False := by
  intro d hd d' hd' x y z h h'
  have := children_no_reverse' hl d hd d' hd'
  rcases h with rfl | rfl | rfl <;> rcases h' with rfl | rfl | rfl <;> simp at this

theorem children_verts {μ : Edge → Option PId} {a b c : PId} :
    ∀ d ∈ Tri.children μ (a, b, c), ∀ v ∈ d.verts, v ∈ Tri.verts (a, b, c) ∨
      ∃ e ∈ Tri.darts (a, b, c), μ e = some v := by
  rcases h0 : μ (a, b) with _ | m0 <;> rcases h1 : μ (b, c) with _ | m1 <;>
    rcases h2 : μ (c, a) with _ | m2 <;>
    simp [Tri.children, Tri.verts, Tri.darts, h0, h1, h2]

/-- the arrows that the children of `t` have at a corner `v` -/
theorem children_corner {μ : Edge → Option PId} {a b c : PId} (hl : Local μ a b c) {v x y : PId}
    (hi : Tri.Is (a, b, c) v x y) :
    (∀ p q, HasTri (Tri.children μ (a, b, c)) v p q ↔
      p = (μ (v, x)).getD x ∧ q = (μ (y, v)).getD y) ∨
    (∀ p q, HasTri (Tri.children μ (a, b, c)) v p q ↔
      (p = (μ (v, x)).getD x ∧ q = (μ (x, y)).getD 0) ∨ (p = (μ (x, y)).getD 0 ∧ q = (μ (y, v)).getD y)) := by
  obtain ⟨n1, n2, n3, f0, f1, f2, d01, d12, d02⟩ := hl
  simp only [Tri.Is, Prod.mk.injEq] at hi
  rcases hi with ⟨rfl, rfl, rfl⟩ | ⟨rfl, rfl, rfl⟩ | ⟨rfl, rfl, rfl⟩ <;>
  rcases h0 : μ (a, b) with _ | m0 <;> rcases h1 : μ (b, c) with _ | m1 <;>
    rcases h2 : μ (c, a) with _ | m2 <;>
    simp [h0, h1, h2] at f0 f1 f2 d01 d12 d02 <;>
    simp [HasTri, Tri.children, h0, h1, h2] <;> grind

/-- three consecutive arrows `y ⟶ w ⟶ x` -/
def Path2 (A : PId → PId → Prop) (y w x : PId) : Prop := ∀ p q, A p q ↔ (p = y ∧ q = w) ∨ (p = w ∧ q = x)
/-- four consecutive arrows `y ⟶ w ⟶ w' ⟶ x` -/
def Path3 (A : PId → PId → Prop) (y w w' x : PId) : Prop :=
  ∀ p q, A p q ↔ (p = y ∧ q = w) ∨ (p = w ∧ q = w') ∨ (p = w' ∧ q = x)

theorem children_mid' {μ : Edge → Option PId} {a b c : PId} (hl : Local μ a b c) {x y z m : PId}
    (hi : Tri.Is (a, b, c) x y z) (hm : μ (x, y) = some m) :
    (Path2 (HasTri (Tri.children μ (a, b, c)) m) y z x ∨
     Path2 (HasTri (Tri.children μ (a, b, c)) m) y ((μ (y, z)).getD 0) x ∨
     Path2 (HasTri (Tri.children μ (a, b, c)) m) y ((μ (z, x)).getD 0) x) ∨
    (Path3 (HasTri (Tri.children μ (a, b, c)) m) y ((μ (y, z)).getD 0) z x ∨
     Path3 (HasTri (Tri.children μ (a, b, c)) m) y z ((μ (z, x)).getD 0) x ∨
     Path3 (HasTri (Tri.children μ (a, b, c)) m) y ((μ (y, z)).getD 0) ((μ (z, x)).getD 0) x) := by
  obtain ⟨n1, n2, n3, f0, f1, f2, d01, d12, d02⟩ := hl
  simp only [Tri.Is, Prod.mk.injEq] at hi
  rcases hi with ⟨rfl, rfl, rfl⟩ | ⟨rfl, rfl, rfl⟩ | ⟨rfl, rfl, rfl⟩ <;>
  rcases h0 : μ (a, b) with _ | m0 <;> rcases h1 : μ (b, c) with _ | m1 <;>
    rcases h2 : μ (c, a) with _ | m2 <;>
    simp [h0, h1, h2] at f0 f1 f2 d01 d12 d02 hm <;> try subst hm
  all_goals simp [Path2, Path3, HasTri, Tri.children, h0, h1, h2]
  all_goals grind

theorem children_mid {μ : Edge → Option PId} {a b c : PId} (hl : Local μ a b c) {x y z m : PId}
    (hi : Tri.Is (a, b, c) x y z) (hm : μ (x, y) = some m) :
    (∃ w, Path2 (HasTri (Tri.children μ (a, b, c)) m) y w x) ∨
    (∃ w w', Path3 (HasTri (Tri.children μ (a, b, c)) m) y w w' x) := by
  rcases children_mid' hl hi hm with (h | h | h) | (h | h | h)
  · exact Or.inl ⟨_, h⟩
  · exact Or.inl ⟨_, h⟩
  · exact Or.inl ⟨_, h⟩
  · exact Or.inr ⟨_, _, h⟩
  · exact Or.inr ⟨_, _, h⟩
  · exact Or.inr ⟨_, _, h⟩

section good
variable {T : List Tri} {μ : Edge → Option PId}

theorem hasTri_flatMap {T : List Tri} {f : Tri → List Tri} {x y z : PId} :
    HasTri (T.flatMap f) x y z ↔ ∃ t ∈ T, HasTri (f t) x y z := by
  simp only [hasTri_iff, List.mem_flatMap]
  constructor
  · rintro ⟨d, ⟨t, ht, hd⟩, h⟩; exact ⟨t, ht, d, hd, h⟩
  · rintro ⟨t, ht, d, hd, h⟩; exact ⟨d, ⟨t, ht, hd⟩, h⟩

variable (hg : GoodTris T) (hμ : Labelling T μ)
include hg hμ

theorem loc {t : Tri} (ht : t ∈ T) : Local μ t.1 t.2.1 t.2.2 := hμ.local ht (hg.nd t ht)

/-- every directed edge of a child is outer or inner -/
theorem child_dart {t d : Tri} (ht : t ∈ T) (hd : d ∈ t.children μ) {p q : PId} (h : (p, q) ∈ d.darts) :
    (∃ e ∈ t.darts, OuterOf μ e p q) ∨ InnerOf μ t p q :=
  children_darts (loc hg hμ ht) d hd p q h

/-- a directed edge of a child determines the parent triangle -/
theorem child_parent_unique {t t' d d' : Tri} (ht : t ∈ T) (ht' : t' ∈ T) (hd : d ∈ t.children μ)
    (hd' : d' ∈ t'.children μ) {p q : PId} (h : (p, q) ∈ d.darts) (h' : (p, q) ∈ d'.darts) : t = t' := by
  rcases child_dart hg hμ ht hd h with ⟨e, he, h1⟩ | h1 <;> rcases child_dart hg hμ ht' hd' h' with ⟨e', he', h2⟩ | h2
  · have := outer_unique hμ ht ht' he he' h1 h2
    subst this
    exact hg.eq_of_dart ht ht' he he'
  · exact (outer_not_inner hμ ht ht' he h1 h2).elim
  · exact (outer_not_inner hμ ht' ht he' h2 h1).elim
  · exact inner_unique hμ hg ht ht' h1 h2

/-- the other side of an outer edge is the other side of the edge it is part of -/
theorem child_across {t t' d' : Tri} (ht : t ∈ T) (ht' : t' ∈ T) {e : Edge} (he : e ∈ t.darts)
    (hd' : d' ∈ t'.children μ) {p q : PId} (h : OuterOf μ e p q) (h' : (q, p) ∈ d'.darts) : e.sym ∈ t'.darts := by
  rcases child_dart hg hμ ht' hd' h' with ⟨e', he', h2⟩ | h2
  · have h3 := h2.symm hμ
    -- compare the two edges through their end points
    have : e = e'.sym := by
      have f1 := Tri.dart_fst he
      have f2 := Tri.dart_snd he
      have f1' := Tri.dart_fst he'
      have f2' := Tri.dart_snd he'
      rcases h with ⟨rfl, h⟩ | ⟨h1, h⟩ | ⟨h1, h⟩ <;> rcases h3 with ⟨h1', h'⟩ | ⟨h1', h'⟩ | ⟨h1', h'⟩
      · exact h1'.symm
      · exact absurd rfl (fresh_ne hμ ht h' f2)
      · exact absurd rfl (fresh_ne hμ ht h' f1)
      · have : e'.1 = q := by rw [← Edge.sym_snd, h1']
        exact absurd this (fresh_ne hμ ht' h f1')
      · rcases hμ.inj _ _ q h h' with hh | hh
        · exact hh.symm
        · have h4 : e.1 = e.2 := by rw [h1, ← h1', hh]; rfl
          rw [hh, Prod.ext_iff]; exact ⟨h4, h4.symm⟩
      · exact absurd h1 (fresh_ne hμ ht h' f1)
      · have : e'.2 = p := by rw [← Edge.sym_fst, h1']
        exact absurd this (fresh_ne hμ ht' h f2')
      · exact absurd h1' (fresh_ne hμ ht' h f2')
      · rcases hμ.inj _ _ p h h' with hh | hh
        · exact hh.symm
        · have h4 : e.1 = e.2 := by rw [h1, ← h1', hh]; rfl
          rw [hh, Prod.ext_iff]; exact ⟨h4, h4.symm⟩
    rw [this, Edge.sym_sym]; exact he'
  · exact (outer_not_inner hμ ht ht' he h h2.symm).elim

theorem children_oriented : (dartsOf (T.flatMap (Tri.children μ))).Nodup := by
  have : dartsOf (T.flatMap (Tri.children μ)) = T.flatMap (fun t => dartsOf (t.children μ)) := by
    simp only [dartsOf, List.flatMap_assoc]
  rw [this, List.nodup_flatMap]
  refine ⟨fun t ht => (children_nodup (loc hg hμ ht)).1, ?_⟩
  refine (tris_nodup hg.oriented).imp_of_mem ?_
  rintro t t' ht ht' hne ⟨p, q⟩ h h'
  obtain ⟨d, hd, h⟩ := mem_dartsOf.1 h
  obtain ⟨d', hd', h'⟩ := mem_dartsOf.1 h'
  exact hne (child_parent_unique hg hμ ht ht' hd hd' h h')

theorem children_nondeg : ∀ d ∈ T.flatMap (Tri.children μ), d.Nondeg := by
  intro d hd
  obtain ⟨t, ht, hd⟩ := List.mem_flatMap.1 hd
  exact (children_nodup (loc hg hμ ht)).2 d hd

theorem children_simplicial_aux {t t' d d' : Tri} (ht : t ∈ T) (ht' : t' ∈ T) (hd : d ∈ t.children μ)
    (hd' : d' ∈ t'.children μ) {x y z : PId} (h : d.Is x y z) (h' : d'.Is z y x) (hin : InnerOf μ t x y) : False := by
  have hyx : (y, x) ∈ d'.darts := h'.rot.dart
  rcases child_dart hg hμ ht' hd' hyx with ⟨e', he', h2⟩ | h2
  · exact outer_not_inner hμ ht' ht he' h2 hin.symm
  · have := inner_unique hμ hg ht ht' hin.symm h2
    subst this
    exact children_no_reverse (loc hg hμ ht) d hd d' hd' x y z h h'

theorem children_simplicial_aux2 {t t' d d' : Tri} (ht : t ∈ T) (ht' : t' ∈ T) (hd : d ∈ t.children μ)
    (hd' : d' ∈ t'.children μ) {x y z : PId} (h : d.Is x y z) (h' : d'.Is z y x)
    (hin : ∃ e ∈ d.darts, InnerOf μ t e.1 e.2) : False := by
  obtain ⟨⟨p, q⟩, he, hin⟩ := hin
  have : (p = x ∧ q = y) ∨ (p = y ∧ q = z) ∨ (p = z ∧ q = x) := by
    rcases h with rfl | rfl | rfl <;> simp [Tri.darts] at he <;> tauto
  rcases this with ⟨rfl, rfl⟩ | ⟨rfl, rfl⟩ | ⟨rfl, rfl⟩
  · exact children_simplicial_aux hg hμ ht ht' hd hd' h h' hin
  · exact children_simplicial_aux hg hμ ht ht' hd hd' h.rot h'.rot.rot hin
  · exact children_simplicial_aux hg hμ ht ht' hd hd' h.rot.rot h'.rot hin

theorem children_no_reverse_all : ∀ d ∈ T.flatMap (Tri.children μ), ∀ d' ∈ T.flatMap (Tri.children μ),
    ∀ x y z, d.Is x y z → d'.Is z y x → False := by
  intro d hd d' hd' x y z h h'
  obtain ⟨t, ht, hd⟩ := List.mem_flatMap.1 hd
  obtain ⟨t', ht', hd'⟩ := List.mem_flatMap.1 hd'
  rcases children_inner (loc hg hμ ht) d hd with hin | rfl
  · exact children_simplicial_aux2 hg hμ ht ht' hd hd' h h' hin
  · rcases children_inner (loc hg hμ ht') d' hd' with hin | rfl
    · exact children_simplicial_aux2 hg hμ ht' ht hd' hd h' h hin
    · exact hg.no_reverse ht ht' h h'

theorem children_hasTri_unique {v x y y' : PId} (h1 : HasTri (T.flatMap (Tri.children μ)) v x y)
    (h2 : HasTri (T.flatMap (Tri.children μ)) v x y') : y = y' :=
  hasTri_unique (children_nondeg hg hμ) (children_oriented hg hμ) h1 h2

theorem children_hasTri_unique_pred {v x x' y : PId} (h1 : HasTri (T.flatMap (Tri.children μ)) v x y)
    (h2 : HasTri (T.flatMap (Tri.children μ)) v x' y) : x = x' :=
  children_hasTri_unique hg hμ h1.rot.rot h2.rot.rot

/-- the fans at an old point -/
theorem children_fans_old {v : PId} (A : PId → PId → Prop)
    (hA : ∀ x y, A x y → HasTri (T.flatMap (Tri.children μ)) v x y)
    (hne : ∃ x y, A x y) (hcl : ∀ x y, A x y → (∃ w, A w x) ∧ ∃ w, A y w)
    (hold : ∀ t ∈ T, ∀ p q, HasTri (t.children μ) v p q → v ∈ t.verts) :
    ∀ x y, HasTri (T.flatMap (Tri.children μ)) v x y → A x y := by
  have sub : ∀ t ∈ T, ∀ p q, HasTri (t.children μ) v p q → HasTri (T.flatMap (Tri.children μ)) v p q :=
    fun t ht p q h => hasTri_flatMap.2 ⟨t, ht, h⟩
  -- all arrows inside one parent, as soon as one is there
  have all : ∀ t ∈ T, ∀ x y, t.Is v x y → ∀ p q, A p q → HasTri (t.children μ) v p q →
      (∀ p q, HasTri (t.children μ) v p q → A p q) ∧ (∃ q, A ((μ (v, x)).getD x) q) ∧ ∃ p, A p ((μ (y, v)).getD y) := by
    intro t ht x y hi p q hpq hc
    rcases children_corner (loc hg hμ ht) hi with h | h
    · have h0 := (h p q).1 hc
      obtain ⟨rfl, rfl⟩ := h0
      refine ⟨?_, ⟨_, hpq⟩, ⟨_, hpq⟩⟩
      intro p q hc'
      obtain ⟨rfl, rfl⟩ := (h p q).1 hc'
      exact hpq
    · have a1 : HasTri (t.children μ) v _ _ := (h _ _).2 (Or.inl ⟨rfl, rfl⟩)
      have a2 : HasTri (t.children μ) v _ _ := (h _ _).2 (Or.inr ⟨rfl, rfl⟩)
      have both : A ((μ (v, x)).getD x) ((μ (x, y)).getD 0) ∧ A ((μ (x, y)).getD 0) ((μ (y, v)).getD y) := by
        rcases (h p q).1 hc with ⟨rfl, rfl⟩ | ⟨rfl, rfl⟩
        · refine ⟨hpq, ?_⟩
          obtain ⟨w, hw⟩ := (hcl _ _ hpq).2
          have := children_hasTri_unique hg hμ (hA _ _ hw) (sub t ht _ _ a2)
          rw [← this]; exact hw
        · refine ⟨?_, hpq⟩
          obtain ⟨w, hw⟩ := (hcl _ _ hpq).1
          have := children_hasTri_unique_pred hg hμ (hA _ _ hw) (sub t ht _ _ a1)
          rw [← this]; exact hw
      refine ⟨?_, ⟨_, both.1⟩, ⟨_, both.2⟩⟩
      intro p q hc'
      rcases (h p q).1 hc' with ⟨rfl, rfl⟩ | ⟨rfl, rfl⟩
      · exact both.1
      · exact both.2
  -- crossing an edge of the parent
  have hcross := hg.fans v (fun x y => ∃ t ∈ T, t.Is v x y ∧ ∃ p q, A p q ∧ HasTri (t.children μ) v p q)
    (fun x y ⟨t, ht, hi, _⟩ => hasTri_iff.2 ⟨t, ht, hi⟩)
    (by
      obtain ⟨p, q, hpq⟩ := hne
      obtain ⟨t, ht, h⟩ := hasTri_flatMap.1 (hA p q hpq)
      obtain ⟨x, y, hi⟩ := Tri.mem_verts.1 (hold t ht p q h)
      exact ⟨x, y, t, ht, hi, p, q, hpq, h⟩)
    (by
      rintro x y ⟨t, ht, hi, p, q, hpq, h⟩
      obtain ⟨_, ⟨q', h1⟩, ⟨p', h2⟩⟩ := all t ht x y hi p q hpq h
      constructor
      · obtain ⟨w, hw⟩ := (hcl _ _ h1).1
        obtain ⟨t', ht', h'⟩ := hasTri_flatMap.1 (hA _ _ hw)
        obtain ⟨d', hd', hi'⟩ := hasTri_iff.1 h'
        have ho : OuterOf μ (v, x) v ((μ (v, x)).getD x) := by
          rcases hx : μ (v, x) with _ | m
          · exact Or.inl ⟨rfl, hx⟩
          · exact Or.inr (Or.inl ⟨rfl, hx⟩)
        have := child_across hg hμ ht ht' hi.dart hd' ho hi'.rot.rot.dart
        obtain ⟨z, hz⟩ := Tri.mem_darts.1 this
        exact ⟨z, t', ht', hz.rot, w, _, hw, h'⟩
      · obtain ⟨w, hw⟩ := (hcl _ _ h2).2
        obtain ⟨t', ht', h'⟩ := hasTri_flatMap.1 (hA _ _ hw)
        obtain ⟨d', hd', hi'⟩ := hasTri_iff.1 h'
        have ho : OuterOf μ (y, v) ((μ (y, v)).getD y) v := by
          rcases hx : μ (y, v) with _ | m
          · exact Or.inl ⟨rfl, hx⟩
          · exact Or.inr (Or.inr ⟨rfl, hx⟩)
        have := child_across hg hμ ht ht' hi.rot.rot.dart hd' ho hi'.dart
        obtain ⟨z, hz⟩ := Tri.mem_darts.1 this
        exact ⟨z, t', ht', hz, _, w, hw, h'⟩)
  intro p q h
  obtain ⟨t, ht, h⟩ := hasTri_flatMap.1 h
  obtain ⟨x, y, hi⟩ := Tri.mem_verts.1 (hold t ht p q h)
  obtain ⟨t', ht', hi', p', q', hpq', h'⟩ := hcross x y (hasTri_iff.2 ⟨t, ht, hi⟩)
  have := hg.eq_of_dart ht ht' hi.dart hi'.dart
  subst this
  exact (all t ht x y hi p' q' hpq' h').1 p q h

/-- the fans at a new point -/
theorem children_fans_new {v : PId} (A : PId → PId → Prop)
    (hA : ∀ x y, A x y → HasTri (T.flatMap (Tri.children μ)) v x y)
    (hne : ∃ x y, A x y) (hcl : ∀ x y, A x y → (∃ w, A w x) ∧ ∃ w, A y w)
    (hnew : ∀ t ∈ T, ∀ p q, HasTri (t.children μ) v p q → ∃ e ∈ t.darts, μ e = some v) :
    ∀ x y, HasTri (T.flatMap (Tri.children μ)) v x y → A x y := by
  have sub : ∀ t ∈ T, ∀ p q, HasTri (t.children μ) v p q → HasTri (T.flatMap (Tri.children μ)) v p q :=
    fun t ht p q h => hasTri_flatMap.2 ⟨t, ht, h⟩
  have fwd : ∀ {p q r}, A p q → HasTri (T.flatMap (Tri.children μ)) v q r → A q r := by
    intro p q r h h'
    obtain ⟨w, hw⟩ := (hcl _ _ h).2
    rw [← children_hasTri_unique hg hμ (hA _ _ hw) h']; exact hw
  have bwd : ∀ {p q r}, A q r → HasTri (T.flatMap (Tri.children μ)) v p q → A p q := by
    intro p q r h h'
    obtain ⟨w, hw⟩ := (hcl _ _ h).1
    rw [← children_hasTri_unique_pred hg hμ (hA _ _ hw) h']; exact hw
  have all : ∀ t ∈ T, ∀ x y, (x, y) ∈ t.darts → μ (x, y) = some v → ∀ p q, A p q → HasTri (t.children μ) v p q →
      (∀ p q, HasTri (t.children μ) v p q → A p q) := by
    intro t ht x y hxy hm p q hpq hc p' q' hc'
    obtain ⟨z, hi⟩ := Tri.mem_darts.1 hxy
    rcases children_mid (loc hg hμ ht) hi hm with ⟨w, h⟩ | ⟨w, w', h⟩
    · have a1 := sub t ht _ _ ((h _ _).2 (Or.inl ⟨rfl, rfl⟩))
      have a2 := sub t ht _ _ ((h _ _).2 (Or.inr ⟨rfl, rfl⟩))
      rcases (h p q).1 hc with ⟨rfl, rfl⟩ | ⟨rfl, rfl⟩ <;> rcases (h p' q').1 hc' with ⟨rfl, rfl⟩ | ⟨rfl, rfl⟩
      · exact hpq
      · exact fwd hpq a2
      · exact bwd hpq a1
      · exact hpq
    · have a1 := sub t ht _ _ ((h _ _).2 (Or.inl ⟨rfl, rfl⟩))
      have a2 := sub t ht _ _ ((h _ _).2 (Or.inr (Or.inl ⟨rfl, rfl⟩)))
      have a3 := sub t ht _ _ ((h _ _).2 (Or.inr (Or.inr ⟨rfl, rfl⟩)))
      rcases (h p q).1 hc with ⟨rfl, rfl⟩ | ⟨rfl, rfl⟩ | ⟨rfl, rfl⟩ <;>
        rcases (h p' q').1 hc' with ⟨rfl, rfl⟩ | ⟨rfl, rfl⟩ | ⟨rfl, rfl⟩
      · exact hpq
      · exact fwd hpq a2
      · exact fwd (fwd hpq a2) a3
      · exact bwd hpq a1
      · exact hpq
      · exact fwd hpq a3
      · exact bwd (bwd hpq a2) a1
      · exact bwd hpq a2
      · exact hpq
  -- the first and last arrow in a parent
  have ends : ∀ t ∈ T, ∀ x y, (x, y) ∈ t.darts → μ (x, y) = some v →
      (∃ w, HasTri (t.children μ) v y w) ∧ ∃ w, HasTri (t.children μ) v w x := by
    intro t ht x y hxy hm
    obtain ⟨z, hi⟩ := Tri.mem_darts.1 hxy
    rcases children_mid (loc hg hμ ht) hi hm with ⟨w, h⟩ | ⟨w, w', h⟩
    · exact ⟨⟨_, (h _ _).2 (Or.inl ⟨rfl, rfl⟩)⟩, ⟨_, (h _ _).2 (Or.inr ⟨rfl, rfl⟩)⟩⟩
    · exact ⟨⟨_, (h _ _).2 (Or.inl ⟨rfl, rfl⟩)⟩, ⟨_, (h _ _).2 (Or.inr (Or.inr ⟨rfl, rfl⟩))⟩⟩
  obtain ⟨p, q, hpq⟩ := hne
  obtain ⟨t, ht, h⟩ := hasTri_flatMap.1 (hA p q hpq)
  obtain ⟨⟨x, y⟩, he, hm⟩ := hnew t ht p q h
  have inT := all t ht x y he hm p q hpq h
  intro p' q' h'
  obtain ⟨t', ht', h'⟩ := hasTri_flatMap.1 h'
  obtain ⟨⟨x', y'⟩, he', hm'⟩ := hnew t' ht' p' q' h'
  rcases hμ.inj _ _ _ hm hm' with hh | hh
  · rw [hh] at he' hm'
    have := hg.eq_of_dart ht ht' he he'
    subst this
    exact inT p' q' h'
  · rw [hh] at he' hm'
    obtain ⟨w, hw⟩ := (ends t ht x y he hm).2
    obtain ⟨w', hw'⟩ := (ends t' ht' y x he' hm').1
    have h3 : A x w' := fwd (inT w x hw) (sub t' ht' _ _ hw')
    exact all t' ht' y x he' hm' x w' h3 hw' p' q' h'

/-- Cutting the triangles of an oriented surface along a labelling gives an oriented surface. -/
theorem GoodTris.children : GoodTris (T.flatMap (Tri.children μ)) := by
  refine ⟨children_nondeg hg hμ, children_oriented hg hμ,
    simplicial_of_edges (children_nondeg hg hμ) (children_oriented hg hμ) (children_no_reverse_all hg hμ), ?_⟩
  intro v A hA hne hcl
  have vert : ∀ t ∈ T, ∀ p q, HasTri (t.children μ) v p q → v ∈ t.verts ∨ ∃ e ∈ t.darts, μ e = some v := by
    intro t ht p q h
    obtain ⟨d, hd, hi⟩ := hasTri_iff.1 h
    exact children_verts d hd v (Tri.mem_verts.2 ⟨_, _, hi⟩)
  by_cases hold : ∃ t ∈ T, v ∈ t.verts
  · obtain ⟨t0, ht0, hv0⟩ := hold
    refine children_fans_old hg hμ A hA hne hcl ?_
    intro t ht p q h
    rcases vert t ht p q h with h | ⟨e, he, hm⟩
    · exact h
    · exact absurd hv0 (hμ.fresh e v hm t0 ht0)
  · refine children_fans_new hg hμ A hA hne hcl ?_
    intro t ht p q h
    rcases vert t ht p q h with h | h
    · exact absurd ⟨t, ht, h⟩ hold
    · exact h

end good

end Verif
