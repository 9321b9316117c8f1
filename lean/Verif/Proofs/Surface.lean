import Verif.Spec.Surface
import Mathlib.Tactic.Tauto
import Mathlib.Data.List.Basic
import Mathlib.Data.List.Nodup
/-
Basic facts about lists of triangles.
-/
namespace Verif

@[simp] theorem Edge.sym_mk (x y : PId) : Edge.sym (x, y) = (y, x) := rfl
@[simp] theorem Edge.sym_sym (e : Edge) : Edge.sym (Edge.sym e) = e := rfl
@[simp] theorem Edge.sym_fst (e : Edge) : (Edge.sym e).1 = e.2 := rfl
@[simp] theorem Edge.sym_snd (e : Edge) : (Edge.sym e).2 = e.1 := rfl

theorem Edge.sym_inj {e e' : Edge} (h : Edge.sym e = Edge.sym e') : e = e' := by
  rw [← Edge.sym_sym e, h, Edge.sym_sym]

theorem Edge.sym_eq_iff {e e' : Edge} : Edge.sym e = e' ↔ e = Edge.sym e' :=
  ⟨fun h => by rw [← h, Edge.sym_sym], fun h => by rw [h, Edge.sym_sym]⟩

/-- the cyclic order of the corners is `x y z` -/
def Tri.Is (t : Tri) (x y z : PId) : Prop := t = (x, y, z) ∨ t = (y, z, x) ∨ t = (z, x, y)

theorem Tri.Is.rot {t : Tri} {x y z : PId} (h : t.Is x y z) : t.Is y z x := by
  unfold Tri.Is at *; tauto

theorem Tri.mem_darts {t : Tri} {x y : PId} : (x, y) ∈ t.darts ↔ ∃ z, t.Is x y z := by
  obtain ⟨a, b, c⟩ := t
  simp only [Tri.darts, Tri.Is, List.mem_cons, Prod.mk.injEq, List.not_mem_nil, or_false]
  constructor
  · rintro (⟨rfl, rfl⟩ | ⟨rfl, rfl⟩ | ⟨rfl, rfl⟩)
    · exact ⟨c, by simp⟩
    · exact ⟨a, by simp⟩
    · exact ⟨b, by simp⟩
  · rintro ⟨z, (⟨rfl, rfl, rfl⟩ | ⟨rfl, rfl, rfl⟩ | ⟨rfl, rfl, rfl⟩)⟩ <;> simp

theorem Tri.mem_verts {t : Tri} {x : PId} : x ∈ t.verts ↔ ∃ y z, t.Is x y z := by
  obtain ⟨a, b, c⟩ := t
  simp only [Tri.verts, Tri.Is, List.mem_cons, Prod.mk.injEq, List.not_mem_nil, or_false]
  constructor
  · rintro (rfl | rfl | rfl)
    · exact ⟨b, c, by simp⟩
    · exact ⟨c, a, by simp⟩
    · exact ⟨a, b, by simp⟩
  · rintro ⟨y, z, (⟨rfl, rfl, rfl⟩ | ⟨rfl, rfl, rfl⟩ | ⟨rfl, rfl, rfl⟩)⟩ <;> simp

theorem Tri.Is.dart {t : Tri} {x y z : PId} (h : t.Is x y z) : (x, y) ∈ t.darts := Tri.mem_darts.2 ⟨z, h⟩

theorem Tri.Is.verts {t : Tri} {x y z : PId} (h : t.Is x y z) (v : PId) : v ∈ t.verts ↔ v = x ∨ v = y ∨ v = z := by
  rcases h with rfl | rfl | rfl <;> simp [Tri.verts] <;> tauto

theorem Tri.dart_fst {t : Tri} {e : Edge} (h : e ∈ t.darts) : e.1 ∈ t.verts := by
  obtain ⟨x, y⟩ := e
  obtain ⟨z, h⟩ := Tri.mem_darts.1 h
  exact Tri.mem_verts.2 ⟨y, z, h⟩

theorem Tri.dart_snd {t : Tri} {e : Edge} (h : e ∈ t.darts) : e.2 ∈ t.verts := by
  obtain ⟨x, y⟩ := e
  obtain ⟨z, h⟩ := Tri.mem_darts.1 h
  exact Tri.mem_verts.2 ⟨z, x, h.rot⟩

/-- three different corners -/
def Tri.Nondeg (t : Tri) : Prop := t.1 ≠ t.2.1 ∧ t.2.1 ≠ t.2.2 ∧ t.2.2 ≠ t.1

theorem Tri.Is.ne {t : Tri} {x y z : PId} (h : t.Is x y z) (hn : t.Nondeg) : x ≠ y ∧ y ≠ z ∧ z ≠ x := by
  rcases h with rfl | rfl | rfl <;> (unfold Tri.Nondeg at hn; simp at hn; simp; tauto)

theorem Tri.Is.unique {t : Tri} {x y z z' : PId} (hn : t.Nondeg) (h : t.Is x y z) (h' : t.Is x y z') : z = z' := by
  obtain ⟨a, b, c⟩ := t
  simp only [Tri.Nondeg] at hn
  simp only [Tri.Is, Prod.mk.injEq] at h h'
  rcases h with ⟨rfl, rfl, rfl⟩ | ⟨rfl, rfl, rfl⟩ | ⟨rfl, rfl, rfl⟩ <;>
  rcases h' with ⟨h1, h2, h3⟩ | ⟨h1, h2, h3⟩ | ⟨h1, h2, h3⟩ <;> simp_all

theorem hasTri_iff {T : List Tri} {x y z : PId} : HasTri T x y z ↔ ∃ t ∈ T, t.Is x y z := by
  unfold HasTri Tri.Is
  constructor
  · rintro (h | h | h) <;> exact ⟨_, h, by simp⟩
  · rintro ⟨t, h, (rfl | rfl | rfl)⟩ <;> simp [h]

theorem HasTri.rot {T : List Tri} {x y z : PId} (h : HasTri T x y z) : HasTri T y z x := by
  unfold HasTri at *; tauto

theorem mem_dartsOf {T : List Tri} {e : Edge} : e ∈ dartsOf T ↔ ∃ t ∈ T, e ∈ t.darts := by
  simp [dartsOf]

theorem dartsOf_iff_hasTri {T : List Tri} {x y : PId} : (x, y) ∈ dartsOf T ↔ ∃ z, HasTri T x y z := by
  rw [mem_dartsOf]
  constructor
  · rintro ⟨t, h, hd⟩
    obtain ⟨z, hz⟩ := Tri.mem_darts.1 hd
    exact ⟨z, hasTri_iff.2 ⟨t, h, hz⟩⟩
  · rintro ⟨z, h⟩
    obtain ⟨t, ht, h⟩ := hasTri_iff.1 h
    exact ⟨t, ht, h.dart⟩

theorem HasTri.dart {T : List Tri} {x y z : PId} (h : HasTri T x y z) : (x, y) ∈ dartsOf T :=
  dartsOf_iff_hasTri.2 ⟨z, h⟩

theorem HasTri.mono {T T' : List Tri} (hs : ∀ t ∈ T, t ∈ T') {x y z : PId} (h : HasTri T x y z) :
    HasTri T' x y z := by
  obtain ⟨t, ht, h⟩ := hasTri_iff.1 h
  exact hasTri_iff.2 ⟨t, hs t ht, h⟩

theorem dartsOf_append (T T' : List Tri) : dartsOf (T ++ T') = dartsOf T ++ dartsOf T' := by
  simp [dartsOf]

theorem darts_nodup {t : Tri} (h : t.Nondeg) : t.darts.Nodup := by
  obtain ⟨a, b, c⟩ := t
  simp only [Tri.Nondeg] at h
  simp [Tri.darts]; tauto

theorem oriented_iff {T : List Tri} :
    (dartsOf T).Nodup ↔ (∀ t ∈ T, t.darts.Nodup) ∧ T.Pairwise (fun t t' => List.Disjoint t.darts t'.darts) := by
  unfold dartsOf
  rw [List.nodup_flatMap]

/-- a directed edge has one triangle, and that triangle one position -/
theorem dart_position {T : List Tri} (h : (dartsOf T).Nodup) {i j : Nat} {t t' : Tri} {e : Edge}
    (hi : T[i]? = some t) (hj : T[j]? = some t') (he : e ∈ t.darts) (he' : e ∈ t'.darts) : i = j := by
  have hp := (oriented_iff.1 h).2
  obtain ⟨hi1, hi2⟩ := List.getElem?_eq_some_iff.1 hi
  obtain ⟨hj1, hj2⟩ := List.getElem?_eq_some_iff.1 hj
  rw [List.pairwise_iff_getElem] at hp
  rcases Nat.lt_trichotomy i j with hlt | heq | hgt
  · exact absurd he' (hp i j hi1 hj1 hlt (by rw [hi2]; exact he) ∘ by rw [hj2]; exact id)
  · exact heq
  · exact absurd he (hp j i hj1 hi1 hgt (by rw [hj2]; exact he') ∘ by rw [hi2]; exact id)

theorem dart_unique {T : List Tri} (h : (dartsOf T).Nodup) {t t' : Tri} (ht : t ∈ T) (ht' : t' ∈ T) {e : Edge}
    (he : e ∈ t.darts) (he' : e ∈ t'.darts) : t = t' := by
  obtain ⟨i, hi⟩ := List.getElem?_of_mem ht
  obtain ⟨j, hj⟩ := List.getElem?_of_mem ht'
  have := dart_position h hi hj he he'
  subst this
  rw [hi] at hj; exact Option.some.inj hj

theorem hasTri_unique {T : List Tri} (hn : ∀ t ∈ T, t.Nondeg) (h : (dartsOf T).Nodup) {x y z z' : PId}
    (h1 : HasTri T x y z) (h2 : HasTri T x y z') : z = z' := by
  obtain ⟨t, ht, h1⟩ := hasTri_iff.1 h1
  obtain ⟨t', ht', h2⟩ := hasTri_iff.1 h2
  have := dart_unique h ht ht' h1.dart h2.dart
  subst this
  exact h1.unique (hn t ht) h2

theorem HasTri.ne {T : List Tri} (hn : ∀ t ∈ T, t.Nondeg) {x y z : PId} (h : HasTri T x y z) :
    x ≠ y ∧ y ≠ z ∧ z ≠ x := by
  obtain ⟨t, ht, h⟩ := hasTri_iff.1 h
  exact h.ne (hn t ht)

theorem tris_nodup {T : List Tri} (h : (dartsOf T).Nodup) : T.Nodup := by
  have hp := (oriented_iff.1 h).2
  refine hp.imp ?_
  rintro t t' hd rfl
  exact hd (a := (t.1, t.2.1)) (by simp [Tri.darts]) (by simp [Tri.darts])

namespace GoodTris
variable {T : List Tri}

theorem nd (h : GoodTris T) : ∀ t ∈ T, t.Nondeg := h.nondeg

theorem hasTri_unique (h : GoodTris T) {x y z z' : PId} (h1 : HasTri T x y z) (h2 : HasTri T x y z') : z = z' :=
  Verif.hasTri_unique h.nd h.oriented h1 h2

theorem eq_of_dart (h : GoodTris T) {t t' : Tri} (ht : t ∈ T) (ht' : t' ∈ T) {e : Edge}
    (he : e ∈ t.darts) (he' : e ∈ t'.darts) : t = t' := dart_unique h.oriented ht ht' he he'

end GoodTris

/-- It suffices for simpliciality that two triangles share at most one edge. -/
theorem simplicial_of_edges {T : List Tri} (hn : ∀ t ∈ T, t.Nondeg) (ho : (dartsOf T).Nodup)
    (h : ∀ t ∈ T, ∀ t' ∈ T, ∀ x y z, t.Is x y z → t'.Is z y x → False) :
    ∀ t ∈ T, ∀ t' ∈ T, (∀ v, v ∈ t.verts → v ∈ t'.verts) → t = t' := by
  intro t ht t' ht' hv
  obtain ⟨a, b, c⟩ := t
  have hne := hn _ ht
  simp only [Tri.Nondeg] at hne
  have ha := hv a (by simp [Tri.verts])
  have hb := hv b (by simp [Tri.verts])
  have hc := hv c (by simp [Tri.verts])
  obtain ⟨y, z, hi⟩ := Tri.mem_verts.1 ha
  rw [hi.verts] at hb hc
  obtain ⟨h1, h2, h3⟩ := hne
  have key : (b = y ∧ c = z) ∨ (b = z ∧ c = y) := by
    rcases hb with rfl | rfl | rfl
    · exact absurd rfl h1
    · rcases hc with rfl | rfl | rfl
      · exact absurd rfl h3
      · exact absurd rfl h2
      · simp
    · rcases hc with rfl | rfl | rfl
      · exact absurd rfl h3
      · simp
      · exact absurd rfl h2
  rcases key with ⟨rfl, rfl⟩ | ⟨rfl, rfl⟩
  · exact dart_unique ho ht ht' (e := (a, b)) (by simp [Tri.darts]) hi.dart
  · exact (h _ ht t' ht' a b c (Or.inl rfl) hi.rot).elim

/-- ... and conversely. -/
theorem GoodTris.no_reverse {T : List Tri} (h : GoodTris T) {t t' : Tri} (ht : t ∈ T) (ht' : t' ∈ T) {x y z : PId}
    (h1 : t.Is x y z) (h2 : t'.Is z y x) : False := by
  have : t = t' := h.simplicial t ht t' ht' (by intro v; rw [h1.verts, h2.verts]; tauto)
  subst this
  have hne := h1.ne (h.nd t ht)
  obtain ⟨n1, n2, n3⟩ := hne
  rcases h1 with rfl | rfl | rfl <;> rcases h2 with h2 | h2 | h2 <;> simp only [Prod.mk.injEq] at h2 <;>
    first
      | exact n1 h2.1 | exact n1 h2.1.symm | exact n2 h2.1 | exact n2 h2.1.symm | exact n3 h2.1 | exact n3 h2.1.symm
      | exact n1 h2.2.1 | exact n1 h2.2.1.symm | exact n2 h2.2.1 | exact n2 h2.2.1.symm | exact n3 h2.2.1
      | exact n3 h2.2.1.symm

end Verif
