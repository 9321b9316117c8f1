import Verif.Spec.Family
import Verif.Proofs.Labels
/-
The places of the pieces of a list.
-/
namespace Verif
set_option linter.unusedSectionVars false

section lists
variable {α β : Type} (g : α → List β)

/-- the place of the list element that the `k`-th piece comes from -/
def placeIn : List α → Nat → Nat
  | [], _ => 0
  | x :: l, k => if k < (g x).length then 0 else placeIn l (k - (g x).length) + 1

theorem placeIn_mono (l : List α) {k k' : Nat} (h : k ≤ k') : placeIn g l k ≤ placeIn g l k' := by
  induction l generalizing k k' with
  | nil => exact Nat.le_refl _
  | cons x l ih =>
    unfold placeIn
    by_cases h1 : k < (g x).length
    · rw [if_pos h1]; exact Nat.zero_le _
    · rw [if_neg h1, if_neg (by omega)]
      exact Nat.succ_le_succ (ih (by omega))

theorem placeIn_sound (l : List α) {k : Nat} {y : β} (h : (l.flatMap g)[k]? = some y) :
    ∃ x, l[placeIn g l k]? = some x ∧ y ∈ g x := by
  induction l generalizing k with
  | nil => simp at h
  | cons x l ih =>
    rw [List.flatMap_cons] at h
    unfold placeIn
    by_cases h1 : k < (g x).length
    · rw [if_pos h1]
      rw [List.getElem?_append_left h1] at h
      exact ⟨x, rfl, List.mem_of_getElem? h⟩
    · rw [if_neg h1]
      rw [List.getElem?_append_right (by omega)] at h
      obtain ⟨z, h2, h3⟩ := ih h
      exact ⟨z, by simpa using h2, h3⟩

theorem placeIn_complete (l : List α) {i : Nat} {x : α} {y : β} (h : l[i]? = some x) (hy : y ∈ g x) :
    ∃ k, (l.flatMap g)[k]? = some y ∧ placeIn g l k = i := by
  induction l generalizing i with
  | nil => simp at h
  | cons z l ih =>
    rw [List.flatMap_cons]
    rcases i with _ | i
    · cases h
      obtain ⟨k, h1⟩ := List.mem_iff_getElem?.1 hy
      have h2 : k < (g x).length := (List.getElem?_eq_some_iff.1 h1).1
      exact ⟨k, by rw [List.getElem?_append_left h2, h1], by unfold placeIn; rw [if_pos h2]⟩
    · obtain ⟨k, h1, h2⟩ := ih (i := i) (by simpa using h)
      refine ⟨(g z).length + k, ?_, ?_⟩
      · rw [List.getElem?_append_right (by omega), Nat.add_sub_cancel_left, h1]
      · unfold placeIn
        rw [if_neg (by omega), Nat.add_sub_cancel_left, h2]

theorem placeIn_const (l : List α) {n : Nat} (hn : 0 < n) (h : ∀ x ∈ l, (g x).length = n) {k : Nat}
    (hk : k < n * l.length) : placeIn g l k = k / n := by
  induction l generalizing k with
  | nil => simp at hk
  | cons x l ih =>
    unfold placeIn
    rw [h x (by simp)]
    by_cases h1 : k < n
    · rw [if_pos h1, Nat.div_eq_of_lt h1]
    · rw [if_neg h1, ih (fun y hy => h y (by simp [hy]))]
      · exact (Nat.div_eq_sub_div hn (by omega)).symm
      · rw [List.length_cons, Nat.mul_succ] at hk; omega

theorem flatMap_length_const (l : List α) {n : Nat} (h : ∀ x ∈ l, (g x).length = n) : (l.flatMap g).length = n * l.length := by
  induction l with
  | nil => rfl
  | cons x l ih =>
    rw [List.flatMap_cons, List.length_append, ih (fun y hy => h y (by simp [hy])), h x (by simp), List.length_cons, Nat.mul_succ]
    omega

theorem flatMap_const_get (l : List α) {n : Nat} (h : ∀ x ∈ l, (g x).length = n) {i c : Nat} (hc : c < n) {x : α}
    (hx : l[i]? = some x) : (l.flatMap g)[n * i + c]? = (g x)[c]? := by
  induction l generalizing i with
  | nil => simp at hx
  | cons z l ih =>
    have hz := h z (by simp)
    rw [List.flatMap_cons]
    rcases i with _ | i
    · simp only [List.getElem?_cons_zero, Option.some.injEq] at hx
      subst hx
      rw [List.getElem?_append_left (by omega), Nat.mul_zero, Nat.zero_add]
    · rw [List.getElem?_append_right (by rw [hz, Nat.mul_succ]; omega), ← ih (fun y hy => h y (by simp [hy])) (by simpa using hx), hz,
        Nat.mul_succ]
      congr 1
      omega

end lists

section family
variable {P D : Type} {inp m out : Mesh P D} {p q : Nat → Nat}

theorem Mesh.Family.refl (m : Mesh P D) : Mesh.Family id m m :=
  ⟨fun _ x h => ⟨x, h, rfl⟩, fun i y h => ⟨i, y, h, rfl⟩, fun _ _ h => h⟩

theorem Mesh.Family.trans (h1 : Mesh.Family p inp m) (h2 : Mesh.Family q m out) : Mesh.Family (fun k => p (q k)) inp out := by
  refine ⟨fun k x h => ?_, fun i y h => ?_, fun k k' h => h1.mono _ _ (h2.mono _ _ h)⟩
  · obtain ⟨y, a, b⟩ := h2.parent k x h
    obtain ⟨z, c, d⟩ := h1.parent _ y a
    exact ⟨z, c, b.trans d⟩
  · obtain ⟨k, x, a, b⟩ := h1.onto i y h
    obtain ⟨k', x', c, d⟩ := h2.onto k x a
    exact ⟨k', x', c, by rw [d, b]⟩

/-- what the pieces are, for a face split -/
def labelledPieces (μ : Edge → Option PId) (x : Option D × Tri) : List (Option D × Tri) := (x.2.children μ).map fun d => (x.1, d)

theorem children_pos (μ : Edge → Option PId) (t : Tri) : 0 < (t.children μ).length := by
  rw [children_length]; omega

theorem family_of_split {μ : Edge → Option PId} (h : out.labelled = inp.labelled.flatMap (labelledPieces μ)) :
    Mesh.Family (placeIn (labelledPieces μ) inp.labelled) inp out := by
  refine ⟨fun k x hk => ?_, fun i y hi => ?_, fun k k' => placeIn_mono _ _⟩
  · rw [h] at hk
    obtain ⟨y, h1, h2⟩ := placeIn_sound _ _ hk
    obtain ⟨d, -, rfl⟩ := List.mem_map.1 h2
    exact ⟨y, h1, rfl⟩
  · obtain ⟨d, hd⟩ := List.exists_mem_of_length_pos (children_pos μ y.2)
    obtain ⟨k, h1, h2⟩ := placeIn_complete (labelledPieces μ) _ hi (List.mem_map.2 ⟨d, hd, rfl⟩)
    exact ⟨k, _, by rw [h]; exact h1, h2⟩

/-- the same with all triangles in four -/
theorem family_of_four {μ : Edge → Option PId} (h : out.labelled = inp.labelled.flatMap (labelledPieces μ))
    (hall : ∀ x ∈ inp.labelled, (x.2.children μ).length = 4) : Mesh.Family (· / 4) inp out := by
  have F := family_of_split h
  have hl : ∀ x ∈ inp.labelled, (labelledPieces μ x).length = 4 := fun x hx => by
    unfold labelledPieces; rw [List.length_map, hall x hx]
  have key : ∀ k x, out.labelled[k]? = some x → placeIn (labelledPieces μ) inp.labelled k = k / 4 := fun k x hk => by
    refine placeIn_const _ _ (by decide) hl ?_
    rw [← flatMap_length_const _ _ hl, ← h]
    exact (List.getElem?_eq_some_iff.1 hk).1
  refine ⟨fun k x hk => ?_, fun i y hi => ?_, fun k k' => Nat.div_le_div_right⟩
  · rw [← key k x hk]; exact F.parent k x hk
  · obtain ⟨k, x, h1, h2⟩ := F.onto i y hi
    exact ⟨k, x, h1, by rw [← key k x h1]; exact h2⟩

theorem FaceSplitResult.byId {lib : QELib} {f f' : Filt} {u : Bool} {μ : Edge → Option PId} {pts : List P}
    (R : FaceSplitResult lib inp out f f' u μ pts) : out.ById := by
  intro k x
  have h1 : out.labelled = (childItems μ u inp.cells).map fun x => (inp.dataAt x.1, x.2.1) := by
    unfold Mesh.labelled
    rw [R.built.cells, ← childItems_tris μ u, List.map_map]
    refine labelled_dense out.dataAt (fun x => inp.dataAt x.1) _ 0 fun k x hx => ?_
    rw [Nat.zero_add, R.data k, hx]
    rfl
  rw [h1, R.built.cells, AMap.mem_dense, ← childItems_tris μ u, List.map_map, List.getElem?_map, List.getElem?_map, R.data k]
  rcases (childItems μ u inp.cells)[k]? with _ | z
  · simp
  · obtain ⟨d, a, b, c⟩ := x
    obtain ⟨i, ⟨a', b', c'⟩, u⟩ := z
    simp only [Option.map_some, Option.some.injEq, Prod.mk.injEq, Function.comp, Tri.cell, Cell.mk.injEq, List.cons.injEq,
      Option.bind_some]
    constructor
    · rintro ⟨rfl, rfl, rfl, rfl⟩; simp
    · rintro ⟨h1, h2⟩; simp_all

end family

section linear
variable {E D : Type} [NormedAddCommGroup E] [InnerProductSpace ℝ E] {inp m out : Mesh E D} {p q : Nat → Nat}

theorem Mesh.MadeOf.trans (h1 : Mesh.MadeOf p inp m) (h2 : Mesh.MadeOf q m out) (hF : Mesh.Family q m out) :
    Mesh.MadeOf (fun k => p (q k)) inp out := by
  intro i y hi x
  rw [h1 i y hi x]
  constructor
  · rintro ⟨k, z, a, b, c⟩
    obtain ⟨k', z', a', b', c'⟩ := (h2 k z a x).1 c
    exact ⟨k', z', a', (congrArg p b').trans b, c'⟩
  · rintro ⟨k, z, a, b, c⟩
    obtain ⟨z', a', -⟩ := hF.parent k z a
    exact ⟨q k, z', a', b, (h2 _ _ a' x).2 ⟨k, z, a, rfl, c⟩⟩

theorem Mesh.MadeOf.refl (m : Mesh E D) : Mesh.MadeOf id m m := by
  intro i y hi x
  constructor
  · exact fun h => ⟨i, y, hi, rfl, h⟩
  · rintro ⟨k, z, a, rfl, c⟩
    have := a.symm.trans hi
    cases this
    exact c

theorem SplitAtMid.madeOf {μ : Edge → Option PId} (S : SplitAtMid inp out μ)
    (h : out.labelled = inp.labelled.flatMap (labelledPieces μ)) (hp : ∀ k x, out.labelled[k]? = some x →
      p k = placeIn (labelledPieces μ) inp.labelled k) : Mesh.MadeOf p inp out := by
  intro i y hi x
  have ht := labelled_tris inp (List.mem_of_getElem? hi)
  have key : x ∈ inp.filledTri y.2 ↔ ∃ d ∈ y.2.children μ, x ∈ out.filledTri d := by
    unfold Mesh.filledTri
    rw [← children_hull (S.mid _ ht), S.kept _ ht y.2.1 (by simp [Tri.verts]), S.kept _ ht y.2.2.1 (by simp [Tri.verts]),
      S.kept _ ht y.2.2.2 (by simp [Tri.verts])]
  rw [key]
  constructor
  · rintro ⟨d, hd, hx⟩
    obtain ⟨k, h1, h2⟩ := placeIn_complete (labelledPieces μ) _ hi (List.mem_map.2 ⟨d, hd, rfl⟩)
    rw [← h] at h1
    exact ⟨k, _, h1, by rw [hp k _ h1, h2], hx⟩
  · rintro ⟨k, z, h1, rfl, hx⟩
    have h1' := h1
    rw [h] at h1'
    obtain ⟨y', h2, h3⟩ := placeIn_sound _ _ h1'
    rw [← hp k z h1, hi] at h2
    cases h2
    obtain ⟨d, hd, rfl⟩ := List.mem_map.1 h3
    exact ⟨d, hd, hx⟩

end linear
end Verif
