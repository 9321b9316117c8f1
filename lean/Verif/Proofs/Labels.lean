import Verif.Spec.Labels
import Verif.Properties.Volume
/-
The triangles with their data after a run of a filter that splits triangles.
-/
namespace Verif
set_option linter.unusedSectionVars false

section split
variable {P D : Type} [Zero P] {inp out : Mesh P D} {lib : QELib} {f f' : Filt} {u : Bool} {μ : Edge → Option PId} {pts : List P}

theorem labelled_dense {α : Type} (g : Nat → α) (h : Item → α) (l : List Item) (i : Nat)
    (hg : ∀ k x, l[k]? = some x → g (i + k) = h x) :
    (AMap.denseFrom i (l.map fun x => some x.2.1.cell)).filterMap (fun c => (Cell.tri? c.2).map fun t => (g c.1, t)) =
      l.map fun x => (h x, x.2.1) := by
  induction l generalizing i with
  | nil => rfl
  | cons x l ih =>
    have h0 := hg 0 x rfl
    rw [List.map_cons, List.map_cons, AMap.denseFrom, List.filterMap_cons_some (b := (h x, x.2.1))]
    · rw [ih (i + 1) fun k y hy => by rw [Nat.add_assoc, Nat.add_comm 1 k]; exact hg (k + 1) y hy]
    · simp only [tri?_cell, Option.map_some]
      rw [← h0]; rfl

theorem FaceSplitResult.labelled (R : FaceSplitResult lib inp out f f' u μ pts) :
    out.labelled = inp.labelled.flatMap fun x => (x.2.children μ).map fun d => (x.1, d) := by
  have h1 : out.labelled = (childItems μ u inp.cells).map fun x => (inp.dataAt x.1, x.2.1) := by
    unfold Mesh.labelled
    rw [R.built.cells, ← childItems_tris μ u, List.map_map]
    refine labelled_dense out.dataAt (fun x => inp.dataAt x.1) _ 0 fun k x hx => ?_
    rw [Nat.zero_add, R.data k, hx]
    rfl
  rw [h1]
  unfold childItems Mesh.labelled
  induction inp.cells with
  | nil => rfl
  | cons c cs ih =>
    rw [List.flatMap_cons, List.map_append, ih]
    rcases h : Cell.tri? c.2 with _ | t
    · rw [List.filterMap_cons_none (by rw [h]; rfl)]; rfl
    · rw [List.filterMap_cons_some (b := (inp.dataAt c.1, t)) (by rw [h]; rfl), List.flatMap_cons]
      simp [childItemsOf, Function.comp_def]

theorem labelled_tris (m : Mesh P D) {x : Option D × Tri} (h : x ∈ m.labelled) : x.2 ∈ m.tris := by
  unfold Mesh.labelled at h
  obtain ⟨c, h1, h2⟩ := List.mem_filterMap.1 h
  obtain ⟨t, h3, rfl⟩ := Option.map_eq_some_iff.1 h2
  exact List.mem_filterMap.2 ⟨c, h1, h3⟩

end split

section linear
variable {E D M : Type} [NormedAddCommGroup E] [InnerProductSpace ℝ E] [AddCommMonoid M] {inp out : Mesh E D}
variable {μ : Edge → Option PId} {F : Option D → E → E → E → M}

theorem SplitAtMid.totalBy_eq (S : SplitAtMid inp out μ) (hF : ∀ d, Additive (F d))
    (hl : out.labelled = inp.labelled.flatMap fun x => (x.2.children μ).map fun d => (x.1, d)) :
    out.totalBy F = inp.totalBy F := by
  unfold Mesh.totalBy
  rw [hl]
  have key : ∀ T : List (Option D × Tri), (∀ x ∈ T, x.2 ∈ inp.tris) →
      (((T.flatMap fun x => (x.2.children μ).map fun d => (x.1, d)).map
        fun x => F x.1 (out.place x.2.1) (out.place x.2.2.1) (out.place x.2.2.2)).sum) =
      (T.map fun x => F x.1 (inp.place x.2.1) (inp.place x.2.2.1) (inp.place x.2.2.2)).sum := by
    intro T
    induction T with
    | nil => intro _; rfl
    | cons x T ih =>
      intro hT
      have ht := hT x (by simp)
      rw [List.flatMap_cons, List.map_append, List.sum_append, ih (fun t h => hT t (by simp [h])), List.map_cons,
        List.sum_cons, List.map_map]
      have := children_sum (hF x.1) (S.mid _ ht)
      simp only [Function.comp_def]
      rw [this, S.kept _ ht x.2.1 (by simp [Tri.verts]), S.kept _ ht x.2.2.1 (by simp [Tri.verts]),
        S.kept _ ht x.2.2.2 (by simp [Tri.verts])]
  exact key _ fun x h => labelled_tris _ h

theorem SplitAtMid.region_eq (S : SplitAtMid inp out μ)
    (hl : out.labelled = inp.labelled.flatMap fun x => (x.2.children μ).map fun d => (x.1, d)) (d : Option D) :
    out.region d = inp.region d := by
  ext x
  unfold Mesh.region
  rw [hl]
  have key : ∀ t ∈ inp.tris, (x ∈ convexHull ℝ {inp.place t.1, inp.place t.2.1, inp.place t.2.2} ↔
      ∃ d ∈ t.children μ, x ∈ convexHull ℝ {out.place d.1, out.place d.2.1, out.place d.2.2}) := by
    intro t ht
    rw [← children_hull (S.mid t ht), S.kept t ht t.1 (by simp [Tri.verts]), S.kept t ht t.2.1 (by simp [Tri.verts]),
      S.kept t ht t.2.2 (by simp [Tri.verts])]
  constructor
  · rintro ⟨c, hc, hx⟩
    obtain ⟨y, hy, h1⟩ := List.mem_flatMap.1 hc
    obtain ⟨c', hc', h2⟩ := List.mem_map.1 h1
    cases h2
    exact ⟨y.2, hy, (key _ (labelled_tris _ hy)).2 ⟨c, hc', hx⟩⟩
  · rintro ⟨t, ht, hx⟩
    obtain ⟨c, hc, h1⟩ := (key t (labelled_tris _ ht)).1 hx
    exact ⟨c, List.mem_flatMap.2 ⟨_, ht, List.mem_map.2 ⟨c, hc, rfl⟩⟩, h1⟩

end linear
end Verif
