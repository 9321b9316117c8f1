import Verif.Proofs.Parts
import Verif.Properties.TwoSteps
import Verif.Properties.Order
import Verif.Properties.History
/-
C96: any number of parts, in any order.
-/
namespace Verif
set_option linter.unusedSectionVars false
section
variable {K P D : Type} [Field K] [Zero P] [Add P] [SMul K P] {lib : QELib} {cosn : Nat → K}

/-- C96, Linear, any number of parts: no triangle has edges of two of them.  Runs on the parts one after the other are possible
and end in exactly the mesh that one run with all of them selected gives. -/
theorem C96_parts {inp : Mesh P D} {parts : List (List CId)} (hv : inp.Valid) (hp : parts ≠ [])
    (hs : ∀ s ∈ parts, s ≠ [] ∧ inp.SelOK s)
    (hsep : parts.Pairwise fun a b => ∀ t ∈ inp.tris, t.Apart (inp.selected a) ∨ t.Apart (inp.selected b)) :
    (∃ out, InTurn .linear lib cosn inp parts out) ∧
    ∀ out, InTurn .linear lib cosn inp parts out → ∀ f : Filt, f.cells = parts.flatten →
      (cellUpdate .linear lib cosn f inp).1 = .ok out := by
  have hn : Scheme.linear.Needs inp := ⟨hv, by simp, by simp⟩
  have sep : ∀ {l : List (List CId)} {s : List CId}, (l ++ [s]).Pairwise (fun a b => ∀ t ∈ inp.tris,
      t.Apart (inp.selected a) ∨ t.Apart (inp.selected b)) → l ≠ [] → (∀ a ∈ l, a ≠ []) →
      ∀ t ∈ inp.tris, t.Apart (inp.selected l.flatten) ∨ t.Apart (inp.selected s) := by
    intro l s hsep hl hne t ht
    by_contra hc
    obtain ⟨c1, c2⟩ := not_or.1 hc
    refine c1 fun t' ht' => ?_
    obtain ⟨a, ha, ht'⟩ := (mem_selected_flatten hne hl).1 ht'
    exact (((List.pairwise_append.1 hsep).2.2 a ha s (by simp)) t ht).resolve_right c2 t' ht'
  have one : ∀ {l : List (List CId)} {out : Mesh P D}, InTurn .linear lib cosn inp l out → (∀ s ∈ l, s ≠ [] ∧ inp.SelOK s) →
      l.Pairwise (fun a b => ∀ t ∈ inp.tris, t.Apart (inp.selected a) ∨ t.Apart (inp.selected b)) →
      ∀ f : Filt, f.cells = l.flatten → (cellUpdate .linear lib cosn f inp).1 = .ok out := by
    intro l out h
    induction h with
    | @first s g g' out h1 h2 =>
      intro _ _ f hf
      rw [(cellUpdate_history (sch := .linear) (f := g) (g := f) (by decide) lib cosn inp (by rw [hf, h1]; simp)).1, h2]
    | @next l s mid out f₂ f₂' h1 h2 h3 h4 ih =>
      intro hs hsep f hf
      have hs' : ∀ a ∈ l, a ≠ [] ∧ inp.SelOK a := fun a ha => hs a (by simp [ha])
      have hne : ∀ a ∈ l, a ≠ [] := fun a ha => (hs' a ha).1
      have e1 := ih hs' (List.pairwise_append.1 hsep).1 (Filt.new.setCells l.flatten) rfl
      obtain ⟨out', k1, k2⟩ := C96_linear (lib := lib) (f₁ := Filt.new.setCells l.flatten) (f₁' := _) (f₂ := f₂) (f₃ := f) hv
        (selOK_flatten fun a ha => (hs' a ha).2) (hs s (by simp)).2 (flatten_ne_nil hne h1.ne_nil) (hs s (by simp)).1
        (sep hsep h1.ne_nil hne) (Prod.ext e1 rfl) h2 h3 (by rw [hf]; simp [Filt.setCells])
      rw [h4] at k1
      cases k1
      exact k2
  refine ⟨?_, fun out h => one h hs hsep⟩
  induction parts using List.reverseRecOn with
  | nil => exact absurd rfl hp
  | append_singleton l s ih =>
    by_cases hl : l = []
    · subst hl
      obtain ⟨out, f', e, -⟩ := cellUpdate_ok (sch := .linear) (f := Filt.new.setCells s) (by decide) lib cosn hn (hs s (by simp)).2
      exact ⟨out, .first rfl e⟩
    · have hs' : ∀ a ∈ l, a ≠ [] ∧ inp.SelOK a := fun a ha => hs a (by simp [ha])
      have hne : ∀ a ∈ l, a ≠ [] := fun a ha => (hs' a ha).1
      obtain ⟨mid, hm⟩ := ih hl hs' (List.pairwise_append.1 hsep).1
      have e1 := one hm hs' (List.pairwise_append.1 hsep).1 (Filt.new.setCells l.flatten) rfl
      have hsl := selOK_flatten fun a ha => (hs' a ha).2
      have hap := sep hsep hl hne
      obtain ⟨s', -, k2, k3⟩ := C96_second_part_kept (f := Filt.new.setCells l.flatten) (f' := _) (mid := mid) (sch := .linear) (by decide) hn
        hsl (hs s (by simp)).2 (hs s (by simp)).1
        (fun t ht => (hap t (selected_tris hv ht)).resolve_right fun hc => Tri.apart_self hc ht) (Prod.ext e1 rfl)
      have hnm : Scheme.linear.Needs mid := ⟨(C04_output_valid (f := Filt.new.setCells l.flatten) (f' := _) (by decide) hn hsl (Prod.ext e1 rfl)).1, by simp, by simp⟩
      obtain ⟨out, f', e, -⟩ := cellUpdate_ok (sch := .linear) (f := Filt.new.setCells s') (by decide) lib cosn hnm k2
      exact ⟨out, .next hm k2 k3 e⟩

/-- C96, SquareThree, any number of parts: it is enough that no two of them have an edge in common. -/
theorem C96_parts_sqrt3 {inp : Mesh P D} {parts : List (List CId)} (hv : inp.Valid) (hp : parts ≠ [])
    (hs : ∀ s ∈ parts, s ≠ [] ∧ inp.SelOK s)
    (hsep : parts.Pairwise fun a b => ∀ t ∈ inp.selected b, t.Apart (inp.selected a))
    (hmax : inp.points.length + (inp.selected parts.flatten).length ≤ idMax) :
    (∃ out, InTurn .sqrt3 lib cosn inp parts out) ∧
    ∀ out, InTurn .sqrt3 lib cosn inp parts out → ∀ f : Filt, f.cells = parts.flatten →
      (cellUpdate .sqrt3 lib cosn f inp).1 = .ok out := by
  have sep : ∀ {l : List (List CId)} {s : List CId}, (l ++ [s]).Pairwise (fun a b => ∀ t ∈ inp.selected b,
      t.Apart (inp.selected a)) → l ≠ [] → (∀ a ∈ l, a ≠ []) → ∀ t ∈ inp.selected s, t.Apart (inp.selected l.flatten) := by
    intro l s hsep hl hne t ht t' ht'
    obtain ⟨a, ha, ht'⟩ := (mem_selected_flatten hne hl).1 ht'
    exact (List.pairwise_append.1 hsep).2.2 a ha s (by simp) t ht t' ht'
  have len : ∀ {l : List (List CId)} {s : List CId}, (∀ a ∈ l ++ [s], a ≠ [] ∧ inp.SelOK a) → l ≠ [] →
      inp.points.length + (inp.selected (l ++ [s]).flatten).length ≤ idMax →
      inp.points.length + (inp.selected l.flatten).length + (inp.selected s).length ≤ idMax := by
    intro l s hs hl h
    rw [List.flatten_append, show ([s] : List (List CId)).flatten = s by simp,
      selected_append _ (flatten_ne_nil (fun a ha => (hs a (by simp [ha])).1) hl) (hs s (by simp)).1, List.length_append,
      ← Nat.add_assoc] at h
    exact h
  have one : ∀ {l : List (List CId)} {out : Mesh P D}, InTurn .sqrt3 lib cosn inp l out → (∀ s ∈ l, s ≠ [] ∧ inp.SelOK s) →
      l.Pairwise (fun a b => ∀ t ∈ inp.selected b, t.Apart (inp.selected a)) →
      inp.points.length + (inp.selected l.flatten).length ≤ idMax →
      ∀ f : Filt, f.cells = l.flatten → (cellUpdate .sqrt3 lib cosn f inp).1 = .ok out := by
    intro l out h
    induction h with
    | @first s g g' out h1 h2 =>
      intro _ _ _ f hf
      rw [(cellUpdate_history (sch := .sqrt3) (f := g) (g := f) (by decide) lib cosn inp (by rw [hf, h1]; simp)).1, h2]
    | @next l s mid out f₂ f₂' h1 h2 h3 h4 ih =>
      intro hs hsep hmax f hf
      have hs' : ∀ a ∈ l, a ≠ [] ∧ inp.SelOK a := fun a ha => hs a (by simp [ha])
      have hne : ∀ a ∈ l, a ≠ [] := fun a ha => (hs' a ha).1
      have hm := len hs h1.ne_nil hmax
      have e1 := ih hs' (List.pairwise_append.1 hsep).1 (Nat.le_trans (Nat.le_add_right _ _) hm) (Filt.new.setCells l.flatten) rfl
      obtain ⟨out', k1, k2⟩ := (C96_sqrt3 (lib := lib) (f₁ := Filt.new.setCells l.flatten) (f₁' := _) hv
        (selOK_flatten fun a ha => (hs' a ha).2) (hs s (by simp)).2 (flatten_ne_nil hne h1.ne_nil) (hs s (by simp)).1 hm
        (sep hsep h1.ne_nil hne) (Prod.ext e1 rfl)).2 f₂ f h2 h3 (by rw [hf]; simp [Filt.setCells])
      rw [h4] at k1
      cases k1
      exact k2
  refine ⟨?_, fun out h => one h hs hsep hmax⟩
  induction parts using List.reverseRecOn with
  | nil => exact absurd rfl hp
  | append_singleton l s ih =>
    by_cases hl : l = []
    · subst hl
      obtain ⟨out, f', e, -⟩ := sqrt3Update_ok (f := Filt.new.setCells s) hv lib cosn (hs s (by simp)).2 (by
        simpa [Filt.setCells] using hmax)
      exact ⟨out, .first rfl e⟩
    · have hs' : ∀ a ∈ l, a ≠ [] ∧ inp.SelOK a := fun a ha => hs a (by simp [ha])
      have hne : ∀ a ∈ l, a ≠ [] := fun a ha => (hs' a ha).1
      have hml := len hs hl hmax
      have hml' := Nat.le_trans (Nat.le_add_right _ _) hml
      obtain ⟨mid, hm⟩ := ih hl hs' (List.pairwise_append.1 hsep).1 hml'
      have e1 := one hm hs' (List.pairwise_append.1 hsep).1 hml' (Filt.new.setCells l.flatten) rfl
      obtain ⟨⟨s', -, k2, k3⟩, key⟩ := C96_sqrt3 (lib := lib) (f₁ := Filt.new.setCells l.flatten) (f₁' := _) hv
        (selOK_flatten fun a ha => (hs' a ha).2) (hs s (by simp)).2 (flatten_ne_nil hne hl) (hs s (by simp)).1 hml
        (sep hsep hl hne) (Prod.ext e1 rfl)
      obtain ⟨out, e, -⟩ := key (Filt.new.setCells s') (Filt.new.setCells (l.flatten ++ s)) k2 k3 rfl
      exact ⟨out, .next hm k2 k3 (Prod.ext e rfl)⟩

end

section
variable {K P D : Type} [Field K] [AddCommGroup P] [Module K P] {lib : QELib} {cosn : Nat → K}

/-- C96, Linear: the order of the parts does not matter.  The same triangles at the same positions in the same order, and as many
points; only the ids of the new points may differ. -/
theorem C96_parts_order {inp out out' : Mesh P D} {parts parts' : List (List CId)} (hv : inp.Valid)
    (hs : ∀ s ∈ parts, s ≠ [] ∧ inp.SelOK s)
    (hsep : parts.Pairwise fun a b => ∀ t ∈ inp.tris, t.Apart (inp.selected a) ∨ t.Apart (inp.selected b))
    (hperm : parts.Perm parts') (h : InTurn .linear lib cosn inp parts out) (h' : InTurn .linear lib cosn inp parts' out') :
    out.coordTris = out'.coordTris ∧ out.points.length = out'.points.length ∧ ∀ v, v < inp.points.length → out.pos v = out'.pos v := by
  have e := (C96_parts hv h.ne_nil hs hsep).2 out h (Filt.new.setCells parts.flatten) rfl
  have e' := (C96_parts hv h'.ne_nil (fun s h => hs s (hperm.mem_iff.2 h))
    ((hperm.pairwise_iff fun hab t ht => (hab t ht).symm).1 hsep)).2 out' h' (Filt.new.setCells parts'.flatten) rfl
  exact C27_selection_order (f := Filt.new) (.inl rfl) ⟨hv, by simp, by simp⟩ (selOK_flatten fun s h => (hs s h).2)
    (fun k => by simp only [List.mem_flatten, hperm.mem_iff]) (Prod.ext e rfl) (Prod.ext e' rfl)

end

/-- a row of seven triangles -/
def longMesh : Mesh Q3 Nat :=
  mk [(0, 0, 0), (1, 0, 0), (0, 1, 0), (1, 1, 1), (0, 2, 0), (1, 2, 0), (0, 3, 1), (1, 3, 0), (0, 4, 0)]
    [(0, 1, 2), (2, 1, 3), (2, 3, 4), (4, 3, 5), (4, 5, 6), (6, 5, 7), (6, 7, 8)] (some [(1, 7), (3, 9)])

theorem longMesh_ok : longMesh.Valid ∧ longMesh.RingOK ∧ longMesh.NoIsolated ∧
    longMesh.tris = [(0, 1, 2), (2, 1, 3), (2, 3, 4), (4, 3, 5), (4, 5, 6), (6, 5, 7), (6, 7, 8)] :=
  mk_ok _ (by decide)

theorem longMesh_parts : (∀ s ∈ [[3], [6], [0]], s ≠ [] ∧ longMesh.SelOK s) ∧
    [[3], [6], [0]].Pairwise fun a b => ∀ t ∈ longMesh.tris, t.Apart (longMesh.selected a) ∨ t.Apart (longMesh.selected b) := by
  refine ⟨?_, ?_⟩
  · simp only [List.mem_cons, List.not_mem_nil, or_false, forall_eq_or_imp, forall_eq]
    unfold Mesh.SelOK; decide
  · rw [longMesh_ok.2.2.2]
    refine .cons (fun b hb => ?_) (.cons (fun b hb => ?_) (.cons (fun b hb => ?_) .nil))
    · simp only [List.mem_cons, List.not_mem_nil, or_false] at hb
      rcases hb with rfl | rfl <;> (unfold Tri.Apart; decide)
    · simp only [List.mem_cons, List.not_mem_nil, or_false] at hb
      subst hb; unfold Tri.Apart; decide
    · cases hb

/-- three parts of it, in two orders -/
example : ∃ out out', InTurn .linear someLib cos0 longMesh [[3], [6], [0]] out ∧ InTurn .linear someLib cos0 longMesh [[0], [3], [6]] out' ∧
    (cellUpdate .linear someLib cos0 (usedFilt [3, 6, 0]) longMesh).1 = .ok out ∧ out.coordTris = out'.coordTris := by
  obtain ⟨h1, h2⟩ := longMesh_parts
  have hperm : [[3], [6], [0]].Perm ([[0], [3], [6]] : List (List CId)) := by decide
  obtain ⟨⟨out, ho⟩, key⟩ := C96_parts (lib := someLib) (cosn := cos0) longMesh_ok.1 (by simp) h1 h2
  obtain ⟨⟨out', ho'⟩, -⟩ := C96_parts (lib := someLib) (cosn := cos0) (parts := [[0], [3], [6]]) longMesh_ok.1 (by simp)
    (fun s h => h1 s (hperm.mem_iff.2 h)) ((hperm.pairwise_iff fun hab t ht => (hab t ht).symm).1 h2)
  exact ⟨out, out', ho, ho', key out ho (usedFilt [3, 6, 0]) rfl, (C96_parts_order longMesh_ok.1 h1 h2 hperm ho ho').1⟩

/-- SquareThree, parts with triangles between them -/
example : ∃ out, InTurn .sqrt3 someLib cos0 longMesh [[2], [4], [0]] out ∧
    (cellUpdate .sqrt3 someLib cos0 (usedFilt [2, 4, 0]) longMesh).1 = .ok out := by
  obtain ⟨⟨out, ho⟩, key⟩ := C96_parts_sqrt3 (lib := someLib) (cosn := cos0) (parts := [[2], [4], [0]]) longMesh_ok.1 (by simp)
    (by unfold Mesh.SelOK; decide) (by unfold Tri.Apart; decide) (by decide)
  exact ⟨out, ho, key out ho (usedFilt [2, 4, 0]) rfl⟩

end Verif
