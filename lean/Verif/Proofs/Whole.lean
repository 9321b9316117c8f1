import Verif.Proofs.Levels
import Verif.Proofs.Sqrt3Result
/-
Runs that split the same edges, or subdivide the same cells, in the same order make the same mesh.
-/
namespace Verif
set_option linter.unusedSectionVars false
variable {K P D : Type} [Field K] [Zero P] [Add P] [SMul K P] {lib : QELib} {cosn : Nat → K} {sch : Scheme} {inp : Mesh P D}

theorem childItems_plain (μ : Edge → Option PId) (u u' : Bool) (cells : AMap (Option Cell)) :
    (childItems μ u cells).map Item.plain = (childItems μ u' cells).map Item.plain := by
  unfold childItems
  rw [List.map_flatMap, List.map_flatMap]
  congr 1
  funext c
  rcases Cell.tri? c.2 with _ | t
  · rfl
  · simp only [childItemsOf, List.map_map]
    rfl

theorem sq3Items_plain (σ : Edge → Option PId) (u u' : Bool) (M : List Edge) (J : List Job) :
    (sq3Items σ u M J).map Item.plain = (sq3Items σ u' M J).map Item.plain := by
  induction J generalizing M with
  | nil => rfl
  | cons j J ih =>
    rcases j with ⟨id, t, _ | e⟩
    · simp only [sq3Items, List.map_cons, ih M]
    · simp only [sq3Items]
      by_cases h : e ∈ M
      · rw [if_pos h, if_pos h]; exact ih M
      · rw [if_neg h, if_neg h]
        rcases σ e.sym with _ | v'
        · simp only [List.map_cons, ih M]; rfl
        · simp only [List.map_cons, ih (e.sym :: M)]; rfl

theorem FaceSplitResult.out_eq {out out' : Mesh P D} {f f' g g' : Filt} {u u' : Bool} {μ : Edge → Option PId} {pts : List P}
    (R : FaceSplitResult lib inp out f f' u μ pts) (R' : FaceSplitResult lib inp out' g g' u' μ pts) : out = out' := by
  rw [R.out, R'.out, childItems_plain μ u u']

theorem Sqrt3Result.out_eq {out out' : Mesh P D} {f f' g g' : Filt} {u u' : Bool} {σ : Edge → Option PId} {pts : List P}
    (R : Sqrt3Result lib inp out f f' u σ pts) (R' : Sqrt3Result lib inp out' g g' u' σ pts) : out = out' := by
  rw [R.out, R'.out, sq3Items_plain σ u u']

theorem Mesh.Valid.selected_all (hv : inp.Valid) : inp.selected (inp.cells.map Prod.fst) = inp.selected [] := by
  unfold Mesh.selected
  rw [if_pos (by rfl : ([] : List CId).isEmpty)]
  split
  · rfl
  · rw [List.filterMap_map]
    unfold Mesh.tris
    refine List.filterMap_congr fun c hc => ?_
    obtain ⟨t, ht, -⟩ := hv.cells_tri c hc
    have h : (c.1, some t.cell) ∈ inp.cells := by rw [← ht]; exact hc
    show inp.triAt c.1 = _
    rw [hv.triAt_iff.2 h, ht, tri?_cell]

theorem pushed_all {L : List Item} (k : Nat) (h : ∀ x ∈ L, x.2.2 = true) : pushed k L = List.range' k L.length := by
  induction L generalizing k with
  | nil => rfl
  | cons x L ih =>
    simp only [pushed, h x (by simp), if_true, List.length_cons, List.range'_succ]
    rw [ih (k + 1) fun y hy => h y (by simp [hy])]

theorem sq3Items_flags (σ : Edge → Option PId) (u : Bool) {J : List Job} (hJ : ∀ j ∈ J, j.2.2.isSome) (M : List Edge) :
    ∀ x ∈ sq3Items σ u M J, x.2.2 = !u := by
  induction J generalizing M with
  | nil => intro x hx; cases hx
  | cons j J ih =>
    rcases j with ⟨id, t, _ | e⟩
    · exact absurd (hJ (id, t, none) List.mem_cons_self) (by simp)
    · have ih := ih fun j hj => hJ j (by simp [hj])
      simp only [sq3Items]
      by_cases h : e ∈ M
      · rw [if_pos h]; exact ih M
      · rw [if_neg h]
        rcases σ e.sym with _ | v'
        · intro x hx
          rcases List.mem_cons.1 hx with rfl | hx
          · rfl
          · exact ih M x hx
        · intro x hx
          rcases List.mem_cons.1 hx with rfl | hx
          · rfl
          · rcases List.mem_cons.1 hx with rfl | hx
            · rfl
            · exact ih _ x hx

/-- A run with all cells selected, in their order, makes the mesh of the uniform run; all cells are recorded. -/
theorem whole_run (hn : sch.Needs inp) (hmax : sch = .sqrt3 → inp.points.length + inp.tris.length ≤ idMax) {f g : Filt}
    (hl : sch = .loop → f.uniform = true ∧ g.uniform = true) :
    ∃ out f₁ f₂, cellUpdate sch lib cosn (f.setCells (inp.cells.map Prod.fst)) inp = (.ok out, f₁) ∧
      cellUpdate sch lib cosn (g.setCells []) inp = (.ok out, f₂) ∧ f₂.cells = [] ∧
      f₁.cells = out.cells.map Prod.fst := by
  have hv := hn.valid
  have hsel : inp.SelOK (inp.cells.map Prod.fst) := fun k hk => hk
  have hdart : ∀ t ∈ inp.tris, ∀ e ∈ t.darts, e ∈ dartsOf (inp.selected []) := fun t ht e he =>
    mem_dartsOf.2 ⟨t, by simpa [Mesh.selected] using ht, he⟩
  have hempty : inp.cells ≠ [] → (inp.cells.map Prod.fst).isEmpty = false := by
    intro h; cases hc : inp.cells with
    | nil => exact absurd hc h
    | cons => rfl
  by_cases hs : sch = .sqrt3
  · subst hs
    have hmax := hmax rfl
    have e0 : (inp.selected []).length = inp.tris.length := by simp [Mesh.selected]
    obtain ⟨out, f₁, h1, R1⟩ := sqrt3Update_ok hv lib cosn (f := f.setCells (inp.cells.map Prod.fst)) hsel
      (by show _ + (inp.selected (inp.cells.map Prod.fst)).length ≤ _; rw [hv.selected_all, e0]; exact hmax)
    obtain ⟨out', f₂, h2, R2⟩ := sqrt3Update_ok hv lib cosn (f := g.setCells []) (selOK_nil _)
      (by show _ + (inp.selected []).length ≤ _; rw [e0]; exact hmax)
    have hc : inp.centreOf (inp.cells.map Prod.fst) = inp.centreOf [] := by
      funext e; unfold Mesh.centreOf; rw [hv.selected_all]
    simp only [Filt.setCells, hc, hv.selected_all] at R1 R2
    have := R1.out_eq R2
    subst this
    refine ⟨out, f₁, f₂, h1, h2, ?_, ?_⟩
    · exact (C16_selection_after_run_sqrt3 hv (f := g.setCells []) (selOK_nil _) (by
        show _ + (inp.selected []).length ≤ _; rw [e0]; exact hmax) h2).1 rfl
    · rw [R1.cells, R1.built.cells, AMap.map_fst_dense, List.length_map, List.length_map]
      by_cases hc : inp.cells = []
      · rw [hc]; rfl
      rw [pushed_all, List.range_eq_range']
      intro x hx
      rw [sq3Items_flags _ _ (M := []) ?_ x hx, hempty hc]
      · rfl
      · intro j hj
        unfold sq3Jobs at hj
        obtain ⟨c, hc, hj⟩ := List.mem_flatMap.1 hj
        obtain ⟨t, ht, -⟩ := hv.cells_tri c hc
        have hmem : t ∈ inp.tris := hv.mem_tris.2 ⟨c.1, by rw [← ht]; exact hc⟩
        rw [ht, tri?_cell] at hj
        simp only [sq3JobsOf] at hj
        have := (centreOf_isSome hv (sel := []) hmem (e := (t.1, t.2.1)) (by simp [Tri.darts])).2
          (by simpa [Mesh.selected] using hmem)
        obtain ⟨v, hv'⟩ := Option.isSome_iff_exists.1 this
        rw [hv'] at hj
        obtain ⟨e, -, rfl⟩ := List.mem_map.1 hj
        rfl
  · obtain ⟨out, f₁, h1, R1⟩ := cellUpdate_ok hs lib cosn (f := f.setCells (inp.cells.map Prod.fst)) hn hsel
    obtain ⟨out', f₂, h2, R2⟩ := cellUpdate_ok hs lib cosn (f := g.setCells []) hn (selOK_nil _)
    have hb : schemeBase sch cosn inp (f.setCells (inp.cells.map Prod.fst)) = schemeBase sch cosn inp (g.setCells []) := by
      funext v
      cases sch with
      | loop =>
        obtain ⟨e1, e2⟩ := hl rfl
        simp only [schemeBase, loopBase, Filt.setCells, e1, e2, Bool.true_or]
      | _ => rfl
    rw [hb] at R1
    simp only [Filt.setCells, hv.selected_all] at R1 R2
    have := R1.out_eq R2
    subst this
    refine ⟨out, f₁, f₂, h1, h2, (C16_selection_after_run hs hn (f := g.setCells []) (selOK_nil _) h2).1 rfl, ?_⟩
    rw [R1.filt, R1.built.cells, AMap.map_fst_dense, List.length_map, ← childItems_tris _ false, List.length_map]
    by_cases hc : inp.cells = []
    · rw [hc]; rfl
    show pushed 0 _ = _
    rw [hempty hc, pushed_all, List.range_eq_range']
    intro x hx
    obtain ⟨t, ht, -, hx⟩ := mem_childItems.1 hx
    rw [hx, (allSplit_iff _ _).2]
    · rfl
    · intro e he
      have := (edgePoint_isSome inp [] e).2 (.inl (hdart t (hv.mem_tris.2 ⟨_, ht⟩) e he))
      exact this

end Verif
