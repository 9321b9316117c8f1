import Verif.Proofs.CondInduct
import Verif.Proofs.Local
/-
Induction over the iterations of the conditional filter, with what the criterion says before each of them.
-/
namespace Verif
set_option linter.unusedSectionVars false
variable {K P D : Type} [Field K] [Zero P] [Add P] [SMul K P] [LinearOrder K] {lib : QELib} {cosn : Nat → K}

/-- an edge without a new point stays -/
theorem children_dart {μ : Edge → Option PId} {t : Tri} {e : Edge} (he : e ∈ t.darts) (h : μ e = none) :
    ∃ d ∈ t.children μ, e ∈ d.darts := by
  obtain ⟨a, b, c⟩ := t
  simp only [Tri.darts, List.mem_cons, List.not_mem_nil, or_false] at he
  rcases he with rfl | rfl | rfl <;> rcases h0 : μ (a, b) with _ | m0 <;> rcases h1 : μ (b, c) with _ | m1 <;>
    rcases h2 : μ (c, a) with _ | m2 <;> simp_all [Tri.children, Tri.darts]

/-- `condArea_induct`; before each iteration the selection is what the criterion has found -/
theorem condArea_induct_exact {sch : Scheme} {inp out : Mesh P D} (hv : inp.Valid)
    (hl : sch = .loop ∨ sch = .butterfly → lib.Lawful)
    (hi : sch = .loop → inp.NoIsolated) {n : Nat} (hmax : sch = .sqrt3 → inp.points.length + 4 ^ n * inp.cells.length ≤ idMax)
    {area : P → P → P → K} {A : K} {c c' : Cond Filt CId} (I : Mesh P D → Prop) (h0 : I (copyGeometry lib inp))
    (hstep : ∀ (m out : Mesh P D) (sel : List CId) (f f' : Filt), sch.Needs m → sch.Needs out → m.SelOK sel → sel ≠ [] →
      (∀ k, k ∈ sel ↔ m.TooLarge area A k) → (sch = .sqrt3 → m.points.length + (m.selected sel).length ≤ idMax) →
      cellUpdate sch lib cosn (f.setCells sel) m = (.ok out, f') → I m → I out)
    (h : condGenerate lib (condCellUpd sch lib cosn) (some (areaCompute area A)) n c inp = some (.ok out, c')) : I out := by
  have hex : ∀ (m : Mesh P D) (old l : List CId), m.Valid → areaCompute area A m old = (.ok (), l) →
      ∀ k, k ∈ l ↔ m.TooLarge area A k := by
    intro m old l hm hl
    obtain ⟨l', h1, -, h2⟩ := C28_area_exact area A hm.cells_sorted hm.allTriangles hm.cornersExist old
    rw [h1] at hl
    cases hl
    exact h2
  obtain ⟨l, h1, h2, hg⟩ := condArea_start hv hl hi hmax (condCellUpd sch lib cosn) area A c
  rw [hg] at h
  have key := condLoop_induct (upd := condCellUpd sch lib cosn) (crit := areaCompute area A)
    (fun n sel m => I m ∧ AreaInv sch n sel m ∧ ∀ k, k ∈ sel ↔ m.TooLarge area A k) ?_
    ⟨h0, h2, hex _ _ _ h2.needs.valid h1⟩ h
  · obtain ⟨_, _, h4, -⟩ := key
    exact h4
  · rintro n s sel cur ⟨d, H, hx⟩ hne
    obtain ⟨m, s', sel', k1, k2, k3, k4⟩ := condArea_step hl area A s H hne
    exact ⟨m, s', sel', k1, k2, hstep _ _ _ _ _ H.needs k4.needs H.selOK hne hx k3 k1 d, k4, hex _ _ _ k4.needs.valid k2⟩

/-- `condLength_induct`; before each iteration the list is what the criterion has found -/
theorem condLength_induct_exact {sch : EdgeScheme} {inp out : Mesh P D} (hv : inp.Valid)
    (hl : sch = .loop ∨ sch = .butterfly → lib.Lawful) (hi : sch = .loop → inp.NoIsolated) {n : Nat}
    {len : P → P → K} {L : K} {c c' : Cond Filt (Option Edge)} (I : Mesh P D → Prop) (h0 : I (copyGeometry lib inp))
    (hstep : ∀ (m out : Mesh P D) (l : List Edge) (f f' : Filt), LengthInv sch (l.map some) m → sch.toScheme.Needs out →
      l ≠ [] → (∀ e, e ∈ l ↔ e ∈ m.edges ∧ m.TooLong len L e) →
      edgeUpdate sch lib cosn (f.setEdges (l.map some)) m = (.ok out, f') → I m → I out)
    (h : condGenerate lib (condEdgeUpd sch lib cosn) (some (lengthCompute len L)) n c inp = some (.ok out, c')) : I out := by
  have hex : ∀ (m : Mesh P D) (old sel : List (Option Edge)), m.Valid → lengthCompute len L m old = (.ok (), sel) →
      ∃ l : List Edge, sel = l.map some ∧ ∀ e, e ∈ l ↔ e ∈ m.edges ∧ m.TooLong len L e := by
    intro m old sel hm hl
    obtain ⟨l', h1, -, h2, -⟩ := C29_length_exact len L hm.has_edge_cells hm.endsExist old
    rw [h1] at hl
    cases hl
    exact ⟨l', rfl, h2⟩
  obtain ⟨l, h1, h2, hg⟩ := condLength_start hv hl hi (condEdgeUpd sch lib cosn) len L c
  rw [hg] at h
  have key := condLoop_induct (upd := condEdgeUpd sch lib cosn) (crit := lengthCompute len L)
    (fun _ sel m => I m ∧ LengthInv sch sel m ∧ ∃ l : List Edge, sel = l.map some ∧ ∀ e, e ∈ l ↔ e ∈ m.edges ∧ m.TooLong len L e)
    ?_ ⟨h0, h2, hex _ _ _ h2.needs.valid h1⟩ h
  · obtain ⟨_, _, h4, -⟩ := key
    exact h4
  · rintro n s sel cur ⟨d, H, l, rfl, hx⟩ hne
    obtain ⟨m, s', sel', k1, k2, k4⟩ := condLength_step hl len L s H hne
    exact ⟨m, s', sel', k1, k2, hstep _ _ _ _ _ H k4.needs (by simpa using hne) hx k1 d, k4, hex _ _ _ k4.needs.valid k2⟩

end Verif
