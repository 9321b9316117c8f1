import Verif.Spec.OwnCriterion
import Verif.Proofs.CondInduct
/-
Runs of the conditional filter with a criterion of the user's own.
-/
namespace Verif
set_option linter.unusedSectionVars false
variable {K P D T : Type} [Field K] [Zero P] [Add P] [SMul K P] {lib : QELib} {cosn : Nat → K}

section loop
variable {S ι : Type} {upd : S → List ι → Mesh P D → Except Fail (Mesh P D) × S} {crit : CritObj T P D ι}

theorem condLoopC_done {n : Nat} {c : Cond S ι} {t : T} {cur : Mesh P D} (h : c.sel = []) :
    condLoopC upd crit n c t cur = some (.ok cur, c, t) := by
  unfold condLoopC; rw [if_pos (by rw [h]; rfl)]

theorem condLoopC_zero {c : Cond S ι} {t : T} {cur : Mesh P D} (h : c.sel ≠ []) : condLoopC upd crit 0 c t cur = none := by
  unfold condLoopC; rw [if_neg (by simpa using h)]

theorem condLoopC_step {n : Nat} {c : Cond S ι} {t t' : T} {cur m : Mesh P D} {s' : S} {sel' : List ι} (h : c.sel ≠ [])
    (hu : upd c.inner c.sel cur = (.ok m, s')) (hc : crit t m c.sel = ((.ok (), sel'), t')) :
    condLoopC upd crit (n + 1) c t cur = condLoopC upd crit n ⟨s', sel'⟩ t' m := by
  conv_lhs => unfold condLoopC
  rw [if_neg (by simpa using h)]
  simp only [hu, hc]

theorem condLoopC_throw {n : Nat} {c : Cond S ι} {t t' : T} {cur m : Mesh P D} {s' : S} {sel' : List ι} {e : Fail} (h : c.sel ≠ [])
    (hu : upd c.inner c.sel cur = (.ok m, s')) (hc : crit t m c.sel = ((.error e, sel'), t')) :
    condLoopC upd crit (n + 1) c t cur = some (.error e, ⟨s', sel'⟩, t') := by
  unfold condLoopC
  rw [if_neg (by simpa using h)]
  simp only [hu, hc]

/-- a run every iteration of which succeeds ends as `OwnOutcome` says -/
theorem condLoopC_safe (M : Nat → Mesh P D → Prop) (G : Mesh P D → List ι → Prop)
    (hM : ∀ n m, M n m → m.Valid)
    (hupd : ∀ n s sel cur, M (n + 1) cur → G cur sel → sel ≠ [] → ∃ m s', upd s sel cur = (.ok m, s') ∧ M n m)
    (hcrit : CritLists G crit) {n : Nat} {c : Cond S ι} {t : T} {cur : Mesh P D} (h : M n cur)
    (hg : G cur c.sel) (h0 : ∃ t0 old, crit t0 cur old = ((.ok (), c.sel), t)) :
    OwnOutcome crit (fun m => ∃ k, M k m) (condLoopC upd crit n c t cur) := by
  induction n generalizing c t cur with
  | zero =>
    by_cases hs : c.sel = []
    · rw [condLoopC_done hs]
      rw [hs] at h0
      exact ⟨⟨0, h⟩, hs, h0⟩
    · rw [condLoopC_zero hs]; trivial
  | succ n ih =>
    by_cases hs : c.sel = []
    · rw [condLoopC_done hs]
      rw [hs] at h0
      exact ⟨⟨_, h⟩, hs, h0⟩
    · obtain ⟨m, s', h1, h2⟩ := hupd n c.inner c.sel cur h hg hs
      have h3 := hcrit t m c.sel (hM _ _ h2)
      rcases h4 : crit t m c.sel with ⟨⟨e | u, l⟩, t'⟩
      · rw [h4] at h3
        rw [condLoopC_throw hs h1 h4]
        exact ⟨h3, t, m, c.sel, hM _ _ h2, h4⟩
      · rw [h4] at h3
        rw [condLoopC_step hs h1 h4]
        exact ih (c := ⟨s', l⟩) h2 h3 ⟨_, _, h4⟩

theorem condGenerateC_safe (M : Nat → Mesh P D → Prop) (G : Mesh P D → List ι → Prop) (hM : ∀ n m, M n m → m.Valid)
    (hupd : ∀ n s sel cur, M (n + 1) cur → G cur sel → sel ≠ [] → ∃ m s', upd s sel cur = (.ok m, s') ∧ M n m)
    (hcrit : CritLists G crit) {n : Nat} (c : Cond S ι) (t : T) {inp : Mesh P D}
    (h : M n (copyGeometry lib inp)) :
    OwnOutcome crit (fun m => ∃ k, M k m) (condGenerateC lib upd crit n c t inp) := by
  have h3 := hcrit t _ c.sel (hM _ _ h)
  unfold condGenerateC
  rcases h4 : crit t (copyGeometry lib inp) c.sel with ⟨⟨e | u, l⟩, t'⟩
  · rw [h4] at h3
    exact ⟨h3, t, _, c.sel, hM _ _ h, h4⟩
  · rw [h4] at h3
    exact condLoopC_safe (c := ⟨c.inner, l⟩) M G hM hupd hcrit h h3 ⟨_, _, h4⟩

theorem OwnOutcome.mono {I J : Mesh P D → Prop} (hIJ : ∀ m, I m → J m) {r : Option (Except Fail (Mesh P D) × Cond S ι × T)}
    (h : OwnOutcome crit I r) : OwnOutcome crit J r := by
  rcases r with _ | ⟨_ | m, c, t⟩
  · trivial
  · exact h
  · exact ⟨hIJ _ h.1, h.2⟩

end loop

/-- a run with a cell filter: what each iteration keeps, the whole run keeps -/
theorem ownCell_induct {sch : Scheme} {inp : Mesh P D} (hv : inp.Valid) (hl : sch = .loop ∨ sch = .butterfly → lib.Lawful)
    (hi : sch = .loop → inp.NoIsolated) {n : Nat} (hmax : sch = .sqrt3 → inp.points.length + 4 ^ n * inp.cells.length ≤ idMax)
    {crit : CritObj T P D CId} (hc : CellCrit (sch = .sqrt3) crit) (c : Cond Filt CId) (t : T)
    (I : Mesh P D → Prop) (h0 : I (copyGeometry lib inp))
    (hstep : ∀ (m out : Mesh P D) (sel : List CId) (f f' : Filt), sch.Needs m → sch.Needs out → m.SelOK sel →
      (sch = .sqrt3 → sel.Nodup) → sel ≠ [] → (sch = .sqrt3 → m.points.length + (m.selected sel).length ≤ idMax) →
      m.cells.length ≤ out.cells.length →
      cellUpdate sch lib cosn (f.setCells sel) m = (.ok out, f') → I m → I out) :
    OwnOutcome crit (fun m => sch.Needs m ∧ I m) (condGenerateC lib (condCellUpd sch lib cosn) crit n c t inp) := by
  refine OwnOutcome.mono ?_ (condGenerateC_safe (lib := lib) (upd := condCellUpd sch lib cosn)
    (fun n m => sch.Needs m ∧ I m ∧ (sch = .sqrt3 → m.points.length + 4 ^ n * m.cells.length ≤ idMax))
    (fun m l => m.SelOK l ∧ (sch = .sqrt3 → l.Nodup)) (fun _ _ h => h.1.valid) ?_ hc c t (inp := inp) (n := n)
    ⟨copyGeometry_needs hv hl hi, h0, fun hs => by
      rw [copyGeometry_points lib hv, cells_length_copyGeometry lib hv]; exact hmax hs⟩)
  · rintro m ⟨_, h1, h2, -⟩
    exact ⟨h1, h2⟩
  · rintro n s sel cur ⟨hn, hI, hmx⟩ ⟨hsel, hnd⟩ hne
    by_cases hs : sch = .sqrt3
    · subst hs
      have h4 : 1 ≤ 4 ^ n := Nat.one_le_pow _ _ (by omega)
      have hm := hmx rfl
      rw [pow_succ] at hm
      have hm' : cur.points.length + cur.cells.length + 4 ^ n * (3 * cur.cells.length) ≤ idMax := by
        refine Nat.le_trans ?_ hm
        have : cur.cells.length ≤ 4 ^ n * cur.cells.length := Nat.le_mul_of_pos_left _ h4
        have h5 : 4 ^ n * 4 * cur.cells.length = 4 ^ n * cur.cells.length + 4 ^ n * (3 * cur.cells.length) := by ring
        rw [h5]; omega
      obtain ⟨m, f', h5, h6, h7, h8, h9, h10, h11⟩ :=
        condSqrt3_ok (lib := lib) cosn hn.valid hne hsel (hnd rfl) (by omega) s
      have hn' : Scheme.sqrt3.Needs m := ⟨h7, by simp, by simp⟩
      exact ⟨m, f', h5, hn', hstep _ _ _ _ _ hn hn' hsel hnd hne (fun _ => h8) h11 h6 hI, fun _ =>
        Nat.le_trans (Nat.add_le_add h9 (Nat.mul_le_mul_left _ h10)) hm'⟩
    · obtain ⟨m, f', h5, h6, h7, h8⟩ := condCellUpd_ok cosn hs hl hn hsel s
      exact ⟨m, f', h5, h7, hstep _ _ _ _ _ hn h7 hsel hnd hne (fun h => (hs h).elim)
        (cells_le_of_children hn.valid h7.valid h8) h6 hI, fun h => (hs h).elim⟩

/-- a run with an edge filter -/
theorem ownEdge_induct {sch : EdgeScheme} {inp : Mesh P D} (hv : inp.Valid) (hl : sch = .loop ∨ sch = .butterfly → lib.Lawful)
    (hi : sch = .loop → inp.NoIsolated) {n : Nat} {crit : CritObj T P D (Option Edge)} (hc : EdgeCrit crit)
    (c : Cond Filt (Option Edge)) (t : T) (I : Mesh P D → Prop) (h0 : I (copyGeometry lib inp))
    (hstep : ∀ (m out : Mesh P D) (l : List Edge) (f f' : Filt), sch.toScheme.Needs m → sch.toScheme.Needs out →
      l ≠ [] → m.EdgeSelOK (l.map some) → DistinctEdges l → m.cells.length ≤ out.cells.length →
      edgeUpdate sch lib cosn (f.setEdges (l.map some)) m = (.ok out, f') → I m → I out) :
    OwnOutcome crit (fun m => sch.toScheme.Needs m ∧ I m) (condGenerateC lib (condEdgeUpd sch lib cosn) crit n c t inp) := by
  refine OwnOutcome.mono ?_ (condGenerateC_safe (lib := lib) (upd := condEdgeUpd sch lib cosn)
    (fun _ m => sch.toScheme.Needs m ∧ I m)
    (fun m sel => ∃ l : List Edge, sel = l.map some ∧ (∀ e ∈ l, m.IsEdge e) ∧ DistinctEdges l) (fun _ _ h => h.1.valid) ?_ hc c t
    (inp := inp) (n := n) ⟨copyGeometry_needs hv (fun h => hl (h.imp toScheme_loop.1 toScheme_butterfly.1))
    (fun h => hi (toScheme_loop.1 h)), h0⟩)
  · rintro m ⟨_, h1⟩
    exact h1
  · rintro n s sel cur ⟨hn, hI⟩ ⟨l, rfl, hE, hD⟩ hne
    have hne' : l ≠ [] := by simpa using hne
    obtain ⟨m, f', h5, h6, h7, h8⟩ := condEdgeUpd_ok cosn hl hn hne' hE hD s
    refine ⟨m, f', h5, h7, hstep _ _ _ _ _ hn h7 hne' ?_ hD (cells_le_of_children hn.valid h7.valid h8) h6 hI⟩
    intro e he
    obtain ⟨e', he', h⟩ := List.mem_map.1 he
    cases h
    exact hE _ he'

/-- with a criterion without members the loop is the one of Model/Drivers.lean -/
theorem condLoopC_plain {S ι : Type} (upd : S → List ι → Mesh P D → Except Fail (Mesh P D) × S)
    (crit : Mesh P D → Prog (List ι) Unit) (n : Nat) (c : Cond S ι) (cur : Mesh P D) :
    condLoopC upd (plainCrit crit) n c () cur = (condLoop upd crit n c cur).map fun r => (r.1, r.2, ()) := by
  induction n generalizing c cur with
  | zero =>
    by_cases hs : c.sel = []
    · rw [condLoopC_done hs, condLoop_done hs]; rfl
    · rw [condLoopC_zero hs, condLoop_zero hs]; rfl
  | succ n ih =>
    by_cases hs : c.sel = []
    · rw [condLoopC_done hs, condLoop_done hs]; rfl
    · unfold condLoopC condLoop
      rw [if_neg (by simpa using hs), if_neg (by simpa using hs)]
      simp only [plainCrit]
      rcases upd c.inner c.sel cur with ⟨e | m, s'⟩
      · rfl
      · simp only
        rcases crit m c.sel with ⟨e | u, l⟩
        · rfl
        · exact ih _ _

end Verif
