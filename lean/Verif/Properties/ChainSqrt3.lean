import Verif.Properties.Chain
import Verif.Properties.PipelineSqrt3
/-
C72 is false for SquareThree with a list in front of an iterative filter as well.
-/
namespace Verif
set_option linter.unusedSectionVars false
variable {K P D : Type} [Field K] [Zero P] [Add P] [SMul K P] [LinearOrder K]

/-- C72 is false for a SquareThree filter with a list of more than a third of the cells in front of an iterative filter, for the
reason of `C72_list_before_iterative_refuted`. -/
theorem C72_sqrt3_list_before_iterative_refuted (sch' : Scheme) (lib : QELib) (cosn : Nat → K)
    (area : P → P → P → K) (len : P → P → K) (fuel : Nat) {inp : Mesh P D} (hv : inp.Valid) {l : List CId} (hsel : inp.SelOK l)
    (hmax : inp.points.length + (inp.selected l).length ≤ idMax)
    (hd : l.Nodup) (hbig : inp.cells.length < 3 * l.length) (f : Iter) {w : Chain.Around} (hw : ∀ k t, w.again k t = true)
    {s : Nat → AnyFilt K} (h0 : s 0 = .cell .sqrt3 Filt.new) (h1 : s 1 = .iter sch' f) :
    ∃ c out d, (Chain.new s inp Mesh.empty).calls (anyRun lib cosn area len fuel) AnyFilt.pulls Mesh.empty [chainSetCells 0 l] =
        some c ∧
      byHand (anyRun lib cosn area len fuel) (askedChain s inp [chainSetCells 0 l]).1 inp 0 = some (.ok out) ∧
      c.update (anyRun lib cosn area len fuel) AnyFilt.pulls w Mesh.empty 1 = some (.error (.ub .missingKey), d) := by
  have hne : l ≠ [] := by
    rintro rfl
    exact absurd hbig (Nat.not_lt_zero _)
  obtain ⟨out, f', h, -⟩ := C11_sqrt3_completes lib cosn (f := Filt.new.setCells l) hv hsel hmax
  have hlong : f'.cells.length = 3 * l.length := recorded_length_sqrt3 (f := Filt.new.setCells l) hv hsel hmax hne hd h
  have hnd := ((C16_selection_after_run_sqrt3 (f := Filt.new.setCells l) hv hsel hmax h).2 hne).2.1
  have hn : Scheme.sqrt3.Needs inp := ⟨hv, fun h => (by rcases h with h | h <;> exact nomatch h), fun h => nomatch h⟩
  have hub := C36_absent_id_refuted lib cosn (f := f') hn (not_selOK_of_long hnd (hlong ▸ hbig))
  have hrun1 : anyRun lib cosn area len fuel (.cell .sqrt3 (Filt.new.setCells l)) inp = some (.ok out, .cell .sqrt3 f') := by
    show some ((cellUpdate .sqrt3 lib cosn (Filt.new.setCells l) inp).1, AnyFilt.cell .sqrt3 (cellUpdate .sqrt3 lib cosn (Filt.new.setCells l) inp).2) = _
    rw [h]
  obtain ⟨f2, hrun2⟩ : ∃ f2, anyRun lib cosn area len fuel (.cell .sqrt3 f') inp = some (.error (.ub .missingKey), f2) :=
    ⟨.cell .sqrt3 (cellUpdate .sqrt3 lib cosn f' inp).2, congrArg some (Prod.ext hub rfl)⟩
  obtain ⟨c, hc⟩ : ∃ c, (Chain.new s inp Mesh.empty).calls (anyRun lib cosn area len fuel) AnyFilt.pulls Mesh.empty
      [chainSetCells 0 l] = some c := ⟨_, rfl⟩
  have hc' : c = { (Chain.new s inp Mesh.empty).put 0 { (Chain.new s inp Mesh.empty).stage 0 with
      members := .cell .sqrt3 (Filt.new.setCells l), mtime := 3 } with clock := 3 } := by
    have e : onCell (K := K) (·.setCells l) (s 0) = .cell .sqrt3 (Filt.new.setCells l) := by rw [h0]; rfl
    cases hc
    rw [← e]; rfl
  obtain ⟨i1, i2⟩ := Chain.updateInformation_same c 1
  have m0 : ((c.updateInformation 1).stage 0).members = .cell .sqrt3 (Filt.new.setCells l) := by
    rw [i1, hc']; rfl
  have m1 : ((c.updateInformation 1).stage 1).members = .iter sch' f := by
    rw [i1, hc']; exact h1
  have msrc : (c.updateInformation 1).source = inp := by rw [i2, hc']; rfl
  generalize hd : c.updateInformation 1 = d at m0 m1 msrc
  -- the first execution of the cell filter
  obtain ⟨d1, hd1, m2, m3, m4⟩ : ∃ d1, d.generate (anyRun lib cosn area len fuel) (w.touch 0 d.clock) Mesh.empty 0 = some (.ok (), d1) ∧
      (d1.stage 0).members = .cell .sqrt3 f' ∧ (d1.stage 1).members = .iter sch' f ∧ d1.source = inp := by
    unfold Chain.generate
    have : d.input 0 = inp := msrc
    rw [m0, this, hrun1]
    exact ⟨_, rfl, by dsimp only; rw [Chain.put_same], by dsimp only; rw [Chain.put_other _ _ (by decide)]; exact m1, msrc⟩
  have hu0 : ∀ e : Chain (AnyFilt K) (Mesh P D), Chain.updateData (anyRun lib cosn area len fuel) AnyFilt.pulls w Mesh.empty 0 e =
      e.generate (anyRun lib cosn area len fuel) (w.touch 0 e.clock) Mesh.empty 0 := by
    intro e
    unfold Chain.updateData
    exact if_pos (Or.inr (hw 0 _))
  -- the second
  obtain ⟨d2, hd2⟩ : ∃ d2, Chain.updateData (anyRun lib cosn area len fuel) AnyFilt.pulls w Mesh.empty 0 (d1.updateInformation 0) =
      some (.error (.ub .missingKey), d2) := by
    rw [hu0]
    unfold Chain.generate
    obtain ⟨b1, b2⟩ := Chain.updateInformation_same d1 0
    have : (d1.updateInformation 0).input 0 = inp := b2.trans m4
    rw [b1, m2, this, hrun2]
    exact ⟨_, rfl⟩
  have hx : c.update (anyRun lib cosn area len fuel) AnyFilt.pulls w Mesh.empty 1 =
      some (.error (.ub .missingKey), d2.put 1 { d2.stage 1 with output := Mesh.empty }) := by
    unfold Chain.update
    rw [hd]
    unfold Chain.updateData
    rw [if_pos (Or.inr (hw 1 _)), hu0, hd1]
    dsimp only
    rw [show (d1.stage (0 + 1)).members = .iter sch' f from m3, if_pos (show AnyFilt.pulls (.iter sch' f) = true from rfl), hd2]
  refine ⟨c, out, _, hc, ?_, hx⟩
  show (anyRun lib cosn area len fuel (onCell (·.setCells l) (s 0)) inp).map Prod.fst = _
  rw [h0]
  show (anyRun lib cosn area len fuel (.cell .sqrt3 (Filt.new.setCells l)) inp).map Prod.fst = _
  rw [hrun1]; rfl

/-- two of the four triangles of `patchMesh` are selected in front of an iterative filter -/
example : ∃ c out d,
    (Chain.new (fun k => if k = 0 then AnyFilt.cell .sqrt3 Filt.new else .iter .linear Iter.new) patchMesh Mesh.empty).calls
      (anyRun someLib cos0 shadow taxi 1) AnyFilt.pulls Mesh.empty [chainSetCells 0 [1, 3]] = some c ∧
    byHand (anyRun someLib cos0 shadow taxi 1) (askedChain (M := Mesh Q3 Nat)
      (fun k => if k = 0 then AnyFilt.cell .sqrt3 Filt.new else .iter .linear Iter.new) patchMesh [chainSetCells 0 [1, 3]]).1
        patchMesh 0 = some (.ok out) ∧
    c.update (anyRun someLib cos0 shadow taxi 1) AnyFilt.pulls always Mesh.empty 1 = some (.error (.ub .missingKey), d) :=
  C72_sqrt3_list_before_iterative_refuted .linear someLib cos0 shadow taxi 1 patchMesh_ok.1 patchMesh_sel (by decide) (by decide)
    (by decide) Iter.new (w := always) (fun _ _ => rfl) rfl rfl

end Verif
