import Verif.Properties.Pipeline
import Verif.Properties.Sqrt3
/-
C48 is false for the SquareThree filter with a list as well.
-/
namespace Verif
set_option linter.unusedSectionVars false
variable {K P D : Type} [Field K] [Zero P] [Add P] [SMul K P]

/-- the triangles of a selective run that are not recorded are those that are kept -/
theorem sq3Items_kept (σ : Edge → Option PId) (M : List Edge) (J : List Job) :
    ((sq3Items σ false M J).filter fun x => !x.2.2).length = (J.filter fun j => j.2.2.isNone).length := by
  induction J generalizing M with
  | nil => rfl
  | cons j J ih =>
    obtain ⟨id, t, _ | e⟩ := j
    · simp [sq3Items, ih]
    · unfold sq3Items
      split
      · simp [ih]
      · split <;> simp [ih]

theorem sq3Jobs_kept (σ : Edge → Option PId) (cells : AMap (Option Cell)) :
    ((sq3Jobs σ cells).filter fun j => j.2.2.isNone).length =
      ((cells.filterMap fun c => Cell.tri? c.2).filter fun t => !(σ (t.1, t.2.1)).isSome).length := by
  unfold sq3Jobs
  induction cells with
  | nil => rfl
  | cons c cells ih =>
    rw [List.flatMap_cons, List.filter_append, List.length_append, ih, List.filterMap_cons]
    cases Cell.tri? c.2 with
    | none => simp
    | some t =>
      rcases h : σ (t.1, t.2.1) with _ | v
      · simp [sq3JobsOf, h, Nat.add_comm]
      · simp [sq3JobsOf, h, Tri.darts]

/-- a selective run of SquareThree records three cells for each listed one -/
theorem recorded_length_sqrt3 {lib : QELib} {cosn : Nat → K} {f f' : Filt} {inp out : Mesh P D} (hv : inp.Valid)
    (hsel : inp.SelOK f.cells) (hmax : inp.points.length + (inp.selected f.cells).length ≤ idMax) (hne : f.cells ≠ [])
    (hd : f.cells.Nodup) (h : cellUpdate .sqrt3 lib cosn f inp = (.ok out, f')) : f'.cells.length = 3 * f.cells.length := by
  have R := sqrt3Update_result hv hsel hmax h
  obtain ⟨out', f'', h', -, -, -, hlen⟩ := C11_sqrt3_completes lib cosn hv hsel hmax
  rw [h] at h'
  obtain ⟨rfl, rfl⟩ : out = out' ∧ f' = f'' := by cases h'; exact ⟨rfl, rfl⟩
  have hlen := (hlen hne).1 f.cells hd fun _ => Iff.rfl
  have hu : f.cells.isEmpty = false := by simp [hne]
  rw [R.built.cells, AMap.length_dense, List.length_map, List.length_map, hu] at hlen
  have hcells := R.cells
  rw [hu] at hcells
  rw [hcells, pushed_length]
  have hsum := List.length_eq_length_filter_add (l := sq3Items (inp.centreOf f.cells) false [] (sq3Jobs (inp.centreOf f.cells) inp.cells))
    fun x => x.2.2
  rw [sq3Items_kept, sq3Jobs_kept] at hsum
  have hsum' := List.length_eq_length_filter_add (l := inp.tris) fun t => (inp.centreOf f.cells (t.1, t.2.1)).isSome
  rw [selected_count hv hsel hne hd fun _ => Iff.rfl, hv.tris_length] at hsum'
  unfold Mesh.tris at hsum'
  omega

/-- C48 is false for SquareThree with a list of more than a third of the cells, for the reason of `C48_cell_again_refuted`: the
list has been replaced by ids of output cells, and the second `Update()`, after the input has been marked as modified, has undefined
behaviour. -/
theorem C48_sqrt3_again_refuted (lib : QELib) (cosn : Nat → K) {inp : Mesh P D} (hv : inp.Valid) {l : List CId} (hsel : inp.SelOK l)
    (hmax : inp.points.length + (inp.selected l).length ≤ idMax) (hd : l.Nodup) (hbig : inp.cells.length < 3 * l.length)
    (again touch again' touch' : Bool) :
    ∃ out p p', (cellUpdate .sqrt3 lib cosn (Filt.new.setCells l) inp).1 = .ok out ∧
      (Pipe.new Filt.new inp Mesh.empty).calls (cellRun .sqrt3 lib cosn) Mesh.empty
        [callSetCells l, .update again touch, .input inp] = some p ∧
      p.update (cellRun .sqrt3 lib cosn) again' touch' Mesh.empty = some (.error (.ub .missingKey), p') := by
  have hne : l ≠ [] := by
    rintro rfl
    exact absurd hbig (Nat.not_lt_zero _)
  obtain ⟨out, f', h, -⟩ := C11_sqrt3_completes lib cosn (f := Filt.new.setCells l) hv hsel hmax
  have hlong : f'.cells.length = 3 * l.length := recorded_length_sqrt3 (f := Filt.new.setCells l) hv hsel hmax hne hd h
  have hnd := ((C16_selection_after_run_sqrt3 (f := Filt.new.setCells l) hv hsel hmax h).2 hne).2.1
  have hn : Scheme.sqrt3.Needs inp := ⟨hv, fun h => (by rcases h with h | h <;> exact nomatch h), fun h => nomatch h⟩
  have hub := C36_absent_id_refuted lib cosn (f := f') hn (not_selOK_of_long hnd (hlong ▸ hbig))
  have hrun1 : cellRun .sqrt3 lib cosn (Filt.new.setCells l) inp = some (.ok out, f') := congrArg some h
  obtain ⟨f2, hrun2⟩ : ∃ f2, cellRun .sqrt3 lib cosn f' inp = some (.error (.ub .missingKey), f2) :=
    ⟨(cellUpdate .sqrt3 lib cosn f' inp).2, congrArg some (Prod.ext hub rfl)⟩
  -- the first `Update()`
  have hI0 := Pipe.new_inv (good := fun _ _ _ => True) Filt.new inp Mesh.empty
  obtain ⟨p0, hp0⟩ : ∃ p0, p0 = { Pipe.new Filt.new inp Mesh.empty with members := Filt.new.setCells l, mtime := 3, clock := 3 } :=
    ⟨_, rfl⟩
  have hd0 : ¬ p0.updateInformation.pipelineMTime ≤ p0.updateMTime := by
    rw [hp0]
    exact Pipe.set_dirty hI0 (Filt.new.setCells l)
  have hr0 : cellRun .sqrt3 lib cosn p0.members p0.input = some (.ok out, f') := by rw [hp0]; exact hrun1
  obtain ⟨p1, hu1, hm1, hi1, -⟩ := Pipe.update_executes (nothing := Mesh.empty) hd0 hr0 again touch
  have hc0 : (Pipe.new Filt.new inp Mesh.empty).call (cellRun .sqrt3 lib cosn) Mesh.empty (callSetCells l) = some p0 := by
    rw [hp0]; rfl
  have hc1 : p0.call (cellRun .sqrt3 lib cosn) Mesh.empty (.update again touch) = some p1 := by
    unfold Pipe.call
    dsimp only
    rw [hu1]; rfl
  have hI1 : p1.Inv (fun _ _ _ => True) := by
    refine Pipe.calls_order (run := cellRun .sqrt3 lib cosn) (nothing := Mesh.empty) (cs := [callSetCells l, .update again touch]) hI0 ?_
    unfold Pipe.calls
    rw [hc0]
    dsimp only
    unfold Pipe.calls
    rw [hc1]; rfl
  -- the second
  have hd2 := Pipe.input_dirty hI1 inp
  obtain ⟨p3, hu3, -⟩ := Pipe.update_executes (run := cellRun .sqrt3 lib cosn) (nothing := Mesh.empty)
    (p := { p1 with input := inp, inputMTime := p1.clock + 1, clock := p1.clock + 1 }) hd2
    (by dsimp only; rw [hm1]; exact hrun2) again' touch'
  refine ⟨out, _, p3, congrArg Prod.fst h, ?_, hu3⟩
  unfold Pipe.calls
  rw [hc0]
  dsimp only
  unfold Pipe.calls
  rw [hc1]; rfl

/-- two of the four triangles of `patchMesh` -/
example : ∃ out p p', (cellUpdate .sqrt3 someLib cos0 (Filt.new.setCells [1, 3]) patchMesh).1 = .ok out ∧
      (Pipe.new Filt.new patchMesh Mesh.empty).calls (cellRun .sqrt3 someLib cos0) Mesh.empty
        [callSetCells [1, 3], .update false false, .input patchMesh] = some p ∧
      p.update (cellRun .sqrt3 someLib cos0) false false Mesh.empty = some (.error (.ub .missingKey), p') :=
  C48_sqrt3_again_refuted _ _ patchMesh_ok.1 patchMesh_sel (by decide) (by decide) (by decide) _ _ _ _

end Verif
