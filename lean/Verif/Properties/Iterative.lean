import Verif.Proofs.Iterative
import Verif.Properties.Samples
/-
C22, C23, C24, C26: the iterative filter.
-/
namespace Verif
variable {K P D : Type} [Field K] [Zero P] [Add P] [SMul K P]

/-- C22. The iterative filter is iterated application of new single-level filters, each given the selection its
predecessor holds after its run; 0 levels is 1 level.  This holds for all inputs, also when a level fails. -/
theorem C22_iterative_is_iterated (sch : Scheme) (lib : QELib) (cosn : Nat → K) (f : Iter) (inp : Mesh P D) :
    (iterUpdate sch lib cosn f inp).1 =
      (manyLevels sch lib cosn (if f.levels = 0 then 1 else f.levels) (inp, f.cells)).map Prod.fst :=
  iterUpdate_eq sch lib cosn f inp

/-- C22, two levels written out. -/
theorem C22_two_levels (sch : Scheme) (lib : QELib) (cosn : Nat → K) (f : Iter) (hf : f.levels = 2)
    {inp m₁ m₂ : Mesh P D} {f₁ f₂ : Filt} (h₁ : cellUpdate sch lib cosn (Filt.new.setCells f.cells) inp = (.ok m₁, f₁))
    (h₂ : cellUpdate sch lib cosn (Filt.new.setCells f₁.cells) m₁ = (.ok m₂, f₂)) :
    (iterUpdate sch lib cosn f inp).1 = .ok m₂ := by
  rw [C22_iterative_is_iterated, hf]
  simp only [manyLevels, oneLevel, h₁, h₂, bind, Except.bind, Except.map, OfNat.ofNat_ne_zero, if_false]

/-- both runs of `C22_two_levels` succeed on a concrete mesh -/
example : ∃ m₁ f₁ m₂ f₂,
    cellUpdate .butterfly someLib cos0 (Filt.new.setCells [1, 3]) patchMesh = (.ok m₁, f₁) ∧
    cellUpdate .butterfly someLib cos0 (Filt.new.setCells f₁.cells) m₁ = (.ok m₂, f₂) ∧
    (iterUpdate .butterfly someLib cos0 ⟨[1, 3], 2, []⟩ patchMesh).1 = .ok m₂ := by
  obtain ⟨m₁, f₁, h₁, -⟩ := C01_face_split_completes (K := ℚ) (sch := .butterfly) (f := Filt.new.setCells [1, 3]) (by decide)
    someLib cos0 (patchMesh_needs _) patchMesh_sel
  have hn := (C04_output_valid (by decide) (patchMesh_needs _) patchMesh_sel h₁).2.2.2.1 someLib_lawful patchMesh_ok.2.2.1
  have hs := ((C16_selection_after_run (by decide) (patchMesh_needs _) patchMesh_sel h₁).2 (by decide)).2.2.1
  obtain ⟨m₂, f₂, h₂, -⟩ := C01_face_split_completes (K := ℚ) (sch := .butterfly) (f := Filt.new.setCells f₁.cells) (by decide)
    someLib cos0 (hn _) hs
  exact ⟨m₁, f₁, m₂, f₂, h₁, h₂, C22_two_levels _ _ _ _ rfl h₁ h₂⟩

/-- C23. A uniform run with `n` levels returns a valid mesh with `4^max(1,n)` cells (SquareThree: `3^max(1,n)`) for each
input cell. -/
theorem C23_iterative_uniform {sch : Scheme} {lib : QELib} (cosn : Nat → K)
    (hl : sch = .loop ∨ sch = .butterfly → lib.Lawful) {f : Iter} (hf : f.cells = []) {inp : Mesh P D}
    (hn : sch.Needs inp) (hid : sch.IdsLeft (max 1 f.levels) inp []) :
    ∃ out, (iterUpdate sch lib cosn f inp).1 = .ok out ∧ out.Valid ∧
      out.cells.length = (if sch = .sqrt3 then 3 else 4) ^ max 1 f.levels * inp.cells.length := by
  obtain ⟨m, sel, h, h1, -, h2, -⟩ := manyLevels_ok cosn hl (max 1 f.levels) hn (sel := []) (fun k hk => by cases hk) hid
  refine ⟨m, ?_, h1.valid, ?_⟩
  · rw [iterUpdate_eq, hf, ← levelsOf_eq, h]; rfl
  · rw [(h2 rfl).2]
    cases sch <;> rfl

example : ∃ out, (iterUpdate .loop someLib cos0 ⟨[], 5, []⟩ tetraMesh).1 = .ok out ∧ out.Valid ∧
    out.cells.length = 4 ^ 5 * 4 :=
  C23_iterative_uniform (K := ℚ) (sch := .loop) cos0 (fun _ => someLib_lawful) rfl (tetraMesh_needs _) (by intro h; cases h)

example : ∃ out, (iterUpdate .sqrt3 someLib cos0 ⟨[], 3, [Filt.new]⟩ patchMesh).1 = .ok out ∧ out.Valid ∧
    out.cells.length = 3 ^ 3 * 4 :=
  C23_iterative_uniform (K := ℚ) (sch := .sqrt3) cos0 (fun _ => someLib_lawful) rfl (patchMesh_needs _) (by intro _; decide)

/-- C24. A selective run with `n` levels on any non-empty list of existing cells returns normally, and it is made of
`max(1,n)` refinement steps, each on a non-empty list of existing cells that are children of triangles which the step
before split into four (SquareThree: which are made from cells selected in the step before). -/
theorem C24_iterative_selective {sch : Scheme} {lib : QELib} (cosn : Nat → K)
    (hl : sch = .loop ∨ sch = .butterfly → lib.Lawful) {f : Iter} {inp : Mesh P D} (hn : sch.Needs inp)
    (hne : f.cells ≠ []) (hsel : inp.SelOK f.cells) (hid : sch.IdsLeft (max 1 f.levels) inp f.cells) :
    ∃ out sel, (iterUpdate sch lib cosn f inp).1 = .ok out ∧ out.Valid ∧
      Refined sch (max 1 f.levels) inp f.cells out sel := by
  obtain ⟨m, sel, h, h1, -, -, h2⟩ := manyLevels_ok cosn hl (max 1 f.levels) hn hsel hid
  refine ⟨m, sel, ?_, h1.valid, h2 hne⟩
  rw [iterUpdate_eq, ← levelsOf_eq, h]; rfl

example : ∃ out sel, (iterUpdate .butterfly someLib cos0 ⟨[1, 3], 4, []⟩ patchMesh).1 = .ok out ∧ out.Valid ∧
    Refined .butterfly 4 patchMesh [1, 3] out sel :=
  C24_iterative_selective (K := ℚ) (f := ⟨[1, 3], 4, []⟩) cos0 (fun _ => someLib_lawful) (patchMesh_needs _) (by simp) patchMesh_sel
    (by intro h; cases h)

example : ∃ out sel, (iterUpdate .sqrt3 someLib cos0 ⟨[1, 3], 4, []⟩ patchMesh).1 = .ok out ∧ out.Valid ∧
    Refined .sqrt3 4 patchMesh [1, 3] out sel :=
  C24_iterative_selective (K := ℚ) (f := ⟨[1, 3], 4, []⟩) cos0 (fun _ => someLib_lawful) (patchMesh_needs _) (by simp) patchMesh_sel
    (by intro _; decide)

/-- C26. Whatever was called on the iterative filter before, also runs that failed: the selection and the level count
are what the user asked for last, and the output depends only on them and on the input. -/
theorem C26_iterative_history (sch : Scheme) (lib : QELib) (cosn : Nat → K) (calls : List (IterCall P D)) (inp : Mesh P D) :
    (afterIterCalls sch lib cosn calls).cells = (requested calls).1 ∧
    (afterIterCalls sch lib cosn calls).levels = (requested calls).2 ∧
    (iterUpdate sch lib cosn (afterIterCalls sch lib cosn calls) inp).1 =
      (iterUpdate sch lib cosn ((Iter.new.setCells (requested calls).1).setLevels (requested calls).2) inp).1 := by
  have key : (afterIterCalls sch lib cosn calls).cells = (requested calls).1 ∧
      (afterIterCalls sch lib cosn calls).levels = (requested calls).2 := by
    unfold afterIterCalls requested
    have gen : ∀ (f : Iter) (r : List CId × Nat), f.cells = r.1 → f.levels = r.2 → ∀ cs : List (IterCall P D),
        (cs.foldl (fun f c => match c with
          | .set l => f.setCells l
          | .add k => f.addCell k
          | .levels n => f.setLevels n
          | .run m => (iterUpdate sch lib cosn f m).2) f).cells =
        (cs.foldl (fun r c => match c with
          | .set l => (l, r.2)
          | .add k => (r.1 ++ [k], r.2)
          | .levels n => (r.1, n)
          | .run _ => r) r).1 ∧
        (cs.foldl (fun f c => match c with
          | .set l => f.setCells l
          | .add k => f.addCell k
          | .levels n => f.setLevels n
          | .run m => (iterUpdate sch lib cosn f m).2) f).levels =
        (cs.foldl (fun r c => match c with
          | .set l => (l, r.2)
          | .add k => (r.1 ++ [k], r.2)
          | .levels n => (r.1, n)
          | .run _ => r) r).2 := by
      intro f r h1 h2 cs
      induction cs generalizing f r with
      | nil => exact ⟨h1, h2⟩
      | cons c cs ih =>
        simp only [List.foldl_cons]
        cases c with
        | set l => exact ih _ _ rfl h2
        | add k => exact ih _ _ (by simp only [Iter.addCell, h1]) h2
        | levels n => exact ih _ _ h1 rfl
        | run m =>
          obtain ⟨e1, e2⟩ := iterUpdate_cells sch lib cosn f m
          exact ih _ _ (e1.trans h1) (e2.trans h2)
    exact gen _ _ rfl rfl calls
  refine ⟨key.1, key.2, ?_⟩
  rw [iterUpdate_eq, iterUpdate_eq, key.1, key.2]
  rfl

example : (iterUpdate .loop someLib cos0 (afterIterCalls .loop someLib cos0
      [.levels 3, .set [77], .run tetraMesh, .set [1], .run patchMesh, .add 3, .levels 2]) patchMesh).1 =
    (iterUpdate .loop someLib cos0 ((Iter.new.setCells [1, 3]).setLevels 2) patchMesh).1 :=
  (C26_iterative_history .loop someLib cos0 _ patchMesh).2.2

end Verif
