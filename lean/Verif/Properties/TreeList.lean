import Verif.Properties.Tree
/-
C91 is false if the filter that two others read has been given a list of cells.
-/
namespace Verif
set_option linter.unusedSectionVars false

/-- a cell filter, and plain filters that read its output -/
def sharedList : List Nat → AnyFilt ℚ := fun l => if l = [0] then .cell .linear Filt.new else .edge .linear Filt.new

/-- the cell filter is given a list; the input mesh is touched; `[1, 0]` will be updated -/
def listCalls : List ((Nat → Nat) × ChainCall (AnyFilt ℚ) (Mesh Q3 Nat)) :=
  [(left, chainSetCells 0 [1, 3]), (left, .input patchMesh)]

/-- the same, but the program has updated another reader of the cell filter, `[0, 0]`, in between -/
def listCallsBoth : List ((Nat → Nat) × ChainCall (AnyFilt ℚ) (Mesh Q3 Nat)) :=
  [(left, chainSetCells 0 [1, 3]), (left, .update 1 quietly), (left, .input patchMesh)]

open Classical in
/-- C91 is false with a list of cells: two filters read the output of a cell filter that has been given a list.  If one of them has
been updated before, the update of the other, after `Modified()` of the input mesh, has undefined behaviour; if it has not, the
update gives a mesh, and so do the filters by hand.  The calls that concern the second reader are the same.  (The list has been
replaced by ids of cells of the output, C16, which the input mesh does not have.) -/
theorem C91_shared_list_refuted : ∃ (s : List Nat → AnyFilt ℚ) (cs cs' : List ((Nat → Nat) × ChainCall (AnyFilt ℚ) (Mesh Q3 Nat)))
    (t t' : Tree (AnyFilt ℚ) (Mesh Q3 Nat)) (b : Nat → Nat),
    (Tree.new s patchMesh Mesh.empty).calls (anyRun someLib cos0 shadow taxi 1) AnyFilt.pulls Mesh.empty cs = some t ∧
    (Tree.new s patchMesh Mesh.empty).calls (anyRun someLib cos0 shadow taxi 1) AnyFilt.pulls Mesh.empty cs' = some t' ∧
    cs.filter (Concerns b 1 ·) = cs'.filter (Concerns b 1 ·) ∧
    (∃ m, gives 1 ((t.along b).update (anyRun someLib cos0 shadow taxi 1) AnyFilt.pulls quietly Mesh.empty 1) = some (.ok m)) ∧
    (∃ m, byHand (anyRun someLib cos0 shadow taxi 1) (fun j => (askedTree s patchMesh cs').1 (addr b j)) patchMesh 1 = some (.ok m)) ∧
    gives 1 ((t'.along b).update (anyRun someLib cos0 shadow taxi 1) AnyFilt.pulls quietly Mesh.empty 1) =
      some (.error (.ub .missingKey)) := by
  have key : ∀ x : Option (Except Fail (Mesh Q3 Nat)), (x.bind fun r => r.toOption).isSome = true → ∃ m, x = some (.ok m) := by
    rintro (_ | _ | m) h
    · cases h
    · cases h
    · exact ⟨m, rfl⟩
  have bad : ∀ x : Option (Except Fail (Mesh Q3 Nat)), (match x with | some (.error (.ub .missingKey)) => true | _ => false) = true →
      x = some (.error (.ub .missingKey)) := by
    intro x h
    split at h
    · rfl
    · cases h
  obtain ⟨t, ht⟩ : ∃ t, (Tree.new sharedList patchMesh Mesh.empty).calls (anyRun someLib cos0 shadow taxi 1) AnyFilt.pulls Mesh.empty
      listCalls = some t := Option.isSome_iff_exists.1 (by decide +kernel)
  obtain ⟨t', ht'⟩ : ∃ t, (Tree.new sharedList patchMesh Mesh.empty).calls (anyRun someLib cos0 shadow taxi 1) AnyFilt.pulls Mesh.empty
      listCallsBoth = some t := Option.isSome_iff_exists.1 (by decide +kernel)
  refine ⟨sharedList, listCalls, listCallsBoth, t, t', bent, ht, ht', ?_, key _ ?_, key _ ?_, bad _ ?_⟩
  · have h1 : ¬ Concerns (S := AnyFilt ℚ) (M := Mesh Q3 Nat) bent 1 (left, .update 1 quietly) := id
    have h2 : Concerns (S := AnyFilt ℚ) (M := Mesh Q3 Nat) bent 1 (left, chainSetCells 0 [1, 3]) := ⟨0, by decide, rfl⟩
    have h3 : Concerns (S := AnyFilt ℚ) (M := Mesh Q3 Nat) bent 1 (left, .input patchMesh) := trivial
    simp only [listCalls, listCallsBoth, List.filter_cons, List.filter_nil, decide_eq_true_eq, if_neg h1, if_pos h2, if_pos h3]
  · have : (((Tree.new sharedList patchMesh Mesh.empty).calls (anyRun someLib cos0 shadow taxi 1) AnyFilt.pulls Mesh.empty
      listCalls).bind fun t => (gives 1 ((t.along bent).update (anyRun someLib cos0 shadow taxi 1) AnyFilt.pulls quietly
        Mesh.empty 1)).bind fun r => r.toOption).isSome = true := by decide +kernel
    rw [ht] at this
    exact this
  · decide +kernel
  · have : (((Tree.new sharedList patchMesh Mesh.empty).calls (anyRun someLib cos0 shadow taxi 1) AnyFilt.pulls Mesh.empty
      listCallsBoth).map fun t => (match gives 1 ((t.along bent).update (anyRun someLib cos0 shadow taxi 1) AnyFilt.pulls quietly
        Mesh.empty 1) with | some (.error (.ub .missingKey)) => true | _ => false)) = some true := by decide +kernel
    rw [ht'] at this
    exact Option.some.inj this

end Verif
