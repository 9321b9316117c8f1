import Verif.Properties.Chain
/-
C72: without iterative filters no filter of a row is executed twice by one `Update()`, whatever the pipeline asks for.
-/
namespace Verif
set_option linter.unusedSectionVars false

section count
variable {S M : Type}

theorem generate_members {run : S → M → Option (Except Fail M × S)} {nothing : M} {touch : Bool} {k : Nat}
    {c d : Chain (S × Nat) M} {r : Except Fail Unit} (hx : c.generate (counted run) touch nothing k = some (r, d)) {j : Nat}
    (hj : j ≠ k) : (d.stage j).members = (c.stage j).members := by
  unfold Chain.generate counted at hx
  cases hr : run (c.stage k).members.1 (c.input k) with
  | none => rw [hr] at hx; cases hx
  | some x =>
    rw [hr] at hx
    obtain ⟨r', s⟩ := x
    cases r' with
    | error e =>
      simp only [Option.map_some, Option.some.injEq, Prod.mk.injEq] at hx
      obtain ⟨-, rfl⟩ := hx
      dsimp only; rw [Chain.put_other _ _ hj]
    | ok out =>
      simp only [Option.map_some, Option.some.injEq, Prod.mk.injEq] at hx
      obtain ⟨-, rfl⟩ := hx
      dsimp only; rw [Chain.put_other _ _ hj]

theorem runs_unless_pulled {run : S → M → Option (Except Fail M × S)} {pulls : S × Nat → Bool} {w : Chain.Around} {nothing : M}
    (k : Nat) : ∀ (c d : Chain (S × Nat) M) (r : Except Fail Unit), (∀ j ≤ k, pulls (c.stage j).members = false) →
      Chain.updateData (counted run) pulls w nothing k c = some (r, d) →
      (∀ j, k < j → (d.stage j).members = (c.stage j).members) ∧
      (∀ j, (c.stage j).members.2 ≤ (d.stage j).members.2 ∧ (d.stage j).members.2 ≤ (c.stage j).members.2 + 1) ∧
      ((∀ k t, w.again k t = true) → r = .ok () → ∀ j ≤ k, (d.stage j).members.2 = (c.stage j).members.2 + 1) := by
  induction k with
  | zero =>
    intro c d r hp hx
    unfold Chain.updateData at hx
    split at hx
    · have hg := generate_counted hx
      refine ⟨fun j hj => generate_members hx (Nat.ne_of_gt hj), fun j => ?_, fun _ _ j hj => ?_⟩
      · rw [hg]; split <;> omega
      · obtain rfl := Nat.le_zero.1 hj
        rw [hg, if_pos rfl]
    · rename_i hn
      cases hx
      exact ⟨fun _ _ => rfl, fun j => by omega, fun hw => absurd (Or.inr (hw _ _)) hn⟩
  | succ k ih =>
    intro c d r hp hx
    unfold Chain.updateData at hx
    split at hx
    · rcases h1 : Chain.updateData (counted run) pulls w nothing k c with _ | ⟨e | ⟨⟩, c1⟩
      · rw [h1] at hx; cases hx
      · rw [h1] at hx
        cases hx
        obtain ⟨a1, a2, -⟩ := ih _ _ _ (fun j hj => hp j (Nat.le_succ_of_le hj)) h1
        refine ⟨fun j hj => ?_, fun j => ?_, fun _ h => nomatch h⟩
        · rw [Chain.put_other _ _ (by omega)]; exact a1 j (by omega)
        · by_cases hj : j = k + 1
          · subst hj; rw [Chain.put_same]; exact a2 _
          · rw [Chain.put_other _ _ hj]; exact a2 j
      · rw [h1] at hx
        obtain ⟨a1, a2, a3⟩ := ih _ _ _ (fun j hj => hp j (Nat.le_succ_of_le hj)) h1
        dsimp only at hx
        have hno : pulls (c1.stage (k + 1)).members = false := by rw [a1 _ (Nat.lt_succ_self k)]; exact hp _ (Nat.le_refl _)
        rw [if_neg (by rw [hno]; decide)] at hx
        have hg := generate_counted hx
        refine ⟨fun j hj => ?_, fun j => ?_, fun hw hr j hj => ?_⟩
        · rw [generate_members hx (by omega)]; exact a1 j (by omega)
        · rw [hg]
          by_cases hj : j = k + 1
          · rw [if_pos hj, hj, a1 (k + 1) (Nat.lt_succ_self k)]; exact ⟨Nat.le_succ _, Nat.le_refl _⟩
          · rw [if_neg hj]; exact a2 j
        · rw [hg]
          by_cases hjk : j = k + 1
          · rw [if_pos hjk, hjk, a1 _ (Nat.lt_succ_self k)]
          · rw [if_neg hjk]; exact a3 hw rfl j (by omega)
    · rename_i hn
      cases hx
      exact ⟨fun _ _ => rfl, fun j => by omega, fun hw => absurd (Or.inr (hw _ _)) hn⟩

end count

variable {K P D : Type} [Field K] [Zero P] [Add P] [SMul K P] [LinearOrder K]

/-- C72, without iterative filters: if no filter up to place `k` is iterative, then an `Update()` at place `k` executes each filter
at most once, whatever the pipeline asks for, also if it ends with an exception; filters behind are not touched.  Where the
pipeline always asks, an `Update()` that returns executes each of them exactly once. -/
theorem C72_no_iterative {lib : QELib} {cosn : Nat → K} {area : P → P → P → K} {len : P → P → K} {fuel : Nat} {w : Chain.Around}
    {k : Nat} {c d : Chain (AnyFilt K × Nat) (Mesh P D)} {r : Except Fail Unit}
    (hni : ∀ j ≤ k, ∀ sch f, (c.stage j).members.1 ≠ .iter sch f)
    (hx : c.update (counted (anyRun lib cosn area len fuel)) (fun s => s.1.pulls) w Mesh.empty k = some (r, d)) :
    (∀ j, k < j → (d.stage j).members = (c.stage j).members) ∧
    (∀ j, (c.stage j).members.2 ≤ (d.stage j).members.2 ∧ (d.stage j).members.2 ≤ (c.stage j).members.2 + 1) ∧
    ((∀ k t, w.again k t = true) → r = .ok () → ∀ j ≤ k, (d.stage j).members.2 = (c.stage j).members.2 + 1) := by
  have hs := (Chain.updateInformation_same c k).1
  have hp : ∀ j ≤ k, (fun s : AnyFilt K × Nat => s.1.pulls) ((c.updateInformation k).stage j).members = false := by
    intro j hj
    rw [hs]
    show AnyFilt.pulls (c.stage j).members.1 = false
    rcases h : (c.stage j).members.1 with ⟨sch, f⟩ | ⟨sch, f⟩ | ⟨sch, f⟩ | ⟨sch, f⟩ | ⟨sch, f⟩
    · rfl
    · rfl
    · exact absurd h (hni j hj sch f)
    · rfl
    · rfl
  obtain ⟨h1, h2, h3⟩ := runs_unless_pulled k _ _ _ hp hx
  simp only [hs] at h1 h2 h3
  exact ⟨h1, h2, h3⟩

/-- a cell filter, a conditional filter with an edge filter, and an edge filter: each once, though the pipeline always asks again -/
example : (((Chain.new (fun k => ((match k with
        | 0 => .cell .linear Filt.new
        | 1 => .condEdge .linear ⟨⟨Filt.new, []⟩, 5⟩
        | _ => .edge .linear Filt.new : AnyFilt ℚ), 0)) patchMesh Mesh.empty).update (counted (anyRun someLib cos0 shadow taxi 2))
      (fun s => s.1.pulls) always Mesh.empty 2).map fun x => (x.1.toOption.isSome, (List.range 4).map fun j => (x.2.stage j).members.2)) =
    some (true, [1, 1, 1, 0]) := by
  decide +kernel

end Verif
