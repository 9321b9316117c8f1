import Verif.Model.Drivers
/-
The total loop `loopOrHang` is the literal loop `cursorLoop`: they agree whenever the literal loop ends, and the outcome
`hang` means that the literal loop does not end for any amount of fuel.
-/
namespace Verif
variable {σ α : Type} {skip : α → Bool} {act : α → Prog σ Unit}

theorem loopOrHang_cons_skip {x : α} {xs : List α} {s : σ} (h : skip x = true) :
    loopOrHang skip act (x :: xs) s = (.error .hang, s) := by
  simp [loopOrHang, Prog.forEach, Prog.bind, Prog.fail, h]

theorem loopOrHang_cons_ok {x : α} {xs : List α} {s s' : σ} (h : skip x = false) (ha : act x s = (.ok (), s')) :
    loopOrHang skip act (x :: xs) s = loopOrHang skip act xs s' := by
  simp [loopOrHang, Prog.forEach, Prog.bind, h, ha]

theorem loopOrHang_cons_error {x : α} {xs : List α} {s s' : σ} {e : Fail} (h : skip x = false)
    (ha : act x s = (.error e, s')) : loopOrHang skip act (x :: xs) s = (.error e, s') := by
  simp [loopOrHang, Prog.forEach, Prog.bind, h, ha]

theorem cursorLoop_stuck {x : α} {xs : List α} {s : σ} (h : skip x = true) (n : Nat) :
    cursorLoop skip act n (x :: xs) s = none := by
  induction n with
  | zero => rfl
  | succ n ih => simp [cursorLoop, h, ih]

/-- if the literal loop ends, the total loop gives the same outcome and state -/
theorem loopOrHang_of_cursorLoop {n : Nat} {xs : List α} {s : σ} {r : Except Fail Unit × σ}
    (h : cursorLoop skip act n xs s = some r) : loopOrHang skip act xs s = r := by
  induction n generalizing xs s with
  | zero => cases h
  | succ n ih =>
    cases xs with
    | nil => simp only [cursorLoop, Option.some.injEq] at h; rw [← h]; rfl
    | cons x xs =>
      cases hx : skip x
      · simp only [cursorLoop, hx, Bool.false_eq_true, if_false] at h
        rcases ha : act x s with ⟨_ | _, s'⟩
        · rw [ha] at h
          simp only [Option.some.injEq] at h
          rw [loopOrHang_cons_error hx ha, h]
        · rw [ha] at h
          rw [loopOrHang_cons_ok hx ha]
          exact ih h
      · rw [cursorLoop_stuck hx] at h; cases h

/-- if the total loop does not hang, the literal loop ends after one test per element and one more -/
theorem cursorLoop_of_loopOrHang {xs : List α} {s : σ} (h : (loopOrHang skip act xs s).1 ≠ .error .hang) (k : Nat) :
    cursorLoop skip act (xs.length + 1 + k) xs s = some (loopOrHang skip act xs s) := by
  induction xs generalizing s with
  | nil => rw [List.length_nil, Nat.zero_add, Nat.add_comm]; rfl
  | cons x xs ih =>
    cases hx : skip x
    · have hl : (x :: xs).length + 1 + k = (xs.length + 1 + k) + 1 := by rw [List.length_cons]; omega
      rw [hl]
      simp only [cursorLoop, hx, Bool.false_eq_true, if_false]
      rcases ha : act x s with ⟨_ | _, s'⟩
      · rw [loopOrHang_cons_error hx ha]
      · rw [loopOrHang_cons_ok hx ha] at h ⊢
        exact ih h
    · rw [loopOrHang_cons_skip hx] at h
      exact absurd rfl h

/-- if no body hangs by itself, `hang` says exactly that the literal loop never ends -/
theorem loopOrHang_hang_iff (hact : ∀ x s, (act x s).1 ≠ .error .hang) {xs : List α} {s : σ} :
    (loopOrHang skip act xs s).1 = .error .hang ↔ ∀ n, cursorLoop skip act n xs s = none := by
  constructor
  · intro h n
    induction n generalizing xs s with
    | zero => rfl
    | succ n ih =>
      cases xs with
      | nil => cases h
      | cons x xs =>
        cases hx : skip x
        · simp only [cursorLoop, hx, Bool.false_eq_true, if_false]
          rcases ha : act x s with ⟨_ | _, s'⟩
          · rw [loopOrHang_cons_error hx ha] at h
            exact absurd ((congrArg Prod.fst ha).trans h) (hact x s)
          · rw [loopOrHang_cons_ok hx ha] at h
            exact ih h
        · exact cursorLoop_stuck hx _
  · intro h
    by_contra hc
    have := cursorLoop_of_loopOrHang hc 0
    rw [h] at this
    cases this

end Verif
