import Verif.Proofs.Iterative
/-
What each level keeps, all levels keep.
-/
namespace Verif
set_option linter.unusedSectionVars false
variable {K P D : Type} [Field K] [Zero P] [Add P] [SMul K P] {lib : QELib} {cosn : Nat → K} {sch : Scheme}

theorem IdsLeft.now {L : Nat} {m : Mesh P D} {sel : List CId} (h : sch.IdsLeft (L + 1) m sel) :
    sch = .sqrt3 → m.points.length + (m.selected sel).length ≤ idMax := by
  intro hs
  refine le_trans ?_ (h hs)
  refine Nat.add_le_add_left ?_ _
  refine Nat.le_mul_of_pos_right _ ?_
  have : 3 ^ L ≥ 1 := Nat.one_le_pow _ _ (by norm_num)
  rw [pow_succ]
  omega

theorem manyLevels_induct (hl : sch = .loop ∨ sch = .butterfly → lib.Lawful) (I : Mesh P D → List CId → Prop)
    (hstep : ∀ (m out : Mesh P D) (sel : List CId) (f' : Filt), sch.Needs m → m.SelOK sel → sch.Needs out →
      (sch = .sqrt3 → m.points.length + (m.selected sel).length ≤ idMax) →
      cellUpdate sch lib cosn (Filt.new.setCells sel) m = (.ok out, f') → I m sel → I out f'.cells) (L : Nat) {m : Mesh P D}
    {sel : List CId} (hn : sch.Needs m) (hsel : m.SelOK sel) (hid : sch.IdsLeft L m sel) (hm : I m sel) :
    ∃ m' sel', manyLevels sch lib cosn L (m, sel) = .ok (m', sel') ∧ sch.Needs m' ∧ I m' sel' := by
  induction L generalizing m sel with
  | zero => exact ⟨m, sel, rfl, hn, hm⟩
  | succ n ih =>
    obtain ⟨m1, s1, h1, hn1, hs1, hid1, -, -⟩ := oneLevel_ok cosn hl hn hsel hid
    have hI : I m1 s1 := by
      have h1' := h1
      unfold oneLevel at h1'
      rcases hc : cellUpdate sch lib cosn (Filt.new.setCells sel) m with ⟨r, f'⟩
      simp only [hc] at h1'
      cases r with
      | error e => cases h1'
      | ok out =>
        obtain ⟨rfl, rfl⟩ := Prod.mk.inj (Except.ok.inj h1')
        exact hstep m out sel f' hn hsel hn1 (IdsLeft.now hid) hc hm
    obtain ⟨m2, s2, h2, hn2, hm2⟩ := ih hn1 hs1 hid1 hI
    refine ⟨m2, s2, ?_, hn2, hm2⟩
    unfold manyLevels
    rw [h1]
    exact h2

/-- the same for the output of the iterative filter -/
theorem iter_induct (hl : sch = .loop ∨ sch = .butterfly → lib.Lawful) (I : Mesh P D → List CId → Prop)
    (hstep : ∀ (m out : Mesh P D) (sel : List CId) (f' : Filt), sch.Needs m → m.SelOK sel → sch.Needs out →
      (sch = .sqrt3 → m.points.length + (m.selected sel).length ≤ idMax) →
      cellUpdate sch lib cosn (Filt.new.setCells sel) m = (.ok out, f') → I m sel → I out f'.cells) {f : Iter} {inp out : Mesh P D}
    (hn : sch.Needs inp) (hsel : inp.SelOK f.cells) (hid : sch.IdsLeft (max 1 f.levels) inp f.cells) (hm : I inp f.cells)
    (h : (iterUpdate sch lib cosn f inp).1 = .ok out) : ∃ sel, I out sel := by
  obtain ⟨m', sel', h1, -, h2⟩ := manyLevels_induct hl I hstep (max 1 f.levels) hn hsel hid hm
  rw [iterUpdate_eq, ← levelsOf_eq, h1] at h
  cases h
  exact ⟨_, h2⟩

/-- what one level makes and the next ones keep -/
theorem iter_induct_first (hl : sch = .loop ∨ sch = .butterfly → lib.Lawful) (I : Mesh P D → List CId → Prop)
    {f : Iter} {inp out : Mesh P D}
    (hfirst : ∀ (out : Mesh P D) (f' : Filt), (sch = .sqrt3 → inp.points.length + (inp.selected f.cells).length ≤ idMax) →
      cellUpdate sch lib cosn (Filt.new.setCells f.cells) inp = (.ok out, f') → I out f'.cells)
    (hstep : ∀ (m out : Mesh P D) (sel : List CId) (f' : Filt), sch.Needs m → m.SelOK sel → sch.Needs out →
      (sch = .sqrt3 → m.points.length + (m.selected sel).length ≤ idMax) →
      cellUpdate sch lib cosn (Filt.new.setCells sel) m = (.ok out, f') → I m sel → I out f'.cells)
    (hn : sch.Needs inp) (hsel : inp.SelOK f.cells) (hid : sch.IdsLeft (max 1 f.levels) inp f.cells)
    (h : (iterUpdate sch lib cosn f inp).1 = .ok out) : ∃ sel, I out sel := by
  obtain ⟨L, hL⟩ : ∃ L, max 1 f.levels = L + 1 := ⟨max 1 f.levels - 1, by omega⟩
  rw [iterUpdate_eq, ← levelsOf_eq, hL] at h
  rw [hL] at hid
  obtain ⟨m1, s1, h1, hn1, hs1, hid1, -, -⟩ := oneLevel_ok cosn hl hn hsel hid
  have hI : I m1 s1 := by
    have h1' := h1
    unfold oneLevel at h1'
    rcases hc : cellUpdate sch lib cosn (Filt.new.setCells f.cells) inp with ⟨r, f'⟩
    simp only [hc] at h1'
    cases r with
    | error e => cases h1'
    | ok out =>
      obtain ⟨rfl, rfl⟩ := Prod.mk.inj (Except.ok.inj h1')
      exact hfirst out f' (IdsLeft.now hid) hc
  obtain ⟨m2, s2, h2, -, h3⟩ := manyLevels_induct hl I hstep L hn1 hs1 hid1 hI
  unfold manyLevels at h
  rw [h1] at h
  have h4 : (manyLevels sch lib cosn L (m1, s1)).map Prod.fst = .ok out := h
  rw [h2] at h4
  cases h4
  exact ⟨_, h3⟩

/-- the levels of a uniform run of an iterative filter, one after the other -/
theorem uniform_levels (hl : sch = .loop ∨ sch = .butterfly → lib.Lawful) (I : Nat → Mesh P D → Prop)
    (hstep : ∀ (i : Nat) (m out : Mesh P D) (f' : Filt), sch.Needs m →
      (sch = .sqrt3 → m.points.length + (m.selected []).length ≤ idMax) →
      cellUpdate sch lib cosn (Filt.new.setCells []) m = (.ok out, f') → I i m → I (i + 1) out) (L i : Nat) {m : Mesh P D}
    (hn : sch.Needs m) (hid : sch.IdsLeft L m []) (hm : I i m) :
    ∃ m', manyLevels sch lib cosn L (m, []) = .ok (m', []) ∧ I (i + L) m' := by
  induction L generalizing m i with
  | zero => exact ⟨m, rfl, hm⟩
  | succ n ih =>
    obtain ⟨m1, s1, h1, hn1, -, hid1, hu1, -⟩ := oneLevel_ok cosn hl hn (sel := []) (fun k hk => by cases hk) hid
    obtain rfl := (hu1 rfl).1
    have hI : I (i + 1) m1 := by
      have h1' := h1
      unfold oneLevel at h1'
      rcases hc : cellUpdate sch lib cosn (Filt.new.setCells []) m with ⟨r, f'⟩
      simp only [hc] at h1'
      cases r with
      | error e => cases h1'
      | ok out =>
        obtain ⟨rfl, -⟩ := Prod.mk.inj (Except.ok.inj h1')
        exact hstep i m out f' hn (IdsLeft.now hid) hc hm
    obtain ⟨m2, h2, hm2⟩ := ih (i + 1) hn1 hid1 hI
    refine ⟨m2, ?_, by rwa [show i + (n + 1) = i + 1 + n by omega]⟩
    unfold manyLevels
    rw [h1]
    exact h2

end Verif
