import Verif.Proofs.CondPieces
import Verif.Properties.Mirror
/-
The conditional SquareThree filter on the two sides of a surface.
-/
namespace Verif
set_option linter.unusedSectionVars false
variable {K P D : Type} [Field K] [CharZero K] [LinearOrder K] [AddCommGroup P] [Module K P]
variable {lib lib' : QELib} {cosn : Nat → K} {ρ : PId → PId} {m m' out out' : Mesh P D}
  {area : P → P → P → K} {A : K}

theorem OtherSide.big (hf : ∀ p q r, area r q p = area p q r) (R : OtherSide ρ m m') {x y z : PId} (h : HasTri m.tris x y z) :
    m'.BigTri area A (ρ z, ρ y, ρ x) ↔ m.BigTri area A (x, y, z) := by
  obtain ⟨⟨t1, h1, k1⟩, ⟨t2, h2, k2⟩, ⟨t3, h3, k3⟩⟩ := hasTri_used h
  unfold Mesh.BigTri
  simp only [R.pos t1 h1 x k1, R.pos t2 h2 y k2, R.pos t3 h3 z k3]
  constructor
  · rintro ⟨p, q, r, a, b, c, d⟩
    exact ⟨r, q, p, c, b, a, by rw [hf]; exact d⟩
  · rintro ⟨p, q, r, a, b, c, d⟩
    exact ⟨r, q, p, c, b, a, by rw [hf]; exact d⟩

/-- something is too large on the one side if and only if something is on the other side -/
theorem OtherSide.empty (hr : ∀ p q r, area q r p = area p q r) (hf : ∀ p q r, area r q p = area p q r) (R : OtherSide ρ m m')
    (hv : m.Valid) (hv' : m'.Valid) {sel sel' : List CId} (hex : ∀ k, k ∈ sel ↔ m.TooLarge area A k)
    (hex' : ∀ k, k ∈ sel' ↔ m'.TooLarge area A k) : sel = [] ↔ sel' = [] := by
  rw [list_empty hv hex, list_empty hv' hex']
  constructor
  · rintro h ⟨x', y', z'⟩ ht hb
    obtain ⟨x, y, z, h0, rfl, rfl, rfl⟩ := R.onto x' y' z' (Or.inl ht)
    obtain ⟨t, ht', hi⟩ := hasTri_iff.1 h0
    exact h t ht' ((bigTri_turn hr hi).2 ((R.big hf h0).1 hb))
  · rintro h ⟨x, y, z⟩ ht hb
    have h0 : HasTri m.tris x y z := Or.inl ht
    obtain ⟨t', ht', hi⟩ := hasTri_iff.1 (R.tri x y z h0)
    exact h t' ht' ((bigTri_turn hr hi).2 ((R.big hf h0).2 hb))

theorem copyGeometry_other (hv : m.Valid) (hv' : m'.Valid) (R : OtherSide ρ m m') :
    OtherSide ρ (copyGeometry lib m) (copyGeometry lib' m') := by
  have e1 := copyGeometry_tris lib hv
  have e2 := copyGeometry_tris lib' hv'
  have p1 : ∀ v, (copyGeometry lib m).pos v = m.pos v := fun v => by
    unfold Mesh.pos; rw [copyGeometry_points lib hv]
  have p2 : ∀ v, (copyGeometry lib' m').pos v = m'.pos v := fun v => by
    unfold Mesh.pos; rw [copyGeometry_points lib' hv']
  refine ⟨?_, ?_, ?_, ?_⟩
  · rw [e1, e2]; exact R.tri
  · rw [e1, e2]; exact R.onto
  · rw [e1]; exact R.inj
  · rw [e1]; intro t ht v hv; rw [p1, p2]; exact R.pos t ht v hv

theorem condLoop_other (hr : ∀ p q r, area q r p = area p q r) (hf : ∀ p q r, area r q p = area p q r) (n : Nat) :
    ∀ {ρ : PId → PId} {m m' : Mesh P D} {sel sel' : List CId} (s s' : Filt), OtherSide ρ m m' →
      AreaRound .sqrt3 area A n sel m → AreaRound .sqrt3 area A n sel' m' →
      (∃ out c out' c' ρ', condLoop (condCellUpd .sqrt3 lib cosn) (areaCompute area A) n ⟨s, sel⟩ m = some (.ok out, c) ∧
        condLoop (condCellUpd .sqrt3 lib' cosn) (areaCompute area A) n ⟨s', sel'⟩ m' = some (.ok out', c') ∧
        (∀ v, v < m.points.length → ρ' v = ρ v) ∧ OtherSide ρ' out out') ∨
      (condLoop (condCellUpd .sqrt3 lib cosn) (areaCompute area A) n ⟨s, sel⟩ m = none ∧
        condLoop (condCellUpd .sqrt3 lib' cosn) (areaCompute area A) n ⟨s', sel'⟩ m' = none) := by
  induction n with
  | zero =>
    intro ρ m m' sel sel' s s' R H H'
    have he := R.empty hr hf H.needs.valid H'.needs.valid H.exact' H'.exact'
    by_cases h0 : sel = []
    · exact Or.inl ⟨_, _, _, _, ρ, condLoop_done h0, condLoop_done (he.1 h0), fun _ _ => rfl, R⟩
    · exact Or.inr ⟨condLoop_zero h0, condLoop_zero fun h => h0 (he.2 h)⟩
  | succ n ih =>
    intro ρ m m' sel sel' s s' R H H'
    have he := R.empty hr hf H.needs.valid H'.needs.valid H.exact' H'.exact'
    by_cases h0 : sel = []
    · exact Or.inl ⟨_, _, _, _, ρ, condLoop_done h0, condLoop_done (he.1 h0), fun _ _ => rfl, R⟩
    · have h0' : sel' ≠ [] := fun h => h0 (he.2 h)
      obtain ⟨o, g, l, a1, a2, a3, a4⟩ := areaRound_step (lib := lib) (cosn := cosn) (fun h => by cases h <;> contradiction) s H h0
      obtain ⟨o', g', l', b1, b2, b3, b4⟩ := areaRound_step (lib := lib') (cosn := cosn) (fun h => by cases h <;> contradiction)
        s' H' h0'
      have S : OtherSelection ρ m sel m' sel' := fun x y z h => by
        rw [hasTri_selected hr H.needs.valid h0 H.exact', hasTri_selected hr H'.needs.valid h0' H'.exact', R.big hf h]
        exact ⟨fun k => ⟨h, k.2⟩, fun k => ⟨R.tri _ _ _ h, k.2⟩⟩
      obtain ⟨σ, k1, k2, -⟩ := C63_other_side_sqrt3 R H.needs.valid H'.needs.valid (f := s.setCells sel) (g := s'.setCells sel')
        H.selOK H'.selOK S (a3 rfl) (b3 rfl) a1 b1
      have hle := level_longer H.needs (f := s.setCells sel) H.selOK a3 a1
      have q : condLoop (condCellUpd .sqrt3 lib cosn) (areaCompute area A) (n + 1) ⟨s, sel⟩ m =
          condLoop (condCellUpd .sqrt3 lib cosn) (areaCompute area A) n ⟨g, l⟩ o := condLoop_step h0 a1 a2
      have q' : condLoop (condCellUpd .sqrt3 lib' cosn) (areaCompute area A) (n + 1) ⟨s', sel'⟩ m' =
          condLoop (condCellUpd .sqrt3 lib' cosn) (areaCompute area A) n ⟨g', l'⟩ o' := condLoop_step h0' b1 b2
      rw [q, q']
      rcases ih g g' k2 a4 b4 with ⟨out, c, out', c', τ, e1, e2, e3, e4⟩ | e
      · exact Or.inl ⟨out, c, out', c', τ, e1, e2, fun v hv => by rw [e3 v (Nat.lt_of_lt_of_le hv hle), k1 v hv], e4⟩
      · exact Or.inr e

end Verif
