import Mathlib.Tactic.Linarith
/-
The shares of the three corners and the three edge points of a triangle in a point of one of its children: the shares of the
corners alone determine them.
-/
namespace Verif
set_option linter.unusedSectionVars false
set_option linter.unusedVariables false
set_option linter.unnecessarySeqFocus false
variable {K : Type} [Field K] [LinearOrder K] [IsStrictOrderedRing K]

/-- which of the six shares can be positive: those of one child -/
def SixPattern (s0 s1 s2 : Bool) (x y z p q r : K) : Prop :=
  match s0, s1, s2 with
  | false, false, false => p = 0 ∧ q = 0 ∧ r = 0
  | true, false, false => q = 0 ∧ r = 0 ∧ (x = 0 ∨ y = 0)
  | false, true, false => p = 0 ∧ r = 0 ∧ (y = 0 ∨ z = 0)
  | false, false, true => p = 0 ∧ q = 0 ∧ (z = 0 ∨ x = 0)
  | true, true, false => r = 0 ∧ (y = 0 ∧ q = 0 ∨ x = 0 ∧ y = 0 ∨ x = 0 ∧ z = 0)
  | true, false, true => q = 0 ∧ (x = 0 ∧ r = 0 ∨ x = 0 ∧ y = 0 ∨ y = 0 ∧ z = 0)
  | false, true, true => p = 0 ∧ (z = 0 ∧ r = 0 ∨ y = 0 ∧ z = 0 ∨ x = 0 ∧ y = 0)
  | true, true, true => y = 0 ∧ z = 0 ∧ q = 0 ∨ x = 0 ∧ z = 0 ∧ r = 0 ∨ x = 0 ∧ y = 0 ∧ p = 0 ∨ x = 0 ∧ y = 0 ∧ z = 0

theorem six_fff {x y z p q r x' y' z' p' q' r' : K} (h : SixPattern false false false x y z p q r)
    (h' : SixPattern false false false x' y' z' p' q' r') (n1 : 0 ≤ x) (n2 : 0 ≤ y) (n3 : 0 ≤ z) (n4 : 0 ≤ p) (n5 : 0 ≤ q) (n6 : 0 ≤ r)
    (n1' : 0 ≤ x') (n2' : 0 ≤ y') (n3' : 0 ≤ z') (n4' : 0 ≤ p') (n5' : 0 ≤ q') (n6' : 0 ≤ r') (h0 : 2 * x + p + r = 2 * x' + p' + r')
    (h1 : 2 * y + p + q = 2 * y' + p' + q') (h2 : 2 * z + q + r = 2 * z' + q' + r') :
    x = x' ∧ y = y' ∧ z = z' ∧ p = p' ∧ q = q' ∧ r = r' := by
  simp only [SixPattern] at h h'
  obtain ⟨rfl, rfl, rfl⟩ := h; obtain ⟨rfl, rfl, rfl⟩ := h' <;> refine ⟨?_, ?_, ?_, ?_, ?_, ?_⟩ <;> first | rfl | linarith

theorem six_fft {x y z p q r x' y' z' p' q' r' : K} (h : SixPattern false false true x y z p q r)
    (h' : SixPattern false false true x' y' z' p' q' r') (n1 : 0 ≤ x) (n2 : 0 ≤ y) (n3 : 0 ≤ z) (n4 : 0 ≤ p) (n5 : 0 ≤ q) (n6 : 0 ≤ r)
    (n1' : 0 ≤ x') (n2' : 0 ≤ y') (n3' : 0 ≤ z') (n4' : 0 ≤ p') (n5' : 0 ≤ q') (n6' : 0 ≤ r') (h0 : 2 * x + p + r = 2 * x' + p' + r')
    (h1 : 2 * y + p + q = 2 * y' + p' + q') (h2 : 2 * z + q + r = 2 * z' + q' + r') :
    x = x' ∧ y = y' ∧ z = z' ∧ p = p' ∧ q = q' ∧ r = r' := by
  simp only [SixPattern] at h h'
  obtain ⟨rfl, rfl, rfl | rfl⟩ := h <;> obtain ⟨rfl, rfl, rfl | rfl⟩ := h' <;> refine ⟨?_, ?_, ?_, ?_, ?_, ?_⟩ <;> first | rfl | linarith

theorem six_ftf {x y z p q r x' y' z' p' q' r' : K} (h : SixPattern false true false x y z p q r)
    (h' : SixPattern false true false x' y' z' p' q' r') (n1 : 0 ≤ x) (n2 : 0 ≤ y) (n3 : 0 ≤ z) (n4 : 0 ≤ p) (n5 : 0 ≤ q) (n6 : 0 ≤ r)
    (n1' : 0 ≤ x') (n2' : 0 ≤ y') (n3' : 0 ≤ z') (n4' : 0 ≤ p') (n5' : 0 ≤ q') (n6' : 0 ≤ r') (h0 : 2 * x + p + r = 2 * x' + p' + r')
    (h1 : 2 * y + p + q = 2 * y' + p' + q') (h2 : 2 * z + q + r = 2 * z' + q' + r') :
    x = x' ∧ y = y' ∧ z = z' ∧ p = p' ∧ q = q' ∧ r = r' := by
  simp only [SixPattern] at h h'
  obtain ⟨rfl, rfl, rfl | rfl⟩ := h <;> obtain ⟨rfl, rfl, rfl | rfl⟩ := h' <;> refine ⟨?_, ?_, ?_, ?_, ?_, ?_⟩ <;> first | rfl | linarith

theorem six_ftt {x y z p q r x' y' z' p' q' r' : K} (h : SixPattern false true true x y z p q r)
    (h' : SixPattern false true true x' y' z' p' q' r') (n1 : 0 ≤ x) (n2 : 0 ≤ y) (n3 : 0 ≤ z) (n4 : 0 ≤ p) (n5 : 0 ≤ q) (n6 : 0 ≤ r)
    (n1' : 0 ≤ x') (n2' : 0 ≤ y') (n3' : 0 ≤ z') (n4' : 0 ≤ p') (n5' : 0 ≤ q') (n6' : 0 ≤ r') (h0 : 2 * x + p + r = 2 * x' + p' + r')
    (h1 : 2 * y + p + q = 2 * y' + p' + q') (h2 : 2 * z + q + r = 2 * z' + q' + r') :
    x = x' ∧ y = y' ∧ z = z' ∧ p = p' ∧ q = q' ∧ r = r' := by
  simp only [SixPattern] at h h'
  obtain ⟨rfl, ⟨rfl, rfl⟩ | ⟨rfl, rfl⟩ | ⟨rfl, rfl⟩⟩ := h <;> obtain ⟨rfl, ⟨rfl, rfl⟩ | ⟨rfl, rfl⟩ | ⟨rfl, rfl⟩⟩ := h' <;> refine ⟨?_, ?_, ?_, ?_, ?_, ?_⟩ <;> first | rfl | linarith

theorem six_tff {x y z p q r x' y' z' p' q' r' : K} (h : SixPattern true false false x y z p q r)
    (h' : SixPattern true false false x' y' z' p' q' r') (n1 : 0 ≤ x) (n2 : 0 ≤ y) (n3 : 0 ≤ z) (n4 : 0 ≤ p) (n5 : 0 ≤ q) (n6 : 0 ≤ r)
    (n1' : 0 ≤ x') (n2' : 0 ≤ y') (n3' : 0 ≤ z') (n4' : 0 ≤ p') (n5' : 0 ≤ q') (n6' : 0 ≤ r') (h0 : 2 * x + p + r = 2 * x' + p' + r')
    (h1 : 2 * y + p + q = 2 * y' + p' + q') (h2 : 2 * z + q + r = 2 * z' + q' + r') :
    x = x' ∧ y = y' ∧ z = z' ∧ p = p' ∧ q = q' ∧ r = r' := by
  simp only [SixPattern] at h h'
  obtain ⟨rfl, rfl, rfl | rfl⟩ := h <;> obtain ⟨rfl, rfl, rfl | rfl⟩ := h' <;> refine ⟨?_, ?_, ?_, ?_, ?_, ?_⟩ <;> first | rfl | linarith

theorem six_tft {x y z p q r x' y' z' p' q' r' : K} (h : SixPattern true false true x y z p q r)
    (h' : SixPattern true false true x' y' z' p' q' r') (n1 : 0 ≤ x) (n2 : 0 ≤ y) (n3 : 0 ≤ z) (n4 : 0 ≤ p) (n5 : 0 ≤ q) (n6 : 0 ≤ r)
    (n1' : 0 ≤ x') (n2' : 0 ≤ y') (n3' : 0 ≤ z') (n4' : 0 ≤ p') (n5' : 0 ≤ q') (n6' : 0 ≤ r') (h0 : 2 * x + p + r = 2 * x' + p' + r')
    (h1 : 2 * y + p + q = 2 * y' + p' + q') (h2 : 2 * z + q + r = 2 * z' + q' + r') :
    x = x' ∧ y = y' ∧ z = z' ∧ p = p' ∧ q = q' ∧ r = r' := by
  simp only [SixPattern] at h h'
  obtain ⟨rfl, ⟨rfl, rfl⟩ | ⟨rfl, rfl⟩ | ⟨rfl, rfl⟩⟩ := h <;> obtain ⟨rfl, ⟨rfl, rfl⟩ | ⟨rfl, rfl⟩ | ⟨rfl, rfl⟩⟩ := h' <;> refine ⟨?_, ?_, ?_, ?_, ?_, ?_⟩ <;> first | rfl | linarith

theorem six_ttf {x y z p q r x' y' z' p' q' r' : K} (h : SixPattern true true false x y z p q r)
    (h' : SixPattern true true false x' y' z' p' q' r') (n1 : 0 ≤ x) (n2 : 0 ≤ y) (n3 : 0 ≤ z) (n4 : 0 ≤ p) (n5 : 0 ≤ q) (n6 : 0 ≤ r)
    (n1' : 0 ≤ x') (n2' : 0 ≤ y') (n3' : 0 ≤ z') (n4' : 0 ≤ p') (n5' : 0 ≤ q') (n6' : 0 ≤ r') (h0 : 2 * x + p + r = 2 * x' + p' + r')
    (h1 : 2 * y + p + q = 2 * y' + p' + q') (h2 : 2 * z + q + r = 2 * z' + q' + r') :
    x = x' ∧ y = y' ∧ z = z' ∧ p = p' ∧ q = q' ∧ r = r' := by
  simp only [SixPattern] at h h'
  obtain ⟨rfl, ⟨rfl, rfl⟩ | ⟨rfl, rfl⟩ | ⟨rfl, rfl⟩⟩ := h <;> obtain ⟨rfl, ⟨rfl, rfl⟩ | ⟨rfl, rfl⟩ | ⟨rfl, rfl⟩⟩ := h' <;> refine ⟨?_, ?_, ?_, ?_, ?_, ?_⟩ <;> first | rfl | linarith

theorem six_ttt {x y z p q r x' y' z' p' q' r' : K} (h : SixPattern true true true x y z p q r)
    (h' : SixPattern true true true x' y' z' p' q' r') (n1 : 0 ≤ x) (n2 : 0 ≤ y) (n3 : 0 ≤ z) (n4 : 0 ≤ p) (n5 : 0 ≤ q) (n6 : 0 ≤ r)
    (n1' : 0 ≤ x') (n2' : 0 ≤ y') (n3' : 0 ≤ z') (n4' : 0 ≤ p') (n5' : 0 ≤ q') (n6' : 0 ≤ r') (h0 : 2 * x + p + r = 2 * x' + p' + r')
    (h1 : 2 * y + p + q = 2 * y' + p' + q') (h2 : 2 * z + q + r = 2 * z' + q' + r') :
    x = x' ∧ y = y' ∧ z = z' ∧ p = p' ∧ q = q' ∧ r = r' := by
  simp only [SixPattern] at h h'
  obtain ⟨rfl, rfl, rfl⟩ | ⟨rfl, rfl, rfl⟩ | ⟨rfl, rfl, rfl⟩ | ⟨rfl, rfl, rfl⟩ := h <;>
    obtain ⟨rfl, rfl, rfl⟩ | ⟨rfl, rfl, rfl⟩ | ⟨rfl, rfl, rfl⟩ | ⟨rfl, rfl, rfl⟩ := h' <;> refine ⟨?_, ?_, ?_, ?_, ?_, ?_⟩ <;> first | rfl | linarith

theorem sixPattern_unique {s0 s1 s2 : Bool} {x y z p q r x' y' z' p' q' r' : K} (h : SixPattern s0 s1 s2 x y z p q r)
    (h' : SixPattern s0 s1 s2 x' y' z' p' q' r') (hn : 0 ≤ x ∧ 0 ≤ y ∧ 0 ≤ z ∧ 0 ≤ p ∧ 0 ≤ q ∧ 0 ≤ r)
    (hn' : 0 ≤ x' ∧ 0 ≤ y' ∧ 0 ≤ z' ∧ 0 ≤ p' ∧ 0 ≤ q' ∧ 0 ≤ r') (h0 : x + 1 / 2 * (p + r) = x' + 1 / 2 * (p' + r'))
    (h1 : y + 1 / 2 * (p + q) = y' + 1 / 2 * (p' + q')) (h2 : z + 1 / 2 * (q + r) = z' + 1 / 2 * (q' + r')) :
    x = x' ∧ y = y' ∧ z = z' ∧ p = p' ∧ q = q' ∧ r = r' := by
  obtain ⟨n1, n2, n3, n4, n5, n6⟩ := hn
  obtain ⟨n1', n2', n3', n4', n5', n6'⟩ := hn'
  have h0 : 2 * x + p + r = 2 * x' + p' + r' := by linarith
  have h1 : 2 * y + p + q = 2 * y' + p' + q' := by linarith
  have h2 : 2 * z + q + r = 2 * z' + q' + r' := by linarith
  rcases s0 <;> rcases s1 <;> rcases s2
  · exact six_fff h h' n1 n2 n3 n4 n5 n6 n1' n2' n3' n4' n5' n6' h0 h1 h2
  · exact six_fft h h' n1 n2 n3 n4 n5 n6 n1' n2' n3' n4' n5' n6' h0 h1 h2
  · exact six_ftf h h' n1 n2 n3 n4 n5 n6 n1' n2' n3' n4' n5' n6' h0 h1 h2
  · exact six_ftt h h' n1 n2 n3 n4 n5 n6 n1' n2' n3' n4' n5' n6' h0 h1 h2
  · exact six_tff h h' n1 n2 n3 n4 n5 n6 n1' n2' n3' n4' n5' n6' h0 h1 h2
  · exact six_tft h h' n1 n2 n3 n4 n5 n6 n1' n2' n3' n4' n5' n6' h0 h1 h2
  · exact six_ttf h h' n1 n2 n3 n4 n5 n6 n1' n2' n3' n4' n5' n6' h0 h1 h2
  · exact six_ttt h h' n1 n2 n3 n4 n5 n6 n1' n2' n3' n4' n5' n6' h0 h1 h2

/-- a split edge has its ends in different children, an edge that is not split has no new point -/
theorem SixPattern.edges {s0 s1 s2 : Bool} {x y z p q r : K} (h : SixPattern s0 s1 s2 x y z p q r) :
    ((s0 = false → p = 0) ∧ (s0 = true → x = 0 ∨ y = 0)) ∧ ((s1 = false → q = 0) ∧ (s1 = true → y = 0 ∨ z = 0)) ∧
      ((s2 = false → r = 0) ∧ (s2 = true → z = 0 ∨ x = 0)) := by
  rcases s0 <;> rcases s1 <;> rcases s2 <;> simp only [SixPattern] at h <;> simp <;> tauto

end Verif
