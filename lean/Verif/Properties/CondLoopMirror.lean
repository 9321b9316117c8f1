import Verif.Properties.CondLoopListing
import Verif.Properties.MirrorCond
/-
C63: the conditional filter with the Loop cell filter.
-/
namespace Verif

/-- a square cut along a diagonal -/
def cutSquare : Mesh Q3 Nat := mk [(-4, -4, 0), (4, -4, 0), (4, 4, 0), (-4, 4, 0)] [(0, 1, 2), (2, 3, 0)] none

theorem cutSquare_ok : cutSquare.Valid ∧ cutSquare.RingOK ∧ cutSquare.NoIsolated ∧ cutSquare.tris = [(0, 1, 2), (2, 3, 0)] :=
  mk_ok _ (by decide)

/-- the half turn about the origin -/
def turnBack : Q3 →ᵃ[ℚ] Q3 := (-LinearMap.id : Q3 →ₗ[ℚ] Q3).toAffineMap

theorem turnBack_apply (p : Q3) : turnBack p = -p := rfl

/-- the opposite corner -/
def oppositeCorner (v : PId) : PId := if v = 0 then 2 else if v = 1 then 3 else if v = 2 then 0 else 1

theorem cutSquare_turned : (cutSquare.mapPoints turnBack).tris = [(0, 1, 2), (2, 3, 0)] := by
  rw [mapPoints_tris]; exact cutSquare_ok.2.2.2

theorem cutSquare_symmetric : cutSquare.SymmetricBy turnBack oppositeCorner := by
  refine sameSurface_of cutSquare_turned cutSquare_ok.2.2.2 ?_ ?_ ?_ ?_
  · unfold HasTri; decide
  · unfold Tri.Is; decide
  · decide
  · decide +kernel

theorem cornerAt_turned {m : Mesh Q3 Nat} {p : Q3} (h : m.cornerAt p = true) : (m.mapPoints turnBack).cornerAt (-p) = true := by
  unfold Mesh.cornerAt at h ⊢
  rw [mapPoints_tris]
  simp only [List.any_eq_true, beq_iff_eq] at h ⊢
  obtain ⟨t, ht, v, hv, hp⟩ := h
  exact ⟨t, ht, v, hv, by rw [show (m.mapPoints turnBack).pos v = (m.pos v).map turnBack from AMap.find?_map _ m.points v, hp]; rfl⟩

/-- C63 is false of the conditional filter with the Loop cell filter, for objects just made, too: the square below is mapped
to itself by a half turn that keeps areas and takes first corners of cells to first corners, but what the filter returns is
not symmetric.  In the second round the ids of the cells to refine are taken for the ids of the points to smooth (C42), which
knows no symmetry.  `shadow` is twice the area here. -/
theorem C63_conditional_loop_refuted : ∃ (lib : QELib) (cosn : Nat → ℚ) (m out : Mesh Q3 Nat) (c : Cond Filt CId)
    (φ : Q3 →ᵃ[ℚ] Q3) (ρ : PId → PId), lib.Lawful ∧ cosn 3 = -1 / 2 ∧ cosn 4 = 0 ∧ cosn 6 = 1 / 2 ∧ Scheme.loop.Needs m ∧
    (∀ p q r, shadow (φ p) (φ q) (φ r) = shadow p q r) ∧ m.SymmetricBy φ ρ ∧ SameStarts ρ (m.mapPoints φ) m ∧
    condGenerate lib (condCellUpd .loop lib cosn) (some (areaCompute shadow 12)) 2 ⟨Filt.new, []⟩ m = some (.ok out, c) ∧
    ∀ ρ', ¬ out.SymmetricBy φ ρ' := by
  have k1 : (match condGenerate checkedLib (condCellUpd .loop checkedLib cosHex) (some (areaCompute shadow 12)) 2
      ⟨Filt.new, []⟩ cutSquare with
    | some (.ok o, _) => o.cornerAt (0, 15 / 4, 0) && !o.cornerAt (-(0, 15 / 4, 0))
    | _ => false) = true := by decide +kernel
  rcases h1 : condGenerate checkedLib (condCellUpd .loop checkedLib cosHex) (some (areaCompute shadow 12)) 2
      ⟨Filt.new, []⟩ cutSquare with _ | ⟨_ | out, c⟩
  · rw [h1] at k1; cases k1
  · rw [h1] at k1; cases k1
  rw [h1] at k1
  simp only [Bool.and_eq_true, Bool.not_eq_true'] at k1
  refine ⟨checkedLib, cosHex, cutSquare, out, c, turnBack, oppositeCorner, checkedLib_lawful, rfl, rfl, rfl,
    ⟨cutSquare_ok.1, fun _ => cutSquare_ok.2.1, fun _ => cutSquare_ok.2.2.1⟩, ?_, cutSquare_symmetric, ?_, h1, ?_⟩
  · intro p q r
    simp only [turnBack_apply, shadow, Prod.fst_neg, Prod.snd_neg]
    congr 1
    ring
  · unfold SameStarts
    rw [cutSquare_turned, cutSquare_ok.2.2.2]
    decide
  · intro ρ' R
    have := SameSurface.cornerAt R (cornerAt_turned k1.1)
    rw [k1.2] at this
    cases this

end Verif
