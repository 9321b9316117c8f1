import Verif.Properties.CondPieces
import Verif.Properties.Listing
import Verif.Properties.Pieces
import Verif.Proofs.CheckedLib
/-
C58 and C77: the conditional filter with the Loop cell filter.
-/
namespace Verif

/-- the cosines of 2π/n for n = 3, 4, 6 -/
def cosHex (n : Nat) : ℚ := if n = 3 then -1 / 2 else if n = 6 then 1 / 2 else 0

/-- two triangles in the plane -/
def kite : Mesh Q3 Nat := mk [(0, 0, 0), (8, 0, 0), (0, 8, 0), (4, -4, 0)] [(0, 1, 2), (1, 0, 3)] none
/-- the same two triangles in the other order -/
def kiteOther : Mesh Q3 Nat := mk [(0, 0, 0), (8, 0, 0), (0, 8, 0), (4, -4, 0)] [(1, 0, 3), (0, 1, 2)] none

theorem kite_ok : kite.Valid ∧ kite.RingOK ∧ kite.NoIsolated ∧ kite.tris = [(0, 1, 2), (1, 0, 3)] := mk_ok _ (by decide)
theorem kiteOther_ok : kiteOther.Valid ∧ kiteOther.RingOK ∧ kiteOther.NoIsolated ∧ kiteOther.tris = [(1, 0, 3), (0, 1, 2)] :=
  mk_ok _ (by decide)

theorem kite_same : SameSurface id kite kiteOther := by
  refine sameSurface_of kite_ok.2.2.2 kiteOther_ok.2.2.2 ?_ ?_ ?_ ?_
  · unfold HasTri; decide
  · unfold Tri.Is; decide
  · decide
  · decide +kernel

/-- some triangle has a corner at `p` -/
def Mesh.cornerAt (m : Mesh Q3 Nat) (p : Q3) : Bool := m.tris.any fun t => t.verts.any fun v => m.pos v == some p

theorem SameSurface.cornerAt {ρ : PId → PId} {m m' : Mesh Q3 Nat} (R : SameSurface ρ m m') {p : Q3} (h : m.cornerAt p = true) :
    m'.cornerAt p = true := by
  unfold Mesh.cornerAt at h ⊢
  simp only [List.any_eq_true, beq_iff_eq] at h ⊢
  obtain ⟨t, ht, v, hv, hp⟩ := h
  obtain ⟨t', ht', hi⟩ := hasTri_iff.1 (R.tri t.1 t.2.1 t.2.2 (Or.inl ht))
  refine ⟨t', ht', ρ v, ?_, (R.pos t ht v hv).trans hp⟩
  simp only [Tri.verts, List.mem_cons, List.not_mem_nil, or_false] at hv ⊢
  rcases hi with h | h | h <;> rw [h] <;> rcases hv with rfl | rfl | rfl <;> simp

/-- C58 is false of the conditional filter with the Loop cell filter, for objects just made, too: it matters in which order
the cells of the input are listed.  In its second round the filter takes the ids of the cells to refine for the ids of the
points to smooth (C42), and the cells are numbered by the listing.  The two meshes below consist of the same two triangles
of the plane, each beginning at the same corner, with the same point ids; only the order of the triangles differs.  `shadow`
is twice the area here. -/
theorem C58_conditional_loop_refuted : ∃ (lib : QELib) (cosn : Nat → ℚ) (m m' out out' : Mesh Q3 Nat) (c c' : Cond Filt CId),
    lib.Lawful ∧ cosn 3 = -1 / 2 ∧ cosn 4 = 0 ∧ cosn 6 = 1 / 2 ∧
    Scheme.loop.Needs m ∧ Scheme.loop.Needs m' ∧ m'.points = m.points ∧ m'.tris.Perm m.tris ∧ SameSurface id m m' ∧
    SameStarts id m m' ∧
    condGenerate lib (condCellUpd .loop lib cosn) (some (areaCompute shadow 12)) 2 ⟨Filt.new, []⟩ m = some (.ok out, c) ∧
    condGenerate lib (condCellUpd .loop lib cosn) (some (areaCompute shadow 12)) 2 ⟨Filt.new, []⟩ m' = some (.ok out', c') ∧
    ∀ ρ', ¬ SameSurface ρ' out out' := by
  have k1 : (match condGenerate checkedLib (condCellUpd .loop checkedLib cosHex) (some (areaCompute shadow 12)) 2
      ⟨Filt.new, []⟩ kite with
    | some (.ok o, _) => o.cornerAt (4, -11 / 4, 0)
    | _ => false) = true := by decide +kernel
  have k2 : (match condGenerate checkedLib (condCellUpd .loop checkedLib cosHex) (some (areaCompute shadow 12)) 2
      ⟨Filt.new, []⟩ kiteOther with
    | some (.ok o, _) => !o.cornerAt (4, -11 / 4, 0)
    | _ => false) = true := by decide +kernel
  rcases h1 : condGenerate checkedLib (condCellUpd .loop checkedLib cosHex) (some (areaCompute shadow 12)) 2
      ⟨Filt.new, []⟩ kite with _ | ⟨_ | out, c⟩
  · rw [h1] at k1; cases k1
  · rw [h1] at k1; cases k1
  rcases h2 : condGenerate checkedLib (condCellUpd .loop checkedLib cosHex) (some (areaCompute shadow 12)) 2
      ⟨Filt.new, []⟩ kiteOther with _ | ⟨_ | out', c'⟩
  · rw [h2] at k2; cases k2
  · rw [h2] at k2; cases k2
  rw [h1] at k1
  rw [h2] at k2
  refine ⟨checkedLib, cosHex, kite, kiteOther, out, out', c, c', checkedLib_lawful, rfl, rfl, rfl,
    ⟨kite_ok.1, fun _ => kite_ok.2.1, fun _ => kite_ok.2.2.1⟩,
    ⟨kiteOther_ok.1, fun _ => kiteOther_ok.2.1, fun _ => kiteOther_ok.2.2.1⟩, rfl, ?_, kite_same, ?_, h1, h2, ?_⟩
  · rw [kite_ok.2.2.2, kiteOther_ok.2.2.2]
    exact List.Perm.swap _ _ _
  · unfold SameStarts
    rw [kite_ok.2.2.2, kiteOther_ok.2.2.2]
    decide
  · intro ρ' R
    have := R.cornerAt k1
    simp only [this, Bool.not_true] at k2
    cases k2

/-- a large triangle -/
def bigTri : Mesh Q3 Nat := mk [(0, 0, 0), (8, 0, 0), (0, 8, 0)] [(0, 1, 2)] none
/-- a small triangle -/
def smallTri : Mesh Q3 Nat := mk [(20, 0, 0), (22, 0, 0), (20, 2, 0)] [(0, 1, 2)] none
/-- both of them -/
def bigSmall : Mesh Q3 Nat :=
  mk [(0, 0, 0), (8, 0, 0), (0, 8, 0), (20, 0, 0), (22, 0, 0), (20, 2, 0)] [(0, 1, 2), (3, 4, 5)] none

theorem bigTri_ok : bigTri.Valid ∧ bigTri.RingOK ∧ bigTri.NoIsolated ∧ bigTri.tris = [(0, 1, 2)] := mk_ok _ (by decide)
theorem smallTri_ok : smallTri.Valid ∧ smallTri.RingOK ∧ smallTri.NoIsolated ∧ smallTri.tris = [(0, 1, 2)] := mk_ok _ (by decide)
theorem bigSmall_ok : bigSmall.Valid ∧ bigSmall.RingOK ∧ bigSmall.NoIsolated ∧ bigSmall.tris = [(0, 1, 2), (3, 4, 5)] :=
  mk_ok _ (by decide)

theorem bigSmall_two : TwoPieces id (· + 3) bigTri smallTri bigSmall := by
  refine twoPieces_of bigTri_ok.2.2.2 smallTri_ok.2.2.2 bigSmall_ok.2.2.2 ?_ ?_ ?_ ?_ ?_ ?_ ?_ ?_ <;> decide +kernel

theorem PieceOf.cornerAt {ρ : PId → PId} {m m' : Mesh Q3 Nat} (R : PieceOf ρ m m') {p : Q3} (h : m.cornerAt p = true) :
    m'.cornerAt p = true := by
  unfold Mesh.cornerAt at h ⊢
  simp only [List.any_eq_true, beq_iff_eq] at h ⊢
  obtain ⟨t, ht, v, hv, hp⟩ := h
  obtain ⟨t', ht', hi⟩ := hasTri_iff.1 (R.tri t.1 t.2.1 t.2.2 (Or.inl ht))
  refine ⟨t', ht', ρ v, ?_, (R.pos t ht v hv).trans hp⟩
  simp only [Tri.verts, List.mem_cons, List.not_mem_nil, or_false] at hv ⊢
  rcases hi with h | h | h <;> rw [h] <;> rcases hv with rfl | rfl | rfl <;> simp

/-- The conditional filter with the Loop cell filter has to be left out of C77: a piece of which nothing is too large comes
back as it was if it is alone, and is smoothed if there is a large triangle elsewhere. -/
theorem C77_conditional_loop_excluded : ∃ (lib : QELib) (cosn : Nat → ℚ) (m₁ m₂ m o₁ o₂ out : Mesh Q3 Nat) (c₁ c₂ c : Cond Filt CId)
    (ρ₁ ρ₂ : PId → PId), lib.Lawful ∧ cosn 3 = -1 / 2 ∧ cosn 4 = 0 ∧ cosn 6 = 1 / 2 ∧
    Scheme.loop.Needs m₁ ∧ Scheme.loop.Needs m₂ ∧ Scheme.loop.Needs m ∧ TwoPieces ρ₁ ρ₂ m₁ m₂ m ∧
    SameStarts ρ₁ m₁ m ∧ SameStarts ρ₂ m₂ m ∧
    condGenerate lib (condCellUpd .loop lib cosn) (some (areaCompute shadow 33)) 1 ⟨Filt.new, []⟩ m₁ = some (.ok o₁, c₁) ∧
    condGenerate lib (condCellUpd .loop lib cosn) (some (areaCompute shadow 33)) 1 ⟨Filt.new, []⟩ m₂ = some (.ok o₂, c₂) ∧
    condGenerate lib (condCellUpd .loop lib cosn) (some (areaCompute shadow 33)) 1 ⟨Filt.new, []⟩ m = some (.ok out, c) ∧
    ∀ ρ₁' ρ₂', ¬ TwoPieces ρ₁' ρ₂' o₁ o₂ out := by
  have k1 : (match condGenerate checkedLib (condCellUpd .loop checkedLib cosHex) (some (areaCompute shadow 33)) 1
      ⟨Filt.new, []⟩ bigTri with
    | some (.ok _, _) => true
    | _ => false) = true := by decide +kernel
  have k2 : (match condGenerate checkedLib (condCellUpd .loop checkedLib cosHex) (some (areaCompute shadow 33)) 1
      ⟨Filt.new, []⟩ smallTri with
    | some (.ok o, _) => o.cornerAt (20, 0, 0)
    | _ => false) = true := by decide +kernel
  have k3 : (match condGenerate checkedLib (condCellUpd .loop checkedLib cosHex) (some (areaCompute shadow 33)) 1
      ⟨Filt.new, []⟩ bigSmall with
    | some (.ok o, _) => !o.cornerAt (20, 0, 0)
    | _ => false) = true := by decide +kernel
  rcases h1 : condGenerate checkedLib (condCellUpd .loop checkedLib cosHex) (some (areaCompute shadow 33)) 1
      ⟨Filt.new, []⟩ bigTri with _ | ⟨_ | o₁, c₁⟩
  · rw [h1] at k1; cases k1
  · rw [h1] at k1; cases k1
  rcases h2 : condGenerate checkedLib (condCellUpd .loop checkedLib cosHex) (some (areaCompute shadow 33)) 1
      ⟨Filt.new, []⟩ smallTri with _ | ⟨_ | o₂, c₂⟩
  · rw [h2] at k2; cases k2
  · rw [h2] at k2; cases k2
  rcases h3 : condGenerate checkedLib (condCellUpd .loop checkedLib cosHex) (some (areaCompute shadow 33)) 1
      ⟨Filt.new, []⟩ bigSmall with _ | ⟨_ | out, c⟩
  · rw [h3] at k3; cases k3
  · rw [h3] at k3; cases k3
  rw [h2] at k2
  rw [h3] at k3
  refine ⟨checkedLib, cosHex, bigTri, smallTri, bigSmall, o₁, o₂, out, c₁, c₂, c, id, (· + 3), checkedLib_lawful, rfl, rfl, rfl,
    ⟨bigTri_ok.1, fun _ => bigTri_ok.2.1, fun _ => bigTri_ok.2.2.1⟩,
    ⟨smallTri_ok.1, fun _ => smallTri_ok.2.1, fun _ => smallTri_ok.2.2.1⟩,
    ⟨bigSmall_ok.1, fun _ => bigSmall_ok.2.1, fun _ => bigSmall_ok.2.2.1⟩, bigSmall_two, ?_, ?_, h1, h2, h3, ?_⟩
  · unfold SameStarts
    rw [bigTri_ok.2.2.2, bigSmall_ok.2.2.2]
    decide
  · unfold SameStarts
    rw [smallTri_ok.2.2.2, bigSmall_ok.2.2.2]
    decide
  · intro ρ₁' ρ₂' T
    have := T.snd.cornerAt k2
    simp only [this, Bool.not_true] at k3
    cases k3

end Verif
