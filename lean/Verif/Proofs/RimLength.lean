import Verif.Spec.RimLength
import Verif.Proofs.Rim
import Verif.Proofs.Local
import Verif.Proofs.RimIn
import Verif.Properties.CondKeeps
import Verif.Properties.Topology
import Verif.Properties.Sqrt3
/-
Lengths of polygons under the two rules for boundaries; the boundary as a set when it is split at midpoints.
-/
namespace Verif
set_option linter.unusedSectionVars false
open Finset
variable {E D : Type} [NormedAddCommGroup E] [InnerProductSpace ℝ E]

section walks
variable {q : Int → E} {n : Nat}

theorem sum_double (g : Nat → ℝ) (n : Nat) : ∑ j ∈ range (2 * n), g j = ∑ i ∈ range n, (g (2 * i) + g (2 * i + 1)) := by
  induction n with
  | zero => rfl
  | succ n ih =>
    rw [show 2 * (n + 1) = 2 * n + 1 + 1 by ring, sum_range_succ, sum_range_succ, ih, sum_range_succ]
    ring

theorem walkLength_inTurn (s m : Int → E) (n : Nat) :
    walkLength (2 * n) (inTurn s m) = ∑ i ∈ range n, (dist (s i) (m i) + dist (m i) (s (i + 1))) := by
  unfold walkLength
  rw [sum_double]
  refine sum_congr rfl fun i _ => ?_
  have e1 : ((2 * i : Nat) : Int) = 2 * (i : Int) := by push_cast; ring
  have e2 : ((2 * i + 1 : Nat) : Int) = 2 * (i : Int) + 1 := by push_cast; ring
  have e3 : (2 * (i : Int) + 1 + 1) = 2 * ((i : Int) + 1) := by ring
  rw [e1, e2, e3, inTurn_even, inTurn_odd, inTurn_even]

theorem Returns.inTurn {s m : Int → E} (hs : Returns n s) (hm : Returns n m) : Returns (2 * n) (inTurn s m) := by
  intro j
  rcases even_or_odd j with ⟨i, rfl⟩ | ⟨i, rfl⟩
  · rw [show 2 * i + ((2 * n : Nat) : Int) = 2 * (i + n) by push_cast; ring, inTurn_even, inTurn_even, hs]
  · rw [show 2 * i + 1 + ((2 * n : Nat) : Int) = 2 * (i + n) + 1 by push_cast; ring, inTurn_odd, inTurn_odd, hm]

theorem Returns.shift (h : Returns n q) (k : Int) : Returns n fun i => q (i + k) := by
  intro i
  have := h (i + k)
  rwa [show i + k + (n : Int) = i + n + k by ring] at this

theorem Returns.mid (h : Returns n q) : Returns n fun i => (1 / 2 : ℝ) • q i + (1 / 2 : ℝ) • q (i + 1) := by
  intro i
  change (1 / 2 : ℝ) • q (i + n) + (1 / 2 : ℝ) • q (i + n + 1) = _
  rw [h i, show i + (n : Int) + 1 = i + 1 + n by ring, h (i + 1)]

theorem Returns.withMidpoints (h : Returns n q) : Returns (2 * n) (withMidpoints ℝ q) := h.inTurn h.mid

theorem Returns.splineStep (h : Returns n q) : Returns (2 * n) (splineStep ℝ q) := by
  refine Returns.inTurn (fun i => ?_) h.mid
  change (3 / 4 : ℝ) • q (i + n) + (1 / 8 : ℝ) • q (i + n - 1) + (1 / 8 : ℝ) • q (i + n + 1) = _
  rw [h i, show i + (n : Int) - 1 = i - 1 + n by ring, h (i - 1), show i + (n : Int) + 1 = i + 1 + n by ring, h (i + 1)]

theorem walkLength_withMidpoints (q : Int → E) (n : Nat) : walkLength (2 * n) (withMidpoints ℝ q) = walkLength n q := by
  unfold withMidpoints
  rw [walkLength_inTurn]
  refine sum_congr rfl fun i _ => ?_
  have h1 : q i - ((1 / 2 : ℝ) • q i + (1 / 2 : ℝ) • q (i + 1)) = (1 / 2 : ℝ) • (q i - q (i + 1)) := by module
  have h2 : ((1 / 2 : ℝ) • q i + (1 / 2 : ℝ) • q (i + 1)) - q (i + 1) = (1 / 2 : ℝ) • (q i - q (i + 1)) := by module
  rw [dist_eq_norm, dist_eq_norm, h1, h2, norm_smul, dist_eq_norm]
  norm_num
  ring

/-- the sum over a round trip does not depend on where it starts -/
theorem sum_round {g : Int → ℝ} (hg : ∀ i, g (i + n) = g i) : ∑ i ∈ range n, g (i + 1) = ∑ i ∈ range n, g i := by
  have h1 := sum_range_succ (fun i : Nat => g i) n
  have h2 := sum_range_succ' (fun i : Nat => g i) n
  have h3 : g (n : Nat) = g ((0 : Nat) : Int) := by
    have := hg 0
    simpa using this
  rw [h1, h3] at h2
  have h4 := add_right_cancel h2
  rw [h4]
  refine sum_congr rfl fun i _ => ?_
  push_cast
  rfl

theorem walkLength_splineStep (h : Returns n q) : walkLength (2 * n) (splineStep ℝ q) ≤ walkLength n q := by
  unfold splineStep
  rw [walkLength_inTurn]
  have key : ∀ i : Int, dist ((3 / 4 : ℝ) • q i + (1 / 8 : ℝ) • q (i - 1) + (1 / 8 : ℝ) • q (i + 1))
        ((1 / 2 : ℝ) • q i + (1 / 2 : ℝ) • q (i + 1)) +
      dist ((1 / 2 : ℝ) • q i + (1 / 2 : ℝ) • q (i + 1))
        ((3 / 4 : ℝ) • q (i + 1) + (1 / 8 : ℝ) • q (i + 1 - 1) + (1 / 8 : ℝ) • q (i + 1 + 1)) ≤
      3 / 4 * dist (q i) (q (i + 1)) + 1 / 8 * dist (q (i - 1)) (q (i - 1 + 1)) + 1 / 8 * dist (q (i + 1)) (q (i + 1 + 1)) := by
    intro i
    rw [show i + 1 - 1 = i by ring, show i - 1 + 1 = i by ring]
    have h1 : (3 / 4 : ℝ) • q i + (1 / 8 : ℝ) • q (i - 1) + (1 / 8 : ℝ) • q (i + 1) -
        ((1 / 2 : ℝ) • q i + (1 / 2 : ℝ) • q (i + 1)) = (3 / 8 : ℝ) • (q i - q (i + 1)) + (1 / 8 : ℝ) • (q (i - 1) - q i) := by
      module
    have h2 : (1 / 2 : ℝ) • q i + (1 / 2 : ℝ) • q (i + 1) -
        ((3 / 4 : ℝ) • q (i + 1) + (1 / 8 : ℝ) • q i + (1 / 8 : ℝ) • q (i + 1 + 1)) =
        (3 / 8 : ℝ) • (q i - q (i + 1)) + (1 / 8 : ℝ) • (q (i + 1) - q (i + 1 + 1)) := by
      module
    simp only [dist_eq_norm]
    rw [h1, h2]
    have h3 := norm_add_le ((3 / 8 : ℝ) • (q i - q (i + 1))) ((1 / 8 : ℝ) • (q (i - 1) - q i))
    have h4 := norm_add_le ((3 / 8 : ℝ) • (q i - q (i + 1))) ((1 / 8 : ℝ) • (q (i + 1) - q (i + 1 + 1)))
    rw [norm_smul, norm_smul, Real.norm_of_nonneg (by norm_num), Real.norm_of_nonneg (by norm_num)] at h3 h4
    linarith
  refine le_trans (sum_le_sum fun i _ => key i) (le_of_eq ?_)
  have hd : ∀ i : Int, (fun i => dist (q i) (q (i + 1))) (i + n) = (fun i => dist (q i) (q (i + 1))) i := by
    intro i
    change dist (q (i + n)) (q (i + n + 1)) = dist (q i) (q (i + 1))
    rw [h i, show i + (n : Int) + 1 = i + 1 + n by ring, h (i + 1)]
  have hd' : ∀ i : Int, (fun i => dist (q (i - 1)) (q (i - 1 + 1))) (i + n) = (fun i => dist (q (i - 1)) (q (i - 1 + 1))) i := by
    intro i
    have := hd (i - 1)
    simp only at this ⊢
    rw [show i + (n : Int) - 1 = i - 1 + n by ring]
    exact this
  have s1 := sum_round (g := fun i => dist (q i) (q (i + 1))) hd
  have s2 := sum_round (g := fun i => dist (q (i - 1)) (q (i - 1 + 1))) hd'
  simp only [add_sub_cancel_right] at s1 s2
  rw [sum_add_distrib, sum_add_distrib, ← mul_sum, ← mul_sum, ← mul_sum, s1, ← s2]
  unfold walkLength
  ring

end walks

section sets
variable {inp out : Mesh E D} {μ : Edge → Option PId}

theorem segment_halves {a b m x : E} (hm : m = (1 / 2 : ℝ) • a + (1 / 2 : ℝ) • b) :
    x ∈ segment ℝ a b ↔ x ∈ segment ℝ a m ∨ x ∈ segment ℝ m b := by
  have hmab : m ∈ segment ℝ a b := ⟨1 / 2, 1 / 2, by norm_num, by norm_num, by norm_num, hm.symm⟩
  constructor
  · rintro ⟨s, t, hs, ht, hst, rfl⟩
    by_cases h : t ≤ 1 / 2
    · refine .inl ⟨1 - 2 * t, 2 * t, by linarith, by linarith, by ring, ?_⟩
      rw [hm]
      have : s = 1 - t := by linarith
      rw [this]
      module
    · refine .inr ⟨2 * s, 1 - 2 * s, by linarith, by linarith, by ring, ?_⟩
      rw [hm]
      have : t = 1 - s := by linarith
      rw [this]
      module
  · rintro (h | h)
    · exact (convex_segment a b).segment_subset (left_mem_segment ℝ a b) hmab h
    · exact (convex_segment a b).segment_subset hmab (right_mem_segment ℝ a b) h

/-- the boundary edges are split at their midpoints, or not at all -/
theorem rimSet_of_mid (hb : ∀ e', out.IsBoundary e' ↔ ∃ e, inp.IsBoundary e ∧ IsPiece μ e e')
    (kept : ∀ e, inp.IsBoundary e → out.place e.1 = inp.place e.1 ∧ out.place e.2 = inp.place e.2)
    (mid : ∀ e m, inp.IsBoundary e → μ e = some m →
      out.place m = (1 / 2 : ℝ) • inp.place e.1 + (1 / 2 : ℝ) • inp.place e.2) : out.rimSet = inp.rimSet := by
  ext x
  constructor
  · rintro ⟨e', he', hx⟩
    obtain ⟨e, he, hp⟩ := (hb e').1 he'
    refine ⟨e, he, ?_⟩
    rcases hp with ⟨-, rfl⟩ | ⟨m, hm, rfl | rfl⟩
    · rwa [(kept _ he).1, (kept _ he).2] at hx
    · refine (segment_halves (mid e m he hm)).2 (.inl ?_)
      rwa [(kept _ he).1] at hx
    · refine (segment_halves (mid e m he hm)).2 (.inr ?_)
      rwa [(kept _ he).2] at hx
  · rintro ⟨e, he, hx⟩
    rcases hm : μ e with _ | m
    · exact ⟨e, (hb e).2 ⟨e, he, .inl ⟨hm, rfl⟩⟩, by rwa [(kept _ he).1, (kept _ he).2]⟩
    · rcases (segment_halves (mid e m he hm)).1 hx with h | h
      · exact ⟨(e.1, m), (hb _).2 ⟨e, he, .inr ⟨m, hm, .inl rfl⟩⟩, by rwa [(kept _ he).1]⟩
      · exact ⟨(m, e.2), (hb _).2 ⟨e, he, .inr ⟨m, hm, .inr rfl⟩⟩, by rwa [(kept _ he).2]⟩

theorem SplitAtMid.rimSet_eq (S : SplitAtMid inp out μ)
    (hb : ∀ e', out.IsBoundary e' ↔ ∃ e, inp.IsBoundary e ∧ IsPiece μ e e') : out.rimSet = inp.rimSet := by
  have kept : ∀ e, inp.IsBoundary e → out.place e.1 = inp.place e.1 ∧ out.place e.2 = inp.place e.2 := by
    intro e he
    obtain ⟨t, ht, h1⟩ := mem_dartsOf.1 he.1
    exact ⟨S.kept t ht _ (Tri.dart_mem_verts h1).1, S.kept t ht _ (Tri.dart_mem_verts h1).2⟩
  have mid : ∀ e m, inp.IsBoundary e → μ e = some m →
      out.place m = (1 / 2 : ℝ) • inp.place e.1 + (1 / 2 : ℝ) • inp.place e.2 := by
    intro e m he hm
    obtain ⟨t, ht, h1⟩ := mem_dartsOf.1 he.1
    have := S.mid t ht e h1 m hm
    rw [(kept e he).1, (kept e he).2] at this
    exact this
  exact rimSet_of_mid hb kept mid

/-- the edge filters of Linear and Loop -/
theorem edge_rimSet {lib : QELib} {cosn : Nat → ℝ} {f f' : Filt} {sch : EdgeScheme} (hs : sch ≠ .butterfly)
    (hn : sch.toScheme.Needs inp) (hsel : inp.EdgeSelOK f.edgeSel) (h : edgeUpdate sch lib cosn f inp = (.ok out, f')) :
    out.rimSet = inp.rimSet := by
  have hv := hn.valid
  have hk := C06_original_points_kept_edge hv.points_dense h
  refine rimSet_of_mid (C18_boundary_preserved_edge hn hsel h).1 (fun e he =>
    ⟨place_kept hk hv (boundary_lt hv he).1, place_kept hk hv (boundary_lt hv he).2⟩) fun e m he hm => ?_
  obtain ⟨e', p', g1, -, g3, g4⟩ := edgeUpdate_edgeValue hn hsel h hm
  rw [place_of_pos g4, border_value (sch := sch.toScheme) (by cases sch <;> simp_all [EdgeScheme.toScheme])
      (by cases sch <;> simp [EdgeScheme.toScheme]) hv he g1 g3, midPoint,
      Mesh.coord_of_pos (hv.pos_place (boundary_lt hv he).1), Mesh.coord_of_pos (hv.pos_place (boundary_lt hv he).2), smul_add]

theorem rimSet_copy (lib : QELib) (hv : inp.Valid) : (copyGeometry lib inp).rimSet = inp.rimSet := by
  have hp : (copyGeometry lib inp).place = inp.place := by
    funext v
    unfold Mesh.place Mesh.pos
    rw [copyGeometry_points lib hv]
  unfold Mesh.rimSet Mesh.IsBoundary
  rw [copyGeometry_tris lib hv, hp]

end sets
end Verif
