import Verif.Proofs.Bulge
import Verif.Properties.Steady
/-
C101: how far ModifiedButterfly reaches out of the box of its input.
-/
namespace Verif
set_option linter.unusedSectionVars false

section
variable {K P D : Type} [Field K] [LinearOrder K] [IsStrictOrderedRing K] [AddCommGroup P] [Module K P] {inp out : Mesh P D} {lib : QELib}
  {cosn : Nat → K} {f f' : Filt} (φ : P →ᵃ[K] K) {lo hi : K}

/-- C101. A run of the ModifiedButterfly cell filter, on any mesh and with any selection, goes beyond the input in no direction by more
than a quarter of the extent of the input in that direction. -/
theorem C101_cell (hn : Scheme.butterfly.Needs inp) (hsel : inp.SelOK f.cells) (hw : lo ≤ hi)
    (h : cellUpdate .butterfly lib cosn f inp = (.ok out, f')) (hb : inp.Between φ lo hi) :
    out.Between φ (lo - (hi - lo) / 4) (hi + (hi - lo) / 4) := cell_bulge φ hn hsel hw h hb

/-- C101 for the edge filter. -/
theorem C101_edge (hn : Scheme.butterfly.Needs inp) (hsel : inp.EdgeSelOK f.edgeSel) (hw : lo ≤ hi)
    (h : edgeUpdate .butterfly lib cosn f inp = (.ok out, f')) (hb : inp.Between φ lo hi) :
    out.Between φ (lo - (hi - lo) / 4) (hi + (hi - lo) / 4) := edge_bulge φ hn hsel hw h hb

/-- C101 for several levels: the extent about the same middle grows by a factor of at most 3/2 for each. -/
theorem C101_iterative {f : Iter} (hl : lib.Lawful) (hn : Scheme.butterfly.Needs inp) (hsel : inp.SelOK f.cells) (hw : lo ≤ hi)
    (h : (iterUpdate .butterfly lib cosn f inp).1 = .ok out) (hb : inp.Between φ lo hi) :
    out.Between φ (lo - ((3 / 2) ^ max 1 f.levels - 1) / 2 * (hi - lo)) (hi + ((3 / 2) ^ max 1 f.levels - 1) / 2 * (hi - lo)) :=
  levels_bulge φ hl hn hsel hw h hb

/-- C101 for the conditional filter with an area, if it returns within `n` iterations. -/
theorem C101_conditional_area (hl : lib.Lawful) (hv : inp.Valid) (hw : lo ≤ hi) {n : Nat} {area : P → P → P → K} {A : K}
    {c c' : Cond Filt CId}
    (h : condGenerate lib (condCellUpd .butterfly lib cosn) (some (areaCompute area A)) n c inp = some (.ok out, c'))
    (hb : inp.Between φ lo hi) :
    out.Between φ (lo - ((3 / 2) ^ n - 1) / 2 * (hi - lo)) (hi + ((3 / 2) ^ n - 1) / 2 * (hi - lo)) := condArea_bulge φ hv hl hw hb h

/-- C101 for the conditional filter with a length. -/
theorem C101_conditional_length (hl : lib.Lawful) (hv : inp.Valid) (hw : lo ≤ hi) {n : Nat} {len : P → P → K} {L : K}
    {c c' : Cond Filt (Option Edge)}
    (h : condGenerate lib (condEdgeUpd .butterfly lib cosn) (some (lengthCompute len L)) n c inp = some (.ok out, c'))
    (hb : inp.Between φ lo hi) :
    out.Between φ (lo - ((3 / 2) ^ n - 1) / 2 * (hi - lo)) (hi + ((3 / 2) ^ n - 1) / 2 * (hi - lo)) := condLength_bulge φ hv hl hw hb h

end

section closed
variable {V D : Type} [NormedAddCommGroup V] [NormedSpace ℝ V] {lib : QELib} {inp out : Mesh V D} {δ : ℝ} {f f' : Filt}

/-- C101, a uniform run on a closed mesh: no point is further from the convex hull of the input than a quarter of the longest edge. -/
theorem C101_closed (hn : Scheme.butterfly.Needs inp) (hc : inp.Closed) (hδ : inp.EdgesWithin δ) (h0 : 0 ≤ δ)
    (h : cellUpdate .butterfly lib realCos Filt.new inp = (.ok out, f')) : inp.NearHull out (δ / 4) := by
  have := closed_bulge (inp := inp) (r := 0) hn hc h hδ h0 fun v p hp => ⟨p, subset_convexHull ℝ _ ⟨v, hp⟩, by simp⟩
  rwa [zero_add, one_div_mul_eq_div] at this

/-- C101, uniform runs on a closed mesh: however many levels, no point is further from the convex hull of the input than twice its
longest edge. -/
theorem C101_closed_levels {f : Iter} (hl : lib.Lawful) (hn : Scheme.butterfly.Needs inp) (hc : inp.Closed) (hf : f.cells = [])
    (hδ : inp.EdgesWithin δ) (h0 : 0 ≤ δ) (h : (iterUpdate .butterfly lib realCos f inp).1 = .ok out) : inp.NearHull out (2 * δ) := by
  obtain ⟨o, h1, h2⟩ := closed_levels (inp := inp) (r := 0) hl (max 1 f.levels) ⟨hn, by simp, fun _ => hc⟩ hδ h0
    fun v p hp => ⟨p, subset_convexHull ℝ _ ⟨v, hp⟩, by simp⟩
  rw [iterUpdate_eq, ← levelsOf_eq, hf, h1] at h
  cases h
  intro v p hp
  obtain ⟨q, h3, h4⟩ := h2 v p hp
  refine ⟨q, h3, h4.trans ?_⟩
  have : 0 ≤ (7 / 8 : ℝ) ^ max 1 f.levels := by positivity
  nlinarith

end closed

/-- The quarter is reached, by both filters: all points between -1 and 1, and one at 3/2 after the run. -/
theorem C101_reached : ∃ inp : Mesh ℚ Nat, Scheme.butterfly.Needs inp ∧ inp.Between id (-1) 1 ∧
    (∃ out v, (cellUpdate .butterfly someLib cos0 Filt.new inp).1 = .ok out ∧ out.pos v = some (1 + (1 - -1) / 4)) ∧
    ∃ out v, (edgeUpdate .butterfly someLib cos0 (Filt.new.setEdges [some (0, 1)]) inp).1 = .ok out ∧
      out.pos v = some (1 + (1 - -1) / 4) := by
  refine ⟨shakenWings, ⟨shakenWings_ok.1, fun _ => shakenWings_ok.2.1, fun _ => shakenWings_ok.2.2.1⟩, ?_, ?_, ?_⟩
  · intro v p hp
    have key : ∀ v < 8, ∀ p ∈ shakenWings.pos v, -1 ≤ p ∧ p ≤ 1 := by decide +kernel
    exact key v (shakenWings_ok.1.pos_lt hp) p hp
  · have h1 : posIn (cellUpdate .butterfly someLib cos0 Filt.new shakenWings).1 8 = some (1 + (1 - -1) / 4) := by decide +kernel
    rcases e1 : (cellUpdate .butterfly someLib cos0 Filt.new shakenWings).1 with _ | out
    · rw [e1] at h1; cases h1
    · rw [e1] at h1; exact ⟨out, 8, rfl, h1⟩
  · have h1 : posIn (edgeUpdate .butterfly someLib cos0 (Filt.new.setEdges [some (0, 1)]) shakenWings).1 8 = some (1 + (1 - -1) / 4) := by
      decide +kernel
    rcases e1 : (edgeUpdate .butterfly someLib cos0 (Filt.new.setEdges [some (0, 1)]) shakenWings).1 with _ | out
    · rw [e1] at h1; cases h1
    · rw [e1] at h1; exact ⟨out, 8, rfl, h1⟩

/-- the first coordinate -/
def firstCoord : Q3 →ᵃ[ℚ] ℚ := (LinearMap.fst ℚ ℚ (ℚ × ℚ)).toAffineMap

theorem patchMesh_between : patchMesh.Between firstCoord (-4) 4 := by
  intro v p hp
  have key : ∀ v < 6, ∀ p ∈ patchMesh.pos v, -4 ≤ p.1 ∧ p.1 ≤ 4 := by decide +kernel
  exact key v (patchMesh_ok.1.pos_lt hp) p hp

/-- an open mesh with a selection -/
example (out : Mesh Q3 Nat) (f' : Filt) (h : cellUpdate .butterfly someLib cos0 (usedFilt [1, 3]) patchMesh = (.ok out, f')) (v : PId) (p : Q3)
    (hp : out.pos v = some p) : -6 ≤ p.1 ∧ p.1 ≤ 6 := by
  have := C101_cell firstCoord (patchMesh_needs _) patchMesh_sel (by norm_num) h patchMesh_between v p hp
  norm_num at this
  exact this

example (out : Mesh Q3 Nat) (f' : Filt) (h : edgeUpdate .butterfly someLib cos0 (Filt.new.setEdges [some (1, 0), none, some (4, 2)]) patchMesh =
    (.ok out, f')) (v : PId) (p : Q3) (hp : out.pos v = some p) : -6 ≤ p.1 ∧ p.1 ≤ 6 := by
  have := C101_edge firstCoord (patchMesh_needs _) patchMesh_edges (by norm_num) h patchMesh_between v p hp
  norm_num at this
  exact this

example (out : Mesh Q3 Nat) (h : (iterUpdate .butterfly someLib cos0 ⟨[1, 3], 2, []⟩ patchMesh).1 = .ok out) (v : PId) (p : Q3)
    (hp : out.pos v = some p) : -9 ≤ p.1 ∧ p.1 ≤ 9 := by
  have := C101_iterative firstCoord (f := ⟨[1, 3], 2, []⟩) someLib_lawful (patchMesh_needs _) patchMesh_sel (by norm_num) h
    patchMesh_between v p hp
  norm_num at this
  exact this

example (n : Nat) (out : Mesh Q3 Nat) (c' : Cond Filt CId)
    (h : condGenerate someLib (condCellUpd .butterfly someLib cos0) (some (areaCompute shadow 6)) n ⟨usedFilt [1], [7]⟩ patchMesh =
      some (.ok out, c')) : out.Between firstCoord (-4 - ((3 / 2) ^ n - 1) / 2 * (4 - -4)) (4 + ((3 / 2) ^ n - 1) / 2 * (4 - -4)) :=
  C101_conditional_area firstCoord someLib_lawful patchMesh_ok.1 (by norm_num) h patchMesh_between

example (n : Nat) (out : Mesh Q3 Nat) (c' : Cond Filt (Option Edge))
    (h : condGenerate someLib (condEdgeUpd .butterfly someLib cos0) (some (lengthCompute taxi 4)) n ⟨Filt.new, []⟩ patchMesh =
      some (.ok out, c')) : out.Between firstCoord (-4 - ((3 / 2) ^ n - 1) / 2 * (4 - -4)) (4 + ((3 / 2) ^ n - 1) / 2 * (4 - -4)) :=
  C101_conditional_length firstCoord someLib_lawful patchMesh_ok.1 (by norm_num) h patchMesh_between

/-- the tetrahedron on the line from 0 to 12, one level and many -/
example (n : Nat) (out o : Mesh ℝ Nat) (f' : Filt) (h : cellUpdate .butterfly someLib realCos Filt.new tetraR = (.ok out, f'))
    (hm : (iterUpdate .butterfly someLib realCos ⟨[], n, []⟩ tetraR).1 = .ok o) : tetraR.NearHull out 3 ∧ tetraR.NearHull o 24 := by
  have hn : Scheme.butterfly.Needs tetraR := ⟨tetraR_ok.1, fun _ => tetraR_ok.2.1, fun _ => tetraR_ok.2.2.1⟩
  have a := C101_closed hn tetraR_closed tetraR_within (by norm_num) h
  have b := C101_closed_levels (f := ⟨[], n, []⟩) someLib_lawful hn tetraR_closed rfl tetraR_within (by norm_num) hm
  norm_num at a b
  exact ⟨a, b⟩

end Verif
