import Verif.Proofs.Levels
import Verif.Proofs.Rim
import Verif.Properties.Affine
import Verif.Properties.Hull
import Verif.Properties.Geometry
import Verif.Properties.Iterative
/-
C19, C20 and C21 for any number of levels.
-/
namespace Verif
set_option linter.unusedSectionVars false

section affine
variable {K P P' D : Type} [Field K] [CharZero K] [AddCommGroup P] [Module K P] [AddCommGroup P'] [Module K P'] {lib : QELib}

/-- C19 for one run of any scheme on a valid mesh -/
theorem cellUpdate_affine {sch : Scheme} (lib : QELib) (cosn : Nat → K) {f : Filt} {inp : Mesh P D} (hn : sch.Needs inp)
    (hsb : sch = .loop → inp.SimpleBoundary) (hsel : inp.SelOK f.cells) (φ : P →ᵃ[K] P') :
    (cellUpdate sch lib cosn f (inp.mapPoints φ)).1 = (cellUpdate sch lib cosn f inp).1.map (Mesh.mapPoints φ) ∧
    (cellUpdate sch lib cosn f (inp.mapPoints φ)).2.cells = (cellUpdate sch lib cosn f inp).2.cells := by
  cases sch with
  | linear => exact C19_affine_linear_sqrt3 (.inl rfl) lib cosn f inp hn.valid.points_dense φ
  | sqrt3 => exact C19_affine_linear_sqrt3 (.inr rfl) lib cosn f inp hn.valid.points_dense φ
  | butterfly => exact C19_affine_butterfly lib cosn f hn.valid (hn.ring (.inr rfl)) φ
  | loop => exact C19_affine_loop_partial lib cosn hn (hsb rfl) hsel φ

/-- C19 for any number of levels and any selection: the run on the moved mesh is the moved run.  (Loop: the boundary does
not touch itself.) -/
theorem C19_affine_iterative_partial {sch : Scheme} (hl : sch = .loop ∨ sch = .butterfly → lib.Lawful) (cosn : Nat → K)
    {inp : Mesh P D} (hn : sch.Needs inp) (hsb : sch = .loop → inp.SimpleBoundary) {f : Iter} (hsel : inp.SelOK f.cells)
    (hid : sch.IdsLeft (max 1 f.levels) inp f.cells) (φ : P →ᵃ[K] P') :
    ∃ out, (iterUpdate sch lib cosn f inp).1 = .ok out ∧
      (iterUpdate sch lib cosn f (inp.mapPoints φ)).1 = .ok (out.mapPoints φ) := by
  have key : ∀ (L : Nat) (m : Mesh P D) (sel : List CId), sch.Needs m → (sch = .loop → m.SimpleBoundary) → m.SelOK sel →
      sch.IdsLeft L m sel → ∃ out s, manyLevels sch lib cosn L (m, sel) = .ok (out, s) ∧
        manyLevels sch lib cosn L (m.mapPoints φ, sel) = .ok (out.mapPoints φ, s) := by
    intro L
    induction L with
    | zero => exact fun m sel _ _ _ _ => ⟨m, sel, rfl, rfl⟩
    | succ L ih =>
      intro m sel hm hsb hsel hid
      obtain ⟨m1, s1, h1, hn1, hs1, hid1, -, -⟩ := oneLevel_ok cosn hl hm hsel hid
      have h1' := h1
      unfold oneLevel at h1'
      rcases hc : cellUpdate sch lib cosn (Filt.new.setCells sel) m with ⟨r, f'⟩
      simp only [hc] at h1'
      cases r with
      | error e => cases h1'
      | ok out =>
        obtain ⟨rfl, rfl⟩ := Prod.mk.inj (Except.ok.inj h1')
        obtain ⟨a, b⟩ := cellUpdate_affine lib cosn (f := Filt.new.setCells sel) hm hsb hsel φ
        rw [hc] at a b
        have h2 : oneLevel sch lib cosn (m.mapPoints φ, sel) = .ok (out.mapPoints φ, f'.cells) := by
          unfold oneLevel
          rcases hc' : cellUpdate sch lib cosn (Filt.new.setCells sel) (m.mapPoints φ) with ⟨r', g'⟩
          rw [hc'] at a b
          simp only at a b
          rw [a]
          simp only [Except.map]
          rw [b]
        obtain ⟨o, s, k1, k2⟩ := ih out f'.cells hn1
          (fun hs => by subst hs; exact simple_split (by decide) hm (f := Filt.new.setCells sel) hsel hc (hsb rfl)) hs1 hid1
        refine ⟨o, s, ?_, ?_⟩
        · unfold manyLevels; rw [h1]; exact k1
        · unfold manyLevels; rw [h2]; exact k2
  obtain ⟨out, s, h1, h2⟩ := key _ inp f.cells hn hsb hsel hid
  refine ⟨out, ?_, ?_⟩
  · rw [iterUpdate_eq, ← levelsOf_eq, h1]; rfl
  · rw [iterUpdate_eq, ← levelsOf_eq, h2]; rfl

example (sch : Scheme) : ∃ out, (iterUpdate sch someLib cos0 ⟨[1, 3], 4, []⟩ patchMesh).1 = .ok out ∧
    (iterUpdate sch someLib cos0 ⟨[1, 3], 4, []⟩ (patchMesh.mapPoints fun p => p.1)).1 = .ok (out.mapPoints fun p => p.1) :=
  C19_affine_iterative_partial (fun _ => someLib_lawful) cos0 (patchMesh_needs sch) (fun _ => patchMesh_simple)
    patchMesh_sel (fun _ => by decide) (LinearMap.fst ℚ ℚ (ℚ × ℚ)).toAffineMap

end affine

section hull
variable {K P D : Type} [Field K] [LinearOrder K] [IsStrictOrderedRing K] [AddCommGroup P] [Module K P]
  {inp out : Mesh P D} {lib : QELib} {cosn : Nat → K}

theorem hull_mono {a b : Mesh P D} (h : ∀ v p, b.pos v = some p → p ∈ a.hull K) : b.hull K ⊆ a.hull K := by
  refine convexHull_min ?_ (convex_convexHull K _)
  rintro p ⟨v, hp⟩
  exact h v p hp

/-- C20 for one run of Linear, Loop or SquareThree -/
theorem cellUpdate_hull {sch : Scheme} (hs : sch ≠ .butterfly) (hc : sch = .loop → ∀ n, -1 ≤ cosn n ∧ cosn n ≤ 1)
    (hn : sch.Needs inp) (hsb : sch = .loop → inp.SimpleBoundary) {f f' : Filt} (hsel : inp.SelOK f.cells)
    (hmax : sch = .sqrt3 → inp.points.length + (inp.selected f.cells).length ≤ idMax)
    (h : cellUpdate sch lib cosn f inp = (.ok out, f')) : ∀ v p, out.pos v = some p → p ∈ inp.hull K := by
  cases sch with
  | linear => exact C20_hull_linear hn.valid hsel h
  | sqrt3 => exact C20_hull_sqrt3 hn.valid hsel (hmax rfl) h
  | butterfly => exact absurd rfl hs
  | loop => exact C20_hull_loop_partial (hc rfl) hn (hsb rfl) hsel h

/-- C20 for any number of levels and any selection.  (Loop: the boundary does not touch itself.) -/
theorem C20_hull_iterative_partial {sch : Scheme} (hs : sch ≠ .butterfly) (hc : sch = .loop → ∀ n, -1 ≤ cosn n ∧ cosn n ≤ 1)
    (hl : sch = .loop → lib.Lawful) (hn : sch.Needs inp) (hsb : sch = .loop → inp.SimpleBoundary) {f : Iter}
    (hsel : inp.SelOK f.cells) (hid : sch.IdsLeft (max 1 f.levels) inp f.cells)
    (h : (iterUpdate sch lib cosn f inp).1 = .ok out) : ∀ v p, out.pos v = some p → p ∈ inp.hull K := by
  have key := (iter_induct (lib := lib) (cosn := cosn) (fun hb => hb.elim hl fun hb => absurd hb hs)
    (fun m _ => m.hull K ⊆ inp.hull K ∧ (sch = .loop → m.SimpleBoundary)) ?_ hn hsel hid ⟨subset_rfl, hsb⟩ h).elim fun _ h => h
  · exact fun v p hp => key.1 (subset_convexHull K _ ⟨v, hp⟩)
  · rintro m out sel f' hm hsel _ hmax h ⟨h1, h2⟩
    exact ⟨(hull_mono (cellUpdate_hull hs hc hm h2 (f := Filt.new.setCells sel) hsel hmax h)).trans h1, fun hb => by
      subst hb; exact simple_split (by decide) hm (f := Filt.new.setCells sel) hsel h (h2 rfl)⟩

example (out : Mesh Q3 Nat) (h : (iterUpdate .loop someLib cos0 ⟨[1, 3], 7, []⟩ patchMesh).1 = .ok out)
    (v : PId) (p : Q3) (hp : out.pos v = some p) : p ∈ patchMesh.hull ℚ :=
  C20_hull_iterative_partial (by decide) (fun _ _ => by norm_num [cos0]) (fun _ => someLib_lawful) (patchMesh_needs _)
    (fun _ => patchMesh_simple) (f := ⟨[1, 3], 7, []⟩) patchMesh_sel (by intro h; cases h) h v p hp

end hull

section surface
variable {E D : Type} [NormedAddCommGroup E] [InnerProductSpace ℝ E] {inp out : Mesh E D} {lib : QELib} {cosn : Nat → ℝ}

/-- C21 for any number of levels and any selection: the surface and its area are those of the input. -/
theorem C21_linear_same_surface_iterative (hv : inp.Valid) {f : Iter} (hsel : inp.SelOK f.cells)
    (h : (iterUpdate .linear lib cosn f inp).1 = .ok out) :
    out.surface = inp.surface ∧ out.totalArea = inp.totalArea := by
  refine (iter_induct (sch := .linear) (lib := lib) (cosn := cosn) (by simp)
    (fun m _ => m.surface = inp.surface ∧ m.totalArea = inp.totalArea) ?_ ⟨hv, by simp, by simp⟩ hsel
      (fun hc => nomatch hc) ⟨rfl, rfl⟩ h).elim fun _ h => h
  rintro m out sel f' hm hsel _ _ h ⟨h1, h2⟩
  obtain ⟨a, b, -⟩ := C21_linear_same_surface hm.valid (f := Filt.new.setCells sel) hsel h
  exact ⟨a.trans h1, b.trans h2⟩

example (n : Nat) : ∃ out, (iterUpdate .linear someLib realCos ⟨[1, 3], n, []⟩ patchP).1 = .ok out ∧
    out.surface = patchP.surface ∧ 8 ≤ out.totalArea := by
  have hsel : patchP.SelOK [1, 3] := by unfold Mesh.SelOK; decide
  have hn : Scheme.linear.Needs patchP := ⟨patchP_ok.1, by simp, by simp⟩
  obtain ⟨out, -, h, -⟩ := C24_iterative_selective (sch := .linear) (lib := someLib) realCos (by simp) hn (f := ⟨[1, 3], n, []⟩)
    (by simp) hsel (fun hc => nomatch hc)
  obtain ⟨h1, h2⟩ := C21_linear_same_surface_iterative patchP_ok.1 (f := ⟨[1, 3], n, []⟩) hsel h
  exact ⟨out, h, h1, by rw [h2]; exact patchP_area⟩

end surface
end Verif
