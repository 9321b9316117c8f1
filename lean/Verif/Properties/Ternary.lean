import Verif.Proofs.Ternary
import Verif.Properties.Iterative
import Verif.Properties.Samples
/-
C92: two uniform SquareThree levels are one ternary split.
-/
namespace Verif
variable {K P D : Type} [Field K] [CharZero K] [AddCommGroup P] [Module K P]
variable {lib : QELib} {cosn : Nat → K} {inp out : Mesh P D}

/-- C92. The iterative SquareThree filter without a list, with `2 k` levels, makes `k` ternary splits: in each of them
every triangle becomes nine, and every edge between two triangles a path of three edges between the same ends. -/
theorem C92_even_levels (lib : QELib) (cosn : Nat → K) {f : Iter} {k : Nat} (hf : f.cells = []) (hk : f.levels = 2 * k)
    (h0 : 0 < k) (hv : inp.Valid) (hid : Scheme.sqrt3.IdsLeft f.levels inp []) :
    ∃ out, (iterUpdate .sqrt3 lib cosn f inp).1 = .ok out ∧ TernaryLevels K k inp out := by
  rw [hk] at hid
  obtain ⟨m, h1, h2⟩ := ternary_levels (K := K) (lib := lib) (cosn := cosn) k
    (m := inp) ⟨hv, fun h => (by rcases h with h | h <;> cases h), fun h => (by cases h)⟩ hid
  refine ⟨m, ?_, h2⟩
  rw [iterUpdate_eq, ← levelsOf_eq, hk, show max 1 (2 * k) = 2 * k by omega, hf, h1]
  rfl

example : ∃ out, (iterUpdate .sqrt3 someLib cos0 ⟨[], 4, [Filt.new]⟩ patchMesh).1 = .ok out ∧
    TernaryLevels ℚ 2 patchMesh out :=
  C92_even_levels (K := ℚ) someLib cos0 rfl rfl (by decide) patchMesh_ok.1 (by intro _; decide)

/-- C92, for two runs of cell filters one after the other. -/
theorem C92_two_runs {f f' g g' : Filt} {m : Mesh P D} (hv : inp.Valid) (hf : f.cells = []) (hg : g.cells = [])
    (hmax : inp.points.length + inp.tris.length ≤ idMax) (hmax' : m.points.length + m.tris.length ≤ idMax)
    (h : cellUpdate .sqrt3 lib cosn f inp = (.ok m, f')) (h' : cellUpdate .sqrt3 lib cosn g m = (.ok out, g')) :
    ∃ mid near, TernarySplit K inp out mid near :=
  ⟨_, _, ternary_of_two hv hf hg hmax hmax' h h'⟩

omit [CharZero K] in
/-- C92, the paths: between the ends of an edge with two triangles there is the path over its two new points, in place of
the edge; an edge at the rim stays an edge at the rim, and there are no others between old points. -/
theorem C92_paths {mid near : Edge → PId} (R : TernarySplit K inp out mid near) {a b : PId} :
    ((a, b) ∈ dartsOf inp.tris → (b, a) ∈ dartsOf inp.tris →
      ∀ e ∈ [(a, near (a, b)), (near (a, b), near (b, a)), (near (b, a), b)],
        e ∈ dartsOf out.tris ∧ Edge.sym e ∈ dartsOf out.tris) ∧
    (a < inp.points.length → b < inp.points.length → ((a, b) ∈ dartsOf out.tris ↔ RimEdge inp.tris (a, b))) := by
  have hd : ∀ {x y z}, HasTri inp.tris x y z → ∀ t ∈ thirdAt mid near inp.tris x y z, ∀ e ∈ t.darts, e ∈ dartsOf out.tris := by
    intro x y z hT t ht e he
    obtain ⟨p, q⟩ := e
    obtain ⟨r, hr⟩ := Tri.mem_darts.1 he
    exact dartsOf_iff_hasTri.2 ⟨r, (R.tris p q r).2 (hasTri_ninths.2 ⟨x, y, z, hT, t, ht, hr⟩)⟩
  have t3 : ∀ {x y z}, HasTri inp.tris x y z → ((y, x) ∈ dartsOf inp.tris →
      (near (x, y), near (y, x)) ∈ dartsOf out.tris) ∧ (x, near (x, y)) ∈ dartsOf out.tris ∧
      (near (x, z), x) ∈ dartsOf out.tris := by
    intro x y z hT
    refine ⟨fun h => hd hT _ (by simp [thirdAt]; exact Or.inr (Or.inr rfl)) _ (by rw [if_pos h]; simp [Tri.darts]), ?_, ?_⟩
    · exact hd hT (x, near (x, y), near (x, z)) (by simp [thirdAt]) _ (by simp [Tri.darts])
    · exact hd hT (x, near (x, y), near (x, z)) (by simp [thirdAt]) _ (by simp [Tri.darts])
  constructor
  · intro h h'
    obtain ⟨c, hc⟩ := dartsOf_iff_hasTri.1 h
    obtain ⟨d, hd'⟩ := dartsOf_iff_hasTri.1 h'
    obtain ⟨u1, u2, -⟩ := t3 hc
    obtain ⟨-, -, u3⟩ := t3 hc.rot
    obtain ⟨w1, w2, -⟩ := t3 hd'
    obtain ⟨-, -, w3⟩ := t3 hd'.rot
    simp only [List.mem_cons, List.not_mem_nil, or_false, forall_eq_or_imp, forall_eq]
    exact ⟨⟨u2, w3⟩, ⟨u1 h', w1 h⟩, ⟨u3, w2⟩⟩
  · intro la lb
    constructor
    · intro hab
      obtain ⟨r, hr⟩ := dartsOf_iff_hasTri.1 hab
      obtain ⟨x, y, z, hT, t, ht, hi⟩ := hasTri_ninths.1 ((R.tris a b r).1 hr)
      have hxy : (x, y) ∈ dartsOf inp.tris := dartsOf_iff_hasTri.2 ⟨z, hT⟩
      have hzx : (z, x) ∈ dartsOf inp.tris := dartsOf_iff_hasTri.2 ⟨y, hT.rot.rot⟩
      have n1 : inp.points.length ≤ near (x, y) := Nat.le_trans (Nat.le_add_right _ _) (R.nearNew _ hxy).1
      have n2 : inp.points.length ≤ near (x, z) := Nat.le_trans (Nat.le_add_right _ _) (R.nearNew _ hzx).2.2.1
      have n3 : inp.points.length ≤ near (y, x) := Nat.le_trans (Nat.le_add_right _ _) (R.nearNew _ hxy).2.2.1
      have no : ∀ {p q s : PId}, Tri.Is (p, q, s) a b r → inp.points.length ≤ q → inp.points.length ≤ s → False := by
        rintro p q s (hc | hc | hc) h1 h2 <;> cases hc
        · exact Nat.not_lt.2 h1 lb
        · exact Nat.not_lt.2 h2 la
        · exact Nat.not_lt.2 h1 la
      unfold thirdAt at ht
      simp only [List.mem_cons, List.not_mem_nil, or_false] at ht
      rcases ht with rfl | rfl | rfl
      · exact (no hi n1 n2).elim
      · exact (no hi n2 n1).elim
      · by_cases hs : (y, x) ∈ dartsOf inp.tris
        · rw [if_pos hs] at hi
          exact (no hi n1 n3).elim
        · rw [if_neg hs] at hi
          rcases hi with hc | hc | hc
          · cases hc
            exact ⟨hxy, hs⟩
          · have e1 : near (x, y) = a := congrArg (fun t : Tri => t.2.2) hc
            exact (Nat.not_lt.2 (e1 ▸ n1) la).elim
          · have e1 : near (x, y) = b := congrArg (fun t : Tri => t.2.2) hc
            exact (Nat.not_lt.2 (e1 ▸ n1) lb).elim
    · rintro ⟨h, h'⟩
      obtain ⟨c, hc⟩ := dartsOf_iff_hasTri.1 h
      have hm : (a, b, near (a, b)) ∈ thirdAt mid near inp.tris a b c := by
        have : (b, a) ∉ dartsOf inp.tris := h'
        simp [thirdAt, this]
      exact hd hc _ hm _ (by simp [Tri.darts])

example : ∃ m f' out g', cellUpdate .sqrt3 someLib cos0 Filt.new patchMesh = (.ok m, f') ∧
    cellUpdate .sqrt3 someLib cos0 Filt.new m = (.ok out, g') ∧ ∃ mid near, TernarySplit ℚ patchMesh out mid near ∧
    (near (0, 1), near (1, 0)) ∈ dartsOf out.tris ∧ (0, 1) ∉ dartsOf out.tris ∧ (0, 3) ∈ dartsOf out.tris := by
  obtain ⟨m, f', h1, -, c1, c2, -⟩ := C11_sqrt3_completes (K := ℚ) (f := Filt.new) someLib cos0 patchMesh_ok.1
    (selOK_nil _) (by decide)
  have hm := (C13_sqrt3_valid patchMesh_ok.1 (selOK_nil _) (by decide) h1).1
  have h2 : m.points.length + m.tris.length ≤ idMax := by
    rw [← c1, (c2 rfl).1, (c2 rfl).2]
    decide
  obtain ⟨out, g', h3, -⟩ := C11_sqrt3_completes (K := ℚ) (f := Filt.new) someLib cos0 hm (selOK_nil _) h2
  obtain ⟨mid, near, R⟩ := C92_two_runs patchMesh_ok.1 rfl rfl (by decide) h2 h1 h3
  refine ⟨m, f', out, g', h1, h3, mid, near, R, ?_, ?_, ?_⟩
  · exact ((C92_paths R (a := 0) (b := 1)).1 (by decide) (by decide) _ (by simp)).1
  · rw [(C92_paths R (a := 0) (b := 1)).2 (by decide) (by decide)]
    unfold RimEdge
    decide
  · rw [(C92_paths R (a := 0) (b := 3)).2 (by decide) (by decide)]
    unfold RimEdge
    decide

/-- C92, places: where the two triangles at an edge make a parallelogram, its new points cut it into three equal parts. -/
theorem C92_parallelogram {mid near : Edge → PId} (R : TernarySplit K inp out mid near) {a b c d : PId} {pa pb pc pd : P}
    (h : HasTri inp.tris a b c) (h' : HasTri inp.tris b a d) (ha : inp.pos a = some pa) (hb : inp.pos b = some pb)
    (hc : inp.pos c = some pc) (hd : inp.pos d = some pd) :
    out.pos (near (a, b)) = some ((2 / 3 : K) • pa + (1 / 3 : K) • pb) ↔ pa + pb = pc + pd := by
  rw [R.nearPos a b c d pa pb pc pd h h' ha hb hc hd, Option.some_inj]
  constructor
  · intro h
    have h2 := congrArg (fun x => (9 : K) • x) h
    have e1 : (9 : K) • ((1 / 9 : K) • ((5 : K) • pa + (2 : K) • pb + pc + pd)) =
        (pc + pd) + ((5 : K) • pa + (2 : K) • pb) := by module
    have e2 : (9 : K) • ((2 / 3 : K) • pa + (1 / 3 : K) • pb) = (pa + pb) + ((5 : K) • pa + (2 : K) • pb) := by module
    rw [e1, e2] at h2
    exact (add_right_cancel h2).symm
  · intro h
    have : pd = pa + pb - pc := by rw [h]; abel
    rw [this]
    module

/-- two triangles that make a square -/
def halvedSquare : Mesh Q3 Nat := mk [(0, 0, 0), (3, 0, 0), (0, 3, 0), (3, 3, 0)] [(0, 1, 2), (3, 2, 1)] none

theorem halvedSquare_ok : halvedSquare.Valid ∧ halvedSquare.RingOK ∧ halvedSquare.NoIsolated ∧
    halvedSquare.tris = [(0, 1, 2), (3, 2, 1)] :=
  mk_ok _ (by decide)

example {mid near : Edge → PId} {out : Mesh Q3 Nat} (R : TernarySplit ℚ halvedSquare out mid near) :
    out.pos (near (1, 2)) = some ((2 / 3 : ℚ) • (3, 0, 0) + (1 / 3 : ℚ) • (0, 3, 0)) :=
  (C92_parallelogram R (c := 0) (d := 3) (by rw [halvedSquare_ok.2.2.2]; unfold HasTri; decide) (by rw [halvedSquare_ok.2.2.2]; unfold HasTri; decide)
    (pc := (0, 0, 0)) (pd := (3, 3, 0)) (by decide +kernel) (by decide +kernel) (by decide +kernel) (by decide +kernel)).2
    (by norm_num)

example {mid near : Edge → PId} {out : Mesh Q3 Nat} (R : TernarySplit ℚ patchMesh out mid near) :
    out.pos (near (1, 2)) ≠ some ((2 / 3 : ℚ) • (4, 0, 0) + (1 / 3 : ℚ) • (0, 4, 0)) := fun h =>
  absurd ((C92_parallelogram R (c := 0) (d := 4) (by rw [patchMesh_ok.2.2.2]; unfold HasTri; decide) (by rw [patchMesh_ok.2.2.2]; unfold HasTri; decide)
    (pc := (0, 0, 0)) (pd := (4, 4, 1)) (by decide +kernel) (by decide +kernel) (by decide +kernel) (by decide +kernel)).1 h)
    (by norm_num)

end Verif
