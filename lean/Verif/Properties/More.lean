import Verif.Proofs.More
import Verif.Properties.TwoSteps
import Verif.Properties.Iterative
import Verif.Proofs.Sliver
/-
C105: selecting more cells, or asking for more levels, never gives a smaller mesh, and with Linear no point is lost.
-/
namespace Verif
set_option linter.unusedSectionVars false
variable {K P D : Type} [Field K] [AddCommGroup P] [Module K P] {lib : QELib} {cosn : Nat → K} {sch : Scheme} {inp out out' : Mesh P D}

theorem notSmaller_of {m m' : Mesh P D} (hv : m.Valid) (hv' : m'.Valid) (he : m.euler = m'.euler)
    (h1 : m.points.length ≤ m'.points.length) (h2 : m.tris.length ≤ m'.tris.length) : m.NotSmaller m' := by
  rw [hv.tris_length, hv'.tris_length] at h2
  unfold Mesh.euler at he
  exact ⟨h1, by omega, h2⟩

/-- C105, one run of a face split, whatever the histories of the two objects. -/
theorem C105_more_cells {f f' g g' : Filt} (hs : sch ≠ .sqrt3) (hn : sch.Needs inp) (hf : inp.SelOK f.cells) (hg : inp.SelOK g.cells)
    (hmore : inp.SelectsMore f.cells g.cells) (h : cellUpdate sch lib cosn f inp = (.ok out, f'))
    (h' : cellUpdate sch lib cosn g inp = (.ok out', g')) :
    out.NotSmaller out' ∧ (sch = .linear → out.PointsAmong out') := by
  obtain ⟨ρ', I, o, n, l⟩ := Inside.step hs hn hn hf hg h h' (Inside.start hmore)
  have hv := (C04_output_valid hs hn hf h).1
  refine ⟨notSmaller_of hv (C04_output_valid hs hn hg h').1
    ((C17_euler_preserved hs hn hf h).trans (C17_euler_preserved hs hn hg h').symm) I.length I.cells, ?_⟩
  rintro rfl
  exact ⟨ρ', fun v w p q hp hq => I.inj v w (hv.pos_lt hp) (hv.pos_lt hq),
    Inside.places hn.valid hn.valid hf hg h h' (fun _ _ h => h) o n l⟩

/-- C105, the iterative filter: more cells and at least as many levels. -/
theorem C105_more_levels {f g : Iter} (hs : sch ≠ .sqrt3) (hl : sch = .loop ∨ sch = .butterfly → lib.Lawful) (hn : sch.Needs inp)
    (hf : inp.SelOK f.cells) (hg : inp.SelOK g.cells) (hmore : inp.SelectsMore f.cells g.cells)
    (hL : max 1 f.levels ≤ max 1 g.levels) (h : (iterUpdate sch lib cosn f inp).1 = .ok out)
    (h' : (iterUpdate sch lib cosn g inp).1 = .ok out') :
    out.NotSmaller out' ∧ (sch = .linear → out.PointsAmong out') := by
  have heu : out.euler = out'.euler :=
    (C17_euler_preserved_iterative hl hn hf (fun hc => absurd hc hs) (fun hc => absurd hc hs) h).trans
      (C17_euler_preserved_iterative hl hn hg (fun hc => absurd hc hs) (fun hc => absurd hc hs) h').symm
  obtain ⟨A, sA, B, sB, ρ, e1, e2, hA, hB, hsB, I, hp⟩ := inside_levels (cosn := cosn) hs hl (max 1 f.levels) hn hn hf hg
    (Inside.start hmore) (fun _ _ _ h => h)
  rw [iterUpdate_eq, ← levelsOf_eq] at h h'
  rw [e1] at h
  cases h
  obtain ⟨k, hk⟩ := Nat.exists_eq_add_of_le hL
  rw [hk, manyLevels_more _ k e2] at h'
  obtain ⟨B', sB', e3, hB', h1, h2, h3⟩ := manyLevels_induct (lib := lib) (cosn := cosn) hl
    (fun m _ => B.points.length ≤ m.points.length ∧ B.tris.length ≤ m.tris.length ∧
      (sch = .linear → ∀ v p, B.pos v = some p → m.pos v = some p)) (by
      rintro m out sel f' hm hsel - - h ⟨i1, i2, i3⟩
      obtain ⟨R, -⟩ := cellUpdate_result hs hm (f := Filt.new.setCells sel) hsel h
      refine ⟨i1.trans (by rw [R.points_length]; exact R.longer), i2.trans (by rw [R.tris, length_children]; exact Nat.le_add_right _ _),
        fun hc v p hv => ?_⟩
      exact C06_original_points_kept (by rw [hc]; decide) hm.valid.points_dense h v p (i3 hc v p hv)) k hB hsB
      (fun hc => absurd hc hs) ⟨le_rfl, le_rfl, fun _ _ _ h => h⟩
  rw [e3] at h'
  cases h'
  refine ⟨notSmaller_of hA.valid hB'.valid heu ((Inside.length (f := Filt.new.setCells sA) (g := Filt.new.setCells sB) I).trans h1)
    (I.cells.trans h2), fun hc => ⟨ρ, fun v w p q hp hq => I.inj v w (hA.valid.pos_lt hp) (hA.valid.pos_lt hq), fun v p hv => ?_⟩⟩
  exact h3 hc _ _ (hp hc v p hv)

/-- C105, SquareThree: the size of a refinement with distinct cells selected is known before: `s` cells become `3 ^ L * s` in `L`
levels, the others stay, and there are `s + 3 s + … + 3 ^ (L - 1) s` new points. -/
theorem C105_sqrt3_size {f : Iter} (hv : inp.Valid) (hf : inp.SelOK f.cells) (hnd : f.cells.Nodup)
    (hid : Scheme.sqrt3.IdsLeft (max 1 f.levels) inp f.cells) (h : (iterUpdate .sqrt3 lib cosn f inp).1 = .ok out) :
    out.cells.length + (inp.selected f.cells).length = inp.cells.length + 3 ^ max 1 f.levels * (inp.selected f.cells).length ∧
    2 * out.points.length + (inp.selected f.cells).length =
      2 * inp.points.length + 3 ^ max 1 f.levels * (inp.selected f.cells).length := by
  have hn : Scheme.sqrt3.Needs inp := ⟨hv, by simp, by simp⟩
  obtain ⟨m', sel', h1, hm', h2, h3, h4, -⟩ := manyLevels_count (lib := lib) (cosn := cosn) (sch := .sqrt3) (by simp)
    (fun L m sel => (m.selected sel).length = 3 ^ L * (inp.selected f.cells).length ∧
      m.tris.length + (inp.selected f.cells).length = inp.tris.length + 3 ^ L * (inp.selected f.cells).length ∧
      2 * m.points.length + (inp.selected f.cells).length =
        2 * inp.points.length + 3 ^ L * (inp.selected f.cells).length ∧ sel.Nodup) (by
      rintro L m out sel f' hm hsel - hmax h ⟨i1, i2, i3, i4⟩
      obtain ⟨k1, k2, k3, k4⟩ := sqrt3_next_exact hm.valid (f := Filt.new.setCells sel) hsel i4 (hmax rfl) h
      have e : (Filt.new.setCells sel).cells = sel := rfl
      rw [e, i1] at k1 k2 k3
      rw [k1, k2, k3, pow_succ]
      have e3 : 3 ^ L * 3 * (inp.selected f.cells).length = 3 * (3 ^ L * (inp.selected f.cells).length) := by ring
      rw [e3]
      exact ⟨rfl, by omega, by omega, k4⟩)
    (max 1 f.levels) 0 hn hf hid ⟨by simp, by simp, by simp, hnd⟩
  rw [iterUpdate_eq, ← levelsOf_eq, h1] at h
  cases h
  rw [Nat.zero_add] at h3 h4
  rw [hm'.valid.tris_length, hv.tris_length] at h3
  exact ⟨h3, h4⟩

/-- C105, the size for SquareThree. -/
theorem C105_more_sqrt3 {f g : Iter} (hv : inp.Valid) (hf : inp.SelOK f.cells) (hg : inp.SelOK g.cells) (hfn : f.cells.Nodup)
    (hgn : g.cells.Nodup) (hmore : inp.SelectsMore f.cells g.cells) (hL : max 1 f.levels ≤ max 1 g.levels)
    (hidf : Scheme.sqrt3.IdsLeft (max 1 f.levels) inp f.cells) (hidg : Scheme.sqrt3.IdsLeft (max 1 g.levels) inp g.cells)
    (h : (iterUpdate .sqrt3 lib cosn f inp).1 = .ok out) (h' : (iterUpdate .sqrt3 lib cosn g inp).1 = .ok out') :
    out.NotSmaller out' := by
  have hn : Scheme.sqrt3.Needs inp := ⟨hv, by simp, by simp⟩
  have heu : out.euler = out'.euler :=
    (C17_euler_preserved_iterative (by simp) hn hf (fun _ => hfn) hidf h).trans
      (C17_euler_preserved_iterative (by simp) hn hg (fun _ => hgn) hidg h').symm
  obtain ⟨a1, a2⟩ := C105_sqrt3_size hv hf hfn hidf h
  obtain ⟨b1, b2⟩ := C105_sqrt3_size hv hg hgn hidg h'
  have hs : (inp.selected f.cells).length ≤ (inp.selected g.cells).length := by
    rw [← centres_count hv hf hfn, ← centres_count hv hg hgn]
    refine (((tris_nodup hv.good.oriented).filter _).subperm ?_).length_le
    intro t ht
    obtain ⟨h1, h2⟩ := List.mem_filter.1 ht
    have hd : (t.1, t.2.1) ∈ t.darts := by simp [Tri.darts]
    exact List.mem_filter.2 ⟨h1, (centreOf_isSome hv h1 hd).2 (hmore t ((centreOf_isSome hv h1 hd).1 h2))⟩
  obtain ⟨x, hx⟩ := Nat.exists_eq_add_of_le hs
  obtain ⟨y, hy⟩ : ∃ y, 3 ^ max 1 g.levels = 3 ^ max 1 f.levels + y :=
    Nat.exists_eq_add_of_le (Nat.pow_le_pow_right (by norm_num) hL)
  have h1 : 1 ≤ 3 ^ max 1 f.levels := Nat.one_le_pow _ _ (by norm_num)
  have key : 3 ^ max 1 f.levels * (inp.selected f.cells).length + x ≤ 3 ^ max 1 g.levels * (inp.selected g.cells).length := by
    rw [hx, hy]
    nlinarith [Nat.zero_le (y * ((inp.selected f.cells).length + x)), Nat.mul_le_mul_right x h1]
  unfold Mesh.euler at heu
  exact ⟨by omega, by omega, by omega⟩

section examples

/-- two of the four cells, three levels of SquareThree: 2 + 2 · 27 cells and 6 + 2 + 6 + 18 points -/
example (out : Mesh Q3 Nat) (h : (iterUpdate .sqrt3 someLib cos0 ⟨[0, 3], 3, []⟩ stripMesh).1 = .ok out) :
    out.cells.length = 56 ∧ out.points.length = 32 := by
  have := C105_sqrt3_size (f := ⟨[0, 3], 3, []⟩) stripMesh_ok.1 (by unfold Mesh.SelOK; decide) (by decide)
    (fun _ => by decide) h
  have e1 : (stripMesh.selected [0, 3]).length = 2 := by decide
  have e2 : stripMesh.cells.length = 4 := by decide
  have e3 : stripMesh.points.length = 6 := by decide
  simp only [e1, e2, e3] at this
  norm_num at this
  omega


/-- one cell at two levels against two cells at three levels -/
example (lib : QELib) (out out' : Mesh Q3 Nat) (h : (iterUpdate .linear lib cos0 ⟨[0], 2, []⟩ stripMesh).1 = .ok out)
    (h' : (iterUpdate .linear lib cos0 ⟨[0, 3], 3, []⟩ stripMesh).1 = .ok out') : out.PointsAmong out' := by
  have hv := stripMesh_ok.1
  refine (C105_more_levels (sch := .linear) (f := ⟨[0], 2, []⟩) (g := ⟨[0, 3], 3, []⟩) (by decide) (by simp) ⟨hv, by simp, by simp⟩
    (by unfold Mesh.SelOK; decide) (by unfold Mesh.SelOK; decide) (by unfold Mesh.SelectsMore; decide) (by decide) h h').2 rfl

/-- a part against the whole mesh, with Loop -/
example (out out' : Mesh Q3 Nat) (h : (iterUpdate .loop someLib cos0 ⟨[1, 2], 4, []⟩ stripMesh).1 = .ok out)
    (h' : (iterUpdate .loop someLib cos0 ⟨[], 4, []⟩ stripMesh).1 = .ok out') : out.NotSmaller out' := by
  have hv := stripMesh_ok
  refine (C105_more_levels (sch := .loop) (f := ⟨[1, 2], 4, []⟩) (g := ⟨[], 4, []⟩) (by decide) (fun _ => someLib_lawful)
    ⟨hv.1, fun _ => hv.2.1, fun _ => hv.2.2.1⟩
    (by unfold Mesh.SelOK; decide) (by unfold Mesh.SelOK; decide) (by unfold Mesh.SelectsMore; decide) (by decide) h h').1

end examples
end Verif
