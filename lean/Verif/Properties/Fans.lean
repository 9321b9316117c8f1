import Verif.Proofs.Fans
import Verif.Properties.Iterative
import Verif.Properties.Points
/-
C68: what selective refinement does to the triangles beside the refined part.
-/
namespace Verif
set_option linter.unusedSectionVars false
section all
variable {K P D : Type} [Field K] [Zero P] [Add P] [SMul K P] {lib : QELib} {cosn : Nat → K} {inp out : Mesh P D} {sch : Scheme}

/-- A point outside the refined part has, after `n` levels, `2 ^ n` triangles in the place of each triangle whose opposite side
belongs to the refined part; its other triangles are kept. -/
theorem C68_fan (hs : sch ≠ .sqrt3) (hl : sch = .loop ∨ sch = .butterfly → lib.Lawful) (hn : sch.Needs inp) {f : Iter}
    (hne : f.cells ≠ []) (hsel : inp.SelOK f.cells) (h : (iterUpdate sch lib cosn f inp).1 = .ok out) {v : PId}
    (ho : inp.Outside f.cells v) :
    out.valence v = inp.valence v + (2 ^ max 1 f.levels - 1) * inp.beside f.cells v := by
  obtain ⟨m, sel, h1, -, h2⟩ := C24_iterative_selective cosn hl hn hne hsel (fun hq => absurd hq hs)
  rw [h] at h1
  cases h1
  exact (h2.fan hs hn.valid ho).1

/-- so there is no bound for the number of triangles at a point -/
theorem C68_unbounded (hs : sch ≠ .sqrt3) (hl : sch = .loop ∨ sch = .butterfly → lib.Lawful) (hn : sch.Needs inp) {sel : List CId}
    (hne : sel ≠ []) (hsel : inp.SelOK sel) {v : PId} (ho : inp.Outside sel v) (hb : 0 < inp.beside sel v) (N : Nat) :
    ∃ L, ∀ f : Iter, f.cells = sel → f.levels = L → ∃ out, (iterUpdate sch lib cosn f inp).1 = .ok out ∧ N ≤ out.valence v := by
  refine ⟨N + 1, fun f hf hL => ?_⟩
  subst hf
  obtain ⟨out, sel', h1, -, -⟩ := C24_iterative_selective cosn hl hn hne hsel (fun hq => absurd hq hs)
  refine ⟨out, h1, ?_⟩
  rw [C68_fan hs hl hn hne hsel h1 ho, hL]
  have : N + 1 < 2 ^ (max 1 (N + 1)) := by
    rw [Nat.max_eq_right (by omega)]; exact Nat.lt_two_pow_self
  have h2 : N ≤ (2 ^ (max 1 (N + 1)) - 1) * inp.beside f.cells v := le_trans (by omega) (Nat.le_mul_of_pos_right _ hb)
  omega

theorem manyLevels_valence (hs : sch ≠ .sqrt3) (hl : sch = .loop ∨ sch = .butterfly → lib.Lawful) (L : Nat) {m m' : Mesh P D}
    {sel sel' : List CId} {d : Nat} (hn : sch.Needs m) (hsel : m.SelOK sel) (hd : 3 ≤ d)
    (hm : ∀ v, m.valence v ≤ d) (h : manyLevels sch lib cosn L (m, sel) = .ok (m', sel')) (v : PId) : m'.valence v ≤ 2 ^ L * d := by
  induction L generalizing m sel d with
  | zero =>
    cases h
    simpa using hm v
  | succ L ih =>
    obtain ⟨m1, s1, h1, hn1, hs1, -, -, -⟩ := oneLevel_ok (L := 0) cosn hl hn hsel (fun hq => absurd hq hs)
    have h2 : manyLevels sch lib cosn L (m1, s1) = .ok (m', sel') := by
      unfold manyLevels at h
      rw [h1] at h
      exact h
    have h1c : ∃ f1, cellUpdate sch lib cosn (Filt.new.setCells sel) m = (.ok m1, f1) := by
      unfold oneLevel at h1
      rcases hc : cellUpdate sch lib cosn (Filt.new.setCells sel) m with ⟨_ | _, f1⟩
      · simp [hc] at h1
      · simp only [hc] at h1; cases h1; exact ⟨f1, rfl⟩
    obtain ⟨f1, hc⟩ := h1c
    have R := (cellUpdate_result (f := Filt.new.setCells sel) hs hn hsel hc).1
    refine (ih (d := 2 * d) hn1 hs1 (by omega) (fun w => ?_) h2).trans (le_of_eq (by rw [Nat.pow_succ]; ring))
    by_cases hw : w < m.points.length
    · exact (R.valence_old_le hn.valid hw).trans (Nat.mul_le_mul_left 2 (hm w))
    · exact (R.valence_new_le hn.valid (Nat.le_of_not_lt hw)).trans (by omega)

/-- no point can have more: the number at most doubles with each level -/
theorem C68_at_most_doubles (hs : sch ≠ .sqrt3) (hl : sch = .loop ∨ sch = .butterfly → lib.Lawful) (hn : sch.Needs inp) {f : Iter}
    (hsel : inp.SelOK f.cells) (h : (iterUpdate sch lib cosn f inp).1 = .ok out) {d : Nat} (hd : 3 ≤ d)
    (hm : ∀ v, inp.valence v ≤ d) (v : PId) : out.valence v ≤ 2 ^ max 1 f.levels * d := by
  obtain ⟨m, sel, h1, -, -, -, -⟩ := manyLevels_ok (sch := sch) (lib := lib) cosn hl (max 1 f.levels) hn hsel (fun hq => absurd hq hs)
  rw [iterUpdate_eq, ← levelsOf_eq, h1] at h
  cases h
  exact manyLevels_valence hs hl _ hn hsel hd hm h1 v

end all

section linear
variable {K P D : Type} [Field K] [CharZero K] [AddCommGroup P] [Module K P] {lib : QELib} {cosn : Nat → K} {inp out : Mesh P D}

theorem manyLevels_sliver (L : Nat) {m m' : Mesh P D} {sel sel' : List CId} (hv : m.Valid) (hne : sel ≠ []) (hsel : m.SelOK sel)
    {v b c : PId} {pv pb pc : P} (ho : m.Outside sel v) (ht : HasTri m.tris v b c) (he : m.SelEdge sel (b, c))
    (hpv : m.pos v = some pv) (hpb : m.pos b = some pb) (hpc : m.pos c = some pc)
    (h : manyLevels .linear lib cosn L (m, sel) = .ok (m', sel')) :
    ∃ q, HasTri m'.tris v b q ∧ m'.pos v = some pv ∧ m'.pos b = some pb ∧ m'.pos q = some (pb + (1 / 2 ^ L : K) • (pc - pb)) := by
  induction L generalizing m sel c pc with
  | zero =>
    cases h
    exact ⟨c, ht, hpv, hpb, by rw [hpc]; simp⟩
  | succ L ih =>
    have hn : Scheme.linear.Needs m := ⟨hv, by simp, by simp⟩
    obtain ⟨m1, s1, h1, hn1, hs1, -, -, hstep⟩ := oneLevel_ok (L := 0) (lib := lib) (sch := .linear) cosn (by simp) hn hsel
      (fun hq => by cases hq)
    have st : FaceSplitStep m sel m1 s1 := hstep hne
    have h2 : manyLevels .linear lib cosn L (m1, s1) = .ok (m', sel') := by
      unfold manyLevels at h
      rw [h1] at h
      exact h
    have h1c : ∃ f1, cellUpdate .linear lib cosn (Filt.new.setCells sel) m = (.ok m1, f1) := by
      unfold oneLevel at h1
      rcases hc : cellUpdate .linear lib cosn (Filt.new.setCells sel) m with ⟨_ | _, f1⟩
      · simp [hc] at h1
      · simp only [hc] at h1; cases h1; exact ⟨f1, rfl⟩
    obtain ⟨f1, hc⟩ := h1c
    obtain ⟨x, hx⟩ := Option.isSome_iff_exists.1 (Mesh.SelEdge.iff.1 he)
    have hside := ho.side
    have kept := C06_original_points_kept (f := Filt.new.setCells sel) (by decide) hv.points_dense hc
    have hpx : m1.pos x = some ((1 / 2 : K) • pb + (1 / 2 : K) • pc) :=
      C07_linear_midpoints (f := Filt.new.setCells sel) hv hsel hc hx hpb hpc
    have htx : HasTri m1.tris v b x := by
      have n0 := hside (v, b) (.inl rfl)
      have n2 := hside (c, v) (.inr rfl)
      have : (x, v, b) ∈ m1.tris := by
        rw [st.tris]
        rcases ht with ht | ht | ht
        all_goals
          refine List.mem_flatMap.2 ⟨_, ht, ?_⟩
          simp [Tri.children, n0, n2, hx]
      exact HasTri.rot (Or.inl this)
    obtain ⟨q, hq, e1, e2, e3⟩ := ih hn1.valid st.next_some hs1 (st.fan hv ho).2.2 htx (st.halves hv (b, c) x hx).1
      (kept v _ hpv) (kept b _ hpb) hpx h2
    refine ⟨q, hq, e1, e2, e3.trans (congrArg some ?_)⟩
    rw [pow_succ]
    have h2 : (2 : K) ≠ 0 := by norm_num
    have : ((1 / 2 : K) • pb + (1 / 2 : K) • pc) - pb = (1 / 2 : K) • (pc - pb) := by
      have : pb = (1 / 2 : K) • pb + (1 / 2 : K) • pb := by rw [← add_smul]; norm_num
      calc ((1 / 2 : K) • pb + (1 / 2 : K) • pc) - pb
          = ((1 / 2 : K) • pb + (1 / 2 : K) • pc) - ((1 / 2 : K) • pb + (1 / 2 : K) • pb) := by rw [← this]
        _ = _ := by rw [smul_sub]; abel
    rw [this, smul_smul]
    congr 2
    field_simp

/-- With Linear these triangles become slivers: after `n` levels one has the corners `v`, `b` and a point whose distance
from `b` is that of `c` divided by `2 ^ n`. -/
theorem C68_linear_slivers (hv : inp.Valid) {f : Iter} (hne : f.cells ≠ []) (hsel : inp.SelOK f.cells)
    (h : (iterUpdate .linear lib cosn f inp).1 = .ok out) {v b c : PId} {pv pb pc : P} (ho : inp.Outside f.cells v)
    (ht : HasTri inp.tris v b c) (he : inp.SelEdge f.cells (b, c)) (hpv : inp.pos v = some pv) (hpb : inp.pos b = some pb)
    (hpc : inp.pos c = some pc) :
    ∃ q, HasTri out.tris v b q ∧ out.pos v = some pv ∧ out.pos b = some pb ∧
      out.pos q = some (pb + (1 / 2 ^ max 1 f.levels : K) • (pc - pb)) := by
  have hn : Scheme.linear.Needs inp := ⟨hv, by simp, by simp⟩
  obtain ⟨m, sel, h1, -, -, -, -⟩ := manyLevels_ok (sch := .linear) (lib := lib) cosn (by simp) (max 1 f.levels) hn hsel
    (fun hq => by cases hq)
  rw [iterUpdate_eq, ← levelsOf_eq, h1] at h
  cases h
  exact manyLevels_sliver _ hv hne hsel ho ht he hpv hpb hpc h1

end linear

theorem patchMesh_outside : patchMesh.Outside [0] 3 := by
  have h1 : patchMesh.tris = patch := patchMesh_ok.2.2.2
  refine ⟨by rw [h1]; decide, ?_⟩
  have : patchMesh.selected [0] = [(0, 1, 2)] := by decide
  rw [this]
  decide

/-- the patch with its first cell selected, ten levels: 1024 triangles meet at the point 3, which had one -/
example (sch : Scheme) (hs : sch ≠ .sqrt3) : ∃ out, (iterUpdate sch someLib cos0 ⟨[0], 10, []⟩ patchMesh).1 = .ok out ∧
    out.valence 3 = 1024 := by
  have hsel : patchMesh.SelOK [0] := by unfold Mesh.SelOK; decide
  obtain ⟨out, -, h, -, -⟩ := C24_iterative_selective (lib := someLib) cos0 (fun _ => someLib_lawful) (patchMesh_needs sch)
    (f := ⟨[0], 10, []⟩) (by simp) hsel (fun hq => absurd hq hs)
  refine ⟨out, h, ?_⟩
  rw [C68_fan (f := ⟨[0], 10, []⟩) hs (fun _ => someLib_lawful) (patchMesh_needs sch) (by simp) hsel h patchMesh_outside]
  decide

example (N : Nat) : ∃ L, ∀ f : Iter, f.cells = [0] → f.levels = L →
    ∃ out, (iterUpdate .butterfly someLib cos0 f patchMesh).1 = .ok out ∧ N ≤ out.valence 3 :=
  C68_unbounded (by decide) (fun _ => someLib_lawful) (patchMesh_needs _) (by simp) (by unfold Mesh.SelOK; decide)
    patchMesh_outside (by decide) N

/-- the patch has four triangles -/
example (out : Mesh Q3 Nat) (h : (iterUpdate .loop someLib cos0 ⟨[1, 3], 2, []⟩ patchMesh).1 = .ok out) (v : PId) :
    out.valence v ≤ 16 :=
  C68_at_most_doubles (d := 4) (f := ⟨[1, 3], 2, []⟩) (by decide) (fun _ => someLib_lawful) (patchMesh_needs _) patchMesh_sel
    h (by decide) (fun _ => List.countP_le_length) v

/-- two levels of Linear beside the cell 0: the triangle of the point 3 is cut in four -/
example (out : Mesh Q3 Nat) (h : (iterUpdate .linear someLib cos0 ⟨[0], 2, []⟩ patchMesh).1 = .ok out) :
    ∃ q, HasTri out.tris 3 1 q ∧ out.pos q = some (3, 0, 0) := by
  obtain ⟨q, h1, -, -, h2⟩ := C68_linear_slivers (f := ⟨[0], 2, []⟩) (v := 3) (b := 1) (c := 0) (pv := (2, -4, 0)) (pb := (4, 0, 0))
    (pc := (0, 0, 0)) patchMesh_ok.1 (by simp) (by unfold Mesh.SelOK; decide) h patchMesh_outside (by unfold HasTri; decide) (by decide)
    rfl rfl rfl
  refine ⟨q, h1, h2.trans (congrArg some ?_)⟩
  ext <;> norm_num

end Verif
