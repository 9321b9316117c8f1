import Verif.Proofs.Family
import Verif.Properties.Labels
/-
C106: the id of an output cell tells which input cell it is a piece of.
-/
namespace Verif
set_option linter.unusedSectionVars false

section all
variable {K P D : Type} [Field K] [Zero P] [Add P] [SMul K P]
variable {lib : QELib} {cosn : Nat → K} {f f' : Filt} {inp out : Mesh P D} {sch : Scheme}

/-- with nothing selected all triangles are cut in four -/
theorem all_in_four (hf : f.cells = []) : ∀ x ∈ inp.labelled, (x.2.children (inp.edgePoint f.cells)).length = 4 := by
  intro x hx
  have ht := labelled_tris inp hx
  apply children_all
  intro e he
  rw [edgePoint_isSome, hf]
  exact Or.inl (mem_dartsOf.2 ⟨x.2, by simpa [Mesh.selected] using ht, he⟩)

/-- C106 for a run of a cell filter that splits triangles: output cells are numbered without gaps; the pieces of one input cell
are consecutive, and come before those of any later cell; without a selection the cell with the id `k` is a piece of the input
cell at place `k / 4`. -/
theorem C106_cell (hs : sch ≠ .sqrt3) (hn : sch.Needs inp) (hsel : inp.SelOK f.cells)
    (h : cellUpdate sch lib cosn f inp = (.ok out, f')) :
    out.ById ∧ (∃ par, inp.Family par out) ∧ (f.cells = [] → inp.Family (· / 4) out) := by
  obtain ⟨R, -⟩ := cellUpdate_result hs hn hsel h
  exact ⟨R.byId, ⟨_, family_of_split R.labelled⟩, fun hf => family_of_four R.labelled (all_in_four hf)⟩

/-- C106 for the edge filters: consecutive and in the same order. -/
theorem C106_edge {sch : EdgeScheme} (hn : sch.toScheme.Needs inp) (hsel : inp.EdgeSelOK f.edgeSel)
    (h : edgeUpdate sch lib cosn f inp = (.ok out, f')) : out.ById ∧ ∃ par, inp.Family par out :=
  have R := edgeUpdate_result hn hsel h
  ⟨R.byId, _, family_of_split R.labelled⟩

/-- C106 over any number of levels on any selection; without a selection the cell with the id `k` is a piece of the input cell at
place `k / 4 ^ L`, where `L` is the number of levels. -/
theorem C106_levels (hs : sch ≠ .sqrt3) (hl : sch = .loop ∨ sch = .butterfly → lib.Lawful) {f : Iter} (hn : sch.Needs inp)
    (hsel : inp.SelOK f.cells) (h : (iterUpdate sch lib cosn f inp).1 = .ok out) :
    out.ById ∧ (∃ par, inp.Family par out) ∧ (f.cells = [] → inp.Family (· / 4 ^ max 1 f.levels) out) := by
  obtain ⟨m, s, h1, -, h2⟩ := manyLevels_count (lib := lib) (cosn := cosn) (sch := sch) hl
    (fun n m sel => (0 < n → m.ById) ∧ (∃ par, inp.Family par m) ∧ (f.cells = [] → sel = [] ∧ inp.Family (· / 4 ^ n) m))
    (fun n m out sel f' hn hsel _ _ h hI => by
      obtain ⟨-, ⟨par, h1⟩, h2⟩ := hI
      obtain ⟨a, ⟨q, b⟩, c⟩ := C106_cell hs hn hsel h
      refine ⟨fun _ => a, ⟨_, h1.trans b⟩, fun hf => ?_⟩
      obtain ⟨rfl, h3⟩ := h2 hf
      refine ⟨(C16_selection_after_run hs hn hsel h).1 rfl, ?_⟩
      have h4 := h3.trans (c rfl)
      have h5 : (fun k : Nat => k / 4 / 4 ^ n) = (· / 4 ^ (n + 1)) := by
        funext k
        rw [Nat.div_div_eq_div_mul, pow_succ, Nat.mul_comm]
      rw [h5] at h4
      exact h4) (max 1 f.levels) 0 (m := inp) (sel := f.cells) hn hsel (fun h => absurd h hs)
      ⟨fun h => absurd h (Nat.lt_irrefl 0), ⟨_, Mesh.Family.refl inp⟩, fun hf => ⟨hf, by
        have : (fun k : Nat => k / 4 ^ 0) = id := by funext k; simp
        rw [this]; exact Mesh.Family.refl inp⟩⟩
  rw [iterUpdate_eq, ← levelsOf_eq, h1] at h
  cases h
  rw [Nat.zero_add] at h2
  exact ⟨h2.1 (Nat.lt_of_lt_of_le Nat.zero_lt_one (Nat.le_max_left 1 _)), h2.2.1, fun hf => (h2.2.2 hf).2⟩

/-- C106, the four pieces: without a selection the cells `4 i`, `4 i + 1` and `4 i + 2` are the pieces at the first, second and
third corner of the input cell at place `i`, and the cell `4 i + 3` is the one in the middle, which has only new points. -/
theorem C106_corners (hs : sch ≠ .sqrt3) (hn : sch.Needs inp) (hf : f.cells = [])
    (h : cellUpdate sch lib cosn f inp = (.ok out, f')) {i : Nat} {a b c : PId} (ht : inp.tris[i]? = some (a, b, c)) :
    ∃ x y z : PId, inp.edgePoint [] (a, b) = some x ∧ inp.edgePoint [] (b, c) = some y ∧ inp.edgePoint [] (c, a) = some z ∧
      (∀ p ∈ [x, y, z], inp.points.length ≤ p) ∧ out.triAt (4 * i) = some (a, x, z) ∧
      out.triAt (4 * i + 1) = some (x, b, y) ∧ out.triAt (4 * i + 2) = some (y, c, z) ∧ out.triAt (4 * i + 3) = some (x, y, z) := by
  obtain ⟨R, -⟩ := cellUpdate_result hs hn (by rw [hf]; exact fun k hk => by cases hk) h
  rw [hf] at R
  have hsome : ∀ t ∈ inp.tris, ∀ e ∈ t.darts, (inp.edgePoint [] e).isSome := fun t ht e he => by
    rw [edgePoint_isSome]
    exact Or.inl (mem_dartsOf.2 ⟨t, by simpa [Mesh.selected] using ht, he⟩)
  have hm := List.mem_of_getElem? ht
  obtain ⟨x, hx⟩ := Option.isSome_iff_exists.1 (hsome _ hm (a, b) (by simp [Tri.darts]))
  obtain ⟨y, hy⟩ := Option.isSome_iff_exists.1 (hsome _ hm (b, c) (by simp [Tri.darts]))
  obtain ⟨z, hz⟩ := Option.isSome_iff_exists.1 (hsome _ hm (c, a) (by simp [Tri.darts]))
  have hat : ∀ j, j < 4 → out.triAt (4 * i + j) = [(a, x, z), (x, b, y), (y, c, z), (x, y, z)][j]? := by
    intro j hj
    have h1 := flatMap_const_get (Tri.children (inp.edgePoint [])) inp.tris (fun t ht => children_all _ t (hsome t ht)) hj ht
    have h2 : Tri.children (inp.edgePoint []) (a, b, c) = [(a, x, z), (x, b, y), (y, c, z), (x, y, z)] := by
      simp [Tri.children, hx, hy, hz]
    rw [h2] at h1
    unfold Mesh.triAt
    rw [R.built.cells, AMap.find?_dense, List.getElem?_map, h1]
    rcases [(a, x, z), (x, b, y), (y, c, z), (x, y, z)][j]? with _ | t <;> rfl
  refine ⟨x, y, z, hx, hy, hz, fun p hp => ?_, hat 0 (by decide), hat 1 (by decide), hat 2 (by decide), hat 3 (by decide)⟩
  rcases List.mem_cons.1 hp with rfl | hp
  · exact (labelOf_range hx).1
  rcases List.mem_cons.1 hp with rfl | hp
  · exact (labelOf_range hy).1
  rcases List.mem_cons.1 hp with rfl | hp
  · exact (labelOf_range hz).1
  cases hp

end all

section linear
variable {E D : Type} [NormedAddCommGroup E] [InnerProductSpace ℝ E]
variable {lib : QELib} {cosn : Nat → ℝ} {f f' : Filt} {inp out : Mesh E D}

/-- C106 for the Linear cell filter: the assigned output cells are exactly the input cell, as sets of points. -/
theorem C106_linear (hv : inp.Valid) (hsel : inp.SelOK f.cells) (h : cellUpdate .linear lib cosn f inp = (.ok out, f')) :
    (∃ par, inp.Family par out ∧ inp.MadeOf par out) ∧ (f.cells = [] → inp.Family (· / 4) out ∧ inp.MadeOf (· / 4) out) := by
  have R := (cellUpdate_result (by decide) ⟨hv, by simp, by simp⟩ hsel h).1
  have S := linear_split hv hsel h
  refine ⟨⟨_, family_of_split R.labelled, S.madeOf R.labelled fun _ _ _ => rfl⟩, fun hf =>
    ⟨family_of_four R.labelled (all_in_four hf), S.madeOf R.labelled fun k x hk => ?_⟩⟩
  have hl : ∀ x ∈ inp.labelled, (labelledPieces (inp.edgePoint f.cells) x).length = 4 := fun x hx => by
    unfold labelledPieces; rw [List.length_map, all_in_four hf x hx]
  refine (placeIn_const _ _ (by decide) hl ?_).symm
  rw [← flatMap_length_const _ _ hl]
  have h1 := R.labelled
  rw [h1] at hk
  exact (List.getElem?_eq_some_iff.1 hk).1

/-- C106 for the Linear edge filter. -/
theorem C106_linear_edge (hv : inp.Valid) (hsel : inp.EdgeSelOK f.edgeSel)
    (h : edgeUpdate .linear lib cosn f inp = (.ok out, f')) : ∃ par, inp.Family par out ∧ inp.MadeOf par out := by
  have R := edgeUpdate_result (sch := .linear) ⟨hv, by simp [EdgeScheme.toScheme], by simp [EdgeScheme.toScheme]⟩ hsel h
  exact ⟨_, family_of_split R.labelled, (linear_edge_split hv hsel h).madeOf R.labelled fun _ _ _ => rfl⟩

/-- C106 for the Linear filter over any number of levels on any selection. -/
theorem C106_linear_levels (hv : inp.Valid) {f : Iter} (hsel : inp.SelOK f.cells)
    (h : (iterUpdate .linear lib cosn f inp).1 = .ok out) :
    (∃ par, inp.Family par out ∧ inp.MadeOf par out) ∧
    (f.cells = [] → inp.Family (· / 4 ^ max 1 f.levels) out ∧ inp.MadeOf (· / 4 ^ max 1 f.levels) out) := by
  obtain ⟨m, s, h1, -, h2⟩ := manyLevels_count (lib := lib) (cosn := cosn) (sch := .linear) (by simp)
    (fun n m sel => (∃ par, inp.Family par m ∧ inp.MadeOf par m) ∧
      (f.cells = [] → sel = [] ∧ inp.Family (· / 4 ^ n) m ∧ inp.MadeOf (· / 4 ^ n) m))
    (fun n m out sel f' hn hsel _ _ h hI => by
      obtain ⟨⟨par, h1, h1'⟩, h2⟩ := hI
      obtain ⟨⟨q, b, b'⟩, c⟩ := C106_linear (f := Filt.new.setCells sel) hn.valid hsel h
      refine ⟨⟨_, h1.trans b, h1'.trans b' b⟩, fun hf => ?_⟩
      obtain ⟨rfl, h3, h3'⟩ := h2 hf
      refine ⟨(C16_selection_after_run (by decide) hn hsel h).1 rfl, ?_⟩
      have h4 := h3.trans (c rfl).1
      have h4' := h3'.trans (c rfl).2 (c rfl).1
      have h5 : (fun k : Nat => k / 4 / 4 ^ n) = (· / 4 ^ (n + 1)) := by
        funext k
        rw [Nat.div_div_eq_div_mul, pow_succ, Nat.mul_comm]
      rw [h5] at h4 h4'
      exact ⟨h4, h4'⟩) (max 1 f.levels) 0 (m := inp) (sel := f.cells) ⟨hv, by simp, by simp⟩ hsel (fun h => nomatch h)
      ⟨⟨_, Mesh.Family.refl inp, Mesh.MadeOf.refl inp⟩, fun hf => ⟨hf, by
        have : (fun k : Nat => k / 4 ^ 0) = id := by funext k; simp
        rw [this]; exact ⟨Mesh.Family.refl inp, Mesh.MadeOf.refl inp⟩⟩⟩
  rw [iterUpdate_eq, ← levelsOf_eq, h1] at h
  cases h
  rw [Nat.zero_add] at h2
  exact ⟨h2.1, fun hf => (h2.2 hf).2⟩

end linear
section examples

/-- after three levels of Loop cells 128 to 191 are the pieces of the input cell at place 2 -/
example (out : Mesh Q3 Nat) (h : (iterUpdate .loop someLib cos0 ⟨[], 3, []⟩ patchMesh).1 = .ok out) (x : Option Nat × Tri)
    (hx : out.labelled[130]? = some x) : x.1 = some 9 ∧ (130, some x.2.cell) ∈ out.cells := by
  obtain ⟨h1, -, h2⟩ := C106_levels (sch := .loop) (by decide) (fun _ => someLib_lawful) (patchMesh_needs _) (f := ⟨[], 3, []⟩)
    (fun k hk => by cases hk) h
  obtain ⟨y, h3, h4⟩ := (h2 rfl).parent 130 x hx
  have h5 : patchMesh.labelled[2]? = some (some 9, 2, 1, 4) := by decide
  have h6 : y = (some 9, 2, 1, 4) := Option.some.inj (h3.symm.trans h5)
  exact ⟨by rw [h4, h6], ((h1 130 x).1 hx).1⟩

/-- the four pieces of the third cell of the patch -/
example : ∃ out f', cellUpdate .linear someLib cos0 Filt.new patchMesh = (.ok out, f') ∧
    ∃ x y z, out.triAt 8 = some (2, x, z) ∧ out.triAt 9 = some (x, 1, y) ∧ out.triAt 10 = some (y, 4, z) ∧
      out.triAt 11 = some (x, y, z) := by
  obtain ⟨out, f', h, -⟩ := C01_face_split_completes (sch := .linear) (f := Filt.new) (by decide) someLib cos0 (patchMesh_needs _)
    (fun k hk => by cases hk)
  obtain ⟨x, y, z, -, -, -, -, h1, h2, h3, h4⟩ := C106_corners (sch := .linear) (by decide) (patchMesh_needs _) (f := Filt.new) rfl h
    (i := 2) (a := 2) (b := 1) (c := 4) (by decide)
  exact ⟨out, f', h, x, y, z, h1, h2, h3, h4⟩

/-- a selection over three levels, with the pieces in place -/
example : ∃ out, (iterUpdate .linear someLib realCos ⟨[1, 3], 3, []⟩ patchL).1 = .ok out ∧
    ∃ par, patchL.Family par out ∧ patchL.MadeOf par out := by
  have hsel : patchL.SelOK [1, 3] := by unfold Mesh.SelOK; decide
  have hn : Scheme.linear.Needs patchL := ⟨patchL_ok.1, by simp, by simp⟩
  obtain ⟨out, -, h, -⟩ := C24_iterative_selective (sch := .linear) (lib := someLib) realCos (by simp) hn (f := ⟨[1, 3], 3, []⟩)
    (by simp) hsel (fun hc => nomatch hc)
  exact ⟨out, h, (C106_linear_levels patchL_ok.1 (f := ⟨[1, 3], 3, []⟩) hsel h).1⟩

def countLate (r : Except Err (Mesh Q3 Nat)) (d : Nat) : Nat :=
  match r with
  | .ok m => (m.labelled.drop 3).countP fun x => x.1 == some d
  | .error _ => 0

/-- Why SquareThree is excluded: of two cells it makes six, but cells 3 to 5 are not the pieces of the second one; at least one of
them has the data of the first. -/
theorem C106_sqrt3_excluded : twoLabels.Valid ∧ ∃ out f', cellUpdate .sqrt3 someLib cos0 Filt.new twoLabels = (.ok out, f') ∧
    ¬ twoLabels.Family (· / 3) out := by
  refine ⟨(mk_ok _ (by decide) : twoLabels.Valid ∧ _).1, ?_⟩
  have h1 : 0 < countLate (cellUpdate .sqrt3 someLib cos0 Filt.new twoLabels).1 7 := by decide +kernel
  rcases e : cellUpdate .sqrt3 someLib cos0 Filt.new twoLabels with ⟨_ | out, f'⟩
  · rw [e] at h1; cases h1
  · rw [e] at h1
    refine ⟨out, f', rfl, fun F => ?_⟩
    obtain ⟨x, hx, h7⟩ := List.countP_pos_iff.1 h1
    obtain ⟨k, hk⟩ := List.mem_iff_getElem?.1 hx
    rw [List.getElem?_drop] at hk
    obtain ⟨y, hy, hxy⟩ := F.parent _ x hk
    have h2 : twoLabels.labelled = [(some 7, 0, 1, 2), (some 9, 1, 3, 2)] := by decide
    rw [h2] at hy
    have h3 : (3 + k) / 3 = k / 3 + 1 := by omega
    rw [h3] at hy
    rcases hk3 : k / 3 with _ | j
    · rw [hk3] at hy
      simp only [Nat.zero_add, List.getElem?_cons_succ, List.getElem?_cons_zero, Option.some.injEq] at hy
      rw [hxy, ← hy] at h7
      cases h7
    · rw [hk3] at hy
      simp at hy

end examples
end Verif
