import Verif.Proofs.Support
import Verif.Properties.Iterative
/-
C65: moving points changes the surface only nearby.
-/
namespace Verif
set_option linter.unusedSectionVars false
variable {K P D : Type} [Field K] [Zero P] [Add P] [SMul K P]

/-- C65 for the four cell filters.  `inp'` is the input with points moved; the runs differ in no cell and in no point of the
output that belongs to input points around which nothing was moved: one edge far for Loop, two for Butterfly.  No law of
arithmetic is used, so this also holds, to the last bit, in rounded arithmetic. -/
theorem C65_cell {sch : Scheme} {lib : QELib} {cosn : Nat → K} {f f' : Filt} {inp inp' out : Mesh P D} (hn : sch.Needs inp)
    (hsel : inp.SelOK f.cells) (hmax : sch = .sqrt3 → inp.points.length + (inp.selected f.cells).length ≤ idMax)
    (h : cellUpdate sch lib cosn f inp = (.ok out, f')) (hshape : inp'.shape = inp.shape) :
    ∃ out' g', cellUpdate sch lib cosn f inp' = (.ok out', g') ∧ out'.shape = out.shape ∧ ∀ v,
      (∀ u, sch.Anchor inp f.cells v u → ∀ w, inp.Within sch.reach u w → inp'.pos w = inp.pos w) →
      out'.pos v = out.pos v := by
  have hsh := (C49_shape_only sch lib cosn cosn f hshape).1
  rcases hc : cellUpdate sch lib cosn f inp' with ⟨e | out', g'⟩
  · rw [h, hc] at hsh; cases hsh
  · rw [h, hc] at hsh
    refine ⟨out', g', rfl, Except.ok.inj hsh, fun v hv => ?_⟩
    exact cell_near (A := fun w => inp'.pos w = inp.pos w) hn hsel hmax h ⟨hshape, fun _ h => h⟩ hc hv

/-- C65 for the three edge filters: the points of the input stay as they are, and the new point of the `i`-th edge changes only
if something within reach of its ends was moved. -/
theorem C65_edge {sch : EdgeScheme} {lib : QELib} {cosn : Nat → K} {f f' : Filt} {inp inp' out : Mesh P D}
    (hn : sch.toScheme.Needs inp) (hsel : inp.EdgeSelOK f.edgeSel) (h : edgeUpdate sch lib cosn f inp = (.ok out, f'))
    (hshape : inp'.shape = inp.shape) :
    ∃ out' g', edgeUpdate sch lib cosn f inp' = (.ok out', g') ∧ out'.shape = out.shape ∧
      (∀ v, v < inp.points.length → inp'.pos v = inp.pos v → out'.pos v = out.pos v) ∧
      ∀ i e, (inp.selectedEdges f.edgeSel)[i]? = some e →
        (∀ w, inp.Within sch.toScheme.reach e.1 w ∨ inp.Within sch.toScheme.reach e.2 w → inp'.pos w = inp.pos w) →
        out'.pos (inp.points.length + i) = out.pos (inp.points.length + i) := by
  have hsh := C49_shape_only_edge sch lib cosn cosn f hshape
  rcases hc : edgeUpdate sch lib cosn f inp' with ⟨e | out', g'⟩
  · rw [h, hc] at hsh; cases hsh
  · rw [h, hc] at hsh
    exact ⟨out', g', rfl, Except.ok.inj hsh,
      edge_near (A := fun w => inp'.pos w = inp.pos w) hn hsel h ⟨hshape, fun _ h => h⟩ hc⟩

section iterative
variable {sch : Scheme} {lib : QELib} {cosn : Nat → K} {f : Iter} {inp out : Mesh P D}

/-- the two runs of an iterative filter -/
theorem iter_pair (hshape : ∀ {inp' : Mesh P D}, inp'.shape = inp.shape →
    ∃ out', (iterUpdate sch lib cosn f inp').1 = .ok out' ∧ out'.shape = out.shape) {inp' : Mesh P D}
    (h : inp'.shape = inp.shape) : ∃ out' sel', manyLevels sch lib cosn (levelsOf f.levels) (inp', f.cells) = .ok (out', sel') ∧
      (iterUpdate sch lib cosn f inp').1 = .ok out' ∧ out'.shape = out.shape := by
  obtain ⟨out', h1, h2⟩ := hshape h
  rw [iterUpdate_eq] at h1
  rcases hm : manyLevels sch lib cosn (levelsOf f.levels) (inp', f.cells) with e | ⟨o, s⟩
  · rw [hm] at h1; cases h1
  · rw [hm] at h1
    obtain rfl : o = out' := Except.ok.inj h1
    refine ⟨o, s, rfl, ?_, h2⟩
    rw [iterUpdate_eq, hm]
    rfl

theorem iter_shape (h : (iterUpdate sch lib cosn f inp).1 = .ok out) {inp' : Mesh P D} (hs : inp'.shape = inp.shape) :
    ∃ out', (iterUpdate sch lib cosn f inp').1 = .ok out' ∧ out'.shape = out.shape := by
  have hsh := C49_shape_only_iterative sch lib cosn cosn f hs
  rcases hc : (iterUpdate sch lib cosn f inp').1 with e | out'
  · rw [h, hc] at hsh; cases hsh
  · rw [h, hc] at hsh
    exact ⟨out', rfl, Except.ok.inj hsh⟩

/-- C65 for any number of levels: every triangle of the output has a triangle of the input (with the same original points as
corners) such that moving points that are more than `L` times one edge (Loop; Linear none, Butterfly two, SquareThree one) away
from its corners does not move the triangle of the output. -/
theorem C65_iterative (hl : sch = .loop ∨ sch = .butterfly → lib.Lawful) (hn : sch.Needs inp) (hsel : inp.SelOK f.cells)
    (hid : sch.IdsLeft (max 1 f.levels) inp f.cells) (h : (iterUpdate sch lib cosn f inp).1 = .ok out) {s : Tri}
    (hs : s ∈ out.tris) :
    ∃ t ∈ inp.tris, (∀ x ∈ s.verts, x < inp.points.length → x ∈ t.verts) ∧ ∀ inp' : Mesh P D, inp'.shape = inp.shape →
      (∀ c ∈ t.verts, ∀ w, inp.Within (max 1 f.levels * sch.spread) c w → inp'.pos w = inp.pos w) →
      ∃ out', (iterUpdate sch lib cosn f inp').1 = .ok out' ∧ out'.shape = out.shape ∧
        ∀ v ∈ s.verts, out'.pos v = out.pos v := by
  rw [levelsOf_eq] at hid
  obtain ⟨out₀, sel₀, h0, h0', -⟩ := iter_pair (iter_shape h) (inp' := inp) rfl
  rw [h] at h0'
  cases h0'
  obtain ⟨t, ht, hc, hk⟩ := manyLevels_near hl _ hn hsel hid h0 hs
  refine ⟨t, ht, hc, fun inp' hshape hA => ?_⟩
  obtain ⟨out', sel', h1, h1', h1''⟩ := iter_pair (iter_shape h) hshape
  refine ⟨out', h1', h1'', hk inp' out' sel' ⟨hshape, ?_⟩ h1⟩
  rintro w ⟨c, hc, hw⟩
  rw [← levelsOf_eq] at hw
  exact hA c hc w hw

/-- C65 for the points of the input, after any number of levels -/
theorem C65_original_points (hl : sch = .loop ∨ sch = .butterfly → lib.Lawful) (hn : sch.Needs inp)
    (hsel : inp.SelOK f.cells) (hid : sch.IdsLeft (max 1 f.levels) inp f.cells)
    (h : (iterUpdate sch lib cosn f inp).1 = .ok out) {inp' : Mesh P D} (hshape : inp'.shape = inp.shape) :
    ∃ out', (iterUpdate sch lib cosn f inp').1 = .ok out' ∧ out'.shape = out.shape ∧ ∀ v, v < inp.points.length →
      (∀ w, inp.Within (max 1 f.levels * sch.reach) v w → inp'.pos w = inp.pos w) → out'.pos v = out.pos v := by
  rw [levelsOf_eq] at hid
  obtain ⟨out₀, sel₀, h0, h0', -⟩ := iter_pair (iter_shape h) (inp' := inp) rfl
  rw [h] at h0'
  cases h0'
  obtain ⟨out', sel', h1, h1', h1''⟩ := iter_pair (iter_shape h) hshape
  refine ⟨out', h1', h1'', fun v hv hA => manyLevels_near_old hl _ hn hsel hid h0 hv ⟨hshape, ?_⟩ h1⟩
  intro w hw
  rw [← levelsOf_eq] at hw
  exact hA w hw

theorem moved_shape (m : Mesh P D) (w : PId) (p : P) : (m.moved w p).shape = m.shape := by
  unfold Mesh.moved Mesh.shape Mesh.mapPoints
  simp only [List.map_map, Mesh.mk.injEq, and_self, and_true]
  refine List.map_congr_left fun x _ => ?_
  simp only [Function.comp_apply]
  split
  · rename_i h; rw [h]
  · rfl

theorem moved_pos (m : Mesh P D) {w v : PId} (p : P) (h : v ≠ w) : (m.moved w p).pos v = m.pos v := by
  unfold Mesh.moved Mesh.pos
  simp only
  generalize m.points = l
  induction l with
  | nil => rfl
  | cons x l ih =>
    rw [List.map_cons]
    simp only [AMap.find?]
    by_cases hx : x.1 = w
    · rw [if_pos hx, if_neg h, if_neg (hx ▸ h)]
      exact ih
    · rw [if_neg hx, ih]

/-- C65, one point: moving the point `w` leaves every point of the input in its place unless it is within reach of `w`. -/
theorem C65_one_point (hl : sch = .loop ∨ sch = .butterfly → lib.Lawful) (hn : sch.Needs inp)
    (hsel : inp.SelOK f.cells) (hid : sch.IdsLeft (max 1 f.levels) inp f.cells)
    (h : (iterUpdate sch lib cosn f inp).1 = .ok out) (w : PId) (p : P) :
    ∃ out', (iterUpdate sch lib cosn f (inp.moved w p)).1 = .ok out' ∧ out'.shape = out.shape ∧ ∀ v, v < inp.points.length →
      ¬ inp.Within (max 1 f.levels * sch.reach) v w → out'.pos v = out.pos v := by
  obtain ⟨out', h1, h2, h3⟩ := C65_original_points hl hn hsel hid h (moved_shape inp w p)
  refine ⟨out', h1, h2, fun v hv hw => h3 v hv fun x hx => moved_pos inp p ?_⟩
  rintro rfl
  exact hw hx

end iterative

section samples

/-- One level of Loop on two cells of the patch: the point 4 is moved far away; the points 3 and 5 stay where they were (and the
runs succeed). -/
example : ∃ out out', (iterUpdate .loop someLib cos0 ⟨[1, 3], 1, []⟩ patchMesh).1 = .ok out ∧
    (iterUpdate .loop someLib cos0 ⟨[1, 3], 1, []⟩ (patchMesh.moved 4 (100, 100, 100))).1 = .ok out' ∧
    out'.shape = out.shape ∧ out'.pos 3 = out.pos 3 ∧ out'.pos 5 = out.pos 5 := by
  obtain ⟨out, -, h, -, -⟩ := C24_iterative_selective (lib := someLib) cos0 (fun _ => someLib_lawful)
    (patchMesh_needs .loop) (f := ⟨[1, 3], 1, []⟩) (by decide) patchMesh_sel (fun h => by cases h)
  obtain ⟨out', h1, h2, h3⟩ := C65_one_point (f := ⟨[1, 3], 1, []⟩) (fun _ => someLib_lawful) (patchMesh_needs .loop)
    patchMesh_sel (fun h => by cases h) h 4 (100, 100, 100)
  refine ⟨out, out', h, h1, h2, h3 3 (by decide) ?_, h3 5 (by decide) ?_⟩
  all_goals
    show ¬ patchMesh.Within 1 _ _
    simp only [Mesh.Within, exists_eq_right]
    unfold Mesh.IsEdge
    decide

/-- five levels of Linear: every output triangle of the patch depends on the three corners of one input triangle only -/
example : ∃ out, (iterUpdate .linear someLib cos0 ⟨[1, 3], 5, []⟩ patchMesh).1 = .ok out ∧ ∀ s ∈ out.tris,
    ∃ t ∈ patchMesh.tris, ∀ inp' : Mesh Q3 Nat, inp'.shape = patchMesh.shape →
      (∀ c ∈ t.verts, inp'.pos c = patchMesh.pos c) →
      ∃ out', (iterUpdate .linear someLib cos0 ⟨[1, 3], 5, []⟩ inp').1 = .ok out' ∧ ∀ v ∈ s.verts, out'.pos v = out.pos v := by
  obtain ⟨out, -, h, -, -⟩ := C24_iterative_selective (lib := someLib) cos0 (fun _ => someLib_lawful)
    (patchMesh_needs .linear) (f := ⟨[1, 3], 5, []⟩) (by decide) patchMesh_sel (fun h => by cases h)
  refine ⟨out, h, fun s hs => ?_⟩
  obtain ⟨t, ht, -, h3⟩ := C65_iterative (f := ⟨[1, 3], 5, []⟩) (fun _ => someLib_lawful) (patchMesh_needs .linear)
    patchMesh_sel (fun h => by cases h) h hs
  refine ⟨t, ht, fun inp' h1 h2 => ?_⟩
  obtain ⟨out', h4, -, h5⟩ := h3 inp' h1 fun c hc w hw => by
    obtain rfl : c = w := hw
    exact h2 c hc
  exact ⟨out', h4, h5⟩

/-- one run of SquareThree: the new point of the first selected triangle depends on its corners -/
example : ∃ out out' f' g', cellUpdate .sqrt3 someLib cos0 (usedFilt [1, 3]) patchMesh = (.ok out, f') ∧
    cellUpdate .sqrt3 someLib cos0 (usedFilt [1, 3]) (patchMesh.moved 4 (100, 100, 100)) = (.ok out', g') ∧
    ∀ v, (∀ u, patchMesh.CentreOf [1, 3] v u → u ≠ 4) → out'.pos v = out.pos v := by
  rcases hc : cellUpdate .sqrt3 someLib cos0 (usedFilt [1, 3]) patchMesh with ⟨e | out, f'⟩
  · have : (cellUpdate .sqrt3 someLib cos0 (usedFilt [1, 3]) patchMesh).1.toOption.isSome = true := by decide +kernel
    rw [hc] at this; cases this
  · obtain ⟨out', g', h1, -, h3⟩ := C65_cell (patchMesh_needs .sqrt3) patchMesh_sel (by intro _; decide) hc
      (moved_shape patchMesh 4 (100, 100, 100))
    refine ⟨out, out', f', g', rfl, h1, fun v hv => h3 v fun u hu w hw => ?_⟩
    obtain rfl : u = w := hw
    exact moved_pos _ _ (hv u hu)

/-- the Linear edge filter on two edges of the patch: only the points 4 and 5 are moved -/
example (inp' : Mesh Q3 Nat) (hs : inp'.shape = patchMesh.shape) (hp : ∀ v < 4, inp'.pos v = patchMesh.pos v) :
    ∃ out out' f' g', edgeUpdate .linear someLib cos0 (Filt.new.setEdges [some (1, 0), some (0, 3)]) patchMesh = (.ok out, f') ∧
    edgeUpdate .linear someLib cos0 (Filt.new.setEdges [some (1, 0), some (0, 3)]) inp' = (.ok out', g') ∧
    out'.pos 6 = out.pos 6 ∧ out'.pos 7 = out.pos 7 := by
  have hok : patchMesh.EdgeSelOK [some (1, 0), some (0, 3)] := by
    intro e he
    simp only [List.mem_cons, List.not_mem_nil, or_false, Option.some.injEq] at he
    unfold Mesh.IsEdge
    rcases he with rfl | rfl <;> decide
  obtain ⟨out, f', h, -⟩ := edgeUpdate_ok (sch := .linear) (f := Filt.new.setEdges [some (1, 0), some (0, 3)]) someLib cos0
    (patchMesh_needs .linear) hok
  obtain ⟨out', g', h1, -, -, h4⟩ := C65_edge (sch := .linear) (patchMesh_needs .linear) hok h hs
  refine ⟨out, out', f', g', h, h1, h4 0 (1, 0) rfl ?_, h4 1 (0, 3) rfl ?_⟩
  all_goals
    rintro w (hw | hw) <;> cases hw <;> exact hp _ (by decide)

end samples
end Verif
