import Verif.Proofs.Rim
import Verif.Properties.Affine
/-
C51: the boundary is subdivided by itself, so patches with a common boundary still fit after they are subdivided separately.
-/
namespace Verif
variable {K P D : Type} [Field K] [AddCommGroup P] [Module K P] {lib : QELib} {sch : Scheme}

/-- C51. The places along a boundary after `n` uniform levels depend on the places along it before, and on nothing else of the
mesh: the midpoints are added (Linear), or the B-spline steps made (Loop, if the boundary does not touch itself), `n` times
over, or nothing is changed (SquareThree). -/
theorem C51_boundary_alone (hs : sch ≠ .butterfly) (hl : sch = .loop → lib.Lawful) (cosn : Nat → K) {inp : Mesh P D}
    (hn : sch.Needs inp) (hsb : sch = .loop → inp.SimpleBoundary) {f : Iter} (hf : f.cells = [])
    (hid : sch.IdsLeft (max 1 f.levels) inp []) :
    ∃ out, (iterUpdate sch lib cosn f inp).1 = .ok out ∧
      ∀ q, inp.Rim q → out.Rim ((sch.rimStep K)^[max 1 f.levels] q) := by
  obtain ⟨out, h1, h2⟩ := uniform_levels (sch := sch) (lib := lib) (cosn := cosn)
    (fun h => h.elim hl (fun h => absurd h hs))
    (fun i m => (sch = .loop → m.SimpleBoundary) ∧ ∀ q, inp.Rim q → m.Rim ((sch.rimStep K)^[i] q)) (by
      rintro i m out f' hm hmax h ⟨h1, h2⟩
      refine ⟨fun hc => simple_split (by rw [hc]; decide) hm (selOK_nil _) h (h1 hc), fun q hq => ?_⟩
      rw [Function.iterate_succ_apply']
      have := h2 q hq
      cases sch with
      | linear => exact rim_linear hm.valid h this
      | loop => exact rim_loop hm (h1 rfl) h this
      | butterfly => exact absurd rfl hs
      | sqrt3 => exact rim_sqrt3 hm.valid (hmax rfl) h this) (max 1 f.levels) 0 hn hid ⟨hsb, fun q hq => hq⟩
  rw [Nat.zero_add] at h2
  refine ⟨out, ?_, h2.2⟩
  rw [iterUpdate_eq, hf, ← levelsOf_eq, h1]
  rfl

/-- C51. Two meshes that fit together along a boundary curve (the one runs along it in the one direction, the other in the
other) still fit together, point for point, after the same number of uniform levels, each by itself. -/
theorem C51_patches_fit (hs : sch ≠ .butterfly) (hl : sch = .loop → lib.Lawful) (cosn : Nat → K) {D' : Type} {a : Mesh P D}
    {b : Mesh P D'} (ha : sch.Needs a) (hb : sch.Needs b) (hsa : sch = .loop → a.SimpleBoundary)
    (hsb : sch = .loop → b.SimpleBoundary) {f g : Iter} (hf : f.cells = []) (hg : g.cells = []) (hfg : f.levels = g.levels)
    (hia : sch.IdsLeft (max 1 f.levels) a []) (hib : sch.IdsLeft (max 1 f.levels) b []) :
    ∃ a' b', (iterUpdate sch lib cosn f a).1 = .ok a' ∧ (iterUpdate sch lib cosn g b).1 = .ok b' ∧
      ∀ q, a.Rim q → b.Rim (fun i => q (-i)) → ∃ q', q' = (sch.rimStep K)^[max 1 f.levels] q ∧
        a'.Rim q' ∧ b'.Rim fun i => q' (-i) := by
  obtain ⟨a', h1, h2⟩ := C51_boundary_alone hs hl cosn ha hsa hf hia
  obtain ⟨b', h3, h4⟩ := C51_boundary_alone hs hl cosn hb hsb hg (hfg ▸ hib)
  refine ⟨a', b', h1, h3, fun q hq hq' => ⟨_, rfl, h2 q hq, ?_⟩⟩
  have := h4 _ hq'
  rw [iterate_neg (g := sch.rimStep K) (by
    cases sch with
    | linear => exact withMidpoints_neg
    | loop => exact splineStep_neg
    | butterfly => exact absurd rfl hs
    | sqrt3 => exact fun _ => rfl), ← hfg] at this
  exact this

/-- the boundary of the patch -/
theorem patchMesh_rim : patchMesh.Rim fun i => patchMesh.coord ([0, 3, 1, 4, 2, 5] : List PId)[(i % (6 : Nat)).toNat]! := by
  refine rim_cycle patchMesh_ok.1 [0, 3, 1, 4, 2, 5] (by decide) ?_
  unfold Mesh.IsBoundary
  rw [patchMesh_ok.2.2.2]
  decide

example : ∃ out, (iterUpdate .loop someLib cos0 ⟨[], 3, []⟩ patchMesh).1 = .ok out ∧ ∃ q, out.Rim q := by
  obtain ⟨out, h1, h2⟩ := C51_boundary_alone (sch := .loop) (by decide) (fun _ => someLib_lawful) cos0 (patchMesh_needs _)
    (fun _ => patchMesh_simple) (f := ⟨[], 3, []⟩) rfl (by intro h; cases h)
  exact ⟨out, h1, _, h2 _ patchMesh_rim⟩

/-! The butterfly looks at the points next to the boundary. -/

/-- a triangle, and the three triangles between its sides and a fourth point, turned the other way -/
def lid : Mesh Q3 Nat := mk [(0, 0, 0), (4, 0, 0), (0, 4, 0)] [(0, 1, 2)] none
def cup : Mesh Q3 Nat := mk [(0, 0, 0), (4, 0, 0), (0, 4, 0), (1, 1, -8)] [(1, 0, 3), (2, 1, 3), (0, 2, 3)] none

theorem lid_ok : lid.Valid ∧ lid.RingOK ∧ lid.NoIsolated ∧ lid.tris = [(0, 1, 2)] := mk_ok _ (by decide)
theorem cup_ok : cup.Valid ∧ cup.RingOK ∧ cup.NoIsolated ∧ cup.tris = [(1, 0, 3), (2, 1, 3), (0, 2, 3)] := mk_ok _ (by decide)

theorem lid_rim : lid.Rim fun i => lid.coord ([0, 1, 2] : List PId)[(i % (3 : Nat)).toNat]! := by
  refine rim_cycle lid_ok.1 [0, 1, 2] (by decide) ?_
  unfold Mesh.IsBoundary
  rw [lid_ok.2.2.2]
  decide

theorem cup_rim : cup.Rim fun i => lid.coord ([0, 1, 2] : List PId)[(-i % (3 : Nat)).toNat]! := by
  have h := rim_cycle cup_ok.1 [0, 2, 1] (by decide) (by
    unfold Mesh.IsBoundary
    rw [cup_ok.2.2.2]
    decide)
  convert h using 2 with i
  have h1 : i % ((3 : Nat) : Int) = 0 ∧ -i % ((3 : Nat) : Int) = 0 ∨ i % ((3 : Nat) : Int) = 1 ∧ -i % ((3 : Nat) : Int) = 2 ∨
      i % ((3 : Nat) : Int) = 2 ∧ -i % ((3 : Nat) : Int) = 1 := by omega
  simp only [List.length_cons, List.length_nil, Nat.zero_add, Nat.reduceAdd]
  rcases h1 with ⟨h1, h2⟩ | ⟨h1, h2⟩ | ⟨h1, h2⟩ <;> rw [h1, h2] <;> rfl

theorem lid_simple : lid.SimpleBoundary := simple_of_tris lid_ok.2.2.2 (by decide)
theorem cup_simple : cup.SimpleBoundary := simple_of_tris cup_ok.2.2.2 (by decide)

theorem lid_needs (sch : Scheme) : sch.Needs lid := ⟨lid_ok.1, fun _ => lid_ok.2.1, fun _ => lid_ok.2.2.1⟩
theorem cup_needs (sch : Scheme) : sch.Needs cup := ⟨cup_ok.1, fun _ => cup_ok.2.1, fun _ => cup_ok.2.2.1⟩

example (n : Nat) : ∃ a b, (iterUpdate .loop someLib cos0 ⟨[], n, []⟩ lid).1 = .ok a ∧
    (iterUpdate .loop someLib cos0 ⟨[], n, []⟩ cup).1 = .ok b ∧ ∃ q, a.Rim q ∧ b.Rim fun i => q (-i) := by
  obtain ⟨a, b, h1, h2, h3⟩ := C51_patches_fit (sch := .loop) (by decide) (fun _ => someLib_lawful) cos0 (lid_needs _)
    (cup_needs _) (fun _ => lid_simple) (fun _ => cup_simple) (f := ⟨[], n, []⟩) (g := ⟨[], n, []⟩) rfl rfl rfl
    (by intro h; cases h) (by intro h; cases h)
  obtain ⟨q, -, h4, h5⟩ := h3 _ lid_rim cup_rim
  exact ⟨a, b, h1, h2, q, h4, h5⟩

/-- along each boundary edge of `a` there is a place where no boundary point of `b` is -/
def apart (a b : Mesh Q3 Nat) : Bool := (dartsOf a.tris).all fun e => a.tris.any (fun t => t.darts.contains e.sym) ||
  (dartsOf b.tris).all (fun e' => b.pos e'.1 != a.pos e.1) || (dartsOf b.tris).all (fun e' => b.pos e'.1 != a.pos e.2)

theorem not_fit {a b : Mesh Q3 Nat} (h : apart a b = true) (q : Int → Q3) (ha : a.Rim q) : ¬ b.Rim fun i => q (-i) := by
  rintro ⟨w, hw⟩
  obtain ⟨v, hv⟩ := ha
  have h0 := List.all_eq_true.1 h _ (hv 0).1.1
  have key : ∀ j, ¬ (dartsOf b.tris).all (fun e' => b.pos e'.1 != a.pos (v j)) = true := by
    intro j hj
    have h1 := List.all_eq_true.1 hj _ (hw (-j)).1.1
    rw [(hw (-j)).2, (hv j).2] at h1
    simp at h1
  rw [Bool.or_eq_true, Bool.or_eq_true] at h0
  rcases h0 with (h0 | h0) | h0
  · obtain ⟨t, ht, hc⟩ := List.any_eq_true.1 h0
    exact (hv 0).1.2 (mem_dartsOf.2 ⟨t, ht, by simpa using hc⟩)
  · exact key 0 h0
  · exact key (0 + 1) h0

/-- C51 fails for the ModifiedButterfly filter: the triangle and the cup fit together along their boundary, and after one
uniform level there is no curve along which they do. -/
theorem C51_butterfly_fit_refuted : ∃ (a b a' b' : Mesh Q3 Nat) (q : Int → Q3), Scheme.butterfly.Needs a ∧
    Scheme.butterfly.Needs b ∧ a.SimpleBoundary ∧ b.SimpleBoundary ∧ (a.Rim q ∧ b.Rim fun i => q (-i)) ∧
    (iterUpdate .butterfly someLib cos0 Iter.new a).1 = .ok a' ∧ (iterUpdate .butterfly someLib cos0 Iter.new b).1 = .ok b' ∧
    ∀ q', ¬ (a'.Rim q' ∧ b'.Rim fun i => q' (-i)) := by
  have h : ((iterUpdate .butterfly someLib cos0 Iter.new lid).1.toOption.bind fun a' =>
      (iterUpdate .butterfly someLib cos0 Iter.new cup).1.toOption.map fun b' => apart a' b') = some true := by decide +kernel
  rcases h1 : (iterUpdate .butterfly someLib cos0 Iter.new lid).1 with _ | a'
  · rw [h1] at h; cases h
  rcases h2 : (iterUpdate .butterfly someLib cos0 Iter.new cup).1 with _ | b'
  · rw [h1, h2] at h; cases h
  rw [h1, h2] at h
  exact ⟨lid, cup, a', b', _, lid_needs _, cup_needs _, lid_simple, cup_simple, ⟨lid_rim, cup_rim⟩, h1, h2,
    fun q hq => not_fit (Option.some.inj h) q hq.1 hq.2⟩

end Verif
