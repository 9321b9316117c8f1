import Verif.Proofs.MirrorSqrt3
import Verif.Properties.Listing
import Verif.Properties.Affine
import Verif.Properties.LevelsGeo
/-
C63: the two sides of a surface are subdivided alike, and symmetric surfaces stay symmetric.
-/
namespace Verif
set_option linter.unusedSectionVars false

section sides
variable {K P D : Type} [Field K] [AddCommGroup P] [Module K P]
variable {lib lib' : QELib} {cosn : Nat → K} {ρ : PId → PId} {m m' out out' : Mesh P D} {f f' g g' : Filt}

/-- C63. Of two meshes the one has the triangles of the other with the opposite orientation, and two filter objects select the
same triangles.  Then the outputs are the two sides of one surface again, and the same triangles are selected for the next
run.  This holds if no cell has exactly two split edges; such cells are cut along a diagonal that depends on the corner at which
the cell begins, see `C58_first_corner_refuted`.  (Butterfly: closed meshes, see C51.  Loop: objects that smooth all points.) -/
theorem C63_other_side_partial {sch : Scheme} (hs : sch ≠ .sqrt3) (R : OtherSide ρ m m') (hn : sch.Needs m)
    (hn' : sch.Needs m') (hc : sch = .butterfly → m.Closed) (hl : sch = .loop → f.uniform = true ∧ g.uniform = true)
    (hsel : m.SelOK f.cells) (hsel' : m'.SelOK g.cells) (S : OtherSelection ρ m f.cells m' g.cells)
    (htwo : ∀ t ∈ m.tris, (t.sharedWith (m.selected f.cells)).length ≠ 2)
    (h : cellUpdate sch lib cosn f m = (.ok out, f')) (h' : cellUpdate sch lib' cosn g m' = (.ok out', g')) :
    ∃ ρ', (∀ v, v < m.points.length → ρ' v = ρ v) ∧ OtherSide ρ' out out' ∧
      OtherSelection ρ' out f'.cells out' g'.cells :=
  cellUpdate_mirror hs R hn hn' hc hl hsel hsel' S htwo h h'

theorem other_all (R : OtherSide ρ m m') : OtherSelection ρ m [] m' [] := fun x y z h =>
  ⟨fun _ => h, fun _ => R.tri x y z h⟩

/-- C63, uniform subdivision. -/
theorem C63_other_side_uniform {sch : Scheme} (hs : sch ≠ .sqrt3) (R : OtherSide ρ m m') (hn : sch.Needs m)
    (hn' : sch.Needs m') (hc : sch = .butterfly → m.Closed) (hl : sch = .loop → f.uniform = true ∧ g.uniform = true)
    (hf : f.cells = []) (hg : g.cells = [])
    (h : cellUpdate sch lib cosn f m = (.ok out, f')) (h' : cellUpdate sch lib' cosn g m' = (.ok out', g')) :
    ∃ ρ', (∀ v, v < m.points.length → ρ' v = ρ v) ∧ OtherSide ρ' out out' := by
  obtain ⟨ρ', h1, h2, -⟩ := C63_other_side_partial hs R hn hn' hc hl (by rw [hf]; exact selOK_nil _)
    (by rw [hg]; exact selOK_nil _) (by rw [hf, hg]; exact other_all R)
    (fun t ht h2 => by rw [hf, shared_all m ht] at h2; cases h2) h h'
  exact ⟨ρ', h1, h2⟩

/-- C63, SquareThree, with and without a selection. -/
theorem C63_other_side_sqrt3 (R : OtherSide ρ m m') (hv : m.Valid) (hv' : m'.Valid)
    (hsel : m.SelOK f.cells) (hsel' : m'.SelOK g.cells) (S : OtherSelection ρ m f.cells m' g.cells)
    (hmax : m.points.length + (m.selected f.cells).length ≤ idMax)
    (hmax' : m'.points.length + (m'.selected g.cells).length ≤ idMax)
    (h : cellUpdate .sqrt3 lib cosn f m = (.ok out, f')) (h' : cellUpdate .sqrt3 lib' cosn g m' = (.ok out', g')) :
    ∃ ρ', (∀ v, v < m.points.length → ρ' v = ρ v) ∧ OtherSide ρ' out out' ∧
      OtherSelection ρ' out f'.cells out' g'.cells :=
  sqrt3Update_mirror R hv hv' hsel hsel' S hmax hmax' h h'

/-- C63, edge filters: the lists contain the same edges, in any order and direction. -/
theorem C63_other_side_edge_partial {sch : EdgeScheme} (R : OtherSide ρ m m') (hn : sch.toScheme.Needs m)
    (hn' : sch.toScheme.Needs m') (hc : sch = .butterfly → m.Closed) (hsel : m.EdgeSelOK f.edgeSel)
    (hsel' : m'.EdgeSelOK g.edgeSel) (S : SameSplits ρ m f.edgeSel m' g.edgeSel)
    (htwo : ∀ t ∈ m.tris, (t.splitEdges (m.selectedEdges f.edgeSel)).length ≠ 2)
    (h : edgeUpdate sch lib cosn f m = (.ok out, f')) (h' : edgeUpdate sch lib' cosn g m' = (.ok out', g')) :
    ∃ ρ', (∀ v, v < m.points.length → ρ' v = ρ v) ∧ OtherSide ρ' out out' :=
  edgeUpdate_mirror R hn hn' hc hsel hsel' S htwo h h'

theorem manyLevels_mirror {sch : Scheme} (hlib : sch = .loop ∨ sch = .butterfly → lib.Lawful)
    (hlib' : sch = .loop ∨ sch = .butterfly → lib'.Lawful) (L : Nat) :
    ∀ {ρ : PId → PId} {m m' : Mesh P D} {sel sel' : List CId}, OtherSide ρ m m' → sch.Needs m → sch.Needs m' →
      (sch = .butterfly → m.Closed) → m.SelOK sel → m'.SelOK sel' → OtherSelection ρ m sel m' sel' →
      sch.IdsLeft L m sel → sch.IdsLeft L m' sel' →
      (sch = .sqrt3 ∨ (sel = [] ∧ sel' = [])) →
      ∃ out s out' s' ρ', manyLevels sch lib cosn L (m, sel) = .ok (out, s) ∧
        manyLevels sch lib' cosn L (m', sel') = .ok (out', s') ∧
        (∀ v, v < m.points.length → ρ' v = ρ v) ∧ OtherSide ρ' out out' := by
  induction L with
  | zero => exact fun R _ _ _ _ _ _ _ _ _ => ⟨_, _, _, _, _, rfl, rfl, fun _ _ => rfl, R⟩
  | succ L ih =>
    intro ρ m m' sel sel' R hn hn' hc hs hs' S hid hid' hor
    obtain ⟨m1, s1, h1, hn1, hs1, hid1, hu1, -⟩ := oneLevel_ok cosn hlib hn hs hid
    obtain ⟨m2, s2, h2, hn2, hs2, hid2, hu2, -⟩ := oneLevel_ok cosn hlib' hn' hs' hid'
    have h1' := h1
    have h2' := h2
    unfold oneLevel at h1' h2'
    rcases c1 : cellUpdate sch lib cosn (Filt.new.setCells sel) m with ⟨r1, f1⟩
    rcases c2 : cellUpdate sch lib' cosn (Filt.new.setCells sel') m' with ⟨r2, f2⟩
    simp only [c1] at h1'
    simp only [c2] at h2'
    cases r1 with
    | error e => cases h1'
    | ok o1 =>
    cases r2 with
    | error e => cases h2'
    | ok o2 =>
    obtain ⟨rfl, rfl⟩ := Prod.mk.inj (Except.ok.inj h1')
    obtain ⟨rfl, rfl⟩ := Prod.mk.inj (Except.ok.inj h2')
    have key : ∃ ρ', (∀ v, v < m.points.length → ρ' v = ρ v) ∧ OtherSide ρ' o1 o2 ∧
        OtherSelection ρ' o1 f1.cells o2 f2.cells ∧
        (sch = .sqrt3 ∨ (f1.cells = [] ∧ f2.cells = [])) := by
      by_cases h3 : sch = .sqrt3
      · subst h3
        obtain ⟨ρ', k1, k2, k3⟩ := sqrt3Update_mirror (f := Filt.new.setCells sel) (g := Filt.new.setCells sel') R hn.valid
          hn'.valid hs hs' S (IdsLeft.now hid rfl) (IdsLeft.now hid' rfl) c1 c2
        exact ⟨ρ', k1, k2, k3, Or.inl rfl⟩
      · obtain ⟨ρ', k1, k2, k3⟩ := cellUpdate_mirror (f := Filt.new.setCells sel) (g := Filt.new.setCells sel') h3 R hn
          hn' hc (fun _ => ⟨rfl, rfl⟩) hs hs' S (by
            rcases hor with h | ⟨h, -⟩
            · exact absurd h h3
            · intro t ht hx
              have : (Filt.new.setCells sel).cells = [] := h
              rw [this, shared_all m ht] at hx
              cases hx) c1 c2
        refine ⟨ρ', k1, k2, k3, Or.inr ?_⟩
        rcases hor with h | ⟨h, h'⟩
        · exact absurd h h3
        · exact ⟨(hu1 h).1, (hu2 h').1⟩
    obtain ⟨ρ', k1, k2, k3, k4⟩ := key
    have hc1 : sch = .butterfly → o1.Closed := by
      rintro rfl
      exact (C18_boundary_preserved (by decide) hn (f := Filt.new.setCells sel) hs c1).2.1 (hc rfl)
    obtain ⟨out, s, out', s', ρ'', e1, e2, e3, e4⟩ := ih k2 hn1 hn2 hc1 hs1 hs2 k3 hid1 hid2 k4
    refine ⟨out, s, out', s', ρ'', ?_, ?_, ?_, e4⟩
    · unfold manyLevels; rw [h1]; exact e1
    · unfold manyLevels; rw [h2]; exact e2
    · intro v hv
      have hle : m.points.length ≤ o1.points.length := by
        by_cases h3 : sch = .sqrt3
        · subst h3
          have A := sqrt3Update_result hn.valid (f := Filt.new.setCells sel) hs (IdsLeft.now hid rfl) c1
          rw [A.points, AMap.length_dense]; exact A.longer
        · have A := (cellUpdate_result h3 hn (f := Filt.new.setCells sel) hs c1).1
          rw [A.points, AMap.length_dense]; exact A.longer
      rw [e3 v (Nat.lt_of_lt_of_le hv hle), k1 v hv]

/-- C63 for the iterative filter, any number of levels: SquareThree always; the other schemes if nothing is selected.  The
filters complete. -/
theorem C63_other_side_iterative_partial {sch : Scheme} (hlib : sch = .loop ∨ sch = .butterfly → lib.Lawful)
    (hlib' : sch = .loop ∨ sch = .butterfly → lib'.Lawful) (cosn : Nat → K) (R : OtherSide ρ m m') (hn : sch.Needs m)
    (hn' : sch.Needs m') (hc : sch = .butterfly → m.Closed) {f g : Iter} (hL : max 1 g.levels = max 1 f.levels)
    (hsel : m.SelOK f.cells) (hsel' : m'.SelOK g.cells) (S : OtherSelection ρ m f.cells m' g.cells)
    (hid : sch.IdsLeft (max 1 f.levels) m f.cells) (hid' : sch.IdsLeft (max 1 g.levels) m' g.cells)
    (hor : sch = .sqrt3 ∨ (f.cells = [] ∧ g.cells = [])) :
    ∃ out out' ρ', (iterUpdate sch lib cosn f m).1 = .ok out ∧ (iterUpdate sch lib' cosn g m').1 = .ok out' ∧
      (∀ v, v < m.points.length → ρ' v = ρ v) ∧ OtherSide ρ' out out' := by
  rw [hL] at hid'
  obtain ⟨out, s, out', s', ρ', h1, h2, h3, h4⟩ := manyLevels_mirror (cosn := cosn) hlib hlib' (max 1 f.levels) R hn hn' hc
    hsel hsel' S hid hid' hor
  refine ⟨out, out', ρ', ?_, ?_, h3, h4⟩
  · rw [iterUpdate_eq, ← levelsOf_eq, h1]; rfl
  · rw [iterUpdate_eq, ← levelsOf_eq, hL, h2]; rfl

end sides

section symmetric
variable {K P D : Type} [Field K] [CharZero K] [AddCommGroup P] [Module K P]
variable {lib : QELib} {ρ : PId → PId} {m : Mesh P D}

theorem mapPoints_tris (φ : P → P) : (m.mapPoints φ).tris = m.tris := rfl

theorem mapPoints_closed (φ : P → P) (h : m.Closed) : (m.mapPoints φ).Closed := h

theorem Scheme.IdsLeft.mapPoints {sch : Scheme} {L : Nat} {sel : List CId} (φ : P → P) (h : sch.IdsLeft L m sel) :
    sch.IdsLeft L (m.mapPoints φ) sel := by
  intro hs
  rw [mapPoints_length]
  exact h hs

/-- C63, symmetric surfaces: if an affine map takes the surface to itself, it takes the subdivided surface to itself, and the
corners of the input are permuted as before.  Any number of levels of any scheme.  (Loop: a boundary that does not touch
itself, see C19.  Butterfly: closed meshes.) -/
theorem C63_symmetric_iterative_partial {sch : Scheme} (hlib : sch = .loop ∨ sch = .butterfly → lib.Lawful) (cosn : Nat → K)
    (hn : sch.Needs m) (hc : sch = .butterfly → m.Closed) (hsb : sch = .loop → m.SimpleBoundary) {f : Iter}
    (hf : f.cells = []) (hid : sch.IdsLeft (max 1 f.levels) m []) (φ : P →ᵃ[K] P) (R : m.SymmetricBy φ ρ) :
    ∃ out ρ', (iterUpdate sch lib cosn f m).1 = .ok out ∧ out.SymmetricBy φ ρ' ∧
      ∀ v, v < m.points.length → ρ' v = ρ v := by
  have hs : m.SelOK f.cells := by rw [hf]; exact selOK_nil _
  obtain ⟨out, h1, h2⟩ := C19_affine_iterative_partial hlib cosn hn hsb hs (by rw [hf]; exact hid) φ
  obtain ⟨o1, o2, ρ', k1, k2, k3, k4⟩ := C58_listing_iterative_partial (lib := lib) (lib' := lib) hlib hlib cosn R hn.mapPoints hn
    hc (f := f) (g := f) rfl (by rw [hf]; exact selOK_nil _) hs
    (by rw [hf]; exact selected_all R) (by rw [hf]; exact hid.mapPoints φ) (by rw [hf]; exact hid)
    (Or.inr (Or.inl ⟨hf, hf⟩))
  obtain rfl := Except.ok.inj (h1.symm.trans k2)
  obtain rfl := Except.ok.inj (h2.symm.trans k1)
  exact ⟨out, ρ', h1, k4, fun v hv => k3 v (by rw [mapPoints_length]; exact hv)⟩

/-- C63, mirror symmetric surfaces: the map reverses the orientation of the triangles. -/
theorem C63_mirrored_iterative_partial {sch : Scheme} (hlib : sch = .loop ∨ sch = .butterfly → lib.Lawful) (cosn : Nat → K)
    (hn : sch.Needs m) (hc : sch = .butterfly → m.Closed) (hsb : sch = .loop → m.SimpleBoundary) {f : Iter}
    (hf : f.cells = []) (hid : sch.IdsLeft (max 1 f.levels) m []) (φ : P →ᵃ[K] P) (R : m.MirroredBy φ ρ) :
    ∃ out ρ', (iterUpdate sch lib cosn f m).1 = .ok out ∧ out.MirroredBy φ ρ' ∧
      ∀ v, v < m.points.length → ρ' v = ρ v := by
  have hs : m.SelOK f.cells := by rw [hf]; exact selOK_nil _
  obtain ⟨out, h1, h2⟩ := C19_affine_iterative_partial hlib cosn hn hsb hs (by rw [hf]; exact hid) φ
  obtain ⟨o1, o2, ρ', k1, k2, k3, k4⟩ := C63_other_side_iterative_partial (lib := lib) (lib' := lib) hlib hlib cosn R hn.mapPoints
    hn hc (f := f) (g := f) rfl (by rw [hf]; exact selOK_nil _) hs
    (by rw [hf]; exact other_all R) (by rw [hf]; exact hid.mapPoints φ) (by rw [hf]; exact hid) (Or.inr ⟨hf, hf⟩)
  obtain rfl := Except.ok.inj (h1.symm.trans k2)
  obtain rfl := Except.ok.inj (h2.symm.trans k1)
  exact ⟨out, ρ', h1, k4, fun v hv => k3 v (by rw [mapPoints_length]; exact hv)⟩

end symmetric

/-- it is enough to look at the lists of the cells -/
theorem otherSide_of {P D : Type} {m m' : Mesh P D} {ρ : PId → PId} {T T' : List Tri} (hT : m.tris = T) (hT' : m'.tris = T')
    (h1 : ∀ t ∈ T, HasTri T' (ρ t.2.2) (ρ t.2.1) (ρ t.1))
    (h2 : ∀ t' ∈ T', ∃ t ∈ T, (t.rename ρ).Is t'.2.2 t'.2.1 t'.1)
    (h3 : ∀ t ∈ T, ∀ t' ∈ T, ∀ v ∈ t.verts, ∀ w ∈ t'.verts, ρ v = ρ w → v = w)
    (h4 : ∀ t ∈ T, ∀ v ∈ t.verts, m'.pos (ρ v) = m.pos v) : OtherSide ρ m m' := by
  subst hT hT'
  refine ⟨?_, ?_, h3, h4⟩
  · intro x y z h
    obtain ⟨t, ht, hi⟩ := hasTri_iff.1 h
    have := h1 t ht
    rcases hi with rfl | rfl | rfl
    · exact this
    · exact this.rot
    · exact this.rot.rot
  · intro x' y' z' h
    obtain ⟨t', ht', hi'⟩ := hasTri_iff.1 h
    obtain ⟨t, ht, hi⟩ := h2 t' ht'
    obtain ⟨a', b', c'⟩ := t'
    obtain ⟨a, b, c⟩ := t
    have h0 : HasTri m.tris a b c := Or.inl ht
    simp only [Tri.Is, Tri.rename, Prod.mk.injEq] at hi hi'
    rcases hi with ⟨rfl, rfl, rfl⟩ | ⟨rfl, rfl, rfl⟩ | ⟨rfl, rfl, rfl⟩ <;>
      rcases hi' with ⟨rfl, rfl, rfl⟩ | ⟨rfl, rfl, rfl⟩ | ⟨rfl, rfl, rfl⟩ <;>
      first
      | exact ⟨_, _, _, h0, rfl, rfl, rfl⟩
      | exact ⟨_, _, _, h0.rot, rfl, rfl, rfl⟩
      | exact ⟨_, _, _, h0.rot.rot, rfl, rfl, rfl⟩

theorem otherSelection_of {P D : Type} {m m' : Mesh P D} {ρ : PId → PId} {T : List Tri} (hT : m.tris = T) {sel sel' : List CId}
    (h : ∀ t ∈ T, (HasTri (m'.selected sel') (ρ t.2.2) (ρ t.2.1) (ρ t.1) ↔ HasTri (m.selected sel) t.1 t.2.1 t.2.2)) :
    OtherSelection ρ m sel m' sel' := by
  subst hT
  intro x y z hx
  obtain ⟨t, ht, hi⟩ := hasTri_iff.1 hx
  have := h t ht
  rcases hi with rfl | rfl | rfl
  · exact this
  · exact ⟨fun k => (this.1 k.rot.rot).rot.rot, fun k => (this.2 k.rot).rot⟩
  · exact ⟨fun k => (this.1 k.rot).rot, fun k => (this.2 k.rot.rot).rot.rot⟩

/-- the tetrahedron turned inside out, with other ids and another order of the cells -/
def tetraBack : Mesh Q3 Nat :=
  mk [(0, 4, 0), (4, 0, 0), (0, 0, 0), (0, 0, 4)] [(0, 3, 1), (1, 2, 0), (2, 1, 3), (2, 3, 0)] none

theorem tetraBack_ok : tetraBack.Valid ∧ tetraBack.RingOK ∧ tetraBack.NoIsolated ∧
    tetraBack.tris = [(0, 3, 1), (1, 2, 0), (2, 1, 3), (2, 3, 0)] := mk_ok _ (by decide)

theorem tetraBack_needs (sch : Scheme) : sch.Needs tetraBack :=
  ⟨tetraBack_ok.1, fun _ => tetraBack_ok.2.1, fun _ => tetraBack_ok.2.2.1⟩

theorem tetraBack_other : OtherSide swap02 tetraMesh tetraBack := by
  refine otherSide_of tetraMesh_ok.2.2.2 tetraBack_ok.2.2.2 ?_ ?_ ?_ ?_
  · unfold HasTri; decide
  · unfold Tri.Is; decide
  · decide
  · decide +kernel

theorem tetraBack_selection : OtherSelection swap02 tetraMesh [0] tetraBack [1] := by
  refine otherSelection_of tetraMesh_ok.2.2.2 ?_
  unfold HasTri
  decide +kernel

/-- one cell is selected; the others have one split edge -/
example (sch : Scheme) (hs : sch ≠ .sqrt3) : ∃ out f' out' g' ρ',
    cellUpdate sch someLib cos0 (Filt.new.setCells [0]) tetraMesh = (.ok out, f') ∧
    cellUpdate sch someLib cos0 (Filt.new.setCells [1]) tetraBack = (.ok out', g') ∧ OtherSide ρ' out out' := by
  have s1 : tetraMesh.SelOK [0] := by unfold Mesh.SelOK; decide
  have s2 : tetraBack.SelOK [1] := by unfold Mesh.SelOK; decide
  obtain ⟨out, f', h, -⟩ := cellUpdate_ok hs someLib cos0 (f := Filt.new.setCells [0]) (tetraMesh_needs sch) s1
  obtain ⟨out', g', h', -⟩ := cellUpdate_ok hs someLib cos0 (f := Filt.new.setCells [1]) (tetraBack_needs sch) s2
  obtain ⟨ρ', -, h1, -⟩ := C63_other_side_partial hs tetraBack_other (tetraMesh_needs sch) (tetraBack_needs sch)
    (fun _ => tetraMesh_closed) (fun _ => ⟨rfl, rfl⟩) s1 s2 tetraBack_selection
    (by rw [tetraMesh_ok.2.2.2]; decide +kernel) h h'
  exact ⟨out, f', out', g', ρ', h, h', h1⟩

example (sch : Scheme) (hs : sch ≠ .sqrt3) : ∃ out f' out' g' ρ',
    cellUpdate sch someLib cos0 Filt.new tetraMesh = (.ok out, f') ∧
    cellUpdate sch someLib cos0 Filt.new tetraBack = (.ok out', g') ∧ OtherSide ρ' out out' := by
  obtain ⟨out, f', h, -⟩ := cellUpdate_ok hs someLib cos0 (f := Filt.new) (tetraMesh_needs sch) (selOK_nil _)
  obtain ⟨out', g', h', -⟩ := cellUpdate_ok hs someLib cos0 (f := Filt.new) (tetraBack_needs sch) (selOK_nil _)
  obtain ⟨ρ', -, h1⟩ := C63_other_side_uniform hs tetraBack_other (tetraMesh_needs sch) (tetraBack_needs sch)
    (fun _ => tetraMesh_closed) (fun _ => ⟨rfl, rfl⟩) rfl rfl h h'
  exact ⟨out, f', out', g', ρ', h, h', h1⟩

example : ∃ out f' out' g' ρ',
    cellUpdate .sqrt3 someLib cos0 (usedFilt [0]) tetraMesh = (.ok out, f') ∧
    cellUpdate .sqrt3 someLib cos0 (usedFilt [1]) tetraBack = (.ok out', g') ∧ OtherSide ρ' out out' := by
  have s1 : tetraMesh.SelOK [0] := by unfold Mesh.SelOK; decide
  have s2 : tetraBack.SelOK [1] := by unfold Mesh.SelOK; decide
  obtain ⟨out, f', h, -⟩ := sqrt3Update_ok tetraMesh_ok.1 someLib cos0 (f := usedFilt [0]) s1 (by decide)
  obtain ⟨out', g', h', -⟩ := sqrt3Update_ok tetraBack_ok.1 someLib cos0 (f := usedFilt [1]) s2 (by decide)
  obtain ⟨ρ', -, h1, -⟩ := C63_other_side_sqrt3 tetraBack_other tetraMesh_ok.1 tetraBack_ok.1 (f := usedFilt [0])
    (g := usedFilt [1]) s1 s2 tetraBack_selection (by decide) (by decide) h h'
  exact ⟨out, f', out', g', ρ', h, h', h1⟩

/-- an edge filter with one edge -/
example (sch : EdgeScheme) : ∃ out f' out' g' ρ',
    edgeUpdate sch someLib cos0 (Filt.new.setEdges [some (0, 1)]) tetraMesh = (.ok out, f') ∧
    edgeUpdate sch someLib cos0 (Filt.new.setEdges [some (2, 1)]) tetraBack = (.ok out', g') ∧ OtherSide ρ' out out' := by
  have e1 : tetraMesh.EdgeSelOK [some (0, 1)] := by
    intro e he
    simp only [List.mem_cons, Option.some.injEq, List.not_mem_nil, or_false] at he
    subst he; unfold Mesh.IsEdge; decide +kernel
  have e2 : tetraBack.EdgeSelOK [some (2, 1)] := by
    intro e he
    simp only [List.mem_cons, Option.some.injEq, List.not_mem_nil, or_false] at he
    subst he; unfold Mesh.IsEdge; decide +kernel
  have hS : SameSplits swap02 tetraMesh [some (0, 1)] tetraBack [some (2, 1)] := by
    have key : ∀ e ∈ tetraMesh.edges ++ tetraMesh.edges.map Edge.sym,
        ((e.rename swap02 ∈ tetraBack.selectedEdges [some (2, 1)] ∨ (e.rename swap02).sym ∈ tetraBack.selectedEdges [some (2, 1)]) ↔
        (e ∈ tetraMesh.selectedEdges [some (0, 1)] ∨ e.sym ∈ tetraMesh.selectedEdges [some (0, 1)])) := by decide +kernel
    rintro e (he | he)
    · exact key e (List.mem_append_left _ he)
    · exact key e (List.mem_append_right _ (List.mem_map.2 ⟨e.sym, he, Edge.sym_sym e⟩))
  have hn : sch.toScheme.Needs tetraMesh := tetraMesh_needs _
  have hn' : sch.toScheme.Needs tetraBack := tetraBack_needs _
  obtain ⟨out, f', h, -⟩ := edgeUpdate_ok someLib cos0 (f := Filt.new.setEdges [some (0, 1)]) hn e1
  obtain ⟨out', g', h', -⟩ := edgeUpdate_ok someLib cos0 (f := Filt.new.setEdges [some (2, 1)]) hn' e2
  obtain ⟨ρ', -, h1⟩ := C63_other_side_edge_partial tetraBack_other hn hn' (fun _ => tetraMesh_closed)
    (f := Filt.new.setEdges [some (0, 1)]) (g := Filt.new.setEdges [some (2, 1)]) e1 e2 hS
    (by rw [tetraMesh_ok.2.2.2]; decide +kernel) h h'
  exact ⟨out, f', out', g', ρ', h, h', h1⟩

/-- all schemes, five levels -/
example (sch : Scheme) : ∃ out out' ρ', (iterUpdate sch someLib cos0 ⟨[], 5, []⟩ tetraMesh).1 = .ok out ∧
    (iterUpdate sch someLib cos0 ⟨[], 5, []⟩ tetraBack).1 = .ok out' ∧ OtherSide ρ' out out' := by
  obtain ⟨out, out', ρ', h1, h2, -, h3⟩ := C63_other_side_iterative_partial (f := ⟨[], 5, []⟩) (g := ⟨[], 5, []⟩)
    (fun _ => someLib_lawful) (fun _ => someLib_lawful) cos0 tetraBack_other (tetraMesh_needs sch) (tetraBack_needs sch)
    (fun _ => tetraMesh_closed) rfl (selOK_nil _) (selOK_nil _) (other_all tetraBack_other)
    (fun _ => by decide) (fun _ => by decide) (Or.inr ⟨rfl, rfl⟩)
  exact ⟨out, out', ρ', h1, h2, h3⟩

/-- the rotation of space that permutes the axes, and the reflection that exchanges two of them -/
def turnAxes : Q3 →ᵃ[ℚ] Q3 :=
  LinearMap.toAffineMap ⟨⟨fun p => (p.2.2, p.1, p.2.1), fun _ _ => rfl⟩, fun _ _ => rfl⟩
def swapAxes : Q3 →ᵃ[ℚ] Q3 :=
  LinearMap.toAffineMap ⟨⟨fun p => (p.2.1, p.1, p.2.2), fun _ _ => rfl⟩, fun _ _ => rfl⟩

def turn123 (v : PId) : PId := if v = 1 then 2 else if v = 2 then 3 else if v = 3 then 1 else v
def swap12 (v : PId) : PId := if v = 1 then 2 else if v = 2 then 1 else v

theorem tetraMesh_turn : tetraMesh.SymmetricBy turnAxes turn123 := by
  refine sameSurface_of tetraMesh_ok.2.2.2 tetraMesh_ok.2.2.2 ?_ ?_ ?_ ?_
  · unfold HasTri; decide
  · unfold Tri.Is; decide
  · decide
  · decide +kernel

theorem tetraMesh_mirror : tetraMesh.MirroredBy swapAxes swap12 := by
  refine otherSide_of tetraMesh_ok.2.2.2 tetraMesh_ok.2.2.2 ?_ ?_ ?_ ?_
  · unfold HasTri; decide
  · unfold Tri.Is; decide
  · decide
  · decide +kernel

theorem tetraMesh_simple : tetraMesh.SimpleBoundary := fun e _ he => absurd he (tetraMesh_closed e)

/-- four levels of any scheme keep the symmetries of the tetrahedron -/
example (sch : Scheme) : ∃ out ρ' ρ'', (iterUpdate sch someLib cos0 ⟨[], 4, []⟩ tetraMesh).1 = .ok out ∧
    out.SymmetricBy turnAxes ρ' ∧ out.MirroredBy swapAxes ρ'' := by
  obtain ⟨out, ρ', h1, h2, -⟩ := C63_symmetric_iterative_partial (f := ⟨[], 4, []⟩) (fun _ => someLib_lawful) cos0
    (tetraMesh_needs sch) (fun _ => tetraMesh_closed) (fun _ => tetraMesh_simple) rfl (fun _ => by decide) turnAxes tetraMesh_turn
  obtain ⟨out', ρ'', k1, k2, -⟩ := C63_mirrored_iterative_partial (f := ⟨[], 4, []⟩) (fun _ => someLib_lawful) cos0
    (tetraMesh_needs sch) (fun _ => tetraMesh_closed) (fun _ => tetraMesh_simple) rfl (fun _ => by decide) swapAxes tetraMesh_mirror
  obtain rfl := Except.ok.inj (h1.symm.trans k1)
  exact ⟨out, ρ', ρ'', h1, h2, k2⟩

end Verif
