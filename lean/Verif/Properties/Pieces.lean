import Verif.Proofs.PiecesLeft
import Verif.Properties.Listing
/-
C77: the pieces of a mesh do not influence one another.
-/
namespace Verif
set_option linter.unusedSectionVars false
variable {K P D : Type} [Field K] [AddCommGroup P] [Module K P]
variable {lib lib' lib₁ lib₂ : QELib} {cosn : Nat → K} {ρ ρ₁ ρ₂ : PId → PId} {m m' m₁ m₂ out out' o₁ o₂ : Mesh P D}
  {f f' f₁ f₂ f₁' f₂' g g' : Filt}

/-- C77. `m` is a piece of `m'`: there are other triangles in `m'`, which have no corner in common with those of `m`.  Then
the run on `m` yields a piece of what the run on `m'` yields, whatever the rest of `m'` is and whatever is selected in it.
(Conditions as in C58: the selected triangles of the piece are the same; Butterfly: the piece is closed, Loop: objects that smooth all points;
cells begin at corresponding corners, or nothing is selected, or the scheme is SquareThree.) -/
theorem C77_piece {sch : Scheme} (R : PieceOf ρ m m') (hn : sch.Needs m) (hn' : sch.Needs m')
    (hc : sch = .butterfly → m.Closed) (hl : sch = .loop → f.uniform = true ∧ g.uniform = true)
    (hsel : m.SelOK f.cells) (hsel' : m'.SelOK g.cells) (S : SameSelection ρ m f.cells m' g.cells)
    (hmax : sch = .sqrt3 → m.points.length + (m.selected f.cells).length ≤ idMax)
    (hmax' : sch = .sqrt3 → m'.points.length + (m'.selected g.cells).length ≤ idMax)
    (hor : sch = .sqrt3 ∨ f.cells = [] ∨ SameStarts ρ m m')
    (h : cellUpdate sch lib cosn f m = (.ok out, f')) (h' : cellUpdate sch lib' cosn g m' = (.ok out', g')) :
    ∃ ρ', (∀ v, v < m.points.length → ρ' v = ρ v) ∧ PieceOf ρ' out out' ∧ SameSelection ρ' out f'.cells out' g'.cells := by
  obtain ⟨ρ', h1, h2, h3, -⟩ := level_piece R hn hn' hc hl hsel hsel' S hmax hmax' hor h h'
  exact ⟨ρ', h1, h2, h3⟩

/-- C77, the whole mesh: if `m` consists of `m₁` and `m₂`, then what a run yields on `m` consists of what it yields on `m₁`
and on `m₂`, and nothing else. -/
theorem C77_two_pieces {sch : Scheme} (T : TwoPieces ρ₁ ρ₂ m₁ m₂ m) (hn₁ : sch.Needs m₁) (hn₂ : sch.Needs m₂)
    (hn : sch.Needs m) (hc : sch = .butterfly → m₁.Closed ∧ m₂.Closed)
    (hl : sch = .loop → f₁.uniform = true ∧ f₂.uniform = true ∧ f.uniform = true)
    (hsel₁ : m₁.SelOK f₁.cells) (hsel₂ : m₂.SelOK f₂.cells) (hsel : m.SelOK f.cells)
    (S₁ : SameSelection ρ₁ m₁ f₁.cells m f.cells) (S₂ : SameSelection ρ₂ m₂ f₂.cells m f.cells)
    (hmax₁ : sch = .sqrt3 → m₁.points.length + (m₁.selected f₁.cells).length ≤ idMax)
    (hmax₂ : sch = .sqrt3 → m₂.points.length + (m₂.selected f₂.cells).length ≤ idMax)
    (hmax : sch = .sqrt3 → m.points.length + (m.selected f.cells).length ≤ idMax)
    (hor₁ : sch = .sqrt3 ∨ f₁.cells = [] ∨ SameStarts ρ₁ m₁ m) (hor₂ : sch = .sqrt3 ∨ f₂.cells = [] ∨ SameStarts ρ₂ m₂ m)
    (h₁ : cellUpdate sch lib₁ cosn f₁ m₁ = (.ok o₁, f₁')) (h₂ : cellUpdate sch lib₂ cosn f₂ m₂ = (.ok o₂, f₂'))
    (h : cellUpdate sch lib cosn f m = (.ok out, f')) :
    ∃ ρ₁' ρ₂', (∀ v, v < m₁.points.length → ρ₁' v = ρ₁ v) ∧ (∀ v, v < m₂.points.length → ρ₂' v = ρ₂ v) ∧
      TwoPieces ρ₁' ρ₂' o₁ o₂ out ∧
      SameSelection ρ₁' o₁ f₁'.cells out f'.cells ∧ SameSelection ρ₂' o₂ f₂'.cells out f'.cells := by
  obtain ⟨σ₁, a1, a2, a3, -, a4⟩ := level_piece T.fst hn₁ hn (fun h => (hc h).1) (fun h => ⟨(hl h).1, (hl h).2.2⟩) hsel₁ hsel S₁
    hmax₁ hmax hor₁ h₁ h
  obtain ⟨σ₂, b1, b2, b3, -, b4⟩ := level_piece T.snd hn₂ hn (fun h => (hc h).2) (fun h => (hl h).2) hsel₂ hsel S₂
    hmax₂ hmax hor₂ h₂ h
  refine ⟨σ₁, σ₂, a1, b1, ⟨a2, b2, fun d hd => ?_, fun d hd hx => ?_⟩, a3, b3⟩ <;>
    obtain ⟨t, ht, hf⟩ := level_from hn hsel hmax h hd
  · exact (T.all t ht).imp (a4 t d hf).2 (b4 t d hf).2
  · exact T.apart t ht ⟨(a4 t d hf).1 hx.1, (b4 t d hf).1 hx.2⟩

/-- C77, edge filters. -/
theorem C77_two_pieces_edge {sch : EdgeScheme} (T : TwoPieces ρ₁ ρ₂ m₁ m₂ m) (hn₁ : sch.toScheme.Needs m₁)
    (hn₂ : sch.toScheme.Needs m₂) (hn : sch.toScheme.Needs m) (hc : sch = .butterfly → m₁.Closed ∧ m₂.Closed)
    (hsel₁ : m₁.EdgeSelOK f₁.edgeSel) (hsel₂ : m₂.EdgeSelOK f₂.edgeSel) (hsel : m.EdgeSelOK f.edgeSel)
    (S₁ : SameSplits ρ₁ m₁ f₁.edgeSel m f.edgeSel) (S₂ : SameSplits ρ₂ m₂ f₂.edgeSel m f.edgeSel)
    (hrot₁ : ∀ t ∈ m₁.tris, (t.splitEdges (m₁.selectedEdges f₁.edgeSel)).length = 2 → t.rename ρ₁ ∈ m.tris)
    (hrot₂ : ∀ t ∈ m₂.tris, (t.splitEdges (m₂.selectedEdges f₂.edgeSel)).length = 2 → t.rename ρ₂ ∈ m.tris)
    (h₁ : edgeUpdate sch lib₁ cosn f₁ m₁ = (.ok o₁, f₁')) (h₂ : edgeUpdate sch lib₂ cosn f₂ m₂ = (.ok o₂, f₂'))
    (h : edgeUpdate sch lib cosn f m = (.ok out, f')) :
    ∃ ρ₁' ρ₂', (∀ v, v < m₁.points.length → ρ₁' v = ρ₁ v) ∧ (∀ v, v < m₂.points.length → ρ₂' v = ρ₂ v) ∧
      TwoPieces ρ₁' ρ₂' o₁ o₂ out := by
  obtain ⟨σ₁, a1, a2, -, a4⟩ := edgeUpdate_listing T.fst hn₁ hn (fun h => (hc h).1) hsel₁ hsel S₁ hrot₁ h₁ h
  obtain ⟨σ₂, b1, b2, -, b4⟩ := edgeUpdate_listing T.snd hn₂ hn (fun h => (hc h).2) hsel₂ hsel S₂ hrot₂ h₂ h
  refine ⟨σ₁, σ₂, a1, b1, ⟨a2, b2, fun d hd => ?_, fun d hd hx => ?_⟩⟩ <;>
    (rw [(edgeUpdate_result hn hsel h).tris] at hd; obtain ⟨t, ht, hd⟩ := List.mem_flatMap.1 hd)
  · exact (T.all t ht).imp (a4 t ht d hd).2 (b4 t ht d hd).2
  · exact T.apart t ht ⟨(a4 t ht d hd).1 hx.1, (b4 t ht d hd).1 hx.2⟩

/-- C77, the iterative filter: any number of levels.  The filters complete. -/
theorem C77_two_pieces_iterative {sch : Scheme} (hlib₁ : sch = .loop ∨ sch = .butterfly → lib₁.Lawful)
    (hlib₂ : sch = .loop ∨ sch = .butterfly → lib₂.Lawful) (hlib : sch = .loop ∨ sch = .butterfly → lib.Lawful)
    (cosn : Nat → K) (T : TwoPieces ρ₁ ρ₂ m₁ m₂ m) (hn₁ : sch.Needs m₁) (hn₂ : sch.Needs m₂) (hn : sch.Needs m)
    (hc : sch = .butterfly → m₁.Closed ∧ m₂.Closed) {f₁ f₂ f : Iter} (hL₁ : max 1 f₁.levels = max 1 f.levels)
    (hL₂ : max 1 f₂.levels = max 1 f.levels) (hsel₁ : m₁.SelOK f₁.cells) (hsel₂ : m₂.SelOK f₂.cells) (hsel : m.SelOK f.cells)
    (S₁ : SameSelection ρ₁ m₁ f₁.cells m f.cells) (S₂ : SameSelection ρ₂ m₂ f₂.cells m f.cells)
    (hid₁ : sch.IdsLeft (max 1 f.levels) m₁ f₁.cells) (hid₂ : sch.IdsLeft (max 1 f.levels) m₂ f₂.cells)
    (hid : sch.IdsLeft (max 1 f.levels) m f.cells)
    (hor₁ : sch = .sqrt3 ∨ f₁.cells = [] ∨ SameStarts ρ₁ m₁ m) (hor₂ : sch = .sqrt3 ∨ f₂.cells = [] ∨ SameStarts ρ₂ m₂ m) :
    ∃ o₁ o₂ out ρ₁' ρ₂', (iterUpdate sch lib₁ cosn f₁ m₁).1 = .ok o₁ ∧ (iterUpdate sch lib₂ cosn f₂ m₂).1 = .ok o₂ ∧
      (iterUpdate sch lib cosn f m).1 = .ok out ∧ (∀ v, v < m₁.points.length → ρ₁' v = ρ₁ v) ∧
      (∀ v, v < m₂.points.length → ρ₂' v = ρ₂ v) ∧ TwoPieces ρ₁' ρ₂' o₁ o₂ out := by
  obtain ⟨o₁, t₁, o₂, t₂, out, t, σ₁, σ₂, e1, e2, e3, e4⟩ := manyLevels_two (cosn := cosn) hlib₁ hlib₂ hlib (max 1 f.levels)
    { needs := hn₁, listed := hsel₁, ids := hid₁, piece := T.fst, closed := fun h => (hc h).1, same := S₁, starts := hor₁ }
    { needs := hn₂, listed := hsel₂, ids := hid₂, piece := T.snd, closed := fun h => (hc h).2, same := S₂, starts := hor₂ }
    ⟨hn, hsel, hid⟩ T
  refine ⟨o₁, o₂, out, σ₁, σ₂, ?_, ?_, ?_, e4⟩
  · rw [iterUpdate_eq, ← levelsOf_eq, hL₁, e1]; rfl
  · rw [iterUpdate_eq, ← levelsOf_eq, hL₂, e2]; rfl
  · rw [iterUpdate_eq, ← levelsOf_eq, e3]; rfl

/-- C77, a piece of which no triangle is selected is in the output as it was: the same triangles, the same ids, the same
places; and the next run does not touch it either.  (Not Loop, which smooths the points of unselected cells or not depending
on its history, see C42.) -/
theorem C77_spared {sch : Scheme} (hs : sch ≠ .loop) (R : PieceOf ρ m m') (hn : sch.Needs m') (hsel : m'.SelOK g.cells)
    (hmax : sch = .sqrt3 → m'.points.length + (m'.selected g.cells).length ≤ idMax) (S : Spares ρ m (m'.selected g.cells))
    (h : cellUpdate sch lib cosn g m' = (.ok out', g')) :
    PieceOf ρ m out' ∧ Spares ρ m (out'.selected g'.cells) :=
  have k := level_left hs R hn hsel hmax S h
  ⟨k.1, k.2.1⟩

/-- C77, over the levels of the iterative filter. -/
theorem C77_spared_iterative {sch : Scheme} (hs : sch ≠ .loop) (hlib : sch = .loop ∨ sch = .butterfly → lib.Lawful)
    (cosn : Nat → K) (R : PieceOf ρ m m') (hn : sch.Needs m') {f : Iter} (hsel : m'.SelOK f.cells)
    (hid : sch.IdsLeft (max 1 f.levels) m' f.cells) (S : Spares ρ m (m'.selected f.cells)) :
    ∃ out', (iterUpdate sch lib cosn f m').1 = .ok out' ∧ PieceOf ρ m out' := by
  obtain ⟨out', s, h1, h2⟩ := manyLevels_left (cosn := cosn) hs hlib (max 1 f.levels) ⟨hn, hsel, hid⟩ R S
  exact ⟨out', by rw [iterUpdate_eq, ← levelsOf_eq, h1]; rfl, h2⟩

/-- C77, edge filters, Loop included: a piece without a listed edge. -/
theorem C77_spared_edge {sch : EdgeScheme} (R : PieceOf ρ m m') (hv : m.Valid) (hn : sch.toScheme.Needs m')
    (hsel : m'.EdgeSelOK g.edgeSel) (S : SparesEdges ρ m (m'.selectedEdges g.edgeSel))
    (h : edgeUpdate sch lib cosn g m' = (.ok out', g')) : PieceOf ρ m out' :=
  (edge_left R hv hn hsel S h).1

/-- it is enough to look at the lists of the cells -/
theorem twoPieces_of {T₁ T₂ T : List Tri} (h1 : m₁.tris = T₁) (h2 : m₂.tris = T₂) (h : m.tris = T)
    (s1 : ∀ t ∈ T₁, t.rename ρ₁ ∈ T) (s2 : ∀ t ∈ T₂, t.rename ρ₂ ∈ T)
    (i1 : ∀ t ∈ T₁, ∀ t' ∈ T₁, ∀ v ∈ t.verts, ∀ w ∈ t'.verts, ρ₁ v = ρ₁ w → v = w)
    (i2 : ∀ t ∈ T₂, ∀ t' ∈ T₂, ∀ v ∈ t.verts, ∀ w ∈ t'.verts, ρ₂ v = ρ₂ w → v = w)
    (p1 : ∀ t ∈ T₁, ∀ v ∈ t.verts, m.pos (ρ₁ v) = m₁.pos v) (p2 : ∀ t ∈ T₂, ∀ v ∈ t.verts, m.pos (ρ₂ v) = m₂.pos v)
    (all : ∀ t ∈ T, t ∈ T₁.map (Tri.rename ρ₁) ∨ t ∈ T₂.map (Tri.rename ρ₂))
    (ap : ∀ t ∈ T₁, ∀ t' ∈ T₂, ∀ v ∈ t.verts, ∀ w ∈ t'.verts, ρ₁ v ≠ ρ₂ w) : TwoPieces ρ₁ ρ₂ m₁ m₂ m := by
  subst h1 h2 h
  have tri : ∀ {ρ : PId → PId} {n : Mesh P D}, (∀ t ∈ n.tris, t.rename ρ ∈ m.tris) → ∀ x y z, HasTri n.tris x y z →
      HasTri m.tris (ρ x) (ρ y) (ρ z) := by
    intro ρ n hs x y z hx
    obtain ⟨t, ht, hi⟩ := hasTri_iff.1 hx
    exact hasTri_iff.2 ⟨_, hs t ht, hi.rename ρ⟩
  have back : ∀ {ρ : PId → PId} {n : Mesh P D}, (∀ t ∈ n.tris, ∀ t' ∈ n.tris, ∀ v ∈ t.verts, ∀ w ∈ t'.verts, ρ v = ρ w → v = w) →
      ∀ {x y z y' z'}, HasTri n.tris x y z → (∃ t ∈ n.tris, (t.rename ρ).Is (ρ x) y' z') →
      ∃ u w, HasTri n.tris x u w ∧ ρ u = y' ∧ ρ w = z' := by
    rintro ρ n hi x y z y' z' hx ⟨⟨a, b, c⟩, ht, hr⟩
    obtain ⟨t0, ht0, hx0⟩ := (hasTri_used hx).1
    have h0 : HasTri n.tris a b c := Or.inl ht
    simp only [Tri.Is, Tri.rename, Prod.mk.injEq] at hr
    rcases hr with ⟨e1, e2, e3⟩ | ⟨e1, e2, e3⟩ | ⟨e1, e2, e3⟩
    · obtain rfl := hi _ ht _ ht0 a (by simp [Tri.verts]) x hx0 e1
      exact ⟨b, c, h0, e2, e3⟩
    · obtain rfl := hi _ ht _ ht0 c (by simp [Tri.verts]) x hx0 e3
      exact ⟨a, b, h0.rot.rot, e1, e2⟩
    · obtain rfl := hi _ ht _ ht0 b (by simp [Tri.verts]) x hx0 e2
      exact ⟨c, a, h0.rot, e3, e1⟩
  have hv : ∀ {ρ : PId → PId} {t : Tri} {v y z}, (t.rename ρ).Is v y z → ∃ x ∈ t.verts, ρ x = v := by
    rintro ρ ⟨a, b, c⟩ v y z hi
    simp only [Tri.Is, Tri.rename, Prod.mk.injEq] at hi
    rcases hi with ⟨e1, e2, e3⟩ | ⟨e1, e2, e3⟩ | ⟨e1, e2, e3⟩
    · exact ⟨a, by simp [Tri.verts], e1⟩
    · exact ⟨c, by simp [Tri.verts], e3⟩
    · exact ⟨b, by simp [Tri.verts], e2⟩
  refine ⟨⟨tri s1, ?_, i1, p1⟩, ⟨tri s2, ?_, i2, p2⟩, ?_, ?_⟩
  · intro x y z y' z' hx hx'
    obtain ⟨t, ht, hi⟩ := hasTri_iff.1 hx'
    rcases all t ht with h | h <;> obtain ⟨t1, ht1, rfl⟩ := List.mem_map.1 h
    · exact back i1 hx ⟨t1, ht1, hi⟩
    · obtain ⟨w, hw, he⟩ := hv hi
      obtain ⟨t0, ht0, hx0⟩ := (hasTri_used hx).1
      exact absurd he.symm (ap t0 ht0 t1 ht1 x hx0 w hw)
  · intro x y z y' z' hx hx'
    obtain ⟨t, ht, hi⟩ := hasTri_iff.1 hx'
    rcases all t ht with h | h <;> obtain ⟨t1, ht1, rfl⟩ := List.mem_map.1 h
    · obtain ⟨w, hw, he⟩ := hv hi
      obtain ⟨t0, ht0, hx0⟩ := (hasTri_used hx).1
      exact absurd he (ap t1 ht1 t0 ht0 w hw x hx0)
    · exact back i2 hx ⟨t1, ht1, hi⟩
  · intro t ht
    refine (all t ht).imp (fun h => ?_) fun h => ?_ <;> obtain ⟨⟨a, b, c⟩, ht1, rfl⟩ := List.mem_map.1 h
    · exact ⟨a, b, c, Or.inl ht1, rfl⟩
    · exact ⟨a, b, c, Or.inl ht1, rfl⟩
  · rintro t ht ⟨⟨a, b, c, h1, rfl⟩, x, y, z, h2, he⟩
    obtain ⟨t0, ht0, hx0⟩ := (hasTri_used h1).1
    obtain ⟨t1, ht1, hx1⟩ := (hasTri_used h2).1
    exact ap t0 ht0 t1 ht1 a hx0 x hx1 (Prod.mk.inj he).1

def evens (v : PId) : PId := 2 * v
def odds (v : PId) : PId := 2 * v + 1

/-- `tetraMesh` and `tetraTurn` in one mesh, the ids of the points and the cells alternating.  Two tetrahedra that lie at the
same places but have nothing in common. -/
def twoMesh : Mesh Q3 Nat :=
  mk [(0, 0, 0), (0, 4, 0), (4, 0, 0), (4, 0, 0), (0, 4, 0), (0, 0, 0), (0, 0, 4), (0, 0, 4)]
    [(0, 2, 4), (3, 7, 1), (0, 4, 6), (3, 1, 5), (0, 6, 2), (7, 3, 5), (2, 6, 4), (5, 1, 7)] none

theorem twoMesh_ok : twoMesh.Valid ∧ twoMesh.RingOK ∧ twoMesh.NoIsolated ∧
    twoMesh.tris = [(0, 2, 4), (3, 7, 1), (0, 4, 6), (3, 1, 5), (0, 6, 2), (7, 3, 5), (2, 6, 4), (5, 1, 7)] :=
  mk_ok _ (by decide)

theorem twoMesh_needs (sch : Scheme) : sch.Needs twoMesh :=
  ⟨twoMesh_ok.1, fun _ => twoMesh_ok.2.1, fun _ => twoMesh_ok.2.2.1⟩

theorem twoMesh_two : TwoPieces evens odds tetraMesh tetraTurn twoMesh := by
  refine twoPieces_of tetraMesh_ok.2.2.2 tetraTurn_ok.2.2.2 twoMesh_ok.2.2.2 ?_ ?_ ?_ ?_ ?_ ?_ ?_ ?_ <;> decide +kernel

theorem tetraTurn_closed : tetraTurn.Closed := tetraTurn_same.closed tetraMesh_closed

theorem twoMesh_starts : SameStarts evens tetraMesh twoMesh ∧ SameStarts odds tetraTurn twoMesh := by
  unfold SameStarts
  rw [tetraMesh_ok.2.2.2, tetraTurn_ok.2.2.2, twoMesh_ok.2.2.2]
  decide

theorem twoMesh_fst : SameSelection evens tetraMesh [2, 0, 2] twoMesh [4, 3, 0, 5] := by
  refine sameSelection_of tetraMesh_ok.2.2.2 ?_
  unfold HasTri
  decide +kernel

theorem twoMesh_snd : SameSelection odds tetraTurn [1, 2] twoMesh [4, 3, 0, 5] := by
  refine sameSelection_of tetraTurn_ok.2.2.2 ?_
  unfold HasTri
  decide +kernel

theorem twoMesh_sel : twoMesh.SelOK [4, 3, 0, 5] := by unfold Mesh.SelOK; decide

/-- every run that is allowed completes -/
theorem cellUpdate_total {sch : Scheme} (lib : QELib) (cosn : Nat → K) {f : Filt} (hn : sch.Needs m) (hsel : m.SelOK f.cells)
    (hmax : m.points.length + (m.selected f.cells).length ≤ idMax) : ∃ out f', cellUpdate sch lib cosn f m = (.ok out, f') := by
  by_cases h3 : sch = .sqrt3
  · subst h3
    obtain ⟨out, f', h, -⟩ := sqrt3Update_ok hn.valid lib cosn (f := f) hsel hmax
    exact ⟨out, f', h⟩
  · obtain ⟨out, f', h, -⟩ := cellUpdate_ok h3 lib cosn (f := f) hn hsel
    exact ⟨out, f', h⟩

/-- all schemes; half of the triangles of either tetrahedron are selected -/
example (sch : Scheme) : ∃ o₁ f₁' o₂ f₂' out f' ρ₁' ρ₂',
    cellUpdate sch someLib cos0 (Filt.new.setCells [2, 0, 2]) tetraMesh = (.ok o₁, f₁') ∧
    cellUpdate sch someLib cos0 (Filt.new.setCells [1, 2]) tetraTurn = (.ok o₂, f₂') ∧
    cellUpdate sch someLib cos0 (Filt.new.setCells [4, 3, 0, 5]) twoMesh = (.ok out, f') ∧
    TwoPieces ρ₁' ρ₂' o₁ o₂ out := by
  obtain ⟨o₁, f₁', h₁⟩ := cellUpdate_total someLib cos0 (f := Filt.new.setCells [2, 0, 2]) (tetraMesh_needs sch) tetraMesh_sel
    (by decide)
  obtain ⟨o₂, f₂', h₂⟩ := cellUpdate_total someLib cos0 (f := Filt.new.setCells [1, 2]) (tetraTurn_needs sch) tetraTurn_sel
    (by decide)
  obtain ⟨out, f', h⟩ := cellUpdate_total someLib cos0 (f := Filt.new.setCells [4, 3, 0, 5]) (twoMesh_needs sch) twoMesh_sel
    (by decide)
  obtain ⟨ρ₁', ρ₂', -, -, k, -⟩ := C77_two_pieces twoMesh_two (tetraMesh_needs sch) (tetraTurn_needs sch) (twoMesh_needs sch)
    (fun _ => ⟨tetraMesh_closed, tetraTurn_closed⟩) (fun _ => ⟨rfl, rfl, rfl⟩) tetraMesh_sel tetraTurn_sel twoMesh_sel
    twoMesh_fst twoMesh_snd (fun _ => by decide) (fun _ => by decide) (fun _ => by decide) (Or.inr (Or.inr twoMesh_starts.1))
    (Or.inr (Or.inr twoMesh_starts.2)) h₁ h₂ h
  exact ⟨o₁, f₁', o₂, f₂', out, f', ρ₁', ρ₂', h₁, h₂, h, k⟩

/-- one of the pieces alone -/
example (sch : Scheme) : ∃ o₁ f₁' out f' ρ₁',
    cellUpdate sch someLib cos0 (Filt.new.setCells [2, 0, 2]) tetraMesh = (.ok o₁, f₁') ∧
    cellUpdate sch someLib cos0 (Filt.new.setCells [4, 3, 0, 5]) twoMesh = (.ok out, f') ∧ PieceOf ρ₁' o₁ out := by
  obtain ⟨o₁, f₁', h₁⟩ := cellUpdate_total someLib cos0 (f := Filt.new.setCells [2, 0, 2]) (tetraMesh_needs sch) tetraMesh_sel
    (by decide)
  obtain ⟨out, f', h⟩ := cellUpdate_total someLib cos0 (f := Filt.new.setCells [4, 3, 0, 5]) (twoMesh_needs sch) twoMesh_sel
    (by decide)
  obtain ⟨ρ₁', -, k, -⟩ := C77_piece twoMesh_two.fst (tetraMesh_needs sch) (twoMesh_needs sch) (fun _ => tetraMesh_closed)
    (fun _ => ⟨rfl, rfl⟩) tetraMesh_sel twoMesh_sel twoMesh_fst (fun _ => by decide) (fun _ => by decide)
    (Or.inr (Or.inr twoMesh_starts.1)) h₁ h
  exact ⟨o₁, f₁', out, f', ρ₁', h₁, h, k⟩

/-- four levels -/
example (sch : Scheme) : ∃ o₁ o₂ out ρ₁' ρ₂', (iterUpdate sch someLib cos0 ⟨[2, 0, 2], 4, []⟩ tetraMesh).1 = .ok o₁ ∧
    (iterUpdate sch someLib cos0 ⟨[1, 2], 4, []⟩ tetraTurn).1 = .ok o₂ ∧
    (iterUpdate sch someLib cos0 ⟨[4, 3, 0, 5], 4, []⟩ twoMesh).1 = .ok out ∧ TwoPieces ρ₁' ρ₂' o₁ o₂ out := by
  obtain ⟨o₁, o₂, out, ρ₁', ρ₂', h₁, h₂, h, -, -, k⟩ := C77_two_pieces_iterative (f₁ := ⟨[2, 0, 2], 4, []⟩)
    (f₂ := ⟨[1, 2], 4, []⟩) (f := ⟨[4, 3, 0, 5], 4, []⟩) (fun _ => someLib_lawful) (fun _ => someLib_lawful)
    (fun _ => someLib_lawful) cos0 twoMesh_two (tetraMesh_needs sch) (tetraTurn_needs sch) (twoMesh_needs sch)
    (fun _ => ⟨tetraMesh_closed, tetraTurn_closed⟩) rfl rfl tetraMesh_sel tetraTurn_sel twoMesh_sel
    twoMesh_fst twoMesh_snd (fun _ => by decide) (fun _ => by decide) (fun _ => by decide) (Or.inr (Or.inr twoMesh_starts.1))
    (Or.inr (Or.inr twoMesh_starts.2))
  exact ⟨o₁, o₂, out, ρ₁', ρ₂', h₁, h₂, h, k⟩

/-- an edge filter without a list splits all edges -/
example (sch : EdgeScheme) : ∃ o₁ f₁' o₂ f₂' out f' ρ₁' ρ₂', edgeUpdate sch someLib cos0 Filt.new tetraMesh = (.ok o₁, f₁') ∧
    edgeUpdate sch someLib cos0 Filt.new tetraTurn = (.ok o₂, f₂') ∧
    edgeUpdate sch someLib cos0 Filt.new twoMesh = (.ok out, f') ∧ TwoPieces ρ₁' ρ₂' o₁ o₂ out := by
  have e0 : ∀ {m : Mesh Q3 Nat}, m.EdgeSelOK [] := by intro m e he; cases he
  have all : ∀ {ρ : PId → PId} {m : Mesh Q3 Nat}, PieceOf ρ m twoMesh → m.Valid → SameSplits ρ m [] twoMesh [] :=
    fun R hv e he => ⟨fun _ => he, fun _ => R.isEdge twoMesh_ok.1 hv he⟩
  obtain ⟨o₁, f₁', h₁, -⟩ := edgeUpdate_ok (sch := sch) someLib cos0 (f := Filt.new) (tetraMesh_needs _) e0
  obtain ⟨o₂, f₂', h₂, -⟩ := edgeUpdate_ok (sch := sch) someLib cos0 (f := Filt.new) (tetraTurn_needs _) e0
  obtain ⟨out, f', h, -⟩ := edgeUpdate_ok (sch := sch) someLib cos0 (f := Filt.new) (twoMesh_needs _) e0
  obtain ⟨ρ₁', ρ₂', -, -, k⟩ := C77_two_pieces_edge twoMesh_two (tetraMesh_needs _) (tetraTurn_needs _) (twoMesh_needs _)
    (fun _ => ⟨tetraMesh_closed, tetraTurn_closed⟩) e0 e0 e0 (all twoMesh_two.fst tetraMesh_ok.1)
    (all twoMesh_two.snd tetraTurn_ok.1) (fun t ht _ => twoMesh_starts.1 t ht) (fun t ht _ => twoMesh_starts.2 t ht) h₁ h₂ h
  exact ⟨o₁, f₁', o₂, f₂', out, f', ρ₁', ρ₂', h₁, h₂, h, k⟩

theorem twoMesh_sel_fst : twoMesh.SelOK [4, 0] := by unfold Mesh.SelOK; decide

theorem twoMesh_spares : Spares odds tetraTurn (twoMesh.selected [4, 0]) := by
  have key : ∀ t ∈ tetraTurn.tris, ¬ HasTri (twoMesh.selected [4, 0]) (odds t.1) (odds t.2.1) (odds t.2.2) := by
    rw [tetraTurn_ok.2.2.2]
    unfold HasTri
    decide +kernel
  intro x y z h
  obtain ⟨t, ht, hi⟩ := hasTri_iff.1 h
  rw [← hasTri_turn (hi.rename odds)]
  exact key t ht

/-- triangles of one tetrahedron are selected; the other one stays -/
example (sch : Scheme) (hs : sch ≠ .loop) : ∃ out f',
    cellUpdate sch someLib cos0 (Filt.new.setCells [4, 0]) twoMesh = (.ok out, f') ∧ PieceOf odds tetraTurn out := by
  obtain ⟨out, f', h⟩ := cellUpdate_total someLib cos0 (f := Filt.new.setCells [4, 0]) (twoMesh_needs sch) twoMesh_sel_fst
    (by decide)
  exact ⟨out, f', h, (C77_spared hs twoMesh_two.snd (twoMesh_needs sch) (g := Filt.new.setCells [4, 0]) twoMesh_sel_fst
    (fun _ => by decide) twoMesh_spares h).1⟩

example (sch : Scheme) (hs : sch ≠ .loop) : ∃ out, (iterUpdate sch someLib cos0 ⟨[4, 0], 6, []⟩ twoMesh).1 = .ok out ∧
    PieceOf odds tetraTurn out :=
  C77_spared_iterative (f := ⟨[4, 0], 6, []⟩) hs (fun _ => someLib_lawful) cos0 twoMesh_two.snd (twoMesh_needs sch)
    twoMesh_sel_fst (fun _ => by decide) twoMesh_spares

example (sch : EdgeScheme) : ∃ out f',
    edgeUpdate sch someLib cos0 (Filt.new.setEdges [some (0, 2), some (6, 4)]) twoMesh = (.ok out, f') ∧
    PieceOf odds tetraTurn out := by
  have e1 : twoMesh.EdgeSelOK [some (0, 2), some (6, 4)] := by
    intro e he
    simp only [List.mem_cons, Option.some.injEq, List.not_mem_nil, or_false] at he
    rcases he with rfl | rfl <;> unfold Mesh.IsEdge <;> decide +kernel
  obtain ⟨out, f', h, -⟩ := edgeUpdate_ok (sch := sch) someLib cos0 (f := Filt.new.setEdges _) (twoMesh_needs _) e1
  refine ⟨out, f', h, C77_spared_edge twoMesh_two.snd tetraTurn_ok.1 (twoMesh_needs _) (g := Filt.new.setEdges _) e1 ?_ h⟩
  have key : ∀ e ∈ tetraTurn.edges ++ tetraTurn.edges.map Edge.sym,
      e.rename odds ∉ twoMesh.selectedEdges [some (0, 2), some (6, 4)] := by decide +kernel
  rintro e (he | he)
  · exact key e (List.mem_append_left _ he)
  · exact key e (List.mem_append_right _ (List.mem_map.2 ⟨e.sym, he, Edge.sym_sym e⟩))

end Verif
