import Verif.Proofs.Gaps
import Verif.Properties.Isolated
import Verif.Properties.Sqrt3
import Verif.Properties.Edge
import Verif.Properties.FaceSplit
/-
C38: point ids with gaps.
-/
namespace Verif
set_option linter.unusedSectionVars false
variable {K P D : Type} [Field K] [AddCommGroup P] [Module K P]

theorem fill_isolated {m : Mesh P D} {N : Nat} (hv : m.GapValid) {v : PId} (h : v < N) (hp : m.pos v = none) :
    (m.fill N).Isolated v := by
  refine ⟨by rw [fill_length]; exact h, ?_⟩
  intro t ht hvt
  obtain ⟨c, hc, hct⟩ := List.mem_filterMap.1 ht
  obtain ⟨t', h1, h2⟩ := hv.cells_tri c hc
  rw [h1] at hct
  have : t' = t := by simpa [Tri.cell, Cell.tri?] using hct
  subst this
  have := h2 v hvt
  rw [hp] at this
  cases this

theorem fill_renamed {m m' : Mesh P D} {N : Nat} {ρ : PId → PId} (hv : m.GapValid) (hN : m.GapsBelow N)
    (R : Renamed ρ m m') : Renamed ρ (m.fill N) m' where
  cells := R.cells
  inj := R.inj
  pos := by
    intro t ht v hvt
    rw [R.pos t ht v hvt, fill_pos_some hN]
    obtain ⟨c, hc, hct⟩ := List.mem_filterMap.1 ht
    obtain ⟨t', h1, h2⟩ := hv.cells_tri c hc
    rw [h1] at hct
    have : t' = t := by simpa [Tri.cell, Cell.tri?] using hct
    subst this
    exact h2 v hvt

/-- the triangles of `patchMesh` on point ids with a gap at 2 -/
def gapMesh : Mesh Q3 Nat :=
  { mk (List.replicate 7 (0, 0, 0)) [(0, 1, 3), (1, 0, 4), (3, 1, 5), (0, 3, 6)] (some [(0, 7), (2, 9)]) with
    points := [(0, (0, 0, 0)), (1, (4, 0, 0)), (3, (0, 4, 0)), (4, (2, -4, 0)), (5, (4, 4, 1)), (6, (-4, 2, 0))] }

theorem gapMesh_tris : gapMesh.tris = [(0, 1, 3), (1, 0, 4), (3, 1, 5), (0, 3, 6)] := by decide

theorem gapMesh_ok : gapMesh.GapValid ∧ gapMesh.RingOK := by
  have h := mk_ok_iso (pts := List.replicate 7 ((0, 0, 0) : Q3)) (T := [(0, 1, 3), (1, 0, 4), (3, 1, 5), (0, 3, 6)])
    (some [(0, 7), (2, 9)]) (by decide)
  exact ⟨gapValid_of h.1 (by decide) (by rw [h.2.2]; decide), ringOK_points h.2.1 _⟩

theorem gapMesh_gaps : gapMesh.GapsBelow 7 := by
  intro v
  by_cases h : v < 7
  · revert v; decide +kernel
  · refine ⟨fun h1 => absurd h1 h, fun h1 => ?_⟩
    rcases h1 with h1 | h1
    · exact Nat.lt_trans h1 (by decide)
    · have h2 : v ∈ [0, 1, 3, 4, 5, 6] := (AMap.find?_isSome _ _).1 h1
      have h3 : ∀ w ∈ [0, 1, 3, 4, 5, 6], w < 7 := by decide
      exact h3 v h2

/-- what takes the ids of `gapMesh` to those of `patchMesh` -/
def noGap (v : PId) : PId := if v ≤ 1 then v else v - 1

theorem gapMesh_renamed : Renamed noGap gapMesh patchMesh := by
  refine ⟨by decide, ?_, ?_⟩
  · rw [gapMesh_tris]; decide
  · rw [gapMesh_tris]; decide +kernel

theorem gapMesh_rings : RingRenamed noGap gapMesh patchMesh := by
  have h : ∀ e ∈ gapMesh.edges ++ gapMesh.edges.map Edge.sym,
      patchMesh.ring.onext (Edge.rename noGap e) = (gapMesh.ring.onext e).map (Edge.rename noGap) := by decide +kernel
  intro e he
  refine h e (List.mem_append.2 ?_)
  rcases he with he | he
  · exact Or.inl he
  · exact Or.inr (List.mem_map.2 ⟨_, he, by simp⟩)

/-- one triangle on the points 0, 1 and 5 -/
def wideGap : Mesh Q3 Nat :=
  { mk (List.replicate 6 (0, 0, 0)) [(0, 1, 5)] none with points := [(0, (0, 0, 0)), (1, (4, 0, 0)), (5, (0, 4, 0))] }

theorem wideGap_ok : wideGap.GapValid ∧ wideGap.RingOK := by
  have h := mk_ok_iso (pts := List.replicate 6 ((0, 0, 0) : Q3)) (T := [(0, 1, 5)]) (none : Option (AMap Nat)) (by decide)
  exact ⟨gapValid_of h.1 (by decide) (by rw [h.2.2]; decide), ringOK_points h.2.1 _⟩

theorem wideGap_clash : wideGap.Clash 4 5 := by
  refine ⟨by decide, by decide, by decide, ?_⟩
  intro w h1 h2
  have : w = 4 := Nat.le_antisymm (Nat.le_of_lt_succ h2) h1
  subst this; decide

/-- C38, what holds: if the gaps in the point ids are among the first `n` numbers, `n` the number of points, and no id is
larger than the gaps require (together they are the numbers below some `N`), a run of the Linear, Butterfly or SquareThree
cell filter returns a valid mesh; all points stay where they are under their ids; the gaps become isolated points at the
origin; and the triangles are those one gets from the mesh `m'` renumbered without gaps.
Missing: other gaps, for which it is false (`C38_gaps_refuted`), and Loop. -/
theorem C38_gaps_partial {sch : Scheme} (hs : sch ≠ .loop) {m : Mesh P D} {N : Nat} (hv : m.GapValid)
    (hr : sch = .butterfly → m.RingOK) (hN : m.GapsBelow N) (lib : QELib) (cosn : Nat → K) {f : Filt}
    (hsel : m.SelOK f.cells) (hmax : sch = .sqrt3 → N + (m.selected f.cells).length ≤ idMax) :
    ∃ out f', cellUpdate sch lib cosn f m = (.ok out, f') ∧ out.Valid ∧
      (∀ v, (m.pos v).isSome → out.pos v = m.pos v) ∧
      (∀ v, v < N → m.pos v = none → out.pos v = some 0 ∧ out.Isolated v) ∧
      ∀ ρ m' g, Renamed ρ m m' → sch.Needs m' → (sch = .butterfly → RingRenamed ρ m m') → m'.points.length ≤ N →
        g.cells = f.cells →
        ∃ out' g', cellUpdate sch lib cosn g m' = (.ok out', g') ∧ out'.coordTris = out.coordTris ∧ g'.cells = f'.cells ∧
          ((∀ k, m'.dataAt k = m.dataAt k) → ∀ k, out'.dataAt k = out.dataAt k) := by
  rw [cellUpdate_fill hs hv hr hN lib cosn f]
  have hn : sch.Needs (m.fill N) := ⟨fill_valid hv hN, fun h => fill_ringOK (hr (h.resolve_left hs)), fun h => absurd h hs⟩
  have hsel' : (m.fill N).SelOK f.cells := hsel
  have hmax' : sch = .sqrt3 → (m.fill N).points.length + ((m.fill N).selected f.cells).length ≤ idMax := by
    intro h
    rw [fill_length]
    exact hmax h
  obtain ⟨out, f', h1, hval⟩ : ∃ out f', cellUpdate sch lib cosn f (m.fill N) = (.ok out, f') ∧ out.Valid := by
    by_cases h3 : sch = .sqrt3
    · subst h3
      obtain ⟨out, f', h1, _⟩ := C11_sqrt3_completes lib cosn hn.valid hsel' (hmax' rfl)
      exact ⟨out, f', h1, (C13_sqrt3_valid hn.valid hsel' (hmax' rfl) h1).1⟩
    · obtain ⟨out, f', h1, _⟩ := cellUpdate_ok h3 lib cosn hn hsel'
      exact ⟨out, f', h1, (C04_output_valid h3 hn hsel' h1).1⟩
  have hkeep : ∀ v, v < N → out.pos v = (m.fill N).pos v := by
    intro v h
    have hlt : v < (m.fill N).points.length := by rw [fill_length]; exact h
    rw [hn.valid.pos_eq hlt]
    exact C06_original_points_kept hs hn.valid.points_dense h1 v _ (hn.valid.pos_eq hlt)
  refine ⟨out, f', h1, hval, ?_, ?_, ?_⟩
  · intro v h
    rw [hkeep v ((hN v).2 (Or.inr h)), fill_pos_some hN h]
  · intro v h hp
    refine ⟨by rw [hkeep v h, fill_pos, if_pos h, hp]; rfl, ?_⟩
    have hi := fill_isolated hv h hp
    by_cases h3 : sch = .sqrt3
    · subst h3
      exact (sqrt3Update_result hn.valid hsel' (hmax' rfl) h1).isolated hn.valid hi
    · exact (cellUpdate_result h3 hn hsel' h1).1.isolated hi
  · intro ρ m' g R hn' Q hle hg
    obtain ⟨o, f₁, out', g', e1, e2, -, e3, e4, e5⟩ := C45_numbering (fill_renamed hv hN R) hn hn' Q lib lib cosn
      (f := f) (g := g) hg (fun h => absurd h hs) hsel' (by
        intro h
        rw [fill_length, Nat.max_eq_left hle]
        exact hmax h)
    rw [h1] at e1
    cases e1
    exact ⟨out', g', e2, e3, e4, e5⟩

/-- `gapMesh` with cells 1 and 3 selected: the same triangles as from `patchMesh`, and a point at the origin for the gap -/
example {sch : Scheme} (hs : sch ≠ .loop) : ∃ out f₁ out' f₂,
    cellUpdate sch someLib cos0 (usedFilt [1, 3]) gapMesh = (.ok out, f₁) ∧
    cellUpdate sch someLib cos0 (usedFilt [1, 3]) patchMesh = (.ok out', f₂) ∧ out'.coordTris = out.coordTris ∧
    out.pos 5 = some (4, 4, 1) ∧ out.pos 2 = some 0 ∧ out.Isolated 2 := by
  obtain ⟨out, f₁, h1, -, h2, h3, h4⟩ := C38_gaps_partial hs gapMesh_ok.1 (fun _ => gapMesh_ok.2) gapMesh_gaps someLib cos0
    (f := usedFilt [1, 3]) (by unfold Mesh.SelOK; decide) (fun _ => by decide)
  obtain ⟨out', f₂, h5, h6, -⟩ := h4 noGap patchMesh (usedFilt [1, 3]) gapMesh_renamed (patchMesh_needs sch)
    (fun _ => gapMesh_rings) (by decide) rfl
  have h7 := h3 2 (by decide) (by decide)
  exact ⟨out, f₁, out', f₂, h1, h5, h6, h2 5 (by decide), h7.1, h7.2⟩

/-- C38 for the Linear and Butterfly edge filters.  Missing: other gaps (`C38_clash_edge_refuted`), and Loop. -/
theorem C38_gaps_edge_partial {sch : EdgeScheme} (hs : sch ≠ .loop) {m : Mesh P D} {N : Nat} (hv : m.GapValid)
    (hr : sch = .butterfly → m.RingOK) (hN : m.GapsBelow N) (lib : QELib) (cosn : Nat → K) {f : Filt}
    (hsel : m.EdgeSelOK f.edgeSel) :
    ∃ out f', edgeUpdate sch lib cosn f m = (.ok out, f') ∧ out.Valid ∧
      (∀ v, (m.pos v).isSome → out.pos v = m.pos v) ∧
      (∀ v, v < N → m.pos v = none → out.pos v = some 0 ∧ out.Isolated v) ∧
      ∀ ρ m' g, Renamed ρ m m' → sch.toScheme.Needs m' → (sch = .butterfly → RingRenamed ρ m m') →
        (f.edgeSel = [] → m'.edges = m.edges.map (Edge.rename ρ)) →
        g.edgeSel = f.edgeSel.map (Option.map (Edge.rename ρ)) →
        ∃ out' g', edgeUpdate sch lib cosn g m' = (.ok out', g') ∧ out'.coordTris = out.coordTris ∧
          ((∀ k, m'.dataAt k = m.dataAt k) → ∀ k, out'.dataAt k = out.dataAt k) := by
  rw [edgeUpdate_fill hs hv hr hN lib cosn f hsel]
  have hn : sch.toScheme.Needs (m.fill N) := by
    cases sch with
    | linear => exact ⟨fill_valid hv hN, fun h => by rcases h with h | h <;> (cases h), fun h => (by cases h)⟩
    | loop => exact absurd rfl hs
    | butterfly => exact ⟨fill_valid hv hN, fun _ => fill_ringOK (hr rfl), fun h => (by cases h)⟩
  have hsel' : (m.fill N).EdgeSelOK f.edgeSel := hsel
  obtain ⟨out, f', h1, -, -, -, hval, -⟩ := C39_edge_filter_completes lib cosn hn hsel'
  have hkeep : ∀ v, v < N → out.pos v = (m.fill N).pos v := by
    intro v h
    have hlt : v < (m.fill N).points.length := by rw [fill_length]; exact h
    rw [hn.valid.pos_eq hlt]
    exact C06_original_points_kept_edge hn.valid.points_dense h1 v _ (hn.valid.pos_eq hlt)
  refine ⟨out, f', h1, hval, ?_, ?_, ?_⟩
  · intro v h
    rw [hkeep v ((hN v).2 (Or.inr h)), fill_pos_some hN h]
  · intro v h hp
    exact ⟨by rw [hkeep v h, fill_pos, if_pos h, hp]; rfl, (edgeUpdate_result hn hsel' h1).isolated (fill_isolated hv h hp)⟩
  · intro ρ m' g R hn' Q hE hg
    obtain ⟨o, f₁, out', g', e1, e2, -, e3, e5⟩ := C45_numbering_edge (fill_renamed hv hN R) hn hn' Q lib lib cosn
      (f := f) (g := g) hE hg hsel'
    rw [h1] at e1
    cases e1
    exact ⟨out', g', e2, e3, e5⟩

/-- `gapMesh` with two edges listed -/
example {sch : EdgeScheme} (hs : sch ≠ .loop) : ∃ out f₁ out' f₂,
    edgeUpdate sch someLib cos0 ⟨[], [some (1, 0), none, some (5, 3)], true, fun _ => none⟩ gapMesh = (.ok out, f₁) ∧
    edgeUpdate sch someLib cos0 ⟨[], [some (1, 0), none, some (4, 2)], true, fun _ => none⟩ patchMesh = (.ok out', f₂) ∧
    out'.coordTris = out.coordTris ∧ out.pos 2 = some 0 := by
  obtain ⟨out, f₁, h1, -, -, h3, h4⟩ := C38_gaps_edge_partial hs gapMesh_ok.1 (fun _ => gapMesh_ok.2) gapMesh_gaps someLib cos0
    (f := ⟨[], [some (1, 0), none, some (5, 3)], true, fun _ => none⟩) (by
      intro e he
      simp only [List.mem_cons, Option.some.injEq, List.not_mem_nil, or_false, reduceCtorEq, false_or] at he
      unfold Mesh.IsEdge
      rcases he with rfl | rfl <;> decide)
  obtain ⟨out', f₂, h5, h6, -⟩ := h4 noGap patchMesh ⟨[], [some (1, 0), none, some (4, 2)], true, fun _ => none⟩
    gapMesh_renamed (patchMesh_needs _) (fun _ => gapMesh_rings) (fun h => (by cases h)) (by decide)
  exact ⟨out, f₁, out', f₂, h1, h5, h6, (h3 2 (by decide) (by decide)).1⟩

/-- C38: on any mesh the gaps are either as in `C38_gaps_partial` or make a new point meet an id in use. -/
theorem C38_gaps_or_clash {m : Mesh P D} (hv : m.GapValid) :
    ((∃ N, m.GapsBelow N) ∨ ∃ N v, m.Clash N v) ∧ ¬ ((∃ N, m.GapsBelow N) ∧ ∃ N v, m.Clash N v) :=
  ⟨gaps_or_clash hv.points_sorted, fun ⟨⟨_, h1⟩, _, _, h2⟩ => gaps_not_clash hv.points_sorted h1 h2⟩

example : ¬ ∃ N, wideGap.GapsBelow N := fun h => (C38_gaps_or_clash wideGap_ok.1).2 ⟨h, 4, 5, wideGap_clash⟩

/-- C38 is false for all other gaps, the Linear edge filter: once more than `v - N` edges have got their points, the point
with id `v` of the input is gone from its place; it lies at the middle of the last of the edges. -/
theorem C38_clash_edge_refuted {m : Mesh P D} (hv : m.GapValid) {N v : Nat} (hc : m.Clash N v) {lib : QELib}
    {cosn : Nat → K} {f f' : Filt} {out : Mesh P D} (hl : v - N < (m.selectedEdges f.edgeSel).length)
    (h : edgeUpdate .linear lib cosn f m = (.ok out, f')) :
    ∃ e p, (m.selectedEdges f.edgeSel).getLast? = some e ∧ m.IsMiddle K e p ∧ out.pos v = some p := by
  obtain ⟨ps, h1, h2⟩ := runFilter_points (Q := fun X => ∃ ps, List.Forall₂ (fun e p => linearPoint K m e = .ok p)
    (m.selectedEdges f.edgeSel) ps ∧ X = pushPts (copied m) ps) (edgePoints_push _ f) (fun X => generateOutputCells_keep m) h
  obtain ⟨e, p, h3, h4, h5⟩ := forall₂_getLast h1 (fun h0 => by rw [h0] at hl; cases hl)
  refine ⟨e, p, h3, linearPoint_middle h5, ?_⟩
  unfold Mesh.pos
  rw [h2, clash_find hv.points_sorted hc (by rw [← h1.length_eq]; exact hl)]
  exact h4

/-- C38 is false for all other gaps, SquareThree: once more than `v - N` triangles have got their points, the point with id
`v` lies at the centroid of the last of these triangles. -/
theorem C38_clash_sqrt3_refuted {m : Mesh P D} (hv : m.GapValid) {N v : Nat} (hc : m.Clash N v) {lib : QELib}
    {cosn : Nat → K} {f f' : Filt} {out : Mesh P D} (hl : v - N < (m.selected f.cells).length)
    (h : cellUpdate .sqrt3 lib cosn f m = (.ok out, f')) :
    ∃ t p, (m.selected f.cells).getLast? = some t ∧ m.IsCentroid K t p ∧ out.pos v = some p := by
  obtain ⟨ps, h1, h2⟩ := runFilter_points (Q := fun X => ∃ ps, List.Forall₂ (m.IsCentroid K)
    (m.selected f.cells) ps ∧ X = pushPts (copied m) ps) (sq3Points_push hv f) (fun X => sq3OutputCells_keep m) h
  obtain ⟨e, p, h3, h4, h5⟩ := forall₂_getLast h1 (fun h0 => by rw [h0] at hl; cases hl)
  refine ⟨e, p, h3, h5, ?_⟩
  unfold Mesh.pos
  rw [h2, clash_find hv.points_sorted hc (by rw [← h1.length_eq]; exact hl)]
  exact h4

/-- a fresh filter with lists of cells and edges -/
def newFilt (sel : List CId) (es : List (Option Edge)) : Filt := ⟨sel, es, true, fun _ => none⟩

/-- a library, for runs that do not look at the rings of the output -/
def noRings : QELib := ⟨fun _ _ _ => ⟨fun _ => none, fun _ => none, fun _ => none⟩⟩

theorem cellUpdate_eval {sch : Scheme} (lib : QELib) {cosn : Nat → ℚ} {f : Filt} {m : Mesh Q3 Nat} {x}
    (h : (cellUpdate sch noRings cosn f m).1.map (fun o => (o.points, o.cells)) = .ok x) :
    ∃ out f', cellUpdate sch lib cosn f m = (.ok out, f') ∧ out.points = x.1 ∧ out.cells = x.2 := by
  have h1 := (runFilter_lib lib noRings _ f).trans h
  rcases h2 : cellUpdate sch lib cosn f m with ⟨r, f'⟩
  rw [show runFilter lib (cellGenerate sch cosn m) f = _ from h2] at h1
  cases r with
  | error e => cases h1
  | ok out => cases h1; exact ⟨out, f', rfl, rfl, rfl⟩

theorem edgeUpdate_eval {sch : EdgeScheme} (lib : QELib) {cosn : Nat → ℚ} {f : Filt} {m : Mesh Q3 Nat} {x}
    (h : (edgeUpdate sch noRings cosn f m).1.map (fun o => (o.points, o.cells)) = .ok x) :
    ∃ out f', edgeUpdate sch lib cosn f m = (.ok out, f') ∧ out.points = x.1 ∧ out.cells = x.2 := by
  have h1 := (runFilter_lib lib noRings _ f).trans h
  rcases h2 : edgeUpdate sch lib cosn f m with ⟨r, f'⟩
  rw [show runFilter lib (edgeGenerate sch cosn m) f = _ from h2] at h1
  cases r with
  | error e => cases h1
  | ok out => cases h1; exact ⟨out, f', rfl, rfl, rfl⟩

/-- `C38_clash_edge_refuted` applies: with the edges 0-1 and 1-5 listed, point 5 moves from (0, 4, 0) to (2, 2, 0) -/
example (lib : QELib) : ∃ out f', edgeUpdate .linear lib cos0 (newFilt [] [some (0, 1), some (1, 5)]) wideGap = (.ok out, f') ∧
    wideGap.pos 5 = some (0, 4, 0) ∧ out.pos 5 = some (2, 2, 0) := by
  obtain ⟨out, f', h, -⟩ := edgeUpdate_eval (sch := .linear) lib (cosn := cos0) (f := newFilt [] [some (0, 1), some (1, 5)])
    (m := wideGap) (x := ([(0, (0, 0, 0)), (1, (4, 0, 0)), (2, (0, 0, 0)), (4, (2, 0, 0)), (5, (2, 2, 0))],
      [(0, some (Tri.cell (5, 0, 4))), (1, some (Tri.cell (4, 1, 5)))])) (by decide +kernel)
  refine ⟨out, f', h, by decide, ?_⟩
  obtain ⟨e, p, h1, ⟨a, b, h2, h3, h4⟩, h5⟩ := C38_clash_edge_refuted wideGap_ok.1 wideGap_clash (by decide) h
  rw [h5, h4]
  have : (wideGap.selectedEdges (newFilt [] [some (0, 1), some (1, 5)]).edgeSel).getLast? = some (1, 5) := by decide
  rw [this] at h1
  cases h1
  have ha : wideGap.pos 1 = some (4, 0, 0) := by decide
  have hb : wideGap.pos 5 = some (0, 4, 0) := by decide
  rw [ha] at h2; rw [hb] at h3
  cases h2; cases h3
  decide +kernel

/-- two triangles on the points 0, 1, 2 and 6 -/
def wideGap2 : Mesh Q3 Nat :=
  { mk (List.replicate 7 (0, 0, 0)) [(0, 1, 6), (1, 0, 2)] none with
    points := [(0, (0, 0, 0)), (1, (4, 0, 0)), (2, (4, -4, 0)), (6, (0, 4, 0))] }

theorem wideGap2_ok : wideGap2.GapValid ∧ wideGap2.RingOK := by
  have h := mk_ok_iso (pts := List.replicate 7 ((0, 0, 0) : Q3)) (T := [(0, 1, 6), (1, 0, 2)])
    (none : Option (AMap Nat)) (by decide)
  exact ⟨gapValid_of h.1 (by decide) (by rw [h.2.2]; decide), ringOK_points h.2.1 _⟩

theorem wideGap2_clash : wideGap2.Clash 5 6 := by
  refine ⟨by decide, by decide, by decide, ?_⟩
  intro w h1 h2
  have : w = 5 := Nat.le_antisymm (Nat.le_of_lt_succ h2) h1
  subst this; decide

/-- `C38_clash_sqrt3_refuted` applies: point 6 moves from (0, 4, 0) to the centroid of the second triangle -/
example (lib : QELib) : ∃ out f', cellUpdate .sqrt3 lib cos0 (newFilt [] []) wideGap2 = (.ok out, f') ∧
    wideGap2.pos 6 = some (0, 4, 0) ∧ out.pos 6 = some (8 / 3, -4 / 3, 0) := by
  obtain ⟨out, f', h, -⟩ := cellUpdate_eval (sch := .sqrt3) lib (cosn := cos0) (f := newFilt [] [])
    (m := wideGap2) (x := ([(0, 0, 0, 0), (1, 4, 0, 0), (2, 4, -4, 0), (3, 0, 0, 0), (5, 4 / 3, 4 / 3, 0), (6, 8 / 3, -4 / 3, 0)],
      [(0, some (Tri.cell (5, 6, 1))), (1, some (Tri.cell (6, 5, 0))), (2, some (Tri.cell (0, 2, 6))),
        (3, some (Tri.cell (2, 1, 6)))])) (by decide +kernel)
  refine ⟨out, f', h, by decide, ?_⟩
  obtain ⟨t, p, h1, ⟨a, b, c, h2, h3, h4, h5⟩, h6⟩ := C38_clash_sqrt3_refuted wideGap2_ok.1 wideGap2_clash (by decide) h
  rw [h6, h5]
  have : (wideGap2.selected (newFilt [] []).cells).getLast? = some (1, 0, 2) := by decide
  rw [this] at h1
  cases h1
  have ha : wideGap2.pos 1 = some (4, 0, 0) := by decide
  have hb : wideGap2.pos 0 = some (0, 0, 0) := by decide
  have hc : wideGap2.pos 2 = some (4, -4, 0) := by decide
  rw [ha] at h2; rw [hb] at h3; rw [hc] at h4
  cases h2; cases h3; cases h4
  decide +kernel

/-- C38 is false for the cell filters.  `wideGap` is one triangle on the points 0, 1 and 5.
Linear, Loop and Butterfly, all cells: the run returns, the output has three triangles where four are due, and point 5 is no
longer a corner of the surface: its id names the new point of the edge 1-5.
Linear, the cell selected by id: undefined behaviour. -/
theorem C38_gaps_refuted (lib : QELib) :
    (∀ sch ∈ [Scheme.linear, .loop, .butterfly], ∃ out f', cellUpdate sch lib cos0 (newFilt [] []) wideGap = (.ok out, f') ∧
      out.tris = [(0, 4, 6), (4, 1, 5), (4, 5, 6)] ∧
      out.pos 5 = some (if sch = .butterfly then (3 / 2, 3 / 2, 0) else (2, 2, 0))) ∧
    (cellUpdate .linear lib cos0 (newFilt [0] []) wideGap).1 = .error (.ub .nullDeref) := by
  refine ⟨?_, ?_⟩
  · intro sch hsch
    have key : (cellUpdate sch noRings cos0 (newFilt [] []) wideGap).1.map (fun o => (o.points, o.cells)) = .ok
        (([(0, if sch = .loop then (1 / 2, 1 / 2, 0) else (0, 0, 0)), (1, if sch = .loop then (3, 1 / 2, 0) else (4, 0, 0)),
          (2, (0, 0, 0)), (4, if sch = .butterfly then (3 / 2, 1, 0) else (2, 0, 0)),
          (5, if sch = .butterfly then (3 / 2, 3 / 2, 0) else (2, 2, 0)),
          (6, if sch = .butterfly then (1, 3 / 2, 0) else (0, 2, 0))] : AMap Q3),
        ([(0, some (Tri.cell (0, 4, 6))), (1, some (Tri.cell (4, 1, 5))), (2, some (Tri.cell (4, 5, 6)))] :
          AMap (Option Cell))) := by
      revert hsch; revert sch; decide +kernel
    obtain ⟨out, f', h1, h2, h3⟩ := cellUpdate_eval lib key
    refine ⟨out, f', h1, ?_, ?_⟩
    · unfold Mesh.tris; rw [h3]; rfl
    · unfold Mesh.pos; rw [h2]; rfl
  · have h : ((cellUpdate .linear noRings cos0 (newFilt [0] []) wideGap).1.map fun o => (o.points, o.cells)) =
        .error (.ub .nullDeref) := by decide +kernel
    have h1 := (runFilter_lib lib noRings _ _).trans h
    rcases h2 : (cellUpdate .linear lib cos0 (newFilt [0] []) wideGap).1 with e | o
    · rw [show (runFilter lib (cellGenerate .linear cos0 wideGap) _).1 = _ from h2] at h1
      cases h1; rfl
    · rw [show (runFilter lib (cellGenerate .linear cos0 wideGap) _).1 = _ from h2] at h1
      cases h1

end Verif
