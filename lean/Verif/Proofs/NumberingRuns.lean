import Verif.Proofs.Links
/-
Many runs on two meshes that differ in the numbering of their points only.
-/
namespace Verif
set_option linter.unusedSectionVars false

theorem sublist_ext {α : Type} {L l l' : List α} (hd : L.Nodup) (h : l.Sublist L) (h' : l'.Sublist L)
    (hm : ∀ x, x ∈ l ↔ x ∈ l') : l = l' := by
  induction h generalizing l' with
  | slnil => exact (List.sublist_nil.1 h').symm
  | @cons l L a h ih =>
    rw [List.nodup_cons] at hd
    cases h' with
    | cons _ h' => exact ih hd.2 h' hm
    | cons_cons _ h' => exact absurd (h.subset ((hm a).2 (by simp))) hd.1
  | @cons_cons l L a h ih =>
    rw [List.nodup_cons] at hd
    cases h' with
    | cons _ h' => exact absurd (h'.subset ((hm a).1 (by simp))) hd.1
    | @cons_cons l' _ _ h' =>
      rw [ih hd.2 h' fun x => ?_]
      have := hm x
      simp only [List.mem_cons] at this
      constructor
      · intro hx
        rcases this.1 (.inr hx) with rfl | h2
        · exact absurd (h.subset hx) hd.1
        · exact h2
      · intro hx
        rcases this.2 (.inr hx) with rfl | h2
        · exact absurd (h'.subset hx) hd.1
        · exact h2

variable {K P D : Type} [Field K] [AddCommGroup P] [Module K P] (cosn : Nat → K) {lib lib' : QELib}

/-- where the boundary does not touch itself the links correspond -/
theorem Renamed.rings {ρ : PId → PId} {m m' : Mesh P D} (R : Renamed ρ m m') (hv : m.Valid) (hv' : m'.Valid) (hr : m.RingOK)
    (hr' : m'.RingOK) (hsb : m.SimpleBoundary) : RingRenamed ρ m m' := by
  intro e he
  by_cases hd : e ∈ dartsOf m.tris
  · obtain ⟨a, b⟩ := e
    obtain ⟨c, h⟩ := dartsOf_iff_hasTri.1 hd
    rw [hr.face a b c h]
    exact hr'.face _ _ _ (R.hasTri h)
  · have key : ∀ {M : Mesh P D} {e : Edge}, M.Valid → M.RingOK → M.IsEdge e → e ∉ dartsOf M.tris →
        ∃ e', M.ring.onext e = some e' ∧ M.IsEdge e' ∧ M.IsBoundary e' ∧ e'.1 = e.1 := by
      intro M e hvM hk he hd
      obtain ⟨e', h1, h2, h3⟩ := hk.onext_some e he
      refine ⟨e', h1, h2, ?_, h3⟩
      have hns : e'.sym ∉ dartsOf M.tris := by
        intro hs
        obtain ⟨a, b⟩ := e
        obtain ⟨a', z⟩ := e'
        obtain rfl : a' = a := h3
        obtain ⟨y, h⟩ := dartsOf_iff_hasTri.1 hs
        have h4 : HasTri M.tris a' y z := h.rot
        have hyd : (a', y) ∈ dartsOf M.tris := dartsOf_iff_hasTri.2 ⟨z, h4⟩
        have he5 : M.IsEdge (a', y) := hvM.isEdge_of_dart hyd
        have p1 := (hk.oprev_iff (a', y) (a', z) he5 h2).2 (hk.face a' y z h4)
        have p2 := (hk.oprev_iff (a', b) (a', z) he h2).2 h1
        have h6 : (a', y) = (a', b) := Option.some.inj (p1.symm.trans p2)
        exact hd (h6 ▸ hyd)
      have h7 := (hvM.edges_iff e').1 h2
      exact ⟨h7.resolve_right hns, hns⟩
    have hu := used_of_edge hv he
    obtain ⟨e1, a1, a0, a2, a3⟩ := key hv hr he hd
    obtain ⟨e2, b1, b0, b2, b3⟩ := key hv' hr' (R.isEdge hv' hv he) (fun h => hd ((R.dart_iff hu).1 h))
    obtain ⟨x, hx, rfl⟩ := R.isEdge' hv' hv b0
    have hux := used_of_edge hv hx
    have hxb : m.IsBoundary x := ⟨(R.dart_iff hux).1 b2.1, fun h => b2.2 ((R.dart_iff (e := x.sym) ⟨hux.2, hux.1⟩).2 h)⟩
    have hx1 : x.1 = e.1 := R.injOn _ _ hux.1 hu.1 b3
    rw [a1, b1, (hsb x e1 hxb a2).1 (hx1.trans a3.symm)]
    rfl

theorem Renamed.forced {ρ : PId → PId} {sch : Scheme} {m m' : Mesh P D} (R : Renamed ρ m m') (hn : sch.Needs m) (hn' : sch.Needs m')
    (hf : sch.RingsForced m) (h : sch = .butterfly) : RingRenamed ρ m m' :=
  R.rings hn.valid hn'.valid (hn.ring (.inr h)) (hn'.ring (.inr h)) (hf h)

theorem cellUpdate_numbered {sch : Scheme} {ρ : PId → PId} {m m' : Mesh P D} (R : Renamed ρ m m')
    (hn : sch.Needs m) (hn' : sch.Needs m') (hf : sch.RingsForced m) (lib lib' : QELib) {f g : Filt} (hfg : g.cells = f.cells)
    (hl : sch = .loop → f.uniform = true ∧ g.uniform = true) (hsel : m.SelOK f.cells)
    (hmax : sch = .sqrt3 → m.points.length + (m.selected f.cells).length ≤ idMax)
    (hmax' : sch = .sqrt3 → m'.points.length + (m.selected f.cells).length ≤ idMax) :
    ∃ out f' out' g', cellUpdate sch lib cosn f m = (.ok out, f') ∧ cellUpdate sch lib' cosn g m' = (.ok out', g') ∧
      Renamed (extendId m.points.length m'.points.length ρ) out out' ∧ g'.cells = f'.cells ∧
      ((∀ k, m'.dataAt k = m.dataAt k) → ∀ k, out'.dataAt k = out.dataAt k) := by
  by_cases h3 : sch = .sqrt3
  · subst h3
    exact sqrt3Update_rename R hn.valid hn'.valid lib lib' cosn hfg hsel (hmax rfl) (hmax' rfl)
  · exact cellUpdate_rename h3 R hn hn' (R.forced hn hn' hf) lib lib' cosn hfg hl hsel

theorem Renamed.selected_length {ρ : PId → PId} {m m' : Mesh P D} (R : Renamed ρ m m') (sel : List CId) :
    (m'.selected sel).length = (m.selected sel).length := by rw [R.selected, List.length_map]

theorem manyLevels_rename {sch : Scheme} (hl : sch = .loop ∨ sch = .butterfly → lib.Lawful)
    (hl' : sch = .loop ∨ sch = .butterfly → lib'.Lawful) (L : Nat) {ρ : PId → PId} {m m' : Mesh P D} (R : Renamed ρ m m')
    {sel : List CId} (hn : sch.Needs m) (hn' : sch.Needs m') (hf : sch.RingsForced m) (hsel : m.SelOK sel)
    (hid : sch.IdsLeft L m sel) (hid' : sch.IdsLeft L m' sel) :
    ∃ o o' s ρ', manyLevels sch lib cosn L (m, sel) = .ok (o, s) ∧ manyLevels sch lib' cosn L (m', sel) = .ok (o', s) ∧
      Renamed ρ' o o' ∧ (∀ v, v < m.points.length → ρ' v = ρ v) ∧ m.points.length ≤ o.points.length ∧
      ((∀ k, m'.dataAt k = m.dataAt k) → ∀ k, o'.dataAt k = o.dataAt k) := by
  induction L generalizing m m' sel ρ with
  | zero => exact ⟨m, m', sel, ρ, rfl, rfl, R, fun _ _ => rfl, Nat.le_refl _, fun h => h⟩
  | succ n ih =>
    have hsel' := R.selOK hsel
    obtain ⟨out, f', out', g', h1, h2, h3, h4, h5⟩ := cellUpdate_numbered cosn R hn hn' hf lib lib'
      (f := Filt.new.setCells sel) (g := Filt.new.setCells sel) rfl (fun _ => ⟨rfl, rfl⟩) hsel (IdsLeft.now hid)
      (fun h => by rw [← R.selected_length]; exact IdsLeft.now hid' h)
    obtain ⟨m1, s1, k1, hn1, hs1, hid1, -, -⟩ := oneLevel_ok cosn hl hn hsel hid
    obtain ⟨m2, s2, k2, hn2, -, hid2, -, -⟩ := oneLevel_ok cosn hl' hn' hsel' hid'
    have e1 : (m1, s1) = (out, f'.cells) := by
      unfold oneLevel at k1; simp only [h1] at k1; exact (Except.ok.inj k1).symm
    have e2 : (m2, s2) = (out', g'.cells) := by
      unfold oneLevel at k2; simp only [h2] at k2; exact (Except.ok.inj k2).symm
    obtain ⟨rfl, rfl⟩ := Prod.mk.inj e1
    obtain ⟨rfl, rfl⟩ := Prod.mk.inj e2
    rw [h4] at k2 hid2
    have hlen : m.points.length ≤ m1.points.length := by
      by_cases hs : sch = .sqrt3
      · subst hs
        have A := sqrt3Update_result hn.valid (f := Filt.new.setCells sel) hsel (IdsLeft.now hid rfl) h1
        rw [A.points, AMap.length_dense]; exact A.longer
      · have A := (cellUpdate_result hs hn (f := Filt.new.setCells sel) hsel h1).1
        rw [A.points, AMap.length_dense]; exact A.longer
    obtain ⟨o, o', s, ρ', j1, j2, j3, j4, j5, j6⟩ := ih h3 hn1 hn2 (RingsForced.cell cosn hn hsel h1 hf) hs1 hid1 hid2
    refine ⟨o, o', s, ρ', ?_, ?_, j3, fun v h => ?_, hlen.trans j5, fun h => j6 (h5 h)⟩
    · unfold manyLevels; rw [k1]; exact j1
    · unfold manyLevels; rw [k2]; exact j2
    · rw [j4 v (Nat.lt_of_lt_of_le h hlen)]
      exact if_pos h

section conditional
variable [LinearOrder K]

theorem Renamed.tooLarge {ρ : PId → PId} {m m' : Mesh P D} (R : Renamed ρ m m') (hv : m.Valid) (area : P → P → P → K) (A : K)
    (k : CId) : m'.TooLarge area A k ↔ m.TooLarge area A k := by
  have hcell : ∀ (t : Tri), (k, some t.cell) ∈ m.cells → (k, some (t.rename ρ).cell) ∈ m'.cells := by
    intro t ht
    rw [R.cells]
    exact List.mem_map.2 ⟨_, ht, rfl⟩
  have hback : ∀ (t : Tri), (k, some t.cell) ∈ m'.cells → ∃ t0 : Tri, (k, some t0.cell) ∈ m.cells ∧ t = t0.rename ρ := by
    intro t ht
    rw [R.cells] at ht
    obtain ⟨⟨k0, c0⟩, hc, he⟩ := List.mem_map.1 ht
    obtain ⟨t0, h0, -⟩ := hv.cells_tri _ hc
    simp only at h0
    subst h0
    simp only [Option.map_some, Prod.mk.injEq, Option.some.injEq] at he
    obtain ⟨rfl, he⟩ := he
    refine ⟨t0, hc, ?_⟩
    have : [ρ t0.1, ρ t0.2.1, ρ t0.2.2] = [t.1, t.2.1, t.2.2] := congrArg Cell.pts he
    simp only [List.cons.injEq, and_true] at this
    exact Prod.ext this.1.symm (Prod.ext this.2.1.symm this.2.2.symm)
  have hpos : ∀ (t : Tri), (k, some t.cell) ∈ m.cells → ∀ v ∈ t.verts, m'.pos (ρ v) = m.pos v := fun t ht v hvt =>
    R.pos t (hv.mem_tris.2 ⟨k, ht⟩) v hvt
  constructor
  · rintro ⟨t, pa, pb, pc, h0, h1, h2, h3, h4⟩
    obtain ⟨t0, k0, rfl⟩ := hback t h0
    have hp := hpos t0 k0
    exact ⟨t0, pa, pb, pc, k0, by rw [← hp _ (by simp [Tri.verts])]; exact h1, by rw [← hp _ (by simp [Tri.verts])]; exact h2,
      by rw [← hp _ (by simp [Tri.verts])]; exact h3, h4⟩
  · rintro ⟨t, pa, pb, pc, h0, h1, h2, h3, h4⟩
    have hp := hpos t h0
    exact ⟨t.rename ρ, pa, pb, pc, hcell t h0, by rw [← h1]; exact hp _ (by simp [Tri.verts]),
      by rw [← h2]; exact hp _ (by simp [Tri.verts]), by rw [← h3]; exact hp _ (by simp [Tri.verts]), h4⟩

theorem areaCompute_rename {ρ : PId → PId} {m m' : Mesh P D} (R : Renamed ρ m m') (hv : m.Valid) (hv' : m'.Valid)
    (area : P → P → P → K) (A : K) (old old' : List CId) : areaCompute area A m' old' = areaCompute area A m old := by
  obtain ⟨l, h1, h2, h3⟩ := C28_area_exact area A hv.cells_sorted hv.allTriangles hv.cornersExist old
  obtain ⟨l', k1, k2, k3⟩ := C28_area_exact area A hv'.cells_sorted hv'.allTriangles hv'.cornersExist old'
  rw [h1, k1]
  have : l' = l := by
    refine List.Perm.eq_of_pairwise (le := (· < ·)) (fun a b _ _ h1 h2 => absurd h1 (Nat.lt_asymm h2)) k2 h2 ?_
    refine (List.perm_ext_iff_of_nodup (k2.imp fun h => Nat.ne_of_lt h) (h2.imp fun h => Nat.ne_of_lt h)).2 fun k => ?_
    rw [h3, k3]; exact R.tooLarge hv area A k
  rw [this]

theorem lengthCompute_rename {ρ : PId → PId} {m m' : Mesh P D} (R : Renamed ρ m m') (hE : m'.edges = m.edges.map (Edge.rename ρ))
    (hv : m.Valid) (hv' : m'.Valid) (len : P → P → K) (L : K) (old old' : List (Option Edge)) :
    ∃ l : List Edge, lengthCompute len L m old = (.ok (), l.map some) ∧
      lengthCompute len L m' old' = (.ok (), (l.map (Edge.rename ρ)).map some) := by
  obtain ⟨l, h1, h2, h3, -⟩ := C29_length_exact len L hv.has_edge_cells hv.endsExist old
  obtain ⟨l', k1, k2, k3, -⟩ := C29_length_exact len L hv'.has_edge_cells hv'.endsExist old'
  refine ⟨l, h1, ?_⟩
  rw [k1]
  have hpos : ∀ e ∈ m.edges, m'.pos (ρ e.1) = m.pos e.1 ∧ m'.pos (ρ e.2) = m.pos e.2 := by
    intro e he
    obtain ⟨⟨t, ht, h5⟩, t', ht', h6⟩ := Renamed.used_of_edge hv (.inl he)
    exact ⟨R.pos t ht _ h5, R.pos t' ht' _ h6⟩
  have hiff : ∀ e ∈ m.edges, (m'.TooLong len L (e.rename ρ) ↔ m.TooLong len L e) := by
    intro e he
    unfold Mesh.TooLong Edge.rename
    simp only [(hpos e he).1, (hpos e he).2]
  have : l' = l.map (Edge.rename ρ) := by
    refine sublist_ext (hv'.edges_once.imp fun h => h.1) k2 (by rw [hE]; exact h2.map _) fun x => ?_
    rw [k3, List.mem_map, hE, List.mem_map]
    constructor
    · rintro ⟨⟨e, he, rfl⟩, h⟩
      exact ⟨e, (h3 e).2 ⟨he, (hiff e he).1 h⟩, rfl⟩
    · rintro ⟨e, he, rfl⟩
      obtain ⟨h4, h5⟩ := (h3 e).1 he
      exact ⟨⟨e, h4, rfl⟩, (hiff e h4).2 h5⟩
  rw [this]

theorem condArea_rename {sch : Scheme} (hs : sch ≠ .loop) (hl : sch = .loop ∨ sch = .butterfly → lib.Lawful)
    (hl' : sch = .loop ∨ sch = .butterfly → lib'.Lawful) (area : P → P → P → K) (A : K) (n : Nat) :
    ∀ {ρ : PId → PId} {m m' : Mesh P D} {sel : List CId} {s s' : Filt}, Renamed ρ m m' →
      AreaInv sch n sel m → AreaInv sch n sel m' → sch.RingsForced m →
      (condLoop (condCellUpd sch lib cosn) (areaCompute area A) n ⟨s, sel⟩ m = none ∧
        condLoop (condCellUpd sch lib' cosn) (areaCompute area A) n ⟨s', sel⟩ m' = none) ∨
      ∃ out out' c c' ρ', condLoop (condCellUpd sch lib cosn) (areaCompute area A) n ⟨s, sel⟩ m = some (.ok out, c) ∧
        condLoop (condCellUpd sch lib' cosn) (areaCompute area A) n ⟨s', sel⟩ m' = some (.ok out', c') ∧ Renamed ρ' out out' ∧
        (∀ v, v < m.points.length → ρ' v = ρ v) := by
  induction n with
  | zero =>
    intro ρ m m' sel s s' R _ _ _
    by_cases hs : sel = []
    · exact .inr ⟨m, m', _, _, ρ, condLoop_done hs, condLoop_done hs, R, fun _ _ => rfl⟩
    · exact .inl ⟨condLoop_zero hs, condLoop_zero hs⟩
  | succ n ih =>
    intro ρ m m' sel s s' R H H' hf
    by_cases hse : sel = []
    · exact .inr ⟨m, m', _, _, ρ, condLoop_done hse, condLoop_done hse, R, fun _ _ => rfl⟩
    · obtain ⟨o, f', l, h1, h2, h3, h4⟩ := condArea_step (lib := lib) (cosn := cosn) hl area A s H hse
      obtain ⟨o', g', l', k1, k2, k3, k4⟩ := condArea_step (lib := lib') (cosn := cosn) hl' area A s' H' hse
      obtain ⟨_, _, _, _, j1, j2, j3, -⟩ := cellUpdate_numbered cosn R H.needs H'.needs hf lib lib' (f := s.setCells sel)
        (g := s'.setCells sel) rfl (fun h => absurd h hs) H.selOK h3 (fun h => by rw [← R.selected_length]; exact k3 h)
      rw [h1] at j1; rw [k1] at j2
      cases j1; cases j2
      have hlen : m.points.length ≤ o.points.length := by
        by_cases hs : sch = .sqrt3
        · subst hs
          have A := sqrt3Update_result H.needs.valid (f := s.setCells sel) H.selOK (h3 rfl) h1
          rw [A.points, AMap.length_dense]; exact A.longer
        · have A := (cellUpdate_result hs H.needs (f := s.setCells sel) H.selOK h1).1
          rw [A.points, AMap.length_dense]; exact A.longer
      have hf' := RingsForced.cell cosn (f := s.setCells sel) H.needs H.selOK h1 hf
      have hk2 := k2
      rw [areaCompute_rename j3 h4.needs.valid k4.needs.valid area A sel sel, h2] at hk2
      cases hk2
      rw [condLoop_step hse h1 h2, condLoop_step hse k1 k2]
      rcases ih (s := f') (s' := g') j3 h4 k4 hf' with h | ⟨out, out', c, c', ρ', i1, i2, i3, i4⟩
      · exact .inl h
      · exact .inr ⟨out, out', c, c', ρ', i1, i2, i3, fun v h => (i4 v (Nat.lt_of_lt_of_le h hlen)).trans (if_pos h)⟩

theorem condLength_rename {sch : EdgeScheme} (hl : sch = .loop ∨ sch = .butterfly → lib.Lawful)
    (hl' : sch = .loop ∨ sch = .butterfly → lib'.Lawful) (len : P → P → K) (L : K) (n : Nat) :
    ∀ {ρ : PId → PId} {m m' : Mesh P D} {l : List Edge} {s s' : Filt}, Renamed ρ m m' →
      LengthInv sch (l.map some) m → LengthInv sch ((l.map (Edge.rename ρ)).map some) m' → sch.toScheme.RingsForced m →
      (condLoop (condEdgeUpd sch lib cosn) (lengthCompute len L) n ⟨s, l.map some⟩ m = none ∧
        condLoop (condEdgeUpd sch lib' cosn) (lengthCompute len L) n ⟨s', (l.map (Edge.rename ρ)).map some⟩ m' = none) ∨
      ∃ out out' c c' ρ', condLoop (condEdgeUpd sch lib cosn) (lengthCompute len L) n ⟨s, l.map some⟩ m = some (.ok out, c) ∧
        condLoop (condEdgeUpd sch lib' cosn) (lengthCompute len L) n ⟨s', (l.map (Edge.rename ρ)).map some⟩ m' = some (.ok out', c') ∧
        Renamed ρ' out out' ∧ (∀ v, v < m.points.length → ρ' v = ρ v) := by
  induction n with
  | zero =>
    intro ρ m m' l s s' R _ _ _
    by_cases hs : l = []
    · subst hs
      exact .inr ⟨m, m', _, _, ρ, condLoop_done rfl, condLoop_done rfl, R, fun _ _ => rfl⟩
    · exact .inl ⟨condLoop_zero (by simpa using hs), condLoop_zero (by simpa using hs)⟩
  | succ n ih =>
    intro ρ m m' l s s' R H H' hf
    by_cases hs : l = []
    · subst hs
      exact .inr ⟨m, m', _, _, ρ, condLoop_done rfl, condLoop_done rfl, R, fun _ _ => rfl⟩
    · have hs1 : l.map some ≠ [] := by simpa using hs
      have hs2 : (l.map (Edge.rename ρ)).map some ≠ [] := by simpa using hs
      obtain ⟨o, f', sel, h1, h2, h4⟩ := condLength_step (lib := lib) (cosn := cosn) hl len L s H hs1
      obtain ⟨o', g', sel', k1, k2, k4⟩ := condLength_step (lib := lib') (cosn := cosn) hl' len L s' H' hs2
      have Q' : sch = .butterfly → RingRenamed ρ m m' := fun h =>
        R.forced H.needs H'.needs hf (toScheme_butterfly.2 h)
      have e1 : m.selectedEdges (l.map some) = l := by rw [selectedEdges_some _ hs]
      have e2 : m'.selectedEdges ((l.map (Edge.rename ρ)).map some) = l.map (Edge.rename ρ) := by
        rw [selectedEdges_some _ (by simpa using hs)]
      obtain ⟨_, _, _, _, j1, j2, j3, -⟩ := edgeUpdate_rename R H.needs H'.needs Q' lib lib' cosn (f := s.setEdges (l.map some))
        (g := s'.setEdges ((l.map (Edge.rename ρ)).map some)) (by simp [Filt.setEdges])
        (show m'.selectedEdges ((l.map (Edge.rename ρ)).map some) = (m.selectedEdges (l.map some)).map (Edge.rename ρ) by rw [e1, e2])
        H.selOK H'.selOK
      rw [h1] at j1; rw [k1] at j2
      cases j1; cases j2
      have RA := edgeUpdate_result (f := s.setEdges (l.map some)) H.needs H.selOK h1
      have RB := edgeUpdate_result (f := s'.setEdges ((l.map (Edge.rename ρ)).map some)) H'.needs H'.selOK k1
      have hlen : m.points.length ≤ o.points.length := by
        rw [RA.points, AMap.length_dense]; exact RA.longer
      have hE : o'.edges = o.edges.map (Edge.rename (extendId m.points.length m'.points.length ρ)) := by
        have t1 : o.edges = edgeList o.tris := by rw [RA.built.edges, RA.built.tris]
        have t2 : o'.edges = edgeList o'.tris := by rw [RB.built.edges, RB.built.tris]
        rw [t1, t2, j3.tris, edgeList_rename j3.injOn]
      have hf' := RingsForced.edge cosn (f := s.setEdges (l.map some)) H.needs H.selOK h1 hf
      obtain ⟨l1, q1, q2⟩ := lengthCompute_rename j3 hE h4.needs.valid k4.needs.valid len L (l.map some)
        ((l.map (Edge.rename ρ)).map some)
      rw [h2] at q1; rw [k2] at q2
      cases q1; cases q2
      rw [condLoop_step hs1 h1 h2, condLoop_step hs2 k1 k2]
      rcases ih (s := f') (s' := g') j3 h4 k4 hf' with h | ⟨out, out', c, c', ρ', i1, i2, i3, i4⟩
      · exact .inl h
      · exact .inr ⟨out, out', c, c', ρ', i1, i2, i3, fun v h => (i4 v (Nat.lt_of_lt_of_le h hlen)).trans (if_pos h)⟩

theorem copyGeometry_rename {ρ : PId → PId} {m m' : Mesh P D} (R : Renamed ρ m m') (hv : m.Valid) (hv' : m'.Valid) (lib lib' : QELib) :
    Renamed ρ (copyGeometry lib m) (copyGeometry lib' m') := by
  have hp : ∀ {M : Mesh P D} {lb : QELib}, M.Valid → ∀ v, (copyGeometry lb M).pos v = M.pos v := by
    intro M lb h v; unfold Mesh.pos; rw [copyGeometry_points lb h]
  refine ⟨?_, ?_, ?_⟩
  · rw [copyGeometry_cells lib hv, copyGeometry_cells lib' hv', R.tris]
    have : ∀ (i : Nat) (T : List Tri), AMap.denseFrom i ((T.map (Tri.rename ρ)).map fun t => some t.cell) =
        (AMap.denseFrom i (T.map fun t => some t.cell)).map fun c => (c.1, c.2.map fun x => ⟨x.type, x.pts.map ρ⟩) := by
      intro i T
      induction T generalizing i with
      | nil => rfl
      | cons t T ih => simp only [List.map_cons, AMap.denseFrom, ih]; rfl
    exact this 0 m.tris
  · rw [copyGeometry_tris lib hv]; exact R.inj
  · rw [copyGeometry_tris lib hv]
    intro t ht v h
    rw [hp hv', hp hv]; exact R.pos t ht v h

end conditional
end Verif
