import Verif.Spec.Links
import Verif.Proofs.RenameRun
import Verif.Proofs.Rim
import Verif.Proofs.CondInduct
/-
Runs on meshes that differ in their links only.
-/
namespace Verif
set_option linter.unusedSectionVars false
variable {P D : Type}

theorem SameButRings.eq {m m' : Mesh P D} (h : SameButRings m m') : m' = { m with ring := m'.ring } := by
  obtain ⟨a, b, c, d, e, f, g, i⟩ := m
  obtain ⟨a', b', c', d', e', f', g', i'⟩ := m'
  simp only [SameButRings, Mesh.forgetRings, Mesh.mk.injEq] at h ⊢
  tauto

theorem SameButRings.withRing (m : Mesh P D) (r : Ring) : SameButRings m { m with ring := r } := rfl

theorem SameButRings.symm {m m' : Mesh P D} (h : SameButRings m m') : SameButRings m' m := Eq.symm h

section plain
variable {K : Type} [Field K] [Zero P] [Add P] [SMul K P] (cosn : Nat → K)

theorem linear_withRing (m : Mesh P D) (r : Ring) :
    cellGenerate .linear cosn { m with ring := r } = cellGenerate .linear cosn m := rfl

theorem sqrt3_withRing (m : Mesh P D) (r : Ring) :
    cellGenerate .sqrt3 cosn { m with ring := r } = cellGenerate .sqrt3 cosn m := rfl

theorem linearEdge_withRing (m : Mesh P D) (r : Ring) :
    edgeGenerate .linear cosn { m with ring := r } = edgeGenerate .linear cosn m := rfl

theorem SameSettings.refl (f : Filt) : SameSettings f f := ⟨rfl, rfl, rfl⟩

theorem sameOutcome_ok (m : Mesh P D) (r : Ring) : SameOutcome (.ok m) (.ok { m with ring := r }) := rfl

theorem addOne_withRing (m : Mesh P D) (r : Ring) : addOne { m with ring := r } = addOne m := rfl

/-- outputs built from the same points and the same items -/
theorem faceSplit_alike {lib lib' : QELib} {m : Mesh P D} {r : Ring} {out out' : Mesh P D} {f f' g g' : Filt} {u : Bool}
    {μ : Edge → Option PId} {pts pts' : List P} (hfg : SameSettings f g) (hp : pts' = pts)
    (A : FaceSplitResult lib m out f f' u μ pts)
    (B : FaceSplitResult lib' { m with ring := r } out' g g' u μ pts') :
    SameButRings out out' ∧ SameSettings f' g' := by
  refine ⟨?_, ?_⟩
  · have h1 := A.out
    have h2 := B.out
    rw [hp, addOne_withRing] at h2
    rw [h1, h2]
    rfl
  · rw [A.filt, B.filt]
    exact ⟨rfl, hfg.edgeSel, rfl⟩

/-- where the boundary does not touch itself the laws leave no choice -/
theorem onext_forced {m : Mesh P D} {r : Ring} (hv : m.Valid) (hr : m.RingOK)
    (hr' : Mesh.RingOK { m with ring := r }) (hsb : m.SimpleBoundary) {e : Edge} (he : m.IsEdge e) :
    r.onext e = m.ring.onext e := by
  by_cases hd : e ∈ dartsOf m.tris
  · obtain ⟨a, b⟩ := e
    obtain ⟨c, h⟩ := dartsOf_iff_hasTri.1 hd
    rw [hr.face a b c h]
    exact hr'.face a b c h
  · have key : ∀ {r' : Ring}, Mesh.RingOK { m with ring := r' } → ∃ e', r'.onext e = some e' ∧ m.IsBoundary e' ∧ e'.1 = e.1 := by
      intro r' hk
      obtain ⟨e', h1, h2, h3⟩ := hk.onext_some e he
      refine ⟨e', h1, ?_, h3⟩
      have hns : e'.sym ∉ dartsOf m.tris := by
        intro hs
        obtain ⟨a, b⟩ := e
        obtain ⟨a', z⟩ := e'
        obtain rfl : a' = a := h3
        obtain ⟨y, h⟩ := dartsOf_iff_hasTri.1 hs
        have h4 : HasTri m.tris a' y z := h.rot
        have hyd : (a', y) ∈ dartsOf m.tris := dartsOf_iff_hasTri.2 ⟨z, h4⟩
        have h5 : r'.onext (a', y) = some (a', z) := hk.face a' y z h4
        have he5 : m.IsEdge (a', y) := hv.isEdge_of_dart hyd
        have p1 := (hk.oprev_iff (a', y) (a', z) he5 h2).2 h5
        have p2 := (hk.oprev_iff (a', b) (a', z) he h2).2 h1
        have h6 : (a', y) = (a', b) := Option.some.inj (p1.symm.trans p2)
        exact hd (h6 ▸ hyd)
      have h7 := (hv.edges_iff e').1 h2
      exact ⟨h7.resolve_right hns, hns⟩
    obtain ⟨e1, a1, a2, a3⟩ := key (r' := m.ring) hr
    obtain ⟨e2, b1, b2, b3⟩ := key hr'
    rw [a1, b1, (hsb e2 e1 b2 a2).1 (b3.trans a3.symm)]

end plain

section
variable {K : Type} [Field K] [AddCommGroup P] [Module K P] (cosn : Nat → K)

theorem renamed_id (m : Mesh P D) (r : Ring) : Renamed id m { m with ring := r } := by
  refine ⟨?_, fun _ _ _ _ _ _ _ _ h => h, fun _ _ _ _ => rfl⟩
  show m.cells = _
  conv_lhs => rw [← List.map_id m.cells]
  refine List.map_congr_left fun c _ => ?_
  obtain ⟨k, c⟩ := c
  cases c <;> simp

theorem ringRenamed_id {m : Mesh P D} {r : Ring} (hv : m.Valid) (hr : m.RingOK)
    (hr' : Mesh.RingOK { m with ring := r }) (hsb : m.SimpleBoundary) : RingRenamed id m { m with ring := r } := by
  intro e he
  show r.onext e = _
  rw [onext_forced hv hr hr' hsb he]
  cases m.ring.onext e <;> rfl

theorem schemePoint_alike {sch : Scheme} {m : Mesh P D} {r : Ring} (hn : sch.Needs m)
    (hn' : sch.Needs { m with ring := r }) (hf : sch.RingsForced m) {e : Edge} (he : m.IsEdge e) :
    schemePoint sch K { m with ring := r } e = schemePoint sch K m e :=
  (renamed_id m r).schemePoint hn hn' (fun h => ringRenamed_id hn.valid (hn.ring (.inr h)) (hn'.ring (.inr h)) (hf h)) he

theorem schemeBase_alike {sch : Scheme} {m : Mesh P D} {r : Ring} (hn : sch.Needs m)
    (hn' : sch.Needs { m with ring := r }) {f g : Filt} (hfg : SameSettings f g) {v : PId} (hlt : v < m.points.length) :
    schemeBase sch cosn { m with ring := r } g v = schemeBase sch cosn m f v := by
  cases sch with
  | loop =>
    show loopBase cosn { m with ring := r } g v = loopBase cosn m f v
    unfold loopBase
    rw [hfg.cells, hfg.uniform]
    split
    · refine valueOf_congr ?_
      exact (renamed_id m r).smoothingPoint hn.valid hn'.valid (hn.ring (.inl rfl)) (hn'.ring (.inl rfl)) cosn
        (hn.noIsolated rfl v hlt) _
    · rfl
  | linear => rfl
  | butterfly => rfl
  | sqrt3 => rfl

theorem cellUpdate_alike {sch : Scheme} {m m' : Mesh P D} (hm : SameButRings m m') (hn : sch.Needs m) (hn' : sch.Needs m')
    (hf : sch.RingsForced m) (lib lib' : QELib) {f g : Filt} (hfg : SameSettings f g) (hsel : m.SelOK f.cells)
    (hmax : sch = .sqrt3 → m.points.length + (m.selected f.cells).length ≤ idMax) :
    ∃ out f' out' g', cellUpdate sch lib cosn f m = (.ok out, f') ∧ cellUpdate sch lib' cosn g m' = (.ok out', g') ∧
      SameButRings out out' ∧ SameSettings f' g' := by
  rw [hm.eq] at hn' ⊢
  generalize m'.ring = r at hn' ⊢
  by_cases hs : sch = .sqrt3
  · subst hs
    obtain ⟨out, f', h1, A⟩ := sqrt3Update_ok hn.valid lib cosn hsel (hmax rfl)
    obtain ⟨out', g', h2, B⟩ := sqrt3Update_ok (f := g) hn'.valid lib' cosn (by rw [hfg.cells]; exact hsel)
      (by rw [hfg.cells]; exact hmax rfl)
    refine ⟨out, f', out', g', h1, h2, ?_, ?_⟩
    · have k1 := A.out
      have k2 := B.out
      rw [hfg.cells, addOne_withRing] at k2
      rw [k1, k2]
      rfl
    · refine ⟨?_, ?_, ?_⟩
      · rw [A.cells, B.cells, hfg.cells]; rfl
      · rw [A.edgeSel, B.edgeSel, hfg.edgeSel]
      · rw [A.uniform, B.uniform, hfg.cells]
  · obtain ⟨out, f', h1, A⟩ := cellUpdate_ok hs lib cosn hn hsel
    obtain ⟨out', g', h2, B⟩ := cellUpdate_ok hs lib' cosn (f := g) hn' (by rw [hfg.cells]; exact hsel)
    rw [hfg.cells] at B
    refine ⟨out, f', out', g', h1, h2, faceSplit_alike hfg ?_ A B⟩
    congr 1
    · exact List.map_congr_left fun v hv => schemeBase_alike cosn hn hn' hfg (List.mem_range.1 hv)
    · exact List.map_congr_left fun e he => valueOf_congr (schemePoint_alike hn hn' hf (selected_isEdge hn.valid he))

theorem edgeUpdate_alike {sch : EdgeScheme} {m m' : Mesh P D} (hm : SameButRings m m') (hn : sch.toScheme.Needs m)
    (hn' : sch.toScheme.Needs m') (hf : sch.toScheme.RingsForced m) (lib lib' : QELib) {f g : Filt} (hfg : SameSettings f g)
    (hsel : m.EdgeSelOK f.edgeSel) :
    ∃ out f' out' g', edgeUpdate sch lib cosn f m = (.ok out, f') ∧ edgeUpdate sch lib' cosn g m' = (.ok out', g') ∧
      SameButRings out out' ∧ SameSettings f' g' := by
  rw [hm.eq] at hn' ⊢
  generalize m'.ring = r at hn' ⊢
  obtain ⟨out, f', h1, A⟩ := edgeUpdate_ok lib cosn hn hsel
  obtain ⟨out', g', h2, B⟩ := edgeUpdate_ok lib' cosn (f := g) hn' (by rw [hfg.edgeSel]; exact hsel)
  rw [hfg.edgeSel] at B
  refine ⟨out, f', out', g', h1, h2, faceSplit_alike hfg ?_ A B⟩
  congr 1
  exact List.map_congr_left fun e he => valueOf_congr (schemePoint_alike hn hn' hf (selectedEdges_isEdge hsel he))

/-- the pieces of a boundary that does not touch itself do not touch, for every face split -/
theorem FaceSplitResult.simple {lib : QELib} {inp out : Mesh P D} {f f' : Filt} {u : Bool} {μ : Edge → Option PId} {pts : List P}
    (R : FaceSplitResult lib inp out f f' u μ pts) (hv : inp.Valid) (hsb : inp.SimpleBoundary) : out.SimpleBoundary := by
  have hb := (R.boundary hv).1
  have hlt : ∀ e, inp.IsBoundary e → e.1 < inp.points.length ∧ e.2 < inp.points.length := fun e he =>
    hv.isEdge_lt ((hv.edges_iff _).2 (.inl he.1))
  have hinj : ∀ e e' m, inp.IsBoundary e → inp.IsBoundary e' → μ e = some m → μ e' = some m → e = e' := by
    intro e e' m he he' h1 h2
    rcases R.label.inj _ _ _ h1 h2 with h3 | h3
    · exact h3.symm
    · exact absurd he'.1 (h3 ▸ he.2)
  intro x y hx hy
  obtain ⟨e, he, hp⟩ := (hb x).1 hx
  obtain ⟨e', he', hp'⟩ := (hb y).1 hy
  have ne : ∀ {e' : Edge} {m : PId} {z : Edge}, inp.IsBoundary e' → μ z = some m → (e'.1 = m ∨ e'.2 = m) → False := by
    intro e' m z he' hm hc
    have h1 := (R.fresh _ _ hm).1
    rcases hc with hc | hc
    · exact absurd (hlt _ he').1 (Nat.not_lt.2 (hc ▸ h1))
    · exact absurd (hlt _ he').2 (Nat.not_lt.2 (hc ▸ h1))
  rcases hp with ⟨h0, rfl⟩ | ⟨m, hm, rfl | rfl⟩ <;> rcases hp' with ⟨h0', rfl⟩ | ⟨m', hm', rfl | rfl⟩ <;>
    refine ⟨fun hc => ?_, fun hc => ?_⟩ <;> try simp only at hc
  · exact (hsb _ _ he he').1 hc
  · exact (hsb _ _ he he').2 hc
  · obtain rfl := (hsb _ _ he he').1 hc
    rw [h0] at hm'; cases hm'
  · exact (ne he hm' (.inr hc)).elim
  · exact (ne he hm' (.inl hc)).elim
  · obtain rfl := (hsb _ _ he he').2 hc
    rw [h0] at hm'; cases hm'
  · obtain rfl := (hsb _ _ he he').1 hc
    rw [h0'] at hm; cases hm
  · exact (ne he' hm (.inr hc.symm)).elim
  · obtain rfl := (hsb _ _ he he').1 hc
    obtain rfl := Option.some.inj (hm.symm.trans hm')
    rfl
  · subst hc
    obtain rfl := hinj _ _ _ he he' hm hm'
    rfl
  · exact (ne he hm' (.inl hc)).elim
  · exact (ne he' hm (.inr hc.symm)).elim
  · exact (ne he' hm (.inl hc.symm)).elim
  · obtain rfl := (hsb _ _ he he').2 hc
    rw [h0'] at hm; cases hm
  · exact (ne he' hm (.inl hc.symm)).elim
  · exact (ne he hm' (.inr hc)).elim
  · subst hc
    obtain rfl := hinj _ _ _ he he' hm hm'
    rfl
  · obtain rfl := (hsb _ _ he he').2 hc
    obtain rfl := Option.some.inj (hm.symm.trans hm')
    rfl

theorem RingsForced.cell {sch : Scheme} {lib : QELib} {m out : Mesh P D} {f f' : Filt} (hn : sch.Needs m) (hsel : m.SelOK f.cells)
    (h : cellUpdate sch lib cosn f m = (.ok out, f')) (hf : sch.RingsForced m) : sch.RingsForced out := by
  intro hs
  refine (cellUpdate_result ?_ hn hsel h).1.simple hn.valid (hf hs)
  rw [hs]; exact fun h => nomatch h

theorem RingsForced.edge {sch : EdgeScheme} {lib : QELib} {m out : Mesh P D} {f f' : Filt} (hn : sch.toScheme.Needs m)
    (hsel : m.EdgeSelOK f.edgeSel) (h : edgeUpdate sch lib cosn f m = (.ok out, f')) (hf : sch.toScheme.RingsForced m) :
    sch.toScheme.RingsForced out := fun hs => (edgeUpdate_result hn hsel h).simple hn.valid (hf hs)

variable {lib lib' : QELib}

theorem manyLevels_alike {sch : Scheme} (hl : sch = .loop ∨ sch = .butterfly → lib.Lawful)
    (hl' : sch = .loop ∨ sch = .butterfly → lib'.Lawful) (L : Nat) {m m' : Mesh P D} (hm : SameButRings m m')
    {sel : List CId} (hn : sch.Needs m) (hn' : sch.Needs m') (hf : sch.RingsForced m) (hsel : m.SelOK sel)
    (hid : sch.IdsLeft L m sel) :
    ∃ o o' s, manyLevels sch lib cosn L (m, sel) = .ok (o, s) ∧ manyLevels sch lib' cosn L (m', sel) = .ok (o', s) ∧
      SameButRings o o' := by
  induction L generalizing m m' sel with
  | zero => exact ⟨m, m', sel, rfl, rfl, hm⟩
  | succ n ih =>
    obtain ⟨out, f', out', g', h1, h2, h3, h4⟩ := cellUpdate_alike cosn hm hn hn' hf lib lib'
      (SameSettings.refl (Filt.new.setCells sel)) hsel (IdsLeft.now hid)
    have hsel' : m'.SelOK sel := by rw [hm.eq]; exact hsel
    have hid' : sch.IdsLeft (n + 1) m' sel := by rw [hm.eq]; exact hid
    obtain ⟨m1, s1, k1, hn1, hs1, hid1, -, -⟩ := oneLevel_ok cosn hl hn hsel hid
    obtain ⟨m2, s2, k2, hn2, -, -, -, -⟩ := oneLevel_ok cosn hl' hn' hsel' hid'
    have e1 : (m1, s1) = (out, f'.cells) := by
      unfold oneLevel at k1; simp only [h1] at k1; exact (Except.ok.inj k1).symm
    have e2 : (m2, s2) = (out', g'.cells) := by
      unfold oneLevel at k2; simp only [h2] at k2; exact (Except.ok.inj k2).symm
    obtain ⟨rfl, rfl⟩ := Prod.mk.inj e1
    obtain ⟨rfl, rfl⟩ := Prod.mk.inj e2
    rw [h4.cells] at k2
    obtain ⟨o, o', s, j1, j2, j3⟩ := ih h3 hn1 hn2 (RingsForced.cell cosn hn hsel h1 hf) hs1 hid1
    refine ⟨o, o', s, ?_, ?_, j3⟩
    · unfold manyLevels; rw [k1]; exact j1
    · unfold manyLevels; rw [k2]; exact j2


omit [Field K] [AddCommGroup P] [Module K P] in
theorem SameButRings.valid {m m' : Mesh P D} (h : SameButRings m m') (hv : m.Valid) : m'.Valid := by
  rw [h.eq]; exact ⟨hv.1, hv.2, hv.3, hv.4, hv.5, hv.6, hv.7, hv.8⟩

omit [Field K] [AddCommGroup P] [Module K P] in
theorem SameButRings.noIsolated {m m' : Mesh P D} (h : SameButRings m m') (hv : m.NoIsolated) : m'.NoIsolated := by
  rw [h.eq]; exact hv

theorem copyGeometry_simple (lib : QELib) {m : Mesh P D} (hv : m.Valid) (h : m.SimpleBoundary) :
    (copyGeometry lib m).SimpleBoundary := by
  unfold Mesh.SimpleBoundary Mesh.IsBoundary
  rw [copyGeometry_tris lib hv]
  exact h

section conditional
variable [LinearOrder K]

/-- what the list held before does not matter -/
theorem areaCompute_old (area : P → P → P → K) (A : K) (m : Mesh P D) (old old' : List CId) :
    areaCompute area A m old = areaCompute area A m old' := rfl

theorem lengthCompute_old (len : P → P → K) (L : K) (m : Mesh P D) (old old' : List (Option Edge)) :
    lengthCompute len L m old = lengthCompute len L m old' := rfl

theorem areaCompute_alike (area : P → P → P → K) (A : K) {m m' : Mesh P D} (h : SameButRings m m') :
    areaCompute area A m' = areaCompute area A m := by rw [h.eq]; rfl

theorem lengthCompute_alike (len : P → P → K) (L : K) {m m' : Mesh P D} (h : SameButRings m m') :
    lengthCompute len L m' = lengthCompute len L m := by rw [h.eq]; rfl

theorem copyGeometry_alike (lib lib' : QELib) {m m' : Mesh P D} (h : SameButRings m m') :
    SameButRings (copyGeometry lib m) (copyGeometry lib' m') := by rw [h.eq]; rfl

theorem condArea_alike {sch : Scheme} (hl : sch = .loop ∨ sch = .butterfly → lib.Lawful)
    (hl' : sch = .loop ∨ sch = .butterfly → lib'.Lawful) (area : P → P → P → K) (A : K) (n : Nat) :
    ∀ {m m' : Mesh P D} {sel : List CId} {s s' : Filt}, SameButRings m m' → SameSettings (s.setCells sel) (s'.setCells sel) →
      AreaInv sch n sel m → AreaInv sch n sel m' → sch.RingsForced m →
      (condLoop (condCellUpd sch lib cosn) (areaCompute area A) n ⟨s, sel⟩ m = none ∧
        condLoop (condCellUpd sch lib' cosn) (areaCompute area A) n ⟨s', sel⟩ m' = none) ∨
      ∃ out out' c c', condLoop (condCellUpd sch lib cosn) (areaCompute area A) n ⟨s, sel⟩ m = some (.ok out, c) ∧
        condLoop (condCellUpd sch lib' cosn) (areaCompute area A) n ⟨s', sel⟩ m' = some (.ok out', c') ∧ SameButRings out out' := by
  induction n with
  | zero =>
    intro m m' sel s s' hm _ _ _ _
    by_cases hs : sel = []
    · exact .inr ⟨m, m', _, _, condLoop_done hs, condLoop_done hs, hm⟩
    · exact .inl ⟨condLoop_zero hs, condLoop_zero hs⟩
  | succ n ih =>
    intro m m' sel s s' hm hss H H' hf
    by_cases hs : sel = []
    · exact .inr ⟨m, m', _, _, condLoop_done hs, condLoop_done hs, hm⟩
    · obtain ⟨o, f', l, h1, h2, h3, h4⟩ := condArea_step (lib := lib) (cosn := cosn) hl area A s H hs
      obtain ⟨o', g', l', k1, k2, k3, k4⟩ := condArea_step (lib := lib') (cosn := cosn) hl' area A s' H' hs
      obtain ⟨_, _, _, _, j1, j2, j3, j4⟩ := cellUpdate_alike cosn hm H.needs H'.needs hf lib lib' hss H.selOK h3
      rw [h1] at j1; rw [k1] at j2
      cases j1; cases j2
      have hf' := RingsForced.cell cosn (f := s.setCells sel) H.needs H.selOK h1 hf
      rw [areaCompute_alike area A j3, h2] at k2
      cases k2
      rw [condLoop_step hs h1 h2, condLoop_step hs k1 (by rw [areaCompute_alike area A j3]; exact h2)]
      exact ih j3 ⟨rfl, j4.edgeSel, j4.uniform⟩ h4 k4 hf'

theorem condLength_alike {sch : EdgeScheme} (hl : sch = .loop ∨ sch = .butterfly → lib.Lawful)
    (hl' : sch = .loop ∨ sch = .butterfly → lib'.Lawful) (len : P → P → K) (L : K) (n : Nat) :
    ∀ {m m' : Mesh P D} {sel : List (Option Edge)} {s s' : Filt}, SameButRings m m' →
      SameSettings (s.setEdges sel) (s'.setEdges sel) →
      LengthInv sch sel m → LengthInv sch sel m' → sch.toScheme.RingsForced m →
      (condLoop (condEdgeUpd sch lib cosn) (lengthCompute len L) n ⟨s, sel⟩ m = none ∧
        condLoop (condEdgeUpd sch lib' cosn) (lengthCompute len L) n ⟨s', sel⟩ m' = none) ∨
      ∃ out out' c c', condLoop (condEdgeUpd sch lib cosn) (lengthCompute len L) n ⟨s, sel⟩ m = some (.ok out, c) ∧
        condLoop (condEdgeUpd sch lib' cosn) (lengthCompute len L) n ⟨s', sel⟩ m' = some (.ok out', c') ∧ SameButRings out out' := by
  induction n with
  | zero =>
    intro m m' sel s s' hm _ _ _ _
    by_cases hs : sel = []
    · exact .inr ⟨m, m', _, _, condLoop_done hs, condLoop_done hs, hm⟩
    · exact .inl ⟨condLoop_zero hs, condLoop_zero hs⟩
  | succ n ih =>
    intro m m' sel s s' hm hss H H' hf
    by_cases hs : sel = []
    · exact .inr ⟨m, m', _, _, condLoop_done hs, condLoop_done hs, hm⟩
    · obtain ⟨o, f', l, h1, h2, h4⟩ := condLength_step (lib := lib) (cosn := cosn) hl len L s H hs
      obtain ⟨o', g', l', k1, k2, k4⟩ := condLength_step (lib := lib') (cosn := cosn) hl' len L s' H' hs
      obtain ⟨_, _, _, _, j1, j2, j3, j4⟩ := edgeUpdate_alike cosn hm H.needs H'.needs hf lib lib' hss H.selOK
      rw [h1] at j1; rw [k1] at j2
      cases j1; cases j2
      have hf' := RingsForced.edge cosn (f := s.setEdges sel) H.needs H.selOK h1 hf
      rw [lengthCompute_alike len L j3, h2] at k2
      cases k2
      rw [condLoop_step hs h1 h2, condLoop_step hs k1 (by rw [lengthCompute_alike len L j3]; exact h2)]
      exact ih j3 ⟨j4.cells, rfl, j4.uniform⟩ h4 k4 hf'

end conditional

end
end Verif
