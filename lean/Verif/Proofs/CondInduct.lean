import Verif.Proofs.CondSafe
/-
What each iteration of the conditional filter keeps, the whole run keeps.
-/
namespace Verif
set_option linter.unusedSectionVars false
variable {K P D : Type} [Field K] [Zero P] [Add P] [SMul K P] [LinearOrder K] {lib : QELib} {cosn : Nat → K}

/-- `condLoop_safe` with the mesh that is returned -/
theorem condLoop_induct {S ι : Type} {upd : S → List ι → Mesh P D → Except Fail (Mesh P D) × S}
    {crit : Mesh P D → Prog (List ι) Unit} (I : Nat → List ι → Mesh P D → Prop)
    (hstep : ∀ n s sel cur, I (n + 1) sel cur → sel ≠ [] → ∃ m s' sel', upd s sel cur = (.ok m, s') ∧
      crit m sel = (.ok (), sel') ∧ I n sel' m) {n : Nat} {c c' : Cond S ι} {cur out : Mesh P D} (h : I n c.sel cur)
    (hr : condLoop upd crit n c cur = some (.ok out, c')) : ∃ k sel', I k sel' out := by
  rcases condLoop_safe I hstep h with h1 | ⟨out', c'', k, sel', h1, h2⟩
  · rw [h1] at hr; cases hr
  · rw [h1] at hr; cases hr
    exact ⟨k, sel', h2⟩

/-- what holds before each iteration with a cell filter, `n` being the number of iterations to go -/
structure AreaInv (sch : Scheme) (n : Nat) (sel : List CId) (m : Mesh P D) : Prop where
  needs : sch.Needs m
  selOK : m.SelOK sel
  nodup : sel.Nodup
  ids : sch = .sqrt3 → m.points.length + 4 ^ n * m.cells.length ≤ idMax

theorem areaCompute_valid (area : P → P → P → K) (A : K) (m : Mesh P D) (old : List CId) (hm : m.Valid) :
    ∃ l, areaCompute area A m old = (.ok (), l) ∧ m.SelOK l ∧ l.Nodup := by
  obtain ⟨l, h1, h0, h2⟩ := C28_area_exact area A hm.cells_sorted hm.allTriangles hm.cornersExist old
  exact ⟨l, h1, fun k hk => TooLarge.mem ((h2 k).1 hk), h0.imp fun h => Nat.ne_of_lt h⟩

theorem condArea_start {sch : Scheme} {inp : Mesh P D} (hv : inp.Valid) (hl : sch = .loop ∨ sch = .butterfly → lib.Lawful)
    (hi : sch = .loop → inp.NoIsolated) {n : Nat} (hmax : sch = .sqrt3 → inp.points.length + 4 ^ n * inp.cells.length ≤ idMax)
    (upd : Filt → List CId → Mesh P D → Except Fail (Mesh P D) × Filt) (area : P → P → P → K) (A : K) (c : Cond Filt CId) :
    ∃ l, areaCompute area A (copyGeometry lib inp) c.sel = (.ok (), l) ∧ AreaInv sch n l (copyGeometry lib inp) ∧
      condGenerate lib upd (some (areaCompute area A)) n c inp =
        condLoop upd (areaCompute area A) n ⟨c.inner, l⟩ (copyGeometry lib inp) := by
  obtain ⟨l, h1, h2, h3⟩ := areaCompute_valid area A _ c.sel (copyGeometry_valid lib hv)
  refine ⟨l, h1, ⟨copyGeometry_needs hv hl hi, h2, h3, fun hs => ?_⟩, ?_⟩
  · rw [copyGeometry_points lib hv, cells_length_copyGeometry lib hv]; exact hmax hs
  · unfold condGenerate
    simp only [h1]

theorem condArea_step {sch : Scheme} (hl : sch = .loop ∨ sch = .butterfly → lib.Lawful) (area : P → P → P → K) (A : K)
    {n : Nat} (s : Filt) {sel : List CId} {cur : Mesh P D} (H : AreaInv sch (n + 1) sel cur) (hne : sel ≠ []) :
    ∃ m s' sel', cellUpdate sch lib cosn (s.setCells sel) cur = (.ok m, s') ∧ areaCompute area A m sel = (.ok (), sel') ∧
      (sch = .sqrt3 → cur.points.length + (cur.selected sel).length ≤ idMax) ∧ AreaInv sch n sel' m := by
  obtain ⟨hn, hsel, hnd, hmx⟩ := H
  by_cases hs : sch = .sqrt3
  · subst hs
    have h4 : 1 ≤ 4 ^ n := Nat.one_le_pow _ _ (by omega)
    have hm := hmx rfl
    rw [pow_succ] at hm
    have hm' : cur.points.length + cur.cells.length + 4 ^ n * (3 * cur.cells.length) ≤ idMax := by
      refine Nat.le_trans ?_ hm
      have : cur.cells.length ≤ 4 ^ n * cur.cells.length := Nat.le_mul_of_pos_left _ h4
      have h5 : 4 ^ n * 4 * cur.cells.length = 4 ^ n * cur.cells.length + 4 ^ n * (3 * cur.cells.length) := by ring
      rw [h5]; omega
    obtain ⟨m, f', h5, h6, h7, h8, h9, h10, h11⟩ := condSqrt3_ok (lib := lib) cosn hn.valid hne hsel hnd (by omega) s
    obtain ⟨l, k1, k2, k3⟩ := areaCompute_valid area A m sel h7
    exact ⟨m, f', l, h6, k1, fun _ => h8, ⟨h7, by simp, by simp⟩, k2, k3, fun _ =>
      Nat.le_trans (Nat.add_le_add h9 (Nat.mul_le_mul_left _ h10)) hm'⟩
  · obtain ⟨m, f', h5, h6, h7, h8⟩ := condCellUpd_ok cosn hs hl hn hsel s
    obtain ⟨l, k1, k2, k3⟩ := areaCompute_valid area A m sel h7.valid
    exact ⟨m, f', l, h6, k1, fun h => (hs h).elim, h7, k2, k3, fun h => (hs h).elim⟩

/-- induction over the iterations with a cell filter and the area criterion -/
theorem condArea_induct {sch : Scheme} {inp out : Mesh P D} (hv : inp.Valid) (hl : sch = .loop ∨ sch = .butterfly → lib.Lawful)
    (hi : sch = .loop → inp.NoIsolated) {n : Nat} (hmax : sch = .sqrt3 → inp.points.length + 4 ^ n * inp.cells.length ≤ idMax)
    {area : P → P → P → K} {A : K} {c c' : Cond Filt CId} (I : Mesh P D → Prop) (h0 : I (copyGeometry lib inp))
    (hstep : ∀ (m out : Mesh P D) (sel : List CId) (f f' : Filt), sch.Needs m → sch.Needs out → m.SelOK sel → sel.Nodup →
      sel ≠ [] → (sch = .sqrt3 → m.points.length + (m.selected sel).length ≤ idMax) →
      cellUpdate sch lib cosn (f.setCells sel) m = (.ok out, f') → I m → I out)
    (h : condGenerate lib (condCellUpd sch lib cosn) (some (areaCompute area A)) n c inp = some (.ok out, c')) : I out := by
  obtain ⟨l, -, h2, hg⟩ := condArea_start hv hl hi hmax (condCellUpd sch lib cosn) area A c
  rw [hg] at h
  have key := condLoop_induct (upd := condCellUpd sch lib cosn) (crit := areaCompute area A)
    (fun n sel m => I m ∧ AreaInv sch n sel m) ?_ ⟨h0, h2⟩ h
  · obtain ⟨_, _, h4, -⟩ := key
    exact h4
  · rintro n s sel cur ⟨d, H⟩ hne
    obtain ⟨m, s', sel', k1, k2, k3, k4⟩ := condArea_step hl area A s H hne
    exact ⟨m, s', sel', k1, k2, hstep _ _ _ _ _ H.needs k4.needs H.selOK H.nodup hne k3 k1 d, k4⟩

theorem toScheme_loop {sch : EdgeScheme} : sch.toScheme = .loop ↔ sch = .loop := by cases sch <;> simp [EdgeScheme.toScheme]
theorem toScheme_butterfly {sch : EdgeScheme} : sch.toScheme = .butterfly ↔ sch = .butterfly := by
  cases sch <;> simp [EdgeScheme.toScheme]

/-- what holds before each iteration with an edge filter -/
structure LengthInv (sch : EdgeScheme) (sel : List (Option Edge)) (m : Mesh P D) : Prop where
  needs : sch.toScheme.Needs m
  selOK : m.EdgeSelOK sel
  list : ∃ l : List Edge, sel = l.map some ∧ (∀ e ∈ l, m.IsEdge e) ∧ DistinctEdges l

theorem lengthCompute_valid (len : P → P → K) (L : K) (m : Mesh P D) (old : List (Option Edge)) (hm : m.Valid) :
    ∃ l : List Edge, lengthCompute len L m old = (.ok (), l.map some) ∧ (∀ e ∈ l, m.IsEdge e) ∧ DistinctEdges l ∧
      m.EdgeSelOK (l.map some) := by
  obtain ⟨l, h1, -, h2, h3⟩ := C29_length_exact len L hm.has_edge_cells hm.endsExist old
  refine ⟨l, h1, fun e he => Or.inl ((h2 e).1 he).1, h3 hm.edges_once, fun e he => ?_⟩
  obtain ⟨e', he', h⟩ := List.mem_map.1 he
  cases h
  exact Or.inl ((h2 _).1 he').1

theorem condLength_start {sch : EdgeScheme} {inp : Mesh P D} (hv : inp.Valid)
    (hl : sch = .loop ∨ sch = .butterfly → lib.Lawful) (hi : sch = .loop → inp.NoIsolated) {n : Nat}
    (upd : Filt → List (Option Edge) → Mesh P D → Except Fail (Mesh P D) × Filt) (len : P → P → K) (L : K)
    (c : Cond Filt (Option Edge)) :
    ∃ l, lengthCompute len L (copyGeometry lib inp) c.sel = (.ok (), l) ∧ LengthInv sch l (copyGeometry lib inp) ∧
      condGenerate lib upd (some (lengthCompute len L)) n c inp =
        condLoop upd (lengthCompute len L) n ⟨c.inner, l⟩ (copyGeometry lib inp) := by
  obtain ⟨l, h1, h2, h3, h4⟩ := lengthCompute_valid len L _ c.sel (copyGeometry_valid lib hv)
  refine ⟨_, h1, ⟨copyGeometry_needs hv (fun h => hl (h.imp toScheme_loop.1 toScheme_butterfly.1))
    (fun h => hi (toScheme_loop.1 h)), h4, l, rfl, h2, h3⟩, ?_⟩
  unfold condGenerate
  simp only [h1]

theorem condLength_step {sch : EdgeScheme} (hl : sch = .loop ∨ sch = .butterfly → lib.Lawful) (len : P → P → K) (L : K)
    (s : Filt) {sel : List (Option Edge)} {cur : Mesh P D} (H : LengthInv sch sel cur) (hne : sel ≠ []) :
    ∃ m s' sel', edgeUpdate sch lib cosn (s.setEdges sel) cur = (.ok m, s') ∧ lengthCompute len L m sel = (.ok (), sel') ∧
      LengthInv sch sel' m := by
  obtain ⟨hn, hsel, l, rfl, hE, hD⟩ := H
  have hne' : l ≠ [] := by simpa using hne
  obtain ⟨m, f', h5, h6, h7, h8⟩ := condEdgeUpd_ok cosn hl hn hne' hE hD s
  obtain ⟨l', k1, k2, k3, k4⟩ := lengthCompute_valid len L m (l.map some) h7.valid
  exact ⟨m, f', _, h6, k1, h7, k4, l', rfl, k2, k3⟩

/-- induction over the iterations with an edge filter and the length criterion -/
theorem condLength_induct {sch : EdgeScheme} {inp out : Mesh P D} (hv : inp.Valid)
    (hl : sch = .loop ∨ sch = .butterfly → lib.Lawful) (hi : sch = .loop → inp.NoIsolated) {n : Nat}
    {len : P → P → K} {L : K} {c c' : Cond Filt (Option Edge)} (I : Mesh P D → Prop) (h0 : I (copyGeometry lib inp))
    (hstep : ∀ (m out : Mesh P D) (sel : List (Option Edge)) (f f' : Filt), LengthInv sch sel m → sch.toScheme.Needs out →
      sel ≠ [] → edgeUpdate sch lib cosn (f.setEdges sel) m = (.ok out, f') → I m → I out)
    (h : condGenerate lib (condEdgeUpd sch lib cosn) (some (lengthCompute len L)) n c inp = some (.ok out, c')) : I out := by
  obtain ⟨l, -, h2, hg⟩ := condLength_start hv hl hi (condEdgeUpd sch lib cosn) len L c
  rw [hg] at h
  have key := condLoop_induct (upd := condEdgeUpd sch lib cosn) (crit := lengthCompute len L)
    (fun _ sel m => I m ∧ LengthInv sch sel m) ?_ ⟨h0, h2⟩ h
  · obtain ⟨_, _, h4, -⟩ := key
    exact h4
  · rintro n s sel cur ⟨d, H⟩ hne
    obtain ⟨m, s', sel', k1, k2, k4⟩ := condLength_step hl len L s H hne
    exact ⟨m, s', sel', k1, k2, hstep _ _ _ _ _ H k4.needs hne k1 d, k4⟩

end Verif
