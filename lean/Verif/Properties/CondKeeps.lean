import Verif.Proofs.CondInduct
import Verif.Properties.LevelsGeo
import Verif.Properties.Linked
import Verif.Properties.EdgeRuns
import Verif.Properties.History
/-
C19, C20, C21 and C52 for the conditional filter.
-/
namespace Verif
set_option linter.unusedSectionVars false

section pieces
variable {K P D : Type} [Field K] [Zero P] [Add P] [SMul K P] [LinearOrder K] {lib : QELib} {cosn : Nat → K} {inp out : Mesh P D}

theorem samePieces_copy (lib : QELib) (hv : inp.Valid) : SamePieces inp (copyGeometry lib inp) := by
  have hlink : (copyGeometry lib inp).Linked = inp.Linked := by
    unfold Mesh.Linked
    rw [copyGeometry_tris lib hv]
  refine ⟨fun v w _ _ => by rw [hlink], fun d hd => ?_⟩
  rw [copyGeometry_tris lib hv] at hd
  exact ⟨d, hd, fun v hv x hx => by rw [hlink]; exact Mesh.linked_tri hd hv hx⟩

/-- C52, conditional filter with a cell filter. -/
theorem C52_pieces_kept_conditional {sch : Scheme} (hv : inp.Valid) (hl : sch = .loop ∨ sch = .butterfly → lib.Lawful)
    (hi : sch = .loop → inp.NoIsolated) {n : Nat} (hmax : sch = .sqrt3 → inp.points.length + 4 ^ n * inp.cells.length ≤ idMax)
    {area : P → P → P → K} {A : K} {c c' : Cond Filt CId}
    (h : condGenerate lib (condCellUpd sch lib cosn) (some (areaCompute area A)) n c inp = some (.ok out, c')) :
    SamePieces inp out := by
  refine (condArea_induct hv hl hi hmax (fun m => SamePieces inp m ∧ inp.points.length ≤ m.points.length)
    ⟨samePieces_copy lib hv, by rw [copyGeometry_points lib hv]⟩ ?_ h).1
  rintro m out sel f f' hm hn' hsel hnd hne hmax h ⟨h1, h2⟩
  have h3 : m.points.length ≤ out.points.length := by
    by_cases hs : sch = .sqrt3
    · subst hs
      have R := sqrt3Update_result hm.valid (f := f.setCells sel) hsel (hmax rfl) h
      rw [R.points_length]; exact R.longer
    · have R := (cellUpdate_result hs hm (f := f.setCells sel) hsel h).1
      rw [R.points, AMap.length_dense]; exact R.longer
  exact ⟨h1.trans (C52_pieces_kept hm (f := f.setCells sel) hsel hmax h) h2 (fun t ht v hv' => hv.verts_lt ht hv')
    (fun t ht v hv => hm.valid.verts_lt ht hv), h2.trans h3⟩

/-- C52, conditional filter with an edge filter. -/
theorem C52_pieces_kept_conditional_edge {sch : EdgeScheme} (hv : inp.Valid) (hl : sch = .loop ∨ sch = .butterfly → lib.Lawful)
    (hi : sch = .loop → inp.NoIsolated) {n : Nat} {len : P → P → K} {L : K} {c c' : Cond Filt (Option Edge)}
    (h : condGenerate lib (condEdgeUpd sch lib cosn) (some (lengthCompute len L)) n c inp = some (.ok out, c')) :
    SamePieces inp out := by
  refine (condLength_induct hv hl hi (fun m => SamePieces inp m ∧ inp.points.length ≤ m.points.length)
    ⟨samePieces_copy lib hv, by rw [copyGeometry_points lib hv]⟩ ?_ h).1
  rintro m out sel f f' H hn' hne h ⟨h1, h2⟩
  have R := edgeUpdate_result H.needs (f := f.setEdges sel) H.selOK h
  have h3 : m.points.length ≤ out.points.length := by
    rw [R.points, AMap.length_dense]; exact R.longer
  exact ⟨h1.trans (R.samePieces H.needs.valid) h2 (fun t ht v hv' => hv.verts_lt ht hv')
    (fun t ht v hv => H.needs.valid.verts_lt ht hv), h2.trans h3⟩

end pieces

section hull
variable {K P D : Type} [Field K] [LinearOrder K] [IsStrictOrderedRing K] [AddCommGroup P] [Module K P]
  {inp out : Mesh P D} {lib : QELib} {cosn : Nat → K}

theorem hull_copy (lib : QELib) (hv : inp.Valid) : (copyGeometry lib inp).hull K = inp.hull K := by
  unfold Mesh.hull Mesh.pos
  rw [copyGeometry_points lib hv]

theorem simple_copy (lib : QELib) (hv : inp.Valid) (h : inp.SimpleBoundary) : (copyGeometry lib inp).SimpleBoundary := by
  unfold Mesh.SimpleBoundary Mesh.IsBoundary at h ⊢
  rw [copyGeometry_tris lib hv]
  exact h

/-- C20, conditional filter with the Linear, Loop or SquareThree cell filter.  (Loop: the boundary does not touch itself.) -/
theorem C20_hull_conditional_partial {sch : Scheme} (hs : sch ≠ .butterfly) (hc : sch = .loop → ∀ n, -1 ≤ cosn n ∧ cosn n ≤ 1)
    (hl : sch = .loop → lib.Lawful) (hn : sch.Needs inp) (hsb : sch = .loop → inp.SimpleBoundary) {n : Nat}
    (hmax : sch = .sqrt3 → inp.points.length + 4 ^ n * inp.cells.length ≤ idMax)
    {area : P → P → P → K} {A : K} {c c' : Cond Filt CId}
    (h : condGenerate lib (condCellUpd sch lib cosn) (some (areaCompute area A)) n c inp = some (.ok out, c')) :
    ∀ v p, out.pos v = some p → p ∈ inp.hull K := by
  have key := (condArea_induct hn.valid (fun hb => hb.elim hl fun hb => absurd hb hs) hn.noIsolated hmax
    (fun m => m.hull K ⊆ inp.hull K ∧ (sch = .loop → m.SimpleBoundary))
    ⟨(hull_copy lib hn.valid).subset, fun hb => simple_copy lib hn.valid (hsb hb)⟩ ?_ h).1
  · exact fun v p hp => key (subset_convexHull K _ ⟨v, hp⟩)
  · rintro m out sel f f' hm hn' hsel hnd hne hmax h ⟨h1, h2⟩
    exact ⟨(hull_mono (cellUpdate_hull hs hc hm h2 (f := f.setCells sel) hsel hmax h)).trans h1, fun hb => by
      subst hb; exact simple_split (by decide) hm (f := f.setCells sel) hsel h (h2 rfl)⟩

/-- C20, conditional filter with the Linear or Loop edge filter. -/
theorem C20_hull_conditional_edge {sch : EdgeScheme} (hs : sch ≠ .butterfly) (hl : sch = .loop → lib.Lawful)
    (hn : sch.toScheme.Needs inp) {n : Nat} {len : P → P → K} {L : K} {c c' : Cond Filt (Option Edge)}
    (h : condGenerate lib (condEdgeUpd sch lib cosn) (some (lengthCompute len L)) n c inp = some (.ok out, c')) :
    ∀ v p, out.pos v = some p → p ∈ inp.hull K := by
  have key := condLength_induct hn.valid (fun hb => hb.elim hl fun hb => absurd hb hs)
    (fun hb => hn.noIsolated (toScheme_loop.2 hb)) (fun m => m.hull K ⊆ inp.hull K) (hull_copy lib hn.valid).subset ?_ h
  · exact fun v p hp => key (subset_convexHull K _ ⟨v, hp⟩)
  · intro m out sel f f' H hn' hne h h1
    exact (hull_mono (C20_hull_edge hs H.needs (f := f.setEdges sel) H.selOK h)).trans h1

end hull

section surface
variable {E D : Type} [NormedAddCommGroup E] [InnerProductSpace ℝ E] {inp out : Mesh E D} {lib : QELib} {cosn : Nat → ℝ}

theorem surface_copy (lib : QELib) (hv : inp.Valid) :
    (copyGeometry lib inp).surface = inp.surface ∧ (copyGeometry lib inp).totalArea = inp.totalArea := by
  have hp : (copyGeometry lib inp).place = inp.place := by
    funext v
    unfold Mesh.place Mesh.pos
    rw [copyGeometry_points lib hv]
  unfold Mesh.surface Mesh.totalArea Mesh.areaOf
  rw [copyGeometry_tris lib hv, hp]
  exact ⟨rfl, rfl⟩

/-- C21, conditional filter with the Linear cell filter, any area function and threshold: when it returns, the surface and its
area are those of the input. -/
theorem C21_linear_same_surface_conditional (hv : inp.Valid) {n : Nat} {area : E → E → E → ℝ} {A : ℝ} {c c' : Cond Filt CId}
    (h : condGenerate lib (condCellUpd .linear lib cosn) (some (areaCompute area A)) n c inp = some (.ok out, c')) :
    out.surface = inp.surface ∧ out.totalArea = inp.totalArea := by
  refine condArea_induct hv (by simp) (by simp) (by simp) (fun m => m.surface = inp.surface ∧ m.totalArea = inp.totalArea)
    (surface_copy lib hv) ?_ h
  rintro m out sel f f' hm hn' hsel hnd hne hmax h ⟨h1, h2⟩
  obtain ⟨a, b, -⟩ := C21_linear_same_surface hm.valid (f := f.setCells sel) hsel h
  exact ⟨a.trans h1, b.trans h2⟩

/-- C21, conditional filter with the Linear edge filter. -/
theorem C21_linear_same_surface_conditional_edge (hv : inp.Valid) {n : Nat} {len : E → E → ℝ} {L : ℝ}
    {c c' : Cond Filt (Option Edge)}
    (h : condGenerate lib (condEdgeUpd .linear lib cosn) (some (lengthCompute len L)) n c inp = some (.ok out, c')) :
    out.surface = inp.surface ∧ out.totalArea = inp.totalArea := by
  refine condLength_induct hv (by simp) (by simp) (fun m => m.surface = inp.surface ∧ m.totalArea = inp.totalArea)
    (surface_copy lib hv) ?_ h
  rintro m out sel f f' H hn' hne h ⟨h1, h2⟩
  obtain ⟨a, b, -⟩ := C21_linear_edge_same_surface H.needs.valid (f := f.setEdges sel) H.selOK h
  exact ⟨a.trans h1, b.trans h2⟩

end surface

section affine
variable {K P P' D : Type} [Field K] [CharZero K] [LinearOrder K] [AddCommGroup P] [Module K P] [AddCommGroup P'] [Module K P']
  {lib : QELib}

theorem areaCompute_map {φ : P → P'} {area : P → P → P → K} {area' : P' → P' → P' → K} {A A' : K}
    (hA : ∀ p q r, A' < area' (φ p) (φ q) (φ r) ↔ A < area p q r) (m : Mesh P D) :
    areaCompute area' A' (m.mapPoints φ) = areaCompute area A m := by
  have : areaAct area' A' (m.mapPoints φ) = areaAct area A m := by
    funext c
    unfold areaAct
    cases asTriangle c.2 with
    | none => rfl
    | some t =>
      simp only [getPoint_map]
      funext s
      simp only [Prog.bind, Prog.lift]
      cases m.getPoint t.1 <;> cases m.getPoint t.2.1 <;> cases m.getPoint t.2.2 <;>
        first | (simp only [Except.map]; done) | simp only [Except.map, gt_iff_lt, hA]
  unfold areaCompute
  rw [this]
  rfl

theorem lengthCompute_map {φ : P → P'} {len : P → P → K} {len' : P' → P' → K} {L L' : K}
    (hL : ∀ p q, L' < len' (φ p) (φ q) ↔ L < len p q) (m : Mesh P D) :
    lengthCompute len' L' (m.mapPoints φ) = lengthCompute len L m := by
  have : lengthAct len' L' (m.mapPoints φ) = lengthAct len L m := by
    funext e
    unfold lengthAct
    simp only [getPoint_map]
    funext s
    simp only [Prog.bind, Prog.lift]
    cases m.getPoint e.1 <;> cases m.getPoint e.2 <;>
      first | (simp only [Except.map]; done) | simp only [Except.map, gt_iff_lt, hL]
  unfold lengthCompute
  rw [this]
  rfl

theorem copyGeometry_map (lib : QELib) (φ : P → P') {m : Mesh P D} (hv : m.Valid) :
    copyGeometry lib (m.mapPoints φ) = (copyGeometry lib m).mapPoints φ := by
  have h1 := copyGeometry_points lib (hv.mapPoints (φ := φ))
  have h2 := copyGeometry_points lib hv
  have key : ∀ a b : Mesh P' D, a.points = b.points → a.cells = b.cells → a.cellData = b.cellData →
      a.hasEdgeCells = b.hasEdgeCells → a.edges = b.edges → a.left = b.left → a.ring = b.ring →
      a.pointData = b.pointData → a = b := by
    rintro ⟨⟩ ⟨⟩ h h h h h h h h
    simp_all
  refine key _ _ ?_ rfl rfl rfl rfl rfl rfl rfl
  rw [h1]
  unfold Mesh.mapPoints
  rw [h2]

theorem condLoop_map {S ι : Type} {φ : P → P'} {upd : S → List ι → Mesh P D → Except Fail (Mesh P D) × S}
    {upd' : S → List ι → Mesh P' D → Except Fail (Mesh P' D) × S} {crit : Mesh P D → Prog (List ι) Unit}
    {crit' : Mesh P' D → Prog (List ι) Unit} (hcrit : ∀ m, crit' (m.mapPoints φ) = crit m) (I : Nat → List ι → Mesh P D → Prop)
    (R : S → S → Prop)
    (hstep : ∀ n s s' sel cur, R s s' → I (n + 1) sel cur → sel ≠ [] → ∃ m t t' sel', upd s sel cur = (.ok m, t) ∧
      upd' s' sel (cur.mapPoints φ) = (.ok (m.mapPoints φ), t') ∧ crit m sel = (.ok (), sel') ∧ R t t' ∧ I n sel' m)
    {n : Nat} {s s' : S} {sel : List ι} {cur : Mesh P D} (hR : R s s') (h : I n sel cur) :
    (condLoop upd' crit' n ⟨s', sel⟩ (cur.mapPoints φ)).map Prod.fst =
      (condLoop upd crit n ⟨s, sel⟩ cur).map fun r => r.1.map (Mesh.mapPoints φ) := by
  induction n generalizing s s' sel cur with
  | zero =>
    by_cases hs : sel = []
    · rw [condLoop_done hs, condLoop_done hs]; rfl
    · rw [condLoop_zero hs, condLoop_zero hs]; rfl
  | succ n ih =>
    by_cases hs : sel = []
    · rw [condLoop_done hs, condLoop_done hs]; rfl
    · obtain ⟨m, t, t', sel', h1, h2, h3, h4, h5⟩ := hstep n s s' sel cur hR h hs
      rw [condLoop_step (c := ⟨s, sel⟩) hs h1 h3, condLoop_step (c := ⟨s', sel⟩) hs h2 ((congrFun (hcrit m) sel).trans h3)]
      exact ih h4 h5

/-- C19, conditional filter with a cell filter: when the moved triangles exceed their threshold exactly if the original ones
exceed theirs, the run on the moved mesh is the moved run: it returns after the same number of iterations, with the moved
mesh.  (Loop: the boundary does not touch itself.) -/
theorem C19_affine_conditional_partial {sch : Scheme} (hl : sch = .loop ∨ sch = .butterfly → lib.Lawful) (cosn : Nat → K)
    {inp : Mesh P D} (hn : sch.Needs inp) (hsb : sch = .loop → inp.SimpleBoundary) {n : Nat}
    (hmax : sch = .sqrt3 → inp.points.length + 4 ^ n * inp.cells.length ≤ idMax) (φ : P →ᵃ[K] P')
    {area : P → P → P → K} {area' : P' → P' → P' → K} {A A' : K}
    (hA : ∀ p q r, A' < area' (φ p) (φ q) (φ r) ↔ A < area p q r) (c : Cond Filt CId) :
    (condGenerate lib (condCellUpd sch lib cosn) (some (areaCompute area' A')) n c (inp.mapPoints φ)).map Prod.fst =
      (condGenerate lib (condCellUpd sch lib cosn) (some (areaCompute area A)) n c inp).map
        fun r => r.1.map (Mesh.mapPoints φ) := by
  have hcrit : ∀ m : Mesh P D, areaCompute area' A' (m.mapPoints φ) = areaCompute area A m := areaCompute_map hA
  obtain ⟨l, h1, h2, hg⟩ := condArea_start hn.valid hl hn.noIsolated hmax (condCellUpd sch lib cosn) area A c
  have hg' : condGenerate lib (condCellUpd sch lib cosn) (some (areaCompute area' A')) n c (inp.mapPoints φ) =
      condLoop (condCellUpd sch lib cosn) (areaCompute area' A') n ⟨c.inner, l⟩ ((copyGeometry lib inp).mapPoints φ) := by
    unfold condGenerate
    simp only [copyGeometry_map lib φ hn.valid, hcrit, h1]
  rw [hg, hg']
  refine condLoop_map hcrit (fun n sel m => AreaInv sch n sel m ∧ (sch = .loop → m.SimpleBoundary))
    (fun s s' => sch = .loop → s'.uniform = s.uniform) ?_ (fun _ => rfl) ⟨h2, fun hb => simple_copy lib hn.valid (hsb hb)⟩
  rintro n s s' sel cur hR ⟨H, hb⟩ hne
  obtain ⟨m, t, sel', k1, k2, k3, k4⟩ := condArea_step (cosn := cosn) hl area A s H hne
  have haff := (cellUpdate_affine lib cosn (f := s.setCells sel) H.needs hb H.selOK φ).1
  rw [k1] at haff
  have hsame : (cellUpdate sch lib cosn (s'.setCells sel) (cur.mapPoints φ)).1 =
      (cellUpdate sch lib cosn (s.setCells sel) (cur.mapPoints φ)).1 := by
    by_cases hs : sch = .loop
    · subst hs
      exact (cellUpdate_history_loop lib cosn _ (f := s.setCells sel) (g := s'.setCells sel) rfl (hR rfl)).1
    · exact (cellUpdate_history hs lib cosn _ (f := s.setCells sel) (g := s'.setCells sel) rfl).1
  rcases hc : cellUpdate sch lib cosn (s'.setCells sel) (cur.mapPoints φ) with ⟨r, t'⟩
  rw [hc, haff] at hsame
  simp only [Except.map] at hsame
  subst hsame
  refine ⟨m, t, t', sel', k1, hc, k2, fun hs => ?_, k4, fun hs => ?_⟩
  · subst hs
    have e1 := C25_loop_flag (lib := lib) (cosn := cosn) (f := s.setCells sel) H.needs H.selOK
    have e2 := C25_loop_flag (lib := lib) (cosn := cosn) (f := s'.setCells sel) (H.needs.mapPoints (φ := φ)) H.selOK
    rw [k1] at e1
    rw [hc] at e2
    exact e2.trans e1.symm
  · subst hs
    exact simple_split (by decide) H.needs (f := s.setCells sel) H.selOK k1 (hb rfl)

/-- C19, conditional filter with an edge filter. -/
theorem C19_affine_conditional_edge {sch : EdgeScheme} (hl : sch = .loop ∨ sch = .butterfly → lib.Lawful) (cosn : Nat → K)
    {inp : Mesh P D} (hn : sch.toScheme.Needs inp) (n : Nat) (φ : P →ᵃ[K] P')
    {len : P → P → K} {len' : P' → P' → K} {L L' : K}
    (hL : ∀ p q, L' < len' (φ p) (φ q) ↔ L < len p q) (c : Cond Filt (Option Edge)) :
    (condGenerate lib (condEdgeUpd sch lib cosn) (some (lengthCompute len' L')) n c (inp.mapPoints φ)).map Prod.fst =
      (condGenerate lib (condEdgeUpd sch lib cosn) (some (lengthCompute len L)) n c inp).map
        fun r => r.1.map (Mesh.mapPoints φ) := by
  have hcrit : ∀ m : Mesh P D, lengthCompute len' L' (m.mapPoints φ) = lengthCompute len L m := lengthCompute_map hL
  obtain ⟨l, h1, h2, hg⟩ := condLength_start (n := n) hn.valid hl (fun hb => hn.noIsolated (toScheme_loop.2 hb))
    (condEdgeUpd sch lib cosn) len L c
  have hg' : condGenerate lib (condEdgeUpd sch lib cosn) (some (lengthCompute len' L')) n c (inp.mapPoints φ) =
      condLoop (condEdgeUpd sch lib cosn) (lengthCompute len' L') n ⟨c.inner, l⟩ ((copyGeometry lib inp).mapPoints φ) := by
    unfold condGenerate
    simp only [copyGeometry_map lib φ hn.valid, hcrit, h1]
  rw [hg, hg']
  refine condLoop_map hcrit (fun _ sel m => LengthInv sch sel m) (fun _ _ => True) ?_ trivial h2
  rintro n s s' sel cur - H hne
  obtain ⟨m, t, sel', k1, k2, k4⟩ := condLength_step (cosn := cosn) hl len L s H hne
  have haff := C19_affine_edge lib cosn (f := s.setEdges sel) H.needs H.selOK φ
  rw [k1] at haff
  have hsame := edgeUpdate_same sch lib cosn (cur.mapPoints φ) (f := s.setEdges sel) (g := s'.setEdges sel) SameEdges.rfl
  rcases hc : edgeUpdate sch lib cosn (s'.setEdges sel) (cur.mapPoints φ) with ⟨r, t'⟩
  rw [hc, haff] at hsame
  simp only [Except.map] at hsame
  subst hsame
  exact ⟨m, t, t', sel', k1, hc, k2, trivial, k4⟩

end affine

section similar
variable {E E' D : Type} [NormedAddCommGroup E] [InnerProductSpace ℝ E] [NormedAddCommGroup E'] [InnerProductSpace ℝ E']
  {lib : QELib}

theorem heronArea_scale {φ : E → E'} {r : ℝ} (hr : 0 < r) (hφ : ∀ p q, dist (φ p) (φ q) = r * dist p q) (p q s : E) :
    heronArea (φ p) (φ q) (φ s) = r ^ 2 * heronArea p q s := by
  unfold heronArea
  simp only [hφ]
  generalize dist q s = a
  generalize dist s p = b
  generalize dist p q = c
  rw [show 1 / 2 * (r * a + r * b + r * c) * (1 / 2 * (r * a + r * b + r * c) - r * a) *
      (1 / 2 * (r * a + r * b + r * c) - r * b) * (1 / 2 * (r * a + r * b + r * c) - r * c) =
      (r ^ 2) ^ 2 * (1 / 2 * (a + b + c) * (1 / 2 * (a + b + c) - a) * (1 / 2 * (a + b + c) - b) * (1 / 2 * (a + b + c) - c)) by ring,
    Real.sqrt_mul (by positivity), Real.sqrt_sq (by positivity)]

/-- C19, conditional filter with the area of triangles, for motions and scalings: scaling the mesh by `r` and the threshold by
`r²` scales the result by `r`. -/
theorem C19_similarity_conditional_partial {sch : Scheme} (hl : sch = .loop ∨ sch = .butterfly → lib.Lawful) (cosn : Nat → ℝ)
    {inp : Mesh E D} (hn : sch.Needs inp) (hsb : sch = .loop → inp.SimpleBoundary) {n : Nat}
    (hmax : sch = .sqrt3 → inp.points.length + 4 ^ n * inp.cells.length ≤ idMax) (φ : E →ᵃ[ℝ] E') {r : ℝ} (hr : 0 < r)
    (hφ : ∀ p q, dist (φ p) (φ q) = r * dist p q) (A : ℝ) (c : Cond Filt CId) :
    (condGenerate lib (condCellUpd sch lib cosn) (some (areaCompute heronArea (r ^ 2 * A))) n c (inp.mapPoints φ)).map Prod.fst =
      (condGenerate lib (condCellUpd sch lib cosn) (some (areaCompute heronArea A)) n c inp).map
        fun r => r.1.map (Mesh.mapPoints φ) :=
  C19_affine_conditional_partial hl cosn hn hsb hmax φ (fun p q s => by
    rw [heronArea_scale hr hφ]; exact mul_lt_mul_iff_right₀ (by positivity)) c

/-- the same with the length of edges: the threshold is scaled by `r` -/
theorem C19_similarity_conditional_edge {sch : EdgeScheme} (hl : sch = .loop ∨ sch = .butterfly → lib.Lawful) (cosn : Nat → ℝ)
    {inp : Mesh E D} (hn : sch.toScheme.Needs inp) (n : Nat) (φ : E →ᵃ[ℝ] E') {r : ℝ} (hr : 0 < r)
    (hφ : ∀ p q, dist (φ p) (φ q) = r * dist p q) (L : ℝ) (c : Cond Filt (Option Edge)) :
    (condGenerate lib (condEdgeUpd sch lib cosn) (some (lengthCompute dist (r * L))) n c (inp.mapPoints φ)).map Prod.fst =
      (condGenerate lib (condEdgeUpd sch lib cosn) (some (lengthCompute dist L)) n c inp).map
        fun r => r.1.map (Mesh.mapPoints φ) :=
  C19_affine_conditional_edge hl cosn hn n φ (fun p q => by rw [hφ]; exact mul_lt_mul_iff_right₀ hr) c

/-- three times as large: the threshold has to be nine times as large -/
example (n : Nat) (c : Cond Filt CId) (A : ℝ) :
    (condGenerate someLib (condCellUpd .linear someLib realCos) (some (areaCompute heronArea (3 ^ 2 * A))) n c
      (patchP.mapPoints fun p => (3 : ℝ) • p)).map Prod.fst =
    (condGenerate someLib (condCellUpd .linear someLib realCos) (some (areaCompute heronArea A)) n c patchP).map
      fun r => r.1.map (Mesh.mapPoints fun p => (3 : ℝ) • p) :=
  C19_similarity_conditional_partial (sch := .linear) (by simp) realCos ⟨patchP_ok.1, by simp, by simp⟩ (by simp) (by simp)
    ((3 : ℝ) • LinearMap.id).toAffineMap (by norm_num)
    (fun p q => by
      show dist ((3 : ℝ) • p) ((3 : ℝ) • q) = 3 * dist p q
      rw [dist_smul₀, Real.norm_of_nonneg (by norm_num)]) A c

end similar

section samples

/-- runs that return, so that the hypotheses of the theorems above are met -/
example : returned (condGenerate someLib (condCellUpd .sqrt3 someLib cos0) (some (areaCompute shadow 6)) 3
    ⟨usedFilt [1], [7]⟩ patchMesh) = true := by decide +kernel

example (out : Mesh Q3 Nat) (c' : Cond Filt CId)
    (h : condGenerate someLib (condCellUpd .sqrt3 someLib cos0) (some (areaCompute shadow 6)) 3 ⟨usedFilt [1], [7]⟩ patchMesh =
      some (.ok out, c')) : SamePieces patchMesh out ∧ ∀ v p, out.pos v = some p → p ∈ patchMesh.hull ℚ :=
  ⟨C52_pieces_kept_conditional patchMesh_ok.1 (fun _ => someLib_lawful) (fun _ => patchMesh_ok.2.2.1) (fun _ => by decide) h,
   C20_hull_conditional_partial (by decide) (fun _ _ => by norm_num [cos0]) (fun _ => someLib_lawful) (patchMesh_needs _)
    (fun _ => patchMesh_simple) (fun _ => by decide) h⟩

example (n : Nat) (c c' : Cond Filt (Option Edge)) (out : Mesh Q3 Nat)
    (h : condGenerate someLib (condEdgeUpd .linear someLib cos0) (some (lengthCompute taxi 4)) n c patchMesh = some (.ok out, c')) :
    SamePieces patchMesh out ∧ ∀ v p, out.pos v = some p → p ∈ patchMesh.hull ℚ :=
  ⟨C52_pieces_kept_conditional_edge patchMesh_ok.1 (fun _ => someLib_lawful) (fun _ => patchMesh_ok.2.2.1) h,
   C20_hull_conditional_edge (by decide) (fun _ => someLib_lawful) (patchMesh_needs _) h⟩

example : returned (condGenerate someLib (condEdgeUpd .linear someLib cos0) (some (lengthCompute taxi 4)) 4
    ⟨Filt.new, []⟩ patchMesh) = true := by decide +kernel

/-- the projection onto the xy-plane keeps `shadow` and `taxi` -/
example (n : Nat) (c : Cond Filt CId) (A : ℚ) :
    (condGenerate someLib (condCellUpd .loop someLib cos0) (some (areaCompute shadow A)) n c
      (patchMesh.mapPoints fun p => (p.1 + 1, p.2.1 + 2, p.2.2 + 3))).map Prod.fst =
    (condGenerate someLib (condCellUpd .loop someLib cos0) (some (areaCompute shadow A)) n c patchMesh).map
      fun r => r.1.map (Mesh.mapPoints fun p => (p.1 + 1, p.2.1 + 2, p.2.2 + 3)) :=
  C19_affine_conditional_partial (fun _ => someLib_lawful) cos0 (patchMesh_needs _) (fun _ => patchMesh_simple) (by simp)
    (AffineMap.id ℚ Q3 + AffineMap.const ℚ Q3 ((1, 2, 3) : Q3))
    (fun p q r => by simp [shadow]) c

/-- the Linear filter with a positive threshold returns (C32), with the surface of the input -/
example (A : ℝ) (hA : 0 < A) (c : Cond Filt CId) : ∃ n out c',
    condGenerate someLib (condCellUpd .linear someLib realCos) (some (areaCompute heronArea A)) n c patchP = some (.ok out, c') ∧
    out.surface = patchP.surface := by
  obtain ⟨n, out, c', h⟩ := C32_area_returns patchP_ok.1 hA someLib realCos c
  exact ⟨n, out, c', h n le_rfl, (C21_linear_same_surface_conditional patchP_ok.1 (h n le_rfl)).1⟩

example (L : ℝ) (hL : 0 < L) (c : Cond Filt (Option Edge)) : ∃ n out c',
    condGenerate someLib (condEdgeUpd .linear someLib realCos) (some (lengthCompute dist L)) n c patchP = some (.ok out, c') ∧
    out.surface = patchP.surface := by
  obtain ⟨n, out, c', h⟩ := C33_length_returns patchP_ok.1 hL someLib realCos c
  exact ⟨n, out, c', h n le_rfl, (C21_linear_same_surface_conditional_edge patchP_ok.1 (h n le_rfl)).1⟩

end samples
end Verif
