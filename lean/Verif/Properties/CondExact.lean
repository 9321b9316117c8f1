import Verif.Spec.BigTri
import Verif.Proofs.CondExact
import Verif.Properties.CondKeeps
import Verif.Properties.Local
/-
C60: the conditional filters refine exactly where the criterion asks for it.
-/
namespace Verif
set_option linter.unusedSectionVars false

section general
variable {K P D : Type} [Field K] [Zero P] [Add P] [SMul K P] [LinearOrder K] {lib : QELib} {cosn : Nat → K} {inp out : Mesh P D}

theorem TooLong.kept {len : P → P → K} {L : K} {m : Mesh P D} (hk : ∀ v p, inp.pos v = some p → m.pos v = some p) (hv : inp.Valid)
    {e : Edge} (he : e ∈ dartsOf inp.tris) : m.TooLong len L e ↔ inp.TooLong len L e := by
  obtain ⟨t, ht, het⟩ := mem_dartsOf.1 he
  obtain ⟨h1, h2⟩ := Tri.dart_mem_verts het
  obtain ⟨p, hp⟩ := Option.isSome_iff_exists.1 (hv.cornersExist t ht _ h1)
  obtain ⟨q, hq⟩ := Option.isSome_iff_exists.1 (hv.cornersExist t ht _ h2)
  have hp' := hk _ _ hp
  have hq' := hk _ _ hq
  unfold Mesh.TooLong
  rw [hp, hq, hp', hq']

theorem TooLong.sym {len : P → P → K} {L : K} (hsym : ∀ p q, len p q = len q p) {m : Mesh P D} {e : Edge}
    (h : m.TooLong len L e.sym) : m.TooLong len L e := by
  obtain ⟨p, q, h1, h2, h3⟩ := h
  exact ⟨q, p, h2, h1, by rw [hsym]; exact h3⟩

/-- C60, edge filters of all schemes with a symmetric length: when the conditional filter returns, exactly the edges of the
input that are not too long are edges of the output, exactly the triangles without such an edge are triangles of the output,
and the points of the input are where they were. -/
theorem C60_length_exact {sch : EdgeScheme} (hv : inp.Valid) (hl : sch = .loop ∨ sch = .butterfly → lib.Lawful)
    (hi : sch = .loop → inp.NoIsolated) {n : Nat} {len : P → P → K} {L : K} (hsym : ∀ p q, len p q = len q p)
    {c c' : Cond Filt (Option Edge)}
    (h : condGenerate lib (condEdgeUpd sch lib cosn) (some (lengthCompute len L)) n c inp = some (.ok out, c')) :
    (∀ v p, inp.pos v = some p → out.pos v = some p) ∧
    (∀ e ∈ dartsOf inp.tris, e ∈ dartsOf out.tris ↔ ¬ inp.TooLong len L e) ∧
    (∀ t ∈ inp.tris, t ∈ out.tris ↔ ∀ e ∈ t.darts, ¬ inp.TooLong len L e) := by
  have key := condLength_induct_exact hv hl hi (fun m => m.Valid ∧ (∀ v p, inp.pos v = some p → m.pos v = some p) ∧
    (∀ e ∈ dartsOf inp.tris, ¬ inp.TooLong len L e → ¬ inp.TooLong len L e.sym → e ∈ dartsOf m.tris) ∧
    (∀ t ∈ inp.tris, (∀ e ∈ t.darts, ¬ inp.TooLong len L e) → t ∈ m.tris)) ?_ ?_ h
  · obtain ⟨h1, h2, h3, h4⟩ := key
    have hp := (C30_length_postcondition h).2.1
    have hback : ∀ e ∈ dartsOf inp.tris, e ∈ dartsOf out.tris → ¬ inp.TooLong len L e := by
      intro e he ho hT
      have hT' := (TooLong.kept h2 hv he).2 hT
      rcases (h1.edges_iff e).2 (Or.inl ho) with h5 | h5
      · exact hp _ h5 hT'
      · exact hp _ h5 (TooLong.sym hsym (by rw [Edge.sym_sym]; exact hT'))
    refine ⟨h2, fun e he => ⟨hback e he, fun hT => h3 e he hT (fun hc => hT (TooLong.sym hsym hc))⟩, fun t ht => ⟨?_, h4 t ht⟩⟩
    intro hto e he
    exact hback e (mem_dartsOf.2 ⟨t, ht, he⟩) (mem_dartsOf.2 ⟨t, hto, he⟩)
  · refine ⟨copyGeometry_valid lib hv, fun v p h => by simpa only [Mesh.pos, copyGeometry_points lib hv] using h, ?_, ?_⟩
    · intro e he _ _; rw [copyGeometry_tris lib hv]; exact he
    · intro t ht _; rw [copyGeometry_tris lib hv]; exact ht
  · rintro m out l f f' H hn' hne hex h ⟨h1, h2, h3, h4⟩
    have R := edgeUpdate_result H.needs (f := f.setEdges (l.map some)) H.selOK h
    have hselE : m.selectedEdges (f.setEdges (l.map some)).edgeSel = l := by
      unfold Mesh.selectedEdges
      rw [if_neg (by simpa [Filt.setEdges] using hne)]
      simp [Filt.setEdges]
    have hnone : ∀ e ∈ dartsOf inp.tris, ¬ inp.TooLong len L e → ¬ inp.TooLong len L e.sym →
        m.listPoint (f.setEdges (l.map some)).edgeSel e = none := by
      intro e he hT hT'
      by_contra hx
      rcases (lastLabel_isSome _ _ e).1 (Option.isSome_iff_ne_none.2 hx) with k | k
      · rw [hselE] at k
        exact hT ((TooLong.kept h2 hv he).1 ((hex e).1 k).2)
      · rw [hselE] at k
        exact hT ((TooLong.kept h2 hv he).1 (TooLong.sym hsym ((hex _).1 k).2))
    refine ⟨hn'.valid, fun v p hp => C06_original_points_kept_edge h1.points_dense h v p (h2 v p hp), ?_, ?_⟩
    · intro e he hT hT'
      obtain ⟨t, ht, het⟩ := mem_dartsOf.1 (h3 e he hT hT')
      obtain ⟨d, hd, hed⟩ := children_dart het (hnone e he hT hT')
      exact mem_dartsOf.2 ⟨d, by rw [R.tris]; exact List.mem_flatMap.2 ⟨t, ht, hd⟩, hed⟩
    · intro t ht hT
      rw [R.tris]
      refine List.mem_flatMap.2 ⟨t, h4 t ht hT, ?_⟩
      rw [children_of_none fun e he => hnone e (mem_dartsOf.2 ⟨t, ht, he⟩) (hT e he)
        (fun hc => hT e he (TooLong.sym hsym hc))]
      exact List.mem_singleton_self t

theorem tooLarge_tri {m : Mesh P D} (hm : m.Valid) {area : P → P → P → K} {A : K} {k : CId} {t : Tri}
    (hk : (k, some t.cell) ∈ m.cells) : m.TooLarge area A k ↔ m.BigTri area A t := by
  constructor
  · rintro ⟨t', pa, pb, pc, h1, h2⟩
    have : t' = t := by
      have h6 := (hm.triAt_iff (t := t')).2 h1
      rw [hm.triAt_iff.2 hk] at h6
      exact (Option.some.inj h6).symm
    subst this
    exact ⟨pa, pb, pc, h2⟩
  · rintro ⟨pa, pb, pc, h⟩
    exact ⟨t, pa, pb, pc, hk, h⟩

theorem selected_big {m : Mesh P D} (hm : m.Valid) {area : P → P → P → K} {A : K} {sel : List CId} (hne : sel ≠ [])
    (hex : ∀ k, k ∈ sel ↔ m.TooLarge area A k) {t : Tri} : t ∈ m.selected sel ↔ t ∈ m.tris ∧ m.BigTri area A t := by
  rw [hm.mem_selected hne]
  constructor
  · rintro ⟨k, hk, hc⟩
    exact ⟨hm.mem_tris.2 ⟨k, hc⟩, (tooLarge_tri hm hc).1 ((hex k).1 hk)⟩
  · rintro ⟨ht, hb⟩
    obtain ⟨k, hk⟩ := hm.mem_tris.1 ht
    exact ⟨k, (hex k).2 ((tooLarge_tri hm hk).2 hb), hk⟩

theorem BigTri.kept {area : P → P → P → K} {A : K} {m : Mesh P D} (hk : ∀ v p, inp.pos v = some p → m.pos v = some p)
    (hv : inp.Valid) {t : Tri} (ht : t ∈ inp.tris) : m.BigTri area A t ↔ inp.BigTri area A t := by
  obtain ⟨p, hp⟩ := Option.isSome_iff_exists.1 (hv.cornersExist t ht t.1 (by simp [Tri.verts]))
  obtain ⟨q, hq⟩ := Option.isSome_iff_exists.1 (hv.cornersExist t ht t.2.1 (by simp [Tri.verts]))
  obtain ⟨r, hr⟩ := Option.isSome_iff_exists.1 (hv.cornersExist t ht t.2.2 (by simp [Tri.verts]))
  have hp' := hk _ _ hp
  have hq' := hk _ _ hq
  have hr' := hk _ _ hr
  unfold Mesh.BigTri
  rw [hp, hq, hr, hp', hq', hr']

/-- C60, SquareThree with any area function: exactly the triangles of the input that are not too large are triangles of the
output. -/
theorem C60_area_exact_sqrt3 (hv : inp.Valid) {n : Nat} (hmax : inp.points.length + 4 ^ n * inp.cells.length ≤ idMax)
    {area : P → P → P → K} {A : K} {c c' : Cond Filt CId}
    (h : condGenerate lib (condCellUpd .sqrt3 lib cosn) (some (areaCompute area A)) n c inp = some (.ok out, c')) :
    (∀ v p, inp.pos v = some p → out.pos v = some p) ∧
    (∀ t ∈ inp.tris, t ∈ out.tris ↔ ¬ inp.BigTri area A t) := by
  have key := condArea_induct_exact (sch := .sqrt3) hv (by simp) (by simp) (fun _ => hmax)
    (fun m => m.Valid ∧ (∀ v p, inp.pos v = some p → m.pos v = some p) ∧
    (∀ t ∈ inp.tris, ¬ inp.BigTri area A t → t ∈ m.tris)) ?_ ?_ h
  · obtain ⟨h1, h2, h3⟩ := key
    refine ⟨h2, fun t ht => ⟨fun hto hb => ?_, h3 t ht⟩⟩
    obtain ⟨k, hk⟩ := h1.mem_tris.1 hto
    exact (C30_area_postcondition h).2.2.1 k ((tooLarge_tri h1 hk).2 ((BigTri.kept h2 hv ht).2 hb))
  · refine ⟨copyGeometry_valid lib hv, fun v p h => by simpa only [Mesh.pos, copyGeometry_points lib hv] using h, ?_⟩
    intro t ht _; rw [copyGeometry_tris lib hv]; exact ht
  · rintro m out sel f f' hm hn' hsel hne hex hmx h ⟨h1, h2, h3⟩
    refine ⟨hn'.valid, fun v p hp => C06_original_points_kept (by decide) h1.points_dense h v p (h2 v p hp), ?_⟩
    intro t ht hb
    obtain ⟨k, hk⟩ := h1.mem_tris.1 (h3 t ht hb)
    refine ((C57_far_cells_kept_sqrt3 h1 (f := f.setCells sel) hsel (hmx rfl) h) k t hk).1.2 fun hc => ?_
    exact hb ((BigTri.kept h2 hv ht).1 ((selected_big h1 hne hex).1 hc).2)

/-- three triangles in a row: a large one and two small ones -/
def row : List Tri := [(0, 1, 2), (2, 1, 3), (2, 3, 4)]

def rowMesh : Mesh Q3 Nat := mk [(0, 0, 0), (8, 0, 0), (0, 8, 0), (5, 5, 0), (4, 8, 0)] row none

theorem rowMesh_ok : rowMesh.Valid ∧ rowMesh.RingOK ∧ rowMesh.NoIsolated ∧ rowMesh.tris = row := mk_ok _ (by decide)

/-- SquareThree splits the large triangle only; the run returns after one iteration -/
example : (∃ out c', condGenerate someLib (condCellUpd .sqrt3 someLib cos0) (some (areaCompute shadow 30)) 3 ⟨usedFilt [1], [7]⟩
    rowMesh = some (.ok out, c')) ∧ ∀ out c', condGenerate someLib (condCellUpd .sqrt3 someLib cos0)
      (some (areaCompute shadow 30)) 3 ⟨usedFilt [1], [7]⟩ rowMesh = some (.ok out, c') →
    (0, 1, 2) ∉ out.tris ∧ (2, 1, 3) ∈ out.tris ∧ (2, 3, 4) ∈ out.tris := by
  constructor
  · have : returned (condGenerate someLib (condCellUpd .sqrt3 someLib cos0) (some (areaCompute shadow 30)) 3
        ⟨usedFilt [1], [7]⟩ rowMesh) = true := by decide +kernel
    revert this
    cases condGenerate someLib (condCellUpd .sqrt3 someLib cos0) (some (areaCompute shadow 30)) 3 ⟨usedFilt [1], [7]⟩ rowMesh with
    | none => intro h; cases h
    | some r =>
      obtain ⟨r, c'⟩ := r
      cases r with
      | error e => intro h; cases h
      | ok out => intro _; exact ⟨out, c', rfl⟩
  · intro out c' h
    have key := (C60_area_exact_sqrt3 rowMesh_ok.1 (by decide) h).2
    have hno : ∀ t : Tri, ∀ pa pb pc : Q3, rowMesh.pos t.1 = some pa → rowMesh.pos t.2.1 = some pb → rowMesh.pos t.2.2 = some pc →
        shadow pa pb pc ≤ 30 → ¬ rowMesh.BigTri shadow 30 t := by
      rintro t pa pb pc h1 h2 h3 h4 ⟨x, y, z, k1, k2, k3, k4⟩
      rw [h1] at k1; rw [h2] at k2; rw [h3] at k3
      cases k1; cases k2; cases k3
      exact absurd h4 (not_le.2 k4)
    rw [rowMesh_ok.2.2.2] at key
    refine ⟨fun hc => (key _ (by decide)).1 hc ⟨_, _, _, rfl, rfl, rfl, by decide +kernel⟩, ?_, ?_⟩
    · exact (key _ (by decide)).2 (hno _ _ _ _ rfl rfl rfl (by decide +kernel))
    · exact (key _ (by decide)).2 (hno _ _ _ _ rfl rfl rfl (by decide +kernel))

/-- with a length criterion the long edge is split, whatever the scheme; the edge `1 3` and the triangle `2 3 4` stay -/
example {sch : EdgeScheme} {n : Nat} {c c' : Cond Filt (Option Edge)} {out : Mesh Q3 Nat}
    (h : condGenerate someLib (condEdgeUpd sch someLib cos0) (some (lengthCompute taxi 10)) n c rowMesh = some (.ok out, c')) :
    (1, 2) ∉ dartsOf out.tris ∧ (1, 3) ∈ dartsOf out.tris ∧ (2, 3, 4) ∈ out.tris := by
  obtain ⟨-, h1, h2⟩ := C60_length_exact rowMesh_ok.1 (fun _ => someLib_lawful) (fun _ => rowMesh_ok.2.2.1)
    (fun p q => by unfold taxi; rw [abs_sub_comm, abs_sub_comm q.2.1]) h
  rw [rowMesh_ok.2.2.2] at h1 h2
  have hno : ∀ e : Edge, ∀ p q : Q3, rowMesh.pos e.1 = some p → rowMesh.pos e.2 = some q → taxi p q ≤ 10 →
      ¬ rowMesh.TooLong taxi 10 e := by
    rintro e p q k1 k2 k3 ⟨x, y, l1, l2, l3⟩
    rw [k1] at l1; rw [k2] at l2
    cases l1; cases l2
    exact absurd k3 (not_le.2 l3)
  refine ⟨fun hc => (h1 _ (by decide)).1 hc ⟨_, _, rfl, rfl, by decide +kernel⟩, ?_, ?_⟩
  · exact (h1 _ (by decide)).2 (hno _ _ _ rfl rfl (by decide +kernel))
  · refine (h2 _ (by decide)).2 fun e he => ?_
    simp only [Tri.darts, List.mem_cons, List.not_mem_nil, or_false] at he
    rcases he with rfl | rfl | rfl <;> exact hno _ _ _ rfl rfl (by decide +kernel)

/-- such a run, with the Linear filter -/
example : returned (condGenerate someLib (condEdgeUpd .linear someLib cos0) (some (lengthCompute taxi 10)) 3
    ⟨Filt.new, [none]⟩ rowMesh) = true := by decide +kernel

end general

section linear
variable {E D : Type} [NormedAddCommGroup E] [InnerProductSpace ℝ E] {inp out : Mesh E D} {lib : QELib} {cosn : Nat → ℝ}

theorem bigTri_iff (hv : inp.Valid) {A : ℝ} {t : Tri} (ht : t ∈ inp.tris) : inp.BigTri heronArea A t ↔ A < inp.areaOf t := by
  obtain ⟨k, hk⟩ := hv.mem_tris.1 ht
  rw [← tooLarge_tri hv hk, tooLarge_iff hv hk]

/-- C60, Linear with the triangle area of the code: exactly the triangles of the input that are not too large and that have no
edge in common with a triangle that is too large are triangles of the output. -/
theorem C60_area_exact_linear (hv : inp.Valid) {n : Nat} {A : ℝ} {c c' : Cond Filt CId}
    (h : condGenerate lib (condCellUpd .linear lib cosn) (some (areaCompute heronArea A)) n c inp = some (.ok out, c')) :
    (∀ v p, inp.pos v = some p → out.pos v = some p) ∧
    (∀ t ∈ inp.tris, t ∈ out.tris ↔
      ∀ s ∈ inp.tris, A < inp.areaOf s → ∀ e ∈ s.darts, e ∉ t.darts ∧ e.sym ∉ t.darts) := by
  have key := condArea_induct_exact (sch := .linear) hv (by simp) (by simp) (by simp)
    (fun m => m.Valid ∧ inp.points.length ≤ m.points.length ∧ (∀ v p, inp.pos v = some p → m.pos v = some p) ∧
    ∀ t ∈ inp.tris, ((∀ s ∈ inp.tris, A < inp.areaOf s → ∀ e ∈ s.darts, e ∉ t.darts ∧ e.sym ∉ t.darts) ↔
      (t ∈ m.tris ∧ ∀ s ∈ m.tris, A < m.areaOf s → ∀ e ∈ s.darts, e ∉ t.darts ∧ e.sym ∉ t.darts))) ?_ ?_ h
  · obtain ⟨h1, -, h2, h3⟩ := key
    refine ⟨h2, fun t ht => ⟨fun hto => (h3 t ht).2 ⟨hto, fun s hs hb => ?_⟩, fun hf => ((h3 t ht).1 hf).1⟩⟩
    obtain ⟨k, hk⟩ := h1.mem_tris.1 hs
    exact absurd ((tooLarge_iff h1 hk).2 hb) ((C30_area_postcondition h).2.2.1 k)
  · refine ⟨copyGeometry_valid lib hv, by rw [copyGeometry_points lib hv],
      fun v p h => by simpa only [Mesh.pos, copyGeometry_points lib hv] using h, ?_⟩
    intro t ht
    rw [copyGeometry_tris lib hv, areaOf_copyGeometry hv]
    exact ⟨fun hf => ⟨ht, hf⟩, fun hf => hf.2⟩
  · rintro m out sel f f' hm hn' hsel hne hex - h ⟨h1, h0, h2, h3⟩
    have hbig : ∀ s, s ∈ m.selected sel ↔ s ∈ m.tris ∧ A < m.areaOf s := by
      intro s
      rw [selected_big h1 hne hex]
      exact and_congr_right fun hs => bigTri_iff h1 hs
    have S := linear_split h1 (f := f.setCells sel) hsel h
    refine ⟨hn'.valid, h0.trans (cellUpdate_more_points hm (f := f.setCells sel) hsel (by simp) h),
      fun v p hp => C06_original_points_kept (by decide) h1.points_dense h v p (h2 v p hp), fun t ht => (h3 t ht).trans ?_⟩
    constructor
    · rintro ⟨k1, k2⟩
      obtain ⟨k, hk⟩ := h1.mem_tris.1 k1
      have hap : t.Apart (m.selected (f.setCells sel).cells) := fun s hs => k2 s ((hbig s).1 hs).1 ((hbig s).1 hs).2
      have hold : ∀ e v, m.edgePoint (f.setCells sel).cells e = some v → v ∉ t.verts :=
        fun e v hm' => (cellUpdate_result (by decide) hm (f := f.setCells sel) hsel h).1.label.fresh e v hm' t k1
      refine ⟨((C57_far_cells_kept (by decide) hm (f := f.setCells sel) hsel h) k t hk).1.2 hap, ?_⟩
      intro s hs hb e he
      rw [S.tris] at hs
      obtain ⟨p, hp, hsp⟩ := List.mem_flatMap.1 hs
      have hpb : A < m.areaOf p := hb.trans_le (S.area_le hp hsp)
      have hps := selected_split ((hbig p).2 ⟨hp, hpb⟩)
      have h4 : (p.children (m.edgePoint (f.setCells sel).cells)).length = 4 := by
        obtain ⟨a, b, c⟩ := p
        obtain ⟨x, hx⟩ := Option.isSome_iff_exists.1 (hps (a, b) (by simp [Tri.darts]))
        obtain ⟨y, hy⟩ := Option.isSome_iff_exists.1 (hps (b, c) (by simp [Tri.darts]))
        obtain ⟨z, hz⟩ := Option.isSome_iff_exists.1 (hps (c, a) (by simp [Tri.darts]))
        simp only [Tri.children, Filt.setCells, hx, hy, hz, List.length_cons, List.length_nil]
      obtain ⟨e', v, hv', hor⟩ := child_of_four hsp h4 he
      have hno := hold _ _ hv'
      constructor
      · intro hc
        obtain ⟨v1, v2⟩ := Tri.dart_mem_verts hc
        rcases hor with rfl | rfl <;> contradiction
      · intro hc
        obtain ⟨v1, v2⟩ := Tri.dart_mem_verts hc
        rcases hor with rfl | rfl <;> contradiction
    · rintro ⟨k1, -⟩
      obtain ⟨k2, k3⟩ := faceSplit_old (by decide) hm (f := f.setCells sel) hsel h
        (fun v hvt => Nat.lt_of_lt_of_le (hv.verts_lt ht hvt) h0) k1
      exact ⟨k2, fun s hs hb => k3 s ((hbig s).2 ⟨hs, hb⟩)⟩

/-- the same three triangles in the plane -/
noncomputable def rowP : Mesh R2 Nat := mk [!₂[0, 0], !₂[8, 0], !₂[0, 8], !₂[5, 5], !₂[4, 8]] row none

theorem rowP_ok : rowP.Valid ∧ rowP.RingOK ∧ rowP.NoIsolated ∧ rowP.tris = row := mk_ok _ (by decide)

theorem rowP_area : rowP.areaOf (0, 1, 2) = 32 ∧ rowP.areaOf (2, 1, 3) = 8 ∧ rowP.areaOf (2, 3, 4) = 6 := by
  have h1 : Real.sqrt 4096 = 64 := by rw [show (4096 : ℝ) = 64 ^ 2 by norm_num]; exact Real.sqrt_sq (by norm_num)
  have h2 : Real.sqrt 256 = 16 := by rw [show (256 : ℝ) = 16 ^ 2 by norm_num]; exact Real.sqrt_sq (by norm_num)
  have h3 : Real.sqrt 144 = 12 := by rw [show (144 : ℝ) = 12 ^ 2 by norm_num]; exact Real.sqrt_sq (by norm_num)
  refine ⟨?_, ?_, ?_⟩ <;>
    simp [Mesh.areaOf, triArea, Mesh.place, Mesh.pos, rowP, mk, meshOf, AMap.find?, EuclideanSpace.norm_eq,
      PiLp.inner_apply, Real.sq_sqrt] <;> norm_num [Real.sq_sqrt, h1, h2, h3]

/-- With the threshold 10 the large triangle and its neighbour are split, the third triangle stays. -/
example (c : Cond Filt CId) : ∃ n out c',
    condGenerate someLib (condCellUpd .linear someLib realCos) (some (areaCompute heronArea 10)) n c rowP = some (.ok out, c') ∧
    (0, 1, 2) ∉ out.tris ∧ (2, 1, 3) ∉ out.tris ∧ (2, 3, 4) ∈ out.tris := by
  obtain ⟨n, out, c', h⟩ := C32_area_returns rowP_ok.1 (show (0 : ℝ) < 10 by norm_num) someLib realCos c
  obtain ⟨a1, a2, a3⟩ := rowP_area
  have key := (C60_area_exact_linear rowP_ok.1 (h n le_rfl)).2
  rw [rowP_ok.2.2.2] at key
  have hbig : (10 : ℝ) < rowP.areaOf (0, 1, 2) := by rw [a1]; norm_num
  refine ⟨n, out, c', h n le_rfl, fun hc => ?_, fun hc => ?_, (key _ (by decide)).2 ?_⟩
  · exact ((key _ (by decide)).1 hc (0, 1, 2) (by decide) hbig (0, 1) (by decide)).1 (by decide)
  · exact ((key _ (by decide)).1 hc (0, 1, 2) (by decide) hbig (1, 2) (by decide)).2 (by decide)
  · intro s hs hb
    simp only [row, List.mem_cons, List.not_mem_nil, or_false] at hs
    rcases hs with rfl | rfl | rfl
    · decide
    · rw [a2] at hb; norm_num at hb
    · rw [a3] at hb; norm_num at hb

end linear
end Verif
