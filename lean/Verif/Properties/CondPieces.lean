import Verif.Proofs.CondPiecesEdge
import Verif.Properties.Pieces
import Verif.Properties.CondSqrt3
/-
C58 and C77 for the conditional filter.
-/
namespace Verif
set_option linter.unusedSectionVars false
section
variable {K P D : Type} [Field K] [LinearOrder K] [AddCommGroup P] [Module K P]
variable {lib lib' lib₁ lib₂ : QELib} {cosn : Nat → K} {ρ ρ₁ ρ₂ : PId → PId} {m m' m₁ m₂ : Mesh P D}

theorem copyGeometry_piece (R : PieceOf ρ m m') (hv : m.Valid) (hv' : m'.Valid) :
    PieceOf ρ (copyGeometry lib m) (copyGeometry lib' m') := by
  have hp : ∀ {lib : QELib} {m : Mesh P D}, m.Valid → ∀ v, (copyGeometry lib m).pos v = m.pos v := fun h v => by
    unfold Mesh.pos; rw [copyGeometry_points _ h]
  refine ⟨?_, ?_, ?_, ?_⟩
  · rw [copyGeometry_tris lib hv, copyGeometry_tris lib' hv']; exact R.tri
  · rw [copyGeometry_tris lib hv, copyGeometry_tris lib' hv']; exact R.star
  · rw [copyGeometry_tris lib hv]; exact R.inj
  · rw [copyGeometry_tris lib hv]
    intro t ht v hvt
    rw [hp hv, hp hv']
    exact R.pos t ht v hvt

theorem copyGeometry_inPiece (hv : m.Valid) {t : Tri} : InPiece ρ (copyGeometry lib m) t ↔ InPiece ρ m t := by
  unfold InPiece; rw [copyGeometry_tris lib hv]

theorem copyGeometry_closed (hv : m.Valid) (h : m.Closed) : (copyGeometry lib m).Closed := by
  intro e
  unfold Mesh.IsBoundary
  rw [copyGeometry_tris lib hv]
  exact h e

/-- the first copy, with the list of what is too large -/
theorem areaPiece_start {sch : Scheme} (hs : sch ≠ .loop) (hl : sch = .butterfly → lib.Lawful)
    {n : Nat} {area : P → P → P → K} {A : K} (R : PieceOf ρ m m') (hv : m.Valid)
    (hv' : m'.Valid) (hc : sch = .butterfly → m.Closed)
    (hmax : sch = .sqrt3 → m.points.length + 4 ^ n * m.cells.length ≤ idMax)
    (hst : sch = .sqrt3 ∨ SameStarts ρ m m') (c : Cond Filt CId) :
    ∃ l, AreaPiece sch area A n ρ (copyGeometry lib m) l (copyGeometry lib' m') ∧
      condGenerate lib (condCellUpd sch lib cosn) (some (areaCompute area A)) n c m =
        condLoop (condCellUpd sch lib cosn) (areaCompute area A) n ⟨c.inner, l⟩ (copyGeometry lib m) := by
  obtain ⟨l, h1, h2, h3⟩ := condArea_start (sch := sch) (lib := lib) hv
    (fun h => h.elim (fun h => absurd h hs) hl) (fun h => absurd h hs) hmax (condCellUpd sch lib cosn) area A c
  refine ⟨l, { toAreaInv := h2, exact' := ?_, piece := copyGeometry_piece R hv hv', closed := ?_, starts := ?_ }, h3⟩
  · have hm := h2.needs.valid
    obtain ⟨l', k1, -, k2⟩ := C28_area_exact area A hm.cells_sorted hm.allTriangles hm.cornersExist c.sel
    rw [h1] at k1
    cases k1
    exact k2
  · exact fun h => copyGeometry_closed hv (hc h)
  · refine hst.imp_right fun h => ?_
    unfold SameStarts
    rw [copyGeometry_tris lib hv, copyGeometry_tris lib' hv']
    exact h

theorem TwoPieces.closed (T : TwoPieces ρ₁ ρ₂ m₁ m₂ m) (h₁ : m₁.Closed) (h₂ : m₂.Closed) : m.Closed := by
  intro e he
  obtain ⟨t, ht, hd⟩ := mem_dartsOf.1 he.1
  have hcl : ∀ {ρ : PId → PId} {n : Mesh P D}, n.Closed → PieceOf ρ n m → InPiece ρ n t → False := by
    rintro ρ n hn R ⟨a, b, c, h0, rfl⟩
    have : ∃ x ∈ dartsOf n.tris, x.rename ρ = e := by
      simp only [Tri.darts, List.mem_cons, List.not_mem_nil, or_false] at hd
      rcases hd with rfl | rfl | rfl
      · exact ⟨_, h0.dart, rfl⟩
      · exact ⟨_, h0.rot.dart, rfl⟩
      · exact ⟨_, h0.rot.rot.dart, rfl⟩
    obtain ⟨⟨x, y⟩, hx, rfl⟩ := this
    have hsym : Edge.sym (x, y) ∈ dartsOf n.tris := by
      by_contra hns
      exact hn _ ⟨hx, hns⟩
    obtain ⟨z, hz⟩ := dartsOf_iff_hasTri.1 hsym
    exact he.2 (dartsOf_iff_hasTri.2 ⟨ρ z, R.tri _ _ _ hz⟩)
  exact (T.all t ht).elim (hcl h₁ T.fst) (hcl h₂ T.snd)

theorem PieceOf.self (m : Mesh P D) : PieceOf id m m :=
  ⟨fun _ _ _ h => h, fun _ _ _ _ _ _ h => ⟨_, _, h, rfl, rfl⟩, fun _ _ _ _ _ _ _ _ h => h, fun _ _ _ _ => rfl⟩

theorem SameStarts.self (m : Mesh P D) : SameStarts id m m := fun t ht => by
  obtain ⟨a, b, c⟩ := t; exact ht

/-- C58, the conditional filter with the area criterion: the same surface listed differently is refined to the same surface,
after the same number of iterations.  SquareThree always; linear and Butterfly if all cells begin at corresponding corners
(`C58_first_corner_refuted`).  (`area` is any function that does not depend on the corner at which a triangle begins.) -/
theorem C58_listing_conditional_partial {sch : Scheme} (hs : sch ≠ .loop) (hl : sch = .butterfly → lib.Lawful)
    (hl' : sch = .butterfly → lib'.Lawful) (cosn : Nat → K) {area : P → P → P → K}
    (hr : ∀ p q r, area q r p = area p q r) (A : K) (R : SameSurface ρ m m') (hv : m.Valid) (hv' : m'.Valid)
    (hc : sch = .butterfly → m.Closed) (n : Nat) (hmax : sch = .sqrt3 → m.points.length + 4 ^ n * m.cells.length ≤ idMax)
    (hmax' : sch = .sqrt3 → m'.points.length + 4 ^ n * m'.cells.length ≤ idMax)
    (hst : sch = .sqrt3 ∨ SameStarts ρ m m') (c c' : Cond Filt CId) :
    (∃ out d out' d' ρ',
      condGenerate lib (condCellUpd sch lib cosn) (some (areaCompute area A)) n c m = some (.ok out, d) ∧
      condGenerate lib' (condCellUpd sch lib' cosn) (some (areaCompute area A)) n c' m' = some (.ok out', d') ∧
      (∀ v, v < m.points.length → ρ' v = ρ v) ∧ SameSurface ρ' out out') ∨
    (condGenerate lib (condCellUpd sch lib cosn) (some (areaCompute area A)) n c m = none ∧
      condGenerate lib' (condCellUpd sch lib' cosn) (some (areaCompute area A)) n c' m' = none) := by
  obtain ⟨l, A₁, g₁⟩ := areaPiece_start (cosn := cosn) (lib' := lib') hs hl R.piece hv hv' hc hmax hst c
    (area := area) (A := A)
  obtain ⟨l', A₀, g₀⟩ := areaPiece_start (cosn := cosn) (lib' := lib') hs hl' (PieceOf.self m') hv' hv'
    (fun h => R.closed (hc h)) hmax' (Or.inr (SameStarts.self m')) c' (area := area) (A := A)
  rw [g₁, g₀]
  have hall : ∀ t ∈ (copyGeometry lib' m').tris, ∃ _ : Unit, InPiece ρ (copyGeometry lib m) t := by
    rw [copyGeometry_tris lib' hv']
    exact fun t ht => ⟨(), (copyGeometry_inPiece hv).2 (R.inPiece ht)⟩
  rcases condLoop_pieces (cosn := cosn) (ι := Unit) (libs := fun _ => lib) (lib' := lib') hs hr
    (fun _ h => hl (h.resolve_left hs)) (fun h => hl' (h.resolve_left hs)) n (ρ := fun _ => ρ)
    (m := fun _ => copyGeometry lib m) (sel := fun _ => l) (fun _ => c.inner) c'.inner (fun _ => A₁) A₀.toAreaRound with
    ⟨out, c', e1, o, d, σ, e2, e3, e4, e5, -⟩ | ⟨e1, e2⟩
  · refine Or.inl ⟨o (), d (), out, c', σ (), e2 (), e1, ?_, (e4 ()).whole fun t ht => (e5 hall t ht).elim fun _ h => h⟩
    have := e3 ()
    rwa [copyGeometry_points lib hv] at this
  · exact Or.inr ⟨(e2 hall).elim fun _ h => h, e1⟩

/-- C77, the conditional filter with the area criterion.  The iterations on the mesh and on the pieces need not be equally
many: the smaller pieces are done earlier, and what they have become is not touched any more.  After any number of
iterations the filter has returned for the mesh exactly if it has returned for both pieces, and then the result consists
of the results for the pieces.  (`area` is any function that does not depend on the corner at which a triangle begins.) -/
theorem C77_conditional {sch : Scheme} (hs : sch ≠ .loop) (hl₁ : sch = .butterfly → lib₁.Lawful)
    (hl₂ : sch = .butterfly → lib₂.Lawful) (hl : sch = .butterfly → lib.Lawful) (cosn : Nat → K) {area : P → P → P → K}
    (hr : ∀ p q r, area q r p = area p q r) (A : K) (T : TwoPieces ρ₁ ρ₂ m₁ m₂ m) (hv₁ : m₁.Valid) (hv₂ : m₂.Valid) (hv : m.Valid)
    (hc : sch = .butterfly → m₁.Closed ∧ m₂.Closed) (n : Nat)
    (hmax₁ : sch = .sqrt3 → m₁.points.length + 4 ^ n * m₁.cells.length ≤ idMax)
    (hmax₂ : sch = .sqrt3 → m₂.points.length + 4 ^ n * m₂.cells.length ≤ idMax)
    (hmax : sch = .sqrt3 → m.points.length + 4 ^ n * m.cells.length ≤ idMax)
    (hst : sch = .sqrt3 ∨ (SameStarts ρ₁ m₁ m ∧ SameStarts ρ₂ m₂ m)) (c₁ c₂ c : Cond Filt CId) :
    (∃ o₁ c₁' o₂ c₂' out c' ρ₁' ρ₂',
      condGenerate lib₁ (condCellUpd sch lib₁ cosn) (some (areaCompute area A)) n c₁ m₁ = some (.ok o₁, c₁') ∧
      condGenerate lib₂ (condCellUpd sch lib₂ cosn) (some (areaCompute area A)) n c₂ m₂ = some (.ok o₂, c₂') ∧
      condGenerate lib (condCellUpd sch lib cosn) (some (areaCompute area A)) n c m = some (.ok out, c') ∧
      (∀ v, v < m₁.points.length → ρ₁' v = ρ₁ v) ∧ (∀ v, v < m₂.points.length → ρ₂' v = ρ₂ v) ∧
      TwoPieces ρ₁' ρ₂' o₁ o₂ out) ∨
    (condGenerate lib (condCellUpd sch lib cosn) (some (areaCompute area A)) n c m = none ∧
      (condGenerate lib₁ (condCellUpd sch lib₁ cosn) (some (areaCompute area A)) n c₁ m₁ = none ∨
        condGenerate lib₂ (condCellUpd sch lib₂ cosn) (some (areaCompute area A)) n c₂ m₂ = none)) := by
  obtain ⟨l₁, A₁, g₁⟩ := areaPiece_start (cosn := cosn) (lib' := lib) hs hl₁ T.fst hv₁ hv (fun h => (hc h).1) hmax₁
    (hst.imp_right And.left) c₁ (area := area) (A := A)
  obtain ⟨l₂, A₂, g₂⟩ := areaPiece_start (cosn := cosn) (lib' := lib) hs hl₂ T.snd hv₂ hv (fun h => (hc h).2) hmax₂
    (hst.imp_right And.right) c₂ (area := area) (A := A)
  obtain ⟨l, A₀, g₀⟩ := areaPiece_start (cosn := cosn) (lib' := lib) hs hl (PieceOf.self m) hv hv
    (fun h => T.closed (hc h).1 (hc h).2) hmax (Or.inr (SameStarts.self m)) c (area := area) (A := A)
  rw [g₁, g₂, g₀]
  have key := condLoop_pieces (cosn := cosn) (ι := Bool) (libs := fun b => cond b lib₁ lib₂) (lib' := lib) hs hr
    (fun b h => by cases b; exacts [hl₂ (h.resolve_left hs), hl₁ (h.resolve_left hs)]) (fun h => hl (h.resolve_left hs)) n
    (ρ := fun b => cond b ρ₁ ρ₂) (m := fun b => cond b (copyGeometry lib₁ m₁) (copyGeometry lib₂ m₂))
    (sel := fun b => cond b l₁ l₂) (fun b => cond b c₁.inner c₂.inner) c.inner
    (fun b => by cases b; exacts [A₂, A₁]) A₀.toAreaRound
  have hall : ∀ t ∈ (copyGeometry lib m).tris, ∃ i, InPiece (cond i ρ₁ ρ₂) (cond i (copyGeometry lib₁ m₁) (copyGeometry lib₂ m₂)) t := by
    rw [copyGeometry_tris lib hv]
    intro t ht
    rcases T.all t ht with h | h
    · exact ⟨true, (copyGeometry_inPiece hv₁).2 h⟩
    · exact ⟨false, (copyGeometry_inPiece hv₂).2 h⟩
  rcases key with ⟨out, c', e1, o, d, σ, e2, e3, e4, e5, e6⟩ | ⟨e1, e2⟩
  · refine Or.inl ⟨o true, d true, o false, d false, out, c', σ true, σ false, e2 true, e2 false, e1, ?_, ?_, e4 true, e4 false,
      fun t ht => ?_, fun t ht h => ?_⟩
    · have := e3 true
      rwa [show (cond true (copyGeometry lib₁ m₁) (copyGeometry lib₂ m₂)).points.length = m₁.points.length by
        rw [cond_true, copyGeometry_points lib₁ hv₁]] at this
    · have := e3 false
      rwa [show (cond false (copyGeometry lib₁ m₁) (copyGeometry lib₂ m₂)).points.length = m₂.points.length by
        rw [cond_false, copyGeometry_points lib₂ hv₂]] at this
    · obtain ⟨i, hi⟩ := e5 hall t ht
      cases i
      · exact Or.inr hi
      · exact Or.inl hi
    · have := e6 (by
        rw [copyGeometry_tris lib hv]
        intro t ht i j hi hj
        cases i <;> cases j
        · rfl
        · exact absurd ⟨(copyGeometry_inPiece hv₁).1 hj, (copyGeometry_inPiece hv₂).1 hi⟩ (T.apart t ht)
        · exact absurd ⟨(copyGeometry_inPiece hv₁).1 hi, (copyGeometry_inPiece hv₂).1 hj⟩ (T.apart t ht)
        · rfl) t ht true false h.1 h.2
      cases this
  · refine Or.inr ⟨e1, ?_⟩
    obtain ⟨i, hi⟩ := e2 hall
    cases i
    · exact Or.inr hi
    · exact Or.inl hi

/-- the first copy, with the list of what is too long -/
theorem lengthPiece_start {sch : EdgeScheme} (hl : sch = .loop ∨ sch = .butterfly → lib.Lawful) {n : Nat} {len : P → P → K}
    {L : K} (R : PieceOf ρ m m') (hv : m.Valid) (hv' : m'.Valid) (hc : sch = .butterfly → m.Closed)
    (hi : sch = .loop → m.NoIsolated) (hst : SameStarts ρ m m') (c : Cond Filt (Option Edge)) :
    ∃ l, LengthPiece sch len L ρ (copyGeometry lib m) l (copyGeometry lib' m') ∧
      condGenerate lib (condEdgeUpd sch lib cosn) (some (lengthCompute len L)) n c m =
        condLoop (condEdgeUpd sch lib cosn) (lengthCompute len L) n ⟨c.inner, l⟩ (copyGeometry lib m) := by
  obtain ⟨l, h1, h2, h3⟩ := condLength_start (sch := sch) (lib := lib) (n := n) hv hl hi (condEdgeUpd sch lib cosn) len L c
  refine ⟨l, { toLengthInv := h2, exact' := ?_, piece := copyGeometry_piece R hv hv', closed := ?_, starts := ?_ }, h3⟩
  · have hm := h2.needs.valid
    obtain ⟨l', k1, -, k2, -⟩ := C29_length_exact len L hm.has_edge_cells hm.endsExist c.sel
    rw [h1] at k1
    cases k1
    intro e
    rw [List.mem_map]
    constructor
    · rintro ⟨e', he, h⟩
      cases h
      exact (k2 _).1 he
    · exact fun h => ⟨e, (k2 e).2 h, rfl⟩
  · exact fun h => copyGeometry_closed hv (hc h)
  · unfold SameStarts
    rw [copyGeometry_tris lib hv, copyGeometry_tris lib' hv']
    exact hst

/-- C58, the conditional filter with the length criterion: the same surface listed differently is refined to the same surface,
after the same number of iterations.  The cells begin at corresponding corners (`C58_first_corner_refuted`).  (`len` is any
symmetric function.) -/
theorem C58_listing_conditional_edge_partial {sch : EdgeScheme} (hl : sch = .loop ∨ sch = .butterfly → lib.Lawful)
    (hl' : sch = .loop ∨ sch = .butterfly → lib'.Lawful) (cosn : Nat → K) {len : P → P → K}
    (hr : ∀ p q, len q p = len p q) (L : K) (R : SameSurface ρ m m') (hv : m.Valid) (hv' : m'.Valid)
    (hc : sch = .butterfly → m.Closed) (n : Nat) (hi : sch = .loop → m.NoIsolated)
    (hi' : sch = .loop → m'.NoIsolated)
    (hst : SameStarts ρ m m') (c c' : Cond Filt (Option Edge)) :
    (∃ out d out' d' ρ',
      condGenerate lib (condEdgeUpd sch lib cosn) (some (lengthCompute len L)) n c m = some (.ok out, d) ∧
      condGenerate lib' (condEdgeUpd sch lib' cosn) (some (lengthCompute len L)) n c' m' = some (.ok out', d') ∧
      (∀ v, v < m.points.length → ρ' v = ρ v) ∧ SameSurface ρ' out out') ∨
    (condGenerate lib (condEdgeUpd sch lib cosn) (some (lengthCompute len L)) n c m = none ∧
      condGenerate lib' (condEdgeUpd sch lib' cosn) (some (lengthCompute len L)) n c' m' = none) := by
  obtain ⟨l, L₁, g₁⟩ := lengthPiece_start (cosn := cosn) (lib' := lib') hl R.piece hv hv' hc hi hst c
    (len := len) (L := L)
  obtain ⟨l', L₀, g₀⟩ := lengthPiece_start (cosn := cosn) (lib' := lib') hl' (PieceOf.self m') hv' hv'
    (fun h => R.closed (hc h)) hi' (SameStarts.self m') c' (len := len) (L := L)
  rw [g₁, g₀]
  have hall : ∀ t ∈ (copyGeometry lib' m').tris, ∃ _ : Unit, InPiece ρ (copyGeometry lib m) t := by
    rw [copyGeometry_tris lib' hv']
    exact fun t ht => ⟨(), (copyGeometry_inPiece hv).2 (R.inPiece ht)⟩
  rcases condLoop_pieces_edge (cosn := cosn) (ι := Unit) (libs := fun _ => lib) (lib' := lib') hr
    (fun _ => hl) hl' n (ρ := fun _ => ρ)
    (m := fun _ => copyGeometry lib m) (sel := fun _ => l) (fun _ => c.inner) c'.inner (fun _ => L₁) L₀.toLengthRound with
    ⟨out, c', e1, o, d, σ, e2, e3, e4, e5, -⟩ | ⟨e1, e2⟩
  · refine Or.inl ⟨o (), d (), out, c', σ (), e2 (), e1, ?_, (e4 ()).whole fun t ht => (e5 hall t ht).elim fun _ h => h⟩
    have := e3 ()
    rwa [copyGeometry_points lib hv] at this
  · exact Or.inr ⟨(e2 hall).elim fun _ h => h, e1⟩

/-- C77, the conditional filter with the length criterion.  The iterations on the mesh and on the pieces need not be equally
many: the smaller pieces are done earlier, and what they have become is not touched any more.  After any number of
iterations the filter has returned for the mesh exactly if it has returned for both pieces, and then the result consists
of the results for the pieces.  (`len` is any symmetric function.) -/
theorem C77_conditional_edge {sch : EdgeScheme} (hl₁ : sch = .loop ∨ sch = .butterfly → lib₁.Lawful)
    (hl₂ : sch = .loop ∨ sch = .butterfly → lib₂.Lawful) (hl : sch = .loop ∨ sch = .butterfly → lib.Lawful) (cosn : Nat → K) {len : P → P → K}
    (hr : ∀ p q, len q p = len p q) (L : K) (T : TwoPieces ρ₁ ρ₂ m₁ m₂ m) (hv₁ : m₁.Valid) (hv₂ : m₂.Valid) (hv : m.Valid)
    (hc : sch = .butterfly → m₁.Closed ∧ m₂.Closed) (n : Nat)
    (hi₁ : sch = .loop → m₁.NoIsolated) (hi₂ : sch = .loop → m₂.NoIsolated) (hi : sch = .loop → m.NoIsolated)
    (hst : SameStarts ρ₁ m₁ m ∧ SameStarts ρ₂ m₂ m) (c₁ c₂ c : Cond Filt (Option Edge)) :
    (∃ o₁ c₁' o₂ c₂' out c' ρ₁' ρ₂',
      condGenerate lib₁ (condEdgeUpd sch lib₁ cosn) (some (lengthCompute len L)) n c₁ m₁ = some (.ok o₁, c₁') ∧
      condGenerate lib₂ (condEdgeUpd sch lib₂ cosn) (some (lengthCompute len L)) n c₂ m₂ = some (.ok o₂, c₂') ∧
      condGenerate lib (condEdgeUpd sch lib cosn) (some (lengthCompute len L)) n c m = some (.ok out, c') ∧
      (∀ v, v < m₁.points.length → ρ₁' v = ρ₁ v) ∧ (∀ v, v < m₂.points.length → ρ₂' v = ρ₂ v) ∧
      TwoPieces ρ₁' ρ₂' o₁ o₂ out) ∨
    (condGenerate lib (condEdgeUpd sch lib cosn) (some (lengthCompute len L)) n c m = none ∧
      (condGenerate lib₁ (condEdgeUpd sch lib₁ cosn) (some (lengthCompute len L)) n c₁ m₁ = none ∨
        condGenerate lib₂ (condEdgeUpd sch lib₂ cosn) (some (lengthCompute len L)) n c₂ m₂ = none)) := by
  obtain ⟨l₁, L₁, g₁⟩ := lengthPiece_start (cosn := cosn) (lib' := lib) hl₁ T.fst hv₁ hv (fun h => (hc h).1) hi₁
    hst.1 c₁ (len := len) (L := L)
  obtain ⟨l₂, L₂, g₂⟩ := lengthPiece_start (cosn := cosn) (lib' := lib) hl₂ T.snd hv₂ hv (fun h => (hc h).2) hi₂
    hst.2 c₂ (len := len) (L := L)
  obtain ⟨l, L₀, g₀⟩ := lengthPiece_start (cosn := cosn) (lib' := lib) hl (PieceOf.self m) hv hv
    (fun h => T.closed (hc h).1 (hc h).2) hi (SameStarts.self m) c (len := len) (L := L)
  rw [g₁, g₂, g₀]
  have key := condLoop_pieces_edge (cosn := cosn) (ι := Bool) (libs := fun b => cond b lib₁ lib₂) (lib' := lib) hr
    (fun b => by cases b; exacts [hl₂, hl₁]) hl n
    (ρ := fun b => cond b ρ₁ ρ₂) (m := fun b => cond b (copyGeometry lib₁ m₁) (copyGeometry lib₂ m₂))
    (sel := fun b => cond b l₁ l₂) (fun b => cond b c₁.inner c₂.inner) c.inner
    (fun b => by cases b; exacts [L₂, L₁]) L₀.toLengthRound
  have hall : ∀ t ∈ (copyGeometry lib m).tris, ∃ i, InPiece (cond i ρ₁ ρ₂) (cond i (copyGeometry lib₁ m₁) (copyGeometry lib₂ m₂)) t := by
    rw [copyGeometry_tris lib hv]
    intro t ht
    rcases T.all t ht with h | h
    · exact ⟨true, (copyGeometry_inPiece hv₁).2 h⟩
    · exact ⟨false, (copyGeometry_inPiece hv₂).2 h⟩
  rcases key with ⟨out, c', e1, o, d, σ, e2, e3, e4, e5, e6⟩ | ⟨e1, e2⟩
  · refine Or.inl ⟨o true, d true, o false, d false, out, c', σ true, σ false, e2 true, e2 false, e1, ?_, ?_, e4 true, e4 false,
      fun t ht => ?_, fun t ht h => ?_⟩
    · have := e3 true
      rwa [show (cond true (copyGeometry lib₁ m₁) (copyGeometry lib₂ m₂)).points.length = m₁.points.length by
        rw [cond_true, copyGeometry_points lib₁ hv₁]] at this
    · have := e3 false
      rwa [show (cond false (copyGeometry lib₁ m₁) (copyGeometry lib₂ m₂)).points.length = m₂.points.length by
        rw [cond_false, copyGeometry_points lib₂ hv₂]] at this
    · obtain ⟨i, hi⟩ := e5 hall t ht
      cases i
      · exact Or.inr hi
      · exact Or.inl hi
    · have := e6 (by
        rw [copyGeometry_tris lib hv]
        intro t ht i j hi hj
        cases i <;> cases j
        · rfl
        · exact absurd ⟨(copyGeometry_inPiece hv₁).1 hj, (copyGeometry_inPiece hv₂).1 hi⟩ (T.apart t ht)
        · exact absurd ⟨(copyGeometry_inPiece hv₁).1 hi, (copyGeometry_inPiece hv₂).1 hj⟩ (T.apart t ht)
        · rfl) t ht true false h.1 h.2
      cases this
  · refine Or.inr ⟨e1, ?_⟩
    obtain ⟨i, hi⟩ := e2 hall
    cases i
    · exact Or.inr hi
    · exact Or.inl hi

end

section
variable {E D : Type} [NormedAddCommGroup E] [InnerProductSpace ℝ E] {lib lib₁ lib₂ : QELib} {ρ₁ ρ₂ : PId → PId}
  {m₁ m₂ m : Mesh E D}

/-- C77, the conditional linear filter with a positive bound on the area: it returns for the mesh and for the pieces, and the
result consists of the results for the pieces, however long each of them takes. -/
theorem C77_conditional_linear (cosn : Nat → ℝ) {A : ℝ} (hA : 0 < A) (T : TwoPieces ρ₁ ρ₂ m₁ m₂ m) (hv₁ : m₁.Valid)
    (hv₂ : m₂.Valid) (hv : m.Valid) (hst : SameStarts ρ₁ m₁ m ∧ SameStarts ρ₂ m₂ m) (c₁ c₂ c : Cond Filt CId) :
    ∃ n o₁ c₁' o₂ c₂' out c' ρ₁' ρ₂',
      (∀ k, n ≤ k → condGenerate lib₁ (condCellUpd .linear lib₁ cosn) (some (areaCompute heronArea A)) k c₁ m₁ = some (.ok o₁, c₁')) ∧
      (∀ k, n ≤ k → condGenerate lib₂ (condCellUpd .linear lib₂ cosn) (some (areaCompute heronArea A)) k c₂ m₂ = some (.ok o₂, c₂')) ∧
      (∀ k, n ≤ k → condGenerate lib (condCellUpd .linear lib cosn) (some (areaCompute heronArea A)) k c m = some (.ok out, c')) ∧
      (∀ v, v < m₁.points.length → ρ₁' v = ρ₁ v) ∧ (∀ v, v < m₂.points.length → ρ₂' v = ρ₂ v) ∧
      TwoPieces ρ₁' ρ₂' o₁ o₂ out := by
  obtain ⟨n₁, o₁, d₁, r₁⟩ := C32_area_returns hv₁ hA lib₁ cosn c₁
  obtain ⟨n₂, o₂, d₂, r₂⟩ := C32_area_returns hv₂ hA lib₂ cosn c₂
  obtain ⟨n₀, o₀, d₀, r₀⟩ := C32_area_returns hv hA lib cosn c
  have e₁ : ∀ k, max n₁ (max n₂ n₀) ≤ k → n₁ ≤ k ∧ n₂ ≤ k ∧ n₀ ≤ k := fun k hk => by omega
  rcases C77_conditional (lib := lib) (lib₁ := lib₁) (lib₂ := lib₂) (sch := .linear) (by decide) (fun h => nomatch h)
    (fun h => nomatch h) (fun h => nomatch h) cosn (area := heronArea)
    (fun p q r => by rw [heronArea_eq, heronArea_eq, triArea_rotate]) A T hv₁ hv₂ hv (fun h => nomatch h)
    (max n₁ (max n₂ n₀)) (fun h => nomatch h) (fun h => nomatch h) (fun h => nomatch h) (Or.inr hst) c₁ c₂ c with
    ⟨_, _, _, _, _, _, ρ₁', ρ₂', h1, h2, h3, h4, h5, h6⟩ | ⟨h, -⟩
  · have q := e₁ _ (le_refl _)
    rw [r₁ _ q.1] at h1; rw [r₂ _ q.2.1] at h2; rw [r₀ _ q.2.2] at h3
    cases h1; cases h2; cases h3
    exact ⟨_, o₁, d₁, o₂, d₂, o₀, d₀, ρ₁', ρ₂', fun k hk => r₁ k (e₁ k hk).1, fun k hk => r₂ k (e₁ k hk).2.1,
      fun k hk => r₀ k (e₁ k hk).2.2, h4, h5, h6⟩
  · rw [r₀ _ (e₁ _ (le_refl _)).2.2] at h
    cases h

/-- C77, the conditional linear edge filter with a positive bound on the length. -/
theorem C77_conditional_linear_edge (cosn : Nat → ℝ) {L : ℝ} (hL : 0 < L) (T : TwoPieces ρ₁ ρ₂ m₁ m₂ m) (hv₁ : m₁.Valid)
    (hv₂ : m₂.Valid) (hv : m.Valid) (hst : SameStarts ρ₁ m₁ m ∧ SameStarts ρ₂ m₂ m) (c₁ c₂ c : Cond Filt (Option Edge)) :
    ∃ n o₁ c₁' o₂ c₂' out c' ρ₁' ρ₂',
      (∀ k, n ≤ k → condGenerate lib₁ (condEdgeUpd .linear lib₁ cosn) (some (lengthCompute dist L)) k c₁ m₁ = some (.ok o₁, c₁')) ∧
      (∀ k, n ≤ k → condGenerate lib₂ (condEdgeUpd .linear lib₂ cosn) (some (lengthCompute dist L)) k c₂ m₂ = some (.ok o₂, c₂')) ∧
      (∀ k, n ≤ k → condGenerate lib (condEdgeUpd .linear lib cosn) (some (lengthCompute dist L)) k c m = some (.ok out, c')) ∧
      (∀ v, v < m₁.points.length → ρ₁' v = ρ₁ v) ∧ (∀ v, v < m₂.points.length → ρ₂' v = ρ₂ v) ∧
      TwoPieces ρ₁' ρ₂' o₁ o₂ out := by
  obtain ⟨n₁, o₁, d₁, r₁⟩ := C33_length_returns hv₁ hL lib₁ cosn c₁
  obtain ⟨n₂, o₂, d₂, r₂⟩ := C33_length_returns hv₂ hL lib₂ cosn c₂
  obtain ⟨n₀, o₀, d₀, r₀⟩ := C33_length_returns hv hL lib cosn c
  have e₁ : ∀ k, max n₁ (max n₂ n₀) ≤ k → n₁ ≤ k ∧ n₂ ≤ k ∧ n₀ ≤ k := fun k hk => by omega
  rcases C77_conditional_edge (lib := lib) (lib₁ := lib₁) (lib₂ := lib₂) (sch := .linear) (fun h => by cases h <;> contradiction)
    (fun h => by cases h <;> contradiction) (fun h => by cases h <;> contradiction) cosn (len := dist)
    (fun p q => dist_comm q p) L T hv₁ hv₂ hv (fun h => nomatch h)
    (max n₁ (max n₂ n₀)) (fun h => nomatch h) (fun h => nomatch h) (fun h => nomatch h) hst c₁ c₂ c with
    ⟨_, _, _, _, _, _, ρ₁', ρ₂', h1, h2, h3, h4, h5, h6⟩ | ⟨h, -⟩
  · have q := e₁ _ (le_refl _)
    rw [r₁ _ q.1] at h1; rw [r₂ _ q.2.1] at h2; rw [r₀ _ q.2.2] at h3
    cases h1; cases h2; cases h3
    exact ⟨_, o₁, d₁, o₂, d₂, o₀, d₀, ρ₁', ρ₂', fun k hk => r₁ k (e₁ k hk).1, fun k hk => r₂ k (e₁ k hk).2.1,
      fun k hk => r₀ k (e₁ k hk).2.2, h4, h5, h6⟩
  · rw [r₀ _ (e₁ _ (le_refl _)).2.2] at h
    cases h

end

/-- a measure of the size of a triangle that does not depend on the corner at which it begins -/
def girth (p q r : Q3) : ℚ := taxi p q + taxi q r + taxi r p

theorem girth_turn (p q r : Q3) : girth q r p = girth p q r := by
  unfold girth
  ring

theorem taxi_comm (p q : Q3) : taxi q p = taxi p q := by
  unfold taxi
  simp only [abs_sub_comm]

/-- SquareThree, two iterations; the cells of `tetraTurn` begin at other corners -/
example (c c' : Cond Filt CId) := C58_listing_conditional_partial (lib := someLib) (lib' := someLib) (sch := .sqrt3) (by decide)
  (fun h => nomatch h) (fun h => nomatch h) cos0 girth_turn 5 tetraTurn_same tetraMesh_ok.1 tetraTurn_ok.1 (fun h => nomatch h)
  2 (fun _ => by decide) (fun _ => by decide) (Or.inl rfl) c c'

/-- `tetraMesh` with the points 0 and 2 exchanged and the cells in another order -/
def tetraMix : Mesh Q3 Nat := mk [(0, 4, 0), (4, 0, 0), (0, 0, 0), (0, 0, 4)] [(1, 3, 0), (2, 1, 0), (2, 3, 1), (2, 0, 3)] none

theorem tetraMix_ok : tetraMix.Valid ∧ tetraMix.RingOK ∧ tetraMix.NoIsolated ∧
    tetraMix.tris = [(1, 3, 0), (2, 1, 0), (2, 3, 1), (2, 0, 3)] := mk_ok _ (by decide)

theorem tetraMix_same : SameSurface swap02 tetraMesh tetraMix := by
  refine sameSurface_of tetraMesh_ok.2.2.2 tetraMix_ok.2.2.2 ?_ ?_ ?_ ?_ <;> (try unfold HasTri) <;> (try unfold Tri.Is) <;> decide

theorem tetraMix_starts : SameStarts swap02 tetraMesh tetraMix := by
  unfold SameStarts
  rw [tetraMesh_ok.2.2.2, tetraMix_ok.2.2.2]
  decide

/-- Butterfly, any number of iterations, any bound -/
example (n : Nat) (A : ℚ) (c c' : Cond Filt CId) := C58_listing_conditional_partial (lib := someLib) (lib' := someLib)
  (sch := .butterfly) (by decide) (fun _ => someLib_lawful) (fun _ => someLib_lawful) cos0 girth_turn A tetraMix_same
  tetraMesh_ok.1 tetraMix_ok.1 (fun _ => tetraMesh_closed) n (fun h => nomatch h) (fun h => nomatch h)
  (Or.inr tetraMix_starts) c c'

/-- the Loop edge filter -/
example (n : Nat) (L : ℚ) (c c' : Cond Filt (Option Edge)) := C58_listing_conditional_edge_partial (lib := someLib)
  (lib' := someLib) (sch := .loop) (fun _ => someLib_lawful) (fun _ => someLib_lawful) cos0 taxi_comm L tetraMix_same
  tetraMesh_ok.1 tetraMix_ok.1 (fun h => nomatch h) n (fun _ => tetraMesh_ok.2.2.1) (fun _ => tetraMix_ok.2.2.1)
  tetraMix_starts c c'

/-- the two tetrahedra of `twoMesh`, Butterfly; any number of iterations, any bound -/
example (n : Nat) (A : ℚ) (c₁ c₂ c : Cond Filt CId) := C77_conditional (lib := someLib) (lib₁ := someLib) (lib₂ := someLib)
  (sch := .butterfly) (by decide) (fun _ => someLib_lawful) (fun _ => someLib_lawful) (fun _ => someLib_lawful) cos0 girth_turn A
  twoMesh_two tetraMesh_ok.1 tetraTurn_ok.1 twoMesh_ok.1 (fun _ => ⟨tetraMesh_closed, tetraTurn_closed⟩) n
  (fun h => nomatch h) (fun h => nomatch h) (fun h => nomatch h) (Or.inr twoMesh_starts) c₁ c₂ c

/-- and the Loop edge filter -/
example (n : Nat) (L : ℚ) (c₁ c₂ c : Cond Filt (Option Edge)) := C77_conditional_edge (lib := someLib) (lib₁ := someLib)
  (lib₂ := someLib) (sch := .loop) (fun _ => someLib_lawful) (fun _ => someLib_lawful) (fun _ => someLib_lawful) cos0 taxi_comm L
  twoMesh_two tetraMesh_ok.1 tetraTurn_ok.1 twoMesh_ok.1 (fun h => nomatch h) n
  (fun _ => tetraMesh_ok.2.2.1) (fun _ => tetraTurn_ok.2.2.1) (fun _ => twoMesh_ok.2.2.1) twoMesh_starts c₁ c₂ c

/-- `patchP` and `wingsP` in one mesh; they overlap in the plane -/
noncomputable def heapP : Mesh R2 Nat :=
  mk [!₂[0, 0], !₂[4, 0], !₂[0, 4], !₂[3, -4], !₂[4, 4], !₂[-4, 1], !₂[0, 0], !₂[1, 0], !₂[0, 10], !₂[10, -1]]
    [(6, 7, 8), (0, 1, 2), (1, 0, 3), (2, 1, 4), (7, 6, 9), (0, 2, 5)] none

theorem heapP_ok : heapP.Valid ∧ heapP.RingOK ∧ heapP.NoIsolated ∧
    heapP.tris = [(6, 7, 8), (0, 1, 2), (1, 0, 3), (2, 1, 4), (7, 6, 9), (0, 2, 5)] := mk_ok _ (by decide)

theorem heapP_two : TwoPieces id (· + 6) patchP wingsP heapP := by
  refine twoPieces_of patchP_ok.2.2.2 wingsP_ok.2.2.2 heapP_ok.2.2.2 ?_ ?_ ?_ ?_ ?_ ?_ ?_ ?_
  · decide
  · decide
  · decide
  · decide
  · intro t ht v hv
    have : v = 0 ∨ v = 1 ∨ v = 2 ∨ v = 3 ∨ v = 4 ∨ v = 5 := (by decide : ∀ t ∈ patch, ∀ v ∈ t.verts,
      v = 0 ∨ v = 1 ∨ v = 2 ∨ v = 3 ∨ v = 4 ∨ v = 5) t ht v hv
    rcases this with rfl | rfl | rfl | rfl | rfl | rfl <;> rfl
  · intro t ht v hv
    have : v = 0 ∨ v = 1 ∨ v = 2 ∨ v = 3 := (by decide : ∀ t ∈ ([(0, 1, 2), (1, 0, 3)] : List Tri), ∀ v ∈ Tri.verts t,
      v = 0 ∨ v = 1 ∨ v = 2 ∨ v = 3) t ht v hv
    rcases this with rfl | rfl | rfl | rfl <;> rfl
  · decide
  · decide

theorem heapP_starts : SameStarts id patchP heapP ∧ SameStarts (· + 6) wingsP heapP := by
  unfold SameStarts
  rw [patchP_ok.2.2.2, wingsP_ok.2.2.2, heapP_ok.2.2.2]
  decide

example (c₁ c₂ c : Cond Filt CId) := C77_conditional_linear (lib := someLib) (lib₁ := someLib) (lib₂ := someLib) realCos
  (show (0 : ℝ) < 1 / 100 by norm_num) heapP_two patchP_ok.1 wingsP_ok.1 heapP_ok.1 heapP_starts c₁ c₂ c

example (c₁ c₂ c : Cond Filt (Option Edge)) := C77_conditional_linear_edge (lib := someLib) (lib₁ := someLib) (lib₂ := someLib)
  realCos (show (0 : ℝ) < 1 / 10 by norm_num) heapP_two patchP_ok.1 wingsP_ok.1 heapP_ok.1 heapP_starts c₁ c₂ c

end Verif
