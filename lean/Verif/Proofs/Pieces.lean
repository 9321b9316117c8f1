import Verif.Proofs.ListingSqrt3
import Verif.Properties.Levels
import Verif.Properties.Numbering
/-
Runs of the filters on a mesh and on one that contains it as a piece.
-/
namespace Verif
set_option linter.unusedSectionVars false
variable {K P D : Type} [Field K] [AddCommGroup P] [Module K P]
variable {lib lib' : QELib} {cosn : Nat → K} {ρ : PId → PId} {m m' out out' : Mesh P D} {f f' g g' : Filt}

theorem shared_all (m : Mesh P D) {t : Tri} (ht : t ∈ m.tris) : (t.sharedWith (m.selected [])).length = 3 := by
  unfold Tri.sharedWith
  rw [List.filter_eq_self.2]
  · rfl
  · intro e he
    exact decide_eq_true (Or.inl (mem_dartsOf.2 ⟨t, ht, he⟩))

/-- a triangle of the output of a run and one of the input from which it comes -/
def LevelFrom (sch : Scheme) (m' : Mesh P D) (sel : List CId) (t d : Tri) : Prop :=
  (sch = .sqrt3 → Sq3From m' (m'.centreOf sel) t d) ∧ (sch ≠ .sqrt3 → t ∈ m'.tris ∧ d ∈ t.children (m'.edgePoint sel))

theorem level_from {sch : Scheme} (hn : sch.Needs m) (hsel : m.SelOK f.cells)
    (hmax : sch = .sqrt3 → m.points.length + (m.selected f.cells).length ≤ idMax)
    (h : cellUpdate sch lib cosn f m = (.ok out, f')) {d : Tri} (hd : d ∈ out.tris) :
    ∃ t ∈ m.tris, LevelFrom sch m f.cells t d := by
  by_cases h3 : sch = .sqrt3
  · subst h3
    obtain ⟨t, ht⟩ := sqrt3_from (sqrt3Update_result hn.valid hsel (hmax rfl) h) hn.valid hd
    exact ⟨t, ht.1, fun _ => ht, fun h => absurd rfl h⟩
  · rw [(cellUpdate_result h3 hn hsel h).1.tris] at hd
    obtain ⟨t, ht, hd⟩ := List.mem_flatMap.1 hd
    exact ⟨t, ht, fun h => absurd h h3, fun _ => ⟨ht, hd⟩⟩

theorem level_piece {sch : Scheme} (R : PieceOf ρ m m') (hn : sch.Needs m) (hn' : sch.Needs m')
    (hc : sch = .butterfly → m.Closed) (hl : sch = .loop → f.uniform = true ∧ g.uniform = true)
    (hsel : m.SelOK f.cells) (hsel' : m'.SelOK g.cells) (S : SameSelection ρ m f.cells m' g.cells)
    (hmax : sch = .sqrt3 → m.points.length + (m.selected f.cells).length ≤ idMax)
    (hmax' : sch = .sqrt3 → m'.points.length + (m'.selected g.cells).length ≤ idMax)
    (hor : sch = .sqrt3 ∨ f.cells = [] ∨ SameStarts ρ m m')
    (h : cellUpdate sch lib cosn f m = (.ok out, f')) (h' : cellUpdate sch lib' cosn g m' = (.ok out', g')) :
    ∃ ρ', (∀ v, v < m.points.length → ρ' v = ρ v) ∧ PieceOf ρ' out out' ∧
      SameSelection ρ' out f'.cells out' g'.cells ∧ (sch = .sqrt3 ∨ f'.cells = [] ∨ SameStarts ρ' out out') ∧
      ∀ t' d', LevelFrom sch m' g.cells t' d' → (InPiece ρ' out d' ↔ InPiece ρ m t') := by
  by_cases h3 : sch = .sqrt3
  · subst h3
    obtain ⟨ρ', k1, k2, k3, k4⟩ := sqrt3Update_listing R hn.valid hn'.valid hsel hsel' S (hmax rfl) (hmax' rfl) h h'
    exact ⟨ρ', k1, k2, k3, Or.inl rfl, fun t' d' hd => k4 t' d' (hd.1 rfl)⟩
  · obtain ⟨ρ', k1, k2, k3, k4, k5⟩ := cellUpdate_listing h3 R hn hn' hc hl hsel hsel' S (by
      rcases hor with h | h | h
      · exact absurd h h3
      · intro t ht hx
        rw [h, shared_all m ht] at hx
        cases hx
      · exact fun t ht _ => h t ht) h h'
    refine ⟨ρ', k1, k2, k3, Or.inr ?_, fun t' d' hd => k5 t' (hd.2 h3).1 d' (hd.2 h3).2⟩
    rcases hor with h4 | h4 | h4
    · exact absurd h4 h3
    · exact Or.inl ((C16_selection_after_run h3 hn hsel h).1 h4)
    · exact Or.inr (k4 h4)

/-- the points of a mesh stay under their ids, so that there are no fewer -/
theorem level_longer {sch : Scheme} (hn : sch.Needs m) (hsel : m.SelOK f.cells)
    (hmax : sch = .sqrt3 → m.points.length + (m.selected f.cells).length ≤ idMax)
    (h : cellUpdate sch lib cosn f m = (.ok out, f')) : m.points.length ≤ out.points.length := by
  by_cases h3 : sch = .sqrt3
  · subst h3
    have A := sqrt3Update_result hn.valid hsel (hmax rfl) h
    rw [A.points, AMap.length_dense]; exact A.longer
  · have A := (cellUpdate_result h3 hn hsel h).1
    rw [A.points, AMap.length_dense]; exact A.longer

/-- what a level needs -/
structure Ready (sch : Scheme) (L : Nat) (m : Mesh P D) (sel : List CId) : Prop where
  needs : sch.Needs m
  listed : m.SelOK sel
  ids : sch.IdsLeft L m sel

/-- a mesh and one that contains it as a piece, ready for a level -/
structure ReadyPiece (sch : Scheme) (L : Nat) (ρ : PId → PId) (m : Mesh P D) (sel : List CId) (m' : Mesh P D)
    (sel' : List CId) : Prop extends Ready sch L m sel where
  piece : PieceOf ρ m m'
  closed : sch = .butterfly → m.Closed
  same : SameSelection ρ m sel m' sel'
  starts : sch = .sqrt3 ∨ sel = [] ∨ SameStarts ρ m m'

theorem oneLevel_run {sch : Scheme} (hlib : sch = .loop ∨ sch = .butterfly → lib.Lawful) (cosn : Nat → K) {L : Nat}
    {sel : List CId} (A : Ready sch (L + 1) m sel) : ∃ out s f', oneLevel sch lib cosn (m, sel) = .ok (out, s) ∧
      Ready sch L out s ∧ cellUpdate sch lib cosn (Filt.new.setCells sel) m = (.ok out, f') ∧ f'.cells = s := by
  obtain ⟨m1, s1, h1, hn1, hs1, hid1, -⟩ := oneLevel_ok cosn hlib A.needs A.listed A.ids
  have h1' := h1
  unfold oneLevel at h1'
  rcases c1 : cellUpdate sch lib cosn (Filt.new.setCells sel) m with ⟨r1, f1⟩
  simp only [c1] at h1'
  cases r1 with
  | error e => cases h1'
  | ok o1 =>
  obtain ⟨rfl, rfl⟩ := Prod.mk.inj (Except.ok.inj h1')
  exact ⟨_, _, _, h1, ⟨hn1, hs1, hid1⟩, rfl, rfl⟩

theorem oneLevel_piece {sch : Scheme} {L : Nat} {sel sel' : List CId} (A : ReadyPiece sch (L + 1) ρ m sel m' sel')
    (B : Ready sch (L + 1) m' sel') (A1 : Ready sch L out f'.cells)
    (h : cellUpdate sch lib cosn (Filt.new.setCells sel) m = (.ok out, f'))
    (h' : cellUpdate sch lib' cosn (Filt.new.setCells sel') m' = (.ok out', g')) :
    ∃ ρ', (∀ v, v < m.points.length → ρ' v = ρ v) ∧ ReadyPiece sch L ρ' out f'.cells out' g'.cells ∧
      ∀ t' d', LevelFrom sch m' sel' t' d' → (InPiece ρ' out d' ↔ InPiece ρ m t') := by
  obtain ⟨ρ', k1, k2, k3, k4, k5⟩ := level_piece A.piece A.needs B.needs A.closed (fun _ => ⟨rfl, rfl⟩) A.listed B.listed A.same
    (fun h => IdsLeft.now A.ids h) (fun h => IdsLeft.now B.ids h) A.starts h h'
  refine ⟨ρ', k1, { toReady := A1, piece := k2, closed := ?_, same := k3, starts := k4 }, k5⟩
  rintro rfl
  exact (C18_boundary_preserved (by decide) A.needs (f := Filt.new.setCells sel) A.listed h).2.1 (A.closed rfl)

/-- any number of levels; if the piece is everything, it stays everything -/
theorem manyLevels_piece {sch : Scheme} (hlib : sch = .loop ∨ sch = .butterfly → lib.Lawful)
    (hlib' : sch = .loop ∨ sch = .butterfly → lib'.Lawful) (L : Nat) :
    ∀ {ρ : PId → PId} {m m' : Mesh P D} {sel sel' : List CId}, ReadyPiece sch L ρ m sel m' sel' → Ready sch L m' sel' →
      ∃ out s out' s' ρ', manyLevels sch lib cosn L (m, sel) = .ok (out, s) ∧
        manyLevels sch lib' cosn L (m', sel') = .ok (out', s') ∧
        (∀ v, v < m.points.length → ρ' v = ρ v) ∧ PieceOf ρ' out out' ∧
        ((∀ t ∈ m'.tris, InPiece ρ m t) → ∀ t ∈ out'.tris, InPiece ρ' out t) := by
  induction L with
  | zero => exact fun A _ => ⟨_, _, _, _, _, rfl, rfl, fun _ _ => rfl, A.piece, fun h => h⟩
  | succ L ih =>
    intro ρ m m' sel sel' A B
    obtain ⟨o1, _, f1, h1, A1, c1, rfl⟩ := oneLevel_run hlib cosn A.toReady
    obtain ⟨o2, _, f2, h2, B1, c2, rfl⟩ := oneLevel_run hlib' cosn B
    obtain ⟨ρ', k1, k2, k3⟩ := oneLevel_piece A B A1 c1 c2
    obtain ⟨out, s, out', s', ρ'', e1, e2, e3, e4, e5⟩ := ih k2 B1
    refine ⟨out, s, out', s', ρ'', ?_, ?_, ?_, e4, fun hall => e5 fun d hd => ?_⟩
    · unfold manyLevels; rw [h1]; exact e1
    · unfold manyLevels; rw [h2]; exact e2
    · intro v hv
      have hle := level_longer A.needs (f := Filt.new.setCells sel) A.listed (fun h => IdsLeft.now A.ids h) c1
      rw [e3 v (Nat.lt_of_lt_of_le hv hle), k1 v hv]
    · obtain ⟨t, ht, hf⟩ := level_from B.needs (f := Filt.new.setCells sel') B.listed (fun h => IdsLeft.now B.ids h) c2 hd
      exact (k3 t d hf).2 (hall t ht)

/-- a mesh of two pieces -/
theorem manyLevels_two {sch : Scheme} {lib₁ lib₂ : QELib} (hlib₁ : sch = .loop ∨ sch = .butterfly → lib₁.Lawful)
    (hlib₂ : sch = .loop ∨ sch = .butterfly → lib₂.Lawful) (hlib : sch = .loop ∨ sch = .butterfly → lib.Lawful) (L : Nat) :
    ∀ {ρ₁ ρ₂ : PId → PId} {m₁ m₂ m : Mesh P D} {s₁ s₂ sel : List CId}, ReadyPiece sch L ρ₁ m₁ s₁ m sel →
      ReadyPiece sch L ρ₂ m₂ s₂ m sel → Ready sch L m sel → TwoPieces ρ₁ ρ₂ m₁ m₂ m →
      ∃ o₁ t₁ o₂ t₂ out t ρ₁' ρ₂', manyLevels sch lib₁ cosn L (m₁, s₁) = .ok (o₁, t₁) ∧
        manyLevels sch lib₂ cosn L (m₂, s₂) = .ok (o₂, t₂) ∧ manyLevels sch lib cosn L (m, sel) = .ok (out, t) ∧
        (∀ v, v < m₁.points.length → ρ₁' v = ρ₁ v) ∧ (∀ v, v < m₂.points.length → ρ₂' v = ρ₂ v) ∧
        TwoPieces ρ₁' ρ₂' o₁ o₂ out := by
  induction L with
  | zero => exact fun _ _ _ T => ⟨_, _, _, _, _, _, _, _, rfl, rfl, rfl, fun _ _ => rfl, fun _ _ => rfl, T⟩
  | succ L ih =>
    intro ρ₁ ρ₂ m₁ m₂ m s₁ s₂ sel A₁ A₂ B T
    obtain ⟨o1, _, f1, h1, R1, c1, rfl⟩ := oneLevel_run hlib₁ cosn A₁.toReady
    obtain ⟨o2, _, f2, h2, R2, c2, rfl⟩ := oneLevel_run hlib₂ cosn A₂.toReady
    obtain ⟨o, _, g, h, R, c, rfl⟩ := oneLevel_run hlib cosn B
    obtain ⟨σ1, a1, a2, a3⟩ := oneLevel_piece A₁ B R1 c1 c
    obtain ⟨σ2, b1, b2, b3⟩ := oneLevel_piece A₂ B R2 c2 c
    have T1 : TwoPieces σ1 σ2 o1 o2 o := by
      refine ⟨a2.piece, b2.piece, fun d hd => ?_, fun d hd hx => ?_⟩ <;>
        obtain ⟨t, ht, hf⟩ := level_from B.needs (f := Filt.new.setCells sel) B.listed (fun h => IdsLeft.now B.ids h) c hd
      · exact (T.all t ht).imp (a3 t d hf).2 (b3 t d hf).2
      · exact T.apart t ht ⟨(a3 t d hf).1 hx.1, (b3 t d hf).1 hx.2⟩
    obtain ⟨p1, t1, p2, t2, p, t, τ1, τ2, e1, e2, e3, e4, e5, e6⟩ := ih a2 b2 R T1
    refine ⟨p1, t1, p2, t2, p, t, τ1, τ2, ?_, ?_, ?_, ?_, ?_, e6⟩
    · unfold manyLevels; rw [h1]; exact e1
    · unfold manyLevels; rw [h2]; exact e2
    · unfold manyLevels; rw [h]; exact e3
    · intro v hv
      have hle := level_longer A₁.needs (f := Filt.new.setCells s₁) A₁.listed (fun h => IdsLeft.now A₁.ids h) c1
      rw [e4 v (Nat.lt_of_lt_of_le hv hle), a1 v hv]
    · intro v hv
      have hle := level_longer A₂.needs (f := Filt.new.setCells s₂) A₂.listed (fun h => IdsLeft.now A₂.ids h) c2
      rw [e5 v (Nat.lt_of_lt_of_le hv hle), b1 v hv]

end Verif
