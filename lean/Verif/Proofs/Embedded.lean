import Verif.Spec.Embedded
import Verif.Proofs.Children
import Verif.Proofs.SixShares
import Mathlib.Tactic.Module
/-
Cutting triangles at the midpoints of their edges: a point of a child is a point of its parent, and the shares of the corners of
the parent tell the child and the shares of its corners.
-/
namespace Verif
set_option linter.unusedSectionVars false
variable {K P D : Type} [Field K] [LinearOrder K] [IsStrictOrderedRing K] [AddCommGroup P] [Module K P]
variable {μ : Edge → Option PId} {a b c : PId} {d d' : Tri} {w w' : PId → K}

/-- the share of the new point of an edge -/
def atMid (μ : Edge → Option PId) (w : PId → K) (e : Edge) : K := (μ e).elim 0 w

/-- the shares of the corners of the parent: a new point counts half for each end of its edge -/
def parentWeights (μ : Edge → Option PId) (t : Tri) (w : PId → K) (v : PId) : K :=
  if v = t.1 then w t.1 + 1 / 2 * (atMid μ w (t.1, t.2.1) + atMid μ w (t.2.2, t.1))
  else if v = t.2.1 then w t.2.1 + 1 / 2 * (atMid μ w (t.1, t.2.1) + atMid μ w (t.2.1, t.2.2))
  else if v = t.2.2 then w t.2.2 + 1 / 2 * (atMid μ w (t.2.1, t.2.2) + atMid μ w (t.2.2, t.1))
  else 0

/-- the shares of corners that a child does not have are zero -/
theorem child_six (hl : Local μ a b c) (hd : d ∈ Tri.children μ (a, b, c)) (hw : Weights d w) :
    SixPattern (μ (a, b)).isSome (μ (b, c)).isSome (μ (c, a)).isSome (w a) (w b) (w c) (atMid μ w (a, b)) (atMid μ w (b, c))
      (atMid μ w (c, a)) := by
  obtain ⟨hab, hbc, hca, f0, f1, f2, e01, e12, e02⟩ := hl
  have g0 : ∀ m, μ (a, b) = some m → a ≠ m ∧ b ≠ m ∧ c ≠ m := fun m h => ⟨(f0 m h).1.symm, (f0 m h).2.1.symm, (f0 m h).2.2.symm⟩
  have g1 : ∀ m, μ (b, c) = some m → a ≠ m ∧ b ≠ m ∧ c ≠ m := fun m h => ⟨(f1 m h).1.symm, (f1 m h).2.1.symm, (f1 m h).2.2.symm⟩
  have g2 : ∀ m, μ (c, a) = some m → a ≠ m ∧ b ≠ m ∧ c ≠ m := fun m h => ⟨(f2 m h).1.symm, (f2 m h).2.1.symm, (f2 m h).2.2.symm⟩
  have d01 : ∀ m, μ (a, b) = some m → ∀ m', μ (b, c) = some m' → m ≠ m' ∧ m' ≠ m := fun m h m' h' => ⟨e01 m m' h h', (e01 m m' h h').symm⟩
  have d12 : ∀ m, μ (b, c) = some m → ∀ m', μ (c, a) = some m' → m ≠ m' ∧ m' ≠ m := fun m h m' h' => ⟨e12 m m' h h', (e12 m m' h h').symm⟩
  have d02 : ∀ m, μ (a, b) = some m → ∀ m', μ (c, a) = some m' → m ≠ m' ∧ m' ≠ m := fun m h m' h' => ⟨e02 m m' h h', (e02 m m' h h').symm⟩
  clear e01 e12 e02
  rcases h0 : μ (a, b) with _ | m0 <;> rcases h1 : μ (b, c) with _ | m1 <;> rcases h2 : μ (c, a) with _ | m2 <;>
    simp only [Tri.children, h0, h1, h2, List.mem_cons, List.not_mem_nil, or_false] at hd <;>
    simp only [h0, h1, h2, Option.some.injEq, reduceCtorEq, false_imp_iff, implies_true, forall_eq'] at f0 f1 f2 g0 g1 g2 d01 d12 d02 <;>
    simp only [atMid, h0, h1, h2, Option.elim, Option.isSome, SixPattern]
  all_goals
    obtain rfl | rfl | rfl | rfl := hd
  all_goals
    have := hw.off
    simp only [Tri.verts, List.mem_cons, List.not_mem_nil, or_false, not_or] at this
    simp [this, hab, hbc, hca, hab.symm, hbc.symm, hca.symm, f0, f1, f2, g0, g1, g2, d01, d12, d02]

/-- the new points of the edges of a triangle are their midpoints -/
def MidOf (K : Type) [Field K] {P : Type} [AddCommGroup P] [Module K P] (μ : Edge → Option PId) (g : PId → P) (t : Tri) : Prop :=
  ∀ e ∈ t.darts, ∀ m, μ e = some m → g m = (1 / 2 : K) • g e.1 + (1 / 2 : K) • g e.2

/-- a point of a child as a point of the parent -/
theorem child_blend (hl : Local μ a b c) (hd : d ∈ Tri.children μ (a, b, c)) (hw : Weights d w) {g : PId → P}
    (hg : MidOf K μ g (a, b, c)) : w d.1 • g d.1 + w d.2.1 • g d.2.1 + w d.2.2 • g d.2.2 =
      (w a + 1 / 2 * (atMid μ w (a, b) + atMid μ w (c, a))) • g a + (w b + 1 / 2 * (atMid μ w (a, b) + atMid μ w (b, c))) • g b +
        (w c + 1 / 2 * (atMid μ w (b, c) + atMid μ w (c, a))) • g c := by
  obtain ⟨hab, hbc, hca, f0, f1, f2, e01, e12, e02⟩ := hl
  have g0 : ∀ m, μ (a, b) = some m → a ≠ m ∧ b ≠ m ∧ c ≠ m := fun m h => ⟨(f0 m h).1.symm, (f0 m h).2.1.symm, (f0 m h).2.2.symm⟩
  have g1 : ∀ m, μ (b, c) = some m → a ≠ m ∧ b ≠ m ∧ c ≠ m := fun m h => ⟨(f1 m h).1.symm, (f1 m h).2.1.symm, (f1 m h).2.2.symm⟩
  have g2 : ∀ m, μ (c, a) = some m → a ≠ m ∧ b ≠ m ∧ c ≠ m := fun m h => ⟨(f2 m h).1.symm, (f2 m h).2.1.symm, (f2 m h).2.2.symm⟩
  have d01 : ∀ m, μ (a, b) = some m → ∀ m', μ (b, c) = some m' → m ≠ m' ∧ m' ≠ m := fun m h m' h' => ⟨e01 m m' h h', (e01 m m' h h').symm⟩
  have d12 : ∀ m, μ (b, c) = some m → ∀ m', μ (c, a) = some m' → m ≠ m' ∧ m' ≠ m := fun m h m' h' => ⟨e12 m m' h h', (e12 m m' h h').symm⟩
  have d02 : ∀ m, μ (a, b) = some m → ∀ m', μ (c, a) = some m' → m ≠ m' ∧ m' ≠ m := fun m h m' h' => ⟨e02 m m' h h', (e02 m m' h h').symm⟩
  clear e01 e12 e02
  have k0 := hg (a, b) (by simp [Tri.darts])
  have k1 := hg (b, c) (by simp [Tri.darts])
  have k2 := hg (c, a) (by simp [Tri.darts])
  clear hg
  rcases h0 : μ (a, b) with _ | m0 <;> rcases h1 : μ (b, c) with _ | m1 <;> rcases h2 : μ (c, a) with _ | m2 <;>
    simp only [Tri.children, h0, h1, h2, List.mem_cons, List.not_mem_nil, or_false] at hd <;>
    simp only [h0, h1, h2, Option.some.injEq, reduceCtorEq, false_imp_iff, implies_true, forall_eq'] at f0 f1 f2 g0 g1 g2 d01 d12 d02 k0 k1 k2 <;>
    simp only [atMid, h0, h1, h2, Option.elim]
  all_goals
    obtain rfl | rfl | rfl | rfl := hd
  all_goals
    have := hw.off
    simp only [Tri.verts, List.mem_cons, List.not_mem_nil, or_false, not_or] at this
    simp [this, hab, hbc, hca, hab.symm, hbc.symm, hca.symm, f0, f1, f2, g0, g1, g2, d01, d12, d02, k0, k1, k2]
    try module

theorem atMid_nonneg (h : ∀ v, 0 ≤ w v) (e : Edge) : 0 ≤ atMid μ w e := by
  unfold atMid
  cases μ e with
  | none => exact le_refl _
  | some m => exact h m

theorem parent_corners (hl : Local μ a b c) (w : PId → K) :
    parentWeights μ (a, b, c) w a = w a + 1 / 2 * (atMid μ w (a, b) + atMid μ w (c, a)) ∧
    parentWeights μ (a, b, c) w b = w b + 1 / 2 * (atMid μ w (a, b) + atMid μ w (b, c)) ∧
    parentWeights μ (a, b, c) w c = w c + 1 / 2 * (atMid μ w (b, c) + atMid μ w (c, a)) := by
  simp [parentWeights, hl.ab.symm, hl.bc.symm, hl.ca]

/-- a point of a child is the same point of the parent -/
theorem parent_weights (hl : Local μ a b c) (hd : d ∈ Tri.children μ (a, b, c)) (hw : Weights d w) :
    Weights (a, b, c) (parentWeights μ (a, b, c) w) := by
  obtain ⟨h1, h2, h3⟩ := parent_corners hl w
  have n := atMid_nonneg (μ := μ) hw.nonneg
  refine ⟨fun v => ?_, fun v hv => ?_, ?_⟩
  · have := hw.nonneg a; have := hw.nonneg b; have := hw.nonneg c
    have := n (a, b); have := n (b, c); have := n (c, a)
    unfold parentWeights
    split_ifs <;> positivity
  · simp only [Tri.verts, List.mem_cons, List.not_mem_nil, or_false, not_or] at hv
    simp [parentWeights, hv]
  · have := child_blend hl hd hw (P := K) (g := fun _ => 1) (by intro e _ m _; simp; norm_num)
    simp only [smul_eq_mul, mul_one] at this
    change parentWeights μ (a, b, c) w a + parentWeights μ (a, b, c) w b + parentWeights μ (a, b, c) w c = 1
    rw [h1, h2, h3, ← this, hw.sum]

theorem six_nonneg (hw : Weights d w) : 0 ≤ w a ∧ 0 ≤ w b ∧ 0 ≤ w c ∧ 0 ≤ atMid μ w (a, b) ∧ 0 ≤ atMid μ w (b, c) ∧
    0 ≤ atMid μ w (c, a) :=
  ⟨hw.nonneg _, hw.nonneg _, hw.nonneg _, atMid_nonneg hw.nonneg _, atMid_nonneg hw.nonneg _, atMid_nonneg hw.nonneg _⟩

theorem child_off (hd : d ∈ Tri.children μ (a, b, c)) (hw : Weights d w) {v : PId} (h : v ∉ Tri.verts (a, b, c))
    (h0 : μ (a, b) ≠ some v) (h1 : μ (b, c) ≠ some v) (h2 : μ (c, a) ≠ some v) : w v = 0 := by
  refine hw.off v fun hv => ?_
  rcases children_verts d hd v hv with h3 | ⟨e, he, h3⟩
  · exact h h3
  · simp only [Tri.darts, List.mem_cons, List.not_mem_nil, or_false] at he
    rcases he with rfl | rfl | rfl
    · exact h0 h3
    · exact h1 h3
    · exact h2 h3

theorem shares_ext (hd : d ∈ Tri.children μ (a, b, c)) (hw : Weights d w) {s : PId → K}
    (hs : ∀ v, v ∉ Tri.verts (a, b, c) → μ (a, b) ≠ some v → μ (b, c) ≠ some v → μ (c, a) ≠ some v → s v = 0)
    (ha : w a = s a) (hb : w b = s b) (hc : w c = s c) (h0 : ∀ m, μ (a, b) = some m → atMid μ w (a, b) = s m)
    (h1 : ∀ m, μ (b, c) = some m → atMid μ w (b, c) = s m) (h2 : ∀ m, μ (c, a) = some m → atMid μ w (c, a) = s m) : w = s := by
  have k : ∀ {e m}, μ e = some m → atMid μ w e = w m := fun h => by simp [atMid, h]
  funext v
  by_cases hv : v ∈ Tri.verts (a, b, c)
  · simp only [Tri.verts, List.mem_cons, List.not_mem_nil, or_false] at hv
    rcases hv with rfl | rfl | rfl
    · exact ha
    · exact hb
    · exact hc
  · by_cases g0 : μ (a, b) = some v
    · rw [← k g0, h0 v g0]
    by_cases g1 : μ (b, c) = some v
    · rw [← k g1, h1 v g1]
    by_cases g2 : μ (c, a) = some v
    · rw [← k g2, h2 v g2]
    rw [child_off hd hw hv g0 g1 g2, hs v hv g0 g1 g2]

/-- children of one triangle: the shares of the corners of the parent tell the shares of the corners of the child -/
theorem same_parent (hl : Local μ a b c) (hd : d ∈ Tri.children μ (a, b, c)) (hd' : d' ∈ Tri.children μ (a, b, c))
    (hw : Weights d w) (hw' : Weights d' w') (h : parentWeights μ (a, b, c) w = parentWeights μ (a, b, c) w') : w = w' := by
  obtain ⟨h1, h2, h3⟩ := parent_corners hl w
  obtain ⟨h1', h2', h3'⟩ := parent_corners hl w'
  obtain ⟨e1, e2, e3, e4, e5, e6⟩ := sixPattern_unique (child_six hl hd hw) (child_six hl hd' hw') (six_nonneg hw) (six_nonneg hw')
    (by rw [← h1, ← h1', h]) (by rw [← h2, ← h2', h]) (by rw [← h3, ← h3', h])
  have k : ∀ {e m}, μ e = some m → atMid μ w' e = w' m := fun h => by simp [atMid, h]
  exact shares_ext hd hw (fun v => child_off hd' hw') e1 e2 e3 (fun m hm => e4.trans (k hm)) (fun m hm => e5.trans (k hm))
    (fun m hm => e6.trans (k hm))

/-- the shares of the ends and the midpoint of the edge `a b`, from the shares `x`, `y` of the ends -/
def edgeShares (μ : Edge → Option PId) (a b : PId) (x y : K) (v : PId) : K :=
  match μ (a, b) with
  | none => if v = a then x else if v = b then y else 0
  | some m => if v = a then x - min x y else if v = b then y - min x y else if v = m then 2 * min x y else 0

/-- the shares `u` of the corners of parents lie on one edge, and `w` are the shares that they tell -/
structure OnEdge (μ : Edge → Option PId) (u w : PId → K) (a b : PId) : Prop where
  ne : a ≠ b
  mid : ∀ m, μ (a, b) = some m → m ≠ a ∧ m ≠ b
  nonneg : 0 ≤ u a ∧ 0 ≤ u b
  sum : u a + u b = 1
  off : ∀ v, v ≠ a → v ≠ b → u v = 0
  shares : w = edgeShares μ a b (u a) (u b)

theorem edgeShares_off {x y : K} {v : PId} (ha : v ≠ a) (hb : v ≠ b) (hm : μ (a, b) ≠ some v) : edgeShares μ a b x y v = 0 := by
  unfold edgeShares
  rcases h : μ (a, b) with _ | m
  · simp [ha, hb]
  · have : v ≠ m := fun hv => hm (by rw [h, hv])
    simp [ha, hb, this]

theorem edgeShares_values (hab : a ≠ b) (hf : ∀ m, μ (a, b) = some m → m ≠ a ∧ m ≠ b) {x y u v : K} {e : K} (hx : 0 ≤ x) (hy : 0 ≤ y)
    (h0 : (μ (a, b)).isSome = false → e = 0) (h1 : (μ (a, b)).isSome = true → x = 0 ∨ y = 0)
    (hu : u = x + 1 / 2 * e) (hv : v = y + 1 / 2 * e) :
    x = edgeShares μ a b u v a ∧ y = edgeShares μ a b u v b ∧ ∀ m, μ (a, b) = some m → e = edgeShares μ a b u v m := by
  unfold edgeShares
  rcases h : μ (a, b) with _ | m
  · have := h0 (by rw [h]; rfl)
    subst this
    simp [hab.symm, hu, hv]
  · obtain ⟨k1, k2⟩ := hf m h
    have key : min u v = 1 / 2 * e := by
      rcases h1 (by rw [h]; rfl) with rfl | rfl
      · rw [hu, hv, min_eq_left (by linarith)]; ring
      · rw [hu, hv, min_eq_right (by linarith)]; ring
    simp only [if_true, hab.symm, if_false, Option.some.injEq, forall_eq', k1, k2, key]
    exact ⟨by rw [hu]; ring, by rw [hv]; ring, by ring⟩

theorem onEdge_ab (hl : Local μ a b c) (hd : d ∈ Tri.children μ (a, b, c)) (hw : Weights d w)
    (hz : parentWeights μ (a, b, c) w c = 0) : OnEdge μ (parentWeights μ (a, b, c) w) w a b := by
  obtain ⟨h1, h2, h3⟩ := parent_corners hl w
  obtain ⟨n1, n2, n3, n4, n5, n6⟩ := six_nonneg (μ := μ) (a := a) (b := b) (c := c) hw
  have W := parent_weights hl hd hw
  have hsum : parentWeights μ (a, b, c) w a + parentWeights μ (a, b, c) w b + parentWeights μ (a, b, c) w c = 1 := W.sum
  have E := (child_six hl hd hw).edges
  have hz' := hz
  rw [h3] at hz'
  have z1 : w c = 0 := by linarith
  have z2 : atMid μ w (b, c) = 0 := by linarith
  have z3 : atMid μ w (c, a) = 0 := by linarith
  have f : ∀ m, μ (a, b) = some m → m ≠ a ∧ m ≠ b ∧ m ≠ c := hl.f0
  have fyz : ∀ m, μ (b, c) = some m → m ≠ a ∧ m ≠ b ∧ m ≠ c := hl.f1
  have fzx : ∀ m, μ (c, a) = some m → m ≠ a ∧ m ≠ b ∧ m ≠ c := hl.f2
  obtain ⟨k1, k2, k3⟩ := edgeShares_values (μ := μ) hl.ab (fun m hm => ⟨(f m hm).1, (f m hm).2.1⟩) (hw.nonneg a) (hw.nonneg b)
    E.1.1 E.1.2 (u := parentWeights μ (a, b, c) w a) (v := parentWeights μ (a, b, c) w b) (by rw [h1]; linarith)
    (by rw [h2]; linarith)
  have kz : w c = edgeShares μ a b (parentWeights μ (a, b, c) w a) (parentWeights μ (a, b, c) w b) c := by
    rw [z1, edgeShares_off hl.ca hl.bc.symm fun hm => (f _ hm).2.2 rfl]
  have kyz : ∀ m, μ (b, c) = some m → atMid μ w (b, c) =
      edgeShares μ a b (parentWeights μ (a, b, c) w a) (parentWeights μ (a, b, c) w b) m :=
    fun m hm => by rw [z2, edgeShares_off (fyz m hm).1 (fyz m hm).2.1 fun hm' => hl.d01 _ _ hm' hm rfl]
  have kzx : ∀ m, μ (c, a) = some m → atMid μ w (c, a) =
      edgeShares μ a b (parentWeights μ (a, b, c) w a) (parentWeights μ (a, b, c) w b) m :=
    fun m hm => by rw [z3, edgeShares_off (fzx m hm).1 (fzx m hm).2.1 fun hm' => hl.d02 _ _ hm' hm rfl]
  refine ⟨hl.ab, fun m hm => ⟨(f m hm).1, (f m hm).2.1⟩, ⟨W.nonneg _, W.nonneg _⟩, by linarith, fun v hx hy => ?_,
    shares_ext hd hw (fun v hv g0 g1 g2 => ?_) k1 k2 kz k3 kyz kzx⟩
  · by_cases hv : v = c
    · rw [hv]; exact hz
    · exact W.off v (by simp only [Tri.verts, List.mem_cons, List.not_mem_nil, or_false]; tauto)
  · simp only [Tri.verts, List.mem_cons, List.not_mem_nil, or_false, not_or] at hv
    exact edgeShares_off hv.1 hv.2.1 g0

theorem onEdge_bc (hl : Local μ a b c) (hd : d ∈ Tri.children μ (a, b, c)) (hw : Weights d w)
    (hz : parentWeights μ (a, b, c) w a = 0) : OnEdge μ (parentWeights μ (a, b, c) w) w b c := by
  obtain ⟨h1, h2, h3⟩ := parent_corners hl w
  obtain ⟨n1, n2, n3, n4, n5, n6⟩ := six_nonneg (μ := μ) (a := a) (b := b) (c := c) hw
  have W := parent_weights hl hd hw
  have hsum : parentWeights μ (a, b, c) w a + parentWeights μ (a, b, c) w b + parentWeights μ (a, b, c) w c = 1 := W.sum
  have E := (child_six hl hd hw).edges
  have hz' := hz
  rw [h1] at hz'
  have z1 : w a = 0 := by linarith
  have z2 : atMid μ w (c, a) = 0 := by linarith
  have z3 : atMid μ w (a, b) = 0 := by linarith
  have f : ∀ m, μ (b, c) = some m → m ≠ a ∧ m ≠ b ∧ m ≠ c := hl.f1
  have fyz : ∀ m, μ (c, a) = some m → m ≠ a ∧ m ≠ b ∧ m ≠ c := hl.f2
  have fzx : ∀ m, μ (a, b) = some m → m ≠ a ∧ m ≠ b ∧ m ≠ c := hl.f0
  obtain ⟨k1, k2, k3⟩ := edgeShares_values (μ := μ) hl.bc (fun m hm => ⟨(f m hm).2.1, (f m hm).2.2⟩) (hw.nonneg b) (hw.nonneg c)
    E.2.1.1 E.2.1.2 (u := parentWeights μ (a, b, c) w b) (v := parentWeights μ (a, b, c) w c) (by rw [h2]; linarith)
    (by rw [h3]; linarith)
  have kz : w a = edgeShares μ b c (parentWeights μ (a, b, c) w b) (parentWeights μ (a, b, c) w c) a := by
    rw [z1, edgeShares_off hl.ab hl.ca.symm fun hm => (f _ hm).1 rfl]
  have kyz : ∀ m, μ (c, a) = some m → atMid μ w (c, a) =
      edgeShares μ b c (parentWeights μ (a, b, c) w b) (parentWeights μ (a, b, c) w c) m :=
    fun m hm => by rw [z2, edgeShares_off (fyz m hm).2.1 (fyz m hm).2.2 fun hm' => hl.d12 _ _ hm' hm rfl]
  have kzx : ∀ m, μ (a, b) = some m → atMid μ w (a, b) =
      edgeShares μ b c (parentWeights μ (a, b, c) w b) (parentWeights μ (a, b, c) w c) m :=
    fun m hm => by rw [z3, edgeShares_off (fzx m hm).2.1 (fzx m hm).2.2 fun hm' => hl.d01 _ _ hm hm' rfl]
  refine ⟨hl.bc, fun m hm => ⟨(f m hm).2.1, (f m hm).2.2⟩, ⟨W.nonneg _, W.nonneg _⟩, by linarith, fun v hx hy => ?_,
    shares_ext hd hw (fun v hv g0 g1 g2 => ?_) kz k1 k2 kzx k3 kyz⟩
  · by_cases hv : v = a
    · rw [hv]; exact hz
    · exact W.off v (by simp only [Tri.verts, List.mem_cons, List.not_mem_nil, or_false]; tauto)
  · simp only [Tri.verts, List.mem_cons, List.not_mem_nil, or_false, not_or] at hv
    exact edgeShares_off hv.2.1 hv.2.2 g1

theorem onEdge_ca (hl : Local μ a b c) (hd : d ∈ Tri.children μ (a, b, c)) (hw : Weights d w)
    (hz : parentWeights μ (a, b, c) w b = 0) : OnEdge μ (parentWeights μ (a, b, c) w) w c a := by
  obtain ⟨h1, h2, h3⟩ := parent_corners hl w
  obtain ⟨n1, n2, n3, n4, n5, n6⟩ := six_nonneg (μ := μ) (a := a) (b := b) (c := c) hw
  have W := parent_weights hl hd hw
  have hsum : parentWeights μ (a, b, c) w a + parentWeights μ (a, b, c) w b + parentWeights μ (a, b, c) w c = 1 := W.sum
  have E := (child_six hl hd hw).edges
  have hz' := hz
  rw [h2] at hz'
  have z1 : w b = 0 := by linarith
  have z2 : atMid μ w (a, b) = 0 := by linarith
  have z3 : atMid μ w (b, c) = 0 := by linarith
  have f : ∀ m, μ (c, a) = some m → m ≠ a ∧ m ≠ b ∧ m ≠ c := hl.f2
  have fyz : ∀ m, μ (a, b) = some m → m ≠ a ∧ m ≠ b ∧ m ≠ c := hl.f0
  have fzx : ∀ m, μ (b, c) = some m → m ≠ a ∧ m ≠ b ∧ m ≠ c := hl.f1
  obtain ⟨k1, k2, k3⟩ := edgeShares_values (μ := μ) hl.ca (fun m hm => ⟨(f m hm).2.2, (f m hm).1⟩) (hw.nonneg c) (hw.nonneg a)
    E.2.2.1 E.2.2.2 (u := parentWeights μ (a, b, c) w c) (v := parentWeights μ (a, b, c) w a) (by rw [h3]; linarith)
    (by rw [h1]; linarith)
  have kz : w b = edgeShares μ c a (parentWeights μ (a, b, c) w c) (parentWeights μ (a, b, c) w a) b := by
    rw [z1, edgeShares_off hl.bc hl.ab.symm fun hm => (f _ hm).2.1 rfl]
  have kyz : ∀ m, μ (a, b) = some m → atMid μ w (a, b) =
      edgeShares μ c a (parentWeights μ (a, b, c) w c) (parentWeights μ (a, b, c) w a) m :=
    fun m hm => by rw [z2, edgeShares_off (fyz m hm).2.2 (fyz m hm).1 fun hm' => hl.d02 _ _ hm hm' rfl]
  have kzx : ∀ m, μ (b, c) = some m → atMid μ w (b, c) =
      edgeShares μ c a (parentWeights μ (a, b, c) w c) (parentWeights μ (a, b, c) w a) m :=
    fun m hm => by rw [z3, edgeShares_off (fzx m hm).2.2 (fzx m hm).1 fun hm' => hl.d12 _ _ hm hm' rfl]
  refine ⟨hl.ca, fun m hm => ⟨(f m hm).2.2, (f m hm).1⟩, ⟨W.nonneg _, W.nonneg _⟩, by linarith, fun v hx hy => ?_,
    shares_ext hd hw (fun v hv g0 g1 g2 => ?_) k2 kz k1 kyz kzx k3⟩
  · by_cases hv : v = b
    · rw [hv]; exact hz
    · exact W.off v (by simp only [Tri.verts, List.mem_cons, List.not_mem_nil, or_false]; tauto)
  · simp only [Tri.verts, List.mem_cons, List.not_mem_nil, or_false, not_or] at hv
    exact edgeShares_off hv.2.2 hv.1 g2

theorem edgeShares_swap (hμ : ∀ e : Edge, μ e.sym = μ e) (hab : a ≠ b) (x y : K) : edgeShares μ a b x y = edgeShares μ b a y x := by
  funext v
  unfold edgeShares
  rw [show μ (b, a) = μ (a, b) from hμ (a, b)]
  cases μ (a, b) with
  | none =>
    by_cases h1 : v = a
    · subst h1; simp [hab]
    · simp [h1]
  | some m =>
    by_cases h1 : v = a
    · subst h1; simp [hab, min_comm]
    · simp [h1, min_comm]

theorem edgeShares_end : edgeShares μ a b (1 : K) 0 = fun v => if v = a then 1 else 0 := by
  funext v
  unfold edgeShares
  cases h : μ (a, b) <;> simp

theorem OnEdge.swap {u : PId → K} (hμ : ∀ e : Edge, μ e.sym = μ e) (h : OnEdge μ u w a b) : OnEdge μ u w b a :=
  ⟨h.ne.symm, fun m hm => (h.mid m (by rw [← hμ]; exact hm)).symm, h.nonneg.symm, by rw [add_comm]; exact h.sum,
    fun v h1 h2 => h.off v h2 h1, by rw [h.shares]; exact edgeShares_swap hμ h.ne _ _⟩

theorem OnEdge.unique {u : PId → K} (hμ : ∀ e : Edge, μ e.sym = μ e) {x y : PId} (h : OnEdge μ u w a b) (h' : OnEdge μ u w' x y) :
    w = w' := by
  have one : ∀ {w : PId → K} {a b : PId}, OnEdge μ u w a b → u a = 1 → w = fun v => if v = a then 1 else 0 := by
    intro w a b h ha
    have hb : u b = 0 := by linarith [h.sum]
    rw [h.shares, ha, hb, edgeShares_end]
  have key : ∀ {w w' : PId → K} {a b x y : PId}, OnEdge μ u w a b → OnEdge μ u w' x y → u a = 1 → w = w' := by
    intro w w' a b x y h h' ha
    by_cases h1 : a = x
    · subst h1; rw [one h ha, one h' ha]
    · by_cases h2 : a = y
      · subst h2; rw [one h ha, one (h'.swap hμ) ha]
      · have := h'.off a h1 h2
        rw [ha] at this
        exact absurd this one_ne_zero
  by_cases ha : u a = 0
  · exact key (h.swap hμ) h' (by linarith [h.sum])
  by_cases hb : u b = 0
  · exact key h h' (by linarith [h.sum])
  have h1 : a = x ∨ a = y := by
    by_contra hc
    rw [not_or] at hc
    exact ha (h'.off a hc.1 hc.2)
  have h2 : b = x ∨ b = y := by
    by_contra hc
    rw [not_or] at hc
    exact hb (h'.off b hc.1 hc.2)
  have hn := h.ne
  rcases h1 with rfl | rfl
  · rcases h2 with rfl | rfl
    · exact absurd rfl hn
    · rw [h.shares, h'.shares]
  · rcases h2 with rfl | rfl
    · rw [h.shares, (h'.swap hμ).shares]
    · exact absurd rfl hn

/-- a point on the rim of the parent -/
theorem exists_onEdge (hl : Local μ a b c) (hd : d ∈ Tri.children μ (a, b, c)) (hw : Weights d w) {x : PId}
    (hx : x ∈ Tri.verts (a, b, c)) (hz : parentWeights μ (a, b, c) w x = 0) :
    ∃ p q, OnEdge μ (parentWeights μ (a, b, c) w) w p q := by
  simp only [Tri.verts, List.mem_cons, List.not_mem_nil, or_false] at hx
  rcases hx with rfl | rfl | rfl
  · exact ⟨_, _, onEdge_bc hl hd hw hz⟩
  · exact ⟨_, _, onEdge_ca hl hd hw hz⟩
  · exact ⟨_, _, onEdge_ab hl hd hw hz⟩

/-- a child has a corner at or beside each corner of the parent -/
theorem child_covers (hd : d ∈ Tri.children μ (a, b, c)) {v : PId} (hv : v ∈ Tri.verts (a, b, c)) :
    v ∈ Tri.verts d ∨ ∃ e ∈ Tri.darts (a, b, c), ∃ m, μ e = some m ∧ m ∈ Tri.verts d ∧ (v = e.1 ∨ v = e.2) := by
  simp only [Tri.verts, List.mem_cons, List.not_mem_nil, or_false] at hv
  rcases h0 : μ (a, b) with _ | m0 <;> rcases h1 : μ (b, c) with _ | m1 <;> rcases h2 : μ (c, a) with _ | m2 <;>
    simp only [Tri.children, h0, h1, h2, List.mem_cons, List.not_mem_nil, or_false] at hd
  all_goals
    obtain rfl | rfl | rfl | rfl := hd
  all_goals
    rcases hv with rfl | rfl | rfl <;> simp [Tri.verts, Tri.darts, h0, h1, h2]

/-- different children of one triangle have different corners -/
theorem children_apart (hl : Local μ a b c) (hd : d ∈ Tri.children μ (a, b, c)) (hd' : d' ∈ Tri.children μ (a, b, c))
    (h : ∀ v ∈ Tri.verts d, v ∈ Tri.verts d') : d = d' := by
  obtain ⟨hab, hbc, hca, f0, f1, f2, e01, e12, e02⟩ := hl
  have g0 : ∀ m, μ (a, b) = some m → a ≠ m ∧ b ≠ m ∧ c ≠ m := fun m h => ⟨(f0 m h).1.symm, (f0 m h).2.1.symm, (f0 m h).2.2.symm⟩
  have g1 : ∀ m, μ (b, c) = some m → a ≠ m ∧ b ≠ m ∧ c ≠ m := fun m h => ⟨(f1 m h).1.symm, (f1 m h).2.1.symm, (f1 m h).2.2.symm⟩
  have g2 : ∀ m, μ (c, a) = some m → a ≠ m ∧ b ≠ m ∧ c ≠ m := fun m h => ⟨(f2 m h).1.symm, (f2 m h).2.1.symm, (f2 m h).2.2.symm⟩
  have d01 : ∀ m, μ (a, b) = some m → ∀ m', μ (b, c) = some m' → m ≠ m' ∧ m' ≠ m := fun m h m' h' => ⟨e01 m m' h h', (e01 m m' h h').symm⟩
  have d12 : ∀ m, μ (b, c) = some m → ∀ m', μ (c, a) = some m' → m ≠ m' ∧ m' ≠ m := fun m h m' h' => ⟨e12 m m' h h', (e12 m m' h h').symm⟩
  have d02 : ∀ m, μ (a, b) = some m → ∀ m', μ (c, a) = some m' → m ≠ m' ∧ m' ≠ m := fun m h m' h' => ⟨e02 m m' h h', (e02 m m' h h').symm⟩
  clear e01 e12 e02
  rcases h0 : μ (a, b) with _ | m0 <;> rcases h1 : μ (b, c) with _ | m1 <;> rcases h2 : μ (c, a) with _ | m2 <;>
    simp only [Tri.children, h0, h1, h2, List.mem_cons, List.not_mem_nil, or_false] at hd hd' <;>
    simp only [h0, h1, h2, Option.some.injEq, reduceCtorEq, false_imp_iff, implies_true, forall_eq'] at f0 f1 f2 g0 g1 g2 d01 d12 d02
  all_goals
    obtain rfl | rfl | rfl | rfl := hd <;> obtain rfl | rfl | rfl | rfl := hd'
  all_goals first | rfl | exfalso
  all_goals
    simp [Tri.verts, hab, hbc, hca, hab.symm, hbc.symm, hca.symm, f0, f1, f2, g0, g1, g2, d01, d12, d02] at h

end Verif
