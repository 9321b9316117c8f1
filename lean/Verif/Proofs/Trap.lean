import Verif.Spec.Trap
import Verif.Proofs.CondInduct
import Verif.Properties.CondExact
import Verif.Properties.Rounding
import Verif.Proofs.ShrinkLevels
/-
C78: one round of the conditional filter with ModifiedButterfly on a mesh with a trap.
-/
namespace Verif
set_option linter.unusedSectionVars false

section children
variable {μ : Edge → Option PId} {t : Tri} {a b c m m0 m1 m2 : PId}

theorem children_three (hi : t.Is a b c) (h0 : μ (a, b) = some m0) (h1 : μ (b, c) = some m1) (h2 : μ (c, a) = some m2) :
    (∀ d ∈ t.children μ, d.Is a m0 m2 ∨ d.Is m0 b m1 ∨ d.Is m1 c m2 ∨ d.Is m0 m1 m2) ∧
    HasTri (t.children μ) a m0 m2 ∧ HasTri (t.children μ) m0 b m1 ∧ HasTri (t.children μ) m1 c m2 ∧
    HasTri (t.children μ) m0 m1 m2 := by
  rcases hi with rfl | rfl | rfl <;>
    simp [Tri.children, h0, h1, h2, Tri.Is, HasTri]

theorem children_single (hi : t.Is a b c) (h0 : μ (a, b) = some m) (h1 : μ (b, c) = none) (h2 : μ (c, a) = none) :
    (∀ d ∈ t.children μ, d.Is m b c ∨ d.Is m c a) ∧ HasTri (t.children μ) m b c ∧ HasTri (t.children μ) m c a := by
  rcases hi with rfl | rfl | rfl <;>
    simp [Tri.children, h0, h1, h2, Tri.Is, HasTri]

theorem children_whole (h : ∀ e ∈ t.darts, μ e = none) : t.children μ = [t] := by
  obtain ⟨a, b, c⟩ := t
  simp only [Tri.darts, List.mem_cons, List.not_mem_nil, or_false, forall_eq_or_imp, forall_eq] at h
  simp [Tri.children, h.1, h.2.1, h.2.2]

end children

section plane
variable {X Y : PId → ℝ}

theorem planeArea_turn (x y x' y' x'' y'' : ℝ) : planeArea x' y' x'' y'' x y = planeArea x y x' y' x'' y'' := by
  unfold planeArea
  congr 2
  ring

/-- the area of a triangle of a mesh -/
noncomputable def areaAt (X Y : PId → ℝ) (i j k : PId) : ℝ := planeArea (X i) (Y i) (X j) (Y j) (X k) (Y k)

theorem areaAt_is {t : Tri} {i j k : PId} (h : t.Is i j k) :
    planeArea (X t.1) (Y t.1) (X t.2.1) (Y t.2.1) (X t.2.2) (Y t.2.2) = areaAt X Y i j k := by
  unfold areaAt
  rcases h with rfl | rfl | rfl
  · rfl
  · exact planeArea_turn _ _ _ _ _ _
  · rw [planeArea_turn]; exact planeArea_turn _ _ _ _ _ _

theorem Near.bounds {x y s t r : ℝ} (h : Near x y s t r) : s - r ≤ x ∧ x ≤ s + r ∧ t - r ≤ y ∧ y ≤ t + r := by
  obtain ⟨h1, h2⟩ := h
  obtain ⟨h1, h1'⟩ := abs_le.1 h1
  obtain ⟨h2, h2'⟩ := abs_le.1 h2
  exact ⟨by linarith, by linarith, by linarith, by linarith⟩

theorem near_of {x y s t r : ℝ} (h1 : s - r ≤ x) (h2 : x ≤ s + r) (h3 : t - r ≤ y) (h4 : y ≤ t + r) :
    Near x y s t r := ⟨abs_le.2 ⟨by linarith, by linarith⟩, abs_le.2 ⟨by linarith, by linarith⟩⟩

theorem mul_near {x y s t r r' : ℝ} (hx : |x - s| ≤ r) (hy : |y - t| ≤ r') :
    |x * y - s * t| ≤ |s| * r' + |t| * r + r * r' := by
  have h : x * y - s * t = s * (y - t) + t * (x - s) + (x - s) * (y - t) := by ring
  rw [h]
  refine (abs_add_le _ _).trans (add_le_add ((abs_add_le _ _).trans ?_) ?_)
  · rw [abs_mul, abs_mul]
    exact add_le_add (mul_le_mul_of_nonneg_left hy (abs_nonneg _)) (mul_le_mul_of_nonneg_left hx (abs_nonneg _))
  · rw [abs_mul]
    exact mul_le_mul hx hy (abs_nonneg _) ((abs_nonneg _).trans hx)

/-- a bound for the area of a triangle with corners near to given places -/
theorem area_near {i j k : PId} {s t d s1 t1 d1 s2 t2 d2 : ℝ} (hp : Near (X i) (Y i) s t d) (hq : Near (X j) (Y j) s1 t1 d1)
    (hr : Near (X k) (Y k) s2 t2 d2)
    (hb : |(s1 - s) * (t2 - t) - (t1 - t) * (s2 - s)| + (|s1 - s| + |t1 - t|) * (d2 + d) + (|s2 - s| + |t2 - t|) * (d1 + d) +
      2 * ((d1 + d) * (d2 + d)) ≤ 132) : areaAt X Y i j k ≤ 66 := by
  have near : ∀ {x y s t r r' : ℝ}, |x - s| ≤ r → |y - t| ≤ r' → |x - y - (s - t)| ≤ r + r' := by
    intro x y s t r r' h h'
    rw [abs_le] at *
    constructor <;> linarith
  have h1 := mul_near (near hq.1 hp.1) (near hr.2 hp.2)
  have h2 := mul_near (near hq.2 hp.2) (near hr.1 hp.1)
  rw [abs_le] at h1 h2
  have h3 := neg_abs_le ((s1 - s) * (t2 - t) - (t1 - t) * (s2 - s))
  have h4 := le_abs_self ((s1 - s) * (t2 - t) - (t1 - t) * (s2 - s))
  unfold areaAt planeArea
  rw [div_le_iff₀ (by norm_num), abs_le]
  constructor <;> linarith

variable {T : List Tri} {a b c x y p q u v e : PId}

theorem Trap.big (H : Trap T X Y a b c x y p q u v e) : 68 < areaAt X Y a b c := by
  obtain ⟨a1, a2, a3, a4⟩ := H.pa.bounds
  obtain ⟨b1, b2, b3, b4⟩ := H.pb.bounds
  obtain ⟨c1, c2, c3, c4⟩ := H.pc.bounds
  have h1 := mul_le_mul (a := (47 / 4 : ℝ)) (b := X b - X a) (c := 47 / 4) (d := Y c - Y a)
    (by linarith) (by linarith) (by norm_num) (by linarith)
  have h2 := mul_near (x := Y b - Y a) (y := X c - X a) (s := 0) (t := 0) (r := 5 / 4) (r' := 5 / 4)
    (abs_le.2 ⟨by linarith, by linarith⟩) (abs_le.2 ⟨by linarith, by linarith⟩)
  rw [abs_le] at h2
  norm_num at h2
  have h3 := le_abs_self ((X b - X a) * (Y c - Y a) - (Y b - Y a) * (X c - X a))
  unfold areaAt planeArea
  linarith [h2.2]

theorem Near.ne {i j : PId} {s t r s' t' r' : ℝ} (h : Near (X i) (Y i) s t r) (h' : Near (X j) (Y j) s' t' r')
    (hd : r + r' < |s - s'| ∨ r + r' < |t - t'|) : i ≠ j := by
  rintro rfl
  obtain ⟨h1, h2⟩ := h
  obtain ⟨h3, h4⟩ := h'
  rw [abs_le] at h1 h2 h3 h4
  rcases hd with hd | hd <;> rw [lt_abs] at hd <;> rcases hd with hd | hd <;> linarith

end plane

section
variable {P D : Type} [Zero P] [Add P] [SMul ℝ P] {ε η B M : ℝ} {val : P → Fin 2 → ℝ}
variable {lib : QELib} {cosn : Nat → ℝ} {m out : Mesh P D} {X Y X' Y' : PId → ℝ}
variable {a b c x y p q u v e : PId} {A : ℝ} {area : P → P → P → ℝ} {n : Nat} {sel : List CId} {s s' : Filt}

/-- `X`, `Y` are the coordinates of the mesh, which are at most `M` -/
def CoordsOf (m : Mesh P D) (val : P → Fin 2 → ℝ) (X Y : PId → ℝ) (M : ℝ) : Prop :=
  ∀ v p, m.pos v = some p → X v = val p 0 ∧ Y v = val p 1 ∧ ‖val p‖ ≤ M

/-- the area that the criterion computes -/
def AreaNear (area : P → P → P → ℝ) (val : P → Fin 2 → ℝ) (M : ℝ) : Prop := ∀ p q r, ‖val p‖ ≤ M → ‖val q‖ ≤ M → ‖val r‖ ≤ M →
  |area p q r - planeArea (val p 0) (val p 1) (val q 0) (val q 1) (val r 0) (val r 1)| ≤ 1 / 2

theorem Trap.chosen (T : Trap m.tris X Y a b c x y p q u v e) (hv : m.Valid) (hC : CoordsOf m val X Y M)
    (hA : AreaNear area val M) (h66 : 133 / 2 ≤ A) (h68 : A ≤ 135 / 2) (hex : ∀ k, k ∈ sel ↔ m.TooLarge area A k) :
    sel ≠ [] ∧ ∀ t, t ∈ m.selected sel ↔ t ∈ m.tris ∧ t.Is a b c := by
  obtain ⟨t, ht, hi⟩ := hasTri_iff.1 T.abc
  have hbig : ∀ t ∈ m.tris, m.BigTri area A t ↔ t.Is a b c := by
    intro t ht
    have e1 := hv.pos_eq (hv.verts_lt ht (v := t.1) (by simp [Tri.verts]))
    have e2 := hv.pos_eq (hv.verts_lt ht (v := t.2.1) (by simp [Tri.verts]))
    have e3 := hv.pos_eq (hv.verts_lt ht (v := t.2.2) (by simp [Tri.verts]))
    obtain ⟨k1, k2, k3⟩ := hC _ _ e1
    obtain ⟨k4, k5, k6⟩ := hC _ _ e2
    obtain ⟨k7, k8, k9⟩ := hC _ _ e3
    have hn := abs_le.1 (hA _ _ _ k3 k6 k9)
    rw [← k1, ← k2, ← k4, ← k5, ← k7, ← k8] at hn
    constructor
    · rintro ⟨pa, pb, pc, g1, g2, g3, g4⟩
      by_contra hi
      have := T.small t ht (by simpa [Tri.Is] using hi)
      rw [e1] at g1; rw [e2] at g2; rw [e3] at g3
      cases g1; cases g2; cases g3
      linarith [hn.2]
    · intro h
      refine ⟨_, _, _, e1, e2, e3, ?_⟩
      rw [areaAt_is h] at hn
      have := T.big
      linarith [hn.1]
  have hne : sel ≠ [] := by
    rintro rfl
    obtain ⟨k, hk⟩ := hv.mem_tris.1 ht
    have := (hex k).2 ((tooLarge_tri hv hk).2 ((hbig t ht).2 hi))
    cases this
  refine ⟨hne, fun t => ?_⟩
  rw [selected_big hv hne hex]
  exact ⟨fun h => ⟨h.1, (hbig t h.1).1 h.2⟩, fun h => ⟨h.1, (hbig t h.1).2 h.2⟩⟩

/-- one round: the trap is there again, with other points -/
theorem Trap.step (T : Trap m.tris X Y a b c x y p q u v e) (hn : Scheme.butterfly.Needs m) (hsel : m.SelOK sel)
    (hC : CoordsOf m val X Y M) (hR : Rounded ε η B val) (hM : 20 ≤ M) (hB : Scheme.butterfly.InRange 0 ε η B M 1)
    (hE : Scheme.butterfly.errorBound 0 ε η M 1 ≤ 1 / 32)
    (hS : ∀ t, t ∈ m.selected sel ↔ t ∈ m.tris ∧ t.Is a b c)
    (h : cellUpdate .butterfly lib cosn (s.setCells sel) m = (.ok out, s')) :
    ∃ X' Y' b' c' e', Trap out.tris X' Y' a b' c' x y p q b c e' ∧ CoordsOf out val X' Y' M := by
  have hv := hn.valid
  obtain ⟨R, Rnew⟩ := cellUpdate_result (by decide) hn (f := s.setCells sel) hsel h
  have htris : out.tris = m.tris.flatMap (Tri.children (m.edgePoint sel)) := R.tris
  have hsym : ∀ i j, m.edgePoint sel (i, j) = m.edgePoint sel (j, i) := fun i j => R.label.sym (j, i)
  have hdart : ∀ e, e ∈ dartsOf (m.selected sel) ↔ e = (a, b) ∨ e = (b, c) ∨ e = (c, a) := by
    intro e
    rw [mem_dartsOf]
    constructor
    · rintro ⟨t, ht, he⟩
      rcases ((hS t).1 ht).2 with rfl | rfl | rfl <;> simp [Tri.darts] at he <;> tauto
    · obtain ⟨t, ht, hi⟩ := hasTri_iff.1 T.abc
      intro he
      refine ⟨t, (hS t).2 ⟨ht, hi⟩, ?_⟩
      rcases he with rfl | rfl | rfl
      exacts [hi.dart, hi.rot.dart, hi.rot.rot.dart]
  have hμ : ∀ {i j}, m.edgePoint sel (i, j) ≠ none →
      ((i, j) = (a, b) ∨ (i, j) = (b, c) ∨ (i, j) = (c, a)) ∨ ((j, i) = (a, b) ∨ (j, i) = (b, c) ∨ (j, i) = (c, a)) := by
    intro i j hne
    have := (edgePoint_isSome m sel (i, j)).1 (Option.isSome_iff_ne_none.2 hne)
    rwa [hdart, hdart] at this
  have hout : ∀ {i j}, ¬ (i = a ∨ i = b ∨ i = c) → m.edgePoint sel (i, j) = none ∧ m.edgePoint sel (j, i) = none := by
    intro i j hi
    have : m.edgePoint sel (i, j) = none := by
      by_contra hc
      rcases hμ hc with (h | h | h) | (h | h | h) <;> simp at h <;> tauto
    exact ⟨this, (hsym j i).trans this⟩
  have hsome : ∀ {i j}, (i, j) = (a, b) ∨ (i, j) = (b, c) ∨ (i, j) = (c, a) → ∃ k, m.edgePoint sel (i, j) = some k := by
    intro i j hi
    exact Option.isSome_iff_exists.1 ((edgePoint_isSome m sel (i, j)).2 (.inl ((hdart _).2 hi)))
  obtain ⟨b', hb'⟩ := hsome (i := a) (j := b) (.inl rfl)
  obtain ⟨e', he'⟩ := hsome (i := b) (j := c) (.inr (.inl rfl))
  obtain ⟨c', hc'⟩ := hsome (i := c) (j := a) (.inr (.inr rfl))
  have nx : ¬ (x = a ∨ x = b ∨ x = c) := by
    rintro (h | h | h)
    exacts [(T.px.ne T.pa (.inl (by norm_num))) h, (T.px.ne T.pb (.inl (by norm_num))) h,
      (T.px.ne T.pc (.inl (by norm_num))) h]
  have ny : ¬ (y = a ∨ y = b ∨ y = c) := by
    rintro (h | h | h)
    exacts [(T.py.ne T.pa (.inr (by norm_num))) h, (T.py.ne T.pb (.inr (by norm_num))) h,
      (T.py.ne T.pc (.inr (by norm_num))) h]
  have ne : ¬ (e = a ∨ e = b ∨ e = c) := by
    rintro (h | h | h)
    exacts [(T.pe.ne T.pa (.inr (by norm_num))) h, (T.pe.ne T.pb (.inr (by norm_num))) h,
      (T.pe.ne T.pc (.inr (by norm_num))) h]
  have np : ¬ (p = a ∨ p = b ∨ p = c) := by
    rintro (h | h | h)
    exacts [(T.pp.ne T.pa (.inl (by norm_num))) h, (T.pp.ne T.pb (.inl (by norm_num))) h,
      (T.pp.ne T.pc (.inl (by norm_num))) h]
  have nq : ¬ (q = a ∨ q = b ∨ q = c) := by
    rintro (h | h | h)
    exacts [(T.pq.ne T.pa (.inr (by norm_num))) h, (T.pq.ne T.pb (.inr (by norm_num))) h,
      (T.pq.ne T.pc (.inr (by norm_num))) h]
  -- the children of the four triangles
  have K0 : ∀ {t : Tri}, t.Is a b c → _ := fun hi => children_three (μ := m.edgePoint sel) hi hb' he' hc'
  have K1 : ∀ {t : Tri}, t.Is b a x → _ := fun hi =>
    children_single (μ := m.edgePoint sel) hi ((hsym _ _).trans hb') (hout nx).2 (hout nx).1
  have K2 : ∀ {t : Tri}, t.Is c b e → _ := fun hi =>
    children_single (μ := m.edgePoint sel) hi ((hsym _ _).trans he') (hout ne).2 (hout ne).1
  have K3 : ∀ {t : Tri}, t.Is a c y → _ := fun hi =>
    children_single (μ := m.edgePoint sel) hi ((hsym _ _).trans hc') (hout ny).2 (hout ny).1
  have up : ∀ {t : Tri} {i j k : PId}, t ∈ m.tris → HasTri (t.children (m.edgePoint sel)) i j k → HasTri out.tris i j k := by
    intro t i j k ht hk
    rw [htris]
    exact hasTri_flatMap.2 ⟨t, ht, hk⟩
  have whole : ∀ {i j k : PId}, ¬ (i = a ∨ i = b ∨ i = c) → ¬ (k = a ∨ k = b ∨ k = c) → HasTri m.tris i j k →
      HasTri out.tris i j k := by
    intro i j k hi hk ht
    obtain ⟨t, ht, h1⟩ := hasTri_iff.1 ht
    refine up ht ?_
    rw [children_whole (t := t)]
    · exact hasTri_iff.2 ⟨t, by simp, h1⟩
    · rintro ⟨d1, d2⟩ hd
      obtain ⟨w, hw⟩ := Tri.mem_darts.1 hd
      rcases h1 with rfl | rfl | rfl <;> simp [Tri.darts] at hd <;> rcases hd with ⟨rfl, rfl⟩ | ⟨rfl, rfl⟩ | ⟨rfl, rfl⟩ <;>
        first | exact (hout hi).1 | exact (hout hi).2 | exact (hout hk).1 | exact (hout hk).2
  have cases : ∀ t ∈ m.tris, t.Is a b c ∨ t.Is b a x ∨ t.Is c b e ∨ t.Is a c y ∨
      (¬ t.Is a b c ∧ ∀ d ∈ t.darts, m.edgePoint sel d = none) := by
    intro t ht
    by_cases hd : ∀ d ∈ t.darts, m.edgePoint sel d = none
    · refine .inr (.inr (.inr (.inr ⟨fun hi => ?_, hd⟩)))
      rw [hd _ hi.dart] at hb'
      cases hb'
    · push Not at hd
      obtain ⟨⟨i, j⟩, hd, hne⟩ := hd
      obtain ⟨k, hk⟩ := Tri.mem_darts.1 hd
      have hT : HasTri m.tris i j k := hasTri_iff.2 ⟨t, ht, hk⟩
      rcases hμ hne with (h | h | h) | (h | h | h) <;> simp only [Prod.mk.injEq] at h <;> obtain ⟨rfl, rfl⟩ := h
      · rw [hv.good.hasTri_unique hT T.abc] at hk
        exact .inl hk
      · rw [hv.good.hasTri_unique hT T.abc.rot] at hk
        exact .inl hk.rot.rot
      · rw [hv.good.hasTri_unique hT T.abc.rot.rot] at hk
        exact .inl hk.rot
      · rw [hv.good.hasTri_unique hT T.bax] at hk
        exact .inr (.inl hk)
      · rw [hv.good.hasTri_unique hT T.cbe] at hk
        exact .inr (.inr (.inl hk))
      · rw [hv.good.hasTri_unique hT T.acy] at hk
        exact .inr (.inr (.inr (.inl hk)))
  -- the places
  have hlt : ∀ {i j k}, HasTri m.tris i j k → i < m.points.length := by
    intro i j k hi
    obtain ⟨t, ht, h1⟩ := hasTri_iff.1 hi
    exact hv.verts_lt ht ((h1.verts i).2 (.inl rfl))
  have la := hlt T.abc
  have lb := hlt T.abc.rot
  have lc := hlt T.abc.rot.rot
  have lx := hlt T.xap
  have lp := hlt T.xap.rot.rot
  have lu := hlt T.bxu.rot.rot
  have le := hlt T.bue.rot.rot
  have lv := hlt T.cev.rot.rot
  have ly := hlt T.ycv
  have lq := hlt T.ayq.rot.rot
  obtain ⟨outE, hE1, -, hE2⟩ := C66_cell (d := 0) (f := s.setCells sel) (sch := .butterfly) hR (by simp) (by linarith) hn hsel
    (by simp) (by simp) (by simp) (fun v p hp => (hC v p hp).2.2) hB h
  obtain ⟨gE, hE1⟩ : ∃ g, cellUpdate .butterfly lib cosn (s.setCells sel) (m.mapPoints val) = (.ok outE, g) :=
    ⟨_, Prod.ext hE1 rfl⟩
  have hvE : (m.mapPoints val).Valid := hv.mapPoints
  have hrE : (m.mapPoints val).RingOK := (hn.ring (.inr rfl)).mapPoints
  have hpE : ∀ {i}, i < m.points.length → (m.mapPoints val).pos i = some ![X i, Y i] := by
    intro i hi
    have h1 := hv.pos_eq hi
    obtain ⟨h2, h3, -⟩ := hC _ _ h1
    have h4 : (m.mapPoints val).pos i = (m.pos i).map val := AMap.find?_map val m.points i
    rw [h4, h1, Option.map_some, h2, h3]
    congr 1
    funext i
    fin_cases i <;> rfl
  have hedge : (m.mapPoints val).edgePoint sel = m.edgePoint sel := by
    unfold Mesh.edgePoint
    rw [mapPoints_length]
    rfl
  have near : ∀ {i : PId} {w : Fin 2 → ℝ}, (∃ p, out.pos i = some p) → outE.pos i = some w →
      ∃ p, out.pos i = some p ∧ |val p 0 - w 0| ≤ 1 / 32 ∧ |val p 1 - w 1| ≤ 1 / 32 := by
    rintro i w ⟨p, hp⟩ hw
    have h1 := (hE2 i p w hp hw).trans hE
    refine ⟨p, hp, ?_, ?_⟩
    · exact (norm_le_pi_norm (val p - w) 0).trans h1
    · exact (norm_le_pi_norm (val p - w) 1).trans h1
  have hpos : ∀ {d : Edge} {k : PId}, m.edgePoint sel d = some k → ∃ p, out.pos k = some p := by
    intro d k hk
    obtain ⟨-, p, -, -, -, h4⟩ := cellUpdate_edgeValue (by decide) hn (f := s.setCells sel) hsel h hk
    exact ⟨p, h4⟩
  obtain ⟨pb, hpb, P1⟩ := near (hpos hb') (C10_butterfly_stencil hvE hrE (f := s.setCells sel) hsel hE1 (hedge ▸ hb') T.abc T.bax T.cbe T.acy
    T.xap T.bxu (hpE la) (hpE lb) (hpE lc) (hpE lx) (hpE le) (hpE ly) (hpE lp) (hpE lu))
  obtain ⟨pe, hpe, P2⟩ := near (hpos he') (C10_butterfly_stencil hvE hrE (f := s.setCells sel) hsel hE1 (hedge ▸ he') T.abc.rot T.cbe T.acy
    T.bax T.bue.rot.rot T.cev (hpE lb) (hpE lc) (hpE la) (hpE le) (hpE ly) (hpE lx) (hpE lu) (hpE lv))
  obtain ⟨pc, hpc, P3⟩ := near (hpos hc') (C10_butterfly_stencil hvE hrE (f := s.setCells sel) hsel hE1 (hedge ▸ hc') T.abc.rot.rot T.acy T.bax
    T.cbe T.ycv T.ayq (hpE lc) (hpE la) (hpE lb) (hpE ly) (hpE lx) (hpE le) (hpE lv) (hpE lq))
  simp only [Pi.sub_apply, Pi.add_apply, Pi.smul_apply, smul_eq_mul, Matrix.cons_val_zero, Matrix.cons_val_one, abs_le] at P1 P2 P3
  obtain ⟨a1, a2, a3, a4⟩ := T.pa.bounds
  obtain ⟨b1, b2, b3, b4⟩ := T.pb.bounds
  obtain ⟨c1, c2, c3, c4⟩ := T.pc.bounds
  obtain ⟨x1, x2, x3, x4⟩ := T.px.bounds
  obtain ⟨y1, y2, y3, y4⟩ := T.py.bounds
  obtain ⟨p1, p2, p3, p4⟩ := T.pp.bounds
  obtain ⟨q1, q2, q3, q4⟩ := T.pq.bounds
  obtain ⟨u1, u2, u3, u4⟩ := T.pu.bounds
  obtain ⟨v1, v2, v3, v4⟩ := T.pv.bounds
  obtain ⟨e1, e2, e3, e4⟩ := T.pe.bounds
  have Nb : Near (val pb 0) (val pb 1) 13 0 1 := by apply near_of <;> linarith [P1.1.1, P1.1.2, P1.2.1, P1.2.2]
  have Ne : Near (val pe 0) (val pe 1) 5 5 (3 / 2) := by apply near_of <;> linarith [P2.1.1, P2.1.2, P2.2.1, P2.2.2]
  have Nc : Near (val pc 0) (val pc 1) 0 13 1 := by apply near_of <;> linarith [P3.1.1, P3.1.2, P3.2.1, P3.2.2]
  clear P1 P2 P3
  -- the coordinates of the output
  have hkept := C06_original_points_kept (K := ℝ) (by decide) hv.points_dense h
  obtain ⟨X', Y', hXY⟩ : ∃ X' Y' : PId → ℝ, ∀ v p, out.pos v = some p → X' v = val p 0 ∧ Y' v = val p 1 :=
    ⟨fun v => ((out.pos v).map fun p => val p 0).getD 0, fun v => ((out.pos v).map fun p => val p 1).getD 0, fun v p hp => by
      simp only [hp, Option.map_some, Option.getD_some, and_self]⟩
  have hkeep : ∀ i, i < m.points.length → X' i = X i ∧ Y' i = Y i := by
    intro i hi
    have h1 := hv.pos_eq hi
    obtain ⟨h2, h3, -⟩ := hC _ _ h1
    obtain ⟨h4, h5⟩ := hXY _ _ (hkept _ _ h1)
    exact ⟨h4.trans h2.symm, h5.trans h3.symm⟩
  have size : ∀ {p : P} {s t r : ℝ}, Near (val p 0) (val p 1) s t r → |s| + r ≤ 20 → |t| + r ≤ 20 → ‖val p‖ ≤ M := by
    intro p s t r hp h1 h2
    rw [pi_norm_le_iff_of_nonneg (by linarith)]
    have h3 := abs_sub_abs_le_abs_sub (val p 0) s
    have h4 := abs_sub_abs_le_abs_sub (val p 1) t
    intro i
    fin_cases i
    · change |val p 0| ≤ M
      linarith [hp.1]
    · change |val p 1| ≤ M
      linarith [hp.2]
  have hC' : CoordsOf out val X' Y' M := by
    intro i w hw
    refine ⟨(hXY i w hw).1, (hXY i w hw).2, ?_⟩
    by_cases hi : i < m.points.length
    · have h1 := hv.pos_eq hi
      rw [hkept _ _ h1] at hw
      cases hw
      exact (hC _ _ h1).2.2
    · have hlen : i < out.points.length := (R.valid hv).pos_lt hw
      obtain ⟨⟨d1, d2⟩, -, hd⟩ := Rnew i (not_lt.1 hi) (by rw [R.points] at hlen; simpa using hlen)
      have hd : m.edgePoint sel (d1, d2) = some i := hd
      have hi3 : i = b' ∨ i = e' ∨ i = c' := by
        rcases hμ (by rw [hd]; simp) with (h | h | h) | (h | h | h) <;> simp only [Prod.mk.injEq] at h <;>
          obtain ⟨rfl, rfl⟩ := h <;> (try rw [hsym] at hd) <;> first
            | (rw [hb'] at hd; exact .inl (Option.some.inj hd).symm)
            | (rw [he'] at hd; exact .inr (.inl (Option.some.inj hd).symm))
            | (rw [hc'] at hd; exact .inr (.inr (Option.some.inj hd).symm))
            | (rw [hsym, hb'] at hd; exact .inl (Option.some.inj hd).symm)
            | (rw [hsym, he'] at hd; exact .inr (.inl (Option.some.inj hd).symm))
            | (rw [hsym, hc'] at hd; exact .inr (.inr (Option.some.inj hd).symm))
      rcases hi3 with rfl | rfl | rfl
      · rw [hpb] at hw; cases hw
        exact size Nb (by norm_num) (by norm_num)
      · rw [hpe] at hw; cases hw
        exact size Ne (by norm_num) (by norm_num)
      · rw [hpc] at hw; cases hw
        exact size Nc (by norm_num) (by norm_num)
  rw [← (hXY _ _ hpb).1, ← (hXY _ _ hpb).2] at Nb
  rw [← (hXY _ _ hpe).1, ← (hXY _ _ hpe).2] at Ne
  rw [← (hXY _ _ hpc).1, ← (hXY _ _ hpc).2] at Nc
  have old : ∀ {i : PId} {s t r : ℝ}, i < m.points.length → Near (X i) (Y i) s t r → Near (X' i) (Y' i) s t r := by
    intro i s t r hi hN
    rw [(hkeep i hi).1, (hkeep i hi).2]
    exact hN
  have Oa := old la T.pa
  have Ox := old lx T.px
  have Oy := old ly T.py
  have Ob := old lb T.pb
  have Oc := old lc T.pc
  have Oe := old le T.pe
  obtain ⟨t0, ht0, i0⟩ := hasTri_iff.1 T.abc
  obtain ⟨t1, ht1, i1⟩ := hasTri_iff.1 T.bax
  obtain ⟨t3, ht3, i3⟩ := hasTri_iff.1 T.acy
  have area : ∀ {t : Tri} {i j k : PId}, t.Is i j k → areaAt X' Y' i j k ≤ 66 →
      planeArea (X' t.1) (Y' t.1) (X' t.2.1) (Y' t.2.1) (X' t.2.2) (Y' t.2.2) ≤ 66 := fun hi hle => by rwa [areaAt_is hi]
  refine ⟨X', Y', b', c', e', {
    abc := up ht0 (K0 i0).2.1
    bax := (up ht1 (K1 i1).2.1)
    xap := whole nx np T.xap
    bxu := (up ht1 (K1 i1).2.2)
    bue := up ht0 (K0 i0).2.2.1
    cbe := (up ht0 (K0 i0).2.2.2.2).rot.rot
    cev := (up ht0 (K0 i0).2.2.2.1).rot.rot
    ycv := (up ht3 (K3 i3).2.1).rot.rot
    acy := (up ht3 (K3 i3).2.2).rot.rot
    ayq := (whole nq ny T.ayq.rot.rot).rot
    pa := Oa, px := Ox, py := Oy, pp := old lp T.pp, pq := old lq T.pq, pb := Nb, pc := Nc, pu := Ob, pv := Oc, pe := Ne
    small := ?_ }, hC'⟩
  intro d hd hnot
  have hnot : ¬ d.Is a b' c' := by simpa [Tri.Is] using hnot
  rw [htris] at hd
  obtain ⟨t, ht, hd⟩ := List.mem_flatMap.1 hd
  rcases cases t ht with hi | hi | hi | hi | ⟨hi, hw⟩
  · rcases (K0 hi).1 d hd with g | g | g | g
    · exact absurd g hnot
    · exact area g (area_near Nb Ob Ne (by norm_num [abs_of_nonneg, abs_of_neg]))
    · exact area g.rot.rot (area_near Nc Ne Oc (by norm_num [abs_of_nonneg, abs_of_neg]))
    · exact area g.rot (area_near Ne Nc Nb (by norm_num [abs_of_nonneg, abs_of_neg]))
  · rcases (K1 hi).1 d hd with g | g
    · exact area g.rot (area_near Oa Ox Nb (by norm_num [abs_of_nonneg, abs_of_neg]))
    · exact area g.rot (area_near Ox Ob Nb (by norm_num [abs_of_nonneg, abs_of_neg]))
  · rcases (K2 hi).1 d hd with g | g
    · exact area g (area_near Ne Ob Oe (by norm_num [abs_of_nonneg, abs_of_neg]))
    · exact area g (area_near Ne Oe Oc (by norm_num [abs_of_nonneg, abs_of_neg]))
  · rcases (K3 hi).1 d hd with g | g
    · exact area g.rot.rot (area_near Oy Nc Oc (by norm_num [abs_of_nonneg, abs_of_neg]))
    · exact area g.rot.rot (area_near Oa Nc Oy (by norm_num [abs_of_nonneg, abs_of_neg]))
  · rw [children_whole hw, List.mem_singleton] at hd
    subst hd
    rw [(hkeep _ (hv.verts_lt ht (v := d.1) (by simp [Tri.verts]))).1, (hkeep _ (hv.verts_lt ht (v := d.1) (by simp [Tri.verts]))).2,
      (hkeep _ (hv.verts_lt ht (v := d.2.1) (by simp [Tri.verts]))).1, (hkeep _ (hv.verts_lt ht (v := d.2.1) (by simp [Tri.verts]))).2,
      (hkeep _ (hv.verts_lt ht (v := d.2.2) (by simp [Tri.verts]))).1, (hkeep _ (hv.verts_lt ht (v := d.2.2) (by simp [Tri.verts]))).2]
    exact T.small d ht (by simpa [Tri.Is] using hi)

theorem Trap.loop (hl : lib.Lawful) (hR : Rounded ε η B val) (hM : 20 ≤ M) (hB : Scheme.butterfly.InRange 0 ε η B M 1)
    (hE : Scheme.butterfly.errorBound 0 ε η M 1 ≤ 1 / 32) (hA : AreaNear area val M) (h66 : 133 / 2 ≤ A) (h68 : A ≤ 135 / 2)
    (T : Trap m.tris X Y a b c x y p q u v e) (hC : CoordsOf m val X Y M) (H : AreaInv .butterfly n sel m)
    (hex : ∀ k, k ∈ sel ↔ m.TooLarge area A k) :
    condLoop (condCellUpd .butterfly lib cosn) (areaCompute area A) n ⟨s, sel⟩ m = none := by
  induction n generalizing a b c x y p q u v e sel m s X Y with
  | zero => exact condLoop_zero (T.chosen H.needs.valid hC hA h66 h68 hex).1
  | succ n ih =>
    obtain ⟨h1, h2⟩ := T.chosen H.needs.valid hC hA h66 h68 hex
    obtain ⟨out, s', sel', h3, h4, -, h5⟩ := condArea_step (lib := lib) (cosn := cosn) (fun _ => hl) area A s H h1
    obtain ⟨X', Y', b', c', e', T', hC'⟩ := T.step H.needs H.selOK hC hR hM hB hE h2 h3
    rw [condLoop_step h1 h3 h4]
    refine ih T' hC' h5 ?_
    have hm := h5.needs.valid
    obtain ⟨l', k1, -, k2⟩ := C28_area_exact area A hm.cells_sorted hm.allTriangles hm.cornersExist sel
    rw [h4] at k1
    cases k1
    exact k2

end
end Verif
