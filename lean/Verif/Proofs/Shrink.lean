import Verif.Spec.Converge
import Verif.Properties.Valence
import Verif.Proofs.Stable
import Mathlib.Tactic.Module
import Mathlib.Analysis.Real.Pi.Bounds
import Mathlib.Analysis.SpecialFunctions.Trigonometric.Bounds
/-
Edges of the output are shorter than those of the input.
-/
namespace Verif
set_option linter.unusedSectionVars false
set_option linter.unusedSimpArgs false

section vectors
variable {V : Type} [NormedAddCommGroup V] [NormedSpace ℝ V]

/-- a sum of short vectors with weights -/
theorem norm_weighted {δ : ℝ} (l : List (ℝ × V)) (h : ∀ x ∈ l, ‖x.2‖ ≤ δ) :
    ‖(l.map fun x => x.1 • x.2).sum‖ ≤ (l.map fun x => |x.1|).sum * δ := by
  induction l with
  | nil => simp
  | cons x l ih =>
    simp only [List.map_cons, List.sum_cons, add_mul]
    refine (norm_add_le _ _).trans (add_le_add ?_ (ih fun y hy => h y (by simp [hy])))
    rw [norm_smul, Real.norm_eq_abs]
    exact mul_le_mul_of_nonneg_left (h x (by simp)) (abs_nonneg _)

theorem norm_of_weighted {δ c : ℝ} {v : V} (l : List (ℝ × V)) (h : ∀ x ∈ l, ‖x.2‖ ≤ δ)
    (hv : v = (l.map fun x => x.1 • x.2).sum) (hc : (l.map fun x => |x.1|).sum ≤ c) (hδ : 0 ≤ δ) : ‖v‖ ≤ c * δ := by
  rw [hv]
  exact (norm_weighted l h).trans (mul_le_mul_of_nonneg_right hc hδ)

end vectors

section weights

/-- `nβ` of the Loop scheme, for all numbers of neighbours -/
theorem loop_weight_bounds (n : Nat) : 15 / 64 ≤ 5 / 8 - (3 / 8 + 1 / 4 * realCos n) * (3 / 8 + 1 / 4 * realCos n) ∧
    5 / 8 - (3 / 8 + 1 / 4 * realCos n) * (3 / 8 + 1 / 4 * realCos n) ≤ 5 / 8 := by
  have h1 : -1 ≤ realCos n := Real.neg_one_le_cos _
  have h2 : realCos n ≤ 1 := Real.cos_le_one _
  constructor <;> nlinarith [mul_self_nonneg (3 / 8 + 1 / 4 * realCos n)]

theorem realCos_lower {n : Nat} (hn : 7 ≤ n) : 1 - 20 / (n : ℝ) ^ 2 ≤ realCos n := by
  have h0 : (0 : ℝ) < n := by exact_mod_cast (by omega : 0 < n)
  have h1 := Real.one_sub_sq_div_two_le_cos (x := 2 * Real.pi / n)
  unfold realCos
  refine le_trans ?_ h1
  have h2 : Real.pi ^ 2 ≤ 10 := by nlinarith [Real.pi_lt_d2, Real.pi_gt_three]
  have h3 : (2 * Real.pi / (n : ℝ)) ^ 2 / 2 = 2 * Real.pi ^ 2 / (n : ℝ) ^ 2 := by ring
  rw [h3]
  have : 2 * Real.pi ^ 2 / (n : ℝ) ^ 2 ≤ 20 / (n : ℝ) ^ 2 := div_le_div_of_nonneg_right (by linarith) (by positivity)
  linarith

/-- the neighbours other than the three that matter for an edge weigh little -/
theorem loop_far_weight {n : Nat} (hn : 6 < n) : ((n : ℝ) - 6) * loopBeta realCos n ≤ 1 / 4 := by
  have h0 : (0 : ℝ) < n := by exact_mod_cast (by omega : 0 < n)
  have h7 : (7 : ℝ) ≤ n := by exact_mod_cast hn
  have hc := realCos_lower (n := n) (by omega)
  have hc1 : realCos n ≤ 1 := Real.cos_le_one _
  unfold loopBeta
  rw [mul_div_assoc', div_le_iff₀ h0]
  set c := realCos n
  have hsq : 0 < (n : ℝ) ^ 2 := by positivity
  have hhalf : 1 / 2 ≤ c := by
    refine le_trans ?_ hc
    rw [le_sub_comm, div_le_iff₀ hsq]
    nlinarith
  by_cases h18 : n ≤ 18
  · have h18' : (n : ℝ) ≤ 18 := by exact_mod_cast h18
    have hw : 5 / 8 - (3 / 8 + 1 / 4 * c) * (3 / 8 + 1 / 4 * c) ≤ 3 / 8 := by nlinarith
    nlinarith
  · have h19 : (19 : ℝ) ≤ n := by exact_mod_cast (by omega : 19 ≤ n)
    by_cases h40 : n ≤ 40
    · have h40' : (n : ℝ) ≤ 40 := by exact_mod_cast h40
      have h94 : 94 / 100 ≤ c := by
        refine le_trans ?_ hc
        rw [le_sub_comm, div_le_iff₀ hsq]
        nlinarith
      have hw : 5 / 8 - (3 / 8 + 1 / 4 * c) * (3 / 8 + 1 / 4 * c) ≤ 26 / 100 := by nlinarith
      nlinarith
    · have h41 : (40 : ℝ) ≤ n := by exact_mod_cast (by omega : 40 ≤ n)
      have h98 : 98 / 100 ≤ c := by
        refine le_trans ?_ hc
        rw [le_sub_comm, div_le_iff₀ hsq]
        nlinarith
      have hw : 5 / 8 - (3 / 8 + 1 / 4 * c) * (3 / 8 + 1 / 4 * c) ≤ 1 / 4 := by nlinarith
      nlinarith

/-- the weights of the differences to the neighbours, in the distance from a moved point to the new point on one of its edges -/
theorem loop_inner_weights {n : Nat} (hn : 3 ≤ n) :
    |3 / 8 - loopBeta realCos n| + 2 * |1 / 8 - loopBeta realCos n| + ((n : ℝ) - 3) * loopBeta realCos n ≤ 7 / 8 ∧
    0 ≤ loopBeta realCos n ∧ (n : ℝ) * loopBeta realCos n ≤ 5 / 8 := by
  have h0 : (0 : ℝ) < n := by exact_mod_cast (by omega : 0 < n)
  have h3 : (3 : ℝ) ≤ n := by exact_mod_cast hn
  obtain ⟨hw1, hw2⟩ := loop_weight_bounds n
  have hb : (n : ℝ) * loopBeta realCos n = 5 / 8 - (3 / 8 + 1 / 4 * realCos n) * (3 / 8 + 1 / 4 * realCos n) := by
    unfold loopBeta; field_simp
  have hb0 : 0 ≤ loopBeta realCos n := by
    unfold loopBeta
    exact div_nonneg (by linarith) h0.le
  have hfar : 6 < n → ((n : ℝ) - 6) * loopBeta realCos n ≤ 1 / 4 := loop_far_weight
  set β := loopBeta realCos n
  have hb1 : β ≤ 3 / 8 := by nlinarith
  refine ⟨?_, hb0, by linarith⟩
  rw [abs_of_nonneg (by linarith : 0 ≤ 3 / 8 - β)]
  rcases le_total β (1 / 8) with h | h
  · rw [abs_of_nonneg (by linarith : 0 ≤ 1 / 8 - β)]
    by_cases h6 : 6 < n
    · nlinarith [hfar h6]
    · have : (n : ℝ) ≤ 6 := by exact_mod_cast (by omega : n ≤ 6)
      nlinarith
  · rw [abs_of_nonpos (by linarith : 1 / 8 - β ≤ 0)]
    nlinarith

end weights

section edges
variable {V D : Type} [NormedAddCommGroup V] [NormedSpace ℝ V] {lib : QELib} {cosn : Nat → ℝ} {f' : Filt} {inp out : Mesh V D}
  {sch : Scheme} {δ : ℝ}

theorem Mesh.EdgesWithin.coord (h : inp.EdgesWithin δ) (hv : inp.Valid) {x y : PId} (he : inp.IsEdge (x, y)) :
    ‖inp.coord x - inp.coord y‖ ≤ δ :=
  h (x, y) _ _ he (hv.pos_eq (hv.isEdge_lt he).1) (hv.pos_eq (hv.isEdge_lt he).2)

/-- the sides of a triangle -/
theorem Mesh.EdgesWithin.tri (h : inp.EdgesWithin δ) (hv : inp.Valid) {a b c : PId} (ht : HasTri inp.tris a b c) :
    ‖inp.coord a - inp.coord b‖ ≤ δ ∧ ‖inp.coord b - inp.coord c‖ ≤ δ ∧ ‖inp.coord c - inp.coord a‖ ≤ δ :=
  ⟨h.coord hv (hv.isEdge_of_dart ht.dart), h.coord hv (hv.isEdge_of_dart ht.rot.dart),
    h.coord hv (hv.isEdge_of_dart ht.rot.rot.dart)⟩

theorem Mesh.EdgesWithin.nonneg (h : inp.EdgesWithin δ) (hv : inp.Valid) {e : Edge} (he : inp.IsEdge e) : 0 ≤ δ :=
  (norm_nonneg _).trans (h.coord hv (x := e.1) (y := e.2) he)

theorem uniform_split (hv : inp.Valid) {e : Edge} (he : inp.IsEdge e) : ∃ m, inp.edgePoint ([] : List CId) e = some m := by
  rw [← Option.isSome_iff_exists, edgePoint_isSome]
  simpa [Mesh.selected] using (hv.edges_iff e).1 he

/-- an edge of the output is half an edge or joins the new points of two sides of a triangle -/
theorem split_edge (hs : sch ≠ .sqrt3) (hn : sch.Needs inp)
    (h : cellUpdate sch lib cosn (Filt.new.setCells []) inp = (.ok out, f')) {e : Edge} (he : out.IsEdge e) :
    ∃ x y, (e = (x, y) ∨ e = (y, x)) ∧
      ((∃ z, inp.IsEdge (x, z) ∧ inp.edgePoint ([] : List CId) (x, z) = some y) ∨
       ∃ a b c, HasTri inp.tris a b c ∧ inp.edgePoint ([] : List CId) (a, b) = some x ∧
        inp.edgePoint ([] : List CId) (b, c) = some y) := by
  have hv := hn.valid
  have R := (cellUpdate_result hs hn (selOK_nil _) h).1
  have hvo := (C04_output_valid hs hn (selOK_nil _) h).1
  have key : ∀ e ∈ dartsOf out.tris, ∃ x y, (e = (x, y) ∨ e = (y, x)) ∧
      ((∃ z, inp.IsEdge (x, z) ∧ inp.edgePoint ([] : List CId) (x, z) = some y) ∨
       ∃ a b c, HasTri inp.tris a b c ∧ inp.edgePoint ([] : List CId) (a, b) = some x ∧
        inp.edgePoint ([] : List CId) (b, c) = some y) := by
    intro e he
    rw [R.tris] at he
    obtain ⟨s, hs', hes⟩ := mem_dartsOf.1 he
    obtain ⟨⟨a, b, c⟩, ht, hd⟩ := List.mem_flatMap.1 hs'
    have hT : HasTri inp.tris a b c := Or.inl ht
    have e0 := hv.isEdge_of_dart hT.dart
    have e1 := hv.isEdge_of_dart hT.rot.dart
    have e2 := hv.isEdge_of_dart hT.rot.rot.dart
    obtain ⟨m0, h0⟩ := uniform_split hv e0
    obtain ⟨m1, h1⟩ := uniform_split hv e1
    obtain ⟨m2, h2⟩ := uniform_split hv e2
    have hsym : ∀ x y : PId, inp.edgePoint ([] : List CId) (y, x) = inp.edgePoint ([] : List CId) (x, y) :=
      fun x y => R.label.sym (x, y)
    have s0 := (hsym a b).trans h0
    have s1 := (hsym b c).trans h1
    have s2 := (hsym c a).trans h2
    simp only [Tri.children, Filt.setCells, h0, h1, h2, List.mem_cons, List.not_mem_nil, or_false] at hd
    rcases hd with rfl | rfl | rfl | rfl <;>
      simp only [Tri.darts, List.mem_cons, List.not_mem_nil, or_false] at hes <;> rcases hes with rfl | rfl | rfl
    · exact ⟨a, m0, .inl rfl, .inl ⟨b, e0, h0⟩⟩
    · exact ⟨m2, m0, .inr rfl, .inr ⟨c, a, b, hT.rot.rot, h2, h0⟩⟩
    · exact ⟨a, m2, .inr rfl, .inl ⟨c, e2.sym, s2⟩⟩
    · exact ⟨b, m0, .inr rfl, .inl ⟨a, e0.sym, s0⟩⟩
    · exact ⟨b, m1, .inl rfl, .inl ⟨c, e1, h1⟩⟩
    · exact ⟨m0, m1, .inr rfl, .inr ⟨a, b, c, hT, h0, h1⟩⟩
    · exact ⟨c, m1, .inr rfl, .inl ⟨b, e1.sym, s1⟩⟩
    · exact ⟨c, m2, .inl rfl, .inl ⟨a, e2, h2⟩⟩
    · exact ⟨m1, m2, .inr rfl, .inr ⟨b, c, a, hT.rot, h1, h2⟩⟩
    · exact ⟨m0, m1, .inl rfl, .inr ⟨a, b, c, hT, h0, h1⟩⟩
    · exact ⟨m1, m2, .inl rfl, .inr ⟨b, c, a, hT.rot, h1, h2⟩⟩
    · exact ⟨m2, m0, .inl rfl, .inr ⟨c, a, b, hT.rot.rot, h2, h0⟩⟩
  rcases (hvo.edges_iff e).1 he with he | he
  · exact key e he
  · obtain ⟨x, y, hxy, h1⟩ := key _ he
    refine ⟨x, y, ?_, h1⟩
    obtain ⟨e1, e2⟩ := e
    simp only [Edge.sym, Prod.mk.injEq] at hxy ⊢
    tauto

/-- it is enough to look at these two kinds -/
theorem shrink_of (hs : sch ≠ .sqrt3) (hn : sch.Needs inp)
    (h : cellUpdate sch lib cosn (Filt.new.setCells []) inp = (.ok out, f'))
    (h1 : ∀ x z y, inp.IsEdge (x, z) → inp.edgePoint ([] : List CId) (x, z) = some y →
      ∀ p q, out.pos x = some p → out.pos y = some q → ‖p - q‖ ≤ δ)
    (h2 : ∀ a b c x y, HasTri inp.tris a b c → inp.edgePoint ([] : List CId) (a, b) = some x →
      inp.edgePoint ([] : List CId) (b, c) = some y → ∀ p q, out.pos x = some p → out.pos y = some q → ‖p - q‖ ≤ δ) :
    out.EdgesWithin δ := by
  intro e p q he hp hq
  obtain ⟨x, y, rfl | rfl, ⟨z, g1, g2⟩ | ⟨a, b, c, g1, g2, g3⟩⟩ := split_edge hs hn h he
  · exact h1 x z y g1 g2 p q hp hq
  · exact h2 a b c x y g1 g2 g3 p q hp hq
  · rw [norm_sub_rev]; exact h1 x z y g1 g2 q p hq hp
  · rw [norm_sub_rev]; exact h2 a b c x y g1 g2 g3 q p hq hp

theorem linear_shrink (hv : inp.Valid) (h : cellUpdate .linear lib cosn (Filt.new.setCells []) inp = (.ok out, f'))
    (hδ : inp.EdgesWithin δ) : out.EdgesWithin (1 / 2 * δ) := by
  have hn : Scheme.linear.Needs inp := ⟨hv, by simp, by simp⟩
  have hmid : ∀ {a b m}, inp.IsEdge (a, b) → inp.edgePoint ([] : List CId) (a, b) = some m →
      out.pos m = some ((1 / 2 : ℝ) • inp.coord a + (1 / 2 : ℝ) • inp.coord b) := fun he hm =>
    C07_linear_midpoints hv (selOK_nil _) h hm (hv.pos_eq (hv.isEdge_lt he).1) (hv.pos_eq (hv.isEdge_lt he).2)
  refine shrink_of (by decide) hn h ?_ ?_
  · intro x z y he hm p q hp hq
    rw [C06_original_points_kept (by decide) hv.points_dense h x _ (hv.pos_eq (hv.isEdge_lt he).1)] at hp
    rw [hmid he hm] at hq
    cases hp; cases hq
    exact norm_of_weighted [(1 / 2, inp.coord x - inp.coord z)] (by simpa using hδ.coord hv he)
      (by simp only [List.map_cons, List.map_nil, List.sum_cons, List.sum_nil]; module)
      (by norm_num) (hδ.nonneg hv he)
  · intro a b c x y ht hx hy p q hp hq
    have e0 := hv.isEdge_of_dart ht.dart
    have e1 := hv.isEdge_of_dart ht.rot.dart
    rw [hmid e0 hx] at hp
    rw [hmid e1 hy] at hq
    cases hp; cases hq
    exact norm_of_weighted [(-1 / 2, inp.coord c - inp.coord a)] (by simpa using (hδ.tri hv ht).2.2)
      (by simp only [List.map_cons, List.map_nil, List.sum_cons, List.sum_nil]; module)
      (by norm_num) (hδ.nonneg hv e0)

/-- in a closed mesh there is a triangle on each side of an edge -/
theorem Mesh.Closed.two (hc : inp.Closed) (hv : inp.Valid) {a b : PId} (he : inp.IsEdge (a, b)) :
    (∃ c, HasTri inp.tris a b c) ∧ ∃ d, HasTri inp.tris b a d := by
  have hsym : ∀ e ∈ dartsOf inp.tris, e.sym ∈ dartsOf inp.tris := fun e he => by
    by_contra hcc
    exact hc e ⟨he, hcc⟩
  rcases (hv.edges_iff _).1 he with h | h
  · exact ⟨dartsOf_iff_hasTri.1 h, dartsOf_iff_hasTri.1 (hsym _ h)⟩
  · exact ⟨dartsOf_iff_hasTri.1 (hsym _ h), dartsOf_iff_hasTri.1 h⟩

theorem butterfly_shrink (hn : Scheme.butterfly.Needs inp) (hc : inp.Closed)
    (h : cellUpdate .butterfly lib cosn (Filt.new.setCells []) inp = (.ok out, f'))
    (hδ : inp.EdgesWithin δ) : out.EdgesWithin (7 / 8 * δ) := by
  have hv := hn.valid
  have hr := hn.ring (.inr rfl)
  have over : ∀ {a b c}, HasTri inp.tris a b c → ∃ d, HasTri inp.tris b a d := fun ht =>
    (hc.two hv (hv.isEdge_of_dart ht.dart)).2
  have pe : ∀ {a b c}, HasTri inp.tris a b c → inp.pos a = some (inp.coord a) := fun ht =>
    hv.pos_eq (hv.isEdge_lt (hv.isEdge_of_dart ht.dart)).1
  refine shrink_of (by decide) hn h ?_ ?_
  · intro a b m he hm p q hp hq
    rw [C06_original_points_kept (by decide) hv.points_dense h a _ (hv.pos_eq (hv.isEdge_lt he).1)] at hp
    obtain ⟨⟨c, tc⟩, d, td⟩ := hc.two hv he
    obtain ⟨w₁, t1⟩ := over tc.rot
    obtain ⟨w₂, t2⟩ := over tc.rot.rot
    obtain ⟨w₃, t3⟩ := over td.rot
    obtain ⟨w₄, t4⟩ := over td.rot.rot
    rw [C10_butterfly_stencil hv hr (selOK_nil _) h hm tc td t1 t2 t3 t4 (pe tc) (pe td) (pe tc.rot.rot) (pe td.rot.rot)
      (pe t1.rot.rot) (pe t2.rot.rot) (pe t3.rot.rot) (pe t4.rot.rot)] at hq
    cases hp; cases hq
    refine norm_of_weighted [(1 / 2, inp.coord a - inp.coord b), (-1 / 16, inp.coord c - inp.coord a),
      (1 / 16, inp.coord a - inp.coord d), (1 / 16, inp.coord w₁ - inp.coord c), (1 / 16, inp.coord w₂ - inp.coord a),
      (-1 / 16, inp.coord a - inp.coord w₃), (-1 / 16, inp.coord d - inp.coord w₄)] ?_
      (by simp only [List.map_cons, List.map_nil, List.sum_cons, List.sum_nil]; module)
      (by norm_num [abs_of_pos, abs_of_neg]) (hδ.nonneg hv he)
    simp only [List.mem_cons, List.not_mem_nil, or_false]
    rintro x (rfl | rfl | rfl | rfl | rfl | rfl | rfl)
    · exact (hδ.tri hv tc).1
    · exact (hδ.tri hv tc).2.2
    · exact (hδ.tri hv td).2.1
    · exact (hδ.tri hv t1).2.2
    · exact (hδ.tri hv t2).2.2
    · exact (hδ.tri hv t3).2.1
    · exact (hδ.tri hv t4).2.1
  · intro v w u x y tt hx hy p q hp hq
    -- the triangles over the three sides, and the outer ones over the first two
    obtain ⟨b1, t1⟩ := over tt
    obtain ⟨b2, t2⟩ := over tt.rot
    obtain ⟨b3, t3⟩ := over tt.rot.rot
    obtain ⟨x1, s1⟩ := over t1.rot
    obtain ⟨x2, s2⟩ := over t1.rot.rot
    obtain ⟨y1, r1⟩ := over t2.rot
    obtain ⟨y2, r2⟩ := over t2.rot.rot
    rw [C10_butterfly_stencil hv hr (selOK_nil _) h hx tt t1 t2 t3 s1 s2 (pe tt) (pe t1) (pe tt.rot.rot) (pe t1.rot.rot)
      (pe t2.rot.rot) (pe t3.rot.rot) (pe s1.rot.rot) (pe s2.rot.rot)] at hp
    rw [C10_butterfly_stencil hv hr (selOK_nil _) h hy tt.rot t2 t3 t1 r1 r2 (pe tt.rot) (pe t2) (pe tt) (pe t2.rot.rot)
      (pe t3.rot.rot) (pe t1.rot.rot) (pe r1.rot.rot) (pe r2.rot.rot)] at hq
    cases hp; cases hq
    refine norm_of_weighted [(-3 / 8, inp.coord u - inp.coord v), (1 / 16, inp.coord b1 - inp.coord w),
      (1 / 16, inp.coord w - inp.coord b2), (1 / 16, inp.coord b1 - inp.coord x1), (-1 / 16, inp.coord x2 - inp.coord b1),
      (-1 / 16, inp.coord b2 - inp.coord y1), (1 / 16, inp.coord y2 - inp.coord b2)] ?_
      (by simp only [List.map_cons, List.map_nil, List.sum_cons, List.sum_nil]; module)
      (by norm_num [abs_of_pos, abs_of_neg]) (hδ.nonneg hv (hv.isEdge_of_dart tt.dart))
    simp only [List.mem_cons, List.not_mem_nil, or_false]
    rintro x (rfl | rfl | rfl | rfl | rfl | rfl | rfl)
    · exact (hδ.tri hv tt).2.2
    · exact (hδ.tri hv t1).2.2
    · exact (hδ.tri hv t2).2.1
    · rw [norm_sub_rev]; exact (hδ.tri hv s1).2.2
    · rw [norm_sub_rev]; exact (hδ.tri hv s2).2.1
    · rw [norm_sub_rev]; exact (hδ.tri hv r1).2.2
    · rw [norm_sub_rev]; exact (hδ.tri hv r2).2.1

end edges

section loop
variable {V D : Type} [NormedAddCommGroup V] [NormedSpace ℝ V] {lib : QELib} {f' : Filt} {inp out : Mesh V D} {δ : ℝ}

/-- the destinations of the edges out of a point, as differences to the point -/
theorem sum_diff {β : ℝ} (p : V) (l : List V) :
    (1 - (l.length : ℝ) * β) • p + β • l.sum = p + ((l.map fun q => (β, q - p)).map fun x => x.1 • x.2).sum := by
  induction l with
  | nil => simp
  | cons q l ih =>
    simp only [List.length_cons, List.sum_cons, List.map_cons]
    rw [← sub_eq_iff_eq_add'] at ih
    rw [← ih]
    push_cast
    module

theorem sum_abs_const {β : ℝ} (hβ : 0 ≤ β) (p : V) (l : List V) :
    ((l.map fun q => (β, q - p)).map fun x => |x.1|).sum = l.length * β := by
  induction l with
  | nil => simp
  | cons q l ih =>
    simp only [List.map_cons, List.sum_cons, List.length_cons] at *
    rw [ih, abs_of_nonneg hβ]; push_cast; ring

/-- where Loop moves a point: it has at least three neighbours, all edges at it being inner ones, or it is on the boundary -/
theorem loop_moved (hn : Scheme.loop.Needs inp) (hsb : inp.SimpleBoundary)
    (h : cellUpdate .loop lib realCos (Filt.new.setCells []) inp = (.ok out, f')) {v : PId} (hlt : v < inp.points.length) :
    (∃ N : List PId, N.Nodup ∧ N ≠ [] ∧ (∀ w, w ∈ N ↔ inp.IsEdge (v, w)) ∧
      (∀ w, inp.IsEdge (v, w) → (∃ c, HasTri inp.tris v w c) ∧ ∃ c, HasTri inp.tris w v c) ∧
      out.pos v = some ((1 - (N.length : ℝ) * loopBeta realCos N.length) • inp.coord v +
        loopBeta realCos N.length • (N.map inp.coord).sum)) ∨
    ∃ a b, inp.IsEdge (v, a) ∧ inp.IsEdge (v, b) ∧
      out.pos v = some ((3 / 4 : ℝ) • inp.coord v + (1 / 8 : ℝ) • inp.coord a + (1 / 8 : ℝ) • inp.coord b) := by
  have hv := hn.valid
  have hb := cellUpdate_base (f := Filt.new.setCells []) (by decide) hn (selOK_nil _) h hlt
  have hu : schemeBase .loop realCos inp (Filt.new.setCells []) v =
      valueOf (fun v => smoothingPoint realCos inp v (inp.coord v)) v := by
    simp only [schemeBase, loopBase, Filt.setCells, Filt.new, Bool.true_or, if_true]
  obtain ⟨w, hw⟩ := (hn.noIsolated rfl).edge hv hlt
  obtain ⟨r, h1, h2, h3⟩ := smoothingPoint_ok realCos hv (hn.ring (Or.inl rfl)) hw (inp.coord v)
  rw [hu, valueOf_eq (np := fun v => smoothingPoint realCos inp v (inp.coord v)) h3] at hb
  have hmem : ∀ w, w ∈ r.map Prod.snd ↔ inp.IsEdge (v, w) := by
    intro w
    rw [List.mem_map]
    constructor
    · rintro ⟨e, he, rfl⟩
      obtain ⟨g1, g2⟩ := (h2 e).1 he
      rw [← g2]; exact g1
    · intro hw
      exact ⟨(v, w), (h2 _).2 ⟨hw, rfl⟩, rfl⟩
  unfold smoothed at hb
  rcases border_edges hv hsb h1 h2 with hb' | hb'
  · rw [if_neg (by simpa using hb'), added_eq] at hb
    refine .inl ⟨r.map Prod.snd, ?_, ?_, hmem, ?_, ?_⟩
    · refine h1.map_on fun e he e' he' hee => ?_
      exact Prod.ext (((h2 e).1 he).2.trans ((h2 e').1 he').2.symm) hee
    · simpa using List.ne_nil_of_mem ((h2 _).2 ⟨hw, rfl⟩)
    · intro w hw
      by_contra hc
      have : (v, w) ∈ r.filter inp.isAtBorder := by
        refine List.mem_filter.2 ⟨(h2 _).2 ⟨hw, rfl⟩, (hv.isAtBorder_iff hw).2 fun hd => hc ?_⟩
        exact ⟨dartsOf_iff_hasTri.1 hd.1, dartsOf_iff_hasTri.1 hd.2⟩
      rw [List.length_eq_zero_iff.1 hb'] at this
      cases this
    · rw [hb, List.length_map, List.map_map]
      rfl
  · rw [if_pos (by rw [hb']; decide)] at hb
    have hm : ∀ e ∈ r.filter inp.isAtBorder, inp.IsEdge (v, e.2) := fun e he =>
      (hmem _).1 (List.mem_map_of_mem (List.mem_of_mem_filter he))
    generalize r.filter inp.isAtBorder = l at hb' hm hb
    match l, hb', hm, hb with
    | [x, y], _, hm, hb =>
      refine .inr ⟨x.2, y.2, hm x (by simp), hm y (by simp), ?_⟩
      rw [hb]
      refine congrArg some ?_
      simp only [added, List.map_cons, List.map_nil, List.foldl_cons, List.foldl_nil]
      module

/-- the triangles on the two sides of an edge have different third corners -/
theorem third_ne (hv : inp.Valid) {a b c d : PId} (hc : HasTri inp.tris a b c) (hd : HasTri inp.tris b a d) : c ≠ d := by
  rintro rfl
  obtain ⟨t, ht, h1⟩ := hasTri_iff.1 hc
  obtain ⟨t', ht', h2⟩ := hasTri_iff.1 hd
  have : t = t' := hv.good.simplicial t ht t' ht' fun v hv' => by
    rw [h1.verts] at hv'; rw [h2.verts]; tauto
  subst this
  exact Tri.dart_not_sym (hv.good.nd t ht) h1.dart h2.dart

theorem loop_three (hv : inp.Valid) {v : PId} {N : List PId} (hN : ∀ w, w ∈ N ↔ inp.IsEdge (v, w))
    (hin : ∀ w, inp.IsEdge (v, w) → (∃ c, HasTri inp.tris v w c) ∧ ∃ c, HasTri inp.tris w v c) (hne : N ≠ []) :
    3 ≤ N.length := by
  obtain ⟨y, hy⟩ := List.exists_mem_of_ne_nil N hne
  obtain ⟨⟨c, hc⟩, d, hd⟩ := hin y ((hN y).1 hy)
  have hcd := third_ne hv hc hd
  have h1 := hc.ne hv.good.nd
  have h2 := hd.ne hv.good.nd
  have hc' : c ∈ N := (hN c).2 (hv.isEdge_of_dart hc.rot.rot.dart).sym
  have hd' : d ∈ N := (hN d).2 (hv.isEdge_of_dart hd.rot.dart)
  have : ([y, c, d] : List PId).Subperm N := List.subperm_of_subset
    (by simp only [List.nodup_cons, List.mem_cons, List.not_mem_nil, or_false, not_or, List.nodup_nil, not_false_iff, and_true]
        exact ⟨⟨h1.2.1, fun e => h2.2.2 e.symm⟩, hcd⟩)
    (by intro x hx; simp only [List.mem_cons, List.not_mem_nil, or_false] at hx; rcases hx with rfl | rfl | rfl <;> assumption)
  exact this.length_le

/-- Loop moves a point by at most 5/8 of the longest edge -/
theorem loop_drift (hn : Scheme.loop.Needs inp) (hsb : inp.SimpleBoundary)
    (h : cellUpdate .loop lib realCos (Filt.new.setCells []) inp = (.ok out, f')) (hδ : inp.EdgesWithin δ) {v : PId}
    (hlt : v < inp.points.length) {p : V} (hp : out.pos v = some p) : ‖p - inp.coord v‖ ≤ 5 / 8 * δ := by
  have hv := hn.valid
  obtain ⟨w, hw⟩ := (hn.noIsolated rfl).edge hv hlt
  have h0 := hδ.nonneg hv hw
  rcases loop_moved hn hsb h hlt with ⟨N, hnd, hne, hN, hin, hb⟩ | ⟨a, b, ha, hb', hb⟩
  · rw [hb] at hp
    cases hp
    have h3 := loop_three hv hN hin hne
    refine norm_of_weighted ((N.map inp.coord).map fun q => (loopBeta realCos N.length, q - inp.coord v)) ?_ ?_ ?_ h0
    · intro x hx
      simp only [List.map_map, List.mem_map, Function.comp] at hx
      obtain ⟨w, hw, rfl⟩ := hx
      rw [norm_sub_rev]
      exact hδ.coord hv ((hN w).1 hw)
    · have := sum_diff (β := loopBeta realCos N.length) (inp.coord v) (N.map inp.coord)
      rw [List.length_map] at this
      rw [this]; abel
    · rw [sum_abs_const (loop_inner_weights h3).2.1, List.length_map]
      exact (loop_inner_weights h3).2.2
  · rw [hb] at hp
    cases hp
    refine norm_of_weighted [(-1 / 8, inp.coord v - inp.coord a), (-1 / 8, inp.coord v - inp.coord b)] ?_
      (by simp only [List.map_cons, List.map_nil, List.sum_cons, List.sum_nil]; module)
      (by norm_num [abs_of_pos, abs_of_neg]) h0
    simp only [List.mem_cons, List.not_mem_nil, or_false]
    rintro x (rfl | rfl)
    · exact hδ.coord hv ha
    · exact hδ.coord hv hb'

theorem loop_shrink (hn : Scheme.loop.Needs inp) (hsb : inp.SimpleBoundary)
    (h : cellUpdate .loop lib realCos (Filt.new.setCells []) inp = (.ok out, f')) (hδ : inp.EdgesWithin δ) :
    out.EdgesWithin (7 / 8 * δ) := by
  have hv := hn.valid
  have pe : ∀ {a b c}, HasTri inp.tris a b c → inp.pos a = some (inp.coord a) := fun ht =>
    hv.pos_eq (hv.isEdge_lt (hv.isEdge_of_dart ht.dart)).1
  have inner : ∀ {a b c d m}, inp.edgePoint ([] : List CId) (a, b) = some m → HasTri inp.tris a b c → HasTri inp.tris b a d →
      out.pos m = some ((3 / 8 : ℝ) • inp.coord a + (3 / 8 : ℝ) • inp.coord b + (1 / 8 : ℝ) • inp.coord c +
        (1 / 8 : ℝ) • inp.coord d) := fun hm hc hd =>
    C08_loop_inner_edge hn (selOK_nil _) h hm hc hd (pe hc) (pe hd) (pe hc.rot.rot) (pe hd.rot.rot)
  have rim : ∀ {a b m}, inp.edgePoint ([] : List CId) (a, b) = some m → inp.IsEdge (a, b) →
      ¬ ((∃ c, HasTri inp.tris a b c) ∧ ∃ d, HasTri inp.tris b a d) →
      out.pos m = some ((1 / 2 : ℝ) • inp.coord a + (1 / 2 : ℝ) • inp.coord b) := fun hm he hb =>
    C08_loop_boundary_edge hn (selOK_nil _) h hm (by rw [not_and_or, not_exists, not_exists] at hb; exact hb)
      (hv.pos_eq (hv.isEdge_lt he).1) (hv.pos_eq (hv.isEdge_lt he).2)
  refine shrink_of (by decide) hn h ?_ ?_
  · intro v y m he hm p q hp hq
    have h0 := hδ.nonneg hv he
    have lv := (hv.isEdge_lt he).1
    rcases loop_moved hn hsb h lv with ⟨N, hnd, hne, hN, hin, hb⟩ | ⟨a, b, ha, hb', hb⟩
    · rw [hb] at hp
      obtain ⟨⟨c, hc⟩, d, hd⟩ := hin y he
      rw [inner hm hc hd] at hq
      cases hp; cases hq
      have h3 := loop_three hv hN hin hne
      have hcd := third_ne hv hc hd
      have h1 := hc.ne hv.good.nd
      have h2 := hd.ne hv.good.nd
      have hc' : c ∈ N := (hN c).2 (hv.isEdge_of_dart hc.rot.rot.dart).sym
      have hd' : d ∈ N := (hN d).2 (hv.isEdge_of_dart hd.rot.dart)
      have hperm : N.Perm (y :: c :: d :: ((N.erase y).erase c).erase d) := by
        refine (List.perm_cons_erase ((hN y).2 he)).trans (List.Perm.cons _ ?_)
        refine (List.perm_cons_erase ((List.mem_erase_of_ne h1.2.1.symm).2 hc')).trans (List.Perm.cons _ ?_)
        exact List.perm_cons_erase ((List.mem_erase_of_ne hcd.symm).2 ((List.mem_erase_of_ne h2.2.2).2 hd'))
      generalize ((N.erase y).erase c).erase d = N' at hperm
      have hlen := hperm.length_eq
      obtain ⟨w1, w2, w3⟩ := loop_inner_weights h3
      have hsum := sum_diff (β := loopBeta realCos N.length) (inp.coord v) (N.map inp.coord)
      rw [List.length_map] at hsum
      rw [hsum]
      generalize loopBeta realCos N.length = β at *
      rw [((((hperm.map inp.coord).map fun q => (β, q - inp.coord v)).map fun x => x.1 • x.2)).sum_eq]
      refine norm_of_weighted ((β - 3 / 8, inp.coord y - inp.coord v) :: (β - 1 / 8, inp.coord c - inp.coord v) ::
        (β - 1 / 8, inp.coord d - inp.coord v) :: (N'.map inp.coord).map fun q => (β, q - inp.coord v)) ?_ ?_ ?_ h0
      · intro x hx
        have hmem : ∀ w, w ∈ N → ‖inp.coord w - inp.coord v‖ ≤ δ := fun w hw => by
          rw [norm_sub_rev]; exact hδ.coord hv ((hN w).1 hw)
        simp only [List.mem_cons, List.map_map, List.mem_map, Function.comp] at hx
        rcases hx with rfl | rfl | rfl | ⟨w, hw, rfl⟩
        · exact hmem y ((hN y).2 he)
        · exact hmem c hc'
        · exact hmem d hd'
        · exact hmem w (hperm.mem_iff.2 (by simp [hw]))
      · simp only [List.map_cons, List.sum_cons]
        module
      · simp only [List.map_cons, List.sum_cons]
        rw [sum_abs_const w2, List.length_map]
        rw [hlen] at w1
        simp only [List.length_cons] at w1
        push_cast at w1
        rw [abs_sub_comm β (3 / 8), abs_sub_comm β (1 / 8)]
        nlinarith
    · rw [hb] at hp
      by_cases hi : (∃ c, HasTri inp.tris v y c) ∧ ∃ d, HasTri inp.tris y v d
      · obtain ⟨⟨c, hc⟩, d, hd⟩ := hi
        rw [inner hm hc hd] at hq
        cases hp; cases hq
        refine norm_of_weighted [(3 / 8, inp.coord v - inp.coord y), (-1 / 8, inp.coord c - inp.coord v),
          (1 / 8, inp.coord v - inp.coord d), (-1 / 8, inp.coord v - inp.coord a), (-1 / 8, inp.coord v - inp.coord b)] ?_
          (by simp only [List.map_cons, List.map_nil, List.sum_cons, List.sum_nil]; module)
          (by norm_num [abs_of_pos, abs_of_neg]) h0
        simp only [List.mem_cons, List.not_mem_nil, or_false]
        rintro x (rfl | rfl | rfl | rfl | rfl)
        · exact hδ.coord hv he
        · exact (hδ.tri hv hc).2.2
        · exact (hδ.tri hv hd).2.1
        · exact hδ.coord hv ha
        · exact hδ.coord hv hb'
      · rw [rim hm he hi] at hq
        cases hp; cases hq
        refine norm_of_weighted [(1 / 2, inp.coord v - inp.coord y), (-1 / 8, inp.coord v - inp.coord a),
          (-1 / 8, inp.coord v - inp.coord b)] ?_
          (by simp only [List.map_cons, List.map_nil, List.sum_cons, List.sum_nil]; module)
          (by norm_num [abs_of_pos, abs_of_neg]) h0
        simp only [List.mem_cons, List.not_mem_nil, or_false]
        rintro x (rfl | rfl | rfl)
        · exact hδ.coord hv he
        · exact hδ.coord hv ha
        · exact hδ.coord hv hb'
  · intro a b c x y ht hx hy p q hp hq
    have e0 := hv.isEdge_of_dart ht.dart
    have e1 := hv.isEdge_of_dart ht.rot.dart
    have h0 := hδ.nonneg hv e0
    obtain ⟨g1, g2, g3⟩ := hδ.tri hv ht
    by_cases hi : ∃ d, HasTri inp.tris b a d <;> by_cases hj : ∃ d, HasTri inp.tris c b d
    · obtain ⟨d, hd⟩ := hi
      obtain ⟨d', hd'⟩ := hj
      rw [inner hx ht hd] at hp
      rw [inner hy ht.rot hd'] at hq
      cases hp; cases hq
      refine norm_of_weighted [(-1 / 4, inp.coord c - inp.coord a), (1 / 8, inp.coord d - inp.coord b),
          (1 / 8, inp.coord b - inp.coord d')] ?_
          (by simp only [List.map_cons, List.map_nil, List.sum_cons, List.sum_nil]; module)
          (by norm_num [abs_of_pos, abs_of_neg]) h0
      simp only [List.mem_cons, List.not_mem_nil, or_false]
      rintro x (rfl | rfl | rfl)
      · exact g3
      · exact (hδ.tri hv hd).2.2
      · exact (hδ.tri hv hd').2.1
    · obtain ⟨d, hd⟩ := hi
      rw [inner hx ht hd] at hp
      rw [rim hy e1 fun hc => hj hc.2] at hq
      cases hp; cases hq
      refine norm_of_weighted [(-3 / 8, inp.coord c - inp.coord a), (1 / 8, inp.coord d - inp.coord b)] ?_
          (by simp only [List.map_cons, List.map_nil, List.sum_cons, List.sum_nil]; module)
          (by norm_num [abs_of_pos, abs_of_neg]) h0
      simp only [List.mem_cons, List.not_mem_nil, or_false]
      rintro x (rfl | rfl)
      · exact g3
      · exact (hδ.tri hv hd).2.2
    · obtain ⟨d', hd'⟩ := hj
      rw [rim hx e0 fun hc => hi hc.2] at hp
      rw [inner hy ht.rot hd'] at hq
      cases hp; cases hq
      refine norm_of_weighted [(-3 / 8, inp.coord c - inp.coord a), (1 / 8, inp.coord b - inp.coord d')] ?_
          (by simp only [List.map_cons, List.map_nil, List.sum_cons, List.sum_nil]; module)
          (by norm_num [abs_of_pos, abs_of_neg]) h0
      simp only [List.mem_cons, List.not_mem_nil, or_false]
      rintro x (rfl | rfl)
      · exact g3
      · exact (hδ.tri hv hd').2.1
    · rw [rim hx e0 fun hc => hi hc.2] at hp
      rw [rim hy e1 fun hc => hj hc.2] at hq
      cases hp; cases hq
      refine norm_of_weighted [(-1 / 2, inp.coord c - inp.coord a)] ?_
          (by simp only [List.map_cons, List.map_nil, List.sum_cons, List.sum_nil]; module)
          (by norm_num [abs_of_pos, abs_of_neg]) h0
      simp only [List.mem_cons, List.not_mem_nil, or_false]
      rintro x rfl
      exact g3

end loop
end Verif
