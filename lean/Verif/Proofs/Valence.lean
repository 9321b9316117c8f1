import Verif.Spec.Valence
import Verif.Proofs.Levels
import Verif.Properties.Topology
import Verif.Properties.Sqrt3
import Mathlib.Tactic.Ring
/-
Valences under a uniform face split.
-/
namespace Verif
set_option linter.unusedSectionVars false
variable {P D : Type}

theorem countP_sum {α β : Type} (l : List α) (g : α → List β) (p : β → Bool) (q : α → Bool) (k : Nat)
    (h : ∀ a ∈ l, (g a).countP p = if q a then k else 0) : (l.flatMap g).countP p = k * l.countP q := by
  induction l with
  | nil => rfl
  | cons a l ih =>
    rw [List.flatMap_cons, List.countP_append, h a (by simp), ih (fun b hb => h b (by simp [hb])), List.countP_cons]
    split <;> ring

/-- the children of a triangle that is cut into four: one at each corner, three at each midpoint -/
theorem children_countP {μ : Edge → Option PId} {a b c m0 m1 m2 : PId} (hl : Local μ a b c) (h0 : μ (a, b) = some m0)
    (h1 : μ (b, c) = some m1) (h2 : μ (c, a) = some m2) (v : PId) :
    (Tri.children μ (a, b, c)).countP (fun t => decide (v ∈ t.verts)) =
      if v = a ∨ v = b ∨ v = c then 1 else if v = m0 ∨ v = m1 ∨ v = m2 then 3 else 0 := by
  have n1 := hl.ab; have n2 := hl.bc; have n3 := hl.ca
  obtain ⟨p1, p2, p3⟩ := hl.f0 _ h0
  obtain ⟨q1, q2, q3⟩ := hl.f1 _ h1
  obtain ⟨r1, r2, r3⟩ := hl.f2 _ h2
  have d1 := hl.d01 _ _ h0 h1; have d2 := hl.d12 _ _ h1 h2; have d3 := hl.d02 _ _ h0 h2
  simp only [Tri.children, h0, h1, h2, Tri.verts, List.countP_cons, List.countP_nil, List.mem_cons, List.not_mem_nil, or_false,
    decide_eq_true_eq]
  by_cases e1 : v = a
  · subst e1; simp [n1, p1.symm, q1.symm, r1.symm, n3.symm]
  by_cases e2 : v = b
  · subst e2; simp [e1, n2, p2.symm, q2.symm, r2.symm]
  by_cases e3 : v = c
  · subst e3; simp [e1, e2, p3.symm, q3.symm, r3.symm]
  by_cases e4 : v = m0
  · subst e4; simp [e1, e2, e3, d1, d3]
  by_cases e5 : v = m1
  · subst e5; simp [e1, e2, e3, e4, d2]
  by_cases e6 : v = m2
  · subst e6; simp [e1, e2, e3, e4, e5]
  simp [e1, e2, e3, e4, e5, e6]

/-- the number of triangles with a given directed edge -/
theorem count_dart {T : List Tri} (h : (dartsOf T).Nodup) (e : Edge) :
    T.countP (fun t => decide (e ∈ t.darts)) = if e ∈ dartsOf T then 1 else 0 := by
  induction T with
  | nil => rfl
  | cons t T ih =>
    have hd : dartsOf (t :: T) = t.darts ++ dartsOf T := rfl
    rw [hd] at h
    obtain ⟨-, h2, h3⟩ := List.nodup_append.1 h
    rw [List.countP_cons, ih h2]
    simp only [hd, List.mem_append]
    by_cases h4 : e ∈ t.darts
    · have h5 : e ∉ dartsOf T := fun h5 => h3 _ h4 _ h5 rfl
      simp [h4, h5]
    · simp [h4]

theorem countP_or {α : Type} (l : List α) (p q : α → Bool) (h : ∀ a ∈ l, ¬ (p a = true ∧ q a = true)) :
    l.countP (fun a => p a || q a) = l.countP p + l.countP q := by
  induction l with
  | nil => rfl
  | cons a l ih =>
    have h1 := h a (by simp)
    rw [List.countP_cons, List.countP_cons, List.countP_cons, ih fun b hb => h b (by simp [hb])]
    cases hp : p a <;> cases hq : q a <;> simp_all <;> omega

section
variable {lib : QELib} {inp out : Mesh P D} {f f' : Filt} {u : Bool} {μ : Edge → Option PId} {pts : List P}
  (R : FaceSplitResult lib inp out f f' u μ pts) (hv : inp.Valid) (hall : ∀ e ∈ dartsOf inp.tris, (μ e).isSome)
include R hv hall

theorem children_count {t : Tri} (ht : t ∈ inp.tris) (v : PId) :
    (t.children μ).countP (fun t => decide (v ∈ t.verts)) =
      if v ∈ t.verts then 1 else if ∃ e ∈ t.darts, μ e = some v then 3 else 0 := by
  have hl := loc hv.good R.label ht
  obtain ⟨a, b, c⟩ := t
  have h := fun e he => Option.isSome_iff_exists.1 (hall e (mem_dartsOf.2 ⟨_, ht, he⟩))
  obtain ⟨m0, h0⟩ := h (a, b) (by simp [Tri.darts])
  obtain ⟨m1, h1⟩ := h (b, c) (by simp [Tri.darts])
  obtain ⟨m2, h2⟩ := h (c, a) (by simp [Tri.darts])
  rw [children_countP hl h0 h1 h2]
  simp only [Tri.verts, Tri.darts, List.mem_cons, List.not_mem_nil, or_false, exists_eq_or_imp, exists_eq_left, h0, h1, h2,
    Option.some.injEq, eq_comm (a := v)]

theorem FaceSplitResult.valence_old {v : PId} (hlt : v < inp.points.length) : out.valence v = inp.valence v := by
  unfold Mesh.valence
  rw [R.tris, countP_sum (k := 1) (q := fun t => decide (v ∈ t.verts)), one_mul]
  intro t ht
  rw [children_count R hv hall ht]
  by_cases h1 : v ∈ t.verts
  · simp [h1]
  · rw [if_neg h1, if_neg, if_neg (by simpa using h1)]
    rintro ⟨e, -, he⟩
    exact absurd hlt (Nat.not_lt.2 (R.fresh _ _ he).1)

theorem FaceSplitResult.valence_new {e : Edge} {v : PId} (he : e ∈ dartsOf inp.tris) (hm : μ e = some v) :
    out.valence v = if e.sym ∈ dartsOf inp.tris then 6 else 3 := by
  have key : inp.tris.countP (fun t => decide (e ∈ t.darts) || decide (e.sym ∈ t.darts)) =
      1 + if e.sym ∈ dartsOf inp.tris then 1 else 0 := by
    rw [countP_or, count_dart hv.good.oriented, count_dart hv.good.oriented, if_pos he]
    rintro t ht ⟨h1, h2⟩
    exact Tri.dart_not_sym (hv.good.nd t ht) (by simpa using h1) (by simpa using h2)
  unfold Mesh.valence
  rw [R.tris, countP_sum (k := 3) (q := fun t => decide (e ∈ t.darts) || decide (e.sym ∈ t.darts)), key]
  · split <;> rfl
  intro t ht
  rw [children_count R hv hall ht, if_neg (R.label.fresh _ _ hm t ht)]
  refine if_congr ?_ rfl rfl
  rw [Bool.or_eq_true, decide_eq_true_eq, decide_eq_true_eq]
  constructor
  · rintro ⟨e', h1, h2⟩
    rcases R.label.inj _ _ _ hm h2 with rfl | rfl
    · exact .inl h1
    · exact .inr h1
  · rintro (h1 | h1)
    · exact ⟨e, h1, hm⟩
    · exact ⟨e.sym, h1, (R.label.sym e).trans hm⟩

end

section
variable {lib : QELib} {inp out : Mesh P D} {f f' : Filt} {u : Bool} {σ : Edge → Option PId} {pts : List P}
  (R : Sqrt3Result lib inp out f f' u σ pts) (hv : inp.Valid) (hall : ∀ e ∈ dartsOf inp.tris, (σ e).isSome)
include R hv hall

theorem Sqrt3Result.valence_eq (x : PId) : out.valence x =
    (dartsOf inp.tris).countP fun e => decide (x ∈ (sq3Piece σ ((σ e).getD 0) e).verts) := by
  unfold Mesh.valence
  rw [(R.tris hv).countP_eq]
  have : inp.tris.flatMap (Tri.sq3 σ) = (dartsOf inp.tris).map fun e => sq3Piece σ ((σ e).getD 0) e := by
    unfold dartsOf
    rw [List.map_flatMap]
    refine List.flatMap_congr fun t ht => ?_
    obtain ⟨v, hσ⟩ := Option.isSome_iff_exists.1 (hall (t.1, t.2.1) (mem_dartsOf.2 ⟨t, ht, by simp [Tri.darts]⟩))
    unfold Tri.sq3
    rw [hσ]
    refine List.map_congr_left fun e he => ?_
    rw [R.centres.same t ht e he (t.1, t.2.1) (by simp [Tri.darts]), hσ]
    rfl
  rw [this, List.countP_map]
  rfl

theorem Sqrt3Result.valence_old {x : PId} (hlt : x < inp.points.length) : out.valence x =
    inp.valence x + (dartsOf inp.tris).countP fun e => decide (e.1 = x ∧ e.sym ∉ dartsOf inp.tris) := by
  have h2 : inp.valence x = (dartsOf inp.tris).countP fun e => decide (e.2 = x) := by
    unfold Mesh.valence dartsOf
    rw [countP_sum (k := 1) (q := fun t => decide (x ∈ t.verts)), one_mul]
    rintro ⟨a, b, c⟩ ht
    obtain ⟨n1, n2, n3⟩ := hv.good.nd _ ht
    simp only at n1 n2 n3
    simp only [Tri.darts, Tri.verts, List.countP_cons, List.countP_nil, List.mem_cons, List.not_mem_nil, or_false,
      decide_eq_true_eq]
    by_cases e1 : x = a
    · subst e1; simp [n1.symm, n3]
    by_cases e2 : x = b
    · subst e2; simp [n1, n2.symm]
    by_cases e3 : x = c
    · subst e3; simp [n2, n3.symm]
    simp [e1, e2, e3, Ne.symm e1, Ne.symm e2, Ne.symm e3]
  rw [R.valence_eq hv hall, h2, ← countP_or]
  · refine List.countP_congr fun e he => ?_
    obtain ⟨v, hσ⟩ := Option.isSome_iff_exists.1 (hall e he)
    have hxv : x ≠ v := fun hc => absurd hlt (Nat.not_lt.2 (hc ▸ (R.fresh _ _ hσ).1))
    rw [decide_eq_true_eq, Bool.or_eq_true, decide_eq_true_eq, decide_eq_true_eq, hσ]
    unfold sq3Piece
    cases hs : σ e.sym with
    | none =>
      have : e.sym ∉ dartsOf inp.tris := fun hc => by
        have := hall _ hc
        rw [hs] at this; cases this
      simp only [Option.getD_some, Tri.verts, List.mem_cons, List.not_mem_nil, or_false, this, not_false_eq_true, and_true]
      rw [eq_comm (a := x), eq_comm (a := x)]
      have : ¬ x = v := hxv
      tauto
    | some v' =>
      have hd : e.sym ∈ dartsOf inp.tris := R.centres.only _ _ hs
      have hxv' : x ≠ v' := fun hc => absurd hlt (Nat.not_lt.2 (hc ▸ (R.fresh _ _ hs).1))
      simp only [Option.getD_some, Tri.verts, List.mem_cons, List.not_mem_nil, or_false, hd, not_true, and_false, hxv, hxv',
        false_or]
      exact eq_comm
  · rintro e he ⟨h3, h4⟩
    obtain ⟨t, ht, he⟩ := mem_dartsOf.1 he
    have h3 : e.2 = x := by simpa using h3
    have h4 : e.1 = x := (by simpa using h4 : e.1 = x ∧ _).1
    obtain ⟨a, b, c⟩ := t
    obtain ⟨n1, n2, n3⟩ := hv.good.nd _ ht
    simp only at n1 n2 n3
    simp only [Tri.darts, List.mem_cons, List.not_mem_nil, or_false] at he
    rcases he with rfl | rfl | rfl
    · exact n1 (h4.trans h3.symm)
    · exact n2 (h4.trans h3.symm)
    · exact n3 (h4.trans h3.symm)

theorem Sqrt3Result.valence_new {t : Tri} (ht : t ∈ inp.tris) {e₀ : Edge} (he₀ : e₀ ∈ t.darts) {v : PId} (hm : σ e₀ = some v) :
    out.valence v = 3 + t.darts.countP fun e => decide (e.sym ∈ dartsOf inp.tris) := by
  have hin : ∀ e, σ e = some v ↔ e ∈ t.darts := fun e =>
    ⟨fun h => R.centres.inj _ _ _ hm h t ht he₀, fun h => (R.centres.same t ht e h e₀ he₀).trans hm⟩
  have nd := hv.good.oriented
  have ndt : t.darts.Nodup := by
    obtain ⟨n1, n2, n3⟩ := hv.good.nd t ht
    obtain ⟨a, b, c⟩ := t
    simp only at n1 n2 n3
    simp [Tri.darts, n1, n2, n3, n1.symm, n3.symm]
  have c1 : (dartsOf inp.tris).countP (fun e => decide (σ e = some v)) = 3 := by
    rw [List.countP_eq_length_filter, show 3 = t.darts.length from rfl]
    refine ((List.perm_ext_iff_of_nodup (nd.filter _) ndt).2 fun e => ?_).length_eq
    rw [List.mem_filter, decide_eq_true_eq, hin]
    exact ⟨fun h => h.2, fun h => ⟨mem_dartsOf.2 ⟨t, ht, h⟩, h⟩⟩
  have c2 : (dartsOf inp.tris).countP (fun e => decide (σ e.sym = some v)) =
      t.darts.countP fun e => decide (e.sym ∈ dartsOf inp.tris) := by
    rw [List.countP_eq_length_filter, List.countP_eq_length_filter, ← List.length_map (f := Edge.sym)]
    refine ((List.perm_ext_iff_of_nodup ((nd.filter _).map fun _ _ => Edge.sym_inj) (ndt.filter _)).2 fun e => ?_).length_eq
    simp only [List.mem_map, List.mem_filter, decide_eq_true_eq, hin]
    constructor
    · rintro ⟨e', ⟨h1, h2⟩, rfl⟩
      exact ⟨h2, h1⟩
    · rintro ⟨h1, h2⟩
      exact ⟨e.sym, ⟨h2, h1⟩, rfl⟩
  rw [R.valence_eq hv hall, ← c1, ← c2, ← countP_or]
  · refine List.countP_congr fun e he => ?_
    obtain ⟨w, hσ⟩ := Option.isSome_iff_exists.1 (hall e he)
    obtain ⟨s, hs, hes⟩ := mem_dartsOf.1 he
    have hf : v ≠ e.1 ∧ v ≠ e.2 := by
      have := R.centres.fresh _ _ hm s hs
      exact ⟨fun hc => this (hc ▸ Tri.dart_fst hes), fun hc => this (hc ▸ Tri.dart_snd hes)⟩
    rw [decide_eq_true_eq, Bool.or_eq_true, decide_eq_true_eq, decide_eq_true_eq, hσ]
    unfold sq3Piece
    cases hs : σ e.sym with
    | none =>
      simp only [Option.getD_some, Tri.verts, List.mem_cons, List.not_mem_nil, or_false, hf.1, hf.2, false_or,
        Option.some.injEq, reduceCtorEq]
      exact eq_comm
    | some v' =>
      simp only [Option.getD_some, Tri.verts, List.mem_cons, List.not_mem_nil, or_false, hf.2, Option.some.injEq]
      rw [eq_comm (a := v), eq_comm (a := v)]
  · rintro e he ⟨h1, h2⟩
    rw [decide_eq_true_eq, hin] at h1 h2
    exact Tri.dart_not_sym (hv.good.nd t ht) h1 h2

end
end Verif
