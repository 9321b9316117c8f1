import Verif.Spec.Similar
import Verif.Proofs.Iterative
import Verif.Properties.Points
import Mathlib.Tactic.Module
/-
The uniform Linear filter cuts each triangle into quarters.
-/
namespace Verif
set_option linter.unusedSectionVars false
variable {K P D : Type} [Field K] [AddCommGroup P] [Module K P]

theorem Mesh.Valid.at_places {m : Mesh P D} (h : m.Valid) : ∃ T, m.At T := by
  refine ⟨m.tris.map fun t => (m.coord t.1, m.coord t.2.1, m.coord t.2.2), ?_⟩
  unfold Mesh.At Mesh.coordTris
  rw [List.map_map]
  refine List.map_congr_left fun t ht => ?_
  rw [h.pos_eq (h.verts_lt ht (by simp [Tri.verts])), h.pos_eq (h.verts_lt ht (by simp [Tri.verts])),
    h.pos_eq (h.verts_lt ht (by simp [Tri.verts]))]
  rfl

theorem Mesh.At.unique {m : Mesh P D} {T T' : List (P × P × P)} (h : m.At T) (h' : m.At T') : T = T' := by
  have := h.symm.trans h'
  refine (List.map_injective_iff.2 ?_) this
  rintro ⟨a, b, c⟩ ⟨a', b', c'⟩ e
  simpa using e

theorem linear_quarters {lib : QELib} {cosn : Nat → K} {f f' : Filt} {inp out : Mesh P D} (hv : inp.Valid) (hf : f.cells = [])
    (h : cellUpdate .linear lib cosn f inp = (.ok out, f')) {T : List (P × P × P)} (hT : inp.At T) :
    out.At (T.flatMap (quarter K)) := by
  have hsel : inp.SelOK f.cells := by rw [hf]; intro k hk; cases hk
  have hn : Scheme.linear.Needs inp := ⟨hv, by simp, by simp⟩
  have R := (cellUpdate_result (by decide) hn hsel h).1
  have hk := C06_original_points_kept (by decide) hv.points_dense h
  have hT' : T = inp.tris.map fun t => (inp.coord t.1, inp.coord t.2.1, inp.coord t.2.2) := by
    refine hT.unique ?_
    unfold Mesh.At Mesh.coordTris
    rw [List.map_map]
    refine List.map_congr_left fun t ht => ?_
    rw [hv.pos_eq (hv.verts_lt ht (by simp [Tri.verts])), hv.pos_eq (hv.verts_lt ht (by simp [Tri.verts])),
      hv.pos_eq (hv.verts_lt ht (by simp [Tri.verts]))]
    rfl
  unfold Mesh.At Mesh.coordTris
  rw [R.tris, hT', List.map_flatMap, List.flatMap_map, List.map_flatMap]
  refine List.flatMap_congr fun t ht => ?_
  obtain ⟨a, b, c⟩ := t
  have hall : ∀ e ∈ Tri.darts (a, b, c), (inp.edgePoint f.cells e).isSome := fun e he => by
    rw [edgePoint_isSome, hf]
    exact Or.inl (mem_dartsOf.2 ⟨_, by simpa [Mesh.selected] using ht, he⟩)
  have pa := hv.pos_eq (hv.verts_lt ht (show a ∈ _ by simp [Tri.verts]))
  have pb := hv.pos_eq (hv.verts_lt ht (show b ∈ _ by simp [Tri.verts]))
  have pc := hv.pos_eq (hv.verts_lt ht (show c ∈ _ by simp [Tri.verts]))
  obtain ⟨m0, h0⟩ := Option.isSome_iff_exists.1 (hall (a, b) (by simp [Tri.darts]))
  obtain ⟨m1, h1⟩ := Option.isSome_iff_exists.1 (hall (b, c) (by simp [Tri.darts]))
  obtain ⟨m2, h2⟩ := Option.isSome_iff_exists.1 (hall (c, a) (by simp [Tri.darts]))
  simp only [Tri.children, h0, h1, h2, quarter, between, List.map_cons, List.map_nil, hk _ _ pa, hk _ _ pb, hk _ _ pc,
    C07_linear_midpoints hv hsel h h0 pa pb, C07_linear_midpoints hv hsel h h1 pb pc, C07_linear_midpoints hv hsel h h2 pc pa]

theorem linear_levels (lib : QELib) (cosn : Nat → K) (n : Nat) {m : Mesh P D} (hv : m.Valid) {T : List (P × P × P)} (hT : m.At T) :
    ∃ m', manyLevels .linear lib cosn n (m, []) = .ok (m', []) ∧ m'.Valid ∧ m'.At (quarters K n T) := by
  induction n generalizing m T with
  | zero => exact ⟨m, rfl, hv, hT⟩
  | succ n ih =>
    have hn : Scheme.linear.Needs m := ⟨hv, by simp, by simp⟩
    have hid : Scheme.linear.IdsLeft 1 m [] := by intro h; cases h
    obtain ⟨m1, s1, h1, hn1, -, hu1, -⟩ := manyLevels_ok cosn (sch := .linear) (lib := lib) (by simp) 1 hn (sel := []) (fun k hk => by cases hk) hid
    obtain rfl := (hu1 rfl).1
    have h1' : oneLevel .linear lib cosn (m, []) = .ok (m1, []) := by
      unfold manyLevels at h1
      cases ho : oneLevel .linear lib cosn (m, []) with
      | error e => rw [ho] at h1; cases h1
      | ok x => rw [ho] at h1; exact h1
    have hAt : m1.At (T.flatMap (quarter K)) := by
      unfold oneLevel at h1'
      rcases hc : cellUpdate .linear lib cosn (Filt.new.setCells []) m with ⟨r, f'⟩
      simp only [hc] at h1'
      cases r with
      | error e => cases h1'
      | ok out =>
        obtain ⟨rfl, -⟩ := Prod.mk.inj (Except.ok.inj h1')
        exact linear_quarters hv rfl hc hT
    obtain ⟨m2, h2, hv2, hT2⟩ := ih hn1.valid hAt
    refine ⟨m2, ?_, hv2, hT2⟩
    unfold manyLevels
    rw [h1']
    exact h2

theorem quarter_copy [CharZero K] {t x : P × P × P} (h : x ∈ quarter K t) :
    ∃ s : K, (s = 1 / 2 ∨ s = -(1 / 2)) ∧ ScaledCopy s t x := by
  obtain ⟨a, b, c⟩ := t
  simp only [quarter, between, List.mem_cons, List.not_mem_nil, or_false] at h
  rcases h with rfl | rfl | rfl | rfl
  · exact ⟨1 / 2, .inl rfl, (1 / 2 : K) • a, .inl (by ext1 <;> [module; ext1 <;> module])⟩
  · exact ⟨1 / 2, .inl rfl, (1 / 2 : K) • b, .inl (by ext1 <;> [module; ext1 <;> module])⟩
  · exact ⟨1 / 2, .inl rfl, (1 / 2 : K) • c, .inr (.inl (by ext1 <;> [module; ext1 <;> module]))⟩
  · exact ⟨-(1 / 2), .inr rfl, (1 / 2 : K) • (a + b + c), .inr (.inr (by ext1 <;> [module; ext1 <;> module]))⟩

theorem ScaledCopy.trans {s s' : K} {t x y : P × P × P} (h : ScaledCopy s t x) (h' : ScaledCopy s' x y) :
    ScaledCopy (s' * s) t y := by
  obtain ⟨v, h⟩ := h
  obtain ⟨w, h'⟩ := h'
  refine ⟨w + s' • v, ?_⟩
  have k : ∀ p : P, w + s' • (v + s • p) = w + s' • v + (s' * s) • p := fun p => by module
  rcases h with rfl | rfl | rfl <;> rcases h' with rfl | rfl | rfl <;> simp only [k] <;> simp

theorem quarters_copy [CharZero K] {n : Nat} {T : List (P × P × P)} {x : P × P × P} (h : x ∈ quarters K n T) :
    ∃ t ∈ T, ∃ s : K, (s = (1 / 2) ^ n ∨ s = -(1 / 2) ^ n) ∧ ScaledCopy s t x := by
  induction n generalizing T with
  | zero => exact ⟨x, h, 1, .inl (by simp), 0, .inl (by simp)⟩
  | succ n ih =>
    obtain ⟨y, hy, s, hs, hc⟩ := ih h
    obtain ⟨t, ht, hy⟩ := List.mem_flatMap.1 hy
    obtain ⟨r, hr, hc'⟩ := quarter_copy hy
    refine ⟨t, ht, s * r, ?_, hc'.trans hc⟩
    rcases hs with rfl | rfl <;> rcases hr with rfl | rfl
    · exact .inl (by ring)
    · exact .inr (by ring)
    · exact .inr (by ring)
    · exact .inl (by ring)

end Verif
