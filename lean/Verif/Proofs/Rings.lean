import Verif.Proofs.FaceSplit
import Verif.Model.EdgeFilters
import Mathlib.Data.Nat.Find
import Mathlib.Data.List.Nodup
import Mathlib.Data.List.Perm.Subperm
/-
Walking around a point: the `Onext` loops end and meet every edge at the point exactly once.
-/
namespace Verif
variable {P D : Type}

namespace Mesh.RingOK
variable {m : Mesh P D} (h : m.RingOK)
include h

theorem iter_edge {e : Edge} (he : m.IsEdge e) (k : Nat) :
    ∃ e', m.onextIter k e = some e' ∧ m.IsEdge e' ∧ e'.1 = e.1 := by
  induction k with
  | zero => exact ⟨e, rfl, he, rfl⟩
  | succ k ih =>
    obtain ⟨e', h1, h2, h3⟩ := ih
    obtain ⟨e'', h4, h5, h6⟩ := h.onext_some e' h2
    exact ⟨e'', by simp [Mesh.onextIter, h1, h4], h5, h6.trans h3⟩

theorem iter_add {e e' : Edge} {i : Nat} (h1 : m.onextIter i e = some e') (j : Nat) :
    m.onextIter (i + j) e = m.onextIter j e' := by
  induction j with
  | zero => simpa [Mesh.onextIter] using h1
  | succ j ih => rw [← Nat.add_assoc]; simp only [Mesh.onextIter, ih]

/-- every edge has a predecessor -/
theorem pred {e : Edge} (he : m.IsEdge e) : ∃ e', m.IsEdge e' ∧ e'.1 = e.1 ∧ m.ring.onext e' = some e := by
  obtain ⟨e1, h1, h2, h3⟩ := h.onext_some e he
  obtain ⟨k, hk⟩ := h.one_ring e1 e h2 he h3
  cases k with
  | zero =>
    simp only [Mesh.onextIter, Option.some.injEq] at hk
    subst hk
    exact ⟨e1, h2, rfl, h1⟩
  | succ k =>
    obtain ⟨e2, h4, h5, h6⟩ := h.iter_edge h2 k
    simp only [Mesh.onextIter, h4, Option.bind_some] at hk
    exact ⟨e2, h5, h6.trans h3, hk⟩

theorem oprev_some {e : Edge} (he : m.IsEdge e) :
    ∃ e', m.ring.oprev e = some e' ∧ m.IsEdge e' ∧ e'.1 = e.1 := by
  obtain ⟨e', h1, h2, h3⟩ := h.pred he
  exact ⟨e', (h.oprev_iff e' e h1 he).2 h3, h1, h2⟩

/-- the first return to the start -/
theorem period {e : Edge} (he : m.IsEdge e) : ∃ k, 0 < k ∧ m.onextIter k e = some e ∧
    ∀ j, 0 < j → j < k → m.onextIter j e ≠ some e := by
  classical
  obtain ⟨e1, h1, h2, h3⟩ := h.onext_some e he
  obtain ⟨k, hk⟩ := h.one_ring e1 e h2 he h3
  have hex : ∃ k, 0 < k ∧ m.onextIter k e = some e :=
    ⟨1 + k, by omega, by rw [h.iter_add (e' := e1) (by simpa [Mesh.onextIter] using h1)]; exact hk⟩
  refine ⟨Nat.find hex, (Nat.find_spec hex).1, (Nat.find_spec hex).2, ?_⟩
  intro j h0 hj hc
  exact Nat.find_min hex hj ⟨h0, hc⟩

theorem iter_inj {e : Edge} {k : Nat} (hk : m.onextIter k e = some e)
    (hmin : ∀ j, 0 < j → j < k → m.onextIter j e ≠ some e) {i j : Nat} (hij : i < j) (hj : j < k) :
    m.onextIter i e ≠ m.onextIter j e := by
  intro heq
  rcases hx : m.onextIter j e with _ | x
  · rw [show k = j + (k - j) by omega] at hk
    have : ∀ d, m.onextIter (j + d) e = none := by
      intro d
      induction d with
      | zero => exact hx
      | succ d ih => rw [← Nat.add_assoc]; simp [Mesh.onextIter, ih]
    rw [this] at hk
    cases hk
  · have h1 : m.onextIter (i + (k - j)) e = some e := by
      rw [h.iter_add (heq.trans hx), ← h.iter_add hx, show j + (k - j) = k by omega, hk]
    exact hmin _ (by omega) (by omega) h1

theorem iter_mod {e : Edge} {k : Nat} (h0 : 0 < k) (hk : m.onextIter k e = some e) (j : Nat) :
    m.onextIter j e = m.onextIter (j % k) e := by
  induction j using Nat.strongRecOn with
  | _ j ih =>
    by_cases hj : j < k
    · rw [Nat.mod_eq_of_lt hj]
    · have : m.onextIter j e = m.onextIter (j - k) e := by
        conv_lhs => rw [show j = k + (j - k) by omega]
        exact h.iter_add hk _
      rw [this, ih (j - k) (by omega), ← Nat.mod_eq_sub_mod (by omega)]

end Mesh.RingOK

/-- the edges of a ring are edges of the mesh -/
theorem isEdge_mem {m : Mesh P D} {e : Edge} : m.IsEdge e ↔ e ∈ m.edges ++ m.edges.map Edge.sym := by
  unfold Mesh.IsEdge
  rw [List.mem_append, List.mem_map]
  constructor
  · rintro (h | h)
    · exact Or.inl h
    · exact Or.inr ⟨_, h, by simp⟩
  · rintro (h | ⟨x, h, rfl⟩)
    · exact Or.inl h
    · exact Or.inr (by simpa using h)

/-- a ring as the list of its first `k` steps -/
theorem ring_list {m : Mesh P D} (h : m.RingOK) {e : Edge} (he : m.IsEdge e) :
    ∃ (k : Nat) (it : Nat → Edge), 0 < k ∧ k ≤ 2 * m.edges.length ∧ it 0 = e ∧ it k = e ∧
      (∀ j, 0 < j → j < k → it j ≠ e) ∧ (∀ j, m.onextIter j e = some (it j)) ∧
      (∀ j, m.ring.onext (it j) = some (it (j + 1))) ∧ ((List.range k).map it).Nodup ∧
      ∀ e', e' ∈ (List.range k).map it ↔ m.IsEdge e' ∧ e'.1 = e.1 := by
  obtain ⟨k, h0, hk, hmin⟩ := h.period he
  choose it h1 h2 h3 using h.iter_edge he
  have hnd : ((List.range k).map it).Nodup := by
    rw [List.nodup_map_iff_inj_on List.nodup_range]
    intro i hi j hj hij
    rw [List.mem_range] at hi hj
    rcases Nat.lt_trichotomy i j with hlt | heq | hgt
    · exact absurd (by rw [h1, h1, hij]) (h.iter_inj hk hmin hlt hj)
    · exact heq
    · exact absurd (by rw [h1, h1, hij]) (h.iter_inj hk hmin hgt hi)
  have hmem : ∀ e', e' ∈ (List.range k).map it ↔ m.IsEdge e' ∧ e'.1 = e.1 := by
    intro e'
    rw [List.mem_map]
    constructor
    · rintro ⟨j, _, rfl⟩; exact ⟨h2 j, h3 j⟩
    · rintro ⟨h4, h5⟩
      obtain ⟨j, hj⟩ := h.one_ring e e' he h4 h5.symm
      rw [h.iter_mod h0 hk, h1] at hj
      exact ⟨j % k, List.mem_range.2 (Nat.mod_lt _ h0), Option.some.inj hj⟩
  refine ⟨k, it, h0, ?_, ?_, ?_, ?_, h1, ?_, hnd, hmem⟩
  · have hsub : (List.range k).map it ⊆ m.edges ++ m.edges.map Edge.sym := by
      intro e' he'
      exact isEdge_mem.1 ((hmem e').1 he').1
    have := (List.subperm_of_subset hnd hsub).length_le
    simp only [List.length_map, List.length_range, List.length_append] at this
    omega
  · exact (Option.some.inj (h1 0)).symm
  · have := h1 k
    rw [hk] at this
    exact (Option.some.inj this).symm
  · intro j hj hjk hc
    exact hmin j hj hjk (by rw [h1, hc])
  · intro j
    have := h1 (j + 1)
    simpa [Mesh.onextIter, h1] using this

/-- the loop around a point ends, and meets each edge at the point once -/
theorem ringAt_ok {m : Mesh P D} (h : m.RingOK) {e : Edge} (he : m.IsEdge e) :
    ∃ r, ringAt m e = .ok r ∧ r.Nodup ∧ ∀ e', e' ∈ r ↔ m.IsEdge e' ∧ e'.1 = e.1 := by
  obtain ⟨k, it, h0, hle, hi0, hik, hne, _, hnext, hnd, hmem⟩ := ring_list h he
  refine ⟨(List.range k).map it, ?_, hnd, hmem⟩
  have key : ∀ (d j fuel : Nat), j + d + 1 = k → d < fuel →
      ringFrom m e fuel (it j) = .ok ((List.range' j (d + 1)).map it) := by
    intro d
    induction d with
    | zero =>
      intro j fuel hj hf
      obtain ⟨fuel, rfl⟩ := Nat.exists_eq_succ_of_ne_zero (by omega : fuel ≠ 0)
      have : it (j + 1) = e := by rw [show j + 1 = k by omega]; exact hik
      simp [ringFrom, hnext, this]
    | succ d ih =>
      intro j fuel hj hf
      obtain ⟨fuel, rfl⟩ := Nat.exists_eq_succ_of_ne_zero (by omega : fuel ≠ 0)
      have : it (j + 1) ≠ e := hne _ (by omega) (by omega)
      simp only [ringFrom, hnext, this, if_false]
      rw [ih (j + 1) fuel (by omega) (by omega)]
      rw [List.range'_succ (n := d + 1)]
      rfl
  have := key (k - 1) 0 (2 * m.edges.length + 1) (by omega) (by omega)
  rw [hi0] at this
  unfold ringAt
  rw [this, List.range_eq_range', show k - 1 + 1 = k by omega]

/-- the walk of the Loop edge filter around a point ends, with `copyFlag` set -/
theorem loopEdgeWalk_ok {m : Mesh P D} (h : m.RingOK) {e : Edge} (he : m.IsEdge e) (sel : List (Option Edge)) :
    loopEdgeWalk m sel e (2 * m.edges.length + 1) e (m.ring.onext e) = .ok true := by
  obtain ⟨k, it, h0, hle, hi0, hik, hne, _, hnext, hnd, hmem⟩ := ring_list h he
  have key : ∀ (d j fuel : Nat), j + d + 1 = k → d < fuel →
      loopEdgeWalk m sel e fuel (it j) (some (it (j + 1))) = .ok true := by
    intro d
    induction d with
    | zero =>
      intro j fuel hj hf
      obtain ⟨fuel, rfl⟩ := Nat.exists_eq_succ_of_ne_zero (by omega : fuel ≠ 0)
      have : it (j + 1) = e := by rw [show j + 1 = k by omega]; exact hik
      simp [loopEdgeWalk, this]
    | succ d ih =>
      intro j fuel hj hf
      obtain ⟨fuel, rfl⟩ := Nat.exists_eq_succ_of_ne_zero (by omega : fuel ≠ 0)
      unfold loopEdgeWalk
      split
      · rfl
      · split
        · rfl
        · simp only [hnext]
          exact ih (j + 1) fuel (by omega) (by omega)
  have := key (k - 1) 0 (2 * m.edges.length + 1) (by omega) (by omega)
  rw [← hnext 0, hi0] at this
  exact this

end Verif
