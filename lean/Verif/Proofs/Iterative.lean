import Verif.Spec.Iterative
import Verif.Properties.FaceSplit
import Verif.Properties.Sqrt3
/-
Induction over the levels of the iterative filter.
-/
set_option linter.unusedSectionVars false
namespace Verif
variable {K P D : Type} [Field K] [Zero P] [Add P] [SMul K P]

/-- the loop, as long as the filters it will use are new and the one before holds the selection -/
theorem iterLoop_eq (sch : Scheme) (lib : QELib) (cosn : Nat → K) (n i : Nat) (fs : List Filt) (cur : Mesh P D)
    (prev : Filt) (hprev : fs[i]? = some prev) (hnew : ∀ j, i < j → j < i + 1 + n → fs[j]? = some Filt.new) :
    (iterLoop sch lib cosn n (i + 1) fs cur).1 = (manyLevels sch lib cosn n (cur, prev.cells)).map Prod.fst := by
  induction n generalizing i fs cur prev with
  | zero => rfl
  | succ n ih =>
    have h1 := hnew (i + 1) (by omega) (by omega)
    unfold iterLoop manyLevels oneLevel
    rw [h1, Nat.add_sub_cancel, hprev]
    dsimp only
    rcases hc : cellUpdate sch lib cosn (Filt.new.setCells prev.cells) cur with ⟨_ | m, g⟩
    · rfl
    · have hlt : i + 1 < fs.length := (List.getElem?_eq_some_iff.1 h1).1
      refine ih (i + 1) (fs.set (i + 1) g) m g (by rw [List.getElem?_set_self hlt]) ?_
      intro j hj hj'
      rw [List.getElem?_set_ne (by omega)]
      exact hnew j (by omega) (by omega)

theorem levelsOf_eq (n : Nat) : max 1 n = levelsOf n := by unfold levelsOf; split <;> omega

theorem iterUpdate_eq (sch : Scheme) (lib : QELib) (cosn : Nat → K) (f : Iter) (inp : Mesh P D) :
    (iterUpdate sch lib cosn f inp).1 = (manyLevels sch lib cosn (levelsOf f.levels) (inp, f.cells)).map Prod.fst := by
  unfold iterUpdate
  have hl := levelsOf_eq f.levels
  obtain ⟨n, hn⟩ : ∃ n, levelsOf f.levels = n + 1 := ⟨levelsOf f.levels - 1, by omega⟩
  rw [hl, hn]
  simp only [List.getElem?_replicate, Nat.zero_lt_succ, if_true]
  unfold manyLevels oneLevel
  dsimp only
  rcases hc : cellUpdate sch lib cosn (Filt.new.setCells f.cells) inp with ⟨_ | m, g⟩
  · rfl
  · refine iterLoop_eq sch lib cosn n 0 _ m g ?_ ?_
    · rw [List.getElem?_set_self (by simp)]
    · intro j hj hj'
      rw [List.getElem?_set_ne (by omega), List.getElem?_replicate, if_pos (by omega)]

theorem iterUpdate_cells (sch : Scheme) (lib : QELib) (cosn : Nat → K) (f : Iter) (inp : Mesh P D) :
    (iterUpdate sch lib cosn f inp).2.cells = f.cells ∧ (iterUpdate sch lib cosn f inp).2.levels = f.levels := by
  unfold iterUpdate
  dsimp only
  split
  · exact ⟨rfl, rfl⟩
  · split <;> exact ⟨rfl, rfl⟩

/-- the list left by a selective run of SquareThree is at most three times as long -/
theorem sqrt3_next_length {inp out : Mesh P D} {lib : QELib} {cosn : Nat → K} {f f' : Filt} (hv : inp.Valid)
    (hsel : inp.SelOK f.cells) (hmax : inp.points.length + (inp.selected f.cells).length ≤ idMax)
    (h : cellUpdate .sqrt3 lib cosn f inp = (.ok out, f')) :
    (out.selected f'.cells).length ≤ 3 * (inp.selected f.cells).length := by
  have R := sqrt3Update_result hv hsel hmax h
  have hov := R.valid hv
  obtain ⟨h1, h2⟩ := C16_selection_after_run_sqrt3 hv hsel hmax h
  by_cases hne : f.cells = []
  · rw [h1 hne, hne]
    obtain ⟨out', g, hc, _, e2, e3, _⟩ := C11_sqrt3_completes lib cosn hv hsel hmax
    rw [h] at hc
    cases hc
    have := (e3 hne).1
    simp only [Mesh.selected, List.isEmpty_nil, if_true]
    rw [← e2, this, hv.tris_length]
  · obtain ⟨-, hnd, hok, hiff⟩ := h2 hne
    have hle : (out.selected f'.cells).length ≤ f'.cells.length := by
      unfold Mesh.selected
      split
      · rename_i he
        exact absurd (List.isEmpty_iff.1 he) (h2 hne).1
      · exact List.length_filterMap_le _ _
    refine hle.trans ?_
    -- every listed cell is a piece at a directed edge of a selected triangle
    let pieces := (dartsOf (inp.selected f.cells)).map
      fun e => some (sq3Piece (inp.centreOf f.cells) ((inp.centreOf f.cells e).getD 0) e)
    have hlen : pieces.length = 3 * (inp.selected f.cells).length := by
      simp only [pieces, List.length_map, dartsOf, List.length_flatMap]
      have : ∀ l : List Tri, (l.map fun t => t.darts.length).sum = 3 * l.length := by
        intro l; induction l with
        | nil => rfl
        | cons t l ih => rw [List.map_cons, List.sum_cons, ih, List.length_cons]; simp only [Tri.darts, List.length_cons, List.length_nil]; omega
      exact this _
    have hsub : f'.cells.map out.triAt ⊆ pieces := by
      intro x hx
      obtain ⟨k, hk, rfl⟩ := List.mem_map.1 hx
      obtain ⟨t, ht, htk⟩ := hov.sel_tri hok hk
      obtain ⟨j, hj, t', hj', hm⟩ := (hiff k t ht).1 hk
      have hs : t' ∈ inp.selected f.cells := (hv.mem_selected hne).2 ⟨j, hj, hj'⟩
      have hT : t' ∈ inp.tris := hv.mem_tris.2 ⟨_, hj'⟩
      rw [htk]
      rcases hm with ⟨_, hm⟩ | ⟨e, he, v, h3, h4⟩
      · have hd0 : (t'.1, t'.2.1) ∈ t'.darts := by simp [Tri.darts]
        have := (centreOf_isSome hv hT hd0).2 hs
        rw [hm _ hd0] at this; cases this
      · rcases h4 with h4 | ⟨v', h5, h4⟩
        · exact List.mem_map.2 ⟨e, mem_dartsOf.2 ⟨t', hs, he⟩, by rw [h3, h4]; rfl⟩
        · obtain ⟨t'', ht'', he''⟩ := mem_dartsOf.1 (R.centres.only _ _ h5)
          have hs'' := (centreOf_isSome (sel := f.cells) hv ht'' he'').1 (by rw [h5]; rfl)
          exact List.mem_map.2 ⟨e.sym, mem_dartsOf.2 ⟨t'', hs'', he''⟩, by rw [h5, h4]; rfl⟩
    have hnd' : (f'.cells.map out.triAt).Nodup := by
      refine List.Nodup.map_on ?_ hnd
      intro k hk k' hk' he
      obtain ⟨t, ht, htk⟩ := hov.sel_tri hok hk
      obtain ⟨t', ht', htk'⟩ := hov.sel_tri hok hk'
      rw [htk, htk'] at he
      cases he
      exact hov.id_unique ht ht'
    have := (hnd'.subperm hsub).length_le
    rwa [List.length_map, hlen] at this

/-- everything about one level -/
theorem oneLevel_ok {sch : Scheme} {lib : QELib} (cosn : Nat → K) (hl : sch = .loop ∨ sch = .butterfly → lib.Lawful)
    {m : Mesh P D} {sel : List CId} (hn : sch.Needs m) (hsel : m.SelOK sel) {L : Nat} (hid : sch.IdsLeft (L + 1) m sel) :
    ∃ m' sel', oneLevel sch lib cosn (m, sel) = .ok (m', sel') ∧ sch.Needs m' ∧ m'.SelOK sel' ∧
      sch.IdsLeft L m' sel' ∧ (sel = [] → sel' = [] ∧ m'.cells.length = sch.factor * m.cells.length) ∧
      (sel ≠ [] → sch.Step m sel m' sel') := by
  have hnil : ∀ (m : Mesh P D) (l : List CId), l = [] → m.SelOK l := by rintro m _ rfl k hk; cases hk
  by_cases hs : sch = .sqrt3
  · subst hs
    have hv := hn.valid
    have hid' := hid rfl
    have e3 : (3 ^ (L + 1) - 1) / 2 = 1 + 3 * ((3 ^ L - 1) / 2) := by
      have : 3 ^ L % 2 = 1 := by
        rw [Nat.pow_mod]; simp
      rw [Nat.pow_succ]; omega
    rw [e3, Nat.mul_add, Nat.mul_one] at hid'
    have hmax : m.points.length + (m.selected (Filt.new.setCells sel).cells).length ≤ idMax := by
      have : (Filt.new.setCells sel).cells = sel := rfl
      rw [this]; omega
    have hsel' : m.SelOK (Filt.new.setCells sel).cells := hsel
    obtain ⟨out, f', h, e1, e2, e4, -⟩ := C11_sqrt3_completes (f := Filt.new.setCells sel) lib cosn hv hsel' hmax
    obtain ⟨hov, -⟩ := C13_sqrt3_valid hv hsel' hmax h
    obtain ⟨u1, u2⟩ := C16_selection_after_run_sqrt3 hv hsel' hmax h
    have hlen := sqrt3_next_length hv hsel' hmax h
    have R := sqrt3Update_result hv hsel' hmax h
    have hpts : out.points.length = m.points.length + (m.selected sel).length := by
      rw [R.points, AMap.length_dense, List.length_append, List.length_map, List.length_map, List.length_range]
      rfl
    refine ⟨out, f'.cells, by unfold oneLevel; rw [h], ⟨hov, by simp, by simp⟩, ?_, ?_, ?_, ?_⟩
    · by_cases hne : sel = []
      · exact hnil _ _ (u1 hne)
      · exact (u2 hne).2.2.1
    · intro _
      have hlen' : (out.selected f'.cells).length ≤ 3 * (m.selected sel).length := hlen
      have := Nat.mul_le_mul_right ((3 ^ L - 1) / 2) hlen'
      have e5 : 3 * (m.selected sel).length * ((3 ^ L - 1) / 2) = (m.selected sel).length * (3 * ((3 ^ L - 1) / 2)) := by
        ring
      rw [e5] at this
      omega
    · intro hne
      exact ⟨u1 hne, (e4 hne).1⟩
    · intro hne
      obtain ⟨u3, u4, u5, u6⟩ := u2 hne
      exact ⟨hne, hsel, hov, e1, u5, u3, u6⟩
  · have hsel' : m.SelOK (Filt.new.setCells sel).cells := hsel
    obtain ⟨out, f', h, e1, e2⟩ := C01_face_split_completes (f := Filt.new.setCells sel) hs lib cosn hn hsel'
    obtain ⟨hov, hring, hiso, -⟩ := C04_output_valid hs hn hsel' h
    obtain ⟨u1, u2⟩ := C16_selection_after_run hs hn hsel' h
    refine ⟨out, f'.cells, by unfold oneLevel; rw [h],
      ⟨hov, fun hb => hring (hl hb), fun hb => hiso (hn.noIsolated hb)⟩, ?_, fun h => absurd h hs, ?_, ?_⟩
    · by_cases hne : sel = []
      · exact hnil _ _ (u1 hne)
      · exact (u2 hne).2.2.1
    · intro hne
      refine ⟨u1 hne, ?_⟩
      rw [C02_uniform_times_four hs hn hne h]
      cases sch <;> first | rfl | exact absurd rfl hs
    · intro hne
      obtain ⟨u3, u4, u5, u6⟩ := u2 hne
      have : FaceSplitStep m sel out f'.cells := ⟨hne, hsel, hov, e1, u5, u3, u6⟩
      cases sch <;> first | exact this | exact absurd rfl hs

theorem manyLevels_ok {sch : Scheme} {lib : QELib} (cosn : Nat → K) (hl : sch = .loop ∨ sch = .butterfly → lib.Lawful)
    (L : Nat) {m : Mesh P D} {sel : List CId} (hn : sch.Needs m) (hsel : m.SelOK sel) (hid : sch.IdsLeft L m sel) :
    ∃ m' sel', manyLevels sch lib cosn L (m, sel) = .ok (m', sel') ∧ sch.Needs m' ∧ m'.SelOK sel' ∧
      (sel = [] → sel' = [] ∧ m'.cells.length = sch.factor ^ L * m.cells.length) ∧
      (sel ≠ [] → Refined sch L m sel m' sel') := by
  induction L generalizing m sel with
  | zero => exact ⟨m, sel, rfl, hn, hsel, fun h => ⟨h, by simp⟩, fun _ => .refl m sel⟩
  | succ L ih =>
    obtain ⟨m1, s1, h1, hn1, hs1, hid1, hu1, hp1⟩ := oneLevel_ok cosn hl hn hsel hid
    obtain ⟨m2, s2, h2, hn2, hs2, hu2, hp2⟩ := ih hn1 hs1 hid1
    refine ⟨m2, s2, ?_, hn2, hs2, ?_, ?_⟩
    · unfold manyLevels
      rw [h1]
      exact h2
    · intro hne
      obtain ⟨a, b⟩ := hu1 hne
      obtain ⟨c, d⟩ := hu2 a
      exact ⟨c, by rw [d, b, pow_succ, Nat.mul_assoc]⟩
    · intro hne
      have st := hp1 hne
      refine .step st (hp2 ?_)
      cases sch <;> exact st.next_some

end Verif
