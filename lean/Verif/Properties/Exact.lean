import Verif.Proofs.Exact
import Verif.Proofs.Sliver
import Verif.Properties.Rounding
import Verif.Properties.Sqrt3
/-
C102: with coordinates on a grid that leaves room for the new digits, the run in machine arithmetic is exact.
-/
namespace Verif
set_option linter.unusedSectionVars false
variable {P V D : Type} [Zero P] [Add P] [SMul ℝ P] [NormedAddCommGroup V] [NormedSpace ℝ V]
variable {Λ : AddSubgroup V} {N : Nat} {W M : ℝ} {val : P → V} {lib : QELib} {cosn : Nat → ℝ} {inp out : Mesh P D} {f f' : Filt}

theorem find_of_once {α : Type} {m : AMap α} (h : (m.map Prod.fst).Nodup) {x : Nat × α} (hx : x ∈ m) :
    AMap.find? m x.1 = some x.2 := by
  induction m with
  | nil => cases hx
  | cons y m ih =>
    rw [List.map_cons, List.nodup_cons] at h
    rcases List.mem_cons.1 hx with rfl | hx
    · simp [AMap.find?]
    · have hne : y.1 ≠ x.1 := fun e => h.1 (e ▸ List.mem_map_of_mem hx)
      have := ih h.2 hx
      simp only [AMap.find?]
      rw [if_neg (Ne.symm hne)]
      exact this

/-- a mesh of pairs whose second parts are the values of the first -/
theorem pairs_eq {o : Mesh (P × V) D} (hd : o.points.map Prod.fst = List.range o.points.length)
    (h : ∀ v x, o.pos v = some x → val x.1 = x.2) : o.mapPoints Prod.snd = (o.mapPoints Prod.fst).mapPoints val := by
  unfold Mesh.mapPoints
  simp only [List.map_map]
  congr 1
  refine List.map_congr_left fun x hx => ?_
  have := h x.1 x.2 (find_of_once (by rw [hd]; exact List.nodup_range) hx)
  simp [this]

theorem both_exact (hg : ∀ v p, inp.pos v = some p → val p ∈ Λ ∧ ‖val p‖ ≤ M) :
    ∀ v x, (inp.both val).pos v = some x → ExactAt Λ val 0 M x := by
  intro v x hx
  have hx' : (inp.points.find? v).map (fun p => (p, val p)) = some x := by rw [← AMap.find?_map]; exact hx
  obtain ⟨p, hp, rfl⟩ := Option.map_eq_some_iff.1 hx'
  obtain ⟨h1, h2⟩ := hg v p hp
  exact ⟨rfl, by unfold OnGrid; simpa using h1, h2⟩

/-- C102 for the Linear and Butterfly cell filters.  The coordinates of the input are on the grid `Λ` and at most `M`; the machine
is exact on the grid refined once (Linear) or four times (Butterfly), for sizes up to twice `M` (Linear) or `3/2` times `M`
(Butterfly).  Then the run in exact arithmetic gives the same mesh as the run on the machine, and it is on the refined grid. -/
theorem C102_cell {sch : Scheme} (hs : sch = .linear ∨ sch = .butterfly) (hE : ExactOn Λ N W val) (hM : 0 ≤ M)
    (hn : sch.Needs inp) (hsel : inp.SelOK f.cells) (hg : ∀ v p, inp.pos v = some p → val p ∈ Λ ∧ ‖val p‖ ≤ M)
    (hN : sch.bits ≤ N) (hW : sch.widest 0 * M ≤ W) (h : cellUpdate sch lib cosn f inp = (.ok out, f')) :
    (cellUpdate sch lib cosn f (inp.mapPoints val)).1 = .ok (out.mapPoints val) ∧
      ∀ v p, out.pos v = some p → OnGrid Λ sch.bits (val p) ∧ ‖val p‖ ≤ sch.growth * M := by
  have h1 := (C64_positions_cell (posHom_one (P := P) (V := V)) sch lib cosn f (inp.both val)).1
  have h2 := (C64_positions_cell (posHom_two (P := P) (V := V)) sch lib cosn f (inp.both val)).1
  rw [both_fst, h] at h1
  rw [both_snd] at h2
  have h3 : sch ≠ .sqrt3 := by rcases hs with rfl | rfl <;> decide
  have h4 : sch ≠ .loop := by rcases hs with rfl | rfl <;> decide
  rcases hr : cellUpdate sch lib cosn f (inp.both val) with ⟨e | o, g⟩
  · rw [hr] at h1; cases h1
  · rw [hr] at h1 h2
    obtain rfl := Except.ok.inj h1
    have hS := (hE.stable cosn h3 hM (n := 0) (by omega) hW).cell (inp := inp.both val) (f := f) hn.mapPoints hsel
      (fun h => absurd h h3) (fun h => absurd h h4) (fun h => absurd h h4) hr (both_exact hg)
    have hv := ((cellUpdate_result (inp := inp.both val) h3 hn.mapPoints hsel hr).1.valid hn.mapPoints.valid).points_dense
    refine ⟨h2.trans (congrArg Except.ok (pairs_eq hv fun v x hx => (hS v x hx).eq)), fun v p hp => ?_⟩
    unfold Mesh.pos Mesh.mapPoints at hp
    simp only [AMap.find?_map, Option.map_eq_some_iff] at hp
    obtain ⟨x, hx, rfl⟩ := hp
    have := hS v x hx
    rw [this.eq]
    exact ⟨by simpa using this.grid, this.size⟩

/-- C102 for the Linear, Loop and Butterfly edge filters. -/
theorem C102_edge {sch : EdgeScheme} (hE : ExactOn Λ N W val) (hM : 0 ≤ M)
    (hn : sch.toScheme.Needs inp) (hsel : inp.EdgeSelOK f.edgeSel)
    (hg : ∀ v p, inp.pos v = some p → val p ∈ Λ ∧ ‖val p‖ ≤ M)
    (hN : sch.toScheme.bits ≤ N) (hW : sch.toScheme.widest 0 * M ≤ W) (h : edgeUpdate sch lib cosn f inp = (.ok out, f')) :
    (edgeUpdate sch lib cosn f (inp.mapPoints val)).1 = .ok (out.mapPoints val) ∧
      ∀ v p, out.pos v = some p → OnGrid Λ sch.toScheme.bits (val p) ∧ ‖val p‖ ≤ sch.toScheme.growth * M := by
  have h1 := C64_positions_edge (posHom_one (P := P) (V := V)) sch lib cosn f (inp.both val)
  have h2 := C64_positions_edge (posHom_two (P := P) (V := V)) sch lib cosn f (inp.both val)
  rw [both_fst, h] at h1
  rw [both_snd] at h2
  have h3 : sch.toScheme ≠ .sqrt3 := by cases sch <;> decide
  rcases hr : edgeUpdate sch lib cosn f (inp.both val) with ⟨e | o, g⟩
  · rw [hr] at h1; cases h1
  · rw [hr] at h1 h2
    obtain rfl := Except.ok.inj h1
    have hS := (hE.stable cosn h3 hM (n := 0) (by omega) hW).edge (inp := inp.both val) (f := f) hn.mapPoints hsel hr
      (both_exact hg)
    have hv := ((edgeUpdate_result (inp := inp.both val) hn.mapPoints hsel hr).valid hn.mapPoints.valid).points_dense
    refine ⟨h2.trans (congrArg Except.ok (pairs_eq hv fun v x hx => (hS v x hx).eq)), fun v p hp => ?_⟩
    unfold Mesh.pos Mesh.mapPoints at hp
    simp only [AMap.find?_map, Option.map_eq_some_iff] at hp
    obtain ⟨x, hx, rfl⟩ := hp
    have := hS v x hx
    rw [this.eq]
    exact ⟨by simpa using this.grid, this.size⟩

/-- C102 for any number of levels of Linear or Butterfly: each level refines the grid again. -/
theorem C102_iterative {sch : Scheme} {f : Iter} (hs : sch = .linear ∨ sch = .butterfly) (hE : ExactOn Λ N W val) (hM : 0 ≤ M)
    (hl : sch = .butterfly → lib.Lawful) (hn : sch.Needs inp) (hsel : inp.SelOK f.cells)
    (hg : ∀ v p, inp.pos v = some p → val p ∈ Λ ∧ ‖val p‖ ≤ M)
    (hN : max 1 f.levels * sch.bits ≤ N) (hW : sch.widest 0 * sch.sizeAfter M (max 1 f.levels - 1) ≤ W)
    (h : (iterUpdate sch lib cosn f inp).1 = .ok out) :
    (iterUpdate sch lib cosn f (inp.mapPoints val)).1 = .ok (out.mapPoints val) ∧
      ∀ v p, out.pos v = some p → OnGrid Λ (max 1 f.levels * sch.bits) (val p) ∧ ‖val p‖ ≤ sch.sizeAfter M (max 1 f.levels) := by
  have h1 := C64_positions_iterative (posHom_one (P := P) (V := V)) sch lib cosn f (inp.both val)
  have h2 := C64_positions_iterative (posHom_two (P := P) (V := V)) sch lib cosn f (inp.both val)
  rw [both_fst, h] at h1
  rw [both_snd] at h2
  have h3 : sch ≠ .sqrt3 := by rcases hs with rfl | rfl <;> decide
  have h4 : sch ≠ .loop := by rcases hs with rfl | rfl <;> decide
  have hgr : 1 ≤ sch.growth := by cases sch <;> norm_num [Scheme.growth]
  have hwi : 0 ≤ sch.widest 0 := by cases sch <;> norm_num [Scheme.widest]
  rcases hr : (iterUpdate sch lib cosn f (inp.both val)).1 with e | o
  · rw [hr] at h1; cases h1
  · rw [hr] at h1 h2
    obtain rfl := Except.ok.inj h1
    obtain ⟨m, s, k1, k2, k3⟩ := manyLevels_count (lib := lib) (cosn := cosn) (sch := sch)
      (fun h => hl (h.resolve_left h4))
      (fun n m _ => n ≤ max 1 f.levels → ∀ v x, m.pos v = some x → ExactAt Λ val (n * sch.bits) (sch.sizeAfter M n) x)
      (fun n m out sel f' hn hsel _ _ h hI hle v x hx => by
        have hS := (hE.stable cosn h3 (n := n * sch.bits) (B := sch.sizeAfter M n)
          (mul_nonneg (pow_nonneg (by linarith) _) hM)
          (le_trans (by rw [← Nat.succ_mul]; exact Nat.mul_le_mul_right _ hle) hN)
          (le_trans (mul_le_mul_of_nonneg_left (mul_le_mul_of_nonneg_right (pow_le_pow_right₀ hgr (by omega)) hM) hwi) hW)).cell
          (f := Filt.new.setCells sel) hn hsel
          (fun h => absurd h h3) (fun h => absurd h h4) (fun h => absurd h h4) h (hI (by omega)) v x hx
        refine hS.mono (by rw [Nat.succ_mul]) (le_of_eq ?_)
        unfold Scheme.sizeAfter
        ring) (max 1 f.levels) 0 (m := inp.both val) (hn.mapPoints) hsel (fun h => absurd h h3)
      (fun _ v x hx => by
        have := both_exact hg v x hx
        simpa [Scheme.sizeAfter] using this)
    rw [iterUpdate_eq, ← levelsOf_eq, k1] at hr
    obtain rfl : m = o := Except.ok.inj hr
    rw [Nat.zero_add] at k3
    have hS := k3 le_rfl
    refine ⟨h2.trans (congrArg Except.ok (pairs_eq k2.valid.points_dense fun v x hx => (hS v x hx).eq)), fun v p hp => ?_⟩
    unfold Mesh.pos Mesh.mapPoints at hp
    simp only [AMap.find?_map, Option.map_eq_some_iff] at hp
    obtain ⟨x, hx, rfl⟩ := hp
    have := hS v x hx
    rw [this.eq]
    exact ⟨this.grid, this.size⟩

section double

/-- a number with at most `p` digits is not changed by rounding to `p` digits -/
theorem toDigits_kept {p N : Nat} {x : ℝ} {z : ℤ} (hx : (2 : ℝ) ^ N * x = z) (hz : |x| * 2 ^ N < 2 ^ p) : toDigits p x = x := by
  by_cases h0 : x = 0
  · subst h0; simp [toDigits]
  have h1 : (2 : ℝ) ^ Int.log 2 |x| ≤ |x| := by
    have := Int.zpow_log_le_self (b := 2) (by norm_num) (abs_pos.2 h0)
    simpa using this
  have h2 : (2 : ℝ) ^ (Int.log 2 |x| + N) < (2 : ℝ) ^ (p : ℤ) := by
    rw [zpow_add₀ (by norm_num), zpow_natCast, zpow_natCast]
    exact lt_of_le_of_lt (mul_le_mul_of_nonneg_right h1 (by positivity)) hz
  have h3 := (zpow_lt_zpow_iff_right₀ (by norm_num : (1 : ℝ) < 2)).1 h2
  obtain ⟨k, hk⟩ := Int.eq_ofNat_of_zero_le (a := p - N - 1 - Int.log 2 |x|) (by omega)
  have e : Int.log 2 |x| + 1 - p = -((N : ℤ) + k) := by omega
  have hs : (2 : ℝ) ^ (Int.log 2 |x| + 1 - (p : ℤ)) ≠ 0 := by positivity
  have h4 : x / (2 : ℝ) ^ (Int.log 2 |x| + 1 - (p : ℤ)) = ((z * 2 ^ k : ℤ) : ℝ) := by
    rw [e, zpow_neg, div_inv_eq_mul, zpow_add₀ (by norm_num), zpow_natCast, zpow_natCast]
    push_cast
    rw [← hx]
    ring
  unfold toDigits
  rw [h4, round_intCast, ← h4]
  field_simp

/-- the integers -/
def wholes : AddSubgroup ℝ := (Int.castAddHom ℝ).range

/-- Numbers with `p` binary digits, at least four: exact on multiples of `2 ^ -N` up to `W` if `2 ^ N * W < 2 ^ p`. -/
theorem exactOn_mach {p N : Nat} {W : ℝ} (hp : 4 ≤ p) (h : W * 2 ^ N < 2 ^ p) :
    ExactOn wholes N W (Mach.val : Mach (toDigits p) → ℝ) where
  zero := rfl
  add x y hg hs := by
    obtain ⟨z, hz⟩ := hg
    refine toDigits_kept (N := N) (z := z) hz.symm (lt_of_le_of_lt (mul_le_mul_of_nonneg_right hs (by positivity)) h)
  smul k hk x hg hs := by
    have h16 : (2 : ℝ) ^ 4 ≤ 2 ^ p := pow_le_pow_right₀ (by norm_num) hp
    have hkk : toDigits p k = k := by
      simp only [gridWeights, Set.mem_insert_iff, Set.mem_singleton_iff] at hk
      rcases hk with rfl | rfl | rfl | rfl | rfl
      · exact toDigits_kept (N := 4) (z := 8) (by norm_num) (by rw [abs_of_nonneg (by norm_num)]; linarith)
      · exact toDigits_kept (N := 4) (z := 12) (by norm_num) (by rw [abs_of_nonneg (by norm_num)]; linarith)
      · exact toDigits_kept (N := 4) (z := 6) (by norm_num) (by rw [abs_of_nonneg (by norm_num)]; linarith)
      · exact toDigits_kept (N := 4) (z := 2) (by norm_num) (by rw [abs_of_nonneg (by norm_num)]; linarith)
      · exact toDigits_kept (N := 4) (z := -1) (by norm_num) (by rw [abs_of_nonpos (by norm_num)]; linarith)
    obtain ⟨z, hz⟩ := hg
    change toDigits p (toDigits p k * x.val) = k * x.val
    rw [hkk]
    exact toDigits_kept (N := N) (z := z) hz.symm (lt_of_le_of_lt (mul_le_mul_of_nonneg_right hs (by positivity)) h)

/-- coordinates, with the largest one as the size -/
theorem exactOn_pi {ι Q : Type} [Fintype ι] [Zero Q] [Add Q] [SMul ℝ Q] {val : Q → ℝ} {Λ : AddSubgroup ℝ} {N : Nat} {W : ℝ}
    (h : ExactOn Λ N W val) : ExactOn (AddSubgroup.pi (Set.univ : Set ι) fun _ => Λ) N W (fun (p : ι → Q) i => val (p i)) where
  zero := funext fun _ => h.zero
  add p q hg hs := funext fun i => h.add _ _ (hg i trivial) (le_trans (norm_le_pi_norm ((fun i => val (p i)) + fun i => val (q i)) i) hs)
  smul k hk p hg hs := funext fun i => h.smul k hk _ (hg i trivial) (le_trans (norm_le_pi_norm (k • fun i => val (p i)) i) hs)

/-- points with integer coordinates -/
def wholes3 : AddSubgroup (Fin 3 → ℝ) := AddSubgroup.pi Set.univ fun _ => wholes

/-- `double`: up to `2 ^ 20`, multiples of `2 ^ -32` -/
theorem m3_exact : ExactOn wholes3 32 (2 ^ 20) m3val := exactOn_pi (exactOn_mach (by norm_num) (by norm_num))

theorem patchM_whole (v : PId) (p : M3) (h : patchM.pos v = some p) : m3val p ∈ wholes3 := by
  have hm : p ∈ [m3 0 0 0, m3 4 0 0, m3 0 4 0, m3 2 (-4) 0, m3 4 4 1, m3 (-4) 2 0] :=
    in_of_dense (C := {p | p ∈ [m3 0 0 0, m3 4 0 0, m3 0 4 0, m3 2 (-4) 0, m3 4 4 1, m3 (-4) 2 0]}) (out := patchM) rfl
      (fun _ h => h) v p h
  intro i _
  have : ∃ z : ℤ, (z : ℝ) = m3val p i := by
    simp only [List.mem_cons, List.not_mem_nil, or_false] at hm
    rcases hm with rfl | rfl | rfl | rfl | rfl | rfl <;> fin_cases i <;>
      first
        | (refine ⟨0, ?_⟩; norm_num [m3val, m3]; done) | (refine ⟨4, ?_⟩; norm_num [m3val, m3]; done)
        | (refine ⟨2, ?_⟩; norm_num [m3val, m3]; done) | (refine ⟨1, ?_⟩; norm_num [m3val, m3]; done)
        | (refine ⟨-4, ?_⟩; norm_num [m3val, m3])
  exact this

/-- eight levels of Butterfly in `double` make no error -/
example (out : Mesh M3 Nat) (h : (iterUpdate .butterfly someLib realCos ⟨[], 8, []⟩ patchM).1 = .ok out) :
    (iterUpdate .butterfly someLib realCos ⟨[], 8, []⟩ (patchM.mapPoints m3val)).1 = .ok (out.mapPoints m3val) :=
  (C102_iterative (sch := .butterfly) (f := ⟨[], 8, []⟩) (M := 4) (.inr rfl) m3_exact (by norm_num) (fun _ => someLib_lawful)
    (patchM_needs _) (selOK_nil _) (fun v p h => ⟨patchM_whole v p h, patchM_size v p h⟩) (by norm_num [Scheme.bits])
    (by norm_num [Scheme.widest, Scheme.sizeAfter, Scheme.growth]) h).1

/-- and there is such a run -/
example : ∃ out, (iterUpdate .butterfly someLib realCos ⟨[], 8, []⟩ patchM).1 = .ok out := by
  obtain ⟨m, s, h1, -⟩ := manyLevels_ok (K := ℝ) (sch := .butterfly) realCos (fun _ => someLib_lawful) 8 (patchM_needs .butterfly)
    (selOK_nil _) (fun h => by cases h)
  exact ⟨m, by rw [iterUpdate_eq, ← levelsOf_eq]; exact congrArg (Except.map Prod.fst) h1⟩

/-- one run of Linear on a selection -/
example (out : Mesh M3 Nat) (f' : Filt) (h : cellUpdate .linear someLib realCos (usedFilt [1, 3]) patchM = (.ok out, f')) :
    (cellUpdate .linear someLib realCos (usedFilt [1, 3]) (patchM.mapPoints m3val)).1 = .ok (out.mapPoints m3val) :=
  (C102_cell (sch := .linear) (f := usedFilt [1, 3]) (M := 4) (.inl rfl) m3_exact (by norm_num) (patchM_needs _) patchMesh_sel
    (fun v p h => ⟨patchM_whole v p h, patchM_size v p h⟩) (by decide) (by norm_num [Scheme.widest]) h).1

/-- one run of the Loop edge filter -/
example (out : Mesh M3 Nat) (f' : Filt) (h : edgeUpdate .loop someLib realCos (Filt.new.setEdges [some (1, 0)]) patchM = (.ok out, f')) :
    (edgeUpdate .loop someLib realCos (Filt.new.setEdges [some (1, 0)]) (patchM.mapPoints m3val)).1 = .ok (out.mapPoints m3val) :=
  (C102_edge (sch := .loop) (f := Filt.new.setEdges [some (1, 0)]) (M := 4) m3_exact (by norm_num) (patchM_needs .loop) (by
      intro e he
      simp only [Filt.setEdges, List.mem_cons, Option.some.injEq, List.not_mem_nil, or_false] at he
      subst he
      exact (patchM_ok.1.edges_iff _).2 (by rw [patchM_ok.2.2.2]; decide))
    (fun v p h => ⟨patchM_whole v p h, patchM_size v p h⟩) (by decide) (by norm_num [EdgeScheme.toScheme, Scheme.widest]) h).1

end double

theorem third_off_grid (n : Nat) : ¬ OnGrid wholes n (1 / 3 : ℝ) := by
  rintro ⟨z, hz⟩
  have h1 : ((3 * z : ℤ) : ℝ) = ((2 ^ n : ℤ) : ℝ) := by
    push_cast
    have : (z : ℝ) = 2 ^ n * (1 / 3) := hz
    rw [this]; ring
  have h2 : (3 : ℤ) ∣ 2 ^ n := ⟨z, (Int.cast_injective h1).symm⟩
  have h3 : 3 ∣ 2 ^ n := by exact_mod_cast h2
  have h4 := Nat.Prime.dvd_of_dvd_pow Nat.prime_three h3
  norm_num at h4

noncomputable def wholeTri : Mesh ℝ Nat := mk [0, 0, 1] [(0, 1, 2)] none

/-- Why SquareThree is excluded: from a triangle with the coordinates 0, 0, 1 it makes a point at a third, which is on no refined
grid, so that no number of binary digits suffices. -/
theorem C102_sqrt3_excluded (lib : QELib) (cosn : Nat → ℝ) : wholeTri.Valid ∧ (∀ v p, wholeTri.pos v = some p → p ∈ wholes) ∧
    ∃ out f', cellUpdate .sqrt3 lib cosn Filt.new wholeTri = (.ok out, f') ∧
      ∃ v p, out.pos v = some p ∧ ∀ n, ¬ OnGrid wholes n p := by
  have hok : wholeTri.Valid ∧ wholeTri.RingOK ∧ wholeTri.NoIsolated ∧ wholeTri.tris = [(0, 1, 2)] := mk_ok _ (by decide)
  refine ⟨hok.1, ?_, ?_⟩
  · refine in_of_dense (C := {p | p ∈ wholes}) (pts := [0, 0, 1]) rfl fun p hp => ?_
    simp only [List.mem_cons, List.not_mem_nil, or_false] at hp
    rcases hp with rfl | rfl | rfl
    · exact wholes.zero_mem
    · exact wholes.zero_mem
    · exact ⟨1, by norm_num⟩
  · have hs : wholeTri.selected [] = [(0, 1, 2)] := hok.2.2.2
    have hmax : wholeTri.points.length + (wholeTri.selected Filt.new.cells).length ≤ idMax := by
      change 3 + (wholeTri.selected []).length ≤ idMax
      rw [hs]; decide
    obtain ⟨out, f', h, -⟩ := sqrt3Update_ok (K := ℝ) (f := Filt.new) hok.1 lib cosn (selOK_nil _) hmax
    have := (C12_sqrt3_centroids (K := ℝ) (f := Filt.new) hok.1 (selOK_nil _) hmax h (i := 0) (a := 0) (b := 1) (c := 2)
      (by change (wholeTri.selected [])[0]? = _; rw [hs]; rfl)).1 0 0 1 rfl rfl rfl
    refine ⟨out, f', h, _, _, this, fun n => ?_⟩
    norm_num
    have := third_off_grid n
    norm_num at this
    exact this

end Verif
