import Verif.Proofs.Labels
import Verif.Proofs.Sliver
import Verif.Properties.LevelsGeo
/-
C103: labelled parts of a surface stay where they are under the Linear filters, and densities keep their totals.
-/
namespace Verif
set_option linter.unusedSectionVars false

section linear
variable {E D M : Type} [NormedAddCommGroup E] [InnerProductSpace ℝ E] [AddCommMonoid M]
variable {lib : QELib} {cosn : Nat → ℝ} {f f' : Filt} {inp out : Mesh E D} {F : Option D → E → E → E → M}

/-- C103 for the Linear cell filter: the part of the surface with a label is the same set of points after the run as before, for
every label, and so for the part without data; and every quantity that adds up over triangles, and may depend on the data, keeps
its total. -/
theorem C103_linear (hv : inp.Valid) (hsel : inp.SelOK f.cells) (h : cellUpdate .linear lib cosn f inp = (.ok out, f')) :
    (∀ d, out.region d = inp.region d) ∧ ((∀ d, Additive (F d)) → out.totalBy F = inp.totalBy F) := by
  have R := (cellUpdate_result (by decide) ⟨hv, by simp, by simp⟩ hsel h).1
  have S := linear_split hv hsel h
  exact ⟨S.region_eq R.labelled, fun hF => S.totalBy_eq hF R.labelled⟩

/-- C103 for the Linear edge filter. -/
theorem C103_linear_edge (hv : inp.Valid) (hsel : inp.EdgeSelOK f.edgeSel)
    (h : edgeUpdate .linear lib cosn f inp = (.ok out, f')) :
    (∀ d, out.region d = inp.region d) ∧ ((∀ d, Additive (F d)) → out.totalBy F = inp.totalBy F) := by
  have R := edgeUpdate_result (sch := .linear) ⟨hv, by simp [EdgeScheme.toScheme], by simp [EdgeScheme.toScheme]⟩ hsel h
  have S := linear_edge_split hv hsel h
  exact ⟨S.region_eq R.labelled, fun hF => S.totalBy_eq hF R.labelled⟩

/-- C103 for any number of levels and any selection. -/
theorem C103_linear_levels (hv : inp.Valid) {f : Iter} (hsel : inp.SelOK f.cells)
    (h : (iterUpdate .linear lib cosn f inp).1 = .ok out) :
    (∀ d, out.region d = inp.region d) ∧ ((∀ d, Additive (F d)) → out.totalBy F = inp.totalBy F) := by
  refine (iter_induct (sch := .linear) (lib := lib) (cosn := cosn) (by simp)
    (fun m _ => (∀ d, m.region d = inp.region d) ∧ ((∀ d, Additive (F d)) → m.totalBy F = inp.totalBy F)) ?_
    ⟨hv, by simp, by simp⟩ hsel (fun hc => nomatch hc) ⟨fun _ => rfl, fun _ => rfl⟩ h).elim fun _ h => h
  rintro m out sel f' hm hsel _ _ h ⟨h1, h2⟩
  obtain ⟨h3, h4⟩ := C103_linear (F := F) hm.valid (f := Filt.new.setCells sel) hsel h
  exact ⟨fun d => (h3 d).trans (h1 d), fun hF => (h4 hF).trans (h2 hF)⟩

end linear

section counts
variable {K P D : Type} [Field K] [Zero P] [Add P] [SMul K P] {lib : QELib} {cosn : Nat → K} {f f' : Filt} {inp out : Mesh P D}

/-- C103, numbers of cells: a uniform run of Linear, Loop or ModifiedButterfly makes four cells with the same data of every cell. -/
theorem C103_counts {sch : Scheme} (hs : sch ≠ .sqrt3) (hn : sch.Needs inp) (hf : f.cells = [])
    (h : cellUpdate sch lib cosn f inp = (.ok out, f')) (p : Option D → Bool) :
    out.labelled.countP (fun x => p x.1) = 4 * inp.labelled.countP (fun x => p x.1) := by
  obtain ⟨R, -⟩ := cellUpdate_result hs hn (by rw [hf]; exact fun k hk => by cases hk) h
  have hall : ∀ t ∈ inp.tris, (t.children (inp.edgePoint f.cells)).length = 4 := by
    intro t ht
    apply children_all
    intro e he
    rw [edgePoint_isSome, hf]
    exact Or.inl (mem_dartsOf.2 ⟨t, by simpa [Mesh.selected] using ht, he⟩)
  rw [R.labelled]
  have key : ∀ T : List (Option D × Tri), (∀ x ∈ T, x.2 ∈ inp.tris) →
      (T.flatMap fun x => (x.2.children (inp.edgePoint f.cells)).map fun d => (x.1, d)).countP (fun x => p x.1) =
        4 * T.countP (fun x => p x.1) := by
    intro T
    induction T with
    | nil => intro _; rfl
    | cons x T ih =>
      intro hT
      rw [List.flatMap_cons, List.countP_append, ih (fun t h => hT t (by simp [h])), List.countP_cons, List.countP_map]
      have h4 := hall x.2 (hT x (by simp))
      have : (x.2.children (inp.edgePoint f.cells)).countP ((fun x => p x.1) ∘ fun d => (x.1, d)) = if p x.1 then 4 else 0 := by
        cases hp : p x.1
        · simp [Function.comp_def, hp]
        · simp [Function.comp_def, hp, h4]
      rw [this]
      split <;> omega
  exact key _ fun x h => labelled_tris _ h

/-- C103, numbers of cells over levels. -/
theorem C103_counts_levels {sch : Scheme} (hs : sch ≠ .sqrt3) (hl : sch = .loop ∨ sch = .butterfly → lib.Lawful) {f : Iter}
    (hn : sch.Needs inp) (hf : f.cells = []) (h : (iterUpdate sch lib cosn f inp).1 = .ok out) (p : Option D → Bool) :
    out.labelled.countP (fun x => p x.1) = 4 ^ max 1 f.levels * inp.labelled.countP (fun x => p x.1) := by
  obtain ⟨m, s, h1, -, h2⟩ := manyLevels_count (lib := lib) (cosn := cosn) (sch := sch) hl
    (fun n m sel => sel = [] ∧ m.labelled.countP (fun x => p x.1) = 4 ^ n * inp.labelled.countP (fun x => p x.1))
    (fun n m out sel f' hn hsel _ _ h hI => by
      obtain ⟨rfl, hI⟩ := hI
      refine ⟨(C16_selection_after_run hs hn hsel h).1 rfl, ?_⟩
      rw [C103_counts hs hn rfl h p, hI, pow_succ]
      ring) (max 1 f.levels) 0 (m := inp) (sel := f.cells) hn (by rw [hf]; exact fun k hk => by cases hk)
      (fun h => absurd h hs) ⟨hf, by simp⟩
  rw [iterUpdate_eq, ← levelsOf_eq, h1] at h
  cases h
  rw [Nat.zero_add] at h2
  exact h2.2

end counts

section examples

/-- the patch, with labels -/
noncomputable def patchL : Mesh R2 Nat :=
  mk [!₂[0, 0], !₂[4, 0], !₂[0, 4], !₂[3, -4], !₂[4, 4], !₂[-4, 1]] patch (some [(0, 7), (1, 9), (3, 7)])

theorem patchL_ok : patchL.Valid ∧ patchL.RingOK ∧ patchL.NoIsolated ∧ patchL.tris = patch := mk_ok _ (by decide)

theorem patchL_labelled : patchL.labelled = [(some 7, patch[0]), (some 9, patch[1]), (none, patch[2]), (some 7, patch[3])] := by
  rfl

/-- the area, if the label is `d` -/
noncomputable def areaWith (d : Nat) : Option Nat → R2 → R2 → R2 → ℝ := fun d' p q r => if d' = some d then triArea p q r else 0

theorem additive_areaWith (d : Nat) (d' : Option Nat) : Additive (areaWith d d') := by
  unfold areaWith
  by_cases h : d' = some d
  · simp only [h, if_true]; exact additive_area
  · simp only [h, if_false]; exact ⟨fun _ _ _ => rfl, fun _ _ _ _ _ => by simp⟩

/-- the area labelled 7 after three levels on a selection -/
example : ∃ out, (iterUpdate .linear someLib realCos ⟨[1, 3], 3, []⟩ patchL).1 = .ok out ∧
    out.region (some 7) = patchL.region (some 7) ∧ out.totalBy (areaWith 7) = patchL.totalBy (areaWith 7) := by
  have hsel : patchL.SelOK [1, 3] := by unfold Mesh.SelOK; decide
  have hn : Scheme.linear.Needs patchL := ⟨patchL_ok.1, by simp, by simp⟩
  obtain ⟨out, -, h, -⟩ := C24_iterative_selective (sch := .linear) (lib := someLib) realCos (by simp) hn (f := ⟨[1, 3], 3, []⟩)
    (by simp) hsel (fun hc => nomatch hc)
  obtain ⟨h1, h2⟩ := C103_linear_levels (F := areaWith 7) patchL_ok.1 (f := ⟨[1, 3], 3, []⟩) hsel h
  exact ⟨out, h, h1 _, h2 (additive_areaWith 7)⟩

/-- the part labelled 7 is not empty, and not everything -/
example : !₂[(0 : ℝ), 0] ∈ patchL.region (some 7) ∧ patchL.labelled.countP (fun x => x.1 == some 7) = 2 ∧
    patchL.labelled.length = 4 :=
  ⟨⟨patch[0], by rw [patchL_labelled]; simp, subset_convexHull _ _ (by left; rfl)⟩, by rw [patchL_labelled]; rfl,
    by rw [patchL_labelled]; rfl⟩

example (out : Mesh Q3 Nat) (h : (iterUpdate .loop someLib cos0 ⟨[], 3, []⟩ patchMesh).1 = .ok out) :
    out.labelled.countP (fun x => x.1 == some 7) = 64 := by
  have h1 := C103_counts_levels (sch := .loop) (by decide) (fun _ => someLib_lawful) (patchMesh_needs _) (f := ⟨[], 3, []⟩) rfl h
    fun d => d == some 7
  have h2 : patchMesh.labelled.countP (fun x => x.1 == some 7) = 1 := by decide
  rw [h2] at h1
  exact h1

/-- a square of two triangles with different labels -/
def twoLabels : Mesh Q3 Nat := mk [(0, 0, 0), (3, 0, 0), (0, 3, 0), (3, 3, 0)] [(0, 1, 2), (1, 3, 2)] (some [(0, 7), (1, 9)])

def countIn (r : Except Err (Mesh Q3 Nat)) (d : Nat) : Nat :=
  match r with
  | .ok m => m.labelled.countP fun x => x.1 == some d
  | .error _ => 0

/-- Why SquareThree is excluded: it turns the edge between two labels, and both triangles there get the label of the cell with the
smaller id: of two triangles with labels 7 and 9, four with 7 and two with 9. -/
theorem C103_sqrt3_excluded : twoLabels.Valid ∧ (∀ d ∈ [7, 9], twoLabels.labelled.countP (fun x => x.1 == some d) = 1) ∧
    ∃ out f', cellUpdate .sqrt3 someLib cos0 Filt.new twoLabels = (.ok out, f') ∧
      out.labelled.countP (fun x => x.1 == some 7) = 4 ∧ out.labelled.countP (fun x => x.1 == some 9) = 2 := by
  refine ⟨(mk_ok _ (by decide) : twoLabels.Valid ∧ _).1, by decide +kernel, ?_⟩
  have h1 : countIn (cellUpdate .sqrt3 someLib cos0 Filt.new twoLabels).1 7 = 4 := by decide +kernel
  have h2 : countIn (cellUpdate .sqrt3 someLib cos0 Filt.new twoLabels).1 9 = 2 := by decide +kernel
  rcases e : cellUpdate .sqrt3 someLib cos0 Filt.new twoLabels with ⟨_ | out, f'⟩
  · rw [e] at h1; cases h1
  · rw [e] at h1 h2
    exact ⟨out, f', rfl, h1, h2⟩

end examples
end Verif
