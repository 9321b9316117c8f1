import Verif.Proofs.Sqrt3Area
import Verif.Proofs.Normals
import Verif.Properties.Volume
/-
Vector areas of the pieces that SquareThree makes.
-/
namespace Verif
set_option linter.unusedSectionVars false
variable {E D V : Type} [NormedAddCommGroup E] [InnerProductSpace ℝ E] [AddCommGroup V] [Module ℝ V]
  {lib : QELib} {cosn : Nat → ℝ} {f f' : Filt} {inp out : Mesh E D}

theorem form2_add' (ω : E [⋀^Fin 2]→ₗ[ℝ] V) (x y y' : E) : ω ![x, y + y'] = ω ![x, y] + ω ![x, y'] := by
  rw [form2_swap, form2_add, form2_swap ω y, form2_swap ω y', neg_add, neg_neg, neg_neg]

theorem form2_smul' (ω : E [⋀^Fin 2]→ₗ[ℝ] V) (c : ℝ) (x y : E) : ω ![x, c • y] = c • ω ![x, y] := by
  rw [form2_swap, form2_smul, form2_swap ω y, smul_neg, neg_neg]

/-- the vector area by the directed edges -/
theorem vectorArea_darts (ω : E [⋀^Fin 2]→ₗ[ℝ] V) (p q r : E) :
    vectorArea ω p q r = (1 / 2 : ℝ) • (ω ![p, q] + ω ![q, r] + ω ![r, p]) := by
  unfold vectorArea
  have e1 : q - p = q + (-1 : ℝ) • p := by module
  have e2 : r - p = r + (-1 : ℝ) • p := by module
  rw [e1, e2, form2_add, form2_add', form2_add', form2_smul', form2_smul', form2_smul, form2_smul, form2_same, form2_swap ω q p,
    form2_swap ω p r]
  module

/-- a third of a triangle -/
theorem vectorArea_fan (ω : E [⋀^Fin 2]→ₗ[ℝ] V) (p q r : E) :
    vectorArea ω p q (mean3 p q r) = (1 / 3 : ℝ) • vectorArea ω p q r := by
  unfold vectorArea
  have e : mean3 p q r - p = (1 / 3 : ℝ) • (q - p) + (1 / 3 : ℝ) • (r - p) := by unfold mean3; module
  rw [e, form2_add', form2_smul', form2_smul', form2_same]
  module

/-- a triangle at a flipped edge -/
theorem vectorArea_flip (ω : E [⋀^Fin 2]→ₗ[ℝ] V) (p q r s : E) : vectorArea ω (mean3 p q r) (mean3 q p s) q =
    (1 / 9 : ℝ) • ((2 : ℝ) • vectorArea ω q r s + vectorArea ω r p s) := by
  simp only [vectorArea_darts, mean3, form2_add, form2_add', form2_smul, form2_smul', form2_same]
  rw [form2_swap ω q p, form2_swap ω r q, form2_swap ω s r, form2_swap ω s q]
  module

/-- directed edges that come in pairs cancel -/
theorem sum_paired {L : List Edge} (hn : L.Nodup) (hc : ∀ e ∈ L, e.sym ∈ L) {g : Edge → V} (hg : ∀ e, g e.sym = -g e) :
    (L.map g).sum = 0 := by
  have hperm : (L.map Edge.sym).Perm L := by
    refine (List.perm_ext_iff_of_nodup ?_ hn).2 fun e => ?_
    · exact hn.map (fun a b h => by
        have := congrArg Edge.sym h
        simpa [Edge.sym] using this)
    · constructor
      · intro h
        obtain ⟨e', he', rfl⟩ := List.mem_map.1 h
        exact hc e' he'
      · intro h
        exact List.mem_map.2 ⟨e.sym, hc e h, rfl⟩
  have h1 := (hperm.map g).sum_eq
  rw [List.map_map] at h1
  have h2 : (L.map (g ∘ Edge.sym)).sum = -(L.map g).sum := by
    clear h1 hperm hc hn
    induction L with
    | nil => simp
    | cons e l ih => simp only [List.map_cons, List.sum_cons, ih, Function.comp, hg e, neg_add]
  rw [h2] at h1
  generalize (L.map g).sum = S at h1
  have h3 : S = (1 / 2 : ℝ) • (S + S) := by module
  rw [h3]
  nth_rw 1 [← h1]
  simp

/-- the directed edges with nothing on the other side -/
def rimDarts (T : List Tri) : List Edge := (dartsOf T).filter fun e => !(dartsOf T).contains e.sym

theorem sum_rim {T : List Tri} (hn : (dartsOf T).Nodup) {g : Edge → V} (hg : ∀ e, g e.sym = -g e) :
    ((dartsOf T).map g).sum = ((rimDarts T).map g).sum := by
  have h1 := (List.filter_append_perm (fun e => !(dartsOf T).contains (Edge.sym e)) (dartsOf T)).map g
  have h2 := h1.sum_eq
  rw [List.map_append, List.sum_append] at h2
  rw [← h2]
  have : (((dartsOf T).filter fun e => !(!(dartsOf T).contains (Edge.sym e))).map g).sum = 0 := by
    refine sum_paired (hn.filter _) ?_ hg
    intro e he
    simp only [Bool.not_not, List.mem_filter, List.contains_iff_mem] at he ⊢
    exact ⟨he.2, by simpa [Edge.sym] using he.1⟩
  rw [this, add_zero]
  rfl

/-- the vector area of a mesh depends on its boundary only -/
theorem total_rim {m : Mesh E D} (hv : m.Valid) (ω : E [⋀^Fin 2]→ₗ[ℝ] V) :
    m.total (vectorArea ω) = (1 / 2 : ℝ) • ((rimDarts m.tris).map fun e => ω ![m.place e.1, m.place e.2]).sum := by
  rw [← sum_rim hv.good.oriented (g := fun e => ω ![m.place e.1, m.place e.2]) (fun e => form2_swap ω _ _)]
  unfold Mesh.total dartsOf
  induction m.tris with
  | nil => simp
  | cons t T ih =>
    simp only [List.map_cons, List.sum_cons, List.flatMap_cons, List.map_append, List.sum_append, smul_add]
    rw [ih, vectorArea_darts]
    simp only [Tri.darts, List.map_cons, List.map_nil, List.sum_cons, List.sum_nil, add_zero, smul_add]
    abel

theorem mem_rimDarts {m : Mesh E D} {e : Edge} : e ∈ rimDarts m.tris ↔ m.IsBoundary e := by
  simp [rimDarts, Mesh.IsBoundary, List.mem_filter]

end Verif
