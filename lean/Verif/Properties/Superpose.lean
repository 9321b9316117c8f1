import Verif.Proofs.Superpose
import Verif.Properties.Iterative
import Mathlib.Tactic.Module
import Mathlib.Algebra.Module.Pi
/-
C64: the positions enter linearly.
-/
namespace Verif
set_option linter.unusedSectionVars false

section hom
variable {K P P' D : Type} [Field K] [Zero P] [Add P] [SMul K P] [Zero P'] [Add P'] [SMul K P'] {φ : P → P'}

/-- C64 for the four cell filters, on any mesh, with any selection, on an object with any history, in rounded or exact
arithmetic: a map that keeps zero, sums and multiples can be applied before or after the run.  If the one run fails, the other
fails in the same way. -/
theorem C64_positions_cell (h : PosHom K φ) (sch : Scheme) (lib : QELib) (cosn : Nat → K) (f : Filt) (inp : Mesh P D) :
    (cellUpdate sch lib cosn f (inp.mapPoints φ)).1 = (cellUpdate sch lib cosn f inp).1.map (Mesh.mapPoints φ) ∧
    (cellUpdate sch lib cosn f (inp.mapPoints φ)).2.cells = (cellUpdate sch lib cosn f inp).2.cells :=
  h.cellUpdate sch lib cosn f inp

/-- C64 for the three edge filters -/
theorem C64_positions_edge (h : PosHom K φ) (sch : EdgeScheme) (lib : QELib) (cosn : Nat → K) (f : Filt) (inp : Mesh P D) :
    (edgeUpdate sch lib cosn f (inp.mapPoints φ)).1 = (edgeUpdate sch lib cosn f inp).1.map (Mesh.mapPoints φ) :=
  h.edgeUpdate sch lib cosn f inp

/-- C64 for any number of levels -/
theorem C64_positions_iterative (h : PosHom K φ) (sch : Scheme) (lib : QELib) (cosn : Nat → K) (f : Iter) (inp : Mesh P D) :
    (iterUpdate sch lib cosn f (inp.mapPoints φ)).1 = (iterUpdate sch lib cosn f inp).1.map (Mesh.mapPoints φ) := by
  rw [iterUpdate_eq, iterUpdate_eq, h.manyLevels]
  cases manyLevels sch lib cosn (levelsOf f.levels) (inp, f.cells) <;> rfl

end hom

section coords
variable {K X ι D : Type} [Field K] [Zero X] [Add X] [SMul K X]

theorem posHom_coord (i : ι) : PosHom K (fun p : ι → X => p i) := ⟨rfl, fun _ _ => rfl, fun _ _ => rfl⟩

/-- The coordinates do not mix: each coordinate of the output is what the filter computes from that coordinate alone.  `X` is
the type of the coordinates with whatever addition and multiplication the machine has. -/
theorem C64_coordinates (sch : Scheme) (lib : QELib) (cosn : Nat → K) (f : Iter) (inp : Mesh (ι → X) D) (i : ι) :
    (iterUpdate sch lib cosn f (inp.mapPoints fun p => p i)).1 =
      (iterUpdate sch lib cosn f inp).1.map (Mesh.mapPoints fun p => p i) :=
  C64_positions_iterative (posHom_coord i) sch lib cosn f inp

theorem C64_coordinates_edge (sch : EdgeScheme) (lib : QELib) (cosn : Nat → K) (f : Filt) (inp : Mesh (ι → X) D) (i : ι) :
    (edgeUpdate sch lib cosn f (inp.mapPoints fun p => p i)).1 =
      (edgeUpdate sch lib cosn f inp).1.map (Mesh.mapPoints fun p => p i) :=
  C64_positions_edge (posHom_coord i) sch lib cosn f inp

end coords

section blend
variable {K P D : Type} [Field K] [AddCommGroup P] [Module K P]

theorem posHom_fst : PosHom K (Prod.fst : P × P → P) := ⟨rfl, fun _ _ => rfl, fun _ _ => rfl⟩
theorem posHom_snd : PosHom K (Prod.snd : P × P → P) := ⟨rfl, fun _ _ => rfl, fun _ _ => rfl⟩

theorem posHom_blend (a b : K) : PosHom K (blend (P := P) a b) := by
  refine ⟨?_, ?_, ?_⟩
  · simp [blend]
  · rintro ⟨p, q⟩ ⟨p', q'⟩
    simp only [blend, Prod.mk_add_mk]
    module
  · rintro k ⟨p, q⟩
    simp only [blend, Prod.smul_mk]
    module

/-- the three images of a mesh of pairs -/
theorem blend_pos {o : Mesh (P × P) D} (a b : K) {v : PId} {p q : P} (hp : (o.mapPoints Prod.fst).pos v = some p)
    (hq : (o.mapPoints Prod.snd).pos v = some q) : (o.mapPoints (blend a b)).pos v = some (a • p + b • q) := by
  unfold Mesh.pos Mesh.mapPoints at *
  simp only [AMap.find?_map, Option.map_eq_some_iff] at *
  obtain ⟨x, hx, rfl⟩ := hp
  obtain ⟨y, hy, rfl⟩ := hq
  rw [hx] at hy
  obtain rfl := Option.some.inj hy
  exact ⟨x, hx, rfl⟩

/-- Superposition for any number of levels: give every point of a mesh two positions.  If the runs on the two surfaces
succeed, the run on any mixture of them succeeds and gives the same mixture of the two results, point by point, with the same
cells.  (With `a = 1 - t`, `b = t`: subdividing an intermediate stage of a morph is an intermediate stage of the morph of the
subdivided surfaces.) -/
theorem C64_superposition (sch : Scheme) (lib : QELib) (cosn : Nat → K) (f : Iter) (inp : Mesh (P × P) D) (a b : K)
    {o₁ o₂ : Mesh P D} (h₁ : (iterUpdate sch lib cosn f (inp.mapPoints Prod.fst)).1 = .ok o₁)
    (h₂ : (iterUpdate sch lib cosn f (inp.mapPoints Prod.snd)).1 = .ok o₂) :
    ∃ o, (iterUpdate sch lib cosn f (inp.mapPoints (blend a b))).1 = .ok o ∧ o.cells = o₁.cells ∧ o.cells = o₂.cells ∧
      ∀ v p q, o₁.pos v = some p → o₂.pos v = some q → o.pos v = some (a • p + b • q) := by
  rw [C64_positions_iterative posHom_fst] at h₁
  rw [C64_positions_iterative posHom_snd] at h₂
  rw [C64_positions_iterative (posHom_blend a b)]
  cases hr : (iterUpdate sch lib cosn f inp).1 with
  | error e => rw [hr] at h₁; cases h₁
  | ok o =>
    rw [hr] at h₁ h₂
    obtain rfl := Except.ok.inj h₁
    obtain rfl := Except.ok.inj h₂
    exact ⟨_, rfl, rfl, rfl, fun v p q => blend_pos a b⟩

/-- Superposition for the edge filters -/
theorem C64_superposition_edge (sch : EdgeScheme) (lib : QELib) (cosn : Nat → K) (f : Filt) (inp : Mesh (P × P) D) (a b : K)
    {o₁ o₂ : Mesh P D} (h₁ : (edgeUpdate sch lib cosn f (inp.mapPoints Prod.fst)).1 = .ok o₁)
    (h₂ : (edgeUpdate sch lib cosn f (inp.mapPoints Prod.snd)).1 = .ok o₂) :
    ∃ o, (edgeUpdate sch lib cosn f (inp.mapPoints (blend a b))).1 = .ok o ∧ o.cells = o₁.cells ∧ o.cells = o₂.cells ∧
      ∀ v p q, o₁.pos v = some p → o₂.pos v = some q → o.pos v = some (a • p + b • q) := by
  rw [C64_positions_edge posHom_fst] at h₁
  rw [C64_positions_edge posHom_snd] at h₂
  rw [C64_positions_edge (posHom_blend a b)]
  cases hr : (edgeUpdate sch lib cosn f inp).1 with
  | error e => rw [hr] at h₁; cases h₁
  | ok o =>
    rw [hr] at h₁ h₂
    obtain rfl := Except.ok.inj h₁
    obtain rfl := Except.ok.inj h₂
    exact ⟨_, rfl, rfl, rfl, fun v p q => blend_pos a b⟩

end blend

section samples

/-- the patch, each point also with its mirror image -/
def patchPair : Mesh (Q3 × Q3) Nat := patchMesh.mapPoints fun p => (p, (-p.1, p.2.1, p.2.2 + 1))

theorem patchPair_fst : patchPair.mapPoints Prod.fst = patchMesh := by
  unfold patchPair Mesh.mapPoints
  simp [List.map_map, Function.comp_def]

theorem patchPair_snd : patchPair.mapPoints Prod.snd = patchMesh.mapPoints fun p => (-p.1, p.2.1, p.2.2 + 1) := by
  unfold patchPair Mesh.mapPoints
  simp [List.map_map, Function.comp_def]

/-- halfway between the patch and its mirror image, three levels of Butterfly on two of its cells -/
example : ∃ o₁ o₂ o, (iterUpdate .butterfly someLib cos0 ⟨[1, 3], 3, []⟩ patchMesh).1 = .ok o₁ ∧
    (iterUpdate .butterfly someLib cos0 ⟨[1, 3], 3, []⟩ (patchMesh.mapPoints fun p => (-p.1, p.2.1, p.2.2 + 1))).1 = .ok o₂ ∧
    (iterUpdate .butterfly someLib cos0 ⟨[1, 3], 3, []⟩ (patchPair.mapPoints (blend (1 / 2 : ℚ) (1 / 2)))).1 = .ok o ∧
    ∀ v p q, o₁.pos v = some p → o₂.pos v = some q → o.pos v = some ((1 / 2 : ℚ) • p + (1 / 2 : ℚ) • q) := by
  obtain ⟨o₁, _, h₁, -, -⟩ := C24_iterative_selective (lib := someLib) cos0 (fun _ => someLib_lawful)
    (patchMesh_needs .butterfly) (f := ⟨[1, 3], 3, []⟩) (by decide) patchMesh_sel (fun h => by cases h)
  obtain ⟨o₂, _, h₂, -, -⟩ := C24_iterative_selective (lib := someLib) cos0 (fun _ => someLib_lawful)
    ((patchMesh_needs .butterfly).mapPoints (φ := fun p => ((-p.1, p.2.1, p.2.2 + 1) : Q3))) (f := ⟨[1, 3], 3, []⟩)
    (by decide) patchMesh_sel (fun h => by cases h)
  obtain ⟨o, h, -, -, h3⟩ := C64_superposition .butterfly someLib cos0 ⟨[1, 3], 3, []⟩ patchPair (1 / 2 : ℚ) (1 / 2)
    (by rw [patchPair_fst]; exact h₁) (by rw [patchPair_snd]; exact h₂)
  exact ⟨o₁, o₂, o, h₁, h₂, h, h3⟩

/-- the same for the Loop edge filter -/
example (o₁ o₂ : Mesh Q3 Nat)
    (h₁ : (edgeUpdate .loop someLib cos0 (Filt.new.setEdges [some (1, 0)]) (patchPair.mapPoints Prod.fst)).1 = .ok o₁)
    (h₂ : (edgeUpdate .loop someLib cos0 (Filt.new.setEdges [some (1, 0)]) (patchPair.mapPoints Prod.snd)).1 = .ok o₂) :
    ∃ o, (edgeUpdate .loop someLib cos0 (Filt.new.setEdges [some (1, 0)]) (patchPair.mapPoints (blend (3 : ℚ) (-2)))).1 =
      .ok o ∧ o.cells = o₁.cells ∧ o.cells = o₂.cells ∧
      ∀ v p q, o₁.pos v = some p → o₂.pos v = some q → o.pos v = some ((3 : ℚ) • p + (-2 : ℚ) • q) :=
  C64_superposition_edge .loop someLib cos0 _ patchPair 3 (-2) h₁ h₂

/-- a projection to one coordinate -/
theorem posHom_first : PosHom ℚ (fun p : Q3 => p.1) := ⟨rfl, fun _ _ => rfl, fun _ _ => rfl⟩

/-- The first coordinates of the Loop surface are the Loop values of the first coordinates, also of a selection on an object
that has been used before, and also where the run is undefined. -/
example (sel : List CId) : (cellUpdate .loop someLib cos0 (usedFilt sel) (patchMesh.mapPoints fun p => p.1)).1 =
    (cellUpdate .loop someLib cos0 (usedFilt sel) patchMesh).1.map (Mesh.mapPoints fun p => p.1) :=
  (C64_positions_cell posHom_first .loop someLib cos0 (usedFilt sel) patchMesh).1

example (i : Fin 3) (inp : Mesh (Fin 3 → ℚ) Nat) : (iterUpdate .sqrt3 someLib cos0 ⟨[], 5, []⟩ (inp.mapPoints fun p => p i)).1 =
    (iterUpdate .sqrt3 someLib cos0 ⟨[], 5, []⟩ inp).1.map (Mesh.mapPoints fun p => p i) :=
  C64_coordinates .sqrt3 someLib cos0 _ inp i

end samples
end Verif
