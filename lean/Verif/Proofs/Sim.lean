import Verif.Model.Drivers
import Verif.Proofs.Emit
import Verif.Spec.Affine
/-
Two runs side by side.  `Sim R V p p'`: from states related by `R`, the programs `p` and `p'` both fail in the same way or
both return values related by `V`, and the states after it are related by `R`.
-/
namespace Verif
set_option linter.unusedSectionVars false

/-- outcomes of two runs that agree -/
def ResRel {α β : Type} (V : α → β → Prop) : Except Fail α → Except Fail β → Prop
  | .ok a, .ok b => V a b
  | .error e, .error e' => e = e'
  | _, _ => False

theorem ResRel.of_eq {α : Type} {r r' : Except Fail α} (h : r = r') : ResRel Eq r r' := by
  subst h; cases r <;> rfl

theorem ResRel.eq {α : Type} {r r' : Except Fail α} (h : ResRel Eq r r') : r = r' := by
  cases r <;> cases r' <;> simp only [ResRel] at h
  · rw [h]
  · rw [h]

theorem ResRel.map {α β : Type} {φ : α → β} {r : Except Fail α} {r' : Except Fail β} :
    ResRel (fun a b => b = φ a) r r' ↔ r' = r.map φ := by
  cases r <;> cases r' <;> simp [ResRel, Except.map, eq_comm]

def Sim {σ σ' α β : Type} (R : σ → σ' → Prop) (V : α → β → Prop) (p : Prog σ α) (p' : Prog σ' β) : Prop :=
  ∀ s s', R s s' → ResRel V (p s).1 (p' s').1 ∧ R (p s).2 (p' s').2

namespace Sim
variable {σ σ' α β γ δ : Type} {R : σ → σ' → Prop}

theorem pure {V : α → β → Prop} {a : α} {b : β} (h : V a b) : Sim R V (Prog.pure a) (Prog.pure b) :=
  fun _ _ hs => ⟨h, hs⟩

theorem fail {V : α → β → Prop} (e : Fail) : Sim R V (Prog.fail e) (Prog.fail e) := fun _ _ hs => ⟨rfl, hs⟩

theorem lift {V : α → β → Prop} {r : Except Fail α} {r' : Except Fail β} (h : ResRel V r r') :
    Sim R V (Prog.lift r) (Prog.lift r') := fun _ _ hs => ⟨h, hs⟩

theorem bind {V : α → β → Prop} {W : γ → δ → Prop} {p : Prog σ α} {p' : Prog σ' β} {f : α → Prog σ γ}
    {f' : β → Prog σ' δ} (h : Sim R V p p') (hf : ∀ a b, V a b → Sim R W (f a) (f' b)) :
    Sim R W (Prog.bind p f) (Prog.bind p' f') := by
  intro s s' hs
  obtain ⟨h1, h2⟩ := h s s' hs
  unfold Prog.bind
  rcases hp : p s with ⟨r, t⟩
  rcases hp' : p' s' with ⟨r', t'⟩
  rw [hp, hp'] at h1 h2
  cases r <;> cases r'
  · exact ⟨h1, h2⟩
  · exact h1.elim
  · exact h1.elim
  · exact hf _ _ h1 _ _ h2

/-- change of relation between the first part and the rest -/
theorem bind' {S : σ → σ' → Prop} {W : γ → δ → Prop} {p : Prog σ Unit} {p' : Prog σ' Unit} {f : Unit → Prog σ γ}
    {f' : Unit → Prog σ' δ}
    (h : ∀ s s', R s s' → ResRel Eq (p s).1 (p' s').1 ∧ S (p s).2 (p' s').2) (hf : Sim S W (f ()) (f' ()))
    {s : σ} {s' : σ'} (hs : R s s') (hout : ∀ t t', S t t' → R t t') :
    ResRel W (Prog.bind p f s).1 (Prog.bind p' f' s').1 ∧ R (Prog.bind p f s).2 (Prog.bind p' f' s').2 := by
  obtain ⟨h1, h2⟩ := h s s' hs
  unfold Prog.bind
  rcases hp : p s with ⟨r, t⟩
  rcases hp' : p' s' with ⟨r', t'⟩
  rw [hp, hp'] at h1 h2
  cases r <;> cases r'
  · exact ⟨h1, hout _ _ h2⟩
  · exact h1.elim
  · exact h1.elim
  · obtain ⟨h3, h4⟩ := hf _ _ h2
    exact ⟨h3, hout _ _ h4⟩

theorem forEach {f : α → Prog σ Unit} {f' : α → Prog σ' Unit} {xs : List α}
    (h : ∀ x ∈ xs, Sim R Eq (f x) (f' x)) : Sim R Eq (Prog.forEach f xs) (Prog.forEach f' xs) := by
  induction xs with
  | nil => exact pure rfl
  | cons x xs ih => exact bind (h x (by simp)) fun _ _ _ => ih fun y hy => h y (by simp [hy])

theorem forEachMap {f : α → Prog σ Unit} {f' : β → Prog σ' Unit} {g : α → β} {xs : List α}
    (h : ∀ x ∈ xs, Sim R Eq (f x) (f' (g x))) : Sim R Eq (Prog.forEach f xs) (Prog.forEach f' (xs.map g)) := by
  induction xs with
  | nil => exact pure rfl
  | cons x xs ih => exact bind (h x (by simp)) fun _ _ _ => ih fun y hy => h y (by simp [hy])

end Sim

variable {P P' D : Type}

theorem AMap.find?_map {α β : Type} (φ : α → β) (m : AMap α) (k : Nat) :
    AMap.find? (m.map fun kp => (kp.1, φ kp.2)) k = (m.find? k).map φ := by
  induction m with
  | nil => rfl
  | cons x m ih =>
    simp only [List.map_cons, AMap.find?]
    split <;> simp [ih]

theorem AMap.set_map {α β : Type} (φ : α → β) (m : AMap α) (k : Nat) (v : α) :
    AMap.set (m.map fun kp => (kp.1, φ kp.2)) k (φ v) = (m.set k v).map fun kp => (kp.1, φ kp.2) := by
  induction m with
  | nil => rfl
  | cons x m ih =>
    simp only [List.map_cons, AMap.set]
    split
    · rfl
    split
    · rfl
    · simp [ih]

theorem AMap.mem_of_find? {α : Type} {m : AMap α} {k : Nat} {v : α} (h : m.find? k = some v) : (k, v) ∈ m := by
  induction m with
  | nil => cases h
  | cons x m ih =>
    unfold AMap.find? at h
    split at h
    · rename_i hk
      cases h
      rw [hk]; exact List.mem_cons_self ..
    · exact List.mem_cons_of_mem _ (ih h)

theorem ensureEdge_map (φ : P → P') (m : Mesh P D) (e : Edge) :
    (m.mapPoints φ).ensureEdge e = ((m.ensureEdge e).1.mapPoints φ, (m.ensureEdge e).2) := by
  unfold Mesh.ensureEdge
  have h1 : (m.mapPoints φ).hasEdge e = m.hasEdge e := rfl
  have h2 : ∀ v, (m.mapPoints φ).closedAt v = m.closedAt v := fun _ => rfl
  rw [h1, h2, h2]
  split
  · rfl
  split <;> rfl

theorem addFaceTriangle_map (φ : P → P') (m : Mesh P D) (a b c : PId) :
    (m.mapPoints φ).addFaceTriangle a b c =
      ((m.addFaceTriangle a b c).1.mapPoints φ, (m.addFaceTriangle a b c).2) := by
  unfold Mesh.addFaceTriangle
  have h1 : ∀ v, ((m.mapPoints φ).points.find? v).isSome = (m.points.find? v).isSome := by
    intro v
    have : (m.mapPoints φ).points.find? v = (m.points.find? v).map φ := AMap.find?_map φ m.points v
    rw [this]; cases m.points.find? v <;> rfl
  have h2 : ∀ e, (m.mapPoints φ).leftSet e = m.leftSet e := fun _ => rfl
  rw [h1, h1, h1, h2, h2, h2]
  split
  · rfl
  split
  · rfl
  split
  · rfl
  rw [ensureEdge_map]
  rcases m.ensureEdge (a, b) with ⟨m1, _ | _⟩
  · rfl
  simp only
  rw [ensureEdge_map]
  rcases m1.ensureEdge (b, c) with ⟨m2, _ | _⟩
  · rfl
  simp only
  rw [ensureEdge_map]
  rcases m2.ensureEdge (c, a) with ⟨m3, _ | _⟩
  · rfl
  · rfl

/-- The same object, except that points are moved by `φ`.  (`edgeSel` is a member of the edge filters only.) -/
structure Alike (φ : P → P') (s : St P D) (s' : St P' D) : Prop where
  out : s'.out = s.out.mapPoints φ
  cells : s'.filt.cells = s.filt.cells
  uniform : s'.filt.uniform = s.filt.uniform
  epi : s'.filt.epi = s.filt.epi

section prims
variable {φ : P → P'}

theorem sim_modifyFilt {g : Filt → Filt} (h : ∀ f f' : Filt, f'.cells = f.cells → f'.uniform = f.uniform →
    f'.epi = f.epi → (g f').cells = (g f).cells ∧ (g f').uniform = (g f).uniform ∧ (g f').epi = (g f).epi) :
    Sim (Alike (D := D) φ) Eq (modifyFilt g) (modifyFilt g) := by
  intro s s' hs
  obtain ⟨h1, h2, h3⟩ := h _ _ hs.cells hs.uniform hs.epi
  exact ⟨rfl, ⟨hs.out, h1, h2, h3⟩⟩

theorem sim_setEpi (e : Edge) (id : PId) : Sim (Alike (D := D) φ) Eq (setEpi e id) (setEpi e id) :=
  sim_modifyFilt fun f f' h1 h2 h3 => ⟨h1, h2, by simp only [h3]⟩

theorem sim_modifyOut {g : Mesh P D → Mesh P D} {g' : Mesh P' D → Mesh P' D}
    (h : ∀ m, g' (m.mapPoints φ) = (g m).mapPoints φ) : Sim (Alike φ) Eq (modifyOut g) (modifyOut g') := by
  intro s s' hs
  exact ⟨rfl, ⟨by simp only [modifyOut, hs.out, h], hs.cells, hs.uniform, hs.epi⟩⟩

theorem sim_setPoint (k : PId) (p : P) :
    Sim (Alike (D := D) φ) Eq (modifyOut fun o => o.setPoint k p) (modifyOut fun o => o.setPoint k (φ p)) :=
  sim_modifyOut fun m => by
    unfold Mesh.setPoint Mesh.mapPoints
    simp only [AMap.set_map]

theorem sim_numberOfPoints : Sim (Alike (D := D) φ) Eq numberOfPoints numberOfPoints := by
  intro s s' hs
  refine ⟨?_, hs⟩
  change _ = _
  rw [hs.out]
  simp [Mesh.mapPoints]

theorem getPoint_map (m : Mesh P D) (v : PId) : (m.mapPoints φ).getPoint v = (m.getPoint v).map φ := by
  unfold Mesh.getPoint
  have : (m.mapPoints φ).points.find? v = (m.points.find? v).map φ := AMap.find?_map φ m.points v
  rw [this]
  cases m.points.find? v <;> rfl

theorem sim_getOutPoint (v : PId) : Sim (Alike (D := D) φ) (fun p p' => p' = φ p) (getOutPoint v) (getOutPoint v) := by
  intro s s' hs
  refine ⟨?_, hs⟩
  change ResRel _ (s.out.getPoint v) (s'.out.getPoint v)
  rw [hs.out, getPoint_map]
  exact ResRel.map.2 rfl

theorem sim_addFace (a b c : PId) : Sim (Alike (D := D) φ) Eq (addFace a b c) (addFace a b c) := by
  intro s s' hs
  unfold addFace
  simp only [hs.out, addFaceTriangle_map]
  exact ⟨rfl, ⟨rfl, hs.cells, hs.uniform, hs.epi⟩⟩

theorem sim_passCellData (inp : Mesh P D) (id : CId) (e : Option Edge) :
    Sim (Alike (D := D) φ) Eq (passCellData inp id e) (passCellData (inp.mapPoints φ) id e) := by
  intro s s' hs
  unfold passCellData
  have h1 : (inp.mapPoints φ).cellData = inp.cellData := rfl
  have h2 : s'.out.left = s.out.left := by rw [hs.out]; rfl
  rw [h1]
  cases e with
  | none => exact ⟨rfl, hs⟩
  | some e =>
    cases inp.cellData with
    | none => exact ⟨rfl, hs⟩
    | some d =>
      simp only
      cases AMap.find? d id with
      | none => exact ⟨rfl, hs⟩
      | some x =>
        simp only [h2]
        cases s.out.left e with
        | none => exact ⟨rfl, hs⟩
        | some k => exact ⟨rfl, ⟨by simp only [hs.out]; rfl, hs.cells, hs.uniform, hs.epi⟩⟩

theorem sim_addPass (inp : Mesh P D) (id : CId) (a b c : PId) :
    Sim (Alike (D := D) φ) Eq (addPass inp id a b c) (addPass (inp.mapPoints φ) id a b c) := by
  unfold addPass
  refine (sim_addFace a b c).bind ?_
  rintro e _ rfl
  exact (sim_passCellData inp id e).bind fun _ _ _ => Sim.pure rfl

theorem sim_pushChild (q : Option Edge) : Sim (Alike (D := D) φ) Eq (pushChild q) (pushChild q) := by
  intro s s' hs
  unfold pushChild
  have h2 : s'.out.left = s.out.left := by rw [hs.out]; rfl
  cases q with
  | none => exact ⟨rfl, hs⟩
  | some e =>
    simp only [h2]
    cases s.out.left e with
    | none => exact ⟨rfl, hs⟩
    | some k => exact ⟨rfl, ⟨hs.out, by simp only [hs.cells], hs.uniform, hs.epi⟩⟩

theorem sim_readEdge (sp : Split) (i : Nat) : Sim (Alike (P := P) (D := D) φ) Eq (sp.readEdge i) (sp.readEdge i) := by
  intro s s' hs
  unfold Split.readEdge
  cases sp.edge i <;> exact ⟨rfl, hs⟩

theorem sim_splitOne (inp : Mesh P D) (sp : Split) (ii : Nat) (id : CId) :
    Sim (Alike (D := D) φ) Eq (splitOne inp sp ii id) (splitOne (inp.mapPoints φ) sp ii id) := by
  unfold splitOne
  refine (sim_readEdge sp ii).bind ?_
  rintro e _ rfl
  refine (sim_addPass _ _ _ _ _).bind fun _ _ _ => ?_
  exact (sim_addPass _ _ _ _ _).bind fun _ _ _ => Sim.pure rfl

theorem sim_splitTwo (inp : Mesh P D) (sp : Split) (ii jj : Nat) (id : CId) :
    Sim (Alike (D := D) φ) Eq (splitTwo inp sp ii jj id) (splitTwo (inp.mapPoints φ) sp ii jj id) := by
  unfold splitTwo
  simp only
  split
  · refine (sim_readEdge sp _).bind ?_
    rintro e _ rfl
    refine (sim_readEdge sp _).bind ?_
    rintro e' _ rfl
    refine (sim_addPass _ _ _ _ _).bind fun _ _ _ => ?_
    refine (sim_addPass _ _ _ _ _).bind fun _ _ _ => ?_
    exact (sim_addPass _ _ _ _ _).bind fun _ _ _ => Sim.pure rfl
  split
  · refine (sim_readEdge sp _).bind ?_
    rintro e _ rfl
    refine (sim_readEdge sp _).bind ?_
    rintro e' _ rfl
    refine (sim_addPass _ _ _ _ _).bind fun _ _ _ => ?_
    refine (sim_addPass _ _ _ _ _).bind fun _ _ _ => ?_
    exact (sim_addPass _ _ _ _ _).bind fun _ _ _ => Sim.pure rfl
  split
  · refine (sim_readEdge sp _).bind ?_
    rintro e _ rfl
    refine (sim_readEdge sp _).bind ?_
    rintro e' _ rfl
    refine (sim_addPass _ _ _ _ _).bind fun _ _ _ => ?_
    refine (sim_addPass _ _ _ _ _).bind fun _ _ _ => ?_
    exact (sim_addPass _ _ _ _ _).bind fun _ _ _ => Sim.pure rfl
  · exact Sim.pure rfl

theorem sim_splitThree (inp : Mesh P D) (sp : Split) (u : Bool) (id : CId) :
    Sim (Alike (D := D) φ) Eq (splitThree inp sp u id) (splitThree (inp.mapPoints φ) sp u id) := by
  unfold splitThree
  refine (sim_readEdge sp _).bind ?_
  rintro e0 _ rfl
  refine (sim_readEdge sp _).bind ?_
  rintro e1 _ rfl
  refine (sim_readEdge sp _).bind ?_
  rintro e2 _ rfl
  split
  · refine (sim_addPass _ _ _ _ _).bind fun _ _ _ => ?_
    refine (sim_addPass _ _ _ _ _).bind fun _ _ _ => ?_
    refine (sim_addPass _ _ _ _ _).bind fun _ _ _ => ?_
    exact (sim_addPass _ _ _ _ _).bind fun _ _ _ => Sim.pure rfl
  · refine (sim_addPass _ _ _ _ _).bind ?_
    rintro q0 _ rfl
    refine (sim_pushChild _).bind fun _ _ _ => ?_
    refine (sim_addPass _ _ _ _ _).bind ?_
    rintro q0 _ rfl
    refine (sim_pushChild _).bind fun _ _ _ => ?_
    refine (sim_addPass _ _ _ _ _).bind ?_
    rintro q0 _ rfl
    refine (sim_pushChild _).bind fun _ _ _ => ?_
    refine (sim_addPass _ _ _ _ _).bind ?_
    rintro q0 _ rfl
    exact (sim_pushChild _).bind fun _ _ _ => Sim.pure rfl

theorem sim_outputCellsOfTriangle (inp : Mesh P D) (id : CId) (t : PId × PId × PId) :
    Sim (Alike (D := D) φ) Eq (outputCellsOfTriangle inp id t) (outputCellsOfTriangle (inp.mapPoints φ) id t) := by
  intro s s' hs
  unfold outputCellsOfTriangle
  have h1 : splitArr (inp.mapPoints φ) s'.filt.epi t = splitArr inp s.filt.epi t := by rw [hs.epi]; rfl
  rw [h1]
  simp only
  split
  · exact (sim_addPass _ _ _ _ _).bind (fun _ _ _ => Sim.pure rfl) s s' hs
  · exact sim_splitOne _ _ _ _ s s' hs
  · exact sim_splitTwo _ _ _ _ _ s s' hs
  · rw [hs.uniform]; exact sim_splitThree _ _ _ _ s s' hs

theorem sim_generateOutputCells (inp : Mesh P D) :
    Sim (Alike (D := D) φ) Eq (generateOutputCells inp) (generateOutputCells (inp.mapPoints φ)) := by
  unfold generateOutputCells
  refine (sim_modifyFilt (g := fun f => { f with cells := [] }) fun f f' _ h2 h3 => ⟨rfl, h2, h3⟩).bind fun _ _ _ => ?_
  unfold loopOrHang
  refine Sim.forEach fun c _ => ?_
  split
  · exact Sim.fail _
  · unfold actCell
    split
    · exact sim_outputCellsOfTriangle _ _ _
    · exact Sim.pure rfl

theorem sim_sq3Emit (inp : Mesh P D) (u : Bool) (id : CId) (a b c : PId) :
    Sim (Alike (D := D) φ) Eq (sq3Emit inp u id a b c) (sq3Emit (inp.mapPoints φ) u id a b c) := by
  unfold sq3Emit
  refine (sim_addPass _ _ _ _ _).bind ?_
  rintro q _ rfl
  split
  · exact Sim.pure rfl
  · exact sim_pushChild _

theorem sim_sq3Darts (inp : Mesh P D) (u : Bool) (id : CId) (t : PId × PId × PId) (l : List (PId × PId)) :
    Sim (Alike (D := D) φ) Eq (sq3Darts inp u id t l) (sq3Darts (inp.mapPoints φ) u id t l) := by
  induction l with
  | nil => exact Sim.pure rfl
  | cons xy rest ih =>
    intro s s' hs
    unfold sq3Darts
    have h1 : (inp.mapPoints φ).findEdge = inp.findEdge := rfl
    have h2 : (inp.mapPoints φ).isAtBorder = inp.isAtBorder := rfl
    rw [h1, h2, hs.epi]
    split
    · exact (sim_addPass _ _ _ _ _).bind (fun _ _ _ => Sim.pure rfl) s s' hs
    · split
      · split
        · exact (sim_sq3Emit _ _ _ _ _ _).bind (fun _ _ _ => ih) s s' hs
        · exact ((sim_sq3Emit _ _ _ _ _ _).bind fun _ _ _ => (sim_sq3Emit _ _ _ _ _ _).bind fun _ _ _ =>
            (sim_setEpi _ _).bind fun _ _ _ => ih) s s' hs
      · exact ih s s' hs

theorem sim_sq3OutputCells (inp : Mesh P D) :
    Sim (Alike (D := D) φ) Eq (sq3OutputCells inp) (sq3OutputCells (inp.mapPoints φ)) := by
  unfold sq3OutputCells
  refine (sim_modifyFilt (g := fun f => { f with cells := [] }) fun f f' _ h2 h3 => ⟨rfl, h2, h3⟩).bind fun _ _ _ => ?_
  unfold loopOrHang
  refine Sim.forEach fun c _ => ?_
  split
  · exact Sim.fail _
  · unfold sq3Act
    split
    · exact Sim.fail _
    split
    · intro s s' hs
      simp only [hs.uniform]
      exact sim_sq3Darts _ _ _ _ _ s s' hs
    · exact Sim.pure rfl

theorem sim_addEdgePoint (inp : Mesh P D) {np : Edge → Except Fail P} {np' : Edge → Except Fail P'} {x y : PId}
    (h : ∀ e, inp.findEdge x y = some e → np' e = (np e).map φ) (n : PId) :
    Sim (Alike (D := D) φ) Eq (addEdgePoint inp np x y n) (addEdgePoint (inp.mapPoints φ) np' x y n) := by
  unfold addEdgePoint
  have h1 : (inp.mapPoints φ).findEdge = inp.findEdge := rfl
  rw [h1]
  rcases he : inp.findEdge x y with _ | e
  · exact Sim.fail _
  · intro s s' hs
    simp only [hs.epi]
    split
    · exact ⟨rfl, hs⟩
    · refine Sim.bind (R := Alike φ) (Sim.lift (ResRel.map.2 (h e he))) ?_ s s' hs
      rintro p _ rfl
      exact (sim_setEpi _ _).bind fun _ _ _ => (sim_setEpi _ _).bind fun _ _ _ =>
        (sim_setPoint _ _).bind fun _ _ _ => Sim.pure rfl

theorem sim_requireTriangle (c : Option Cell) :
    Sim (Alike (P := P) (D := D) φ) (fun t t' => t' = t ∧ asTriangle c = some t) (requireTriangle c)
      (requireTriangle c) := by
  unfold requireTriangle
  cases c with
  | none => exact Sim.fail _
  | some c =>
    simp only
    split
    · rename_i t ht; exact Sim.pure ⟨rfl, ht⟩
    · exact Sim.fail _

theorem sim_addThree (inp : Mesh P D) {np : Edge → Except Fail P} {np' : Edge → Except Fail P'}
    (h : ∀ e, inp.hasEdge e = true → np' e = (np e).map φ) (c : Option Cell) :
    Sim (Alike (D := D) φ) Eq (addThree inp np c) (addThree (inp.mapPoints φ) np' c) := by
  have hf : ∀ x y e, inp.findEdge x y = some e → np' e = (np e).map φ := by
    intro x y e he
    unfold Mesh.findEdge at he
    split at he
    · rename_i h1
      cases he
      exact h _ h1
    · cases he
  unfold addThree
  refine (sim_requireTriangle c).bind ?_
  rintro t _ ⟨rfl, _⟩
  refine sim_numberOfPoints.bind ?_
  rintro n _ rfl
  refine (sim_addEdgePoint inp (hf _ _) n).bind ?_
  rintro n _ rfl
  refine (sim_addEdgePoint inp (hf _ _) n).bind ?_
  rintro n _ rfl
  exact (sim_addEdgePoint inp (hf _ _) n).bind fun _ _ _ => Sim.pure rfl

theorem sim_sq3Mark (inp : Mesh P D) (n : PId) (l : List (PId × PId)) :
    Sim (Alike (D := D) φ) Eq (sq3Mark inp n l) (sq3Mark (inp.mapPoints φ) n l) := by
  unfold sq3Mark
  refine Sim.forEach fun xy _ => ?_
  have h1 : (inp.mapPoints φ).findEdge = inp.findEdge := rfl
  rw [h1]
  split
  · exact Sim.pure rfl
  · intro s s' hs
    simp only [hs.epi]
    split
    · exact ⟨rfl, hs⟩
    · exact sim_setEpi _ _ s s' hs

end prims

section points
variable {φ : P → P'}

/-- Before the point phase has reset them, `m_Uniform` and `m_EdgesPointIdentifier` may differ. -/
structure AlikeStart (φ : P → P') (s : St P D) (s' : St P' D) : Prop where
  out : s'.out = s.out.mapPoints φ
  cells : s'.filt.cells = s.filt.cells

theorem sim_generateOutputPoints (inp : Mesh P D) {copy : M P D Unit} {copy' : M P' D Unit}
    {addNew : Option Cell → M P D Unit} {addNew' : Option Cell → M P' D Unit}
    (hadd : ∀ k c, (k, c) ∈ inp.cells → Sim (Alike (D := D) φ) Eq (addNew c) (addNew' c))
    {s : St P D} {s' : St P' D}
    (hcopy : ResRel Eq (copy s).1 (copy' s').1 ∧ AlikeStart φ (copy s).2 (copy' s').2) :
    ResRel Eq (generateOutputPoints copy addNew inp s).1 (generateOutputPoints copy' addNew' (inp.mapPoints φ) s').1 ∧
    AlikeStart φ (generateOutputPoints copy addNew inp s).2
      (generateOutputPoints copy' addNew' (inp.mapPoints φ) s').2 ∧
    ((generateOutputPoints copy addNew inp s).1 = .ok () → Alike φ (generateOutputPoints copy addNew inp s).2
      (generateOutputPoints copy' addNew' (inp.mapPoints φ) s').2) := by
  obtain ⟨h1, h2⟩ := hcopy
  unfold generateOutputPoints
  rcases hp : copy s with ⟨r, t⟩
  rcases hp' : copy' s' with ⟨r', t'⟩
  rw [hp, hp'] at h1 h2
  cases r <;> cases r'
  · unfold Prog.bind
    simp only [hp, hp']
    exact ⟨h1, h2, by simp⟩
  · exact h1.elim
  · exact h1.elim
  · rw [Prog.bind_ok hp, Prog.bind_ok hp']
    have hal : Alike φ (⟨{ t.filt with epi := fun _ => none, uniform := t.filt.cells.isEmpty }, t.out⟩ : St P D)
        ⟨{ t'.filt with epi := fun _ => none, uniform := t'.filt.cells.isEmpty }, t'.out⟩ :=
      ⟨h2.out, h2.cells, congrArg List.isEmpty h2.cells, rfl⟩
    have hc : (inp.mapPoints φ).cells = inp.cells := rfl
    have key : Sim (Alike φ) Eq
        (fun s : St P D => if s.filt.uniform then Prog.forEach (fun c => addNew c.2) inp.cells s
          else Prog.forEach (fun id => match inp.cells.find? id with
            | none => Prog.fail (.ub .missingKey)
            | some none => Prog.pure ()
            | some (some c) => addNew (some c)) s.filt.cells s)
        (fun s : St P' D => if s.filt.uniform then Prog.forEach (fun c => addNew' c.2) inp.cells s
          else Prog.forEach (fun id => match inp.cells.find? id with
            | none => Prog.fail (.ub .missingKey)
            | some none => Prog.pure ()
            | some (some c) => addNew' (some c)) s.filt.cells s) := by
      intro s s' hs
      simp only [hs.uniform, hs.cells]
      split
      · exact Sim.forEach (fun c hc => hadd c.1 c.2 hc) s s' hs
      · refine Sim.forEach (fun id _ => ?_) s s' hs
        rcases hf : AMap.find? inp.cells id with _ | _ | c
        · exact Sim.fail _
        · exact Sim.pure rfl
        · have : (id, some c) ∈ inp.cells := AMap.mem_of_find? hf
          exact hadd _ _ this
    obtain ⟨k1, k2⟩ := key _ _ hal
    exact ⟨k1, ⟨k2.out, k2.cells⟩, fun _ => k2⟩

/-- two runs of a cell filter side by side -/
theorem runFilter_alike (lib : QELib) {pts cls : M P D Unit} {pts' cls' : M P' D Unit}
    {f g : Filt}
    (hp : ResRel Eq (pts ⟨f, Mesh.empty⟩).1 (pts' ⟨g, Mesh.empty⟩).1 ∧
      AlikeStart φ (pts ⟨f, Mesh.empty⟩).2 (pts' ⟨g, Mesh.empty⟩).2 ∧
      ((pts ⟨f, Mesh.empty⟩).1 = .ok () → Alike φ (pts ⟨f, Mesh.empty⟩).2 (pts' ⟨g, Mesh.empty⟩).2))
    (hc : Sim (Alike (D := D) φ) Eq cls cls') :
    (runFilter lib (generateData pts' cls') g).1 =
      (runFilter lib (generateData pts cls) f).1.map (Mesh.mapPoints φ) ∧
    (runFilter lib (generateData pts' cls') g).2.cells = (runFilter lib (generateData pts cls) f).2.cells := by
  obtain ⟨h1, h2, h3⟩ := hp
  unfold runFilter generateData
  rcases hp : pts ⟨f, Mesh.empty⟩ with ⟨r, t⟩
  rcases hp' : pts' ⟨g, Mesh.empty⟩ with ⟨r', t'⟩
  rw [hp, hp'] at h1 h2 h3
  cases r <;> cases r'
  · unfold Prog.bind
    simp only [hp, hp']
    rw [show _ = _ from h1]
    exact ⟨rfl, h2.cells⟩
  · exact h1.elim
  · exact h1.elim
  · rw [Prog.bind_ok hp, Prog.bind_ok hp']
    obtain ⟨k1, k2⟩ := hc _ _ (h3 rfl)
    rcases hq : cls t with ⟨r, u⟩
    rcases hq' : cls' t' with ⟨r', u'⟩
    rw [hq, hq'] at k1 k2
    cases r <;> cases r'
    · simp only
      rw [show _ = _ from k1]
      exact ⟨rfl, k2.cells⟩
    · exact k1.elim
    · exact k1.elim
    · simp only
      refine ⟨?_, k2.cells⟩
      rw [k2.out]
      rfl

end points
end Verif
