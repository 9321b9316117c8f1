import Verif.Proofs.Build
import Verif.Model.CellFilter
/-
Adding a list of triangles with cell data, as the loops of the filters do.
-/
namespace Verif

namespace Prog
variable {σ α β γ : Type}

theorem bind_assoc' (p : Prog σ α) (f : α → Prog σ β) (g : β → Prog σ γ) :
    Prog.bind (Prog.bind p f) g = Prog.bind p (fun a => Prog.bind (f a) g) := by
  funext s
  simp only [Prog.bind]
  rcases p s with ⟨r, s'⟩
  cases r <;> rfl

theorem pure_bind' (a : α) (f : α → Prog σ β) : Prog.bind (Prog.pure a) f = f a := rfl

theorem bind_ok {p : Prog σ α} {f : α → Prog σ β} {s s' : σ} {a : α} (h : p s = (.ok a, s')) :
    Prog.bind p f s = f a s' := by
  simp only [Prog.bind, h]

theorem bind_error {p : Prog σ α} {f : α → Prog σ β} {s s' : σ} {e : Fail} (h : p s = (.error e, s')) :
    Prog.bind p f s = (.error e, s') := by
  simp only [Prog.bind, h]

theorem forEach_append (f : α → Prog σ Unit) (xs ys : List α) :
    forEach f (xs ++ ys) = Prog.bind (forEach f xs) (fun _ => forEach f ys) := by
  induction xs with
  | nil => rfl
  | cons x xs ih => simp only [List.cons_append, forEach, ih, bind_assoc']

/-- a loop whose body is itself a loop, on states that satisfy an invariant -/
theorem forEach_flatMap {f : α → Prog σ Unit} {g : β → Prog σ Unit} {h : α → List β} (Inv : σ → Prop)
    (hg : ∀ y s, Inv s → Inv (g y s).2) (xs : List α)
    (hf : ∀ x ∈ xs, ∀ s, Inv s → f x s = forEach g (h x) s) (s : σ) (hs : Inv s) :
    forEach f xs s = forEach g (xs.flatMap h) s := by
  have inv : ∀ (ys : List β) (s : σ), Inv s → Inv (forEach g ys s).2 := by
    intro ys
    induction ys with
    | nil => intro s hs; exact hs
    | cons y ys ih =>
      intro s hs
      simp only [forEach, Prog.bind]
      have := hg y s hs
      rcases hr : g y s with ⟨r, s'⟩
      rw [hr] at this
      cases r
      · exact this
      · exact ih s' this
  induction xs generalizing s with
  | nil => rfl
  | cons x xs ih =>
    rw [List.flatMap_cons, forEach_append]
    simp only [forEach, Prog.bind]
    rw [hf x (by simp) s hs]
    have := inv (h x) s hs
    rcases hr : forEach g (h x) s with ⟨r, s'⟩
    rw [hr] at this
    cases r
    · rfl
    · exact ih (fun x hx => hf x (by simp [hx])) s' this

theorem forEach_congr {f g : α → Prog σ Unit} (Inv : σ → Prop) (hg : ∀ y s, Inv s → Inv (g y s).2) (xs : List α)
    (hf : ∀ x ∈ xs, ∀ s, Inv s → f x s = g x s) (s : σ) (hs : Inv s) : forEach f xs s = forEach g xs s := by
  have := forEach_flatMap (f := f) (g := g) (h := fun x => [x]) Inv hg xs ?_ s hs
  · simpa using this
  · intro x hx s hs
    rw [hf x hx s hs]
    simp only [forEach, Prog.bind]
    rcases g x s with ⟨r, s'⟩
    cases r <;> rfl

end Prog

variable {P D : Type}

/-- a triangle to add: the input cell whose data it gets, its corners, whether its id is recorded -/
abbrev Item := CId × Tri × Bool

/-- `AddFaceTriangle`, `PassCellData` and possibly `push_back(GetLeft())` -/
def emitOne (inp : Mesh P D) (x : Item) : M P D Unit :=
  Prog.bind (addPass inp x.1 x.2.1.1 x.2.1.2.1 x.2.1.2.2) fun q =>
    if x.2.2 then pushChild q else Prog.pure ()

/-- ids recorded when the first item gets id `k` -/
def pushed : Nat → List Item → List CId
  | _, [] => []
  | k, x :: xs => if x.2.2 then k :: pushed (k + 1) xs else pushed (k + 1) xs

theorem pushed_append (k : Nat) (L R : List Item) : pushed k (L ++ R) = pushed k L ++ pushed (k + L.length) R := by
  induction L generalizing k with
  | nil => simp [pushed]
  | cons x L ih =>
    simp only [List.cons_append, pushed, ih, List.length_cons]
    rw [show k + 1 + L.length = k + (L.length + 1) by omega]
    split <;> simp

/-- the mesh after `AddFaceTriangle` and `PassCellData` -/
def addOne (inp m : Mesh P D) (x : CId × Tri) : Mesh P D := (addPass inp x.1 x.2.1 x.2.2.1 x.2.2.2 ⟨Filt.new, m⟩).2.out

/-- the input cell and the corners of an item -/
def Item.plain (x : Item) : CId × Tri := (x.1, x.2.1)

/-- what a state looks like after the items `L` were added to the state `s0` -/
structure Emitted (inp : Mesh P D) (s0 s : St P D) (L : List Item) : Prop where
  filt : s.filt = { s0.filt with cells := s0.filt.cells ++ pushed 0 L }
  points : s.out.points = s0.out.points
  edgeCells : s.out.hasEdgeCells = s0.out.hasEdgeCells
  built : Built s.out (L.map fun x => x.2.1)
  data : ∀ k : Nat, s.out.dataAt k = L[k]?.bind fun x => inp.dataAt x.1
  sorted : ∀ d, s.out.cellData = some d → (d.map Prod.fst).Pairwise (· < ·)
  out : s.out = (L.map Item.plain).foldl (addOne inp) s0.out

theorem passCellData_eq (inp : Mesh P D) (id : CId) (e : Edge) (k : CId) (s : St P D) (hk : s.out.left e = some k) :
    passCellData inp id (some e) s = (.ok (), ⟨s.filt,
      match inp.dataAt id with
      | none => s.out
      | some d => s.out.setCellData k d⟩) := by
  unfold passCellData Mesh.dataAt
  rcases inp.cellData with _ | data
  · rfl
  · simp only [Option.bind_some]
    rcases data.find? id with _ | d
    · rfl
    · simp only [hk]

theorem dataAt_setCellData (m : Mesh P D) (k : CId) (d : D) (k' : CId) :
    (m.setCellData k d).dataAt k' = if k' = k then some d else m.dataAt k' := by
  unfold Mesh.setCellData Mesh.dataAt
  simp only [Option.bind_some, AMap.find?_set]
  rcases m.cellData with _ | c
  · simp [AMap.find?]
  · rfl

theorem emitOne_ok {inp : Mesh P D} {s0 s : St P D} {L R : List Item} {x : Item} (h : Emitted inp s0 s L)
    (hg : GoodTris ((L ++ x :: R).map fun x => x.2.1)) (hp : ∀ v ∈ x.2.1.verts, (s0.out.points.find? v).isSome) :
    ∃ s', emitOne inp x s = (.ok (), s') ∧ Emitted inp s0 s' (L ++ [x]) := by
  obtain ⟨id, ⟨a, b, c⟩, push⟩ := x
  have hg' : GoodTris ((L.map fun x => x.2.1) ++ (a, b, c) :: (R.map fun x => x.2.1)) := by
    simpa using hg
  have hadd := addFaceTriangle_ok h.built hg' (by rw [h.points]; exact hp)
  have hb := h.built.push hg'
  set m1 := Mesh.pushFace { s.out with edges := edgeList ((L.map fun x => x.2.1) ++ [(a, b, c)]) } a b c with hm1
  have hleft : m1.left (a, b) = some L.length :=
    (hb.left (a, b) L.length).2 ⟨(a, b, c), by simp, by simp [Tri.darts]⟩
  have h1 : ∀ g : Filt, addFace a b c ⟨g, s.out⟩ = (.ok (some (a, b)), ⟨g, m1⟩) := by
    intro g
    unfold addFace; simp only [hadd]
  set m2 : Mesh P D := match inp.dataAt id with
      | none => m1
      | some d => m1.setCellData L.length d with hm2
  have h2 : ∀ g : Filt, passCellData inp id (some (a, b)) ⟨g, m1⟩ = (.ok (), ⟨g, m2⟩) := fun g =>
    passCellData_eq inp id (a, b) L.length ⟨g, m1⟩ hleft
  have h3 : ∀ g : Filt, addPass inp id a b c ⟨g, s.out⟩ = (.ok (some (a, b)), ⟨g, m2⟩) := by
    intro g
    unfold addPass
    rw [Prog.bind_ok (h1 g), Prog.bind_ok (h2 g)]
    rfl
  have e2 : m2.cells = m1.cells ∧ m2.left = m1.left ∧ m2.edges = m1.edges ∧ m2.points = m1.points ∧
      m2.hasEdgeCells = m1.hasEdgeCells := by
    rw [hm2]; cases inp.dataAt id <;> simp [Mesh.setCellData]
  have d1 : m1.cellData = s.out.cellData := rfl
  refine ⟨{ filt := { s.filt with cells := s.filt.cells ++ pushed L.length [(id, (a, b, c), push)] }, out := m2 }, ?_, ?_⟩
  · unfold emitOne
    rw [Prog.bind_ok (h3 s.filt)]
    cases push
    · simp [pushed, Prog.pure]
    · simp only [if_true, pushChild]
      rw [e2.2.1, hleft]
      simp [pushed]
  · refine ⟨?_, ?_, ?_, ?_, ?_, ?_, ?_⟩
    · simp only [h.filt, pushed_append, List.append_assoc, Nat.zero_add]
    · show m2.points = _
      rw [e2.2.2.2.1, ← h.points]; rfl
    · show m2.hasEdgeCells = _
      rw [e2.2.2.2.2, ← h.edgeCells]; rfl
    · rw [List.map_append]
      exact hb.congr e2.1 e2.2.1 e2.2.2.1
    · intro k
      show m2.dataAt k = _
      have old : m1.dataAt k = L[k]?.bind fun x => inp.dataAt x.1 := h.data k
      rw [hm2]
      rcases hd : inp.dataAt id with _ | d
      · simp only [old]
        by_cases hk : k < L.length
        · rw [List.getElem?_append_left hk]
        · rw [List.getElem?_eq_none (by omega)]
          by_cases hk2 : k = L.length
          · subst hk2; simp [hd]
          · rw [List.getElem?_eq_none (by simp; omega)]
      · simp only [dataAt_setCellData, old]
        by_cases hk : k < L.length
        · rw [List.getElem?_append_left hk, if_neg (Nat.ne_of_lt hk)]
        · by_cases hk2 : k = L.length
          · subst hk2; simp [hd]
          · rw [if_neg hk2, List.getElem?_eq_none (by omega), List.getElem?_eq_none (by simp; omega)]
    · intro d' hd'
      change m2.cellData = some d' at hd'
      rw [hm2] at hd'
      rcases hd : inp.dataAt id with _ | d
      · rw [hd] at hd'; exact h.sorted d' hd'
      · rw [hd] at hd'
        simp only [Mesh.setCellData, Option.some.injEq] at hd'
        subst hd'
        apply AMap.sorted_set
        rw [d1]
        rcases hc : s.out.cellData with _ | c
        · simp
        · simpa using h.sorted c hc
    · rw [List.map_append, List.foldl_append, ← h.out]
      simp only [List.map_cons, List.map_nil, List.foldl_cons, List.foldl_nil, addOne, Item.plain, h3]

/-- Adding all triangles of a good list succeeds. -/
theorem emit_ok {inp : Mesh P D} {s0 : St P D} (h0 : Built s0.out []) (hd0 : s0.out.cellData = none) {items : List Item}
    (hg : GoodTris (items.map fun x => x.2.1))
    (hp : ∀ x ∈ items, ∀ v ∈ x.2.1.verts, (s0.out.points.find? v).isSome) :
    ∃ s', Prog.forEach (emitOne inp) items s0 = (.ok (), s') ∧ Emitted inp s0 s' items := by
  have step : ∀ (R L : List Item) (s : St P D), L ++ R = items → Emitted inp s0 s L →
      ∃ s', Prog.forEach (emitOne inp) R s = (.ok (), s') ∧ Emitted inp s0 s' items := by
    intro R
    induction R with
    | nil =>
      intro L s hL h
      rw [List.append_nil] at hL
      subst hL
      exact ⟨s, rfl, h⟩
    | cons x R ih =>
      intro L s hL h
      obtain ⟨s', h1, h2⟩ := emitOne_ok (R := R) (x := x) h (by rw [hL]; exact hg)
        (hp x (by rw [← hL]; simp))
      obtain ⟨s'', h3, h4⟩ := ih (L ++ [x]) s' (by simpa using hL) h2
      refine ⟨s'', ?_, h4⟩
      simp only [Prog.forEach]
      rw [Prog.bind_ok h1]
      exact h3
  refine step items [] s0 rfl ⟨by simp [pushed], rfl, rfl, h0, ?_, ?_, rfl⟩
  · intro k; simp [Mesh.dataAt, hd0]
  · intro d hd; rw [hd0] at hd; simp at hd

/-- emission does not touch the edge table nor the mode -/
theorem emitOne_filt (inp : Mesh P D) (x : Item) (s : St P D) :
    (emitOne inp x s).2.filt.epi = s.filt.epi ∧ (emitOne inp x s).2.filt.uniform = s.filt.uniform := by
  have hp : ∀ (q : Option Edge) (s : St P D), (passCellData inp x.1 q s).2.filt = s.filt ∧
      (passCellData inp x.1 q s).1 = .ok () := by
    intro q s
    unfold passCellData
    rcases q with _ | e
    · simp
    · rcases inp.cellData with _ | d
      · simp
      · simp only
        rcases AMap.find? d x.1 with _ | d'
        · simp
        · simp only
          rcases s.out.left e with _ | k <;> simp
  have ha : ∃ q s', addPass inp x.1 x.2.1.1 x.2.1.2.1 x.2.1.2.2 s = (.ok q, s') ∧ s'.filt = s.filt := by
    unfold addPass
    simp only [Prog.bind, addFace]
    have := hp (s.out.addFaceTriangle x.2.1.1 x.2.1.2.1 x.2.1.2.2).2
      { s with out := (s.out.addFaceTriangle x.2.1.1 x.2.1.2.1 x.2.1.2.2).1 }
    rcases hr : passCellData inp x.1 (s.out.addFaceTriangle x.2.1.1 x.2.1.2.1 x.2.1.2.2).2
      { s with out := (s.out.addFaceTriangle x.2.1.1 x.2.1.2.1 x.2.1.2.2).1 } with ⟨r, s'⟩
    rw [hr] at this
    obtain ⟨h1, h2⟩ := this
    subst h2
    exact ⟨_, s', rfl, h1⟩
  obtain ⟨q, s', h1, h2⟩ := ha
  unfold emitOne
  rw [Prog.bind_ok h1, ← h2]
  split
  · unfold pushChild
    rcases q with _ | e
    · simp
    · simp only
      rcases s'.out.left e with _ | k <;> simp
  · simp [Prog.pure]

end Verif
