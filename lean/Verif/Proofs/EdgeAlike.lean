import Verif.Proofs.Affine
/-
Two runs of an edge filter side by side.  Nothing of the object matters except the list of edges, of which only the
non-null entries and whether it is empty matter.
-/
namespace Verif
set_option linter.unusedSectionVars false
variable {K P P' D : Type} [Field K] [Zero P] [Add P] [SMul K P] [Zero P'] [Add P'] [SMul K P']
variable {φ : P → P'}

/-- `m_CellsToBeSubdivided` and the list of edges are not compared -/
structure AlikeE (φ : P → P') (s : St P D) (s' : St P' D) : Prop where
  out : s'.out = s.out.mapPoints φ
  uniform : s'.filt.uniform = s.filt.uniform
  epi : s'.filt.epi = s.filt.epi

/-- the two lists name the same edges in the same order, and are both empty or both not -/
def SameEdges (l l' : List (Option Edge)) : Prop := l'.filterMap id = l.filterMap id ∧ l'.isEmpty = l.isEmpty

theorem SameEdges.rfl {l : List (Option Edge)} : SameEdges l l := ⟨Eq.refl _, Eq.refl _⟩

theorem SameEdges.contains {l l' : List (Option Edge)} (h : SameEdges l l') (e : Edge) :
    l'.contains (some e) = l.contains (some e) := by
  have key : ∀ l : List (Option Edge), l.contains (some e) = (l.filterMap id).contains e := by
    intro l
    rw [Bool.eq_iff_iff]
    simp
  rw [key, key, h.1]

theorem forEach_filterMap {σ : Type} (f : Edge → Prog σ Unit) (l : List (Option Edge)) (s : σ) :
    Prog.forEach (fun oe => match oe with
      | some e => f e
      | none => Prog.pure ()) l s = Prog.forEach f (l.filterMap id) s := by
  induction l generalizing s with
  | nil => rfl
  | cons x l ih =>
    cases x with
    | none =>
      show Prog.bind (Prog.pure ()) _ s = _
      exact ih s
    | some e =>
      show Prog.bind (f e) _ s = Prog.bind (f e) _ s
      unfold Prog.bind
      rcases f e s with ⟨r, t⟩
      cases r with
      | error _ => rfl
      | ok _ => exact ih t

theorem sim_addNewEdgePoint {np : Edge → Except Fail P} {np' : Edge → Except Fail P'} {e : Edge}
    (h : np' e = (np e).map φ) : Sim (AlikeE (D := D) φ) Eq (addNewEdgePoint np e) (addNewEdgePoint np' e) := by
  intro s s' hs
  unfold addNewEdgePoint Prog.bind Prog.lift
  rw [h]
  cases np e with
  | error x => exact ⟨rfl, hs⟩
  | ok p =>
    have hl : s'.out.points.length = s.out.points.length := by rw [hs.out]; simp [Mesh.mapPoints]
    refine ⟨rfl, ⟨?_, hs.uniform, ?_⟩⟩
    · simp only [numberOfPoints, setEpi, modifyFilt, modifyOut, hl, Except.map]
      rw [hs.out]
      unfold Mesh.setPoint Mesh.mapPoints
      simp only [AMap.set_map]
    · simp only [numberOfPoints, setEpi, modifyFilt, modifyOut, hl, hs.epi, Except.map]

theorem sim_edgeOutputPoints (inp : Mesh P D) {copy : M P D Unit} {copy' : M P' D Unit}
    {np : Edge → Except Fail P} {np' : Edge → Except Fail P'} {s : St P D} {s' : St P' D}
    (hcopy : ResRel Eq (copy s).1 (copy' s').1 ∧ (copy' s').2.out = (copy s).2.out.mapPoints φ ∧
      SameEdges (copy s).2.filt.edgeSel (copy' s').2.filt.edgeSel)
    (hadd : ∀ e, ((copy s).2.filt.edgeSel = [] ∧ e ∈ inp.edges ∨ some e ∈ (copy s).2.filt.edgeSel) →
      np' e = (np e).map φ) :
    ResRel Eq (edgeOutputPoints copy (addNewEdgePoint np) inp s).1
      (edgeOutputPoints copy' (addNewEdgePoint np') (inp.mapPoints φ) s').1 ∧
    ((edgeOutputPoints copy (addNewEdgePoint np) inp s).1 = .ok () →
      AlikeE φ (edgeOutputPoints copy (addNewEdgePoint np) inp s).2
        (edgeOutputPoints copy' (addNewEdgePoint np') (inp.mapPoints φ) s').2) := by
  obtain ⟨h1, h2, h3⟩ := hcopy
  unfold edgeOutputPoints
  rcases hp : copy s with ⟨r, t⟩
  rcases hp' : copy' s' with ⟨r', t'⟩
  rw [hp, hp'] at h1 h2 h3
  rw [hp] at hadd
  cases r <;> cases r'
  · unfold Prog.bind
    simp only [hp, hp']
    exact ⟨h1, by simp⟩
  · exact h1.elim
  · exact h1.elim
  · rw [Prog.bind_ok hp, Prog.bind_ok hp']
    have hal : AlikeE φ (⟨{ t.filt with epi := fun _ => none, uniform := t.filt.edgeSel.isEmpty }, t.out⟩ : St P D)
        ⟨{ t'.filt with epi := fun _ => none, uniform := t'.filt.edgeSel.isEmpty }, t'.out⟩ := ⟨h2, h3.2, rfl⟩
    have key : ∀ (u : St P D) (u' : St P' D), AlikeE φ u u' → u.filt.uniform = u.filt.edgeSel.isEmpty →
        SameEdges u.filt.edgeSel u'.filt.edgeSel →
        (∀ e, (u.filt.edgeSel = [] ∧ e ∈ inp.edges ∨ some e ∈ u.filt.edgeSel) → np' e = (np e).map φ) →
        let p := (if u.filt.uniform then
          if inp.hasEdgeCells then Prog.forEach (addNewEdgePoint np) inp.edges u else (.error (.exc .noEdges), u)
          else Prog.forEach (fun oe => match oe with
            | some e => addNewEdgePoint np e
            | none => Prog.pure ()) u.filt.edgeSel u)
        let p' := (if u'.filt.uniform then
          if inp.hasEdgeCells then Prog.forEach (addNewEdgePoint np') inp.edges u' else (.error (.exc .noEdges), u')
          else Prog.forEach (fun oe => match oe with
            | some e => addNewEdgePoint np' e
            | none => Prog.pure ()) u'.filt.edgeSel u')
        ResRel Eq p.1 p'.1 ∧ (p.1 = .ok () → AlikeE φ p.2 p'.2) := by
      intro u u' hu hun hse hnp
      simp only [hu.uniform]
      by_cases hunif : u.filt.uniform = true
      · rw [if_pos hunif, if_pos hunif]
        have hnil : u.filt.edgeSel = [] := by
          rw [hun] at hunif
          exact List.isEmpty_iff.1 hunif
        cases inp.hasEdgeCells with
        | false => exact ⟨rfl, by simp⟩
        | true =>
          have := Sim.forEach (xs := inp.edges) (fun e he => sim_addNewEdgePoint (hnp e (Or.inl ⟨hnil, he⟩))) u u' hu
          exact ⟨this.1, fun _ => this.2⟩
      · rw [if_neg hunif, if_neg hunif, forEach_filterMap, forEach_filterMap, hse.1]
        have := Sim.forEach (xs := u.filt.edgeSel.filterMap id)
          (fun e he => sim_addNewEdgePoint (hnp e (Or.inr (by simpa using he)))) u u' hu
        exact ⟨this.1, fun _ => this.2⟩
    exact key _ _ hal rfl h3 hadd

theorem sim_edgeCells (inp : Mesh P D) {s : St P D} {s' : St P' D} (h : AlikeE φ s s') :
    ResRel Eq (generateOutputCells inp s).1 (generateOutputCells (inp.mapPoints φ) s').1 ∧
    Alike φ (generateOutputCells inp s).2 (generateOutputCells (inp.mapPoints φ) s').2 :=
  -- the list of cells is cleared first
  sim_generateOutputCells (φ := φ) inp { s with filt := { s.filt with cells := [] } }
    { s' with filt := { s'.filt with cells := [] } } ⟨h.out, rfl, h.uniform, h.epi⟩

theorem runFilter_alikeE (lib : QELib) (inp : Mesh P D) {pts : M P D Unit} {pts' : M P' D Unit} {f g : Filt}
    (hp : ResRel Eq (pts ⟨f, Mesh.empty⟩).1 (pts' ⟨g, Mesh.empty⟩).1 ∧
      ((pts ⟨f, Mesh.empty⟩).1 = .ok () → AlikeE φ (pts ⟨f, Mesh.empty⟩).2 (pts' ⟨g, Mesh.empty⟩).2)) :
    (runFilter lib (generateData pts' (generateOutputCells (inp.mapPoints φ))) g).1 =
      (runFilter lib (generateData pts (generateOutputCells inp)) f).1.map (Mesh.mapPoints φ) := by
  obtain ⟨h1, h3⟩ := hp
  unfold runFilter generateData
  rcases hp : pts ⟨f, Mesh.empty⟩ with ⟨r, t⟩
  rcases hp' : pts' ⟨g, Mesh.empty⟩ with ⟨r', t'⟩
  rw [hp, hp'] at h1 h3
  cases r <;> cases r'
  · unfold Prog.bind
    simp only [hp, hp']
    rw [show _ = _ from h1]
    rfl
  · exact h1.elim
  · exact h1.elim
  · rw [Prog.bind_ok hp, Prog.bind_ok hp']
    obtain ⟨k1, k2⟩ := sim_edgeCells inp (h3 rfl)
    rcases hq : generateOutputCells inp t with ⟨r, u⟩
    rcases hq' : generateOutputCells (inp.mapPoints φ) t' with ⟨r', u'⟩
    rw [hq, hq'] at k1 k2
    cases r <;> cases r'
    · simp only
      rw [show _ = _ from k1]
      rfl
    · exact k1.elim
    · exact k1.elim
    · simp only
      rw [k2.out]
      rfl

theorem loopEdgeWalk_same {m : Mesh P D} {l l' : List (Option Edge)} (h : SameEdges l l') (st : Edge) (n : Nat) (q0 : Edge)
    (q1 : Option Edge) : loopEdgeWalk (m.mapPoints φ) l' st n q0 q1 = loopEdgeWalk m l st n q0 q1 := by
  induction n generalizing q0 q1 with
  | zero => rfl
  | succ n ih =>
    unfold loopEdgeWalk
    rw [h.contains]
    have hr : (m.mapPoints φ).ring = m.ring := rfl
    rw [hr]
    cases q1 with
    | none => rfl
    | some q => simp only [ih]

theorem loopEdgeWalk_true (m : Mesh P D) (l : List (Option Edge)) (st : Edge) (n : Nat) (q0 : Edge) (q1 : Option Edge)
    {b : Bool} (h : loopEdgeWalk m l st n q0 q1 = .ok b) : b = true := by
  induction n generalizing q0 q1 with
  | zero => cases h
  | succ n ih =>
    unfold loopEdgeWalk at h
    split at h
    · cases h; rfl
    split at h
    · cases h; rfl
    cases q1 with
    | none => cases h
    | some q => exact ih _ _ h

theorem loopEdgeValue_same (cosn : Nat → K) {m : Mesh P D} {l l' : List (Option Edge)} (h : SameEdges l l') (v : PId) (p : P) :
    loopEdgeValue cosn (m.mapPoints φ) l' v (φ p) = (loopEdgeValue cosn m l v p).map φ := by
  unfold loopEdgeValue
  have hr : (m.mapPoints φ).ring = m.ring := rfl
  have he : (m.mapPoints φ).edges = m.edges := rfl
  rw [hr, he]
  cases m.ring.pointEdge v with
  | none => rfl
  | some e =>
    simp only [loopEdgeWalk_same h]
    cases hw : loopEdgeWalk m l e (2 * m.edges.length + 1) e (m.ring.onext e) with
    | error x => rfl
    | ok b => rw [loopEdgeWalk_true _ _ _ _ _ _ hw]; rfl

theorem writePoints_same {val : PId → P → Except Fail P} {val' : PId → P' → Except Fail P'} (l : List (PId × P))
    (h : ∀ kp ∈ l, val' kp.1 (φ kp.2) = (val kp.1 kp.2).map φ) (s : St P D) (s' : St P' D) (ho : s'.out = s.out.mapPoints φ) :
    ResRel Eq (writePoints val l s).1 (writePoints val' (l.map fun kp => (kp.1, φ kp.2)) s').1 ∧
    (writePoints val' (l.map fun kp => (kp.1, φ kp.2)) s').2.out = (writePoints val l s).2.out.mapPoints φ ∧
    (writePoints val l s).2.filt = s.filt ∧ (writePoints val' (l.map fun kp => (kp.1, φ kp.2)) s').2.filt = s'.filt := by
  induction l generalizing s s' with
  | nil => exact ⟨rfl, ho, rfl, rfl⟩
  | cons kp l ih =>
    unfold writePoints
    simp only [List.map_cons]
    unfold Prog.forEach Prog.bind Prog.lift
    rw [h kp (by simp)]
    cases val kp.1 kp.2 with
    | error e => exact ⟨rfl, ho, rfl, rfl⟩
    | ok p =>
      have := ih (fun x hx => h x (by simp [hx])) ⟨s.filt, s.out.setPoint kp.1 p⟩ ⟨s'.filt, s'.out.setPoint kp.1 (φ p)⟩ (by
        simp only
        rw [ho]
        unfold Mesh.setPoint Mesh.mapPoints
        simp only [AMap.set_map])
      exact this

theorem dense_replicate_map (n : Nat) (x : P) :
    (AMap.dense (List.replicate n x)).map (fun kp => (kp.1, φ kp.2)) = AMap.dense (List.replicate n (φ x)) := by
  rw [mapDense]; simp

/-- the copy of the Loop edge filter; its points are numbered `0 … n-1`, or `φ` keeps zero -/
theorem loopEdgeCopy_same (cosn : Nat → K) {inp : Mesh P D} (h0 : φ 0 = 0) {f g : Filt} (h : SameEdges f.edgeSel g.edgeSel) :
    ResRel Eq (loopEdgeCopy cosn inp ⟨f, Mesh.empty⟩).1 (loopEdgeCopy cosn (inp.mapPoints φ) ⟨g, Mesh.empty⟩).1 ∧
    (loopEdgeCopy cosn (inp.mapPoints φ) ⟨g, Mesh.empty⟩).2.out = (loopEdgeCopy cosn inp ⟨f, Mesh.empty⟩).2.out.mapPoints φ ∧
    SameEdges (loopEdgeCopy cosn inp ⟨f, Mesh.empty⟩).2.filt.edgeSel
      (loopEdgeCopy cosn (inp.mapPoints φ) ⟨g, Mesh.empty⟩).2.filt.edgeSel := by
  have hlen : (inp.mapPoints φ).points.length = inp.points.length := by simp [Mesh.mapPoints]
  have := writePoints_same (D := D) (φ := φ) (val := loopEdgeValue cosn inp f.edgeSel)
    (val' := loopEdgeValue cosn (inp.mapPoints φ) g.edgeSel) inp.points (fun kp _ => loopEdgeValue_same cosn h _ _)
    ⟨f, { (Mesh.empty : Mesh P D) with points := AMap.reserve [] inp.points.length 0 }⟩
    ⟨g, { (Mesh.empty : Mesh P' D) with points := AMap.reserve [] (inp.mapPoints φ).points.length 0 }⟩ (by
      unfold Mesh.mapPoints
      simp only [List.length_map, AMap.reserve_nil, dense_replicate_map, h0]
      rfl)
  refine ⟨this.1, this.2.1, ?_⟩
  have e1 : (loopEdgeCopy cosn inp ⟨f, Mesh.empty⟩).2.filt = f := this.2.2.1
  have e2 : (loopEdgeCopy cosn (inp.mapPoints φ) ⟨g, Mesh.empty⟩).2.filt = g := this.2.2.2
  rw [e1, e2]
  exact h

/-- The run of an edge filter depends on the object only through the edges it lists. -/
theorem edgeUpdate_same (sch : EdgeScheme) (lib : QELib) (cosn : Nat → K) (inp : Mesh P D) {f g : Filt}
    (h : SameEdges f.edgeSel g.edgeSel) :
    (edgeUpdate sch lib cosn g inp).1 = (edgeUpdate sch lib cosn f inp).1 := by
  have hid : inp.mapPoints (id : P → P) = inp := mapPoints_id inp
  have hmap : ∀ r : Except Fail (Mesh P D), r.map (Mesh.mapPoints id) = r := by
    intro r
    cases r with
    | error e => rfl
    | ok m => exact congrArg _ (mapPoints_id m)
  have hnp : ∀ (np : Edge → Except Fail P) (e : Edge), np e = (np e).map id := by
    intro np e
    cases np e <;> rfl
  have hcopy : ResRel Eq (copyPoints inp ⟨f, Mesh.empty⟩).1 (copyPoints inp ⟨g, Mesh.empty⟩).1 ∧
      (copyPoints inp ⟨g, Mesh.empty⟩).2.out = (copyPoints inp ⟨f, Mesh.empty⟩).2.out.mapPoints (id : P → P) ∧
      SameEdges (copyPoints inp ⟨f, Mesh.empty⟩).2.filt.edgeSel (copyPoints inp ⟨g, Mesh.empty⟩).2.filt.edgeSel :=
    ⟨rfl, (mapPoints_id _).symm, h⟩
  have hloop := loopEdgeCopy_same (φ := (id : P → P)) cosn (inp := inp) rfl h
  rw [hid] at hloop
  unfold edgeUpdate edgeGenerate
  cases sch with
  | linear =>
    have := runFilter_alikeE (φ := (id : P → P)) lib inp (f := f) (g := g)
      (sim_edgeOutputPoints inp (np := linearPoint K inp) (np' := linearPoint K inp) hcopy (fun e _ => hnp _ e))
    rw [hid, hmap] at this
    exact this
  | loop =>
    have := runFilter_alikeE (φ := (id : P → P)) lib inp (f := f) (g := g)
      (sim_edgeOutputPoints inp (np := loopPoint K inp) (np' := loopPoint K inp) hloop (fun e _ => hnp _ e))
    rw [hid, hmap] at this
    exact this
  | butterfly =>
    have := runFilter_alikeE (φ := (id : P → P)) lib inp (f := f) (g := g)
      (sim_edgeOutputPoints inp (np := butterflyPoint K inp) (np' := butterflyPoint K inp) hcopy (fun e _ => hnp _ e))
    rw [hid, hmap] at this
    exact this

end Verif
