import Verif.Spec.Superpose
import Verif.Proofs.EdgeAlike
import Verif.Proofs.Iterative
/-
Runs on a mesh and on its image under a map that keeps zero, sums and multiples.  The mesh need not be valid.
-/
namespace Verif
set_option linter.unusedSectionVars false
variable {K P P' D : Type} [Field K] [Zero P] [Add P] [SMul K P] [Zero P'] [Add P'] [SMul K P']
variable {φ : P → P'} {inp : Mesh P D}

theorem PosHom.mid (h : PosHom K φ) (a b : P) : φ (midPoint K a b) = midPoint K (φ a) (φ b) := by
  unfold midPoint; rw [h.smul, h.add]

theorem PosHom.third (h : PosHom K φ) (a b c : P) :
    φ ((1 / 3 : K) • (0 + a + b + c)) = (1 / 3 : K) • (0 + φ a + φ b + φ c) := by
  rw [h.smul, h.add, h.add, h.add, h.zero]

theorem PosHom.dest (h : PosHom K φ) (e : Option Edge) :
    destOrZero (inp.mapPoints φ) e = (destOrZero inp e).map φ := by
  cases e with
  | none => simp [destOrZero, Except.map, h.zero]
  | some e => exact getPoint_map _ _

theorem PosHom.linearPoint (h : PosHom K φ) (e : Edge) :
    linearPoint K (inp.mapPoints φ) e = (Verif.linearPoint K inp e).map φ := by
  unfold Verif.linearPoint
  rw [getPoint_map, getPoint_map]
  rcases inp.getPoint e.1 with _ | a
  · rfl
  rcases inp.getPoint e.2 with _ | b
  · rfl
  exact congrArg Except.ok (h.mid a b).symm

theorem PosHom.loopPoint (h : PosHom K φ) (e : Edge) :
    loopPoint K (inp.mapPoints φ) e = (Verif.loopPoint K inp e).map φ := by
  unfold Verif.loopPoint
  have h1 : (inp.mapPoints φ).isInternal = inp.isInternal := rfl
  have h2 : (inp.mapPoints φ).isAtBorder = inp.isAtBorder := rfl
  have h3 : (inp.mapPoints φ).lnext = inp.lnext := rfl
  have h4 : (inp.mapPoints φ).rprev = inp.rprev := rfl
  rw [h1, h2, h3, h4, getPoint_map, getPoint_map, h.dest, h.dest]
  split
  · rcases inp.getPoint e.1 with _ | a
    · rfl
    rcases inp.getPoint e.2 with _ | b
    · rfl
    rcases destOrZero inp (inp.lnext e) with _ | c
    · rfl
    rcases destOrZero inp (inp.rprev e) with _ | d
    · rfl
    refine congrArg Except.ok ?_
    simp only [h.add, h.smul, h.zero]
  split
  · rcases inp.getPoint e.1 with _ | a
    · rfl
    rcases inp.getPoint e.2 with _ | b
    · rfl
    exact congrArg Except.ok (h.mid a b).symm
  · rfl

theorem PosHom.butterflyPoint (h : PosHom K φ) (e : Edge) :
    butterflyPoint K (inp.mapPoints φ) e = (Verif.butterflyPoint K inp e).map φ := by
  unfold Verif.butterflyPoint
  have h3 : (inp.mapPoints φ).lnext = inp.lnext := rfl
  have h4 : (inp.mapPoints φ).rprev = inp.rprev := rfl
  have h5 : (inp.mapPoints φ).lprev = inp.lprev := rfl
  have h6 : (inp.mapPoints φ).rnext = inp.rnext := rfl
  rw [h3, h4, h5, h6, getPoint_map, getPoint_map]
  simp only [h.dest]
  rcases inp.getPoint e.1 with _ | p0
  · rfl
  rcases inp.getPoint e.2 with _ | p1
  · rfl
  rcases destOrZero inp (inp.lnext e) with _ | p2
  · rfl
  rcases destOrZero inp ((inp.lnext e).bind inp.rprev) with _ | p4
  · rfl
  rcases destOrZero inp (inp.rprev e) with _ | p3
  · rfl
  rcases destOrZero inp ((inp.rprev e).bind inp.lnext) with _ | p5
  · rfl
  rcases destOrZero inp ((inp.lprev e).bind inp.rprev) with _ | p6
  · rfl
  rcases destOrZero inp ((inp.rnext e).bind inp.lnext) with _ | p7
  · rfl
  refine congrArg Except.ok ?_
  simp only [h.add, h.smul, h.zero]

theorem PosHom.sumFrom (h : PosHom K φ) (es : List Edge) (acc : P) :
    sumFrom (inp.mapPoints φ) (φ acc) es = (Verif.sumFrom inp acc es).map φ := by
  induction es generalizing acc with
  | nil => rfl
  | cons e es ih =>
    unfold Verif.sumFrom
    rw [getPoint_map]
    rcases inp.getPoint e.2 with _ | p
    · rfl
    · show Verif.sumFrom _ (φ acc + φ p) es = _
      rw [← h.add, ih]
      rfl

theorem PosHom.sumDest (h : PosHom K φ) (es : List Edge) :
    sumDest (inp.mapPoints φ) es = (Verif.sumDest inp es).map φ := by
  unfold Verif.sumDest
  rw [← h.sumFrom, h.zero]

theorem PosHom.smoothingPoint (h : PosHom K φ) (cosn : Nat → K) (v : PId) (p : P) :
    smoothingPoint cosn (inp.mapPoints φ) v (φ p) = (Verif.smoothingPoint cosn inp v p).map φ := by
  unfold Verif.smoothingPoint
  have h1 : (inp.mapPoints φ).ring = inp.ring := rfl
  have h2 : (inp.mapPoints φ).isAtBorder = inp.isAtBorder := rfl
  rw [h1, h2]
  rcases inp.ring.pointEdge v with _ | e
  · rfl
  simp only [ringAt_map, h.sumDest]
  rcases ringAt inp e with _ | r
  · rfl
  rcases ho : Verif.sumDest inp r with _ | o
  · simp only [bind, Except.bind, Except.map, ho]
  rcases hb : Verif.sumDest inp (r.filter inp.isAtBorder) with _ | b
  · simp only [bind, Except.bind, Except.map, ho, hb]
  simp only [bind, Except.bind, Except.map, ho, hb]
  split
  · simp only [h.add, h.smul]
  · simp only [h.add, h.smul]

/-- the copy of the Loop filter -/
theorem PosHom.loopCopy (h : PosHom K φ) (cosn : Nat → K) (f : Filt) :
    ResRel Eq (loopCopy cosn inp ⟨f, Mesh.empty⟩).1 (loopCopy cosn (inp.mapPoints φ) ⟨f, Mesh.empty⟩).1 ∧
    AlikeStart φ (loopCopy cosn inp ⟨f, Mesh.empty⟩).2 (loopCopy cosn (inp.mapPoints φ) ⟨f, Mesh.empty⟩).2 := by
  have hs : ∀ l, loopSmoothSet (inp.mapPoints φ) l = loopSmoothSet inp l := loopSmoothSet_map inp
  have hal : Alike φ (⟨f, { (Mesh.empty : Mesh P D) with points := AMap.reserve [] inp.points.length 0 }⟩ : St P D)
      ⟨f, { (Mesh.empty : Mesh P' D) with points := AMap.reserve [] (inp.mapPoints φ).points.length 0 }⟩ := by
    refine ⟨?_, rfl, rfl, rfl⟩
    unfold Mesh.mapPoints
    simp only [List.length_map, AMap.reserve_nil, dense_replicate_map, h.zero]
    rfl
  have key : ∀ {p : M P D Unit} {p' : M P' D Unit}, Sim (Alike φ) Eq p p' →
      ResRel Eq (p ⟨f, { (Mesh.empty : Mesh P D) with points := AMap.reserve [] inp.points.length 0 }⟩).1
        (p' ⟨f, { (Mesh.empty : Mesh P' D) with points := AMap.reserve [] (inp.mapPoints φ).points.length 0 }⟩).1 ∧
      AlikeStart φ (p ⟨f, { (Mesh.empty : Mesh P D) with points := AMap.reserve [] inp.points.length 0 }⟩).2
        (p' ⟨f, { (Mesh.empty : Mesh P' D) with points := AMap.reserve [] (inp.mapPoints φ).points.length 0 }⟩).2 := by
    intro p p' hp
    obtain ⟨a, b⟩ := hp _ _ hal
    exact ⟨a, b.out, b.cells⟩
  rw [loopCopy_eq, loopCopy_eq]
  simp only
  split
  · exact key (sim_writePoints fun kp _ => h.smoothingPoint cosn kp.1 kp.2)
  · refine key ?_
    rw [hs]
    refine (Sim.lift (ResRel.of_eq rfl)).bind ?_
    rintro set _ rfl
    refine sim_writePoints fun kp _ => ?_
    split
    · exact h.smoothingPoint cosn kp.1 kp.2
    · rfl

/-- one run of a cell filter on any mesh, from any object -/
theorem PosHom.cellUpdate (h : PosHom K φ) (sch : Scheme) (lib : QELib) (cosn : Nat → K) (f : Filt) (inp : Mesh P D) :
    (cellUpdate sch lib cosn f (inp.mapPoints φ)).1 = (Verif.cellUpdate sch lib cosn f inp).1.map (Mesh.mapPoints φ) ∧
    (cellUpdate sch lib cosn f (inp.mapPoints φ)).2.cells = (Verif.cellUpdate sch lib cosn f inp).2.cells := by
  have hcopy := copyPoints_alike (φ := φ) (inp := inp) (f := f) (g := f) (Or.inl h.zero) rfl
  cases sch with
  | linear =>
    exact runFilter_alike lib (sim_generateOutputPoints inp (fun _ c _ => sim_linearAddNew h.mid inp c) hcopy)
      (sim_generateOutputCells inp)
  | loop =>
    exact runFilter_alike lib (sim_generateOutputPoints inp
      (fun _ c _ => sim_addThree inp (fun e _ => h.loopPoint e) c) (h.loopCopy cosn f)) (sim_generateOutputCells inp)
  | butterfly =>
    exact runFilter_alike lib (sim_generateOutputPoints inp
      (fun _ c _ => sim_addThree inp (fun e _ => h.butterflyPoint e) c) hcopy) (sim_generateOutputCells inp)
  | sqrt3 =>
    exact runFilter_alike lib (sim_generateOutputPoints inp (fun _ c _ => sim_sq3AddNew h.third inp c) hcopy)
      (sim_sq3OutputCells inp)

theorem PosHom.edgeUpdate (h : PosHom K φ) (sch : EdgeScheme) (lib : QELib) (cosn : Nat → K) (f : Filt) (inp : Mesh P D) :
    (edgeUpdate sch lib cosn f (inp.mapPoints φ)).1 = (Verif.edgeUpdate sch lib cosn f inp).1.map (Mesh.mapPoints φ) := by
  have hc := copyPoints_alike (φ := φ) (inp := inp) (f := f) (g := f) (Or.inl h.zero) rfl
  have hcopy : ResRel Eq (copyPoints inp ⟨f, Mesh.empty⟩).1 (copyPoints (inp.mapPoints φ) ⟨f, Mesh.empty⟩).1 ∧
      (copyPoints (inp.mapPoints φ) ⟨f, Mesh.empty⟩).2.out = (copyPoints inp ⟨f, Mesh.empty⟩).2.out.mapPoints φ ∧
      SameEdges (copyPoints inp ⟨f, Mesh.empty⟩).2.filt.edgeSel
        (copyPoints (inp.mapPoints φ) ⟨f, Mesh.empty⟩).2.filt.edgeSel := ⟨hc.1, hc.2.out, SameEdges.rfl⟩
  have hloop := loopEdgeCopy_same (φ := φ) cosn (inp := inp) h.zero (SameEdges.rfl (l := f.edgeSel)) (f := f) (g := f)
  cases sch with
  | linear => exact runFilter_alikeE lib inp (sim_edgeOutputPoints inp hcopy fun e _ => h.linearPoint e)
  | loop => exact runFilter_alikeE lib inp (sim_edgeOutputPoints inp hloop fun e _ => h.loopPoint e)
  | butterfly => exact runFilter_alikeE lib inp (sim_edgeOutputPoints inp hcopy fun e _ => h.butterflyPoint e)

theorem PosHom.manyLevels (h : PosHom K φ) (sch : Scheme) (lib : QELib) (cosn : Nat → K) (n : Nat) (m : Mesh P D)
    (sel : List CId) :
    manyLevels sch lib cosn n (m.mapPoints φ, sel) =
      (Verif.manyLevels sch lib cosn n (m, sel)).map fun x => (x.1.mapPoints φ, x.2) := by
  induction n generalizing m sel with
  | zero => rfl
  | succ n ih =>
    unfold Verif.manyLevels oneLevel
    obtain ⟨a, b⟩ := h.cellUpdate sch lib cosn (Filt.new.setCells sel) m
    rcases hc : Verif.cellUpdate sch lib cosn (Filt.new.setCells sel) m with ⟨r, g⟩
    rcases hc' : Verif.cellUpdate sch lib cosn (Filt.new.setCells sel) (m.mapPoints φ) with ⟨r', g'⟩
    rw [hc, hc'] at a b
    simp only at a b
    subst a
    cases r with
    | error e => rfl
    | ok o =>
      simp only [Except.map, b]
      exact ih o g.cells

end Verif
