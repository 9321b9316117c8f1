import Verif.Spec.Mirror
import Verif.Proofs.ListingSqrt3
/-
The schemes on a surface and on its other side.
-/
namespace Verif
set_option linter.unusedSectionVars false
variable {K P D : Type} [Field K] [AddCommGroup P] [Module K P]

namespace OtherSide
variable {ρ : PId → PId} {m m' : Mesh P D}

theorem injOn (R : OtherSide ρ m m') : InjOn ρ (usedBy m.tris) := by
  rintro v w ⟨t, ht, hv⟩ ⟨t', ht', hw⟩ h
  exact R.inj t ht t' ht' v hv w hw h

theorem used (R : OtherSide ρ m m') {v : PId} (h : usedBy m.tris v) : usedBy m'.tris (ρ v) := by
  obtain ⟨y, z, h⟩ := usedBy_iff_hasTri.1 h
  exact usedBy_iff_hasTri.2 ⟨_, _, (R.tri _ _ _ h).rot.rot⟩

/-- a directed edge of the one is an edge of the other in the other direction -/
theorem dart_iff (R : OtherSide ρ m m') {e : Edge} (h : usedBy m.tris e.1 ∧ usedBy m.tris e.2) :
    (e.sym).rename ρ ∈ dartsOf m'.tris ↔ e ∈ dartsOf m.tris := by
  obtain ⟨a, b⟩ := e
  show (ρ b, ρ a) ∈ dartsOf m'.tris ↔ _
  rw [dartsOf_iff_hasTri, dartsOf_iff_hasTri]
  constructor
  · rintro ⟨z, hz⟩
    obtain ⟨x, y, w, h1, h2, h3, h4⟩ := R.onto _ _ _ hz
    obtain ⟨u1, u2, u3⟩ := hasTri_used h1
    rw [R.injOn _ _ u3 h.2 h2, R.injOn _ _ u2 h.1 h3] at h1
    exact ⟨x, h1.rot⟩
  · rintro ⟨z, hz⟩
    exact ⟨_, (R.tri _ _ _ hz).rot⟩

theorem dart_iff' (R : OtherSide ρ m m') {e : Edge} (h : usedBy m.tris e.1 ∧ usedBy m.tris e.2) :
    e.rename ρ ∈ dartsOf m'.tris ↔ e.sym ∈ dartsOf m.tris := by
  rw [← R.dart_iff (e := e.sym) ⟨h.2, h.1⟩, Edge.sym_sym]

theorem dart' (R : OtherSide ρ m m') {e : Edge} (h : e ∈ dartsOf m'.tris) : ∃ x ∈ dartsOf m.tris, (x.sym).rename ρ = e := by
  obtain ⟨a, b⟩ := e
  obtain ⟨z, hz⟩ := dartsOf_iff_hasTri.1 h
  obtain ⟨x, y, w, h1, rfl, rfl, rfl⟩ := R.onto _ _ _ hz
  exact ⟨(y, w), h1.rot.dart, rfl⟩

theorem isEdge (R : OtherSide ρ m m') (hv' : m'.Valid) (hv : m.Valid) {e : Edge} (h : m.IsEdge e) :
    m'.IsEdge (e.rename ρ) := by
  have hu := Renamed.used_of_edge hv h
  refine (hv'.edges_iff _).2 ?_
  rw [Edge.rename_sym, R.dart_iff hu, R.dart_iff' hu]
  exact ((hv.edges_iff e).1 h).symm

theorem isEdge' (R : OtherSide ρ m m') (hv' : m'.Valid) (hv : m.Valid) {e : Edge} (h : m'.IsEdge e) :
    ∃ x, m.IsEdge x ∧ x.rename ρ = e := by
  rcases (hv'.edges_iff e).1 h with he | he
  · obtain ⟨x, hx, hxe⟩ := R.dart' he
    exact ⟨x.sym, (hv.isEdge_of_dart hx).sym, hxe⟩
  · obtain ⟨x, hx, hxe⟩ := R.dart' he
    exact ⟨x, hv.isEdge_of_dart hx, by rw [← Edge.sym_sym x, ← Edge.rename_sym, hxe, Edge.sym_sym]⟩

theorem coord (R : OtherSide ρ m m') {v : PId} (h : usedBy m.tris v) : m'.coord (ρ v) = m.coord v := by
  obtain ⟨t, ht, hv⟩ := h
  have := R.pos t ht v hv
  unfold Mesh.coord
  unfold Mesh.pos at this
  rw [this]

theorem getPoint (R : OtherSide ρ m m') {v : PId} (h : usedBy m.tris v) : m'.getPoint (ρ v) = m.getPoint v := by
  obtain ⟨t, ht, hv⟩ := h
  have := R.pos t ht v hv
  unfold Mesh.pos at this
  unfold Mesh.getPoint
  rw [this]

theorem closed (R : OtherSide ρ m m') (hc : m.Closed) : m'.Closed := by
  rintro e ⟨h1, h2⟩
  obtain ⟨x, hx, rfl⟩ := R.dart' h1
  rw [Edge.rename_sym, Edge.sym_sym, R.dart_iff' (usedBy_dart hx)] at h2
  exact hc x ⟨hx, h2⟩

theorem linearPoint (R : OtherSide ρ m m') (hv : m.Valid) {e : Edge} (he : m.IsEdge e) :
    Verif.linearPoint K m' (e.rename ρ) = Verif.linearPoint K m e := by
  have hu := Renamed.used_of_edge hv he
  unfold Verif.linearPoint
  have h1 : m'.getPoint (e.rename ρ).1 = _ := R.getPoint hu.1
  have h2 : m'.getPoint (e.rename ρ).2 = _ := R.getPoint hu.2
  rw [h1, h2]

theorem loopPoint (R : OtherSide ρ m m') (hv : m.Valid) (hv' : m'.Valid) (hr : m.RingOK) (hr' : m'.RingOK) {e : Edge}
    (he : m.IsEdge e) : Verif.loopPoint K m' (e.rename ρ) = Verif.loopPoint K m e := by
  have hu := Renamed.used_of_edge hv he
  by_cases hb : e ∈ dartsOf m.tris ∧ e.sym ∈ dartsOf m.tris
  · obtain ⟨a, b⟩ := e
    obtain ⟨c, hc⟩ := dartsOf_iff_hasTri.1 hb.1
    obtain ⟨d, hd⟩ := dartsOf_iff_hasTri.1 hb.2
    have h3 := Renamed.used_of_edge hv (hv.edge13 hc)
    have h4 := Renamed.used_of_edge hv (hv.edge13 hd)
    rw [loopPoint_inner hv hr hc hd]
    refine (loopPoint_inner hv' hr' (R.tri _ _ _ hd).rot (R.tri _ _ _ hc).rot).trans ?_
    rw [R.coord hu.1, R.coord hu.2, R.coord h3.2, R.coord h4.2]
    congr 1
    abel
  · rw [loopPoint_border hv he hb, loopPoint_border hv' (R.isEdge hv' hv he)
      (by rw [Edge.rename_sym, R.dart_iff hu, R.dart_iff' hu, and_comm]; exact hb)]
    have h1 : m'.coord (e.rename ρ).1 = _ := R.coord hu.1
    have h2 : m'.coord (e.rename ρ).2 = _ := R.coord hu.2
    rw [h1, h2]

/-- on a closed surface the stencil is made of triangles -/
theorem butterflyPoint (R : OtherSide ρ m m') (hv : m.Valid) (hv' : m'.Valid) (hr : m.RingOK) (hr' : m'.RingOK)
    (hcl : m.Closed) {e : Edge} (he : m.IsEdge e) :
    Verif.butterflyPoint K m' (e.rename ρ) = Verif.butterflyPoint K m e := by
  have hd : ∀ {a b : PId}, m.IsEdge (a, b) → ∃ c, HasTri m.tris a b c := by
    intro a b hab
    refine dartsOf_iff_hasTri.1 ?_
    by_contra h
    have h1 := (hv.edges_iff (a, b)).1 hab
    have h2 : Edge.sym (a, b) ∈ dartsOf m.tris := by tauto
    exact hcl _ ⟨h2, by rw [Edge.sym_sym]; exact h⟩
  obtain ⟨a, b⟩ := e
  obtain ⟨c, hc⟩ := hd he
  obtain ⟨d, hd'⟩ := hd he.sym
  obtain ⟨w1, h1⟩ := hd (hv.isEdge_of_dart hc.rot.dart).sym
  obtain ⟨w2, h2⟩ := hd (hv.isEdge_of_dart hc.rot.rot.dart).sym
  obtain ⟨w3, h3⟩ := hd (hv.isEdge_of_dart hd'.rot.dart).sym
  obtain ⟨w4, h4⟩ := hd (hv.isEdge_of_dart hd'.rot.rot.dart).sym
  rw [butterflyPoint_inner hv hr hc hd' h1 h4 h2 h3]
  refine (butterflyPoint_inner hv' hr' (R.tri _ _ _ hd').rot (R.tri _ _ _ hc).rot (R.tri _ _ _ h4).rot (R.tri _ _ _ h1).rot
    (R.tri _ _ _ h3).rot (R.tri _ _ _ h2).rot).trans ?_
  obtain ⟨ua, ub, uc⟩ := hasTri_used hc
  rw [R.coord ua, R.coord ub, R.coord uc, R.coord (hasTri_used hd').2.2, R.coord (hasTri_used h1).2.2,
    R.coord (hasTri_used h2).2.2, R.coord (hasTri_used h3).2.2, R.coord (hasTri_used h4).2.2]
  congr 1
  abel

theorem isAtBorder (R : OtherSide ρ m m') (hv : m.Valid) (hv' : m'.Valid) {e : Edge} (he : m.IsEdge e) :
    m'.isAtBorder (e.rename ρ) = m.isAtBorder e := by
  have hu := Renamed.used_of_edge hv he
  rw [Bool.eq_iff_iff, hv'.isAtBorder_iff (R.isEdge hv' hv he), hv.isAtBorder_iff he, Edge.rename_sym, R.dart_iff hu,
    R.dart_iff' hu, and_comm]

theorem smoothingPoint (R : OtherSide ρ m m') (hv : m.Valid) (hv' : m'.Valid) (hr : m.RingOK) (hr' : m'.RingOK)
    (cosn : Nat → K) {v : PId} (h : usedBy m.tris v) (p : P) :
    Verif.smoothingPoint cosn m' (ρ v) p = Verif.smoothingPoint cosn m v p := by
  obtain ⟨w, hw⟩ : ∃ w, m.IsEdge (v, w) := by
    obtain ⟨t, ht, hvt⟩ := h
    obtain ⟨y, z, hi⟩ := Tri.mem_verts.1 hvt
    exact ⟨y, hv.isEdge_of_dart (mem_dartsOf.2 ⟨t, ht, hi.dart⟩)⟩
  obtain ⟨r, h1, h2, h3⟩ := smoothingPoint_ok cosn hv hr hw p
  obtain ⟨r', k1, k2, k3⟩ := smoothingPoint_ok cosn hv' hr' (show m'.IsEdge (ρ v, ρ w) from R.isEdge hv' hv hw) p
  rw [h3, k3]
  have hre : ∀ e ∈ r, m.IsEdge e := fun e he => ((h2 e).1 he).1
  have hperm : r'.Perm (r.map (Edge.rename ρ)) := by
    refine (List.perm_ext_iff_of_nodup k1 ?_).2 ?_
    · refine List.Nodup.map_on ?_ h1
      intro x hx y hy hxy
      exact (Edge.rename_inj R.injOn (Renamed.used_of_edge hv (hre x hx)) (Renamed.used_of_edge hv (hre y hy))).1 hxy
    · intro e
      rw [k2, List.mem_map]
      constructor
      · rintro ⟨a1, a2⟩
        obtain ⟨x, hx, rfl⟩ := R.isEdge' hv' hv a1
        refine ⟨x, (h2 x).2 ⟨hx, ?_⟩, rfl⟩
        exact R.injOn _ _ (Renamed.used_of_edge hv hx).1 h a2
      · rintro ⟨x, hx, rfl⟩
        obtain ⟨b1, b2⟩ := (h2 x).1 hx
        exact ⟨R.isEdge hv' hv b1, congrArg ρ b2⟩
  have hf : (r'.filter m'.isAtBorder).Perm ((r.filter m.isAtBorder).map (Edge.rename ρ)) := by
    refine (hperm.filter _).trans (List.Perm.of_eq ?_)
    rw [List.filter_map]
    congr 1
    refine List.filter_congr fun x hx => ?_
    exact R.isAtBorder hv hv' (hre x hx)
  have hsum : ∀ {l' l : List Edge}, l'.Perm (l.map (Edge.rename ρ)) → (∀ e ∈ l, m.IsEdge e) →
      (l'.map fun e => m'.coord e.2).sum = (l.map fun e => m.coord e.2).sum := by
    intro l' l hl he
    rw [(hl.map _).sum_eq, List.map_map]
    congr 1
    exact List.map_congr_left fun x hx => R.coord (Renamed.used_of_edge hv (he x hx)).2
  have l1 : (r'.filter m'.isAtBorder).length = (r.filter m.isAtBorder).length := by rw [hf.length_eq, List.length_map]
  have l2 : r'.length = r.length := by rw [hperm.length_eq, List.length_map]
  simp only [smoothed, added_eq]
  rw [l1, l2, hsum hperm hre, hsum hf fun e he => hre e (List.mem_filter.1 he).1]

theorem schemePoint {sch : Scheme} (R : OtherSide ρ m m') (hn : sch.Needs m) (hn' : sch.Needs m')
    (hc : sch = .butterfly → m.Closed) {e : Edge} (he : m.IsEdge e) :
    Verif.schemePoint sch K m' (e.rename ρ) = Verif.schemePoint sch K m e := by
  cases sch with
  | linear => exact R.linearPoint hn.valid he
  | loop => exact R.loopPoint hn.valid hn'.valid (hn.ring (Or.inl rfl)) (hn'.ring (Or.inl rfl)) he
  | butterfly =>
    exact R.butterflyPoint hn.valid hn'.valid (hn.ring (Or.inr rfl)) (hn'.ring (Or.inr rfl)) (hc rfl) he
  | sqrt3 => rfl

theorem schemeBase {sch : Scheme} (R : OtherSide ρ m m') (hn : sch.Needs m)
    (hn' : sch.Needs m') {f g : Filt} (cosn : Nat → K) (hl : sch = .loop → f.uniform = true ∧ g.uniform = true) {v : PId}
    (h : usedBy m.tris v) : Verif.schemeBase sch cosn m' g (ρ v) = Verif.schemeBase sch cosn m f v := by
  cases sch with
  | loop =>
    obtain ⟨h1, h2⟩ := hl rfl
    show loopBase cosn m' g (ρ v) = loopBase cosn m f v
    unfold loopBase
    rw [h1, h2]
    simp only [Bool.true_or, if_true]
    refine valueOf_congr ?_
    rw [R.coord h]
    exact R.smoothingPoint hn.valid hn'.valid (hn.ring (Or.inl rfl)) (hn'.ring (Or.inl rfl)) cosn h _
  | linear => exact R.coord h
  | butterfly => exact R.coord h
  | sqrt3 => exact R.coord h

end OtherSide
end Verif
