import Verif.Spec.Coords
import Verif.Proofs.Coords
import Verif.Proofs.Sqrt3Result
import Verif.Spec.Topology
/-
Outputs as lists of triples of positions do not depend on the numbering of the points.
-/
namespace Verif
set_option linter.unusedSectionVars false
variable {K P D : Type} [Field K] [AddCommGroup P] [Module K P]

/-- the pattern of `Tri.children` for any kind of points -/
def cut {α : Type} (a b c : α) : Option α → Option α → Option α → List (α × α × α)
  | none, none, none => [(a, b, c)]
  | some m0, none, none => [(m0, b, c), (m0, c, a)]
  | none, some m1, none => [(m1, c, a), (m1, a, b)]
  | none, none, some m2 => [(m2, a, b), (m2, b, c)]
  | some m0, some m1, none => [(c, a, m0), (c, m0, m1), (m0, b, m1)]
  | some m0, none, some m2 => [(b, c, m0), (c, m2, m0), (m2, a, m0)]
  | none, some m1, some m2 => [(a, b, m1), (a, m1, m2), (m1, c, m2)]
  | some m0, some m1, some m2 => [(a, m0, m2), (m0, b, m1), (m1, c, m2), (m0, m1, m2)]

theorem children_map {α : Type} (g : PId → α) (μ : Edge → Option PId) (t : Tri) :
    (t.children μ).map (fun d => (g d.1, g d.2.1, g d.2.2)) =
      cut (g t.1) (g t.2.1) (g t.2.2) ((μ (t.1, t.2.1)).map g) ((μ (t.2.1, t.2.2)).map g) ((μ (t.2.2, t.1)).map g) := by
  unfold Tri.children
  dsimp only
  rcases μ (t.1, t.2.1) with _ | m0 <;> rcases μ (t.2.1, t.2.2) with _ | m1 <;> rcases μ (t.2.2, t.1) with _ | m2 <;> rfl

theorem flatMap_congr_map {α β γ : Type} {g : α → β} {F : α → List γ} {G : β → List γ} {l : List α}
    (h : ∀ x ∈ l, F x = G (g x)) : l.flatMap F = (l.map g).flatMap G := by
  induction l with
  | nil => rfl
  | cons x l ih =>
    rw [List.flatMap_cons, List.map_cons, List.flatMap_cons, h x (by simp), ih fun y hy => h y (by simp [hy])]

theorem coordTris_children {out₁ out₂ : Mesh P D} {T : List Tri} {μ₁ μ₂ : Edge → Option PId} {ρ : PId → PId}
    (h₁ : out₁.tris = T.flatMap (Tri.children μ₁)) (h₂ : out₂.tris = (T.map (Tri.rename ρ)).flatMap (Tri.children μ₂))
    (hb : ∀ t ∈ T, ∀ v ∈ t.verts, out₁.pos v = out₂.pos (ρ v))
    (he : ∀ e ∈ dartsOf T, (μ₁ e).map out₁.pos = (μ₂ (Edge.rename ρ e)).map out₂.pos) :
    out₁.coordTris = out₂.coordTris := by
  unfold Mesh.coordTris
  rw [h₁, h₂, List.map_flatMap, List.map_flatMap]
  refine flatMap_congr_map fun t ht => ?_
  rw [children_map, children_map]
  have hd : ∀ e ∈ t.darts, e ∈ dartsOf T := fun e he => mem_dartsOf.2 ⟨t, ht, he⟩
  rw [he _ (hd (t.1, t.2.1) (by simp [Tri.darts])), he _ (hd (t.2.1, t.2.2) (by simp [Tri.darts])),
    he _ (hd (t.2.2, t.1) (by simp [Tri.darts])), hb t ht t.1 (by simp [Tri.verts]), hb t ht t.2.1 (by simp [Tri.verts]),
    hb t ht t.2.2 (by simp [Tri.verts])]
  rfl

/-- the pattern of `Tri.sq3` -/
def sq3Cut {α : Type} (v : α) (e : α × α) : Option α → α × α × α
  | none => (e.1, e.2, v)
  | some v' => (v, v', e.2)

theorem sq3_map {α : Type} (g : PId → α) (σ : Edge → Option PId) (t : Tri) :
    (t.sq3 σ).map (fun d => (g d.1, g d.2.1, g d.2.2)) =
      match (σ (t.1, t.2.1)).map g with
      | none => [(g t.1, g t.2.1, g t.2.2)]
      | some v => t.darts.map fun e => sq3Cut v (g e.1, g e.2) ((σ e.sym).map g) := by
  unfold Tri.sq3
  rcases σ (t.1, t.2.1) with _ | v
  · rfl
  · simp only [Option.map_some, List.map_map]
    refine List.map_congr_left fun e _ => ?_
    simp only [Function.comp, sq3Piece]
    rcases σ e.sym with _ | v' <;> rfl

theorem coordTris_sq3 {out₁ out₂ : Mesh P D} {T : List Tri} {σ₁ σ₂ : Edge → Option PId} {ρ : PId → PId}
    (h₁ : out₁.tris.Perm (T.flatMap (Tri.sq3 σ₁))) (h₂ : out₂.tris.Perm ((T.map (Tri.rename ρ)).flatMap (Tri.sq3 σ₂)))
    (hb : ∀ t ∈ T, ∀ v ∈ t.verts, out₁.pos v = out₂.pos (ρ v))
    (he : ∀ t ∈ T, ∀ e : Edge, e ∈ t.darts ∨ e.sym ∈ t.darts →
      (σ₁ e).map out₁.pos = (σ₂ (Edge.rename ρ e)).map out₂.pos) :
    out₁.coordTris.Perm out₂.coordTris := by
  unfold Mesh.coordTris
  refine (h₁.map _).trans (List.Perm.trans ?_ (h₂.map _).symm)
  rw [List.map_flatMap, List.map_flatMap]
  refine List.Perm.of_eq (flatMap_congr_map fun t ht => ?_)
  rw [sq3_map, sq3_map]
  have h0 := he t ht (t.1, t.2.1) (Or.inl (by simp [Tri.darts]))
  have hd : ∀ e ∈ t.darts, (σ₁ e.sym).map out₁.pos = (σ₂ (Edge.rename ρ e).sym).map out₂.pos :=
    fun e hd => he t ht e.sym (Or.inr (by simpa using hd))
  have e1 : (σ₂ ((Tri.rename ρ t).1, (Tri.rename ρ t).2.1)).map out₂.pos = (σ₁ (t.1, t.2.1)).map out₁.pos := h0.symm
  have e2 : (Tri.rename ρ t).darts = t.darts.map (Edge.rename ρ) := rfl
  rw [e1, e2]
  rcases σ₁ (t.1, t.2.1) with _ | v
  · show [_] = [_]
    rw [hb t ht t.1 (by simp [Tri.verts]), hb t ht t.2.1 (by simp [Tri.verts]), hb t ht t.2.2 (by simp [Tri.verts])]
    rfl
  · simp only [Option.map_some, List.map_map]
    refine List.map_congr_left fun e hmem => ?_
    simp only [Function.comp]
    have hv : ∀ x, x = e.1 ∨ x = e.2 → x ∈ t.verts := by
      intro x hx
      simp only [Tri.darts, List.mem_cons, List.not_mem_nil, or_false] at hmem
      rcases hmem with rfl | rfl | rfl <;> rcases hx with rfl | rfl <;> simp [Tri.verts]
    rw [hd e hmem, hb t ht e.1 (hv _ (Or.inl rfl)), hb t ht e.2 (hv _ (Or.inr rfl))]
    rfl

theorem rename_id (T : List Tri) : T.map (Tri.rename id) = T := by
  have : Tri.rename id = id := rfl
  rw [this, List.map_id]

/-- if the edge points do not depend on the direction of the edge, the value at a new point is the edge point -/
theorem cellUpdate_edgeMap {sch : Scheme} {lib : QELib} {cosn : Nat → K} {f f' : Filt} {inp out : Mesh P D}
    (hs : sch ≠ .sqrt3) (hn : sch.Needs inp)
    (hsym : ∀ e, inp.IsEdge e → schemePoint sch K inp e.sym = schemePoint sch K inp e) (hsel : inp.SelOK f.cells)
    (h : cellUpdate sch lib cosn f inp = (.ok out, f')) (e : Edge) :
    (inp.edgePoint f.cells e).map out.pos =
      if (inp.edgePoint f.cells e).isSome then some (some (valueOf (schemePoint sch K inp) e)) else none := by
  rcases hm : inp.edgePoint f.cells e with _ | m
  · rfl
  · obtain ⟨e', p, h1, h2, h3, h4⟩ := cellUpdate_edgeValue hs hn hsel h hm
    simp only [Option.map_some, Option.isSome_some, if_true]
    rw [h4]
    rcases h1 with rfl | rfl
    · rw [valueOf_eq (np := schemePoint sch K inp) h3]
    · have : schemePoint sch K inp e = .ok p := by
        rw [← h3, ← hsym _ h2, Edge.sym_sym]
      rw [valueOf_eq (np := schemePoint sch K inp) this]

theorem edgeUpdate_edgeMap {sch : EdgeScheme} {lib : QELib} {cosn : Nat → K} {f f' : Filt} {inp out : Mesh P D}
    (hn : sch.toScheme.Needs inp)
    (hsym : ∀ e, inp.IsEdge e → schemePoint sch.toScheme K inp e.sym = schemePoint sch.toScheme K inp e)
    (hsel : inp.EdgeSelOK f.edgeSel) (h : edgeUpdate sch lib cosn f inp = (.ok out, f')) (e : Edge) :
    (inp.listPoint f.edgeSel e).map out.pos =
      if (inp.listPoint f.edgeSel e).isSome then some (some (valueOf (schemePoint sch.toScheme K inp) e)) else none := by
  rcases hm : inp.listPoint f.edgeSel e with _ | m
  · rfl
  · obtain ⟨e', p, h1, h2, h3, h4⟩ := edgeUpdate_edgeValue hn hsel h hm
    simp only [Option.map_some, Option.isSome_some, if_true]
    rw [h4]
    rcases h1 with rfl | rfl
    · rw [valueOf_eq (np := schemePoint sch.toScheme K inp) h3]
    · have : schemePoint sch.toScheme K inp e = .ok p := by
        rw [← h3, ← hsym _ h2, Edge.sym_sym]
      rw [valueOf_eq (np := schemePoint sch.toScheme K inp) this]

/-- on a closed mesh the butterfly does not depend on the direction of the edge -/
theorem butterflyPoint_sym {inp : Mesh P D} (hv : inp.Valid) (hr : inp.RingOK) (hc : inp.Closed) {e : Edge}
    (he : inp.IsEdge e) : butterflyPoint K inp e.sym = butterflyPoint K inp e := by
  have dart : ∀ {x y}, inp.IsEdge (x, y) → ∃ z, HasTri inp.tris x y z := by
    intro x y hxy
    refine dartsOf_iff_hasTri.1 ?_
    by_contra h
    have h1 := (hv.edges_iff (x, y)).1 hxy
    have h2 : Edge.sym (x, y) ∈ dartsOf inp.tris := by tauto
    exact hc _ ⟨h2, by rw [Edge.sym_sym]; exact h⟩
  have turn : ∀ {x y z}, HasTri inp.tris x y z → inp.IsEdge (z, y) ∧ inp.IsEdge (x, z) ∧ inp.IsEdge (y, z) ∧ inp.IsEdge (z, x) := by
    intro x y z h
    have h1 := hv.edge13 h
    have h2 : inp.IsEdge (y, z) := hv.isEdge_of_dart (HasTri.dart (by unfold HasTri at h ⊢; tauto : HasTri inp.tris y z x))
    exact ⟨h2.sym, h1, h2, h1.sym⟩
  obtain ⟨a, b⟩ := e
  obtain ⟨c, h1⟩ := dart he
  obtain ⟨d, h2⟩ := dart he.sym
  obtain ⟨w4, h4⟩ := dart (turn h1).1
  obtain ⟨w6, h6⟩ := dart (turn h1).2.1
  obtain ⟨w5, h5⟩ := dart (turn h2).2.1
  obtain ⟨w7, h7⟩ := dart (turn h2).1
  rw [butterflyPoint_inner hv hr h1 h2 h4 h5 h6 h7]
  refine (butterflyPoint_inner hv hr h2 h1 h7 h6 h5 h4).trans (congrArg _ ?_)
  abel

/-- which schemes have edge points that do not depend on the direction of the edge -/
theorem schemePoint_sym {sch : Scheme} {inp : Mesh P D} (hn : sch.Needs inp) (hb : sch = .butterfly → inp.Closed)
    {e : Edge} (he : inp.IsEdge e) : schemePoint sch K inp e.sym = schemePoint sch K inp e := by
  cases sch with
  | linear => exact linearPoint_sym hn.valid he
  | loop => exact loopPoint_sym hn.valid (hn.ring (Or.inl rfl)) he
  | butterfly => exact butterflyPoint_sym hn.valid (hn.ring (Or.inr rfl)) (hb rfl) he
  | sqrt3 => rfl

theorem selected_congr {inp : Mesh P D} (hv : inp.Valid) {l₁ l₂ : List CId} (h : ∀ k, k ∈ l₁ ↔ k ∈ l₂) (t : Tri) :
    t ∈ inp.selected l₁ ↔ t ∈ inp.selected l₂ := by
  by_cases h1 : l₁ = []
  · have h2 : l₂ = [] := List.eq_nil_iff_forall_not_mem.2 fun k hk => by rw [← h, h1] at hk; cases hk
    rw [h1, h2]
  · have h2 : l₂ ≠ [] := fun h2 => h1 (List.eq_nil_iff_forall_not_mem.2 fun k hk => by rw [h, h2] at hk; cases hk)
    rw [hv.mem_selected h1, hv.mem_selected h2]
    simp only [h]

theorem edgePoint_congr {inp : Mesh P D} (hv : inp.Valid) {l₁ l₂ : List CId} (h : ∀ k, k ∈ l₁ ↔ k ∈ l₂) (e : Edge) :
    (inp.edgePoint l₁ e).isSome = (inp.edgePoint l₂ e).isSome := by
  rw [Bool.eq_iff_iff, edgePoint_isSome, edgePoint_isSome]
  simp only [mem_dartsOf, selected_congr hv h]

theorem sqrt3_centreMap {lib : QELib} {cosn : Nat → K} {f f' : Filt} {inp out : Mesh P D} (hv : inp.Valid)
    (hsel : inp.SelOK f.cells) (hmax : inp.points.length + (inp.selected f.cells).length ≤ idMax)
    (h : cellUpdate .sqrt3 lib cosn f inp = (.ok out, f')) {t : Tri} (ht : t ∈ inp.tris) {e : Edge} (he : e ∈ t.darts) :
    (inp.centreOf f.cells e).map out.pos =
      if (inp.centreOf f.cells e).isSome then some (some (inp.centroid K t)) else none := by
  have R := sqrt3Update_result hv hsel hmax h
  rcases hm : inp.centreOf f.cells e with _ | m
  · rfl
  · obtain ⟨j, t', h1, h2, rfl⟩ := centreIn_some (n := inp.points.length) (L := inp.selected f.cells) hm
    have : t' = t := hv.good.eq_of_dart (hv.selected_subset _ t' (List.mem_of_getElem? h1)) ht h2 he
    subst this
    simp only [Option.map_some, Option.isSome_some, if_true]
    unfold Mesh.pos
    rw [R.points, AMap.find?_dense, List.getElem?_append_right (by simp), List.getElem?_map]
    simp [h1]

/-- the triangle that an item stands for, in positions -/
def itemCoords {α : Type} (g : PId → α) (x : Item) : α × α × α := (g x.2.1.1, g x.2.1.2.1, g x.2.1.2.2)

theorem piece_coords {α : Type} {g₁ g₂ : PId → α} {σ₁ σ₂ : Edge → Option PId} {e : Edge} {v₁ v₂ : PId}
    (hv : g₁ v₁ = g₂ v₂) (hs : (σ₁ e.sym).map g₁ = (σ₂ e.sym).map g₂) (h1 : g₁ e.1 = g₂ e.1) (h2 : g₁ e.2 = g₂ e.2)
    (i : CId) (b : Bool) : itemCoords g₁ (i, sq3Piece σ₁ v₁ e, b) = itemCoords g₂ (i, sq3Piece σ₂ v₂ e, b) := by
  unfold itemCoords sq3Piece
  rcases h : σ₁ e.sym with _ | a <;> rcases h' : σ₂ e.sym with _ | b <;> rw [h, h'] at hs <;> simp at hs
  · simp [hv, h1, h2]
  · simp [hv, hs, h2]

theorem sq3Items_coords {α : Type} {g₁ g₂ : PId → α} {σ₁ σ₂ : Edge → Option PId} (u : Bool) {J : List Job}
    (hk : ∀ id t, ((id, t, none) : Job) ∈ J → ∀ v ∈ t.verts, g₁ v = g₂ v)
    (he : ∀ id t e, ((id, t, some e) : Job) ∈ J → (σ₁ e).isSome ∧ (σ₁ e).map g₁ = (σ₂ e).map g₂ ∧
      (σ₁ e.sym).map g₁ = (σ₂ e.sym).map g₂ ∧ g₁ e.1 = g₂ e.1 ∧ g₁ e.2 = g₂ e.2) (M : List Edge) :
    (sq3Items σ₁ u M J).map (itemCoords g₁) = (sq3Items σ₂ u M J).map (itemCoords g₂) := by
  induction J generalizing M with
  | nil => rfl
  | cons j J ih =>
    have ih' := fun M => ih (fun id t h => hk id t (by simp [h])) (fun id t e h => he id t e (by simp [h])) M
    obtain ⟨id, t, _ | e⟩ := j
    · simp only [sq3Items, List.map_cons, ih']
      have := hk id t (by simp)
      congr 1
      unfold itemCoords
      rw [this t.1 (by simp [Tri.verts]), this t.2.1 (by simp [Tri.verts]), this t.2.2 (by simp [Tri.verts])]
    · obtain ⟨h0, h1, h2, h3, h4⟩ := he id t e (by simp)
      simp only [sq3Items]
      split
      · exact ih' M
      · have hv : g₁ ((σ₁ e).getD 0) = g₂ ((σ₂ e).getD 0) := by
          rcases ha : σ₁ e with _ | a
          · rw [ha] at h0; cases h0
          · rcases hb : σ₂ e with _ | b <;> rw [ha, hb] at h1 <;> simp at h1
            exact h1
        have hp := piece_coords hv h2 h3 h4 id (!u)
        rcases ha : σ₁ e.sym with _ | a <;> rcases hb : σ₂ e.sym with _ | b <;> rw [ha, hb] at h2 <;> simp at h2
        · simp only [List.map_cons, ih', hp]
        · have hp' := piece_coords (e := e.sym) h2 (by rw [Edge.sym_sym]; exact h1) h4 h3 id (!u)
          simp only [List.map_cons, ih', hp, hp']

theorem sq3Jobs_congr {σ₁ σ₂ : Edge → Option PId} {cells : AMap (Option Cell)}
    (h : ∀ c ∈ cells, ∀ t, Cell.tri? c.2 = some t → (σ₁ (t.1, t.2.1)).isSome = (σ₂ (t.1, t.2.1)).isSome) :
    sq3Jobs σ₁ cells = sq3Jobs σ₂ cells := by
  unfold sq3Jobs
  induction cells with
  | nil => rfl
  | cons c cells ih =>
    rw [List.flatMap_cons, List.flatMap_cons, ih fun x hx => h x (by simp [hx])]
    congr 1
    rcases hc : Cell.tri? c.2 with _ | t
    · rfl
    · have := h c (by simp) t hc
      simp only [sq3JobsOf]
      rcases h1 : σ₁ (t.1, t.2.1) with _ | a <;> rcases h2 : σ₂ (t.1, t.2.1) with _ | b <;> rw [h1, h2] at this <;>
        simp at this <;> rfl

theorem sq3Jobs_tri {σ : Edge → Option PId} {cells : AMap (Option Cell)} {j : Job} (h : j ∈ sq3Jobs σ cells) :
    ∃ c ∈ cells, Cell.tri? c.2 = some j.2.1 ∧
      ∀ e, j.2.2 = some e → e ∈ j.2.1.darts ∧ (σ (j.2.1.1, j.2.1.2.1)).isSome := by
  obtain ⟨c, hc, hj⟩ := List.mem_flatMap.1 h
  rcases ht : Cell.tri? c.2 with _ | t
  · rw [ht] at hj; cases hj
  · rw [ht] at hj
    simp only [sq3JobsOf] at hj
    rcases hs : σ (t.1, t.2.1) with _ | v
    · rw [hs] at hj
      simp at hj
      subst hj
      exact ⟨c, hc, ht, fun e he => by cases he⟩
    · rw [hs] at hj
      obtain ⟨e, he, rfl⟩ := List.mem_map.1 hj
      refine ⟨c, hc, ht, fun e' he' => ?_⟩
      cases he'
      exact ⟨he, by dsimp only; rw [hs]; rfl⟩

end Verif
