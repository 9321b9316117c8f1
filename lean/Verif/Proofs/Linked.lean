import Verif.Spec.Linked
import Verif.Proofs.Iterative
import Verif.Properties.Sqrt3
import Verif.Properties.Topology
/-
The filters keep the pieces of a mesh.
-/
namespace Verif
set_option linter.unusedSectionVars false
variable {P D : Type}

theorem Mesh.Linked.symm {m : Mesh P D} {v w : PId} (h : m.Linked v w) : m.Linked w v := by
  induction h with
  | refl => exact .refl
  | tail _ hs ih =>
    obtain ⟨t, ht, h1, h2⟩ := hs
    exact .head ⟨t, ht, h2, h1⟩ ih

theorem Mesh.Linked.trans {m : Mesh P D} {u v w : PId} (h : m.Linked u v) (h' : m.Linked v w) : m.Linked u w :=
  Relation.ReflTransGen.trans h h'

theorem Mesh.linked_tri {m : Mesh P D} {t : Tri} (ht : t ∈ m.tris) {v w : PId} (hv : v ∈ t.verts) (hw : w ∈ t.verts) :
    m.Linked v w := Relation.ReflTransGen.single ⟨t, ht, hv, hw⟩

theorem Mesh.linked_dart {m : Mesh P D} {e : Edge} (he : e ∈ dartsOf m.tris) : m.Linked e.1 e.2 := by
  obtain ⟨t, ht, he⟩ := mem_dartsOf.1 he
  exact Mesh.linked_tri ht (Tri.dart_fst he) (Tri.dart_snd he)

theorem SamePieces.refl (m : Mesh P D) : SamePieces m m :=
  ⟨fun _ _ _ _ => Iff.rfl, fun d hd => ⟨d, hd, fun _ hv _ hx => Mesh.linked_tri hd hv hx⟩⟩

theorem SamePieces.trans {a b c : Mesh P D} (h : SamePieces a b) (h' : SamePieces b c) (hab : a.points.length ≤ b.points.length)
    (hlt : ∀ t ∈ a.tris, ∀ v ∈ t.verts, v < a.points.length) (hlt' : ∀ t ∈ b.tris, ∀ v ∈ t.verts, v < b.points.length) :
    SamePieces a c := by
  refine ⟨fun v w hv hw => (h'.linked v w (hv.trans_le hab) (hw.trans_le hab)).trans (h.linked v w hv hw), fun d hd => ?_⟩
  obtain ⟨t, ht, h1⟩ := h'.of_old d hd
  obtain ⟨s, hs, h2⟩ := h.of_old t ht
  refine ⟨s, hs, fun v hv x hx => ?_⟩
  have h3 := h2 v hv t.1 (by simp [Tri.verts])
  have h4 := h1 t.1 (by simp [Tri.verts]) x hx
  exact ((h'.linked v t.1 ((hlt s hs v hv).trans_le hab) (hlt' t ht _ (by simp [Tri.verts]))).2 h3).trans h4

/-- how to prove it: each point of the output stands for points of the input that are linked -/
theorem samePieces_of {inp out : Mesh P D} (Rep : PId → PId → Prop)
    (hold : ∀ v w, v < inp.points.length → (Rep w v ↔ w = v))
    (hrep : ∀ d ∈ out.tris, ∀ x ∈ d.verts, ∀ y ∈ d.verts, ∀ w w', Rep w x → Rep w' y → inp.Linked w w')
    (hback : ∀ d ∈ out.tris, ∀ x ∈ d.verts, ∃ w, Rep w x)
    (hthere : ∀ t ∈ inp.tris, ∀ v ∈ t.verts, ∀ w ∈ t.verts, out.Linked v w)
    (hfrom : ∀ d ∈ out.tris, ∃ t ∈ inp.tris, ∃ v ∈ t.verts, ∃ x ∈ d.verts, out.Linked v x) : SamePieces inp out := by
  refine ⟨fun v w hv hw => ⟨fun h => ?_, fun h => ?_⟩, fun d hd => ?_⟩
  · have key : ∀ y, out.Linked v y → ∀ w', Rep w' y → inp.Linked v w' := by
      intro y hy
      induction hy with
      | refl => intro w' hw'; rw [(hold v w' hv).1 hw']; exact .refl
      | @tail y z _ hs ih =>
        obtain ⟨d, hd, h1, h2⟩ := hs
        intro w' hw'
        obtain ⟨u, hu⟩ := hback d hd y h1
        exact (ih u hu).trans (hrep d hd y h1 z h2 u w' hu hw')
    exact key w h w ((hold w w hw).2 rfl)
  · induction h with
    | refl => exact .refl
    | @tail y z hvy hs ih =>
      clear ih
      have : ∀ y, inp.Linked v y → out.Linked v y := by
        intro y hy
        induction hy with
        | refl => exact .refl
        | tail _ hs ih =>
          obtain ⟨t, ht, h1, h2⟩ := hs
          exact ih.trans (hthere t ht _ h1 _ h2)
      exact this z (hvy.tail hs)
  · obtain ⟨t, ht, v, hv, x, hx, h⟩ := hfrom d hd
    exact ⟨t, ht, fun v' hv' x' hx' => ((hthere t ht v' hv' v hv).trans h).trans (Mesh.linked_tri hd hx hx')⟩

theorem linked_of_darts {T : List Tri} {out : Mesh P D} (h : ∀ t ∈ T, ∀ e ∈ t.darts, out.Linked e.1 e.2) :
    ∀ t ∈ T, ∀ v ∈ t.verts, ∀ w ∈ t.verts, out.Linked v w := by
  rintro ⟨a, b, c⟩ ht v hv w hw
  have h1 : out.Linked a b := h _ ht (a, b) (by simp [Tri.darts])
  have h2 : out.Linked b c := h _ ht (b, c) (by simp [Tri.darts])
  simp only [Tri.verts, List.mem_cons, List.not_mem_nil, or_false] at hv hw
  have : ∀ v, v = a ∨ v = b ∨ v = c → out.Linked a v := by
    rintro v (rfl | rfl | rfl)
    · exact .refl
    · exact h1
    · exact h1.trans h2
  exact (this v hv).symm.trans (this w hw)

/-- the pieces of an edge are edges of the children -/
theorem children_pieces {μ : Edge → Option PId} {t : Tri} {e : Edge} (he : e ∈ t.darts) :
    (μ e = none → e ∈ dartsOf (t.children μ)) ∧
    ∀ m, μ e = some m → (e.1, m) ∈ dartsOf (t.children μ) ∧ (m, e.2) ∈ dartsOf (t.children μ) := by
  obtain ⟨a, b, c⟩ := t
  rcases h0 : μ (a, b) with _ | m0 <;> rcases h1 : μ (b, c) with _ | m1 <;> rcases h2 : μ (c, a) with _ | m2 <;>
    simp only [Tri.darts, List.mem_cons, List.not_mem_nil, or_false] at he <;>
    rcases he with rfl | rfl | rfl <;> simp [Tri.children, h0, h1, h2, dartsOf, Tri.darts]

theorem FaceSplitResult.samePieces {lib : QELib} {inp out : Mesh P D} {f f' : Filt} {u : Bool} {μ : Edge → Option PId}
    {pts : List P} (R : FaceSplitResult lib inp out f f' u μ pts) (hv : inp.Valid) : SamePieces inp out := by
  have hsub : ∀ t ∈ inp.tris, ∀ d ∈ t.children μ, d ∈ out.tris := fun t ht d hd => by
    rw [R.tris]; exact List.mem_flatMap.2 ⟨t, ht, hd⟩
  have hof : ∀ d ∈ out.tris, ∃ t ∈ inp.tris, d ∈ t.children μ := fun d hd => by
    rw [R.tris] at hd; exact List.mem_flatMap.1 hd
  have hdart : ∀ t ∈ inp.tris, ∀ e ∈ t.darts, out.Linked e.1 e.2 := by
    intro t ht e he
    have hsub' : ∀ e ∈ dartsOf (t.children μ), out.Linked e.1 e.2 := fun e he => by
      obtain ⟨d, hd, he⟩ := mem_dartsOf.1 he
      exact Mesh.linked_dart (mem_dartsOf.2 ⟨d, hsub t ht d hd, he⟩)
    have := children_pieces (μ := μ) he
    cases hm : μ e with
    | none => exact hsub' _ (this.1 hm)
    | some m => exact (hsub' _ (this.2 m hm).1).trans (hsub' _ (this.2 m hm).2)
  have hthere : ∀ t ∈ inp.tris, ∀ v ∈ t.verts, ∀ w ∈ t.verts, out.Linked v w := linked_of_darts hdart
  have hverts : ∀ t ∈ inp.tris, ∀ d ∈ t.children μ, ∀ x ∈ d.verts, x ∈ t.verts ∨ ∃ e ∈ t.darts, μ e = some x := by
    rintro ⟨a, b, c⟩ _ d hd x hx
    exact children_verts d hd x hx
  have hin : ∀ t ∈ inp.tris, ∀ d ∈ t.children μ, ∀ x ∈ d.verts, ∀ w,
      ((x < inp.points.length ∧ w = x) ∨ ∃ e, μ e = some x ∧ (w = e.1 ∨ w = e.2)) → w ∈ t.verts := by
    intro t ht d hd x hx w hw
    rcases hverts t ht d hd x hx with h1 | ⟨e, he, hm⟩
    · rcases hw with ⟨-, rfl⟩ | ⟨e', hm', -⟩
      · exact h1
      · exact absurd (hv.verts_lt ht h1) (Nat.not_lt.2 (R.fresh _ _ hm').1)
    · rcases hw with ⟨h2, -⟩ | ⟨e', hm', hw⟩
      · exact absurd h2 (Nat.not_lt.2 (R.fresh _ _ hm).1)
      · rcases R.label.inj _ _ _ hm hm' with rfl | rfl
        · rcases hw with rfl | rfl
          · exact (Tri.dart_fst he)
          · exact (Tri.dart_snd he)
        · rcases hw with rfl | rfl
          · exact (Tri.dart_snd he)
          · exact (Tri.dart_fst he)
  refine samePieces_of (fun w x => (x < inp.points.length ∧ w = x) ∨ ∃ e, μ e = some x ∧ (w = e.1 ∨ w = e.2)) ?_ ?_ ?_ hthere ?_
  · intro v w hlt
    constructor
    · rintro (⟨-, h⟩ | ⟨e, hm, -⟩)
      · exact h
      · exact absurd hlt (Nat.not_lt.2 (R.fresh _ _ hm).1)
    · exact fun h => .inl ⟨hlt, h⟩
  · intro d hd x hx y hy w w' hw hw'
    obtain ⟨t, ht, hd⟩ := hof d hd
    exact Mesh.linked_tri ht (hin t ht d hd x hx w hw) (hin t ht d hd y hy w' hw')
  · intro d hd x hx
    obtain ⟨t, ht, hd⟩ := hof d hd
    rcases hverts t ht d hd x hx with h1 | ⟨e, he, hm⟩
    · exact ⟨x, .inl ⟨hv.verts_lt ht h1, rfl⟩⟩
    · exact ⟨e.1, .inr ⟨e, hm, .inl rfl⟩⟩
  · intro d hd
    obtain ⟨t, ht, hd'⟩ := hof d hd
    have hx : d.1 ∈ d.verts := by simp [Tri.verts]
    rcases hverts t ht d hd' d.1 hx with h1 | ⟨e, he, hm⟩
    · exact ⟨t, ht, d.1, h1, d.1, hx, .refl⟩
    · refine ⟨t, ht, e.1, (Tri.dart_fst he), d.1, hx, ?_⟩
      obtain ⟨d', hd'', he'⟩ := mem_dartsOf.1 ((children_pieces (μ := μ) he).2 _ hm).1
      exact Mesh.linked_dart (m := out) (e := (e.1, d.1)) (mem_dartsOf.2 ⟨d', hsub t ht d' hd'', he'⟩)

theorem Sqrt3Result.samePieces {lib : QELib} {inp out : Mesh P D} {f f' : Filt} {u : Bool} {σ : Edge → Option PId}
    {pts : List P} (R : Sqrt3Result lib inp out f f' u σ pts) (hv : inp.Valid) : SamePieces inp out := by
  have hc := R.centres
  have hg := hv.good
  have hdarts : ∀ e, e ∈ dartsOf out.tris ↔ e ∈ dartsOf (inp.tris.flatMap (Tri.sq3 σ)) := by
    intro e
    simp only [mem_dartsOf]
    exact exists_congr fun t => and_congr_left fun _ => (R.mem_tris hv).trans Iff.rfl
  have link : ∀ {e}, e ∈ dartsOf (inp.tris.flatMap (Tri.sq3 σ)) → out.Linked e.1 e.2 := fun he =>
    Mesh.linked_dart ((hdarts _).2 he)
  have hdart : ∀ t ∈ inp.tris, ∀ e ∈ t.darts, out.Linked e.1 e.2 := by
    intro t ht e he
    cases hm : σ e with
    | none => exact link (dart_kept hc (mem_dartsOf.2 ⟨t, ht, he⟩) (.inl hm))
    | some v => exact (link (dart_out hc hm)).symm.trans (link (dart_in hc hm)).symm
  have hthere : ∀ t ∈ inp.tris, ∀ v ∈ t.verts, ∀ w ∈ t.verts, out.Linked v w := linked_of_darts hdart
  have hlt : ∀ e ∈ dartsOf inp.tris, e.1 < inp.points.length ∧ e.2 < inp.points.length := fun e he => by
    obtain ⟨t, ht, he⟩ := mem_dartsOf.1 he
    exact ⟨hv.verts_lt ht (Tri.dart_fst he), hv.verts_lt ht (Tri.dart_snd he)⟩
  have hcase : ∀ d ∈ out.tris, (d ∈ inp.tris ∧ σ (d.1, d.2.1) = none) ∨ ∃ e v, σ e = some v ∧ d = sq3Piece σ v e := fun d hd =>
    (mem_sq3 hc).1 ((R.mem_tris hv).1 hd)
  have hpiece : ∀ e v, σ e = some v → ∀ x ∈ (sq3Piece σ v e).verts, ∀ w,
      ((x < inp.points.length ∧ w = x) ∨ ∃ e, σ e = some x ∧ w = e.1) → inp.Linked e.1 w := by
    intro e v h x hx w hw
    have he := hc.only e v h
    have new : ∀ e₁, σ e₁ = some x → (e.1 = e₁.1 ∨ e.1 = e₁.2) → inp.Linked e.1 w := by
      intro e₁ h₁ h0
      rcases hw with ⟨h2, -⟩ | ⟨e', h2, rfl⟩
      · exact absurd h2 (Nat.not_lt.2 (R.fresh _ _ h₁).1)
      · obtain ⟨t, ht, ht'⟩ := hc.tri h₁
        refine Mesh.linked_tri ht ?_ (Tri.dart_fst (hc.inj _ _ _ h₁ h2 t ht ht'))
        rcases h0 with h0 | h0
        · rw [h0]; exact Tri.dart_fst ht'
        · rw [h0]; exact Tri.dart_snd ht'
    have old : x < inp.points.length → w = x := by
      intro hx
      rcases hw with ⟨-, h2⟩ | ⟨e', h2, -⟩
      · exact h2
      · exact absurd hx (Nat.not_lt.2 (R.fresh _ _ h2).1)
    rcases sq3Piece_verts hx with rfl | rfl | rfl | h2
    · rw [old (hlt _ he).1]; exact .refl
    · rw [old (hlt _ he).2]; exact Mesh.linked_dart he
    · exact new e h (.inl rfl)
    · exact new e.sym h2 (.inr rfl)
  refine samePieces_of (fun w x => (x < inp.points.length ∧ w = x) ∨ ∃ e, σ e = some x ∧ w = e.1) ?_ ?_ ?_ hthere ?_
  · intro v w hlt
    constructor
    · rintro (⟨-, h⟩ | ⟨e, hm, -⟩)
      · exact h
      · exact absurd hlt (Nat.not_lt.2 (R.fresh _ _ hm).1)
    · exact fun h => .inl ⟨hlt, h⟩
  · intro d hd x hx y hy w w' hw hw'
    rcases hcase d hd with ⟨ht, -⟩ | ⟨e, v, h1, rfl⟩
    · have : ∀ x ∈ d.verts, ∀ w, ((x < inp.points.length ∧ w = x) ∨ ∃ e, σ e = some x ∧ w = e.1) → w ∈ d.verts := by
        rintro x hx w (⟨-, rfl⟩ | ⟨e, h2, -⟩)
        · exact hx
        · exact absurd (hv.verts_lt ht hx) (Nat.not_lt.2 (R.fresh _ _ h2).1)
      exact Mesh.linked_tri ht (this x hx w hw) (this y hy w' hw')
    · exact (hpiece e v h1 x hx w hw).symm.trans (hpiece e v h1 y hy w' hw')
  · intro d hd x hx
    rcases sq3_verts hc ((R.mem_tris hv).1 hd) hx with ⟨t, ht, h1⟩ | ⟨e, h1⟩
    · exact ⟨x, .inl ⟨hv.verts_lt ht h1, rfl⟩⟩
    · exact ⟨e.1, .inr ⟨e, h1, rfl⟩⟩
  · intro d hd
    rcases hcase d hd with ⟨ht, -⟩ | ⟨e, v, h1, rfl⟩
    · exact ⟨d, ht, d.1, by simp [Tri.verts], d.1, by simp [Tri.verts], .refl⟩
    · obtain ⟨t, ht, he⟩ := hc.tri h1
      refine ⟨t, ht, e.2, Tri.dart_snd he, e.2, ?_, .refl⟩
      unfold sq3Piece
      cases σ e.sym <;> simp [Tri.verts]

end Verif
