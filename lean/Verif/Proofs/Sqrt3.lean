import Verif.Proofs.Children
import Verif.Spec.Sqrt3
/-
The √3 split of an oriented surface is an oriented surface.
-/
namespace Verif

theorem Tri.Is.mem {t : Tri} {x y z : PId} (h : t.Is x y z) : x ∈ t.verts ∧ y ∈ t.verts ∧ z ∈ t.verts :=
  ⟨Tri.mem_verts.2 ⟨_, _, h⟩, Tri.mem_verts.2 ⟨_, _, h.rot⟩, Tri.mem_verts.2 ⟨_, _, h.rot.rot⟩⟩

/-- two directed edges of a triangle with the same origin -/
theorem Tri.dart_of_fst {t : Tri} (hn : t.Nondeg) {e e' : Edge} (h : e ∈ t.darts) (h' : e' ∈ t.darts) (he : e.1 = e'.1) :
    e = e' := by
  obtain ⟨a, b, c⟩ := t
  obtain ⟨n1, n2, n3⟩ := hn
  simp only [Tri.darts, List.mem_cons, List.not_mem_nil, or_false] at h h'
  rcases h with rfl | rfl | rfl <;> rcases h' with rfl | rfl | rfl <;> simp_all

theorem Tri.dart_of_snd {t : Tri} (hn : t.Nondeg) {e e' : Edge} (h : e ∈ t.darts) (h' : e' ∈ t.darts) (he : e.2 = e'.2) :
    e = e' := by
  obtain ⟨a, b, c⟩ := t
  obtain ⟨n1, n2, n3⟩ := hn
  simp only [Tri.darts, List.mem_cons, List.not_mem_nil, or_false] at h h'
  rcases h with rfl | rfl | rfl <;> rcases h' with rfl | rfl | rfl <;> simp_all

theorem Tri.dart_not_sym {t : Tri} (hn : t.Nondeg) {e : Edge} (h : e ∈ t.darts) : e.sym ∉ t.darts := by
  obtain ⟨a, b, c⟩ := t
  obtain ⟨n1, n2, n3⟩ := hn
  simp only [Tri.darts, List.mem_cons, List.not_mem_nil, or_false] at h ⊢
  simp only at n1 n2 n3
  rcases h with rfl | rfl | rfl <;> simp [Edge.sym] <;> grind

/-- consecutive directed edges -/
theorem Tri.dart_consecutive {t : Tri} (hn : t.Nondeg) {x y z : PId} (h : (x, y) ∈ t.darts) (h' : (y, z) ∈ t.darts) :
    t.Is x y z := by
  obtain ⟨w, hw⟩ := Tri.mem_darts.1 h
  have := Tri.dart_of_fst hn h' hw.rot.dart rfl
  cases this
  exact hw

/-- two triangles share at most one edge -/
theorem GoodTris.shared_edge {T : List Tri} (hg : GoodTris T) {t t' : Tri} (ht : t ∈ T) (ht' : t' ∈ T) {e e' : Edge}
    (h1 : e ∈ t.darts) (h2 : e' ∈ t.darts) (h3 : e.sym ∈ t'.darts) (h4 : e'.sym ∈ t'.darts) : e = e' := by
  obtain ⟨x, y⟩ := e
  obtain ⟨z, hz⟩ := Tri.mem_darts.1 h1
  have hnd := hg.nd _ ht
  have hnd' := hg.nd _ ht'
  have h2' : e' = (x, y) ∨ e' = (y, z) ∨ e' = (z, x) := by
    rcases hz with rfl | rfl | rfl <;> simp [Tri.darts] at h2 <;> tauto
  rcases h2' with rfl | rfl | rfl
  · rfl
  · exact (hg.no_reverse ht ht' hz (Tri.dart_consecutive hnd' h4 h3)).elim
  · exact (hg.no_reverse ht ht' hz (Tri.dart_consecutive hnd' h3 h4).rot.rot).elim

section
variable {T : List Tri} {σ : Edge → Option PId} (hg : GoodTris T) (hσ : Centres T σ)

theorem Centres.tri (hσ : Centres T σ) {e : Edge} {v : PId} (h : σ e = some v) : ∃ t ∈ T, e ∈ t.darts :=
  mem_dartsOf.1 (hσ.only e v h)

/-- a corner is no new point -/
theorem Centres.ne_fst (hσ : Centres T σ) {e e' : Edge} {v : PId} (h : σ e = some v) (h' : e' ∈ dartsOf T) : e'.1 ≠ v := by
  obtain ⟨t, ht, he⟩ := mem_dartsOf.1 h'
  exact fun hc => hσ.fresh e v h t ht (hc ▸ Tri.dart_fst he)

theorem Centres.ne_snd (hσ : Centres T σ) {e e' : Edge} {v : PId} (h : σ e = some v) (h' : e' ∈ dartsOf T) : e'.2 ≠ v := by
  obtain ⟨t, ht, he⟩ := mem_dartsOf.1 h'
  exact fun hc => hσ.fresh e v h t ht (hc ▸ Tri.dart_snd he)

theorem sq3_fst_unique (hg : GoodTris T) (hσ : Centres T σ) {e e' : Edge} {v : PId} (h : σ e = some v) (h' : σ e' = some v)
    (he : e.1 = e'.1) : e = e' := by
  obtain ⟨t, ht, hd⟩ := hσ.tri h
  exact Tri.dart_of_fst (hg.nd t ht) hd (hσ.inj e e' v h h' t ht hd) he

theorem sq3_snd_unique (hg : GoodTris T) (hσ : Centres T σ) {e e' : Edge} {v : PId} (h : σ e = some v) (h' : σ e' = some v)
    (he : e.2 = e'.2) : e = e' := by
  obtain ⟨t, ht, hd⟩ := hσ.tri h
  exact Tri.dart_of_snd (hg.nd t ht) hd (hσ.inj e e' v h h' t ht hd) he

theorem sq3_sides (hg : GoodTris T) (hσ : Centres T σ) {e : Edge} {v v' : PId} (h : σ e = some v) (h' : σ e.sym = some v') :
    v ≠ v' := by
  rintro rfl
  obtain ⟨t, ht, hd⟩ := hσ.tri h
  exact Tri.dart_not_sym (hg.nd t ht) hd (hσ.inj e e.sym v h h' t ht hd)

theorem sq3_both_unique (hg : GoodTris T) (hσ : Centres T σ) {e e' : Edge} {v v' : PId} (h1 : σ e = some v)
    (h2 : σ e' = some v) (h3 : σ e.sym = some v') (h4 : σ e'.sym = some v') : e = e' := by
  obtain ⟨t, ht, hd⟩ := hσ.tri h1
  obtain ⟨t', ht', hd'⟩ := hσ.tri h3
  exact hg.shared_edge ht ht' hd (hσ.inj _ _ _ h1 h2 t ht hd) hd' (hσ.inj _ _ _ h3 h4 t' ht' hd')

/-- the directed edges of a piece -/
theorem sq3Piece_dart {v : PId} {e : Edge} {p q : PId} (h : (p, q) ∈ (sq3Piece σ v e).darts) :
    (σ e.sym = none ∧ p = e.1 ∧ q = e.2) ∨ (p = e.2 ∧ q = v) ∨ (σ e.sym = none ∧ p = v ∧ q = e.1) ∨
    (∃ v', σ e.sym = some v' ∧ p = v ∧ q = v') ∨ (∃ v', σ e.sym = some v' ∧ p = v' ∧ q = e.2) := by
  unfold sq3Piece at h
  rcases h' : σ e.sym with _ | v' <;> rw [h'] at h <;> simp [Tri.darts] at h <;> simp <;> tauto

include hg hσ

theorem sq3_unique {e e' : Edge} {v v' : PId} (h1 : σ e = some v) (h2 : σ e' = some v') {p q : PId}
    (d1 : (p, q) ∈ (sq3Piece σ v e).darts) (d2 : (p, q) ∈ (sq3Piece σ v' e').darts) : e = e' := by
  have m1 := hσ.only _ _ h1
  have m2 := hσ.only _ _ h2
  have o1 : ∀ f w, σ f = some w → e.1 ≠ w := fun f w h => hσ.ne_fst h m1
  have o2 : ∀ f w, σ f = some w → e.2 ≠ w := fun f w h => hσ.ne_snd h m1
  have o3 : ∀ f w, σ f = some w → e'.1 ≠ w := fun f w h => hσ.ne_fst h m2
  have o4 : ∀ f w, σ f = some w → e'.2 ≠ w := fun f w h => hσ.ne_snd h m2
  rcases sq3Piece_dart d1 with ⟨a, rfl, rfl⟩ | ⟨rfl, rfl⟩ | ⟨a, rfl, rfl⟩ | ⟨w, a, rfl, rfl⟩ | ⟨w, a, rfl, rfl⟩ <;>
    rcases sq3Piece_dart d2 with ⟨b, h3, h4⟩ | ⟨h3, h4⟩ | ⟨b, h3, h4⟩ | ⟨w', b, h3, h4⟩ | ⟨w', b, h3, h4⟩
  · exact Prod.ext h3 h4
  · exact absurd h4 (o2 _ _ h2)
  · exact absurd h3 (o1 _ _ h2)
  · exact absurd h3 (o1 _ _ h2)
  · exact absurd h3 (o1 _ _ b)
  · exact absurd h4.symm (o4 _ _ h1)
  · subst h4; exact sq3_snd_unique hg hσ h1 h2 h3
  · exact absurd h3 (o2 _ _ h2)
  · exact absurd h3 (o2 _ _ h2)
  · exact absurd h3 (o2 _ _ b)
  · exact absurd h3.symm (o3 _ _ h1)
  · exact absurd h3.symm (o4 _ _ h1)
  · subst h3; exact sq3_fst_unique hg hσ h1 h2 h4
  · exact absurd h4 (o1 _ _ b)
  · subst h3
    have := sq3_fst_unique hg hσ h1 b h4
    rw [this, Edge.sym_sym, h2] at a
    cases a
  · exact absurd h3.symm (o3 _ _ h1)
  · exact absurd h3.symm (o4 _ _ h1)
  · exact absurd h4.symm (o3 _ _ a)
  · subst h3; subst h4; exact sq3_both_unique hg hσ h1 h2 a b
  · exact absurd h4.symm (o4 _ _ a)
  · exact absurd h3.symm (o3 _ _ a)
  · exact absurd h3.symm (o4 _ _ a)
  · subst h3
    have := sq3_fst_unique hg hσ h2 a h4.symm
    rw [this, Edge.sym_sym, h1] at b
    cases b
  · exact absurd h4 (o2 _ _ b)
  · subst h3; exact Edge.sym_inj (sq3_fst_unique hg hσ a b h4)

omit hg in
/-- a piece and a kept triangle have no directed edge in common -/
theorem sq3_keep_piece {t : Tri} (ht : t ∈ T) (h0 : σ (t.1, t.2.1) = none) {e : Edge} {v : PId} (h1 : σ e = some v)
    {p q : PId} (d1 : (p, q) ∈ t.darts) (d2 : (p, q) ∈ (sq3Piece σ v e).darts) : False := by
  have m : (p, q) ∈ dartsOf T := mem_dartsOf.2 ⟨t, ht, d1⟩
  have n1 : ∀ f w, σ f = some w → p ≠ w := fun f w h => hσ.ne_fst h m
  have n2 : ∀ f w, σ f = some w → q ≠ w := fun f w h => hσ.ne_snd h m
  rcases sq3Piece_dart d2 with ⟨a, rfl, rfl⟩ | ⟨rfl, rfl⟩ | ⟨a, rfl, rfl⟩ | ⟨w, a, rfl, rfl⟩ | ⟨w, a, rfl, rfl⟩
  · rw [← hσ.same t ht _ d1 _ (by simp [Tri.darts])] at h0
    rw [h1] at h0; cases h0
  · exact n2 _ _ h1 rfl
  · exact n1 _ _ h1 rfl
  · exact n1 _ _ h1 rfl
  · exact n1 _ _ a rfl

theorem sq3Piece_nondeg {e : Edge} {v : PId} (h : σ e = some v) : (sq3Piece σ v e).Nondeg := by
  have m := hσ.only _ _ h
  obtain ⟨t, ht, hd⟩ := hσ.tri h
  unfold sq3Piece
  rcases h' : σ e.sym with _ | v'
  · refine ⟨?_, hσ.ne_snd h m, fun hc => hσ.ne_fst h m hc.symm⟩
    obtain ⟨x, y⟩ := e
    obtain ⟨z, hz⟩ := Tri.mem_darts.1 hd
    exact (hz.ne (hg.nd t ht)).1
  · exact ⟨sq3_sides hg hσ h h', fun hc => hσ.ne_snd h' m hc.symm, fun hc => hσ.ne_snd (e' := e) h m hc⟩

omit hg in
theorem mem_sq3 {d : Tri} : d ∈ T.flatMap (Tri.sq3 σ) ↔
    (d ∈ T ∧ σ (d.1, d.2.1) = none) ∨ ∃ e v, σ e = some v ∧ d = sq3Piece σ v e := by
  rw [List.mem_flatMap]
  constructor
  · rintro ⟨t, ht, hd⟩
    unfold Tri.sq3 at hd
    rcases h : σ (t.1, t.2.1) with _ | v <;> rw [h] at hd
    · simp only [List.mem_singleton] at hd
      subst hd
      exact Or.inl ⟨ht, h⟩
    · obtain ⟨e, he, rfl⟩ := List.mem_map.1 hd
      refine Or.inr ⟨e, v, ?_, rfl⟩
      rw [← h]
      exact hσ.same t ht _ he _ (by simp [Tri.darts])
  · rintro (⟨hd, h⟩ | ⟨e, v, h, rfl⟩)
    · exact ⟨d, hd, by unfold Tri.sq3; rw [h]; simp⟩
    · obtain ⟨t, ht, he⟩ := hσ.tri h
      refine ⟨t, ht, ?_⟩
      unfold Tri.sq3
      rw [hσ.same t ht (t.1, t.2.1) (by simp [Tri.darts]) e he, h]
      exact List.mem_map.2 ⟨e, he, rfl⟩

theorem sq3_nondeg : ∀ d ∈ T.flatMap (Tri.sq3 σ), d.Nondeg := by
  intro d hd
  rcases (mem_sq3 hσ).1 hd with ⟨hd, _⟩ | ⟨e, v, h, rfl⟩
  · exact hg.nd d hd
  · exact sq3Piece_nondeg hg hσ h

theorem sq3_oriented : (dartsOf (T.flatMap (Tri.sq3 σ))).Nodup := by
  rw [oriented_iff]
  refine ⟨fun d hd => darts_nodup (sq3_nondeg hg hσ d hd), ?_⟩
  rw [List.pairwise_flatMap]
  constructor
  · intro t ht
    unfold Tri.sq3
    rcases h : σ (t.1, t.2.1) with _ | v
    · simp
    · rw [List.pairwise_map]
      refine (darts_nodup (hg.nd t ht)).imp_of_mem ?_
      rintro e e' he he' hne ⟨p, q⟩ h1 h2
      have s1 : σ e = some v := by rw [← h]; exact hσ.same t ht _ he _ (by simp [Tri.darts])
      have s2 : σ e' = some v := by rw [← h]; exact hσ.same t ht _ he' _ (by simp [Tri.darts])
      exact hne (sq3_unique hg hσ s1 s2 h1 h2)
  · refine (tris_nodup hg.oriented).imp_of_mem ?_
    rintro t t' ht ht' hne d hd d' hd' ⟨p, q⟩ h1 h2
    unfold Tri.sq3 at hd hd'
    rcases h : σ (t.1, t.2.1) with _ | v <;> rcases h' : σ (t'.1, t'.2.1) with _ | v' <;> rw [h] at hd <;> rw [h'] at hd'
    · simp only [List.mem_singleton] at hd hd'
      subst hd; subst hd'
      exact hne (hg.eq_of_dart ht ht' h1 h2)
    · simp only [List.mem_singleton] at hd
      subst hd
      obtain ⟨e', he', rfl⟩ := List.mem_map.1 hd'
      exact sq3_keep_piece hσ ht h ((hσ.same t' ht' _ he' _ (by simp [Tri.darts])).trans h') h1 h2
    · simp only [List.mem_singleton] at hd'
      subst hd'
      obtain ⟨e, he, rfl⟩ := List.mem_map.1 hd
      exact sq3_keep_piece hσ ht' h' ((hσ.same t ht _ he _ (by simp [Tri.darts])).trans h) h2 h1
    · obtain ⟨e, he, rfl⟩ := List.mem_map.1 hd
      obtain ⟨e', he', rfl⟩ := List.mem_map.1 hd'
      have := sq3_unique hg hσ ((hσ.same t ht _ he _ (by simp [Tri.darts])).trans h)
        ((hσ.same t' ht' _ he' _ (by simp [Tri.darts])).trans h') h1 h2
      subst this
      exact hne (hg.eq_of_dart ht ht' he he')

omit hg hσ in
theorem Tri.Is.rev_dart {d d' : Tri} {x y z : PId} (h : d.Is x y z) (h' : d'.Is z y x) {p q : PId} (hd : (p, q) ∈ d.darts) :
    (q, p) ∈ d'.darts := by
  rcases h with rfl | rfl | rfl <;> rcases h' with rfl | rfl | rfl <;> simp [Tri.darts] at hd ⊢ <;> tauto

omit hg hσ in
theorem Tri.Is.rev_verts {d d' : Tri} {x y z : PId} (h : d.Is x y z) (h' : d'.Is z y x) {v : PId} (hv : v ∈ d.verts) :
    v ∈ d'.verts := by
  rw [h'.verts]; rw [h.verts] at hv; tauto

omit hσ hg in
theorem sq3Piece_main {v : PId} {e : Edge} : (e.2, v) ∈ (sq3Piece σ v e).darts := by
  unfold sq3Piece
  rcases σ e.sym with _ | v' <;> simp [Tri.darts]

theorem sq3_no_reverse_piece {d' : Tri} {e : Edge} {v : PId} (h1 : σ e = some v) (hd' : d' ∈ T.flatMap (Tri.sq3 σ))
    {x y z : PId} (h : (sq3Piece σ v e).Is x y z) (h' : d'.Is z y x) : False := by
  have hm := Tri.Is.rev_dart h h' sq3Piece_main
  have m1 := hσ.only _ _ h1
  have nl : e.1 ≠ e.2 := by
    obtain ⟨t, ht, hd⟩ := hσ.tri h1
    obtain ⟨x, y⟩ := e
    obtain ⟨z, hz⟩ := Tri.mem_darts.1 hd
    exact (hz.ne (hg.nd t ht)).1
  have o1 : ∀ f w, σ f = some w → e.1 ≠ w := fun f w h => hσ.ne_fst h m1
  have o2 : ∀ f w, σ f = some w → e.2 ≠ w := fun f w h => hσ.ne_snd h m1
  rcases (mem_sq3 hσ).1 hd' with ⟨hd', _⟩ | ⟨e', v', h2, rfl⟩
  · exact hσ.ne_fst h1 (mem_dartsOf.2 ⟨_, hd', hm⟩) rfl
  · have m2 := hσ.only _ _ h2
    have o3 : ∀ f w, σ f = some w → e'.1 ≠ w := fun f w h => hσ.ne_fst h m2
    have o4 : ∀ f w, σ f = some w → e'.2 ≠ w := fun f w h => hσ.ne_snd h m2
    rcases sq3Piece_dart hm with ⟨b, h3, h4⟩ | ⟨h3, h4⟩ | ⟨b, h3, h4⟩ | ⟨w', b, h3, h4⟩ | ⟨w', b, h3, h4⟩
    · exact o3 _ _ h1 h3.symm
    · exact o4 _ _ h1 h3.symm
    · subst h3
      rcases ha : σ e.sym with _ | w
      · have hv := Tri.Is.rev_verts h h' (v := e.1) (by unfold sq3Piece; rw [ha]; simp [Tri.verts])
        unfold sq3Piece at hv
        rw [b] at hv
        simp only [Tri.verts, List.mem_cons, List.not_mem_nil, or_false] at hv
        rcases hv with hv | hv | hv
        · exact nl (hv.trans h4.symm)
        · have : e' = e.sym := Prod.ext h4.symm hv.symm
          subst this
          exact sq3_sides hg hσ h1 h2 rfl
        · exact o1 _ _ h1 hv
      · have hv := Tri.Is.rev_verts h h' (v := w) (by unfold sq3Piece; rw [ha]; simp [Tri.verts])
        unfold sq3Piece at hv
        rw [b] at hv
        simp only [Tri.verts, List.mem_cons, List.not_mem_nil, or_false] at hv
        rcases hv with hv | hv | hv
        · exact o3 _ _ ha hv.symm
        · exact o4 _ _ ha hv.symm
        · exact sq3_sides hg hσ h1 ha hv.symm
    · exact o2 _ _ b h4
    · subst h3
      rcases ha : σ e.sym with _ | w
      · have hv := Tri.Is.rev_verts h h' (v := e.1) (by unfold sq3Piece; rw [ha]; simp [Tri.verts])
        unfold sq3Piece at hv
        rw [b] at hv
        simp only [Tri.verts, List.mem_cons, List.not_mem_nil, or_false] at hv
        rcases hv with hv | hv | hv
        · exact o1 _ _ h2 hv
        · exact o1 _ _ h1 hv
        · exact nl (hv.trans h4.symm)
      · have hv := Tri.Is.rev_verts h h' (v := w) (by unfold sq3Piece; rw [ha]; simp [Tri.verts])
        unfold sq3Piece at hv
        rw [b] at hv
        simp only [Tri.verts, List.mem_cons, List.not_mem_nil, or_false] at hv
        rcases hv with hv | hv | hv
        · subst hv
          have := sq3_both_unique hg hσ h1 b ha (by rw [Edge.sym_sym]; exact h2)
          apply nl
          rw [h4, this]
          rfl
        · exact sq3_sides hg hσ h1 ha hv.symm
        · exact o4 _ _ ha hv.symm

theorem sq3_no_reverse : ∀ d ∈ T.flatMap (Tri.sq3 σ), ∀ d' ∈ T.flatMap (Tri.sq3 σ),
    ∀ x y z, d.Is x y z → d'.Is z y x → False := by
  intro d hd d' hd' x y z h h'
  rcases (mem_sq3 hσ).1 hd with ⟨k, _⟩ | ⟨e, v, h1, rfl⟩
  · rcases (mem_sq3 hσ).1 hd' with ⟨k', _⟩ | ⟨e, v, h1, rfl⟩
    · exact hg.no_reverse k k' h h'
    · exact sq3_no_reverse_piece hg hσ h1 hd h' h
  · exact sq3_no_reverse_piece hg hσ h1 hd' h h'

omit hg in
theorem hasTri_sq3 {x y z : PId} : HasTri (T.flatMap (Tri.sq3 σ)) x y z ↔
    (HasTri T x y z ∧ σ (x, y) = none) ∨ ∃ e v, σ e = some v ∧ (sq3Piece σ v e).Is x y z := by
  rw [hasTri_iff]
  constructor
  · rintro ⟨d, hd, hi⟩
    rcases (mem_sq3 hσ).1 hd with ⟨hd, h0⟩ | ⟨e, v, h, rfl⟩
    · refine Or.inl ⟨hasTri_iff.2 ⟨d, hd, hi⟩, ?_⟩
      rw [hσ.same d hd (x, y) hi.dart (d.1, d.2.1) (by simp [Tri.darts]), h0]
    · exact Or.inr ⟨e, v, h, hi⟩
  · rintro (⟨h, h0⟩ | ⟨e, v, h, hi⟩)
    · obtain ⟨t, ht, hi⟩ := hasTri_iff.1 h
      refine ⟨t, (mem_sq3 hσ).2 (Or.inl ⟨ht, ?_⟩), hi⟩
      rw [← hσ.same t ht (x, y) hi.dart (t.1, t.2.1) (by simp [Tri.darts]), h0]
    · exact ⟨_, (mem_sq3 hσ).2 (Or.inr ⟨e, v, h, rfl⟩), hi⟩

omit hg in
/-- the arrows at an old point -/
theorem sq3_arrow_old {u x z : PId} (hu : ∀ e v, σ e = some v → u ≠ v) :
    HasTri (T.flatMap (Tri.sq3 σ)) u x z ↔
    (HasTri T u x z ∧ σ (u, x) = none) ∨ (σ (u, x) = some z ∧ σ (x, u) = none) ∨
    (σ (z, u) = some x ∧ σ (u, z) = none) ∨ ∃ p, σ (p, u) = some x ∧ σ (u, p) = some z := by
  rw [hasTri_sq3 hσ]
  refine or_congr Iff.rfl ?_
  constructor
  · rintro ⟨⟨p, q⟩, v, h, hi⟩
    unfold sq3Piece at hi
    rcases h' : σ (Edge.sym (p, q)) with _ | v' <;> rw [h'] at hi <;> simp only [Edge.sym_mk] at h'
    · rcases hi with hi | hi | hi <;> cases hi
      · exact Or.inl ⟨h, h'⟩
      · exact absurd rfl (hu _ _ h)
      · exact Or.inr (Or.inl ⟨h, h'⟩)
    · rcases hi with hi | hi | hi <;> cases hi
      · exact absurd rfl (hu _ _ h)
      · exact Or.inr (Or.inr ⟨_, h, h'⟩)
      · exact absurd rfl (hu _ _ h')
  · rintro (⟨h, h'⟩ | ⟨h, h'⟩ | ⟨p, h, h'⟩)
    · refine ⟨(u, x), z, h, ?_⟩
      unfold sq3Piece; rw [Edge.sym_mk, h']; exact Or.inl rfl
    · refine ⟨(z, u), x, h, ?_⟩
      unfold sq3Piece; rw [Edge.sym_mk, h']; exact Or.inr (Or.inr rfl)
    · refine ⟨(p, u), x, h, ?_⟩
      unfold sq3Piece; rw [Edge.sym_mk, h']; exact Or.inr (Or.inl rfl)

omit hg in
/-- the arrows at a new point -/
theorem sq3_arrow_new {u x z : PId} {e0 : Edge} (h0 : σ e0 = some u) :
    HasTri (T.flatMap (Tri.sq3 σ)) u x z ↔
    (σ (x, z) = some u ∧ σ (z, x) = none) ∨ (∃ p, σ (p, z) = some u ∧ σ (z, p) = some x) ∨
    ∃ p, σ (p, x) = some z ∧ σ (x, p) = some u := by
  rw [hasTri_sq3 hσ]
  have hk : ¬ (HasTri T u x z ∧ σ (u, x) = none) := fun hc => hσ.ne_fst h0 hc.1.dart rfl
  rw [or_iff_right hk]
  constructor
  · rintro ⟨⟨p, q⟩, v, h, hi⟩
    have m := hσ.only _ _ h
    unfold sq3Piece at hi
    rcases h' : σ (Edge.sym (p, q)) with _ | v' <;> rw [h'] at hi <;> simp only [Edge.sym_mk] at h'
    · rcases hi with hi | hi | hi <;> cases hi
      · exact absurd rfl (hσ.ne_fst h0 m)
      · exact Or.inl ⟨h, h'⟩
      · exact absurd rfl (hσ.ne_snd h0 m)
    · rcases hi with hi | hi | hi <;> cases hi
      · exact Or.inr (Or.inl ⟨_, h, h'⟩)
      · exact absurd rfl (hσ.ne_snd h0 m)
      · exact Or.inr (Or.inr ⟨_, h, h'⟩)
  · rintro (⟨h, h'⟩ | ⟨p, h, h'⟩ | ⟨p, h, h'⟩)
    · refine ⟨(x, z), u, h, ?_⟩
      unfold sq3Piece; rw [Edge.sym_mk, h']; exact Or.inr (Or.inl rfl)
    · refine ⟨(p, z), u, h, ?_⟩
      unfold sq3Piece; rw [Edge.sym_mk, h']; exact Or.inl rfl
    · refine ⟨(p, x), z, h, ?_⟩
      unfold sq3Piece; rw [Edge.sym_mk, h']; exact Or.inr (Or.inr rfl)

theorem sq3_succ {v x y y' : PId} (h1 : HasTri (T.flatMap (Tri.sq3 σ)) v x y)
    (h2 : HasTri (T.flatMap (Tri.sq3 σ)) v x y') : y = y' :=
  hasTri_unique (sq3_nondeg hg hσ) (sq3_oriented hg hσ) h1 h2

theorem sq3_pred {v x x' y : PId} (h1 : HasTri (T.flatMap (Tri.sq3 σ)) v x y)
    (h2 : HasTri (T.flatMap (Tri.sq3 σ)) v x' y) : x = x' :=
  sq3_succ hg hσ h1.rot.rot h2.rot.rot

/-- the fan at a new point: all its triangles in one cycle -/
theorem sq3_fans_new {u : PId} {e0 : Edge} (h0 : σ e0 = some u) (A : PId → PId → Prop)
    (hA : ∀ x y, A x y → HasTri (T.flatMap (Tri.sq3 σ)) u x y) (hne : ∃ x y, A x y)
    (hcl : ∀ x y, A x y → (∃ w, A w x) ∧ ∃ w, A y w) :
    ∀ x y, HasTri (T.flatMap (Tri.sq3 σ)) u x y → A x y := by
  have fwd : ∀ {p q r}, A p q → HasTri (T.flatMap (Tri.sq3 σ)) u q r → A q r := by
    intro p q r h h'
    obtain ⟨w, hw⟩ := (hcl _ _ h).2
    rw [← sq3_succ hg hσ (hA _ _ hw) h']; exact hw
  obtain ⟨t, ht, hd0⟩ := hσ.tri h0
  have mem : ∀ {e}, σ e = some u → e ∈ t.darts := fun {e} h => hσ.inj e0 e u h0 h t ht hd0
  have lab : ∀ {e}, e ∈ t.darts → σ e = some u := fun {e} h => (hσ.same t ht _ h _ hd0).trans h0
  -- from one corner to the next
  have step : ∀ x y, (x, y) ∈ t.darts → (∃ w, A x w) → ∃ w, A y w := by
    rintro x y hxy ⟨w, hw⟩
    rcases hs : σ (y, x) with _ | v'
    · have a1 : HasTri (T.flatMap (Tri.sq3 σ)) u x y := (sq3_arrow_new hσ h0).2 (Or.inl ⟨lab hxy, hs⟩)
      have := sq3_succ hg hσ (hA _ _ hw) a1
      subst this
      exact (hcl _ _ hw).2
    · have a1 : HasTri (T.flatMap (Tri.sq3 σ)) u x v' :=
        (sq3_arrow_new hσ h0).2 (Or.inr (Or.inr ⟨y, hs, lab hxy⟩))
      have a2 : HasTri (T.flatMap (Tri.sq3 σ)) u v' y :=
        (sq3_arrow_new hσ h0).2 (Or.inr (Or.inl ⟨x, lab hxy, hs⟩))
      have := sq3_succ hg hσ (hA _ _ hw) a1
      subst this
      exact (hcl _ _ (fwd hw a2)).2
  have one : ∃ x ∈ t.verts, ∃ w, A x w := by
    obtain ⟨x, y, hxy⟩ := hne
    rcases (sq3_arrow_new hσ h0).1 (hA _ _ hxy) with ⟨h, _⟩ | ⟨p, h, _⟩ | ⟨p, _, h⟩
    · exact ⟨x, Tri.dart_fst (mem h), y, hxy⟩
    · exact ⟨y, Tri.dart_snd (mem h), (hcl _ _ hxy).2⟩
    · exact ⟨x, Tri.dart_fst (mem h), y, hxy⟩
  have all : ∀ x ∈ t.verts, ∃ w, A x w := by
    obtain ⟨x, hx, hw⟩ := one
    obtain ⟨y, z, hi⟩ := Tri.mem_verts.1 hx
    have hy := step x y hi.dart hw
    have hz := step y z hi.rot.dart hy
    intro q hq
    rw [hi.verts] at hq
    rcases hq with rfl | rfl | rfl
    · exact hw
    · exact hy
    · exact hz
  intro x y h
  rcases (sq3_arrow_new hσ h0).1 h with ⟨h1, _⟩ | ⟨p, h1, h2⟩ | ⟨p, _, h1⟩
  · obtain ⟨w, hw⟩ := all x (Tri.dart_fst (mem h1))
    rw [← sq3_succ hg hσ (hA _ _ hw) h]; exact hw
  · obtain ⟨w, hw⟩ := all p (Tri.dart_fst (mem h1))
    have a1 : HasTri (T.flatMap (Tri.sq3 σ)) u p x := (sq3_arrow_new hσ h0).2 (Or.inr (Or.inr ⟨y, h2, h1⟩))
    have := sq3_succ hg hσ (hA _ _ hw) a1
    subst this
    exact fwd hw h
  · obtain ⟨w, hw⟩ := all x (Tri.dart_fst (mem h1))
    rw [← sq3_succ hg hσ (hA _ _ hw) h]; exact hw

/-- the fan at an old point -/
theorem sq3_fans_old {u : PId} (hu : ∀ e v, σ e = some v → u ≠ v) (A : PId → PId → Prop)
    (hA : ∀ x y, A x y → HasTri (T.flatMap (Tri.sq3 σ)) u x y) (hne : ∃ x y, A x y)
    (hcl : ∀ x y, A x y → (∃ w, A w x) ∧ ∃ w, A y w) :
    ∀ x y, HasTri (T.flatMap (Tri.sq3 σ)) u x y → A x y := by
  have arr : ∀ x y, HasTri (T.flatMap (Tri.sq3 σ)) u x y ↔ _ := fun x y => sq3_arrow_old hσ (x := x) (z := y) hu
  -- the three directed edges of a triangle at `u` have one new point
  have eqs : ∀ {x y}, HasTri T u x y → σ (u, x) = σ (y, u) := by
    intro x y h
    obtain ⟨t, ht, hi⟩ := hasTri_iff.1 h
    exact hσ.same t ht _ hi.dart _ hi.rot.rot.dart
  have old : ∀ {x y}, HasTri T u x y → ∀ {e v}, σ e = some v → x ≠ v ∧ y ≠ v := by
    intro x y h e v hv
    exact ⟨hσ.ne_snd hv h.dart, hσ.ne_fst (e' := (y, u)) hv h.rot.rot.dart⟩
  -- old arrows whose new arrows are in `A`
  let B : PId → PId → Prop := fun x y => HasTri T u x y ∧
    ((σ (u, x) = none ∧ A x y) ∨ ∃ v w, σ (u, x) = some v ∧ A v w)
  -- an arrow of `A` that starts in an old neighbour
  have fromOld : ∀ {x w}, A x w → (∃ y, HasTri T u x y) → ∃ y, B x y := by
    rintro x w hxw ⟨y0, hy0⟩
    rcases (arr x w).1 (hA _ _ hxw) with ⟨h1, h2⟩ | ⟨h1, h2⟩ | ⟨h1, h2⟩ | ⟨p, h1, h2⟩
    · exact ⟨w, h1, Or.inl ⟨h2, hxw⟩⟩
    · obtain ⟨w', hw'⟩ := (hcl _ _ hxw).2
      obtain ⟨y, hy⟩ := dartsOf_iff_hasTri.1 (hσ.only _ _ h1)
      exact ⟨y, hy, Or.inr ⟨w, w', h1, hw'⟩⟩
    · exact absurd rfl (old hy0 h1).1
    · exact absurd rfl (old hy0 h1).1
  -- an arrow of `A` that ends in an old neighbour
  have toOld : ∀ {x w}, A w x → (∀ {e v}, σ e = some v → x ≠ v) → ∃ y, B y x := by
    intro x w hwx hx
    rcases (arr w x).1 (hA _ _ hwx) with ⟨h1, h2⟩ | ⟨h1, h2⟩ | ⟨h1, h2⟩ | ⟨p, h1, h2⟩
    · exact ⟨w, h1, Or.inl ⟨h2, hwx⟩⟩
    · exact absurd rfl (hx h1)
    · obtain ⟨y, hy⟩ := dartsOf_iff_hasTri.1 (hσ.only _ _ h1)
      exact ⟨y, hy.rot, Or.inr ⟨w, x, (eqs hy.rot).trans h1, hwx⟩⟩
    · exact absurd rfl (hx h2)
  have hB := hg.fans u B (fun x y h => h.1)
    (by
      obtain ⟨x, y, hxy⟩ := hne
      rcases (arr x y).1 (hA _ _ hxy) with ⟨h1, h2⟩ | ⟨h1, h2⟩ | ⟨h1, h2⟩ | ⟨p, h1, h2⟩
      · exact ⟨x, y, h1, Or.inl ⟨h2, hxy⟩⟩
      · obtain ⟨w', hw'⟩ := (hcl _ _ hxy).2
        obtain ⟨z, hz⟩ := dartsOf_iff_hasTri.1 (hσ.only _ _ h1)
        exact ⟨x, z, hz, Or.inr ⟨y, w', h1, hw'⟩⟩
      · obtain ⟨z, hz⟩ := dartsOf_iff_hasTri.1 (hσ.only _ _ h1)
        exact ⟨z, y, hz.rot, Or.inr ⟨x, y, (eqs hz.rot).trans h1, hxy⟩⟩
      · obtain ⟨z, hz⟩ := dartsOf_iff_hasTri.1 (hσ.only _ _ h1)
        exact ⟨z, p, hz.rot, Or.inr ⟨x, y, (eqs hz.rot).trans h1, hxy⟩⟩)
    (by
      rintro x y ⟨hxy, hb⟩
      constructor
      · -- predecessor
        rcases hb with ⟨_, ha⟩ | ⟨v, w, hv, ha⟩
        · obtain ⟨w, hw⟩ := (hcl _ _ ha).1
          exact toOld hw (fun h => (old hxy h).1)
        · obtain ⟨p, hp⟩ := (hcl _ _ ha).1
          rcases (arr p v).1 (hA _ _ hp) with ⟨h1, h2⟩ | ⟨h1, h2⟩ | ⟨h1, h2⟩ | ⟨q, h1, h2⟩
          · exact absurd rfl (hσ.ne_fst (e' := (v, u)) hv h1.rot.rot.dart)
          · have := sq3_fst_unique hg hσ h1 hv rfl
            cases this
            obtain ⟨w', hw'⟩ := (hcl _ _ hp).1
            exact toOld hw' (fun h => (old hxy h).1)
          · exact absurd rfl (hσ.ne_fst hv (hσ.only _ _ h1))
          · have := sq3_fst_unique hg hσ h2 hv rfl
            cases this
            obtain ⟨z, hz⟩ := dartsOf_iff_hasTri.1 (hσ.only _ _ h1)
            exact ⟨z, hz.rot, Or.inr ⟨p, v, (eqs hz.rot).trans h1, hp⟩⟩
      · -- successor
        rcases hb with ⟨hn, ha⟩ | ⟨v, w, hv, ha⟩
        · obtain ⟨w, hw⟩ := (hcl _ _ ha).2
          rcases (arr y w).1 (hA _ _ hw) with ⟨h1, h2⟩ | ⟨h1, h2⟩ | ⟨h1, h2⟩ | ⟨q, h1, h2⟩
          · exact fromOld hw ⟨w, h1⟩
          · obtain ⟨z, hz⟩ := dartsOf_iff_hasTri.1 (hσ.only _ _ h1)
            exact fromOld hw ⟨z, hz⟩
          · exact absurd rfl (old hxy h1).2
          · exact absurd rfl (old hxy h1).2
        · rcases (arr v w).1 (hA _ _ ha) with ⟨h1, h2⟩ | ⟨h1, h2⟩ | ⟨h1, h2⟩ | ⟨q, h1, h2⟩
          · exact absurd rfl (hσ.ne_snd hv h1.dart)
          · exact absurd rfl (hσ.ne_snd hv (hσ.only _ _ h1))
          · have hyu : σ (y, u) = some v := (eqs hxy).symm.trans hv
            have := sq3_snd_unique hg hσ h1 hyu rfl
            cases this
            obtain ⟨w', hw'⟩ := (hcl _ _ ha).2
            rcases (arr _ w').1 (hA _ _ hw') with ⟨h3, h4⟩ | ⟨h3, h4⟩ | ⟨h3, h4⟩ | ⟨q, h3, h4⟩
            · exact fromOld hw' ⟨w', h3⟩
            · rw [h2] at h3; cases h3
            · exact absurd rfl (old hxy h3).2
            · exact absurd rfl (old hxy h3).2
          · have hyu : σ (y, u) = some v := (eqs hxy).symm.trans hv
            have := sq3_snd_unique hg hσ h1 hyu rfl
            cases this
            obtain ⟨w', hw'⟩ := (hcl _ _ ha).2
            obtain ⟨z, hz⟩ := dartsOf_iff_hasTri.1 (hσ.only _ _ h2)
            exact ⟨z, hz, Or.inr ⟨w, w', h2, hw'⟩⟩)
  intro x y h
  rcases (arr x y).1 h with ⟨h1, h2⟩ | ⟨h1, h2⟩ | ⟨h1, h2⟩ | ⟨p, h1, h2⟩
  · rcases (hB x y h1).2 with ⟨_, ha⟩ | ⟨v, w, hv, _⟩
    · exact ha
    · rw [h2] at hv; cases hv
  · obtain ⟨z, hz⟩ := dartsOf_iff_hasTri.1 (hσ.only _ _ h1)
    rcases (hB x z hz).2 with ⟨hn, _⟩ | ⟨v, w, hv, ha⟩
    · rw [h1] at hn; cases hn
    · rw [h1] at hv
      cases hv
      obtain ⟨p, hp⟩ := (hcl _ _ ha).1
      rw [← sq3_pred hg hσ (hA _ _ hp) h]; exact hp
  · obtain ⟨z, hz⟩ := dartsOf_iff_hasTri.1 (hσ.only _ _ h1)
    have hux := (eqs hz.rot).trans h1
    rcases (hB z y hz.rot).2 with ⟨hn, _⟩ | ⟨v, w, hv, ha⟩
    · rw [hux] at hn; cases hn
    · rw [hux] at hv
      cases hv
      rw [← sq3_succ hg hσ (hA _ _ ha) h]; exact ha
  · obtain ⟨z, hz⟩ := dartsOf_iff_hasTri.1 (hσ.only _ _ h1)
    have hux := (eqs hz.rot).trans h1
    rcases (hB z p hz.rot).2 with ⟨hn, _⟩ | ⟨v, w, hv, ha⟩
    · rw [hux] at hn; cases hn
    · rw [hux] at hv
      cases hv
      rw [← sq3_succ hg hσ (hA _ _ ha) h]; exact ha

/-- The √3 split of an oriented surface is an oriented surface. -/
theorem GoodTris.sq3 : GoodTris (T.flatMap (Tri.sq3 σ)) := by
  refine ⟨sq3_nondeg hg hσ, sq3_oriented hg hσ,
    simplicial_of_edges (sq3_nondeg hg hσ) (sq3_oriented hg hσ) (sq3_no_reverse hg hσ), ?_⟩
  intro u A hA hne hcl
  by_cases h : ∃ e, σ e = some u
  · obtain ⟨e, h⟩ := h
    exact sq3_fans_new hg hσ h A hA hne hcl
  · refine sq3_fans_old hg hσ ?_ A hA hne hcl
    rintro e v hv rfl
    exact h ⟨e, hv⟩

end

theorem GoodTris.perm {T T' : List Tri} (h : GoodTris T) (hp : T'.Perm T) : GoodTris T' := by
  have ht : ∀ x y z, HasTri T' x y z ↔ HasTri T x y z := by
    intro x y z
    unfold HasTri
    rw [hp.mem_iff, hp.mem_iff, hp.mem_iff]
  refine ⟨fun t ht => h.nondeg t (hp.mem_iff.1 ht), ?_, ?_, ?_⟩
  · exact (List.Perm.nodup_iff (hp.flatMap_right _)).2 h.oriented
  · intro t h1 t' h2
    exact h.simplicial t (hp.mem_iff.1 h1) t' (hp.mem_iff.1 h2)
  · intro v A hA hne hcl x y hxy
    exact h.fans v A (fun x y hxy => (ht _ _ _).1 (hA x y hxy)) hne hcl x y ((ht _ _ _).1 hxy)

end Verif
