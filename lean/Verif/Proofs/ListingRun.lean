import Verif.Proofs.Listing
import Verif.Proofs.Local
/-
Runs of the face split filters on two listings of the same surface.
-/
namespace Verif
set_option linter.unusedSectionVars false

/-- the children up to rotation, of a triangle with `n` children -/
def Kids (T : List Tri) (μ : Edge → Option PId) (n : Nat) (p q r : PId) : Prop :=
  ∃ t ∈ T, (t.children μ).length = n ∧ ∃ d ∈ t.children μ, Tri.Is d p q r

theorem children_turn {μ : Edge → Option PId} (a b c : PId) (h : (Tri.children μ (a, b, c)).length ≠ 3) :
    (Tri.children μ (b, c, a)).length = (Tri.children μ (a, b, c)).length ∧
    ∀ p q r, (∃ d ∈ Tri.children μ (a, b, c), Tri.Is d p q r) → ∃ d ∈ Tri.children μ (b, c, a), Tri.Is d p q r := by
  rcases h0 : μ (a, b) with _ | m0 <;> rcases h1 : μ (b, c) with _ | m1 <;> rcases h2 : μ (c, a) with _ | m2 <;>
    simp only [Tri.children, h0, h1, h2, List.length_cons, List.length_nil, ne_eq, not_true_eq_false] at h ⊢
  all_goals refine ⟨trivial, ?_⟩
  all_goals
    rintro p q r ⟨d, hd, hi⟩
    simp only [List.mem_cons, List.not_mem_nil, or_false] at hd
    rcases hd with rfl | rfl | rfl | rfl <;> rcases hi with h | h | h <;> cases h <;> simp [Tri.Is]

theorem children_is {μ : Edge → Option PId} {t : Tri} {a b c : PId} (hi : t.Is a b c) (h : (t.children μ).length ≠ 3) :
    (Tri.children μ (a, b, c)).length = (t.children μ).length ∧
    ∀ p q r, (∃ d ∈ t.children μ, Tri.Is d p q r) → ∃ d ∈ Tri.children μ (a, b, c), Tri.Is d p q r := by
  rcases hi with rfl | rfl | rfl
  · exact ⟨rfl, fun _ _ _ h => h⟩
  · obtain ⟨h1, h2⟩ := children_turn b c a h
    obtain ⟨h3, h4⟩ := children_turn c a b (h1 ▸ h)
    exact ⟨h3.trans h1, fun p q r x => h4 _ _ _ (h2 _ _ _ x)⟩
  · exact children_turn c a b h

theorem Tri.Is.sym' {t : Tri} {a b c : PId} (h : t.Is a b c) : Tri.Is (a, b, c) t.1 t.2.1 t.2.2 := by
  rcases h with rfl | rfl | rfl <;> simp [Tri.Is]

theorem Tri.Is.rename {t : Tri} {a b c : PId} (ρ : PId → PId) (h : t.Is a b c) : (t.rename ρ).Is (ρ a) (ρ b) (ρ c) := by
  rcases h with rfl | rfl | rfl <;> simp [Tri.Is, Tri.rename]

variable {K P D : Type} [Field K] [AddCommGroup P] [Module K P]

open Classical in
/-- new points are renamed like the edges on which they are -/
noncomputable def carryId (n : Nat) (ρ : PId → PId) (μ μ' : Edge → Option PId) (v : PId) : PId :=
  if v < n then ρ v else if h : ∃ e, μ e = some v then (μ' (h.choose.rename ρ)).getD 0 else 0

section split
variable {lib lib' : QELib} {ρ : PId → PId} {m m' out out' : Mesh P D} {f f' g g' : Filt} {u u' : Bool}
  {μ μ' : Edge → Option PId} {pts pts' : List P}

theorem carryId_new (A : FaceSplitResult lib m out f f' u μ pts) (B : FaceSplitResult lib' m' out' g g' u' μ' pts')
    {e : Edge} {v w : PId} (h : μ e = some v) (h' : μ' (e.rename ρ) = some w) :
    carryId m.points.length ρ μ μ' v = w := by
  have hx : ∃ e, μ e = some v := ⟨e, h⟩
  unfold carryId
  rw [if_neg (Nat.not_lt.2 (A.fresh e v h).1), dif_pos hx]
  rcases A.label.inj e _ v h hx.choose_spec with h1 | h1
  · rw [h1, h']; rfl
  · rw [h1, ← Edge.rename_sym, B.label.sym, h']; rfl

/-- Two face splits of a mesh and of one that contains it as a piece, splitting the same edges of the piece and putting the
new points at the same places, yield a mesh and one that contains it as a piece, provided that cells with two split edges
begin at the same corner. -/
theorem split_listing (R : PieceOf ρ m m') (hv : m.Valid) (hv' : m'.Valid)
    (A : FaceSplitResult lib m out f f' u μ pts) (B : FaceSplitResult lib' m' out' g g' u' μ' pts')
    (hlab : ∀ e, usedBy m.tris e.1 ∧ usedBy m.tris e.2 → ((μ' (e.rename ρ)).isSome ↔ (μ e).isSome))
    (hrot : ∀ t ∈ m.tris, (t.children μ).length = 3 → t.rename ρ ∈ m'.tris)
    (hold : ∀ v, usedBy m.tris v → out'.pos (ρ v) = out.pos v)
    (hnew : ∀ e v w, m.IsEdge e → μ e = some v → μ' (e.rename ρ) = some w → out'.pos w = out.pos v) :
    ∃ ρ', (∀ v, v < m.points.length → ρ' v = ρ v) ∧ PieceOf ρ' out out' ∧
      (∀ n p q r, Kids m.tris μ n p q r → Kids m'.tris μ' n (ρ' p) (ρ' q) (ρ' r)) ∧
      (∀ n v q' r', usedBy out.tris v → Kids m'.tris μ' n (ρ' v) q' r' →
        ∃ q r, Kids m.tris μ n v q r ∧ ρ' q = q' ∧ ρ' r = r') ∧
      (SameStarts ρ m m' → SameStarts ρ' out out') ∧
      ∀ t' ∈ m'.tris, ∀ d' ∈ t'.children μ', (InPiece ρ' out d' ↔ InPiece ρ m t') := by
  obtain ⟨ρ', hρ'⟩ : ∃ ρ', ρ' = carryId m.points.length ρ μ μ' := ⟨_, rfl⟩
  have hbase : ∀ v, v < m.points.length → ρ' v = ρ v := by
    intro v hlt
    rw [hρ']
    exact if_pos hlt
  have hused : ∀ {t}, t ∈ m.tris → ∀ {e}, e ∈ t.darts → usedBy m.tris e.1 ∧ usedBy m.tris e.2 :=
    fun ht _ he => usedBy_dart (mem_dartsOf.2 ⟨_, ht, he⟩)
  have hmap : ∀ e, usedBy m.tris e.1 ∧ usedBy m.tris e.2 → μ' (e.rename ρ) = (μ e).map ρ' := by
    intro e he
    have := hlab e he
    rcases h1 : μ e with _ | v <;> rcases h2 : μ' (e.rename ρ) with _ | w <;> simp [h1, h2] at this
    · rfl
    · rw [Option.map_some, hρ', carryId_new A B h1 h2]
  have hkids : ∀ t ∈ m.tris, (t.rename ρ).children μ' = (t.children μ).map (Tri.rename ρ') := fun t ht =>
    (children_rename (fun v hvt => hbase v (hv.verts_lt ht hvt)) fun e he => hmap e (hused ht he)).1
  have hlen : ∀ t ∈ m.tris, ((t.rename ρ).children μ').length = (t.children μ).length := fun t ht => by
    rw [hkids t ht, List.length_map]
  have hfwd : ∀ n p q r, Kids m.tris μ n p q r → Kids m'.tris μ' n (ρ' p) (ρ' q) (ρ' r) := by
    rintro n p q r ⟨t, ht, hn, d, hd, hi⟩
    have hd' : d.rename ρ' ∈ (t.rename ρ).children μ' := by
      rw [hkids t ht]; exact List.mem_map_of_mem hd
    by_cases h3 : (t.children μ).length = 3
    · exact ⟨t.rename ρ, hrot t ht h3, (hlen t ht).trans hn, _, hd', hi.rename ρ'⟩
    · obtain ⟨a, b, c⟩ := t
      obtain ⟨t', ht', hi'⟩ := hasTri_iff.1 (R.tri a b c (Or.inl ht))
      obtain ⟨k1, k2⟩ := children_is (μ := μ') hi'.sym' (by
        rw [show ((ρ a, ρ b, ρ c) : Tri) = Tri.rename ρ (a, b, c) from rfl, hlen _ ht]; exact h3)
      exact ⟨t', ht', k1.trans ((hlen _ ht).trans hn), k2 _ _ _ ⟨_, hd', hi.rename ρ'⟩⟩
  have hback : ∀ n p' q' r' a b c, HasTri m.tris a b c → (ρ a, ρ b, ρ c) ∈ m'.tris →
      (Tri.children μ' (ρ a, ρ b, ρ c)).length = n → (∃ d ∈ Tri.children μ' (ρ a, ρ b, ρ c), Tri.Is d p' q' r') →
      ∃ p q r, Kids m.tris μ n p q r ∧ ρ' p = p' ∧ ρ' q = q' ∧ ρ' r = r' := by
    rintro n p' q' r' a b c h1 ht' hn ⟨d', hd', hi'⟩
    obtain ⟨t, ht, hi⟩ := hasTri_iff.1 h1
    have hir := hi.rename ρ
    have back : ((t.rename ρ).children μ').length = n → (∃ d ∈ (t.rename ρ).children μ', d.Is p' q' r') →
        ∃ p q r, Kids m.tris μ n p q r ∧ ρ' p = p' ∧ ρ' q = q' ∧ ρ' r = r' := by
      rintro hn ⟨d, hd, hid⟩
      rw [hkids t ht] at hd
      obtain ⟨x, hx, rfl⟩ := List.mem_map.1 hd
      have hK : ∀ {p q r}, x.Is p q r → Kids m.tris μ n p q r := fun h => ⟨t, ht, (hlen t ht).symm.trans hn, x, hx, h⟩
      obtain ⟨x1, x2, x3⟩ := x
      simp only [Tri.Is, Tri.rename, Prod.mk.injEq] at hid
      rcases hid with ⟨e1, e2, e3⟩ | ⟨e1, e2, e3⟩ | ⟨e1, e2, e3⟩
      · exact ⟨x1, x2, x3, hK (by simp [Tri.Is]), e1, e2, e3⟩
      · exact ⟨x3, x1, x2, hK (by simp [Tri.Is]), e3, e1, e2⟩
      · exact ⟨x2, x3, x1, hK (by simp [Tri.Is]), e2, e3, e1⟩
    by_cases h3 : (t.children μ).length = 3
    · have hin := hrot t ht h3
      have heq : t.rename ρ = (ρ a, ρ b, ρ c) := by
        refine hv'.good.simplicial _ hin _ ht' fun v hvt => ?_
        rcases hir with h | h | h <;> rw [h] at hvt <;> simp only [Tri.verts, List.mem_cons, List.not_mem_nil, or_false] at hvt ⊢ <;>
          tauto
      exact back (by rw [heq]; exact hn) ⟨d', by rw [heq]; exact hd', hi'⟩
    · have h3' : (Tri.children μ' (ρ a, ρ b, ρ c)).length ≠ 3 := by
        have := (children_is (μ := μ') hir (by rw [hlen t ht]; exact h3)).1
        rw [this, hlen t ht]; exact h3
      obtain ⟨k1, k2⟩ := children_is (μ := μ') hir.sym' h3'
      exact back (k1.trans hn) (k2 _ _ _ ⟨d', hd', hi'⟩)
  have hhas : ∀ p q r, HasTri out.tris p q r ↔ ∃ n, Kids m.tris μ n p q r := by
    intro p q r
    rw [hasTri_iff, A.tris]
    constructor
    · rintro ⟨d, hd, hi⟩
      obtain ⟨t, ht, hd⟩ := List.mem_flatMap.1 hd
      exact ⟨_, t, ht, rfl, d, hd, hi⟩
    · rintro ⟨n, t, ht, -, d, hd, hi⟩
      exact ⟨d, List.mem_flatMap.2 ⟨t, ht, hd⟩, hi⟩
  have hhas' : ∀ p q r, HasTri out'.tris p q r ↔ ∃ n, Kids m'.tris μ' n p q r := by
    intro p q r
    rw [hasTri_iff, B.tris]
    constructor
    · rintro ⟨d, hd, hi⟩
      obtain ⟨t, ht, hd⟩ := List.mem_flatMap.1 hd
      exact ⟨_, t, ht, rfl, d, hd, hi⟩
    · rintro ⟨n, t, ht, -, d, hd, hi⟩
      exact ⟨d, List.mem_flatMap.2 ⟨t, ht, hd⟩, hi⟩
  have hverts : ∀ d ∈ out.tris, ∀ v ∈ d.verts, usedBy m.tris v ∨
      ∃ e v', (usedBy m.tris e.1 ∧ usedBy m.tris e.2) ∧ m.IsEdge e ∧ μ e = some v ∧ μ' (e.rename ρ) = some v' ∧ ρ' v = v' := by
    intro d hd v hvd
    rw [A.tris] at hd
    obtain ⟨t, ht, hd⟩ := List.mem_flatMap.1 hd
    rcases children_verts (a := t.1) (b := t.2.1) (c := t.2.2) d hd v hvd with h | ⟨e, he, h⟩
    · exact Or.inl ⟨t, ht, h⟩
    · have hu := hused ht he
      have h2 := hmap e hu
      rw [h, Option.map_some] at h2
      exact Or.inr ⟨e, ρ' v, hu, hv.isEdge_of_dart (mem_dartsOf.2 ⟨t, ht, he⟩), h, h2, rfl⟩
  have hlt : ∀ {v}, usedBy m.tris v → v < m.points.length := fun h => Renamed.used_lt hv h
  have hlt' : ∀ {v}, usedBy m.tris v → ρ' v < m'.points.length := fun h => by
    rw [hbase _ (hlt h)]; exact Renamed.used_lt hv' (R.used h)
  have hinj : ∀ t ∈ out.tris, ∀ t' ∈ out.tris, ∀ v ∈ t.verts, ∀ w ∈ t'.verts, ρ' v = ρ' w → v = w := by
    intro d hd d2 hd2 v hvd w hwd heq
    rcases hverts d hd v hvd with h1 | ⟨e, v', hu, he, h1, h2, h3⟩ <;>
      rcases hverts d2 hd2 w hwd with k1 | ⟨e2, w', ku, ke, k1, k2, k3⟩
    · rw [hbase _ (hlt h1), hbase _ (hlt k1)] at heq
      exact R.injOn _ _ h1 k1 heq
    · exact absurd (heq ▸ hlt' h1) (Nat.not_lt.2 (k3 ▸ (B.fresh _ _ k2).1))
    · exact absurd (heq.symm ▸ hlt' k1) (Nat.not_lt.2 (h3 ▸ (B.fresh _ _ h2).1))
    · rw [h3, k3] at heq
      subst heq
      have : e2 = e ∨ e2 = e.sym := by
        rcases B.label.inj _ _ _ h2 k2 with h | h
        · exact Or.inl ((Edge.rename_inj R.injOn ku hu).1 h)
        · rw [Edge.rename_sym] at h
          exact Or.inr ((Edge.rename_inj R.injOn ku ⟨hu.2, hu.1⟩).1 h)
      rcases this with rfl | rfl
      · exact Option.some.inj (h1.symm.trans k1)
      · rw [A.label.sym] at k1
        exact Option.some.inj (h1.symm.trans k1)
  have hpos : ∀ t ∈ out.tris, ∀ v ∈ t.verts, out'.pos (ρ' v) = out.pos v := by
    intro d hd v hvd
    rcases hverts d hd v hvd with h1 | ⟨e, v', hu, he, h1, h2, h3⟩
    · rw [hbase _ (hlt h1)]
      exact hold v h1
    · rw [h3]
      exact hnew e v v' he h1 h2
  have htri : ∀ x y z, HasTri out.tris x y z → HasTri out'.tris (ρ' x) (ρ' y) (ρ' z) := by
    intro x y z h
    obtain ⟨n, h⟩ := (hhas x y z).1 h
    exact (hhas' _ _ _).2 ⟨n, hfwd _ _ _ _ h⟩
  have hfam : ∀ t' ∈ m'.tris, ∀ d' ∈ t'.children μ', ∀ v, usedBy out.tris v → ρ' v ∈ d'.verts → InPiece ρ m t' := by
    rintro t' ht' d' hd' v ⟨d0, hd0, hvd⟩ hvd'
    -- the parent has a corner in the piece
    have hcorner : ∃ x, usedBy m.tris x ∧ ρ x ∈ t'.verts := by
      rcases hverts d0 hd0 v hvd with h1 | ⟨e, v', hu, he, h1, h2, h3⟩
      · refine ⟨v, h1, ?_⟩
        rcases children_verts (a := t'.1) (b := t'.2.1) (c := t'.2.2) d' hd' _ hvd' with h | ⟨e', -, h⟩
        · rw [← hbase _ (hlt h1)]; exact h
        · exact absurd (hlt' h1) (Nat.not_lt.2 (B.fresh _ _ h).1)
      · rcases children_verts (a := t'.1) (b := t'.2.1) (c := t'.2.2) d' hd' _ hvd' with h | ⟨e', he', h⟩
        · exact absurd (h3 ▸ hv'.verts_lt ht' h) (Nat.not_lt.2 (B.fresh _ _ h2).1)
        · rw [h3] at h
          have w : e'.1 ∈ t'.verts ∧ e'.2 ∈ t'.verts := by
            simp only [Tri.darts, List.mem_cons, List.not_mem_nil, or_false] at he'
            rcases he' with rfl | rfl | rfl <;> simp [Tri.verts]
          obtain ⟨w1, w2⟩ := w
          rcases B.label.inj _ _ _ h2 h with k | k
          · rw [k] at w1
            exact ⟨e.1, hu.1, w1⟩
          · rw [k] at w2
            exact ⟨e.1, hu.1, w2⟩
    obtain ⟨x, hx, hxt⟩ := hcorner
    obtain ⟨y', z', hi⟩ := Tri.mem_verts.1 hxt
    obtain ⟨y, z, h1, rfl, rfl⟩ := R.star' hx (hasTri_iff.2 ⟨t', ht', hi⟩)
    rcases hi with rfl | rfl | rfl
    · exact ⟨_, _, _, h1, rfl⟩
    · exact ⟨_, _, _, h1.rot, rfl⟩
    · exact ⟨_, _, _, h1.rot.rot, rfl⟩
  have hstar : ∀ n v q' r', usedBy out.tris v → Kids m'.tris μ' n (ρ' v) q' r' →
      ∃ q r, Kids m.tris μ n v q r ∧ ρ' q = q' ∧ ρ' r = r' := by
    rintro n v q' r' hu ⟨t', ht', hn, d', hd', hi'⟩
    obtain ⟨a, b, c, h2, rfl⟩ := hfam t' ht' d' hd' v hu (Tri.mem_verts.2 ⟨_, _, hi'⟩)
    obtain ⟨d0, hd0, hvd⟩ := hu
    obtain ⟨p, q, r, k1, k2, k3, k4⟩ := hback n _ _ _ a b c h2 ht' hn ⟨d', hd', hi'⟩
    have hp : usedBy out.tris p := (hasTri_used ((hhas _ _ _).2 ⟨n, k1⟩)).1
    obtain ⟨t1, ht1, hp1⟩ := hp
    obtain rfl := hinj _ ht1 _ hd0 _ hp1 _ hvd k2
    exact ⟨q, r, k1, k3, k4⟩
  refine ⟨ρ', hbase, ⟨htri, ?_, hinj, hpos⟩, hfwd, hstar, ?_, ?_⟩
  · intro x y z y' z' h h'
    obtain ⟨n, h'⟩ := (hhas' _ _ _).1 h'
    obtain ⟨q, r, k1, k2⟩ := hstar n x y' z' (hasTri_used h).1 h'
    exact ⟨q, r, (hhas _ _ _).2 ⟨n, k1⟩, k2⟩
  · intro hst d hd
    rw [A.tris] at hd
    obtain ⟨t, ht, hd⟩ := List.mem_flatMap.1 hd
    rw [B.tris]
    refine List.mem_flatMap.2 ⟨t.rename ρ, hst t ht, ?_⟩
    rw [hkids t ht]
    exact List.mem_map_of_mem hd
  · intro t' ht' d' hd'
    constructor
    · rintro ⟨p, q, r, h1, rfl⟩
      exact hfam t' ht' _ hd' p (hasTri_used h1).1 (by simp [Tri.verts])
    · rintro ⟨a, b, c, h1, rfl⟩
      obtain ⟨x1, x2, x3⟩ := d'
      obtain ⟨p, q, r, k1, k2, k3, k4⟩ := hback _ x1 x2 x3 a b c h1 ht' rfl ⟨_, hd', Or.inl rfl⟩
      exact ⟨p, q, r, (hhas _ _ _).2 ⟨_, k1⟩, by rw [k2, k3, k4]⟩

end split

section runs
variable {lib lib' : QELib} {cosn : Nat → K} {ρ : PId → PId} {m m' out out' : Mesh P D} {f f' g g' : Filt}

/-- the new point on an edge of the piece is the same for both directions -/
theorem PieceOf.value {sch : Scheme} (R : PieceOf ρ m m') (hn : sch.Needs m) (hn' : sch.Needs m')
    (hc : sch = .butterfly → m.Closed) {e e' : Edge} (he : m.IsEdge e) (h1 : e' = e.rename ρ ∨ e' = (e.rename ρ).sym) {p : P}
    (h2 : Verif.schemePoint sch K m' e' = .ok p) : p = valueOf (Verif.schemePoint sch K m) e := by
  rcases h1 with rfl | rfl
  · rw [R.schemePoint hn hn' hc he] at h2
    rw [valueOf_eq (np := Verif.schemePoint sch K m) h2]
  · rw [Edge.rename_sym, R.schemePoint hn hn' hc he.sym, schemePoint_sym hn hc he] at h2
    rw [valueOf_eq (np := Verif.schemePoint sch K m) h2]

theorem SameSelection.dart {sel sel' : List CId} (R : PieceOf ρ m m') (hv : m.Valid) (hv' : m'.Valid)
    (S : SameSelection ρ m sel m' sel') {e : Edge} (he : usedBy m.tris e.1 ∧ usedBy m.tris e.2) :
    e.rename ρ ∈ dartsOf (m'.selected sel') ↔ e ∈ dartsOf (m.selected sel) := by
  obtain ⟨a, b⟩ := e
  show (ρ a, ρ b) ∈ dartsOf (m'.selected sel') ↔ _
  rw [dartsOf_iff_hasTri, dartsOf_iff_hasTri]
  constructor
  · rintro ⟨z, hz⟩
    obtain ⟨t, ht, hi⟩ := hasTri_iff.1 hz
    obtain ⟨y, w, h1, h3, rfl⟩ := R.star' he.1 (hasTri_iff.2 ⟨t, hv'.selected_subset _ t ht, hi⟩)
    obtain ⟨-, uy, -⟩ := hasTri_used h1
    obtain rfl := R.injOn _ _ uy he.2 h3
    exact ⟨w, (S _ _ _ h1).1 hz⟩
  · rintro ⟨z, hz⟩
    obtain ⟨t, ht, hi⟩ := hasTri_iff.1 hz
    exact ⟨ρ z, (S _ _ _ (hasTri_iff.2 ⟨t, hv.selected_subset _ t ht, hi⟩)).2 hz⟩

/-- the next selection: the children of the cells split in four -/
theorem next_selected {sch : Scheme} (hs : sch ≠ .sqrt3) (hn : sch.Needs m) (hsel : m.SelOK f.cells)
    (h : cellUpdate sch lib cosn f m = (.ok out, f')) {p q r : PId} :
    HasTri (out.selected f'.cells) p q r ↔ Kids m.tris (m.edgePoint f.cells) 4 p q r := by
  obtain ⟨A, -⟩ := cellUpdate_result hs hn hsel h
  have hov := (C04_output_valid hs hn hsel h).1
  obtain ⟨c1, c2⟩ := C16_selection_after_run hs hn hsel h
  rw [hasTri_iff]
  by_cases hne : f.cells = []
  · rw [c1 hne]
    show (∃ t ∈ out.tris, _) ↔ _
    have h4 : ∀ t ∈ m.tris, (t.children (m.edgePoint f.cells)).length = 4 := by
      intro t ht
      refine children_all _ _ fun e he => (edgePoint_isSome _ _ _).2 (Or.inl ?_)
      rw [hne]
      exact mem_dartsOf.2 ⟨t, ht, he⟩
    rw [A.tris]
    constructor
    · rintro ⟨d, hd, hi⟩
      obtain ⟨t, ht, hd⟩ := List.mem_flatMap.1 hd
      exact ⟨t, ht, h4 t ht, d, hd, hi⟩
    · rintro ⟨t, ht, -, d, hd, hi⟩
      exact ⟨d, List.mem_flatMap.2 ⟨t, ht, hd⟩, hi⟩
  · obtain ⟨u1, -, -, u2⟩ := c2 hne
    constructor
    · rintro ⟨d, hd, hi⟩
      obtain ⟨k, hk, hd⟩ := (mem_selected u1).1 hd
      obtain ⟨t, ht, h1, h2⟩ := (u2 k d (hov.triAt_iff.1 hd)).1 hk
      exact ⟨t, ht, h2, d, h1, hi⟩
    · rintro ⟨t, ht, h4, d, hd, hi⟩
      have hdo : d ∈ out.tris := by rw [A.tris]; exact List.mem_flatMap.2 ⟨t, ht, hd⟩
      obtain ⟨k, hk⟩ := hov.mem_tris.1 hdo
      exact ⟨d, (mem_selected u1).2 ⟨k, (u2 k d hk).2 ⟨t, ht, hd, h4⟩, hov.triAt_iff.2 hk⟩, hi⟩

theorem shared_length (m : Mesh P D) (sel : List CId) (t : Tri) :
    (t.children (m.edgePoint sel)).length = 1 + (t.sharedWith (m.selected sel)).length := by
  rw [children_length]
  unfold Tri.sharedWith
  congr 2
  refine List.filter_congr fun e _ => ?_
  rw [Bool.eq_iff_iff, decide_eq_true_iff, edgePoint_isSome]

theorem cellUpdate_listing {sch : Scheme} (hs : sch ≠ .sqrt3) (R : PieceOf ρ m m') (hn : sch.Needs m)
    (hn' : sch.Needs m') (hc : sch = .butterfly → m.Closed) (hl : sch = .loop → f.uniform = true ∧ g.uniform = true)
    (hsel : m.SelOK f.cells) (hsel' : m'.SelOK g.cells) (S : SameSelection ρ m f.cells m' g.cells)
    (hrot : ∀ t ∈ m.tris, (t.sharedWith (m.selected f.cells)).length = 2 → t.rename ρ ∈ m'.tris)
    (h : cellUpdate sch lib cosn f m = (.ok out, f')) (h' : cellUpdate sch lib' cosn g m' = (.ok out', g')) :
    ∃ ρ', (∀ v, v < m.points.length → ρ' v = ρ v) ∧ PieceOf ρ' out out' ∧
      SameSelection ρ' out f'.cells out' g'.cells ∧ (SameStarts ρ m m' → SameStarts ρ' out out') ∧
      ∀ t' ∈ m'.tris, ∀ d' ∈ t'.children (m'.edgePoint g.cells), (InPiece ρ' out d' ↔ InPiece ρ m t') := by
  obtain ⟨A, -⟩ := cellUpdate_result hs hn hsel h
  obtain ⟨B, -⟩ := cellUpdate_result hs hn' hsel' h'
  have hv := hn.valid
  have hv' := hn'.valid
  obtain ⟨ρ', h1, h2, h3, h4, h5⟩ := split_listing R hv hv' A B
    (fun e he => by
      rw [edgePoint_isSome, edgePoint_isSome, Edge.rename_sym, S.dart R hv hv' he, S.dart R hv hv' (e := e.sym) ⟨he.2, he.1⟩])
    (fun t ht h3 => hrot t ht (by rw [shared_length] at h3; omega))
    (fun v hu => by
      rw [cellUpdate_base hs hn' hsel' h' (Renamed.used_lt hv' (R.used hu)),
        cellUpdate_base hs hn hsel h (Renamed.used_lt hv hu), R.schemeBase hn hn' cosn hl hu])
    (fun e v w he hm hm' => by
      have k1 := cellUpdate_edgeMap hs hn (fun e he => schemePoint_sym hn hc he) hsel h e
      rw [hm] at k1
      simp only [Option.map_some, Option.isSome_some, if_true, Option.some.injEq] at k1
      obtain ⟨e', p, a1, -, a3, a4⟩ := cellUpdate_edgeValue hs hn' hsel' h' hm'
      rw [k1, a4, R.value hn hn' hc he a1 a3])
  refine ⟨ρ', h1, h2, ?_, h5⟩
  intro x y z hxyz
  rw [next_selected hs hn' hsel' h', next_selected hs hn hsel h]
  refine ⟨fun k => ?_, h3 _ _ _ _⟩
  obtain ⟨v1, v2, v3⟩ := hasTri_used hxyz
  obtain ⟨q, r, k1, k3, k4⟩ := h4 _ _ _ _ v1 k
  have hout : HasTri out.tris x q r := by
    obtain ⟨t, ht, -, d, hd, hi⟩ := k1
    exact hasTri_iff.2 ⟨d, by rw [A.tris]; exact List.mem_flatMap.2 ⟨t, ht, hd⟩, hi⟩
  obtain ⟨u1, u2, u3⟩ := hasTri_used hout
  obtain rfl := h2.injOn _ _ u2 v2 k3
  obtain rfl := h2.injOn _ _ u3 v3 k4
  exact k1

theorem edgeUpdate_listing {sch : EdgeScheme} (R : PieceOf ρ m m') (hn : sch.toScheme.Needs m)
    (hn' : sch.toScheme.Needs m') (hc : sch = .butterfly → m.Closed) (hsel : m.EdgeSelOK f.edgeSel)
    (hsel' : m'.EdgeSelOK g.edgeSel) (S : SameSplits ρ m f.edgeSel m' g.edgeSel)
    (hrot : ∀ t ∈ m.tris, (t.splitEdges (m.selectedEdges f.edgeSel)).length = 2 → t.rename ρ ∈ m'.tris)
    (h : edgeUpdate sch lib cosn f m = (.ok out, f')) (h' : edgeUpdate sch lib' cosn g m' = (.ok out', g')) :
    ∃ ρ', (∀ v, v < m.points.length → ρ' v = ρ v) ∧ PieceOf ρ' out out' ∧ (SameStarts ρ m m' → SameStarts ρ' out out') ∧
      ∀ t' ∈ m'.tris, ∀ d' ∈ t'.children (m'.listPoint g.edgeSel), (InPiece ρ' out d' ↔ InPiece ρ m t') := by
  have A := edgeUpdate_result hn hsel h
  have B := edgeUpdate_result hn' hsel' h'
  have hv := hn.valid
  have hv' := hn'.valid
  have hc1 : sch.toScheme = .butterfly → m.Closed := by
    intro h; cases sch <;> first | exact hc rfl | cases h
  have hE : ∀ {e}, m.IsEdge e ∨ m'.IsEdge (e.rename ρ) → (usedBy m.tris e.1 ∧ usedBy m.tris e.2) → m.IsEdge e := by
    rintro e (he | he) hu
    · exact he
    · exact (R.isEdge_iff hv' hv hu).1 he
  have hsome : ∀ e, (m.listPoint f.edgeSel e).isSome ↔ e ∈ m.selectedEdges f.edgeSel ∨ e.sym ∈ m.selectedEdges f.edgeSel :=
    fun e => lastLabel_isSome _ _ _
  have hsome' : ∀ e, (m'.listPoint g.edgeSel e).isSome ↔ e ∈ m'.selectedEdges g.edgeSel ∨ e.sym ∈ m'.selectedEdges g.edgeSel :=
    fun e => lastLabel_isSome _ _ _
  have hor : ∀ {m : Mesh P D} {f : Filt}, m.EdgeSelOK f.edgeSel → ∀ {e},
      (e ∈ m.selectedEdges f.edgeSel ∨ e.sym ∈ m.selectedEdges f.edgeSel) → m.IsEdge e := by
    rintro m f hs e (h | h)
    · exact selectedEdges_isEdge hs h
    · have := (selectedEdges_isEdge hs h).sym
      rwa [Edge.sym_sym] at this
  obtain ⟨ρ', h1, h2, -, -, h5⟩ := split_listing R hv hv' A B
    (fun e he => by
      rw [hsome, hsome']
      exact ⟨fun k => (S e (hE (Or.inr (hor hsel' k)) he)).1 k, fun k => (S e (hor hsel k)).2 k⟩)
    (fun t ht h3 => hrot t ht (by
      rw [children_length] at h3
      unfold Tri.splitEdges
      have : (t.darts.filter fun e => decide (e ∈ m.selectedEdges f.edgeSel ∨ e.sym ∈ m.selectedEdges f.edgeSel)) =
          t.darts.filter fun e => (m.listPoint f.edgeSel e).isSome :=
        List.filter_congr fun e _ => by rw [Bool.eq_iff_iff, decide_eq_true_iff, hsome]
      rw [this]
      omega))
    (fun v hu => by
      rw [pos_base B.points (Renamed.used_lt hv' (R.used hu)), pos_base A.points (Renamed.used_lt hv hu), R.coord hu])
    (fun e v w he hm hm' => by
      have k1 := edgeUpdate_edgeMap hn (fun e he => schemePoint_sym hn hc1 he) hsel h e
      rw [hm] at k1
      simp only [Option.map_some, Option.isSome_some, if_true, Option.some.injEq] at k1
      obtain ⟨e', p, a1, -, a3, a4⟩ := edgeUpdate_edgeValue hn' hsel' h' hm'
      rw [k1, a4, R.value hn hn' hc1 he a1 a3])
  exact ⟨ρ', h1, h2, h5⟩

end runs
end Verif
