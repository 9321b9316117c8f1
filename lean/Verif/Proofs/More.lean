import Verif.Spec.More
import Verif.Proofs.ListingRun
import Verif.Proofs.Cost
import Verif.Proofs.ShrinkLevels
import Verif.Properties.Levels
/-
Two runs side by side, the one on more cells than the other: what the one splits, the other splits too.
-/
namespace Verif
set_option linter.unusedSectionVars false
variable {K P D : Type} [Field K] [Zero P] [Add P] [SMul K P] {lib : QELib} {cosn : Nat → K}

/-- the part of `A` that is refined next is in `B`, and is refined next there -/
structure Inside (ρ : PId → PId) (A : Mesh P D) (sA : List CId) (B : Mesh P D) (sB : List CId) : Prop where
  lt : ∀ v : Nat, v < A.points.length → (ρ v : Nat) < B.points.length
  inj : ∀ v w : Nat, v < A.points.length → w < A.points.length → ρ v = ρ w → v = w
  dart : ∀ e ∈ dartsOf A.tris, (A.edgePoint sA e).isSome →
    e.rename ρ ∈ dartsOf B.tris ∧ (B.edgePoint sB (e.rename ρ)).isSome
  tri : ∀ t ∈ A.tris, allSplit (A.edgePoint sA) t = true → t.rename ρ ∈ B.tris
  cells : A.tris.length ≤ B.tris.length

theorem noMore_all (m : Mesh P D) : NoMore m [] := fun t ht _ => by simpa [Mesh.selected] using ht

variable {A A' B B' : Mesh P D} {f f' g g' : Filt} {sch : Scheme} {ρ : PId → PId}

/-- what is refined next are the children of the triangles split into four -/
theorem next_split (hs : sch ≠ .sqrt3) (hA : sch.Needs A) (hsA : A.SelOK f.cells) (h1 : cellUpdate sch lib cosn f A = (.ok A', f'))
    {d : Tri} : d ∈ A'.selected f'.cells ↔ ∃ t ∈ A.tris, d ∈ t.children (A.edgePoint f.cells) ∧
      allSplit (A.edgePoint f.cells) t = true := by
  obtain ⟨R, -⟩ := cellUpdate_result hs hA hsA h1
  have hvo := (C04_output_valid hs hA hsA h1).1
  by_cases hne : f.cells = []
  · rw [(C16_selection_after_run hs hA hsA h1).1 hne]
    have : A'.selected [] = A'.tris := rfl
    rw [this, R.tris, List.mem_flatMap]
    refine ⟨fun ⟨t, ht, hd⟩ => ⟨t, ht, hd, (allSplit_iff _ _).2 fun e he => ?_⟩, fun ⟨t, ht, hd, _⟩ => ⟨t, ht, hd⟩⟩
    rw [edgePoint_isSome, hne]
    exact Or.inl (mem_dartsOf.2 ⟨t, by simpa [Mesh.selected] using ht, he⟩)
  · obtain ⟨hne', -, hsel', hnext⟩ := (C16_selection_after_run hs hA hsA h1).2 hne
    have h4 : ∀ t : Tri, (t.children (A.edgePoint f.cells)).length = 4 ↔ allSplit (A.edgePoint f.cells) t = true := by
      intro t
      refine ⟨fun h => (allSplit_iff _ _).2 ?_, fun h => children_all _ _ ((allSplit_iff _ _).1 h)⟩
      rw [children_length] at h
      have : (t.darts.filter fun e => (A.edgePoint f.cells e).isSome).length = t.darts.length := by
        have : t.darts.length = 3 := rfl
        omega
      exact List.length_filter_eq_length_iff.1 this
    rw [hvo.mem_selected hne']
    constructor
    · rintro ⟨k, hk, hc⟩
      obtain ⟨t, ht, hd, h⟩ := (hnext k d hc).1 hk
      exact ⟨t, ht, hd, (h4 t).1 h⟩
    · rintro ⟨t, ht, hd, h⟩
      obtain ⟨k, hk⟩ := hvo.mem_tris.1 (by rw [R.tris]; exact List.mem_flatMap.2 ⟨t, ht, hd⟩)
      exact ⟨k, (hnext k d hk).2 ⟨t, ht, hd, (h4 t).2 h⟩, hk⟩

theorem Inside.length (I : Inside ρ A f.cells B g.cells) : A.points.length ≤ B.points.length := by
  have h : ((List.range A.points.length).map ρ).length ≤ (List.range B.points.length).length := by
    refine (List.subperm_of_subset ?_ ?_).length_le
    · refine List.Nodup.map_on ?_ List.nodup_range
      intro v hv w hw h
      exact I.inj v w (List.mem_range.1 hv) (List.mem_range.1 hw) h
    · intro x hx
      obtain ⟨v, hv, rfl⟩ := List.mem_map.1 hx
      exact List.mem_range.2 (I.lt v (List.mem_range.1 hv))
  simpa using h

open Classical in
theorem Inside.step (hs : sch ≠ .sqrt3) (hA : sch.Needs A) (hB : sch.Needs B) (hsA : A.SelOK f.cells) (hsB : B.SelOK g.cells)
    (h1 : cellUpdate sch lib cosn f A = (.ok A', f')) (h2 : cellUpdate sch lib cosn g B = (.ok B', g'))
    (I : Inside ρ A f.cells B g.cells) : ∃ ρ', Inside ρ' A' f'.cells B' g'.cells ∧
      (∀ v : Nat, v < A.points.length → ρ' v = ρ v) ∧
      (∀ e ∈ dartsOf A.tris, ∀ m, A.edgePoint f.cells e = some m → B.edgePoint g.cells (e.rename ρ) = some (ρ' m)) ∧
      ∀ m : Nat, A.points.length ≤ m → m < A'.points.length → ∃ e ∈ dartsOf A.tris, A.edgePoint f.cells e = some m := by
  have hv := hA.valid
  have hvB := hB.valid
  obtain ⟨R, hnew⟩ := cellUpdate_result hs hA hsA h1
  obtain ⟨Q, -⟩ := cellUpdate_result hs hB hsB h2
  have hvA' := (C04_output_valid hs hA hsA h1).1
  have hvB' := (C04_output_valid hs hB hsB h2).1
  set μ := A.edgePoint f.cells with hμ
  set ν := B.edgePoint g.cells with hν
  have Idart : ∀ e ∈ dartsOf A.tris, (μ e).isSome → e.rename ρ ∈ dartsOf B.tris ∧ (ν (e.rename ρ)).isSome := I.dart
  have Itri : ∀ t ∈ A.tris, allSplit μ t = true → t.rename ρ ∈ B.tris := I.tri
  let ρ' : PId → PId := fun v => if h : ∃ e ∈ dartsOf A.tris, μ e = some v then (ν (h.choose.rename ρ)).getD 0 else ρ v
  have old : ∀ v : Nat, v < A.points.length → ρ' v = ρ v := by
    intro v hv
    have : ¬ ∃ e ∈ dartsOf A.tris, μ e = some v := fun ⟨e, _, h⟩ => Nat.not_le.2 hv (R.fresh e v h).1
    simp only [ρ', dif_neg this]
  have new : ∀ e ∈ dartsOf A.tris, ∀ m, μ e = some m → ν (e.rename ρ) = some (ρ' m) := by
    intro e he m hm
    have hex : ∃ e ∈ dartsOf A.tris, μ e = some m := ⟨e, he, hm⟩
    simp only [ρ', dif_pos hex]
    have h3 : ν (hex.choose.rename ρ) = ν (e.rename ρ) := by
      rcases R.label.inj e _ m hm hex.choose_spec.2 with h4 | h4
      · rw [h4]
      · rw [h4, ← Edge.rename_sym, Q.label.sym]
    have h5 := (Idart e he (by rw [hm]; rfl)).2
    rw [h3]
    obtain ⟨x, hx⟩ := Option.isSome_iff_exists.1 h5
    rw [hx]; rfl
  have lab : ∀ m : Nat, A.points.length ≤ m → m < A'.points.length → ∃ e ∈ dartsOf A.tris, μ e = some m := fun m k1 k2 =>
    hnew m k1 (by rwa [R.points_length] at k2)
  have ends : ∀ e ∈ dartsOf A.tris, (e.1 : Nat) < A.points.length ∧ (e.2 : Nat) < A.points.length := fun e he =>
    hv.isEdge_lt (hv.isEdge_of_dart he)
  have kids : ∀ t ∈ A.tris, allSplit μ t = true →
      (t.rename ρ).children ν = (t.children μ).map (Tri.rename ρ') ∧ allSplit ν (t.rename ρ) = true := by
    intro t ht hall
    have := children_rename (ρ := ρ) (ρ' := ρ') (μ := μ) (μ' := ν) (t := t) (fun v hvt => old v (hv.verts_lt ht hvt)) (fun e he => by
      have hd := mem_dartsOf.2 ⟨t, ht, he⟩
      obtain ⟨m, hm⟩ := Option.isSome_iff_exists.1 ((allSplit_iff _ _).1 hall e he)
      rw [hm, new e hd m hm]; rfl)
    exact ⟨this.1, this.2.trans hall⟩
  have selA : ∀ d, d ∈ A'.selected f'.cells ↔ ∃ t ∈ A.tris, d ∈ t.children μ ∧ allSplit μ t = true := fun d => next_split hs hA hsA h1
  have selB : ∀ d, d ∈ B'.selected g'.cells ↔ ∃ t ∈ B.tris, d ∈ t.children ν ∧ allSplit ν t = true := fun d => next_split hs hB hsB h2
  have sel : ∀ d ∈ A'.selected f'.cells, d.rename ρ' ∈ B'.selected g'.cells := by
    intro d hd
    obtain ⟨t, ht, hdt, hall⟩ := (selA d).1 hd
    obtain ⟨k1, k2⟩ := kids t ht hall
    exact (selB _).2 ⟨_, Itri t ht hall, by rw [k1]; exact List.mem_map_of_mem hdt, k2⟩
  have sub : ∀ d ∈ B'.selected g'.cells, d ∈ B'.tris := by
    intro d hd
    obtain ⟨t, ht, hdt, -⟩ := (selB d).1 hd
    rw [Q.tris]
    exact List.mem_flatMap.2 ⟨t, ht, hdt⟩
  have dart1 : ∀ d ∈ A'.selected f'.cells, ∀ e ∈ d.darts, e.rename ρ' ∈ dartsOf (B'.selected g'.cells) := by
    intro d hd e he
    exact mem_dartsOf.2 ⟨_, sel d hd, by rw [Tri.rename_darts]; exact List.mem_map_of_mem he⟩
  have up : ∀ e, e ∈ dartsOf (B'.selected g'.cells) → e ∈ dartsOf B'.tris := by
    intro e he
    obtain ⟨d, hd, hde⟩ := mem_dartsOf.1 he
    exact mem_dartsOf.2 ⟨d, sub d hd, hde⟩
  refine ⟨ρ', ⟨?_, ?_, ?_, ?_, ?_⟩, old, new, lab⟩
  · intro v hlt
    rcases Nat.lt_or_ge v A.points.length with h | h
    · rw [old v h, Q.points_length]
      exact Nat.lt_of_lt_of_le (I.lt v h) Q.longer
    · obtain ⟨e, he, hm⟩ := lab v h hlt
      rw [Q.points_length]
      exact (Q.fresh _ _ (new e he v hm)).2
  · intro v w hlv hlw heq
    rcases Nat.lt_or_ge v A.points.length with h | h <;> rcases Nat.lt_or_ge w A.points.length with h' | h'
    · rw [old v h, old w h'] at heq
      exact I.inj v w h h' heq
    · obtain ⟨e, he, hm⟩ := lab w h' hlw
      have k1 := (Q.fresh _ _ (new e he w hm)).1
      rw [← heq, old v h] at k1
      exact absurd (I.lt v h) (Nat.not_lt.2 k1)
    · obtain ⟨e, he, hm⟩ := lab v h hlv
      have k1 := (Q.fresh _ _ (new e he v hm)).1
      rw [heq, old w h'] at k1
      exact absurd (I.lt w h') (Nat.not_lt.2 k1)
    · obtain ⟨e, he, hm⟩ := lab v h hlv
      obtain ⟨e', he', hm'⟩ := lab w h' hlw
      have k1 := new e he v hm
      have k2 := new e' he' w hm'
      rw [← heq] at k2
      have ee : e' = e ∨ e' = e.sym := by
        rcases Q.label.inj _ _ _ k1 k2 with k3 | k3
        · left
          exact Prod.ext (I.inj _ _ (ends e' he').1 (ends e he).1 (congrArg Prod.fst k3))
            (I.inj _ _ (ends e' he').2 (ends e he).2 (congrArg Prod.snd k3))
        · right
          exact Prod.ext (I.inj _ _ (ends e' he').1 (ends e he).2 (congrArg Prod.fst k3))
            (I.inj _ _ (ends e' he').2 (ends e he).1 (congrArg Prod.snd k3))
      rcases ee with rfl | rfl
      · rw [hm] at hm'; exact Option.some.inj hm'
      · rw [R.label.sym, hm] at hm'; exact Option.some.inj hm'
  · intro e he hsome
    have key : e.rename ρ' ∈ dartsOf B'.tris ∧
        (e.rename ρ' ∈ dartsOf (B'.selected g'.cells) ∨ (e.rename ρ').sym ∈ dartsOf (B'.selected g'.cells)) := by
      rcases (edgePoint_isSome _ _ _).1 hsome with k | k
      · obtain ⟨d, hd, hed⟩ := mem_dartsOf.1 k
        have := dart1 d hd e hed
        exact ⟨up _ this, Or.inl this⟩
      · obtain ⟨d, hd, hed⟩ := mem_dartsOf.1 k
        refine ⟨?_, Or.inr (dart1 d hd _ hed)⟩
        obtain ⟨t, ht, hdt, hall⟩ := (selA d).1 hd
        obtain ⟨q, p⟩ := e
        rcases inner_both (loc hv.good R.label ht) d hdt p q hed with ⟨x, hx, ho⟩ | hin
        · have hxs : x.sym ∈ dartsOf A.tris := by
            by_contra hc
            have hb : (p, q) ∈ boundaryOf (A.tris.flatMap (Tri.children μ)) :=
              (boundary_children hv.good R.label).2 ⟨x, mem_boundaryOf.2 ⟨mem_dartsOf.2 ⟨t, ht, hx⟩, hc⟩, ho⟩
            rw [← R.tris] at hb
            exact (mem_boundaryOf.1 hb).2 he
          have hsx : (μ x).isSome := (allSplit_iff _ _).1 hall x hx
          have hsx' : (μ x.sym).isSome := by rwa [R.label.sym]
          obtain ⟨k1, -⟩ := Idart x.sym hxs hsx'
          obtain ⟨t2, ht2, k2⟩ := mem_dartsOf.1 k1
          have ho2 : OuterOf ν (x.sym.rename ρ) (ρ' q) (ρ' p) := by
            rcases OuterOf.symm R.label ho with ⟨-, k3⟩ | ⟨k3, k4⟩ | ⟨k3, k4⟩
            · rw [k3] at hsx'; cases hsx'
            · refine Or.inr (Or.inl ⟨?_, new _ hxs _ k4⟩)
              rw [← k3]; exact (old _ (ends _ hxs).1).symm
            · refine Or.inr (Or.inr ⟨?_, new _ hxs _ k4⟩)
              rw [← k3]; exact (old _ (ends _ hxs).2).symm
          obtain ⟨d2, hd2, hpq⟩ := mem_dartsOf.1 (outer_mem_children k2 ho2)
          exact mem_dartsOf.2 ⟨d2, by rw [Q.tris]; exact List.mem_flatMap.2 ⟨t2, ht2, hd2⟩, hpq⟩
        · obtain ⟨d2, hd2, h3⟩ := mem_dartsOf.1 hin
          exact up _ (dart1 d2 ((selA d2).2 ⟨t, ht, hd2, hall⟩) _ h3)
    exact ⟨key.1, (edgePoint_isSome _ _ _).2 key.2⟩
  · intro d hd hall
    have hno : NoMore A' f'.cells := by
      by_cases hne : f.cells = []
      · rw [(C16_selection_after_run hs hA hsA h1).1 hne]
        exact noMore_all A'
      · exact next_noMore hs hA hsA hne h1
    exact sub _ (sel d (hno d hd hall))
  · rw [R.tris, Q.tris, length_children, length_children]
    refine Nat.add_le_add I.cells ?_
    have : (((dartsOf A.tris).filter fun e => (μ e).isSome).map (Edge.rename ρ)).length ≤
        ((dartsOf B.tris).filter fun e => (ν e).isSome).length := by
      refine (List.subperm_of_subset ?_ ?_).length_le
      · refine List.Nodup.map_on ?_ (hv.good.oriented.filter _)
        intro e he e' he' heq
        have k := ends e (List.mem_filter.1 he).1
        have k' := ends e' (List.mem_filter.1 he').1
        exact Prod.ext (I.inj _ _ k.1 k'.1 (congrArg Prod.fst heq)) (I.inj _ _ k.2 k'.2 (congrArg Prod.snd heq))
      · intro x hx
        obtain ⟨e, he, rfl⟩ := List.mem_map.1 hx
        obtain ⟨k1, k2⟩ := List.mem_filter.1 he
        exact List.mem_filter.2 (Idart e k1 k2)
    rwa [List.length_map] at this

/-- at the start: one mesh, of which more is selected the second time -/
theorem Inside.start {m : Mesh P D} {s s' : List CId} (h : m.SelectsMore s s') : Inside id m s m s' := by
  have key : ∀ e, (m.edgePoint s e).isSome → (m.edgePoint s' e).isSome := by
    intro e he
    rw [edgePoint_isSome] at he ⊢
    refine he.imp ?_ ?_ <;>
    · intro k
      obtain ⟨t, ht, k⟩ := mem_dartsOf.1 k
      exact mem_dartsOf.2 ⟨t, h t ht, k⟩
  exact ⟨fun _ h => h, fun _ _ _ _ h => h, fun e he hsome => ⟨he, key e hsome⟩, fun t ht _ => ht, le_rfl⟩

theorem oneLevel_update {m m' : Mesh P D} {s s' : List CId} (h : oneLevel sch lib cosn (m, s) = .ok (m', s')) :
    ∃ f', cellUpdate sch lib cosn (Filt.new.setCells s) m = (.ok m', f') ∧ f'.cells = s' := by
  unfold oneLevel at h
  rcases hc : cellUpdate sch lib cosn (Filt.new.setCells s) m with ⟨r, f'⟩
  simp only [hc] at h
  cases r with
  | error e => cases h
  | ok out =>
    obtain ⟨rfl, rfl⟩ := Prod.mk.inj (Except.ok.inj h)
    exact ⟨f', rfl, rfl⟩

/-- the points of `A` are at the same places in `B` -/
def SamePlaces (ρ : PId → PId) (A B : Mesh P D) : Prop := ∀ v p, A.pos v = some p → B.pos (ρ v) = some p

section exact
variable {P : Type} [AddCommGroup P] [Module K P] {A A' B B' : Mesh P D}

theorem Inside.places {ρ' : PId → PId} (hA : A.Valid) (hB : B.Valid) (hsA : A.SelOK f.cells) (hsB : B.SelOK g.cells)
    (h1 : cellUpdate .linear lib cosn f A = (.ok A', f')) (h2 : cellUpdate .linear lib cosn g B = (.ok B', g'))
    (hp : SamePlaces ρ A B) (old : ∀ v : Nat, v < A.points.length → ρ' v = ρ v)
    (new : ∀ e ∈ dartsOf A.tris, ∀ m, A.edgePoint f.cells e = some m → B.edgePoint g.cells (e.rename ρ) = some (ρ' m))
    (lab : ∀ m : Nat, A.points.length ≤ m → m < A'.points.length → ∃ e ∈ dartsOf A.tris, A.edgePoint f.cells e = some m) :
    SamePlaces ρ' A' B' := by
  have hn : Scheme.linear.Needs A := ⟨hA, by simp, by simp⟩
  have hvA' := (C04_output_valid (by decide) hn hsA h1).1
  have kA := C06_original_points_kept (by decide) hA.points_dense h1
  have kB := C06_original_points_kept (by decide) hB.points_dense h2
  intro v p hv
  have hlt := hvA'.pos_lt hv
  rcases Nat.lt_or_ge v A.points.length with h | h
  · have hq := hA.pos_eq h
    have e := (kA _ _ hq).symm.trans hv
    rw [old v h, ← e]
    exact kB _ _ (hp _ _ hq)
  · obtain ⟨⟨a, b⟩, he, hm⟩ := lab v h hlt
    have hab := hA.isEdge_lt (hA.isEdge_of_dart he)
    have ha := hA.pos_eq (v := a) hab.1
    have hb := hA.pos_eq (v := b) hab.2
    have k1 := C07_linear_midpoints hA hsA h1 hm ha hb
    have hm2 : B.edgePoint g.cells (ρ a, ρ b) = some (ρ' v) := new _ he v hm
    have ha2 : B.pos (ρ a) = some (A.coord a) := hp _ _ ha
    have hb2 : B.pos (ρ b) = some (A.coord b) := hp _ _ hb
    have k2 := C07_linear_midpoints hB hsB h2 hm2 ha2 hb2
    rw [k1] at hv
    rw [← hv]
    exact k2

theorem inside_levels (hs : sch ≠ .sqrt3) (hl : sch = .loop ∨ sch = .butterfly → lib.Lawful) (L : Nat) {A B : Mesh P D}
    {sA sB : List CId} (hA : sch.Needs A) (hB : sch.Needs B) (hsA : A.SelOK sA) (hsB : B.SelOK sB) {ρ : PId → PId}
    (I : Inside ρ A sA B sB) (hp : sch = .linear → SamePlaces ρ A B) :
    ∃ A' sA' B' sB' ρ', manyLevels sch lib cosn L (A, sA) = .ok (A', sA') ∧ manyLevels sch lib cosn L (B, sB) = .ok (B', sB') ∧
      sch.Needs A' ∧ sch.Needs B' ∧ B'.SelOK sB' ∧ Inside ρ' A' sA' B' sB' ∧ (sch = .linear → SamePlaces ρ' A' B') := by
  induction L generalizing A B sA sB ρ with
  | zero => exact ⟨A, sA, B, sB, ρ, rfl, rfl, hA, hB, hsB, I, hp⟩
  | succ L ih =>
    obtain ⟨A1, s1, h1, hn1, hs1, -, -, -⟩ := oneLevel_ok (L := L) cosn hl hA hsA (fun hc => absurd hc hs)
    obtain ⟨B1, r1, h2, hn2, hs2, -, -, -⟩ := oneLevel_ok (L := L) cosn hl hB hsB (fun hc => absurd hc hs)
    obtain ⟨f', k1, rfl⟩ := oneLevel_update h1
    obtain ⟨g', k2, rfl⟩ := oneLevel_update h2
    obtain ⟨ρ', I', o, n, l⟩ := Inside.step (f := Filt.new.setCells sA) (g := Filt.new.setCells sB) hs hA hB hsA hsB k1 k2 I
    obtain ⟨A2, s2, B2, r2, ρ2, m1, m2, rest⟩ := ih hn1 hn2 hs1 hs2 I' (fun hc => by
      subst hc
      exact Inside.places (f := Filt.new.setCells sA) (g := Filt.new.setCells sB) hA.valid hB.valid hsA hsB k1 k2 (hp rfl) o n l)
    refine ⟨A2, s2, B2, r2, ρ2, ?_, ?_, rest⟩
    · unfold manyLevels
      rw [h1]
      exact m1
    · unfold manyLevels
      rw [h2]
      exact m2

end exact

theorem manyLevels_more {x y : Mesh P D × List CId} (L k : Nat) (h : manyLevels sch lib cosn L x = .ok y) :
    manyLevels sch lib cosn (L + k) x = manyLevels sch lib cosn k y := by
  induction L generalizing x with
  | zero => cases h; rw [Nat.zero_add]
  | succ L ih =>
    rw [Nat.succ_add]
    have e1 : ∀ n, manyLevels sch lib cosn (n + 1) x = oneLevel sch lib cosn x >>= manyLevels sch lib cosn n := fun _ => rfl
    rw [e1] at h ⊢
    rcases hx : oneLevel sch lib cosn x with e | z
    · rw [hx] at h; cases h
    · rw [hx] at h
      exact ih h

/-- the triangles with a centre are those that are selected -/
theorem centres_count {m : Mesh P D} (hv : m.Valid) {sel : List CId} (hsel : m.SelOK sel) (hnd : sel.Nodup) :
    (m.tris.filter fun t => (m.centreOf sel (t.1, t.2.1)).isSome).length = (m.selected sel).length := by
  by_cases hne : sel = []
  · have hall : m.selected sel = m.tris := by simp [Mesh.selected, hne]
    rw [hall, List.filter_eq_self.2]
    intro t ht
    rw [centreOf_isSome hv ht (by simp [Tri.darts]), hall]
    exact ht
  · rw [selected_count hv hsel hne hnd (fun k => Iff.rfl), selected_length hv hsel hne]

/-- SquareThree makes three cells of each selected cell, and records all of them -/
theorem sqrt3_next_exact (hv : A.Valid) (hsel : A.SelOK f.cells) (hnd : f.cells.Nodup)
    (hmax : A.points.length + (A.selected f.cells).length ≤ idMax) (h : cellUpdate .sqrt3 lib cosn f A = (.ok A', f')) :
    (A'.selected f'.cells).length = 3 * (A.selected f.cells).length ∧
      A'.points.length = A.points.length + (A.selected f.cells).length ∧
      A'.tris.length = A.tris.length + 2 * (A.selected f.cells).length ∧ f'.cells.Nodup := by
  have R := sqrt3Update_result hv hsel hmax h
  have hov := R.valid hv
  obtain ⟨h1, h2⟩ := C16_selection_after_run_sqrt3 hv hsel hmax h
  have hcount := centres_count hv hsel hnd
  have ht : A'.tris.length = A.tris.length + 2 * (A.selected f.cells).length := by
    rw [(R.tris hv).length_eq, sq3_length R.centres, hcount]
  refine ⟨?_, ?_, ht, ?_⟩
  · by_cases hne : f.cells = []
    · have e1 : A.selected f.cells = A.tris := by simp [Mesh.selected, hne]
      have e2 : A'.selected f'.cells = A'.tris := by simp [Mesh.selected, h1 hne]
      rw [e1] at ht ⊢
      rw [e2, ht]
      omega
    · refine le_antisymm (sqrt3_next_length hv hsel hmax h) ?_
      obtain ⟨hne', hnd', hok, hiff⟩ := h2 hne
      set σ := A.centreOf f.cells
      set T := A.tris.filter fun t => (σ (t.1, t.2.1)).isSome
      have hlen : (T.flatMap (Tri.sq3 σ)).length = 3 * T.length := by
        have key : ∀ l : List Tri, (∀ t ∈ l, (σ (t.1, t.2.1)).isSome) → (l.flatMap (Tri.sq3 σ)).length = 3 * l.length := by
          intro l
          induction l with
          | nil => intro _; rfl
          | cons t l ih =>
            intro hl
            obtain ⟨v, hv⟩ := Option.isSome_iff_exists.1 (hl t List.mem_cons_self)
            have e : (Tri.sq3 σ t).length = 3 := by unfold Tri.sq3; rw [hv]; rfl
            rw [List.flatMap_cons, List.length_append, ih (fun t ht => hl t (List.mem_cons_of_mem _ ht)), e, List.length_cons]
            omega
        exact key T fun t ht => (List.mem_filter.1 ht).2
      have hsubl : (T.flatMap (Tri.sq3 σ)).Sublist (A.tris.flatMap (Tri.sq3 σ)) := List.Sublist.flatMap List.filter_sublist _
      have hN : (T.flatMap (Tri.sq3 σ)).Nodup :=
        ((R.tris hv).nodup_iff.1 (tris_nodup hov.good.oriented)).sublist hsubl
      have hsub : T.flatMap (Tri.sq3 σ) ⊆ A'.selected f'.cells := by
        intro d hd
        have hd' : d ∈ A'.tris := (R.tris hv).mem_iff.2 (hsubl.subset hd)
        obtain ⟨t, ht, hdt⟩ := List.mem_flatMap.1 hd
        obtain ⟨ht1, ht2⟩ := List.mem_filter.1 ht
        obtain ⟨k, hk⟩ := hov.mem_tris.1 hd'
        obtain ⟨v, hsv⟩ := Option.isSome_iff_exists.1 ht2
        have hts : t ∈ A.selected f.cells := (centreOf_isSome hv ht1 (e := (t.1, t.2.1)) (by simp [Tri.darts])).1 ht2
        obtain ⟨j, hj, hjt⟩ := (hv.mem_selected hne).1 hts
        refine (hov.mem_selected hne').2 ⟨k, (hiff k d hk).2 ⟨j, hj, t, hjt, Or.inr ?_⟩, hk⟩
        unfold Tri.sq3 at hdt
        rw [hsv] at hdt
        obtain ⟨e, he, rfl⟩ := List.mem_map.1 hdt
        exact ⟨e, he, v, (R.centres.same t ht1 e he _ (by simp [Tri.darts])).trans hsv, Or.inl rfl⟩
      have := (hN.subperm hsub).length_le
      rwa [hlen, hcount] at this
  · rw [R.points, AMap.length_dense, List.length_append, List.length_map, List.length_map, List.length_range]
  · by_cases hne : f.cells = []
    · rw [h1 hne]; exact List.nodup_nil
    · exact (h2 hne).2.1

end Verif
