import Verif.Proofs.Sqrt3
import Verif.Proofs.Emit
import Verif.Proofs.FaceSplit
/-
The triangles that `SquareThreeTriangleCellSubdivisionQuadEdgeMeshFilter::GenerateOutputCells` adds, as a list.
-/
namespace Verif
variable {P D : Type}

/-- one step of the loops: a triangle to keep (`none`) or a directed edge of a subdivided triangle -/
abbrev Job := CId × Tri × Option Edge

def sq3JobsOf (σ : Edge → Option PId) (id : CId) (t : Tri) : List Job :=
  match σ (t.1, t.2.1) with
  | none => [(id, t, none)]
  | some _ => t.darts.map fun e => (id, t, some e)

def sq3Jobs (σ : Edge → Option PId) (cells : AMap (Option Cell)) : List Job :=
  cells.flatMap fun c =>
    match Cell.tri? c.2 with
    | some t => sq3JobsOf σ c.1 t
    | none => []

/-- the triangle a step stands for -/
def Job.tri (σ : Edge → Option PId) (j : Job) : Tri :=
  match j.2.2 with
  | none => j.2.1
  | some e => sq3Piece σ ((σ e).getD 0) e

/-- the directed edges of the steps -/
def jobDarts (J : List Job) : List Edge := J.filterMap fun j => j.2.2

/-- the triangles added, `M` being the directed edges that were overwritten with `max()` so far -/
def sq3Items (σ : Edge → Option PId) (u : Bool) : List Edge → List Job → List Item
  | _, [] => []
  | M, (id, t, none) :: J => (id, t, false) :: sq3Items σ u M J
  | M, (id, _, some e) :: J =>
    if e ∈ M then sq3Items σ u M J
    else
      match σ e.sym with
      | none => (id, sq3Piece σ ((σ e).getD 0) e, !u) :: sq3Items σ u M J
      | some v' => (id, sq3Piece σ ((σ e).getD 0) e, !u) :: (id, sq3Piece σ v' e.sym, !u) :: sq3Items σ u (e.sym :: M) J

/-- the overwritten edges at the end -/
def sq3Marks (σ : Edge → Option PId) : List Edge → List Job → List Edge
  | M, [] => M
  | M, (_, _, none) :: J => sq3Marks σ M J
  | M, (_, _, some e) :: J =>
    if e ∈ M then sq3Marks σ M J
    else
      match σ e.sym with
      | none => sq3Marks σ M J
      | some _ => sq3Marks σ (e.sym :: M) J

theorem sq3Items_append (σ : Edge → Option PId) (u : Bool) (J J' : List Job) : ∀ M,
    sq3Items σ u M (J ++ J') = sq3Items σ u M J ++ sq3Items σ u (sq3Marks σ M J) J' := by
  induction J with
  | nil => intro M; rfl
  | cons j J ih =>
    intro M
    obtain ⟨id, t, _ | e⟩ := j
    · simp only [List.cons_append, sq3Items, sq3Marks, ih]
    · simp only [List.cons_append, sq3Items, sq3Marks]
      by_cases he : e ∈ M
      · simp only [he, if_true, ih]
      · simp only [he, if_false]
        rcases σ e.sym with _ | v' <;> simp only [ih, List.cons_append]

theorem mem_sq3Marks {σ : Edge → Option PId} {J : List Job} {M : List Edge} {m : Edge} (h : m ∈ sq3Marks σ M J) :
    m ∈ M ∨ (m.sym ∈ jobDarts J ∧ (σ m).isSome) := by
  induction J generalizing M with
  | nil => exact Or.inl h
  | cons j J ih =>
    obtain ⟨id, t, _ | e⟩ := j
    · exact ih h
    · have hcons : ∀ {x}, x ∈ jobDarts J → x ∈ jobDarts ((id, t, some e) :: J) := by
        intro x hx; simp only [jobDarts, List.filterMap_cons]; exact List.mem_cons.2 (Or.inr hx)
      simp only [sq3Marks] at h
      split at h
      · exact (ih h).imp_right fun h => ⟨hcons h.1, h.2⟩
      · split at h
        · exact (ih h).imp_right fun h => ⟨hcons h.1, h.2⟩
        · rename_i v' hv'
          rcases ih h with h | h
          · rcases List.mem_cons.1 h with rfl | h
            · exact Or.inr ⟨by simp [jobDarts], by rw [hv']; rfl⟩
            · exact Or.inl h
          · exact Or.inr ⟨hcons h.1, h.2⟩

/-- a step whose directed edge was not overwritten -/
def Job.open (M : List Edge) (j : Job) : Bool :=
  match j.2.2 with
  | none => true
  | some e => decide (e ∉ M)

/-- Each flipped edge is visited from both of its sides. -/
structure JobsOK (σ : Edge → Option PId) (M : List Edge) (J : List Job) : Prop where
  nodup : (jobDarts J).Nodup
  sel : ∀ e ∈ jobDarts J, (σ e).isSome
  irrefl : ∀ e ∈ jobDarts J, e.sym ≠ e
  closed : ∀ e ∈ jobDarts J, e ∉ M → (σ e.sym).isSome → e.sym ∈ jobDarts J ∧ e.sym ∉ M

theorem jobDarts_cons (id : CId) (t : Tri) (e : Edge) (J : List Job) :
    jobDarts ((id, t, some e) :: J) = e :: jobDarts J := rfl

theorem jobDarts_cons_none (id : CId) (t : Tri) (J : List Job) : jobDarts ((id, t, none) :: J) = jobDarts J := rfl

theorem JobsOK.tail {σ : Edge → Option PId} {M : List Edge} {id : CId} {t : Tri} {e : Edge} {J : List Job}
    (h : JobsOK σ M ((id, t, some e) :: J)) (he : e ∈ M ∨ σ e.sym = none) : JobsOK σ M J := by
  refine ⟨(List.nodup_cons.1 h.nodup).2, fun e he => h.sel e (List.mem_cons_of_mem _ he),
    fun e he => h.irrefl e (List.mem_cons_of_mem _ he), ?_⟩
  intro e' he' hM hs
  obtain ⟨h1, h2⟩ := h.closed e' (List.mem_cons_of_mem _ he') hM hs
  rw [jobDarts_cons] at h1
  rcases List.mem_cons.1 h1 with h1 | h1
  · exfalso
    rcases he with he | he
    · exact h2 (h1 ▸ he)
    · have : e.sym = e' := by rw [← h1, Edge.sym_sym]
      have h3 := h.sel e' (List.mem_cons_of_mem _ he')
      rw [← this, he] at h3; cases h3
  · exact ⟨h1, h2⟩

theorem JobsOK.flip {σ : Edge → Option PId} {M : List Edge} {id : CId} {t : Tri} {e : Edge} {J : List Job}
    (h : JobsOK σ M ((id, t, some e) :: J)) : JobsOK σ (e.sym :: M) J := by
  refine ⟨(List.nodup_cons.1 h.nodup).2, fun e he => h.sel e (List.mem_cons_of_mem _ he),
    fun e he => h.irrefl e (List.mem_cons_of_mem _ he), ?_⟩
  intro e' he' hM hs
  rw [List.mem_cons, not_or] at hM
  obtain ⟨h1, h2⟩ := h.closed e' (List.mem_cons_of_mem _ he') hM.2 hs
  rw [jobDarts_cons] at h1
  rcases List.mem_cons.1 h1 with h1 | h1
  · exact absurd (by rw [← h1, Edge.sym_sym]) hM.1
  · refine ⟨h1, ?_⟩
    rw [List.mem_cons, not_or]
    refine ⟨?_, h2⟩
    intro hc
    have : e' = e := by rw [← Edge.sym_sym e', hc, Edge.sym_sym]
    exact (List.nodup_cons.1 h.nodup).1 (this ▸ he')

/-- marking one more directed edge closes one step -/
theorem open_perm {σ : Edge → Option PId} {M : List Edge} {d : Edge} {J : List Job} (hn : (jobDarts J).Nodup)
    (hd : d ∈ jobDarts J) (hM : d ∉ M) :
    ((J.filter (Job.open M)).map (Job.tri σ)).Perm
      (sq3Piece σ ((σ d).getD 0) d :: (J.filter (Job.open (d :: M))).map (Job.tri σ)) := by
  induction J with
  | nil => cases hd
  | cons j J ih =>
    obtain ⟨id, t, _ | e⟩ := j
    · rw [List.filter_cons_of_pos (by rfl), List.filter_cons_of_pos (by rfl)]
      simp only [List.map_cons]
      exact ((ih hn hd).cons _).trans (List.Perm.swap _ _ _)
    · rw [jobDarts_cons] at hn hd
      by_cases hed : e = d
      · subst hed
        have hnot := (List.nodup_cons.1 hn).1
        rw [List.filter_cons_of_pos (by simpa [Job.open] using hM), List.filter_cons_of_neg (by simp [Job.open])]
        have : J.filter (Job.open (e :: M)) = J.filter (Job.open M) := by
          apply List.filter_congr
          rintro ⟨id', t', _ | e'⟩ hj
          · rfl
          · have : e' ≠ e := by
              rintro rfl
              exact hnot (List.mem_filterMap.2 ⟨_, hj, rfl⟩)
            simp [Job.open, this]
        rw [this]
        exact List.Perm.refl _
      · have hd' : d ∈ jobDarts J := by
          rcases List.mem_cons.1 hd with h | h
          · exact absurd h.symm hed
          · exact h
        have ih := ih (List.nodup_cons.1 hn).2 hd'
        by_cases hm : e ∈ M
        · rw [List.filter_cons_of_neg (by simpa [Job.open] using hm),
            List.filter_cons_of_neg (by simp [Job.open, hm])]
          exact ih
        · rw [List.filter_cons_of_pos (by simpa [Job.open] using hm),
            List.filter_cons_of_pos (by simp [Job.open, hm, hed])]
          simp only [List.map_cons]
          exact (ih.cons _).trans (List.Perm.swap _ _ _)

/-- The triangles added are the triangles of the steps, in another order. -/
theorem sq3Items_perm {σ : Edge → Option PId} (u : Bool) {J : List Job} : ∀ {M : List Edge}, JobsOK σ M J →
    ((sq3Items σ u M J).map fun x => x.2.1).Perm ((J.filter (Job.open M)).map (Job.tri σ)) := by
  induction J with
  | nil => intro M _; exact List.Perm.refl _
  | cons j J ih =>
    intro M h
    obtain ⟨id, t, _ | e⟩ := j
    · rw [List.filter_cons_of_pos (by rfl)]
      simp only [sq3Items, List.map_cons]
      exact (ih ⟨h.nodup, h.sel, h.irrefl, h.closed⟩).cons _
    · by_cases hm : e ∈ M
      · rw [List.filter_cons_of_neg (by simpa [Job.open] using hm)]
        simp only [sq3Items, hm, if_true]
        exact ih (h.tail (Or.inl hm))
      · rw [List.filter_cons_of_pos (by simpa [Job.open] using hm)]
        simp only [sq3Items, hm, if_false]
        rcases hs : σ e.sym with _ | v'
        · simp only [List.map_cons]
          exact (ih (h.tail (Or.inr hs))).cons _
        · simp only [List.map_cons]
          refine List.Perm.cons _ ?_
          obtain ⟨h1, h2⟩ := h.closed e (by simp [jobDarts]) hm (by rw [hs]; rfl)
          have h1' : e.sym ∈ jobDarts J := by
            rw [jobDarts_cons] at h1
            rcases List.mem_cons.1 h1 with h1 | h1
            · exact absurd h1 (h.irrefl e (by simp [jobDarts]))
            · exact h1
          have := open_perm (σ := σ) (List.nodup_cons.1 h.nodup).2 h1' h2
          rw [hs] at this
          exact ((ih h.flip).cons _).trans this.symm

/-- What the steps can add: a kept triangle; the triangle at a directed edge; or, from the first of the two sides of a
flipped edge, both its triangles. -/
def Added (σ : Edge → Option PId) (u : Bool) (M : List Edge) (J : List Job) (x : Item) : Prop :=
  (x.2.2 = false ∧ (x.1, x.2.1, none) ∈ J) ∨
  (x.2.2 = !u ∧ ∃ t e v, (x.1, t, some e) ∈ J ∧ e ∉ M ∧ σ e = some v ∧
    ((σ e.sym = none ∧ x.2.1 = sq3Piece σ v e) ∨
     ∃ v', σ e.sym = some v' ∧ (x.2.1 = sq3Piece σ v e ∨ x.2.1 = sq3Piece σ v' e.sym) ∧
      ∀ id' t', (id', t', some e.sym) ∈ J → x.1 ≤ id'))

theorem Added.cons {σ : Edge → Option PId} {u : Bool} {M M' : List Edge} {J : List Job} {j : Job} {x : Item}
    (h : Added σ u M' J x) (hM : ∀ e ∈ M, e ∈ M')
    (hne : ∀ e, e ∈ jobDarts J → e ∉ M' → (σ e).isSome → (σ e.sym).isSome → j.2.2 ≠ some e.sym) :
    Added σ u M (j :: J) x := by
  rcases h with ⟨h1, h2⟩ | ⟨h1, t', e, v, h2, h0, h3, h4⟩
  · exact Or.inl ⟨h1, List.mem_cons_of_mem _ h2⟩
  · refine Or.inr ⟨h1, t', e, v, List.mem_cons_of_mem _ h2, fun hc => h0 (hM _ hc), h3, h4.imp_right ?_⟩
    rintro ⟨v', h5, h6, h7⟩
    refine ⟨v', h5, h6, ?_⟩
    intro id' t'' hm
    rcases List.mem_cons.1 hm with hm | hm
    · exact absurd (by rw [← hm]) (hne e (List.mem_filterMap.2 ⟨_, h2, rfl⟩) h0 (by rw [h3]; rfl) (by rw [h5]; rfl))
    · exact h7 _ _ hm

theorem mem_sq3Items {σ : Edge → Option PId} {u : Bool} {J : List Job} : ∀ {M : List Edge}, JobsOK σ M J →
    (J.map Prod.fst).Pairwise (· ≤ ·) → ∀ {x : Item}, x ∈ sq3Items σ u M J → Added σ u M J x := by
  induction J with
  | nil => intro M _ _ x hx; cases hx
  | cons j J ih =>
    intro M h hsort x hx
    rw [List.map_cons, List.pairwise_cons] at hsort
    obtain ⟨id, t, _ | e⟩ := j
    · simp only [sq3Items, List.mem_cons] at hx
      rcases hx with rfl | hx
      · exact Or.inl ⟨rfl, by simp⟩
      · exact (ih ⟨h.nodup, h.sel, h.irrefl, h.closed⟩ hsort.2 hx).cons (fun _ h => h) (by simp)
    · have hsel := h.sel e (by simp [jobDarts])
      obtain ⟨v, hv⟩ := Option.isSome_iff_exists.1 hsel
      simp only [sq3Items] at hx
      by_cases hm : e ∈ M
      · rw [if_pos hm] at hx
        refine (ih (h.tail (Or.inl hm)) hsort.2 hx).cons (fun _ h => h) ?_
        intro e' he' hM' _ hs hc
        refine (h.closed e' (List.mem_cons_of_mem _ he') hM' hs).2 ?_
        have := Option.some.inj hc
        rw [← this]; exact hm
      · rw [if_neg hm] at hx
        rcases hs : σ e.sym with _ | v'
        · rw [hs] at hx
          simp only [List.mem_cons] at hx
          rcases hx with rfl | hx
          · exact Or.inr ⟨rfl, t, e, v, by simp, hm, hv, Or.inl ⟨hs, by rw [hv]; rfl⟩⟩
          · refine (ih (h.tail (Or.inr hs)) hsort.2 hx).cons (fun _ h => h) ?_
            intro e' _ _ hs' _ hc
            have : e.sym = e' := by rw [Option.some.inj hc, Edge.sym_sym]
            rw [← this, hs] at hs'; cases hs'
        · rw [hs] at hx
          simp only [List.mem_cons] at hx
          have hle : ∀ id' t', (id', t', some e.sym) ∈ (id, t, some e) :: J → id ≤ id' := by
            intro id' t' hm'
            rcases List.mem_cons.1 hm' with hm' | hm'
            · exact Nat.le_of_eq (Prod.ext_iff.1 hm').1.symm
            · exact hsort.1 id' (List.mem_map.2 ⟨_, hm', rfl⟩)
          rcases hx with rfl | rfl | hx
          · exact Or.inr ⟨rfl, t, e, v, by simp, hm, hv, Or.inr ⟨v', hs, Or.inl (by rw [hv]; rfl), hle⟩⟩
          · exact Or.inr ⟨rfl, t, e, v, by simp, hm, hv, Or.inr ⟨v', hs, Or.inr rfl, hle⟩⟩
          · refine (ih h.flip hsort.2 hx).cons (fun _ h => List.mem_cons_of_mem _ h) ?_
            intro e' _ hM' _ _ hc
            have : e.sym = e' := by rw [Option.some.inj hc, Edge.sym_sym]
            exact hM' (this ▸ List.mem_cons_self)

/-- the steps of the cells are the triangles of the √3 split -/
theorem sq3Jobs_tris (σ : Edge → Option PId) (m : Mesh P D) (hσ : ∀ t ∈ m.tris, ∀ e ∈ t.darts, σ e = σ (t.1, t.2.1)) :
    (sq3Jobs σ m.cells).map (Job.tri σ) = m.tris.flatMap (Tri.sq3 σ) := by
  unfold sq3Jobs Mesh.tris at *
  revert hσ
  induction m.cells with
  | nil => intro _; rfl
  | cons c cs ih =>
    intro hσ
    rw [List.flatMap_cons, List.map_append]
    rcases h : Cell.tri? c.2 with _ | t
    · rw [List.filterMap_cons_none (by exact h)] at hσ ⊢
      simpa using ih hσ
    · rw [List.filterMap_cons_some (by exact h)] at hσ ⊢
      rw [List.flatMap_cons, ih (fun t ht => hσ t (List.mem_cons_of_mem _ ht))]
      congr 1
      have ht := hσ t (by simp)
      unfold sq3JobsOf Tri.sq3
      simp only
      rcases h0 : σ (t.1, t.2.1) with _ | v
      · rfl
      · simp only [List.map_map]
        apply List.map_congr_left
        intro e he
        simp [Job.tri, ht e he, h0]

theorem mem_sq3Jobs {σ : Edge → Option PId} {cells : AMap (Option Cell)} {j : Job} :
    j ∈ sq3Jobs σ cells ↔ (j.1, some j.2.1.cell) ∈ cells ∧
      ((j.2.2 = none ∧ σ (j.2.1.1, j.2.1.2.1) = none) ∨
        ∃ e ∈ j.2.1.darts, j.2.2 = some e ∧ (σ (j.2.1.1, j.2.1.2.1)).isSome) := by
  unfold sq3Jobs
  rw [List.mem_flatMap]
  constructor
  · rintro ⟨⟨k, c⟩, hc, hj⟩
    simp only at hj
    split at hj
    · rename_i t ht
      have hct : c = some t.cell := by
        unfold Cell.tri? at ht
        split at ht
        · cases ht; rfl
        · cases ht
      subst hct
      unfold sq3JobsOf at hj
      split at hj
      · rename_i h0
        rw [List.mem_singleton] at hj
        subst hj
        exact ⟨hc, Or.inl ⟨rfl, h0⟩⟩
      · rename_i v h0
        obtain ⟨e, he, rfl⟩ := List.mem_map.1 hj
        exact ⟨hc, Or.inr ⟨e, he, rfl, by rw [h0]; rfl⟩⟩
    · cases hj
  · rintro ⟨hc, h⟩
    refine ⟨_, hc, ?_⟩
    obtain ⟨k, t, o⟩ := j
    have : Cell.tri? (some t.cell) = some t := rfl
    simp only [this, sq3JobsOf]
    rcases h with ⟨h1, h2⟩ | ⟨e, he, h1, h2⟩
    · simp only at h1 h2
      rw [h2, h1]; simp
    · simp only at h1 h2
      obtain ⟨v, hv⟩ := Option.isSome_iff_exists.1 h2
      rw [hv]
      exact List.mem_map.2 ⟨e, he, by rw [h1]⟩

theorem sq3Jobs_sorted {σ : Edge → Option PId} {cells : AMap (Option Cell)}
    (h : (cells.map Prod.fst).Pairwise (· < ·)) : ((sq3Jobs σ cells).map Prod.fst).Pairwise (· ≤ ·) := by
  unfold sq3Jobs
  rw [List.pairwise_map] at h ⊢
  rw [List.pairwise_flatMap]
  have hid : ∀ c : CId × Option Cell, ∀ j ∈ (match Cell.tri? c.2 with
    | some t => sq3JobsOf σ c.1 t
    | none => []), j.1 = c.1 := by
    intro c j hj
    split at hj
    · unfold sq3JobsOf at hj
      split at hj
      · rw [List.mem_singleton] at hj; rw [hj]
      · obtain ⟨e, _, rfl⟩ := List.mem_map.1 hj; rfl
    · cases hj
  refine ⟨?_, h.imp ?_⟩
  · intro c _
    refine List.Pairwise.imp_of_mem (R := fun _ _ => True) ?_ (List.pairwise_of_forall fun _ _ => trivial)
    intro a b ha hb _
    rw [hid c a ha, hid c b hb]
    exact Nat.le_refl _
  · intro c c' hcc a ha b hb
    rw [hid c a ha, hid c' b hb]
    exact Nat.le_of_lt hcc

theorem jobDarts_sublist (σ : Edge → Option PId) (m : Mesh P D) :
    (jobDarts (sq3Jobs σ m.cells)).Sublist (dartsOf m.tris) := by
  unfold sq3Jobs Mesh.tris dartsOf
  induction m.cells with
  | nil => exact List.Sublist.refl _
  | cons c cs ih =>
    rw [List.flatMap_cons]
    unfold jobDarts at ih ⊢
    rw [List.filterMap_append]
    rcases h : Cell.tri? c.2 with _ | t
    · rw [List.filterMap_cons_none (by exact h)]
      simpa using ih
    · rw [List.filterMap_cons_some (by exact h), List.flatMap_cons]
      refine List.Sublist.append ?_ ih
      simp only
      unfold sq3JobsOf
      split
      · simp
      · rw [List.filterMap_map]
        have : (fun j : Job => j.2.2) ∘ (fun e : Edge => ((c.1, t, some e) : Job)) = some := rfl
        rw [this, List.filterMap_some]

theorem mem_jobDarts {σ : Edge → Option PId} {m : Mesh P D} (hv : m.Valid) (hσ : Centres m.tris σ) {e : Edge} :
    e ∈ jobDarts (sq3Jobs σ m.cells) ↔ (σ e).isSome := by
  unfold jobDarts
  rw [List.mem_filterMap]
  constructor
  · rintro ⟨⟨k, t, o⟩, hj, rfl⟩
    obtain ⟨hc, h | ⟨e', he', h1, h2⟩⟩ := mem_sq3Jobs.1 hj
    · simp only [reduceCtorEq, false_and] at h
    · simp only [Option.some.injEq] at h1 he' h2
      subst h1
      rw [hσ.same t (hv.mem_tris.2 ⟨k, hc⟩) e he' (t.1, t.2.1) (by simp [Tri.darts])]
      exact h2
  · intro h
    obtain ⟨v, hv'⟩ := Option.isSome_iff_exists.1 h
    obtain ⟨t, ht, he⟩ := hσ.tri hv'
    obtain ⟨k, hk⟩ := hv.mem_tris.1 ht
    refine ⟨(k, t, some e), mem_sq3Jobs.2 ⟨hk, Or.inr ⟨e, he, rfl, ?_⟩⟩, rfl⟩
    rw [← hσ.same t ht e he (t.1, t.2.1) (by simp [Tri.darts])]
    exact h

theorem jobsOK {σ : Edge → Option PId} {m : Mesh P D} (hv : m.Valid) (hσ : Centres m.tris σ) :
    JobsOK σ [] (sq3Jobs σ m.cells) := by
  refine ⟨(hv.good.oriented).sublist (jobDarts_sublist σ m), fun e => (mem_jobDarts hv hσ).1, ?_, ?_⟩
  · intro e he hc
    have := (jobDarts_sublist σ m).subset he
    obtain ⟨t, ht, het⟩ := mem_dartsOf.1 this
    exact Tri.dart_not_sym (hv.good.nondeg t ht) het (by rw [hc]; exact het)
  · intro e _ _ hs
    exact ⟨(mem_jobDarts hv hσ).2 hs, by simp⟩

/-- all the triangles added, in another order -/
theorem sq3Items_tris {σ : Edge → Option PId} {m : Mesh P D} (hv : m.Valid) (hσ : Centres m.tris σ) (u : Bool) :
    ((sq3Items σ u [] (sq3Jobs σ m.cells)).map fun x => x.2.1).Perm (m.tris.flatMap (Tri.sq3 σ)) := by
  have h := sq3Items_perm u (jobsOK hv hσ)
  rw [List.filter_eq_self.2 (by
    rintro ⟨k, t, _ | e⟩ _ <;> simp [Job.open]),
    sq3Jobs_tris σ m (fun t ht e he => hσ.same t ht e he (t.1, t.2.1) (by simp [Tri.darts]))] at h
  exact h

end Verif
