import Verif.Proofs.Sqrt3Items
import Verif.Proofs.Schemes
/-
A run of the SquareThree filter produces the √3 split.
-/
namespace Verif
set_option linter.unusedSectionVars false
variable {K P D : Type}

/-! ### the new points -/

/-- `σ` for the list `L` of subdivided triangles -/
def centreIn (n : Nat) (L : List Tri) (e : Edge) : Option PId :=
  (L.findIdx? (fun t => t.darts.contains e)).map (n + ·)

theorem centreIn_some {n : Nat} {L : List Tri} {e : Edge} {v : PId} (h : centreIn n L e = some v) :
    ∃ i t, L[i]? = some t ∧ e ∈ t.darts ∧ v = n + i := by
  unfold centreIn at h
  rw [Option.map_eq_some_iff] at h
  obtain ⟨i, hi, rfl⟩ := h
  rw [List.findIdx?_eq_some_iff_getElem] at hi
  obtain ⟨h1, h2, _⟩ := hi
  exact ⟨i, L[i], by simp, by simpa using h2, rfl⟩

theorem centreIn_isSome {n : Nat} {L : List Tri} {e : Edge} : (centreIn n L e).isSome ↔ e ∈ dartsOf L := by
  unfold centreIn
  rw [Option.isSome_map, List.findIdx?_isSome, List.any_eq_true, mem_dartsOf]
  simp

theorem centreIn_append {n : Nat} {L : List Tri} {t : Tri} (e : Edge) :
    centreIn n (L ++ [t]) e = match centreIn n L e with
      | some v => some v
      | none => if e ∈ t.darts then some (n + L.length) else none := by
  unfold centreIn
  rw [List.findIdx?_append]
  generalize L.findIdx? (fun t => t.darts.contains e) = o
  rcases o with _ | i
  · by_cases he : e ∈ t.darts <;> simp [List.findIdx?_cons, he]
  · simp

theorem centres_centreIn {T L : List Tri} (hg : GoodTris T) (hL : ∀ t ∈ L, t ∈ T) {n : Nat}
    (h : ∀ t ∈ T, ∀ v ∈ t.verts, v < n) : Centres T (centreIn n L) := by
  refine ⟨?_, ?_, ?_, ?_⟩
  · intro e v hv
    obtain ⟨i, t, h1, h2, _⟩ := centreIn_some hv
    exact mem_dartsOf.2 ⟨t, hL t (List.mem_of_getElem? h1), h2⟩
  · intro t ht e he e' he'
    unfold centreIn
    congr 1
    have : ∀ L : List Tri, (∀ t ∈ L, t ∈ T) →
        L.findIdx? (fun t => t.darts.contains e) = L.findIdx? (fun t => t.darts.contains e') := by
      intro L
      induction L with
      | nil => intro _; rfl
      | cons s L ih =>
        intro hL
        have hs := hL s (by simp)
        have : s.darts.contains e = s.darts.contains e' := by
          rw [Bool.eq_iff_iff, List.contains_iff_mem, List.contains_iff_mem]
          constructor
          · intro h; rw [hg.eq_of_dart hs ht h he]; exact he'
          · intro h; rw [hg.eq_of_dart hs ht h he']; exact he
        rw [List.findIdx?_cons, List.findIdx?_cons, this, ih (fun t ht => hL t (by simp [ht]))]
    exact this L hL
  · intro e v hv t ht hvt
    obtain ⟨i, _, _, _, rfl⟩ := centreIn_some hv
    have h1 : n + i < n := h t ht _ hvt
    exact absurd h1 (by simp)
  · intro e e' v hv hv' t ht he
    obtain ⟨i, s, h1, h2, rfl⟩ := centreIn_some hv
    obtain ⟨j, s', h3, h4, h5⟩ := centreIn_some hv'
    have hij : i = j := Nat.add_left_cancel h5
    subst hij
    rw [h1] at h3
    cases h3
    rw [hg.eq_of_dart ht (hL s (List.mem_of_getElem? h1)) he h2]
    exact h4

/-- replace the edge table -/
def St.withEpi (s : St P D) (φ : Edge → Option PId) : St P D :=
  ⟨⟨s.filt.cells, s.filt.edgeSel, s.filt.uniform, φ⟩, s.out⟩

/-- the state during the point phase -/
def sq3State (s0 : St P D) (base : List P) (pt : Tri → P) (L : List Tri) : St P D :=
  St.withEpi ⟨s0.filt, { s0.out with points := AMap.dense (base ++ L.map pt) }⟩ (centreIn base.length L)

/-- the table after marking the edges `ds` with `id` -/
def markWith (φ : Edge → Option PId) (ds : List Edge) (id : PId) (e : Edge) : Option PId :=
  match φ e with
  | some v => some v
  | none => if e ∈ ds then some id else none

theorem sq3Mark_eq {inp : Mesh P D} (newId : PId) (s0 : St P D) (ds : List Edge) :
    (∀ e ∈ ds, inp.hasEdge e = true) → ∀ φ : Edge → Option PId,
    sq3Mark inp newId ds (s0.withEpi φ) = (.ok (), s0.withEpi (markWith φ ds newId)) := by
  induction ds with
  | nil =>
    intro _ φ
    have : markWith φ [] newId = φ := by
      funext e; unfold markWith; cases φ e <;> simp
    rw [this]; rfl
  | cons d ds ih =>
    intro h φ
    have hd : inp.findEdge d.1 d.2 = some d := findEdge_of_hasEdge (h d (by simp))
    have ih := ih (fun e he => h e (by simp [he]))
    have hstep : (match inp.findEdge d.1 d.2 with
        | none => Prog.pure ()
        | some e => fun s => if (s.filt.epi e).isSome then (.ok (), s) else setEpi e newId s : M P D Unit)
        (s0.withEpi φ) = (.ok (), s0.withEpi (markWith φ [d] newId)) := by
      rw [hd]
      change (if (φ d).isSome then (Except.ok (), s0.withEpi φ) else setEpi d newId (s0.withEpi φ)) = _
      by_cases hs : (φ d).isSome = true
      · rw [if_pos hs]
        congr 2
        funext e
        unfold markWith
        rcases he : φ e with _ | v
        · have : e ≠ d := by rintro rfl; rw [he] at hs; cases hs
          simp [this]
        · rfl
      · rw [if_neg hs]
        change (Except.ok (), s0.withEpi (fun e' => if e' = d then some newId else φ e')) = _
        congr 2
        funext e
        unfold markWith
        by_cases hed : e = d
        · subst hed
          have : φ e = none := by simpa using hs
          simp [this]
        · rcases φ e with _ | v <;> simp [hed]
    refine (Prog.bind_ok hstep).trans ?_
    refine (ih _).trans ?_
    congr 2
    funext e
    unfold markWith
    rcases φ e with _ | v
    · by_cases h1 : e = d
      · simp [h1]
      · simp [h1]
    · rfl

variable [Field K] [Zero P] [Add P] [SMul K P]

/-- the mean of the three corners -/
def Mesh.centroid (K : Type) {P D : Type} [Field K] [Zero P] [Add P] [SMul K P] (inp : Mesh P D) (t : Tri) : P :=
  (1 / 3 : K) • (0 + inp.coord t.1 + inp.coord t.2.1 + inp.coord t.2.2)

theorem sq3AddNew_ok {inp : Mesh P D} (hv : inp.Valid) {t : Tri} (ht : t ∈ inp.tris) (s0 : St P D) (base : List P)
    (L : List Tri) :
    sq3AddNew K inp (some t.cell) (sq3State s0 base (inp.centroid K) L) =
      (.ok (), sq3State s0 base (inp.centroid K) (L ++ [t])) := by
  have gp : ∀ v ∈ t.verts, inp.getPoint v = .ok (inp.coord v) := fun v h => hv.getPoint_ok (hv.verts_lt ht h)
  unfold sq3AddNew
  rw [requireTriangle_cell, Prog.pure_bind', gp t.1 (by simp [Tri.verts]), gp t.2.1 (by simp [Tri.verts]),
    gp t.2.2 (by simp [Tri.verts])]
  simp only [lift_ok_bind]
  rw [numberOfPoints_bind, modifyOut_bind]
  have hn : (sq3State s0 base (inp.centroid K) L).out.points.length = base.length + L.length := by
    simp [sq3State, St.withEpi]
  rw [hn]
  have := sq3Mark_eq (inp := inp) (base.length + L.length)
    ⟨s0.filt, { s0.out with points := AMap.dense (base ++ (L ++ [t]).map (inp.centroid K)) }⟩
    (triDarts t) (fun e he => hv.hasEdge (mem_dartsOf.2 ⟨t, ht, he⟩)) (centreIn base.length L)
  have hpts : (AMap.dense (base ++ L.map (inp.centroid K))).set (base.length + L.length) (inp.centroid K t) =
      AMap.dense (base ++ (L ++ [t]).map (inp.centroid K)) := by
    have e2 := AMap.set_dense_length (base ++ L.map (inp.centroid K)) (inp.centroid K t)
    simp only [List.length_append, List.length_map] at e2
    rw [e2]
    simp
  have hmark : markWith (centreIn base.length L) (triDarts t) (base.length + L.length) = centreIn base.length (L ++ [t]) := by
    funext e
    rw [centreIn_append]
    rfl
  unfold sq3State
  rw [← hmark]
  refine Eq.trans ?_ this
  rw [← hpts]
  rfl

/-- The point phase of a cell filter, for any family of states. -/
theorem generateOutputPoints_run {inp : Mesh P D} (hv : inp.Valid) {f : Filt} (hsel : inp.SelOK f.cells)
    {copy : M P D Unit} {addNew : Option Cell → M P D Unit} {S : List Tri → St P D}
    {base : List P}
    (hcopy : copy ⟨f, Mesh.empty⟩ = (.ok (), ⟨f, { (Mesh.empty : Mesh P D) with points := AMap.dense base }⟩))
    (hS : S [] = ⟨⟨f.cells, f.edgeSel, f.cells.isEmpty, fun _ => none⟩,
      { (Mesh.empty : Mesh P D) with points := AMap.dense base }⟩)
    (hnew : ∀ t ∈ inp.tris, ∀ L : List Tri, addNew (some t.cell) (S L) = (.ok (), S (L ++ [t]))) :
    generateOutputPoints copy addNew inp ⟨f, Mesh.empty⟩ = (.ok (), S (inp.selected f.cells)) := by
  have loop : ∀ {ι : Type} (g : ι → M P D Unit) (tri : ι → Tri) (xs : List ι),
      (∀ x ∈ xs, ∀ L, g x (S L) = (.ok (), S (L ++ [tri x]))) → ∀ L,
      Prog.forEach g xs (S L) = (.ok (), S (L ++ xs.map tri)) := by
    intro ι g tri xs
    induction xs with
    | nil => intro _ L; simp [Prog.forEach, Prog.pure]
    | cons x xs ih =>
      intro h L
      simp only [Prog.forEach]
      rw [Prog.bind_ok (h x (by simp) L), ih (fun x hx => h x (by simp [hx]))]
      simp
  unfold generateOutputPoints
  rw [Prog.bind_ok hcopy]
  change (if f.cells.isEmpty = true then Prog.forEach (fun c => addNew c.2) inp.cells _ else
    Prog.forEach _ f.cells _) = _
  have hstart : (⟨{ cells := f.cells, edgeSel := f.edgeSel, uniform := f.cells.isEmpty, epi := fun _ => none },
      { (Mesh.empty : Mesh P D) with points := AMap.dense base }⟩ : St P D) = S [] := hS.symm
  rw [hstart]
  by_cases he : f.cells = []
  · have hu : f.cells.isEmpty = true := by simp [he]
    rw [if_pos hu]
    obtain ⟨tri, h1, h2⟩ := hv.tris_eq_map
    rw [loop _ tri]
    · simp [Mesh.selected, he, h1]
    · intro c hc L
      rw [(h2 c hc).1]
      exact hnew _ (h2 c hc).2 _
  · have hu : f.cells.isEmpty = false := by simp [he]
    rw [if_neg (by simp [hu])]
    have hmap : inp.selected f.cells = f.cells.map fun k => (inp.triAt k).getD (0, 0, 0) := by
      unfold Mesh.selected
      rw [hu]
      simp only [Bool.false_eq_true, if_false]
      clear hu he hstart hS hcopy
      revert hsel
      induction f.cells with
      | nil => intro _; rfl
      | cons k ks ih =>
        intro hsel
        obtain ⟨t, _, ht⟩ := hv.sel_tri hsel (k := k) (by simp)
        rw [List.filterMap_cons_some ht, List.map_cons, ih (fun k hk => hsel k (by simp [hk])), ht]
        rfl
    rw [hmap, loop _ fun k => (inp.triAt k).getD (0, 0, 0)]
    · rfl
    · intro k hk L
      obtain ⟨t, h1, h2⟩ := hv.sel_tri hsel hk
      rw [hv.find?_tri.2 h1, h2]
      exact hnew t (hv.mem_tris.2 ⟨k, h1⟩) _


/-! ### the cells -/

/-- the edge table with the directed edges `M` overwritten -/
def marked (σ : Edge → Option PId) (M : List Edge) (e : Edge) : Option PId := if e ∈ M then some idMax else σ e

theorem Emitted.setEpi {inp : Mesh P D} {s0 s : St P D} {φ φ' : Edge → Option PId} {L : List Item}
    (h : Emitted inp (s0.withEpi φ) s L) : Emitted inp (s0.withEpi φ') (s.withEpi φ') L := by
  refine ⟨?_, h.points, h.edgeCells, h.built, h.data, h.sorted, h.out⟩
  have := h.filt
  simp only [St.withEpi] at this ⊢
  rw [this]

theorem sq3Emit_eq (inp : Mesh P D) (u : Bool) (id : CId) (a b c : PId) :
    sq3Emit inp u id a b c = emitOne inp (id, (a, b, c), !u) := by
  unfold sq3Emit emitOne
  cases u <;> rfl

/-- the loop over the directed edges of a subdivided triangle -/
theorem sq3Darts_ok {inp : Mesh P D} (hv : inp.Valid) {σ : Edge → Option PId} (hσ : Centres inp.tris σ)
    (hmax : ∀ e v, σ e = some v → v ≠ idMax) {s0 : St P D} {u : Bool} {id : CId} {t : Tri} (ds : List Edge) :
    (∀ e ∈ ds, (σ e).isSome) → ds.Nodup → ∀ {M : List Edge} {L R : List Item} {s : St P D},
    (∀ e ∈ ds, e.sym ∉ M) →
    Emitted inp (s0.withEpi (marked σ M)) s L →
    GoodTris ((L ++ (sq3Items σ u M (ds.map fun e => (id, t, some e)) ++ R)).map fun x => x.2.1) →
    (∀ x ∈ sq3Items σ u M (ds.map fun e => (id, t, some e)), ∀ v ∈ x.2.1.verts, (s0.out.points.find? v).isSome) →
    ∃ s', sq3Darts inp u id t ds s = (.ok (), s') ∧
      Emitted inp (s0.withEpi (marked σ (sq3Marks σ M (ds.map fun e => (id, t, some e))))) s'
        (L ++ sq3Items σ u M (ds.map fun e => (id, t, some e))) := by
  induction ds with
  | nil =>
    intro _ _ M L R s _ hem _ _
    exact ⟨s, rfl, by simpa [sq3Items, sq3Marks] using hem⟩
  | cons e ds ih =>
    intro hsel hnd M L R s hM hem hg hp
    rw [List.nodup_cons] at hnd
    replace ih := @ih (fun e he => hsel e (List.mem_cons_of_mem _ he)) hnd.2
    obtain ⟨v, hve⟩ := Option.isSome_iff_exists.1 (hsel e (by simp))
    have hdart := hσ.only e v hve
    have hfind : inp.findEdge e.1 e.2 = some e := findEdge_of_hasEdge (hv.hasEdge hdart)
    have hepi : s.filt.epi = marked σ M := by rw [hem.filt]; rfl
    have hsymM : e.sym ∉ M := hM e (by simp)
    simp only [List.map_cons, sq3Items, sq3Marks] at hg hp ⊢
    by_cases hm : e ∈ M
    · simp only [hm, if_true] at hg hp ⊢
      have : sq3Darts inp u id t (e :: ds) s = sq3Darts inp u id t ds s := by
        have hme : marked σ M e = some idMax := by simp [marked, hm]
        simp only [sq3Darts, hfind, hepi, hme, Option.bind_some, Option.map_some]
        simp
      rw [this]
      exact ih (fun e he => hM e (List.mem_cons_of_mem _ he)) hem hg hp
    · simp only [hm, if_false] at hg hp ⊢
      rcases hs : σ e.sym with _ | v'
      · simp only [hs] at hg hp ⊢
        have hpiece : sq3Piece σ ((σ e).getD 0) e = (e.1, e.2, v) := by simp [sq3Piece, hs, hve]
        have hrun : sq3Darts inp u id t (e :: ds) s =
            Prog.bind (emitOne inp (id, (e.1, e.2, v), !u)) (fun _ => sq3Darts inp u id t ds) s := by
          simp only [sq3Darts, hfind, hepi, marked, hm, hsymM, hs, if_false, hve, Option.bind_some, Option.map_some,
            Option.isNone_none, Bool.or_true, if_true, sq3Emit_eq]
          rw [if_pos (hmax e v hve)]
        rw [hpiece] at hg hp ⊢
        obtain ⟨s1, h1, h2⟩ := emitOne_ok hem hg (hp _ (by simp))
        rw [hrun, Prog.bind_ok h1]
        obtain ⟨s2, h3, h4⟩ := ih (R := R) (fun e he => hM e (List.mem_cons_of_mem _ he)) h2
          (by simpa using hg) (fun x hx => hp x (List.mem_cons_of_mem _ hx))
        exact ⟨s2, h3, by simpa using h4⟩
      · simp only [hs] at hg hp ⊢
        have hpiece : sq3Piece σ ((σ e).getD 0) e = (v, v', e.2) := by simp [sq3Piece, hs, hve]
        have hpiece' : sq3Piece σ v' e.sym = (v', v, e.1) := by
          simp only [sq3Piece, Edge.sym_sym, hve, Edge.sym_snd]
        have hborder : inp.isAtBorder e = false := by
          have h1 : inp.leftSet e = true := hv.leftSet_iff.2 hdart
          have h2 : inp.leftSet e.sym = true := hv.leftSet_iff.2 (hσ.only _ _ hs)
          unfold Mesh.isAtBorder
          rw [h1]
          change (true != inp.leftSet e.sym) = false
          rw [h2]; rfl
        have hrun : sq3Darts inp u id t (e :: ds) s =
            Prog.bind (emitOne inp (id, (v, v', e.2), !u)) (fun _ =>
              Prog.bind (emitOne inp (id, (v', v, e.1), !u)) fun _ =>
              Prog.bind (setEpi e.sym idMax) fun _ => sq3Darts inp u id t ds) s := by
          simp only [sq3Darts, hfind, hepi, marked, hm, hsymM, hs, if_false, hve, Option.bind_some, Option.map_some,
            Option.isNone_some, Bool.or_false, hborder, Bool.false_eq_true, sq3Emit_eq, Option.getD_some]
          rw [if_pos (hmax e v hve)]
        rw [hpiece, hpiece'] at hg hp ⊢
        obtain ⟨s1, h1, h2⟩ := emitOne_ok hem hg (hp _ (by simp))
        obtain ⟨s2, h3, h4⟩ := emitOne_ok (x := (id, (v', v, e.1), !u)) h2
          (R := sq3Items σ u (e.sym :: M) (ds.map fun e => (id, t, some e)) ++ R)
          (by simpa using hg) (hp _ (by simp))
        have h5 : Verif.setEpi e.sym idMax s2 = (.ok (), s2.withEpi (marked σ (e.sym :: M))) := by
          have hepi2 : s2.filt.epi = marked σ M := by rw [h4.filt]; rfl
          have hfun : (fun e' => if e' = e.sym then some idMax else s2.filt.epi e') = marked σ (e.sym :: M) := by
            funext e'
            rw [hepi2]
            unfold marked
            by_cases he' : e' = e.sym <;> simp [he']
          rw [← hfun]
          rfl
        rw [hrun, Prog.bind_ok h1, Prog.bind_ok h3, Prog.bind_ok h5]
        obtain ⟨s6, h6, h7⟩ := ih (R := R) (M := e.sym :: M) (by
          intro e' he'
          rw [List.mem_cons, not_or]
          refine ⟨?_, hM e' (List.mem_cons_of_mem _ he')⟩
          intro hc
          have : e' = e := by rw [← Edge.sym_sym e', hc, Edge.sym_sym]
          exact hnd.1 (this ▸ he')) h4.setEpi (by simpa using hg)
          (fun x hx => hp x (List.mem_cons_of_mem _ (List.mem_cons_of_mem _ hx)))
        exact ⟨s6, h6, by simpa using h7⟩

/-- the body of the loop over the cells -/
theorem sq3Act_ok {inp : Mesh P D} (hv : inp.Valid) {σ : Edge → Option PId} (hσ : Centres inp.tris σ)
    (hmax : ∀ e v, σ e = some v → v ≠ idMax) {s0 : St P D} {u : Bool} (hu : s0.filt.uniform = u) {id : CId} {t : Tri}
    (ht : t ∈ inp.tris) {M : List Edge} {L R : List Item} {s : St P D}
    (hM : ∀ e ∈ t.darts, e.sym ∉ M)
    (hem : Emitted inp (s0.withEpi (marked σ M)) s L) (hMσ : ∀ e ∈ M, (σ e).isSome)
    (hg : GoodTris ((L ++ (sq3Items σ u M (sq3JobsOf σ id t) ++ R)).map fun x => x.2.1))
    (hp : ∀ x ∈ sq3Items σ u M (sq3JobsOf σ id t), ∀ v ∈ x.2.1.verts, (s0.out.points.find? v).isSome) :
    ∃ s', sq3Act inp (id, some t.cell) s = (.ok (), s') ∧
      Emitted inp (s0.withEpi (marked σ (sq3Marks σ M (sq3JobsOf σ id t)))) s' (L ++ sq3Items σ u M (sq3JobsOf σ id t)) := by
  have hact : sq3Act inp (id, some t.cell) s = sq3Darts inp s.filt.uniform id t (triDarts t) s := rfl
  have hu' : s.filt.uniform = u := by rw [hem.filt]; exact hu
  have hdarts : triDarts t = t.darts := rfl
  rw [hact, hu', hdarts]
  have hsame : ∀ e ∈ t.darts, σ e = σ (t.1, t.2.1) := fun e he => hσ.same t ht e he _ (by simp [Tri.darts])
  unfold sq3JobsOf at hg hp ⊢
  rcases h0 : σ (t.1, t.2.1) with _ | v
  · rw [h0] at hg hp
    simp only [sq3Items, sq3Marks, List.cons_append, List.nil_append] at hg hp ⊢
    obtain ⟨s1, h1, h2⟩ := emitOne_ok hem hg (hp _ (by simp))
    refine ⟨s1, ?_, h2⟩
    rw [← h1]
    have hfind : inp.findEdge t.1 t.2.1 = some (t.1, t.2.1) :=
      findEdge_of_hasEdge (x := t.1) (y := t.2.1) (hv.hasEdge (mem_dartsOf.2 ⟨t, ht, by simp [Tri.darts]⟩))
    have hnm : (t.1, t.2.1) ∉ M := by
      intro hc
      have := hMσ _ hc
      rw [h0] at this; cases this
    have hepi : s.filt.epi (t.1, t.2.1) = none := by
      rw [hem.filt]
      change marked σ M _ = none
      unfold marked
      rw [if_neg hnm, h0]
    simp only [Tri.darts, sq3Darts, hfind, Option.bind_some, hepi, Option.map_none]
    rfl
  · rw [h0] at hg hp
    simp only at hg hp ⊢
    refine sq3Darts_ok hv hσ hmax t.darts ?_ ?_ hM hem hg hp
    · intro e he; rw [hsame e he, h0]; rfl
    · have := hv.good.nondeg t ht
      simp only [Tri.darts, List.nodup_cons, List.mem_cons, List.not_mem_nil, or_false, not_or, Prod.mk.injEq, not_and,
        List.nodup_nil, and_true, not_false_iff]
      grind

/-- the loop over the cells -/
theorem sq3Cells_ok {inp : Mesh P D} (hv : inp.Valid) {σ : Edge → Option PId} (hσ : Centres inp.tris σ)
    (hmax : ∀ e v, σ e = some v → v ≠ idMax) {s0 : St P D} {u : Bool} (hu : s0.filt.uniform = u)
    (cs : List (CId × Option Cell)) (hcs : ∀ c ∈ cs, c ∈ inp.cells)
    (hnd : (dartsOf (cs.filterMap fun c => Cell.tri? c.2)).Nodup) : ∀ {M : List Edge} {L : List Item} {s : St P D},
    (∀ e ∈ dartsOf (cs.filterMap fun c => Cell.tri? c.2), e.sym ∉ M) → (∀ e ∈ M, (σ e).isSome) →
    Emitted inp (s0.withEpi (marked σ M)) s L →
    GoodTris ((L ++ sq3Items σ u M (sq3Jobs σ cs)).map fun x => x.2.1) →
    (∀ x ∈ sq3Items σ u M (sq3Jobs σ cs), ∀ v ∈ x.2.1.verts, (s0.out.points.find? v).isSome) →
    ∃ s', loopOrHang sq3Skips (sq3Act inp) cs s = (.ok (), s') ∧
      Emitted inp (s0.withEpi (marked σ (sq3Marks σ M (sq3Jobs σ cs)))) s' (L ++ sq3Items σ u M (sq3Jobs σ cs)) := by
  induction cs with
  | nil =>
    intro M L s _ _ hem _ _
    exact ⟨s, rfl, by simpa [sq3Jobs, sq3Items, sq3Marks] using hem⟩
  | cons c cs ih =>
    intro M L s hM hMσ hem hg hp
    obtain ⟨k, c⟩ := c
    have hc := hcs (k, c) (by simp)
    obtain ⟨t, h1, _⟩ := hv.cells_tri _ hc
    simp only at h1
    subst h1
    have ht : t ∈ inp.tris := hv.mem_tris.2 ⟨k, hc⟩
    have hfm : ((k, some t.cell) :: cs).filterMap (fun c => Cell.tri? c.2) = t :: cs.filterMap fun c => Cell.tri? c.2 :=
      List.filterMap_cons_some (by rfl)
    have hj : sq3Jobs σ ((k, some t.cell) :: cs) = sq3JobsOf σ k t ++ sq3Jobs σ cs := rfl
    have hd : dartsOf (((k, some t.cell) :: cs).filterMap fun c => Cell.tri? c.2) =
        t.darts ++ dartsOf (cs.filterMap fun c => Cell.tri? c.2) := by rw [hfm]; rfl
    rw [hd] at hnd hM
    rw [List.nodup_append] at hnd
    rw [hj, sq3Items_append] at hg hp
    obtain ⟨s1, h2, h3⟩ := sq3Act_ok hv hσ hmax hu ht (id := k) (R := sq3Items σ u (sq3Marks σ M (sq3JobsOf σ k t)) (sq3Jobs σ cs))
      (fun e he => hM e (List.mem_append_left _ he)) hem hMσ hg
      (fun x hx => hp x (List.mem_append_left _ hx))
    have hjd : ∀ e ∈ jobDarts (sq3JobsOf σ k t), e ∈ t.darts := by
      intro e he
      unfold sq3JobsOf at he
      split at he
      · simp [jobDarts] at he
      · obtain ⟨j, hj, hje⟩ := List.mem_filterMap.1 he
        obtain ⟨e', he', rfl⟩ := List.mem_map.1 hj
        simp only [Option.some.injEq] at hje
        exact hje ▸ he'
    obtain ⟨s2, h4, h5⟩ := ih (fun c hc => hcs c (List.mem_cons_of_mem _ hc)) hnd.2.1
      (M := sq3Marks σ M (sq3JobsOf σ k t)) (by
        intro e he hc'
        rcases mem_sq3Marks hc' with h | ⟨h, _⟩
        · exact hM e (List.mem_append_right _ he) h
        · rw [Edge.sym_sym] at h
          exact hnd.2.2 e (hjd e h) e he rfl) (by
        intro e he
        rcases mem_sq3Marks he with h | ⟨_, h⟩
        · exact hMσ e h
        · exact h) h3 (by rw [List.append_assoc]; exact hg)
      (fun x hx => hp x (List.mem_append_right _ hx))
    refine ⟨s2, ?_, ?_⟩
    · have hskip : sq3Skips (k, some t.cell) = false := rfl
      unfold loopOrHang at h4 ⊢
      simp only [Prog.forEach, hskip, Bool.false_eq_true, if_false]
      rw [Prog.bind_ok h2]
      exact h4
    · rw [hj, sq3Items_append, ← List.append_assoc]
      have hmk : ∀ (J J' : List Job) (M : List Edge), sq3Marks σ M (J ++ J') = sq3Marks σ (sq3Marks σ M J) J' := by
        intro J J'
        induction J with
        | nil => intro M; rfl
        | cons j J ihJ =>
          intro M
          obtain ⟨id, t, _ | e⟩ := j
          · exact ihJ M
          · simp only [List.cons_append, sq3Marks]
            split
            · exact ihJ M
            · split
              · exact ihJ M
              · exact ihJ _
      rw [hmk]
      exact h5

/-- What a run of SquareThree produces. -/
structure Sqrt3Result (lib : QELib) (inp out : Mesh P D) (f f' : Filt) (u : Bool) (σ : Edge → Option PId)
    (pts : List P) : Prop where
  centres : Centres inp.tris σ
  fresh : ∀ e v, σ e = some v → inp.points.length ≤ v ∧ v < pts.length
  longer : inp.points.length ≤ pts.length
  points : out.points = AMap.dense pts
  built : Built out ((sq3Items σ u [] (sq3Jobs σ inp.cells)).map fun x => x.2.1)
  data : ∀ k : Nat, out.dataAt k = (sq3Items σ u [] (sq3Jobs σ inp.cells))[k]?.bind fun x => inp.dataAt x.1
  dataSorted : ∀ d, out.cellData = some d → (d.map Prod.fst).Pairwise (· < ·)
  ring : out.ring = lib.link out.edges out.left out.cells
  edgeCells : out.hasEdgeCells = true
  cells : f'.cells = pushed 0 (sq3Items σ u [] (sq3Jobs σ inp.cells))
  uniform : f'.uniform = u
  edgeSel : f'.edgeSel = f.edgeSel
  out : out = linked lib (((sq3Items σ u [] (sq3Jobs σ inp.cells)).map Item.plain).foldl (addOne inp)
    { (Mesh.empty : Mesh P D) with points := AMap.dense pts })

theorem sq3Piece_verts {σ : Edge → Option PId} {v : PId} {e : Edge} {x : PId} (h : x ∈ (sq3Piece σ v e).verts) :
    x = e.1 ∨ x = e.2 ∨ x = v ∨ σ e.sym = some x := by
  unfold sq3Piece at h
  rcases hs : σ e.sym with _ | v' <;> rw [hs] at h <;> simp [Tri.verts] at h
  · tauto
  · rcases h with h | h | h
    · tauto
    · subst h; tauto
    · tauto

theorem sq3_verts {T : List Tri} {σ : Edge → Option PId} (hσ : Centres T σ) {d : Tri}
    (hd : d ∈ T.flatMap (Tri.sq3 σ)) {x : PId} (hx : x ∈ d.verts) : (∃ t ∈ T, x ∈ t.verts) ∨ ∃ e, σ e = some x := by
  rcases (mem_sq3 hσ).1 hd with ⟨ht, _⟩ | ⟨e, v, h1, rfl⟩
  · exact Or.inl ⟨d, ht, hx⟩
  · obtain ⟨t, ht, he⟩ := hσ.tri h1
    rcases sq3Piece_verts hx with rfl | rfl | rfl | h
    · exact Or.inl ⟨t, ht, Tri.dart_fst he⟩
    · exact Or.inl ⟨t, ht, Tri.dart_snd he⟩
    · exact Or.inr ⟨e, h1⟩
    · exact Or.inr ⟨_, h⟩

theorem sq3Phase_ok {inp : Mesh P D} (hv : inp.Valid) (lib : QELib) {gen1 : M P D Unit} {f : Filt} {u : Bool}
    {σ : Edge → Option PId} {pts : List P} (hσ : Centres inp.tris σ) (hmax : pts.length ≤ idMax)
    (hf : ∀ e v, σ e = some v → inp.points.length ≤ v ∧ v < pts.length) (hlen : inp.points.length ≤ pts.length)
    (h1 : gen1 ⟨f, Mesh.empty⟩ =
      (.ok (), ⟨⟨f.cells, f.edgeSel, u, σ⟩, { (Mesh.empty : Mesh P D) with points := AMap.dense pts }⟩)) :
    ∃ out f', runFilter lib (generateData gen1 (sq3OutputCells inp)) f = (.ok out, f') ∧
      Sqrt3Result lib inp out f f' u σ pts := by
  have hgood := hv.good.sq3 hσ
  have hperm := sq3Items_tris hv hσ u
  set s0 : St P D := ⟨⟨[], f.edgeSel, u, σ⟩, { (Mesh.empty : Mesh P D) with points := AMap.dense pts }⟩ with hs0
  have hmk : marked σ [] = σ := by funext e; simp [marked]
  have hstart : Emitted inp (s0.withEpi (marked σ [])) s0 [] := by
    rw [hmk]
    exact ⟨by simp [pushed, St.withEpi, hs0], rfl, rfl, built_empty.congr rfl rfl rfl, fun k => rfl,
      fun d hd => by simp [hs0, Mesh.empty] at hd, rfl⟩
  obtain ⟨s', h2, h3⟩ := sq3Cells_ok hv hσ (fun e v h hc => by
      have := (hf e v h).2
      rw [hc] at this
      exact absurd this (Nat.not_lt.2 hmax)) (s0 := s0) (u := u) rfl inp.cells (fun _ h => h) hv.good.oriented
    (M := []) (L := []) (by simp) (by simp) hstart (hgood.perm hperm)
    (by
      intro x hx v hvx
      have hd : x.2.1 ∈ inp.tris.flatMap (Tri.sq3 σ) := hperm.subset (List.mem_map.2 ⟨x, hx, rfl⟩)
      have hlt : (v : Nat) < pts.length := by
        rcases sq3_verts hσ hd hvx with ⟨t, ht, h⟩ | ⟨e, h⟩
        · exact Nat.lt_of_lt_of_le (hv.verts_lt ht h) hlen
        · exact (hf _ _ h).2
      simp only [hs0, AMap.find?_dense]
      rw [List.getElem?_eq_getElem hlt]
      rfl)
  rw [List.nil_append] at h3
  refine ⟨{ s'.out with ring := lib.link s'.out.edges s'.out.left s'.out.cells }, s'.filt, ?_, ?_⟩
  · unfold runFilter generateData
    rw [Prog.bind_ok h1]
    unfold sq3OutputCells
    rw [modifyFilt_bind]
    change (match loopOrHang sq3Skips (sq3Act inp) inp.cells s0 with
      | (.ok _, s) => _
      | (.error e, s) => _) = _
    rw [h2]
  · exact ⟨hσ, hf, hlen, h3.points, h3.built.congr rfl rfl rfl, h3.data, h3.sorted, rfl, h3.edgeCells,
      by rw [h3.filt]; rfl, by rw [h3.filt]; rfl, by rw [h3.filt]; rfl, by rw [h3.out]; rfl⟩

/-- A run of the SquareThree filter on a valid mesh. -/
theorem sqrt3Update_ok {inp : Mesh P D} (hv : inp.Valid) (lib : QELib) (cosn : Nat → K) {f : Filt} (hsel : inp.SelOK f.cells)
    (hmax : inp.points.length + (inp.selected f.cells).length ≤ idMax) :
    ∃ out f', cellUpdate .sqrt3 lib cosn f inp = (.ok out, f') ∧
      Sqrt3Result lib inp out f f' f.cells.isEmpty (inp.centreOf f.cells)
        ((List.range inp.points.length).map inp.coord ++ (inp.selected f.cells).map (inp.centroid K)) := by
  have hsub : ∀ t ∈ inp.selected f.cells, t ∈ inp.tris := fun t ht => hv.selected_subset _ t ht
  have hbase : ((List.range inp.points.length).map inp.coord).length = inp.points.length := by simp
  have hc : centreIn inp.points.length (inp.selected f.cells) = inp.centreOf f.cells := rfl
  refine sq3Phase_ok hv lib ?_ ?_ ?_ ?_ ?_
  · rw [← hc]
    exact centres_centreIn hv.good hsub fun t ht v h => hv.verts_lt ht h
  · simpa using hmax
  · intro e v h
    rw [← hc] at h
    obtain ⟨i, t, h1, _, rfl⟩ := centreIn_some h
    have := (List.getElem?_eq_some_iff.1 h1).1
    refine ⟨Nat.le_add_right _ _, ?_⟩
    simp only [List.length_append, List.length_map, List.length_range]
    exact Nat.add_lt_add_left this _
  · simp
  · have := generateOutputPoints_run hv hsel (copyPoints_ok hv f)
      (S := sq3State ⟨⟨f.cells, f.edgeSel, f.cells.isEmpty, fun _ => none⟩, Mesh.empty⟩
        ((List.range inp.points.length).map inp.coord) (inp.centroid K)) ?_
      (fun t ht L => sq3AddNew_ok (K := K) hv ht _ _ L)
    · rw [this]
      unfold sq3State St.withEpi
      rw [hbase, hc]
    · unfold sq3State St.withEpi
      simp
      rfl

end Verif
