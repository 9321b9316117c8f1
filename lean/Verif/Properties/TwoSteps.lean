import Verif.Proofs.TwoSteps
import Verif.Proofs.RenameRun
import Verif.Properties.Edge
import Verif.Properties.Samples
/-
C96: refining two parts of a mesh one after the other, or both together.
-/
namespace Verif
set_option linter.unusedSectionVars false
variable {K P D : Type} [Field K] [Zero P] [Add P] [SMul K P] {lib₁ lib : QELib} {cosn : Nat → K}

/-- a strip of four triangles, data on two of them -/
def stripMesh : Mesh Q3 Nat :=
  mk [(0, 0, 0), (1, 0, 0), (0, 1, 0), (1, 1, 1), (0, 2, 0), (1, 2, 0)] [(0, 1, 2), (2, 1, 3), (2, 3, 4), (4, 3, 5)]
    (some [(1, 7), (3, 9)])

theorem stripMesh_ok : stripMesh.Valid ∧ stripMesh.RingOK ∧ stripMesh.NoIsolated ∧
    stripMesh.tris = [(0, 1, 2), (2, 1, 3), (2, 3, 4), (4, 3, 5)] :=
  mk_ok _ (by decide)

theorem stripMesh_parts : ∀ t ∈ stripMesh.tris, t.Apart (stripMesh.selected [0]) ∨ t.Apart (stripMesh.selected [3]) := by
  rw [stripMesh_ok.2.2.2]; unfold Tri.Apart; decide

/-- C96, the second part can still be selected: the cells of a part that has no edge in common with the first are cells of the
mesh in between. -/
theorem C96_second_part_kept {sch : Scheme} {f f' : Filt} {inp mid : Mesh P D} {s : List CId} (hs : sch ≠ .sqrt3) (hn : sch.Needs inp)
    (hsel : inp.SelOK f.cells) (hsel' : inp.SelOK s) (hne : s ≠ [])
    (hsep : ∀ t ∈ inp.selected s, t.Apart (inp.selected f.cells)) (h : cellUpdate sch lib cosn f inp = (.ok mid, f')) :
    ∃ s', s' ≠ [] ∧ mid.SelOK s' ∧ mid.selected s' = inp.selected s := by
  have hv := hn.valid
  refine exists_selection (C04_output_valid hs hn hsel h).1 ?_ fun t ht => ?_
  · obtain ⟨k, l, rfl⟩ := List.exists_cons_of_ne_nil hne
    obtain ⟨c, hc, rfl⟩ := List.mem_map.1 (hsel' k List.mem_cons_self)
    obtain ⟨t, ht, -⟩ := hv.cells_tri c hc
    have : t ∈ inp.selected (c.1 :: l) := (mem_selected (by simp)).2 ⟨c.1, List.mem_cons_self, hv.triAt_iff.2 (by rw [← ht]; exact hc)⟩
    exact List.ne_nil_of_mem this
  · obtain ⟨k, hk⟩ := hv.mem_tris.1 (selected_tris hv ht)
    obtain ⟨k', hk', -⟩ := (faceSplit_far hs hn hsel h ⟨k, hk, rfl⟩ (hsep t ht)).1
    exact (C04_output_valid hs hn hsel h).1.mem_tris.2 ⟨k', hk'⟩

/-- C96, Linear.  Two parts such that no triangle has edges of both: refining the one and then, in the result, the other gives
exactly the mesh that one run with both selections gives.  Nothing is asked of the arithmetic, which may round. -/
theorem C96_linear {f₁ f₁' f₂ f₃ : Filt} {inp mid : Mesh P D} {s₂ : List CId} (hv : inp.Valid) (hs₁ : inp.SelOK f₁.cells)
    (hs₂ : inp.SelOK s₂) (n₁ : f₁.cells ≠ []) (n₂ : s₂ ≠ [])
    (hsep : ∀ t ∈ inp.tris, t.Apart (inp.selected f₁.cells) ∨ t.Apart (inp.selected s₂))
    (h₁ : cellUpdate .linear lib₁ cosn f₁ inp = (.ok mid, f₁')) (hf₂ : mid.SelOK f₂.cells)
    (hsame : mid.selected f₂.cells = inp.selected s₂) (hf₃ : f₃.cells = f₁.cells ++ s₂) :
    ∃ out, (cellUpdate .linear lib cosn f₂ mid).1 = .ok out ∧ (cellUpdate .linear lib cosn f₃ inp).1 = .ok out := by
  have hn : Scheme.linear.Needs inp := ⟨hv, by simp, by simp⟩
  have hnm : Scheme.linear.Needs mid := ⟨(C04_output_valid (by decide) hn hs₁ h₁).1, by simp, by simp⟩
  have hs₃ : inp.SelOK f₃.cells := by
    rw [hf₃]
    intro k hk
    rcases List.mem_append.1 hk with hk | hk
    · exact hs₁ k hk
    · exact hs₂ k hk
  obtain ⟨R₁, -⟩ := cellUpdate_result (by decide) hn hs₁ h₁
  obtain ⟨out, f₂', e₂, R₂⟩ := cellUpdate_ok (sch := .linear) (by decide) lib cosn hnm hf₂
  obtain ⟨out', f₃', e₃, R₃⟩ := cellUpdate_ok (sch := .linear) (by decide) lib cosn hn hs₃
  have hap : ∀ t ∈ inp.selected s₂, t.Apart (inp.selected f₁.cells) := fun t ht =>
    (hsep t (selected_tris hv ht)).resolve_right fun hc => Tri.apart_self hc ht
  have hpts : (List.range mid.points.length).map (schemeBase .linear cosn mid f₂) ++
        (edgeList (mid.selected f₂.cells)).map (valueOf (schemePoint .linear K mid)) =
      (List.range inp.points.length).map (schemeBase .linear cosn inp f₃) ++
        (edgeList (inp.selected f₃.cells)).map (valueOf (schemePoint .linear K inp)) := by
    have e1 : (List.range mid.points.length).map (schemeBase .linear cosn mid f₂) = _ := coords_dense R₁.points
    rw [e1, hf₃, selected_append _ n₁ n₂, edgeList_append hap, List.map_append, ← List.append_assoc, hsame]
    refine congrArg₂ _ rfl (List.map_congr_left fun e he => valueOf_congr ?_)
    refine linearPoint_kept R₁.points hv ?_
    obtain ⟨t, g1, g2⟩ | ⟨t, g1, g2⟩ := ((mem_edgeList _ e).1 (Or.inl he)).imp mem_dartsOf.1 mem_dartsOf.1
    · exact hv.isEdge_of_dart (mem_dartsOf.2 ⟨t, selected_tris hv g1, g2⟩)
    · have := (hv.isEdge_of_dart (mem_dartsOf.2 ⟨t, selected_tris hv g1, g2⟩)).sym
      rwa [Edge.sym_sym] at this
  rw [hpts] at R₂
  have R₃' := R₃
  rw [hf₃] at R₃'
  have : out = out' := two_cells hv R₁ (by rw [hf₃] at R₂; exact R₂) R₃' (by simp) n₁ n₂ hsame hsep
  subst this
  exact ⟨out, by rw [e₂], by rw [e₃]⟩

example (mid : Mesh Q3 Nat) (f' : Filt) (h : cellUpdate .linear someLib cos0 (usedFilt [0]) stripMesh = (.ok mid, f')) :
    ∃ s' out, (cellUpdate .linear someLib cos0 (Filt.new.setCells s') mid).1 = .ok out ∧
      (cellUpdate .linear someLib cos0 (usedFilt [0, 3]) stripMesh).1 = .ok out := by
  have hv := stripMesh_ok.1
  have s0 : stripMesh.SelOK [0] := by unfold Mesh.SelOK; decide
  have s3 : stripMesh.SelOK [3] := by unfold Mesh.SelOK; decide
  obtain ⟨s', -, h2, h3⟩ := C96_second_part_kept (by decide) ⟨hv, by simp, by simp⟩ s0 s3 (by simp)
    (by unfold Tri.Apart; decide) h
  obtain ⟨out, h4⟩ := C96_linear (lib := someLib) (f₂ := Filt.new.setCells s') (f₃ := usedFilt [0, 3]) hv s0 s3 (by simp [usedFilt])
    (by simp) stripMesh_parts h h2 h3 rfl
  exact ⟨s', out, h4⟩

/-- C96, all face splits, and also mixed: whichever of the three schemes is used in the two steps and in the single run, points,
cells, their ids and data and the edges come out the same; only the positions may differ. -/
theorem C96_shape {sch₁ sch₂ sch₃ : Scheme} {f₁ f₁' f₂ f₃ : Filt} {inp mid : Mesh P D} {s₂ : List CId} (h1 : sch₁ ≠ .sqrt3)
    (h2 : sch₂ ≠ .sqrt3) (h3 : sch₃ ≠ .sqrt3) (hn : Scheme.loop.Needs inp) (hl : lib₁.Lawful) (hs₁ : inp.SelOK f₁.cells)
    (hs₂ : inp.SelOK s₂) (n₁ : f₁.cells ≠ []) (n₂ : s₂ ≠ [])
    (hsep : ∀ t ∈ inp.tris, t.Apart (inp.selected f₁.cells) ∨ t.Apart (inp.selected s₂))
    (h₁ : cellUpdate sch₁ lib₁ cosn f₁ inp = (.ok mid, f₁')) (hf₂ : mid.SelOK f₂.cells)
    (hsame : mid.selected f₂.cells = inp.selected s₂) (hf₃ : f₃.cells = f₁.cells ++ s₂) :
    ∃ out out', (cellUpdate sch₂ lib cosn f₂ mid).1 = .ok out ∧ (cellUpdate sch₃ lib cosn f₃ inp).1 = .ok out' ∧
      out.shape = out'.shape := by
  have hv := hn.valid
  have hall : ∀ sch : Scheme, sch.Needs inp := fun sch => ⟨hv, fun _ => hn.ring (Or.inl rfl), fun _ => hn.noIsolated rfl⟩
  have hmid := C04_output_valid h1 (hall sch₁) hs₁ h₁
  have hallm := hmid.2.2.2.1 hl (hn.noIsolated rfl)
  have hs₃ : inp.SelOK f₃.cells := by
    rw [hf₃]
    intro k hk
    rcases List.mem_append.1 hk with hk | hk
    · exact hs₁ k hk
    · exact hs₂ k hk
  obtain ⟨out, f₂', e₂, -⟩ := cellUpdate_ok h2 lib cosn (hallm sch₂) hf₂
  obtain ⟨out', f₃', e₃, -⟩ := cellUpdate_ok h3 lib cosn (hall sch₃) hs₃
  refine ⟨out, out', by rw [e₂], by rw [e₃], ?_⟩
  have toShape : ∀ {sch : Scheme} {lib : QELib} {f f' : Filt} {m o : Mesh P D}, cellUpdate sch lib cosn f m = (.ok o, f') →
      ∃ g', cellUpdate sch lib noCos f m.shape = (.ok o.shape, g') := fun {sch lib f f' m o} h => by
    have := (cellUpdate_shape sch lib cosn f m).1
    rw [h] at this
    exact ⟨_, Prod.ext this rfl⟩
  obtain ⟨g₁, k₁⟩ := toShape h₁
  obtain ⟨g₂, k₂⟩ := toShape e₂
  obtain ⟨g₃, k₃⟩ := toShape e₃
  obtain ⟨R₁, -⟩ := cellUpdate_result h1 (show sch₁.Needs inp.shape from (hall sch₁).mapPoints) hs₁ k₁
  obtain ⟨R₂, -⟩ := cellUpdate_result h2 (show sch₂.Needs mid.shape from (hallm sch₂).mapPoints) hf₂ k₂
  obtain ⟨R₃, -⟩ := cellUpdate_result h3 (show sch₃.Needs inp.shape from (hall sch₃).mapPoints) hs₃ k₃
  have hap : ∀ t ∈ inp.selected s₂, t.Apart (inp.selected f₁.cells) := fun t ht =>
    (hsep t (selected_tris hv ht)).resolve_right fun hc => Tri.apart_self hc ht
  have unit : ∀ {a b : List Unit}, a.length = b.length → a = b := fun h => List.ext_getElem h fun _ _ _ => rfl
  have hl₁ : mid.shape.points.length = inp.shape.points.length + (edgeList (inp.selected f₁.cells)).length := by
    rw [R₁.points, AMap.length_dense]
    simp only [List.length_append, List.length_map, List.length_range]
    rfl
  have hsame' : mid.shape.selected f₂.cells = inp.shape.selected s₂ := hsame
  have e := unit (a := (List.range mid.shape.points.length).map (schemeBase sch₂ noCos mid.shape f₂) ++
        (edgeList (mid.shape.selected f₂.cells)).map (valueOf (schemePoint sch₂ ℚ mid.shape)))
      (b := (List.range inp.shape.points.length).map (schemeBase sch₃ noCos inp.shape f₃) ++
        (edgeList (inp.shape.selected f₃.cells)).map (valueOf (schemePoint sch₃ ℚ inp.shape))) (by
    have : edgeList (inp.shape.selected f₃.cells) = edgeList (inp.selected f₁.cells) ++ edgeList (inp.selected s₂) := by
      rw [hf₃, selected_append _ n₁ n₂]
      exact edgeList_append hap
    rw [this]
    simp only [List.length_append, List.length_map, List.length_range, hl₁, hsame']
    rw [Nat.add_assoc]
    rfl)
  rw [e] at R₂
  refine two_cells hv.mapPoints R₁ R₂ (by rw [← hf₃]; exact R₃) ?_ n₁ n₂ hsame' hsep
  simp only [List.length_append, List.length_map, List.length_range]
  rfl

example (mid : Mesh Q3 Nat) (f' : Filt) (h : cellUpdate .loop someLib cos0 (usedFilt [0]) stripMesh = (.ok mid, f')) :
    ∃ s' out out', (cellUpdate .butterfly someLib cos0 (Filt.new.setCells s') mid).1 = .ok out ∧
      (cellUpdate .linear someLib cos0 (usedFilt [0, 3]) stripMesh).1 = .ok out' ∧ out.shape = out'.shape := by
  have hn : Scheme.loop.Needs stripMesh := ⟨stripMesh_ok.1, fun _ => stripMesh_ok.2.1, fun _ => stripMesh_ok.2.2.1⟩
  have s0 : stripMesh.SelOK [0] := by unfold Mesh.SelOK; decide
  have s3 : stripMesh.SelOK [3] := by unfold Mesh.SelOK; decide
  obtain ⟨s', -, h2, h3⟩ := C96_second_part_kept (by decide) hn s0 s3 (by simp) (by unfold Tri.Apart; decide) h
  exact ⟨s', C96_shape (sch₁ := .loop) (sch₂ := .butterfly) (sch₃ := .linear) (lib := someLib) (f₂ := Filt.new.setCells s')
    (f₃ := usedFilt [0, 3]) (by decide) (by decide) (by decide) hn someLib_lawful s0 s3 (by simp [usedFilt]) (by simp)
    stripMesh_parts h h2 h3 rfl⟩

/-- C96, SquareThree.  Here it is enough that the two parts have no edge in common: a triangle between them is not split. -/
theorem C96_sqrt3 {f₁ f₁' : Filt} {inp mid : Mesh P D} {s₂ : List CId} (hv : inp.Valid) (hs₁ : inp.SelOK f₁.cells)
    (hs₂ : inp.SelOK s₂) (n₁ : f₁.cells ≠ []) (n₂ : s₂ ≠ [])
    (hmax : inp.points.length + (inp.selected f₁.cells).length + (inp.selected s₂).length ≤ idMax)
    (hsep : ∀ t ∈ inp.selected s₂, t.Apart (inp.selected f₁.cells))
    (h₁ : cellUpdate .sqrt3 lib₁ cosn f₁ inp = (.ok mid, f₁')) :
    (∃ s, s ≠ [] ∧ mid.SelOK s ∧ mid.selected s = inp.selected s₂) ∧
    ∀ f₂ f₃ : Filt, mid.SelOK f₂.cells → mid.selected f₂.cells = inp.selected s₂ → f₃.cells = f₁.cells ++ s₂ →
      ∃ out, (cellUpdate .sqrt3 lib cosn f₂ mid).1 = .ok out ∧ (cellUpdate .sqrt3 lib cosn f₃ inp).1 = .ok out := by
  have hmax₁ := Nat.le_trans (Nat.le_add_right _ _) hmax
  have R₁ := sqrt3Update_result hv hs₁ hmax₁ h₁
  have hmv : mid.Valid := (C13_sqrt3_valid hv hs₁ hmax₁ h₁).1
  have hmid : mid.points.length = inp.points.length + (inp.selected f₁.cells).length := by
    rw [R₁.points, AMap.length_dense]; simp
  constructor
  · refine exists_selection hmv ?_ fun t ht => ?_
    · obtain ⟨k, l, rfl⟩ := List.exists_cons_of_ne_nil n₂
      obtain ⟨c, hc, rfl⟩ := List.mem_map.1 (hs₂ k List.mem_cons_self)
      obtain ⟨t, ht, -⟩ := hv.cells_tri c hc
      have : t ∈ inp.selected (c.1 :: l) := (mem_selected (by simp)).2
        ⟨c.1, List.mem_cons_self, hv.triAt_iff.2 (by rw [← ht]; exact hc)⟩
      exact List.ne_nil_of_mem this
    · obtain ⟨k, hk⟩ := hv.mem_tris.1 (selected_tris hv ht)
      obtain ⟨k', hk', -⟩ := (sqrt3_far hv hs₁ hmax₁ h₁ ⟨k, hk, rfl⟩ (Tri.apart_self (hsep t ht))).1
      exact hmv.mem_tris.2 ⟨k', hk'⟩
  intro f₂ f₃ hf₂ hsame hf₃
  have hs₃ : inp.SelOK f₃.cells := by
    rw [hf₃]
    intro k hk
    rcases List.mem_append.1 hk with hk | hk
    · exact hs₁ k hk
    · exact hs₂ k hk
  obtain ⟨out, f₂', e₂, R₂⟩ := sqrt3Update_ok hmv lib cosn hf₂ (by rw [hmid, hsame]; exact hmax)
  obtain ⟨out', f₃', e₃, R₃⟩ := sqrt3Update_ok hv lib cosn hs₃ (by
    rw [hf₃, selected_append _ n₁ n₂, List.length_append, ← Nat.add_assoc]; exact hmax)
  have hpts : (List.range mid.points.length).map mid.coord ++ (mid.selected f₂.cells).map (mid.centroid K) =
      (List.range inp.points.length).map inp.coord ++ (inp.selected f₃.cells).map (inp.centroid K) := by
    rw [coords_dense R₁.points, hf₃, selected_append _ n₁ n₂, List.map_append, ← List.append_assoc, hsame]
    refine congrArg₂ _ rfl (List.map_congr_left fun t ht => ?_)
    have key : ∀ v ∈ t.verts, mid.coord v = inp.coord v := fun v hvt => by
      have hlt := hv.verts_lt (selected_tris hv ht) hvt
      unfold Mesh.coord
      rw [R₁.points, AMap.find?_dense, List.getElem?_append_left (by simpa using hlt), List.getElem?_map, List.getElem?_range hlt]
      rfl
    unfold Mesh.centroid
    rw [key t.1 (by simp [Tri.verts]), key t.2.1 (by simp [Tri.verts]), key t.2.2 (by simp [Tri.verts])]
  rw [hpts] at R₂
  have : out = out' := two_sqrt3 hv R₁ R₂ (by rw [← hf₃]; exact R₃) (by simp) n₁ n₂ hsame hsep
  subst this
  exact ⟨out, by rw [e₂], by rw [e₃]⟩

/-- cells 2 and 1 of the patch, between which there is a third triangle -/
example (mid : Mesh Q3 Nat) (f' : Filt) (h : cellUpdate .sqrt3 someLib cos0 (usedFilt [2]) patchMesh = (.ok mid, f')) :
    ∃ s' out, (cellUpdate .sqrt3 someLib cos0 (Filt.new.setCells s') mid).1 = .ok out ∧
      (cellUpdate .sqrt3 someLib cos0 (usedFilt [2, 1]) patchMesh).1 = .ok out := by
  obtain ⟨⟨s', -, h2, h3⟩, key⟩ := C96_sqrt3 (lib := someLib) (s₂ := [1]) patchMesh_ok.1
    (show patchMesh.SelOK [2] by unfold Mesh.SelOK; decide) (by unfold Mesh.SelOK; decide) (by simp [usedFilt]) (by simp)
    (by decide) (show ∀ t ∈ patchMesh.selected [1], t.Apart (patchMesh.selected [2]) by unfold Tri.Apart; decide) h
  exact ⟨s', key (Filt.new.setCells s') (usedFilt [2, 1]) h2 h3 rfl⟩

/-- C96, Linear edge filter: two lists such that no triangle has edges of both. -/
theorem C96_linear_edge {f₁ f₁' f₂ f₃ : Filt} {inp mid : Mesh P D} (hv : inp.Valid) (hs₁ : inp.EdgeSelOK f₁.edgeSel)
    (hs₂ : inp.EdgeSelOK f₂.edgeSel) (n₁ : f₁.edgeSel ≠ []) (n₂ : f₂.edgeSel ≠ [])
    (hsep : ∀ t ∈ inp.tris, (∀ e ∈ t.darts, some e ∉ f₁.edgeSel ∧ some e.sym ∉ f₁.edgeSel) ∨
      ∀ e ∈ t.darts, some e ∉ f₂.edgeSel ∧ some e.sym ∉ f₂.edgeSel)
    (h₁ : edgeUpdate .linear lib₁ cosn f₁ inp = (.ok mid, f₁')) (hf₃ : f₃.edgeSel = f₁.edgeSel ++ f₂.edgeSel) :
    ∃ out, (edgeUpdate .linear lib cosn f₂ mid).1 = .ok out ∧ (edgeUpdate .linear lib cosn f₃ inp).1 = .ok out := by
  have hn : EdgeScheme.linear.toScheme.Needs inp := ⟨hv, by simp [EdgeScheme.toScheme], by simp [EdgeScheme.toScheme]⟩
  have R₁ := edgeUpdate_result hn hs₁ h₁
  have hmv : mid.Valid := R₁.valid hv
  have hnm : EdgeScheme.linear.toScheme.Needs mid := ⟨hmv, by simp [EdgeScheme.toScheme], by simp [EdgeScheme.toScheme]⟩
  have sel : ∀ {m : Mesh P D} {l : List (Option Edge)}, l ≠ [] → m.selectedEdges l = l.filterMap id := fun h => by
    unfold Mesh.selectedEdges; rw [if_neg (by simpa using h)]
  have hs₃ : inp.EdgeSelOK f₃.edgeSel := by
    rw [hf₃]
    intro e he
    rcases List.mem_append.1 he with he | he
    · exact hs₁ e he
    · exact hs₂ e he
  have hkeep : mid.EdgeSelOK f₂.edgeSel := by
    intro e he
    have keep : ∀ d : Edge, (some d ∈ f₂.edgeSel ∨ some d.sym ∈ f₂.edgeSel) → d ∈ dartsOf inp.tris → mid.IsEdge d := by
      intro d hd hdt
      obtain ⟨t, g1, g2⟩ := mem_dartsOf.1 hdt
      have g3 := (hsep t g1).resolve_right fun hc => (not_or.2 (hc d g2)) hd
      have g4 : t ∈ mid.tris := by
        rw [R₁.tris]
        refine List.mem_flatMap.2 ⟨t, g1, ?_⟩
        rw [children_of_none]
        · exact List.mem_singleton_self t
        · intro x hx
          unfold Mesh.listPoint
          rw [sel n₁]
          exact lastLabel_none (by simpa using g3 x hx)
      exact hmv.isEdge_of_dart (mem_dartsOf.2 ⟨t, g4, g2⟩)
    rcases (hv.edges_iff e).1 (hs₂ e he) with hd | hd
    · exact keep e (Or.inl he) hd
    · have := (keep e.sym (Or.inr (by rw [Edge.sym_sym]; exact he)) hd).sym
      rwa [Edge.sym_sym] at this
  obtain ⟨out, f₂', e₂, R₂⟩ := edgeUpdate_ok lib cosn hnm hkeep
  obtain ⟨out', f₃', e₃, R₃⟩ := edgeUpdate_ok lib cosn hn hs₃
  have hpts : (List.range mid.points.length).map mid.coord ++
        (mid.selectedEdges f₂.edgeSel).map (valueOf (schemePoint EdgeScheme.linear.toScheme K mid)) =
      (List.range inp.points.length).map inp.coord ++
        (inp.selectedEdges f₃.edgeSel).map (valueOf (schemePoint EdgeScheme.linear.toScheme K inp)) := by
    rw [coords_dense R₁.points, hf₃, sel n₂, sel (l := f₁.edgeSel ++ f₂.edgeSel) (by simp [n₁]), sel n₁, List.filterMap_append,
      List.map_append, ← List.append_assoc]
    refine congrArg₂ _ rfl (List.map_congr_left fun e he => valueOf_congr ?_)
    exact linearPoint_kept R₁.points hv (hs₂ e (by simpa using he))
  rw [hpts] at R₂
  have : out = out' := two_lists hv R₁ R₂ (by rw [← hf₃]; exact R₃) (by simp) n₁ n₂ hs₂ hsep
  subst this
  exact ⟨out, by rw [e₂], by rw [e₃]⟩

example (mid : Mesh Q3 Nat) (f' : Filt)
    (h : edgeUpdate .linear someLib cos0 (Filt.new.setEdges [some (1, 2), none]) stripMesh = (.ok mid, f')) :
    ∃ out, (edgeUpdate .linear someLib cos0 (Filt.new.setEdges [some (3, 4), some (4, 3)]) mid).1 = .ok out ∧
      (edgeUpdate .linear someLib cos0 (Filt.new.setEdges [some (1, 2), none, some (3, 4), some (4, 3)]) stripMesh).1 = .ok out :=
  C96_linear_edge (f₂ := Filt.new.setEdges [some (3, 4), some (4, 3)])
    (f₃ := Filt.new.setEdges [some (1, 2), none, some (3, 4), some (4, 3)]) stripMesh_ok.1
    (by
      intro e he
      simp only [Filt.setEdges, List.mem_cons, Option.some.injEq, reduceCtorEq, List.not_mem_nil, or_false] at he
      subst he; unfold Mesh.IsEdge; decide)
    (by
      intro e he
      simp only [Filt.setEdges, List.mem_cons, Option.some.injEq, List.not_mem_nil, or_false] at he
      rcases he with rfl | rfl <;> (unfold Mesh.IsEdge; decide))
    (by simp [Filt.setEdges]) (by simp [Filt.setEdges]) (by rw [stripMesh_ok.2.2.2]; decide) h rfl

/-- C96, the condition is needed.  The two parts have no edge in common, but a triangle between them has an edge of each.  Done
in two steps, its two halves are cut otherwise than in one run: the triangles differ. -/
theorem C96_triangle_between {f₁ f₁' f₂ f₂' f₃ f₃' : Filt} {mid out out' : Mesh Q3 Nat} (hf₁ : f₁.cells = [2])
    (h₁ : cellUpdate .linear someLib cos0 f₁ patchMesh = (.ok mid, f₁')) (hf₂ : mid.SelOK f₂.cells)
    (hsame : mid.selected f₂.cells = patchMesh.selected [1])
    (h₂ : cellUpdate .linear someLib cos0 f₂ mid = (.ok out, f₂')) (hf₃ : f₃.cells = [2, 1])
    (h₃ : cellUpdate .linear someLib cos0 f₃ patchMesh = (.ok out', f₃')) : out.shape ≠ out'.shape := by
  have hn := patchMesh_needs .linear
  have s₁ : patchMesh.SelOK f₁.cells := by rw [hf₁]; unfold Mesh.SelOK; decide
  have s₃ : patchMesh.SelOK f₃.cells := by rw [hf₃]; unfold Mesh.SelOK; decide
  obtain ⟨R₁, -⟩ := cellUpdate_result (by decide) hn s₁ h₁
  have hnm : Scheme.linear.Needs mid := ⟨R₁.valid hn.valid, by simp, by simp⟩
  obtain ⟨R₂, -⟩ := cellUpdate_result (by decide) hnm hf₂ h₂
  obtain ⟨R₃, -⟩ := cellUpdate_result (by decide) hn s₃ h₃
  have hlen : mid.points.length = 9 := by
    rw [R₁.points, AMap.length_dense, hf₁]
    simp only [List.length_append, List.length_map, List.length_range]
    decide
  intro hc
  have ht : out.shape.tris = out'.shape.tris := by rw [hc]
  change out.tris = out'.tris at ht
  rw [R₂.tris, R₁.tris, R₃.tris, hf₁, hf₃] at ht
  unfold Mesh.edgePoint at ht
  rw [hsame, hlen, patchMesh_ok.2.2.2] at ht
  revert ht
  decide

example : ∃ (f₂ f₁' f₂' f₃' : Filt) (mid out out' : Mesh Q3 Nat),
    cellUpdate .linear someLib cos0 (usedFilt [2]) patchMesh = (.ok mid, f₁') ∧
    cellUpdate .linear someLib cos0 f₂ mid = (.ok out, f₂') ∧
    cellUpdate .linear someLib cos0 (usedFilt [2, 1]) patchMesh = (.ok out', f₃') ∧ out.shape ≠ out'.shape := by
  have hn := patchMesh_needs .linear
  have s₁ : patchMesh.SelOK [2] := by unfold Mesh.SelOK; decide
  have s₂ : patchMesh.SelOK [1] := by unfold Mesh.SelOK; decide
  have s₃ : patchMesh.SelOK [2, 1] := by unfold Mesh.SelOK; decide
  obtain ⟨mid, f₁', h₁, -⟩ := cellUpdate_ok (sch := .linear) (f := usedFilt [2]) (by decide) someLib cos0 hn s₁
  obtain ⟨s, -, g1, g2⟩ := C96_second_part_kept (by decide) hn s₁ s₂ (by simp) (by unfold Tri.Apart; decide) h₁
  have hnm : Scheme.linear.Needs mid := ⟨(C04_output_valid (by decide) hn s₁ h₁).1, by simp, by simp⟩
  obtain ⟨out, f₂', h₂, -⟩ := cellUpdate_ok (sch := .linear) (f := usedFilt s) (by decide) someLib cos0 hnm g1
  obtain ⟨out', f₃', h₃, -⟩ := cellUpdate_ok (sch := .linear) (f := usedFilt [2, 1]) (by decide) someLib cos0 hn s₃
  exact ⟨_, f₁', f₂', f₃', mid, out, out', h₁, h₂, h₃, C96_triangle_between rfl h₁ g1 g2 h₂ rfl h₃⟩

end Verif
