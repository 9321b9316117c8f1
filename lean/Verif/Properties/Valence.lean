import Verif.Proofs.Valence
/-
C53: uniform subdivision adds regular points only.
-/
namespace Verif
set_option linter.unusedSectionVars false
variable {K P D : Type} [Field K] [Zero P] [Add P] [SMul K P] {lib : QELib} {cosn : Nat → K} {f' : Filt} {inp out : Mesh P D}
  {sch : Scheme}

/-- C53, one level of a face split: the old points have the valences they had and are on the boundary if they were; the new
points are regular. -/
theorem C53_uniform_level (hs : sch ≠ .sqrt3) (hn : sch.Needs inp)
    (h : cellUpdate sch lib cosn (Filt.new.setCells []) inp = (.ok out, f')) :
    (∀ v, v < inp.points.length → out.valence v = inp.valence v ∧ (out.OnBoundary v ↔ inp.OnBoundary v)) ∧
    ∀ v, inp.points.length ≤ v → v < out.points.length → out.Regular v := by
  have hv := hn.valid
  have R := (cellUpdate_result hs hn (selOK_nil _) h).1
  have hall : ∀ e ∈ dartsOf inp.tris, (inp.edgePoint ([] : List CId) e).isSome := fun e he => by
    rw [edgePoint_isSome]
    exact .inl (by simpa [Mesh.selected] using he)
  obtain ⟨hb, -⟩ := C18_boundary_preserved hs hn (selOK_nil _) h
  have hdlt : ∀ e ∈ dartsOf inp.tris, e.1 < inp.points.length ∧ e.2 < inp.points.length := fun e he => by
    obtain ⟨t, ht, he⟩ := mem_dartsOf.1 he
    exact ⟨hv.verts_lt ht (Tri.dart_fst he), hv.verts_lt ht (Tri.dart_snd he)⟩
  refine ⟨fun v hlt => ⟨R.valence_old hv hall hlt, ?_⟩, fun v hge hlt => ?_⟩
  · constructor
    · rintro ⟨w, hw⟩
      obtain ⟨e, he, hp⟩ := (hb _).1 hw
      rcases hp with ⟨-, rfl⟩ | ⟨m, hm, hp | hp⟩
      · exact ⟨w, he⟩
      · obtain ⟨rfl, rfl⟩ := Prod.mk.inj hp
        exact ⟨e.2, he⟩
      · obtain ⟨rfl, rfl⟩ := Prod.mk.inj hp
        exact absurd hlt (Nat.not_lt.2 (labelOf_range hm).1)
    · rintro ⟨w, hw⟩
      obtain ⟨m, hm⟩ := Option.isSome_iff_exists.1 (hall _ hw.1)
      exact ⟨m, (hb _).2 ⟨_, hw, .inr ⟨m, hm, .inl rfl⟩⟩⟩
  · obtain ⟨e₀, he₀, -⟩ := (C05_new_points hs hn (selOK_nil _) h).2.2.2.2.1 v hge hlt
    obtain ⟨e, he, hm⟩ : ∃ e ∈ dartsOf inp.tris, inp.edgePoint ([] : List CId) e = some v := by
      have h1 : (inp.edgePoint ([] : List CId) e₀).isSome := Option.isSome_iff_exists.2 ⟨v, he₀⟩
      rw [edgePoint_isSome] at h1
      rcases h1 with h1 | h1
      · exact ⟨e₀, by simpa [Mesh.selected] using h1, he₀⟩
      · exact ⟨e₀.sym, by simpa [Mesh.selected] using h1, (R.label.sym e₀).trans he₀⟩
    have h1 := R.valence_new hv hall he hm
    have h2 : out.OnBoundary v ↔ e.sym ∉ dartsOf inp.tris := by
      constructor
      · rintro ⟨w, hw⟩
        obtain ⟨e', he', hp⟩ := (hb _).1 hw
        rcases hp with ⟨-, rfl⟩ | ⟨m, hm', hp | hp⟩
        · exact absurd (hdlt _ he'.1).1 (Nat.not_lt.2 hge)
        · obtain ⟨rfl, rfl⟩ := Prod.mk.inj hp
          exact absurd (hdlt _ he'.1).1 (Nat.not_lt.2 hge)
        · obtain ⟨rfl, rfl⟩ := Prod.mk.inj hp
          rcases labelOf_inj hm hm' with rfl | rfl
          · exact he'.2
          · exact absurd he he'.2
      · intro hc
        exact ⟨e.2, (hb _).2 ⟨e, ⟨he, hc⟩, .inr ⟨v, hm, .inr rfl⟩⟩⟩
    by_cases hc : e.sym ∈ dartsOf inp.tris
    · exact .inr ⟨fun hh => h2.1 hh hc, by rw [h1, if_pos hc]⟩
    · exact .inl ⟨h2.2 hc, by rw [h1, if_neg hc]⟩

/-- C53. Any number of uniform levels of a face split: the points of the input keep their valences; all other points are
regular, so that the points where the mesh is irregular are as many as they were. -/
theorem C53_uniform_regular (hs : sch ≠ .sqrt3) (hl : sch = .loop ∨ sch = .butterfly → lib.Lawful) (cosn : Nat → K)
    (hn : sch.Needs inp) {f : Iter} (hf : f.cells = []) :
    ∃ out, (iterUpdate sch lib cosn f inp).1 = .ok out ∧ (∀ v, v < inp.points.length → out.valence v = inp.valence v) ∧
      ∀ v, inp.points.length ≤ v → v < out.points.length → out.Regular v := by
  obtain ⟨out, h1, h2, h3⟩ := uniform_levels (sch := sch) (lib := lib) (cosn := cosn) hl
    (fun _ m => (inp.points.length ≤ m.points.length ∧ ∀ v, v < inp.points.length → m.valence v = inp.valence v) ∧
      ∀ v, inp.points.length ≤ v → v < m.points.length → m.Regular v) (by
      rintro i m out f' hm - h ⟨⟨h0, h1⟩, h2⟩
      obtain ⟨h3, h4⟩ := C53_uniform_level hs hm h
      have h5 : m.points.length ≤ out.points.length := by
        have R := (cellUpdate_result hs hm (selOK_nil _) h).1
        rw [R.points, AMap.length_dense]; exact R.longer
      refine ⟨⟨h0.trans h5, fun v hv => (h3 v (hv.trans_le h0)).1.trans (h1 v hv)⟩, fun v hge hlt => ?_⟩
      by_cases hc : v < m.points.length
      · have := h2 v hge hc
        unfold Mesh.Regular at *
        rwa [(h3 v hc).1, (h3 v hc).2]
      · exact h4 v (Nat.not_lt.1 hc) hlt) (max 1 f.levels) 0 hn (fun hc => absurd hc hs)
      ⟨⟨le_rfl, fun _ _ => rfl⟩, fun v h1 h2 => absurd h2 (Nat.not_lt.2 h1)⟩
  refine ⟨out, ?_, h2.2, h3⟩
  rw [iterUpdate_eq, hf, ← levelsOf_eq, h1]
  rfl

/-- C53, one uniform level of SquareThree: an old point gains one triangle for each boundary edge that leaves it; the new
point of a triangle has six triangles, less one for each boundary edge of the triangle. -/
theorem C53_sqrt3_level (hv : inp.Valid) (hmax : inp.points.length + (inp.selected []).length ≤ idMax)
    (h : cellUpdate .sqrt3 lib cosn (Filt.new.setCells []) inp = (.ok out, f')) :
    (∀ v, v < inp.points.length → out.valence v = inp.valence v +
      (dartsOf inp.tris).countP fun e => decide (e.1 = v ∧ e.sym ∉ dartsOf inp.tris)) ∧
    ∀ i t, inp.tris[i]? = some t → out.valence (inp.points.length + i) =
      3 + t.darts.countP fun e => decide (e.sym ∈ dartsOf inp.tris) := by
  have R := sqrt3Update_result hv (selOK_nil _) hmax h
  have hall : ∀ e ∈ dartsOf inp.tris, (inp.centreOf ([] : List CId) e).isSome := fun e he => by
    obtain ⟨t, ht, he⟩ := mem_dartsOf.1 he
    rw [centreOf_isSome hv ht he]
    simpa [Mesh.selected] using ht
  refine ⟨fun v hlt => R.valence_old hv hall hlt, fun i t ht => ?_⟩
  refine R.valence_new hv hall (List.mem_of_getElem? ht) (e₀ := (t.1, t.2.1)) (by simp [Tri.darts]) ?_
  exact centreOf_getElem hv List.nodup_nil (by simpa [Mesh.selected] using ht) (by simp [Tri.darts])

/-- C53 for SquareThree on closed meshes, any number of uniform levels: old points keep their valences, new points have
six triangles. -/
theorem C53_sqrt3_closed (lib : QELib) (cosn : Nat → K) (hv : inp.Valid) (hc : inp.Closed) {f : Iter} (hf : f.cells = [])
    (hid : Scheme.sqrt3.IdsLeft (max 1 f.levels) inp []) :
    ∃ out, (iterUpdate .sqrt3 lib cosn f inp).1 = .ok out ∧ out.Closed ∧
      (∀ v, v < inp.points.length → out.valence v = inp.valence v) ∧
      ∀ v, inp.points.length ≤ v → v < out.points.length → out.valence v = 6 := by
  have hn : Scheme.sqrt3.Needs inp := ⟨hv, by simp, by simp⟩
  obtain ⟨out, h1, ⟨h0, h2⟩, h3⟩ := uniform_levels (sch := .sqrt3) (lib := lib) (cosn := cosn) (by simp)
    (fun _ m => ((inp.points.length ≤ m.points.length ∧ m.Closed) ∧ ∀ v, v < inp.points.length → m.valence v = inp.valence v) ∧
      ∀ v, inp.points.length ≤ v → v < m.points.length → m.valence v = 6) (by
      rintro i m out f' hm hmax h ⟨⟨⟨h0, hc⟩, h1⟩, h2⟩
      have hmax := hmax rfl
      obtain ⟨h3, h4⟩ := C53_sqrt3_level hm.valid hmax h
      have R := sqrt3Update_result hm.valid (selOK_nil _) hmax h
      have hsym : ∀ e ∈ dartsOf m.tris, e.sym ∈ dartsOf m.tris := fun e he => by
        by_contra hcc
        exact hc e ⟨he, hcc⟩
      have hlen : out.points.length = m.points.length + m.tris.length := by
        rw [R.points_length]; simp [Mesh.selected, Filt.setCells]
      have hold : ∀ v, v < m.points.length → out.valence v = m.valence v := fun v hv => by
        rw [h3 v hv, List.countP_eq_zero.2, Nat.add_zero]
        intro e he
        simp [hsym e he]
      refine ⟨⟨⟨h0.trans (hlen ▸ Nat.le_add_right _ _),
        (C18_boundary_preserved_sqrt3 hm.valid (f := Filt.new.setCells []) (selOK_nil _) hmax h).2.1 hc⟩,
        fun v hv => (hold v (hv.trans_le h0)).trans (h1 v hv)⟩, fun v hge hlt => ?_⟩
      by_cases hcv : v < m.points.length
      · rw [hold v hcv]; exact h2 v hge hcv
      · obtain ⟨j, rfl⟩ := Nat.exists_eq_add_of_le (Nat.not_lt.1 hcv)
        have hj : j < m.tris.length := Nat.lt_of_add_lt_add_left (hlt.trans_eq hlen)
        rw [h4 j m.tris[j] (List.getElem?_eq_getElem hj), List.countP_eq_length.2]
        · rfl
        · intro e he
          exact decide_eq_true (hsym e (mem_dartsOf.2 ⟨_, List.getElem_mem hj, he⟩))) (max 1 f.levels) 0 hn hid
      ⟨⟨⟨le_rfl, hc⟩, fun _ _ => rfl⟩, fun v h1 h2 => absurd h2 (Nat.not_lt.2 h1)⟩
  refine ⟨out, ?_, h0.2, h2, h3⟩
  rw [iterUpdate_eq, hf, ← levelsOf_eq, h1]
  rfl

example (n : Nat) : ∃ out, (iterUpdate .loop someLib cos0 ⟨[], n, []⟩ patchMesh).1 = .ok out ∧ out.valence 0 = 3 ∧
    out.valence 5 = 1 ∧ ∀ v, 6 ≤ v → v < out.points.length → out.Regular v := by
  obtain ⟨out, h1, h2, h3⟩ := C53_uniform_regular (K := ℚ) (sch := .loop) (by decide) (fun _ => someLib_lawful) cos0
    (patchMesh_needs _) (f := ⟨[], n, []⟩) rfl
  refine ⟨out, h1, (h2 0 (by decide)).trans ?_, (h2 5 (by decide)).trans ?_, h3⟩ <;>
    · unfold Mesh.valence
      rw [patchMesh_ok.2.2.2]
      decide

example : ∃ out, (iterUpdate .sqrt3 someLib cos0 ⟨[], 7, []⟩ tetraMesh).1 = .ok out ∧ out.valence 0 = 3 ∧
    ∀ v, 4 ≤ v → v < out.points.length → out.valence v = 6 := by
  obtain ⟨out, h1, -, h2, h3⟩ := C53_sqrt3_closed (K := ℚ) someLib cos0 tetraMesh_ok.1 (by
      rintro e ⟨h1, h2⟩
      have : ∀ e ∈ dartsOf tetra, e.sym ∈ dartsOf tetra := by decide
      rw [tetraMesh_ok.2.2.2] at h1 h2
      exact h2 (this e h1)) (f := ⟨[], 7, []⟩) rfl (fun _ => by decide)
  refine ⟨out, h1, (h2 0 (by decide)).trans ?_, h3⟩
  unfold Mesh.valence
  rw [tetraMesh_ok.2.2.2]
  decide

example (out : Mesh Q3 Nat) (f' : Filt) (h : cellUpdate .sqrt3 someLib cos0 (Filt.new.setCells []) patchMesh = (.ok out, f')) :
    out.valence 3 = 2 ∧ out.valence 6 = 6 ∧ out.valence 7 = 4 := by
  obtain ⟨h1, h2⟩ := C53_sqrt3_level patchMesh_ok.1 (by decide) h
  refine ⟨(h1 3 (by decide)).trans ?_, (h2 0 (0, 1, 2) ?_).trans ?_, (h2 1 (1, 0, 3) ?_).trans ?_⟩ <;>
    · try unfold Mesh.valence
      rw [patchMesh_ok.2.2.2]
      decide

end Verif
