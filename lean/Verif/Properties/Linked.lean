import Verif.Proofs.Linked
import Verif.Proofs.Levels
import Verif.Properties.Samples
/-
C52: subdivision neither tears the surface apart nor joins parts of it.
-/
namespace Verif
set_option linter.unusedSectionVars false
variable {K P D : Type} [Field K] [Zero P] [Add P] [SMul K P] {lib : QELib} {cosn : Nat → K} {f f' : Filt} {inp out : Mesh P D}

/-- C52. The output has the connected pieces of the input. -/
theorem C52_pieces_kept {sch : Scheme} (hn : sch.Needs inp) (hsel : inp.SelOK f.cells)
    (hmax : sch = .sqrt3 → inp.points.length + (inp.selected f.cells).length ≤ idMax)
    (h : cellUpdate sch lib cosn f inp = (.ok out, f')) : SamePieces inp out := by
  by_cases hs : sch = .sqrt3
  · subst hs
    exact (sqrt3Update_result hn.valid hsel (hmax rfl) h).samePieces hn.valid
  · exact (cellUpdate_result hs hn hsel h).1.samePieces hn.valid

/-- C52, edge filters. -/
theorem C52_pieces_kept_edge {sch : EdgeScheme} (hn : sch.toScheme.Needs inp) (hsel : inp.EdgeSelOK f.edgeSel)
    (h : edgeUpdate sch lib cosn f inp = (.ok out, f')) : SamePieces inp out :=
  (edgeUpdate_result hn hsel h).samePieces hn.valid

/-- C52, any number of levels. -/
theorem C52_pieces_kept_iterative {sch : Scheme} (hl : sch = .loop ∨ sch = .butterfly → lib.Lawful) {f : Iter}
    (hn : sch.Needs inp) (hsel : inp.SelOK f.cells) (hid : sch.IdsLeft (max 1 f.levels) inp f.cells)
    (h : (iterUpdate sch lib cosn f inp).1 = .ok out) : SamePieces inp out := by
  refine (iter_induct (lib := lib) (cosn := cosn) hl
    (fun m _ => SamePieces inp m ∧ inp.points.length ≤ m.points.length) ?_ hn hsel hid ⟨.refl inp, le_rfl⟩ h).elim fun _ h => h.1
  rintro m out sel f' hm hsel hn' hmax h ⟨h1, h2⟩
  have h3 : m.points.length ≤ out.points.length := by
    by_cases hs : sch = .sqrt3
    · subst hs
      have R := sqrt3Update_result hm.valid hsel (hmax rfl) h
      rw [R.points_length]; exact R.longer
    · have R := (cellUpdate_result hs hm hsel h).1
      rw [R.points, AMap.length_dense]; exact R.longer
  refine ⟨h1.trans (C52_pieces_kept hm hsel hmax h) h2 (fun t ht v hv => hn.valid.verts_lt ht hv)
    (fun t ht v hv => hm.valid.verts_lt ht hv), h2.trans h3⟩

/-- two triangles that have nothing in common -/
def apartMesh : Mesh Q3 Nat :=
  mk [(0, 0, 0), (1, 0, 0), (0, 1, 0), (0, 0, 5), (1, 0, 5), (0, 1, 5)] [(0, 1, 2), (3, 4, 5)] none

theorem apartMesh_ok : apartMesh.Valid ∧ apartMesh.RingOK ∧ apartMesh.NoIsolated ∧ apartMesh.tris = [(0, 1, 2), (3, 4, 5)] :=
  mk_ok _ (by decide)

theorem apartMesh_apart : ¬ apartMesh.Linked 0 3 := by
  have key : ∀ y, apartMesh.Linked 0 y → y = 0 ∨ y = 1 ∨ y = 2 := by
    intro y hy
    induction hy with
    | refl => exact .inl rfl
    | @tail y z _ hs ih =>
      obtain ⟨t, ht, h1, h2⟩ := hs
      rw [apartMesh_ok.2.2.2] at ht
      simp only [List.mem_cons, List.not_mem_nil, or_false] at ht
      rcases ht with rfl | rfl
      · simpa [Tri.verts] using h2
      · simp only [Tri.verts, List.mem_cons, List.not_mem_nil, or_false] at h1
        exfalso
        rcases ih with rfl | rfl | rfl <;> revert h1 <;> decide
  intro h
  have := key 3 h
  revert this
  decide

example (sch : Scheme) (hs : sch ≠ .sqrt3) (n : Nat) (out : Mesh Q3 Nat)
    (h : (iterUpdate sch someLib cos0 ⟨[0], n, []⟩ apartMesh).1 = .ok out) : ¬ out.Linked 0 3 ∧ out.Linked 0 2 := by
  have hn : sch.Needs apartMesh := ⟨apartMesh_ok.1, fun _ => apartMesh_ok.2.1, fun _ => apartMesh_ok.2.2.1⟩
  have := C52_pieces_kept_iterative (fun _ => someLib_lawful) (f := ⟨[0], n, []⟩) hn (show apartMesh.SelOK [0] by unfold Mesh.SelOK; decide)
    (fun hc => absurd hc hs) h
  refine ⟨fun hc => apartMesh_apart ((this.linked 0 3 (by decide) (by decide)).1 hc),
    (this.linked 0 2 (by decide) (by decide)).2 (Mesh.linked_tri (t := (0, 1, 2)) ?_ (by decide) (by decide))⟩
  rw [apartMesh_ok.2.2.2]
  decide

example (out : Mesh Q3 Nat) (f' : Filt) (h : cellUpdate .sqrt3 someLib cos0 (usedFilt [1, 3]) patchMesh = (.ok out, f')) :
    SamePieces patchMesh out :=
  C52_pieces_kept (patchMesh_needs _) patchMesh_sel (fun _ => by decide) h

example (out : Mesh Q3 Nat) (f' : Filt) (h : edgeUpdate .loop someLib cos0
    (Filt.new.setEdges [some (1, 0), none, some (4, 2)]) patchMesh = (.ok out, f')) : SamePieces patchMesh out :=
  C52_pieces_kept_edge (sch := .loop) (patchMesh_needs _) patchMesh_edges h

end Verif
