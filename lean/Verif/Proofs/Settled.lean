import Verif.Proofs.CondInduct
import Verif.Proofs.NoData
import Verif.Proofs.NoPointData
import Verif.Properties.Conditional
/-
A mesh that a conditional filter has made is its own copy.
-/
namespace Verif
set_option linter.unusedSectionVars false
variable {K P D : Type} [Field K] [Zero P] [Add P] [SMul K P] {lib : QELib} {cosn : Nat → K}

/-- what a filter leaves behind when the input has no cell data: a valid mesh with cells numbered from 0 and the rings that
the library makes for it -/
structure Settled (lib : QELib) (m : Mesh P D) : Prop where
  valid : m.Valid
  cells : ∃ T : List Tri, m.cells = AMap.dense (T.map fun t => some t.cell)
  noData : m.cellData = none
  ring : m.ring = lib.link m.edges m.left m.cells
  noPointData : m.pointData = none

theorem Settled.copy {m : Mesh P D} (h : Settled lib m) : copyGeometry lib m = m := by
  have hv := h.valid
  have hcells : (copyGeometry lib m).cells = m.cells := by
    rw [copyGeometry_cells lib hv]
    obtain ⟨T, hT⟩ := h.cells
    have : m.tris = T := by
      unfold Mesh.tris
      rw [hT]
      have key : ∀ (i : Nat) (L : List Tri),
          (AMap.denseFrom i (L.map fun t => some t.cell)).filterMap (fun c => Cell.tri? c.2) = L := by
        intro i L
        induction L generalizing i with
        | nil => rfl
        | cons t L ih => simp [AMap.denseFrom, ih]
      exact key 0 T
    rw [this, hT]
  have hleft : (copyGeometry lib m).left = m.left := by
    funext e
    refine Option.ext fun k => ?_
    rw [(copyGeometry_valid lib hv).left_iff, hv.left_iff, hcells]
  have hring : (copyGeometry lib m).ring = m.ring := by
    rw [h.ring, ← hleft, ← hcells]
    rfl
  have hpoints := copyGeometry_points lib hv
  have key : ∀ a b : Mesh P D, a.points = b.points → a.cells = b.cells → a.cellData = b.cellData →
      a.hasEdgeCells = b.hasEdgeCells → a.edges = b.edges → a.left = b.left → a.ring = b.ring →
      a.pointData = b.pointData → a = b := by
    rintro ⟨⟩ ⟨⟩ h1 h2 h3 h4 h5 h6 h7 h8
    simp_all
  exact key _ _ hpoints hcells h.noData.symm hv.has_edge_cells.symm rfl hleft hring h.noPointData.symm

theorem Settled.of_copy {m : Mesh P D} (hv : m.Valid) : Settled lib (copyGeometry lib m) :=
  ⟨copyGeometry_valid lib hv, ⟨m.tris, copyGeometry_cells lib hv⟩, rfl, rfl, rfl⟩

theorem Settled.cellUpdate {sch : Scheme} {f f' : Filt} {inp out : Mesh P D} (hn : sch.Needs inp) (ho : out.Valid)
    (hsel : inp.SelOK f.cells) (hmax : sch = .sqrt3 → inp.points.length + (inp.selected f.cells).length ≤ idMax)
    (h : cellUpdate sch lib cosn f inp = (.ok out, f')) (hd : inp.cellData = none) : Settled lib out := by
  refine ⟨ho, ?_, cellUpdate_no hd h, ?_, cellUpdate_pd h⟩ <;> by_cases hs : sch = .sqrt3
  · subst hs
    exact ⟨_, (sqrt3Update_result hn.valid hsel (hmax rfl) h).built.cells⟩
  · exact ⟨_, (cellUpdate_result hs hn hsel h).1.built.cells⟩
  · subst hs
    exact (sqrt3Update_result hn.valid hsel (hmax rfl) h).ring
  · exact (cellUpdate_result hs hn hsel h).1.ring

theorem Settled.edgeUpdate {sch : EdgeScheme} {f f' : Filt} {inp out : Mesh P D} (hn : sch.toScheme.Needs inp) (ho : out.Valid)
    (hsel : inp.EdgeSelOK f.edgeSel) (h : edgeUpdate sch lib cosn f inp = (.ok out, f')) (hd : inp.cellData = none) :
    Settled lib out :=
  have R := edgeUpdate_result hn hsel h
  ⟨ho, ⟨_, R.built.cells⟩, edgeUpdate_no hd h, R.ring, edgeUpdate_pd h⟩

end Verif
