import Verif.Proofs.CondSafe
/-
C47: the conditional filter is safe on valid meshes.
-/
namespace Verif
set_option linter.unusedSectionVars false
variable {K P D : Type} [Field K] [Zero P] [Add P] [SMul K P] [LinearOrder K]

/-- C47 for cells. On a valid mesh, with the scheme, the area function, the threshold and the history arbitrary, after
`n` iterations `Update()` of the conditional filter is either still running or has returned normally: it never throws and
never has undefined behaviour.  What it returns is a valid mesh with the Euler characteristic of the input, closed iff the
input is, and with all points of the input at their places unless the scheme is Loop, and it has no fewer cells.
SquareThree uses the largest id as a mark, so that the number of points it may reach has to stay below. -/
theorem C47_area_safe {sch : Scheme} {lib : QELib} (cosn : Nat → K) {inp : Mesh P D} (hv : inp.Valid)
    (hl : sch = .loop ∨ sch = .butterfly → lib.Lawful) (hi : sch = .loop → inp.NoIsolated) (n : Nat)
    (hmax : sch = .sqrt3 → inp.points.length + 4 ^ n * inp.cells.length ≤ idMax)
    (area : P → P → P → K) (A : K) (c : Cond Filt CId) :
    condGenerate lib (condCellUpd sch lib cosn) (some (areaCompute area A)) n c inp = none ∨
      ∃ out c', condGenerate lib (condCellUpd sch lib cosn) (some (areaCompute area A)) n c inp = some (.ok out, c') ∧
        out.Valid ∧ out.euler = inp.euler ∧ (inp.Closed ↔ out.Closed) ∧
        (sch ≠ .loop → ∀ v p, inp.pos v = some p → out.pos v = some p) ∧ inp.cells.length ≤ out.cells.length := by
  have hcrit : ∀ (m : Mesh P D) (old : List CId), m.Valid → ∃ l, areaCompute area A m old = (.ok (), l) ∧
      m.SelOK l ∧ l.Nodup := by
    intro m old hm
    obtain ⟨l, h1, h0, h2⟩ := C28_area_exact area A hm.cells_sorted hm.allTriangles hm.cornersExist old
    exact ⟨l, h1, fun k hk => TooLarge.mem ((h2 k).1 hk), h0.imp fun h => Nat.ne_of_lt h⟩
  have hv' := copyGeometry_valid lib hv
  obtain ⟨l, h1, h2, h3⟩ := hcrit _ c.sel hv'
  have hg : condGenerate lib (condCellUpd sch lib cosn) (some (areaCompute area A)) n c inp =
      condLoop (condCellUpd sch lib cosn) (areaCompute area A) n ⟨c.inner, l⟩ (copyGeometry lib inp) := by
    unfold condGenerate
    simp only [h1]
  rw [hg]
  have key := condLoop_safe (upd := condCellUpd sch lib cosn) (crit := areaCompute area A)
    (fun n sel m => Descendant (sch ≠ .loop) inp m ∧ sch.Needs m ∧ m.SelOK sel ∧ sel.Nodup ∧
      (sch = .sqrt3 → m.points.length + 4 ^ n * m.cells.length ≤ idMax)) (n := n) (c := ⟨c.inner, l⟩)
    (cur := copyGeometry lib inp) ?_
    ⟨descendant_copy lib hv _, copyGeometry_needs hv hl hi, h2, h3, fun hs => by
      rw [copyGeometry_points lib hv, cells_length_copyGeometry lib hv]; exact hmax hs⟩
  · rcases key with key | ⟨out, c', k, sel', h4, h5, -⟩
    · exact Or.inl key
    · exact Or.inr ⟨out, c', h4, h5.valid, h5.euler, h5.closed, h5.kept, h5.cells⟩
  · rintro n s sel cur ⟨d, hn, hsel, hnd, hmx⟩ hne
    by_cases hs : sch = .sqrt3
    · subst hs
      have h4 : 1 ≤ 4 ^ n := Nat.one_le_pow _ _ (by omega)
      have hm := hmx rfl
      rw [pow_succ] at hm
      have hm' : cur.points.length + cur.cells.length + 4 ^ n * (3 * cur.cells.length) ≤ idMax := by
        refine Nat.le_trans ?_ hm
        have : cur.cells.length ≤ 4 ^ n * cur.cells.length := Nat.le_mul_of_pos_left _ h4
        have h5 : 4 ^ n * 4 * cur.cells.length = 4 ^ n * cur.cells.length + 4 ^ n * (3 * cur.cells.length) := by ring
        rw [h5]; omega
      obtain ⟨m, f', h5, h6, h7, h8, h9, h10, h11⟩ := condSqrt3_ok (lib := lib) cosn d.valid hne hsel hnd (by omega) s
      obtain ⟨l, k1, k2, k3⟩ := hcrit m sel h7
      refine ⟨m, f', l, h5, k1, ⟨h7, ?_, ?_, ?_, d.cells.trans h11⟩, ⟨h7, ?_, ?_⟩, k2, k3, fun _ => ?_⟩
      · exact (C17_euler_preserved_sqrt3 d.valid (f := s.setCells sel) hsel h8 hnd h6).trans d.euler
      · exact d.closed.trans (C18_boundary_preserved_sqrt3 d.valid (f := s.setCells sel) hsel h8 h6).2
      · exact fun hk v p hp => C06_original_points_kept (by decide) d.valid.points_dense h6 v p (d.kept hk v p hp)
      · rintro (h | h) <;> cases h
      · intro h; cases h
      · refine Nat.le_trans (Nat.add_le_add h9 (Nat.mul_le_mul_left _ h10)) hm'
    · obtain ⟨m, f', h5, h6, h7, h8⟩ := condCellUpd_ok cosn hs hl hn hsel s
      obtain ⟨l, k1, k2, k3⟩ := hcrit m sel h7.valid
      refine ⟨m, f', l, h5, k1, ⟨h7.valid, ?_, ?_, ?_, d.cells.trans (cells_le_of_children d.valid h7.valid h8)⟩, h7, k2, k3, fun h => (hs h).elim⟩
      · exact (C17_euler_preserved hs hn (f := s.setCells sel) hsel h6).trans d.euler
      · exact d.closed.trans (C18_boundary_preserved hs hn (f := s.setCells sel) hsel h6).2
      · exact fun hk v p hp => C06_original_points_kept hk d.valid.points_dense h6 v p (d.kept hk v p hp)

/-- C47 for edges; the edge filters keep the points of the input with every scheme. -/
theorem C47_length_safe {sch : EdgeScheme} {lib : QELib} (cosn : Nat → K) {inp : Mesh P D} (hv : inp.Valid)
    (hl : sch = .loop ∨ sch = .butterfly → lib.Lawful) (hi : sch = .loop → inp.NoIsolated) (n : Nat)
    (len : P → P → K) (L : K) (c : Cond Filt (Option Edge)) :
    condGenerate lib (condEdgeUpd sch lib cosn) (some (lengthCompute len L)) n c inp = none ∨
      ∃ out c', condGenerate lib (condEdgeUpd sch lib cosn) (some (lengthCompute len L)) n c inp = some (.ok out, c') ∧
        out.Valid ∧ out.euler = inp.euler ∧ (inp.Closed ↔ out.Closed) ∧
        (∀ v p, inp.pos v = some p → out.pos v = some p) ∧ inp.cells.length ≤ out.cells.length := by
  have hcrit : ∀ (m : Mesh P D) (old : List (Option Edge)), m.Valid → ∃ l : List Edge,
      lengthCompute len L m old = (.ok (), l.map some) ∧ (∀ e ∈ l, m.IsEdge e) ∧ DistinctEdges l := by
    intro m old hm
    obtain ⟨l, h1, -, h2, h3⟩ := C29_length_exact len L hm.has_edge_cells hm.endsExist old
    exact ⟨l, h1, fun e he => Or.inl ((h2 e).1 he).1, h3 hm.edges_once⟩
  have hv' := copyGeometry_valid lib hv
  obtain ⟨l, h1, h2, h3⟩ := hcrit _ c.sel hv'
  have hg : condGenerate lib (condEdgeUpd sch lib cosn) (some (lengthCompute len L)) n c inp =
      condLoop (condEdgeUpd sch lib cosn) (lengthCompute len L) n ⟨c.inner, l.map some⟩ (copyGeometry lib inp) := by
    unfold condGenerate
    simp only [h1]
  rw [hg]
  have hl' : sch.toScheme = .loop ∨ sch.toScheme = .butterfly → lib.Lawful := by
    intro h
    refine hl ?_
    cases sch with
    | linear => rcases h with h | h <;> cases h
    | loop => exact Or.inl rfl
    | butterfly => exact Or.inr rfl
  have hi' : sch.toScheme = .loop → inp.NoIsolated := by
    intro h
    refine hi ?_
    cases sch with
    | linear => cases h
    | loop => rfl
    | butterfly => cases h
  have key := condLoop_safe (upd := condEdgeUpd sch lib cosn) (crit := lengthCompute len L)
    (fun _ sel m => Descendant True inp m ∧ sch.toScheme.Needs m ∧ ∃ l : List Edge, sel = l.map some ∧
      (∀ e ∈ l, m.IsEdge e) ∧ DistinctEdges l) (n := n) (c := ⟨c.inner, l.map some⟩)
    (cur := copyGeometry lib inp) ?_
    ⟨descendant_copy lib hv _, copyGeometry_needs hv hl' hi', l, rfl, h2, h3⟩
  · rcases key with key | ⟨out, c', k, sel', h4, h5, -⟩
    · exact Or.inl key
    · exact Or.inr ⟨out, c', h4, h5.valid, h5.euler, h5.closed, h5.kept trivial, h5.cells⟩
  · rintro n s sel cur ⟨d, hn, l, rfl, hE, hD⟩ hne
    have hne' : l ≠ [] := by simpa using hne
    obtain ⟨m, f', h5, h6, h7, h8⟩ := condEdgeUpd_ok cosn hl hn hne' hE hD s
    have hsel : cur.EdgeSelOK (s.setEdges (l.map some)).edgeSel := by
      intro e he
      obtain ⟨e', he', h⟩ := List.mem_map.1 he
      cases h
      exact hE _ he'
    have hd : DistinctEdges (cur.selectedEdges (s.setEdges (l.map some)).edgeSel) := by
      have : (s.setEdges (l.map some)).edgeSel = l.map some := rfl
      rw [this, selectedEdges_some _ hne']; exact hD
    obtain ⟨l', k1, k2, k3⟩ := hcrit m (l.map some) h7.valid
    refine ⟨m, f', _, h5, k1, ⟨h7.valid, ?_, ?_, ?_, d.cells.trans (cells_le_of_children d.valid h7.valid h8)⟩, h7, l', rfl, k2, k3⟩
    · exact (C17_euler_preserved_edge hn hsel hd h6).trans d.euler
    · exact d.closed.trans (C18_boundary_preserved_edge hn hsel h6).2
    · exact fun hk v p hp => C06_original_points_kept_edge d.valid.points_dense h6 v p (d.kept hk v p hp)

example : condGenerate someLib (condCellUpd .sqrt3 someLib cos0) (some (areaCompute shadow 6)) 3 ⟨usedFilt [1], [7]⟩ patchMesh = none ∨
      ∃ out c', condGenerate someLib (condCellUpd .sqrt3 someLib cos0) (some (areaCompute shadow 6)) 3 ⟨usedFilt [1], [7]⟩
          patchMesh = some (.ok out, c') ∧
        out.Valid ∧ out.euler = patchMesh.euler ∧ (patchMesh.Closed ↔ out.Closed) ∧
        (Scheme.sqrt3 ≠ .loop → ∀ v p, patchMesh.pos v = some p → out.pos v = some p) ∧ patchMesh.cells.length ≤ out.cells.length :=
  C47_area_safe cos0 patchMesh_ok.1 (fun _ => someLib_lawful) (fun h => by cases h) 3 (fun _ => by decide) _ _ _

/-- the run above has returned -/
example : returned (condGenerate someLib (condCellUpd .sqrt3 someLib cos0) (some (areaCompute shadow 6)) 3
    ⟨usedFilt [1], [7]⟩ patchMesh) = true := by decide +kernel

example (n : Nat) : condGenerate someLib (condEdgeUpd .loop someLib cos0) (some (lengthCompute taxi 4)) n ⟨Filt.new, []⟩ patchMesh = none ∨
      ∃ out c', condGenerate someLib (condEdgeUpd .loop someLib cos0) (some (lengthCompute taxi 4)) n ⟨Filt.new, []⟩
          patchMesh = some (.ok out, c') ∧
        out.Valid ∧ out.euler = patchMesh.euler ∧ (patchMesh.Closed ↔ out.Closed) ∧
        (∀ v p, patchMesh.pos v = some p → out.pos v = some p) ∧ patchMesh.cells.length ≤ out.cells.length :=
  C47_length_safe cos0 patchMesh_ok.1 (fun _ => someLib_lawful) (fun _ => patchMesh_ok.2.2.1) n _ _ _

/-- C34 is false for SquareThree as well: with a threshold below all areas the loop has not ended after `n` iterations, for
all `n` for which the ids suffice. -/
theorem C34_negative_area_sqrt3_refuted {lib : QELib} (cosn : Nat → K) {inp : Mesh P D} (hv : inp.Valid)
    (hne : inp.cells ≠ []) {area : P → P → P → K} {A : K} (hA : ∀ a b c, A < area a b c) (c : Cond Filt CId) (n : Nat)
    (hmax : inp.points.length + 4 ^ n * inp.cells.length ≤ idMax) :
    condGenerate lib (condCellUpd .sqrt3 lib cosn) (some (areaCompute area A)) n c inp = none := by
  rcases C47_area_safe (sch := .sqrt3) (lib := lib) cosn hv (by rintro (h | h) <;> cases h) (fun h => by cases h) n
    (fun _ => hmax) area A c with h | ⟨out, c', h, h1, -, -, -, h2⟩
  · exact h
  · have hlen : out.tris.length ≠ 0 := by
      rw [h1.tris_length]
      have := List.length_pos_of_ne_nil hne
      omega
    obtain ⟨t, ht⟩ := List.exists_mem_of_ne_nil _ (by simpa using hlen)
    obtain ⟨k, hk⟩ := h1.mem_tris.1 ht
    exact ((C30_area_postcondition h).2.2.1 k ⟨t, _, _, _, hk, h1.pos_eq (h1.verts_lt ht (by simp [Tri.verts])),
      h1.pos_eq (h1.verts_lt ht (by simp [Tri.verts])), h1.pos_eq (h1.verts_lt ht (by simp [Tri.verts])), hA _ _ _⟩).elim

example : condGenerate someLib (condCellUpd .sqrt3 someLib cos0) (some (areaCompute shadow (-1))) 30
    ⟨Filt.new, []⟩ patchMesh = none :=
  C34_negative_area_sqrt3_refuted cos0 patchMesh_ok.1 (by decide)
    (fun _ _ _ => lt_of_lt_of_le (by norm_num) (abs_nonneg _)) _ 30 (by decide)

end Verif
