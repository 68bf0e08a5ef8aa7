/-
C19, C20: the legacy VTK cell stream and structured grids.
-/
import Verif.Proofs.VtkLegacy
import Verif.Proofs.Grid
namespace Meshio.Props
open Meshio Meshio.Spec Meshio.Vtk Meshio.Tables

variable {R : Type}

/-! ## C19 -/

/-- Reading a version 4.2 stream: any list of cells of fixed-size types decodes to its
maximal runs with their data. -/
theorem C19_read42 (cs : List VtkCell) (hcs : ∀ c ∈ cs, FixedCell c) (extra : List Int)
    (raw : Dict (List R)) (hraw : Dict.Ok raw) (hdata : ∀ kd ∈ raw, kd.2.length = cs.length) :
    translateCells (streamOf cs ++ extra) (cs.map (·.1)) raw =
      .ok (vtkBlocks cs,
        if vtkBlocks cs = [] then [] else raw.map (fun kd => (kd.1, vtkData cs kd.2))) :=
  translateCells_fixed cs hcs extra raw hraw hdata

/-- Writing: the stream is each cell's node count followed by its nodes in VTK order, in
block order; the types are the codes. -/
theorem C19_write42 (bs : List Blk) (h : ∀ b ∈ bs, Writable b) :
    writeCells42 bs = .ok
      ((rowsOf bs).flatMap (fun x => (x.2.length : Int) :: toVtk x.1 x.2),
        (rowsOf bs).map (fun x => (vtkCode x.1).getD 0)) := by
  rw [writeCells42_ok bs h, cellsOf_eq]
  congr 2
  · simp only [streamOf, List.flatMap_map, length_toVtk]
  · rw [List.map_map]; rfl

/-- A block the 4.2 format can hold with its data: a type with a code and a positive
entry in the table of node counts, and rows of that length. -/
def FixedBlock (b : Blk) : Prop :=
  ∃ c, vtkCode b.1 = some c ∧ ∃ n : Nat, vtkNumNodes[c]? = some (n : Int) ∧ 0 < n ∧
    ∀ r ∈ b.2, r.length = n

theorem FixedBlock.writable {b : Blk} (h : FixedBlock b) : Writable b := by
  obtain ⟨c, hc, n, hn, _, hr⟩ := h
  refine ⟨⟨c, hc⟩, fun e r hr' => ?_⟩
  rw [hr r hr']
  rw [e] at hc
  have h1 : vtkCode "wedge" = some 13 := by decide +kernel
  rw [h1] at hc
  cases hc
  have h2 : vtkNumNodes[13]? = some 6 := by decide +kernel
  rw [h2] at hn
  injection hn with hn
  omega

theorem fixed_cells {bs : List Blk} (h : ∀ b ∈ bs, FixedBlock b) :
    ∀ c ∈ cellsOf bs, FixedCell c := by
  intro c hc
  rw [cellsOf_eq] at hc
  obtain ⟨x, hx, rfl⟩ := List.mem_map.mp hc
  obtain ⟨b, hb, e, hr⟩ := mem_rowsOf hx
  obtain ⟨code, h1, n, h2, h3, h4⟩ := h b hb
  simp only [FixedCell, e, h1, Option.getD_some, length_toVtk, h4 _ hr]
  exact ⟨h2, h3⟩

/-- C19 as stated: what is written for any list of writable blocks and any cell data
(rows in block order) is read back with every cell, in order, and with its data. -/
def C19_statement : Prop :=
  ∀ (bs : List Blk) (raw : Dict (List Nat)), (∀ b ∈ bs, Writable b) → Dict.Ok raw →
    (∀ kd ∈ raw, kd.2.length = (rowsOf bs).length) → fuse bs ≠ [] →
    ∃ s t, writeCells42 bs = .ok (s, t) ∧
      translateCells s t raw = .ok (fuse bs, raw.map (fun kd => (kd.1, fuseData bs kd.2)))

/-- False: as soon as one cell is a polygon all cell data are dropped. -/
theorem C19_false : ¬ C19_statement := by
  intro h
  have h0 : ∀ b ∈ [("polygon", [[0, 1, 2, 3, 4]])], Writable b := by
    intro b hb
    simp only [List.mem_cons, List.not_mem_nil, or_false] at hb
    subst hb
    exact ⟨⟨7, by decide +kernel⟩, by decide⟩
  obtain ⟨s, t, h1, h2⟩ := h [("polygon", [[0, 1, 2, 3, 4]])] [("a", [17])]
    h0 (by decide) (by decide +kernel) (by decide +kernel)
  rw [writeCells42_ok _ h0] at h1
  cases h1
  have h3 := translateCells_poly (cellsOf [("polygon", [[0, 1, 2, 3, 4]])])
    (by intro c hc
        have : c = (7, [0, 1, 2, 3, 4]) := by
          have e : cellsOf [("polygon", [[0, 1, 2, 3, 4]])] = [(7, [0, 1, 2, 3, 4])] := by
            decide +kernel
          rw [e] at hc; simpa using hc
        subst this
        exact ⟨⟨"polygon", by decide +kernel⟩, by decide⟩)
    (by decide +kernel) [] [("a", [17])]
  rw [List.append_nil] at h3
  rw [h3] at h2
  injection h2 with h2
  injection h2 with _ h2
  exact absurd h2 (by decide)

/-- What holds: lists of blocks of the fixed-size types round-trip with their data. -/
theorem C19_roundtrip42_partial (bs : List Blk) (h : ∀ b ∈ bs, FixedBlock b)
    (raw : Dict (List R)) (hraw : Dict.Ok raw)
    (hdata : ∀ kd ∈ raw, kd.2.length = (rowsOf bs).length) :
    ∃ s t, writeCells42 bs = .ok (s, t) ∧
      translateCells s t raw = .ok (fuse bs,
        if fuse bs = [] then [] else raw.map (fun kd => (kd.1, fuseData bs kd.2))) := by
  have hc : ∀ b ∈ bs, ∃ c, vtkCode b.1 = some c := fun b hb =>
    let ⟨c, hc, _⟩ := h b hb
    ⟨c, hc⟩
  have hl : (cellsOf bs).length = (rowsOf bs).length := by rw [cellsOf_eq]; simp
  refine ⟨_, _, writeCells42_ok bs (fun b hb => (h b hb).writable), ?_⟩
  have h2 := translateCells_fixed (cellsOf bs) (fixed_cells h) [] raw hraw
    (fun kd hkd => by rw [hdata kd hkd, hl])
  rw [List.append_nil, vtkBlocks_cellsOf bs hc] at h2
  rw [h2]
  have : raw.map (fun kd => (kd.1, vtkData (cellsOf bs) kd.2)) =
      raw.map (fun kd => (kd.1, fuseData bs kd.2)) := by
    apply List.map_congr_left
    intro kd hkd
    rw [vtkData_cellsOf bs hc kd.2 (hdata kd hkd)]
  rw [this]

/-- With polygons the cells still round-trip (polygons of different sizes in separate
blocks), but no cell data come back. -/
theorem C19_polygons42_partial (bs : List Blk) (h : ∀ b ∈ bs, Writable b)
    (hp : ∃ b ∈ bs, b.1 = "polygon" ∧ b.2 ≠ []) (raw : Dict (List R)) :
    ∃ s t, writeCells42 bs = .ok (s, t) ∧ translateCells s t raw = .ok (fuse bs, []) := by
  have hc : ∀ b ∈ bs, ∃ c, vtkCode b.1 = some c := fun b hb => (h b hb).1
  refine ⟨_, _, writeCells42_ok bs h, ?_⟩
  have h2 := translateCells_poly (cellsOf bs)
    (by
      intro c hcm
      rw [cellsOf_eq] at hcm
      obtain ⟨x, hx, rfl⟩ := List.mem_map.mp hcm
      obtain ⟨b, hb, e, hr⟩ := mem_rowsOf hx
      obtain ⟨⟨code, h1⟩, h2⟩ := h b hb
      simp only [StreamCell, e, h1, Option.getD_some, length_toVtk]
      refine ⟨⟨b.1, vtkCode_iff.mp h1⟩, fun e13 => ?_⟩
      subst e13
      have hw : vtkName 13 = some "wedge" := by decide +kernel
      have := vtkCode_iff.mp h1
      rw [hw] at this
      injection this with this
      exact h2 this.symm _ hr)
    (by
      obtain ⟨b, hb, e, hne⟩ := hp
      cases hrows : b.2 with
      | nil => exact absurd hrows hne
      | cons r rs =>
        refine ⟨((vtkCode b.1).getD 0, toVtk b.1 r), ?_, ?_⟩
        · unfold cellsOf
          exact List.mem_flatMap.mpr ⟨b, hb, List.mem_map.mpr ⟨r, by rw [hrows]; simp, rfl⟩⟩
        · rw [e]
          have : vtkCode "polygon" = some 7 := by decide +kernel
          simp [this])
    [] raw
  rw [List.append_nil, vtkBlocks_cellsOf bs hc] at h2
  exact h2

/-- A block the 5.1 format can hold: like above, but variable-size types are allowed and
the block must not be empty. -/
def Block51 (b : Blk2) : Prop :=
  (∃ c, vtkCode b.type = some c ∧ KnownType b.type ∧
    (c ∈ varSize ∨ numNodesPerCell.get? b.type = some b.width)) ∧
  b.width ≠ 0 ∧ b.rows ≠ [] ∧ ∀ r ∈ b.rows, r.length = b.width

theorem Block51.writable {b : Blk2} (h : Block51 b) : Writable b.blk := by
  obtain ⟨⟨c, hc, _, hs⟩, _, _, hr⟩ := h
  refine ⟨⟨c, hc⟩, fun e r hr' => ?_⟩
  rw [hr r hr']
  have e : b.type = "wedge" := e
  rw [e] at hc hs
  have h1 : vtkCode "wedge" = some 13 := by decide +kernel
  rw [h1] at hc
  cases hc
  rcases hs with hs | hs
  · exact absurd hs (by decide)
  · have h6 : numNodesPerCell.get? "wedge" = some 6 := by decide +kernel
    rw [h6] at hs
    injection hs with hs
    exact hs.symm

/-- Version 5.1: every non-empty list of non-empty blocks round-trips with its data, also
with polygons and Lagrange cells. -/
theorem C19_roundtrip51 (bs : List Blk2) (hne : bs ≠ []) (h : ∀ b ∈ bs, Block51 b)
    (raw : Dict (List R)) (hraw : Dict.Ok raw)
    (hdata : ∀ kd ∈ raw, kd.2.length = (rowsOf (bs.map Blk2.blk)).length) :
    ∃ offs conn types, writeCells51 bs = .ok (offs, conn, types) ∧
      readCells51 offs conn types raw = .ok (fuse (bs.map Blk2.blk),
        raw.map (fun kd => (kd.1, fuseData (bs.map Blk2.blk) kd.2))) := by
  have hc : ∀ b ∈ bs.map Blk2.blk, ∃ c, vtkCode b.1 = some c := by
    intro b hb
    obtain ⟨b', hb', rfl⟩ := List.mem_map.mp hb
    obtain ⟨⟨c, hc, _⟩, _⟩ := h b' hb'
    exact ⟨c, hc⟩
  have hl : (cellsOf (bs.map Blk2.blk)).length = (rowsOf (bs.map Blk2.blk)).length := by
    rw [cellsOf_eq]; simp
  refine ⟨_, _, _, writeCells51_ok bs (fun b hb => ⟨(h b hb).writable, (h b hb).2⟩), ?_⟩
  have hrne : rowsOf (bs.map Blk2.blk) ≠ [] := by
    cases bs with
    | nil => exact absurd rfl hne
    | cons b bs =>
      obtain ⟨_, _, h3, _⟩ := h b (by simp)
      cases hb : b.rows with
      | nil => exact absurd hb h3
      | cons r rs => simp [rowsOf, Blk2.blk, hb]
  have hcne : cellsOf (bs.map Blk2.blk) ≠ [] := by
    intro e
    rw [e] at hl
    exact hrne (List.length_eq_zero_iff.mp hl.symm)
  have h2 := readCells51_ok (cellsOf (bs.map Blk2.blk)) hcne
    (by
      intro c hcm
      rw [cellsOf_eq] at hcm
      obtain ⟨x, hx, rfl⟩ := List.mem_map.mp hcm
      obtain ⟨b, hb, e, hr⟩ := mem_rowsOf hx
      obtain ⟨b', hb', rfl⟩ := List.mem_map.mp hb
      obtain ⟨⟨code, h1, h2, h3⟩, _, _, h4⟩ := h b' hb'
      have e : x.1 = b'.type := e
      refine .inr ⟨b'.type, ?_, h2, ?_⟩
      · simp only [e, h1, Option.getD_some]; exact vtkCode_iff.mp h1
      · simp only [e, h1, Option.getD_some, length_toVtk, h4 _ hr]; exact h3)
    raw hraw (fun kd hkd => by rw [hdata kd hkd, hl])
  rw [vtkBlocks_cellsOf _ hc] at h2
  have hfne : fuse (bs.map Blk2.blk) ≠ [] := by
    unfold fuse
    intro e
    have hf := flatten_runsBy (fun x : String × List Int => (x.1, x.2.length))
      (rowsOf (bs.map Blk2.blk))
    rw [List.filterMap_eq_nil_iff] at e
    cases hr : runsBy (fun x : String × List Int => (x.1, x.2.length)) (rowsOf (bs.map Blk2.blk)) with
    | nil => rw [hr] at hf; exact hrne hf.symm
    | cons r rs =>
      have h1 := e r (by rw [hr]; simp)
      cases r with
      | nil => exact runsBy_ne_nil _ _ [] (by rw [hr]; simp) rfl
      | cons x r => simp at h1
  rw [h2, if_neg hfne]
  have : raw.map (fun kd => (kd.1, vtkData (cellsOf (bs.map Blk2.blk)) kd.2)) =
      raw.map (fun kd => (kd.1, fuseData (bs.map Blk2.blk) kd.2)) := by
    apply List.map_congr_left
    intro kd hkd
    rw [vtkData_cellsOf _ hc kd.2 (hdata kd hkd)]
  rw [this]

/-- An empty block cannot be written by the 5.1 writer (IndexError). -/
theorem C19_empty_block51 (b : Blk2) (bs : List Blk2) (hw : b.width ≠ 0) (h : b.rows = []) :
    writeCells51 (b :: bs) = .error .indexError := by
  simp [writeCells51, offsetsOut51, hw, h]

/-- Fusing keeps all rows in order. -/
theorem C19_fuse_rows (bs : List Blk) : rowsOf (fuse bs) = rowsOf bs := by
  unfold fuse
  have h := flatten_runsBy (fun x : String × List Int => (x.1, x.2.length)) (rowsOf bs)
  conv => rhs; rw [← h]
  have hu := runsBy_uniform (fun x : String × List Int => (x.1, x.2.length)) (rowsOf bs)
  generalize runsBy (fun x : String × List Int => (x.1, x.2.length)) (rowsOf bs) = rs at hu
  induction rs with
  | nil => rfl
  | cons r rs ih =>
    have ih := ih (fun r' h' => hu r' (by simp [h']))
    cases r with
    | nil => simpa using ih
    | cons x r =>
      simp only [List.filterMap_cons, List.head?_cons, Option.map_some, List.flatten_cons]
      have e : ∀ (b : Blk) (l : List Blk),
          rowsOf (b :: l) = b.2.map (fun r => (b.1, r)) ++ rowsOf l := by intro b l; rfl
      rw [e, ih]
      congr 1
      rw [List.map_map]
      conv => rhs; rw [← List.map_id (x :: r)]
      apply List.map_congr_left
      intro y hy
      have := hu (x :: r) (by simp) x (by simp) y hy
      simp only [Prod.mk.injEq] at this
      simp only [Function.comp_def, this.1, id]

/-- Fusing keeps all data rows in order. -/
theorem C19_fuse_data (bs : List Blk) (d : List R) (h : d.length = (rowsOf bs).length) :
    (fuseData bs d).flatten = d := by
  unfold fuseData
  rw [← List.map_flatten, flatten_runsBy, List.map_snd_zip (by omega)]

/-- Non-trivial instance: two triangle blocks, an empty block, a wedge. -/
example : (∀ b ∈ [("triangle", [[0, 1, 2]]), ("quad", []), ("triangle", [[2, 1, 3]]),
      ("wedge", [[0, 1, 2, 3, 4, 5]])], FixedBlock b) ∧
    fuse [("triangle", [[0, 1, 2]]), ("quad", []), ("triangle", [[2, 1, 3]]),
      ("wedge", [[0, 1, 2, 3, 4, 5]])] =
      [("triangle", [[0, 1, 2], [2, 1, 3]]), ("wedge", [[0, 1, 2, 3, 4, 5]])] := by
  refine ⟨?_, by decide +kernel⟩
  intro b hb
  simp only [List.mem_cons, List.not_mem_nil, or_false] at hb
  rcases hb with rfl | rfl | rfl | rfl
  · exact ⟨5, by decide +kernel, 3, by decide +kernel, by decide, by decide⟩
  · exact ⟨9, by decide +kernel, 4, by decide +kernel, by decide, by decide⟩
  · exact ⟨5, by decide +kernel, 3, by decide +kernel, by decide, by decide⟩
  · exact ⟨13, by decide +kernel, 6, by decide +kernel, by decide, by decide⟩

example : Block51 ⟨"polygon", 5, [[0, 1, 2, 3, 4]]⟩ :=
  ⟨⟨7, by decide +kernel, .inr (by decide +kernel), .inl (by decide)⟩, by decide, by decide, by decide⟩

/-! ## C20 -/

/-- A grid of `x*y*z` points (at least one axis with more than one point) has exactly the
cells of the specification, each preceded by its number of corners, and the code of a
line, quad or hexahedron for each. -/
theorem C20_cells (x y z : Nat) (hx : 0 < x) (hy : 0 < y) (hz : 0 < z)
    (h : 1 < x ∨ 1 < y ∨ 1 < z) :
    generateCells [x, y, z] =
      .ok ((gridCells (gridAxes x y z)).map (fun r => r.length :: r),
        List.replicate (gridCells (gridAxes x y z)).length (gridCode (gridAxes x y z).length)) := by
  have L1 : ∀ a b : Nat, (gridCells [(a, b)]).map (fun r => r.length :: r) =
      (gridCells [(a, b)]).map (fun r => 2 :: r) := by
    intro a b
    apply List.map_congr_left
    intro r hr
    simp only [gridCells, List.mem_map] at hr
    obtain ⟨i, _, rfl⟩ := hr; rfl
  have L2 : ∀ a b c d : Nat, (gridCells [(a, b), (c, d)]).map (fun r => r.length :: r) =
      (gridCells [(a, b), (c, d)]).map (fun r => 4 :: r) := by
    intro a b c d
    apply List.map_congr_left
    intro r hr
    simp only [gridCells, List.mem_map, List.mem_flatMap] at hr
    obtain ⟨j, _, i, _, rfl⟩ := hr; rfl
  have L3 : ∀ a b c d e f : Nat,
      (gridCells [(a, b), (c, d), (e, f)]).map (fun r => r.length :: r) =
      (gridCells [(a, b), (c, d), (e, f)]).map (fun r => 8 :: r) := by
    intro a b c d e f
    apply List.map_congr_left
    intro r hr
    simp only [gridCells, List.mem_map, List.mem_flatMap] at hr
    obtain ⟨k, _, j, _, i, _, rfl⟩ := hr; rfl
  unfold generateCells
  by_cases h1 : 1 < x <;> by_cases h2 : 1 < y <;> by_cases h3 : 1 < z
  · obtain ⟨a, rfl⟩ : ∃ a, x = a + 1 := ⟨x - 1, by omega⟩
    obtain ⟨b, rfl⟩ : ∃ a, y = a + 1 := ⟨y - 1, by omega⟩
    obtain ⟨c, rfl⟩ : ∃ a, z = a + 1 := ⟨z - 1, by omega⟩
    have ha : gridAxes (a + 1) (b + 1) (c + 1) =
        [(a + 1, 1), (b + 1, a + 1), (c + 1, (a + 1) * (b + 1))] := by
      simp only [gridAxes, List.filter_cons, h1, h2, h3, decide_true, if_true, List.filter_nil, gt_iff_lt]
    have hf : ([a + 1, b + 1, c + 1].filter (fun d => decide (d > 1))).map (fun d => d - 1) = [a, b, c] := by
      simp only [gt_iff_lt, List.filter_cons, h1, h2, h3, decide_true, if_true, List.filter_nil, List.map_cons,
        List.map_nil, Nat.add_sub_cancel]
    simp only [hf, List.foldl_cons, List.foldl_nil, Nat.one_mul, ha]
    rw [generate_hex a b c (a + 1) ((a + 1) * (b + 1)) rfl rfl, L3, length_gridCells3]
    rfl
  · obtain ⟨a, rfl⟩ : ∃ a, x = a + 1 := ⟨x - 1, by omega⟩
    obtain ⟨b, rfl⟩ : ∃ a, y = a + 1 := ⟨y - 1, by omega⟩
    have ha : gridAxes (a + 1) (b + 1) z = [(a + 1, 1), (b + 1, a + 1)] := by
      simp only [gridAxes, List.filter_cons, h1, h2, h3, decide_true, decide_false, if_true, List.filter_nil, gt_iff_lt,
        Bool.false_eq_true, if_false]
    have hf : ([a + 1, b + 1, z].filter (fun d => decide (d > 1))).map (fun d => d - 1) = [a, b] := by
      simp only [gt_iff_lt, List.filter_cons, h1, h2, h3, decide_true, decide_false, if_true, List.filter_nil, List.map_cons,
        List.map_nil, Nat.add_sub_cancel, Bool.false_eq_true, if_false]
    simp only [hf, List.foldl_cons, List.foldl_nil, Nat.one_mul, ha]
    rw [generate_quad a b (a + 1) rfl, L2, length_gridCells2]
    rfl
  · obtain ⟨a, rfl⟩ : ∃ a, x = a + 1 := ⟨x - 1, by omega⟩
    obtain ⟨c, rfl⟩ : ∃ a, z = a + 1 := ⟨z - 1, by omega⟩
    have hy1 : y = 1 := by omega
    subst hy1
    have ha : gridAxes (a + 1) 1 (c + 1) = [(a + 1, 1), (c + 1, a + 1)] := by
      simp only [gridAxes, List.filter_cons, h1, h2, h3, decide_true, decide_false, if_true, List.filter_nil, gt_iff_lt,
        Bool.false_eq_true, if_false, Nat.mul_one]
    have hf : ([a + 1, 1, c + 1].filter (fun d => decide (d > 1))).map (fun d => d - 1) = [a, c] := by
      simp only [gt_iff_lt, List.filter_cons, h1, h2, h3, decide_true, decide_false, if_true, List.filter_nil, List.map_cons,
        List.map_nil, Nat.add_sub_cancel, Bool.false_eq_true, if_false]
    simp only [hf, List.foldl_cons, List.foldl_nil, Nat.one_mul, ha]
    rw [generate_quad a c (a + 1) rfl, L2, length_gridCells2]
    rfl
  · obtain ⟨a, rfl⟩ : ∃ a, x = a + 1 := ⟨x - 1, by omega⟩
    have ha : gridAxes (a + 1) y z = [(a + 1, 1)] := by
      simp only [gridAxes, List.filter_cons, h1, h2, h3, decide_true, decide_false, if_true, List.filter_nil, gt_iff_lt,
        Bool.false_eq_true, if_false]
    have hf : ([a + 1, y, z].filter (fun d => decide (d > 1))).map (fun d => d - 1) = [a] := by
      simp only [gt_iff_lt, List.filter_cons, h1, h2, h3, decide_true, decide_false, if_true, List.filter_nil, List.map_cons,
        List.map_nil, Nat.add_sub_cancel, Bool.false_eq_true, if_false]
    simp only [hf, List.foldl_cons, List.foldl_nil, Nat.one_mul, ha]
    rw [generate_line a, L1, length_gridCells1]
    rfl
  · have hx1 : x = 1 := by omega
    subst hx1
    obtain ⟨b, rfl⟩ : ∃ a, y = a + 1 := ⟨y - 1, by omega⟩
    obtain ⟨c, rfl⟩ : ∃ a, z = a + 1 := ⟨z - 1, by omega⟩
    have ha : gridAxes 1 (b + 1) (c + 1) = [(b + 1, 1), (c + 1, b + 1)] := by
      simp only [gridAxes, List.filter_cons, h1, h2, h3, decide_true, decide_false, if_true, List.filter_nil, gt_iff_lt,
        Bool.false_eq_true, if_false, Nat.one_mul]
    have hf : ([1, b + 1, c + 1].filter (fun d => decide (d > 1))).map (fun d => d - 1) = [b, c] := by
      simp only [gt_iff_lt, List.filter_cons, h1, h2, h3, decide_true, decide_false, if_true, List.filter_nil, List.map_cons,
        List.map_nil, Nat.add_sub_cancel, Bool.false_eq_true, if_false]
    simp only [hf, List.foldl_cons, List.foldl_nil, Nat.one_mul, ha]
    rw [generate_quad b c (b + 1) rfl, L2, length_gridCells2]
    rfl
  · have hx1 : x = 1 := by omega
    subst hx1
    obtain ⟨b, rfl⟩ : ∃ a, y = a + 1 := ⟨y - 1, by omega⟩
    have ha : gridAxes 1 (b + 1) z = [(b + 1, 1)] := by
      simp only [gridAxes, List.filter_cons, h1, h2, h3, decide_true, decide_false, if_true, List.filter_nil, gt_iff_lt,
        Bool.false_eq_true, if_false]
    have hf : ([1, b + 1, z].filter (fun d => decide (d > 1))).map (fun d => d - 1) = [b] := by
      simp only [gt_iff_lt, List.filter_cons, h1, h2, h3, decide_true, decide_false, if_true, List.filter_nil, List.map_cons,
        List.map_nil, Nat.add_sub_cancel, Bool.false_eq_true, if_false]
    simp only [hf, List.foldl_cons, List.foldl_nil, Nat.one_mul, ha]
    rw [generate_line b, L1, length_gridCells1]
    rfl
  · have hx1 : x = 1 := by omega
    have hy1 : y = 1 := by omega
    subst hx1 hy1
    obtain ⟨c, rfl⟩ : ∃ a, z = a + 1 := ⟨z - 1, by omega⟩
    have ha : gridAxes 1 1 (c + 1) = [(c + 1, 1)] := by
      simp only [gridAxes, List.filter_cons, h1, h2, h3, decide_true, decide_false, if_true, List.filter_nil, gt_iff_lt,
        Bool.false_eq_true, if_false, Nat.one_mul]
    have hf : ([1, 1, c + 1].filter (fun d => decide (d > 1))).map (fun d => d - 1) = [c] := by
      simp only [gt_iff_lt, List.filter_cons, h1, h2, h3, decide_true, decide_false, if_true, List.filter_nil, List.map_cons,
        List.map_nil, Nat.add_sub_cancel, Bool.false_eq_true, if_false]
    simp only [hf, List.foldl_cons, List.foldl_nil, Nat.one_mul, ha]
    rw [generate_line c, L1, length_gridCells1]
    rfl
  · omega

/-- A single point is not handled: the generator fails with IndexError. -/
theorem C20_single_point (x y z : Nat) (hx : x ≤ 1) (hy : y ≤ 1) (hz : z ≤ 1) :
    generateCells [x, y, z] = .error .indexError := by
  have h1 : ¬ 1 < x := by omega
  have h2 : ¬ 1 < y := by omega
  have h3 : ¬ 1 < z := by omega
  simp [generateCells, h1, h2, h3]

/-- The number of cells is the product of the numbers of intervals over the axes with at
least two points. -/
theorem C20_count (x y z : Nat) (hx : 0 < x) (hy : 0 < y) (hz : 0 < z)
    (h : 1 < x ∨ 1 < y ∨ 1 < z) :
    (gridCells (gridAxes x y z)).length =
      (if 1 < x then x - 1 else 1) * (if 1 < y then y - 1 else 1) * (if 1 < z then z - 1 else 1) := by
  by_cases h1 : 1 < x <;> by_cases h2 : 1 < y <;> by_cases h3 : 1 < z <;>
    simp only [gridAxes, List.filter_cons, gt_iff_lt, h1, h2, h3, decide_true, decide_false,
      if_true, if_false, Bool.false_eq_true, List.filter_nil, length_gridCells1,
      length_gridCells2, length_gridCells3, Nat.mul_one, Nat.one_mul]
  omega

/-- All corner numbers are numbers of points of the grid. -/
theorem C20_in_range (x y z : Nat) (hx : 0 < x) (hy : 0 < y) (hz : 0 < z)
    (r : List Nat) (hr : r ∈ gridCells (gridAxes x y z)) (p : Nat) (hp : p ∈ r) :
    p < x * y * z := by
  have key : p ≤ (x - 1) * 1 + (y - 1) * x + (z - 1) * (x * y) := by
    by_cases h1 : 1 < x <;> by_cases h2 : 1 < y <;> by_cases h3 : 1 < z <;>
      simp only [gridAxes, List.filter_cons, gt_iff_lt, h1, h2, h3, decide_true, decide_false,
        if_true, if_false, Bool.false_eq_true, List.filter_nil] at hr
    · exact gridCells_bound3 hr hp
    · have := gridCells_bound2 hr hp; omega
    · have := gridCells_bound2 hr hp; omega
    · have := gridCells_bound1 hr hp; omega
    · have := gridCells_bound2 hr hp; omega
    · have := gridCells_bound1 hr hp; omega
    · have := gridCells_bound1 hr hp; omega
    · simp [gridCells] at hr
  obtain ⟨a, rfl⟩ : ∃ a, x = a + 1 := ⟨x - 1, by omega⟩
  obtain ⟨b, rfl⟩ : ∃ a, y = a + 1 := ⟨y - 1, by omega⟩
  obtain ⟨c, rfl⟩ : ∃ a, z = a + 1 := ⟨z - 1, by omega⟩
  simp only [Nat.add_sub_cancel] at key
  have e : (a + 1) * (b + 1) * (c + 1) = a * 1 + b * (a + 1) + c * ((a + 1) * (b + 1)) + 1 := by ring
  omega

/-- No two cells are the same. -/
theorem C20_distinct (x y z : Nat) (hx : 0 < x) (hy : 0 < y) :
    (gridCells (gridAxes x y z)).Nodup := by
  have hxy : 0 < x * y := Nat.mul_pos hx hy
  by_cases h1 : 1 < x <;> by_cases h2 : 1 < y <;> by_cases h3 : 1 < z <;>
    simp only [gridAxes, List.filter_cons, gt_iff_lt, h1, h2, h3, decide_true, decide_false,
      if_true, if_false, Bool.false_eq_true, List.filter_nil]
  · exact gridCells_nodup3 _ _ _ _ _ _ (by omega) (by omega) (Nat.mul_comm _ _) h1 h2
  · exact gridCells_nodup2 _ _ _ _ (by omega) (by omega) h1
  · have : y = 1 := by omega
    exact gridCells_nodup2 _ _ _ _ (by omega) (by rw [this]) h1
  · exact gridCells_nodup1 _ _ (by omega)
  · exact gridCells_nodup2 _ _ _ _ hx (Nat.mul_comm _ _) h2
  · exact gridCells_nodup1 _ _ hx
  · exact gridCells_nodup1 _ _ hxy
  · simp [gridCells]

/-- The points are one per grid index, x fastest. -/
theorem C20_points {F : Type} (ax ay az : List F) :
    generatePoints ax ay az = .ok (gridPoints ax ay az) := generatePoints_ok ax ay az

/-- Their number. -/
theorem C20_points_count {F : Type} (ax ay az : List F) :
    (gridPoints ax ay az).length = ax.length * ay.length * az.length := by
  simp [gridPoints, List.length_flatMap, List.map_const']; ring

/-- A 3 by 1 by 3 grid: quads over the x and z axes. -/
example : generateCells [3, 1, 3] = .ok
    ([[4, 0, 1, 4, 3], [4, 1, 2, 5, 4], [4, 3, 4, 7, 6], [4, 4, 5, 8, 7]], [9, 9, 9, 9]) := by
  decide +kernel

example : gridPoints ["x0", "x1"] ["y"] ["z0", "z1"] =
    [["x0", "y", "z0"], ["x1", "y", "z0"], ["x0", "y", "z1"], ["x1", "y", "z1"]] := rfl

end Meshio.Props
