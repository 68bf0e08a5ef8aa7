/-
Reading VTU files: from pieces to the mesh.
-/
import Verif.Proofs.VtuFile
import Verif.Proofs.VtkFileMesh
import Verif.Props.VtuCells
namespace Meshio.VtuFile
open Meshio Meshio.Spec Meshio.VtkFile Meshio.Vtu Meshio.Vtk Meshio.Tables

variable {F : Type}

theorem joinKey_one {R : Type} (k : String) (d : Dict (List R)) (a : List R) (h : Dict.get? d k = some a) : joinKey k [d] = .ok a := by
  simp [joinKey, h]

theorem joinPoint_one {R : Type} (d : Dict (List R)) (h : Dict.Ok d) : joinPointData [d] = .ok (some d) := by
  unfold joinPointData
  have : mapRes (joinEntry [d]) d.keys = .ok d := by
    have := mapRes_ok_of_forall (f := joinEntry [d]) (g := fun k => (k, (Dict.get? d k).getD [])) (l := d.keys) (by
      intro k hk
      obtain ⟨kv, hkv, rfl⟩ := List.mem_map.mp hk
      have := Dict.get?_of_mem h (k := kv.1) (v := kv.2) hkv
      simp [joinEntry, joinKey_one _ _ _ this, this])
    rw [this, Dict.keys, List.map_map]
    congr 1
    conv => rhs; rw [← List.map_id d]
    apply List.map_congr_left
    intro kv hkv
    have := Dict.get?_of_mem h (k := kv.1) (v := kv.2) hkv
    simp [this]
  simp only [this]

theorem rowsOnly_ok {d : Dict (Arr (Num F))} (h : Dict.Ok d) : Dict.Ok (rowsOnly d) := by
  have e : Dict.keys (rowsOnly d) = Dict.keys d := by simp [Dict.keys, rowsOnly, Function.comp_def]
  unfold Dict.Ok
  rw [e]
  exact h

theorem pointArrs_rowsOnly (d : Dict (Arr (Num F))) (h : Dict.Ok d) : pointArrs d (rowsOnly d) = d := by
  unfold pointArrs rowsOnly
  rw [List.map_map]
  conv => rhs; rw [← List.map_id d]
  apply List.map_congr_left
  intro kv hkv
  have := Dict.get?_of_mem h (k := kv.1) (v := kv.2) hkv
  simp [this]

theorem sameKind_keys (d : Dict (Arr (Num F))) (h : Dict.Ok d) :
    mapRes (fun k => sameKind (([d] : List (Dict (Arr (Num F)))).filterMap fun d => Dict.get? d k)) (d.map (·.1)) = .ok (d.map fun _ => ()) := by
  have := mapRes_ok_of_forall (f := fun k => sameKind (([d] : List (Dict (Arr (Num F)))).filterMap fun d => Dict.get? d k)) (g := fun _ => ())
    (l := d.map (·.1)) (by
      intro k hk
      obtain ⟨kv, hkv, rfl⟩ := List.mem_map.mp hk
      have := Dict.get?_of_mem h (k := kv.1) (v := kv.2) hkv
      simp [this, sameKind])
  rw [this, List.map_map]

/-- A file with one piece. -/
theorem merge_single (p : VtuPiece F) (fd : Dict (Arr (Num F))) (hl : p.cells.types.length = p.cells.offsets.length)
    (hpd : ∀ d ∈ p.pointData, Dict.Ok d) {cells : List VtuBlock} {cd : Dict (List (List (List (Num F))))}
    (h : organizeCells [0] [p.cells] [rowsOnly (p.cellData.getD [])] = .ok (cells, cd)) :
    merge [pieceArrs p] fd = build ⟨p.points, cells, p.pointData.getD [], VtkFile.cellArrays (p.cellData.getD []) cd, fd⟩ := by
  have hr : readPieces ([pieceArrs p].map PieceArrs.rows) = .ok (p.points.rows, p.pointData.map rowsOnly, cells, cd) := by
    unfold readPieces
    rw [if_neg (by simp), if_neg (by simp [badCounts, PieceArrs.rows, pieceArrs, hl])]
    have e1 : ([pieceArrs p].map PieceArrs.rows).filterMap (·.points) = [p.points.rows] := rfl
    have e2 : ([pieceArrs p].map PieceArrs.rows).filterMap (·.cells) = [p.cells] := rfl
    have e3 : (if ([pieceArrs p].map PieceArrs.rows).filterMap (·.cellData) = [] then List.replicate ([p.cells] : List CellArrays).length []
        else ([pieceArrs p].map PieceArrs.rows).filterMap (·.cellData)) = [rowsOnly (p.cellData.getD [])] := by
      simp only [List.map_cons, List.map_nil, PieceArrs.rows, pieceArrs]
      cases p.cellData <;> rfl
    have e4 : joinPointData (([pieceArrs p].map PieceArrs.rows).filterMap (·.pointData)) = .ok (p.pointData.map rowsOnly) := by
      simp only [List.map_cons, List.map_nil, PieceArrs.rows, pieceArrs]
      cases hp : p.pointData with
      | none => rfl
      | some d => exact joinPoint_one _ (rowsOnly_ok (hpd d hp))
    dsimp only
    rw [e1, e2, e3, if_neg (by simp), if_neg (by simp), e4]
    simp only [pointOffsets, Nat.cast_zero, h]
    simp
  unfold merge
  rw [hr]
  have e5 : [pieceArrs p].filterMap (·.points) = [p.points] := rfl
  have e6 : ([pieceArrs p].filterMap (·.pointData)).head?.getD [] = p.pointData.getD [] := by
    simp only [pieceArrs, List.filterMap_cons, List.filterMap_nil]
    cases p.pointData <;> rfl
  have e7 : ([pieceArrs p].filterMap (·.cellData)).getLast?.getD [] = p.cellData.getD [] := by
    simp only [pieceArrs, List.filterMap_cons, List.filterMap_nil]
    cases p.cellData <;> rfl
  have e8 : sameKind [p.points] = .ok () := by simp [sameKind]
  have e9 : mapRes (fun k => sameKind (([pieceArrs p].filterMap (·.pointData)).filterMap fun d => Dict.get? d k)) ((p.pointData.getD []).map (·.1)) =
      .ok ((p.pointData.getD []).map fun _ => ()) := by
    simp only [pieceArrs, List.filterMap_cons, List.filterMap_nil]
    cases hp : p.pointData with
    | none => rfl
    | some d => exact sameKind_keys d (hpd d hp)
  simp only [e5, e6, e7, e8, e9]
  congr 2
  cases hp : p.pointData with
  | none => rfl
  | some d => exact pointArrs_rowsOnly d (hpd d hp)

theorem build_ok {m : Out F} (h1 : ∀ b ∈ m.cells, KnownType (blockType b)) (h2 : ∀ kv ∈ m.pointData, kv.2.rows.length = m.points.rows.length)
    (h3 : ∀ kv ∈ m.cellData, kv.2.map (·.rows.length) = m.cells.map blockLen) : build m = .ok m := by
  unfold build
  rw [(all_hasDim (fun b => blockType b) m.cells).2 h1]
  simp only [Bool.not_true, Bool.false_eq_true, if_false]
  rw [if_neg, if_neg]
  · rw [Bool.not_eq_true, List.any_eq_false]
    intro kv hkv
    simp [h3 kv hkv]
  · rw [Bool.not_eq_true, List.any_eq_false]
    intro kv hkv
    simp [h2 kv hkv]

/-- The arrays of cells. -/
def vtuArrays (cs : List VtkCell) : CellArrays := ⟨connectivityOf cs, endsFrom 0 cs, cs.map (·.1), none, none⟩

/-- The data of the cells, unless no cell is of a known type. -/
def vtuData (cs : List VtkCell) (raw : Dict (Arr (Num F))) : Dict (List (Arr (Num F))) := if vtkBlocks cs = [] then [] else VtkFile.outData cs raw

theorem blockType_rows (l : List (String × List (List Int))) (P : String → Prop) (h : ∀ b ∈ l, P b.1) :
    ∀ b ∈ l.map (fun b => VtuBlock.rows b.1 b.2), P (blockType b) := by
  intro b hb
  obtain ⟨x, hx, rfl⟩ := List.mem_map.mp hb
  exact h x hx

theorem readable_known (cs : List VtkCell) (h : ∀ c ∈ cs, Readable c) : ∀ c ∈ cs, ∀ t, vtkName c.1 = some t → KnownType t := by
  intro c hc t ht
  rcases h c hc with h | ⟨t', h1, h2, -⟩
  · rw [h] at ht; cases ht
  · rw [h1] at ht; cases ht; exact h2

/-- Ordinary cells. -/
theorem read_rows {io : VtuIO F} {sysBig : Bool} {root : XmlElem} {p : VtuPiece F} {fd : Dict (Arr (Num F))} {cs : List VtkCell}
    (h : SaysVtu io sysBig root [p] fd) (hc : p.cells = vtuArrays cs) (hne : cs ≠ []) (hr : ∀ c ∈ cs, Readable c)
    (hpd : ∀ d ∈ p.pointData, Dict.Ok d ∧ ∀ kv ∈ d, kv.2.rows.length = p.points.rows.length)
    (hcd : ∀ d ∈ p.cellData, Dict.Ok d ∧ ∀ kv ∈ d, kv.2.rows.length = cs.length) :
    readRoot io sysBig root = .ok ⟨p.points, (vtkBlocks cs).map fun b => .rows b.1 b.2, p.pointData.getD [], vtuData cs (p.cellData.getD []), fd⟩ := by
  have hcd' : Dict.Ok (p.cellData.getD []) ∧ ∀ kv ∈ p.cellData.getD [], kv.2.rows.length = cs.length := by
    cases hp : p.cellData with
    | none => exact ⟨by simp [Dict.Ok, Dict.keys], by simp⟩
    | some d => exact hcd d hp
  have hpd' : ∀ kv ∈ p.pointData.getD [], kv.2.rows.length = p.points.rows.length := by
    cases hp : p.pointData with
    | none => simp
    | some d => exact (hpd d hp).2
  have ho := organize_ok [PieceCells.mk 0 cs (rowsOnly (p.cellData.getD []))] (by
    intro q hq
    simp only [List.mem_singleton] at hq
    subst hq
    refine ⟨hne, hr, rowsOnly_ok hcd'.1, ?_⟩
    intro kd hkd
    obtain ⟨kv, hkv, rfl⟩ := List.mem_map.mp hkd
    exact hcd'.2 kv hkv) _ rfl
  simp only [List.map_cons, List.map_nil, List.getLast_singleton, Int.add_zero, List.map_id'] at ho
  have ha : arraysOf cs = p.cells := hc.symm
  obtain ⟨cd, e1, e2⟩ : ∃ cd, organizeCells [0] [arraysOf cs] [rowsOnly (p.cellData.getD [])] = .ok ((vtkBlocks cs).map fun b => .rows b.1 b.2, cd) ∧
      VtkFile.cellArrays (p.cellData.getD []) cd = vtuData cs (p.cellData.getD []) := by
    unfold vtuData
    by_cases hv : vtkBlocks cs = []
    · have e : (pieceSt (PieceCells.mk 0 cs (rowsOnly (p.cellData.getD [])))).2 = [] := if_pos hv
      rw [e] at ho
      exact ⟨_, ho, by rw [if_pos hv]; rfl⟩
    · have e : (pieceSt (PieceCells.mk 0 cs (rowsOnly (p.cellData.getD [])))).2 =
          (rowsOnly (p.cellData.getD [])).map fun kd => (kd.1, vtkData cs kd.2) := if_neg hv
      rw [e] at ho
      exact ⟨_, ho, by rw [if_neg hv]; exact VtkFile.cellArrays_ok cs _ hcd'.1⟩
  rw [ha] at e1
  rw [readRoot_ok h]
  simp only [List.map_cons, List.map_nil]
  rw [merge_single p fd (by rw [hc]; simp [vtuArrays, length_endsFrom]) (fun d hd => (hpd d hd).1) e1, e2]
  apply build_ok
  · exact blockType_rows _ _ (VtkFile.known_blocks cs (readable_known cs hr))
  · exact hpd'
  · intro kv hkv
    simp only [vtuData] at hkv
    split at hkv
    · cases hkv
    · rw [VtkFile.outData_lengths cs _ hcd'.2 kv hkv]
      simp [blockLen]

/-- The data of polyhedra: one array for each number of nodes, in ascending order. -/
def polyData (cs : List (List (List Int))) (raw : Dict (Arr (Num F))) : Dict (List (Arr (Num F))) :=
  raw.map fun kv => (kv.1, (npUnique (cs.map (fun c => (polyNodes c : Int)))).map fun sz =>
    ⟨kv.2.dtype, kv.2.tail, rowsOfSize (cs.map (fun c => (polyNodes c : Int))) sz kv.2.rows⟩)

theorem cellArrays_map (raw : Dict (Arr (Num F))) (h : Dict.Ok raw) (f : List (List (Num F)) → List (List (List (Num F)))) :
    VtkFile.cellArrays raw ((rowsOnly raw).map fun kd => (kd.1, f kd.2)) =
      raw.map fun kv => (kv.1, (f kv.2.rows).map fun rows => ⟨kv.2.dtype, kv.2.tail, rows⟩) := by
  unfold VtkFile.cellArrays rowsOnly
  rw [List.map_map, List.map_map]
  apply List.map_congr_left
  intro kv hkv
  simp only [Function.comp_def]
  rw [Dict.get?_of_mem h (k := kv.1) (v := kv.2) hkv]
  rfl

/-- Polyhedra. -/
theorem read_poly {io : VtuIO F} {sysBig : Bool} {root : XmlElem} {p : VtuPiece F} {fd : Dict (Arr (Num F))} {bs : List (List (List (List Int)))}
    (h : SaysVtu io sysBig root [p] fd) (hc : p.cells = writePolyVtu bs) (hne : bs.flatten ≠ []) (hr : ∀ c ∈ bs.flatten, c ≠ [])
    (hpd : ∀ d ∈ p.pointData, Dict.Ok d ∧ ∀ kv ∈ d, kv.2.rows.length = p.points.rows.length)
    (hcd : ∀ d ∈ p.cellData, Dict.Ok d ∧ ∀ kv ∈ d, kv.2.rows.length = bs.flatten.length) :
    readRoot io sysBig root = build ⟨p.points, (firstSeen (bs.flatten.map polyName)).map fun t => .poly t (polysOf bs.flatten t),
      p.pointData.getD [], polyData bs.flatten (p.cellData.getD []), fd⟩ := by
  have hcd' : Dict.Ok (p.cellData.getD []) ∧ ∀ kv ∈ p.cellData.getD [], kv.2.rows.length = bs.flatten.length := by
    cases hp : p.cellData with
    | none => exact ⟨by simp [Dict.Ok, Dict.keys], by simp⟩
    | some d => exact hcd d hp
  have ho := Props.C23_read bs hne hr (rowsOnly (p.cellData.getD [])) (rowsOnly_ok hcd'.1) (by
    intro kd hkd
    obtain ⟨kv, hkv, rfl⟩ := List.mem_map.mp hkd
    exact hcd'.2 kv hkv)
  rw [← hc] at ho
  rw [readRoot_ok h]
  simp only [List.map_cons, List.map_nil]
  obtain ⟨cfg, g, -, -, ⟨-, h3, -⟩, -⟩ := h
  have hl : p.cells.types.length = p.cells.offsets.length := by
    generalize g.kids.filter (fun e => decide (e.tag = "Piece")) = l at h3
    cases l with
    | nil => exact h3.elim
    | cons e l => exact h3.1.2.2.1
  rw [merge_single p fd hl (fun d hd => (hpd d hd).1) ho]
  have := cellArrays_map (p.cellData.getD []) hcd'.1 (fun d => (npUnique (bs.flatten.map (fun c => (polyNodes c : Int)))).map
          (fun sz => rowsOfSize (bs.flatten.map (fun c => (polyNodes c : Int))) sz d))
  rw [this]
  simp only [List.map_map, polyData, Function.comp_def]

end Meshio.VtuFile
