/-
C65: reading VTU files.
-/
import Verif.Proofs.VtuFileMesh
namespace Meshio.Props
open Meshio Meshio.Spec Meshio.VtuFile Meshio.VtkFile Meshio.Vtu Meshio.Vtk Meshio.Tables

variable {F : Type}

/-- A file with one piece of ordinary cells is read completely: points, blocks of cells with node numbers, point, cell and field data, with
types and shapes; numbers may be text, base64, compressed base64 (blocks of any sizes) or appended, in either byte order, and sections in any
order.  Corrupt point data are left out.  Missing: several pieces (`C65_pieces_false`). -/
theorem C65_read_partial {io : VtuIO F} {sysBig : Bool} {root : XmlElem} {p : VtuPiece F} {fd : Dict (Arr (Num F))} {cs : List VtkCell}
    (h : SaysVtu io sysBig root [p] fd) (hc : p.cells = ⟨connectivityOf cs, endsFrom 0 cs, cs.map (·.1), none, none⟩) (hne : cs ≠ [])
    (hr : ∀ c ∈ cs, Readable c) (hpd : ∀ d ∈ p.pointData, Dict.Ok d ∧ ∀ kv ∈ d, kv.2.rows.length = p.points.rows.length)
    (hcd : ∀ d ∈ p.cellData, Dict.Ok d ∧ ∀ kv ∈ d, kv.2.rows.length = cs.length) :
    readRoot io sysBig root = .ok ⟨p.points, (vtkBlocks cs).map fun b => .rows b.1 b.2, p.pointData.getD [],
      if vtkBlocks cs = [] then []
      else (p.cellData.getD []).map fun kv => (kv.1, (vtkData cs kv.2.rows).map fun rows => ⟨kv.2.dtype, kv.2.tail, rows⟩), fd⟩ :=
  read_rows h hc hne hr hpd hcd

theorem vtu_polyRows_length {R : Type} (cs : List (List (List Int))) (d : List R) (h : d.length = cs.length) (t : String) :
    (polyRows cs d t).length = (polysOf cs t).length := by
  unfold polyRows polysOf
  induction cs generalizing d with
  | nil => simp
  | cons c cs ih =>
    cases d with
    | nil => simp at h
    | cons x d =>
      have ih := ih d (by simpa using h)
      simp only [List.zip_cons_cons, List.filter_cons]
      by_cases hc : polyName c = t
      · simp only [hc, decide_true, if_true, List.map_cons, List.length_cons, ih]
      · simp only [hc, decide_false, Bool.false_eq_true, if_false, ih]

theorem vtu_poly_known (c : List (List Int)) : KnownType (polyName c) :=
  .inl ⟨(strInt (polyNodes c)).toList, by unfold polyName; simp⟩

/-- A file with polyhedra, in the order of their numbers of nodes, is read completely.  Missing: polyhedra in another order, see `C23_false`. -/
theorem C65_poly_partial {io : VtuIO F} {sysBig : Bool} {root : XmlElem} {p : VtuPiece F} {fd : Dict (Arr (Num F))}
    {bs : List (List (List (List Int)))} (h : SaysVtu io sysBig root [p] fd) (hc : p.cells = writePolyVtu bs) (hne : bs.flatten ≠ [])
    (hr : ∀ c ∈ bs.flatten, c ≠ []) (hasc : (firstSeen (bs.flatten.map polyNodes)).Pairwise (· < ·))
    (hpd : ∀ d ∈ p.pointData, Dict.Ok d ∧ ∀ kv ∈ d, kv.2.rows.length = p.points.rows.length)
    (hcd : ∀ d ∈ p.cellData, Dict.Ok d ∧ ∀ kv ∈ d, kv.2.rows.length = bs.flatten.length) :
    readRoot io sysBig root = .ok ⟨p.points, (firstSeen (bs.flatten.map polyName)).map fun t => .poly t (polysOf bs.flatten t),
      p.pointData.getD [],
      (p.cellData.getD []).map fun kv => (kv.1, (firstSeen (bs.flatten.map polyName)).map fun t =>
        ⟨kv.2.dtype, kv.2.tail, polyRows bs.flatten kv.2.rows t⟩), fd⟩ := by
  have hcd' : Dict.Ok (p.cellData.getD []) ∧ ∀ kv ∈ p.cellData.getD [], kv.2.rows.length = bs.flatten.length := by
    cases hp : p.cellData with
    | none => exact ⟨by simp [Dict.Ok, Dict.keys], by simp⟩
    | some d => exact hcd d hp
  have hpd' : ∀ kv ∈ p.pointData.getD [], kv.2.rows.length = p.points.rows.length := by
    cases hp : p.pointData with
    | none => simp
    | some d => exact (hpd d hp).2
  have hrd : ∀ kd ∈ rowsOnly (p.cellData.getD []), kd.2.length = bs.flatten.length := by
    intro kd hkd
    obtain ⟨kv, hkv, rfl⟩ := List.mem_map.mp hkd
    exact hcd'.2 kv hkv
  obtain ⟨blocks, hb, -⟩ := C23_ascending_partial bs hne hr (rowsOnly (p.cellData.getD [])) (rowsOnly_ok hcd'.1) hrd hasc
  have hb2 := C23_read bs hne hr (rowsOnly (p.cellData.getD [])) (rowsOnly_ok hcd'.1) hrd
  rw [hb] at hb2
  simp only [Except.ok.injEq, Prod.mk.injEq] at hb2
  have hn : blocks.map (·.1) = firstSeen (bs.flatten.map polyName) := by
    have := congrArg (List.map blockType) hb2.1
    rw [List.map_map, List.map_map] at this
    simpa [Function.comp_def, blockType] using this
  rw [read_poly h hc hne hr hpd hcd]
  have e : polyData bs.flatten (p.cellData.getD []) = (p.cellData.getD []).map fun kv => (kv.1, (firstSeen (bs.flatten.map polyName)).map fun t =>
        ⟨kv.2.dtype, kv.2.tail, polyRows bs.flatten kv.2.rows t⟩) := by
    unfold polyData
    apply List.map_congr_left
    intro kv hkv
    have h2 := hb2.2
    unfold rowsOnly at h2
    rw [List.map_map, List.map_map] at h2
    have h3 := List.map_inj_left.mp h2 kv hkv
    simp only [Function.comp_def, Prod.mk.injEq, true_and] at h3
    have h4 : (blocks.map fun b => polyRows bs.flatten kv.2.rows b.1) = (firstSeen (bs.flatten.map polyName)).map (polyRows bs.flatten kv.2.rows) := by
      rw [← hn, List.map_map]; rfl
    rw [h4] at h3
    have h5 := congrArg (List.map fun rows => (⟨kv.2.dtype, kv.2.tail, rows⟩ : Arr (Num F))) h3
    rw [List.map_map, List.map_map] at h5
    simp only [Function.comp_def] at h5
    rw [← h5]
  rw [e]
  apply VtuFile.build_ok
  · intro b hb
    obtain ⟨t, ht, rfl⟩ := List.mem_map.mp hb
    obtain ⟨c, -, rfl⟩ := List.mem_map.mp ((mem_firstSeen _ _).mp ht)
    exact vtu_poly_known c
  · exact hpd'
  · intro kv hkv
    obtain ⟨x, hx, rfl⟩ := List.mem_map.mp hkv
    simp only [List.map_map, Function.comp_def, blockLen, vtu_polyRows_length _ _ (hcd'.2 x hx)]

/-! ### Several pieces -/

/-- A piece of ordinary cells with cell data. -/
def vtuRowPiece (x : Arr (Num F) × List VtkCell × Dict (Arr (Num F))) : VtuPiece F :=
  ⟨x.1, ⟨connectivityOf x.2.1, endsFrom 0 x.2.1, x.2.1.map (·.1), none, none⟩, none, some x.2.2⟩

/-- A piece meshio can read. -/
def VtuRowPiece (x : Arr (Num F) × List VtkCell × Dict (Arr (Num F))) : Prop :=
  x.2.1 ≠ [] ∧ (∀ c ∈ x.2.1, Readable c) ∧ Dict.Ok x.2.2 ∧ ∀ kv ∈ x.2.2, kv.2.rows.length = x.2.1.length

/-- What is read from several pieces: all points, but only the cells and the cell data of the last piece. -/
theorem C65_last_piece {io : VtuIO F} {sysBig : Bool} {root : XmlElem} {l : List (Arr (Num F) × List VtkCell × Dict (Arr (Num F)))}
    {fd : Dict (Arr (Num F))} (h : SaysVtu io sysBig root (l.map vtuRowPiece) fd) (hl : ∀ x ∈ l, VtuRowPiece x) {d : String} {tail : List Nat}
    (hk : ∀ x ∈ l, x.1.dtype = d ∧ x.1.tail = tail) {x : Arr (Num F) × List VtkCell × Dict (Arr (Num F))} (hx : l.getLast? = some x) :
    readRoot io sysBig root = .ok ⟨⟨d, tail, l.flatMap (·.1.rows)⟩,
      (vtkBlocks x.2.1).map fun b => .rows b.1 (b.2.map fun r => r.map (· + (((l.dropLast.map (·.1.rows.length)).sum : Nat) : Int))), [],
      if vtkBlocks x.2.1 = [] then []
      else x.2.2.map fun kv => (kv.1, (vtkData x.2.1 kv.2.rows).map fun rows => ⟨kv.2.dtype, kv.2.tail, rows⟩), fd⟩ := by
  rw [readRoot_ok h]
  let f : Arr (Num F) × List VtkCell × Dict (Arr (Num F)) → FilePiece (List (Num F)) (List (Num F)) := fun x => ⟨x.1.rows, x.2.1, rowsOnly x.2.2⟩
  have e1 : ((l.map vtuRowPiece).map pieceArrs).map PieceArrs.rows = (l.map f).map FilePiece.stored := by
    simp only [List.map_map]
    apply List.map_congr_left
    intro x _
    simp [f, vtuRowPiece, pieceArrs, PieceArrs.rows, FilePiece.stored, length_endsFrom]
  have hok : ∀ p ∈ l.map f, p.Ok := by
    intro p hp
    obtain ⟨y, hy, rfl⟩ := List.mem_map.mp hp
    obtain ⟨h1, h2, h3, h4⟩ := hl y hy
    refine ⟨h1, h2, rowsOnly_ok h3, ?_⟩
    intro kd hkd
    obtain ⟨kv, hkv, rfl⟩ := List.mem_map.mp hkd
    exact h4 kv hkv
  have hr := C21_last_piece (l.map f) hok (f x) (by rw [List.getLast?_map, hx]; rfl)
  have e2 : ((l.map f).dropLast.map (·.points.length)).sum = (l.dropLast.map (·.1.rows.length)).sum := by
    rw [← List.map_dropLast, List.map_map]; rfl
  have e3 : (l.map f).flatMap (·.points) = l.flatMap (·.1.rows) := by rw [List.flatMap_map]
  rw [e2, e3] at hr
  have hm := List.mem_of_getLast? hx
  have hlx := hl x hm
  have e4 : ((l.map vtuRowPiece).map pieceArrs).filterMap (·.points) = l.map (·.1) := by
    rw [List.map_map, List.filterMap_map]
    exact filterMap_some _ _ _ fun _ _ => rfl
  have e5 : ((l.map vtuRowPiece).map pieceArrs).filterMap (·.pointData) = [] := by
    rw [List.map_map, List.filterMap_map, List.filterMap_eq_nil_iff]; intro _ _; rfl
  have e6 : (((l.map vtuRowPiece).map pieceArrs).filterMap (·.cellData)).getLast?.getD [] = x.2.2 := by
    have : ((l.map vtuRowPiece).map pieceArrs).filterMap (·.cellData) = l.map (·.2.2) := by
      rw [List.map_map, List.filterMap_map]
      exact filterMap_some _ _ _ fun _ _ => rfl
    rw [this, List.getLast?_map, hx]; rfl
  have e7 : sameKind (l.map (·.1)) = .ok () := by
    cases l with
    | nil => rfl
    | cons y l =>
      have hy := hk y (by simp)
      rw [List.map_cons, sameKind, if_neg, if_neg]
      · simp only [List.any_map, List.any_eq_true, Function.comp_def, decide_eq_true_eq, not_exists, not_and, Decidable.not_not]
        intro z hz; rw [(hk z (by simp [hz])).1, hy.1]
      · simp only [List.any_map, List.any_eq_true, Function.comp_def, decide_eq_true_eq, not_exists, not_and, Decidable.not_not]
        intro z hz; rw [(hk z (by simp [hz])).2, hy.2]
  unfold merge
  rw [e1, hr]
  simp only [e4, e5, e6, e7]
  obtain ⟨y, l', rfl⟩ : ∃ y l', l = y :: l' := by
    cases l with
    | nil => simp at hx
    | cons y l => exact ⟨y, l, rfl⟩
  have hy := hk y (by simp)
  simp only [List.map_cons, List.head?_nil, Option.getD_none, List.map_nil, mapRes, pointArrs, hy.1, hy.2]
  have e8 : VtkFile.cellArrays x.2.2 (if vtkBlocks (f x).cells = [] then [] else (f x).data.map fun kd => (kd.1, vtkData (f x).cells kd.2)) =
      if vtkBlocks x.2.1 = [] then []
      else x.2.2.map fun kv => (kv.1, (vtkData x.2.1 kv.2.rows).map fun rows => ⟨kv.2.dtype, kv.2.tail, rows⟩) := by
    by_cases hv : vtkBlocks x.2.1 = []
    · have hv' : vtkBlocks (f x).cells = [] := hv
      rw [if_pos hv', if_pos hv]; rfl
    · have hv' : ¬ vtkBlocks (f x).cells = [] := hv
      rw [if_neg hv', if_neg hv]; exact VtkFile.cellArrays_ok x.2.1 _ hlx.2.2.1
  rw [e8]
  apply VtuFile.build_ok
  · intro b hb
    obtain ⟨z, hz, rfl⟩ := List.mem_map.mp hb
    exact VtkFile.known_blocks x.2.1 (readable_known _ hlx.2.1) z hz
  · simp
  · intro kv hkv
    simp only at hkv ⊢
    split at hkv
    · cases hkv
    · rw [VtkFile.outData_lengths x.2.1 _ hlx.2.2.2 kv hkv, List.map_map]
      simp [f, blockLen, Function.comp_def]

/-- The property one would like: the cells of all pieces are read. -/
def C65_pieces_statement : Prop :=
  ∀ (F : Type) (io : VtuIO F) (sysBig : Bool) (root : XmlElem) (l : List (Arr (Num F) × List VtkCell × Dict (Arr (Num F)))) (fd : Dict (Arr (Num F))),
    l ≠ [] → SaysVtu io sysBig root (l.map vtuRowPiece) fd → (∀ x ∈ l, VtuRowPiece x) →
    (∃ d tail, ∀ x ∈ l, x.1.dtype = d ∧ x.1.tail = tail) →
    ∃ m, readRoot io sysBig root = .ok m ∧ (m.cells.map blockLen).sum = (l.map fun x => x.2.1.length).sum

/-! ### A concrete file -/

/-- Numbers that are integers. -/
def vtuInt : VtuIO Int := ⟨fmtInt, parseInt, intEnc, intDec, 0, fun _ b => b, fun _ b => .ok b⟩

/-- A `DataArray` with text. -/
def vtuDA (name t : String) (comp : List (String × String)) (text : String) (rest : Xml) : Xml :=
  .cons "DataArray" ([("type", t), ("Name", name)] ++ comp ++ [("format", "ascii")]) text.toList .nil rest

/-- What is inside a piece with three points and a triangle. -/
def vtuTriKids (pts val : String) : Xml :=
  .cons "CellData" [] [] (vtuDA "a" "Int32" [] val .nil)
    (.cons "Points" [] [] (vtuDA "Points" "Float64" [("NumberOfComponents", "2")] pts .nil)
      (.cons "Cells" [] [] (vtuDA "offsets" "Int64" [] "3" (vtuDA "connectivity" "Int64" [] " 0 1\n2 " (vtuDA "types" "UInt8" [] "5" .nil))) .nil))

/-- A piece with three points and a triangle. -/
def vtuTri (pts val : String) (rest : Xml) : Xml :=
  .cons "Piece" [("NumberOfPoints", "3"), ("NumberOfCells", "1")] [] (vtuTriKids pts val) rest

def vtuRoot (pieces : Xml) : XmlElem :=
  ⟨"VTKFile", [("type", "UnstructuredGrid"), ("version", "0.1"), ("byte_order", "BigEndian")], [],
    .cons "UnstructuredGrid" [] [] (.cons "FieldData" [] [] (vtuDA "t" "Float32" [] "7" .nil) pieces) .nil⟩

def vtuTriPts (a b c d e f : Int) : Arr (Num Int) := ⟨"float64", [2], [[.flt a, .flt b], [.flt c, .flt d], [.flt e, .flt f]]⟩

def vtuTriIn (a b c d e f v : Int) : Arr (Num Int) × List VtkCell × Dict (Arr (Num Int)) :=
  (vtuTriPts a b c d e f, [(5, [0, 1, 2])], [("a", ⟨"int32", [], [[.int v]]⟩)])

instance all2Dec {α β : Type} {R : α → β → Prop} [∀ a b, Decidable (R a b)] : ∀ l m, Decidable (All2 R l m)
  | [], [] => .isTrue trivial
  | _ :: l, _ :: m => @instDecidableAnd _ _ (inferInstance) (all2Dec l m)
  | [], _ :: _ => .isFalse id
  | _ :: _, [] => .isFalse id

instance (d : String) (v : Num Int) (t : List Char) : Decidable (VtuToken vtuInt d v t) := by
  unfold VtuToken
  cases v <;> simp only <;> infer_instance

theorem vtu_holds {name t d : String} {isz : Nat} {comp : List (String × String)} {text : String} {a : Arr (Num Int)} {cfg : Cfg}
    (hk : (t, d, isz) ∈ vtuKinds) (hd : a.dtype = d) (ht : text.toList ≠ []) (hv : All2 (VtuToken vtuInt d) a.rows.flatten (splitWs text.toList))
    (hc : (comp = [] ∧ a.tail = [] ∧ ∀ r ∈ a.rows, r.length = 1) ∨
      ∃ k s, comp = [("NumberOfComponents", s)] ∧ a.tail = [k] ∧ 0 < k ∧ strip s.toList = fmtNat k ∧ ∀ r ∈ a.rows, r.length = k) :
    HoldsArray vtuInt cfg ⟨"DataArray", [("type", t), ("Name", name)] ++ comp ++ [("format", "ascii")], text.toList, .nil⟩ a := by
  subst hd
  refine ⟨rfl, ⟨t, isz, ?_, hk, .inl ⟨.inr ?_, ht, hv⟩⟩, ?_⟩
  · simp [XmlElem.attr?]
  · rcases hc with ⟨rfl, -⟩ | ⟨k, s, rfl, -⟩ <;> simp [XmlElem.attr?]
  · rcases hc with ⟨rfl, h1, h2⟩ | ⟨k, s, rfl, h1, h2, h3, h4⟩
    · exact .inl ⟨h1, by simp [XmlElem.attr?], h2⟩
    · exact .inr ⟨k, s, h2, h1, by simp [XmlElem.attr?], h3, h4⟩

theorem vtu_says_tri {cfg : Cfg} {a b c d e f v : Int} {pts val : String}
    (h1 : All2 (VtuToken vtuInt "float64") (vtuTriPts a b c d e f).rows.flatten (splitWs pts.toList)) (h1' : pts.toList ≠ [])
    (h2 : All2 (VtuToken vtuInt "int32") [.int v] (splitWs val.toList)) (h2' : val.toList ≠ []) :
    SaysPiece vtuInt cfg (vtuRowPiece (vtuTriIn a b c d e f v)) ⟨"Piece", [("NumberOfPoints", "3"), ("NumberOfCells", "1")], [], vtuTriKids pts val⟩ := by
  refine ⟨⟨"3", by simp [XmlElem.attr?], (by decide +kernel : strip "3".toList = fmtNat 3)⟩,
    ⟨"1", by simp [XmlElem.attr?], (by decide +kernel : strip "1".toList = fmtNat 1)⟩, rfl, ?eP, ?eC, [], ?eD, ?_, ⟨?_, ?_⟩, ⟨?_, ?_⟩, ?_, ?_⟩
  case eP => exact ⟨"Points", [], [], vtuDA "Points" "Float64" [("NumberOfComponents", "2")] pts .nil⟩
  case eC => exact ⟨"Cells", [], [], vtuDA "offsets" "Int64" [] "3" (vtuDA "connectivity" "Int64" [] " 0 1\n2 " (vtuDA "types" "UInt8" [] "5" .nil))⟩
  case eD => exact [⟨"CellData", [], [], vtuDA "a" "Int32" [] val .nil⟩]
  · exact (List.Perm.swap _ _ _).trans ((List.Perm.swap _ _ _).cons _)
  · rfl
  · exact ⟨_, rfl, vtu_holds (d := "float64") (isz := 8) (by decide +kernel) rfl h1' h1 (.inr ⟨2, "2", rfl, rfl, by decide, by decide +kernel, by simp [vtuRowPiece, vtuTriIn, vtuTriPts]⟩),
      by simp [vtuRowPiece, vtuTriIn, vtuTriPts]⟩
  · rfl
  · refine ⟨[("offsets", VtuFile.intArr "int64" [3]), ("connectivity", VtuFile.intArr "int64" [0, 1, 2]), ("types", VtuFile.intArr "uint8" [5])], ⟨by decide +kernel, ?_⟩, ?_⟩
    · exact ⟨⟨by decide +kernel, vtu_holds (isz := 8) (by decide) rfl (by decide +kernel) (by decide +kernel) (.inl ⟨rfl, rfl, by decide +kernel⟩)⟩,
        ⟨by decide +kernel, vtu_holds (isz := 8) (by decide) rfl (by decide +kernel) (by decide +kernel) (.inl ⟨rfl, rfl, by decide +kernel⟩)⟩,
        ⟨by decide +kernel, vtu_holds (isz := 1) (by decide) rfl (by decide +kernel) (by decide +kernel) (.inl ⟨rfl, rfl, by decide +kernel⟩)⟩, trivial⟩
    · exact ⟨⟨VtuFile.intArr "int64" [0, 1, 2], by decide +kernel, .inl rfl, rfl⟩, ⟨VtuFile.intArr "int64" [3], by decide +kernel, .inl rfl, rfl⟩,
        ⟨VtuFile.intArr "uint8" [5], by decide +kernel, .inl rfl, rfl⟩, by simp [vtuRowPiece, Dict.get?], by simp [vtuRowPiece, Dict.get?]⟩
  · rfl
  · exact ⟨_, rfl, rfl, by simp [vtuTriIn, Dict.Ok, Dict.keys], by simp [vtuTriIn, Dict.Ok, Dict.keys], ⟨by simp [XmlElem.attr?], vtu_holds (d := "int32") (isz := 4) (by decide +kernel) rfl h2' h2 (.inl ⟨rfl, rfl, by simp⟩)⟩, trivial⟩

theorem vtu_says_root (cfg : Cfg) (hcfg : cfg = ⟨none, "UInt32", true, none⟩) (l : List (VtuPiece Int)) (x : Xml) (hx : ∀ e ∈ x.elems, e.tag = "Piece")
    (h : All2 (SaysPiece vtuInt cfg) l x.elems) : SaysVtu vtuInt false (vtuRoot x) l [("t", ⟨"float32", [], [[.flt 7]]⟩)] := by
  have e1 : x.elems.filter (fun e => decide (e.tag = "Piece")) = x.elems := List.filter_eq_self.mpr fun e he => by simp [hx e he]
  have e2 : x.elems.filter (fun e => decide (e.tag = "FieldData")) = [] := List.filter_eq_nil_iff.mpr fun e he => by simp [hx e he]
  refine ⟨cfg, ⟨"UnstructuredGrid", [], [], .cons "FieldData" [] [] (vtuDA "t" "Float32" [] "7" .nil) x⟩, ?_, rfl, ⟨?_, ?_, ?_⟩, .inl ⟨rfl, by rw [hcfg]⟩⟩
  · rw [hcfg]
    exact ⟨rfl, by simp [vtuRoot, XmlElem.attr?], .inr (.inl (by simp [vtuRoot, XmlElem.attr?])), .inl ⟨by simp [vtuRoot, XmlElem.attr?], rfl⟩,
      .inl ⟨by simp [vtuRoot, XmlElem.attr?], rfl⟩, .inr (.inr ⟨by simp [vtuRoot, XmlElem.attr?], rfl⟩)⟩
  · intro e he
    simp only [XmlElem.kids, Xml.elems, List.mem_cons] at he
    rcases he with rfl | he
    · exact .inr rfl
    · exact .inl (hx e he)
  · simp only [XmlElem.kids, Xml.elems, List.filter_cons]
    simpa [e1] using h
  · simp only [XmlElem.kids, Xml.elems, List.filter_cons, e2]
    exact ⟨by decide +kernel, ⟨by decide +kernel, vtu_holds (isz := 4) (by decide) rfl (by decide +kernel) (by decide +kernel) (.inl ⟨rfl, rfl, by decide +kernel⟩)⟩, trivial⟩

theorem vtu_tri_ok (a b c d e f v : Int) : VtuRowPiece (vtuTriIn a b c d e f v) := by
  refine ⟨by simp [vtuTriIn], ?_, by simp [vtuTriIn, Dict.Ok, Dict.keys], by simp [vtuTriIn]⟩
  intro c hc
  simp only [vtuTriIn, List.mem_singleton] at hc
  subst hc
  exact .inr ⟨"triangle", by decide +kernel, .inr (by decide +kernel), .inr (by decide +kernel)⟩

/-- The concrete file with one piece says what one expects, and is read. -/
theorem vtu_one : SaysVtu vtuInt false (vtuRoot (vtuTri "0 0 1 0 0 1" "9" .nil)) [vtuRowPiece (vtuTriIn 0 0 1 0 0 1 9)] [("t", ⟨"float32", [], [[.flt 7]]⟩)] :=
  vtu_says_root _ rfl _ _ (by intro e he; simp only [vtuTri, Xml.elems, List.mem_singleton] at he; rw [he])
    ⟨vtu_says_tri (by decide +kernel) (by decide +kernel) (by decide +kernel) (by decide +kernel), trivial⟩

example : readRoot vtuInt false (vtuRoot (vtuTri "0 0 1 0 0 1" "9" .nil)) =
    .ok ⟨vtuTriPts 0 0 1 0 0 1, [.rows "triangle" [[0, 1, 2]]], [], [("a", [⟨"int32", [], [[.int 9]]⟩])], [("t", ⟨"float32", [], [[.flt 7]]⟩)]⟩ := by
  obtain ⟨h1, h2, h3, h4⟩ := vtu_tri_ok 0 0 1 0 0 1 9
  rw [C65_read_partial vtu_one rfl h1 h2 (by intro d hd; cases hd) (by intro d hd; cases hd; exact ⟨h3, h4⟩)]
  decide +kernel

/-- Two pieces, of three points and a triangle each. -/
theorem vtu_two : SaysVtu vtuInt false (vtuRoot (vtuTri "0 0 1 0 0 1" "9" (vtuTri "5 5 6 5 5 6" "8" .nil)))
    ([vtuTriIn 0 0 1 0 0 1 9, vtuTriIn 5 5 6 5 5 6 8].map vtuRowPiece) [("t", ⟨"float32", [], [[.flt 7]]⟩)] :=
  vtu_says_root _ rfl _ _ (by
      intro e he
      simp only [vtuTri, Xml.elems, List.mem_cons, List.not_mem_nil, or_false] at he
      rcases he with rfl | rfl <;> rfl)
    ⟨vtu_says_tri (by decide +kernel) (by decide +kernel) (by decide +kernel) (by decide +kernel),
      vtu_says_tri (by decide +kernel) (by decide +kernel) (by decide +kernel) (by decide +kernel), trivial⟩

example : readRoot vtuInt false (vtuRoot (vtuTri "0 0 1 0 0 1" "9" (vtuTri "5 5 6 5 5 6" "8" .nil))) =
    .ok ⟨⟨"float64", [2], (vtuTriPts 0 0 1 0 0 1).rows ++ (vtuTriPts 5 5 6 5 5 6).rows⟩, [.rows "triangle" [[3, 4, 5]]], [],
      [("a", [⟨"int32", [], [[.int 8]]⟩])], [("t", ⟨"float32", [], [[.flt 7]]⟩)]⟩ := by
  rw [C65_last_piece vtu_two (by
      intro x hx
      simp only [List.mem_cons, List.not_mem_nil, or_false] at hx
      rcases hx with rfl | rfl <;> exact vtu_tri_ok ..) (d := "float64") (tail := [2]) (by
      intro x hx
      simp only [List.mem_cons, List.not_mem_nil, or_false] at hx
      rcases hx with rfl | rfl <;> exact ⟨rfl, rfl⟩) (x := vtuTriIn 5 5 6 5 5 6 8) rfl]
  decide +kernel

/-- Cells of all pieces but the last are lost. -/
theorem C65_pieces_false : ¬ C65_pieces_statement := by
  intro h
  obtain ⟨m, h1, h2⟩ := h Int vtuInt false _ [vtuTriIn 0 0 1 0 0 1 9, vtuTriIn 5 5 6 5 5 6 8] _ (by simp) vtu_two (by
      intro x hx
      simp only [List.mem_cons, List.not_mem_nil, or_false] at hx
      rcases hx with rfl | rfl <;> exact vtu_tri_ok ..) ⟨"float64", [2], by
      intro x hx
      simp only [List.mem_cons, List.not_mem_nil, or_false] at hx
      rcases hx with rfl | rfl <;> exact ⟨rfl, rfl⟩⟩
  have h3 : (readRoot vtuInt false (vtuRoot (vtuTri "0 0 1 0 0 1" "9" (vtuTri "5 5 6 5 5 6" "8" .nil)))).toOption.map (fun m => (m.cells.map blockLen).sum) = some 1 := by
    decide +kernel
  rw [h1] at h3
  simp only [Except.toOption, Option.map_some, Option.some.injEq] at h3
  rw [h3] at h2
  exact absurd h2 (by decide +kernel)

/-! ### Files that are refused -/

/-- Only `VTKFile` documents of type `UnstructuredGrid` in version 0.1 or 1.0 (or without a version) are read, with a known byte order. -/
theorem C65_head_refused (io : VtuIO F) (sysBig : Bool) (root : XmlElem) :
    (root.tag ≠ "VTKFile" → readRoot io sysBig root = .error .readError) ∧
    (∀ m, readRoot io sysBig root = .ok m → root.tag = "VTKFile" ∧ root.attr? "type" = some "UnstructuredGrid" ∧
      (∀ v ∈ root.attr? "version", v = "0.1" ∨ v = "1.0") ∧ (∀ v ∈ root.attr? "byte_order", v = "LittleEndian" ∨ v = "BigEndian") ∧
      (∀ v ∈ root.attr? "compressor", v = "vtkLZMADataCompressor" ∨ v = "vtkZLibDataCompressor") ∧
      (root.kids.filter fun e => decide (e.tag = "UnstructuredGrid")).length = 1 ∧
      ∀ e ∈ root.kids, e.tag = "UnstructuredGrid" ∨ (e.tag = "AppendedData" ∧ e.attr? "encoding" = some "base64")) := by
  constructor
  · intro h; simp [readRoot, readCfg, h]
  · intro m hm
    unfold readRoot at hm
    cases hc : readCfg sysBig root with
    | error e => rw [hc] at hm; cases hm
    | ok x =>
      rw [hc] at hm
      have hg : ∃ y, getGrid root.kids none none = .ok y := by
        cases hg : getGrid root.kids none none with
        | error e => obtain ⟨a, b, c⟩ := x; simp only [hg] at hm; cases hm
        | ok y => exact ⟨y, rfl⟩
      have key : ∀ (l : List XmlElem) (g : Option XmlElem) (a : Option (List Char)) y, getGrid l g a = .ok y →
          (l.filter fun e => decide (e.tag = "UnstructuredGrid")).length + (if g = none then 0 else 1) = 1 ∧
          ∀ e ∈ l, e.tag = "UnstructuredGrid" ∨ (e.tag = "AppendedData" ∧ e.attr? "encoding" = some "base64") := by
        intro l
        induction l with
        | nil =>
          intro g a y h
          cases g with
          | none => cases h
          | some g => simp
        | cons c l ih =>
          intro g a y h
          unfold getGrid at h
          split at h
          · rename_i ht
            cases g with
            | some g => cases h
            | none =>
              obtain ⟨h1, h2⟩ := ih _ _ _ h
              refine ⟨?_, ?_⟩
              · rw [List.filter_cons, if_pos (by simpa using ht)]; simpa using h1
              · intro e he
                rcases List.mem_cons.mp he with rfl | he
                · exact .inl ht
                · exact h2 e he
          · rename_i ht
            split at h
            · cases h
            · rename_i ht2
              cases a with
              | some a => cases h
              | none =>
                simp only at h
                split at h
                · cases h
                · rename_i enc he
                  split at h
                  · cases h
                  · rename_i hb
                    split at h
                    · cases h
                    · split at h
                      · cases h
                      · split at h
                        · cases h
                        · obtain ⟨h1, h2⟩ := ih _ _ _ h
                          refine ⟨?_, ?_⟩
                          · rw [List.filter_cons, if_neg (by simpa using ht)]; exact h1
                          · intro e hm
                            rcases List.mem_cons.mp hm with rfl | hm
                            · exact .inr ⟨by simpa using ht2, by rw [he]; simpa using hb⟩
                            · exact h2 e hm
      obtain ⟨y, hy⟩ := hg
      obtain ⟨k1, k2⟩ := key _ _ _ _ hy
      unfold readCfg at hc
      split at hc
      · cases hc
      · rename_i h1
        split at hc
        · cases hc
        · rename_i t ht
          split at hc
          · cases hc
          · rename_i h2
            split at hc
            · cases hc
            · rename_i h3
              split at hc
              · cases hc
              · rename_i h4
                split at hc
                · cases hc
                · rename_i h5
                  have q : ∀ (o : Option String) (a b : String), ¬ (o.any fun v => decide (v ≠ a ∧ v ≠ b)) = true → ∀ v ∈ o, v = a ∨ v = b := by
                    intro o a b h v hv
                    cases hv
                    by_cases e1 : v = a
                    · exact .inl e1
                    · by_cases e2 : v = b
                      · exact .inr e2
                      · simp [e1, e2] at h
                  exact ⟨by simpa using h1, by rw [ht]; simpa using h2, q _ _ _ h3, q _ _ _ h5, q _ _ _ h4, by simpa using k1, k2⟩

/-- An array whose numbers do not fit its number of components is an error, except among the point data (`C65_read_partial`). -/
theorem C65_corrupt {io : VtuIO F} {cfg : Cfg} {np nc : Int} {c e : XmlElem} (hc : c.tag = "CellData" ∨ c.tag = "Cells") (hk : c.kids.head? = some e)
    (he : CorruptArray io cfg e) : readSec io cfg np nc c = .error .corruptionError := by
  have hn : namedArrays io cfg [] c.kids = .error .corruptionError := by
    cases hl : c.kids with
    | nil => rw [hl] at hk; cases hk
    | cons x l =>
      rw [hl] at hk
      cases hk
      simp [namedArrays, he.1, readData_corrupt he]
  unfold readSec
  rcases hc with hc | hc <;> simp [hc, hn, Except.map]

/-- The file has six points' coordinates; told that they have four components each, it is refused; point data are left out instead. -/
example : readRoot vtuInt false (vtuRoot (.cons "Piece" [("NumberOfPoints", "3"), ("NumberOfCells", "1")] []
      (.cons "PointData" [] [] (vtuDA "b" "Int32" [("NumberOfComponents", "2")] "1 2 3" .nil) (vtuTriKids "0 0 1 0 0 1" "9")) .nil)) =
    .ok ⟨vtuTriPts 0 0 1 0 0 1, [.rows "triangle" [[0, 1, 2]]], [], [("a", [⟨"int32", [], [[.int 9]]⟩])], [("t", ⟨"float32", [], [[.flt 7]]⟩)]⟩ := by
  decide +kernel

/-- An array of an unknown type is refused. -/
theorem C65_unknown_type (io : VtuIO F) (cfg : Cfg) (e : XmlElem) (t : String) (h : e.attr? "type" = some t) (hu : ∀ k ∈ vtuKinds, k.1 ≠ t) :
    readData io cfg e = .error .readError := by
  have : Types.find vtuTypes t = none := by
    cases hf : Types.find vtuTypes t with
    | none => rfl
    | some d =>
      have := Types.find_mem hf
      have key : ∀ x ∈ vtuTypes, ∃ k ∈ vtuKinds, k.1 = x.1 := by decide +kernel
      obtain ⟨k, hk, he⟩ := key _ this
      exact absurd he (hu k hk)
  simp [readData, readFlat, h, this]

example : readData vtuInt ⟨none, "UInt32", false, none⟩ ⟨"DataArray", [("type", "String"), ("Name", "s")], "1".toList, .nil⟩ = .error .readError :=
  C65_unknown_type _ _ _ "String" rfl (by decide +kernel)

/-- The numbers of cells must be the announced one. -/
theorem C65_count_refused (d : Dict (Arr (Num F))) (n : Int) (c : CellArrays) (h : cellSection d n = .ok c) :
    (∃ o, Dict.get? d "offsets" = some o ∧ (o.rows.length : Int) = n) ∧ ∃ t, Dict.get? d "types" = some t ∧ (t.rows.length : Int) = n := by
  unfold cellSection at h
  split at h
  · rename_i o t ho ht
    split at h
    · cases h
    · rename_i hn
      refine ⟨⟨o, ho, ?_⟩, ⟨t, ht, ?_⟩⟩ <;> omega
  · cases h

/-- Without a piece nothing is read. -/
theorem C65_no_piece {io : VtuIO F} {sysBig : Bool} {root : XmlElem} {fd : Dict (Arr (Num F))} (h : SaysVtu io sysBig root [] fd) :
    readRoot io sysBig root = .error .readError := by
  rw [readRoot_ok h]; rfl

example : readRoot vtuInt false (vtuRoot .nil) = .error .readError := C65_no_piece (vtu_says_root _ rfl [] .nil (by simp [Xml.elems]) trivial)

end Meshio.Props
