/-
C76 and C77: XDMF documents.
-/
import Verif.Proofs.XdmfFile
import Verif.Props.Xdmf
import Verif.Spec.XdmfFile
namespace Meshio
namespace Props
open Xdmf XdmfFile Types Tables Spec

variable {F : Type}

/-! ## C76: the text of a file -/

/-- The text of every number of an array, printed as a number of the type of the array, is a word and is read as the number. -/
def PrintsNumbers (io : XdmfIO F) (a : Nd F) : Prop :=
  ∀ r ∈ a.rows, ∀ v ∈ r,
    (∃ i, v = .int i ∧ a.dtype ∈ ["int8", "int16", "int32", "int64", "uint8", "uint16", "uint32", "uint64"]) ∨
    (∃ x, v = .flt x ∧ a.dtype ∈ ["float32", "float64"] ∧ IsTok (io.fmt a.dtype x) ∧ io.parse (io.fmt a.dtype x) = some x)

/-- A mesh that can be printed: names without line ends and tabs; if the numbers are in the document, their texts are read as the numbers. -/
structure XdmfText (io : XdmfIO F) (fmt : Fmt) (m : XMesh F) : Prop where
  names : (∀ e ∈ m.pointData, XdmfNameText e.1) ∧ ∀ e ∈ m.cellData, XdmfNameText e.1
  points : fmt = .xml → PrintsNumbers io m.points
  pointData : fmt = .xml → ∀ e ∈ m.pointData, PrintsNumbers io e.2
  cellData : fmt = .xml → ∀ e ∈ m.cellData, ∀ a ∈ e.2, PrintsNumbers io a

theorem xdmf_printable_of {io : XdmfIO F} {c : Cfg} {a : Nd F} (h : c.fmt = .xml → PrintsNumbers io a) : Printable io c a := by
  intro hf r hr v hv
  rcases h hf r hr v hv with ⟨i, rfl, hd⟩ | ⟨x, rfl, hd, h1, h2⟩
  · refine ⟨isTok_fmtInt i, ?_⟩
    have key : ∀ d ∈ ["int8", "int16", "int32", "int64", "uint8", "uint16", "uint32", "uint64"], ¬ (d = "float32" ∨ d = "float64") := by decide
    unfold numParse numFmt
    rw [if_neg (key _ hd), parseInt_fmtInt]
  · refine ⟨h1, ?_⟩
    have key : ∀ d ∈ ["float32", "float64"], (d = "float32" ∨ d = "float64") := by decide
    unfold numParse numFmt
    rw [if_pos (key _ hd), h2]

private theorem rows_uniform {fmt : Fmt} {m : XMesh F} (h : XdmfOk fmt m) : ∀ b ∈ m.cells, ∀ r ∈ b.2, r.length = widthOf b.2 := by
  intro b hb r hr
  by_cases hl : 2 ≤ m.cells.length
  · have width : ∀ e ∈ xdmfMixed, ∀ e' ∈ xdmfMixed, e.1 = e'.1 → e.2.2 = e'.2.2 := by decide +kernel
    have cell : ∀ r ∈ b.2, XdmfCell (b.1, r) := fun r hr =>
      (h.mixed hl).2.2 _ (List.mem_flatMap.2 ⟨b, hb, List.mem_map.2 ⟨r, hr, rfl⟩⟩)
    obtain ⟨x, hx⟩ := cell r hr
    cases hb2 : b.2 with
    | nil => rw [hb2] at hr; cases hr
    | cons r0 rs =>
      obtain ⟨y, hy⟩ := cell r0 (by rw [hb2]; simp)
      exact width _ hx _ hy rfl
  · cases hc : m.cells with
    | nil => rw [hc] at hb; cases hb
    | cons b' l =>
      cases l with
      | nil =>
        rw [hc, List.mem_singleton] at hb
        subst hb
        exact (h.single b hc).2.2 r hr
      | cons b'' l => rw [hc] at hl; simp at hl

/-- C76.  The file that is written for a mesh XDMF can hold (C57), in any of the three formats, is a text that is read: the same points,
point data and cell data under the same names, whatever characters other than line ends and tabs the names have, and the cells in order,
several blocks fused to runs of one type.  It holds whatever files were there before. -/
theorem C76_fused (io : XdmfIO F) (c : Cfg) (hc : NamesOk c) (fs : Files F) (m : XMesh F) (h : XdmfOk c.fmt m) (ht : XdmfText io c.fmt m) :
    ∃ files text, XdmfFile.write io c fs m = .ok (files, text) ∧
      XdmfFile.read io c.dir files text = .ok ⟨{ m with
        cells := fused m.cells
        cellData := m.cellData.map fun e => (e.1, recut ((fused m.cells).map fun b => b.2.length) e.2) }, []⟩ := by
  obtain ⟨w, grid, h1, h2⟩ := C57_fused (T := Unit) c hc fs m h
  have hg := write_good io h1 ⟨h.points.rect, xdmf_printable_of ht.points⟩ (rows_uniform h)
    (fun e he => ⟨ht.names.1 e he, (h.pointData e he).1.rect, xdmf_printable_of fun hf => ht.pointData hf e he⟩)
    (fun e he => ⟨ht.names.2 e he, fun b hb => by
      obtain ⟨dtype, inner, _, ha⟩ := h.cellData e he
      exact ⟨(ha b hb).2.2.rect, xdmf_printable_of fun hf => ht.cellData hf e he b hb⟩⟩)
  refine ⟨w.files, document io (m.cells.map fun b => b.2.length).sum grid, ?_, read_document io c.dir w.files _ grid hg _ h2⟩
  unfold XdmfFile.write
  rw [h1]

/-- C76, exactly: if no block is empty and neighbouring blocks have different types (or there is at most one block), the mesh comes back. -/
theorem C76_roundtrip_partial (io : XdmfIO F) (c : Cfg) (hc : NamesOk c) (fs : Files F) (m : XMesh F) (h : XdmfOk c.fmt m)
    (ht : XdmfText io c.fmt m) (hb : 2 ≤ m.cells.length → (∀ b ∈ m.cells, b.2 ≠ []) ∧
      ∀ pre a b post, m.cells = pre ++ a :: b :: post → a.1 ≠ b.1) :
    ∃ files text, XdmfFile.write io c fs m = .ok (files, text) ∧ XdmfFile.read io c.dir files text = .ok ⟨m, []⟩ := by
  obtain ⟨w, grid, h1, h2⟩ := C57_roundtrip_partial (T := Unit) c hc fs m h hb
  have hg := write_good io h1 ⟨h.points.rect, xdmf_printable_of ht.points⟩ (rows_uniform h)
    (fun e he => ⟨ht.names.1 e he, (h.pointData e he).1.rect, xdmf_printable_of fun hf => ht.pointData hf e he⟩)
    (fun e he => ⟨ht.names.2 e he, fun b hb => by
      obtain ⟨dtype, inner, _, ha⟩ := h.cellData e he
      exact ⟨(ha b hb).2.2.rect, xdmf_printable_of fun hf => ht.cellData hf e he b hb⟩⟩)
  refine ⟨w.files, document io (m.cells.map fun b => b.2.length).sum grid, ?_, read_document io c.dir w.files _ grid hg _ h2⟩
  unfold XdmfFile.write
  rw [h1]

/-- The name and the attributes of a data item. -/
def XdmfItemHead (fmt : Fmt) (dtype : String) (dims : List Nat) : String × List (String × String) :=
  ("DataItem", [("DataType", ((find numpyToXdmf dtype).getD ("", "")).1), ("Dimensions", String.ofList (joinWith ' ' (dims.map fmtNat))),
    ("Format", match fmt with | .xml => "XML" | .binary => "Binary" | .hdf => "HDF"), ("Precision", ((find numpyToXdmf dtype).getD ("", "")).2)])

/-- An attribute: its name, its kind and its place, and one data item. -/
def XdmfAttrHead (fmt : Fmt) (center : String) (name : List Char) (dtype : String) (dims : List Nat) :
    String × List (String × String) × List (String × List (String × String)) :=
  ("Attribute", [("Name", String.ofList name),
    ("AttributeType", match attributeType (dims.drop 1) with | .ok t => t | .error _ => ""), ("Center", center)], [XdmfItemHead fmt dtype dims])

/-- The topology: nothing, one type, or Mixed. -/
def XdmfTopologyHead (fmt : Fmt) : List (String × List (List Int)) → List (String × List (String × String) × List (String × List (String × String)))
  | [] => []
  | [b] => [("Topology", [("TopologyType", (xdmfName b.1).getD ""), ("NumberOfElements", String.ofList (fmtNat b.2.length)),
      ("NodesPerElement", String.ofList (fmtNat (widthOf b.2)))], [XdmfItemHead fmt "int64" [b.2.length, widthOf b.2]])]
  | cells => [("Topology", [("TopologyType", "Mixed"), ("NumberOfElements", String.ofList (fmtNat (cells.map fun b => b.2.length).sum))],
      [XdmfItemHead fmt "int64" [mixedDim cells]])]

private theorem putItem_head {io : XdmfIO F} {flat : Bool} {c : Cfg} {w w' : W F} {dims : List Nat} {a : Nd F} {it : Item F}
    (h : putItem flat c w dims a = .ok (w', it)) :
    (etItems io [it]).tree.elems.map (fun x => (x.tag, x.attrs)) = [XdmfItemHead c.fmt a.dtype dims] ∧ it.dims = dims := by
  unfold putItem at h
  split at h
  · cases h
  · next num hnum =>
    split at h
    · cases h
    · injection h with h
      injection h with _ h
      subst h
      refine ⟨?_, rfl⟩
      unfold XdmfItemHead
      rw [hnum]
      cases hf : c.fmt <;> rfl

/-- What is compared of an element of the grid. -/
def XdmfHead (c : XmlElem) : String × List (String × String) × List (String × List (String × String)) :=
  (c.tag, c.attrs, c.kids.map fun x => (x.tag, x.attrs))

private theorem putAttr_head {io : XdmfIO F} {total : Nat} {c : Cfg} {center : String} {s s' : W F × List (Elem F Unit)} {e : List Char × Nd F}
    (h : putAttr false c center s e = .ok s') :
    s'.2.map (fun x => XdmfHead (elemOf io total x)) =
      s.2.map (fun x => XdmfHead (elemOf io total x)) ++ [XdmfAttrHead c.fmt center e.1 e.2.dtype e.2.shape] := by
  unfold putAttr at h
  split at h
  · cases h
  · next ty hty =>
    split at h
    · cases h
    · next w it hit =>
      injection h with h
      subst h
      rw [List.map_append]
      congr 1
      have hi := (putItem_head (io := io) hit).1
      simp only [List.map_cons, List.map_nil, XdmfHead, elemOf, XmlElem.kids]
      rw [hi]
      unfold XdmfAttrHead
      rw [show e.2.shape.drop 1 = e.2.inner from rfl, hty]

private theorem putAttrs_head {io : XdmfIO F} {total : Nat} {c : Cfg} {center : String} (l : List (List Char × Nd F)) {s s' : W F × List (Elem F Unit)}
    (h : foldRes (putAttr false c center) s l = .ok s') :
    s'.2.map (fun x => XdmfHead (elemOf io total x)) =
      s.2.map (fun x => XdmfHead (elemOf io total x)) ++ l.map fun e => XdmfAttrHead c.fmt center e.1 e.2.dtype e.2.shape := by
  induction l generalizing s with
  | nil => simp only [foldRes] at h; injection h with h; subst h; simp
  | cons e l ih =>
    rw [foldRes] at h
    split at h
    · cases h
    · next s1 h1 =>
      rw [ih h, putAttr_head h1, List.map_cons, List.append_assoc, List.singleton_append]

private theorem putCells_head {io : XdmfIO F} {c : Cfg} {s s' : W F × List (Elem F Unit)} {cells : List (String × List (List Int))}
    (h : putCells c s cells = .ok s') :
    s'.2.map (fun x => XdmfHead (elemOf io (cells.map fun b => b.2.length).sum x)) =
      s.2.map (fun x => XdmfHead (elemOf io (cells.map fun b => b.2.length).sum x)) ++ XdmfTopologyHead c.fmt cells := by
  unfold putCells at h
  split at h
  · injection h with h; subst h; simp [XdmfTopologyHead]
  · next b =>
    unfold putSingle at h
    split at h
    · cases h
    · next ty hty =>
      split at h
      · cases h
      · next w it hit =>
        injection h with h
        subst h
        rw [List.map_append]
        congr 1
        obtain ⟨hi, hd⟩ := putItem_head (io := io) hit
        have hm : ty ≠ "Mixed" := by
          have key : ∀ e ∈ meshioToXdmf, ∀ ty ∈ e.2, ty ≠ "Mixed" := by decide +kernel
          unfold xdmfName at hty
          cases hf : find meshioToXdmf b.1 with
          | none => rw [hf] at hty; cases hty
          | some l =>
            rw [hf] at hty
            exact key _ (find_mem hf) ty (List.mem_of_mem_head? hty)
        simp only [List.map_cons, List.map_nil, XdmfHead, elemOf, XmlElem.kids]
        rw [hi]
        unfold XdmfTopologyHead topologyAttrs headDims
        simp only
        rw [if_neg hm, hty]
        simp only [List.head?_cons, Option.map_some, Option.getD_some, hd]
        simp [strAttrs, connNd]
  · next h0 h1 =>
    split at h
    · cases h
    · next cd hcd =>
      split at h
      · cases h
      · next w it hit =>
        injection h with h
        subst h
        rw [List.map_append]
        congr 1
        obtain ⟨hi, hd⟩ := putItem_head (io := io) hit
        simp only [List.map_cons, List.map_nil, XdmfHead, elemOf, XmlElem.kids]
        rw [hi]
        match cells, h0, h1 with
        | [], h0, _ => exact absurd rfl h0
        | [b], _, h1 => exact absurd rfl (h1 b)
        | b :: b' :: l, _, _ =>
          unfold XdmfTopologyHead topologyAttrs
          rw [if_pos rfl]
          simp [strAttrs, flatNd]

/-- C76, the file itself: it is an XML document of version 3.0 with one domain and one grid.  In the grid there are the points, as XY or
XYZ, the topology, with the number of cells and of nodes in each (or Mixed with the number of cells), the point data and then the cell data
in order, under their names; each with one data item that says the number type, the precision, the dimensions and the format. -/
theorem C76_document (io : XdmfIO F) (c : Cfg) (hc : NamesOk c) (fs : Files F) (m : XMesh F) (h : XdmfOk c.fmt m) (ht : XdmfText io c.fmt m) :
    ∃ files text root domain grid, XdmfFile.write io c fs m = .ok (files, text) ∧ parseXml text = some root ∧ root.tag = "Xdmf" ∧
      root.attrs = [("Version", "3.0")] ∧ root.kids = [domain] ∧ domain.tag = "Domain" ∧ domain.kids = [grid] ∧ grid.tag = "Grid" ∧
      grid.attrs = [("Name", "Grid")] ∧ grid.kids.map XdmfHead =
        ("Geometry", [("GeometryType", if m.points.inner = [2] then "XY" else "XYZ")], [XdmfItemHead c.fmt m.points.dtype m.points.shape]) ::
          (XdmfTopologyHead c.fmt m.cells ++
            (m.pointData.map (fun e => XdmfAttrHead c.fmt "Node" e.1 e.2.dtype e.2.shape) ++
              m.cellData.map fun e => XdmfAttrHead c.fmt "Cell" e.1 ((e.2.head?.map (·.dtype)).getD "")
                ((e.2.map fun a => a.rows.length).sum :: (e.2.head?.map (·.inner)).getD []))) := by
  obtain ⟨w, grid, h1, h2⟩ := C57_fused (T := Unit) c hc fs m h
  have hg := write_good io h1 ⟨h.points.rect, xdmf_printable_of ht.points⟩ (rows_uniform h)
    (fun e he => ⟨ht.names.1 e he, (h.pointData e he).1.rect, xdmf_printable_of fun hf => ht.pointData hf e he⟩)
    (fun e he => ⟨ht.names.2 e he, fun b hb => by
      obtain ⟨dtype, inner, _, ha⟩ := h.cellData e he
      exact ⟨(ha b hb).2.2.rect, xdmf_printable_of fun hf => ht.cellData hf e he b hb⟩⟩)
  have hw : XdmfFile.write io c fs m = .ok (w.files, document io (m.cells.map fun b => b.2.length).sum grid) := by
    unfold XdmfFile.write
    rw [h1]
  have hok : (Et.elem "Xdmf" [("Version", "3.0")] [] (docEt io (m.cells.map fun b => b.2.length).sum grid) .nil).Ok := by
    refine ⟨by decide, ?_, by simp, ⟨by decide, by simp, by simp, ⟨by decide, ?_, by simp, grid_ok io _ grid hg, trivial⟩, trivial⟩, trivial⟩
    · decide
    · decide
  refine ⟨_, _, _, _, _, hw, by rw [render_doc]; exact parseXml_et _ _ _ _ hok, rfl, rfl, rfl, rfl, rfl, rfl, rfl, ?_⟩
  simp only [XmlElem.kids]
  rw [elems_grid io _ grid hg, List.map_map]
  unfold Xdmf.write at h1
  split at h1
  · cases h1
  · next s1 k1 =>
    split at h1
    · cases h1
    · next s2 k2 =>
      split at h1
      · cases h1
      · next s3 k3 =>
        split at h1
        · cases h1
        · next raw hraw =>
          have e4 := putAttrs_head (io := io) (total := (m.cells.map fun b => b.2.length).sum) _ h1
          have e3 := putAttrs_head (io := io) (total := (m.cells.map fun b => b.2.length).sum) _ k3
          have e2 := putCells_head (io := io) k2
          have e1 : s1.2.map (fun x => XdmfHead (elemOf io (m.cells.map fun b => b.2.length).sum x)) =
              [("Geometry", [("GeometryType", if m.points.inner = [2] then "XY" else "XYZ")], [XdmfItemHead c.fmt m.points.dtype m.points.shape])] := by
            unfold putPoints at k1
            rcases h.dim with hd | hd <;> rw [hd] at k1 <;> simp only at k1 <;> rw [if_neg (by omega)] at k1 <;>
              (split at k1
               · cases k1
               · next w1 it1 hit =>
                 injection k1 with k1
                 subst k1
                 obtain ⟨hi, _⟩ := putItem_head (io := io) hit
                 simp only [List.nil_append, List.map_cons, List.map_nil, XdmfHead, elemOf, XmlElem.kids]
                 rw [hi, hd]
                 rfl)
          have er : raw.map (fun e => XdmfAttrHead c.fmt "Cell" e.1 e.2.dtype e.2.shape) =
              m.cellData.map fun e => XdmfAttrHead c.fmt "Cell" e.1 ((e.2.head?.map (·.dtype)).getD "")
                ((e.2.map fun a => a.rows.length).sum :: (e.2.head?.map (·.inner)).getD []) := by
            unfold rawCellData at hraw
            clear e4 h1 k1 k2 k3 e1 e2 e3 hg hok hw h2 h ht
            generalize m.cellData = cd at hraw
            induction cd generalizing raw with
            | nil => simp only [mapRes] at hraw; injection hraw with hraw; subst hraw; rfl
            | cons x cd ih =>
              rw [mapRes] at hraw
              split at hraw
              · cases hraw
              · next y hy =>
                split at hraw
                · cases hraw
                · next ys hys =>
                  injection hraw with hraw
                  subst hraw
                  rw [List.map_cons, List.map_cons, ih ys hys]
                  congr 1
                  cases hx : x.2 with
                  | nil => rw [hx] at hy; simp [concatNd, Except.map] at hy
                  | cons a l =>
                    rw [hx, concatNd] at hy
                    split at hy
                    · split at hy
                      · have hy : Except.ok (x.1, _) = Except.ok y := hy
                        injection hy with hy
                        subst hy
                        simp [Nd.shape, List.length_flatMap]
                      · cases hy
                    · cases hy
          rw [e3, e2, e1, er] at e4
          rw [show grid.map (XdmfHead ∘ elemOf io (m.cells.map fun b => b.2.length).sum) =
            grid.map (fun x => XdmfHead (elemOf io (m.cells.map fun b => b.2.length).sum x)) from rfl, e4]
          simp only [List.append_assoc, List.cons_append, List.nil_append]

/-- Numbers printed as integers, for examples. -/
private def plainIO : XdmfIO Int := ⟨fun _ i => fmtInt i, fun t => parseInt t⟩

private def tri : XMesh Int :=
  ⟨⟨"float64", [2], [[.flt 0, .flt 0], [.flt 1, .flt 0], [.flt 0, .flt 1]]⟩, [("triangle", [[0, 1, 2]])],
   [("a<b & c".toList, ⟨"float32", [], [[.flt 3], [.flt 4], [.flt 5]]⟩)], [("k\"".toList, [⟨"int32", [], [[.int 7]]⟩])]⟩

/-- The text of a file. -/
example : XdmfFile.write plainIO ⟨.xml, [], [], "a".toList⟩ [] tri = .ok ([],
    ("<Xdmf Version=\"3.0\"><Domain><Grid Name=\"Grid\"><Geometry GeometryType=\"XY\">" ++
     "<DataItem DataType=\"Float\" Dimensions=\"3 2\" Format=\"XML\" Precision=\"8\">\n0 0\n1 0\n0 1\n</DataItem></Geometry>" ++
     "<Topology TopologyType=\"Triangle\" NumberOfElements=\"1\" NodesPerElement=\"3\">" ++
     "<DataItem DataType=\"Int\" Dimensions=\"1 3\" Format=\"XML\" Precision=\"8\">\n0 1 2\n</DataItem></Topology>" ++
     "<Attribute Name=\"a&lt;b &amp; c\" AttributeType=\"Scalar\" Center=\"Node\">" ++
     "<DataItem DataType=\"Float\" Dimensions=\"3\" Format=\"XML\" Precision=\"4\">\n3\n4\n5\n</DataItem></Attribute>" ++
     "<Attribute Name=\"k&quot;\" AttributeType=\"Scalar\" Center=\"Cell\">" ++
     "<DataItem DataType=\"Int\" Dimensions=\"1\" Format=\"XML\" Precision=\"4\">\n7\n</DataItem></Attribute>" ++
     "</Grid></Domain></Xdmf>").toList) := by decide +kernel

example : XdmfText plainIO .xml tri ∧ NamesOk ⟨.xml, [], [], "a".toList⟩ := by
  have key : ∀ i : Int, IsTok (plainIO.fmt "float64" i) ∧ plainIO.parse (plainIO.fmt "float64" i) = some i :=
    fun i => ⟨isTok_fmtInt i, parseInt_fmtInt i⟩
  have key' : ∀ i : Int, IsTok (plainIO.fmt "float32" i) ∧ plainIO.parse (plainIO.fmt "float32" i) = some i :=
    fun i => ⟨isTok_fmtInt i, parseInt_fmtInt i⟩
  refine ⟨⟨⟨?_, ?_⟩, ?_, ?_, ?_⟩, ⟨?_, ?_, by decide, by intro h; cases h⟩⟩
  · decide
  · decide
  · intro _ r hr v hv
    simp only [tri, List.mem_cons, List.not_mem_nil, or_false] at hr
    rcases hr with rfl | rfl | rfl <;> simp only [List.mem_cons, List.not_mem_nil, or_false] at hv <;> rcases hv with rfl | rfl <;>
      exact .inr ⟨_, rfl, by decide, key _⟩
  · intro _ e he r hr v hv
    simp only [tri, List.mem_cons, List.not_mem_nil, or_false] at he
    subst he
    simp only [List.mem_cons, List.not_mem_nil, or_false] at hr
    rcases hr with rfl | rfl | rfl <;> simp only [List.mem_cons, List.not_mem_nil, or_false] at hv <;> subst hv <;>
      exact .inr ⟨_, rfl, by decide, key' _⟩
  · intro _ e he a ha r hr v hv
    simp only [tri, List.mem_cons, List.not_mem_nil, or_false] at he
    subst he
    simp only [List.mem_cons, List.not_mem_nil, or_false] at ha
    subst ha
    simp only [List.mem_cons, List.not_mem_nil, or_false] at hr
    subst hr
    simp only [List.mem_cons, List.not_mem_nil, or_false] at hv
    subst hv
    exact .inl ⟨_, rfl, by decide⟩
  · intro x hx; cases hx; decide
  · intro x hx; cases hx; decide

/-! ## C77: what is read -/

theorem xdmf_only_ok {l : List XmlElem} {x : XmlElem} (h : only l = .ok x) : l = [x] := by
  unfold only at h
  split at h
  · injection h with h; subst h; rfl
  · cases h

private theorem onlyData_ok {io : XdmfIO F} {dir : List Char} {fs : Files F} {c : XmlElem} {a : Nd F} (h : onlyData io dir fs c = .ok a) :
    ∃ x, c.kids = [x] ∧ (c.attr? "TopologyType" ≠ some "Mixed" → x.attr? "Reference" = none) := by
  unfold onlyData at h
  split at h
  · cases h
  · next x hx =>
    refine ⟨x, xdmf_only_ok hx, fun _ => ?_⟩
    unfold readDataItem at h
    split at h
    · cases h
    · assumption

private theorem elem3_child {io : XdmfIO F} {dir : List Char} {fs : Files F} {s s' : St F} {c : XmlElem} (h : elem3 io dir fs s c = .ok s') :
    XdmfGridChild c ∧ (c.tag ≠ "Geometry" → s'.rst.points = s.rst.points) := by
  unfold elem3 at h
  split at h
  · next ht =>
    split at h
    · cases h
    · next a ha =>
      refine ⟨⟨by rw [ht]; decide, fun _ => onlyData_ok ha, fun e => absurd (ht.symm.trans e) (by decide), fun e => absurd (ht.symm.trans e) (by decide)⟩, fun _ => ?_⟩
      split at h
      · cases h
      · split at h
        · cases h
        · injection h with h; subst h; rfl
  · split at h
    · next ht =>
      split at h
      · cases h
      · split at h
        · split at h
          · cases h
          · next a ha =>
            exact ⟨⟨by rw [ht]; decide, fun _ => onlyData_ok ha, fun e => absurd (ht.symm.trans e) (by decide), fun e => absurd (ht.symm.trans e) (by decide)⟩, fun e => absurd ht e⟩
        · cases h
    · split at h
      · next ht =>
        split at h
        · cases h
        · injection h with h
          subst h
          exact ⟨⟨by rw [ht]; decide, fun e => absurd ht e, fun e => absurd (ht.symm.trans e) (by decide), fun e => absurd (ht.symm.trans e) (by decide)⟩, fun _ => rfl⟩
      · split at h
        · next ht =>
          split at h
          · cases h
          · next a ha =>
            split at h
            · cases h
            · next ce hce =>
              split at h
              · next hor =>
                split at h
                · cases h
                · next n hn =>
                  refine ⟨⟨by rw [ht]; decide, fun _ => onlyData_ok ha, fun _ => ⟨n, hn⟩, fun _ => ⟨ce, by rcases hor with rfl | rfl <;> decide, hce⟩⟩, fun _ => ?_⟩
                  split at h <;> (injection h with h; subst h; rfl)
              · cases h
        · cases h

private theorem elem2_child {io : XdmfIO F} {dir : List Char} {fs : Files F} {s s' : St F} {c : XmlElem} (h : elem2 io dir fs s c = .ok s') :
    XdmfGridChild c ∧ (c.tag ≠ "Geometry" → s'.rst.points = s.rst.points) := by
  unfold elem2 at h
  split at h
  · next ht =>
    split at h
    · cases h
    · next x hx =>
      have hx' := xdmf_only_ok hx
      split at h
      · cases h
      · next ty hty =>
        split at h
        · next hm =>
          refine ⟨⟨by rw [ht]; decide, fun _ => ⟨x, hx', fun hne => absurd (by rw [hty, hm]) hne⟩, fun e => absurd (ht.symm.trans e) (by decide), fun e => absurd (ht.symm.trans e) (by decide)⟩, fun _ => ?_⟩
          split at h
          · cases h
          · split at h
            · cases h
            · injection h with h; subst h; rfl
        · split at h
          · cases h
          · next a ha =>
            refine ⟨⟨by rw [ht]; decide, fun _ => ⟨x, hx', fun _ => ?_⟩, fun e => absurd (ht.symm.trans e) (by decide), fun e => absurd (ht.symm.trans e) (by decide)⟩, fun _ => ?_⟩
            · unfold readDataItem at ha
              split at ha
              · cases ha
              · assumption
            · split at h
              · cases h
              · injection h with h; subst h; rfl
  · split at h
    · next ht =>
      split at h
      · cases h
      · split at h
        · cases h
        · next a ha =>
          exact ⟨⟨by rw [ht]; decide, fun _ => onlyData_ok ha, fun e => absurd (ht.symm.trans e) (by decide), fun e => absurd (ht.symm.trans e) (by decide)⟩, fun e => absurd ht e⟩
    · split at h
      · next ht =>
        split at h
        · cases h
        · injection h with h
          subst h
          exact ⟨⟨by rw [ht]; decide, fun e => absurd ht e, fun e => absurd (ht.symm.trans e) (by decide), fun e => absurd (ht.symm.trans e) (by decide)⟩, fun _ => rfl⟩
      · split at h
        · next ht =>
          split at h
          · cases h
          · next a ha =>
            split at h
            · cases h
            · next n hn =>
              split at h
              · cases h
              · next ce hce =>
                have build : ce ∈ ["Node", "Cell", "Grid"] → XdmfGridChild c := fun hm =>
                  ⟨by rw [ht]; decide, fun _ => onlyData_ok ha, fun _ => ⟨n, hn⟩, fun _ => ⟨ce, hm, hce⟩⟩
                split at h
                · next e => injection h with h; subst h; exact ⟨build (by rw [e]; decide), fun _ => rfl⟩
                · split at h
                  · next e => injection h with h; subst h; exact ⟨build (by rw [e]; decide), fun _ => rfl⟩
                  · split at h
                    · cases h
                    · next e => injection h with h; subst h; exact ⟨build (by rw [Decidable.not_not.1 e]; decide), fun _ => rfl⟩
        · cases h

private theorem fold_children {f : St F → XmlElem → Res (St F)}
    (hf : ∀ s s' c, f s c = .ok s' → XdmfGridChild c ∧ (c.tag ≠ "Geometry" → s'.rst.points = s.rst.points)) (l : List XmlElem) (s s' : St F)
    (h : foldRes f s l = .ok s') :
    (∀ c ∈ l, XdmfGridChild c) ∧ ((∀ c ∈ l, c.tag ≠ "Geometry") → s'.rst.points = s.rst.points) := by
  induction l generalizing s with
  | nil => simp only [foldRes] at h; injection h with h; subst h; exact ⟨fun c hc => (List.not_mem_nil hc).elim, fun _ => rfl⟩
  | cons c l ih =>
    rw [foldRes] at h
    split at h
    · cases h
    · next s1 h1 =>
      obtain ⟨g1, g2⟩ := hf _ _ _ h1
      obtain ⟨g3, g4⟩ := ih s1 h
      refine ⟨?_, fun hn => (g4 fun x hx => hn x (by simp [hx])).trans (g2 (hn c (by simp)))⟩
      intro x hx
      rcases List.mem_cons.1 hx with rfl | hx
      · exact g1
      · exact g3 x hx

theorem xdmf_major_eq (v : String) (k : Char) (hk : k ≠ '.') : major v = [k] ↔ XdmfMajor v k := by
  have gen : ∀ s : List Char, (splitOnC '.' s).headD [] = s.takeWhile (· ≠ '.') := by
    intro s
    by_cases hm : '.' ∈ s
    · have hab : ∃ a b, s = a ++ '.' :: b ∧ ∀ x ∈ a, decide (x ≠ '.') = true := by
        refine ⟨s.takeWhile (· ≠ '.'), (s.dropWhile (· ≠ '.')).tail, ?_, fun x hx => takeWhile_all _ _ x hx⟩
        have h1 := List.takeWhile_append_dropWhile (p := fun c => decide (c ≠ '.')) (l := s)
        cases hd : s.dropWhile (fun c => decide (c ≠ '.')) with
        | nil =>
          rw [hd, List.append_nil] at h1
          have : ∀ x ∈ s, decide (x ≠ '.') = true := by
            rw [← h1]
            exact fun x hx => takeWhile_all _ _ x hx
          exact absurd (this '.' hm) (by decide)
        | cons c r =>
          have hc : decide (c ≠ '.') = false := by
            have := List.head?_dropWhile_not (p := fun c => decide (c ≠ '.')) s
            rw [hd] at this
            simpa using this
          have hc : c = '.' := by simpa using hc
          rw [hd] at h1
          subst hc
          exact h1.symm
      obtain ⟨a, b, rfl, ha⟩ := hab
      have hna : '.' ∉ a := fun e => absurd (ha '.' e) (by decide)
      rw [splitOnC_append_sep, List.takeWhile_append_of_pos ha]
      · simp
      · exact hna
    · rw [splitOnC_not_mem _ _ hm]
      have : ∀ x ∈ s, decide (x ≠ '.') = true := fun x hx => decide_eq_true (fun e => hm (e ▸ hx))
      have := List.takeWhile_append_of_pos (l₂ := []) this
      simpa using this.symm
  unfold major XdmfMajor
  rw [gen]
  cases hv : v.toList with
  | nil => simp
  | cons c r =>
    by_cases hc : c = '.'
    · subst hc
      simp only [List.takeWhile_cons, ne_eq, not_true_eq_false, decide_false, Bool.false_eq_true, if_false]
      constructor
      · intro h; cases h
      · rintro (h | ⟨r', h⟩) <;> (injection h with h _; exact absurd h.symm hk)
    · simp only [List.takeWhile_cons, ne_eq, hc, not_false_eq_true, decide_true, if_true, List.cons.injEq]
      cases r with
      | nil => simp
      | cons d r =>
        by_cases hd : d = '.'
        · subst hd; simp
        · simp [hd]

private theorem gridOf_ok {root grid : XmlElem} (h : gridOf root = .ok grid) :
    ∃ domain, root.kids = [domain] ∧ domain.tag = "Domain" ∧ domain.kids = [grid] ∧ grid.tag = "Grid" := by
  unfold gridOf at h
  split at h
  · cases h
  · next d hd =>
    split at h
    · cases h
    · next htag =>
      split at h
      · cases h
      · next g hg =>
        split at h
        · cases h
        · next hgt =>
          injection h with h
          subst h
          exact ⟨d, xdmf_only_ok hd, Decidable.not_not.1 htag, xdmf_only_ok hg, Decidable.not_not.1 hgt⟩

private theorem finish_points {s : St F} {o : Out F} (h : finish s = .ok o) : s.rst.points ≠ none := by
  unfold finish at h
  split at h
  · cases h
  · next p hp => rw [hp]; simp

/-- C77.  Every file that is read is a document with root `Xdmf`, a version 2 or 3, one `Domain` with one `Grid`, in which there are only
the known elements, each with one data item that is no reference, data with a name and a place, and a geometry. -/
theorem C77_structure (io : XdmfIO F) (dir : List Char) (fs : Files F) (text : List Char) (o : Out F)
    (h : XdmfFile.read io dir fs text = .ok o) : ∃ root, parseXml text = some root ∧ XdmfDocument root := by
  unfold XdmfFile.read at h
  split at h
  · cases h
  · next root hroot =>
    refine ⟨root, hroot, ?_⟩
    unfold readRoot at h
    split at h
    · cases h
    · next htag =>
      split at h
      · cases h
      · next v hv =>
        split at h
        · next hmaj =>
          unfold readXdmf2 at h
          split at h
          · cases h
          · next grid hg =>
            obtain ⟨domain, d1, d2, d3, d4⟩ := gridOf_ok hg
            split at h
            · cases h
            · split at h
              · cases h
              · next s hs =>
                obtain ⟨g1, g2⟩ := fold_children (fun _ _ _ hx => elem2_child hx) _ _ _ hs
                refine ⟨Decidable.not_not.1 htag, ⟨v, hv, .inl ((xdmf_major_eq v '2' (by decide)).1 hmaj)⟩, domain, grid, d1, d2, d3, d4, g1, ?_⟩
                refine Decidable.byContradiction fun hno => finish_points h (g2 fun c hc hgeo => hno ⟨c, hc, hgeo⟩)
        · split at h
          · cases h
          · next hmaj =>
            unfold readXdmf3 at h
            split at h
            · cases h
            · next grid hg =>
              obtain ⟨domain, d1, d2, d3, d4⟩ := gridOf_ok hg
              split at h
              · cases h
              · next s hs =>
                obtain ⟨g1, g2⟩ := fold_children (fun _ _ _ hx => elem3_child hx) _ _ _ hs
                refine ⟨Decidable.not_not.1 htag, ⟨v, hv, .inr ((xdmf_major_eq v '3' (by decide)).1 (Decidable.not_not.1 hmaj))⟩, domain, grid, d1, d2, d3, d4, g1, ?_⟩
                refine Decidable.byContradiction fun hno => finish_points h (g2 fun c hc hgeo => hno ⟨c, hc, hgeo⟩)

private theorem either_ok {c : XmlElem} {k k' v : String} (h : either c k k' = .ok v) : XdmfOneOf c k k' v := by
  unfold either at h
  split at h
  · cases h
  · next h1 h2 => injection h with h; subst h; exact .inl ⟨h1, h2⟩
  · next h1 h2 => injection h with h; subst h; exact .inr ⟨h1, h2⟩
  · cases h

theorem xdmf_fold_each {α S : Type} {f : S → α → Res S} {P : α → Prop} (hf : ∀ s a s', f s a = .ok s' → P a) (l : List α) (s s' : S)
    (h : foldRes f s l = .ok s') : ∀ a ∈ l, P a := by
  induction l generalizing s with
  | nil => intro a ha; cases ha
  | cons x l ih =>
    rw [foldRes] at h
    split at h
    · cases h
    · next s1 h1 =>
      intro a ha
      rcases List.mem_cons.1 ha with rfl | ha
      · exact hf _ _ _ h1
      · exact ih s1 h a ha

private theorem elem3_kind {io : XdmfIO F} {dir : List Char} {fs : Files F} {s s' : St F} {c : XmlElem} (h : elem3 io dir fs s c = .ok s') :
    XdmfChild3 c := by
  unfold elem3 at h
  split at h
  · next ht =>
    split at h
    · cases h
    · split at h
      · cases h
      · next ty hty =>
        exact ⟨fun _ => ⟨ty, either_ok hty⟩, fun e => absurd (ht.symm.trans e) (by decide), fun e => absurd (ht.symm.trans e) (by decide)⟩
  · next h1 =>
    split at h
    · next ht =>
      split at h
      · cases h
      · next ty hty =>
        split at h
        · next hk =>
          refine ⟨fun e => absurd e h1, fun _ => ?_, fun e => absurd (ht.symm.trans e) (by decide)⟩
          rcases hk with rfl | rfl
          · exact .inl (either_ok hty)
          · exact .inr (either_ok hty)
        · cases h
    · next h2 =>
      split at h
      · next ht => exact ⟨fun e => absurd e h1, fun e => absurd e h2, fun e => absurd (ht.symm.trans e) (by decide)⟩
      · split at h
        · split at h
          · cases h
          · split at h
            · cases h
            · next center hc =>
              split at h
              · next hk =>
                refine ⟨fun e => absurd e h1, fun e => absurd e h2, fun _ => ?_⟩
                rw [hc]
                rcases hk with rfl | rfl
                · exact .inl rfl
                · exact .inr rfl
              · cases h
        · cases h

private theorem elem2_kind {io : XdmfIO F} {dir : List Char} {fs : Files F} {s s' : St F} {c : XmlElem} (h : elem2 io dir fs s c = .ok s') :
    XdmfChild2 c := by
  unfold elem2 at h
  split at h
  · next ht =>
    split at h
    · cases h
    · split at h
      · cases h
      · next ty hty =>
        exact ⟨fun _ => ⟨ty, hty⟩, fun e => absurd (ht.symm.trans e) (by decide), fun e => absurd (ht.symm.trans e) (by decide)⟩
  · next h1 =>
    split at h
    · next ht =>
      split at h
      · cases h
      · next hg =>
        refine ⟨fun e => absurd e h1, fun _ => ?_, fun e => absurd (ht.symm.trans e) (by decide)⟩
        cases hq : c.attr? "GeometryType" with
        | none => exact .inl rfl
        | some g =>
          rw [hq] at hg
          simp only [Option.getD_some, ne_eq, Decidable.not_not] at hg
          rw [hg]
          exact .inr rfl
    · next h2 =>
      split at h
      · next ht => exact ⟨fun e => absurd e h1, fun e => absurd e h2, fun e => absurd (ht.symm.trans e) (by decide)⟩
      · split at h
        · split at h
          · cases h
          · split at h
            · cases h
            · split at h
              · cases h
              · next center hc =>
                refine ⟨fun e => absurd e h1, fun e => absurd e h2, fun _ => ⟨center, ?_, hc⟩⟩
                split at h
                · next hk => subst hk; decide
                · split at h
                  · next hk => subst hk; decide
                  · split at h
                    · cases h
                    · next hk =>
                      have := Decidable.not_not.1 hk
                      subst this
                      decide
        · cases h

/-- C77.  In a file of version 3 that is read each topology and each geometry has exactly one type, under one of its two names, the
geometry is XY or XYZ, and data is of points or cells; in a file of version 2 each topology has a type, a geometry is XYZ, and data may
also be of the grid. -/
theorem C77_kinds (io : XdmfIO F) (dir : List Char) (fs : Files F) (text : List Char) (o : Out F)
    (h : XdmfFile.read io dir fs text = .ok o) (root domain grid : XmlElem) (hp : parseXml text = some root) (hr : root.kids = [domain])
    (hd : domain.kids = [grid]) (v : String) (hv : root.attr? "Version" = some v) :
    (XdmfMajor v '3' → ∀ c ∈ grid.kids, XdmfChild3 c) ∧
      (XdmfMajor v '2' → (∀ c ∈ grid.kids, XdmfChild2 c) ∧ (grid.attr? "GridType" = none ∨ grid.attr? "GridType" = some "Uniform")) := by
  unfold XdmfFile.read at h
  rw [hp] at h
  simp only at h
  unfold readRoot at h
  split at h
  · cases h
  · rw [hv] at h
    simp only at h
    refine ⟨fun h3 => ?_, fun h2 => ?_⟩
    · have e3 := (xdmf_major_eq v '3' (by decide)).2 h3
      rw [if_neg (by rw [e3]; decide), if_neg (by rw [e3]; decide)] at h
      unfold readXdmf3 at h
      split at h
      · cases h
      · next g hg =>
        obtain ⟨d', k1, _, k3, _⟩ := gridOf_ok hg
        rw [hr] at k1
        injection k1 with k1
        subst k1
        rw [hd] at k3
        injection k3 with k3
        subst k3
        split at h
        · cases h
        · next s hs => exact xdmf_fold_each (fun _ _ _ hx => elem3_kind hx) _ _ _ hs
    · have e2 := (xdmf_major_eq v '2' (by decide)).2 h2
      rw [if_pos e2] at h
      unfold readXdmf2 at h
      split at h
      · cases h
      · next g hg =>
        obtain ⟨d', k1, _, k3, _⟩ := gridOf_ok hg
        rw [hr] at k1
        injection k1 with k1
        subst k1
        rw [hd] at k3
        injection k3 with k3
        subst k3
        split at h
        · cases h
        · next hu =>
          split at h
          · cases h
          · next s hs =>
            refine ⟨xdmf_fold_each (fun _ _ _ hx => elem2_kind hx) _ _ _ hs, ?_⟩
            cases hq : grid.attr? "GridType" with
            | none => exact .inl rfl
            | some g =>
              rw [hq] at hu
              simp only [Option.getD_some, ne_eq, Decidable.not_not] at hu
              rw [hu]
              exact .inr rfl

/-! ## What is refused -/

/-- C77.  A file with another root is no XDMF file. -/
theorem C77_rejects_root (io : XdmfIO F) (dir : List Char) (fs : Files F) (text : List Char) (root : XmlElem) (hp : parseXml text = some root)
    (h : root.tag ≠ "Xdmf") : XdmfFile.read io dir fs text = .error .readError := by
  unfold XdmfFile.read readRoot
  rw [hp]
  simp only
  rw [if_pos h]

/-- C77.  A file without a version is refused with KeyError, a file of a version other than 2 or 3 with ReadError. -/
theorem C77_rejects_version (io : XdmfIO F) (dir : List Char) (fs : Files F) (text : List Char) (root : XmlElem) (hp : parseXml text = some root)
    (ht : root.tag = "Xdmf") :
    (root.attr? "Version" = none → XdmfFile.read io dir fs text = .error .keyError) ∧
      ∀ v, root.attr? "Version" = some v → ¬ XdmfMajor v '2' → ¬ XdmfMajor v '3' → XdmfFile.read io dir fs text = .error .readError := by
  unfold XdmfFile.read readRoot
  rw [hp]
  simp only
  rw [if_neg (by simp [ht])]
  refine ⟨fun h => by rw [h], fun v hv h2 h3 => ?_⟩
  rw [hv]
  simp only
  rw [if_neg (fun e => h2 ((xdmf_major_eq v '2' (by decide)).1 e)), if_pos (fun e => h3 ((xdmf_major_eq v '3' (by decide)).1 e))]

private theorem read_grid {io : XdmfIO F} {dir : List Char} {fs : Files F} {root : XmlElem} {v : String} (ht : root.tag = "Xdmf")
    (hv : root.attr? "Version" = some v) (hv' : XdmfMajor v '2' ∨ XdmfMajor v '3') :
    readRoot io dir fs root = readXdmf2 io dir fs root ∧ XdmfMajor v '2' ∨ readRoot io dir fs root = readXdmf3 io dir fs root ∧ XdmfMajor v '3' := by
  have hm : ¬ (['2'] = ['3']) := by decide
  unfold readRoot
  rw [if_neg (by simp [ht]), hv]
  simp only
  rcases hv' with h | h
  · left
    refine ⟨?_, h⟩
    rw [if_pos ((xdmf_major_eq v '2' (by decide)).2 h)]
  · right
    refine ⟨?_, h⟩
    have h3 := (xdmf_major_eq v '3' (by decide)).2 h
    rw [if_neg (by rw [h3]; decide), if_neg (by simp [h3])]

/-- C77.  A file with no domain or several, or with something else in its place, or with no grid or several is refused with ReadError. -/
theorem C77_rejects_grids (io : XdmfIO F) (dir : List Char) (fs : Files F) (text : List Char) (root : XmlElem) (hp : parseXml text = some root)
    (ht : root.tag = "Xdmf") (v : String) (hv : root.attr? "Version" = some v) (hv' : XdmfMajor v '2' ∨ XdmfMajor v '3')
    (h : ¬ ∃ domain grid, root.kids = [domain] ∧ domain.tag = "Domain" ∧ domain.kids = [grid] ∧ grid.tag = "Grid") :
    XdmfFile.read io dir fs text = .error .readError := by
  have hg : gridOf root = .error .readError := by
    unfold gridOf only
    split
    · next e he =>
      split at he
      · cases he
      · rw [← he]
    · next d hd =>
      split at hd
      · next x hx =>
        injection hd with hd
        subst hd
        split
        · rfl
        · next hdt =>
          split
          · next e he =>
            split at he
            · cases he
            · rw [← he]
          · next g hgg =>
            split at hgg
            · next y hy =>
              injection hgg with hgg
              subst hgg
              split
              · rfl
              · next hgt => exact absurd ⟨x, y, hx, Decidable.not_not.1 hdt, hy, Decidable.not_not.1 hgt⟩ h
            · cases hgg
      · cases hd
  unfold XdmfFile.read
  rw [hp]
  simp only
  rcases read_grid ht hv hv' with ⟨e, _⟩ | ⟨e, _⟩ <;> rw [e]
  · unfold readXdmf2; rw [hg]
  · unfold readXdmf3; rw [hg]

/-- C77.  In version 2 the grid must be uniform. -/
theorem C77_rejects_collection (io : XdmfIO F) (dir : List Char) (fs : Files F) (text : List Char) (root domain grid : XmlElem)
    (hp : parseXml text = some root) (ht : root.tag = "Xdmf") (v : String) (hv : root.attr? "Version" = some v) (hv' : XdmfMajor v '2')
    (hr : root.kids = [domain] ∧ domain.tag = "Domain" ∧ domain.kids = [grid] ∧ grid.tag = "Grid") (g : String)
    (hg : grid.attr? "GridType" = some g) (hu : g ≠ "Uniform") : XdmfFile.read io dir fs text = .error .readError := by
  have hgr : gridOf root = .ok grid := by
    unfold gridOf
    rw [hr.1]
    simp only [only]
    rw [if_neg (by simp [hr.2.1]), hr.2.2.1]
    simp only
    rw [if_neg (by simp [hr.2.2.2])]
  unfold XdmfFile.read readRoot
  rw [hp]
  simp only
  rw [if_neg (by simp [ht]), hv]
  simp only
  rw [if_pos ((xdmf_major_eq v '2' (by decide)).2 hv')]
  unfold readXdmf2
  rw [hgr]
  simp only
  rw [if_pos (by rw [hg]; exact hu)]

/-- C77.  A data item that is a reference to another item cannot be read, whatever it refers to. -/
theorem C77_rejects_reference (io : XdmfIO F) (dir : List Char) (fs : Files F) (x : XmlElem) (r : String) (h : x.attr? "Reference" = some r) :
    ∃ e, readDataItem io dir fs x = .error e := by
  unfold readDataItem
  rw [h]
  exact ⟨_, rfl⟩

/-- C77.  What is read is consistent: a row of point data for each point, a row of cell data for each cell. -/
theorem C77_consistent (io : XdmfIO F) (dir : List Char) (fs : Files F) (text : List Char) (o : Out F)
    (h : XdmfFile.read io dir fs text = .ok o) :
    (∀ e ∈ o.mesh.pointData, e.2.rows.length = o.mesh.points.rows.length) ∧
      ∀ e ∈ o.mesh.cellData, e.2.map (fun a => a.rows.length) = o.mesh.cells.map fun b => b.2.length := by
  have fin : ∀ s : St F, finish s = .ok o → (∀ e ∈ o.mesh.pointData, e.2.rows.length = o.mesh.points.rows.length) ∧
      ∀ e ∈ o.mesh.cellData, e.2.map (fun a => a.rows.length) = o.mesh.cells.map fun b => b.2.length := by
    intro s h
    unfold finish at h
    split at h
    · cases h
    · split at h
      · cases h
      · next m hm =>
        injection h with h
        subst h
        unfold checked at hm
        split at hm
        · cases hm
        · split at hm
          · cases hm
          · next h1 h2 =>
            injection hm with hm
            subst hm
            simp only [List.any_eq_true, decide_eq_true_eq, not_exists, not_and, Decidable.not_not] at h1 h2
            exact ⟨h1, h2⟩
  unfold XdmfFile.read at h
  split at h
  · cases h
  · unfold readRoot at h
    split at h
    · cases h
    · split at h
      · cases h
      · split at h
        · unfold readXdmf2 at h
          split at h
          · cases h
          · split at h
            · cases h
            · split at h
              · cases h
              · exact fin _ h
        · split at h
          · cases h
          · unfold readXdmf3 at h
            split at h
            · cases h
            · split at h
              · cases h
              · exact fin _ h

/-! ## The two versions -/

private theorem elem2_eq {io : XdmfIO F} {dir : List Char} {fs : Files F} (s : St F) (c : XmlElem) (h : XdmfBoth c) :
    elem2 io dir fs s c = elem3 io dir fs s c := by
  unfold elem2 elem3
  split
  · next ht =>
    obtain ⟨h1, ty, h2, h3⟩ := h.topology ht
    unfold onlyData either
    rw [h1, h2]
    simp only
    cases only c.kids with
    | error e => rfl
    | ok x =>
      simp only
      rw [if_neg h3]
  · split
    · next ht =>
      obtain ⟨h1, h2⟩ := h.geometry ht
      unfold either
      rw [h1, h2]
      rfl
    · split
      · rfl
      · split
        · next ht =>
          obtain ⟨⟨n, hn⟩, ce, hce, hne⟩ := h.data ht
          rw [hn, hce]
          cases onlyData io dir fs c with
          | error e => rfl
          | ok a =>
            simp only
            by_cases e1 : ce = "Node"
            · simp [e1]
            · by_cases e2 : ce = "Cell"
              · simp [e2]
              · simp [e1, e2, hne]
        · rfl

/-- C77.  A grid that both versions describe alike is read alike (and refused alike) whether the file says version 2 or version 3. -/
theorem C77_versions_agree (io : XdmfIO F) (dir : List Char) (fs : Files F) (t2 t3 : List Char) (r2 r3 domain2 domain3 g2 g3 : XmlElem)
    (h2 : parseXml t2 = some r2 ∧ r2.tag = "Xdmf" ∧ (∃ v, r2.attr? "Version" = some v ∧ XdmfMajor v '2') ∧
      r2.kids = [domain2] ∧ domain2.tag = "Domain" ∧ domain2.kids = [g2] ∧ g2.tag = "Grid")
    (h3 : parseXml t3 = some r3 ∧ r3.tag = "Xdmf" ∧ (∃ v, r3.attr? "Version" = some v ∧ XdmfMajor v '3') ∧
      r3.kids = [domain3] ∧ domain3.tag = "Domain" ∧ domain3.kids = [g3] ∧ g3.tag = "Grid")
    (hu : g2.attr? "GridType" = none ∨ g2.attr? "GridType" = some "Uniform") (hk : g2.kids = g3.kids) (hb : ∀ c ∈ g2.kids, XdmfBoth c) :
    XdmfFile.read io dir fs t2 = XdmfFile.read io dir fs t3 := by
  have grid : ∀ r d g : XmlElem, r.kids = [d] → d.tag = "Domain" → d.kids = [g] → g.tag = "Grid" → gridOf r = .ok g := by
    intro r d g e1 e2 e3 e4
    unfold gridOf
    rw [e1]
    simp only [only]
    rw [if_neg (by simp [e2]), e3]
    simp only
    rw [if_neg (by simp [e4])]
  obtain ⟨p2, t2', ⟨v2, hv2, hm2⟩, k2⟩ := h2
  obtain ⟨p3, t3', ⟨v3, hv3, hm3⟩, k3⟩ := h3
  have m2 := (xdmf_major_eq v2 '2' (by decide)).2 hm2
  have m3 := (xdmf_major_eq v3 '3' (by decide)).2 hm3
  unfold XdmfFile.read
  rw [p2, p3]
  simp only
  unfold readRoot
  rw [if_neg (by simp [t2']), if_neg (by simp [t3']), hv2, hv3]
  simp only
  rw [if_pos m2, if_neg (by rw [m3]; decide), if_neg (by simp [m3])]
  unfold readXdmf2 readXdmf3
  rw [grid _ _ _ k2.1 k2.2.1 k2.2.2.1 k2.2.2.2, grid _ _ _ k3.1 k3.2.1 k3.2.2.1 k3.2.2.2]
  simp only
  rw [if_neg (by rcases hu with e | e <;> simp [e]), ← hk]
  have hf : ∀ (l : List XmlElem) (s : St F), (∀ c ∈ l, XdmfBoth c) → foldRes (elem2 io dir fs) s l = foldRes (elem3 io dir fs) s l := by
    intro l
    induction l with
    | nil => intro s _; rfl
    | cons c l ih =>
      intro s hl
      rw [foldRes, foldRes, elem2_eq s c (hl c (by simp))]
      split
      · rfl
      · exact ih _ fun x hx => hl x (by simp [hx])
  rw [hf _ _ hb]

private theorem mapRes_map_id {α β : Type} {f : α → β} {g : β → Res α} (l : List α) (h : ∀ a, g (f a) = .ok a) : mapRes g (l.map f) = .ok l := by
  induction l with
  | nil => rfl
  | cons a l ih => rw [List.map_cons, mapRes, h, ih]

/-- C77.  A Mixed topology of version 2, whose numbers are in the file, gives the cells in order, one block per run of cells of one type. -/
theorem C77_mixed2 (io : XdmfIO F) (dir : List Char) (fs : Files F) (text : List Char) (root domain grid g t x : XmlElem) (p : Nd F)
    (cs : List (String × List Int)) (hne : cs ≠ []) (hcs : ∀ c ∈ cs, XdmfCell c)
    (hp : parseXml text = some root) (ht : root.tag = "Xdmf") (v : String) (hv : root.attr? "Version" = some v) (hv' : XdmfMajor v '2')
    (hr : root.kids = [domain] ∧ domain.tag = "Domain" ∧ domain.kids = [grid] ∧ grid.tag = "Grid")
    (hu : grid.attr? "GridType" = none) (hk : grid.kids = [g, t]) (hg : g.tag = "Geometry") (hgt : g.attr? "GeometryType" = none)
    (hgp : onlyData io dir fs g = .ok p) (htt : t.tag = "Topology") (hty : t.attr? "TopologyType" = some "Mixed") (htk : t.kids = [x])
    (hd : x.attr? "Dimensions" = some (String.ofList (fmtNat (xdmfStream cs).length))) (hx : splitWs x.text = (xdmfStream cs).map fmtInt) :
    XdmfFile.read io dir fs text = .ok ⟨⟨p, groupRuns cs, [], []⟩, []⟩ := by
  have hgr : gridOf root = .ok grid := by
    unfold gridOf
    rw [hr.1]
    simp only [only]
    rw [if_neg (by simp [hr.2.1]), hr.2.2.1]
    simp only
    rw [if_neg (by simp [hr.2.2.2])]
  have hxs : x.text ≠ [] := by
    intro e
    rw [e] at hx
    have h0 : (xdmfStream cs).map fmtInt = [] := hx.symm
    rw [List.map_eq_nil_iff] at h0
    have := C40_decode cs hne hcs
    rw [h0] at this
    simp [C40_empty.2] at this
  have hmx : mixed2 x = .ok (xdmfStream cs) := by
    unfold mixed2
    rw [hd]
    simp only [String.toList_ofList]
    have hn : Su2.pyInt (fmtNat (xdmfStream cs).length) = .ok ((xdmfStream cs).length : Int) := by
      unfold Su2.pyInt
      rw [show strip (fmtNat (xdmfStream cs).length) = fmtNat (xdmfStream cs).length from
        strip_id (fun c hc => (isTok_fmtNat _).2 c (List.mem_of_mem_head? hc)) (fun c hc => (isTok_fmtNat _).2 c (List.mem_of_getLast? hc)), parseInt_fmtNat]
    rw [hn]
    simp only
    rw [if_neg hxs, if_neg (by omega), Int.toNat_natCast, hx, List.length_map, if_neg (by omega),
      List.take_of_length_le (by rw [List.length_map]; exact Nat.le_refl _)]
    have := mapRes_map_id (f := fmtInt) (g := plainInt) (xdmfStream cs) fun i => by unfold plainInt; rw [parseInt_fmtInt]
    exact this
  unfold XdmfFile.read readRoot
  rw [hp]
  simp only
  rw [if_neg (by simp [ht]), hv]
  simp only
  rw [if_pos ((xdmf_major_eq v '2' (by decide)).2 hv')]
  unfold readXdmf2
  rw [hgr]
  simp only
  rw [if_neg (by rw [hu]; simp), hk]
  have e1 : elem2 io dir fs St.init g = .ok ⟨⟨some p, [], [], []⟩, []⟩ := by
    unfold elem2
    rw [if_neg (by simp [hg]), if_pos hg, if_neg (by simp [hgt]), hgp]
    rfl
  have e2 : elem2 io dir fs ⟨⟨some p, [], [], []⟩, []⟩ t = .ok ⟨⟨some p, groupRuns cs, [], []⟩, []⟩ := by
    unfold elem2
    rw [if_pos htt, htk]
    simp only [only]
    rw [hty]
    simp only
    rw [if_pos trivial, hmx]
    simp only
    rw [C40_decode cs hne hcs]
  simp only [foldRes, e1, e2]
  rfl

/-- C77.  Field data: an `Information` element holds an XML text whose elements give a key, a dimension and a number; they become the pairs
(number, dimension) under these keys, in order. -/
theorem C77_information (text : List Char) (root : XmlElem) (hne : text ≠ []) (hp : parseXml text = some root)
    (entries : List (List Char × Int × Int)) (hn : (entries.map (·.1)).Nodup)
    (h : root.kids.map (fun c => ((c.attr? "key").map String.toList, (c.attr? "dim").map String.toList, c.text)) =
      entries.map fun e => (some e.1, some (fmtInt e.2.2), fmtInt e.2.1)) : readInformation text = .ok entries := by
  have hi : ∀ i : Int, Su2.pyInt (fmtInt i) = .ok i := by
    intro i
    unfold Su2.pyInt
    rw [show strip (fmtInt i) = fmtInt i from
      strip_id (fun c hc => (isTok_fmtInt _).2 c (List.mem_of_mem_head? hc)) (fun c hc => (isTok_fmtInt _).2 c (List.mem_of_getLast? hc)), parseInt_fmtInt]
  have he : mapRes entry root.kids = .ok entries := by
    clear hn hp
    generalize root.kids = l at h
    induction l generalizing entries with
    | nil =>
      cases entries with
      | nil => rfl
      | cons e es => cases h
    | cons c l ih =>
      cases entries with
      | nil => cases h
      | cons e es =>
        simp only [List.map_cons, List.cons.injEq, Prod.mk.injEq] at h
        obtain ⟨⟨h1, h2, h3⟩, h4⟩ := h
        rw [mapRes, ih es h4]
        obtain ⟨k, hk1, hk2⟩ := Option.map_eq_some_iff.1 h1
        obtain ⟨d, hd1, hd2⟩ := Option.map_eq_some_iff.1 h2
        have : entry c = .ok e := by
          unfold entry intAttr
          rw [hk1, hd1]
          simp only
          rw [hd2, hi]
          simp only
          rw [if_neg (by rw [h3]; exact (isTok_fmtInt _).1), h3, hi, hk2]
        rw [this]
  unfold readInformation
  rw [if_neg hne, hp]
  simp only
  rw [he]
  simp only
  have upd_new : ∀ (d : List (List Char × Int × Int)) k v, k ∉ d.map (·.1) → upd d k v = d ++ [(k, v)] := by
    intro d
    induction d with
    | nil => intro k v _; rfl
    | cons e d ih =>
      intro k v hk
      rw [List.map_cons, List.mem_cons, not_or] at hk
      rw [upd, if_neg (fun e => hk.1 e.symm), ih k v hk.2]
      rfl
  have fold : ∀ (l d : List (List Char × Int × Int)), ((d ++ l).map (·.1)).Nodup → l.foldl (fun d e => upd d e.1 e.2) d = d ++ l := by
    intro l
    induction l with
    | nil => intro d _; simp
    | cons e l ih =>
      intro d hd
      have hnew : e.1 ∉ d.map (·.1) := by
        intro hm
        rw [List.map_append, List.nodup_append] at hd
        exact hd.2.2 _ hm _ (by simp) rfl
      rw [List.foldl_cons, upd_new d e.1 e.2 hnew, ih (d ++ [(e.1, e.2)]) (by simpa using hd)]
      simp
  rw [fold entries [] (by simpa using hn)]
  rfl

/-- A version 2 document with field data and a Mixed topology is read. -/
example : XdmfFile.read (F := Int) plainIO [] []
    ("<Xdmf Version=\"2.1\"><Domain><Grid GridType=\"Uniform\"><Geometry><DataItem Dimensions=\"3 3\" Format=\"XML\">0 0 0 1 0 0 0 1 0</DataItem>" ++
     "</Geometry><Topology TopologyType=\"Mixed\"><DataItem Dimensions=\"8\" NumberType=\"Int\" Format=\"XML\">2 2 0 1 4 0 1 2</DataItem></Topology>" ++
     "<Information>&lt;main&gt;&lt;map key=\"top\" dim=\"1\"&gt;7&lt;/map&gt;&lt;/main&gt;</Information></Grid></Domain></Xdmf>").toList =
    .ok ⟨⟨⟨"float32", [3], [[.flt 0, .flt 0, .flt 0], [.flt 1, .flt 0, .flt 0], [.flt 0, .flt 1, .flt 0]]⟩,
      [("line", [[0, 1]]), ("triangle", [[0, 1, 2]])], [], []⟩, [("top".toList, 7, 1)]⟩ := by decide +kernel

/-- C77.  The number type of every data item: with two of them the item is refused, with ReadError, otherwise it is the one that is said. -/
theorem C77_item_type (e : XmlElem) :
    (∀ ty, numberType e = .ok ty ↔ XdmfType e ty) ∧
      ((e.attr? "DataType" ≠ none ∧ e.attr? "NumberType" ≠ none) ↔ numberType e = .error .readError) := by
  unfold numberType XdmfType
  cases hd : e.attr? "DataType" with
  | none =>
    cases hn : e.attr? "NumberType" with
    | none =>
      refine ⟨fun ty => ?_, by simp⟩
      simp only [Except.ok.injEq, reduceCtorEq, false_and, and_true, false_or]
      exact eq_comm
    | some n => exact ⟨fun ty => by simp, by simp⟩
  | some d =>
    cases hn : e.attr? "NumberType" with
    | none => exact ⟨fun ty => by simp, by simp⟩
    | some n => exact ⟨fun ty => by simp, by simp⟩

theorem xdmf_reshape_dtype {dtype : String} {dims : List Nat} {l : List (Xdmf.Val F)} {a : Nd F} (h : reshapeNd dtype dims l = .ok a) :
    a.dtype = dtype ∧ a.rows.length :: a.inner = dims := by
  unfold reshapeNd at h
  split at h
  · cases h
  · split at h
    · cases h
    · next rows hr =>
      injection h with h
      subst h
      refine ⟨rfl, ?_⟩
      unfold reshape at hr
      split at hr
      · next hl =>
        injection hr with hr
        subst hr
        rw [length_rowsN]
      · cases hr

theorem xdmf_dims {e : XmlElem} {dims : List Nat} (h : dimsOf e = .ok dims) :
    ∃ d, e.attr? "Dimensions" = some d ∧ (splitWs d.toList).map Su2.pyInt = dims.map fun n => .ok (n : Int) := by
  unfold dimsOf at h
  split at h
  · cases h
  · next d hd =>
    refine ⟨d, hd, ?_⟩
    clear hd
    generalize splitWs d.toList = l at h
    induction l generalizing dims with
    | nil => simp only [mapRes] at h; injection h with h; subst h; rfl
    | cons x l ih =>
      rw [mapRes] at h
      split at h
      · cases h
      · next y hy =>
        split at h
        · cases h
        · next ys hys =>
          injection h with h
          subst h
          unfold pyNat at hy
          split at hy
          · cases hy
          · next i hi =>
            split at hy
            · cases hy
            · next hn =>
              injection hy with hy
              subst hy
              rw [List.map_cons, List.map_cons, ih hys, hi]
              congr 2
              omega

/-- C77.  Every data item that is read is no reference and says its dimensions, its number type and one of the three formats; unless it is
in an HDF5 file it has these dimensions and its numbers are of that type, in the precision that is said, or 4. -/
theorem C77_item (io : XdmfIO F) (dir : List Char) (fs : Files F) (e : XmlElem) (a : Nd F) (h : readDataItem io dir fs e = .ok a) :
    e.attr? "Reference" = none ∧
      ∃ d ty f, e.attr? "Dimensions" = some d ∧ XdmfType e ty ∧ e.attr? "Format" = some f ∧ f ∈ ["XML", "Binary", "HDF"] ∧
      (f ≠ "HDF" → (splitWs d.toList).map Su2.pyInt = a.shape.map (fun n => .ok (n : Int)) ∧
        ((ty, (e.attr? "Precision").getD "4"), a.dtype) ∈ xdmfToNumpy) := by
  unfold readDataItem at h
  split at h
  · cases h
  · next hr =>
    refine ⟨hr, ?_⟩
    split at h
    · cases h
    · next it hit =>
      unfold itemOf itemAs at hit
      split at hit
      · cases hit
      · next dims hdims =>
        obtain ⟨dm, hdm, hdm'⟩ := xdmf_dims hdims
        split at hit
        · cases hit
        · next d hd =>
          have hty := ((C77_item_type e).1 d).1 hd
          split at hit
          · cases hit
          · next f hf =>
            split at hit
            · next hx =>
              split at hit
              · cases hit
              · injection hit with hit
                subst hit
                refine ⟨dm, d, f, hdm, hty, hf, by rw [hx]; decide, fun _ => ?_⟩
                unfold readItem at h
                simp only at h
                split at h
                · cases h
                · next dt hdt =>
                  have : a.dtype = dt ∧ a.rows.length :: a.inner = dims := by
                    repeat' split at h
                    all_goals first | cases h; done | exact xdmf_reshape_dtype h
                  refine ⟨by rw [hdm', ← this.2]; rfl, ?_⟩
                  rw [this.1]
                  exact find_mem hdt
            · split at hit
              · next hx =>
                injection hit with hit
                subst hit
                refine ⟨dm, d, f, hdm, hty, hf, by rw [hx]; decide, fun _ => ?_⟩
                unfold readItem at h
                simp only at h
                split at h
                · cases h
                · cases h
                · split at h
                  · cases h
                  · next dt hdt =>
                    have : a.dtype = dt ∧ a.rows.length :: a.inner = dims := by
                      repeat' split at h
                      all_goals first | cases h; done | exact xdmf_reshape_dtype h
                    refine ⟨by rw [hdm', ← this.2]; rfl, ?_⟩
                    rw [this.1]
                    exact find_mem hdt
              · split at hit
                · next hx => exact ⟨dm, d, f, hdm, hty, hf, by rw [hx]; decide, fun hne => absurd hx hne⟩
                · cases hit

/-- C77.  Field data: an empty text, an entry without text and an entry without name or dimension are refused, with the errors given. -/
theorem C77_information_refused (text : List Char) :
    (text = [] → readInformation text = .error .readError) ∧
      ∀ root c rest, text ≠ [] → parseXml text = some root → root.kids = c :: rest →
        (c.attr? "key" = none → readInformation text = .error .keyError) ∧
        (∀ k, c.attr? "key" = some k → c.attr? "dim" = none → readInformation text = .error .keyError) ∧
        (∀ k d n, c.attr? "key" = some k → c.attr? "dim" = some d → Su2.pyInt d.toList = .ok n → c.text = [] →
          readInformation text = .error .readError) := by
  refine ⟨?_, ?_⟩
  · rintro rfl; rfl
  · intro root c rest hne hp hk
    refine ⟨?_, ?_, ?_⟩
    · intro h
      unfold readInformation
      rw [if_neg hne, hp]
      simp only [hk, mapRes, entry, h]
    · intro k h1 h2
      unfold readInformation
      rw [if_neg hne, hp]
      simp only [hk, mapRes, entry, h1, intAttr, h2]
    · intro k d n h1 h2 h3 h4
      unfold readInformation
      rw [if_neg hne, hp]
      simp only [hk, mapRes, entry, h1, intAttr, h2, h3, h4, if_true]

/-- Their hypotheses are met. -/
example : readInformation "<main><map key=\"top\" dim=\"1\" /></main>".toList = .error .readError ∧
    readInformation "<main><map key=\"top\">3</map></main>".toList = .error .keyError := by decide +kernel

/-- Hypotheses of the rejections are met. -/
example : XdmfFile.read (F := Int) plainIO [] [] "<VTKFile Version=\"3.0\"></VTKFile>".toList = .error .readError ∧
    XdmfFile.read (F := Int) plainIO [] [] "<Xdmf></Xdmf>".toList = .error .keyError ∧
    XdmfFile.read (F := Int) plainIO [] [] "<Xdmf Version=\"1.0\"></Xdmf>".toList = .error .readError ∧
    XdmfFile.read (F := Int) plainIO [] [] "<Xdmf Version=\"30\"></Xdmf>".toList = .error .readError ∧
    XdmfFile.read (F := Int) plainIO [] [] "<Xdmf Version=\"3\"><Domain></Domain></Xdmf>".toList = .error .readError ∧
    XdmfFile.read (F := Int) plainIO [] [] "<Xdmf Version=\"2\"><Domain><Grid GridType=\"Tree\"></Grid></Domain></Xdmf>".toList = .error .readError := by
  decide +kernel

end Props
end Meshio
