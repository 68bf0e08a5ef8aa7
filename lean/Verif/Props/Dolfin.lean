/-
C67: reading DOLFIN XML files.
-/
import Verif.Proofs.Dolfin
namespace Meshio.Props
open Meshio Meshio.Dolfin Meshio.Spec

variable {F : Type}

/-- Every document that holds a mesh is read as that mesh, in whatever order vertices and cells are listed and whatever else is in it; the
cell data are exactly those of the files that belong to it, whatever the order of the directory. -/
theorem C67_read (fio : FloatIO F) (base : List Char) (hb : PlainBase base) (hne : base ≠ []) (filename : String)
    (hf : filename.toList = base ++ ".xml".toList) (dir : List (String × List Char)) (s : List Char) (hs : Dict.get? dir filename = some s)
    (root : XmlElem) (hx : parseXml s = some root) (dim : Nat) (kind : String × String × List String) (points : List (List F))
    (cells : List (List Int)) (hd : DolfinDoc fio root dim kind points cells)
    (hdoc : ∀ f ∈ dir, ∀ n, IsDataFile base f.1 n → ∃ d, FunctionDoc fio f.2 d ∧ d.len = cells.length)
    (hone : dir.Pairwise fun f g => ∀ n, IsDataFile base f.1 n → ¬ IsDataFile base g.1 n) :
    ∃ cd, Dolfin.read fio filename dir = .ok ⟨fullRows points, kind.2.1, fullRows cells, cd⟩ ∧ Dict.Ok cd ∧
      ∀ n l, Dict.get? cd n = some l ↔ ∃ f ∈ dir, IsDataFile base f.1 n ∧ ∃ d, FunctionDoc fio f.2 d ∧ l = [fullData d] := by
  obtain ⟨cd, h1, h2, h3⟩ := readCellData_ok fio base hb dir (fun f hf n hn => (hdoc f hf n hn).imp fun d h => h.1) hone [] (by simp)
  have hok : Dict.Ok cd := h3 (by simp [Dict.Ok, Dict.keys])
  refine ⟨cd, ?_, hok, ?_⟩
  · have hc : checkData cells.length cd = .ok () := by
      apply checkData_ok
      intro e he
      have hg := Dict.get?_of_mem hok (show (e.1, e.2) ∈ cd from he)
      rcases (h2 e.1 e.2).mp hg with h | ⟨f, hf, hn, d, hd1, hd2⟩
      · simp at h
      · obtain ⟨d', hd1', hl⟩ := hdoc f hf e.1 hn
        have e1 := readFunction_doc fio _ d hd1
        rw [readFunction_doc fio _ d' hd1'] at e1
        exact ⟨fullData d, hd2, by rw [← Except.ok.inj e1, fullData_len, hl]⟩
    unfold Dolfin.read
    rw [hs]
    simp only [readMesh_doc fio s root hx dim kind points cells hd, hf, stem_xml base hne]
    rw [if_neg (by rw [special_plain base hb]; simp), h1]
    simp only [fullRows, List.length_map, hc]
  · intro n l
    rw [h2]
    simp

/-! Non-vacuity: vertices out of order, a foreign element, and one data file -/

/-- A mesh file in which the cells come before the vertices. -/
def dolfinSample : List Char :=
  ("<dolfin><mesh celltype=\"triangle\" dim=\"2\"><data><x/></data><cells size=\"2\"><triangle index=\"1\" v0=\"0\" v1=\"2\" v2=\"3\"/>" ++
    "<triangle v2=\"2\" v1=\"1\" v0=\"0\" index=\"0\"/></cells><vertices size=\"4\"><vertex index=\"3\" x=\"0\" y=\"7\"/>" ++
    "<vertex index=\"0\" x=\"0\" y=\"0\"/><vertex y=\"7\" x=\"5\" index=\"2\"/><vertex index=\"1\" x=\"5\" y=\"0\"/></vertices></mesh></dolfin>").toList

/-- Its root element. -/
def dolfinRoot : XmlElem :=
  ⟨"dolfin", [], [], .cons "mesh" [("celltype", "triangle"), ("dim", "2")] [] (.cons "data" [] [] (.cons "x" [] [] .nil .nil)
    (.cons "cells" [("size", "2")] [] (.cons "triangle" [("index", "1"), ("v0", "0"), ("v1", "2"), ("v2", "3")] [] .nil
      (.cons "triangle" [("v2", "2"), ("v1", "1"), ("v0", "0"), ("index", "0")] [] .nil .nil))
    (.cons "vertices" [("size", "4")] [] (.cons "vertex" [("index", "3"), ("x", "0"), ("y", "7")] [] .nil
      (.cons "vertex" [("index", "0"), ("x", "0"), ("y", "0")] [] .nil (.cons "vertex" [("y", "7"), ("x", "5"), ("index", "2")] [] .nil
      (.cons "vertex" [("index", "1"), ("x", "5"), ("y", "0")] [] .nil .nil)))) .nil))) .nil⟩

/-- Cell data of it. -/
def dolfinSampleData : List Char :=
  "<dolfin><mesh_function type=\"int\" dim=\"2\" size=\"2\"><entity index=\"1\" value=\"8\"/><entity index=\"0\" value=\"-3\"/></mesh_function></dolfin>".toList

/-- A directory with other files in it. -/
def dolfinDir : List (String × List Char) :=
  [("m_a.xml", dolfinSampleData), ("notes.txt", "hello".toList), ("m.xml", dolfinSample), ("m2_a.xml", "nonsense".toList)]

example : Dolfin.read .int "m.xml" dolfinDir = .ok ⟨fullRows [[0, 0], [5, 0], [5, 7], [0, 7]], "triangle", fullRows [[0, 1, 2], [0, 2, 3]],
    [("a", [.ints false [some (-3), some 8]])]⟩ := by decide +kernel

/-- A row element with the index `k`. -/
theorem dolfin_saysRow {α : Type} {parse : List Char → Option α} {tag : String} {names : List String} {rows : List (List α)} {as : List (String × String)}
    (k : Nat) (r : List α) (hi : ∃ s, XmlElem.attr? ⟨tag, as, [], .nil⟩ "index" = some s ∧ parseInt s.toList = some (k : Int)) (hr : rows[k]? = some r)
    (hl : r.length = names.length)
    (hv : ∀ p ∈ names.zip r, ∃ s, XmlElem.attr? ⟨tag, as, [], .nil⟩ p.1 = some s ∧ parse s.toList = some p.2) :
    SaysRow parse tag names rows ⟨tag, as, [], .nil⟩ k :=
  ⟨rfl, rfl, hi, r, hr, hl, fun j n x hn hx => hv (n, x) (List.mem_iff_getElem?.mpr ⟨j, List.getElem?_zip_eq_some.mpr ⟨hn, hx⟩⟩)⟩

example : parseXml dolfinSample = some dolfinRoot := by decide +kernel

/-- The sample meets the hypotheses. -/
theorem dolfin_sample_doc : DolfinDoc .int dolfinRoot 2 ("triangle", "triangle", ["v0", "v1", "v2"])
    [[0, 0], [5, 0], [5, 7], [0, 7]] [[0, 1, 2], [0, 2, 3]] := by
  have c1 : SaysRow parseInt "triangle" ["v0", "v1", "v2"] [[0, 1, 2], [0, 2, 3]]
      ⟨"triangle", [("index", "1"), ("v0", "0"), ("v1", "2"), ("v2", "3")], [], .nil⟩ 1 :=
    dolfin_saysRow 1 [0, 2, 3] ⟨"1", by decide⟩ rfl rfl (by
      intro p hp; simp at hp; rcases hp with rfl | rfl | rfl
      · exact ⟨"0", by decide⟩
      · exact ⟨"2", by decide⟩
      · exact ⟨"3", by decide⟩)
  have c0 : SaysRow parseInt "triangle" ["v0", "v1", "v2"] [[0, 1, 2], [0, 2, 3]]
      ⟨"triangle", [("v2", "2"), ("v1", "1"), ("v0", "0"), ("index", "0")], [], .nil⟩ 0 :=
    dolfin_saysRow 0 [0, 1, 2] ⟨"0", by decide⟩ rfl rfl (by
      intro p hp; simp at hp; rcases hp with rfl | rfl | rfl
      · exact ⟨"0", by decide⟩
      · exact ⟨"1", by decide⟩
      · exact ⟨"2", by decide⟩)
  have v3 : SaysRow FloatIO.int.parse "vertex" ["x", "y"] [[0, 0], [5, 0], [5, 7], [0, 7]]
      ⟨"vertex", [("index", "3"), ("x", "0"), ("y", "7")], [], .nil⟩ 3 :=
    dolfin_saysRow 3 [0, 7] ⟨"3", by decide⟩ rfl rfl (by
      intro p hp; simp at hp; rcases hp with rfl | rfl
      · exact ⟨"0", by decide⟩
      · exact ⟨"7", by decide⟩)
  have v0 : SaysRow FloatIO.int.parse "vertex" ["x", "y"] [[0, 0], [5, 0], [5, 7], [0, 7]]
      ⟨"vertex", [("index", "0"), ("x", "0"), ("y", "0")], [], .nil⟩ 0 :=
    dolfin_saysRow 0 [0, 0] ⟨"0", by decide⟩ rfl rfl (by
      intro p hp; simp at hp; rcases hp with rfl | rfl
      · exact ⟨"0", by decide⟩
      · exact ⟨"0", by decide⟩)
  have v2 : SaysRow FloatIO.int.parse "vertex" ["x", "y"] [[0, 0], [5, 0], [5, 7], [0, 7]]
      ⟨"vertex", [("y", "7"), ("x", "5"), ("index", "2")], [], .nil⟩ 2 :=
    dolfin_saysRow 2 [5, 7] ⟨"2", by decide⟩ rfl rfl (by
      intro p hp; simp at hp; rcases hp with rfl | rfl
      · exact ⟨"5", by decide⟩
      · exact ⟨"7", by decide⟩)
  have v1 : SaysRow FloatIO.int.parse "vertex" ["x", "y"] [[0, 0], [5, 0], [5, 7], [0, 7]]
      ⟨"vertex", [("index", "1"), ("x", "5"), ("y", "0")], [], .nil⟩ 1 :=
    dolfin_saysRow 1 [5, 0] ⟨"1", by decide⟩ rfl rfl (by
      intro p hp; simp at hp; rcases hp with rfl | rfl
      · exact ⟨"5", by decide⟩
      · exact ⟨"0", by decide⟩)
  refine ⟨.inl rfl, by decide, rfl, _, [_], _, [], _, [], rfl, rfl, ⟨"2", by decide⟩, by decide, .inr rfl, ?_, ?_, ?_⟩
  · intro e he
    simp at he
    subst he
    exact ⟨by decide, by decide, trivial, trivial⟩
  · refine ⟨rfl, ⟨"4", by decide⟩, ?_, ?_⟩
    · intro c hc
      simp [XmlElem.kids, Xml.elems] at hc
      rcases hc with rfl | rfl | rfl | rfl
      · exact ⟨3, v3⟩
      · exact ⟨0, v0⟩
      · exact ⟨2, v2⟩
      · exact ⟨1, v1⟩
    · intro k hk
      simp at hk
      rcases (by omega : k = 0 ∨ k = 1 ∨ k = 2 ∨ k = 3) with rfl | rfl | rfl | rfl
      · exact ⟨_, by simp [XmlElem.kids, Xml.elems], v0⟩
      · exact ⟨_, by simp [XmlElem.kids, Xml.elems], v1⟩
      · exact ⟨_, by simp [XmlElem.kids, Xml.elems], v2⟩
      · exact ⟨_, by simp [XmlElem.kids, Xml.elems], v3⟩
  · refine ⟨rfl, ⟨"2", by decide⟩, ?_, ?_⟩
    · intro c hc
      simp [XmlElem.kids, Xml.elems] at hc
      rcases hc with rfl | rfl
      · exact ⟨1, c1⟩
      · exact ⟨0, c0⟩
    · intro k hk
      simp at hk
      rcases (by omega : k = 0 ∨ k = 1) with rfl | rfl
      · exact ⟨_, by simp [XmlElem.kids, Xml.elems], c0⟩
      · exact ⟨_, by simp [XmlElem.kids, Xml.elems], c1⟩

/-- Its data file is one, with the values in the order of their indices. -/
theorem dolfin_sample_function : FunctionDoc .int dolfinSampleData (.ints false [-3, 8]) := by
  refine ⟨⟨"dolfin", [], [], .cons "mesh_function" [("type", "int"), ("dim", "2"), ("size", "2")] []
    (.cons "entity" [("index", "1"), ("value", "8")] [] .nil (.cons "entity" [("index", "0"), ("value", "-3")] [] .nil .nil)) .nil⟩, _,
    by decide +kernel, rfl, rfl, by decide, ⟨"2", by decide⟩, ?_, ?_⟩
  · intro c hc
    simp [XmlElem.kids, Xml.elems] at hc
    rcases hc with rfl | rfl
    · exact ⟨rfl, 1, 8, rfl, ⟨"1", by decide⟩, ⟨"8", by decide⟩⟩
    · exact ⟨rfl, 0, -3, rfl, ⟨"0", by decide⟩, ⟨"-3", by decide⟩⟩
  · intro k x hk
    match k, hk with
    | 0, hk => cases hk; exact ⟨_, by simp [XmlElem.kids, Xml.elems]; right; rfl, ⟨"0", by decide⟩, ⟨"-3", by decide⟩⟩
    | 1, hk => cases hk; exact ⟨_, by simp [XmlElem.kids, Xml.elems]; left; rfl, ⟨"1", by decide⟩, ⟨"8", by decide⟩⟩
    | k + 2, hk => simp at hk

/-! Files that are refused -/

/-- `vertices`, `vertex` or `cells` before `mesh` (or `vertex` before `vertices`) is a ReadError. -/
theorem C67_order_rejected (fio : FloatIO F) (s : List Char) (root : XmlElem) (hx : parseXml s = some root)
    (a b : List (String × List (String × String))) (e : String × List (String × String))
    (h : (root.tag, root.attrs) :: events root.children = a ++ e :: b)
    (ha : ∀ x ∈ a, x.1 ∉ ["mesh", "vertices", "vertex", "cells", "triangle", "tetrahedron"]) (he : e.1 ∈ ["vertices", "vertex", "cells"]) :
    readMesh fio s = .error .readError := by
  unfold readMesh
  rw [hx]
  simp only []
  rw [h]
  have : ∀ (a : List (String × List (String × String))) (ha : ∀ x ∈ a, x.1 ∉ ["mesh", "vertices", "vertex", "cells", "triangle", "tetrahedron"]),
      foldRes (event fio) ⟨none, none, none, none⟩ (a ++ e :: b) = .error .readError := by
    intro a
    induction a with
    | nil =>
      intro _
      simp only [List.nil_append, foldRes]
      have : event fio ⟨none, none, none, none⟩ e = .error .readError := by
        simp only [List.mem_cons, List.not_mem_nil, or_false] at he
        unfold event
        rcases he with he | he | he <;> simp [he]
      rw [this]
    | cons x a ih =>
      intro ha
      have hx' := ha x (by simp)
      have : event fio ⟨none, none, none, none⟩ x = .ok ⟨none, none, none, none⟩ := by
        simp only [List.mem_cons, List.not_mem_nil, or_false, not_or] at hx'
        unfold event
        simp [hx'.1, hx'.2]
      simp only [List.cons_append, foldRes, this]
      exact ih (fun y hy => ha y (by simp [hy]))
  exact this a ha

example : readMesh FloatIO.int "<dolfin><vertices size=\"1\"/><mesh dim=\"2\" celltype=\"triangle\"/></dolfin>".toList = .error .readError := by
  decide +kernel

/-- Every other cell type is a KeyError. -/
theorem C67_celltype_rejected (fio : FloatIO F) (s : List Char) (root m : XmlElem) (hx : parseXml s = some root) (hr : root.tag = "dolfin")
    (rest : List XmlElem) (hk : root.kids = m :: rest) (hm : m.tag = "mesh") (d : Int) (hd : SaysAttr parseInt m "dim" d) (t : String)
    (ht : m.attr? "celltype" = some t) (hn : t ≠ "triangle" ∧ t ≠ "tetrahedron") : readMesh fio s = .error .keyError := by
  unfold readMesh
  rw [hx]
  simp only [foldRes]
  have e0 : event fio ⟨none, none, none, none⟩ (root.tag, root.attrs) = .ok ⟨none, none, none, none⟩ := by
    unfold event; simp only [hr]; rw [if_pos trivial]
  rw [e0, events_elems, show root.children.elems = root.kids from rfl, hk]
  simp only [List.flatMap_cons, List.cons_append, foldRes]
  have e1 : event fio ⟨none, none, none, none⟩ (m.tag, m.attrs) = .error .keyError := by
    unfold event
    simp only [hm]
    rw [if_neg (by decide), if_pos trivial]
    have : Dict.get? cellTypes t = none := by
      simp [cellTypes, Dict.get?_cons, hn.1, hn.2]
    simp only [intAttr_of hd, attrOf_of ht, this]
  rw [e1]

example : readMesh FloatIO.int "<dolfin><mesh dim=\"2\" celltype=\"quadrilateral\"/></dolfin>".toList = .error .keyError := by decide +kernel

/-- A vertex with an index that is out of range is an IndexError, whatever comes before and after it. -/
theorem C67_index_rejected (fio : FloatIO F) (s : List Char) (root m v c : XmlElem) (hx : parseXml s = some root) (hr : root.tag = "dolfin")
    (rest more : List XmlElem) (good : List XmlElem) (hk : root.kids = [m]) (hm : m.tag = "mesh") (dim : Nat) (h23 : dim = 2 ∨ dim = 3)
    (hd : SaysAttr parseInt m "dim" (dim : Int)) (t : String) (ht : m.attr? "celltype" = some t) (hn : t = "triangle" ∨ t = "tetrahedron")
    (hv : m.kids = v :: rest) (hvt : v.tag = "vertices") (rows : List (List F)) (hsz : SaysAttr parseInt v "size" (rows.length : Int))
    (hw : ∀ r ∈ rows, r.length = dim) (hc : v.kids = good ++ c :: more)
    (hg : ∀ g ∈ good, ∃ k, SaysRow fio.parse "vertex" (dolfinCoords dim) rows g k) (hct : c.tag = "vertex") (k : Int)
    (hi : SaysAttr parseInt c "index" k) (hk' : k < -(rows.length : Int) ∨ (rows.length : Int) ≤ k)
    (hco : ∀ n ∈ dolfinCoords dim, (c.attr? n).isSome = true) : readMesh fio s = .error .indexError := by
  have hl : (dolfinCoords dim).length = dim := by rcases h23 with rfl | rfl <;> rfl
  unfold readMesh
  rw [hx]
  simp only [foldRes]
  have e0 : event fio ⟨none, none, none, none⟩ (root.tag, root.attrs) = .ok ⟨none, none, none, none⟩ := by
    unfold event; simp only [hr]; rw [if_pos trivial]
  rw [e0, events_elems, show root.children.elems = root.kids from rfl, hk]
  simp only [List.flatMap_cons, List.flatMap_nil, List.append_nil, foldRes]
  obtain ⟨ct, hct'⟩ : ∃ ct, Dict.get? cellTypes t = some ct := by rcases hn with rfl | rfl <;> exact ⟨_, rfl⟩
  have e1 : event fio ⟨none, none, none, none⟩ (m.tag, m.attrs) = .ok ⟨some (dim : Int), none, some ct, none⟩ := by
    unfold event
    simp only [hm]
    rw [if_neg (by decide), if_pos trivial]
    simp only [intAttr_of hd, attrOf_of ht, hct']
  rw [e1]
  simp only []
  rw [events_elems, show m.children.elems = m.kids from rfl, hv]
  simp only [List.flatMap_cons, List.cons_append, foldRes]
  obtain ⟨s1, s2⟩ := Part.start rows (dolfinCoords dim).length
  have e2 : event fio ⟨some (dim : Int), none, some ct, none⟩ (v.tag, v.attrs) =
      .ok ⟨some (dim : Int), some (dolfinCoords dim, List.replicate rows.length (List.replicate (dolfinCoords dim).length none)), some ct, none⟩ := by
    unfold event
    simp only [hvt]
    rw [if_neg (by decide), if_neg (by decide), if_pos trivial]
    rw [hl] at s1
    simp only [intAttr_of hsz, s1, hl]
    rcases h23 with rfl | rfl <;> rfl
  rw [e2]
  simp only []
  rw [events_elems, show v.children.elems = v.kids from rfl, hc, List.flatMap_append, List.append_assoc]
  obtain ⟨a', said', h1, h2, _, _⟩ := fold_vertices fio (dolfinCoords dim) rows (by rw [hl]; exact hw) good hg
    ⟨some (dim : Int), some (dolfinCoords dim, List.replicate rows.length (List.replicate (dolfinCoords dim).length none)), some ct, none⟩ _ _ s2 rfl
  rw [foldRes_cons_append _ _ _ _ _ h1]
  simp only [List.flatMap_cons, List.cons_append, foldRes]
  have hvals : ∃ vals, mapRes (attrOf c.attrs) (dolfinCoords dim) = .ok vals := by
    have : ∀ l : List String, (∀ n ∈ l, (c.attr? n).isSome = true) → ∃ vals, mapRes (attrOf c.attrs) l = .ok vals := by
      intro l
      induction l with
      | nil => intro _; exact ⟨[], rfl⟩
      | cons n l ih =>
        intro h
        obtain ⟨vals, hvals⟩ := ih (fun n' hn' => h n' (by simp [hn']))
        obtain ⟨x, hx⟩ := Option.isSome_iff_exists.mp (h n (by simp))
        exact ⟨x :: vals, by simp only [mapRes, attrOf_of hx, hvals]⟩
    exact this _ hco
  obtain ⟨vals, hvals⟩ := hvals
  have e3 : event fio ⟨some (dim : Int), some (dolfinCoords dim, a'), some ct, none⟩ (c.tag, c.attrs) = .error .indexError := by
    unfold event
    simp only [hct]
    rw [if_neg (by decide), if_neg (by decide), if_neg (by decide), if_pos trivial]
    have : setRow fio.parse a' k vals = .error .indexError := by
      unfold setRow
      have : position a'.length k = none := by
        unfold position
        rw [h2.len, if_neg (by omega), if_neg (by omega)]
      rw [this]
    simp only [intAttr_of hi, hvals, this]
  rw [e3]

example : readMesh FloatIO.int ("<dolfin><mesh dim=\"2\" celltype=\"triangle\"><vertices size=\"2\"><vertex index=\"0\" x=\"1\" y=\"1\"/>" ++
    "<vertex index=\"2\" x=\"1\" y=\"1\"/></vertices></mesh></dolfin>").toList = .error .indexError := by decide +kernel

/-- What one would like: a mesh file can be read whatever other meshes are in the same directory. -/
def C67_other_meshes_statement : Prop :=
  ∀ (base other : String) (s s' : List Char), PlainBase base.toList → PlainBase other.toList → base ≠ "" → other ≠ "" → base ≠ other →
    (∃ root dim kind points cells, parseXml s = some root ∧ DolfinDoc FloatIO.int root dim kind points cells) →
    (∃ root dim kind points cells, parseXml s' = some root ∧ DolfinDoc FloatIO.int root dim kind points cells) →
    (Dolfin.read FloatIO.int (base ++ ".xml") [(base ++ ".xml", s), (other ++ ".xml", s')]).isOk = true

/-- It is false: a mesh `m_fine.xml` next to `m.xml` is taken for cell data of `m.xml`, which can then not be read any more. -/
theorem C67_other_meshes_false : ¬ C67_other_meshes_statement := by
  intro h
  have := h "m" "m_fine" dolfinSample dolfinSample (by unfold PlainBase; decide +kernel) (by unfold PlainBase; decide +kernel) (by decide) (by decide)
    (by decide) ⟨_, _, _, _, _, by decide +kernel, dolfin_sample_doc⟩ ⟨_, _, _, _, _, by decide +kernel, dolfin_sample_doc⟩
  exact absurd this (by decide +kernel)

/-- In general: a file that is named like cell data of the mesh but holds anything but one `mesh_function` makes the mesh unreadable. -/
theorem C67_other_file_rejected (fio : FloatIO F) (base : List Char) (hb : PlainBase base) (hne : base ≠ []) (filename : String)
    (hf : filename.toList = base ++ ".xml".toList) (pre post : List (String × List Char)) (f : String × List Char) (s : List Char)
    (hs : Dict.get? (pre ++ f :: post) filename = some s) (st : St F) (hm : readMesh fio s = .ok st)
    (hpre : ∀ g ∈ pre, ∀ n, ¬ IsDataFile base g.1 n) (n : String) (hn : IsDataFile base f.1 n) (root : XmlElem)
    (hx : parseXml f.2 = some root) (hbad : ∀ e, root.kids = [e] → e.tag ≠ "mesh_function") :
    Dolfin.read fio filename (pre ++ f :: post) = .error .readError := by
  have hr : readFunction fio f.2 = .error .readError := by
    unfold readFunction
    rw [hx]
    simp only []
    split
    · next e he => rw [if_pos (hbad e he)]
    · rfl
  have hc : readCellData fio base [] (pre ++ f :: post) = .error .readError := by
    clear hs
    induction pre with
    | nil => simp only [List.nil_append, readCellData, (dataName_iff base hb f.1 n).mpr hn, hr]
    | cons g pre ih =>
      simp only [List.cons_append, readCellData, dataName_none base hb g.1 (hpre g (by simp))]
      exact ih (fun g' hg => hpre g' (by simp [hg]))
  unfold Dolfin.read
  rw [hs]
  simp only [hm, hf, stem_xml base hne]
  rw [if_neg (by rw [special_plain base hb]; simp), hc]

example : Dolfin.read .int "m.xml" [("m.xml", dolfinSample), ("m_fine.xml", dolfinSample)] = .error .readError := by decide +kernel

/-- A copy of a data file whose name only begins like one, such as `m_a.xml.bak`, counts as a second array of the same name, and the mesh is
refused with a ValueError. -/
theorem C67_backup_rejected : Dolfin.read .int "m.xml" [("m.xml", dolfinSample), ("m_a.xml", dolfinSampleData), ("m_a.xml.bak", dolfinSampleData)] =
    .error .valueError := by decide +kernel

/-- Without `cells` there is no mesh: TypeError. -/
theorem C67_no_cells : Dolfin.read .int "m.xml" [("m.xml", "<dolfin><mesh celltype=\"triangle\" dim=\"2\"><vertices size=\"0\"/></mesh></dolfin>".toList)] =
    .error .typeError := by decide +kernel

/-- A vertex that is not listed stays undefined, without an exception. -/
theorem C67_missing_vertex_undefined : Dolfin.read .int "m.xml" [("m.xml", ("<dolfin><mesh celltype=\"triangle\" dim=\"2\"><vertices size=\"2\">" ++
    "<vertex index=\"-1\" x=\"1\" y=\"2\"/></vertices><cells size=\"0\"/></mesh></dolfin>").toList)] =
    .ok ⟨[[none, none], [some 1, some 2]], "triangle", [], []⟩ := by decide +kernel

end Meshio.Props
