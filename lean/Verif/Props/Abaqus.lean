/-
C33: Abaqus files say what the mesh says.  C31: numbers of nodes.
-/
import Verif.Proofs.AbaqusMesh
import Verif.Props.Types
namespace Meshio.Props
open Meshio Types Tables Spec Abaqus

variable {F : Type}

/-! ## Reading -/

/-- A file is read as the mesh it describes: keywords and options in either case, in any order, with blanks; comments and sections the
reader does not know; nodes with any distinct numbers; cells continued over several lines; sets listed, generated or named by the
cells. -/
theorem C33_read (io : FloatIO F) (inc : List Char → Res (Out F)) (f : AbaqusFile F) (h : f.Ok io) (hs : f.Sets) :
    Abaqus.read io inc (linesText f.lines) = .ok f.mesh := read_lines io inc f h hs

/-- The names of types are those of the table, except one that cannot be read. -/
theorem C33_names : (∀ k ∈ abaqusNames, find abaqusToMeshio k.1 = some k.2.1 ∧ find numNodesPerCell k.2.1 = some k.2.2) ∧
    (∀ k ∈ abaqusToMeshio, k.1 ∈ abaqusNames.map (·.1) ∨ k = ("C3D4H", "tetra4") ∨ k = ("C3D15", "wedge15")) := by
  constructor <;> decide +kernel

/-- Cells connect to the points that carry the listed numbers. -/
theorem C31_abaqus (io : FloatIO F) (inc : List Char → Res (Out F)) (f : AbaqusFile F) (h : f.Ok io) (hs : f.Sets) (b : Nat)
    (t : String) (s : Option String) (rows : List (Int × List Int)) (hb : f.parts[b]? = some (t, s, rows)) :
    ∃ (m : Out F) (block : List (List Nat)), Abaqus.read io inc (linesText f.lines) = .ok m ∧ m.cells[b]? = some (t, block) ∧ block.length = rows.length ∧
      ∀ (i : Nat) (r : Int × List Int), rows[i]? = some r → ∃ cell : List Nat, block[i]? = some cell ∧ cell.length = r.2.length ∧
        ∀ (j : Nat) (k : Int), r.2[j]? = some k →
          ∃ q : Nat, cell[j]? = some q ∧ f.numbers[q]? = some k ∧ m.points[q]? = ((f.nodes.filterMap (·.2))[q]?).map (·.2) := by
  refine ⟨_, rows.map fun r => r.2.map f.numbers.idxOf, C33_read io inc f h hs, ?_, by simp, ?_⟩
  · unfold AbaqusFile.mesh
    simp only
    rw [List.getElem?_map, hb]; rfl
  · intro i r hr
    refine ⟨_, by rw [List.getElem?_map, hr]; rfl, by simp, ?_⟩
    intro j k hk
    refine ⟨f.numbers.idxOf k, by rw [List.getElem?_map, hk]; rfl, ?_, by unfold AbaqusFile.mesh; rw [List.getElem?_map]⟩
    have hmem := List.mem_of_getElem? hb
    obtain ⟨it, hit, he⟩ := List.mem_filterMap.1 hmem
    have hok := h.items it hit
    cases it with
    | block hd name type set ls rs =>
      cases he
      obtain ⟨n, os, _, _, _, _, _, _, _, _, hrows⟩ := hok
      have hkm := (hrows r (List.mem_of_getElem? hr)).2 k (List.mem_of_getElem? hk)
      have hi := List.idxOf_lt_length_iff.2 hkm
      rw [List.getElem?_eq_getElem hi, List.getElem_idxOf hi]
    | other => cases he
    | nset => cases he
    | elset => cases he

/-- The members of a set of cells are the cells that carry the listed numbers, block by block. -/
theorem C33_elset (io : FloatIO F) (inc : List Char → Res (Out F)) (f : AbaqusFile F) (h : f.Ok io) (hs : f.Sets) (name : String)
    (members : List Int) (hn : (name, members) ∈ f.elsets) :
    ∃ (m : Out F) (sets : List (List Nat)), Abaqus.read io inc (linesText f.lines) = .ok m ∧ (name, sets.map Entry.ids) ∈ m.cellSets ∧ sets.length = m.cells.length ∧
      ∀ (b : Nat) (t : String) (s : Option String) (rows : List (Int × List Int)), f.parts[b]? = some (t, s, rows) →
        ∃ l, sets[b]? = some l ∧ ∀ i, i ∈ l ↔ ∃ r, rows[i]? = some r ∧ r.1 ∈ members := by
  refine ⟨_, f.parts.map fun p => members.filterMap fun k => (p.2.2.map (·.1)).idxOf? k, C33_read io inc f h hs, ?_, ?_, ?_⟩
  · unfold AbaqusFile.mesh
    simp only
    refine List.mem_append_left _ (List.mem_map.2 ⟨_, hn, ?_⟩)
    simp only [List.map_map]
    rfl
  · unfold AbaqusFile.mesh
    simp
  · intro b t s rows hb
    refine ⟨members.filterMap fun k => (rows.map (·.1)).idxOf? k, by rw [List.getElem?_map, hb]; rfl, ?_⟩
    have hnd : (rows.map (·.1)).Nodup := by
      have hmem := List.mem_of_getElem? hb
      obtain ⟨it, hit, he⟩ := List.mem_filterMap.1 hmem
      have hok := h.items it hit
      cases it with
      | block hd name type set ls rs =>
        cases he
        obtain ⟨n, os, _, _, _, _, _, _, _, hnd, _⟩ := hok
        exact hnd
      | other => cases he
      | nset => cases he
      | elset => cases he
    intro i
    rw [List.mem_filterMap]
    constructor
    · rintro ⟨k, hk, hki⟩
      have h1 := List.of_findIdx?_eq_some hki
      rw [List.getElem?_map] at h1
      cases hr : rows[i]? with
      | none => rw [hr] at h1; simp at h1
      | some r =>
        rw [hr] at h1
        simp only [Option.map_some, beq_iff_eq] at h1
        exact ⟨r, rfl, h1 ▸ hk⟩
    · rintro ⟨r, hr, hm⟩
      refine ⟨r.1, hm, ?_⟩
      have hi : i < (rows.map (·.1)).length := by
        rw [List.length_map]
        rcases Nat.lt_or_ge i rows.length with h | h
        · exact h
        · rw [List.getElem?_eq_none h] at hr; cases hr
      have he : (rows.map (·.1))[i] = r.1 := by
        have : (rows.map (·.1))[i]? = some r.1 := by rw [List.getElem?_map, hr]; rfl
        rw [List.getElem?_eq_getElem hi] at this
        exact Option.some.inj this
      rw [← he, ← idPos_idxOf? _ hnd]
      have := idGet_getElem _ hnd i hi
      unfold idGet at this
      cases hp : idPos (rows.map (·.1)) (rows.map (·.1))[i] with
      | none => rw [hp] at this; cases this
      | some j => rw [hp] at this; simpa using this

/-- A small file: comments, lower case, a cell over two lines, a generated set, a set named by the cells. -/
def exAbaqus : AbaqusFile Int where
  before := ["** comment".toList, "*HEADING".toList, "text".toList]
  head := "*Node, nset=all".toList
  nodes := [("10, 0, 0".toList, some (10, [0, 0])), ("20,1,0".toList, some (20, [1, 0])), ([], none), ("7, 0,1".toList, some (7, [0, 1])), ("8,5,5".toList, some (8, [5, 5]))]
  items := [
    .block "*element, elset=E1, type=CPS3".toList "CPS3" "triangle" (some "E1")
      [("5, 10,".toList, [5, 10]), ("20, 7".toList, [20, 7]), ("6, 20,8,7".toList, [6, 20, 8, 7])] [(5, [10, 20, 7]), (6, [20, 8, 7])],
    .other "*MATERIAL, NAME=x".toList ["1., 2.".toList],
    .block "*ELEMENT,TYPE=B31".toList "B31" "line" none [("9,8,7".toList, [9, 8, 7])] [(9, [8, 7])],
    .nset "*NSET, NSET=gen, GENERATE".toList "gen" [("7,8, 1".toList, [7, 8, 1])] [7, 8],
    .elset "*Elset, elset=some".toList "some" [("9,".toList, [9]), ("6,5".toList, [6, 5])] [9, 6, 5]]

theorem exAbaqus_ok : exAbaqus.Ok FloatIO.int where
  before := by
    intro l hl
    simp only [exAbaqus, List.mem_cons, List.not_mem_nil, or_false] at hl
    rcases hl with rfl | rfl | rfl
    · exact ⟨by decide, .inl rfl⟩
    · exact ⟨by decide, .inr (by decide)⟩
    · exact ⟨by decide, .inr (by decide)⟩
  head := ⟨[("NSET", some "all")], by decide, "*Node".toList, [" nset=all".toList], by decide, by decide, by decide, by decide, by decide,
    ⟨⟨" nset".toList, "all".toList, by decide, by decide, by decide, by decide, by decide⟩, trivial⟩, by decide⟩
  nodes := by
    intro l hl
    simp only [exAbaqus, List.mem_cons, List.not_mem_nil, or_false] at hl
    rcases hl with rfl | rfl | rfl | rfl | rfl
    · exact ⟨⟨by decide, by decide⟩, "10".toList, [" 0".toList, " 0".toList], by decide +kernel, by decide, by decide +kernel, by decide +kernel, by decide +kernel, trivial⟩
    · exact ⟨⟨by decide, by decide⟩, "20".toList, ["1".toList, "0".toList], by decide +kernel, by decide, by decide +kernel, by decide +kernel, by decide +kernel, trivial⟩
    · exact ⟨⟨by decide, by decide⟩, rfl⟩
    · exact ⟨⟨by decide, by decide⟩, "7".toList, [" 0".toList, "1".toList], by decide +kernel, by decide, by decide +kernel, by decide +kernel, by decide +kernel, trivial⟩
    · exact ⟨⟨by decide, by decide⟩, "8".toList, ["5".toList, "5".toList], by decide +kernel, by decide, by decide +kernel, by decide +kernel, by decide +kernel, trivial⟩
  dim := ⟨2, by decide +kernel⟩
  distinct := by decide +kernel
  items := by
    intro i hi
    simp only [exAbaqus, List.mem_cons, List.not_mem_nil, or_false] at hi
    rcases hi with rfl | rfl | rfl | rfl | rfl
    · refine ⟨3, [("ELSET", some "E1"), ("TYPE", some "CPS3")], by decide, ⟨by decide, "*element".toList, [" elset=E1".toList, " type=CPS3".toList], by decide, by decide, by decide, by decide, by decide,
        ⟨⟨" elset".toList, "E1".toList, by decide, by decide, by decide, by decide, by decide⟩, ⟨" type".toList, "CPS3".toList, by decide, by decide, by decide, by decide, by decide⟩, trivial⟩, by decide⟩,
        by decide, by decide, by decide, ?_, by decide, by decide, by decide +kernel⟩
      intro l hl
      simp only [List.mem_cons, List.not_mem_nil, or_false] at hl
      rcases hl with rfl | rfl | rfl
      · exact ⟨⟨by decide, by decide⟩, ["5".toList, " 10".toList, []], by decide +kernel, by decide, by decide +kernel, by decide +kernel, trivial⟩
      · exact ⟨⟨by decide, by decide⟩, ["20".toList, " 7".toList], by decide +kernel, by decide, by decide +kernel, by decide +kernel, trivial⟩
      · exact ⟨⟨by decide, by decide⟩, ["6".toList, " 20".toList, "8".toList, "7".toList], by decide +kernel, by decide, by decide +kernel, by decide +kernel, by decide +kernel, by decide +kernel, trivial⟩
    · refine ⟨by decide, ⟨by decide, .inr (by decide)⟩, ?_⟩
      intro l hl
      rw [List.mem_singleton.1 hl]
      exact ⟨by decide, .inr (by decide)⟩
    · refine ⟨2, [("TYPE", some "B31")], by decide, ⟨by decide, "*ELEMENT".toList, ["TYPE=B31".toList], by decide, by decide, by decide, by decide, by decide,
        ⟨⟨"TYPE".toList, "B31".toList, by decide, by decide, by decide, by decide, by decide⟩, trivial⟩, by decide⟩,
        by decide, by decide, by decide, ?_, by decide, by decide, by decide +kernel⟩
      intro l hl
      rw [List.mem_singleton.1 hl]
      exact ⟨⟨by decide, by decide⟩, ["9".toList, "8".toList, "7".toList], by decide +kernel, by decide, by decide +kernel, by decide +kernel, by decide +kernel, trivial⟩
    · refine ⟨[("NSET", some "gen"), ("GENERATE", none)], ⟨by decide, "*NSET".toList, [" NSET=gen".toList, " GENERATE".toList], by decide, by decide, by decide, by decide, by decide,
        ⟨⟨" NSET".toList, "gen".toList, by decide, by decide, by decide, by decide, by decide⟩, ⟨by decide, by decide⟩, trivial⟩, by decide⟩,
        by decide, ?_, ?_, by decide +kernel⟩
      · intro l hl
        rw [List.mem_singleton.1 hl]
        exact ⟨⟨by decide, by decide⟩, .inr ⟨"7".toList, ["8".toList, " 1".toList], 0, by decide +kernel, by decide, by decide, by decide +kernel, by decide +kernel, by decide +kernel, by decide +kernel, trivial⟩⟩
      · show IsSet true _ _
        refine ⟨7, 8, 1, by decide, by decide, by decide, ?_⟩
        intro x
        simp only [List.mem_cons, List.not_mem_nil, or_false]
        omega
    · refine ⟨[("ELSET", some "some")], ⟨by decide, "*Elset".toList, [" elset=some".toList], by decide, by decide, by decide, by decide, by decide,
        ⟨⟨" elset".toList, "some".toList, by decide, by decide, by decide, by decide, by decide⟩, trivial⟩, by decide⟩,
        by decide, ?_, (by show IsSet false _ _; rfl), by decide +kernel⟩
      intro l hl
      simp only [List.mem_cons, List.not_mem_nil, or_false] at hl
      rcases hl with rfl | rfl
      · exact ⟨⟨by decide, by decide⟩, .inr ⟨"9".toList, [], 1, by decide +kernel, by decide, by decide, by decide +kernel, by decide +kernel, trivial⟩⟩
      · exact ⟨⟨by decide, by decide⟩, .inr ⟨"6".toList, ["5".toList], 0, by decide +kernel, by decide, by decide, by decide +kernel, by decide +kernel, by decide +kernel, trivial⟩⟩

theorem exAbaqus_sets : exAbaqus.Sets where
  order := by
    unfold exAbaqus
    simp
  nsets := by decide +kernel
  elsets := by decide +kernel
  first := by decide +kernel

example : Abaqus.read FloatIO.int (fun _ => .error .fileNotFound) (linesText exAbaqus.lines) = .ok
    { points := [[0, 0], [1, 0], [0, 1], [5, 5]], cells := [("triangle", [[0, 1, 2], [1, 3, 2]]), ("line", [[3, 2]])],
      pointSets := [("gen", [2, 3])], cellSets := [("some", [.ids [1, 0], .ids [0]]), ("E1", [.ids [0, 1], .ids []])] } := by
  rw [C33_read FloatIO.int _ exAbaqus exAbaqus_ok exAbaqus_sets]
  decide +kernel

example : ∃ (m : Out Int) (block : List (List Nat)), Abaqus.read FloatIO.int (fun _ => .error .fileNotFound) (linesText exAbaqus.lines) = .ok m ∧
    m.cells[1]? = some ("line", block) := by
  obtain ⟨m, block, h1, h2, _⟩ := C31_abaqus FloatIO.int (fun _ => .error .fileNotFound) exAbaqus exAbaqus_ok exAbaqus_sets 1 "line" none [(9, [8, 7])] (by decide +kernel)
  exact ⟨m, block, h1, h2⟩

example : ∃ (m : Out Int) (sets : List (List Nat)), Abaqus.read FloatIO.int (fun _ => .error .fileNotFound) (linesText exAbaqus.lines) = .ok m ∧
    ("some", sets.map Entry.ids) ∈ m.cellSets := by
  obtain ⟨m, sets, h1, h2, _⟩ := C33_elset FloatIO.int (fun _ => .error .fileNotFound) exAbaqus exAbaqus_ok exAbaqus_sets "some" [9, 6, 5] (by decide +kernel)
  exact ⟨m, sets, h1, h2⟩

/-! ## Refusals -/

/-- What follows the lines of a section: nothing, or a line with a star. -/
def AbaqusRest (rest : List (List Char)) : Prop := (∀ l, rest.head? = some l → l.head? = some '*') ∧ ∀ l ∈ rest, '\n' ∉ l

theorem abaqus_then {lines : List (List Char × List Int)} (h : ∀ l ∈ lines, IsData l.1) {rest : List (List Char)} (hr : AbaqusRest rest) :
    Then (lines.map (·.1)) rest := by
  refine ⟨?_, hr.1, hr.2⟩
  intro l hl
  obtain ⟨p, hp, rfl⟩ := List.mem_map.1 hl
  exact h p hp

/-- Cells of a type with `n` nodes need `n + 1` numbers each: any other count is a ReadError. -/
theorem C33_wrong_size (io : FloatIO F) (inc : List Char → Res (Out F)) (f : AbaqusFile F) (h : f.Ok io) (options : List (String × Option String))
    (head : List Char) (hk : IsKeyLine "ELEMENT" options head) (name type : String) (n : Nat) (hn : ("TYPE", some name) ∈ options)
    (hname : (name, type, n) ∈ abaqusNames) (lines : List (List Char × List Int)) (hl : ∀ l ∈ lines, IsNumbers l)
    (hsize : ¬ (n + 1) ∣ (lines.flatMap (·.2)).length) (rest : List (List Char)) (hr : AbaqusRest rest) :
    Abaqus.read io inc (linesText (f.lines ++ head :: lines.map (·.1) ++ rest)) = .error .readError :=
  read_error io inc f h (file_newline io f h) "ELEMENT" options head hk _ rest (abaqus_then (fun l hl' => (hl l hl').1) hr) _
    fun st hst fuel => loop_element_error io inc options head hk st _ _
      (element_size st f.numbers hst options head hk name type n hn hname lines hl hsize _ (ends_map rest hr.1)) fuel

/-- An unknown type is a ReadError. -/
theorem C33_unknown_type (io : FloatIO F) (inc : List Char → Res (Out F)) (f : AbaqusFile F) (h : f.Ok io) (options : List (String × Option String))
    (head : List Char) (hk : IsKeyLine "ELEMENT" options head) (name : String) (hn : ("TYPE", some name) ∈ options)
    (hname : ∀ k ∈ abaqusNames, k.1 ≠ name) (h1 : name ≠ "C3D4H") (h2 : name ≠ "C3D15") (rest : List (List Char)) (hr : AbaqusRest rest) :
    Abaqus.read io inc (linesText (f.lines ++ head :: rest)) = .error .readError := by
  have hu : find abaqusToMeshio name = none := by
    cases hf : find abaqusToMeshio name with
    | none => rfl
    | some t =>
      have hm := find_mem hf
      rcases C33_names.2 _ hm with h | h | h
      · obtain ⟨k, hk, he⟩ := List.mem_map.1 h
        exact absurd he (hname k hk)
      · exact absurd (congrArg Prod.fst h) h1
      · exact absurd (congrArg Prod.fst h) h2
  have := read_error io inc f h (file_newline io f h) "ELEMENT" options head hk [] rest ⟨by simp, hr.1, hr.2⟩ .readError
    fun st hst fuel => loop_element_error io inc options head hk st _ _ (element_unknown st f.numbers hst options head hk name hn hu _) fuel
  simpa using this

/-- A cell with a node that is not in the file is a KeyError. -/
theorem C31_abaqus_missing (io : FloatIO F) (inc : List Char → Res (Out F)) (f : AbaqusFile F) (h : f.Ok io) (options : List (String × Option String))
    (head : List Char) (hk : IsKeyLine "ELEMENT" options head) (name type : String) (n : Nat) (hn : ("TYPE", some name) ∈ options)
    (hname : (name, type, n) ∈ abaqusNames) (lines : List (List Char × List Int)) (hl : ∀ l ∈ lines, IsNumbers l)
    (rows : List (Int × List Int)) (hrows : lines.flatMap (·.2) = rows.flatMap fun r => r.1 :: r.2) (hlen : ∀ r ∈ rows, r.2.length = n)
    (hx : ∃ r ∈ rows, ∃ k ∈ r.2, k ∉ f.numbers) (rest : List (List Char)) (hr : AbaqusRest rest) :
    Abaqus.read io inc (linesText (f.lines ++ head :: lines.map (·.1) ++ rest)) = .error .keyError :=
  read_error io inc f h (file_newline io f h) "ELEMENT" options head hk _ rest (abaqus_then (fun l hl' => (hl l hl').1) hr) _
    fun st hst fuel => loop_element_error io inc options head hk st _ _
      (element_node st f.numbers hst options head hk name type n hn hname lines hl rows hrows hlen hx _ (ends_map rest hr.1)) fuel

/-- So is a set of nodes with one that is not in the file. -/
theorem C31_abaqus_missing_set (io : FloatIO F) (inc : List Char → Res (Out F)) (f : AbaqusFile F) (h : f.Ok io) (options : List (String × Option String))
    (head : List Char) (hk : IsKeyLine "NSET" options head) (name : String) (hn : ("NSET", some name) ∈ options)
    (lines : List (List Char × List Int)) (hl : ∀ l ∈ lines, IsMembers l) (members : List Int)
    (hm : IsSet ((options.map (·.1)).contains "GENERATE") (lines.flatMap (·.2)) members)
    (hx : ∃ k ∈ members, k ∉ f.numbers) (rest : List (List Char)) (hr : AbaqusRest rest) :
    Abaqus.read io inc (linesText (f.lines ++ head :: lines.map (·.1) ++ rest)) = .error .keyError :=
  read_error io inc f h (file_newline io f h) "NSET" options head hk _ rest (abaqus_then (fun l hl' => (hl l hl').1) hr) _
    fun st hst fuel => loop_nset_error io inc options head hk st _ _
      (nset_node st f.numbers hst options head hk name hn lines hl members hm hx _ (ends_map rest hr.1)) fuel

theorem exAbaqus_key : IsKeyLine "ELEMENT" [("TYPE", some "B31")] "*ELEMENT,TYPE=B31".toList :=
  ⟨by decide, "*ELEMENT".toList, ["TYPE=B31".toList], by decide, by decide, by decide, by decide, by decide,
    ⟨⟨"TYPE".toList, "B31".toList, by decide, by decide, by decide, by decide, by decide⟩, trivial⟩, by decide⟩

theorem exAbaqus_numbers : ∀ l ∈ [("9,8,7".toList, [9, 8, 7]), ("11,8".toList, [11, 8])], IsNumbers l := by
  intro l hl
  simp only [List.mem_cons, List.not_mem_nil, or_false] at hl
  rcases hl with rfl | rfl
  · exact ⟨⟨by decide, by decide⟩, ["9".toList, "8".toList, "7".toList], by decide +kernel, by decide, by decide +kernel, by decide +kernel, by decide +kernel, trivial⟩
  · exact ⟨⟨by decide, by decide⟩, ["11".toList, "8".toList], by decide +kernel, by decide, by decide +kernel, by decide +kernel, trivial⟩

example : Abaqus.read FloatIO.int (fun _ => .error .fileNotFound)
    (linesText (exAbaqus.lines ++ "*ELEMENT,TYPE=B31".toList :: ["9,8,7".toList, "11,8".toList] ++ ["*END".toList])) = .error .readError :=
  C33_wrong_size FloatIO.int _ exAbaqus exAbaqus_ok _ _ exAbaqus_key "B31" "line" 2 (by decide) (by decide) _ exAbaqus_numbers (by decide)
    ["*END".toList] ⟨by decide, by decide⟩

example : Abaqus.read FloatIO.int (fun _ => .error .fileNotFound)
    (linesText (exAbaqus.lines ++ "*ELEMENT,TYPE=B31".toList :: ["9,8,7".toList, "11,8".toList, "12".toList] ++ [])) = .error .keyError := by
  refine C31_abaqus_missing FloatIO.int _ exAbaqus exAbaqus_ok _ _ exAbaqus_key "B31" "line" 2 (by decide) (by decide)
    [("9,8,7".toList, [9, 8, 7]), ("11,8".toList, [11, 8]), ("12".toList, [12])] ?_ [(9, [8, 7]), (11, [8, 12])] (by decide) (by decide)
    (by decide +kernel) [] ⟨by decide, by decide⟩
  intro l hl
  rcases List.mem_append.1 (show l ∈ [("9,8,7".toList, [9, 8, 7]), ("11,8".toList, [11, 8])] ++ [("12".toList, [(12 : Int)])] from hl) with hl | hl
  · exact exAbaqus_numbers l hl
  · rw [List.mem_singleton.1 hl]
    exact ⟨⟨by decide, by decide⟩, ["12".toList], by decide +kernel, by decide, by decide +kernel, trivial⟩

example : Abaqus.read FloatIO.int (fun _ => .error .fileNotFound) (linesText (exAbaqus.lines ++ "*ELEMENT,TYPE=X9".toList :: [])) = .error .readError :=
  C33_unknown_type FloatIO.int _ exAbaqus exAbaqus_ok [("TYPE", some "X9")] _
    ⟨by decide, "*ELEMENT".toList, ["TYPE=X9".toList], by decide, by decide, by decide, by decide, by decide,
      ⟨⟨"TYPE".toList, "X9".toList, by decide, by decide, by decide, by decide, by decide⟩, trivial⟩, by decide⟩
    "X9" (by decide) (by decide) (by decide) (by decide) [] ⟨by decide, by decide⟩

example : Abaqus.read FloatIO.int (fun _ => .error .fileNotFound) (linesText (exAbaqus.lines ++ "*NSET,NSET=a".toList :: ["8,9".toList] ++ [])) = .error .keyError := by
  refine C31_abaqus_missing_set FloatIO.int _ exAbaqus exAbaqus_ok [("NSET", some "a")] _
    ⟨by decide, "*NSET".toList, ["NSET=a".toList], by decide, by decide, by decide, by decide, by decide,
      ⟨⟨"NSET".toList, "a".toList, by decide, by decide, by decide, by decide, by decide⟩, trivial⟩, by decide⟩
    "a" (by decide) [("8,9".toList, [8, 9])] ?_ [8, 9] (by show IsSet false _ _; rfl) (by decide +kernel) [] ⟨by decide, by decide⟩
  intro l hl
  rw [List.mem_singleton.1 hl]
  exact ⟨⟨by decide, by decide⟩, .inr ⟨"8".toList, ["9".toList], 0, by decide +kernel, by decide, by decide, by decide +kernel, by decide +kernel, by decide +kernel, trivial⟩⟩

/-- Cells before the nodes are a ReadError. -/
theorem C33_elements_first (io : FloatIO F) (inc : List Char → Res (Out F)) (before : List (List Char)) (hb : ∀ l ∈ before, IsIgnored l)
    (options : List (String × Option String)) (head : List Char) (hk : IsKeyLine "ELEMENT" options head) (rest : List (List Char))
    (hr : ∀ l ∈ rest, '\n' ∉ l) : Abaqus.read io inc (linesText (before ++ head :: rest)) = .error .readError := by
  have hnl : ∀ l ∈ before ++ head :: rest, '\n' ∉ l := by
    intro l hl
    simp only [List.mem_append, List.mem_cons] at hl
    rcases hl with hl | rfl | hl
    · exact (hb l hl).1
    · exact hk.1
    · exact hr l hl
  unfold Abaqus.read
  rw [fileLines_linesText' _ hnl]
  have hlen : ((before ++ head :: rest).map (· ++ ['\n'])).length = rest.length + 1 + before.length := by
    simp only [List.length_map, List.length_append, List.length_cons]; omega
  rw [hlen, List.map_append, List.map_cons, loop_ignored io inc St.init before hb]
  rw [loop_element_error io inc options head hk _ _ .readError rfl]

example : Abaqus.read FloatIO.int (fun _ => .error .fileNotFound) (linesText (["** x".toList] ++ "*ELEMENT,TYPE=B31".toList :: ["1,1,2".toList, "*NODE".toList])) =
    .error .readError :=
  C33_elements_first FloatIO.int _ _ (by intro l hl; rw [List.mem_singleton.1 hl]; exact ⟨by decide, .inl rfl⟩) _ _ exAbaqus_key _ (by decide)

/-! ## Writing -/

/-- The file that is written. -/
theorem C33_write (io : FloatIO F) (version : List Char) (points : List (List F)) (cells : List (String × List (List Int)))
    (cellSets : Dict (List (List Int))) (pointSets : Dict (List Int)) (names : List String)
    (h : All2 (fun b n => (b.1, n) ∈ abaqusWritten) cells names) (hs : ∀ s ∈ cellSets, cells.length ≤ s.2.length) :
    Abaqus.write io version true points cells cellSets pointSets = .ok (linesText (abaqusLines io version names points cells cellSets pointSets)) :=
  write_eq io version true points cells cellSets pointSets names
    (all2_imp (fun b n h => by rw [if_pos rfl]; exact written_find _ h) cells names h) hs

/-- Without translation the types themselves are the names. -/
theorem C33_write_untranslated (io : FloatIO F) (version : List Char) (points : List (List F)) (cells : List (String × List (List Int)))
    (cellSets : Dict (List (List Int))) (pointSets : Dict (List Int)) (hs : ∀ s ∈ cellSets, cells.length ≤ s.2.length) :
    Abaqus.write io version false points cells cellSets pointSets =
      .ok (linesText (abaqusLines io version (cells.map (·.1)) points cells cellSets pointSets)) := by
  apply write_eq _ _ _ _ _ _ _ _ _ hs
  induction cells with
  | nil => trivial
  | cons b cells ih => exact ⟨rfl, ih fun s h => by have := hs s h; simp only [List.length_cons] at this; omega⟩

/-- Lines of eight: in order, all but the last one full, none empty. -/
theorem C33_eights (l : List Int) : (eights l).flatten = l ∧ (∀ r ∈ eights l, r ≠ [] ∧ r.length ≤ 8) ∧ ∀ r ∈ (eights l).dropLast, r.length = 8 := by
  refine ⟨?_, ?_, ?_⟩
  · have : ∀ n : Nat, ((List.range n).map fun i => (l.drop (8 * i)).take 8).flatten = l.take (8 * n) := by
      intro n
      induction n with
      | zero => simp
      | succ n ih =>
        rw [List.range_succ, List.map_append, List.flatten_append, ih, List.map_singleton, List.flatten_singleton,
          show 8 * (n + 1) = 8 * n + 8 by omega, List.take_add]
    unfold eights
    rw [this, List.take_of_length_le (by omega)]
  · intro r hr
    obtain ⟨i, hi, rfl⟩ := List.mem_map.1 hr
    rw [List.mem_range] at hi
    refine ⟨?_, by rw [List.length_take]; omega⟩
    intro h
    have := congrArg List.length h
    rw [List.length_take, List.length_drop, List.length_nil] at this
    omega
  · intro r hr
    unfold eights at hr
    rw [← List.map_dropLast] at hr
    obtain ⟨i, hi, rfl⟩ := List.mem_map.1 hr
    rw [List.dropLast_eq_take, List.length_range, List.take_range, List.mem_range] at hi
    rw [List.length_take, List.length_drop]
    omega

/-- A type without a name is a KeyError. -/
theorem C33_refused (io : FloatIO F) (version : List Char) (points : List (List F)) (cells : List (String × List (List Int)))
    (cellSets : Dict (List (List Int))) (pointSets : Dict (List Int)) (b : String × List (List Int)) (hb : b ∈ cells)
    (h : b.1 ∉ abaqusWritten.map (·.1)) : Abaqus.write io version true points cells cellSets pointSets = .error .keyError := by
  have hn : find (invDict abaqusToMeshio) b.1 = none := by
    cases hf : find (invDict abaqusToMeshio) b.1 with
    | none => rfl
    | some t =>
      have := (by decide +kernel : ∀ k ∈ invDict abaqusToMeshio, k.1 ∈ abaqusWritten.map (·.1)) _ (find_mem hf)
      exact absurd this h
  have : ∀ (cells : List (String × List (List Int))) (eid : Nat), b ∈ cells → blocksText true eid cells = .error .keyError := by
    intro cells
    induction cells with
    | nil => intro eid h; cases h
    | cons c cells ih =>
      intro eid hc
      unfold blocksText
      cases hf : find (invDict abaqusToMeshio) c.1 with
      | none => simp only [if_pos, hf]
      | some name =>
        rcases List.mem_cons.1 hc with rfl | hc
        · rw [hf] at hn; cases hn
        · simp only [if_pos, hf, ih _ hc]
  unfold Abaqus.write
  rw [this cells 0 hb]

/-- What is written is read back: points, cells, sets of points and sets of cells that lie in one block each.  Missing for the whole
property: sets over several blocks (see `C33_sets_false`) and the types that cannot be read (see `C33_unreadable`). -/
theorem C33_roundtrip_partial (io : FloatIO F) (hio : ∀ x, ',' ∉ io.fmt x) (version : List Char) (hv : '\n' ∉ version)
    (inc : List Char → Res (Out F)) (points : List (List F)) (cells : List (String × List (List Int)))
    (cellSets : Dict (List (List Int))) (pointSets : Dict (List Int)) (hw : AbaqusWritable points cells cellSets pointSets) :
    ∃ text o, Abaqus.write io version true points cells cellSets pointSets = .ok text ∧ Abaqus.read io inc text = .ok o ∧ o.points = points ∧
      o.cells = cells.map (fun b => (b.1, b.2.map fun r => r.map Int.toNat)) ∧
      o.pointSets = pointSets.map (fun s => (s.1, s.2.map Int.toNat)) ∧ (o.cellSets.map (·.1)).Nodup ∧
      ∀ name v, (name, v) ∈ o.cellSets ↔ ∃ s ∈ cellSets, name = s.1 ∧ v = s.2.map fun l => .ids (l.map Int.toNat) :=
  roundtrip io hio version hv inc points cells cellSets pointSets hw

/-- A mesh with two blocks and two sets. -/
def exAbaqusCells : List (String × List (List Int)) := [("triangle", [[0, 1, 2], [1, 3, 2]]), ("line", [[3, 2]])]
def exAbaqusPoints : List (List Int) := [[0, 0], [1, 0], [0, 1], [5, 5]]
def exAbaqusSets : Dict (List (List Int)) := [("a", [[], [0]]), ("b", [[1, 0], []])]

theorem exAbaqus_writable : AbaqusWritable exAbaqusPoints exAbaqusCells exAbaqusSets [("p", [3, 0]), ("q", [])] where
  dim := ⟨2, by decide⟩
  types := by
    intro b hb
    simp only [exAbaqusCells, List.mem_cons, List.not_mem_nil, or_false] at hb
    rcases hb with rfl | rfl
    · exact ⟨"R3D3", 3, by decide, by decide, by decide⟩
    · exact ⟨"B31H", 2, by decide, by decide, by decide⟩
  cellNames := by unfold AbaqusName; decide +kernel
  pointNames := by unfold AbaqusName; decide +kernel
  inOne := by
    intro s hs
    simp only [exAbaqusSets, List.mem_cons, List.not_mem_nil, or_false] at hs
    rcases hs with rfl | rfl
    · refine ⟨rfl, 1, _, rfl, by decide, ?_, by decide⟩
      intro j hj
      match j with
      | 0 => rfl
      | 1 => exact absurd rfl hj
      | j + 2 => rfl
    · refine ⟨rfl, 0, _, rfl, by decide, ?_, by decide⟩
      intro j hj
      match j with
      | 0 => exact absurd rfl hj
      | 1 => rfl
      | j + 2 => rfl
  inRange := by decide

example : ∃ text o, Abaqus.write FloatIO.int "5.3.5".toList true exAbaqusPoints exAbaqusCells exAbaqusSets [("p", [3, 0]), ("q", [])] = .ok text ∧
    Abaqus.read FloatIO.int (fun _ => .error .fileNotFound) text = .ok o ∧ o.points = exAbaqusPoints := by
  obtain ⟨text, o, h1, h2, h3, _⟩ := C33_roundtrip_partial FloatIO.int (fun x => not_mem_fmtInt (by decide) (by decide) x) "5.3.5".toList (by decide)
    (fun _ => .error .fileNotFound) _ _ _ _ exAbaqus_writable
  exact ⟨text, o, h1, h2, h3⟩

example : Abaqus.write FloatIO.int "5".toList true [[0, 0], [1, 2]] [("line", [[0, 1]])] [("s", [[0]])] [("n", [0, 1, 0, 1, 0, 1, 0, 1, 0])] = .ok
    ("*HEADING\nAbaqus DataFile Version 6.14\nwritten by meshio v5\n*NODE\n1, 0, 0\n2, 1, 2\n*ELEMENT, TYPE=B31H\n1,1,2\n" ++
      "*ELSET, ELSET=s\n1\n*NSET, NSET=n\n1,2,1,2,1,2,1,2,\n1\n").toList := by
  rw [C33_write FloatIO.int _ _ [("line", [[0, 1]])] _ _ ["B31H"] ⟨by decide, trivial⟩ (by decide)]
  decide +kernel

example : Abaqus.write FloatIO.int "5".toList false [[0, 0], [1, 2]] [("S3", [[0, 1, 0]])] [] [] = .ok
    "*HEADING\nAbaqus DataFile Version 6.14\nwritten by meshio v5\n*NODE\n1, 0, 0\n2, 1, 2\n*ELEMENT, TYPE=S3\n1,1,2,1\n".toList := by
  rw [C33_write_untranslated FloatIO.int _ _ _ _ _ (by decide)]
  decide +kernel

example : Abaqus.write FloatIO.int "5".toList true [[0, 0]] [("line", []), ("vertex", [[0]])] [] [] = .error .keyError :=
  C33_refused _ _ _ _ _ _ ("vertex", [[0]]) (by decide) (by decide)

/-! ## What does not hold -/

/-- The whole round trip: sets of cells keep their members. -/
def C33_sets_statement : Prop :=
  ∀ (points : List (List Int)) (cells : List (String × List (List Int))) (cellSets : Dict (List (List Int))) (text : List Char) (o : Out Int),
    (∀ s ∈ cellSets, s.2.length = cells.length) →
    Abaqus.write FloatIO.int [] true points cells cellSets [] = .ok text → Abaqus.read FloatIO.int (fun _ => .error .fileNotFound) text = .ok o →
    o.cellSets = cellSets.map fun s => (s.1, s.2.map fun l => .ids (l.map Int.toNat))

/-- A set with cells of two blocks is written as two sections; reading keeps the last one, so the cells of the first block are lost. -/
theorem C33_sets_false : ¬ C33_sets_statement := by
  intro h
  have := h [[0, 0], [1, 0], [0, 1]] [("triangle", [[0, 1, 2]]), ("line", [[0, 1]])] [("s", [[0], [0]])] _
    ⟨[[0, 0], [1, 0], [0, 1]], [("triangle", [[0, 1, 2]]), ("line", [[0, 1]])], [], [("s", [.ids [], .ids [0]])]⟩ (by decide) rfl (by decide +kernel)
  revert this
  decide

/-- Two types are written but cannot be read. -/
theorem C33_unreadable :
    (Abaqus.write FloatIO.int [] true [[0]] [("wedge15", [List.replicate 15 0])] [] []).bind (Abaqus.read FloatIO.int fun _ => .error .fileNotFound) =
      .error .keyError ∧
    (Abaqus.write FloatIO.int [] true [[0]] [("tetra4", [[0, 0, 0, 0]])] [] []).bind (Abaqus.read FloatIO.int fun _ => .error .fileNotFound) =
      .error .keyError := by
  constructor <;> decide +kernel

/-- The set an ELEMENT line names consists of the cells of that section. -/
def C33_named_statement : Prop :=
  ∀ (f : AbaqusFile Int) (o : Out Int), f.Ok FloatIO.int → Abaqus.read FloatIO.int (fun _ => .error .fileNotFound) (linesText f.lines) = .ok o →
    ∀ (b : Nat) (t name : String) (rows : List (Int × List Int)), f.parts[b]? = some (t, some name, rows) → (f.parts.filterMap (·.2.1)).Nodup →
      ∃ l, (name, l) ∈ o.cellSets ∧ l[b]? = some (.ids (List.range rows.length))

/-- When an earlier section names no set, the set is attributed to the wrong block. -/
theorem C33_named_false : ¬ C33_named_statement := by
  intro h
  obtain ⟨l, h1, h2⟩ := h
    { before := [], head := "*NODE".toList, nodes := [("1,0".toList, some (1, [0])), ("2,1".toList, some (2, [1]))],
      items := [.block "*ELEMENT,TYPE=B31".toList "B31" "line" none [("1,1,2".toList, [1, 1, 2])] [(1, [1, 2])],
        .block "*ELEMENT,TYPE=B31,ELSET=s".toList "B31" "line" (some "s") [("2,2,1".toList, [2, 2, 1]), ("3,1,2".toList, [3, 1, 2])] [(2, [2, 1]), (3, [1, 2])]] }
    ⟨[[0], [1]], [("line", [[0, 1]]), ("line", [[1, 0], [0, 1]])], [], [("s", [.ids [0, 1], .ids []])]⟩
    { before := by simp
      head := ⟨[], by decide, "*NODE".toList, [], by decide, by decide, by decide, by decide, by decide, trivial, by decide⟩
      nodes := by
        intro l hl
        simp only [List.mem_cons, List.not_mem_nil, or_false] at hl
        rcases hl with rfl | rfl
        · exact ⟨⟨by decide, by decide⟩, "1".toList, ["0".toList], by decide +kernel, by decide, by decide +kernel, by decide +kernel, trivial⟩
        · exact ⟨⟨by decide, by decide⟩, "2".toList, ["1".toList], by decide +kernel, by decide, by decide +kernel, by decide +kernel, trivial⟩
      dim := ⟨1, by decide +kernel⟩
      distinct := by decide +kernel
      items := by
        intro i hi
        simp only [List.mem_cons, List.not_mem_nil, or_false] at hi
        rcases hi with rfl | rfl
        · refine ⟨2, _, by decide, exAbaqus_key, by decide, by decide, by decide, ?_, by decide, by decide, by decide +kernel⟩
          intro l hl
          rw [List.mem_singleton.1 hl]
          exact ⟨⟨by decide, by decide⟩, ["1".toList, "1".toList, "2".toList], by decide +kernel, by decide, by decide +kernel, by decide +kernel, by decide +kernel, trivial⟩
        · refine ⟨2, [("TYPE", some "B31"), ("ELSET", some "s")], by decide, ⟨by decide, "*ELEMENT".toList, ["TYPE=B31".toList, "ELSET=s".toList],
            by decide, by decide, by decide, by decide, by decide,
            ⟨⟨"TYPE".toList, "B31".toList, by decide, by decide, by decide, by decide, by decide⟩,
              ⟨"ELSET".toList, "s".toList, by decide, by decide, by decide, by decide, by decide⟩, trivial⟩, by decide⟩,
            by decide, by decide, by decide, ?_, by decide, by decide, by decide +kernel⟩
          intro l hl
          simp only [List.mem_cons, List.not_mem_nil, or_false] at hl
          rcases hl with rfl | rfl
          · exact ⟨⟨by decide, by decide⟩, ["2".toList, "2".toList, "1".toList], by decide +kernel, by decide, by decide +kernel, by decide +kernel, by decide +kernel, trivial⟩
          · exact ⟨⟨by decide, by decide⟩, ["3".toList, "1".toList, "2".toList], by decide +kernel, by decide, by decide +kernel, by decide +kernel, by decide +kernel, trivial⟩ }
    (by decide +kernel) 1 "line" "s" [(2, [2, 1]), (3, [1, 2])] (by decide +kernel) (by decide +kernel)
  simp only [List.mem_singleton, Prod.mk.injEq] at h1
  rw [h1.2] at h2
  revert h2
  decide

/-- Comments may stand anywhere. -/
def C33_comments_statement : Prop :=
  ∀ (a b : List (List Char)) (o : Out Int), (∀ l ∈ a ++ b, '\n' ∉ l) →
    Abaqus.read FloatIO.int (fun _ => .error .fileNotFound) (linesText (a ++ b)) = .ok o →
    Abaqus.read FloatIO.int (fun _ => .error .fileNotFound) (linesText (a ++ "** comment".toList :: b)) = .ok o

/-- A comment among the nodes silently drops the nodes after it. -/
theorem C33_comments_false : ¬ C33_comments_statement := by
  intro h
  have := h ["*NODE".toList, "1,0".toList] ["2,1".toList] ⟨[[0], [1]], [], [], []⟩ (by decide) (by decide +kernel)
  revert this
  decide +kernel

/-- Included files contribute their sets of cells. -/
def C33_include_statement : Prop :=
  ∀ (text : List Char) (o : Out Int) (name : String), Abaqus.read FloatIO.int (fun _ => .error .fileNotFound) text = .ok o →
    name ∈ o.cellSets.map (·.1) → ∃ o', Abaqus.readFile FloatIO.int
      (fun n => if n = "main".toList then some "*INCLUDE, INPUT=part\n".toList else if n = "part".toList then some text else none) 2 "main".toList = .ok o' ∧
      name ∈ o'.cellSets.map (·.1)

/-- They do not: points, cells and sets of points of an included file are kept, sets of cells are dropped. -/
theorem C33_include_false : ¬ C33_include_statement := by
  intro h
  obtain ⟨o', h1, h2⟩ := h "*NODE\n1,0\n2,1\n*ELEMENT,TYPE=B31,ELSET=s\n1,1,2\n".toList
    ⟨[[0], [1]], [("line", [[0, 1]])], [], [("s", [.ids [0]])]⟩ "s" (by decide +kernel) (by decide)
  have e : Abaqus.readFile FloatIO.int
      (fun n => if n = "main".toList then some "*INCLUDE, INPUT=part\n".toList else if n = "part".toList then
        some "*NODE\n1,0\n2,1\n*ELEMENT,TYPE=B31,ELSET=s\n1,1,2\n".toList else none) 2 "main".toList =
      .ok ⟨[[0], [1]], [("line", [[0, 1]])], [], []⟩ := by decide +kernel
  rw [e] at h1
  cases h1
  revert h2
  decide

end Meshio.Props
