/-
What Tecplot ASCII files say, independently of how meshio reads and writes them.
-/
import Verif.Model.Tecplot

namespace Meshio
namespace Spec
namespace Tecplot
open Meshio.Tecplot (Out TecIO Blk Arr)

variable {F : Type}

/-! ## The cells -/

/-- The number of nodes of the cell types that Tecplot can hold. -/
def nodes (t : String) : Option Nat :=
  if t = "line" then some 2 else if t = "triangle" then some 3 else if t = "quad" then some 4 else if t = "tetra" then some 4
  else if t = "pyramid" then some 5 else if t = "wedge" then some 6 else if t = "hexahedron" then some 8 else none

/-- Their dimensions. -/
def dimension (t : String) : Nat :=
  if t = "line" then 1 else if t = "triangle" ∨ t = "quad" then 2 else 3

/-- Element types and the number of nodes of each element. -/
def zoneWidth (zt : String) : Option Nat :=
  if zt = "FELINESEG" then some 2 else if zt = "FETRIANGLE" then some 3 else if zt = "FEQUADRILATERAL" then some 4
  else if zt = "FETETRAHEDRON" then some 4 else if zt = "FEBRICK" then some 8 else none

/-- The element type for cells of a single type. -/
def zoneOf (t : String) : String :=
  if t = "line" then "FELINESEG" else if t = "triangle" then "FETRIANGLE" else if t = "quad" then "FEQUADRILATERAL"
  else if t = "tetra" then "FETETRAHEDRON" else "FEBRICK"

/-- A cell of one of the three-dimensional types as a (degenerate) brick. -/
def brick (t : String) (c : List Int) : List Int :=
  match t, c with
  | "tetra", [a, b, c, d] => [a, b, c, c, d, d, d, d]
  | "pyramid", [a, b, c, d, e] => [a, b, c, d, e, e, e, e]
  | "wedge", [a, b, c, d, e, f] => [a, b, e, d, c, c, f, f]
  | _, c => c

/-- A triangle or quadrilateral as a (degenerate) quadrilateral. -/
def quadrilateral (t : String) (c : List Int) : List Int :=
  match t, c with
  | "triangle", [a, b, c] => [a, b, c, c]
  | _, c => c

/-- A cell as an element when all cells have the same type. -/
def alone (t : String) (c : List Int) : List Int := if t = "tetra" then c else brick t c

/-- All cells of a list of blocks, with their types. -/
def cellList (cells : List Blk) : List (String × List Int) := cells.flatMap fun b => b.rows.map fun r => (b.type, r)

/-! ## The names of the variables -/

/-- A name in the list of variables: as it is, in double quotes, or two words in double quotes. -/
inductive VName where
  | plain (n : List Char)
  | quoted (n : List Char)
  | two (a b : List Char)

/-- The words of a name. -/
def VName.words : VName → List (List Char)
  | .plain n => [n]
  | .quoted n => ['"' :: (n ++ ['"'])]
  | .two a b => ['"' :: a, b ++ ['"']]

/-- The name: two words are joined by an underscore. -/
def VName.name : VName → List Char
  | .plain n => n
  | .quoted n => n
  | .two a b => a ++ '_' :: b

/-- Names consist of characters other than blanks, commas, double quotes and equals signs. -/
def Word (w : List Char) : Prop := ∀ c ∈ w, isWs c = false ∧ c ≠ ',' ∧ c ≠ '"' ∧ c ≠ '='

/-- Plain names and the two words of a name are not empty. -/
def VName.Ok : VName → Prop
  | .plain n => n ≠ [] ∧ Word n
  | .quoted n => Word n
  | .two a b => a ≠ [] ∧ Word a ∧ Word b

/-! ## The zone record -/

/-- The ways to write `key = value`. -/
inductive Style where
  | spaced | tight | left | right | bare

/-- What stands between the key and the value. -/
def Style.text : Style → List Char
  | .spaced => " = ".toList
  | .tight => "=".toList
  | .left => "= ".toList
  | .right => " =".toList
  | .bare => " ".toList

/-- A key with its value; behind it comes a separator. -/
structure Entry where
  key : String
  style : Style
  value : List Char
  sep : List Char

/-- Separators consist of commas and blanks. -/
def Sep (s : List Char) : Prop := ∀ c ∈ s, c = ',' ∨ c = ' '

/-- The text of an entry. -/
def Entry.text (e : Entry) : List Char := e.key.toList ++ e.style.text ++ e.value ++ e.sep

/-- The keys whose values are texts (VARLOCATION is treated apart). -/
def textKeys : List String := ["F", "ET", "DATAPACKING", "ZONETYPE"]

/-- The keys whose values are numbers. -/
def numberKeys : List String := ["I", "J", "K", "N", "NODES", "E", "ELEMENTS", "NV"]

/-- A well-formed entry. -/
def Entry.Ok (e : Entry) : Prop :=
  (e.key ∈ textKeys ∨ (e.key ∈ numberKeys ∧ (parseInt e.value).isSome = true)) ∧ e.value ≠ [] ∧
    (∀ c ∈ e.value, isWs c = false ∧ c ≠ ',' ∧ c ≠ '"' ∧ c ≠ '=' ∧ c ≠ '(' ∧ c ≠ ')') ∧ Sep e.sep

/-- A group of variables `lo` to `hi` (counted from one) in VARLOCATION, and whether they belong to the cells. -/
structure Group where
  lo : Nat
  hi : Option Nat
  cell : Bool

/-- The text of a group: `[lo]=…` or `[lo-hi]=…`. -/
def Group.text (g : Group) : List Char :=
  '[' :: (fmtNat g.lo ++ (match g.hi with | none => [] | some h => '-' :: fmtNat h)) ++
    "]=".toList ++ (if g.cell then "CELLCENTERED".toList else "NODAL".toList)

/-- VARLOCATION: what stands before the parenthesis, what is inside, the groups it names, and a separator. -/
structure Location where
  gap : List Char
  inner : List Char
  groups : List Group
  sep : List Char

/-- The text of VARLOCATION. -/
def Location.text (l : Location) : List Char := "VARLOCATION".toList ++ l.gap ++ '(' :: (l.inner ++ ')' :: l.sep)

/-- The inner text is the list of the groups, except for blanks. -/
def Location.Ok (l : Location) : Prop :=
  '(' ∉ l.gap ∧ ')' ∉ l.gap ∧ '"' ∉ l.gap ∧ ')' ∉ l.inner ∧ '"' ∉ l.inner ∧ Sep l.sep ∧
    (l.inner.filter fun c => decide (c ≠ ' ')) = joinWith ',' (l.groups.map Group.text) ∧ l.groups ≠ []

/-- A zone record: perhaps a title, entries, perhaps VARLOCATION and entries behind it. -/
structure Record where
  title : Option (Style × List Char × List Char)
  entries : List Entry
  location : Option (Location × List Entry)

/-- The text of the record, behind `ZONE`. -/
def Record.text (r : Record) : List Char :=
  (match r.title with | none => [] | some (s, t, sep) => 'T' :: s.text ++ '"' :: (t ++ '"' :: sep)) ++ r.entries.flatMap Entry.text ++
    (match r.location with | none => [] | some (l, es) => l.text ++ es.flatMap Entry.text)

/-- All separators are there; the last one may be missing. -/
def Separated (es : List Entry) : Prop := ∀ e ∈ es.dropLast, e.sep ≠ []

/-- A well-formed record. -/
structure Record.Ok (r : Record) : Prop where
  h_title : ∀ s t sep, r.title = some (s, t, sep) → '"' ∉ t ∧ Sep sep ∧ sep ≠ []
  h_entries : ∀ e ∈ r.entries, e.Ok
  h_sep : Separated r.entries
  h_none : r.location = none → ¬ "VARLOCATION".toList <:+: r.entries.flatMap Entry.text
  h_loc : ∀ l es, r.location = some (l, es) → l.Ok ∧ (∀ e ∈ es, e.Ok) ∧ Separated es ∧ (es = [] ∨ l.sep ≠ []) ∧
    (∀ e ∈ r.entries, e.sep ≠ []) ∧ ¬ "VARLOCATION".toList <:+: r.entries.flatMap Entry.text

/-- All entries. -/
def Record.all (r : Record) : List Entry := r.entries ++ (match r.location with | none => [] | some (_, es) => es)

/-- The value of a key; the last entry counts. -/
def Record.get (r : Record) (k : String) : Option (List Char) := (r.all.reverse.find? fun e => decide (e.key = k)).map (·.value)

/-- The number of a key. -/
def Record.num (r : Record) (k : String) : Option Int := (r.get k).bind parseInt

/-- The variables of the cells: those that NV leaves over, or those that VARLOCATION names; none if the data come point by
point. -/
def Record.centered (r : Record) (block : Bool) (j : Nat) : Prop :=
  block = true ∧
    match r.num "NV" with
    | some nv => nv ≤ j
    | none => ∃ l es, r.location = some (l, es) ∧ ∃ g ∈ l.groups, g.cell = true ∧ g.lo ≤ j + 1 ∧ j + 1 ≤ g.hi.getD g.lo

/-- What the record says: the numbers of nodes and cells, whether the data come variable by variable, the element type, and
for each variable whether it belongs to the cells. -/
structure Record.Says (r : Record) (nn nc : Nat) (block : Bool) (type : List Char) (flags : List Bool) : Prop where
  h_format : (r.get "F" = some (if block then "FEBLOCK".toList else "FEPOINT".toList) ∧ r.get "ET" = some type) ∨
    (r.get "F" = none ∧ r.get "DATAPACKING" = some (if block then "BLOCK".toList else "POINT".toList) ∧ r.get "ZONETYPE" = some type)
  h_nodes : r.num "N" = some (nn : Int) ∨ (r.get "N" = none ∧ r.num "NODES" = some (nn : Int))
  h_cells : r.num "E" = some (nc : Int) ∨ (r.get "E" = none ∧ r.num "ELEMENTS" = some (nc : Int))
  h_nv : ∀ nv, r.num "NV" = some nv → 0 ≤ nv
  h_groups : ∀ l es, r.location = some (l, es) → ∀ g ∈ l.groups, 1 ≤ g.lo ∧ g.hi.getD g.lo ≤ flags.length ∧ g.lo ≤ flags.length
  h_flags : ∀ (j : Nat) (b : Bool), flags[j]? = some b → (b = true ↔ r.centered block j)

/-! ## Files -/

/-- A variable: its name, whether it belongs to the cells, and its values. -/
structure Var (F : Type) where
  name : String
  cell : Bool
  values : List F

/-- A file: the lines before the names, the names, the zone record, the data, the cells, and what follows. -/
structure File where
  before : List (List Char)
  names : List (List Char)
  zone : List (List Char)
  data : List (List Char)
  cells : List (List Char)
  after : List (List Char)

/-- All lines. -/
def File.lines (f : File) : List (List Char) := f.before ++ f.names ++ f.zone ++ f.data ++ f.cells ++ f.after

/-- A line that is a comment. -/
def Comment (l : List Char) : Prop := (strip l).head? = some '#'

instance (l : List Char) : Decidable (Comment l) := inferInstanceAs (Decidable (_ = _))

/-- Upper case of ASCII letters. -/
def capital (s : List Char) : List Char := s.map Char.toUpper

/-- A record of lines; the lines behind the first one count as upper case. -/
def joined : List (List Char) → List Char
  | [] => []
  | l :: ls => joinWith ' ' (strip l :: ls.map fun k => capital (strip k))

/-- The file says: the names `names`, the record `r`, the variables `vars` (values one variable after the other, or point by
point) and the cells `rows` (whose nodes are counted from one). -/
structure File.Says (io : TecIO F) (f : File) (names : List VName) (r : Record) (nn nc : Nat) (block : Bool) (type : List Char)
    (vars : List (Var F)) (rows : List (List Int)) : Prop where
  h_before : ∀ l ∈ f.before, strip l ≠ [] ∧ ¬ "VARIABLES".toList <+: capital (strip l) ∧ ¬ "ZONE".toList <+: capital (strip l)
  h_names : ∃ kw rest, joined f.names = kw ++ '=' :: rest ∧ '=' ∉ kw ∧ '=' ∉ rest ∧
    splitWs (rest.map fun c => if c = ',' then ' ' else c) = names.flatMap VName.words
  h_first : ∃ l ls, f.names = l :: ls ∧ "VARIABLES".toList <+: capital (strip l) ∧ ∀ k ∈ ls, (strip k).head? = some '"'
  h_vnames : ∀ n ∈ names, n.Ok
  h_vars : names.map VName.name = vars.map fun v => v.name.toList
  h_zone : ∃ l ls, f.zone = l :: ls ∧ "ZONE".toList <+: capital (strip l) ∧
    ∀ k ∈ ls, ∃ t ts, splitWs (capital (strip k)) = t :: ts ∧ io.parse t = none
  h_record : joined f.zone = "ZONE ".toList ++ r.text
  h_ok : r.Ok
  h_says : r.Says nn nc block type (vars.map (·.cell))
  h_data : ∃ l ls t ts, f.data = l :: ls ∧ splitWs (capital (strip l)) = t :: ts ∧ (io.parse t).isSome = true
  h_values : ∀ v ∈ vars, v.values.length = if v.cell then nc else nn
  h_block : block = true → (f.data.flatMap splitWs).map io.parse = (vars.flatMap (·.values)).map some
  h_point : block = false → ((f.data.filter fun l => decide (splitWs l ≠ [])).map fun l => (splitWs l).map io.parse) =
    (List.range nn).map fun i => vars.map fun v => v.values[i]?
  h_rows : ((f.cells.filter fun l => decide (splitWs l ≠ [])).map fun l => (splitWs l).map parseInt) =
    rows.map fun r => r.map fun v => some (v + 1)
  h_nc : rows.length = nc ∧ 0 < nc ∧ 0 < nn
  h_width : ∃ k, ∀ r ∈ rows, r.length = k

/-- The names of the coordinates: upper case if there is such a variable of the points, otherwise lower case. -/
def coordinate (vars : List (Var F)) (up low : String) : String :=
  if (vars.filter fun v => decide (v.cell = false ∧ v.name = up)).isEmpty then low else up

/-- The points: the variables X, Y and perhaps Z. -/
structure Points (vars : List (Var F)) (points : List (List F)) (used : List String) : Prop where
  h_x : ∃ v ∈ vars, v.cell = false ∧ v.name = coordinate vars "X" "x" ∧ v.values = points.filterMap (·[0]?)
  h_y : ∃ v ∈ vars, v.cell = false ∧ v.name = coordinate vars "Y" "y" ∧ v.values = points.filterMap (·[1]?)
  h_z : (used = [coordinate vars "X" "x", coordinate vars "Y" "y"] ∧ (∀ v ∈ vars, v.cell = false → v.name ≠ "Z" ∧ v.name ≠ "z") ∧
      ∀ p ∈ points, p.length = 2) ∨
    (used = [coordinate vars "X" "x", coordinate vars "Y" "y", coordinate vars "Z" "z"] ∧
      (∃ v ∈ vars, v.cell = false ∧ v.name = coordinate vars "Z" "z" ∧ v.values = points.filterMap (·[2]?)) ∧ ∀ p ∈ points, p.length = 3)

/-- The data of the points are the other variables of the points. -/
def pointData (vars : List (Var F)) (used : List String) : Dict (List F) :=
  (vars.filter fun v => decide (v.cell = false ∧ v.name ∉ used)).map fun v => (v.name, v.values)

/-- The data of the cells. -/
def cellData (vars : List (Var F)) : Dict (List F) := (vars.filter (·.cell)).map fun v => (v.name, v.values)

/-- The type of the cells of a zone. -/
def typeOf (zt : List Char) : Option String :=
  if zt = "LINESEG".toList ∨ zt = "FELINESEG".toList then some "line"
  else if zt = "TRIANGLE".toList ∨ zt = "FETRIANGLE".toList then some "triangle"
  else if zt = "QUADRILATERAL".toList ∨ zt = "FEQUADRILATERAL".toList then some "quad"
  else if zt = "TETRAHEDRON".toList ∨ zt = "FETETRAHEDRON".toList then some "tetra"
  else if zt = "BRICK".toList ∨ zt = "FEBRICK".toList then some "hexahedron"
  else none

/-! ## Written files -/

/-- The variables of one array: the array itself, or its columns, numbered from zero. -/
def varsOf (cell : Bool) (name : String) : Arr F → List (Var F)
  | .one l => [⟨name, cell, l⟩]
  | .two k rows => (List.range k).map fun i => ⟨name ++ "_" ++ String.ofList (fmtNat i), cell, rows.filterMap (·[i]?)⟩
  | .more => []

/-- The type is one of the seven that Tecplot can hold. -/
def Known (t : String) : Prop := (nodes t).isSome = true

instance (t : String) : Decidable (Known t) := inferInstanceAs (Decidable (_ = _))

/-- Which blocks of a mesh are written to the single zone of the file, with which element type, and how their cells become
elements: cells of one type; several types of dimension three, or of dimension two; or the cells of dimension three of a mesh
that has those and cells of one lower dimension — except that the first block must not have dimension two. -/
inductive ZoneFor (cells : List Blk) : String → (String → Bool) → (String → List Int → List Int) → Prop
  | one (t : String) : Known t → (∃ b ∈ cells, b.type = t) → (∀ b ∈ cells, Known b.type → b.type = t) →
      ZoneFor cells (zoneOf t) (fun s => decide (s = t)) alone
  | solid : (∃ b ∈ cells, ∃ c ∈ cells, Known b.type ∧ Known c.type ∧ b.type ≠ c.type) → (∀ b ∈ cells, Known b.type → dimension b.type = 3) →
      ZoneFor cells "FEBRICK" (fun s => decide (Known s)) brick
  | flat : (∃ b ∈ cells, ∃ c ∈ cells, Known b.type ∧ Known c.type ∧ b.type ≠ c.type) → (∀ b ∈ cells, Known b.type → dimension b.type = 2) →
      ZoneFor cells "FEQUADRILATERAL" (fun s => decide (Known s)) quadrilateral
  | solids (d : Nat) : d ≠ 3 → (∃ b ∈ cells, Known b.type ∧ dimension b.type = 3) → (∃ b ∈ cells, Known b.type ∧ dimension b.type = d) →
      (∀ b ∈ cells, Known b.type → dimension b.type = 3 ∨ dimension b.type = d) →
      (∀ b, (cells.find? fun b => decide (Known b.type)) = some b → dimension b.type ≠ 2) →
      ZoneFor cells "FEBRICK" (fun s => decide (Known s ∧ dimension s = 3)) brick

/-- The blocks that are written, with their indices. -/
def written (cells : List Blk) (keep : String → Bool) : List (Blk × Nat) := cells.zipIdx.filter fun b => keep b.1.type

/-- The cells have the number of nodes of their type. -/
def Shaped (cells : List Blk) : Prop := ∀ b ∈ cells, ∀ n, nodes b.type = some n → ∀ r ∈ b.rows, r.length = n

/-- The elements of the zone. -/
def elements (cells : List Blk) (keep : String → Bool) (elem : String → List Int → List Int) : List (List Int) :=
  (cellList (cells.filter fun b => keep b.type)).map fun c => elem c.1 c.2

/-- Arrays of several blocks one after the other. -/
inductive Together : List (Arr F) → Arr F → Prop
  | one (ls : List (List F)) : ls ≠ [] → Together (ls.map Arr.one) (.one ls.flatten)
  | two (k : Nat) (ls : List (List (List F))) : ls ≠ [] → Together (ls.map (Arr.two k)) (.two k ls.flatten)

/-- An array has `n` rows. -/
def Rows (n : Nat) : Arr F → Prop
  | .one l => l.length = n
  | .two k rows => rows.length = n ∧ ∀ r ∈ rows, r.length = k
  | .more => True

/-- Names that are not written as data, since they name the coordinates. -/
def Reserved (n : String) : Prop := n = "X" ∨ n = "Y" ∨ n = "Z" ∨ n = "x" ∨ n = "y" ∨ n = "z"

instance (n : String) : Decidable (Reserved n) := inferInstanceAs (Decidable (_ ∨ _))

/-- The variables of the coordinates. -/
def coordinates (dim : Nat) (points : List (List F)) : List (Var F) :=
  [⟨"X", false, points.filterMap (·[0]?)⟩, ⟨"Y", false, points.filterMap (·[1]?)⟩] ++
    if dim = 3 then [⟨"Z", false, points.filterMap (·[2]?)⟩] else []

/-- A mesh that can be written: `cd'` holds, for each name, the array of the blocks that are written. -/
structure Writable (dim : Nat) (points : List (List F)) (cells : List Blk) (keep : String → Bool) (pd : Dict (Arr F)) (cd : Dict (List (Arr F)))
    (cd' : Dict (Arr F)) : Prop where
  h_dim : dim = 2 ∨ dim = 3
  h_points : points ≠ [] ∧ ∀ p ∈ points, p.length = dim
  h_shaped : Shaped cells
  h_some : ∃ b ∈ cells, keep b.type = true ∧ b.rows ≠ []
  h_pd : ∀ kv ∈ pd, ¬ Reserved kv.1 → Rows points.length kv.2
  h_cd : cd'.map (·.1) = (cd.filter fun kv => decide (¬ Reserved kv.1)).map (·.1)
  h_arr : ∀ kv ∈ (cd.filter fun kv => decide (¬ Reserved kv.1)).zip cd', ∃ arrs, (written cells keep).map (fun b => kv.1.2[b.2]?) = arrs.map some ∧
    Together arrs kv.2.2 ∧ ∀ ba ∈ (written cells keep).zip arrs, Rows ba.1.1.rows.length ba.2

/-- The variables of the file. -/
def variables (dim : Nat) (points : List (List F)) (pd : Dict (Arr F)) (cd' : Dict (Arr F)) : List (Var F) :=
  coordinates dim points ++ ((pd.filter fun kv => decide (¬ Reserved kv.1)).flatMap fun kv => varsOf false kv.1 kv.2) ++
    cd'.flatMap fun kv => varsOf true kv.1 kv.2

/-- The variables of data as a dictionary. -/
def table (cell : Bool) (d : Dict (Arr F)) : Dict (List F) :=
  (d.flatMap fun kv => varsOf cell kv.1 kv.2).map fun v => (v.name, v.values)

end Tecplot
end Spec
end Meshio
