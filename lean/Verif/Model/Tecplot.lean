/-
Tecplot ASCII files: /repo/src/meshio/tecplot/_tecplot.py.
-/
import Verif.Base.File
import Verif.Base.Lines
import Verif.Base.Runs
import Verif.Base.Sort
import Verif.Base.Infix
import Verif.Base.Dict
import Verif.Model.Common
import Verif.Model.Types

namespace Meshio
namespace Tecplot
open Types Tables

variable {F : Type}

/-! ## Reading -/

/-- `s.upper()`; upper case of ASCII letters only. -/
def upper (s : List Char) : List Char := s.map Char.toUpper

/-- Numbers written by `str` and read by `float`.  The reader tries `float` on an upper-case line to find where the data
start (/repo/src/meshio/tecplot/_tecplot.py:155-166): numbers are still numbers then, and the keywords that the writer puts
at the beginning of a line are not.  No number starts with the sign of a comment. -/
structure TecIO (F : Type) extends FloatIO F where
  upper_num : ∀ x, (parse (upper (fmt x))).isSome = true
  no_hash : ∀ x, (fmt x).head? ≠ some '#'
  no_datapacking : parse "DATAPACKING".toList = none
  no_varlocation : parse "VARLOCATION".toList = none

/-- The lines of the file as `readline`, /repo/src/meshio/tecplot/_tecplot.py:108-113, returns them: stripped and without the
comments.  (Going back with `seek` only repeats the comments that are skipped anyway; at the end of the file `readline`
returns an empty line.) -/
def inLines (s : List Char) : List (List Char) :=
  ((fileLines s).map strip).filter fun l => decide (l.head? ≠ some '#')

/-- The lines behind `VARIABLES` that start with a double quote, /repo/src/meshio/tecplot/_tecplot.py:132-141. -/
def quotedLines : List (List Char) → List (List Char) × List (List Char)
  | [] => ([], [])
  | l :: ls => if (upper l).head? = some '"' then (upper l :: (quotedLines ls).1, (quotedLines ls).2) else ([], l :: ls)

/-- The lines of the zone record, up to the first one that starts with a number, /repo/src/meshio/tecplot/_tecplot.py:153-166;
`line.split()[0]` of an empty line is an IndexError. -/
def infoLines (isNum : List Char → Bool) : List (List Char) → Res (List (List Char) × List (List Char))
  | [] => .error .indexError
  | l :: ls =>
    match splitWs (upper l) with
    | [] => .error .indexError
    | t :: _ =>
      if isNum t then .ok ([], l :: ls)
      else
        match infoLines isNum ls with
        | .error e => .error e
        | .ok r => .ok (upper l :: r.1, r.2)

/-- `line.replace(",", " ").split()` -/
def words (s : List Char) : List (List Char) := splitWs (s.map fun c => if c = ',' then ' ' else c)

/-- A word with a double quote that is not quoted at both ends, /repo/src/meshio/tecplot/_tecplot.py:234. -/
def halfQuoted (w : List Char) : Bool := decide ('"' ∈ w ∧ ¬ (w.head? = some '"' ∧ w.getLast? = some '"'))

/-- `var.replace('"', "")` -/
def unquote (w : List Char) : List Char := w.filter fun c => decide (c ≠ '"')

/-- The loop of `_read_variables`, /repo/src/meshio/tecplot/_tecplot.py:230-241. -/
def varNames : List (List Char) → Res (List (List Char))
  | [] => .ok []
  | [w] => if halfQuoted w then .error .indexError else .ok [unquote w]
  | w :: v :: ws =>
    if halfQuoted w then
      match varNames ws with
      | .error e => .error e
      | .ok r => .ok (unquote (w ++ '_' :: v) :: r)
    else
      match varNames (v :: ws) with
      | .error e => .error e
      | .ok r => .ok (unquote w :: r)

/-- `_read_variables`, /repo/src/meshio/tecplot/_tecplot.py:226-249. -/
def readVariables (line : List Char) : Res (List String) :=
  match (splitOnC '=' line)[1]? with
  | none => .error .indexError
  | some s =>
    match varNames (words s) with
    | .error e => .error e
    | .ok names =>
      let vs := names.map String.ofList
      if "X" ∉ vs ∧ "x" ∉ vs then .error .readError
      else if "Y" ∉ vs ∧ "y" ∉ vs then .error .readError
      else .ok vs

/-- `s.replace(p, q)` for a text `p` that is not empty; the number counts the characters of the last occurrence that are still
to be passed over. -/
def replaceAll (p q : List Char) : Nat → List Char → List Char
  | _, [] => []
  | k + 1, _ :: s => replaceAll p q k s
  | 0, c :: s => if p.isPrefixOf (c :: s) then q ++ replaceAll p q (p.length - 1) s else c :: replaceAll p q 0 s

/-- `s.find(p)` -/
def findSub (p : List Char) : List Char → Option Nat
  | [] => if p = [] then some 0 else none
  | c :: s => if p.isPrefixOf (c :: s) then some 0 else (findSub p s).map (· + 1)

/-- `s.find(p)` as a number, -1 if there is none. -/
def findInt (p s : List Char) : Int := match findSub p s with | some i => i | none => -1

/-- Where a slice bound points to in a list of length `n`. -/
def bound (n : Nat) (x : Int) : Nat := if x < 0 then (x + n).toNat else min x.toNat n

/-- `l[a:b]` -/
def slicePy {α : Type} (l : List α) (a b : Int) : List α := (l.drop (bound l.length a)).take (bound l.length b - bound l.length a)

/-- The zone record: entries that are texts and entries that are numbers. -/
structure Zone where
  strs : Dict (List Char)
  ints : Dict Int
deriving DecidableEq

/-- The keys of `zone_key_to_type` whose values are texts, /repo/src/meshio/tecplot/_tecplot.py:16-31. -/
def strKeys : List String := ["T", "F", "ET", "DATAPACKING", "ZONETYPE", "VARLOCATION"]

/-- The keys of `zone_key_to_type` whose values are numbers, /repo/src/meshio/tecplot/_tecplot.py:16-31. -/
def intKeys : List String := ["I", "J", "K", "N", "NODES", "E", "ELEMENTS", "NV"]

/-- `zone[key] = zone_key_to_type[key](value)`, /repo/src/meshio/tecplot/_tecplot.py:293. -/
def put (z : Zone) (key value : List Char) : Res Zone :=
  let k := String.ofList key
  if k ∈ strKeys then .ok { z with strs := z.strs.set k value }
  else if k ∈ intKeys then
    match parseInt value with
    | none => .error .valueError
    | some i => .ok { z with ints := z.ints.set k i }
  else .error .keyError

/-- `x.replace("=", "")` -/
def noEq (w : List Char) : List Char := w.filter fun c => decide (c ≠ '=')

/-- `key=value` in one word, /repo/src/meshio/tecplot/_tecplot.py:282-283. -/
def tight (w : List Char) : Bool := !(decide (w.head? = some '=') || decide (w.getLast? = some '='))

/-- `key, value = line[i].split("=")` and the entry. -/
def putTight (z : Zone) (w : List Char) : Res Zone :=
  match splitOnC '=' w with
  | [k, v] => put z k v
  | _ => .error .valueError

/-- The loop of `_read_zone`, /repo/src/meshio/tecplot/_tecplot.py:279-294. -/
def pairs : List (List Char) → Zone → Res Zone
  | [], z => .ok z
  | [w], z => if '=' ∈ w ∧ tight w = true then putTight z w else .error .indexError
  | w :: v :: ws, z =>
    if '=' ∈ w then
      if tight w then
        match putTight z w with
        | .error e => .error e
        | .ok z => pairs (v :: ws) z
      else
        match put z (noEq w) v with
        | .error e => .error e
        | .ok z => pairs ws z
    else
      match put z w (noEq v) with
      | .error e => .error e
      | .ok z => pairs ws z

/-- The title of the zone is taken out, /repo/src/meshio/tecplot/_tecplot.py:257-266: the rest of the line and the title. -/
def takeTitle (line : List Char) : List Char × Option (List Char) :=
  match findSub ['"'] line with
  | none => (line, none)
  | some i =>
    let i2 : Int := i + findInt ['"'] (line.drop (i + 1)) + 2
    (replaceAll (slicePy line i i2) "PLACEHOLDER".toList 0 line, some (slicePy line (i + 1) (i2 - 1)))

/-- VARLOCATION is taken out, /repo/src/meshio/tecplot/_tecplot.py:268-275. -/
def takeLocation (line : List Char) : List Char × Option (List Char) :=
  match findSub "VARLOCATION".toList line with
  | none => (line, none)
  | some i =>
    let i1 := findInt ['('] line
    let i2 := findInt [')'] line
    (line.take i ++ slicePy line (i2 + 1) line.length, some ((slicePy line i1 (i2 + 1)).filter fun c => decide (c ≠ ' ')))

/-- `zone["VARLOCATION"] = …`, /repo/src/meshio/tecplot/_tecplot.py:268-275. -/
def locDict : Option (List Char) → Dict (List Char)
  | none => []
  | some s => [("VARLOCATION", s)]

/-- `zone["T"] = …`, /repo/src/meshio/tecplot/_tecplot.py:296-298. -/
def withTitle (z : Zone) : Option (List Char) → Res Zone
  | none => .ok z
  | some s => if s = [] then .ok z else .ok { z with strs := z.strs.set "T" s }

/-- `_read_zone`, /repo/src/meshio/tecplot/_tecplot.py:252-300. -/
def readZone (line : List Char) : Res Zone :=
  let t := takeTitle (line.drop 5)
  let v := takeLocation t.1
  match pairs ((words v.1).filter fun w => decide (w ≠ ['='])) ⟨locDict v.2, []⟩ with
  | .error e => .error e
  | .ok z => withTitle z t.2

/-- `is_cell_centered[i] = 1` -/
def setAt (flags : List Bool) (i : Int) : Res (List Bool) :=
  if 0 ≤ i ∧ i < flags.length then .ok (flags.set i.toNat true)
  else if i < 0 ∧ -i ≤ flags.length then .ok (flags.set (i + flags.length).toNat true)
  else .error .indexError

/-- `for i in range(imin, imax + 1): is_cell_centered[i] = 1` -/
def setRange (flags : List Bool) (imin : Int) : Nat → Res (List Bool)
  | 0 => .ok flags
  | n + 1 =>
    match setAt flags imin with
    | .error e => .error e
    | .ok fl => setRange fl (imin + 1) n

/-- One entry of VARLOCATION, /repo/src/meshio/tecplot/_tecplot.py:345-356. -/
def location (flags : List Bool) (loc : List Char) : Res (List Bool) :=
  match splitOnC '=' loc with
  | [r, l] =>
    if strip l = "CELLCENTERED".toList then
      match splitOnC '-' (slicePy r 1 (-1)) with
      | [a] =>
        match parseInt a with
        | none => .error .valueError
        | some i => setAt flags (i - 1)
      | a :: b :: _ =>
        match parseInt a, parseInt b with
        | some i, some j => setRange flags (i - 1) (j - 1 + 1 - (i - 1)).toNat
        | _, _ => .error .valueError
      | [] => .ok flags
    else .ok flags
  | _ => .error .valueError

/-- What the zone record says: the numbers of nodes and cells, whether the variables come one after the other (`FEBLOCK`) or
point by point, the element type, and which variables belong to cells. -/
structure Fez where
  nodes : Int
  cells : Int
  block : Bool
  type : List Char
  centered : List Bool
deriving DecidableEq

/-- The format and the type, /repo/src/meshio/tecplot/_tecplot.py:304-318.  All formats other than `FEBLOCK` are read point by
point, /repo/src/meshio/tecplot/_tecplot.py:183,203,367. -/
def formatOf (z : Zone) : Res (Bool × List Char) :=
  match z.strs.get? "F" with
  | some f =>
    if f ≠ "FEPOINT".toList ∧ f ≠ "FEBLOCK".toList then .error .readError
    else
      match z.strs.get? "ET" with
      | none => .error .readError
      | some t => .ok (decide (f = "FEBLOCK".toList), t)
  | none =>
    match z.strs.get? "DATAPACKING" with
    | some d =>
      match z.strs.get? "ZONETYPE" with
      | none => .error .readError
      | some t => .ok (decide ("FE".toList ++ d = "FEBLOCK".toList), t)
    | none => .error .readError

/-- One of two keys, /repo/src/meshio/tecplot/_tecplot.py:320-334. -/
def count (z : Zone) (k1 k2 : String) : Res Int :=
  match z.ints.get? k1 with
  | some n => .ok n
  | none =>
    match z.ints.get? k2 with
    | some n => .ok n
    | none => .error .readError

/-- The locations of the variables, /repo/src/meshio/tecplot/_tecplot.py:336-356. -/
def centeredOf (z : Zone) (block : Bool) (n : Nat) : Res (List Bool) :=
  let zeros := List.replicate n false
  if block then
    match z.ints.get? "NV" with
    | some nv => .ok (zeros.take (bound n nv) ++ List.replicate (n - bound n nv) true)
    | none =>
      match z.strs.get? "VARLOCATION" with
      | none => .ok zeros
      | some s => foldRes location zeros (splitOnC ',' (slicePy s 1 (-1)))
  else .ok zeros

/-- `_parse_fezone`, /repo/src/meshio/tecplot/_tecplot.py:303-358. -/
def parseFezone (z : Zone) (n : Nat) : Res Fez :=
  match formatOf z with
  | .error e => .error e
  | .ok (block, t) =>
    match count z "N" "NODES" with
    | .error e => .error e
    | .ok nn =>
      match count z "E" "ELEMENTS" with
      | .error e => .error e
      | .ok nc =>
        match centeredOf z block n with
        | .error e => .error e
        | .ok fl => .ok ⟨nn, nc, block, t, fl⟩

/-- One line of numbers; a word that is none is a ValueError. -/
def rowOf {α : Type} (parse : List Char → Option α) (ws : List (List Char)) : Res (List α) :=
  mapRes (fun w => match parse w with | some x => .ok x | none => .error .valueError) ws

/-- The loops of `_read_zone_data`, /repo/src/meshio/tecplot/_tecplot.py:361-376: lines are read until the number is reached
(never, at the end of the file); `weight` is what a line counts. -/
def takeRows {α : Type} (parse : List Char → Option α) (weight : Nat → Nat) (need : Int) :
    List (List Char) → Nat → Res (List (List α) × List (List Char))
  | [], cnt => if (cnt : Int) < need then .error .eofLoop else .ok ([], [])
  | l :: ls, cnt =>
    if (cnt : Int) < need then
      if splitWs l = [] then takeRows parse weight need ls cnt
      else
        match rowOf parse (splitWs l) with
        | .error e => .error e
        | .ok row =>
          match takeRows parse weight need ls (cnt + weight row.length) with
          | .error e => .error e
          | .ok r => .ok (row :: r.1, r.2)
    else .ok ([], l :: ls)

/-- What is read: the points, the one block of cells, and the data. -/
structure Out (F : Type) where
  points : List (List F)
  type : String
  rows : List (List Int)
  pointData : Dict (List F)
  cellData : Dict (List F)
deriving DecidableEq

/-- All rows have the same length. -/
def rectangular {α : Type} (rows : List (List α)) : Bool := rows.all fun r => r.length == (rows.headD []).length

/-- `np.transpose(data)` for rows of the same length: the columns. -/
def columns {α : Type} (k : Nat) (rows : List (List α)) : List (List α) :=
  (List.range k).map fun i => rows.filterMap (·[i]?)

/-- The variables as arrays, /repo/src/meshio/tecplot/_tecplot.py:201-205.  A negative number of nodes is not modelled. -/
def arrays (fz : Fez) (rows : List (List F)) : Res (List (List F)) :=
  if fz.block then
    if fz.nodes < 0 then .error .unmodelled
    else if rows = [] then .error .valueError
    else .ok (cellDataFromRaw (fz.centered.map fun c => if c then fz.cells.toNat else fz.nodes.toNat) rows.flatten)
  else if rectangular rows then .ok (columns (rows.headD []).length rows)
  else .error .valueError

/-- The data of points and cells, /repo/src/meshio/tecplot/_tecplot.py:206-213. -/
def split (data : Dict (List F)) : List (Bool × String) → Res (Dict (List F) × Dict (List F)) :=
  foldRes (fun st iv =>
    match data.get? iv.2 with
    | none => .error .keyError
    | some a => if iv.1 then .ok (st.1, st.2.set iv.2 a) else .ok (st.1.set iv.2 a, st.2)) ([], [])

/-- `np.column_stack` of columns of the same length. -/
def stack (cols : List (List F)) : Res (List (List F)) :=
  if cols.all fun c => c.length == (cols.headD []).length then
    .ok (columns (cols.headD []).length cols)
  else .error .valueError

/-- The points are taken out of the data and the mesh is made, /repo/src/meshio/tecplot/_tecplot.py:215-223; the constructor of
the mesh compares the lengths of the data (/repo/src/meshio/_mesh.py:162-180). -/
def mesh (pd cd : Dict (List F)) (ztype : List Char) (rows : List (List Int)) : Res (Out F) :=
  let x := if pd.has "X" then "X" else "x"
  let y := if pd.has "Y" then "Y" else "y"
  let z := if pd.has "Z" then some "Z" else if pd.has "z" then some "z" else none
  match pd.get? x, pd.get? y with
  | some cx, some cy =>
    let pd := (pd.erase x).erase y
    let cz : List (List F) := match z with | none => [] | some z => (pd.get? z).toList
    let pd := match z with | none => pd | some z => pd.erase z
    match stack ([cx, cy] ++ cz) with
    | .error e => .error e
    | .ok points =>
      match find tecplotToMeshio (String.ofList ztype) with
      | none => .error .keyError
      | some t =>
        if pd.all (fun kv => kv.2.length == points.length) && cd.all (fun kv => kv.2.length == rows.length) then
          .ok ⟨points, t, rows, pd, cd⟩
        else .error .valueError
  | _, _ => .error .keyError

/-- What happens at `ZONE`, /repo/src/meshio/tecplot/_tecplot.py:153-223. -/
def readZoneAll (io : TecIO F) (line : List Char) (ls : List (List Char)) (vars : Option (List String)) : Res (Out F) :=
  match infoLines (fun t => (io.parse t).isSome) ls with
  | .error e => .error e
  | .ok (info, ls) =>
    match vars with
    | none => .error .assertionError
    | some vs =>
      match readZone (joinWith ' ' (line :: info)) with
      | .error e => .error e
      | .ok z =>
        match parseFezone z vs.length with
        | .error e => .error e
        | .ok fz =>
          let total : Int := (fz.centered.map fun c => if c then fz.cells else fz.nodes).sum
          match takeRows io.parse (fun k => if fz.block then k else 1) (if fz.block then total else fz.nodes) ls 0 with
          | .error e => .error e
          | .ok (data, ls) =>
            match takeRows parseInt (fun _ => 1) fz.cells ls 0 with
            | .error e => .error e
            | .ok (rows, _) =>
              if rows = [] ∨ rectangular rows = false then .error .valueError
              else
                match arrays fz data with
                | .error e => .error e
                | .ok cols =>
                  match split ((vs.zip cols).foldl (fun d kv => Dict.set d kv.1 kv.2) []) (fz.centered.zip vs) with
                  | .error e => .error e
                  | .ok (pd, cd) => mesh pd cd fz.type (rows.map fun r => r.map (· - 1))

/-- The loop of `read_buffer`, /repo/src/meshio/tecplot/_tecplot.py:125-199; an empty line ends it. -/
def loop (io : TecIO F) : Nat → List (List Char) → Option (List String) → Res (Out F)
  | 0, _, _ => .error .assertionError
  | _ + 1, [], _ => .error .assertionError
  | n + 1, l :: ls, vars =>
    if "VARIABLES".toList.isPrefixOf (upper l) then
      match readVariables (joinWith ' ' (l :: (quotedLines ls).1)) with
      | .error e => .error e
      | .ok vs => loop io n (quotedLines ls).2 (some vs)
    else if "ZONE".toList.isPrefixOf (upper l) then readZoneAll io l ls vars
    else if l = [] then .error .assertionError
    else loop io n ls vars

/-- `read_buffer`, /repo/src/meshio/tecplot/_tecplot.py:116-223. -/
def read (io : TecIO F) (s : List Char) : Res (Out F) := loop io ((inLines s).length + 1) (inLines s) none

/-! ## Writing -/

/-- A cell block. -/
structure Blk where
  type : String
  rows : List (List Int)
deriving DecidableEq

/-- An array of data: of one dimension, of two dimensions with a number of columns, or of more. -/
inductive Arr (F : Type) where
  | one (l : List F)
  | two (k : Nat) (rows : List (List F))
  | more
deriving DecidableEq

/-- `np.concatenate`; arrays of more dimensions are not looked into. -/
def concat : List (Arr F) → Res (Arr F)
  | [] => .error .valueError
  | [a] => .ok a
  | a :: b :: l =>
    match concat (b :: l) with
    | .error e => .error e
    | .ok c =>
      match a, c with
      | .one x, .one y => .ok (.one (x ++ y))
      | .two k x, .two k' y => if k = k' then .ok (.two k (x ++ y)) else .error .valueError
      | .more, .more => .ok .more
      | _, _ => .error .valueError

/-- The variables of one array, /repo/src/meshio/tecplot/_tecplot.py:438-446,455-463. -/
def variablesOf (k : String) : Arr F → List (String × List F)
  | .one l => [(k, l)]
  | .two n rows => (columns n rows).zipIdx.map fun c => (k ++ "_" ++ String.ofList (fmtNat c.2), c.1)
  | .more => []

/-- `data[:, order[type]]` for one block. -/
def blockRows (table : List (String × List Nat)) (b : Blk) : Res (List (List Int)) :=
  match find table b.type with
  | none => .error .keyError
  | some p => mapRes (fun r => pick r p) b.rows

/-- `np.concatenate` of the blocks. -/
def concatRows (table : List (String × List Nat)) (bs : List Blk) : Res (List (List Int)) :=
  if bs = [] then .error .valueError
  else
    match mapRes (blockRows table) bs with
    | .error e => .error e
    | .ok l => .ok l.flatten

/-- The blocks that Tecplot can hold, with their indices, /repo/src/meshio/tecplot/_tecplot.py:379-393. -/
def supported (cells : List Blk) : List (Blk × Nat) := cells.zipIdx.filter fun b => (find meshioToTecplot b.1.type).isSome

/-- `meshio_type_to_ndim[type]` -/
def ndim (b : Blk × Nat) : Nat := (find tecplotNdim b.1.type).getD 0

/-- The zone type, the blocks and the rows, /repo/src/meshio/tecplot/_tecplot.py:395-424. -/
def chooseCells (cells : List Blk) : Res (String × List (Blk × Nat) × List (List Int)) :=
  let bs := supported cells
  match distinct (bs.map (·.1.type)) with
  | [] => .error .writeError
  | [t] =>
    match find meshioToTecplot t with
    | none => .error .keyError
    | some zt =>
      match concatRows meshioToTecplotOrder (bs.map (·.1)) with
      | .error e => .error e
      | .ok rows => .ok (zt, bs, rows)
  | _ :: _ :: _ =>
    let dims := bs.map ndim
    let bs' := if (distinct dims).length = 2 then bs.filter fun b => decide (ndim b = 3) else bs
    let zt := if dims.head? = some 2 then "FEQUADRILATERAL" else "FEBRICK"
    match concatRows meshioToTecplotOrder2 (bs'.map (·.1)) with
    | .error e => .error e
    | .ok rows => .ok (zt, bs', rows)

/-- Names that are not written as data, /repo/src/meshio/tecplot/_tecplot.py:437,453. -/
def reserved : List String := ["X", "Y", "Z", "x", "y", "z"]

/-- The variables of the points, /repo/src/meshio/tecplot/_tecplot.py:426-448.  The points have two or three columns (of more
than three, two are written). -/
def pointVars (dim : Nat) (points : List (List F)) (pd : Dict (Arr F)) : Res (List (String × List F)) :=
  if dim < 2 then .error .indexError
  else
    .ok ((if dim = 3 then ["X", "Y", "Z"].zip (columns 3 points) else ["X", "Y"].zip (columns 2 points)) ++
      (pd.filter fun kv => decide (kv.1 ∉ reserved)).flatMap fun kv => variablesOf kv.1 kv.2)

/-- `v[ic] for ic in cell_blocks` -/
def chosen (arrs : List (Arr F)) (bs : List (Blk × Nat)) : Res (List (Arr F)) :=
  mapRes (fun b => match arrs[b.2]? with | some a => .ok a | none => .error .indexError) bs

/-- The variables of the cells, /repo/src/meshio/tecplot/_tecplot.py:450-465. -/
def cellVars (bs : List (Blk × Nat)) : Dict (List (Arr F)) → Res (List (String × List F))
  | [] => .ok []
  | kv :: cd =>
    if kv.1 ∈ reserved then cellVars bs cd
    else
      match chosen kv.2 bs with
      | .error e => .error e
      | .ok arrs =>
        match concat arrs with
        | .error e => .error e
        | .ok a =>
          match cellVars bs cd with
          | .error e => .error e
          | .ok r => .ok (variablesOf kv.1 a ++ r)

/-- `_write_table`, /repo/src/meshio/tecplot/_tecplot.py:500-505: `ncol` values per line, the last line may be shorter. -/
def tableLines (io : TecIO F) (ncol : Nat) (l : List F) : List (List Char) :=
  ((rowsN ncol (l.length / ncol) l ++ [l.drop (l.length / ncol * ncol)]).filter fun r => decide (r ≠ [])).map fun r =>
    joinWith ' ' (r.map io.fmt)

/-- The lines of the zone record, /repo/src/meshio/tecplot/_tecplot.py:475-489; `a` and `b` are `varrange`. -/
def zoneLines (nn nc : Nat) (zt : String) (a b : Nat) : List (List Char) :=
  ["ZONE NODES = ".toList ++ fmtNat nn ++ ", ELEMENTS = ".toList ++ fmtNat nc ++ ",".toList] ++
  if a ≤ b then
    ["DATAPACKING = BLOCK, ZONETYPE = ".toList ++ zt.toList ++ ",".toList,
     "VARLOCATION = ([".toList ++ (if a = b then fmtNat a else fmtNat a ++ '-' :: fmtNat b) ++ "] = CELLCENTERED)".toList]
  else ["DATAPACKING = BLOCK, ZONETYPE = ".toList ++ zt.toList]

/-- The names, each in double quotes, with `, ` between them. -/
def nameList : List String → List Char
  | [] => []
  | [n] => '"' :: (n.toList ++ ['"'])
  | n :: m :: l => '"' :: (n.toList ++ '"' :: ',' :: ' ' :: nameList (m :: l))

/-- The text of the file, /repo/src/meshio/tecplot/_tecplot.py:467-497. -/
def textOf (io : TecIO F) (version : List Char) (pv cv : List (String × List F)) (nn nc : Nat) (zt : String) (rows : List (List Int)) :
    List Char :=
  linesText (["TITLE = \"Written by meshio v".toList ++ version ++ ['"'],
      "VARIABLES = ".toList ++ nameList ((pv ++ cv).map (·.1))] ++
    zoneLines nn nc zt (pv.length + 1) (if cv = [] then 0 else pv.length + cv.length) ++
    ((pv ++ cv).flatMap fun v => tableLines io 20 v.2) ++
    rows.map fun r => joinWith ' ' ((r.map (· + 1)).map fmtInt))

/-- `write`, /repo/src/meshio/tecplot/_tecplot.py:379-497.  (Without a cell variable `varrange[1]` is 0 or one less than
`varrange[0]`; in both cases no VARLOCATION is written.) -/
def write (io : TecIO F) (version : List Char) (dim : Nat) (points : List (List F)) (cells : List Blk) (pd : Dict (Arr F))
    (cd : Dict (List (Arr F))) : Res (List Char) :=
  match chooseCells cells with
  | .error e => .error e
  | .ok (zt, bs, rows) =>
    match pointVars dim points pd with
    | .error e => .error e
    | .ok pv =>
      match cellVars bs cd with
      | .error e => .error e
      | .ok cv => .ok (textOf io version pv cv points.length (bs.map fun b => b.1.rows.length).sum zt rows)

end Tecplot
end Meshio
