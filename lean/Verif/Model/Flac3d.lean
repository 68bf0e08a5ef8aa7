/-
FLAC3D f3grid files: /repo/src/meshio/flac3d/_flac3d.py.
-/
import Verif.Base.BinText
import Verif.Base.IdMap
import Verif.Base.Lines
import Verif.Base.Runs
import Verif.Model.Common
import Verif.Model.Medit
import Verif.Model.Types

namespace Meshio
namespace Flac3d
open Types Tables

variable {F : Type}

/-- The operations of the orientation test: differences, products, sums and `x > 0`. -/
structure Arith (F : Type) where
  sub : F → F → F
  mul : F → F → F
  add : F → F → F
  pos : F → Bool

/-- What is not modelled of the numbers and texts: printing and parsing of floats, their eight bytes, the float operations, and
`str.encode` and `bytes.decode`, which keep ASCII. -/
structure FlacIO (F : Type) extends FloatIO F, Arith F where
  bin : Medit.BinFloat F
  encode : List Char → List Byte
  decode : List Byte → Option (List Char)
  encode_ascii : ∀ s : List Char, (∀ c ∈ s, c.toNat < 128) → encode s = toBytes s
  decode_ascii : ∀ s : List Char, (∀ c ∈ s, c.toNat < 128) → decode (toBytes s) = some s

/-- The mesh that is read: `ids` is `cell_data["cell_ids"]`, there when there are cells. -/
structure Out (F : Type) where
  points : List (List F)
  cells : List (String × List (List Nat))
  ids : List (List Int)
  sets : Dict (List (List Int))
deriving DecidableEq

/-- The variables of `read_buffer`, /repo/src/meshio/flac3d/_flac3d.py:117-126; `pids` are the keys of `point_ids` in the order of
their assignment. -/
structure St (F : Type) where
  points : List (List F)
  pids : List Int
  fcells : List (String × List (List Nat))
  zcells : List (String × List (List Nat))
  fids : List Int
  zids : List Int
  fsets : Dict (List Int)
  zsets : Dict (List Int)
deriving DecidableEq

/-- /repo/src/meshio/flac3d/_flac3d.py:117-126 -/
def St.init : St F := ⟨[], [], [], [], [], [], [], []⟩

/-! ## Reading -/

/-- `_update_cells`, /repo/src/meshio/flac3d/_flac3d.py:346-352; `table` is `numnodes_to_meshio_type[flag]`. -/
def updateCells (table : List (Nat × String)) (cells : List (String × List (List Nat))) (cell : List Nat) :
    Res (List (String × List (List Nat))) :=
  match find table cell.length with
  | none => .error .keyError
  | some t => .ok (pushTyped cells (t, cell))

/-- `cell.append(cell[-1])` for a B7 zone, /repo/src/meshio/flac3d/_flac3d.py:281-282 and 292-293. -/
def dupLast (b7 : Bool) (cell : List Nat) : Res (List Nat) :=
  if b7 then
    match cell.getLast? with
    | none => .error .indexError
    | some l => .ok (cell ++ [l])
  else .ok cell

/-- `int(l)` -/
def intWord (w : List Char) : Res Int :=
  match parseInt w with
  | none => .error .valueError
  | some i => .ok i

/-- `float(l)` -/
def floatWord (io : FlacIO F) (w : List Char) : Res F :=
  match io.parse w with
  | none => .error .valueError
  | some x => .ok x

/-- `_read_point_ascii`, /repo/src/meshio/flac3d/_flac3d.py:262-266, with the words after the first. -/
def pointAscii (io : FlacIO F) (words : List (List Char)) : Res (Int × List F) :=
  match words with
  | [] => .error .indexError
  | w :: ws =>
    match intWord w with
    | .error e => .error e
    | .ok pid =>
      match mapRes (floatWord io) ws with
      | .error e => .error e
      | .ok x => .ok (pid, x)

/-- `point_ids[int(l)]` -/
def nodeWord (pids : List Int) (w : List Char) : Res Nat :=
  match intWord w with
  | .error e => .error e
  | .ok i => idGet pids i

/-- `_read_cell_ascii`, /repo/src/meshio/flac3d/_flac3d.py:275-283, with the words after the first. -/
def cellAscii (pids : List Int) (words : List (List Char)) : Res (Int × List Nat) :=
  match words with
  | ty :: w :: ws =>
    match intWord w with
    | .error e => .error e
    | .ok cid =>
      match mapRes (nodeWord pids) ws with
      | .error e => .error e
      | .ok cell =>
        match dupLast (decide (ty = ['B', '7'])) cell with
        | .error e => .error e
        | .ok cell => .ok (cid, cell)
  | _ => .error .indexError

/-- ` *` -/
def dropSpaces (s : List Char) : List Char := s.dropWhile (· == ' ')

/-- `['"]` -/
def isQuote (c : Char) : Bool := c == '"' || c == '\''

/-- ` *[A-Z]` matches here. -/
def upperNext (s : List Char) : Bool :=
  match dropSpaces s with
  | [] => false
  | c :: _ => c.isUpper

/-- `(.*?)['"] *[A-Z]`: the shortest name before a quotation mark that a capital letter follows, and what comes after the mark. -/
def closeQuote : List Char → Option (List Char × List Char)
  | [] => none
  | c :: r =>
    if isQuote c && upperNext r then some ([], r)
    else if c = '\n' then none
    else
      match closeQuote r with
      | none => none
      | some p => some (c :: p.1, p.2)

/-- The line without its newline: `$` matches before it. -/
def chomp (s : List Char) : List Char := if s.getLast? = some '\n' then s.dropLast else s

/-- Without the spaces at the end. -/
def rstripSpaces (s : List Char) : List Char := (s.reverse.dropWhile (· == ' ')).reverse

/-- The regular expression of `_read_cell_group_ascii` and the assertions about its groups,
/repo/src/meshio/flac3d/_flac3d.py:319-328: the name and the slot.  The expression needs no backtracking except for the name.  The
first assertion always holds, as the function is called for lines whose first word is ZGROUP or FGROUP. -/
def groupLine (line : List Char) : Res (List Char × List Char) :=
  if upperNext line && !(line.head? == some ' ') then
    match dropSpaces (line.dropWhile Char.isUpper) with
    | [] => .error .readError
    | q :: r =>
      if isQuote q then
        match closeQuote r with
        | none => .error .readError
        | some p =>
          if (dropSpaces p.2).takeWhile Char.isUpper = ['S', 'L', 'O', 'T'] then
            .ok (p.1, rstripSpaces (chomp (dropSpaces ((dropSpaces p.2).dropWhile Char.isUpper))))
          else .error .assertionError
      else .error .readError
  else .error .readError

/-- Does this line belong to the table of a group?  /repo/src/meshio/flac3d/_flac3d.py:334-335 -/
def tableLine (line : List Char) : Bool :=
  match splitWs line with
  | [] => false
  | w :: _ => !(w == ['*'] || w == ['Z', 'G', 'R', 'O', 'U', 'P'] || w == ['F', 'G', 'R', 'O', 'U', 'P'])

/-- The table of a group, /repo/src/meshio/flac3d/_flac3d.py:330-343: the numbers, and the lines from the one that ends it. -/
def readTable : List (List Char) → Res (List Int × List (List Char))
  | [] => .ok ([], [])
  | line :: ls =>
    if tableLine line then
      match mapRes intWord (splitWs line) with
      | .error e => .error e
      | .ok d =>
        match readTable ls with
        | .error e => .error e
        | .ok r => .ok (d ++ r.1, r.2)
    else .ok ([], line :: ls)

/-- `f"{flag}:{name}:{slot}"` -/
def setKey (flag name slot : List Char) : String := String.ofList (flag ++ ':' :: name ++ ':' :: slot)

/-- The ASCII loop of `read_buffer`, /repo/src/meshio/flac3d/_flac3d.py:161-199, with fuel for the number of lines. -/
def readLoop (io : FlacIO F) : Nat → St F → List (List Char) → Res (St F)
  | 0, st, _ => .ok st
  | _ + 1, st, [] => .ok st
  | fuel + 1, st, line :: ls =>
    match splitWs line with
    | [] => readLoop io fuel st ls
    | w :: ws =>
      if w = ['G'] then
        match pointAscii io ws with
        | .error e => .error e
        | .ok p => readLoop io fuel { st with points := st.points ++ [p.2], pids := st.pids ++ [p.1] } ls
      else if w = ['Z'] then
        match cellAscii st.pids ws with
        | .error e => .error e
        | .ok c =>
          match updateCells flacNumNodesZone st.zcells c.2 with
          | .error e => .error e
          | .ok z => readLoop io fuel { st with zcells := z, zids := st.zids ++ [c.1] } ls
      else if w = ['F'] then
        match cellAscii st.pids ws with
        | .error e => .error e
        | .ok c =>
          match updateCells flacNumNodesFace st.fcells c.2 with
          | .error e => .error e
          | .ok z => readLoop io fuel { st with fcells := z, fids := st.fids ++ [c.1] } ls
      else if w = ['Z', 'G', 'R', 'O', 'U', 'P'] then
        match groupLine line with
        | .error e => .error e
        | .ok g =>
          match readTable ls with
          | .error e => .error e
          | .ok d => readLoop io fuel { st with zsets := Dict.set st.zsets (setKey ['z', 'o', 'n', 'e'] g.1 g.2) d.1 } d.2
      else if w = ['F', 'G', 'R', 'O', 'U', 'P'] then
        match groupLine line with
        | .error e => .error e
        | .ok g =>
          match readTable ls with
          | .error e => .error e
          | .ok d => readLoop io fuel { st with fsets := Dict.set st.fsets (setKey ['f', 'a', 'c', 'e'] g.1 g.2) d.1 } d.2
      else readLoop io fuel st ls

/-- `a[i] = v` with one integer index. -/
def npAssign (a : List Int) (i v : Int) : Res (List Int) :=
  if 0 ≤ i ∧ i < a.length then .ok (a.set i.toNat v)
  else if i < 0 ∧ -(a.length : Int) ≤ i then .ok (a.set (i + a.length).toNat v)
  else .error .indexError

/-- `np.max(ids)` -/
def maxId (ids : List Int) : Int := ids.tail.foldl max (ids.headD 0)

/-- `inv = np.full(np.max(ids) + 1, -1)` and `inv[ids] = np.arange(len(ids))`,
/repo/src/meshio/flac3d/_flac3d.py:224-225 and 228-229. -/
def inverse (ids : List Int) : Res (List Int) :=
  if maxId ids + 1 < 0 then .error .valueError
  else foldRes (fun a (p : Int × Nat) => npAssign a p.1 p.2) (List.replicate (maxId ids + 1).toNat (-1)) ids.zipIdx

/-- `inv[value] + offset`; an empty value is an array of floats, which is no index. -/
def lookUp (inv : List Int) (offset : Nat) (value : List Int) : Res (List Int) :=
  if value = [] then .error .indexError
  else mapRes (fun i => match npIndex inv i with | .error e => .error e | .ok x => .ok (x + (offset : Int))) value

/-- The sets of one kind, /repo/src/meshio/flac3d/_flac3d.py:223-232. -/
def resolve (ids : List Int) (offset : Nat) (sets : Dict (List Int)) : Res (Dict (List Int)) :=
  if ids = [] then .ok sets
  else
    match inverse ids with
    | .error e => .error e
    | .ok inv => mapRes (fun (kv : String × List Int) =>
        match lookUp inv offset kv.2 with | .error e => .error e | .ok v => .ok (kv.1, v)) sets

/-- `np.digitize(x, bins)` for one number: how many of the increasing `bins` it has reached. -/
def digitize (bins : List Nat) (x : Int) : Nat := (bins.filter fun (b : Nat) => decide ((b : Int) ≤ x)).length

/-- `[data[d == k] for k in range(n)]`, /repo/src/meshio/flac3d/_flac3d.py:240-241. -/
def splitSet (bins : List Nat) (n : Nat) (data : List Int) : List (List Int) :=
  (List.range n).map fun (k : Nat) => data.filter fun x => digitize bins x == k

/-- `np.array(indices)[:, flac3d_to_meshio_order[key]]`, /repo/src/meshio/flac3d/_flac3d.py:210-213. -/
def orderBlock (b : String × List (List Nat)) : Res (String × List (List Nat)) :=
  match find flacToMeshioOrder b.1 with
  | none => .error .keyError
  | some p =>
    match mapRes (fun r => pick r p) b.2 with
    | .error e => .error e
    | .ok rows => .ok (b.1, rows)

/-- The end of `read_buffer`, /repo/src/meshio/flac3d/_flac3d.py:201-259.  Points of different lengths are not modelled (an error
or an array of objects, depending on the version of numpy). -/
def finish (st : St F) : Res (Out F) :=
  match mapRes orderBlock (st.fcells ++ st.zcells) with
  | .error e => .error e
  | .ok cells =>
    match resolve st.fids 0 st.fsets with
    | .error e => .error e
    | .ok fs =>
      match resolve st.zids st.fids.length st.zsets with
      | .error e => .error e
      | .ok zs =>
        if st.points.all fun r => r.length == (st.points.headD []).length then
          .ok ⟨st.points, cells,
            if cells = [] then [] else
              npSplit (st.fids ++ st.zids.map (fun i => i + (st.fids.length : Int))) (cumsum (cells.map (·.2.length)).dropLast),
            (Dict.update fs zs).map fun kv => (kv.1, splitSet (cumsum (cells.map (·.2.length))) cells.length kv.2)⟩
        else .error .unmodelled

/-- `struct.unpack("<…", f.read(n))` of one unsigned integer of `k` bytes. -/
def takeU (k : Nat) (s : List Char) : Res (Nat × List Char) :=
  if s.length < k then .error .structError else .ok (natDec false (toBytes (s.take k)), s.drop k)

/-- `struct.unpack("<{n}I", f.read(4 * n))` -/
def takeUs (k : Nat) : Nat → List Char → Res (List Nat × List Char)
  | 0, s => .ok ([], s)
  | n + 1, s =>
    match takeU k s with
    | .error e => .error e
    | .ok u =>
      match takeUs k n u.2 with
      | .error e => .error e
      | .ok us => .ok (u.1 :: us.1, us.2)

/-- `_read_point_binary`, /repo/src/meshio/flac3d/_flac3d.py:269-272. -/
def pointBinary (io : FlacIO F) (s : List Char) : Res ((Int × List F) × List Char) :=
  match takeU 4 s with
  | .error e => .error e
  | .ok u =>
    if u.2.length < 24 then .error .structError
    else
      .ok (((u.1 : Int), [io.bin.dec false 8 (toBytes (u.2.take 8)), io.bin.dec false 8 (toBytes ((u.2.drop 8).take 8)),
        io.bin.dec false 8 (toBytes ((u.2.drop 16).take 8))]), u.2.drop 24)

/-- The points, /repo/src/meshio/flac3d/_flac3d.py:133-136. -/
def pointsBinary (io : FlacIO F) : Nat → St F → List Char → Res (St F × List Char)
  | 0, st, s => .ok (st, s)
  | n + 1, st, s =>
    match pointBinary io s with
    | .error e => .error e
    | .ok p => pointsBinary io n { st with points := st.points ++ [p.1.2], pids := st.pids ++ [p.1.1] } p.2

/-- `_read_cell_binary`, /repo/src/meshio/flac3d/_flac3d.py:286-294. -/
def cellBinary (pids : List Int) (s : List Char) : Res ((Int × List Nat) × List Char) :=
  match takeU 4 s with
  | .error e => .error e
  | .ok cid =>
    match takeU 4 cid.2 with
    | .error e => .error e
    | .ok nv =>
      match takeUs 4 nv.1 nv.2 with
      | .error e => .error e
      | .ok vs =>
        match mapRes (fun (v : Nat) => idGet pids (v : Int)) vs.1 with
        | .error e => .error e
        | .ok cell =>
          match dupLast (decide (nv.1 = 7)) cell with
          | .error e => .error e
          | .ok cell => .ok (((cid.1 : Int), cell), vs.2)

/-- The cells of one kind, /repo/src/meshio/flac3d/_flac3d.py:149-152. -/
def cellsBinary (pids : List Int) (table : List (Nat × String)) :
    Nat → List (String × List (List Nat)) × List Int → List Char → Res ((List (String × List (List Nat)) × List Int) × List Char)
  | 0, acc, s => .ok (acc, s)
  | n + 1, acc, s =>
    match cellBinary pids s with
    | .error e => .error e
    | .ok c =>
      match updateCells table acc.1 c.1.2 with
      | .error e => .error e
      | .ok z => cellsBinary pids table n (z, acc.2 ++ [c.1.1]) c.2

/-- A name with its length, /repo/src/meshio/flac3d/_flac3d.py:299-301; bytes that are no UTF-8 raise UnicodeDecodeError, a
ValueError. -/
def nameBinary (io : FlacIO F) (s : List Char) : Res (List Char × List Char) :=
  match takeU 2 s with
  | .error e => .error e
  | .ok n =>
    if n.2.length < n.1 then .error .structError
    else
      match io.decode (toBytes (n.2.take n.1)) with
      | none => .error .valueError
      | some nm => .ok (nm, n.2.drop n.1)

/-- `_read_cell_group_binary`, /repo/src/meshio/flac3d/_flac3d.py:297-311: name, slot and numbers. -/
def groupBinary (io : FlacIO F) (s : List Char) : Res ((List Char × List Char × List Int) × List Char) :=
  match nameBinary io s with
  | .error e => .error e
  | .ok nm =>
    match nameBinary io nm.2 with
    | .error e => .error e
    | .ok sl =>
      match takeU 4 sl.2 with
      | .error e => .error e
      | .ok n =>
        match takeUs 4 n.1 n.2 with
        | .error e => .error e
        | .ok d => .ok ((nm.1, sl.1, d.1.map fun (v : Nat) => (v : Int)), d.2)

/-- The groups of one kind, /repo/src/meshio/flac3d/_flac3d.py:157-159. -/
def groupsBinary (io : FlacIO F) (flag : List Char) : Nat → Dict (List Int) → List Char → Res (Dict (List Int) × List Char)
  | 0, sets, s => .ok (sets, s)
  | n + 1, sets, s =>
    match groupBinary io s with
    | .error e => .error e
    | .ok g => groupsBinary io flag n (Dict.set sets (setKey flag g.1.1 g.1.2.1) g.1.2.2) g.2

/-- Cells and groups of one kind, /repo/src/meshio/flac3d/_flac3d.py:148-159. -/
def kindBinary (io : FlacIO F) (pids : List Int) (table : List (Nat × String)) (flag : List Char) (s : List Char) :
    Res ((List (String × List (List Nat)) × List Int × Dict (List Int)) × List Char) :=
  match takeU 4 s with
  | .error e => .error e
  | .ok nc =>
    match cellsBinary pids table nc.1 ([], []) nc.2 with
    | .error e => .error e
    | .ok c =>
      match takeU 4 c.2 with
      | .error e => .error e
      | .ok ng =>
        match groupsBinary io flag ng.1 [] ng.2 with
        | .error e => .error e
        | .ok g => .ok ((c.1.1, c.1.2, g.1), g.2)

/-- The binary branch of `read_buffer`, /repo/src/meshio/flac3d/_flac3d.py:127-159. -/
def readBinary (io : FlacIO F) (s : List Char) : Res (St F) :=
  match takeUs 4 2 s with
  | .error e => .error e
  | .ok h =>
    match takeU 4 h.2 with
    | .error e => .error e
    | .ok n =>
      match pointsBinary io n.1 St.init n.2 with
      | .error e => .error e
      | .ok p =>
        match kindBinary io p.1.pids flacNumNodesZone ['z', 'o', 'n', 'e'] p.2 with
        | .error e => .error e
        | .ok z =>
          match kindBinary io p.1.pids flacNumNodesFace ['f', 'a', 'c', 'e'] z.2 with
          | .error e => .error e
          | .ok f => .ok { p.1 with
              zcells := z.1.1, zids := z.1.2.1, zsets := z.1.2.2, fcells := f.1.1, fids := f.1.2.1, fsets := f.1.2.2 }

/-- `read`, /repo/src/meshio/flac3d/_flac3d.py:100-112: a file is binary when one of its first eight bytes is zero.  In text files
the characters are taken as they are (decoding and universal newlines are not modelled). -/
def read (io : FlacIO F) (s : List Char) : Res (Out F) :=
  match (if (s.take 8).contains '\x00' then readBinary io s else readLoop io (fileLines s).length St.init (fileLines s)) with
  | .error e => .error e
  | .ok st => finish st

/-! ## Writing -/

/-- `cell_block.type in meshio_only["zone"]` -/
def isZone (t : String) : Bool := (find flacZone t).isSome

/-- `cell_block.type in meshio_only["face"]` -/
def isFace (t : String) : Bool := (find flacFace t).isSome

/-- The blocks of a set, `None` for the blocks of other kinds, /repo/src/meshio/flac3d/_flac3d.py:369-378. -/
def setBlocks (kind : String → Bool) (cells : List (String × List (List Int))) (cset : List (List Int)) :
    List (Option (List Int)) :=
  List.zipWith (fun (c : String × List (List Int)) (b : List Int) => if kind c.1 then some b else none) cells cset

/-- `for n, block in zip(cell_block_sizes, data): block += gid; gid += n`, /repo/src/meshio/flac3d/_flac3d.py:395-399 and
403-407. -/
def shift : Nat → List Nat → List (Option (List Int)) → Res (List (Option (List Int)))
  | gid, n :: ns, b :: bs =>
    match b with
    | none => .error .typeError
    | some b =>
      match shift (gid + n) ns bs with
      | .error e => .error e
      | .ok r => .ok (some (b.map fun i => i + (gid : Int)) :: r)
  | _, _, bs => .ok bs

/-- `np.concatenate(values)` and `+= 1`, /repo/src/meshio/flac3d/_flac3d.py:409-418: `None` is no array. -/
def joinSet : List (Option (List Int)) → Res (List Int)
  | [] => .ok []
  | none :: _ => .error .valueError
  | some b :: bs =>
    match joinSet bs with
    | .error e => .error e
    | .ok r => .ok (b.map (fun i => i + 1) ++ r)

/-- The sets of one kind as `split_f_z` changes them in place, /repo/src/meshio/flac3d/_flac3d.py:367-407: those with no block of
this kind are left out. -/
def shifted (kind : String → Bool) (cells : List (String × List (List Int))) (sets : Dict (List (List Int))) :
    Res (Dict (List (Option (List Int)))) :=
  mapRes (fun (kv : String × List (Option (List Int))) =>
      match shift 0 ((cells.filter fun c => kind c.1).map (·.2.length)) kv.2 with
      | .error e => .error e
      | .ok v => .ok (kv.1, v))
    ((sets.map fun kv => (kv.1, setBlocks kind cells kv.2)).filter fun kv => kv.2.any Option.isSome)

/-- `np.concatenate` for every set. -/
def joined (sets : Dict (List (Option (List Int)))) : Res (Dict (List Int)) :=
  mapRes (fun (kv : String × List (Option (List Int))) =>
    match joinSet kv.2 with | .error e => .error e | .ok v => .ok (kv.1, v)) sets

/-- `split_f_z`, /repo/src/meshio/flac3d/_flac3d.py:355-420: the sets of zones and of faces, and the sets of the mesh as they are
left behind.  The blocks of a set are integer arrays, each an object of its own.  The sets left behind are given for meshes of
zones only, the only ones for which writing succeeds. -/
def splitFZ (cells : List (String × List (List Int))) (sets : Dict (List (List Int))) :
    Res ((Dict (List Int) × Dict (List Int)) × Dict (List (List Int))) :=
  match shifted isZone cells sets with
  | .error e => .error e
  | .ok z =>
    match shifted isFace cells sets with
    | .error e => .error e
    | .ok f =>
      match joined z with
      | .error e => .error e
      | .ok zs =>
        match joined f with
        | .error e => .error e
        | .ok fs => .ok ((zs, fs), sets.map fun kv => (kv.1, match Dict.get? z kv.1 with
            | none => kv.2
            | some v => v.filterMap id ++ kv.2.drop v.length))

/-- `slicing_summing(p1 - p0, p2 - p0, p3 - p0) > 0`, /repo/src/meshio/flac3d/_flac3d.py:540-544 and 553. -/
def detPos (io : FlacIO F) (ps : List (List F)) : Res Bool :=
  match ps with
  | [x0 :: y0 :: z0 :: _, x1 :: y1 :: z1 :: _, x2 :: y2 :: z2 :: _, x3 :: y3 :: z3 :: _] =>
    let a0 := io.sub x1 x0
    let a1 := io.sub y1 y0
    let a2 := io.sub z1 z0
    let b0 := io.sub x2 x0
    let b1 := io.sub y2 y0
    let b2 := io.sub z2 z0
    let c0 := io.sub x3 x0
    let c1 := io.sub y3 y0
    let c2 := io.sub z3 z0
    .ok (io.pos (io.add (io.add (io.mul a0 (io.sub (io.mul b1 c2) (io.mul b2 c1)))
      (io.mul a1 (io.sub (io.mul b2 c0) (io.mul b0 c2)))) (io.mul a2 (io.sub (io.mul b0 c1) (io.mul b1 c0)))))
  | _ => .error .indexError

/-- One row of `_translate_zcells`, /repo/src/meshio/flac3d/_flac3d.py:550-560; `p` and `q` are the two orders of the type. -/
def zoneRow (io : FlacIO F) (points : List (List F)) (p q : List Nat) (row : List Int) : Res (List Int) :=
  match pick row (p.take 4) with
  | .error e => .error e
  | .ok four =>
    match mapRes (npIndex points) four with
    | .error e => .error e
    | .ok ps =>
      match detPos io ps with
      | .error e => .error e
      | .ok b => pick row (if b then p else q)

/-- `_translate_zcells`, /repo/src/meshio/flac3d/_flac3d.py:531-563, one block; a block without rows has an array of the right
width. -/
def zoneBlock (io : FlacIO F) (points : List (List F)) (b : String × List (List Int)) : Res (String × List (List Int)) :=
  match find flacZone b.1 with
  | none => .error .assertionError
  | some key =>
    match find meshioToFlacOrder key, find meshioToFlacOrder2 key with
    | some p, some q =>
      match mapRes (zoneRow io points p q) b.2 with
      | .error e => .error e
      | .ok rows => .ok (key, rows)
    | _, _ => .error .keyError

/-- `{:8}` -/
def pad8 (s : List Char) : List Char := List.replicate (8 - s.length) ' ' ++ s

/-- `_write_points`, text, /repo/src/meshio/flac3d/_flac3d.py:462-465: the lines.  A point of two coordinates is an IndexError of
`format`, further coordinates are ignored. -/
def pointLine (io : FlacIO F) (p : List F × Nat) : Res (List Char) :=
  match p.1 with
  | x :: y :: z :: _ =>
    .ok ('G' :: '\t' :: (pad8 (fmtNat (p.2 + 1)) ++ '\t' :: (io.fmt x ++ '\t' :: (io.fmt y ++ '\t' :: io.fmt z))))
  | _ => .error .indexError

/-- `_write_cells`, text, /repo/src/meshio/flac3d/_flac3d.py:488-496: the lines of a block; `gid` is the number of cells before. -/
def cellLines (letter : Char) : Nat → List (String × List (List Int)) → Res (List (List Char))
  | _, [] => .ok []
  | gid, b :: bs =>
    match find meshioToFlac b.1 with
    | none => .error .keyError
    | some ty =>
      match cellLines letter (gid + b.2.length) bs with
      | .error e => .error e
      | .ok r =>
        .ok ((b.2.zipIdx gid).map (fun (q : List Int × Nat) =>
          joinWith ' ' ([letter] :: ty.toList :: fmtNat (q.2 + 1) :: q.1.map fun i => fmtInt (i + 1))) ++ r)

/-- `np.split(data, np.full(n // 20, 20).cumsum())`, /repo/src/meshio/flac3d/_flac3d.py:604-605. -/
def tableRows (data : List Int) : List (List Int) := npSplit data (cumsum (List.replicate (data.length / 20) 20))

/-- `_write_table`, /repo/src/meshio/flac3d/_flac3d.py:602-608. -/
def tableLines (data : List Int) : List (List Char) :=
  ((tableRows data).filter fun r => r.length ≠ 0).map fun r => ' ' :: joinWith ' ' (r.map fmtInt)

/-- `_write_groups`, text, /repo/src/meshio/flac3d/_flac3d.py:523-528; `flg` is ZGROUP or FGROUP. -/
def groupLines (flg : List Char) (sets : Dict (List Int)) : List (List Char) :=
  sets.flatMap fun kv => (flg ++ ' ' :: '"' :: (kv.1.toList ++ '"' :: " SLOT 1".toList)) :: tableLines kv.2

/-- `write` as text, /repo/src/meshio/flac3d/_flac3d.py:423-452: the lines, and the sets of the mesh as they are left behind.
`version` and `ctime` are what these calls return.  `_translate_fcells` is called with no blocks, as a face block stops
`_translate_zcells`. -/
def writeAscii (io : FlacIO F) (version ctime : List Char) (points : List (List F)) (cells : List (String × List (List Int)))
    (sets : Dict (List (List Int))) : Res (List Char × Dict (List (List Int))) :=
  match splitFZ cells sets with
  | .error e => .error e
  | .ok s =>
    match mapRes (pointLine io) points.zipIdx with
    | .error e => .error e
    | .ok pl =>
      match mapRes (zoneBlock io points) cells with
      | .error e => .error e
      | .ok zones =>
        match cellLines 'Z' 0 zones with
        | .error e => .error e
        | .ok zl =>
          .ok (linesText (["* FLAC3D grid produced by meshio v".toList ++ version, '*' :: ' ' :: ctime, "* GRIDPOINTS".toList] ++ pl ++
            ["* ZONES".toList] ++ zl ++ ["* ZONE GROUPS".toList] ++ groupLines "ZGROUP".toList s.1.1 ++ ["* FACES".toList] ++
            ["* FACE GROUPS".toList] ++ groupLines "FGROUP".toList s.1.2), s.2)

/-- `struct.pack` of one unsigned integer of `k` bytes. -/
def packU (k : Nat) (z : Int) : Res (List Char) :=
  if 0 ≤ z ∧ z.toNat < 256 ^ k then .ok (toChars (natEnc false k z.toNat)) else .error .structError

/-- `struct.pack` of several. -/
def packUs (k : Nat) (l : List Int) : Res (List Char) :=
  match mapRes (packU k) l with
  | .error e => .error e
  | .ok r => .ok r.flatten

/-- `struct.pack("<I3d", i + 1, *point)`, /repo/src/meshio/flac3d/_flac3d.py:459-460. -/
def packPoint (io : FlacIO F) (p : List F × Nat) : Res (List Char) :=
  if p.1.length = 3 then
    match packU 4 ((p.2 + 1 : Nat) : Int) with
    | .error e => .error e
    | .ok u => .ok (u ++ p.1.flatMap fun x => toChars (io.bin.enc false 8 x))
  else .error .structError

/-- `_write_cells`, binary, /repo/src/meshio/flac3d/_flac3d.py:470-486, after the count. -/
def packCells : Nat → List (String × List (List Int)) → Res (List Char)
  | _, [] => .ok []
  | gid, b :: bs =>
    match packUs 4 ((b.2.zipIdx gid).flatMap fun (q : List Int × Nat) =>
        ((q.2 + 1 : Nat) : Int) :: (q.1.length : Int) :: q.1.map fun i => i + 1) with
    | .error e => .error e
    | .ok u =>
      match packCells (gid + b.2.length) bs with
      | .error e => .error e
      | .ok r => .ok (u ++ r)

/-- One group, /repo/src/meshio/flac3d/_flac3d.py:510-521: the bytes of the name are cut to the number of its characters. -/
def packGroup (io : FlacIO F) (kv : String × List Int) : Res (List Char) :=
  match packU 2 (kv.1.toList.length : Int) with
  | .error e => .error e
  | .ok n =>
    match packU 4 (kv.2.length : Int) with
    | .error e => .error e
    | .ok z =>
      match packUs 4 kv.2 with
      | .error e => .error e
      | .ok d =>
        .ok (n ++ toChars ((io.encode kv.1.toList).take kv.1.toList.length) ++ toChars (natEnc false 2 7) ++ "Default".toList ++ z ++ d)

/-- `_write_groups`, binary, /repo/src/meshio/flac3d/_flac3d.py:508-521. -/
def packGroups (io : FlacIO F) (sets : Dict (List Int)) : Res (List Char) :=
  match packU 4 (sets.length : Int) with
  | .error e => .error e
  | .ok n =>
    match mapRes (packGroup io) sets with
    | .error e => .error e
    | .ok g => .ok (n ++ g.flatten)

/-- `write` with `binary=True`, /repo/src/meshio/flac3d/_flac3d.py:423-452. -/
def writeBinary (io : FlacIO F) (points : List (List F)) (cells : List (String × List (List Int)))
    (sets : Dict (List (List Int))) : Res (List Char × Dict (List (List Int))) :=
  match splitFZ cells sets with
  | .error e => .error e
  | .ok s =>
    match packU 4 (points.length : Int) with
    | .error e => .error e
    | .ok np =>
      match mapRes (packPoint io) points.zipIdx with
      | .error e => .error e
      | .ok pl =>
        match mapRes (zoneBlock io points) cells with
        | .error e => .error e
        | .ok zones =>
          match packU 4 (((zones.map (·.2.length)).sum : Nat) : Int) with
          | .error e => .error e
          | .ok nz =>
            match packCells 0 zones with
            | .error e => .error e
            | .ok zl =>
              match packGroups io s.1.1 with
              | .error e => .error e
              | .ok zg =>
                match packGroups io s.1.2 with
                | .error e => .error e
                | .ok fg =>
                  .ok (toChars (natEnc false 4 1375135718) ++ toChars (natEnc false 4 3) ++ np ++ pl.flatten ++ nz ++ zl ++ zg ++
                    toChars (natEnc false 4 0) ++ fg, s.2)

end Flac3d
end Meshio
