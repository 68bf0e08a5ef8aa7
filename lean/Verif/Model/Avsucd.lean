/-
AVS-UCD files: /repo/src/meshio/avsucd/_avsucd.py, on the lines of the file.
-/
import Verif.Base.IdMap
import Verif.Base.Lines
import Verif.Model.Netgen
import Verif.Model.Types

namespace Meshio
namespace Avsucd
open Types Tables

variable {F : Type}

/-- Floats in AVS-UCD files: coordinates are written in full (`str(x)`), data with fourteen decimals (`"%.14e"`), of which
`round14` is the value.  No number contains the comment sign. -/
structure AvsFloat (F : Type) extends FloatIO F where
  noHash : ∀ x, '#' ∉ fmt x
  zero : F
  fmt14 : F → List Char
  tok14 : ∀ x, IsTok (fmt14 x)
  round14 : F → F
  parse14 : ∀ x, parse (fmt14 x) = some (round14 x)

/-- A data array as it is read: name, number of components, a row for each entity; rows that the file does not give keep
whatever `np.empty` contained. -/
structure DataOut (F : Type) where
  name : List Char
  width : Nat
  rows : List (Option (List F))
deriving DecidableEq

/-- The mesh that is read.  A data array of cells has a list of rows for each block. -/
structure Out (F : Type) where
  points : List (List F)
  cells : List (String × List (List Int))
  material : List (List Int)
  pointData : List (DataOut F)
  cellData : List (DataOut F)
deriving DecidableEq

/-- The header, `np.genfromtxt(f, max_rows=1, dtype=int)` unpacked into five,
/repo/src/meshio/avsucd/_avsucd.py:53-55.  Entries that are not integers are left out. -/
def readHeader (ls : List (List Char)) : Res ((Int × Int × Int × Int) × List (List Char)) :=
  match (Netgen.takeRows 1 ls).1 with
  | [toks] =>
    match mapRes (Netgen.num parseInt) toks with
    | .error _ => .error .unmodelled
    | .ok [a, b, c, d, _] => .ok ((a, b, c, d), (Netgen.takeRows 1 ls).2)
    | .ok _ => .error .valueError
  | _ => .error .valueError

/-- One row of nodes: number and coordinates.  Entries that are not numbers are left out. -/
def readNode (parse : List Char → Option F) (toks : List (List Char)) : Res (Int × List F) :=
  match toks with
  | [] => .error .indexError
  | t :: ts =>
    match parseInt t, mapRes (Netgen.num parse) ts with
    | some i, .ok p => .ok (i, p)
    | _, _ => .error .unmodelled

/-- `_read_nodes`, /repo/src/meshio/avsucd/_avsucd.py:80-86.  `genfromtxt` wants rows of equal length, and returns a vector
for a single row, which has no column `data[:, 0]`. -/
def readNodes (parse : List Char → Option F) (n : Int) (ls : List (List Char)) :
    Res ((List Int × List (List F)) × List (List Char)) :=
  if 0 < n then
    match mapRes (readNode parse) (Netgen.takeRows n.toNat ls).1 with
    | .error e => .error e
    | .ok rows =>
      if rows.length < 2 then .error .indexError
      else if rows.all (fun r => decide (r.2.length = ((rows.headD (0, [])).2).length)) then
        .ok ((rows.map (·.1), rows.map (·.2)), (Netgen.takeRows n.toNat ls).2)
      else .error .valueError
  else .ok (([], []), ls)

/-- One cell, /repo/src/meshio/avsucd/_avsucd.py:95-99: number, type, nodes, material. -/
def readCell (pids : List Int) (line : List Char) : Res (Int × String × List Int × Int) :=
  match Netgen.intAt (splitWs line) 0 with
  | .error e => .error e
  | .ok id =>
    match Netgen.intAt (splitWs line) 1 with
    | .error e => .error e
    | .ok mat =>
      match (splitWs line)[2]? with
      | none => .error .indexError
      | some t =>
        match find avsucdToMeshio (String.ofList t) with
        | none => .error .keyError
        | some ty =>
          match mapRes (Netgen.num parseInt) ((splitWs line).drop 3) with
          | .error e => .error e
          | .ok nodes =>
            match mapRes (idGet pids) nodes with
            | .error e => .error e
            | .ok corner => .ok (id, ty, corner.map Int.ofNat, mat)

/-- The loop over the cells, /repo/src/meshio/avsucd/_avsucd.py:94-109. -/
def readCellLines (pids : List Int) : Nat → List (List Char) → List Int → List (String × List (List Int × Int)) →
    Res ((List Int × List (String × List (List Int × Int))) × List (List Char))
  | 0, ls, ids, cells => .ok ((ids, cells), ls)
  | n + 1, ls, ids, cells =>
    match readCell pids (ls.headD []) with
    | .error e => .error e
    | .ok (id, t, corner, mat) => readCellLines pids n (ls.drop 1) (ids ++ [id]) (pushTyped cells (t, corner, mat))

/-- `np.array(cdata)[:, avsucd_to_meshio_order[cell_type]]`, /repo/src/meshio/avsucd/_avsucd.py:112-115. -/
def finishBlock (b : String × List (List Int × Int)) : Res (String × List (List Int)) :=
  if b.2.all (fun r => decide (r.1.length = ((b.2.headD ([], 0)).1).length)) then
    match mapRes (fun r => reorderStrict avsucdToMeshioOrder b.1 r.1) b.2 with
    | .error e => .error e
    | .ok rows => .ok (b.1, rows)
  else .error .valueError

/-- `s.replace(" ", "_")` -/
def underscores (s : List Char) : List Char := s.map fun c => if c = ' ' then '_' else c

/-- The name on a line of labels, /repo/src/meshio/avsucd/_avsucd.py:127-128. -/
def label (line : List Char) : List Char := underscores (strip ((splitOnC ',' (strip line)).headD []))

/-- The values of one entity, /repo/src/meshio/avsucd/_avsucd.py:136-144; a single value is broadcast. -/
def rowVals (parse : List Char → Option F) : List Nat → List (List Char) → Res (List (List F))
  | [], _ => .ok []
  | d :: ds, toks =>
    if d = 1 then
      match toks with
      | [] => .error .indexError
      | t :: toks =>
        match Netgen.num parse t with
        | .error e => .error e
        | .ok x =>
          match rowVals parse ds toks with
          | .error e => .error e
          | .ok r => .ok ([x] :: r)
    else
      match mapRes (Netgen.num parse) (toks.take d) with
      | .error e => .error e
      | .ok xs =>
        match xs, decide (xs.length = d) with
        | xs, true =>
          match rowVals parse ds (toks.drop d) with
          | .error e => .error e
          | .ok r => .ok (xs :: r)
        | [x], false =>
          match rowVals parse ds (toks.drop d) with
          | .error e => .error e
          | .ok r => .ok (List.replicate d x :: r)
        | _, false => .error .valueError

/-- The loop over the entities, /repo/src/meshio/avsucd/_avsucd.py:133-145. -/
def readRows (parse : List Char → Option F) (ids : List Int) (sizes : List Nat) : Nat → List (List Char) →
    List (List (Option (List F))) → Res (List (List (Option (List F))) × List (List Char))
  | 0, ls, cols => .ok (cols, ls)
  | n + 1, ls, cols =>
    match Netgen.intAt (splitWs (ls.headD [])) 0 with
    | .error e => .error e
    | .ok k =>
      match idGet ids k with
      | .error e => .error e
      | .ok eid =>
        match rowVals parse sizes ((splitWs (ls.headD [])).drop 1) with
        | .error e => .error e
        | .ok vals => readRows parse ids sizes n (ls.drop 1) (List.zipWith (fun c v => c.set eid (some v)) cols vals)

/-- `_read_data`, /repo/src/meshio/avsucd/_avsucd.py:119-145.  Two arrays of the same name, which overwrite each other, are
left out. -/
def readData (parse : List Char → Option F) (n : Nat) (ids : List Int) (ls : List (List Char)) :
    Res (List (DataOut F) × List (List Char)) :=
  match mapRes (Netgen.num parseInt) ((splitWs (ls.headD [])).drop 1) with
  | .error e => .error e
  | .ok sizes =>
    if sizes.any (fun d => decide (d < 0)) then .error .valueError
    else
      let ds := sizes.map Int.toNat
      let names := ((ls.drop 1).take ds.length ++ List.replicate (ds.length - (ls.drop 1).length) []).map label
      if names.Nodup then
        match readRows parse ids ds n ((ls.drop 1).drop ds.length) (ds.map fun _ => List.replicate n none) with
        | .error e => .error e
        | .ok (cols, ls) =>
          .ok (List.zipWith (fun nd c => ⟨nd.1, nd.2, c⟩) (names.zip ds) cols, ls)
      else .error .unmodelled

/-- `read_buffer`, /repo/src/meshio/avsucd/_avsucd.py:51-77, with the checks of the `Mesh` constructor.  `len(c[1])` on a
`CellBlock` is a TypeError.  Cell data named `avsucd:material`, which would replace the materials, is left out. -/
def read (parse : List Char → Option F) (ls : List (List Char)) : Res (Out F) :=
  match readHeader ls with
  | .error e => .error e
  | .ok ((nn, nc, nnd, ncd), ls) =>
    match readNodes parse nn ls with
    | .error e => .error e
    | .ok ((pids, points), ls) =>
      match readCellLines pids nc.toNat ls [] [] with
      | .error e => .error e
      | .ok ((cids, blocks), ls) =>
        match mapRes finishBlock blocks with
        | .error e => .error e
        | .ok cells =>
          match (if nnd ≠ 0 then readData parse nn.toNat pids ls else .ok ([], ls)) with
          | .error e => .error e
          | .ok (pdata, ls) =>
            match (if ncd ≠ 0 then readData parse nc.toNat cids ls else .ok ([], ls)) with
            | .error e => .error e
            | .ok (cdata, _) =>
              if ncd ≠ 0 ∧ 1 < cells.length then .error .typeError
              else if cdata.any (fun d => decide (d.name = "avsucd:material".toList)) then .error .unmodelled
              else if pdata ≠ [] ∧ points.length ≠ nn.toNat then .error .valueError
              else if cdata ≠ [] ∧ cells.length ≠ 1 then .error .valueError
              else .ok ⟨points, cells, blocks.map (fun b => b.2.map (·.2)), pdata, cdata⟩

/-! ## Writing -/

/-- A data array: name, number of components, a row per entity (those of cells already concatenated over the blocks). -/
structure DataIn (F : Type) where
  name : List Char
  width : Nat
  rows : List (List F)

/-- The mesh that is written; `material` is the first integer cell data array, if any, concatenated. -/
structure In (F : Type) where
  points : List (List F)
  cells : List (String × List (List Int))
  material : Option (List Int)
  pointData : List (DataIn F)
  cellData : List (DataIn F)

/-- Two-dimensional points get a zero, /repo/src/meshio/avsucd/_avsucd.py:149-154. -/
def pad (z : F) (points : List (List F)) : List (List F) :=
  if (points.headD []).length = 2 then points.map (· ++ [z]) else points

/-- `_write_nodes`, /repo/src/meshio/avsucd/_avsucd.py:209-211. -/
def nodeLine (fmt : F → List Char) (ip : List F × Nat) : Res (List Char) :=
  match ip.1 with
  | [x, y, z] => .ok (joinWith ' ' [fmtNat (ip.2 + 1), fmt x, fmt y, fmt z])
  | _ => .error .valueError

/-- The rows of a block in the order of the format, with their type, /repo/src/meshio/avsucd/_avsucd.py:216-220. -/
def orderBlock (b : String × List (List Int)) : Res (List (String × List Int)) :=
  match find meshioToAvsucdOrder b.1 with
  | none => .error .keyError
  | some _ =>
    match mapRes (reorderStrict meshioToAvsucdOrder b.1) b.2 with
    | .error e => .error e
    | .ok rows => .ok (rows.map fun r => (b.1, r))

/-- One line of `_write_cells`, /repo/src/meshio/avsucd/_avsucd.py:220-224. -/
def cellLine (material : List Int) (ic : (String × List Int) × Nat) : Res (List Char) :=
  match material[ic.2]?, find meshioToAvsucd ic.1.1 with
  | some m, some t =>
    .ok (joinWith ' ' (fmtNat (ic.2 + 1) :: fmtInt m :: t.toList :: ic.1.2.map fun z => fmtInt (z + 1)))
  | none, _ => .error .indexError
  | _, none => .error .keyError

/-- `_write_data`, /repo/src/meshio/avsucd/_avsucd.py:228-237, with the `np.column_stack` of its caller. -/
def dataLines (fmt14 : F → List Char) (n : Nat) (l : List (DataIn F)) : List (List Char) :=
  joinWith ' ' (fmtNat l.length :: l.map fun d => fmtNat d.width) ::
    (l.map (fun d => d.name ++ ", real".toList) ++
      (List.range n).map fun i => joinWith ' ' (fmtNat (i + 1) :: (l.flatMap fun d => d.rows.getD i []).map fmt14))

/-- `write`, /repo/src/meshio/avsucd/_avsucd.py:148-206.  With no block at all, the first look at cell data fails. -/
def write (io : AvsFloat F) (version : List Char) (m : In F) : Res (List (List Char)) :=
  let points := pad io.zero m.points
  if m.cells = [] ∧ (m.material ≠ none ∨ m.cellData.length ≠ 0) then .error .indexError
  else
    let nc := (m.cells.map fun b => b.2.length).sum
    let np := (m.pointData.map (·.width)).sum
    let ncd := (m.cellData.map (·.width)).sum
    match mapRes (nodeLine io.fmt) points.zipIdx with
    | .error e => .error e
    | .ok nodes =>
      match mapRes orderBlock m.cells with
      | .error e => .error e
      | .ok rows =>
        match mapRes (cellLine (m.material.getD (List.replicate nc 0))) rows.flatten.zipIdx with
        | .error e => .error e
        | .ok cells =>
          .ok (["# Written by meshio v".toList ++ version,
              joinWith ' ' [fmtNat points.length, fmtNat nc, fmtNat np, fmtNat ncd, ['0']]] ++ nodes ++ cells ++
            (if np ≠ 0 then dataLines io.fmt14 points.length m.pointData else []) ++
            (if ncd ≠ 0 then dataLines io.fmt14 nc m.cellData else []))

end Avsucd
end Meshio
