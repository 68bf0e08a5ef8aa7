/-
Model of /repo/src/meshio/tetgen/_tetgen.py: the text of the two files.
-/
import Verif.Base.Lines
import Verif.Base.Dict
import Verif.Model.Off
namespace Meshio.Tetgen
open Meshio

variable {F : Type}

/-- `tuple(int(item) for item in line.split(" ") if item != "")`,
/repo/src/meshio/tetgen/_tetgen.py:38-40 and 71-73. -/
def ints (line : List Char) : Res (List Int) :=
  mapRes (fun t => match parseInt t with
    | some i => .ok i
    | none => .error .valueError) ((splitOnC ' ' line).filter (fun t => decide (t ≠ [])))

/-- What the reader returns: all arrays are columns. -/
structure TetMesh (F : Type) where
  points : List (List F)
  tets : List (List Int)
  pointData : Dict (List F)
  cellData : Dict (List Int)
deriving DecidableEq

/-- `a[:, k]` -/
def column {α : Type} (rows : List (List α)) (k : Nat) : List α := rows.filterMap (·[k]?)

/-- `"tetgen:ref" + ("" if k == 0 else str(k + 1))` -/
def refName (k : Nat) : String := "tetgen:ref" ++ (if k = 0 then "" else String.ofList (fmtNat (k + 1)))

/-- `f"tetgen:attr{k + 1}"` -/
def attrName (k : Nat) : String := "tetgen:attr" ++ String.ofList (fmtNat (k + 1))

/-- The nodes, /repo/src/meshio/tetgen/_tetgen.py:32-62: index base, points, data.  Negative
counts are left out. -/
def readNodes [DecidableEq F] (nio : NumIO F) (s : List Char) :
    Res (Int × List (List F) × Dict (List F)) :=
  match Off.skipComments (s.length + 1) s with
  | .error e => .error e
  | .ok (line, rest) =>
    match ints line with
    | .error e => .error e
    | .ok [n, dim, na, nb] =>
      if dim ≠ 3 then .error .readError
      else if n < 0 ∨ na < 0 ∨ nb < 0 then .error .unmodelled
      else
        match reshape n.toNat (4 + na.toNat + nb.toNat)
          (scan nio.parse ((4 + na.toNat + nb.toNat) * n.toNat) rest).1 with
        | .error e => .error e
        | .ok rows =>
          match (column rows 0).head? with
          | none => .error .indexError
          | some x =>
            let base := nio.toInt x
            if column rows 0 = (List.range rows.length).map (fun i : Nat => nio.ofInt (base + i)) then
              .ok (base, rows.map (fun r => (r.drop 1).take 3),
                (List.range na.toNat).map (fun k => (attrName k, column rows (4 + k))) ++
                (List.range nb.toNat).map (fun k => (refName k, column rows (4 + na.toNat + k))))
            else .error .readError
    | .ok _ => .error .valueError

/-- The elements, /repo/src/meshio/tetgen/_tetgen.py:64-88. -/
def readEle (base : Int) (s : List Char) : Res (List (List Int) × Dict (List Int)) :=
  match Off.skipComments (s.length + 1) s with
  | .error e => .error e
  | .ok (line, rest) =>
    match ints line with
    | .error e => .error e
    | .ok [n, np, na] =>
      if np ≠ 4 then .error .readError
      else if n < 0 ∨ na < 0 then .error .unmodelled
      else
        match reshape n.toNat (5 + na.toNat) (scan parseInt ((5 + na.toNat) * n.toNat) rest).1 with
        | .error e => .error e
        | .ok rows =>
          .ok (rows.map (fun r => ((r.drop 1).take 4).map (· - base)),
            (List.range na.toNat).map (fun k => (refName k, column rows (5 + k))))
    | .ok _ => .error .valueError

/-- `read`, /repo/src/meshio/tetgen/_tetgen.py:17-92, given the two files. -/
def read [DecidableEq F] (nio : NumIO F) (node ele : List Char) : Res (TetMesh F) :=
  match readNodes nio node with
  | .error e => .error e
  | .ok (base, points, pd) =>
    match readEle base ele with
    | .error e => .error e
    | .ok (tets, cd) => .ok ⟨points, tets, pd, cd⟩

/-- `":ref" in k` -/
def isRef (k : String) : Bool := (List.range (k.toList.length + 1)).any (fun i => ":ref".toList.isPrefixOf (k.toList.drop i))

/-- The choice of attributes and marker, /repo/src/meshio/tetgen/_tetgen.py:112-120. -/
def nodeKeys (keys : List String) : List String × List String :=
  match keys.filter isRef, keys with
  | r :: _, _ => (keys.erase r, [r])
  | [], k :: ks => (ks, [k])
  | [], [] => ([], [])

/-- The order of the cell attributes, /repo/src/meshio/tetgen/_tetgen.py:153-158. -/
def cellKeys (keys : List String) : List String :=
  match keys.filter isRef with
  | r :: _ => r :: keys.erase r
  | [] => keys

/-- The columns of some data. -/
def columns {α : Type} (d : Dict (List α)) (keys : List String) : List (List α) :=
  keys.filterMap (fun k => Dict.get? d k)

/-- `", ".join(keys)` -/
def commaJoin : List String → List Char
  | [] => []
  | [k] => k.toList
  | k :: ks => k.toList ++ (", ".toList ++ commaJoin ks)

/-- The node file, /repo/src/meshio/tetgen/_tetgen.py:108-143.  `fmt2` is the plain format
`"{}"` used for the marker.  Row `k` of each column is taken (they have one entry per point,
C01). -/
def nodeText (nio : NumIO F) (fmt2 : F → List Char) (version : List Char) (points : List (List F))
    (pd : Dict (List F)) : List Char :=
  let ks := nodeKeys (pd.map (·.1))
  linesText ((("# This file was created by meshio v".toList ++ version) ::
    (if ks.1.length + ks.2.length > 0 then ["# attribute and marker names: ".toList ++ commaJoin (ks.1 ++ ks.2)] else [])) ++
    ([joinWith ' ' [fmtNat points.length, fmtNat 3, fmtNat ks.1.length, fmtNat ks.2.length]] ++
    points.zipIdx.map (fun pk => joinWith ' ' (fmtNat pk.2 :: ((pk.1.take 3).map nio.fmt ++
      (((columns pd ks.1).filterMap (·[pk.2]?)).map nio.fmt ++
        ((columns pd ks.2).filterMap (·[pk.2]?)).map fmt2))))))

/-- The element file, /repo/src/meshio/tetgen/_tetgen.py:149-172: every tetra block with its
own header.  `cd` has for each key the columns of the blocks; column number `id` is taken,
where `id` counts the tetra blocks only. -/
def eleText (version : List Char) (cells : List (String × List (List Int)))
    (cd : Dict (List (List Int))) : List Char :=
  let ks := cellKeys (cd.map (·.1))
  linesText ((("# This file was created by meshio v".toList ++ version) ::
    (if ks.length > 0 then ["# attribute names: ".toList ++ commaJoin ks] else [])) ++
    ((cells.filter (fun c => c.1 == "tetra")).zipIdx.flatMap (fun cid =>
      joinWith ' ' [fmtNat cid.1.2.length, fmtNat 4, fmtNat ks.length] ::
        cid.1.2.zipIdx.map (fun tk => joinWith ' ' (fmtNat tk.2 :: ((tk.1.take 4).map fmtInt ++
          ((columns cd ks).filterMap (fun col => (col[cid.2]?).bind (·[tk.2]?))).map fmtInt))))))

/-- `write`, /repo/src/meshio/tetgen/_tetgen.py:95-172; `dim` is `mesh.points.shape[1]`. -/
def write (nio : NumIO F) (fmt2 : F → List Char) (version : List Char) (dim : Nat)
    (points : List (List F)) (cells : List (String × List (List Int)))
    (pd : Dict (List F)) (cd : Dict (List (List Int))) : Res (List Char × List Char) :=
  if dim ≠ 3 then .error .writeError
  else .ok (nodeText nio fmt2 version points pd, eleText version cells cd)

end Meshio.Tetgen
