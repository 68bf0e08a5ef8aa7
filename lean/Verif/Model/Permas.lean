/-
PERMAS files: /repo/src/meshio/permas/_permas.py, on the lines of the file.
-/
import Verif.Base.Infix
import Verif.Base.IdMap
import Verif.Base.Lines
import Verif.Model.Mdpa

namespace Meshio
namespace Permas
open Types Tables

variable {F : Type}

/-- The mesh that is read; the sets of the file are not returned. -/
structure Out (F : Type) where
  points : List (List F)
  cells : List (String × List (List Int))
deriving DecidableEq

/-- `line.startswith(c)` -/
def startsC (c : Char) (l : List Char) : Bool := l.head? == some c

/-- `s.strip("$")` -/
def stripDollar (s : List Char) : List Char :=
  ((s.dropWhile (· == '$')).reverse.dropWhile (· == '$')).reverse

/-- `line.strip("$").upper()`, /repo/src/meshio/permas/_permas.py:86; upper case of ASCII letters only. -/
def keyword (line : List Char) : List Char := (stripDollar line).map Char.toUpper

/-- `[float(xx) for xx in x]` -/
def floats (parse : List Char → Option F) : List (List Char) → Res (List F)
  | [] => .ok []
  | t :: ts =>
    match parse t with
    | none => .error .valueError
    | some x =>
      match floats parse ts with
      | .error e => .error e
      | .ok xs => .ok (x :: xs)

/-- The loop of `_read_nodes`, /repo/src/meshio/permas/_permas.py:119-132: the numbered points, and the lines from the one that ends
the section.  At the end of the file `int("")` is a ValueError.  Numbers are parsed as plain decimal integers. -/
def readNodes (parse : List Char → Option F) : List (List Char) → Res (List (Int × List F) × List (List Char))
  | [] => .error .valueError
  | line :: ls =>
    if startsC '!' line ∨ startsC '$' line then .ok ([], line :: ls)
    else
      match parseInt ((splitOnC ' ' (strip line)).headD []) with
      | none => .error .valueError
      | some gid =>
        match floats parse (splitOnC ' ' (strip line)).tail with
        | .error e => .error e
        | .ok x =>
          match readNodes parse ls with
          | .error e => .error e
          | .ok r => .ok ((gid, x) :: r.1, r.2)

/-- `np.array(points, dtype=float)` wants rows of equal length, /repo/src/meshio/permas/_permas.py:133. -/
def rectangular (rows : List (List F)) : Bool := rows.all fun r => r.length == (rows.headD []).length

/-- The type named in the line of an `ELEMENT` section, /repo/src/meshio/permas/_permas.py:137-144. -/
def typeOfLine (key : List Char) : Res String :=
  match (splitOnC ' ' key).tail with
  | [] => .error .indexError
  | e :: _ =>
    if hasSub "TYPE".toList e then
      match (splitOnC '=' e).tail with
      | [] => .error .indexError
      | v :: _ =>
        match find permasToMeshio (String.ofList (strip v)) with
        | none => .error .readError
        | some t => .ok t
    else .error .readError

/-- `point_gids[int(k)]` -/
def node (gids : List Int) (k : List Char) : Res Int :=
  match parseInt k with
  | none => .error .valueError
  | some i =>
    match idGet gids i with
    | .error e => .error e
    | .ok p => .ok (p : Int)

/-- The loop of `_read_cells`, /repo/src/meshio/permas/_permas.py:146-157: the cells, and the lines from the one that ends the
section.  A line that ends with `!` is continued on the next one. -/
def readRows (gids : List Int) : List Int → List (List Char) → Res (List (List Int) × List (List Char))
  | _, [] => .ok ([], [])
  | idx, line :: ls =>
    if startsC '$' line then .ok ([], line :: ls)
    else
      match mapRes (node gids) ((splitOnC ' ' (strip line)).tail.filter (· ≠ [])) with
      | .error e => .error e
      | .ok new =>
        if (strip line).getLast? = some '!' then readRows gids (idx ++ new) ls
        else
          match readRows gids [] ls with
          | .error e => .error e
          | .ok r => .ok ((idx ++ new) :: r.1, r.2)

/-- `get_param_map` with one required key, /repo/src/meshio/permas/_permas.py:176-198: only whether it raises matters. -/
def paramMap (key : List Char) (word : List Char) : Res Unit :=
  if (splitOnC ',' word).all (fun w => decide ((splitOnC '=' w).length ≤ 2)) then
    if key ∈ (splitOnC ',' word).map (fun w => strip ((splitOnC '=' w).headD [])) then .ok () else .error .runtimeError
  else .error .readError

/-- `int(k)` for each word of a line, /repo/src/meshio/permas/_permas.py:208. -/
def setRow : List (List Char) → Res Unit
  | [] => .ok ()
  | k :: ks =>
    match parseInt k with
    | none => .error .valueError
    | some _ => setRow ks

/-- `read_set`, /repo/src/meshio/permas/_permas.py:201-220: the result is not returned.  The names of the options are in upper
case, so that `"generate"` is never among them.  Overflow of int32 is left out. -/
def readSet : List (List Char) → Res (List (List Char))
  | [] => .error .valueError
  | line :: ls =>
    if startsC '$' line then .ok (line :: ls)
    else
      match setRow (splitOnC ' ' (strip line)) with
      | .error e => .error e
      | .ok _ => readSet ls

/-- State of `read_buffer`: `points` and `point_gids` are unbound before the first `COOR` section. -/
structure St (F : Type) where
  nodes : Option (List (Int × List F))
  cells : List (String × List (List Int))

/-- The loop of `read_buffer`, /repo/src/meshio/permas/_permas.py:76-108, with fuel for the number of lines. -/
def readLoop (parse : List Char → Option F) : Nat → St F → List (List Char) → Res (St F)
  | 0, st, _ => .ok st
  | _ + 1, st, [] => .ok st
  | fuel + 1, st, line :: ls =>
    if startsC '!' line then readLoop parse fuel st ls
    else if "COOR".toList.isPrefixOf (keyword line) then
      match readNodes parse ls with
      | .error e => .error e
      | .ok r =>
        if rectangular (r.1.map (·.2)) then readLoop parse fuel ⟨some r.1, st.cells⟩ r.2 else .error .valueError
    else if "ELEMENT".toList.isPrefixOf (keyword line) then
      match st.nodes with
      | none => .error .unboundLocal
      | some nodes =>
        match typeOfLine (keyword line) with
        | .error e => .error e
        | .ok t =>
          match readRows (nodes.map (·.1)) [] ls with
          | .error e => .error e
          | .ok r =>
            match Mdpa.checkBlock (t, r.1) with
            | .error e => .error e
            | .ok _ => readLoop parse fuel ⟨st.nodes, st.cells ++ [(t, r.1)]⟩ r.2
    else if "NSET".toList.isPrefixOf (keyword line) then
      match paramMap "NSET".toList (keyword line) with
      | .error e => .error e
      | .ok _ =>
        match readSet ls with
        | .error e => .error e
        | .ok ls => readLoop parse fuel st ls
    else if "ESET".toList.isPrefixOf (keyword line) then
      match paramMap "ESET".toList (keyword line) with
      | .error e => .error e
      | .ok _ =>
        match readSet ls with
        | .error e => .error e
        | .ok ls => readLoop parse fuel st ls
    else readLoop parse fuel st ls

/-- `read_buffer`, /repo/src/meshio/permas/_permas.py:67-112. -/
def read (parse : List Char → Option F) (s : List Char) : Res (Out F) :=
  match readLoop parse ((fileLines s).length + 1) ⟨none, []⟩ (fileLines s) with
  | .error e => .error e
  | .ok st =>
    match st.nodes with
    | none => .error .unboundLocal
    | some nodes => .ok ⟨nodes.map (·.2), st.cells⟩

/-! ## Writing -/

/-- The mesh that is written; points of dimension `dim`. -/
structure In (F : Type) where
  dim : Nat
  points : List (List F)
  cells : List (String × List (List Int))

/-- The line of a node, /repo/src/meshio/permas/_permas.py:240; coordinates beyond the third are not written. -/
def nodeLine (fmt : F → List Char) (pk : List F × Nat) : Res (List Char) :=
  match pk.1 with
  | x :: y :: z :: _ => .ok (fmtNat (pk.2 + 1) ++ ' ' :: (fmt x ++ ' ' :: (fmt y ++ ' ' :: fmt z)))
  | _ => .error .indexError

/-- The line of a cell, e.g. /repo/src/meshio/permas/_permas.py:279-282; `eid` is the number before it. -/
def cellLine (t : String) (eid : Nat) (ri : List Int × Nat) : Res (List Char) :=
  match permasWrite t ri.1 with
  | .error e => .error e
  | .ok r => .ok (fmtNat (eid + ri.2 + 1) ++ ' ' :: joinWith ' ' (r.map fun z => fmtInt (z + 1)))

/-- The loop over the blocks, /repo/src/meshio/permas/_permas.py:246-282. -/
def blockLines : Nat → List (String × List (List Int)) → Res (List (List Char))
  | _, [] => .ok []
  | eid, b :: bs =>
    match find meshioToPermas b.1 with
    | none => .error .keyError
    | some name =>
      match mapRes (cellLine b.1 eid) b.2.zipIdx with
      | .error e => .error e
      | .ok rows =>
        match blockLines (eid + b.2.length) bs with
        | .error e => .error e
        | .ok rest => .ok (['!'] :: ("$ELEMENT TYPE=".toList ++ name.toList) :: rows ++ rest)

/-- `write`, /repo/src/meshio/permas/_permas.py:223-285; `str` of a float is `fmt`. -/
def write (io : FloatIO F) (zero : F) (version : List Char) (m : In F) : Res (List Char) :=
  match mapRes (nodeLine io.fmt) (if m.dim = 2 then m.points.map (· ++ [zero]) else m.points).zipIdx with
  | .error e => .error e
  | .ok nodes =>
    match blockLines 0 m.cells with
    | .error e => .error e
    | .ok blocks =>
      .ok (linesText (["!PERMAS DataFile Version 18.0".toList, "!written by meshio v".toList ++ version,
        "$ENTER COMPONENT NAME=DFLT_COMP".toList, "$STRUCTURE".toList, "$COOR".toList] ++ nodes ++ blocks ++
        ["$END STRUCTURE".toList, "$EXIT COMPONENT".toList, "$FIN".toList]))

end Permas
end Meshio
