/-
XDMF time series: /repo/src/meshio/xdmf/time_series.py.

Every call of the writer changes the tree in memory step by step, and an exception leaves behind what was
added before it; leaving the `with` block writes the tree in any case.  So each call is a function from
state to state with an optional exception.
-/
import Verif.Model.Xdmf

namespace Meshio
namespace Xdmf
open Types Tables

/-- `TimeSeriesWriter`: counter and files, `has_mesh`, the grids of the collection and the uniform grids
of the domain, /repo/src/meshio/xdmf/time_series.py:233-260. -/
structure Series (F T : Type) where
  w : W F
  hasMesh : Bool
  coll : List (List (Elem F T))
  meshes : List (List (Elem F T))
deriving DecidableEq, Repr

/-- What a part of a call leaves behind. -/
structure Out (F T : Type) where
  w : W F
  elems : List (Elem F T)
  err : Option Err
deriving DecidableEq, Repr

/-- Do one thing, and then the next unless there was an exception. -/
def Out.andThen {F T : Type} (o : Out F T) (f : W F → Out F T) : Out F T :=
  match o.err with
  | some _ => o
  | none => { f o.w with elems := o.elems ++ (f o.w).elems }

/-- An element with one data item, /repo/src/meshio/xdmf/time_series.py:349-360 and alike: the element
exists before the type is looked up, the data item before its text is made. -/
def addItem {F T : Type} (c : Cfg) (w : W F) (mk : List (Item F) → Elem F T) (dims : List Nat) (a : Nd F) : Out F T :=
  match find numpyToXdmf a.dtype with
  | none => { w := w, elems := [mk []], err := some .keyError }
  | some num =>
    match putText true c w a with
    | .error e => { w := w, elems := [mk [{ num := num, dims := dims, fmt := c.fmt, text := .missing }]], err := some e }
    | .ok (w', t) => { w := w', elems := [mk [{ num := num, dims := dims, fmt := c.fmt, text := t }]], err := none }

/-- `points`, /repo/src/meshio/xdmf/time_series.py:341-360.  Points of more than two axes are left
out. -/
def tsPoints {F T : Type} (c : Cfg) (p : Nd F) (w : W F) : Out F T :=
  match p.inner with
  | [] => { w := w, elems := [], err := some .indexError }
  | [d] =>
    if d = 2 then addItem c w (.geometry "XY") p.shape p
    else if d ≠ 3 then { w := w, elems := [], err := some .writeError }
    else addItem c w (.geometry "XYZ") p.shape p
  | _ => { w := w, elems := [], err := some .unmodelled }

/-- One block of the stream, `np.insert(c.data, 0, index, axis=1).flatten()`,
/repo/src/meshio/xdmf/time_series.py:419-421. -/
def tsRows (b : String × List (List Int)) : Res (List Int) :=
  match find meshioToXdmfIdx b.1 with
  | none => .error .keyError
  | some idx => .ok (b.2.flatMap fun r => (idx : Int) :: r)

/-- `cells`, /repo/src/meshio/xdmf/time_series.py:362-434.  `c.data[:] = np.insert(c.data, 0, 2, axis=1)`
for a block of lines assigns an array with one more column: ValueError. -/
def tsCells {F T : Type} (c : Cfg) (cells : List (String × List (List Int))) (w : W F) : Out F T :=
  match cells with
  | [] => { w := w, elems := [], err := none }
  | [b] =>
    match xdmfName b.1 with
    | none => { w := w, elems := [], err := some .keyError }
    | some ty => addItem c w (.topology ty) [b.2.length, widthOf b.2] (connNd (widthOf b.2) b.2)
  | _ =>
    if cells.any (fun b => b.1 = "line") then { w := w, elems := [.topology "Mixed" []], err := some .valueError }
    else
      match mapRes tsRows cells with
      | .error e => { w := w, elems := [.topology "Mixed" []], err := some e }
      | .ok l =>
        addItem c w (.topology "Mixed")
          [(cells.map fun b => b.2.length * widthOf b.2).sum + (cells.map fun b => b.2.length).sum] (flatNd l.flatten)

/-- One array of `point_data` or `cell_data`, /repo/src/meshio/xdmf/time_series.py:436-479. -/
def tsAttr {F T : Type} (c : Cfg) (center : String) (e : List Char × Nd F) (w : W F) : Out F T :=
  match attributeType e.2.inner with
  | .error err => { w := w, elems := [], err := some err }
  | .ok ty => addItem c w (.attr e.1 ty center) e.2.shape e.2

/-- All arrays. -/
def tsAttrs {F T : Type} (c : Cfg) (center : String) : List (List Char × Nd F) → W F → Out F T
  | [], w => { w := w, elems := [], err := none }
  | e :: l, w => (tsAttr c center e w).andThen (tsAttrs c center l)

/-- `cell_data`, /repo/src/meshio/xdmf/time_series.py:457-479. -/
def tsCellData {F T : Type} (c : Cfg) (cd : List (List Char × List (Nd F))) (w : W F) : Out F T :=
  match rawCellData cd with
  | .error e => { w := w, elems := [], err := some e }
  | .ok raw => tsAttrs c "Cell" raw w

/-- The calls of the user. -/
inductive Op (F T : Type) where
  | mesh (points : Nd F) (cells : List (String × List (List Int)))
  | data (t : T) (pd : List (List Char × Nd F)) (cd : List (List Char × List (Nd F)))
deriving DecidableEq, Repr

/-- `write_points_cells` (/repo/src/meshio/xdmf/time_series.py:274-292) and `write_data`
(/repo/src/meshio/xdmf/time_series.py:294-318; the old dictionary form of cell data is left out). -/
def step {F T : Type} (c : Cfg) (s : Series F T) (op : Op F T) : Series F T × Option Err :=
  match op with
  | .mesh p cells =>
    let o : Out F T := (tsPoints c p s.w).andThen (tsCells c cells)
    ({ s with w := o.w, meshes := s.meshes ++ [o.elems], hasMesh := s.hasMesh || o.err.isNone }, o.err)
  | .data t pd cd =>
    if !s.hasMesh then ({ s with coll := s.coll ++ [[]] }, some .writeError)
    else
      let o : Out F T := (tsAttrs c "Node" pd s.w).andThen (tsCellData c cd)
      ({ s with w := o.w, coll := s.coll ++ [.incl :: .time t :: o.elems] }, o.err)

/-- A history of calls with the exception of each. -/
def run {F T : Type} (c : Cfg) (s : Series F T) : List (Op F T) → Series F T × List (Option Err)
  | [] => (s, [])
  | op :: ops => ((run c (step c s op).1 ops).1, (step c s op).2 :: (run c (step c s op).1 ops).2)

/-- A new writer, with `__enter__`. -/
def begin {F T : Type} (c : Cfg) (fs : Files F) : Series F T :=
  { w := start c fs, hasMesh := false, coll := [], meshes := [] }

/-! ## Reading -/

/-- One element of the mesh grid, /repo/src/meshio/xdmf/time_series.py:97-130. -/
def tsReadElem {F T : Type} (dir : List Char) (fs : Files F) (s : Option (Nd F) × List (String × List (List Int)))
    (e : Elem F T) : Res (Option (Nd F) × List (String × List (List Int))) :=
  match e with
  | .topology ty [it] =>
    match readItem true dir fs it with
    | .error err => .error err
    | .ok a =>
      match readTopology s.2 ty a with
      | .error err => .error err
      | .ok cells => .ok (s.1, cells)
  | .topology _ _ => .error .readError
  | .geometry ty [it] =>
    if ty = "XY" ∨ ty = "XYZ" then
      match readItem true dir fs it with
      | .error err => .error err
      | .ok a => .ok (some a, s.2)
    else .error .readError
  | .geometry _ _ => .error .readError
  | _ => .ok s

/-- `read_points_cells`, /repo/src/meshio/xdmf/time_series.py:48-82,92-133: the last uniform grid of the
domain.  (The writer puts no uniform grid into the collection.) -/
def readPointsCells {F T : Type} (dir : List Char) (s : Series F T) : Res (Option (Nd F) × List (String × List (List Int))) :=
  match s.meshes.getLast? with
  | none => .error .readError
  | some g => foldRes (tsReadElem dir s.w.files) (none, []) g

/-- Local variables of `read_data`. -/
structure DSt (F T : Type) where
  t : Option T
  pd : List (List Char × Nd F)
  cdRaw : List (List Char × Nd F)
deriving DecidableEq, Repr

/-- One element of a step, /repo/src/meshio/xdmf/time_series.py:141-160. -/
def tsReadData {F T : Type} (dir : List Char) (fs : Files F) (s : DSt F T) (e : Elem F T) : Res (DSt F T) :=
  match e with
  | .time t => .ok { s with t := some t }
  | .attr name _ center [it] =>
    match readItem true dir fs it with
    | .error err => .error err
    | .ok a =>
      if center = "Node" then .ok { s with pd := upd s.pd name a }
      else if center = "Cell" then .ok { s with cdRaw := upd s.cdRaw name a }
      else .error .readError
  | .attr _ _ _ _ => .error .readError
  | _ => .ok s

/-- `read_data(k)`, /repo/src/meshio/xdmf/time_series.py:135-168; `cells` is what `read_points_cells`
left (`None` before). -/
def readData {F T : Type} (dir : List Char) (s : Series F T) (cells : Option (List (String × List (List Int)))) (k : Nat) :
    Res (T × List (List Char × Nd F) × List (List Char × List (Nd F))) :=
  match s.coll[k]? with
  | none => .error .indexError
  | some g =>
    match foldRes (tsReadData dir s.w.files) { t := none, pd := [], cdRaw := [] } g with
    | .error e => .error e
    | .ok d =>
      match cells with
      | none => .error .readError
      | some cs =>
        match d.t with
        | none => .error .readError
        | some t => .ok (t, d.pd, d.cdRaw.map fun e => (e.1, splitNd (cs.map fun b => b.2.length) e.2))

end Xdmf
end Meshio
