/-
Model of /repo/src/meshio/svg/_svg.py.  Numbers are of any type with the operations below; numbers that are no floats (integer arrays cannot be
scaled in place) and NaN are left out.
-/
import Verif.Base.Xml
import Verif.Base.Num

namespace Meshio.Svg

/-- The operations on numbers that the writer uses: `flat z` is `abs(z) <= 1.0e-14` (`np.allclose` with these tolerances), `fmt f x` is
`format(x, f)`, `str x` is `str(x)`. -/
structure Arith (F : Type) where
  zero : F
  hundred : F
  add : F → F → F
  sub : F → F → F
  mul : F → F → F
  div : F → F → F
  le : F → F → Bool
  isZero : F → Bool
  flat : F → Bool
  fmt : List Char → F → List Char
  str : F → List Char

/-- The options, /repo/src/meshio/svg/_svg.py:11-23. -/
structure Opts (F : Type) where
  floatFmt : List Char
  strokeWidth : Option (List Char)
  imageWidth : Option F
  fill : List Char
  stroke : List Char

/-- A mesh: the number of coordinates, the points, and the blocks of cells. -/
structure In (F : Type) where
  dim : Nat
  points : List (List F)
  blocks : List (String × List (List Int))

variable {F : Type}

/-- `np.min` of a column, or 0.0 if there are no points. -/
def minOf (a : Arith F) : List F → F
  | [] => a.zero
  | x :: l => l.foldl (fun m y => if a.le m y then m else y) x

/-- `np.max` of a column, or 0.0 if there are no points. -/
def maxOf (a : Arith F) : List F → F
  | [] => a.zero
  | x :: l => l.foldl (fun m y => if a.le y m then m else y) x

/-- The corner and the size of the picture, and the places of the points. -/
structure View (F : Type) where
  minX : F
  minY : F
  width : F
  height : F
  pts : List (F × F)

/-- /repo/src/meshio/svg/_svg.py:31-49 -/
def place (a : Arith F) (imageWidth : Option F) (pts : List (F × F)) : View F :=
  let minX := minOf a (pts.map (·.1))
  let maxX := maxOf a (pts.map (·.1))
  let minY := minOf a (pts.map (·.2))
  let maxY := maxOf a (pts.map (·.2))
  let pts := pts.map fun p => (p.1, a.sub (a.add maxY minY) p.2)
  let width := a.sub maxX minX
  let height := a.sub maxY minY
  match imageWidth with
  | some w =>
    if a.isZero width then ⟨minX, minY, width, height, pts⟩
    else
      let s := a.div w width
      ⟨a.mul minX s, a.mul minY s, a.mul width s, a.mul height s, pts.map fun p => (a.mul p.1 s, a.mul p.2 s)⟩
  | none => ⟨minX, minY, width, height, pts⟩

/-- `escape_cdata` of `xml.etree.ElementTree`. -/
def escText (s : List Char) : List Char :=
  s.flatMap fun c => if c = '&' then "&amp;".toList else if c = '<' then "&lt;".toList else if c = '>' then "&gt;".toList else [c]

/-- `escape_attrib` of `xml.etree.ElementTree`. -/
def escAttr (s : List Char) : List Char :=
  s.flatMap fun c =>
    if c = '&' then "&amp;".toList else if c = '<' then "&lt;".toList else if c = '>' then "&gt;".toList else if c = '"' then "&quot;".toList
    else if c = '\r' then "&#13;".toList else if c = '\n' then "&#10;".toList else if c = '\t' then "&#09;".toList else [c]

/-- The format string of a cell type: the number of corners and whether the path is closed, /repo/src/meshio/svg/_svg.py:78-98. -/
def shape (type : String) : Option (Nat × Bool) :=
  if type = "line" then some (2, false) else if type = "triangle" then some (3, true) else if type = "quad" then some (4, true) else none

/-- `pts[cell]`: negative numbers count from the end, others are an IndexError. -/
def corner (pts : List (F × F)) (i : Int) : Res (F × F) :=
  match pts[(if i < 0 then i + pts.length else i).toNat]? with
  | some p => if i < -pts.length then .error .indexError else .ok p
  | none => .error .indexError

/-- The coordinates of one corner after a letter. -/
def move (a : Arith F) (f : List Char) (letter : Char) (p : F × F) : List Char := letter :: ' ' :: (a.fmt f p.1 ++ ' ' :: a.fmt f p.2)

/-- `fmt.format(*pts[cell].flatten())`: further corners are ignored, missing ones are an IndexError. -/
def pathData (a : Arith F) (f : List Char) (k : Nat) (closed : Bool) (ps : List (F × F)) : Res (List Char) :=
  if ps.length < k then .error .indexError
  else
    match ps.take k with
    | [] => .ok []
    | p :: rest => .ok (move a f 'M' p ++ (rest.flatMap (move a f 'L') ++ if closed then ['Z'] else []))

/-- The path of one cell. -/
def cellPath (a : Arith F) (f : List Char) (pts : List (F × F)) (k : Nat) (closed : Bool) (cell : List Int) : Res (List Char) :=
  match mapRes (corner pts) cell with
  | .error e => .error e
  | .ok ps => pathData a f k closed ps

/-- The paths of one block, /repo/src/meshio/svg/_svg.py:74-104. -/
def blockPaths (a : Arith F) (f : List Char) (pts : List (F × F)) (b : String × List (List Int)) : Res (List (List Char)) :=
  match shape b.1 with
  | none => .ok []
  | some (k, closed) => mapRes (cellPath a f pts k closed) b.2

/-- The text of the style element, /repo/src/meshio/svg/_svg.py:63-71. -/
def style (a : Arith F) (o : Opts F) (width : F) : List Char :=
  "path {fill: ".toList ++ o.fill ++ "; stroke: ".toList ++ o.stroke ++ "; stroke-width: ".toList ++
    (match o.strokeWidth with
      | some s => s
      | none => a.str (a.div width a.hundred)) ++ "; stroke-linejoin:bevel}".toList

/-- The file, as `tree.write` prints it (without an XML declaration, non-ASCII characters left out). -/
def text (viewBox styleText : List Char) (paths : List (List Char)) : List Char :=
  "<svg xmlns=\"http://www.w3.org/2000/svg\" version=\"1.1\" viewBox=\"".toList ++ escAttr viewBox ++ "\"><style>".toList ++ escText styleText ++
    "</style>".toList ++ paths.flatMap (fun d => "<path d=\"".toList ++ escAttr d ++ "\" />".toList) ++ "</svg>".toList

/-- The first two columns of the points; arrays with fewer columns are an IndexError. -/
def plane (m : In F) : Res (List (F × F)) :=
  if m.dim < 2 then .error .indexError
  else mapRes (fun p => match p with | x :: y :: _ => .ok (x, y) | _ => .error .indexError) m.points

/-- `write`, /repo/src/meshio/svg/_svg.py:11-107: the text of the file. -/
def write (a : Arith F) (o : Opts F) (m : In F) : Res (List Char) :=
  if m.dim = 3 ∧ ¬ (m.points.all fun p => (p[2]?).all a.flat) then .error .writeError
  else
    match plane m with
    | .error e => .error e
    | .ok pts =>
      let v := place a o.imageWidth pts
      match mapRes (blockPaths a o.floatFmt v.pts) m.blocks with
      | .error e => .error e
      | .ok paths =>
        .ok (text (joinWith ' ' ([v.minX, v.minY, v.width, v.height].map (a.fmt o.floatFmt))) (style a o v.width) paths.flatten)

end Meshio.Svg
