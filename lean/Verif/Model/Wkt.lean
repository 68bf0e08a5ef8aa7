/-
WKT TIN texts: /repo/src/meshio/wkt/_wkt.py.
-/
import Verif.Base.Regex
import Verif.Model.VtkCommon
namespace Meshio
namespace Wkt
open Re

variable {F : Type}

/-- `\s` -/
def ws : Re := chr isWs
/-- `\d`, ASCII digits only. -/
def dig : Re := chr Char.isDigit
/-- `[+-]?` -/
def sign : Re := opt (chr fun c => decide (c = '+') || decide (c = '-'))

/-- `float_pattern`, /repo/src/meshio/wkt/_wkt.py:13. -/
def floatRe : Re :=
  seq sign (alt (seq (plus dig) (seq (opt (lit '.')) (star dig))) (seq (star dig) (seq (opt (lit '.')) (plus dig))))

/-- `point_pattern`, /repo/src/meshio/wkt/_wkt.py:16. -/
def pointRe : Re := seqs [floatRe, plus ws, floatRe, plus ws, floatRe, opt (seq (plus ws) floatRe)]

/-- `\s*,\s*` and a point. -/
def nextRe : Re := seqs [star ws, lit ',', star ws, pointRe]

/-- `triangle_pattern`, /repo/src/meshio/wkt/_wkt.py:19-21. -/
def triRe : Re :=
  seqs [lit '(', star ws, lit '(', star ws, pointRe, nextRe, nextRe, nextRe, star ws, lit ')', star ws, lit ')']

/-- `tin_pattern`, /repo/src/meshio/wkt/_wkt.py:24. -/
def tinRe : Re :=
  seqs [lit 'T', lit 'I', lit 'N', star ws, lit '(', star (seqs [star ws, triRe, star ws, opt (lit ',')]), star ws, lit ')']

/-- The mesh that is read: points and triangles. -/
structure Out (F : Type) where
  points : List (List F)
  cells : List (List Nat)
deriving DecidableEq

/-- `point_idxs[point]`, with the point added if it is new, /repo/src/meshio/wkt/_wkt.py:40-42.  Floats are compared as values
of `F`; that `-0.0 == 0.0` is left out. -/
def intern [DecidableEq F] (pts : List (List F)) (p : List F) : List (List F) × Nat :=
  if p ∈ pts then (pts, pts.idxOf p) else (pts ++ [p], pts.length)

/-- `float(...)` -/
def toFloat (parse : List Char → Option F) (t : List Char) : Res F :=
  match parse t with
  | some v => .ok v
  | none => .error .valueError

/-- One corner, /repo/src/meshio/wkt/_wkt.py:35-42. -/
def addPoint [DecidableEq F] (parse : List Char → Option F) (st : List (List F) × List Nat) (t : List Char) :
    Res (List (List F) × List Nat) :=
  match mapRes (toFloat parse) (findIter floatRe t) with
  | .error e => .error e
  | .ok p => .ok ((intern st.1 p).1, st.2 ++ [(intern st.1 p).2])

/-- One triangle, /repo/src/meshio/wkt/_wkt.py:34-47. -/
def addTri [DecidableEq F] (parse : List Char → Option F) (st : Out F) (t : List Char) : Res (Out F) :=
  match foldRes (addPoint parse) (st.points, []) (findIter pointRe t) with
  | .error e => .error e
  | .ok (pts, idx) =>
    match idx.head?, idx.getLast? with
    | some a, some b => if b ≠ a then .error .valueError else .ok ⟨pts, st.cells ++ [idx.dropLast]⟩
    | _, _ => .error .indexError

/-- `read_str`, /repo/src/meshio/wkt/_wkt.py:28-60.  `np.array` of points of different length is a ValueError, which becomes a
ReadError. -/
def read [DecidableEq F] (parse : List Char → Option F) (s : List Char) : Res (Out F) :=
  match first tinRe (strip s) with
  | none => .error .readError
  | some e =>
    match foldRes (addTri parse) ⟨[], []⟩ (findIter triRe (before (strip s) e)) with
    | .error e => .error e
    | .ok m =>
      if m.points.all (fun p => decide (p.length = (m.points.headD []).length)) then .ok m else .error .readError

/-- `arr_to_str`, /repo/src/meshio/wkt/_wkt.py:63-64. -/
def arrToStr (fmt : F → List Char) (p : List F) : List Char := joinWith ' ' (p.map fmt)

/-- The text of a triangle, /repo/src/meshio/wkt/_wkt.py:88-92. -/
def triText (fmt : F → List Char) (pts : List (List F)) : Res (List Char) :=
  match pts.map (arrToStr fmt) with
  | a :: b :: c :: _ =>
    .ok ("((".toList ++ a ++ ", ".toList ++ b ++ ", ".toList ++ c ++ ", ".toList ++ a ++ "))".toList)
  | _ => .error .indexError

/-- The corners of a triangle, `mesh.points[triangles]`. -/
def corners (points : List (List F)) (row : List Int) : Res (List (List F)) :=
  mapRes (npIndex points) row

/-- The triangles of a mesh, `mesh.get_cells_type("triangle")`, /repo/src/meshio/_mesh.py:243-246. -/
def triangles (cells : List (String × List (List Int))) : List (List Int) :=
  (cells.filter fun b => decide (b.1 = "triangle")).flatMap (·.2)

/-- `write_buffer`, /repo/src/meshio/wkt/_wkt.py:77-94. -/
def write (fmt : F → List Char) (points : List (List F)) (cells : List (String × List (List Int))) : Res (List Char) :=
  match mapRes (corners points) (triangles cells) with
  | .error e => .error e
  | .ok tris =>
    match mapRes (triText fmt) tris with
    | .error e => .error e
    | .ok [] => .ok "TIN ()".toList
    | .ok (t :: ts) => .ok ("TIN (".toList ++ t ++ ts.flatMap (fun t => ", ".toList ++ t) ++ ")".toList)

end Wkt
end Meshio
