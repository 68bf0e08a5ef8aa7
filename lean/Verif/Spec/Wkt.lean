/-
WKT TIN texts: triangles as closed polygons of four corners, with blanks at will.
-/
import Verif.Model.Wkt
import Verif.Spec.Runs
namespace Meshio.Spec
open Wkt

variable {F : Type}

/-- Blanks only. -/
def Blank (w : List Char) : Prop := ∀ c ∈ w, isWs c = true

/-- Decimal notation without exponent: sign, digits, point, digits. -/
def Plain (t : List Char) : Prop :=
  ∃ sgn d1 d2 : List Char, (sgn = [] ∨ sgn = ['+'] ∨ sgn = ['-']) ∧ (∀ c ∈ d1, c.isDigit = true) ∧ (∀ c ∈ d2, c.isDigit = true) ∧
    ((d1 ≠ [] ∧ (t = sgn ++ d1 ∨ t = sgn ++ d1 ++ '.' :: d2)) ∨ (d1 = [] ∧ d2 ≠ [] ∧ t = sgn ++ '.' :: d2))

/-- A corner: the first coordinate, and the others with the blanks before them. -/
structure WktCorner (F : Type) where
  x : F
  rest : List (List Char × F)

def WktCorner.coords (c : WktCorner F) : List F := c.x :: c.rest.map (·.2)

/-- Its text. -/
def WktCorner.text (fmt : F → List Char) (c : WktCorner F) : List Char := fmt c.x ++ c.rest.flatMap fun r => r.1 ++ fmt r.2

/-- Three or four coordinates in plain decimal notation, separated by blanks. -/
structure WktCorner.Ok (fmt : F → List Char) (c : WktCorner F) : Prop where
  count : c.rest.length = 2 ∨ c.rest.length = 3
  blanks : ∀ r ∈ c.rest, Blank r.1 ∧ r.1 ≠ []
  plain : Plain (fmt c.x) ∧ ∀ r ∈ c.rest, Plain (fmt r.2)

/-- A polygon: blanks within the parentheses, the first corner, three more with the blanks around the commas before them. -/
structure WktTri (F : Type) where
  w1 : List Char
  w2 : List Char
  a : WktCorner F
  wb : List Char
  wb' : List Char
  b : WktCorner F
  wc : List Char
  wc' : List Char
  c : WktCorner F
  wd : List Char
  wd' : List Char
  d : WktCorner F
  w3 : List Char
  w4 : List Char

def WktTri.text (fmt : F → List Char) (t : WktTri F) : List Char :=
  '(' :: (t.w1 ++ '(' :: (t.w2 ++ (t.a.text fmt ++ (t.wb ++ ',' :: (t.wb' ++ (t.b.text fmt ++ (t.wc ++ ',' :: (t.wc' ++ (t.c.text fmt ++
    (t.wd ++ ',' :: (t.wd' ++ (t.d.text fmt ++ (t.w3 ++ ')' :: (t.w4 ++ [')']))))))))))))))

structure WktTri.Ok (fmt : F → List Char) (t : WktTri F) : Prop where
  a : t.a.Ok fmt
  b : t.b.Ok fmt
  c : t.c.Ok fmt
  d : t.d.Ok fmt
  blanks : Blank t.w1 ∧ Blank t.w2 ∧ Blank t.wb ∧ Blank t.wb' ∧ Blank t.wc ∧ Blank t.wc' ∧ Blank t.wd ∧ Blank t.wd' ∧
    Blank t.w3 ∧ Blank t.w4

/-- The corners but the last. -/
def WktTri.corners (t : WktTri F) : List (List F) := [t.a.coords, t.b.coords, t.c.coords]

/-- A text: blanks before it, after `TIN` and after the parenthesis; polygons, each followed by blanks, or by blanks, a comma
and more blanks; and anything after the closing parenthesis. -/
structure WktTin (F : Type) where
  w0 : List Char
  w1 : List Char
  w2 : List Char
  tris : List (WktTri F × List Char × Option (List Char))
  tail : List Char

/-- The text of a polygon with what follows it. -/
def wktItem (fmt : F → List Char) (t : WktTri F × List Char × Option (List Char)) : List Char :=
  t.1.text fmt ++ (t.2.1 ++ match t.2.2 with
    | none => []
    | some w => ',' :: w)

def WktTin.text (fmt : F → List Char) (t : WktTin F) : List Char :=
  t.w0 ++ ('T' :: 'I' :: 'N' :: (t.w1 ++ '(' :: (t.w2 ++ (t.tris.flatMap (wktItem fmt) ++ ')' :: t.tail))))

structure WktTin.Ok (fmt : F → List Char) (t : WktTin F) : Prop where
  blanks : Blank t.w0 ∧ Blank t.w1 ∧ Blank t.w2
  tris : ∀ r ∈ t.tris, r.1.Ok fmt ∧ Blank r.2.1 ∧ ∀ w, r.2.2 = some w → Blank w

/-- Every polygon is closed, and all corners have the same number of coordinates. -/
def WktTin.Closed (t : WktTin F) : Prop :=
  ∃ n, ∀ r ∈ t.tris, r.1.d.coords = r.1.a.coords ∧ ∀ p ∈ r.1.corners, p.length = n

/-- The text of a triangle with corners `a`, `b`, `c`. -/
def wktPolygon (fmt : F → List Char) (a b c : List F) : List Char :=
  "((".toList ++ joinWith ' ' (a.map fmt) ++ ", ".toList ++ joinWith ' ' (b.map fmt) ++ ", ".toList ++ joinWith ' ' (c.map fmt) ++
    ", ".toList ++ joinWith ' ' (a.map fmt) ++ "))".toList

/-- The triangles of a mesh, by their corners. -/
structure WktMesh (points : List (List F)) (cells : List (String × List (List Int))) (tris : List (List F × List F × List F)) : Prop where
  nodes : ∀ b ∈ cells, b.1 = "triangle" → ∀ r ∈ b.2, ∀ z ∈ r, 0 ≤ z
  corners : ((rowsOf cells).filter fun r => decide (r.1 = "triangle")).map (fun r => r.2.map fun z => points[z.toNat]?) =
    tris.map fun t => [some t.1, some t.2.1, some t.2.2]

end Meshio.Spec
