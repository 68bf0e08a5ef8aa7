/-
Specification vocabulary for the format registry, file type deduction, read, write.
-/
import Verif.Model.Helpers

namespace Meshio.Spec

/-- A call that changes the registry. -/
inductive RegOp (Rd Wr : Type) where
  | register (name : String) (exts : List String) (reader : Option Rd) (writers : Dict Wr)
  | deregister (name : String)

variable {Rd Wr : Type}

/-- The formats registered for extension `e` after a history of calls, from the
history alone: registering appends, deregistering removes one registration. -/
def candStep (e : String) (l : List String) : RegOp Rd Wr → List String
  | .register n exts _ _ => l ++ List.replicate (exts.count e) n
  | .deregister n => l.erase n

def candidates (h : List (RegOp Rd Wr)) (e : String) : List String := h.foldl (candStep e) []

/-- All registrations for extension `e` in a history, in order. -/
def registrations (h : List (RegOp Rd Wr)) (e : String) : List String :=
  h.flatMap (fun
    | .register n exts _ _ => List.replicate (exts.count e) n
    | .deregister _ => [])

/-- The reader of format `f`, searching the history backwards (argument: most recent
call first): the last registered one, unless the format was deregistered later. -/
def lastReader : List (RegOp Rd Wr) → String → Option Rd
  | [], _ => none
  | .register n _ (some rd) _ :: h, f => if n = f then some rd else lastReader h f
  | .register _ _ none _ :: h, f => lastReader h f
  | .deregister n :: h, f => if n = f then none else lastReader h f

/-- The writer for key `f`, most recent call first. -/
def lastWriter : List (RegOp Rd Wr) → String → Option Wr
  | [], _ => none
  | .register _ _ _ wm :: h, f =>
    match wm.get? f with
    | some w => some w
    | none => lastWriter h f
  | .deregister n :: h, f => if n = f then none else lastWriter h f

/-- All tails of a string that begin with a dot, longest first. -/
def dotTails : List Char → List (List Char)
  | [] => []
  | c :: s => if c = '.' then (c :: s) :: dotTails s else dotTails s

/-- The extensions of a file name, shortest first: every tail beginning with a dot,
not counting leading dots; a name ending in a dot has none. -/
def extensions (name : List Char) : List (List Char) :=
  if name.getLast? = some '.' then [] else (dotTails (name.dropWhile (· = '.'))).reverse

/-- `f`'s reader exists and rejects the target with ReadError. -/
def Rejects {M : Type} (readers : Dict (Reader M)) (t : Target) (f : String) : Prop :=
  ∃ rd, readers.get? f = some rd ∧ rd t = .error .readError

/-- The formats `read` has to consider for a path. -/
def Considered (exts : Dict (List String)) (name : List Char) (fmt : Option String)
    (cands : List String) : Prop :=
  (∃ f, fmt = some f ∧ f ≠ "" ∧ cands = [f]) ∨
  ((fmt = none ∨ fmt = some "") ∧ filetypesFromPath exts name = .ok cands)

/-- The format `write` has to use. -/
def Chosen (exts : Dict (List String)) (t : Target) (fmt : Option String) (f : String) : Prop :=
  match t with
  | .buffer => fmt = some f ∧ f ≠ "tetgen"
  | .path name _ => (fmt = some f ∧ f ≠ "") ∨
      ((fmt = none ∨ fmt = some "") ∧ ∃ fs, filetypesFromPath exts name = .ok (f :: fs))

/-- Every block of a known type has the right number of columns. -/
def ColumnsOk (cells : List CellBlock) : Prop :=
  ∀ c ∈ cells, ∀ k, numNodesPerCell.get? c.type = some k → c.data.tail.head? = some k

end Meshio.Spec
