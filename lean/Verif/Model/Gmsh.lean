/-
Gmsh files: the parts common to all versions, /repo/src/meshio/gmsh/common.py and main.py.

A file is a list of characters; in binary files bytes are characters (`Verif.Base.BinText`).  Decoding of UTF-8 is left out.
-/
import Verif.Base.BinText
import Verif.Base.Dict
import Verif.Base.Scan
import Verif.Model.Common
import Verif.Model.Types

namespace Meshio
namespace Gmsh
open Types Tables

variable {F : Type}

/-- Floats in Gmsh files: coordinates as text (`"{:.16e}"`) and data as text (`repr`), both of full precision, and in eight
bytes. -/
structure GmshFloat (F : Type) extends NumIO F where
  repr : F → List Char
  tokRepr : ∀ x, IsTok (repr x)
  parse_repr : ∀ x, parse (repr x) = some x
  bytes : ByteIO 8 F
  zero : F

/-- Integers of eight bytes are a possible choice of values. -/
abbrev Word := { z : Int // IsInt 8 z }

def Word.of (z : Int) : Word := if h : IsInt 8 z then ⟨z, h⟩ else ⟨0, by decide⟩

theorem Word.of_val (x : Word) : Word.of x.1 = x := by
  unfold Word.of
  rw [dif_pos x.2]

theorem Word.val_of (z : Int) (h : z.natAbs < 2 ^ 53) : (Word.of z).1 = z := by
  unfold Word.of
  rw [dif_pos]
  unfold IsInt
  have : (256 ^ 8 : Nat) = 18446744073709551616 := by decide
  rw [this]
  omega

def GmshFloat.word : GmshFloat Word where
  fmt x := fmtInt x.1
  parse s := (parseInt s).map Word.of
  parse_fmt x := by rw [parseInt_fmtInt, Option.map_some, Word.of_val]
  tok x := isTok_fmtInt x.1
  ofInt := Word.of
  toInt x := x.1
  lim := 2 ^ 53
  parse_int i _ := by rw [parseInt_fmtInt]; rfl
  toInt_ofInt i h := Word.val_of i h
  repr x := fmtInt x.1
  tokRepr x := isTok_fmtInt x.1
  parse_repr x := by rw [parseInt_fmtInt, Option.map_some, Word.of_val]
  bytes := {
    enc := fun x => intEnc false 8 x.1
    dec := fun l => Word.of (intDec false l)
    len := fun x => length_intEnc _ _ _
    dec_enc := fun x => by rw [intDec_intEnc _ _ _ x.2, Word.of_val] }
  zero := ⟨0, by decide⟩

/-- A float in eight bytes. -/
def putF (io : GmshFloat F) (x : F) : List Char := toChars (io.bytes.enc x)

def getF (io : GmshFloat F) (l : List Char) : F := io.bytes.dec (toBytes l)

/-- `_fast_forward_to_end_block`, /repo/src/meshio/gmsh/common.py:15-27: what follows the line `$End…`; the end of the file
if there is none (a warning). -/
def fastForwardF (block : List Char) : Nat → List Char → List Char
  | 0, s => s
  | n + 1, s =>
    if s = [] then []
    else if strip (readLine s).1 = "$End".toList ++ block then (readLine s).2
    else fastForwardF block n (readLine s).2

def fastForward (block : List Char) (s : List Char) : List Char := fastForwardF block s.length s

/-- `_fast_forward_over_blank_lines`, /repo/src/meshio/gmsh/common.py:30-39: the next line that is not blank, and the rest. -/
def nextLineF : Nat → List Char → Option (List Char × List Char)
  | 0, _ => none
  | n + 1, s =>
    if s = [] then none
    else if strip (readLine s).1 ≠ [] then some (readLine s)
    else nextLineF n (readLine s).2

def nextLine (s : List Char) : Option (List Char × List Char) := nextLineF s.length s

/-- `int(s)` -/
def toInt (s : List Char) : Res Int :=
  match parseInt (strip s) with
  | some i => .ok i
  | none => .error .valueError

/-- `int(f.readline())` -/
def intLine (s : List Char) : Res (Int × List Char) :=
  match toInt (readLine s).1 with
  | .error e => .error e
  | .ok i => .ok (i, (readLine s).2)

/-- `[g(f.readline()) for _ in range(n)]` -/
def linesN {β : Type} (g : List Char → Res β) : Nat → List Char → Res (List β × List Char)
  | 0, s => .ok ([], s)
  | n + 1, s =>
    match g (readLine s).1 with
    | .error e => .error e
    | .ok b =>
      match linesN g n (readLine s).2 with
      | .error e => .error e
      | .ok (bs, s') => .ok (b :: bs, s')

/-! ### Physical names -/

/-- States of `shlex` in POSIX mode: between words, in a word, within quotes, after a backslash (with the quote it is in). -/
inductive Sh where
  | space
  | word
  | quote (q : Char)
  | esc (q : Option Char)
deriving DecidableEq

/-- White space of `shlex`. -/
def shWs (c : Char) : Bool := c = ' ' || c = '\t' || c = '\r' || c = '\n'

/-- `shlex.split(s)` (standard library): words are separated by blanks; quotes group, a backslash quotes the next character,
within double quotes only a double quote or a backslash; an open quotation is a ValueError.  `cur` is the word so far, `q` says
whether any of it was quoted. -/
def shlexGo : List Char → Sh → List Char → Bool → Res (List (List Char))
  | [], .space, _, _ => .ok []
  | [], .word, cur, q => .ok (if cur ≠ [] ∨ q then [cur] else [])
  | [], .quote _, _, _ => .error .valueError
  | [], .esc _, _, _ => .error .valueError
  | c :: s, .space, _, _ =>
    if shWs c then shlexGo s .space [] false
    else if c = '\\' then shlexGo s (.esc none) [] false
    else if c = '"' ∨ c = '\'' then shlexGo s (.quote c) [] true
    else shlexGo s .word [c] false
  | c :: s, .word, cur, q =>
    if shWs c then
      match shlexGo s .space [] false with
      | .error e => .error e
      | .ok l => .ok (if cur ≠ [] ∨ q then cur :: l else l)
    else if c = '\\' then shlexGo s (.esc none) cur q
    else if c = '"' ∨ c = '\'' then shlexGo s (.quote c) cur true
    else shlexGo s .word (cur ++ [c]) q
  | c :: s, .quote d, cur, _ =>
    if c = d then shlexGo s .word cur true
    else if c = '\\' ∧ d = '"' then shlexGo s (.esc (some d)) cur true
    else shlexGo s (.quote d) (cur ++ [c]) true
  | c :: s, .esc none, cur, q => shlexGo s .word (cur ++ [c]) q
  | c :: s, .esc (some d), cur, q =>
    if c ≠ '\\' ∧ c ≠ d then shlexGo s (.quote d) (cur ++ ['\\', c]) q
    else shlexGo s (.quote d) (cur ++ [c]) q

def shlexSplit (s : List Char) : Res (List (List Char)) := shlexGo s .space [] false

/-- One name: the pair of number and dimension, /repo/src/meshio/gmsh/common.py:46-49. -/
def nameLine (line : List Char) : Res (String × Int × Int) :=
  match shlexSplit line with
  | .error e => .error e
  | .ok (d :: n :: k :: _) =>
    match toInt n, toInt d with
    | .ok n, .ok d => .ok (String.ofList k, n, d)
    | .error e, _ => .error e
    | _, .error e => .error e
  | .ok _ => .error .indexError

/-- `_read_physical_names`, /repo/src/meshio/gmsh/common.py:42-50. -/
def readNames (fd : Dict (Int × Int)) (s : List Char) : Res (Dict (Int × Int) × List Char) :=
  match intLine s with
  | .error e => .error e
  | .ok (n, s) =>
    match linesN nameLine n.toNat s with
    | .error e => .error e
    | .ok (l, s) => .ok (l.foldl (fun fd e => Dict.set fd e.1 e.2) fd, fastForward "PhysicalNames".toList s)

/-- Order of the triples dimension, number, name. -/
def nameLe (a b : Int × Int × List Char) : Bool :=
  if a.1 ≠ b.1 then decide (a.1 < b.1)
  else if a.2.1 ≠ b.2.1 then decide (a.2.1 < b.2.1)
  else decide (a.2.2 ≤ b.2.2)

/-- The entries that can be written: two numbers, /repo/src/meshio/gmsh/common.py:218-225. -/
def nameEntry (kv : String × List Int) : Option (Int × Int × List Char) :=
  match kv.2 with
  | [num, dim] => some (dim, num, kv.1.toList)
  | _ => none

/-- `_write_physical_names`, /repo/src/meshio/gmsh/common.py:216-232; nothing is written without entries.  Entries that are
not lists of integers are left out. -/
def writeNames (fd : Dict (List Int)) : List Char :=
  let entries := (fd.filterMap nameEntry).mergeSort nameLe
  if entries = [] then []
  else
    linesText (["$PhysicalNames".toList, fmtNat entries.length] ++
      entries.map (fun e => fmtInt e.1 ++ ' ' :: (fmtInt e.2.1 ++ ' ' :: '"' :: (e.2.2 ++ ['"']))) ++ ["$EndPhysicalNames".toList])

/-! ### Data sections -/

/-- The name on a line of string tags: `line.strip().replace('"', "")`. -/
def unquote (line : List Char) : List Char := (strip line).filter fun c => c ≠ '"'

/-- One record of binary data: a number and `k` floats. -/
def record (io : GmshFloat F) (k : Nat) (r : List Char) : Int × List F :=
  (getInt (r.take 4), (blocks 8 k (r.drop 4)).1.map (getF io))

/-- Records of a number and `k` floats, /repo/src/meshio/gmsh/common.py:76-80 and _gmsh22.py:110-116: they must be numbered
from one.  A file that ends within the records is left out. -/
def readRecords (io : GmshFloat F) (n k : Nat) (s : List Char) : Res (List (List F) × List Char) :=
  let r := blocks (4 + 8 * k) n s
  if r.1.length ≠ n then .error .unmodelled
  else if r.1.map (fun x => (record io k x).1) ≠ (List.range n).map fun (i : Nat) => (1 + i : Int) then .error .readError
  else .ok (r.1.map fun x => (record io k x).2, r.2)

/-- The rows of a data section, /repo/src/meshio/gmsh/common.py:68-80.  The number of the entity is dropped. -/
def readRows (io : GmshFloat F) (ascii : Bool) (n k : Nat) (s : List Char) : Res (List (List F) × List Char) :=
  if ascii then
    match reshape n (1 + k) (scan io.parse (n * (1 + k)) s).1 with
    | .error e => .error e
    | .ok rows => .ok (rows.map (·.drop 1), (scan io.parse (n * (1 + k)) s).2)
  else readRecords io n k s

/-- `_read_data`, /repo/src/meshio/gmsh/common.py:53-89.  Negative numbers of items or components are left out. -/
def readData (io : GmshFloat F) (ascii : Bool) (tag : List Char) (dict : Dict (NArr (List F))) (s : List Char) :
    Res (Dict (NArr (List F)) × List Char) :=
  match intLine s with
  | .error e => .error e
  | .ok (ns, s) =>
    match linesN (fun l => .ok (unquote l)) ns.toNat s with
    | .error e => .error e
    | .ok (strs, s) =>
      match intLine s with
      | .error e => .error e
      | .ok (nr, s) =>
        match linesN (fun _ => .ok ()) nr.toNat s with
        | .error e => .error e
        | .ok (_, s) =>
          match intLine s with
          | .error e => .error e
          | .ok (ni, s) =>
            match linesN toInt ni.toNat s with
            | .error e => .error e
            | .ok (ints, s) =>
              match ints with
              | _ :: k :: n :: _ =>
                if k < 0 ∨ n < 0 then .error .unmodelled
                else
                  match readRows io ascii n.toNat k.toNat s with
                  | .error e => .error e
                  | .ok (rows, s) =>
                    match strs with
                    | [] => .error .indexError
                    | name :: _ =>
                      .ok (Dict.set dict (String.ofList name) ⟨if k = 1 then [] else [k.toNat], rows⟩, fastForward tag s)
              | _ => .error .indexError

/-- The number of components of an array. -/
def components (a : NArr (List F)) : Nat := if a.tail = [] then 1 else a.tail.headD 1

/-- The rows of a data section, /repo/src/meshio/gmsh/common.py:265-283. -/
def dataRow (io : GmshFloat F) (binary : Bool) (xi : List F × Nat) : List Char :=
  if binary then putInt 4 (1 + (xi.2 : Int)) ++ xi.1.flatMap (putF io)
  else joinWith ' ' (fmtNat (xi.2 + 1) :: xi.1.map io.repr) ++ ['\n']

/-- `_write_data`, /repo/src/meshio/gmsh/common.py:235-285.  Arrays of more than two dimensions are left out. -/
def writeData (io : GmshFloat F) (binary : Bool) (tag name : List Char) (a : NArr (List F)) : Res (List Char) :=
  if 1 < a.tail.length then .error .unmodelled
  else if components a ≠ 1 ∧ components a ≠ 3 ∧ components a ≠ 9 then .error .writeError
  else
    .ok (linesText ['$' :: tag, ['1'], '"' :: (name ++ ['"']), ['1'], "0.0".toList, ['3'], ['0'], fmtNat (components a), fmtNat a.rows.length] ++
      a.rows.zipIdx.flatMap (dataRow io binary) ++ (if binary then ['\n'] else []) ++ linesText ["$End".toList ++ tag])

/-! ### The header -/

/-- The modules that read a file. -/
inductive Version where
  | v22
  | v40
  | v41
deriving DecidableEq, Repr

/-- `_readers`, /repo/src/meshio/gmsh/main.py:11. -/
def readers : List (String × Version) := [("2", .v22), ("2.2", .v22), ("4.0", .v40), ("4", .v41), ("4.1", .v41)]

/-- `_writers`, /repo/src/meshio/gmsh/main.py:12. -/
def writers : List (String × Version) := [("2.2", .v22), ("4.0", .v40), ("4.1", .v41)]

/-- The choice of the reader, /repo/src/meshio/gmsh/main.py:36-47. -/
def reader (version : List Char) : Res Version :=
  match find readers (String.ofList version) with
  | some v => .ok v
  | none =>
    match find readers (String.ofList ((splitOnC '.' version).headD [])) with
    | some v => .ok v
    | none => .error .valueError

/-- `_read_header`, /repo/src/meshio/gmsh/main.py:51-83: version, size of data, text or not. -/
def readHeader (s : List Char) : Res ((List Char × Int × Bool) × List Char) :=
  match splitWs (readLine s).1 with
  | v :: m :: r =>
    if m ≠ ['0'] ∧ m ≠ ['1'] then .error .readError
    else
      match r with
      | [] => .error .indexError
      | d :: _ =>
        match toInt d with
        | .error e => .error e
        | .ok d =>
          if m = ['0'] then .ok ((v, d, true), fastForward "MeshFormat".toList (readLine s).2)
          else if (readLine s).2.length < 4 then .error .structError
          else if getInt ((readLine s).2.take 4) ≠ 1 then .error .readError
          else .ok ((v, d, false), fastForward "MeshFormat".toList ((readLine s).2.drop 4))
  | _ => .error .indexError

/-- The comments before the header, /repo/src/meshio/gmsh/main.py:26-33: the line after them and the rest. -/
def skipCommentsF : Nat → List Char → List Char × List Char
  | 0, s => (strip (readLine s).1, (readLine s).2)
  | n + 1, s =>
    if strip (readLine s).1 = "$Comments".toList then skipCommentsF n (fastForward "Comments".toList (readLine s).2)
    else (strip (readLine s).1, (readLine s).2)

/-- `read_buffer` up to the call of the reader, /repo/src/meshio/gmsh/main.py:23-48: the version, the size of data, text or
not, and the rest of the file. -/
def start (s : List Char) : Res ((Version × Int × Bool) × List Char) :=
  let r := skipCommentsF s.length s
  if r.1 ≠ "$MeshFormat".toList then .error .readError
  else
    match readHeader r.2 with
    | .error e => .error e
    | .ok ((v, d, a), s) =>
      match reader v with
      | .error e => .error e
      | .ok v => .ok ((v, d, a), s)

/-- The choice of the writer, /repo/src/meshio/gmsh/main.py:88-101. -/
def writer (version : String) : Res Version :=
  match find writers version with
  | some v => .ok v
  | none => .error .writeError

end Gmsh
end Meshio
