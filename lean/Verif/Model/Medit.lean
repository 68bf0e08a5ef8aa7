/-
Medit files: /repo/src/meshio/medit/_medit.py.  `.mesh` files are text, `.meshb` files are binary.

The arguments `pref` and `cref` of the writers are the arrays that `_pick_first_int_data` picks from the point data and from
the cell data (see `pickFirstIntData` in Model/Common), `none` if there is none.
-/
import Verif.Base.File
import Verif.Base.Lines
import Verif.Base.Bytes
import Verif.Model.Types

namespace Meshio
namespace Medit
open Types Tables

variable {F : Type}

/-- A block of cells with its references. -/
structure Out1 where
  type : String
  rows : List (List Int)
  ref : List Int
deriving DecidableEq, Repr

/-- The mesh returned by the readers: points, `point_data["medit:ref"]`, and the blocks with their entries of
`cell_data["medit:ref"]`.  `none`: the binary reader found no points. -/
structure Out (F : Type) where
  points : Option (List (List F))
  pref : Option (List Int)
  cells : List Out1
deriving DecidableEq, Repr

/-- The test `str(filename)[-1] == "b"`, /repo/src/meshio/medit/_medit.py:20-26,301-305. -/
def isBinary (filename : List Char) : Bool := decide (filename.getLast? = some 'b')

/-! ## Binary -/

/-- Floats of `k` bytes in either byte order; `rnd k` is the rounding to `k` bytes.  Points are float64. -/
structure BinFloat (F : Type) where
  enc : Bool → Nat → F → List Byte
  dec : Bool → Nat → List Byte → F
  rnd : Nat → F → F
  len : ∀ big k x, (enc big k x).length = k
  dec_enc : ∀ big k x, dec big k (enc big k x) = rnd k x
  rnd8 : ∀ x, rnd 8 x = x

/-- Bit patterns of eight bytes are a possible choice of floats (cut off when there are fewer bytes). -/
def BinFloat.word : BinFloat (Fin (256 ^ 8)) where
  enc big k x := natEnc big k (x.val % 256 ^ k)
  dec big _ l := ⟨natDec big l % 256 ^ 8, Nat.mod_lt _ (by decide)⟩
  rnd k x := ⟨x.val % 256 ^ k % 256 ^ 8, Nat.mod_lt _ (by decide)⟩
  len _ _ _ := length_natEnc _ _ _
  dec_enc big k x := by
    apply Fin.ext
    show natDec big (natEnc big k (x.val % 256 ^ k)) % 256 ^ 8 = x.val % 256 ^ k % 256 ^ 8
    rw [natDec_natEnc _ _ _ (Nat.mod_lt _ (Nat.pow_pos (by decide)))]
  rnd8 x := by
    apply Fin.ext
    show x.val % 256 ^ 8 % 256 ^ 8 = x.val
    have := x.isLt
    omega

/-- `_produce_dtype`, /repo/src/meshio/medit/_medit.py:29-51, and `np.dtype` of the result: the fields, each with a flag
"float" and its length.  `pre` is the number written before the next letter.  (`np.dtype` of a string that is empty or ends in a
number is left out: no template in use is like that.) -/
def dtypeFrom (dim : Nat) (pre : Option Nat) : List Char → Res (List (Bool × Nat))
  | [] => if pre = none then .ok [] else .error .unmodelled
  | c :: l =>
    if c = 'i' then
      match dtypeFrom dim none l with
      | .error e => .error e
      | .ok d => .ok ((false, pre.getD 1) :: d)
    else if c = 'r' then
      match dtypeFrom dim none l with
      | .error e => .error e
      | .ok d => .ok ((true, pre.getD 1) :: d)
    else if c = 'd' then
      if pre = none then dtypeFrom dim (some dim) l else .error .unmodelled
    else .error .readError

def dtype (template : String) (dim : Nat) : Res (List (Bool × Nat)) := dtypeFrom dim none template.toList

/-- `dtype.itemsize` -/
def itemSize (isz fsz : Nat) (d : List (Bool × Nat)) : Nat := (d.map fun f => (if f.1 then fsz else isz) * f.2).sum

/-- `medit_codes[field]`, /repo/src/meshio/medit/_medit_internal.py:8-224. -/
def codeOf (field : Int) : Option (String × String × String) :=
  if field < 0 then none else find medit_codes field.toNat

/-- `np.fromfile(f, count=1, dtype=...).item()` of an integer with `k` bytes; ValueError at the end of the file. -/
def takeInt (big : Bool) (k : Nat) (s : List Byte) : Res (Int × List Byte) :=
  if s.length < k then .error .valueError else .ok (intDec big (s.take k), s.drop k)

/-- Byte order and sizes of integers, floats and positions, /repo/src/meshio/medit/_medit.py:83-116. -/
structure Sizes where
  big : Bool
  isz : Nat
  fsz : Nat
  psz : Nat
deriving DecidableEq, Repr

def sizes (big : Bool) (version : Int) : Res Sizes :=
  if version < 1 ∨ version > 4 then .error .readError
  else if version = 1 then .ok ⟨big, 4, 4, 4⟩
  else if version = 2 then .ok ⟨big, 4, 8, 4⟩
  else if version = 3 then .ok ⟨big, 4, 8, 8⟩
  else .ok ⟨big, 8, 8, 8⟩

/-- A vertex: `out["f0"]` and `out["f1"]`. -/
def vertexOf (io : BinFloat F) (z : Sizes) (dim : Nat) (b : List Byte) : List F × Int :=
  ((items z.fsz dim b).map (io.dec z.big z.fsz), intDec z.big ((b.drop (z.fsz * dim)).take z.isz))

/-- What is done with the items of one field, /repo/src/meshio/medit/_medit.py:148-161.  `out` are the items found. -/
def useItems (io : BinFloat F) (z : Sizes) (dim : Nat) (name : String) (nitems : Nat) (out : List (List Byte)) (st : Out F) :
    Res (Out F) :=
  if name = "GmfVertices" then
    .ok { st with points := some (out.map fun b => (vertexOf io z dim b).1), pref := some (out.map fun b => (vertexOf io z dim b).2) }
  else
    match find mediBinary name with
    | none => .ok st
    | some (t, ncols) =>
      match reshape nitems (ncols + 1) ((items z.isz (out.flatten.length / z.isz) out.flatten).map (intDec z.big)) with
      | .error e => .error e
      | .ok rows => .ok { st with cells := st.cells ++ [⟨t, rows.map fun r => (r.take ncols).map (· - 1), rows.map fun r => r.getLastD 0⟩] }

/-- The loop over the fields, /repo/src/meshio/medit/_medit.py:123-161.  Negative counts are left out. -/
def fields (io : BinFloat F) (z : Sizes) (dim : Nat) : Nat → List Byte → Out F → Res (Out F)
  | 0, _, _ => .error .eofLoop
  | n + 1, s, st =>
    if s.length < 4 then .ok st
    else
      match codeOf (intDec z.big (s.take 4)) with
      | none => .error .readError
      | some (name, counter, template) =>
        if name = "GmfEnd" then .ok st
        else if name = "GmfReserved" then fields io z dim n (s.drop 4) st
        else
          match (if counter = "i" then takeInt z.big z.isz ((s.drop 4).drop z.psz) else .ok (1, (s.drop 4).drop z.psz)) with
          | .error e => .error e
          | .ok (nitems, s) =>
            match dtype template dim with
            | .error e => .error e
            | .ok d =>
              if nitems < 0 then .error .unmodelled
              else
                match useItems io z dim name nitems.toNat
                    (items (itemSize z.isz z.fsz d) (min nitems.toNat (s.length / itemSize z.isz z.fsz d)) s) st with
                | .error e => .error e
                | .ok st => fields io z dim n (s.drop (itemSize z.isz z.fsz d * nitems.toNat)) st

/-- `read_binary_buffer`, /repo/src/meshio/medit/_medit.py:54-163, on a little-endian machine. -/
def readBinary (io : BinFloat F) (s : List Byte) : Res (Out F) :=
  match takeInt false 4 s with
  | .error e => .error e
  | .ok (code, s) =>
    if code ≠ 1 ∧ code ≠ 16777216 then .error .readError
    else
      let big := decide (code = 16777216)
      match takeInt big 4 s with
      | .error e => .error e
      | .ok (version, s) =>
        match sizes big version with
        | .error e => .error e
        | .ok z =>
          match takeInt big 4 s with
          | .error e => .error e
          | .ok (field, s) =>
            if field ≠ 3 then .error .readError
            else
              match takeInt big 4 (s.drop z.psz) with
              | .error e => .error e
              | .ok (dim, s) =>
                if dim ≠ 2 ∧ dim ≠ 3 then .error .readError
                else fields io z dim.toNat (s.length + 1) s ⟨none, none, []⟩

/-- A block of the mesh to be written: `isize` is the number of bytes of an entry of the array. -/
structure Blk where
  type : String
  isize : Nat
  rows : List (List Int)
deriving DecidableEq, Repr

/-- `mesh.cell_data[labels_key][k] if labels_key else np.ones(...)` -/
def labelsOf (cref : Option (List (List Int))) (k : Nat) (b : Blk) : Res (List Int) :=
  match cref with
  | none => .ok (List.replicate b.rows.length 1)
  | some l =>
    match l[k]? with
    | none => .error .indexError
    | some r => .ok r

/-- One row of a block of cells in the file, /repo/src/meshio/medit/_medit.py:504-513: `n` columns and the label. -/
def putCell (isz n : Nat) (rl : List Int × Int) : Res (List Byte) :=
  if rl.1.length < n then .error .indexError
  else .ok (((rl.1.take n).map fun v => v + 1).flatMap (intEnc false isz) ++ intEnc false isz rl.2)

/-- The loop over the blocks and the end, /repo/src/meshio/medit/_medit.py:477-522; `k` is the index of the block, `pos` the
position counter.  Values too large for the integer type are cut off.  Label arrays of a length different from the block's
are left out; the width of a block without rows is not looked at. -/
def putBlocks (isz dim : Nat) (cref : Option (List (List Int))) : Nat → Nat → List Blk → Res (List Byte)
  | _, _, [] => .ok (intEnc false 4 54 ++ intEnc false 8 0)
  | k, pos, b :: bs =>
    match find mediBinaryWrite b.type with
    | none => putBlocks isz dim cref (k + 1) pos bs
    | some key =>
      let pos := pos + b.rows.length * ((b.rows.headD []).length + 1) * isz + (4 + 8 + isz)
      match labelsOf cref k b with
      | .error e => .error e
      | .ok labels =>
        match find medit_codes key with
        | none => .error .keyError
        | some (_, _, template) =>
          match dtype template dim with
          | .error e => .error e
          | .ok d =>
            if labels.length ≠ b.rows.length then .error .unmodelled
            else
              match mapRes (putCell isz (d.length - 1)) (b.rows.zip labels) with
              | .error e => .error e
              | .ok rows =>
                match putBlocks isz dim cref (k + 1) pos bs with
                | .error e => .error e
                | .ok rest => .ok (intEnc false 4 key ++ intEnc false 8 pos ++ intEnc false isz b.rows.length ++ rows.flatten ++ rest)

/-- A vertex in the file. -/
def putVertex (io : BinFloat F) (isz : Nat) (pl : List F × Int) : List Byte :=
  pl.1.flatMap (io.enc false 8) ++ intEnc false isz pl.2

/-- Number of bytes of integers in the file, /repo/src/meshio/medit/_medit.py:398-408. -/
def intSize (cells : List Blk) : Nat := if cells.any (fun b => decide (b.isize = 8)) then 8 else 4

/-- `write_binary_file`, /repo/src/meshio/medit/_medit.py:387-522; the points are an array with `dim` columns. -/
def writeBinary (io : BinFloat F) (dim : Nat) (points : List (List F)) (pref : Option (List Int)) (cells : List Blk)
    (cref : Option (List (List Int))) : Res (List Byte) :=
  let isz := intSize cells
  let version : Int := if isz = 8 then 4 else 3
  let pos0 : Nat := 4 * 4 + 8
  let pos := pos0 + points.length * dim * 8 + points.length * isz + (4 + 8 + isz)
  let labels := pref.getD (List.replicate points.length 1)
  if labels.length ≠ points.length then .error .unmodelled
  else
    match putBlocks isz dim cref 0 pos cells with
    | .error e => .error e
    | .ok rest =>
      .ok (intEnc false 4 1 ++ intEnc false 4 version ++ intEnc false 4 3 ++ intEnc false 8 pos0 ++ intEnc false 4 dim ++
        (intEnc false 4 4 ++ intEnc false 8 pos ++ intEnc false isz points.length ++
          ((points.zip labels).map (putVertex io isz)).flatten ++ rest))

/-! ## Text -/

/-- The variables of `read_ascii_buffer`, /repo/src/meshio/medit/_medit.py:166-189; `single` is `dtype` (`some true` for
`c_float`). -/
structure St (F : Type) where
  dim : Int
  single : Option Bool
  out : Out F
deriving DecidableEq, Repr

/-- `int(f.readline())` -/
def intLine (s : List Char) : Res (Int × List Char) :=
  match parseInt (strip (readLine s).1) with
  | some i => .ok (i, (readLine s).2)
  | none => .error .valueError

/-- `np.fromfile(f, count=n * w, dtype, sep=" ").reshape(n, w)` -/
def scanRows {α : Type} (parse : List Char → Option α) (n w : Int) (s : List Char) : Res (List (List α) × List Char) :=
  if n < 0 ∨ w < 0 then .error .unmodelled
  else
    match reshape n.toNat w.toNat (scan parse (n.toNat * w.toNat) s).1 with
    | .error e => .error e
    | .ok rows => .ok (rows, (scan parse (n.toNat * w.toNat) s).2)

/-- Sections of integers that are read and forgotten, with their width, /repo/src/meshio/medit/_medit.py:244-272. -/
def ignoredInts : List (String × Nat) :=
  [("NormalAtVertices", 2), ("SubDomainFromMesh", 4), ("VertexOnGeometricVertex", 2), ("EdgeOnGeometricEdge", 2)]

/-- `n` calls of `f.readline()`. -/
def skipLines : Nat → List Char → List Char
  | 0, s => s
  | n + 1, s => skipLines n (readLine s).2

/-- The body of the loop for a line that starts with the keyword `kw` and has the words `args` after it,
/repo/src/meshio/medit/_medit.py:204-292.  `io true` are the texts of float32 numbers, `io false` of float64 numbers. -/
def keyword (io : Bool → NumIO F) (kw : String) (args : List (List Char)) (s : List Char) (st : St F) : Res (St F × List Char) :=
  if kw = "MeshVersionFormatted" then
    match args with
    | [] => .error .indexError
    | v :: _ =>
      if v = ['0'] ∨ v = ['1'] then .ok ({ st with single := some true }, s)
      else if v = ['2'] then .ok ({ st with single := some false }, s)
      else .error .keyError
  else if kw = "Dimension" then
    match args with
    | v :: _ =>
      match parseInt v with
      | some d => .ok ({ st with dim := d }, s)
      | none => .error .valueError
    | [] =>
      match intLine s with
      | .error e => .error e
      | .ok (d, s) => .ok ({ st with dim := d }, s)
  else if kw = "Vertices" then
    if st.dim ≤ 0 then .error .readError
    else
      match st.single with
      | none => .error .readError
      | some sg =>
        match intLine s with
        | .error e => .error e
        | .ok (n, s) =>
          match scanRows (io sg).parse n (st.dim + 1) s with
          | .error e => .error e
          | .ok (rows, s) =>
            .ok ({ st with out := { st.out with
              points := some (rows.map fun r => r.take st.dim.toNat)
              pref := some (rows.map fun r => ((r[st.dim.toNat]?).map (io sg).toInt).getD 0) } }, s)
  else
    match find mediAscii kw with
    | some (t, k) =>
      match intLine s with
      | .error e => .error e
      | .ok (n, s) =>
        match scanRows parseInt n (k + 1) s with
        | .error e => .error e
        | .ok (rows, s) =>
          .ok ({ st with out := { st.out with
            cells := st.out.cells ++ [⟨t, rows.map fun r => (r.take k).map (· - 1), rows.map fun r => r.getLastD 0⟩] } }, s)
    | none =>
      if kw = "Corners" then
        match intLine s with
        | .error e => .error e
        | .ok (n, s) =>
          if n < 0 then .error .unmodelled else .ok (st, (scan (io (st.single.getD false)).parse n.toNat s).2)
      else if kw = "Normals" then
        match intLine s with
        | .error e => .error e
        | .ok (n, s) =>
          match scanRows (io (st.single.getD false)).parse n st.dim s with
          | .error e => .error e
          | .ok (_, s) => .ok (st, s)
      else if kw = "VertexOnGeometricEdge" then
        match intLine s with
        | .error e => .error e
        | .ok (n, s) =>
          match scanRows (io false).parse n 3 s with
          | .error e => .error e
          | .ok (_, s) => .ok (st, s)
      else
        match find ignoredInts kw with
        | some w =>
          match intLine s with
          | .error e => .error e
          | .ok (n, s) =>
            match scanRows parseInt n w s with
            | .error e => .error e
            | .ok (_, s) => .ok (st, s)
        | none =>
          if kw = "Identifier" ∨ kw = "Geometry" then .ok (st, (readLine s).2)
          else if kw = "RequiredVertices" ∨ kw = "TangentAtVertices" ∨ kw = "Tangents" ∨ kw = "Ridges" then
            match intLine s with
            | .error e => .error e
            | .ok (n, s) => .ok (st, skipLines n.toNat s)
          else if kw = "End" then .ok (st, s)
          else .error .readError

/-- The loop of `read_ascii_buffer`, /repo/src/meshio/medit/_medit.py:191-292.  `isalpha` is modelled for ASCII. -/
def lines (io : Bool → NumIO F) : Nat → List Char → St F → Res (St F)
  | 0, _, _ => .error .eofLoop
  | n + 1, s, st =>
    if s = [] then .ok st
    else
      let line := strip (readLine s).1
      if line = [] ∨ line.head? = some '#' then lines io n (readLine s).2 st
      else
        match splitWs line with
        | [] => .error .indexError
        | kw :: args =>
          if kw.all Char.isAlpha then
            match keyword io (String.ofList kw) args (readLine s).2 st with
            | .error e => .error e
            | .ok (st, s) => lines io n s st
          else .error .readError

/-- `read_ascii_buffer`, /repo/src/meshio/medit/_medit.py:166-298. -/
def readAscii (io : Bool → NumIO F) (s : List Char) : Res (Out F) :=
  match lines io (s.length + 1) s ⟨0, none, ⟨none, none, []⟩⟩ with
  | .error e => .error e
  | .ok st =>
    if st.out.points = none then .error .readError else .ok st.out

/-- One row of cells, /repo/src/meshio/medit/_medit.py:379-382: `n + 1` numbers are printed. -/
def cellLine (n : Nat) (rl : List Int × Int) : Res (List Char) :=
  let vals := rl.1.map (· + 1) ++ [rl.2]
  if vals.length < n + 1 then .error .indexError else .ok (joinWith ' ' ((vals.take (n + 1)).map fmtInt))

/-- The loop over the blocks, /repo/src/meshio/medit/_medit.py:354-382. -/
def blockLines (cref : Option (List (List Int))) : Nat → List Blk → Res (List (List Char))
  | _, [] => .ok []
  | k, b :: bs =>
    match find mediAsciiWrite b.type with
    | none => blockLines cref (k + 1) bs
    | some (name, n) =>
      match labelsOf cref k b with
      | .error e => .error e
      | .ok labels =>
        match mapRes (cellLine n) (b.rows.zip labels) with
        | .error e => .error e
        | .ok rows =>
          match blockLines cref (k + 1) bs with
          | .error e => .error e
          | .ok rest => .ok ([] :: name.toList :: fmtNat b.rows.length :: (rows ++ rest))

/-- The type of the points. -/
inductive PType where
  | float32
  | float64
  | other
deriving DecidableEq, Repr

/-- `write_ascii_file`, /repo/src/meshio/medit/_medit.py:308-384. -/
def writeAscii (io : Bool → NumIO F) (pt : PType) (dim : Nat) (points : List (List F)) (pref : Option (List Int))
    (cells : List Blk) (cref : Option (List (List Int))) : Res (List Char) :=
  if pt = .other then .error .keyError
  else
    let sg := decide (pt = .float32)
    let labels := pref.getD (List.replicate points.length 1)
    match blockLines cref 0 cells with
    | .error e => .error e
    | .ok bl =>
      .ok (linesText (["MeshVersionFormatted ".toList ++ fmtNat (if sg then 1 else 2), "Dimension ".toList ++ fmtNat dim,
        [], "Vertices".toList, fmtNat points.length] ++
        ((points.zip labels).map fun pl => joinWith ' ' (pl.1.map (io sg).fmt ++ [fmtInt pl.2])) ++ bl ++ [[], "End".toList]))

end Medit
end Meshio
