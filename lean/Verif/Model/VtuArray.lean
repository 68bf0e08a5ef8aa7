/-
Model of the array encodings of /repo/src/meshio/vtu/_vtu.py: base64 text with and without
compressed blocks, chunking, and the conversion of raw appended data.

Parameters: `w` is the size of the header integer in bytes (`header_type`), `big` the byte
order, `comp`/`decomp` the compressor (zlib or lzma).  Arrays are their bytes.
-/
import Verif.Base.Base64
import Verif.Base.Runs
namespace Meshio.Vtu
open Meshio

/-- `num_bytes_to_num_base64_chars`, /repo/src/meshio/vtu/_vtu.py:28-31:
`-(-num_bytes // 3) * 4` (floor division). -/
def numChars (n : Nat) : Nat := ((-((-(n : Int)).fdiv 3)) * 4).toNat

/-- The loop of `_chunk_it`, /repo/src/meshio/vtu/_vtu.py:587-591; `fuel` bounds the number
of rounds (`array.length` rounds are enough when `n > 0`). -/
def chunkLoop {α : Type} (a : List α) (n : Nat) : Nat → Nat → List (List α)
  | 0, _ => []
  | fuel + 1, k =>
    if k * n < a.length then pySlice a (k * n) ((k + 1) * n) :: chunkLoop a n fuel (k + 1) else []

/-- `_chunk_it`, /repo/src/meshio/vtu/_vtu.py:587-591. -/
def chunkIt {α : Type} (a : List α) (n : Nat) : List (List α) := chunkLoop a n a.length 0

/-- `max_block_size`, /repo/src/meshio/vtu/_vtu.py:707. -/
def maxBlock : Nat := 32768

/-- The header of the compressed format, /repo/src/meshio/vtu/_vtu.py:711-731.  Entries are
stored in `w` bytes; numpy rejects or wraps larger values (the theorems exclude them). -/
def compHeader (nbytes : Nat) (blocks : List (List Byte)) : List Int :=
  let numBlocks : Int := -((-(nbytes : Int)).fdiv maxBlock)
  let last : Int := nbytes - (numBlocks - 1) * maxBlock
  [numBlocks, maxBlock, last] ++ blocks.map (fun b => (b.length : Int))

/-- Header integers as bytes (`header.tobytes()`). -/
def headerBytes (big : Bool) (w : Nat) (h : List Int) : List Byte :=
  h.flatMap (fun z => natEnc big w (z % ((256 : Int) ^ w)).toNat)

/-- `text_writer_compressed`, /repo/src/meshio/vtu/_vtu.py:706-733. -/
def writeCompressed (comp : List Byte → List Byte) (big : Bool) (w : Nat) (data : List Byte) :
    List Char :=
  let blocks := (chunkIt data maxBlock).map comp
  b64enc (headerBytes big w (compHeader data.length blocks)) ++ b64enc blocks.flatten

/-- `text_writer_uncompressed`, /repo/src/meshio/vtu/_vtu.py:735-739. -/
def writeUncompressed (big : Bool) (w : Nat) (data : List Byte) : List Char :=
  b64enc (natEnc big w data.length ++ data)

/-- `np.frombuffer(bytes, header_dtype)[0]` for at most one item. -/
def headItem (big : Bool) (w : Nat) (l : List Byte) : Res Nat :=
  if l.length = w then .ok (natDec big l) else .error .valueError

/-- `np.frombuffer(bytes, dtype)` as far as bytes are concerned: the length must be a
multiple of the item size. -/
def fromBuffer (isz : Nat) (l : List Byte) : Res (List Byte) :=
  if l.length % isz = 0 then .ok l else .error .valueError

/-- `read_uncompressed_binary`, /repo/src/meshio/vtu/_vtu.py:447-472.  `isz` is the item
size of the array's dtype. -/
def readUncompressed (big : Bool) (w isz : Nat) (text : List Char) : Res (List Byte) :=
  match b64dec text with
  | .error e => .error e
  | .ok bs =>
    match headItem big w (bs.take w) with
    | .error e => .error e
    | .ok total =>
      if bs.length = w then
        match b64dec (text.drop (b64enc bs).length) with
        | .error e => .error e
        | .ok bs' => fromBuffer isz (bs'.take total)
      else fromBuffer isz ((bs.drop w).take total)

/-- `np.cumsum(block_sizes)` stored with the header's dtype (`w` bytes, wrapping). -/
def cumOffsets (w : Nat) : Nat → List Nat → List Nat
  | acc, [] => [acc % 256 ^ w]
  | acc, n :: ns => acc % 256 ^ w :: cumOffsets w (acc + n) ns

/-- One decompressed block. -/
def readBlock (decomp : List Byte → Res (List Byte)) (isz : Nat) (bytes : List Byte)
    (offs : List Nat) (k : Nat) : Res (List Byte) :=
  match offs[k]?, offs[k + 1]? with
  | some s, some e =>
    match decomp (pySlice bytes s e) with
    | .error e => .error e
    | .ok b => fromBuffer isz b
  | _, _ => .error .indexError

/-- `read_compressed_binary`, /repo/src/meshio/vtu/_vtu.py:474-525.  `np.concatenate` of an
empty list is a ValueError. -/
def readCompressed (decomp : List Byte → Res (List Byte)) (big : Bool) (w isz : Nat)
    (text : List Char) : Res (List Byte) :=
  match b64dec (text.take (numChars w)) with
  | .error e => .error e
  | .ok bs =>
    match headItem big w (bs.take w) with
    | .error e => .error e
    | .ok numBlocks =>
      let nh := numChars (w * (3 + numBlocks))
      match b64dec (text.take nh) with
      | .error e => .error e
      | .ok hs =>
        match fromBuffer w hs with
        | .error e => .error e
        | .ok hs =>
          let sizes := ((items w (hs.length / w) hs).map (natDec big)).drop 3
          match b64dec (text.drop nh) with
          | .error e => .error e
          | .ok bytes =>
            match mapRes (readBlock decomp isz bytes (cumOffsets w 0 sizes)) (List.range numBlocks) with
            | .error e => .error e
            | .ok bs => if bs = [] then .error .valueError else .ok bs.flatten

/-! ### Raw appended data -/

/-- One array of uncompressed raw data: the number of bytes consumed and the bytes to be
encoded, /repo/src/meshio/vtu/_vtu.py:231-235. -/
def rawItem (big : Bool) (w : Nat) (data : List Byte) : Res (Nat × List Byte) :=
  match headItem big w (data.take w) with
  | .error e => .error e
  | .ok n => .ok (n + w, data.take (n + w))

/-- The blocks of one compressed array, /repo/src/meshio/vtu/_vtu.py:255-263: decompressed
data and the number of bytes consumed. -/
def rawBlocks (decomp : List Byte → Res (List Byte)) (body : List Byte) :
    List Nat → Nat → Res (List Byte × Nat)
  | [], j => .ok ([], j)
  | n :: ns, j =>
    match decomp (pySlice body j (j + n)) with
    | .error e => .error e
    | .ok b =>
      match rawBlocks decomp body ns (j + n) with
      | .error e => .error e
      | .ok (bs, j') => .ok (b ++ bs, j')

/-- One array of compressed raw data, /repo/src/meshio/vtu/_vtu.py:248-268. -/
def rawItemC (decomp : List Byte → Res (List Byte)) (big : Bool) (w : Nat) (data : List Byte) :
    Res (Nat × List Byte) :=
  match headItem big w (data.take w) with
  | .error e => .error e
  | .ok nb =>
    let nhb := (3 + nb) * w
    if (data.take nhb).length % w ≠ 0 then .error .valueError
    else
      let header := (items w ((data.take nhb).length / w) (data.take nhb)).map (natDec big)
      if header.length < 3 + nb then .error .indexError
      else
        match rawBlocks decomp (data.drop nhb) ((header.drop 3).take nb) 0 with
        | .error e => .error e
        | .ok (bs, j) => .ok (j + nhb, natEnc big w bs.length ++ bs)

/-- The loop over the raw data, /repo/src/meshio/vtu/_vtu.py:217-235 (and 244-268):
`tags` are the `offset` attributes of the DataArrays in document order; the first one equal
to the current position is overwritten with the new position.  `item` handles one array.
(In the compressed branch a missing tag is an AssertionError instead of a RuntimeError.) -/
def rawLoop (item : List Byte → Res (Nat × List Byte)) (data : List Byte) :
    Nat → Nat → List Nat → List Char → Res (List Nat × List Char)
  | 0, _, tags, arrays => .ok (tags, arrays)
  | fuel + 1, i, tags, arrays =>
    if i < data.length then
      if i ∈ tags then
        match item (data.drop i) with
        | .error e => .error e
        | .ok (n, enc) =>
          rawLoop item data fuel (i + n) (tags.set (tags.idxOf i) arrays.length)
            (arrays ++ b64enc enc)
      else .error .runtimeError
    else .ok (tags, arrays)

/-- `_parse_raw_binary` on the appended bytes, /repo/src/meshio/vtu/_vtu.py:215-271.  Every
round consumes at least one byte, so `data.length` rounds are enough. -/
def parseRaw (item : List Byte → Res (Nat × List Byte)) (data : List Byte) (tags : List Nat) :
    Res (List Nat × List Char) :=
  rawLoop item data data.length 0 tags []

end Meshio.Vtu
