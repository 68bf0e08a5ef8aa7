/-
C22, C51, C54: VTU array encodings.
-/
import Verif.Proofs.VtuArray
namespace Meshio.Props
open Meshio Meshio.Vtu

/-! ## C51: chunking -/

/-- The chunks of an array, one after the other, are the array. -/
theorem C51_concat {α : Type} (a : List α) (n : Nat) (hn : 0 < n) : (chunkIt a n).flatten = a :=
  flatten_chunkIt a n hn

/-- No chunk is empty or larger than `n`; every chunk but the last has exactly `n` entries. -/
theorem C51_sizes {α : Type} (a : List α) (n i : Nat) (hn : 0 < n) (c : List α)
    (h : (chunkIt a n)[i]? = some c) :
    0 < c.length ∧ c.length ≤ n ∧ (i + 1 < (chunkIt a n).length → c.length = n) := by
  obtain ⟨h1, h2⟩ := get_chunkIt a n i c h
  have hl : c.length = min n (a.length - i * n) := by rw [h2]; simp
  refine ⟨by omega, by omega, fun h3 => ?_⟩
  obtain ⟨c', hc'⟩ : ∃ c', (chunkIt a n)[i + 1]? = some c' := ⟨_, List.getElem?_eq_getElem h3⟩
  obtain ⟨h4, _⟩ := get_chunkIt a n (i + 1) c' hc'
  have : (i + 1) * n = i * n + n := by ring
  omega

/-- The number of chunks is the number of entries divided by the size, rounded up; it is
also the block count in the header, and the third header entry is the size of the last
block. -/
theorem C51_header (comp : List Byte → List Byte) (data : List Byte) (hne : data ≠ []) :
    (chunkIt data maxBlock).length = (data.length + (32768 - 1)) / 32768 ∧
    ∃ c, (chunkIt data maxBlock).getLast? = some c ∧
      compHeader data.length ((chunkIt data maxBlock).map comp) =
        ((chunkIt data maxBlock).length : Int) :: 32768 :: (c.length : Int) ::
          (chunkIt data maxBlock).map (fun c => ((comp c).length : Int)) := by
  have hl : (chunkIt data maxBlock).length = (data.length + 32767) / 32768 :=
    length_chunkIt data maxBlock (by decide)
  refine ⟨hl, ?_⟩
  have hpos : 0 < data.length := List.length_pos_iff.mpr hne
  have hk : (chunkIt data maxBlock).length - 1 < (chunkIt data maxBlock).length := by omega
  have hg := List.getElem?_eq_getElem hk
  refine ⟨_, by rw [List.getLast?_eq_getElem?, hg], ?_⟩
  obtain ⟨h1, h2⟩ := get_chunkIt data maxBlock _ _ hg
  have hc : ((chunkIt data maxBlock)[(chunkIt data maxBlock).length - 1]).length =
      data.length + 32768 - (chunkIt data maxBlock).length * 32768 := by
    rw [h2, List.length_take, List.length_drop]
    show min 32768 (data.length - ((chunkIt data maxBlock).length - 1) * 32768) = _
    omega
  rw [compHeader_eq]
  simp only [headNats, List.map_append, List.map_cons, List.map_nil, List.cons_append,
    List.nil_append, List.map_map, Function.comp_def]
  have e : (data.length + 32767) / 32768 = (chunkIt data maxBlock).length := by rw [hl]
  rw [e, hc]
  rfl

example : chunkIt [1, 2, 3, 4, 5] 2 = [[1, 2], [3, 4], [5]] := by decide

/-! ## C22: base64 arrays -/

/-- The parameters under which an array can be stored: the sizes fit the header integer
and the item size divides the number of bytes. -/
def ArrayFits (w isz : Nat) (data : List Byte) : Prop :=
  data.length < 256 ^ w ∧ 0 < isz ∧ data.length % isz = 0

/-- Uncompressed arrays: for every contents, header width and byte order the text written is
read back, also when it is followed by further arrays (appended data). -/
theorem C22_uncompressed (big : Bool) (w isz : Nat) (data : List Byte)
    (h : ArrayFits w isz data) (rest : List (List Byte)) :
    readUncompressed big w isz (writeUncompressed big w data ++ rest.flatMap b64enc) = .ok data :=
  readUncompressed_ok big w isz data h.1 h.2.2 rest

/-- The same for files in which size and data are encoded separately. -/
theorem C22_separate_header (big : Bool) (w isz : Nat) (hw : w = 1 ∨ w = 2 ∨ w = 4 ∨ w = 8)
    (data : List Byte) (h : ArrayFits w isz data) (rest : List (List Byte)) :
    readUncompressed big w isz
      (b64enc (natEnc big w data.length) ++ (b64enc data ++ rest.flatMap b64enc)) = .ok data :=
  readUncompressed_separate big w isz (by omega) data h.1 h.2.2 rest

/-- What the uncompressed text is: the base64 form of the size and the bytes. -/
theorem C22_uncompressed_text (big : Bool) (w : Nat) (data : List Byte) :
    b64dec (writeUncompressed big w data) = .ok (natEnc big w data.length ++ data) ∧
      (writeUncompressed big w data).length = (w + data.length + 2) / 3 * 4 := by
  refine ⟨b64dec_enc _, ?_⟩
  unfold writeUncompressed
  rw [length_b64enc, List.length_append, length_natEnc]

/-- C22 for compressed arrays as stated: whatever lossless compressor is used, every array
is read back. -/
def C22_compressed_statement : Prop :=
  ∀ (comp : List Byte → List Byte) (decomp : List Byte → Res (List Byte)),
    (∀ b, decomp (comp b) = .ok b) → ∀ (big : Bool) (w isz : Nat) (data : List Byte),
    ArrayFits w isz data → 32768 < 256 ^ w → 32768 % isz = 0 →
    (((chunkIt data maxBlock).map comp).map List.length).sum < 256 ^ w →
    readCompressed decomp big w isz (writeCompressed comp big w data) = .ok data

/-- False: an empty array has no blocks, and the reader cannot concatenate none. -/
theorem C22_compressed_false : ¬ C22_compressed_statement := by
  intro h
  have h1 := h id .ok (fun _ => rfl) false 4 8 [] (by unfold ArrayFits; decide) (by decide)
    (by decide) (by decide)
  rw [readCompressed_empty id .ok false 4 8 (by decide)] at h1
  cases h1

/-- An empty array always fails. -/
theorem C22_compressed_empty (comp : List Byte → List Byte) (decomp : List Byte → Res (List Byte))
    (big : Bool) (w isz : Nat) (hw : 32768 < 256 ^ w) :
    readCompressed decomp big w isz (writeCompressed comp big w []) = .error .valueError :=
  readCompressed_empty comp decomp big w isz hw

/-- Everything but the empty array is read back, also when followed by further arrays. -/
theorem C22_compressed_partial (comp : List Byte → List Byte) (decomp : List Byte → Res (List Byte))
    (hc : ∀ b, decomp (comp b) = .ok b) (big : Bool) (w isz : Nat) (data : List Byte)
    (hne : data ≠ []) (h : ArrayFits w isz data) (hw : 32768 < 256 ^ w) (hisz : 32768 % isz = 0)
    (hsum : (((chunkIt data maxBlock).map comp).map List.length).sum < 256 ^ w)
    (rest : List (List Byte)) :
    readCompressed decomp big w isz (writeCompressed comp big w data ++ rest.flatMap b64enc) =
      .ok data :=
  readCompressed_ok comp decomp hc big w isz data hne hw h.1 hsum ⟨h.2.1, hisz⟩ h.2.2 rest

/-- Non-trivial instance: three 8-byte numbers in a 4-byte header. -/
example : ArrayFits 4 8 (List.replicate 24 (7 : Byte)) ∧ (32768 < 256 ^ 4) ∧ (32768 % 8 = 0) ∧
    List.replicate 24 (7 : Byte) ≠ [] := by
  unfold ArrayFits; decide

example : writeUncompressed false 4 [1, 2, 3] = "AwAAAAECAw==".toList := by decide +kernel

/-! ## C54: raw appended data -/

/-- Each `DataArray` refers, before the conversion, to its array in the raw section (arrays
in document order), and must refer to the same array afterwards. -/
def C54_statement : Prop :=
  ∀ (big : Bool) (w : Nat) (arrays : List (List Byte)), 0 < w →
    (∀ a ∈ arrays, a.length < 256 ^ w) →
    ∃ tags text,
      parseRaw (rawItem big w) (arrays.flatMap (fun a => natEnc big w a.length ++ a))
        (startsFrom 0 (arrays.map (fun a => w + a.length))) = .ok (tags, text) ∧
      tags.length = arrays.length ∧
      ∀ (k t : Nat) (a : List Byte), arrays[k]? = some a → tags[k]? = some t →
        readUncompressed big w 1 (text.drop t) = .ok a

/-- False: the new position of one array can be the old position of a later one, and then
the first of the two is moved again.  With arrays of 32, 8 and 8 bytes the last two arrays
are swapped. -/
theorem C54_false : ¬ C54_statement := by
  intro h
  have e : parseRaw (rawItem false 4)
      ([List.replicate 32 0, List.replicate 8 1, List.replicate 8 2].flatMap
        (fun a => natEnc false 4 a.length ++ a))
      (startsFrom 0 ([List.replicate 32 (0 : Byte), List.replicate 8 1, List.replicate 8 2].map
        (fun a => 4 + a.length))) =
      .ok ([0, 64, 48], b64enc (natEnc false 4 32 ++ List.replicate 32 0) ++
        b64enc (natEnc false 4 8 ++ List.replicate 8 1) ++
        b64enc (natEnc false 4 8 ++ List.replicate 8 2)) := by decide +kernel
  obtain ⟨tags, text, h1, _, h3⟩ := h false 4
    [List.replicate 32 0, List.replicate 8 1, List.replicate 8 2] (by decide)
    (by decide +kernel)
  rw [e] at h1
  injection h1 with h1
  injection h1 with h1 h2
  subst h1 h2
  have := h3 1 64 (List.replicate 8 1) (by decide) (by decide)
  exact absurd this (by decide +kernel)

/-- What holds: when no new position coincides with a later old one, every array is found
again.  `items` gives for each array its raw form and its contents. -/
theorem C54_no_clash_partial (big : Bool) (w : Nat) (hw : 0 < w)
    (item : List Byte → Res (Nat × List Byte)) (arrays : List (List Byte × List Byte))
    (hitem : ∀ x ∈ arrays, RawOk item x.1 (natEnc big w x.2.length ++ x.2))
    (hfit : ∀ x ∈ arrays, x.2.length < 256 ^ w)
    (hno : ∀ (j k n i : Nat), j < k →
      (startsFrom 0 (arrays.map (fun x => (w + x.2.length + 2) / 3 * 4)))[j]? = some n →
      (startsFrom 0 (arrays.map (·.1.length)))[k]? = some i → n ≠ i) :
    ∃ tags text,
      parseRaw item (arrays.flatMap (·.1)) (startsFrom 0 (arrays.map (·.1.length))) =
        .ok (tags, text) ∧
      tags.length = arrays.length ∧
      ∀ (k t : Nat) (x : List Byte × List Byte), arrays[k]? = some x → tags[k]? = some t →
        readUncompressed big w 1 (text.drop t) = .ok x.2 := by
  have hlen : ∀ x : List Byte × List Byte,
      (b64enc (natEnc big w x.2.length ++ x.2)).length = (w + x.2.length + 2) / 3 * 4 := by
    intro x; rw [length_b64enc, List.length_append, length_natEnc]
  have h1 := rawLoop_ok item (arrays.map (fun x => (x.1, natEnc big w x.2.length ++ x.2)))
    (by
      intro y hy
      obtain ⟨x, hx, rfl⟩ := List.mem_map.mp hy
      exact hitem x hx)
    [] (arrays.flatMap (·.1)).length (by rw [List.flatMap_map]) [] []
    (by simp)
    (by
      simp only [List.map_map, Function.comp_def, List.length_nil, hlen]
      exact hno)
  simp only [List.nil_append, List.length_nil, List.map_map, Function.comp_def, List.flatMap_map] at h1
  refine ⟨_, _, h1, ?_, ?_⟩
  · have : ∀ (i : Nat) (l : List Nat), (startsFrom i l).length = l.length := by
      intro i l
      induction l generalizing i with
      | nil => rfl
      | cons n l ih => simp [startsFrom, ih]
    rw [this]; simp
  · intro k t x hx ht
    have key : ∀ (arr : List (List Byte × List Byte)) (k : Nat) (pre : List Char) (t : Nat)
        (x : List Byte × List Byte), (∀ y ∈ arr, y.2.length < 256 ^ w) → arr[k]? = some x →
        (startsFrom pre.length (arr.map (fun y => (b64enc (natEnc big w y.2.length ++ y.2)).length)))[k]? =
          some t →
        readUncompressed big w 1 ((pre ++ arr.flatMap (fun y =>
          b64enc (natEnc big w y.2.length ++ y.2))).drop t) = .ok x.2 := by
      intro arr
      induction arr with
      | nil => intro k pre t x _ h; simp at h
      | cons y arr ih =>
        intro k pre t x hf hx ht
        cases k with
        | zero =>
          simp only [List.getElem?_cons_zero, Option.some.injEq] at hx
          subst hx
          simp only [List.map_cons, startsFrom, List.getElem?_cons_zero, Option.some.injEq] at ht
          rw [← ht, drop_append_exact _ _ _ rfl, List.flatMap_cons]
          have := readUncompressed_ok big w 1 y.2 (hf y (by simp)) (by omega)
            (arr.map (fun y => natEnc big w y.2.length ++ y.2))
          rw [List.flatMap_map] at this
          exact this
        | succ k =>
          simp only [List.getElem?_cons_succ] at hx
          simp only [List.map_cons, startsFrom, List.getElem?_cons_succ] at ht
          have := ih k (pre ++ b64enc (natEnc big w y.2.length ++ y.2)) t x
            (fun z hz => hf z (by simp [hz])) hx (by rw [List.length_append]; exact ht)
          rw [List.append_assoc] at this
          exact this
    exact key arrays k [] t x hfit hx ht

/-- The raw forms for which this applies: plain arrays … -/
theorem C54_plain (big : Bool) (w : Nat) (hw : 0 < w) (data : List Byte)
    (h : data.length < 256 ^ w) :
    RawOk (rawItem big w) (natEnc big w data.length ++ data) (natEnc big w data.length ++ data) :=
  rawOk_plain big w hw data h

/-- … and compressed arrays in any number of blocks. -/
theorem C54_compressed (comp : List Byte → List Byte) (decomp : List Byte → Res (List Byte))
    (hc : ∀ b, decomp (comp b) = .ok b) (big : Bool) (w : Nat) (hw : 0 < w)
    (chunks : List (List Byte)) (h1 h2 : Nat)
    (hfit : ∀ n ∈ chunks.length :: h1 :: h2 :: chunks.map (fun c => (comp c).length), n < 256 ^ w) :
    RawOk (rawItemC decomp big w) (rawCompressed comp big w chunks h1 h2)
      (natEnc big w chunks.flatten.length ++ chunks.flatten) :=
  rawOk_comp comp decomp hc big w hw chunks h1 h2 hfit

/-- The condition of `C54_no_clash_partial` is met by arrays of 24, 12 and 8 bytes with a
4-byte header: old positions 0, 28, 44 and new positions 0, 40, 64. -/
example : ∀ (j k n i : Nat), j < k →
    (startsFrom 0 ([24, 12, 8].map (fun b => (4 + b + 2) / 3 * 4)))[j]? = some n →
    (startsFrom 0 ([24, 12, 8].map (fun b => 4 + b)))[k]? = some i → n ≠ i := by
  have h1 : startsFrom 0 ([24, 12, 8].map (fun b => (4 + b + 2) / 3 * 4)) = [0, 40, 64] := by decide
  have h2 : startsFrom 0 ([24, 12, 8].map (fun b => 4 + b)) = [0, 28, 44] := by decide
  rw [h1, h2]
  intro j k n i hjk hn hi
  have hk : k < 3 := (List.getElem?_eq_some_iff.mp hi).1
  have : (j = 0 ∧ k = 1) ∨ (j = 0 ∧ k = 2) ∨ (j = 1 ∧ k = 2) := by omega
  rcases this with ⟨rfl, rfl⟩ | ⟨rfl, rfl⟩ | ⟨rfl, rfl⟩ <;>
    simp at hn hi <;> omega

end Meshio.Props
