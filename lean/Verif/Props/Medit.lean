/-
C36: Medit files are well linked and round trip.
-/
import Verif.Proofs.MeditText

namespace Meshio.Props
open Meshio Medit Types Tables Spec.Medit

variable {F : Type}

/-! ## Binary files -/

/-- A tetrahedron and a triangle, with references for the cells. -/
def meditExCells : List Blk := [⟨"tetra", 8, [[0, 1, 2, 3]]⟩, ⟨"vertex", 8, [[2]]⟩, ⟨"triangle", 4, [[0, 1, 2], [1, 2, 3]]⟩]

theorem meditExWritable : Writable (fileInt meditExCells) 3 [[0, 0, 0], [1, 0, 0], [0, 1, 0], [0, 0, (1 : Int)]] none meditExCells
    (some [[7], [5], [-8, 9]]) where
  h_dim := Or.inr rfl
  h_points := by decide
  h_pref := by intro l h; cases h
  h_rows := by
    intro b hb n hn
    simp only [meditExCells, List.mem_cons, List.not_mem_nil, or_false] at hb
    rcases hb with rfl | rfl | rfl
    · rw [show nodes "tetra" = some 4 by decide] at hn; cases hn; decide
    · rw [show nodes "vertex" = none by decide] at hn; cases hn
    · rw [show nodes "triangle" = some 3 by decide] at hn; cases hn; decide
  h_cref := by
    intro l h i b hb
    cases h
    match i, hb with
    | 0, hb => cases hb; exact ⟨[7], rfl, rfl, by decide⟩
    | 1, hb => cases hb; exact ⟨[5], rfl, rfl, by decide⟩
    | 2, hb => cases hb; exact ⟨[-8, 9], rfl, rfl, by decide⟩
    | i + 3, hb => exact absurd hb (by simp [meditExCells])
  h_nodes := by decide
  h_npoints := by decide
  h_ncells := by decide

/-- Every position is the byte offset of the next keyword; the last keyword is End, and the file ends behind it.  The keywords are
the dimension, the vertices and one for each block of a type known to Medit, in order. -/
theorem C36_linked (io : BinFloat F) (dim : Nat) (points : List (List F)) (pref : Option (List Int)) (cells : List Blk)
    (cref : Option (List (List Int))) (h : Writable (fileInt cells) dim points pref cells cref) :
    ∃ file, writeBinary io dim points pref cells cref = .ok file ∧
      (file.length < 2 ^ 63 → ∃ offs ks : List Nat, Linked file 8 offs ∧
        (8 :: offs).map (fun o => intAt 4 o file) = [3, 4] ++ ks.map (fun (k : Nat) => (k : Int)) ++ [54] ∧
        ks.map cellCode = (kept cells cref).map fun b => some b.type) := by
  refine ⟨_, writeBinary_eq io dim points pref cells cref h, fun hl => ?_⟩
  have hlen : (pref.getD (List.replicate points.length 1)).length = points.length := by
    cases hp : pref with
    | none => simp
    | some l => exact (h.h_pref l hp).1
  generalize hisz : fileInt cells = isz at *
  generalize hver : (if isz = 8 then 4 else 3 : Nat) = version at *
  have hc := fieldList_chained io isz cref 0 (24 + points.length * dim * 8 + points.length * isz + (4 + 8 + isz)) cells h.h_rows
    (fun l hl i b hi => by
      obtain ⟨r, h1, h2, _⟩ := h.h_cref l hl i b hi
      exact ⟨r, by rw [Nat.zero_add]; exact h1, h2⟩)
  have hhl : (header (wz isz) version dim 24).length = 24 := by simp [header, length_intEnc, wz]
  have hvl : ∀ pos : Int, (Field.bytes io (wz isz) (.vertices pos (points.zip (pref.getD (List.replicate points.length 1))))).length =
      points.length * dim * 8 + points.length * isz + (4 + 8 + isz) := by
    intro pos
    simp only [Field.bytes, List.length_append, length_intEnc]
    rw [length_flatMap_const (8 * dim + isz) _ _ (fun r hr => length_vertex io (wz isz) dim r (h.h_points r.1 (List.of_mem_zip hr).1))]
    simp only [List.length_zip, hlen, Nat.min_self, wz]
    rw [Nat.mul_add, Nat.mul_comm 8 dim, ← Nat.mul_assoc]
    omega
  have hch : Chained io isz (header (wz isz) version dim 24).length (allFields isz dim points pref cells cref) := by
    rw [hhl]
    unfold allFields
    simp only
    refine ⟨?_, by simp [Field.key], by simp [Field.key], ?_⟩
    · rw [hvl]
      simp only [Field.pos]
      omega
    · rw [hvl, show 24 + (points.length * dim * 8 + points.length * isz + (4 + 8 + isz)) =
        24 + points.length * dim * 8 + points.length * isz + (4 + 8 + isz) by omega]
      exact hc.1
  rw [List.append_assoc] at hl ⊢
  obtain ⟨l1, l2⟩ := linked_chain io isz _ _ hch hl
  rw [hhl] at l1 l2
  generalize hrest : (allFields isz dim points pref cells cref).flatMap (Field.bytes io (wz isz)) ++ (intEnc false 4 54 ++ intEnc false 8 0) = rest at *
  have hrl : 0 < rest.length := by rw [← hrest]; simp [length_intEnc]
  have e1 : intAt 4 8 (header (wz isz) version dim 24 ++ rest) = 3 := by
    have := intAt_left 4 3 (by decide) (intEnc false 4 1 ++ intEnc false 4 version) (intEnc false 8 24 ++ (intEnc false 4 dim ++ rest))
    simp only [List.length_append, length_intEnc] at this
    simpa only [header, wz, List.append_assoc] using this
  have e2 : intAt 8 12 (header (wz isz) version dim 24 ++ rest) = 24 := by
    have := intAt_left 8 24 (by decide) (intEnc false 4 1 ++ (intEnc false 4 version ++ intEnc false 4 3)) (intEnc false 4 dim ++ rest)
    simp only [List.length_append, length_intEnc] at this
    simpa only [header, wz, List.append_assoc] using this
  refine ⟨24 :: offsets io isz 24 (allFields isz dim points pref cells cref),
    (fieldList (F := F) isz cref 0 (24 + points.length * dim * 8 + points.length * isz + (4 + 8 + isz)) cells).map Field.key, ?_, ?_, ?_⟩
  · refine ⟨by rw [e1]; decide, e2, by omega, ?_, l1⟩
    simp only [List.length_append, hhl]
    omega
  · rw [List.map_cons, e1, l2]
    simp [allFields, Field.key, Function.comp_def]
  · rw [List.map_map]
    simp only [kept, List.map_map]
    exact hc.2

example : ∃ file, writeBinary (BinFloat.word) 3 [[0, 0, 0], [1, 0, 0], [0, 1, 0], [0, 0, 1]] none meditExCells (some [[7], [5], [-8, 9]]) = .ok file ∧
    file.length = 328 ∧ Linked file 8 [24, 172, 232, 316] ∧ ((8 :: [24, 172, 232, 316]).map fun o => intAt 4 o file) = [3, 4, 8, 6, 54] := by
  refine ⟨_, rfl, ?_⟩
  decide +kernel

/-- A written file starts with the code, the version (4 if some array of cells has eight-byte integers, otherwise 3) and the
dimension; behind it come the vertices and the blocks, with node numbers from one and all numbers in little-endian order, and
End. -/
theorem C36_binary_bytes (io : BinFloat F) (dim : Nat) (points : List (List F)) (pref : Option (List Int)) (cells : List Blk)
    (cref : Option (List (List Int))) (h : Writable (fileInt cells) dim points pref cells cref) :
    ∃ fs : List (Field F), writeBinary io dim points pref cells cref =
      .ok (header (layout false (if fileInt cells = 8 then 4 else 3)) (if fileInt cells = 8 then 4 else 3) dim 24 ++
        fs.flatMap (Field.bytes io (layout false (if fileInt cells = 8 then 4 else 3))) ++ (intEnc false 4 54 ++ intEnc false 8 0)) ∧
      (∀ f ∈ fs, f.Ok (layout false (if fileInt cells = 8 then 4 else 3)) dim) ∧
      fs.foldl (Field.meaning io (layout false (if fileInt cells = 8 then 4 else 3))) ⟨none, none, []⟩ =
        ⟨some points, some (pref.getD (List.replicate points.length 1)), kept cells cref⟩ := by
  have hz : layout false (if fileInt cells = 8 then 4 else 3) = wz (fileInt cells) := by
    rcases fileInt_cases cells with h | h <;> rw [h] <;> decide
  have hone : IsInt (fileInt cells) 1 := by
    rcases fileInt_cases cells with h | h <;> rw [h] <;> decide
  have hlen : (pref.getD (List.replicate points.length 1)).length = points.length := by
    cases hp : pref with
    | none => simp
    | some l => exact (h.h_pref l hp).1
  have hc : ∀ l, cref = some l → ∀ (i : Nat) (b : Blk), cells[i]? = some b →
      ∃ r, l[0 + i]? = some r ∧ r.length = b.rows.length ∧ ∀ v ∈ r, IsInt (fileInt cells) v := by
    intro l hl i b hi
    rw [Nat.zero_add]
    exact h.h_cref l hl i b hi
  rw [hz]
  refine ⟨allFields (fileInt cells) dim points pref cells cref, writeBinary_eq io dim points pref cells cref h, ?_, ?_⟩
  · intro f hf
    unfold allFields at hf
    simp only [List.mem_cons] at hf
    rcases hf with rfl | hf
    · refine ⟨by rw [List.length_zip, hlen, Nat.min_self]; exact h.h_npoints, ?_⟩
      intro r hr
      obtain ⟨h1, h2⟩ := List.of_mem_zip hr
      refine ⟨h.h_points _ h1, ?_⟩
      cases hp : pref with
      | none =>
        rw [hp] at h2
        simp only [Option.getD_none, List.mem_replicate] at h2
        show IsInt (fileInt cells) r.2
        rw [h2.2]
        exact hone
      | some l =>
        rw [hp] at h2
        exact (h.h_pref l hp).2 _ h2
    · exact fieldList_ok _ _ _ _ _ _ h.h_rows hc hone h.h_nodes h.h_ncells f hf
  · unfold allFields
    simp only [List.foldl_cons]
    rw [fieldList_meaning io _ _ _ _ _ (fun l hl i b hi => by
      obtain ⟨r, h1, h2, _⟩ := hc l hl i b hi
      exact ⟨r, h1, h2⟩)]
    have hid : io.rnd (wz (fileInt cells)).fsz = id := by funext x; exact io.rnd8 x
    simp only [Field.meaning, hid, List.map_id_fun, id_eq, List.nil_append, kept]
    rw [map_fst_zip' _ _ hlen, map_snd_zip' _ _ hlen]
    rfl

/-- Binary files in all four versions and both byte orders: whatever the positions are, the reader returns the points, the references
and the blocks of the file; fields that meshio does not use are passed over; what comes behind End is not looked at. -/
theorem C36_binary_meaning (io : BinFloat F) (big : Bool) (version dim : Nat) (hv : 1 ≤ version ∧ version ≤ 4) (hd : dim = 2 ∨ dim = 3)
    (pos : Int) (fs : List (Field F)) (hf : ∀ f ∈ fs, f.Ok (layout big version) dim) (rest : List Byte)
    (hr : rest = [] ∨ ∃ junk, rest = intEnc big 4 54 ++ junk) :
    readBinary io (header (layout big version) version dim pos ++ (fs.flatMap (Field.bytes io (layout big version)) ++ rest)) =
      .ok (fs.foldl (Field.meaning io (layout big version)) ⟨none, none, []⟩) := by
  rw [readBinary_header io big version dim pos hv hd]
  have hlen := length_fields io (layout big version) fs
  obtain ⟨q, hq⟩ : ∃ q, (fs.flatMap (Field.bytes io (layout big version)) ++ rest).length + 1 = fs.length + (q + 1) :=
    ⟨(fs.flatMap (Field.bytes io (layout big version)) ++ rest).length - fs.length, by rw [List.length_append]; omega⟩
  rw [hq, fields_run io _ (layout_isz big version) dim fs hf]
  rcases hr with rfl | ⟨junk, rfl⟩
  · rw [fields, if_pos (by simp)]
  · rw [fields, if_neg (by simp [length_intEnc])]
    have he : find medit_codes 54 = some ("GmfEnd", "", "") := by decide +kernel
    have := codeOf_enc big 54 _ he junk
    have hb : (layout big version).big = big := rfl
    rw [hb]
    rw [show intEnc big 4 54 = intEnc big 4 ((54 : Nat) : Int) from rfl, this]
    simp only
    rw [if_pos trivial]

example : ∃ io : BinFloat (Fin (256 ^ 8)), (readBinary io (header (layout true 1) 1 2 0 ++
    ([Field.vertices 0 [([1, 2], 3), ([4, 5], -6)], .counted 15 0 2 [0, 0, 0, 1, 0, 0, 0, 2], .single 50 0 (List.replicate 16 0), .reserved 51,
      .cells 5 0 [([1, 2], 9)]].flatMap
      (Field.bytes io (layout true 1)) ++ (intEnc true 4 54 ++ [1])))) =
    .ok ⟨some [[1, 2], [4, 5]], some [3, -6], [⟨"line", [[0, 1]], [9]⟩]⟩ :=
  ⟨BinFloat.word, by decide +kernel⟩

/-- Reading a written binary file returns the points, the references (1 if there are none) and the blocks of the types that Medit
knows. -/
theorem C36_binary_roundtrip (io : BinFloat F) (dim : Nat) (points : List (List F)) (pref : Option (List Int)) (cells : List Blk)
    (cref : Option (List (List Int))) (h : Writable (fileInt cells) dim points pref cells cref) :
    ∃ file, writeBinary io dim points pref cells cref = .ok file ∧
      readBinary io file = .ok ⟨some points, some (pref.getD (List.replicate points.length 1)), kept cells cref⟩ := by
  obtain ⟨fs, h1, h2, h3⟩ := C36_binary_bytes io dim points pref cells cref h
  refine ⟨_, h1, ?_⟩
  rw [List.append_assoc, C36_binary_meaning io false _ dim (by split <;> omega) h.h_dim 24 fs h2 _ (Or.inr ⟨intEnc false 8 0, rfl⟩), h3]

example : ∃ file, writeBinary BinFloat.word 3 [[0, 0, 0], [1, 0, 0], [0, 1, 0], [0, 0, 1]] none meditExCells (some [[7], [5], [-8, 9]]) = .ok file ∧
    readBinary BinFloat.word file = .ok ⟨some [[0, 0, 0], [1, 0, 0], [0, 1, 0], [0, 0, 1]], some [1, 1, 1, 1],
      [⟨"tetra", [[0, 1, 2, 3]], [7]⟩, ⟨"triangle", [[0, 1, 2], [1, 2, 3]], [-8, 9]⟩]⟩ := by
  refine ⟨_, rfl, ?_⟩
  decide +kernel

/-- A file whose first four bytes are not the number one in either byte order is rejected. -/
theorem C36_rejects_code (io : BinFloat F) (s : List Byte) (h : 4 ≤ s.length) (hc : s.take 4 ≠ intEnc false 4 1 ∧ s.take 4 ≠ intEnc true 4 1) :
    readBinary io s = .error .readError := by
  have hl : (s.take 4).length = 4 := by simp; omega
  unfold readBinary takeInt
  rw [if_neg (by omega)]
  simp only
  rw [if_pos]
  obtain ⟨a, b, c, d, hs⟩ : ∃ a b c d, s.take 4 = [a, b, c, d] := by
    match s.take 4, hl with
    | [a, b, c, d], _ => exact ⟨a, b, c, d, rfl⟩
  rw [hs] at hc ⊢
  rw [show intEnc false 4 1 = [1, 0, 0, 0] by decide, show intEnc true 4 1 = [0, 0, 0, 1] by decide] at hc
  have hv : natDec false [a, b, c, d] = a.val + 256 * (b.val + 256 * (c.val + 256 * d.val)) := by
    simp [natDec, leDec]
  have ha := a.isLt
  have hb := b.isLt
  have hcc := c.isLt
  have hd := d.isLt
  have key : ∀ x : Nat, x = natDec false [a, b, c, d] → x ≠ 1 ∧ x ≠ 16777216 := by
    intro x hx
    rw [hv] at hx
    constructor
    · intro h1
      apply hc.1
      have e1 : a = 1 := Fin.ext (by show a.val = 1; omega)
      have e2 : b = 0 := Fin.ext (by show b.val = 0; omega)
      have e3 : c = 0 := Fin.ext (by show c.val = 0; omega)
      have e4 : d = 0 := Fin.ext (by show d.val = 0; omega)
      rw [e1, e2, e3, e4]
    · intro h1
      apply hc.2
      have e1 : a = 0 := Fin.ext (by show a.val = 0; omega)
      have e2 : b = 0 := Fin.ext (by show b.val = 0; omega)
      have e3 : c = 0 := Fin.ext (by show c.val = 0; omega)
      have e4 : d = 1 := Fin.ext (by show d.val = 1; omega)
      rw [e1, e2, e3, e4]
  have hkey := key _ rfl
  have hlt : natDec false [a, b, c, d] < 256 ^ 4 := by rw [hv]; omega
  unfold intDec
  simp only [List.length_cons, List.length_nil]
  generalize natDec false [a, b, c, d] = x at *
  split <;> omega

example : readBinary BinFloat.word (([2, 0, 0, 0] : List Byte) ++ List.replicate 30 0) = .error .readError :=
  C36_rejects_code _ _ (by decide) (by decide)

/-- A version different from 1, 2, 3 and 4 is rejected. -/
theorem C36_rejects_version (io : BinFloat F) (big : Bool) (version : Int) (hi : IsInt 4 version) (hv : version < 1 ∨ 4 < version) (rest : List Byte) :
    readBinary io (intEnc big 4 1 ++ (intEnc big 4 version ++ rest)) = .error .readError := by
  have hcode : takeInt false 4 (intEnc big 4 1 ++ (intEnc big 4 version ++ rest)) =
      .ok (if big then 16777216 else 1, intEnc big 4 version ++ rest) := by
    unfold takeInt
    rw [if_neg (by simp [length_intEnc]), List.take_left' (length_intEnc _ _ _), List.drop_left' (length_intEnc _ _ _)]
    rw [(by decide : ∀ b : Bool, intDec false (intEnc b 4 1) = if b then 16777216 else 1) big]
  unfold readBinary
  rw [hcode]
  simp only
  have h1 : ¬ ((if big = true then (16777216 : Int) else 1) ≠ 1 ∧ (if big = true then (16777216 : Int) else 1) ≠ 16777216) := by
    cases big <;> decide
  have h2 : decide ((if big = true then (16777216 : Int) else 1) = 16777216) = big := by cases big <;> decide
  rw [if_neg h1, h2, takeInt_enc _ _ _ hi]
  simp only
  unfold sizes
  rw [if_pos hv]

example : readBinary BinFloat.word (intEnc true 4 1 ++ (intEnc true 4 5 ++ [])) = .error .readError :=
  C36_rejects_version _ true 5 (by decide) (by decide) _

/-- The field behind the version must be the dimension, and the dimension must be two or three. -/
theorem C36_rejects_dimension (io : BinFloat F) (big : Bool) (version : Nat) (hv : 1 ≤ version ∧ version ≤ 4) (field dim pos : Int)
    (hf : IsInt 4 field) (hd : IsInt 4 dim) (h : field ≠ 3 ∨ (dim ≠ 2 ∧ dim ≠ 3)) (rest : List Byte) :
    readBinary io (intEnc big 4 1 ++ (intEnc big 4 version ++ (intEnc big 4 field ++ (intEnc big (layout big version).psz pos ++
      (intEnc big 4 dim ++ rest))))) = .error .readError := by
  generalize htl : intEnc big 4 field ++ (intEnc big (layout big version).psz pos ++ (intEnc big 4 dim ++ rest)) = tl
  have hcode : takeInt false 4 (intEnc big 4 1 ++ (intEnc big 4 version ++ tl)) =
      .ok (if big then 16777216 else 1, intEnc big 4 version ++ tl) := by
    unfold takeInt
    rw [if_neg (by simp [length_intEnc]), List.take_left' (length_intEnc _ _ _), List.drop_left' (length_intEnc _ _ _)]
    rw [(by decide : ∀ b : Bool, intDec false (intEnc b 4 1) = if b then 16777216 else 1) big]
  unfold readBinary
  rw [hcode]
  simp only
  have h1 : ¬ ((if big = true then (16777216 : Int) else 1) ≠ 1 ∧ (if big = true then (16777216 : Int) else 1) ≠ 16777216) := by
    cases big <;> decide
  have h2 : decide ((if big = true then (16777216 : Int) else 1) = 16777216) = big := by cases big <;> decide
  rw [if_neg h1, h2, takeInt_enc _ _ _ (by unfold IsInt; constructor <;> omega)]
  simp only
  rw [sizes_layout big version hv]
  simp only
  rw [← htl, takeInt_enc _ _ _ hf]
  simp only
  by_cases hf3 : field = 3
  · rw [if_neg (by simpa using hf3), List.drop_left' (length_intEnc _ _ _), takeInt_enc _ _ _ hd]
    simp only
    rw [if_pos (by rcases h with h | h; exact absurd hf3 h; exact h)]
  · rw [if_pos hf3]

example : readBinary BinFloat.word (intEnc false 4 1 ++ (intEnc false 4 (3 : Nat) ++ (intEnc false 4 3 ++ (intEnc false 8 24 ++
    (intEnc false 4 4 ++ []))))) = .error .readError :=
  C36_rejects_dimension _ false 3 (by decide) 3 4 24 (by decide) (by decide) (by decide) _

/-- A keyword number that Medit does not define is rejected, wherever it stands. -/
theorem C36_rejects_keyword (io : BinFloat F) (big : Bool) (version dim : Nat) (hv : 1 ≤ version ∧ version ≤ 4) (hd : dim = 2 ∨ dim = 3)
    (pos : Int) (fs : List (Field F)) (hf : ∀ f ∈ fs, f.Ok (layout big version) dim) (key : Int) (hi : IsInt 4 key)
    (hk : ∀ e ∈ medit_codes, (e.1 : Int) ≠ key) (rest : List Byte) :
    readBinary io (header (layout big version) version dim pos ++ (fs.flatMap (Field.bytes io (layout big version)) ++
      (intEnc big 4 key ++ rest))) = .error .readError := by
  rw [readBinary_header io big version dim pos hv hd]
  have hlen := length_fields io (layout big version) fs
  obtain ⟨q, hq⟩ : ∃ q, (fs.flatMap (Field.bytes io (layout big version)) ++ (intEnc big 4 key ++ rest)).length + 1 = fs.length + (q + 1) :=
    ⟨(fs.flatMap (Field.bytes io (layout big version)) ++ (intEnc big 4 key ++ rest)).length - fs.length, by rw [List.length_append]; omega⟩
  rw [hq, fields_run io _ (layout_isz big version) dim fs hf]
  rw [fields, if_neg (by simp [length_intEnc])]
  have hb : (layout big version).big = big := rfl
  rw [hb, List.take_left' (length_intEnc _ _ _), intDec_intEnc _ _ _ hi]
  have : codeOf key = none := by
    unfold codeOf
    split
    · rfl
    · next hn =>
      cases hfd : find medit_codes key.toNat with
      | none => rfl
      | some e =>
        have := hk _ (find_mem hfd)
        simp only at this
        omega
  rw [this]

example : readBinary BinFloat.word (header (layout false 2) 2 3 0 ++ (([] : List (Field (Fin (256 ^ 8)))).flatMap
    (Field.bytes BinFloat.word (layout false 2)) ++ (intEnc false 4 999 ++ []))) = .error .readError :=
  C36_rejects_keyword _ false 2 3 (by decide) (by decide) 0 [] (by simp) 999 (by decide) (by decide +kernel) _

/-! ## Text files -/

/-- A text file made of well-formed sections in any order: the reader returns the points, the references and the blocks of the file,
and passes over comments, blank lines and the sections that meshio does not use. -/
theorem C36_text_meaning (io : Bool → NumIO F) (sg : Bool) (secs : List (Section F)) (k : Known F)
    (hm : meaning sg ⟨0, false, ⟨none, none, []⟩⟩ secs = some k) (hx : ∀ s ∈ secs, s.Exact (io sg).lim) (hp : k.out.points.isSome = true) :
    readAscii io (text (fun b => (io b).fmt) sg secs) = .ok k.out := by
  obtain ⟨m, h⟩ := sections_run io sg secs _ k hm hx 1 []
  rw [List.append_nil] at h
  unfold readAscii
  have h0 : (⟨0, none, ⟨none, none, []⟩⟩ : St F) = ofKnown sg ⟨0, false, ⟨none, none, []⟩⟩ := rfl
  rw [h0, Nat.add_comm, h, Nat.add_comm, lines, if_pos rfl]
  simp only
  rw [if_neg]
  · rfl
  · intro h
    have : (ofKnown sg k).out = k.out := rfl
    rw [this] at h
    rw [h] at hp
    cases hp

example : readAscii (fun _ => NumIO.int 100) (text (fun _ => (NumIO.int 100).fmt) true [.comment " x".toList, .version 1, .blank, .dimensionBelow 2,
      .cells "Hexaedra" [([8, 7, 6, 5, 4, 3, 2, 1], -4)], .skipped "Ridges" ["1".toList, "2".toList],
      .vertices [([1, 2], 3), ([4, 5], -6)], .oneLine "Identifier" "Vertices".toList, .ints "NormalAtVertices" 2 [[1, 2]], .corners [1, 2],
      .normals [[0, 1]], .onEdge [[1, 2, 3]], .finish]) =
    .ok ⟨some [[1, 2], [4, 5]], some [3, -6], [⟨"hexahedron", [[7, 6, 5, 4, 3, 2, 1, 0]], [-4]⟩]⟩ :=
  C36_text_meaning (fun _ => NumIO.int 100) true _ ⟨2, true, ⟨some [[1, 2], [4, 5]], some [3, -6], [⟨"hexahedron", [[7, 6, 5, 4, 3, 2, 1, 0]], [-4]⟩]⟩⟩
    (by decide +kernel) (by
    intro s hs
    simp only [List.mem_cons, List.not_mem_nil, or_false] at hs
    rcases hs with rfl | rfl | rfl | rfl | rfl | rfl | rfl | rfl | rfl | rfl | rfl | rfl | rfl <;>
      first
        | trivial
        | (intro r hr
           simp only [List.mem_cons, List.not_mem_nil, or_false] at hr
           rcases hr with rfl | rfl <;> decide)) rfl

/-- The keyword of a cell type. -/
def meditName (t : String) : String :=
  if t = "line" then "Edges" else if t = "triangle" then "Triangles" else if t = "quad" then "Quadrilaterals"
  else if t = "tetra" then "Tetrahedra" else if t = "wedge" then "Prisms" else if t = "pyramid" then "Pyramids" else "Hexahedra"

/-- The sections of a written file. -/
def meditSections (sg : Bool) (dim : Nat) (points : List (List F)) (pref : Option (List Int)) (cells : List Blk)
    (cref : Option (List (List Int))) : List (Section F) :=
  [.version (if sg then 1 else 2), .dimension dim, .blank, .vertices (points.zip (pref.getD (List.replicate points.length 1)))] ++
    ((kept cells cref).flatMap fun b => [.blank, .cells (meditName b.type) ((b.rows.zip b.ref).map fun r => (r.1.map (· + 1), r.2))]) ++
    [.blank, .finish]

theorem medit_asciiName (t : String) : match find mediAsciiWrite t with
    | none => nodes t = none
    | some (name, n) => name = meditName t ∧ nodes t = some n ∧ cellKeyword name = some t := by
  cases h : find mediAsciiWrite t with
  | none =>
    simp only
    have hne : ∀ k ∈ mediAsciiWrite, t ≠ k.1 := by
      rintro k hk rfl
      have := (by decide +kernel : ∀ k ∈ mediAsciiWrite, find mediAsciiWrite k.1 ≠ none) k hk
      exact this h
    unfold nodes
    have h1 := hne ("line", "Edges", 2) (by decide)
    have h2 := hne ("triangle", "Triangles", 3) (by decide)
    have h3 := hne ("quad", "Quadrilaterals", 4) (by decide)
    have h4 := hne ("tetra", "Tetrahedra", 4) (by decide)
    have h5 := hne ("wedge", "Prisms", 6) (by decide)
    have h6 := hne ("pyramid", "Pyramids", 5) (by decide)
    have h7 := hne ("hexahedron", "Hexahedra", 8) (by decide)
    rw [if_neg h1, if_neg h2, if_neg h3, if_neg h4, if_neg h5, if_neg h6, if_neg h7]
  | some e =>
    obtain ⟨name, n⟩ := e
    exact (by decide +kernel : ∀ k ∈ mediAsciiWrite, k.2.1 = meditName k.1 ∧ nodes k.1 = some k.2.2 ∧ cellKeyword k.2.1 = some k.1) _ (find_mem h)

theorem medit_cellLine_ok (n : Nat) (rl : List Int × Int) (h : rl.1.length = n) :
    cellLine n rl = .ok (joinWith ' ' ((rl.1.map (· + 1)).map fmtInt ++ [fmtInt rl.2])) := by
  unfold cellLine
  simp only
  rw [if_neg (by simp [h]), List.take_of_length_le (by simp [h]), List.map_append]
  rfl

theorem medit_blockLines_ok (fmt : Bool → F → List Char) (sg : Bool) (cref : Option (List (List Int))) (k : Nat) (bs : List Blk)
    (hrows : ∀ b ∈ bs, ∀ n, nodes b.type = some n → ∀ r ∈ b.rows, r.length = n)
    (hc : ∀ l, cref = some l → ∀ (i : Nat) (b : Blk), bs[i]? = some b → ∃ r, l[k + i]? = some r ∧ r.length = b.rows.length) :
    blockLines cref k bs = .ok (((((bs.zipIdx k).filter fun b => (nodes b.1.type).isSome).map fun b =>
      (⟨b.1.type, b.1.rows, labs cref b.2 b.1⟩ : Out1)).flatMap fun b =>
        ([.blank, .cells (meditName b.type) ((b.rows.zip b.ref).map fun r => (r.1.map (· + 1), r.2))] : List (Section F))).flatMap (Section.lines fmt sg)) := by
  induction bs generalizing k with
  | nil => rfl
  | cons b bs ih =>
    have ih' := ih (k + 1) (fun c hc => hrows c (by simp [hc])) (fun l hl i c hi => by
      obtain ⟨r, hr⟩ := hc l hl (i + 1) c (by simpa using hi)
      exact ⟨r, by rw [show k + 1 + i = k + (i + 1) by omega]; exact hr⟩)
    have hw := medit_asciiName b.type
    rw [blockLines, List.zipIdx_cons]
    cases hfd : find mediAsciiWrite b.type with
    | none =>
      rw [hfd] at hw
      simp only at hw ⊢
      rw [List.filter_cons_of_neg (by simp [hw])]
      exact ih'
    | some e =>
      obtain ⟨name, n⟩ := e
      rw [hfd] at hw
      simp only at hw ⊢
      obtain ⟨hname, hn, _⟩ := hw
      obtain ⟨hlab, hlen⟩ := labelsOf_ok cref k b (fun l hl => by
        obtain ⟨r, hr⟩ := hc l hl 0 b rfl
        exact ⟨r, hr⟩)
      rw [hlab]
      simp only
      rw [mapRes_ok_of_forall (g := fun rl => joinWith ' ' ((rl.1.map (· + 1)).map fmtInt ++ [fmtInt rl.2])) (by
        intro rl hrl
        exact medit_cellLine_ok n rl (hrows b (by simp) n hn rl.1 (List.of_mem_zip hrl).1))]
      simp only
      rw [ih', List.filter_cons_of_pos (by simp [hn])]
      simp only [List.map_cons, List.flatMap_cons, List.flatMap_append, List.flatMap_nil, List.append_nil, Section.lines, hname,
        List.length_map, List.length_zip, hlen, Nat.min_self, List.map_map, List.cons_append, List.nil_append, Function.comp_def]

/-- What a text file written by meshio is. -/
theorem C36_text_lines (io : Bool → NumIO F) (pt : PType) (hpt : pt ≠ .other) (dim : Nat) (points : List (List F)) (pref : Option (List Int))
    (cells : List Blk) (cref : Option (List (List Int))) (hpref : ∀ l, pref = some l → l.length = points.length)
    (hrows : ∀ b ∈ cells, ∀ n, nodes b.type = some n → ∀ r ∈ b.rows, r.length = n)
    (hc : ∀ l, cref = some l → ∀ (i : Nat) (b : Blk), cells[i]? = some b → ∃ r, l[i]? = some r ∧ r.length = b.rows.length) :
    writeAscii io pt dim points pref cells cref =
      .ok (text (fun b => (io b).fmt) (decide (pt = .float32)) (meditSections (decide (pt = .float32)) dim points pref cells cref)) := by
  have hlen : (pref.getD (List.replicate points.length 1)).length = points.length := by
    cases hp : pref with
    | none => simp
    | some l => exact hpref l hp
  unfold writeAscii
  rw [if_neg hpt]
  simp only
  rw [medit_blockLines_ok (fun b => (io b).fmt) (decide (pt = .float32)) cref 0 cells hrows (fun l hl i b hi => by rw [Nat.zero_add]; exact hc l hl i b hi)]
  simp only [text, meditSections, kept, List.flatMap_append, List.flatMap_cons, List.flatMap_nil, List.append_nil, Section.lines,
    List.length_zip, hlen, Nat.min_self]
  congr 2

/-- Reading a written text file returns the points, the references (1 if there are none) and the blocks of the types that Medit
knows. -/
theorem C36_text_roundtrip (io : Bool → NumIO F) (pt : PType) (hpt : pt ≠ .other) (dim : Nat) (hdim : 0 < dim) (points : List (List F))
    (hpoints : ∀ p ∈ points, p.length = dim) (pref : Option (List Int)) (cells : List Blk) (cref : Option (List (List Int)))
    (hpref : ∀ l, pref = some l → l.length = points.length ∧ ∀ i ∈ l, i.natAbs < (io (decide (pt = .float32))).lim)
    (hone : 1 < (io (decide (pt = .float32))).lim)
    (hrows : ∀ b ∈ cells, ∀ n, nodes b.type = some n → ∀ r ∈ b.rows, r.length = n)
    (hc : ∀ l, cref = some l → ∀ (i : Nat) (b : Blk), cells[i]? = some b → ∃ r, l[i]? = some r ∧ r.length = b.rows.length) :
    ∃ file, writeAscii io pt dim points pref cells cref = .ok file ∧
      readAscii io file = .ok ⟨some points, some (pref.getD (List.replicate points.length 1)), kept cells cref⟩ := by
  refine ⟨_, C36_text_lines io pt hpt dim points pref cells cref (fun l hl => (hpref l hl).1) hrows hc, ?_⟩
  have hlen : (pref.getD (List.replicate points.length 1)).length = points.length := by
    cases hp : pref with
    | none => simp
    | some l => exact (hpref l hp).1
  generalize hsg : decide (pt = .float32) = sg at *
  have hk : ∀ b ∈ kept cells cref, (∃ n, nodes b.type = some n ∧ ∀ r ∈ b.rows, r.length = n) ∧ b.ref.length = b.rows.length ∧
      cellKeyword (meditName b.type) = some b.type := by
    intro b hb
    simp only [kept, List.mem_map, List.mem_filter] at hb
    obtain ⟨⟨c, i⟩, ⟨hm, hs⟩, rfl⟩ := hb
    obtain ⟨n, hn⟩ := Option.isSome_iff_exists.mp hs
    simp only at hn
    have hci := List.mem_zipIdx_iff_getElem?.mp hm
    have hcm : c ∈ cells := List.mem_of_getElem? hci
    refine ⟨⟨n, hn, hrows c hcm n hn⟩, ?_, ?_⟩
    · exact (labelsOf_ok cref i c (fun l hl => hc l hl i c hci)).2
    · have := medit_asciiName c.type
      cases hfd : find mediAsciiWrite c.type with
      | none => rw [hfd] at this; rw [this] at hn; cases hn
      | some e =>
        obtain ⟨name, n'⟩ := e
        rw [hfd] at this
        simp only at this
        rw [← this.1]
        exact this.2.2
  have hblocks : ∀ (bs : List Out1) (k : Known F) (tl : List (Section F)), (∀ b ∈ bs, (∃ n, nodes b.type = some n ∧ ∀ r ∈ b.rows, r.length = n) ∧
      b.ref.length = b.rows.length ∧ cellKeyword (meditName b.type) = some b.type) →
      meaning sg k ((bs.flatMap fun b => [.blank, .cells (meditName b.type) ((b.rows.zip b.ref).map fun r => (r.1.map (· + 1), r.2))]) ++ tl) =
        meaning sg { k with out := { k.out with cells := k.out.cells ++ bs } } tl := by
    intro bs
    induction bs with
    | nil => intro k tl _; simp
    | cons b bs ih =>
      intro k tl hb
      obtain ⟨⟨n, hn, hr⟩, hl, hkw⟩ := hb b (by simp)
      have hb' : meaning sg k ((([.blank, .cells (meditName b.type) ((b.rows.zip b.ref).map fun r => (r.1.map (· + 1), r.2))] : List (Section F)) ++
          (bs.flatMap fun b => [.blank, .cells (meditName b.type) ((b.rows.zip b.ref).map fun r => (r.1.map (· + 1), r.2))])) ++ tl) =
          meaning sg { k with out := { k.out with cells := k.out.cells ++ [b] } } ((bs.flatMap fun b => [.blank, .cells (meditName b.type)
            ((b.rows.zip b.ref).map fun r => (r.1.map (· + 1), r.2))]) ++ tl) := by
        simp only [List.cons_append, List.nil_append, meaning, Section.meaning, hkw]
        rw [if_pos (by
          intro r hr'
          simp only [List.mem_map] at hr'
          obtain ⟨x, hx, rfl⟩ := hr'
          simp only [List.length_map]
          rw [hn, hr x.1 (List.of_mem_zip hx).1])]
        rw [block_zip _ _ _ hl]
      rw [List.flatMap_cons, hb', ih _ tl (fun c hc => hb c (by simp [hc]))]
      simp
  have hmean : meaning sg ⟨0, false, ⟨none, none, []⟩⟩ (meditSections sg dim points pref cells cref) =
      some ⟨dim, true, ⟨some points, some (pref.getD (List.replicate points.length 1)), kept cells cref⟩⟩ := by
    unfold meditSections
    have hv : (if sg = true then 1 else 2 : Nat) ≤ 2 ∧ (sg = true ↔ (if sg = true then 1 else 2 : Nat) ≤ 1) := by
      cases sg <;> decide
    simp only [List.cons_append, List.nil_append, meaning, Section.meaning]
    rw [if_pos hv]
    simp only
    rw [if_pos ⟨trivial, hdim, fun r hr => hpoints r.1 (List.of_mem_zip hr).1⟩]
    simp only
    rw [hblocks _ _ _ hk]
    simp only [meaning, Section.meaning, List.nil_append]
    rw [map_fst_zip' _ _ hlen, map_snd_zip' _ _ hlen]
  rw [C36_text_meaning io sg _ _ hmean _ rfl]
  intro s hs
  unfold meditSections at hs
  simp only [List.mem_append, List.mem_cons, List.not_mem_nil, or_false, List.mem_flatMap] at hs
  rcases hs with ((rfl | rfl | rfl | rfl) | ⟨b, _, rfl | rfl⟩) | (rfl | rfl)
  · trivial
  · trivial
  · trivial
  · intro r hr
    have h2 := (List.of_mem_zip hr).2
    cases hp : pref with
    | none =>
      rw [hp] at h2
      simp only [Option.getD_none, List.mem_replicate] at h2
      rw [h2.2]
      exact hone
    | some l =>
      rw [hp] at h2
      exact (hpref l hp).2 _ h2
  · trivial
  · trivial
  · trivial
  · trivial

example : ∃ file, writeAscii (fun _ => NumIO.int 100) .float64 3 [[0, 0, 0], [1, 0, 0], [0, 1, 0], [0, 0, 1]] none meditExCells (some [[7], [5], [-8, 9]]) = .ok file ∧
    readAscii (fun _ => NumIO.int 100) file = .ok ⟨some [[0, 0, 0], [1, 0, 0], [0, 1, 0], [0, 0, 1]], some [1, 1, 1, 1],
      [⟨"tetra", [[0, 1, 2, 3]], [7]⟩, ⟨"triangle", [[0, 1, 2], [1, 2, 3]], [-8, 9]⟩]⟩ := by
  refine ⟨_, rfl, ?_⟩
  decide +kernel

/-- Points that are neither float32 nor float64 cannot be written as text. -/
theorem C36_text_refuses (io : Bool → NumIO F) (dim : Nat) (points : List (List F)) (pref : Option (List Int)) (cells : List Blk)
    (cref : Option (List (List Int))) : writeAscii io .other dim points pref cells cref = .error .keyError := rfl

/-- The keywords of text files. -/
def meditKeywords : List String :=
  ["MeshVersionFormatted", "Dimension", "Vertices", "Edges", "Triangles", "Quadrilaterals", "Tetrahedra", "Prisms", "Pyramids", "Hexahedra",
   "Hexaedra", "Corners", "Normals", "NormalAtVertices", "SubDomainFromMesh", "VertexOnGeometricVertex", "VertexOnGeometricEdge",
   "EdgeOnGeometricEdge", "Identifier", "Geometry", "RequiredVertices", "TangentAtVertices", "Tangents", "Ridges", "End"]

/-- A line that starts with a word which is not a keyword is rejected, wherever it stands. -/
theorem C36_text_rejects_keyword (io : Bool → NumIO F) (sg : Bool) (secs : List (Section F)) (k : Known F)
    (hm : meaning sg ⟨0, false, ⟨none, none, []⟩⟩ secs = some k) (hx : ∀ s ∈ secs, s.Exact (io sg).lim)
    (kw : List Char) (args : List (List Char)) (ht : ∀ t ∈ kw :: args, IsTok t) (hkw : String.ofList kw ∉ meditKeywords) (hc : kw.head? ≠ some '#')
    (rest : List Char) :
    readAscii io (text (fun b => (io b).fmt) sg secs ++ (joinWith ' ' (kw :: args) ++ '\n' :: rest)) = .error .readError := by
  obtain ⟨m, h⟩ := sections_run io sg secs _ k hm hx ((joinWith ' ' (kw :: args) ++ '\n' :: rest).length + 1) (joinWith ' ' (kw :: args) ++ '\n' :: rest)
  unfold readAscii
  have h0 : (⟨0, none, ⟨none, none, []⟩⟩ : St F) = ofKnown sg ⟨0, false, ⟨none, none, []⟩⟩ := rfl
  rw [h0, List.length_append, show ∀ a b : Nat, a + b + 1 = b + 1 + a by intros; omega, h,
    show (joinWith ' ' (kw :: args) ++ '\n' :: rest).length + 1 + m = (joinWith ' ' (kw :: args) ++ '\n' :: rest).length + m + 1 by omega,
    lines_words io _ kw args ht hc]
  have hne : ∀ s ∈ meditKeywords, String.ofList kw ≠ s := fun s hs e => hkw (e ▸ hs)
  have hk : keyword io (String.ofList kw) args rest (ofKnown sg k) = .error .readError := by
    generalize String.ofList kw = w at *
    have e1 : find mediAscii w = none := by
      cases hf : find mediAscii w with
      | none => rfl
      | some v =>
        exact absurd rfl (hne w ((by decide +kernel : ∀ e ∈ mediAscii, e.1 ∈ meditKeywords) _ (find_mem hf)))
    have e2 : find ignoredInts w = none := by
      cases hf : find ignoredInts w with
      | none => rfl
      | some v =>
        exact absurd rfl (hne w ((by decide +kernel : ∀ e ∈ ignoredInts, e.1 ∈ meditKeywords) _ (find_mem hf)))
    unfold keyword
    rw [if_neg (hne _ (by decide +kernel)), if_neg (hne _ (by decide +kernel)), if_neg (hne _ (by decide +kernel))]
    simp only [e1]
    rw [if_neg (hne _ (by decide +kernel)), if_neg (hne _ (by decide +kernel)), if_neg (hne _ (by decide +kernel))]
    simp only [e2]
    rw [if_neg (by
        rintro (h | h)
        · exact hne "Identifier" (by decide +kernel) h
        · exact hne "Geometry" (by decide +kernel) h),
      if_neg (by
        rintro (h | h | h | h)
        · exact hne "RequiredVertices" (by decide +kernel) h
        · exact hne "TangentAtVertices" (by decide +kernel) h
        · exact hne "Tangents" (by decide +kernel) h
        · exact hne "Ridges" (by decide +kernel) h),
      if_neg (hne _ (by decide +kernel))]
  rw [hk]
  simp only [ite_self]

example : readAscii (fun _ => NumIO.int 100) (text (fun _ => (NumIO.int 100).fmt) false [.version 2] ++ (joinWith ' ' ["Vertexes".toList] ++ '\n' :: [])) =
    .error .readError :=
  C36_text_rejects_keyword (fun _ => NumIO.int 100) false _ _ rfl (by intro s hs; simp at hs; subst hs; trivial) _ [] (by decide +kernel)
    (by decide +kernel) (by decide +kernel) _

/-- Versions of text files other than 0, 1 and 2 are rejected, wherever they stand. -/
theorem C36_text_rejects_version (io : Bool → NumIO F) (sg : Bool) (secs : List (Section F)) (k : Known F)
    (hm : meaning sg ⟨0, false, ⟨none, none, []⟩⟩ secs = some k) (hx : ∀ s ∈ secs, s.Exact (io sg).lim) (v : Nat) (hv : 2 < v) (rest : List Char) :
    readAscii io (text (fun b => (io b).fmt) sg secs ++ ("MeshVersionFormatted ".toList ++ fmtNat v ++ '\n' :: rest)) = .error .keyError := by
  have e : "MeshVersionFormatted ".toList ++ fmtNat v ++ '\n' :: rest = joinWith ' ' ("MeshVersionFormatted".toList :: [fmtNat v]) ++ '\n' :: rest := by
    simp only [joinWith]
    rw [(by decide +kernel : "MeshVersionFormatted ".toList = "MeshVersionFormatted".toList ++ [' '])]
    simp
  rw [e]
  generalize htl : joinWith ' ' ("MeshVersionFormatted".toList :: [fmtNat v]) ++ '\n' :: rest = tl
  obtain ⟨m, h⟩ := sections_run io sg secs _ k hm hx (tl.length + 1) tl
  unfold readAscii
  have h0 : (⟨0, none, ⟨none, none, []⟩⟩ : St F) = ofKnown sg ⟨0, false, ⟨none, none, []⟩⟩ := rfl
  rw [h0, List.length_append, show ∀ a b : Nat, a + b + 1 = b + 1 + a by intros; omega, h, show tl.length + 1 + m = tl.length + m + 1 by omega, ← htl,
    lines_kw io _ "MeshVersionFormatted" (by decide +kernel) [fmtNat v] (by simp [isTok_fmtNat])]
  have hinj : ∀ n : Nat, fmtNat v = fmtNat n → v = n := by
    intro n hn
    have := congrArg parseInt hn
    rw [← fmtInt_ofNat, ← fmtInt_ofNat, parseInt_fmtInt, parseInt_fmtInt] at this
    simp at this
    omega
  have hk : keyword io "MeshVersionFormatted" [fmtNat v] rest (ofKnown sg k) = .error .keyError := by
    unfold keyword
    rw [if_pos rfl]
    simp only
    rw [if_neg, if_neg]
    · intro h2
      have := hinj 2 (by rw [h2]; decide)
      omega
    · rintro (h2 | h2)
      · have := hinj 0 (by rw [h2]; decide)
        omega
      · have := hinj 1 (by rw [h2]; decide)
        omega
  rw [hk]

example : readAscii (fun _ => NumIO.int 100) (text (fun _ => (NumIO.int 100).fmt) false [.blank] ++ ("MeshVersionFormatted ".toList ++ fmtNat 3 ++ '\n' :: [])) =
    .error .keyError :=
  C36_text_rejects_version (fun _ => NumIO.int 100) false _ _ rfl (by intro s hs; simp at hs; subst hs; trivial) 3 (by decide) _

/-- A text file without vertices is rejected. -/
theorem C36_text_rejects_no_vertices (io : Bool → NumIO F) (sg : Bool) (secs : List (Section F)) (k : Known F)
    (hm : meaning sg ⟨0, false, ⟨none, none, []⟩⟩ secs = some k) (hx : ∀ s ∈ secs, s.Exact (io sg).lim) (hp : k.out.points = none) :
    readAscii io (text (fun b => (io b).fmt) sg secs) = .error .readError := by
  obtain ⟨m, h⟩ := sections_run io sg secs _ k hm hx 1 []
  rw [List.append_nil] at h
  unfold readAscii
  have h0 : (⟨0, none, ⟨none, none, []⟩⟩ : St F) = ofKnown sg ⟨0, false, ⟨none, none, []⟩⟩ := rfl
  rw [h0, Nat.add_comm, h, Nat.add_comm, lines, if_pos rfl]
  simp only
  exact if_pos hp

example : readAscii (fun _ => NumIO.int 100) (text (fun _ => (NumIO.int 100).fmt) false [.version 2, .dimension 3, .finish]) = .error .readError :=
  C36_text_rejects_no_vertices (fun _ => NumIO.int 100) false _ _ rfl (by
    intro s hs
    simp only [List.mem_cons, List.not_mem_nil, or_false] at hs
    rcases hs with rfl | rfl | rfl <;> trivial) rfl

/-- Files whose name ends in `b` are binary, others are text. -/
theorem C36_filename (s : List Char) (c : Char) : isBinary (s ++ [c]) = true ↔ c = 'b' := by
  unfold isBinary
  simp

example : isBinary "a.meshb".toList = true ∧ isBinary "a.mesh".toList = false := by decide +kernel

end Meshio.Props
