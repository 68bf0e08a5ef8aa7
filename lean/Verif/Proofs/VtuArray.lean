/-
Lemmas about the VTU array encodings.
-/
import Verif.Model.VtuArray
import Verif.Base.ListX
import Mathlib.Tactic.Ring
import Mathlib.Tactic.Linarith
namespace Meshio.Vtu
open Meshio

theorem numChars_eq (n : Nat) : numChars n = (n + 2) / 3 * 4 := by
  unfold numChars
  rw [Int.fdiv_eq_ediv_of_nonneg _ (by omega)]
  omega

/-! ### Chunks -/

theorem flatten_chunkLoop {α : Type} (a : List α) (n : Nat) (hn : 0 < n) (fuel k : Nat)
    (h : a.length ≤ fuel + k * n) : (chunkLoop a n fuel k).flatten = a.drop (k * n) := by
  induction fuel generalizing k with
  | zero =>
    rw [chunkLoop, List.drop_of_length_le (by omega)]; rfl
  | succ fuel ih =>
    have e : (k + 1) * n = k * n + n := by ring
    rw [chunkLoop]
    split
    · rw [List.flatten_cons, ih (k + 1) (by omega), pySlice, e, Nat.add_sub_cancel_left,
        ← List.drop_drop, List.take_append_drop]
    · rw [List.drop_of_length_le (by omega)]; rfl

theorem length_chunkLoop {α : Type} (a : List α) (n : Nat) (hn : 0 < n) (fuel k : Nat)
    (h : a.length ≤ fuel + k * n) :
    (chunkLoop a n fuel k).length = (a.length - k * n + (n - 1)) / n := by
  induction fuel generalizing k with
  | zero =>
    rw [chunkLoop, show a.length - k * n = 0 by omega, Nat.zero_add,
      Nat.div_eq_of_lt (by omega)]; rfl
  | succ fuel ih =>
    have e : (k + 1) * n = k * n + n := by ring
    rw [chunkLoop]
    split
    · rename_i hlt
      rw [List.length_cons, ih (k + 1) (by omega), e]
      by_cases hl : k * n + n ≤ a.length
      · have : a.length - k * n + (n - 1) = (a.length - (k * n + n) + (n - 1)) + n := by omega
        rw [this, Nat.add_div_right _ hn]
      · have h0 : a.length - (k * n + n) = 0 := by omega
        rw [h0, Nat.zero_add, Nat.div_eq_of_lt (by omega : n - 1 < n)]
        have : a.length - k * n + (n - 1) = (a.length - k * n - 1) + n := by omega
        rw [this, Nat.add_div_right _ hn, Nat.div_eq_of_lt (by omega)]
    · rw [show a.length - k * n = 0 by omega, Nat.zero_add, Nat.div_eq_of_lt (by omega)]; rfl

theorem get_chunkLoop {α : Type} (a : List α) (n fuel k i : Nat) (c : List α)
    (h : (chunkLoop a n fuel k)[i]? = some c) :
    (k + i) * n < a.length ∧ c = (a.drop ((k + i) * n)).take n := by
  induction fuel generalizing k i with
  | zero => simp [chunkLoop] at h
  | succ fuel ih =>
    rw [chunkLoop] at h
    split at h
    · rename_i hlt
      cases i with
      | zero =>
        simp only [List.getElem?_cons_zero, Option.some.injEq] at h
        refine ⟨hlt, ?_⟩
        rw [← h, pySlice, Nat.add_mul k 1 n, Nat.one_mul, Nat.add_sub_cancel_left]
        rfl
      | succ i =>
        simp only [List.getElem?_cons_succ] at h
        have := ih (k + 1) i h
        rwa [show k + 1 + i = k + (i + 1) by omega] at this
    · simp at h

theorem flatten_chunkIt {α : Type} (a : List α) (n : Nat) (hn : 0 < n) :
    (chunkIt a n).flatten = a := by
  have := flatten_chunkLoop a n hn a.length 0 (by omega)
  rwa [Nat.zero_mul, List.drop_zero] at this

theorem length_chunkIt {α : Type} (a : List α) (n : Nat) (hn : 0 < n) :
    (chunkIt a n).length = (a.length + (n - 1)) / n := by
  have := length_chunkLoop a n hn a.length 0 (by omega)
  rwa [Nat.zero_mul, Nat.sub_zero] at this

theorem get_chunkIt {α : Type} (a : List α) (n i : Nat) (c : List α)
    (h : (chunkIt a n)[i]? = some c) : i * n < a.length ∧ c = (a.drop (i * n)).take n := by
  have := get_chunkLoop a n a.length 0 i c h
  rwa [Nat.zero_add] at this

theorem numBlocks_eq {α : Type} (a : List α) :
    -((-(a.length : Int)).fdiv maxBlock) = ((chunkIt a maxBlock).length : Int) := by
  rw [length_chunkIt _ _ (by decide)]
  rw [Int.fdiv_eq_ediv_of_nonneg _ (by decide)]
  unfold maxBlock
  omega

/-! ### Header -/

theorem headerBytes_nat (big : Bool) (w : Nat) (l : List Nat) (h : ∀ n ∈ l, n < 256 ^ w) :
    headerBytes big w (l.map (fun (n : Nat) => (n : Int))) = l.flatMap (natEnc big w) := by
  unfold headerBytes
  rw [List.flatMap_map]
  have : ∀ l' : List Nat, (∀ n ∈ l', n < 256 ^ w) →
      l'.flatMap (fun (a : Nat) => natEnc big w ((a : Int) % ((256 : Int) ^ w)).toNat) =
        l'.flatMap (natEnc big w) := by
    intro l' hl
    induction l' with
    | nil => rfl
    | cons n l' ih =>
      rw [List.flatMap_cons, List.flatMap_cons, ih (fun m hm => hl m (by simp [hm]))]
      have hn := hl n (by simp)
      have e : ((256 : Int) ^ w) = ((256 ^ w : Nat) : Int) := by simp
      rw [e, ← Int.natCast_emod, Int.toNat_natCast, Nat.mod_eq_of_lt hn]
  exact this l h

theorem length_header (big : Bool) (w : Nat) (l : List Nat) :
    (l.flatMap (natEnc big w)).length = w * l.length := by
  rw [length_flatMap_const w _ l (fun a _ => length_natEnc big w a)]
  ring

theorem dec_items (big : Bool) (w : Nat) (hw : 0 < w) (l : List Nat) (h : ∀ n ∈ l, n < 256 ^ w) :
    (items w ((l.flatMap (natEnc big w)).length / w) (l.flatMap (natEnc big w))).map (natDec big) = l := by
  rw [length_header, Nat.mul_div_cancel_left _ hw]
  have := items_flatMap w (natEnc big w) l (fun a _ => length_natEnc big w a) []
  rw [List.append_nil] at this
  rw [this, List.map_map]
  conv => rhs; rw [← List.map_id l]
  apply List.map_congr_left
  intro n hn
  exact natDec_natEnc big w n (h n hn)

theorem take_header (big : Bool) (w n : Nat) (l : List Nat) (r : List Byte) :
    ((n :: l).flatMap (natEnc big w) ++ r).take w = natEnc big w n := by
  rw [List.flatMap_cons, List.append_assoc, List.take_append_of_le_length (by rw [length_natEnc]),
    List.take_of_length_le (by rw [length_natEnc])]

/-- The first characters of an encoding decode to the first bytes. -/
theorem dec_take (bs : List Byte) (rest : List Char) (w : Nat) (h : 3 * w ≤ bs.length ∨ w = 0) :
    ∃ x, b64dec ((b64enc bs ++ rest).take (numChars w)) = .ok x ∧ x.take w = bs.take w := by
  have hlen : (w + 2) / 3 * 3 ≤ bs.length := by omega
  have e : bs = bs.take ((w + 2) / 3 * 3) ++ bs.drop ((w + 2) / 3 * 3) := by simp
  refine ⟨bs.take ((w + 2) / 3 * 3), ?_, ?_⟩
  · have h1 : b64enc bs = b64enc (bs.take ((w + 2) / 3 * 3)) ++ b64enc (bs.drop ((w + 2) / 3 * 3)) := by
      conv => lhs; rw [e]
      rw [b64enc_append _ _ (by rw [List.length_take]; omega)]
    have h2 : (b64enc (bs.take ((w + 2) / 3 * 3))).length = numChars w := by
      rw [length_b64enc, numChars_eq, List.length_take]
      omega
    rw [h1, List.append_assoc, ← h2, List.take_append_of_le_length (by omega),
      List.take_of_length_le (by omega), b64dec_enc]
  · rw [List.take_take, Nat.min_eq_left (by omega)]

/-! ### Uncompressed -/

theorem take_append_exact {α : Type} (a b : List α) (n : Nat) (h : a.length = n) :
    (a ++ b).take n = a := by
  subst h; simp

theorem drop_append_exact {α : Type} (a b : List α) (n : Nat) (h : a.length = n) :
    (a ++ b).drop n = b := by
  subst h; simp

theorem readUncompressed_ok (big : Bool) (w isz : Nat) (data : List Byte)
    (hlen : data.length < 256 ^ w) (hisz : data.length % isz = 0) (rest : List (List Byte)) :
    readUncompressed big w isz (writeUncompressed big w data ++ rest.flatMap b64enc) = .ok data := by
  unfold readUncompressed writeUncompressed
  obtain ⟨r, hr⟩ := b64dec_prefix (natEnc big w data.length ++ data) rest
  have hl := length_natEnc big w data.length
  simp only [hr]
  rw [List.append_assoc, take_append_exact _ _ w hl]
  simp only [headItem, hl, if_true, natDec_natEnc big w _ hlen]
  rw [drop_append_exact _ _ w hl]
  split
  · rename_i h0
    have hd : data = [] ∧ r = [] := by
      simp only [List.length_append, hl] at h0
      exact ⟨List.length_eq_zero_iff.mp (by omega), List.length_eq_zero_iff.mp (by omega)⟩
    obtain ⟨rfl, rfl⟩ := hd
    simp only [List.append_nil]
    rw [drop_append_exact _ _ _ rfl]
    obtain ⟨r', hr'⟩ := b64dec_many rest
    simp only [hr', List.length_nil, List.take_zero, fromBuffer, Nat.zero_mod, if_true]
  · rw [take_append_exact _ _ _ rfl]
    simp only [fromBuffer, hisz, if_true]

theorem readUncompressed_separate (big : Bool) (w isz : Nat) (hw : w % 3 ≠ 0) (data : List Byte)
    (hlen : data.length < 256 ^ w) (hisz : data.length % isz = 0) (rest : List (List Byte)) :
    readUncompressed big w isz
      (b64enc (natEnc big w data.length) ++ (b64enc data ++ rest.flatMap b64enc)) = .ok data := by
  unfold readUncompressed
  have hl := length_natEnc big w data.length
  rw [b64dec_enc_append, hl, if_neg hw]
  simp only [hl, if_true]
  rw [List.take_of_length_le (by omega)]
  simp only [headItem, hl, if_true, natDec_natEnc big w _ hlen]
  rw [drop_append_exact _ _ _ rfl]
  obtain ⟨r, hr⟩ := b64dec_prefix data rest
  simp only [hr]
  rw [take_append_exact _ _ _ rfl]
  simp only [fromBuffer, hisz, if_true]

/-! ### Compressed -/

theorem length_cumOffsets (w acc : Nat) (l : List Nat) : (cumOffsets w acc l).length = l.length + 1 := by
  induction l generalizing acc with
  | nil => rfl
  | cons n l ih => simp [cumOffsets, ih]

theorem get_cumOffsets (w : Nat) (acc : Nat) (l : List Nat) (k : Nat) (hk : k ≤ l.length)
    (h : acc + l.sum < 256 ^ w) : (cumOffsets w acc l)[k]? = some (acc + (l.take k).sum) := by
  induction l generalizing acc k with
  | nil =>
    have : k = 0 := by simpa using hk
    subst this
    simp only [List.sum_nil, Nat.add_zero] at h
    simp [cumOffsets, Nat.mod_eq_of_lt h]
  | cons n l ih =>
    rw [List.sum_cons] at h
    cases k with
    | zero => simp [cumOffsets, Nat.mod_eq_of_lt (show acc < 256 ^ w by omega)]
    | succ k =>
      simp only [cumOffsets, List.getElem?_cons_succ, List.take_succ_cons, List.sum_cons]
      rw [ih (acc + n) k (by simpa using hk) (by omega)]
      congr 1; omega

theorem slice_flatten {α : Type} (bs : List (List α)) (r : List α) (k : Nat) (b : List α)
    (h : bs[k]? = some b) :
    pySlice (bs.flatten ++ r) ((bs.map List.length).take k).sum ((bs.map List.length).take (k + 1)).sum = b := by
  induction bs generalizing k with
  | nil => simp at h
  | cons a bs ih =>
    cases k with
    | zero =>
      simp only [List.getElem?_cons_zero, Option.some.injEq] at h
      subst h
      simp [pySlice]
    | succ k =>
      simp only [List.getElem?_cons_succ] at h
      have := ih k h
      simp only [List.map_cons, List.take_succ_cons, List.sum_cons, List.flatten_cons, List.append_assoc]
      unfold pySlice at this ⊢
      rw [← List.drop_drop, List.drop_left' rfl]
      simpa [Nat.add_sub_add_left] using this

/-- The numbers in the header of the compressed format. -/
def headNats (n : Nat) (blocks : List (List Byte)) : List Nat :=
  [(n + 32767) / 32768, 32768, n + 32768 - (n + 32767) / 32768 * 32768] ++ blocks.map List.length

theorem compHeader_eq (data : List Byte) (blocks : List (List Byte)) :
    compHeader data.length blocks = (headNats data.length blocks).map (fun (n : Nat) => (n : Int)) := by
  unfold compHeader headNats
  rw [numBlocks_eq, length_chunkIt _ _ (by decide)]
  unfold maxBlock
  simp only [List.map_append, List.map_cons, List.map_nil, List.map_map, Function.comp_def,
    List.cons_append, List.nil_append, Nat.reduceSub]
  congr 1
  congr 1
  congr 1
  omega

theorem readCompressed_ok (comp : List Byte → List Byte) (decomp : List Byte → Res (List Byte))
    (hc : ∀ b, decomp (comp b) = .ok b) (big : Bool) (w isz : Nat) (data : List Byte)
    (hne : data ≠ []) (hw : 32768 < 256 ^ w) (hlen : data.length < 256 ^ w)
    (hsum : (((chunkIt data maxBlock).map comp).map List.length).sum < 256 ^ w)
    (hisz : 0 < isz ∧ 32768 % isz = 0) (hmul : data.length % isz = 0) (rest : List (List Byte)) :
    readCompressed decomp big w isz (writeCompressed comp big w data ++ rest.flatMap b64enc) =
      .ok data := by
  have hw0 : 0 < w := by
    cases w with
    | zero => simp at hw
    | succ w => omega
  unfold readCompressed writeCompressed
  simp only []
  generalize hB : (chunkIt data maxBlock).map comp = blocks
  rw [hB] at hsum
  have hnb : (data.length + 32767) / 32768 = blocks.length := by
    rw [← hB, List.length_map, length_chunkIt _ _ (by decide)]; rfl
  have hall : ∀ n ∈ headNats data.length blocks, n < 256 ^ w := by
    intro n hn
    simp only [headNats, List.cons_append, List.nil_append, List.mem_cons] at hn
    rcases hn with rfl | rfl | rfl | hn
    · omega
    · exact hw
    · omega
    · have := le_sum_of_mem hn; omega
  rw [compHeader_eq, headerBytes_nat big w _ hall, List.append_assoc]
  have hH : (headNats data.length blocks).length = 3 + blocks.length := by
    simp [headNats]; omega
  have hlenH : ((headNats data.length blocks).flatMap (natEnc big w)).length = w * (3 + blocks.length) := by
    rw [length_header, hH]
  obtain ⟨x, hx, hxt⟩ := dec_take ((headNats data.length blocks).flatMap (natEnc big w))
    (b64enc blocks.flatten ++ rest.flatMap b64enc) w
    (by left; rw [hlenH]; nlinarith [Nat.zero_le blocks.length])
  have htake : ((headNats data.length blocks).flatMap (natEnc big w)).take w = natEnc big w blocks.length := by
    have := take_header big w ((data.length + 32767) / 32768)
      ([32768, data.length + 32768 - (data.length + 32767) / 32768 * 32768] ++ blocks.map List.length) []
    rw [List.append_nil, hnb] at this
    unfold headNats
    rw [hnb]
    exact this
  have hnb' : blocks.length < 256 ^ w := by omega
  simp only [hx, hxt, htake, headItem, length_natEnc, if_true, natDec_natEnc big w _ hnb']
  have hnc : (b64enc ((headNats data.length blocks).flatMap (natEnc big w))).length =
      numChars (w * (3 + blocks.length)) := by
    rw [length_b64enc, numChars_eq, hlenH]
  rw [take_append_exact _ _ _ hnc, drop_append_exact _ _ _ hnc]
  obtain ⟨r, hr⟩ := b64dec_prefix blocks.flatten rest
  simp only [b64dec_enc, hr, fromBuffer, hlenH, Nat.mul_mod_right, if_true]
  rw [← hlenH, dec_items big w hw0 _ hall]
  have hd3 : (headNats data.length blocks).drop 3 = blocks.map List.length := by
    simp [headNats]
  rw [hd3]
  have hlb : blocks.length = (chunkIt data maxBlock).length := by rw [← hB]; simp
  have hmap : mapRes (readBlock decomp isz (blocks.flatten ++ r)
      (cumOffsets w 0 (blocks.map List.length))) (List.range blocks.length) =
        .ok (chunkIt data maxBlock) := by
    rw [hlb]
    apply mapRes_range
    intro k c hk
    have hbk : blocks[k]? = some (comp c) := by rw [← hB, List.getElem?_map, hk]; rfl
    have hkl : k < blocks.length := by
      have := (List.getElem?_eq_some_iff.mp hbk).1; exact this
    unfold readBlock
    rw [get_cumOffsets w 0 _ k (by simp; omega) (by omega),
      get_cumOffsets w 0 _ (k + 1) (by simp; omega) (by omega)]
    simp only [Nat.zero_add]
    rw [slice_flatten blocks r k _ hbk, hc]
    obtain ⟨h1, h2⟩ := get_chunkIt data maxBlock k c hk
    have hcl : c.length % isz = 0 := by
      rw [h2, List.length_take, List.length_drop]
      obtain ⟨q, hq⟩ := Nat.dvd_of_mod_eq_zero hisz.2
      obtain ⟨p, hp⟩ := Nat.dvd_of_mod_eq_zero hmul
      have e1 : maxBlock = isz * q := hq
      rw [e1, hp]
      have e2 : k * (isz * q) = isz * (k * q) := by ring
      rw [e2, ← Nat.mul_sub, Nat.mul_min_mul_left]
      exact Nat.mul_mod_right _ _
    simp only [fromBuffer, hcl, if_true]
  rw [hmap]
  have hcne : chunkIt data maxBlock ≠ [] := by
    intro e
    have := flatten_chunkIt data maxBlock (by decide)
    rw [e] at this
    exact hne this.symm
  simp only [hcne, if_false, flatten_chunkIt data maxBlock (by decide)]

theorem readCompressed_empty (comp : List Byte → List Byte) (decomp : List Byte → Res (List Byte))
    (big : Bool) (w isz : Nat) (hw : 32768 < 256 ^ w) :
    readCompressed decomp big w isz (writeCompressed comp big w []) = .error .valueError := by
  have hw0 : 0 < w := by
    cases w with
    | zero => simp at hw
    | succ w => omega
  unfold readCompressed writeCompressed
  have hB : (chunkIt ([] : List Byte) maxBlock).map comp = [] := rfl
  have hall : ∀ n ∈ headNats 0 [], n < 256 ^ w := by
    intro n hn
    simp [headNats] at hn
    rcases hn with rfl | rfl <;> omega
  have hce := compHeader_eq [] []
  simp only [List.length_nil] at hce
  simp only [hB, List.length_nil, hce, headerBytes_nat big w _ hall, List.flatten_nil]
  have hlenH : ((headNats 0 []).flatMap (natEnc big w)).length = w * 3 := by
    rw [length_header]; rfl
  obtain ⟨x, hx, hxt⟩ := dec_take ((headNats 0 []).flatMap (natEnc big w)) (b64enc []) w
    (by left; omega)
  have htake : ((headNats 0 []).flatMap (natEnc big w)).take w = natEnc big w 0 := by
    have := take_header big w 0 [32768, 32768] []
    rw [List.append_nil] at this
    exact this
  simp only [hx, hxt, htake, headItem, length_natEnc, if_true,
    natDec_natEnc big w 0 (by omega), Nat.add_zero]
  have hnc : (b64enc ((headNats 0 []).flatMap (natEnc big w))).length = numChars (w * 3) := by
    rw [length_b64enc, numChars_eq, hlenH]
  rw [take_append_exact _ _ _ hnc, drop_append_exact _ _ _ hnc]
  simp only [b64dec_enc, fromBuffer, hlenH, Nat.mul_mod_right, if_true, List.range_zero, mapRes]

/-! ### Raw appended data -/

/-- What one array of the raw section looks like: it is consumed entirely, whatever follows,
and leaves `enc` to be encoded. -/
def RawOk (item : List Byte → Res (Nat × List Byte)) (raw enc : List Byte) : Prop :=
  raw ≠ [] ∧ ∀ rest, item (raw ++ rest) = .ok (raw.length, enc)

/-- Start positions of consecutive pieces of the given lengths. -/
def startsFrom : Nat → List Nat → List Nat
  | _, [] => []
  | i, n :: ns => i :: startsFrom (i + n) ns

theorem rawLoop_ok (item : List Byte → Res (Nat × List Byte)) (todo : List (List Byte × List Byte))
    (hitem : ∀ x ∈ todo, RawOk item x.1 x.2) (pre : List Byte) (fuel : Nat)
    (hfuel : (todo.flatMap (·.1)).length ≤ fuel) (A : List Nat) (arrays : List Char)
    (hno : ∀ i ∈ startsFrom pre.length (todo.map (·.1.length)), i ∉ A)
    (hno2 : ∀ (j k : Nat) (n i : Nat), j < k →
      (startsFrom arrays.length (todo.map (fun x => (b64enc x.2).length)))[j]? = some n →
      (startsFrom pre.length (todo.map (·.1.length)))[k]? = some i → n ≠ i) :
    rawLoop item (pre ++ todo.flatMap (·.1)) fuel pre.length
      (A ++ startsFrom pre.length (todo.map (·.1.length))) arrays =
      .ok (A ++ startsFrom arrays.length (todo.map (fun x => (b64enc x.2).length)),
        arrays ++ todo.flatMap (fun x => b64enc x.2)) := by
  induction todo generalizing pre fuel A arrays with
  | nil =>
    cases fuel with
    | zero => simp [rawLoop, startsFrom]
    | succ fuel => simp [rawLoop, startsFrom]
  | cons x todo ih =>
    obtain ⟨hne, hx⟩ := hitem x (by simp)
    have hpos : 0 < x.1.length := List.length_pos_iff.mpr hne
    simp only [List.flatMap_cons, List.length_append] at hfuel
    cases fuel with
    | zero => omega
    | succ fuel =>
      simp only [List.map_cons, startsFrom] at hno hno2 ⊢
      rw [rawLoop, if_pos (by simp [List.flatMap_cons]; omega), if_pos (by simp)]
      have hA : pre.length ∉ A := hno _ (by simp)
      rw [drop_append_exact _ _ _ rfl, List.flatMap_cons, hx]
      simp only []
      rw [idxOf_append_of_not_mem _ _ _ hA, List.idxOf_cons_self]
      rw [List.set_append_right _ _ (by omega), Nat.add_zero, Nat.sub_self, List.set_cons_zero]
      have h1 := ih (fun y hy => hitem y (by simp [hy])) (pre ++ x.1) fuel (by omega)
        (A ++ [arrays.length]) (arrays ++ b64enc x.2)
        (by
          intro i hi
          simp only [List.length_append] at hi
          simp only [List.mem_append, List.mem_singleton, not_or]
          refine ⟨hno i (by simp [hi]), ?_⟩
          obtain ⟨k, hk⟩ := List.mem_iff_getElem?.mp hi
          exact fun e => hno2 0 (k + 1) arrays.length i (by omega) (by simp) (by simpa using hk) e.symm)
        (by
          intro j k n i hjk hn hi
          simp only [List.length_append] at hn hi
          exact hno2 (j + 1) (k + 1) n i (by omega) (by simpa using hn) (by simpa using hi))
      simp only [List.length_append, List.append_assoc, List.cons_append, List.nil_append] at h1
      exact h1

theorem rawOk_plain (big : Bool) (w : Nat) (hw : 0 < w) (data : List Byte) (h : data.length < 256 ^ w) :
    RawOk (rawItem big w) (natEnc big w data.length ++ data) (natEnc big w data.length ++ data) := by
  have hl := length_natEnc big w data.length
  refine ⟨fun e => ?_, fun rest => ?_⟩
  · have := congrArg List.length e
    simp only [List.length_append, hl, List.length_nil] at this
    omega
  · unfold rawItem
    rw [List.append_assoc, take_append_exact _ _ w hl]
    simp only [headItem, hl, if_true, natDec_natEnc big w _ h]
    rw [← List.append_assoc, take_append_exact _ _ _ (by simp [hl]; omega)]
    simp [hl]; omega

theorem rawBlocks_ok (comp : List Byte → List Byte) (decomp : List Byte → Res (List Byte))
    (hc : ∀ b, decomp (comp b) = .ok b) (pre rest : List Byte) (chunks : List (List Byte)) :
    rawBlocks decomp (pre ++ ((chunks.map comp).flatten ++ rest)) (chunks.map (fun c => (comp c).length))
      pre.length = .ok (chunks.flatten, pre.length + (chunks.map comp).flatten.length) := by
  induction chunks generalizing pre with
  | nil => simp [rawBlocks]
  | cons c chunks ih =>
    simp only [List.map_cons, rawBlocks, List.flatten_cons, List.append_assoc]
    have hs : pySlice (pre ++ (comp c ++ ((chunks.map comp).flatten ++ rest))) pre.length
        (pre.length + (comp c).length) = comp c := by
      unfold pySlice
      rw [drop_append_exact _ _ _ rfl, Nat.add_sub_cancel_left, take_append_exact _ _ _ rfl]
    rw [hs, hc]
    have := ih (pre ++ comp c)
    rw [List.append_assoc, List.length_append] at this
    simp only [this, List.length_append, Nat.add_assoc]

/-- An array in a compressed raw section: header and blocks. -/
def rawCompressed (comp : List Byte → List Byte) (big : Bool) (w : Nat) (chunks : List (List Byte))
    (h1 h2 : Nat) : List Byte :=
  (chunks.length :: h1 :: h2 :: chunks.map (fun c => (comp c).length)).flatMap (natEnc big w) ++
    (chunks.map comp).flatten

theorem rawOk_comp (comp : List Byte → List Byte) (decomp : List Byte → Res (List Byte))
    (hc : ∀ b, decomp (comp b) = .ok b) (big : Bool) (w : Nat) (hw : 0 < w)
    (chunks : List (List Byte)) (h1 h2 : Nat)
    (hfit : ∀ n ∈ chunks.length :: h1 :: h2 :: chunks.map (fun c => (comp c).length), n < 256 ^ w) :
    RawOk (rawItemC decomp big w) (rawCompressed comp big w chunks h1 h2)
      (natEnc big w chunks.flatten.length ++ chunks.flatten) := by
  have hlen := length_header big w (chunks.length :: h1 :: h2 :: chunks.map (fun c => (comp c).length))
  simp only [List.length_cons, List.length_map] at hlen
  refine ⟨fun e => ?_, fun rest => ?_⟩
  · have := congrArg List.length e
    simp only [rawCompressed, List.length_append, hlen, List.length_nil] at this
    have h0 : 0 < w * (chunks.length + 1 + 1 + 1) := Nat.mul_pos hw (by omega)
    omega
  · unfold rawItemC rawCompressed
    rw [List.append_assoc, take_header]
    simp only [headItem, length_natEnc, if_true, natDec_natEnc big w _ (hfit chunks.length (by simp))]
    have e : ((chunks.length :: h1 :: h2 :: chunks.map (fun c => (comp c).length)).flatMap
        (natEnc big w)).length = (3 + chunks.length) * w := by
      rw [hlen]; ring
    rw [take_append_exact _ _ _ e, drop_append_exact _ _ _ e, dec_items big w hw _ hfit, e]
    simp only [Nat.mul_mod_left, ne_eq, not_true_eq_false, if_false, List.length_cons, List.length_map]
    rw [if_neg (by omega)]
    simp only [List.drop_succ_cons, List.drop_zero]
    rw [List.take_of_length_le (by simp)]
    have := rawBlocks_ok comp decomp hc [] rest chunks
    simp only [List.nil_append, List.length_nil, Nat.zero_add] at this
    rw [this]
    simp only [List.length_append, e]
    rw [Nat.add_comm]

end Meshio.Vtu
