/-
Reading VTU files: arrays and sections.
-/
import Verif.Spec.VtuFile
import Verif.Proofs.VtuArray
namespace Meshio.Vtu

/-- Compressed arrays with blocks of any sizes. -/
theorem readCompressed_blocks (decomp : List Byte → Res (List Byte)) (big : Bool) (w isz : Nat) (hw0 : 0 < w) (packed plain : List (List Byte))
    (m l : Nat) (rest : List (List Byte)) (hne : plain ≠ []) (hd : All2 (fun c b => decomp c = .ok b) packed plain)
    (hisz : ∀ b ∈ plain, b.length % isz = 0) (hall : ∀ n ∈ packed.length :: m :: l :: packed.map List.length, n < 256 ^ w)
    (hsum : (packed.map List.length).sum < 256 ^ w) :
    readCompressed decomp big w isz (b64enc ((packed.length :: m :: l :: packed.map List.length).flatMap (natEnc big w)) ++
      (b64enc packed.flatten ++ rest.flatMap b64enc)) = .ok plain.flatten := by
  unfold readCompressed
  generalize hB : packed.length :: m :: l :: packed.map List.length = head at hall
  have hH : head.length = 3 + packed.length := by rw [← hB]; simp; omega
  have hlenH : (head.flatMap (natEnc big w)).length = w * (3 + packed.length) := by rw [length_header, hH]
  obtain ⟨x, hx, hxt⟩ := dec_take (head.flatMap (natEnc big w)) (b64enc packed.flatten ++ rest.flatMap b64enc) w
    (by left; rw [hlenH]; nlinarith [Nat.zero_le packed.length])
  have htake : (head.flatMap (natEnc big w)).take w = natEnc big w packed.length := by
    have := take_header big w packed.length (m :: l :: packed.map List.length) []
    rwa [List.append_nil, hB] at this
  have hnb' : packed.length < 256 ^ w := hall _ (by rw [← hB]; simp)
  simp only [hx, hxt, htake, headItem, length_natEnc, if_true, natDec_natEnc big w _ hnb']
  have hnc : (b64enc (head.flatMap (natEnc big w))).length = numChars (w * (3 + packed.length)) := by
    rw [length_b64enc, numChars_eq, hlenH]
  rw [take_append_exact _ _ _ hnc, drop_append_exact _ _ _ hnc]
  obtain ⟨r, hr⟩ := b64dec_prefix packed.flatten rest
  simp only [b64dec_enc, hr, fromBuffer, hlenH, Nat.mul_mod_right, if_true]
  rw [← hlenH, dec_items big w hw0 _ hall]
  have hd3 : head.drop 3 = packed.map List.length := by rw [← hB]; rfl
  rw [hd3]
  have hlb : packed.length = plain.length := all2_length hd
  have hget : ∀ (k : Nat) (b : List Byte), plain[k]? = some b → ∃ c, packed[k]? = some c ∧ decomp c = .ok b := by
    clear * - hd
    induction packed generalizing plain with
    | nil => cases plain with
      | nil => intro k b h; simp at h
      | cons b l => exact hd.elim
    | cons c packed ih => cases plain with
      | nil => exact hd.elim
      | cons b l =>
        intro k x h
        cases k with
        | zero => simp only [List.getElem?_cons_zero, Option.some.injEq] at h; subst h; exact ⟨c, rfl, hd.1⟩
        | succ k => simp only [List.getElem?_cons_succ] at h ⊢; exact ih l hd.2 k x h
  have hmap : mapRes (readBlock decomp isz (packed.flatten ++ r) (cumOffsets w 0 (packed.map List.length))) (List.range packed.length) =
        .ok plain := by
    rw [hlb]
    apply mapRes_range
    intro k c hk
    obtain ⟨p, hbk, hp⟩ := hget k c hk
    have hkl : k < packed.length := (List.getElem?_eq_some_iff.mp hbk).1
    unfold readBlock
    rw [get_cumOffsets w 0 _ k (by simp; omega) (by omega), get_cumOffsets w 0 _ (k + 1) (by simp; omega) (by omega)]
    simp only [Nat.zero_add]
    rw [slice_flatten packed r k _ hbk, hp]
    simp only [fromBuffer, hisz c (List.mem_of_getElem? hk), if_true]
  rw [hmap]
  simp only [hne, if_false]

end Meshio.Vtu

namespace Meshio.VtuFile
open Meshio Meshio.Spec Meshio.VtkFile Meshio.Vtu

variable {F : Type}

theorem kinds_ok : ∀ k ∈ vtuKinds, Types.find vtuTypes k.1 = some k.2.1 ∧ size k.2.1 = k.2.2 ∧ 0 < k.2.2 := by decide +kernel

theorem headers_ok : ∀ k ∈ vtuHeaders, headerSize k.1 = .ok k.2 ∧ 0 < k.2 ∧ k.2 % 3 ≠ 0 := by decide +kernel

theorem valDec_ok {io : VtuIO F} {big : Bool} {d : String} {v : Num F} {b : List Byte} (h : VtuBytes io big d v b) : valDec io big d b = v := by
  cases v with
  | flt x =>
    obtain ⟨h, rfl⟩ := h
    have : isFloat d = true := by rcases h with rfl | rfl <;> rfl
    simp [valDec, this]
  | int i =>
    rcases h with ⟨h, rfl⟩ | ⟨h, rfl⟩
    · have : isFloat d = false ∧ isUnsigned d = true := by revert d; decide +kernel
      simp [valDec, this]
    · have : isFloat d = false ∧ isUnsigned d = false := by revert d; decide +kernel
      simp [valDec, this]

theorem vals_ok {io : VtuIO F} {big : Bool} {d : String} {vals : List (Num F)} {bs : List (List Byte)} (h : All2 (VtuBytes io big d) vals bs) :
    bs.map (valDec io big d) = vals := by
  induction vals generalizing bs with
  | nil => cases bs with
    | nil => rfl
    | cons b bs => exact h.elim
  | cons v vals ih => cases bs with
    | nil => exact h.elim
    | cons b bs => rw [List.map_cons, valDec_ok h.1, ih h.2]

theorem items_flatten (n : Nat) (bs : List (List Byte)) (h : ∀ b ∈ bs, b.length = n) (hn : 0 < n) :
    items n (bs.flatten.length / n) bs.flatten = bs := by
  rw [length_flatten_const n bs h, Nat.mul_div_cancel _ hn]
  have := items_flatMap n id bs h []
  simpa [List.flatMap_id] using this

theorem decode_ok {io : VtuIO F} {cfg : Cfg} {t d : String} {isz : Nat} (hk : (t, d, isz) ∈ vtuKinds) {vals : List (Num F)} {text : List Char}
    (h : EncodedNums io cfg d isz vals text) : decode io cfg d text = .ok vals := by
  obtain ⟨w, bs, h1, h2, h3, h4⟩ := h
  obtain ⟨-, k2, k3⟩ := kinds_ok _ hk
  obtain ⟨e1, e2, e3⟩ := headers_ok _ h1
  simp only at e1 e2 e3 k2 k3
  have hmod : bs.flatten.length % isz = 0 := by rw [length_flatten_const isz bs h2]; exact Nat.mul_mod_left _ _
  have hb : decodeBytes io cfg w isz text = .ok bs.flatten := by
    unfold decodeBytes
    rcases h4 with ⟨hl, h5, rest, rfl | rfl⟩ | ⟨l, hl, packed, plain, m, l', rest, g1, g2, g3, g4, g5, g6, rfl⟩
    · rw [hl]; exact readUncompressed_ok cfg.big w isz _ h5 hmod rest
    · rw [hl]; exact readUncompressed_separate cfg.big w isz e3 _ h5 hmod rest
    · rw [hl, ← g2]; exact readCompressed_blocks _ _ _ _ e2 _ _ _ _ _ g1 g3 g4 g5 g6
  unfold decode
  rw [e1, k2]
  simp only [hb]
  rw [items_flatten isz bs h2 k3, vals_ok h3]

theorem parseOne_ok {io : VtuIO F} {d : String} {v : Num F} {t : List Char} (h : VtuToken io d v t) : parseOne io d t = .ok v := by
  cases v with
  | flt x =>
    obtain ⟨h, h2⟩ := h
    have : isFloat d = true := by rcases h with rfl | rfl <;> rfl
    simp [parseOne, valParse, this, h2]
  | int i =>
    obtain ⟨h, h2⟩ := h
    have : isFloat d = false := by simp [isFloat, h.1, h.2]
    simp [parseOne, valParse, this, h2]

theorem parseToks_ok {io : VtuIO F} {d : String} {vals : List (Num F)} {ts : List (List Char)} (h : All2 (VtuToken io d) vals ts) :
    mapRes (parseOne io d) ts = .ok vals := by
  induction vals generalizing ts with
  | nil => cases ts with
    | nil => rfl
    | cons b bs => exact h.elim
  | cons v vals ih => cases ts with
    | nil => exact h.elim
    | cons b bs => rw [mapRes, parseOne_ok h.1, ih h.2]

theorem pyInt_nat' {s : List Char} {n : Nat} (h : strip s = fmtNat n) : Su2.pyInt s = .ok (n : Int) := by
  unfold Su2.pyInt
  have : parseInt (fmtNat n) = some (n : Int) := parseInt_fmtInt n
  rw [h, this]

theorem readFlat_ok {io : VtuIO F} {cfg : Cfg} {e : XmlElem} {d : String} {vals : List (Num F)} (h : HoldsNums io cfg e d vals) :
    readFlat io cfg e = .ok (d, vals) := by
  obtain ⟨t, isz, h1, hk, h⟩ := h
  obtain ⟨k1, k2, k3⟩ := kinds_ok _ hk
  simp only at k1 k2 k3
  unfold readFlat
  simp only [h1, k1]
  rcases h with ⟨hf, hx, h⟩ | ⟨hf, hx, h⟩ | ⟨hf, o, s, a, h2, h3, h4, h5⟩
  · rw [if_pos (by rcases hf with hf | hf <;> rw [hf] <;> rfl), if_neg hx]
    by_cases hs : strip e.text = []
    · rw [if_pos hs]
      rw [strip_eq_nil.mp hs] at h
      cases vals with
      | nil => rfl
      | cons v vals => exact h.elim
    · rw [if_neg hs, parseAll, parseToks_ok h]; rfl
  · rw [if_neg (by rw [hf]; decide), if_pos hf, if_neg hx, decode_ok hk h]; rfl
  · rw [if_neg (by rw [hf]; decide), if_neg (by rw [hf]; decide), if_pos hf]
    simp only [intAttr, h2, pyInt_nat' h3, h4]
    rw [if_neg (by omega), Int.toNat_natCast, decode_ok hk h5]; rfl

theorem readData_ok {io : VtuIO F} {cfg : Cfg} {e : XmlElem} {a : Arr (Num F)} (h : HoldsArray io cfg e a) : readData io cfg e = .ok a := by
  obtain ⟨ht, h1, h2⟩ := h
  unfold readData
  rw [readFlat_ok h1]
  simp only
  obtain ⟨d, tail, rows⟩ := a
  rcases h2 with ⟨hn, hc, hr⟩ | ⟨k, s, hk, hn, hs, hsk, hr⟩
  · have : components e = none := by
      unfold components
      rcases hc with hc | hc
      · rw [hc]; simp
      · rw [if_pos ⟨ht, hc⟩]
    simp only at hn hr
    simp only [this, hn]
    congr 2
    clear h1
    induction rows with
    | nil => rfl
    | cons r rows ih =>
      have := hr r (by simp)
      obtain ⟨x, rfl⟩ := List.length_eq_one_iff.mp this
      simp [ih (fun r hr' => hr r (by simp [hr']))]
  · have hse : s ≠ "" := by
      rintro rfl
      exact absurd hsk.symm (by show ¬ fmtNat k = []; exact fmtNat_ne_nil k)
    have : components e = some s := by
      unfold components
      rw [if_neg (by rintro ⟨-, h⟩; rw [hs] at h; exact hse (by simpa using h)), hs]
    simp only at hn hr
    simp only [this, hn, pyInt_nat' hsk]
    have hl := length_flatten_const k rows hr
    rw [if_neg (by simp only [Int.toNat_natCast, hl, Nat.mul_mod_left]; omega)]
    simp only [Int.toNat_natCast, hl, Nat.mul_div_cancel _ hk]
    have := rowsN_flatten k rows hr []
    rw [List.append_nil] at this
    rw [this]

theorem set_fresh {α : Type} (d : Dict α) (k : String) (v : α) (h : k ∉ d.keys) : Dict.set d k v = d ++ [(k, v)] := by
  induction d with
  | nil => rfl
  | cons kv d ih =>
    simp only [Dict.keys, List.map_cons, List.mem_cons, not_or] at h
    simp [Dict.set, ih h.2]
    exact fun e => h.1 e.symm

theorem ok_cons {α : Type} {kv : String × α} {d d' : Dict α} (h : Dict.Ok (d' ++ kv :: d)) : kv.1 ∉ Dict.keys d' ∧ Dict.Ok ((d' ++ [kv]) ++ d) := by
  refine ⟨?_, by simpa using h⟩
  simp only [Dict.Ok, Dict.keys, List.map_append, List.map_cons] at h
  have := (List.nodup_append.mp h).2.2
  intro hm
  exact this _ hm kv.1 (by simp) rfl

theorem namedArrays_ok {io : VtuIO F} {cfg : Cfg} (d d' : Dict (Arr (Num F))) (es : List XmlElem) (hd : Dict.Ok (d' ++ d))
    (h : All2 (fun kv e => e.attr? "Name" = some kv.1 ∧ HoldsArray io cfg e kv.2) d es) :
    namedArrays io cfg d' es = .ok (d' ++ d) ∧ fieldArrays io cfg d' es = .ok (d' ++ d) := by
  induction d generalizing d' es with
  | nil => cases es with
    | nil => simp [namedArrays, fieldArrays]
    | cons e es => exact h.elim
  | cons kv d ih => cases es with
    | nil => exact h.elim
    | cons e es =>
      obtain ⟨⟨h1, h2⟩, h3⟩ := h
      obtain ⟨k1, k2⟩ := ok_cons hd
      rw [namedArrays, if_neg (by simp [h2.1]), fieldArrays, readData_ok h2]
      simp only [h1, set_fresh _ _ _ k1]
      have := ih (d' ++ [kv]) es k2 h3
      simpa using this

theorem readData_corrupt {io : VtuIO F} {cfg : Cfg} {e : XmlElem} (h : CorruptArray io cfg e) : readData io cfg e = .error .corruptionError := by
  obtain ⟨ht, hn, d, vals, s, k, h1, h2, h3, h4⟩ := h
  obtain ⟨nm, hn⟩ := Option.isSome_iff_exists.mp hn
  unfold readData
  rw [readFlat_ok h1]
  have hse : s ≠ "" := by
    rintro rfl
    exact absurd h3.symm (by show ¬ fmtNat k = []; exact fmtNat_ne_nil k)
  have : components e = some s := by
    unfold components
    rw [if_neg (by rintro ⟨-, h⟩; rw [h2] at h; exact hse (by simpa using h)), h2]
  simp only [this, pyInt_nat' h3]
  rw [if_pos (by simp only [Int.toNat_natCast]; rcases h4 with h | h; · left; omega
                 · right; exact h), hn]

theorem pointArrays_ok {io : VtuIO F} {cfg : Cfg} (d d' : Dict (Arr (Num F))) (es : List XmlElem) (hd : Dict.Ok (d' ++ d))
    (h : HoldsSome io cfg es d) : pointArrays io cfg d' es = .ok (d' ++ d) := by
  induction es generalizing d d' with
  | nil => simp only [HoldsSome] at h; subst h; simp [pointArrays]
  | cons e es ih =>
    rcases h with ⟨hc, h⟩ | ⟨kv, d1, rfl, h1, h2, h3⟩
    · rw [pointArrays, if_neg (by simp [hc.1]), readData_corrupt hc]
      simp only [if_true]
      exact ih d d' hd h
    · obtain ⟨k1, k2⟩ := ok_cons hd
      rw [pointArrays, if_neg (by simp [h2.1]), readData_ok h2]
      simp only [h1, set_fresh _ _ _ k1]
      have := ih d1 (d' ++ [kv]) k2 h3
      simpa using this

theorem intsOf_ok {a : Arr (Num F)} {l : List Int} (h : IntArray a l) : intsOf a = .ok l := by
  unfold intsOf
  rw [if_neg (by rcases h.1 with h | h <;> simp [h]), h.2]
  have : (l.map fun i => [Num.int (F := F) i]).flatten = l.map Num.int := by
    clear h
    induction l with
    | nil => rfl
    | cons i l ih => simp [ih]
  have e := mapRes_ok_of_forall (f := intOf (F := F)) (g := fun v => match v with | .int i => i | .flt _ => 0) (l := l.map Num.int)
    (by intro v hv; obtain ⟨i, -, rfl⟩ := List.mem_map.mp hv; rfl)
  rw [this, e]
  simp [Function.comp_def]

theorem natsOf_ok {a : Arr (Num F)} {l : List Nat} (h : IntArray a (l.map Int.ofNat)) : natsOf a = .ok l := by
  unfold natsOf
  rw [intsOf_ok h]
  have e := mapRes_ok_of_forall (f := natOf) (g := Int.toNat) (l := l.map Int.ofNat)
    (by intro v hv; obtain ⟨i, -, rfl⟩ := List.mem_map.mp hv; simp [natOf])
  simp only [e]
  simp [Function.comp_def]

theorem cellSection_ok {d : Dict (Arr (Num F))} {c : CellArrays} (h : CellsSay d c) (hl : c.types.length = c.offsets.length) :
    cellSection d c.offsets.length = .ok c := by
  obtain ⟨⟨a1, h1, g1⟩, ⟨a2, h2, g2⟩, ⟨a3, h3, g3⟩, h4, h5⟩ := h
  unfold cellSection
  simp only [h1, h2, h3]
  rw [if_neg (by rw [g2.2, g3.2]; simp [hl])]
  obtain ⟨conn, offs, types, faces, fo⟩ := c
  simp only at *
  have e4 : optional intsOf (Dict.get? d "faces") = .ok faces := by
    cases faces with
    | none => simp only at h4; rw [h4]; rfl
    | some f => obtain ⟨a, ha, hi⟩ := h4; rw [ha, optional, intsOf_ok hi]; rfl
  have e5 : optional natsOf (Dict.get? d "faceoffsets") = .ok fo := by
    cases fo with
    | none => simp only at h5; rw [h5]; rfl
    | some f => obtain ⟨a, ha, hi⟩ := h5; rw [ha, optional, natsOf_ok hi]; rfl
  rw [intsOf_ok g1, intsOf_ok g2, natsOf_ok g3, e4, e5]

theorem pointSection_ok {io : VtuIO F} {cfg : Cfg} {e : XmlElem} {a : Arr (Num F)} (h : HoldsArray io cfg e a) (hn : a.tail ≠ []) :
    pointSection io cfg [e] a.rows.length = .ok a := by
  unfold pointSection
  simp only
  rw [if_neg (by simp [h.1]), readData_ok h]
  obtain ⟨ht, h1, h2⟩ := h
  rcases h2 with ⟨hn', -, -⟩ | ⟨k, s, hk, hn', hs, hsk, hr⟩
  · exact absurd hn' hn
  · have hse : s ≠ "" := by
      rintro rfl
      exact absurd hsk.symm (by show ¬ fmtNat k = []; exact fmtNat_ne_nil k)
    have : components e = some s := by
      unfold components
      rw [if_neg (by rintro ⟨-, h⟩; rw [hs] at h; exact hse (by simpa using h)), hs]
    simp only [this, pyInt_nat' hsk]
    rw [if_neg (by omega)]
    simp only [Int.toNat_natCast, reshape_flatten k a.rows hr]
    obtain ⟨d, tail, rows⟩ := a
    simp only at hn' ⊢
    rw [hn']; rfl

theorem mapRes_perm {α β : Type} {f : α → Res β} {l l' : List α} (hp : l'.Perm l) : ∀ {r : List β}, mapRes f l = .ok r →
    ∃ r', mapRes f l' = .ok r' ∧ r'.Perm r := by
  induction hp with
  | nil => intro r h; exact ⟨r, h, .refl _⟩
  | @cons x l1 l2 _ ih =>
    intro r h
    rw [mapRes] at h
    cases hx : f x with
    | error e => rw [hx] at h; simp at h
    | ok b =>
      rw [hx] at h
      cases hl : mapRes f l2 with
      | error e => rw [hl] at h; simp at h
      | ok bs =>
        rw [hl] at h
        simp only [Except.ok.injEq] at h
        obtain ⟨r', h1, h2⟩ := ih hl
        refine ⟨b :: r', by rw [mapRes, hx, h1], ?_⟩
        rw [← h]; exact h2.cons b
  | swap x y l =>
    intro r h
    rw [mapRes, mapRes] at h
    cases hx : f x with
    | error e => rw [hx] at h; simp at h
    | ok b =>
      rw [hx] at h
      cases hy : f y with
      | error e => rw [hy] at h; simp at h
      | ok c =>
        rw [hy] at h
        cases hl : mapRes f l with
        | error e => rw [hl] at h; simp at h
        | ok bs =>
          rw [hl] at h
          simp only [Except.ok.injEq] at h
          refine ⟨c :: b :: bs, by rw [mapRes, mapRes, hx, hy, hl], ?_⟩
          rw [← h]; exact .swap b c bs
  | trans _ _ ih1 ih2 =>
    intro r h
    obtain ⟨r1, h1, p1⟩ := ih2 h
    obtain ⟨r2, h2, p2⟩ := ih1 h1
    exact ⟨r2, h2, p2.trans p1⟩

theorem mapRes_append' {α β : Type} {f : α → Res β} {l l' : List α} {r r' : List β} (h : mapRes f l = .ok r) (h' : mapRes f l' = .ok r') :
    mapRes f (l ++ l') = .ok (r ++ r') := by
  induction l generalizing r with
  | nil => simp only [mapRes, Except.ok.injEq] at h; subst h; simpa using h'
  | cons x l ih =>
    rw [mapRes] at h
    cases hx : f x with
    | error e => rw [hx] at h; simp at h
    | ok b =>
      rw [hx] at h
      cases hl : mapRes f l with
      | error e => rw [hl] at h; simp at h
      | ok bs =>
        rw [hl] at h
        simp only [Except.ok.injEq] at h
        rw [← h, List.cons_append, mapRes, hx, ih hl]; rfl

/-- The piece for the reader. -/
def pieceArrs (p : VtuPiece F) : PieceArrs F := ⟨p.cells.offsets.length, some p.points, some p.cells, p.pointData, p.cellData⟩

theorem get_perm {α : Type} {l l' : List (String × α)} (hp : l'.Perm l) (hn : (l.map (·.1)).Nodup) (k : String) : Dict.get? l' k = Dict.get? l k := by
  have hn' : (l'.map (·.1)).Nodup := (hp.map _).nodup_iff.mpr hn
  cases h : Dict.get? l k with
  | some v => exact Dict.get?_of_mem hn' (hp.mem_iff.mpr (Dict.mem_of_get? h))
  | none =>
    rw [Dict.get?_eq_none_iff] at h ⊢
    exact fun hm => h ((hp.map _).mem_iff.mp hm)

theorem optSection_ok {io : VtuIO F} {cfg : Cfg} {np nc : Int} {tag : String} {holds : List XmlElem → Dict (Arr (Num F)) → Prop}
    (hr : ∀ e d, e.tag = tag → Dict.Ok d → holds e.kids d → readSec io cfg np nc e = .ok (tag, .data d)) {es : List XmlElem}
    {d : Option (Dict (Arr (Num F)))} (h : OptSection tag holds es d) :
    mapRes (readSec io cfg np nc) es = .ok (d.map fun d => (tag, Sec.data d)).toList := by
  cases d with
  | none => simp only [OptSection] at h; subst h; rfl
  | some d =>
    obtain ⟨e, rfl, h1, h2, h3⟩ := h
    rw [mapRes, hr e d h1 h2 h3]; rfl

theorem readPiece_ok {io : VtuIO F} {cfg : Cfg} {p : VtuPiece F} {e : XmlElem} (h : SaysPiece io cfg p e) : readPiece io cfg e = .ok (pieceArrs p) := by
  obtain ⟨⟨s1, h1, g1⟩, ⟨s2, h2, g2⟩, hl, eP, eC, ePD, eCD, hperm, ⟨t1, a, ka, ha, hne⟩, ⟨t2, d, hd, hc⟩, hpd, hcd⟩ := h
  unfold readPiece
  simp only [intAttr, h1, h2, pyInt_nat' g1, pyInt_nat' g2]
  have r1 : readSec io cfg p.points.rows.length p.cells.offsets.length eP = .ok ("Points", .points p.points) := by
    rw [readSec, if_pos t1, ka, pointSection_ok ha hne, t1]; rfl
  have r2 : readSec io cfg p.points.rows.length p.cells.offsets.length eC = .ok ("Cells", .cells p.cells) := by
    have := (namedArrays_ok d [] eC.kids (by simpa using hd.1) hd.2).1
    rw [readSec, if_neg (by rw [t2]; decide), if_pos t2, this]
    simp only [List.nil_append, cellSection_ok hc hl, t2]; rfl
  have r3 := optSection_ok (io := io) (cfg := cfg) (np := p.points.rows.length) (nc := p.cells.offsets.length)
    (fun e d ht hd h => by
      rw [readSec, if_neg (by rw [ht]; decide), if_neg (by rw [ht]; decide), if_pos ht, pointArrays_ok d [] _ (by simpa using hd) h, ht]; rfl) hpd
  have r4 := optSection_ok (io := io) (cfg := cfg) (np := p.points.rows.length) (nc := p.cells.offsets.length)
    (fun e d ht hd h => by
      rw [readSec, if_neg (by rw [ht]; decide), if_neg (by rw [ht]; decide), if_neg (by rw [ht]; decide), if_pos ht,
        (namedArrays_ok d [] _ (by simpa using hd) h.2).1, ht]; rfl) hcd
  have r5 : mapRes (readSec io cfg p.points.rows.length p.cells.offsets.length) (eP :: eC :: (ePD ++ eCD)) =
      .ok (("Points", .points p.points) :: ("Cells", .cells p.cells) :: ((p.pointData.map fun d => ("PointData", Sec.data d)).toList ++
        (p.cellData.map fun d => ("CellData", Sec.data d)).toList)) := by
    rw [mapRes, mapRes, r1, r2, mapRes_append' r3 r4]
  obtain ⟨secs, q1, q2⟩ := mapRes_perm hperm r5
  simp only [q1]
  have hnd : ((("Points", Sec.points p.points) :: ("Cells", Sec.cells p.cells) :: ((p.pointData.map fun d => ("PointData", Sec.data d)).toList ++
        (p.cellData.map fun d => ("CellData", Sec.data d)).toList)).map (·.1)).Nodup := by
    cases p.pointData <;> cases p.cellData <;> simp
  rw [if_neg (by rw [not_not]; exact (q2.map _).nodup_iff.mpr hnd)]
  simp only [get_perm q2 hnd, Int.toNat_natCast]
  cases hp : p.pointData <;> cases hq : p.cellData <;>
    simp [Dict.get?_cons, Sec.points?, Sec.cells?, Sec.data?, pieceArrs, hp, hq]

theorem readPieces_ok {io : VtuIO F} {cfg : Cfg} {ps : List (VtuPiece F)} {es : List XmlElem} (h : All2 (SaysPiece io cfg) ps es) :
    mapRes (readPiece io cfg) es = .ok (ps.map pieceArrs) := by
  induction ps generalizing es with
  | nil => cases es with
    | nil => rfl
    | cons e es => exact h.elim
  | cons p ps ih => cases es with
    | nil => exact h.elim
    | cons e es => rw [mapRes, readPiece_ok h.1, ih h.2]; rfl

theorem readGrid_ok {io : VtuIO F} {cfg : Cfg} {g : XmlElem} {ps : List (VtuPiece F)} {fd : Dict (Arr (Num F))} (h : SaysGrid io cfg g ps fd) :
    readGrid io cfg g = merge (ps.map pieceArrs) fd := by
  obtain ⟨h1, h2, h3⟩ := h
  unfold readGrid
  rw [if_neg (by
    simp only [List.any_eq_true, decide_eq_true_eq, not_exists, not_and]
    intro e he h; rcases h1 e he with h' | h' <;> simp [h'] at h ⊢)]
  have := (namedArrays_ok fd [] _ (by simpa using h3.1) h3.2).2
  simp only [List.nil_append] at this
  rw [this, readPieces_ok h2]

theorem readCfg_ok {sysBig : Bool} {root : XmlElem} {cfg : Cfg} (h : SaysRoot sysBig root cfg) :
    readCfg sysBig root = .ok (cfg.lzma, cfg.header, cfg.big) := by
  obtain ⟨h1, h2, h3, h4, h5, h6⟩ := h
  unfold readCfg
  rw [if_neg (by simp [h1]), h2]
  simp only
  rw [if_neg (by simp), if_neg (by rcases h3 with h | h | h <;> rw [h] <;> decide),
    if_neg (by rcases h4 with ⟨h, -⟩ | ⟨h, -⟩ | ⟨h, -⟩ <;> rw [h] <;> decide),
    if_neg (by rcases h6 with ⟨h, -⟩ | ⟨h, -⟩ | ⟨h, -⟩ <;> rw [h] <;> decide)]
  have e1 : (root.attr? "compressor").map (fun c => decide (c = "vtkLZMADataCompressor")) = cfg.lzma := by
    rcases h4 with ⟨h, h'⟩ | ⟨h, h'⟩ | ⟨h, h'⟩ <;> rw [h, h'] <;> decide
  have e2 : (root.attr? "header_type").getD "UInt32" = cfg.header := by
    rcases h5 with ⟨h, h'⟩ | h
    · rw [h, h']; rfl
    · rw [h]; rfl
  have e3 : ((root.attr? "byte_order").map fun b => decide (b = "BigEndian")).getD sysBig = cfg.big := by
    rcases h6 with ⟨h, h'⟩ | ⟨h, h'⟩ | ⟨h, h'⟩
    · rw [h, h']; rfl
    · rw [h, h']; decide +revert
    · rw [h, h']; decide +revert
  rw [e1, e2, e3]

theorem getGrid_ok {g : XmlElem} (hg : g.tag = "UnstructuredGrid") {kids : List XmlElem} {a : Option (List Char)}
    (h : (kids = [g] ∧ a = none) ∨ ∃ e b, SaysAppended e b ∧ a = some b ∧ (kids = [g, e] ∨ kids = [e, g])) :
    getGrid kids none none = .ok (g, a) := by
  rcases h with ⟨rfl, rfl⟩ | ⟨e, b, ⟨h1, h2, h3, h4⟩, rfl, rfl | rfl⟩
  · simp [getGrid, hg]
  · simp [getGrid, hg, h1, h2, h3, h4]
  · simp [getGrid, hg, h1, h2, h3, h4]

theorem readRoot_ok {io : VtuIO F} {sysBig : Bool} {root : XmlElem} {ps : List (VtuPiece F)} {fd : Dict (Arr (Num F))}
    (h : SaysVtu io sysBig root ps fd) : readRoot io sysBig root = merge (ps.map pieceArrs) fd := by
  obtain ⟨cfg, g, h1, h2, h3, h4⟩ := h
  unfold readRoot
  rw [readCfg_ok h1]
  simp only
  rw [getGrid_ok h2 h4]
  exact readGrid_ok h3

end Meshio.VtuFile
