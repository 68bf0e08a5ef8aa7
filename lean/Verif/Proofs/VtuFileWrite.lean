/-
Writing VTU files.
-/
import Verif.Spec.VtuFileWrite
import Verif.Proofs.VtuFileMesh
import Verif.Proofs.VtkFileWrite
import Verif.Proofs.Cxml
namespace Meshio.VtuFile
open Meshio Meshio.Spec Meshio.Vtu Meshio.VtkFile Meshio.Vtk

variable {F : Type} {io : VtuIO F} {has : Nat → F → Prop} {rnd : F → F} {o : Opts}

/-! ### Base64 text -/

theorem b64Char_plain (n : Nat) : isWs (b64Char n) = false ∧ b64Char n ≠ '<' ∧ b64Char n ≠ '&' := by
  have e : b64Char n = b64Char (n % 64) := by unfold b64Char; rw [Nat.mod_mod]
  rw [e]
  exact (by decide +kernel : ∀ n : Fin 64, isWs (b64Char n) = false ∧ b64Char n ≠ '<' ∧ b64Char n ≠ '&') ⟨n % 64, Nat.mod_lt _ (by decide)⟩

theorem b64enc_chars (l : List Byte) : ∀ c ∈ b64enc l, isWs c = false ∧ c ≠ '<' ∧ c ≠ '&' := by
  fun_induction b64enc l with
  | case1 => simp
  | case2 a =>
    intro c hc
    simp only [List.mem_cons, List.not_mem_nil, or_false] at hc
    rcases hc with rfl | rfl | rfl | rfl <;> first | exact b64Char_plain _ | decide
  | case3 a b =>
    intro c hc
    simp only [List.mem_cons, List.not_mem_nil, or_false] at hc
    rcases hc with rfl | rfl | rfl | rfl <;> first | exact b64Char_plain _ | decide
  | case4 a b c l ih =>
    intro x hc
    simp only [List.mem_cons] at hc
    rcases hc with rfl | rfl | rfl | rfl | hc <;> first | exact b64Char_plain _ | exact ih x hc

theorem strip_plain (x : List Char) (h : ∀ c ∈ x, isWs c = false) : strip ('\n' :: (x ++ ['\n'])) = x := by
  have e : strip ('\n' :: (x ++ ['\n'])) = strip (x ++ ['\n']) := by
    unfold strip
    rw [List.dropWhile_cons, if_pos (by decide)]
  rw [e]
  exact strip_trim (fun c hc => h c (List.mem_of_head? hc)) (fun c hc => h c (List.mem_of_getLast? hc)) _ (by intro c hc; simp at hc; subst hc; decide)

/-! ### Numbers -/

theorem natDec_intEnc (big : Bool) (k : Nat) (i : Int) (h0 : 0 ≤ i) (h : i < (256 ^ k : Nat)) : (natDec big (intEnc big k i) : Int) = i := by
  unfold intEnc
  have e : ((256 : Int) ^ k) = ((256 ^ k : Nat) : Int) := by simp
  rw [e, Int.emod_eq_of_lt h0 h, natDec_natEnc]
  · omega
  · omega

theorem num_bytes (hio : VtuLaws io has rnd) {t d : String} {isz : Nat} (hk : (t, d, isz) ∈ vtuKinds) (big : Bool) {v : Num F} (h : VtuNum has d isz v) :
    VtuBytes io big d v (valEnc io big d v) ∧ (valEnc io big d v).length = isz := by
  have hs : size d = isz := (kinds_ok _ hk).2.1
  cases v with
  | flt x => exact ⟨⟨h.1, by unfold valEnc; rw [hs]; exact hio.dec big isz x h.2⟩, by unfold valEnc; rw [hs]; exact hio.length _ _ _⟩
  | int i =>
    refine ⟨?_, by unfold valEnc; rw [hs]; exact length_intEnc _ _ _⟩
    rcases h with ⟨h1, h2⟩ | ⟨h1, h2, h3⟩
    · exact .inr ⟨h1, by unfold valEnc; rw [hs]; exact (intDec_intEnc big isz i h2).symm⟩
    · exact .inl ⟨h1, by unfold valEnc; rw [hs]; exact (natDec_intEnc big isz i h2 h3).symm⟩

theorem kinds_float : ∀ k ∈ vtuKinds, (k.2.1 = "float32" ∨ k.2.1 = "float64") → k.2.1 ∉ ["int8", "int16", "int32", "int64"] ∧
    k.2.1 ∉ ["uint8", "uint16", "uint32", "uint64"] := by decide +kernel

theorem num_token (hio : VtuLaws io has rnd) {t d : String} {isz : Nat} (hk : (t, d, isz) ∈ vtuKinds) {v : Num F} (h : VtuNum has d isz v) :
    VtuToken io d (vtuRound rnd v) (valFmt io v) := by
  cases v with
  | flt x => exact ⟨h.1, hio.parse x⟩
  | int i =>
    refine ⟨?_, parseInt_fmtInt i⟩
    by_cases hf : d = "float32" ∨ d = "float64"
    · obtain ⟨k1, k2⟩ := kinds_float _ hk hf
      rcases h with ⟨h1, -⟩ | ⟨h1, -⟩
      · exact absurd h1 k1
      · exact absurd h1 k2
    · exact not_or.mp hf

theorem fmtInt_plain (i : Int) : PlainText (fmtInt i) := by
  intro c hc
  constructor
  · rintro rfl; exact not_mem_fmtInt (by decide) (by decide) i hc
  · rintro rfl; exact not_mem_fmtInt (by decide) (by decide) i hc

theorem valFmt_plain (hio : VtuLaws io has rnd) (v : Num F) : IsTok (valFmt io v) ∧ PlainText (valFmt io v) := by
  cases v with
  | flt x => exact ⟨hio.tok x, hio.text x⟩
  | int i => exact ⟨isTok_fmtInt i, fmtInt_plain i⟩

/-- The text of the numbers. -/
theorem asciiText_ok (hio : VtuLaws io has rnd) (l : List (Num F)) :
    splitWs ('\n' :: ((l.flatMap fun v => valFmt io v ++ ['\n']) ++ ['\n'])) = l.map (valFmt io) ∧ PlainText (l.flatMap fun v => valFmt io v ++ ['\n']) := by
  constructor
  · have e : ('\n' :: ((l.flatMap fun v => valFmt io v ++ ['\n']) ++ ['\n'])) = linesText ([] :: (l.map (valFmt io) ++ [[]])) := by
      simp [linesText, List.flatMap_map, List.flatMap_append]
    rw [e, splitWs_lines]
    simp only [List.flatMap_cons, List.flatMap_append, List.flatMap_nil]
    have e2 : splitWs [] = [] := rfl
    rw [e2]
    simp only [List.nil_append, List.append_nil]
    induction l with
    | nil => rfl
    | cons v l ih =>
      have ih := ih (by simp [linesText, List.flatMap_map, List.flatMap_append])
      rw [List.map_cons, List.flatMap_cons, ih, splitWs_tok (valFmt_plain hio v).1]
      rfl
  · intro c hc
    obtain ⟨v, -, hc⟩ := List.mem_flatMap.1 hc
    rcases List.mem_append.1 hc with hc | hc
    · exact (valFmt_plain hio v).2 c hc
    · simp at hc; subst hc; decide

/-! ### Arrays -/

/-- What the reader learns about the file. -/
def cfgOf (o : Opts) : Cfg :=
  ⟨if o.binary then o.compression.map (fun c => decide (c = "lzma")) else none, o.header.getD "UInt32", o.sysBig, none⟩

theorem vtuName_ok : ∀ k ∈ vtuKinds, vtuName k.2.1 = some k.1 := by decide +kernel

theorem kinds_size : ∀ k ∈ vtuKinds, 32768 % k.2.2 = 0 ∧ 0 < k.2.2 := by decide +kernel

theorem all2_of_map {α β γ : Type} {R : β → γ → Prop} (f : α → β) (g : α → γ) (l : List α) (h : ∀ a ∈ l, R (f a) (g a)) : All2 R (l.map f) (l.map g) := by
  induction l with
  | nil => trivial
  | cons a l ih => exact ⟨h a (by simp), ih fun b hb => h b (by simp [hb])⟩

theorem chunk_lengths (a : List Byte) (isz : Nat) (h32 : 32768 % isz = 0) (ha : a.length % isz = 0) : ∀ c ∈ chunkIt a 32768, c.length % isz = 0 := by
  intro c hc
  obtain ⟨i, hi⟩ := List.mem_iff_getElem?.1 hc
  obtain ⟨h1, rfl⟩ := get_chunkIt a 32768 i c hi
  rw [List.length_take, List.length_drop]
  have hd : (i * 32768) % isz = 0 := by rw [Nat.mul_mod, h32]; simp
  rcases Nat.le_total 32768 (a.length - i * 32768) with h | h
  · rw [Nat.min_eq_left h]; exact h32
  · rw [Nat.min_eq_right h]
    exact Nat.mod_eq_zero_of_dvd (Nat.dvd_sub (Nat.dvd_of_mod_eq_zero ha) (Nat.dvd_of_mod_eq_zero hd))

theorem arrText_ok (hio : VtuLaws io has rnd) {a : Arr (Num F)} {t : String} {isz : Nat} (hk : (t, a.dtype, isz) ∈ vtuKinds)
    (hv : ∀ r ∈ a.rows, ∀ v ∈ r, VtuNum has a.dtype isz v) (hf : VtuFits io o a) : ∃ x, arrText io o a = .ok x ∧ PlainText x ∧
      ((o.binary = false ∧ All2 (VtuToken io a.dtype) (vtuKept rnd o a).rows.flatten (splitWs ('\n' :: (x ++ ['\n'])))) ∨
        (o.binary = true ∧ EncodedNums io (cfgOf o) a.dtype isz (vtuKept rnd o a).rows.flatten (strip ('\n' :: (x ++ ['\n']))))) := by
  have hv' : ∀ v ∈ a.rows.flatten, VtuNum has a.dtype isz v := by
    intro v hv1
    obtain ⟨r, hr, hv2⟩ := List.mem_flatten.1 hv1
    exact hv r hr v hv2
  unfold arrText
  cases hb : o.binary with
  | false =>
    obtain ⟨h1, h2⟩ := asciiText_ok hio a.rows.flatten
    refine ⟨_, by simp only [Bool.false_eq_true, if_false], h2, .inl ⟨rfl, ?_⟩⟩
    rw [h1]
    have e : (vtuKept rnd o a).rows.flatten = a.rows.flatten.map (vtuRound rnd) := by
      unfold vtuKept
      rw [hb, if_neg (by decide), ← List.map_flatten]
    rw [e]
    exact all2_of_map _ _ _ fun v hv => num_token hio hk (hv' v hv)
  | true =>
    obtain ⟨w, hw, hlen, hcomp⟩ := hf hb
    obtain ⟨hh, hw0, -⟩ := headers_ok _ hw
    have e : (vtuKept rnd o a) = a := by unfold vtuKept; rw [if_pos hb]
    have hall : All2 (VtuBytes io o.sysBig a.dtype) a.rows.flatten (a.rows.flatten.map (valEnc io o.sysBig a.dtype)) := by
      have := all2_of_map (R := VtuBytes io o.sysBig a.dtype) id (valEnc io o.sysBig a.dtype) a.rows.flatten fun v hv => (num_bytes hio hk _ (hv' v hv)).1
      rwa [List.map_id] at this
    have hblen : ∀ b ∈ a.rows.flatten.map (valEnc io o.sysBig a.dtype), b.length = isz := by
      intro b hb
      obtain ⟨v, hv, rfl⟩ := List.mem_map.1 hb
      exact (num_bytes hio hk _ (hv' v hv)).2
    have hbytes : (a.rows.flatten.map (valEnc io o.sysBig a.dtype)).flatten = arrBytes io o.sysBig a := by
      unfold arrBytes; rw [List.flatMap_def]
    rw [e]
    simp only at hh
    simp only [if_true, hh]
    cases hc : o.compression with
    | none =>
      refine ⟨_, rfl, fun c hc => (b64enc_chars _ c hc).2, .inr ⟨trivial, w, _, hw, hblen, hall, .inl ⟨by simp [cfgOf, hc], ?_⟩⟩⟩
      rw [hbytes, strip_plain (writeUncompressed _ _ _) fun c hc => (b64enc_chars _ c hc).1]
      exact ⟨hlen, [], .inl (by simp [writeUncompressed, cfgOf])⟩
    | some c =>
      obtain ⟨hc1, hne, h32, hsum⟩ := hcomp c hc
      have hfind : Types.find compressions c = some (decide (c = "lzma")) := by
        rcases hc1 with rfl | rfl <;> decide +kernel
      simp only [hfind]
      have hchars : ∀ x ∈ writeCompressed (io.comp (decide (c = "lzma"))) o.sysBig w (arrBytes io o.sysBig a), isWs x = false ∧ x ≠ '<' ∧ x ≠ '&' := by
        intro x hx
        unfold writeCompressed at hx
        rcases List.mem_append.1 hx with hx | hx <;> exact b64enc_chars _ x hx
      refine ⟨_, rfl, fun c hc => (hchars c hc).2, .inr ⟨trivial, w, _, hw, hblen, hall, .inr ⟨decide (c = "lzma"), by simp [cfgOf, hb, hc], ?_⟩⟩⟩
      rw [hbytes, strip_plain _ fun c hc => (hchars c hc).1]
      have hmod : (arrBytes io o.sysBig a).length % isz = 0 := by
        rw [← hbytes, length_flatten_const _ _ hblen]
        simp
      have hnum : ((chunkIt (arrBytes io o.sysBig a) 32768).map (io.comp (decide (c = "lzma")))).length = ((arrBytes io o.sysBig a).length + 32767) / 32768 := by
        rw [List.length_map, length_chunkIt _ _ (by decide)]
      have hle : ∀ n ∈ headNats (arrBytes io o.sysBig a).length ((chunkIt (arrBytes io o.sysBig a) 32768).map (io.comp (decide (c = "lzma")))), n < 256 ^ w := by
        have hpos : 0 < (arrBytes io o.sysBig a).length := List.length_pos_iff.2 hne
        intro n hn
        unfold headNats at hn
        simp only [List.cons_append, List.nil_append, List.mem_cons] at hn
        rcases hn with rfl | rfl | rfl | hn
        · omega
        · exact h32
        · omega
        · rw [List.map_map] at hn
          exact Nat.lt_of_le_of_lt (le_sum_of_mem hn) hsum
      refine ⟨(chunkIt (arrBytes io o.sysBig a) 32768).map (io.comp (decide (c = "lzma"))), chunkIt (arrBytes io o.sysBig a) 32768, 32768, 
        (arrBytes io o.sysBig a).length + 32768 - ((arrBytes io o.sysBig a).length + 32767) / 32768 * 32768, [], ?_, flatten_chunkIt _ _ (by decide), ?_,
        chunk_lengths _ _ (kinds_size _ hk).1 hmod, ?_, ?_, ?_⟩
      · intro h0
        have := flatten_chunkIt (arrBytes io o.sysBig a) 32768 (by decide)
        rw [h0] at this
        exact hne this.symm
      · have := all2_of_map (R := fun c' b => io.decomp (decide (c = "lzma")) c' = .ok b) (io.comp (decide (c = "lzma"))) id (chunkIt (arrBytes io o.sysBig a) 32768)
          fun b _ => hio.comp _ b
        rwa [List.map_id] at this
      · rw [hnum]; exact hle
      · rw [List.map_map]; exact hsum
      · rw [hnum]
        unfold writeCompressed
        simp only [compHeader_eq]
        rw [show maxBlock = 32768 from rfl, headerBytes_nat _ _ _ hle]
        simp [headNats, cfgOf]

theorem strInt_nat (n : Nat) : (strInt (n : Int)).toList = fmtNat n := by
  unfold strInt; rw [String.toList_ofList]; rfl

theorem plain_strInt (n : Int) : PlainValue (strInt n) := by
  unfold strInt PlainValue
  rw [String.toList_ofList]
  intro c hc
  refine ⟨?_, ?_, ?_, ?_, ?_, ?_⟩ <;> rintro rfl <;> exact not_mem_fmtInt (by decide) (by decide) n hc

theorem kept_dtype (a : Arr (Num F)) : (vtuKept rnd o a).dtype = a.dtype ∧ (vtuKept rnd o a).tail = a.tail ∧
    (vtuKept rnd o a).rows.map List.length = a.rows.map List.length := by
  unfold vtuKept
  split
  · simp
  · simp [Function.comp_def]

theorem kinds_plain : ∀ k ∈ vtuKinds, ∀ c ∈ k.1.toList, c ≠ '"' ∧ c ≠ '<' ∧ c ≠ '&' ∧ c ≠ '\n' ∧ c ≠ '\t' ∧ c ≠ '\r' := by decide +kernel

theorem rows_kept {a : Arr (Num F)} {k : Nat} (h : ∀ r ∈ a.rows, r.length = k) : ∀ r ∈ (vtuKept rnd o a).rows, r.length = k := by
  intro r hr
  have : r.length ∈ (vtuKept rnd o a).rows.map List.length := List.mem_map.2 ⟨r, hr, rfl⟩
  rw [(kept_dtype a).2.2] at this
  obtain ⟨r', hr', e⟩ := List.mem_map.1 this
  rw [← e]
  exact h r' hr'

/-- The attributes of an array. -/
def attrsOf (o : Opts) (t name : String) (tail : List Nat) : List (String × String) :=
  [("type", t), ("Name", name)] ++ compAttr tail ++ [("format", if o.binary then "binary" else "ascii")]

theorem attrs_ok {t name : String} {tail : List Nat} (ht : PlainValue t) (hn : PlainValue name) (hs : tail = [] ∨ ∃ k, tail = [k]) :
    (∀ a ∈ attrsOf o t name tail, XmlName a.1 ∧ PlainValue a.2) ∧ ((attrsOf o t name tail).map (·.1)).Nodup := by
  have hf : PlainValue (if o.binary then "binary" else "ascii") := by
    unfold PlainValue; split <;> decide +kernel
  have h1 : XmlName "type" ∧ XmlName "Name" ∧ XmlName "NumberOfComponents" ∧ XmlName "format" := by
    refine ⟨⟨⟨'t', rfl, .inl (by decide)⟩, by decide +kernel⟩, ⟨⟨'N', rfl, .inl (by decide)⟩, by decide +kernel⟩,
      ⟨⟨'N', rfl, .inl (by decide)⟩, by decide +kernel⟩, ⟨⟨'f', rfl, .inl (by decide)⟩, by decide +kernel⟩⟩
  rcases hs with rfl | ⟨k, rfl⟩
  · constructor
    · intro a ha
      simp only [attrsOf, compAttr, List.cons_append, List.nil_append, List.mem_cons, List.not_mem_nil, or_false] at ha
      rcases ha with rfl | rfl | rfl
      · exact ⟨h1.1, ht⟩
      · exact ⟨h1.2.1, hn⟩
      · exact ⟨h1.2.2.2, hf⟩
    · simp [attrsOf, compAttr]
  · constructor
    · intro a ha
      simp only [attrsOf, compAttr, List.cons_append, List.nil_append, List.mem_cons, List.not_mem_nil, or_false] at ha
      rcases ha with rfl | rfl | rfl | rfl
      · exact ⟨h1.1, ht⟩
      · exact ⟨h1.2.1, hn⟩
      · exact ⟨h1.2.2.1, plain_strInt _⟩
      · exact ⟨h1.2.2.2, hf⟩
    · simp [attrsOf, compAttr]

theorem arrElem_ok (hio : VtuLaws io has rnd) {x : String × Arr (Num F)} (h : VtuGood io has o x) :
    ∃ t txt, arrElem io o x.1 x.2 = .ok (attrsOf o t x.1 x.2.tail, txt) ∧ PlainText txt ∧ PlainValue t ∧
      ∀ ch, HoldsArray io (cfgOf o) ⟨"DataArray", attrsOf o t x.1 x.2.tail, '\n' :: (txt ++ ['\n']), ch⟩ (vtuKept rnd o x.2) := by
  obtain ⟨name, a⟩ := x
  obtain ⟨hn, ⟨⟨t, isz, hk, hv⟩, hs⟩, hf⟩ := h
  simp only at hn hk hv hs hf
  obtain ⟨txt, h1, h2, h3⟩ := arrText_ok hio hk hv hf
  refine ⟨t, txt, ?_, h2, kinds_plain _ hk, fun ch => ?_⟩
  · unfold arrElem
    have := vtuName_ok _ hk
    simp only at this
    simp only [this, h1]
    rfl
  · refine ⟨rfl, ⟨t, isz, ?_, ?_, ?_⟩, ?_⟩
    · simp [XmlElem.attr?, attrsOf]
    · rw [(kept_dtype a).1]; exact hk
    · rw [(kept_dtype a).1]
      have hfmt : XmlElem.attr? ⟨"DataArray", attrsOf o t name a.tail, '\n' :: (txt ++ ['\n']), ch⟩ "format" = some (if o.binary then "binary" else "ascii") := by
        rcases hs with ⟨hs, -⟩ | ⟨k, hs, -⟩ <;> rw [hs] <;> simp [XmlElem.attr?, attrsOf, compAttr]
      rcases h3 with ⟨hb, h3⟩ | ⟨hb, h3⟩
      · exact .inl ⟨.inr (by rw [hfmt, hb]; rfl), by simp, h3⟩
      · exact .inr (.inl ⟨by rw [hfmt, hb]; rfl, by simp, h3⟩)
    · rcases hs with ⟨hs, hr⟩ | ⟨k, hs, hk, hr⟩
      · exact .inl ⟨by rw [(kept_dtype a).2.1, hs], .inl (by rw [hs]; simp [XmlElem.attr?, attrsOf, compAttr]), rows_kept hr⟩
      · refine .inr ⟨k, strInt k, hk, by rw [(kept_dtype a).2.1, hs], by rw [hs]; simp [XmlElem.attr?, attrsOf, compAttr], ?_, rows_kept hr⟩
        rw [strInt_nat]
        exact strip_trim (s := fmtNat k) (fun c hc => (isTok_fmtNat k).2 c (List.mem_of_head? hc)) (fun c hc => (isTok_fmtNat k).2 c (List.mem_of_getLast? hc)) [] (by simp)
          |> (by rwa [List.append_nil] at ·)

theorem arrElems_ok (hio : VtuLaws io has rnd) (l : List (String × Arr (Num F))) (h : ∀ x ∈ l, VtuGood io has o x) :
    ∃ out, arrElems io o l = .ok out ∧ PlainDoc out ∧ commentLines out = [] ∧
      All2 (fun kv e => e.attr? "Name" = some kv.1 ∧ HoldsArray io (cfgOf o) e (vtuKept rnd o kv.2)) l (saidTree out).elems := by
  induction l with
  | nil => exact ⟨.nil, rfl, trivial, rfl, trivial⟩
  | cons x l ih =>
    obtain ⟨out, h1, h2, h3, h4⟩ := ih fun y hy => h y (by simp [hy])
    have hx := h x (by simp)
    obtain ⟨t, txt, k1, k2, k3, k4⟩ := arrElem_ok hio hx
    obtain ⟨a1, a2⟩ := attrs_ok (o := o) (t := t) (name := x.1) (tail := x.2.tail) k3 hx.1 (by
      rcases hx.2.1.2 with ⟨h, -⟩ | ⟨k, h, -⟩
      · exact .inl h
      · exact .inr ⟨k, h⟩)
    refine ⟨.elem "DataArray" (attrsOf o t x.1 x.2.tail) (some txt) .nil out, ?_, ⟨?_, a1, a2, ?_, trivial, h2⟩, rfl, ?_⟩
    · obtain ⟨n, a⟩ := x
      unfold arrElems
      simp only at k1
      rw [k1]
      simp only [h1]
      rfl
    · exact ⟨⟨'D', rfl, .inl (by decide)⟩, by decide +kernel⟩
    · intro t' ht'; cases ht'; exact k2
    · have : '\n' :: (ownLine (some txt) ++ commentLines .nil) = '\n' :: (txt ++ ['\n']) := by simp [ownLine, commentLines]
      simp only [saidTree, this, Xml.elems]
      exact ⟨⟨by simp [XmlElem.attr?, attrsOf], k4 _⟩, h4⟩

theorem dataSec_ok (hio : VtuLaws io has rnd) (tag : String) (htag : XmlName tag) (l : List (String × Arr (Num F))) (h : ∀ x ∈ l, VtuGood io has o x)
    (rest : Cxml.Out) (hr : PlainDoc rest) (hr0 : commentLines rest = []) :
    ∃ out, dataSec io o tag l rest = .ok out ∧ PlainDoc out ∧ commentLines out = [] ∧
      ((l = [] ∧ out = rest) ∨ (l ≠ [] ∧ ∃ ch, (saidTree out).elems = ⟨tag, [], ['\n'], ch⟩ :: (saidTree rest).elems ∧
        All2 (fun kv e => e.attr? "Name" = some kv.1 ∧ HoldsArray io (cfgOf o) e (vtuKept rnd o kv.2)) l ch.elems)) := by
  unfold dataSec
  by_cases hl : l = []
  · exact ⟨rest, by rw [if_pos hl], hr, hr0, .inl ⟨hl, rfl⟩⟩
  · obtain ⟨out, h1, h2, h3, h4⟩ := arrElems_ok hio l h
    refine ⟨.elem tag [] none out rest, by rw [if_neg hl, h1]; rfl, ⟨htag, by simp, by simp, by simp, h2, hr⟩, rfl, .inr ⟨hl, saidTree out, ?_, h4⟩⟩
    simp only [saidTree, ownLine, h3, Xml.elems]
    rfl

theorem all2_weaken {α β : Type} {R S : α → β → Prop} {l : List α} {m : List β} (h : All2 R l m) (hw : ∀ a ∈ l, ∀ b, R a b → S a b) : All2 S l m := by
  induction l generalizing m with
  | nil => cases m with
    | nil => trivial
    | cons _ _ => exact h
  | cons a l ih => cases m with
    | nil => exact h
    | cons b m => exact ⟨hw a (by simp) b h.1, ih h.2 fun a ha => hw a (by simp [ha])⟩

theorem all2_mapl {α β γ : Type} {R : γ → β → Prop} (f : α → γ) {l : List α} {m : List β} (h : All2 (fun a b => R (f a) b) l m) : All2 R (l.map f) m := by
  induction l generalizing m with
  | nil => cases m with
    | nil => trivial
    | cons _ _ => exact h
  | cons a l ih => cases m with
    | nil => exact h
    | cons b m => exact ⟨h.1, ih h.2⟩

/-- The arrays as they are in the file. -/
def keptAll (rnd : F → F) (o : Opts) (d : Dict (Arr (Num F))) : Dict (Arr (Num F)) := d.map fun kv => (kv.1, vtuKept rnd o kv.2)

theorem keptAll_ok {d : Dict (Arr (Num F))} (h : (d.map (·.1)).Nodup) : Dict.Ok (keptAll rnd o d) := by
  have e : Dict.keys (keptAll rnd o d) = d.map (·.1) := by simp [Dict.keys, keptAll, Function.comp_def]
  unfold Dict.Ok
  rw [e]; exact h

theorem holdsDict_of {l : Dict (Arr (Num F))} {es : List XmlElem} (hn : (l.map (·.1)).Nodup)
    (h : All2 (fun kv e => e.attr? "Name" = some kv.1 ∧ HoldsArray io (cfgOf o) e (vtuKept rnd o kv.2)) l es) :
    HoldsDict io (cfgOf o) es (keptAll rnd o l) :=
  ⟨keptAll_ok hn, all2_mapl _ h⟩

theorem holdsSome_of {cfg : Cfg} {l : Dict (Arr (Num F))} {es : List XmlElem}
    (h : All2 (fun kv e => e.attr? "Name" = some kv.1 ∧ HoldsArray io cfg e kv.2) l es) : HoldsSome io cfg es l := by
  induction l generalizing es with
  | nil => cases es with
    | nil => rfl
    | cons _ _ => exact h.elim
  | cons kv l ih => cases es with
    | nil => exact h.elim
    | cons e es => exact .inr ⟨kv, l, rfl, h.1.1, h.1.2, ih h.2⟩

theorem vtuOpt_kept (d : Dict (Arr (Num F))) (h : d ≠ []) : vtuOpt (keptAll rnd o d) = some (keptAll rnd o d) := by
  unfold vtuOpt
  rw [if_neg]
  unfold keptAll
  rw [List.map_eq_nil_iff]; exact h

theorem strip_nat (n : Nat) : strip (strInt (n : Int)).toList = fmtNat n := by
  rw [strInt_nat]
  have := strip_trim (s := fmtNat n) (fun c hc => (isTok_fmtNat n).2 c (List.mem_of_head? hc)) (fun c hc => (isTok_fmtNat n).2 c (List.mem_of_getLast? hc)) [] (by simp)
  rwa [List.append_nil] at this

theorem sections_ok (hio : VtuLaws io has rnd) {m : In F} {ca : List (String × Arr (Num F))} {c : CellArrays} {cd : Dict (Arr (Num F))}
    (hcf : VtkFile.cellFields m.cellData = .ok cd) (hca : cellArrs m = .ok ca) (hne : ca ≠ []) (hcn : (ca.map (·.1)).Nodup)
    (hsay : CellsSay (keptAll rnd o ca) c) (hp : VtuGood io has o ("Points", pad3 io m.points)) (hpt : (pad3 io m.points).tail ≠ [])
    (hcg : ∀ x ∈ ca, VtuGood io has o x) (hpd : ∀ x ∈ m.pointData, VtuGood io has o x) (hpn : (m.pointData.map (·.1)).Nodup)
    (hcd : ∀ x ∈ cd, VtuGood io has o x) (hcdn : (cd.map (·.1)).Nodup) (hl : c.types.length = c.offsets.length)
    (hlen : (pad3 io m.points).rows.length = m.points.rows.length) (hnc : c.offsets.length = (m.cells.map inLen).sum) :
    ∃ k, sections io o m = .ok k ∧ PlainDoc k ∧ commentLines k = [] ∧
      ∀ x, SaysPiece io (cfgOf o) ⟨vtuKept rnd o (pad3 io m.points), c, vtuOpt (keptAll rnd o m.pointData), vtuOpt (keptAll rnd o cd)⟩
        ⟨"Piece", [("NumberOfPoints", strInt m.points.rows.length), ("NumberOfCells", strInt (m.cells.map inLen).sum)], x, saidTree k⟩ := by
  obtain ⟨k1, a1, b1, c1, d1⟩ := dataSec_ok hio "CellData" ⟨⟨'C', rfl, .inl (by decide)⟩, by decide +kernel⟩ cd hcd .nil trivial rfl
  obtain ⟨k2, a2, b2, c2, d2⟩ := dataSec_ok hio "PointData" ⟨⟨'P', rfl, .inl (by decide)⟩, by decide +kernel⟩ m.pointData hpd k1 b1 c1
  obtain ⟨k3, a3, b3, c3, d3⟩ := dataSec_ok hio "Cells" ⟨⟨'C', rfl, .inl (by decide)⟩, by decide +kernel⟩ ca hcg k2 b2 c2
  obtain ⟨k4, a4, b4, c4, d4⟩ := dataSec_ok hio "Points" ⟨⟨'P', rfl, .inl (by decide)⟩, by decide +kernel⟩ [("Points", pad3 io m.points)]
    (by intro x hx; simp only [List.mem_singleton] at hx; subst hx; exact hp) k3 b3 c3
  refine ⟨k4, by unfold sections; simp only [hcf, hca, a1, a2, a3, a4], b4, c4, fun x => ?_⟩
  rcases d4 with ⟨h, -⟩ | ⟨-, chP, e4, h4⟩
  · cases h
  rcases d3 with ⟨h, -⟩ | ⟨-, chC, e3, h3⟩
  · exact absurd h hne
  have hPD : ∃ ePD, (saidTree k2).elems = ePD ++ (saidTree k1).elems ∧ OptSection "PointData" (HoldsSome io (cfgOf o)) ePD (vtuOpt (keptAll rnd o m.pointData)) := by
    rcases d2 with ⟨h, rfl⟩ | ⟨hne2, ch, e2, h2⟩
    · exact ⟨[], rfl, by rw [h]; rfl⟩
    · refine ⟨[⟨"PointData", [], ['\n'], ch⟩], e2, ?_⟩
      rw [vtuOpt_kept _ hne2]
      exact ⟨_, rfl, rfl, keptAll_ok hpn, holdsSome_of (all2_mapl _ h2)⟩
  have hCD : OptSection "CellData" (fun es d => HoldsDict io (cfgOf o) es d) (saidTree k1).elems (vtuOpt (keptAll rnd o cd)) := by
    rcases d1 with ⟨h, rfl⟩ | ⟨hne1, ch, e1, h1⟩
    · rw [h]; rfl
    · rw [vtuOpt_kept _ hne1, e1]
      exact ⟨_, rfl, rfl, keptAll_ok hcdn, holdsDict_of hcdn h1⟩
  obtain ⟨ePD, e2, hPD⟩ := hPD
  have hkl : (vtuKept rnd o (pad3 io m.points)).rows.length = m.points.rows.length := by
    rw [← hlen, ← List.length_map (f := List.length), (kept_dtype _).2.2, List.length_map]
  refine ⟨⟨strInt m.points.rows.length, by simp [XmlElem.attr?], ?_⟩, ⟨strInt (m.cells.map inLen).sum, by simp [XmlElem.attr?], ?_⟩, hl, ⟨"Points", [], ['\n'], chP⟩, ⟨"Cells", [], ['\n'], chC⟩, ePD, (saidTree k1).elems, ?_,
    ⟨rfl, ?_⟩, ⟨rfl, keptAll rnd o ca, holdsDict_of hcn h3, hsay⟩, hPD, hCD⟩
  · simp only [hkl]; exact strip_nat _
  · simp only [hnc]; exact strip_nat _
  · simp only [XmlElem.kids, e4, e3, e2]
    exact List.Perm.refl _
  · simp only [XmlElem.kids]
    generalize chP.elems = es at h4
    match es, h4 with
    | [], h4 => exact h4.elim
    | [e], h4 => exact ⟨e, rfl, h4.1.2, by rw [(kept_dtype _).2.1]; exact hpt⟩
    | _ :: _ :: _, h4 => exact h4.2.elim

theorem names_ok : XmlName "type" ∧ XmlName "version" ∧ XmlName "byte_order" ∧ XmlName "header_type" ∧ XmlName "compressor" ∧
    XmlName "NumberOfPoints" ∧ XmlName "NumberOfCells" := by
  refine ⟨⟨⟨'t', rfl, .inl (by decide)⟩, by decide +kernel⟩, ⟨⟨'v', rfl, .inl (by decide)⟩, by decide +kernel⟩, ⟨⟨'b', rfl, .inl (by decide)⟩, by decide +kernel⟩,
    ⟨⟨'h', rfl, .inl (by decide)⟩, by decide +kernel⟩, ⟨⟨'c', rfl, .inl (by decide)⟩, by decide +kernel⟩, ⟨⟨'N', rfl, .inl (by decide)⟩, by decide +kernel⟩,
    ⟨⟨'N', rfl, .inl (by decide)⟩, by decide +kernel⟩⟩

/-- The file written. -/
theorem write_says (hio : VtuLaws io has rnd) {m : In F} {ca : List (String × Arr (Num F))} {c : CellArrays} {cd : Dict (Arr (Num F))}
    (hcf : VtkFile.cellFields m.cellData = .ok cd) (hca : cellArrs m = .ok ca) (hblk : ¬ ((rowBlocks m.cells).isNone ∧ (polyBlocks m.cells).isNone))
    (hne : ca ≠ []) (hcn : (ca.map (·.1)).Nodup)
    (hsay : CellsSay (keptAll rnd o ca) c) (hp : VtuGood io has o ("Points", pad3 io m.points)) (hpt : (pad3 io m.points).tail ≠ [])
    (hcg : ∀ x ∈ ca, VtuGood io has o x) (hpd : ∀ x ∈ m.pointData, VtuGood io has o x) (hpn : (m.pointData.map (·.1)).Nodup)
    (hcd : ∀ x ∈ cd, VtuGood io has o x) (hcdn : (cd.map (·.1)).Nodup) (hl : c.types.length = c.offsets.length)
    (hlen : (pad3 io m.points).rows.length = m.points.rows.length) (hnc : c.offsets.length = (m.cells.map inLen).sum)
    (hh : ∀ h ∈ o.header, PlainValue h) (version : List Char) (hv : PlainComment ("This file was created by meshio v".toList ++ version)) :
    ∃ s root, write io version o m = .ok s ∧ parseXml s = some root ∧ ∀ sysBig, SaysVtu io sysBig root
      [⟨vtuKept rnd o (pad3 io m.points), c, vtuOpt (keptAll rnd o m.pointData), vtuOpt (keptAll rnd o cd)⟩] [] := by
  obtain ⟨k, s1, s2, s3, s4⟩ := sections_ok hio hcf hca hne hcn hsay hp hpt hcg hpd hpn hcd hcdn hl hlen hnc
  have hcomp : ∃ cmp, compressorAttr o = .ok cmp ∧ ((cmp = [] ∧ (cfgOf o).lzma = none) ∨ (cmp = [("compressor", "vtkLZMADataCompressor")] ∧ (cfgOf o).lzma = some true) ∨
      (cmp = [("compressor", "vtkZLibDataCompressor")] ∧ (cfgOf o).lzma = some false)) := by
    unfold compressorAttr cfgOf
    cases hb : o.binary with
    | false => exact ⟨[], rfl, .inl ⟨rfl, rfl⟩⟩
    | true =>
      cases hc : o.compression with
      | none => exact ⟨[], rfl, .inl ⟨rfl, rfl⟩⟩
      | some x =>
        obtain ⟨w, -, -, hx⟩ := hp.2.2 hb
        rcases (hx x hc).1 with rfl | rfl
        · exact ⟨_, rfl, .inr (.inl ⟨by decide +kernel, rfl⟩)⟩
        · exact ⟨_, rfl, .inr (.inr ⟨by decide +kernel, rfl⟩)⟩
  obtain ⟨cmp, hcmp, hlz⟩ := hcomp
  have hcmpn : ∀ a ∈ cmp, a.1 = "compressor" ∧ PlainValue a.2 := by
    rcases hlz with ⟨rfl, -⟩ | ⟨rfl, -⟩ | ⟨rfl, -⟩
    · simp
    · intro a ha; simp only [List.mem_singleton] at ha; subst ha; exact ⟨rfl, by unfold PlainValue; decide +kernel⟩
    · intro a ha; simp only [List.mem_singleton] at ha; subst ha; exact ⟨rfl, by unfold PlainValue; decide +kernel⟩
  let as : List (String × String) := [("type", "UnstructuredGrid"), ("version", "0.1"), ("byte_order", if o.sysBig then "BigEndian" else "LittleEndian")] ++
      (o.header.map fun h => ("header_type", h)).toList ++ cmp
  have hplain : PlainDoc (.elem "VTKFile" as none (.comment ("This file was created by meshio v".toList ++ version)
          (.elem "UnstructuredGrid" [] none (.elem "Piece" [("NumberOfPoints", strInt m.points.rows.length),
            ("NumberOfCells", strInt (m.cells.map inLen).sum)] none k .nil) .nil)) .nil) := by
    refine ⟨⟨⟨'V', rfl, .inl (by decide)⟩, by decide +kernel⟩, ?_, ?_, by simp, ⟨hv, ⟨⟨'U', rfl, .inl (by decide)⟩, by decide +kernel⟩, by simp, by simp, by simp,
      ⟨⟨⟨'P', rfl, .inl (by decide)⟩, by decide +kernel⟩, ?_, by simp, by simp, s2, trivial⟩, trivial⟩, trivial⟩
    · intro a ha
      simp only [as, List.mem_append, List.mem_cons, List.not_mem_nil, or_false, Option.mem_toList, Option.map_eq_some_iff] at ha
      rcases ha with ((rfl | rfl | rfl) | ⟨h, hh', rfl⟩) | ha
      · exact ⟨names_ok.1, by unfold PlainValue; decide +kernel⟩
      · exact ⟨names_ok.2.1, by unfold PlainValue; decide +kernel⟩
      · exact ⟨names_ok.2.2.1, by unfold PlainValue; simp only; split <;> decide +kernel⟩
      · exact ⟨names_ok.2.2.2.1, hh h hh'⟩
      · obtain ⟨h1, h2⟩ := hcmpn a ha
        rw [h1]
        exact ⟨names_ok.2.2.2.2.1, h2⟩
    · rcases hlz with ⟨rfl, -⟩ | ⟨rfl, -⟩ | ⟨rfl, -⟩ <;> cases hoh : o.header <;> simp [as, hoh]
    · intro a ha
      simp only [List.mem_cons, List.not_mem_nil, or_false] at ha
      rcases ha with rfl | rfl
      · exact ⟨names_ok.2.2.2.2.2.1, plain_strInt _⟩
      · exact ⟨names_ok.2.2.2.2.2.2, plain_strInt _⟩
  refine ⟨_, _, ?_, parseXml_document _ _ _ _ hplain, fun sysBig => ?_⟩
  · unfold write rootAttrs
    rw [if_neg hblk, hcmp]
    simp only [Except.map, s1]
    rfl
  · refine ⟨cfgOf o, ⟨"UnstructuredGrid", [], _, _⟩, ⟨rfl, ?_, .inr (.inl ?_), ?_, ?_, ?_⟩, rfl, ⟨?_, ?_, ?_⟩, .inl ⟨rfl, rfl⟩⟩
    · simp [XmlElem.attr?, as]
    · simp [XmlElem.attr?, as]
    · rcases hlz with ⟨rfl, h⟩ | ⟨rfl, h⟩ | ⟨rfl, h⟩
      · exact .inl ⟨by cases hoh : o.header <;> simp [XmlElem.attr?, as, hoh], h⟩
      · exact .inr (.inl ⟨by cases hoh : o.header <;> simp [XmlElem.attr?, as, hoh], h⟩)
      · exact .inr (.inr ⟨by cases hoh : o.header <;> simp [XmlElem.attr?, as, hoh], h⟩)
    · cases hoh : o.header with
      | none => exact .inl ⟨by rcases hlz with ⟨rfl, h⟩ | ⟨rfl, h⟩ | ⟨rfl, h⟩ <;> simp [XmlElem.attr?, as, hoh], by simp [cfgOf, hoh]⟩
      | some x => exact .inr (by simp [XmlElem.attr?, as, hoh, cfgOf])
    · cases hb : o.sysBig with
      | false => exact .inr (.inl ⟨by simp [XmlElem.attr?, as, hb], by simp [cfgOf, hb]⟩)
      | true => exact .inr (.inr ⟨by simp [XmlElem.attr?, as, hb], by simp [cfgOf, hb]⟩)
    · intro e he
      simp only [XmlElem.kids, saidTree, Xml.elems, List.mem_singleton] at he
      subst he
      exact .inl rfl
    · simp only [XmlElem.kids, saidTree, Xml.elems, List.filter_cons, List.filter_nil]
      exact ⟨s4 _, trivial⟩
    · simp only [XmlElem.kids, saidTree, Xml.elems, List.filter_cons, List.filter_nil]
      exact ⟨by simp [Dict.Ok, Dict.keys], trivial⟩

end Meshio.VtuFile
