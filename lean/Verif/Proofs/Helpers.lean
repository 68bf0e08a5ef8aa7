import Verif.Spec.Helpers

namespace Meshio
open Spec
variable {Rd Wr : Type}

theorem get?_append' (d : Dict (List String)) (t v e : String) :
    ((Dict.append d t v).get? e).getD [] =
      (d.get? e).getD [] ++ (if t = e then [v] else []) := by
  have key : ∀ x : List String, ((Dict.set d t x).get? e) = if e = t then some x else d.get? e :=
    fun x => Dict.get?_set d t e x
  unfold Dict.append
  by_cases h : t = e
  · subst h
    cases d.get? t <;> simp [key]
  · have h' : ¬ e = t := fun x => h x.symm
    cases hg : d.get? t <;> simp [key, h, h']

theorem registerExts_get? (d : Dict (List String)) (name : String) (es : List String) (e : String) :
    ((registerExts d name es).get? e).getD [] =
      (d.get? e).getD [] ++ List.replicate (es.count e) name := by
  induction es generalizing d with
  | nil => simp [registerExts]
  | cons a es ih =>
    simp only [registerExts, ih, get?_append', List.append_assoc, List.count_cons]
    congr 1
    by_cases h : a = e
    · simp [h, List.replicate_succ]
    · simp [h]

theorem get?_map_val {α : Type} (d : Dict α) (f : α → α) (e : String) :
    Dict.get? (d.map (fun kv => (kv.1, f kv.2))) e = (d.get? e).map f := by
  induction d with
  | nil => rfl
  | cons kv d ih =>
    rw [List.map_cons, Dict.get?_cons, Dict.get?_cons, ih]
    split <;> simp

theorem ite_mem_erase (l : List String) (n : String) : (if n ∈ l then l.erase n else l) = l.erase n := by
  split
  · rfl
  · next h => exact (List.erase_of_not_mem h).symm

theorem ok_update {α : Type} {d : Dict α} (h : d.Ok) (e : Dict α) : (d.update e).Ok := by
  unfold Dict.update
  induction e generalizing d with
  | nil => exact h
  | cons kv e ih => rw [List.foldl_cons]; exact ih (h.set _ _)

theorem get?_update {α : Type} (d e : Dict α) (he : e.Ok) (k : String) :
    (d.update e).get? k = match e.get? k with | some v => some v | none => d.get? k := by
  unfold Dict.update
  induction e generalizing d with
  | nil => rfl
  | cons kv e ih =>
    have he' : Dict.Ok e := by
      simp only [Dict.Ok, Dict.keys, List.map_cons, List.nodup_cons] at he; exact he.2
    have hk : kv.1 ∉ Dict.keys e := by
      simp only [Dict.Ok, Dict.keys, List.map_cons, List.nodup_cons] at he; exact he.1
    rw [List.foldl_cons, ih _ he', Dict.get?_cons]
    by_cases h : k = kv.1
    · subst h
      rw [(Dict.get?_eq_none_iff e kv.1).mpr hk, Dict.get?_set]
      simp
    · rw [if_neg h, Dict.get?_set, if_neg h]

theorem has_erase {α : Type} (d : Dict α) (n : String) :
    (if d.has n then d.erase n else d) = d.erase n := by
  split
  · rfl
  · next h =>
    have hn : d.get? n = none := by
      unfold Dict.has at h; simpa using h
    rw [Dict.get?_eq_none_iff] at hn
    induction d with
    | nil => rfl
    | cons kv d ih =>
      obtain ⟨a, b⟩ := kv
      simp only [Dict.keys, List.map_cons, List.mem_cons, not_or] at hn
      have : ¬ a = n := fun e => hn.1 e.symm
      have hget : Dict.get? d n = none := (Dict.get?_eq_none_iff d n).mpr hn.2
      simp only [Dict.erase, if_neg this]
      rw [← ih (by simp [Dict.has, hget]) hn.2]

/-! suffixes -/

theorem toLower_toNat (c : Char) :
    c.toLower.val.toNat =
      if 65 ≤ c.val.toNat ∧ c.val.toNat ≤ 90 then c.val.toNat + 32 else c.val.toNat := by
  unfold Char.toLower
  have e1 : 'A'.val.toNat = 65 := by decide
  have e2 : 'Z'.val.toNat = 90 := by decide
  have e4 : ('a'.val - 'A'.val).toNat = 32 := by decide
  split
  · next hc =>
    have h1 := UInt32.le_iff_toNat_le.mp hc.1
    have h2 := UInt32.le_iff_toNat_le.mp hc.2
    simp only [UInt32.toNat_add]
    rw [if_pos ⟨by omega, by omega⟩]
    omega
  · next hc =>
    rw [if_neg]
    intro h
    apply hc
    exact ⟨UInt32.le_iff_toNat_le.mpr (by omega), UInt32.le_iff_toNat_le.mpr (by omega)⟩

theorem char_ext_toNat {c d : Char} (h : c.val.toNat = d.val.toNat) : c = d :=
  Char.ext (UInt32.toNat_inj.mp h)

theorem toLower_toLower (c : Char) : c.toLower.toLower = c.toLower := by
  apply char_ext_toNat
  rw [toLower_toNat c.toLower, toLower_toNat c]
  by_cases h : 65 ≤ c.val.toNat ∧ c.val.toNat ≤ 90
  · rw [if_pos h, if_neg (by omega)]
  · rw [if_neg h, if_neg h]

theorem toLower_eq_dot (c : Char) : c.toLower = '.' ↔ c = '.' := by
  constructor
  · intro h
    have h3 := congrArg (fun x : Char => x.val.toNat) h
    have e3 : '.'.val.toNat = 46 := by decide
    simp only [toLower_toNat] at h3
    apply char_ext_toNat
    split at h3 <;> omega
  · intro h; subst h; decide

theorem lowerS_lowerS (s : List Char) : lowerS (lowerS s) = lowerS s := by
  simp [lowerS, toLower_toLower]

theorem lowerS_append (s t : List Char) : lowerS (s ++ t) = lowerS s ++ lowerS t := by
  simp [lowerS]

/-- Concatenations of all tails of a list of strings, longest first. -/
def sufConcat : List (List Char) → List (List Char)
  | [] => []
  | p :: l => (p ++ l.flatten) :: sufConcat l

/-- Growing concatenations. -/
def chainsGo (x : List Char) : List (List Char) → List (List Char)
  | [] => []
  | s :: rs => (s ++ x) :: chainsGo (s ++ x) rs

theorem chainsGo_append (x : List Char) (a b : List (List Char)) :
    chainsGo x (a ++ b) = chainsGo x a ++ chainsGo (a.reverse.flatten ++ x) b := by
  induction a generalizing x with
  | nil => rfl
  | cons s a ih => simp [chainsGo, ih]

theorem chainsGo_reverse (l : List (List Char)) : chainsGo [] l.reverse = (sufConcat l).reverse := by
  induction l with
  | nil => rfl
  | cons p l ih => simp [chainsGo_append, ih, sufConcat, chainsGo]

theorem dotTails_eq (s : List Char) :
    dotTails s = sufConcat (((splitOnC '.' s).drop 1).map ('.' :: ·)) ∧
    s = (splitOnC '.' s).head?.getD [] ++ (((splitOnC '.' s).drop 1).map ('.' :: ·)).flatten := by
  induction s with
  | nil => exact ⟨rfl, rfl⟩
  | cons c s ih =>
    obtain ⟨h1, h2⟩ := ih
    simp only [dotTails, splitOnC]
    have hne := splitOnC_ne_nil '.' s
    cases hs : splitOnC '.' s with
    | nil => exact absurd hs hne
    | cons p l =>
      rw [hs] at h1 h2
      simp only [List.drop_succ_cons, List.drop_zero, List.head?_cons, Option.getD_some] at h1 h2
      by_cases hc : c = '.'
      · subst hc
        simp only [if_true, h1, List.drop_succ_cons, List.drop_zero, List.map_cons, sufConcat,
          List.head?_cons, Option.getD_some, List.nil_append, List.flatten_cons]
        rw [← h1]
        exact ⟨by rw [h2]; simp, by rw [h2]; simp⟩
      · simp only [if_neg hc, h1, List.drop_succ_cons, List.drop_zero, List.head?_cons,
          Option.getD_some, true_and]
        rw [h2]; simp

theorem filetypesLoop_eq (exts : Dict (List String)) (rs : List (List Char)) (x : List Char)
    (out : List String) :
    filetypesLoop exts rs (lowerS x) out =
      out ++ (chainsGo x rs).flatMap (fun e => (exts.get? (String.ofList (lowerS e))).getD []) := by
  induction rs generalizing x out with
  | nil => simp [filetypesLoop, chainsGo]
  | cons s rs ih =>
    have hl : lowerS (s ++ lowerS x) = lowerS (s ++ x) := by
      rw [lowerS_append, lowerS_lowerS, lowerS_append]
    simp only [filetypesLoop, chainsGo, List.flatMap_cons, hl]
    split
    · next fs h => rw [ih, h]; simp
    · next h => rw [ih, h]; simp

theorem filetypesLoop_extensions (exts : Dict (List String)) (name : List Char) :
    filetypesLoop exts (pathSuffixes name).reverse [] [] =
      (extensions name).flatMap (fun e => (exts.get? (String.ofList (lowerS e))).getD []) := by
  have h0 := filetypesLoop_eq exts (pathSuffixes name).reverse [] []
  simp only [List.nil_append] at h0
  have hl : lowerS [] = [] := rfl
  rw [hl] at h0
  rw [h0, chainsGo_reverse]
  unfold pathSuffixes extensions
  split
  · rfl
  · rw [(dotTails_eq _).1]

theorem dotTails_lower (s : List Char) : dotTails (lowerS s) = (dotTails s).map lowerS := by
  induction s with
  | nil => rfl
  | cons c s ih =>
    have hc : lowerS (c :: s) = c.toLower :: lowerS s := rfl
    rw [hc]
    simp only [dotTails, ih]
    by_cases h : c = '.'
    · subst h
      have : Char.toLower '.' = '.' := by decide
      simp [lowerS, this]
    · rw [if_neg h, if_neg (fun e => h ((toLower_eq_dot c).mp e))]

theorem dropWhile_lower (s : List Char) :
    (lowerS s).dropWhile (· = '.') = lowerS (s.dropWhile (· = '.')) := by
  induction s with
  | nil => rfl
  | cons c s ih =>
    have hc : lowerS (c :: s) = c.toLower :: lowerS s := rfl
    rw [hc]
    by_cases h : c = '.'
    · subst h
      have : Char.toLower '.' = '.' := by decide
      simp only [this, List.dropWhile_cons, decide_true, if_true]
      exact ih
    · have h' : ¬ c.toLower = '.' := fun e => h ((toLower_eq_dot c).mp e)
      simp [h, h', hc]

theorem extensions_lower (name : List Char) :
    extensions (lowerS name) = (extensions name).map lowerS := by
  unfold extensions
  have : ((lowerS name).getLast? = some '.') ↔ (name.getLast? = some '.') := by
    unfold lowerS
    rw [List.getLast?_map]
    cases name.getLast? with
    | none => simp
    | some c => simp [toLower_eq_dot]
  by_cases h : name.getLast? = some '.'
  · rw [if_pos h, if_pos (this.mpr h)]; rfl
  · rw [if_neg h, if_neg (fun e => h (this.mp e)), dropWhile_lower, dotTails_lower]
    simp

theorem readLoop_spec {M : Type} (readers : Dict (Reader M)) (t : Target) (cands calls : List String) :
    (∃ i f rd m, cands[i]? = some f ∧ readers.get? f = some rd ∧ rd t = .ok m ∧
        (∀ g ∈ cands.take i, Rejects readers t g) ∧
        readLoop readers t cands calls = ⟨.ok m, calls ++ cands.take (i + 1)⟩) ∨
    (∃ i f rd e, cands[i]? = some f ∧ readers.get? f = some rd ∧ rd t = .error e ∧ e ≠ .readError ∧
        (∀ g ∈ cands.take i, Rejects readers t g) ∧
        readLoop readers t cands calls = ⟨.error e, calls ++ cands.take (i + 1)⟩) ∨
    (∃ i f, cands[i]? = some f ∧ readers.get? f = none ∧
        (∀ g ∈ cands.take i, Rejects readers t g) ∧
        readLoop readers t cands calls = ⟨.error .readError, calls ++ cands.take i⟩) ∨
    ((∀ g ∈ cands, Rejects readers t g) ∧
        readLoop readers t cands calls = ⟨.error (.exit 1), calls ++ cands⟩) := by
  induction cands generalizing calls with
  | nil => right; right; right; simp [readLoop]
  | cons f fs ih =>
    cases hf : readers.get? f with
    | none =>
      right; right; left
      exact ⟨0, f, rfl, hf, by simp, by simp [readLoop, hf]⟩
    | some rd =>
      cases hr : rd t with
      | ok m =>
        left
        exact ⟨0, f, rd, m, rfl, hf, hr, by simp, by simp [readLoop, hf, hr]⟩
      | error e =>
        by_cases he : e = .readError
        · subst he
          have hrej : Rejects readers t f := ⟨rd, hf, hr⟩
          have hstep : readLoop readers t (f :: fs) calls = readLoop readers t fs (calls ++ [f]) := by
            simp [readLoop, hf, hr]
          rw [hstep]
          rcases ih (calls ++ [f]) with ⟨i, g, rd', m, h1, h2, h3, h4, h5⟩ |
            ⟨i, g, rd', e, h1, h2, h3, h4, h5, h6⟩ | ⟨i, g, h1, h2, h3, h4⟩ | ⟨h1, h2⟩
          · left
            refine ⟨i + 1, g, rd', m, by simpa using h1, h2, h3, ?_, by rw [h5]; simp⟩
            intro x hx
            simp only [List.take_succ_cons, List.mem_cons] at hx
            rcases hx with hx | hx
            · subst hx; exact hrej
            · exact h4 x hx
          · right; left
            refine ⟨i + 1, g, rd', e, by simpa using h1, h2, h3, h4, ?_, by rw [h6]; simp⟩
            intro x hx
            simp only [List.take_succ_cons, List.mem_cons] at hx
            rcases hx with hx | hx
            · subst hx; exact hrej
            · exact h5 x hx
          · right; right; left
            refine ⟨i + 1, g, by simpa using h1, h2, ?_, by rw [h4]; simp⟩
            intro x hx
            simp only [List.take_succ_cons, List.mem_cons] at hx
            rcases hx with hx | hx
            · subst hx; exact hrej
            · exact h3 x hx
          · right; right; right
            refine ⟨?_, by rw [h2]; simp⟩
            intro x hx
            rcases List.mem_cons.mp hx with hx | hx
            · subst hx; exact hrej
            · exact h1 x hx
        · right; left
          refine ⟨0, f, rd, e, rfl, hf, hr, he, by simp, ?_⟩
          simp only [readLoop, hf, hr]
          cases e <;> first | exact absurd rfl he | rfl

theorem checkBlocks_ok_iff (cells : List CellBlock) : checkBlocks cells = .ok () ↔ ColumnsOk cells := by
  induction cells with
  | nil => simp [checkBlocks, ColumnsOk]
  | cons c cs ih =>
    simp only [checkBlocks]
    have hcons : ColumnsOk (c :: cs) ↔
        (∀ k, numNodesPerCell.get? c.type = some k → c.data.tail.head? = some k) ∧ ColumnsOk cs := by
      simp [ColumnsOk]
    rw [hcons]
    cases hn : numNodesPerCell.get? c.type with
    | none => simp [ih]
    | some k =>
      cases ht : c.data.tail with
      | nil => simp
      | cons w l =>
        by_cases hw : w = k
        · simp [hw, ih]
        · simp [hw]

theorem checkBlocks_error {cells : List CellBlock} {e : Err} (h : checkBlocks cells = .error e) :
    e = .writeError ∨
      (e = .indexError ∧ ∃ c ∈ cells, c.data.tail = [] ∧ ∃ k, numNodesPerCell.get? c.type = some k) := by
  induction cells with
  | nil => cases h
  | cons c cs ih =>
    simp only [checkBlocks] at h
    split at h
    · rcases ih h with h | ⟨h, c', hc', h'⟩
      · exact .inl h
      · exact .inr ⟨h, c', List.mem_cons_of_mem _ hc', h'⟩
    · next k hk =>
      split at h
      · next ht => cases h; exact .inr ⟨rfl, c, by simp, ht, k, hk⟩
      · split at h
        · cases h; exact .inl rfl
        · rcases ih h with h | ⟨h, c', hc', h'⟩
          · exact .inl h
          · exact .inr ⟨h, c', List.mem_cons_of_mem _ hc', h'⟩

end Meshio
