/-
Reading the sections of Abaqus files.
-/
import Verif.Spec.Abaqus
import Verif.Base.Words
import Verif.Proofs.Types
import Verif.Proofs.Permas
namespace Meshio.Abaqus
open Meshio Types Tables Spec

variable {F : Type}

theorem toUpper_star (c : Char) : c.toUpper = '*' ↔ c = '*' := by
  constructor
  · intro h
    unfold Char.toUpper at h
    split at h
    · rename_i hc
      exfalso
      have h2 := congrArg (fun c : Char => c.val) h
      simp only at h2
      have h3 := congrArg UInt32.toNat h2
      have h4 := UInt32.le_iff_toNat_le.mp hc.1
      have h5 := UInt32.le_iff_toNat_le.mp hc.2
      have e1 : ('a'.val).toNat = 97 := rfl
      have e2 : ('z'.val).toNat = 122 := rfl
      have e3 : ('*'.val).toNat = 42 := rfl
      rw [UInt32.toNat_add] at h3
      have e4 : ('A'.val - 'a'.val).toNat = 4294967264 := rfl
      omega
    · exact h
  · rintro rfl; rfl

theorem upper_filter (s : List Char) : upper (s.filter (· != '*')) = (upper s).filter (· != '*') := by
  induction s with
  | nil => rfl
  | cons c s ih =>
    by_cases h : c = '*'
    · subst h
      have e : ('*' :: s).filter (· != '*') = s.filter (· != '*') := by simp
      have e' : (upper ('*' :: s)).filter (· != '*') = (upper s).filter (· != '*') := by
        show (('*' : Char).toUpper :: upper s).filter (· != '*') = _
        simp [show ('*' : Char).toUpper = '*' from rfl]
      rw [e, e', ih]
    · have h' : c.toUpper ≠ '*' := fun e => h ((toUpper_star c).mp e)
      have e : (c :: s).filter (· != '*') = c :: s.filter (· != '*') := by simp [h]
      have e' : (upper (c :: s)).filter (· != '*') = c.toUpper :: (upper s).filter (· != '*') := by
        show (c.toUpper :: upper s).filter (· != '*') = _
        simp [h']
      rw [e, e', ← ih]; rfl

theorem takeWhile_joinWith (c : Char) (w : List Char) (ws : List (List Char)) (h : c ∉ w) (hc : c ≠ '\n') :
    (joinWith c (w :: ws) ++ ['\n']).takeWhile (· != c) = w ∨ (joinWith c (w :: ws) ++ ['\n']).takeWhile (· != c) = w ++ ['\n'] := by
  have hw : ∀ x ∈ w, (x != c) = true := by
    intro x hx
    simp only [bne_iff_ne, ne_eq]
    intro e; exact h (e ▸ hx)
  cases ws with
  | nil =>
    right
    show (w ++ ['\n']).takeWhile _ = _
    rw [List.takeWhile_append_of_pos hw]
    have : ('\n' != c) = true := by simp; exact fun e => hc e.symm
    rw [List.takeWhile_cons, if_pos this]; rfl
  | cons v ws =>
    left
    show (w ++ c :: joinWith c (v :: ws) ++ ['\n']).takeWhile _ = _
    rw [List.append_assoc, List.takeWhile_append_of_pos hw, List.cons_append, List.takeWhile_cons]
    simp

/-- The word of a keyword line. -/
theorem keyword_keyLine (word : String) (hs : '*' ∉ word.toList) (os : List (String × Option String)) (line : List Char)
    (h : IsKeyLine word os line) : keyword (line ++ ['\n']) = word.toList := by
  obtain ⟨_, w0, ws, rfl, hc, _, _, hw, _⟩ := h
  have e : strip ((joinWith ',' (w0 :: ws) ++ ['\n']).takeWhile (· != ',')) = strip w0 := by
    rcases takeWhile_joinWith ',' w0 ws (hc w0 (by simp)) (by decide) with e | e
    · rw [e]
    · rw [e, strip_nl']
  unfold keyword
  rw [e, upper_filter]
  show ((strip w0).map Char.toUpper).filter _ = _
  rw [hw]
  simp only [List.filter_cons, bne_self_eq_false, Bool.false_eq_true, if_false]
  rw [List.filter_eq_self]
  intro c hc'
  simp only [bne_iff_ne, ne_eq]
  intro e'; exact hs (e' ▸ hc')

theorem keyLine_star {word : String} {os : List (String × Option String)} {line : List Char} (h : IsKeyLine word os line) :
    line.head? = some '*' := by
  obtain ⟨_, w0, ws, rfl, _, _, h0, _⟩ := h
  cases w0 with
  | nil => cases h0
  | cons c w0 => rw [joinWith_head _ _ _ (by simp)]; exact h0

/-- No comment. -/
theorem keyLine_not_comment {word : String} (hs : '*' ∉ word.toList) (hne : word.toList ≠ []) {os : List (String × Option String)}
    {line : List Char} (h : IsKeyLine word os line) : (['*', '*'].isPrefixOf (line ++ ['\n'])) = false := by
  cases hb : ['*', '*'].isPrefixOf (line ++ ['\n']) with
  | false => rfl
  | true =>
    exfalso
    obtain ⟨_, w0, ws, rfl, hc, _, h0, hw, _⟩ := h
    rw [List.isPrefixOf_iff_prefix] at hb
    obtain ⟨t, ht⟩ := hb
    have htw := takeWhile_joinWith ',' w0 ws (hc w0 (by simp)) (by decide)
    rw [← ht] at htw
    have e : (['*', '*'] ++ t).takeWhile (· != ',') = '*' :: '*' :: t.takeWhile (· != ',') := by
      simp [List.takeWhile_cons]
    rw [e] at htw
    obtain ⟨u, hu⟩ : ∃ u, w0 = '*' :: '*' :: u := by
      rcases htw with htw | htw
      · exact ⟨_, htw.symm⟩
      · cases w0 with
        | nil => cases h0
        | cons a w0 =>
          cases w0 with
          | nil => exfalso; simp only [List.cons_append, List.nil_append, List.cons.injEq] at htw; exact absurd htw.2.1 (by decide)
          | cons b w0 =>
            simp only [List.cons_append, List.cons.injEq] at htw
            exact ⟨w0, by rw [← htw.1, ← htw.2.1]⟩
    subst hu
    have hr : ∃ r, strip ('*' :: '*' :: u) = '*' :: '*' :: r := by
      have := strip_prefix ['*', '*'] (by simp) (by simp; decide) (by simp; decide) u
      exact this
    obtain ⟨r, hr⟩ := hr
    rw [hr] at hw
    simp only [List.map_cons, List.cons.injEq] at hw
    have : ('*' : Char) ∈ word.toList := by
      rw [← hw.2]; simp [show ('*' : Char).toUpper = '*' from rfl]
    exact hs this

/-! ## Parameters -/

theorem addParam_option (m : Dict (Option (List Char))) (w : List Char) (o : String × Option String) (h : IsOption w o) :
    addParam m w = .ok (Dict.set m o.1 (o.2.map String.toList)) := by
  obtain ⟨k, v⟩ := o
  cases v with
  | none =>
    obtain ⟨h1, h2⟩ := h
    unfold addParam
    rw [splitOnC_not_mem _ _ h1]
    show Except.ok (Dict.set m (String.ofList ((strip w).map Char.toUpper)) none) = _
    rw [h2, String.ofList_toList]; rfl
  | some v =>
    obtain ⟨a, b, rfl, ha, hb, h1, h2⟩ := h
    unfold addParam
    rw [splitOnC_append_sep _ _ _ ha, splitOnC_not_mem _ _ hb]
    show Except.ok (Dict.set m (String.ofList ((strip a).map Char.toUpper)) (some (strip b))) = _
    rw [h1, h2, String.ofList_toList]; rfl

/-- Setting the options one after the other. -/
theorem addParams (ws : List (List Char)) (os : List (String × Option String)) (h : All2 IsOption ws os) (m : Dict (Option (List Char))) :
    foldRes addParam m ws = .ok (os.foldl (fun m o => Dict.set m o.1 (o.2.map String.toList)) m) := by
  induction ws generalizing os m with
  | nil => cases os with
    | nil => rfl
    | cons o os => exact h.elim
  | cons w ws ih => cases os with
    | nil => exact h.elim
    | cons o os =>
      unfold foldRes
      rw [addParam_option m w o h.1]
      simp only [List.foldl_cons]
      exact ih os h.2 _

theorem get?_options (os : List (String × Option String)) (hn : (os.map (·.1)).Nodup) (m : Dict (Option (List Char))) (k : String) :
    Dict.get? (os.foldl (fun m o => Dict.set m o.1 (o.2.map String.toList)) m) k =
      match os.lookup k with
      | some v => some (v.map String.toList)
      | none => Dict.get? m k := by
  induction os generalizing m with
  | nil => rfl
  | cons o os ih =>
    obtain ⟨a, v⟩ := o
    rw [List.map_cons, List.nodup_cons] at hn
    rw [List.foldl_cons, ih hn.2, List.lookup_cons, Dict.get?_set]
    by_cases hk : k = a
    · subst hk
      have : os.lookup k = none := by
        rw [List.lookup_eq_none_iff]
        intro p hp
        simp only [bne_iff_ne, ne_eq]
        intro e; exact hn.1 (List.mem_map.2 ⟨p, hp, e.symm⟩)
      simp [this]
    · have : (k == a) = false := by simpa using hk
      rw [this]
      simp [hk]

theorem splitOnC_nl (w : List Char) (ws : List (List Char)) (h : ∀ u ∈ w :: ws, ',' ∉ u) :
    ∃ us u, w :: ws = us ++ [u] ∧ splitOnC ',' (joinWith ',' (w :: ws) ++ ['\n']) = us ++ [u ++ ['\n']] := by
  induction ws generalizing w with
  | nil =>
    refine ⟨[], w, rfl, ?_⟩
    show splitOnC ',' (w ++ ['\n']) = _
    rw [splitOnC_not_mem]; rfl
    intro hm
    rcases List.mem_append.mp hm with hm | hm
    · exact h w (by simp) hm
    · simp at hm
  | cons v ws ih =>
    obtain ⟨us, u, e1, e2⟩ := ih v (fun u hu => h u (by simp only [List.mem_cons] at hu ⊢; exact .inr hu))
    refine ⟨w :: us, u, by rw [e1]; rfl, ?_⟩
    show splitOnC ',' (w ++ ',' :: joinWith ',' (v :: ws) ++ ['\n']) = _
    rw [List.append_assoc, List.cons_append, splitOnC_append_sep _ _ _ (h w (by simp)), e2]; rfl

/-- The newline changes nothing. -/
theorem addParam_nl (m : Dict (Option (List Char))) (w : List Char) : addParam m (w ++ ['\n']) = addParam m w := by
  unfold addParam
  have key : ∀ s : List Char, ∃ us u, splitOnC '=' s = us ++ [u] ∧ splitOnC '=' (s ++ ['\n']) = us ++ [u ++ ['\n']] := by
    intro s
    induction s with
    | nil => exact ⟨[], [], rfl, rfl⟩
    | cons c s ih =>
      obtain ⟨us, u, e1, e2⟩ := ih
      by_cases hc : c = '='
      · subst hc
        have a1 : splitOnC '=' ('=' :: s) = [] :: splitOnC '=' s := splitOnC_append_sep '=' [] s (by simp)
        have a2 : splitOnC '=' ('=' :: s ++ ['\n']) = [] :: splitOnC '=' (s ++ ['\n']) :=
          splitOnC_append_sep '=' [] (s ++ ['\n']) (by simp)
        exact ⟨[] :: us, u, by rw [a1, e1]; rfl, by rw [a2, e2]; rfl⟩
      · cases us with
        | nil =>
          refine ⟨[], c :: u, ?_, ?_⟩
          · simp only [splitOnC, if_neg hc, e1, List.nil_append]
          · simp only [List.cons_append, splitOnC, if_neg hc, e2, List.nil_append]
        | cons v us =>
          refine ⟨(c :: v) :: us, u, ?_, ?_⟩
          · simp only [splitOnC, if_neg hc, e1, List.cons_append]
          · simp only [List.cons_append, splitOnC, if_neg hc, e2]
  obtain ⟨us, u, e1, e2⟩ := key w
  rw [e1, e2]
  match us with
  | [] => simp only [List.nil_append, strip_nl']
  | [a] => simp only [List.cons_append, List.nil_append, strip_nl']
  | a :: b :: us => cases us <;> rfl

theorem foldRes_addParam_nl (us : List (List Char)) (u : List Char) (m : Dict (Option (List Char))) :
    foldRes addParam m (us ++ [u ++ ['\n']]) = foldRes addParam m (us ++ [u]) := by
  induction us generalizing m with
  | nil => simp only [List.nil_append, foldRes, addParam_nl]
  | cons a us ih =>
    simp only [List.cons_append, foldRes]
    cases addParam m a with
    | error e => rfl
    | ok m => exact ih m

/-- The parameters of a keyword line. -/
theorem getParams_keyLine (word : String) (os : List (String × Option String)) (line : List Char)
    (h : IsKeyLine word os line) (required : String) (hr : required ∈ os.map (·.1)) :
    ∃ m, getParams (line ++ ['\n']) required = .ok m ∧
      ∀ k, Dict.get? m k = match os.lookup k with
        | some v => some (v.map String.toList)
        | none => if k = "*" ++ word then some none else none := by
  obtain ⟨_, w0, ws, rfl, hc, h1, _, hw, ho, hn⟩ := h
  refine ⟨os.foldl (fun m o => Dict.set m o.1 (o.2.map String.toList)) (Dict.set [] ("*" ++ word) none), ?_, ?_⟩
  · have e0 : foldRes addParam [] (w0 :: ws) = .ok (os.foldl (fun m o => Dict.set m o.1 (o.2.map String.toList))
        (Dict.set [] ("*" ++ word) none)) := by
      have : All2 IsOption (w0 :: ws) (("*" ++ word, none) :: os) := by
        refine ⟨⟨h1, ?_⟩, ho⟩
        rw [hw]
        rw [String.toList_append]; rfl
      rw [addParams _ _ this]; rfl
    unfold getParams
    obtain ⟨us, u, e1, e2⟩ := splitOnC_nl w0 ws hc
    rw [e2, foldRes_addParam_nl, ← e1, e0]
    simp only
    rw [if_pos]
    unfold Dict.has
    rw [get?_options os hn]
    cases hl : os.lookup required with
    | some v => rfl
    | none =>
      exfalso
      rw [List.lookup_eq_none_iff] at hl
      obtain ⟨p, hp, e⟩ := List.mem_map.1 hr
      have := hl p hp
      simp [e] at this
  · intro k
    rw [get?_options os hn]
    cases os.lookup k with
    | some v => rfl
    | none =>
      simp only
      rw [Dict.get?_set]; rfl

theorem lookup_option {os : List (String × Option String)} (hn : (os.map (·.1)).Nodup) {k : String} {v : Option String}
    (h : (k, v) ∈ os) : os.lookup k = some v := lookup_of_mem_nodup os k v h hn

/-! ## Lines of sections -/

/-- The text after a section. -/
def Ends (tail : List (List Char)) : Prop := ∀ l, tail.head? = some l → l.head? = some '*'

theorem isStar_data {l : List Char} (h : IsData l) : isStar (l ++ ['\n']) = false := by
  unfold isStar
  cases l with
  | nil => rfl
  | cons c l =>
    have := h.2
    simp only [List.head?_cons, ne_eq, Option.some.injEq] at this
    simp [this]

theorem section_lines (ls tail : List (List Char)) (hl : ∀ l ∈ ls, IsData l) (ht : Ends tail) :
    dataLines (ls.map (· ++ ['\n']) ++ tail) = (ls.map (· ++ ['\n'])).filter (fun l => decide (strip l ≠ [])) ∧
    afterData (ls.map (· ++ ['\n']) ++ tail) = tail := by
  have h1 : ∀ l ∈ ls.map (· ++ ['\n']), (!isStar l) = true := by
    intro l hl'
    obtain ⟨a, ha, rfl⟩ := List.mem_map.1 hl'
    rw [isStar_data (hl a ha)]; rfl
  have h2 : tail.takeWhile (fun l => !isStar l) = [] ∧ tail.dropWhile (fun l => !isStar l) = tail := by
    cases tail with
    | nil => exact ⟨rfl, rfl⟩
    | cons l tail =>
      have : isStar l = true := by unfold isStar; rw [ht l rfl]; rfl
      rw [List.takeWhile_cons, List.dropWhile_cons, this]
      exact ⟨rfl, rfl⟩
  unfold dataLines afterData
  rw [List.takeWhile_append_of_pos h1, h2.1, List.dropWhile_append_of_pos h1, h2.2, List.append_nil]
  exact ⟨rfl, rfl⟩

theorem mapRes_all2 {α β : Type} (f : α → Res β) (l : List α) (m : List β) (h : All2 (fun a b => f a = .ok b) l m) :
    mapRes f l = .ok m := by
  induction l generalizing m with
  | nil => cases m with
    | nil => rfl
    | cons b m => exact h.elim
  | cons a l ih => cases m with
    | nil => exact h.elim
    | cons b m =>
      unfold mapRes
      rw [h.1]; simp only
      rw [ih m h.2]

theorem all2_imp {α β : Type} {R S : α → β → Prop} (hRS : ∀ a b, R a b → S a b) (l : List α) (m : List β) (h : All2 R l m) :
    All2 S l m := by
  induction l generalizing m with
  | nil => cases m with
    | nil => trivial
    | cons b m => exact h.elim
  | cons a l ih => cases m with
    | nil => exact h.elim
    | cons b m => exact ⟨hRS _ _ h.1, ih m h.2⟩

theorem parseInt_nil : parseInt [] = none := by decide

theorem strip_nil : strip [] = [] := rfl

theorem intWord_ok {w : List Char} {i : Int} (h : parseInt (strip w) = some i) : intWord w = .ok i := by
  unfold intWord; rw [h]

/-- The lines of nodes. -/
theorem nodeLines (io : FloatIO F) (ls : List (List Char × Option (Int × List F))) (h : ∀ l ∈ ls, IsNode io l) :
    mapRes (nodeLine io) (((ls.map (·.1)).map (· ++ ['\n'])).filter (fun l => decide (strip l ≠ []))) = .ok (ls.filterMap (·.2)) := by
  apply mapRes_all2
  induction ls with
  | nil => trivial
  | cons l ls ih =>
    have ih := ih (fun l hl => h l (by simp [hl]))
    obtain ⟨_, hl⟩ := h l (by simp)
    obtain ⟨t, p⟩ := l
    simp only [List.map_cons, List.filter_cons, strip_nl']
    cases p with
    | none =>
      simp only at hl
      simp only [hl]
      exact ih
    | some p =>
      obtain ⟨w, ws, h1, h2, h3, h4⟩ := hl
      simp only at h1 h3 h4
      have hne : w ≠ [] := by
        rintro rfl
        rw [strip_nil, parseInt_nil] at h3; cases h3
      have hs : strip t ≠ [] := by rw [h1]; exact joinWith_ne_nil _ _ _ hne
      rw [if_pos (by simpa using hs)]
      refine ⟨?_, ih⟩
      show nodeLine io (t ++ ['\n']) = .ok p
      unfold nodeLine
      rw [strip_nl', h1, splitOnC_joinWith _ _ (by simp) h2]
      simp only
      rw [intWord_ok h3]; simp only
      rw [mapRes_all2 (floatWord io) ws p.2 (all2_imp (fun a b hab => by unfold floatWord; rw [hab]) _ _ h4)]

/-- The lines of cells. -/
theorem numberLines (ls : List (List Char × List Int)) (h : ∀ l ∈ ls, IsNumbers l) :
    ∃ idx, mapRes cellLine (((ls.map (·.1)).map (· ++ ['\n'])).filter (fun l => decide (strip l ≠ []))) = .ok idx ∧
      idx.flatten = ls.flatMap (·.2) := by
  refine ⟨(ls.filter fun l => decide (strip l.1 ≠ [])).map (·.2), ?_, ?_⟩
  · apply mapRes_all2
    induction ls with
    | nil => trivial
    | cons l ls ih =>
      have ih := ih (fun l hl => h l (by simp [hl]))
      obtain ⟨_, ws, h1, h2, h3⟩ := h l (by simp)
      simp only [List.map_cons, List.filter_cons, strip_nl']
      by_cases hs : strip l.1 = []
      · simp only [hs]; exact ih
      · have hd : (decide (strip l.1 ≠ [])) = true := by simpa using hs
        rw [if_pos hd, if_pos hd]
        refine ⟨?_, ih⟩
        show cellLine (l.1 ++ ['\n']) = .ok l.2
        unfold cellLine
        rw [strip_nl', h1]
        have hne : ws ≠ [] := by rintro rfl; exact hs h1
        rw [splitOnC_joinWith _ _ hne h2]
        refine mapRes_all2 _ _ _ (all2_imp (fun a b hab => intWord_ok hab) _ _ ?_)
        exact h3
  · rw [← List.flatMap_def]
    induction ls with
    | nil => rfl
    | cons l ls ih =>
      have ih := ih (fun l hl => h l (by simp [hl]))
      obtain ⟨_, ws, h1, h2, h3⟩ := h l (by simp)
      rw [List.filter_cons]
      by_cases hs : strip l.1 = []
      · have hd : ¬ (decide (strip l.1 ≠ [])) = true := by simpa using hs
        rw [if_neg hd, ih, List.flatMap_cons]
        have : l.2 = [] := by
          have hw : ws.filter (· ≠ []) = [] := by
            rw [hs] at h1
            match ws with
            | [] => rfl
            | [a] => have : a = [] := h1.symm
                     subst this; rfl
            | a :: b :: ws =>
              exfalso
              have e : joinWith ',' (a :: b :: ws) = a ++ ',' :: joinWith ',' (b :: ws) := rfl
              rw [e] at h1
              cases a <;> simp at h1
          rw [hw] at h3
          cases hl : l.2 with
          | nil => rfl
          | cons b m => rw [hl] at h3; exact h3.elim
        rw [this]; rfl
      · have hd : (decide (strip l.1 ≠ [])) = true := by simpa using hs
        rw [if_pos hd, List.flatMap_cons, List.flatMap_cons, ih]

theorem stripCommas_end (s : List Char) (k : Nat) (h0 : s.head? ≠ some ',') (h1 : s.getLast? ≠ some ',') :
    stripCommas (s ++ List.replicate k ',') = s := by
  unfold stripCommas
  have hrep : ∀ k : Nat, (List.replicate k ',').dropWhile (· == ',') = [] := by
    intro k
    induction k with
    | zero => rfl
    | succ k ih => rw [List.replicate_succ, List.dropWhile_cons]; simpa using ih
  cases s with
  | nil => rw [List.nil_append, hrep]; rfl
  | cons c s =>
    have hc : (c == ',') = false := by
      simp only [List.head?_cons, ne_eq, Option.some.injEq] at h0
      simpa using h0
    rw [List.cons_append, List.dropWhile_cons, hc]
    simp only [Bool.false_eq_true, if_false]
    rw [← List.cons_append, List.reverse_append, List.reverse_replicate]
    have hd : ∀ x ∈ List.replicate k ',', (x == ',') = true := by
      intro x hx
      rw [List.mem_replicate] at hx
      rw [hx.2]; rfl
    rw [List.dropWhile_append_of_pos hd]
    have hl : (c :: s).reverse.dropWhile (· == ',') = (c :: s).reverse := by
      rw [← List.head?_reverse] at h1
      cases hr : (c :: s).reverse with
      | nil => rfl
      | cons d r =>
        rw [hr] at h1
        simp only [List.head?_cons, ne_eq, Option.some.injEq] at h1
        have : (d == ',') = false := by simpa using h1
        rw [List.dropWhile_cons, this]; rfl
    rw [hl, List.reverse_reverse]

/-- The lines of a set. -/
theorem memberLines (ls : List (List Char × List Int)) (h : ∀ l ∈ ls, IsMembers l) :
    ∃ r, mapRes setLine (((ls.map (·.1)).map (· ++ ['\n'])).filter (fun l => decide (strip l ≠ []))) = .ok r ∧
      r.flatMap (·.1) = ls.flatMap (·.2) ∧ r.flatMap (·.2) = [] := by
  induction ls with
  | nil => exact ⟨[], rfl, rfl, rfl⟩
  | cons l ls ih =>
    obtain ⟨r, e1, e2, e3⟩ := ih (fun l hl => h l (by simp [hl]))
    obtain ⟨_, hl⟩ := h l (by simp)
    rcases hl with ⟨h1, h2⟩ | ⟨w, ws, k, h1, h2, h3, h4, h5⟩
    · refine ⟨r, ?_, ?_, e3⟩
      · simp only [List.map_cons, List.filter_cons, strip_nl', h2]
        exact e1
      · rw [List.flatMap_cons, h1, e2]; rfl
    · refine ⟨(l.2, []) :: r, ?_, ?_, ?_⟩
      · have hs : strip l.1 ≠ [] := by
          rw [h1]
          intro e
          exact joinWith_ne_nil ',' w ws h3 (List.append_eq_nil_iff.mp e).1
        simp only [List.map_cons, List.filter_cons, strip_nl']
        rw [if_pos (by simpa using hs)]
        have hw : ∀ u ∈ w :: ws, u ≠ [] := by
          have hgen : ∀ (us : List (List Char)) (is : List Int), All2 (fun w i => parseInt (strip w) = some i) us is → ∀ u ∈ us, u ≠ [] := by
            intro us
            induction us with
            | nil => intro is _ u hu; cases hu
            | cons a us ih =>
              intro is ha u hu
              cases is with
              | nil => exact ha.elim
              | cons i is =>
                rcases List.mem_cons.1 hu with rfl | hu
                · rintro rfl
                  have : parseInt (strip []) = some i := ha.1
                  rw [strip_nil, parseInt_nil] at this; cases this
                · exact ih is ha.2 u hu
          exact hgen _ _ h5
        have hset : setLine (l.1 ++ ['\n']) = .ok (l.2, []) := by
          unfold setLine
          rw [strip_nl', h1, stripCommas_end, splitOnC_joinWith _ _ (by simp) h2]
          · simp only
            have hn : isNumeric w = true := by
              unfold isNumeric
              rw [h4]
              cases w with
              | nil => exact absurd rfl h3
              | cons c w => rfl
            rw [if_pos hn, mapRes_all2 intWord (w :: ws) l.2 (all2_imp (fun a b hab => intWord_ok hab) _ _ h5)]
          · rw [joinWith_head _ _ _ h3]
            intro e
            exact h2 w (by simp) (List.mem_of_mem_head? e)
          · obtain ⟨pre, u, hu⟩ : ∃ pre u, w :: ws = pre ++ [u] := by
              rcases List.eq_nil_or_concat (w :: ws) with h | ⟨a, b, h⟩
              · cases h
              · exact ⟨a, b, by rw [h, List.concat_eq_append]⟩
            rw [hu, joinWith_getLast _ _ _ (hw u (by rw [hu]; simp))]
            intro e
            exact h2 u (by rw [hu]; simp) (List.mem_of_getLast? e)
        unfold mapRes
        rw [hset]; simp only
        rw [e1]
      · rw [List.flatMap_cons, List.flatMap_cons, e2]
      · rw [List.flatMap_cons, e3]; rfl

end Meshio.Abaqus
