/-
The XML parser reads what the XML writer writes.
-/
import Verif.Spec.Cxml
namespace Meshio
open Meshio.Cxml Meshio.Spec

namespace XmlParse

theorem unescapeF_plain (s : List Char) (h : '&' ∉ s) (n : Nat) (hn : s.length ≤ n) : unescapeF n s = some s := by
  induction s generalizing n with
  | nil => cases n <;> rfl
  | cons c s ih =>
    cases n with
    | zero => simp at hn
    | succ n =>
      have hc : ¬ c = '&' := fun e => h (by simp [e])
      simp only [unescapeF, if_neg hc, ih (fun e => h (by simp [e])) n (by simpa using hn), Option.map_some]

theorem unescape_plain (s : List Char) (h : '&' ∉ s) : unescape s = some s := unescapeF_plain s h _ (Nat.le_refl _)

theorem nameStart_of {c : Char} (h : c.isAlpha = true ∨ c = '_' ∨ c = ':') : nameStart c = true := by
  simp only [nameStart, Bool.or_eq_true, beq_iff_eq]; rcases h with h | h | h <;> simp [h]

theorem nameChar_of {c : Char} (h : c.isAlphanum = true ∨ c = '_' ∨ c = ':' ∨ c = '.' ∨ c = '-') : nameChar c = true := by
  simp only [nameChar, Bool.or_eq_true, beq_iff_eq]; rcases h with h | h | h | h | h <;> simp [h]

theorem takeWhile_stop {p : Char → Bool} (a : List Char) (c : Char) (s : List Char) (ha : ∀ x ∈ a, p x = true) (hc : p c = false) :
    (a ++ c :: s).takeWhile p = a := by
  rw [List.takeWhile_append_of_pos ha]; simp [hc]

theorem dropWhile_stop {p : Char → Bool} (a : List Char) (c : Char) (s : List Char) (ha : ∀ x ∈ a, p x = true) (hc : p c = false) :
    (a ++ c :: s).dropWhile p = c :: s := by
  rw [List.dropWhile_append_of_pos ha]; simp [hc]

theorem name_plain {n : String} (h : XmlName n) (c : Char) (hc : nameChar c = false) (s : List Char) :
    name (n.toList ++ c :: s) = some (n.toList, c :: s) := by
  obtain ⟨⟨d, hd, hs⟩, ha⟩ := h
  have ha' : ∀ x ∈ n.toList, nameChar x = true := fun x hx => nameChar_of (ha x hx)
  cases hn : n.toList with
  | nil => rw [hn] at hd; simp at hd
  | cons e t =>
    rw [hn] at hd ha'
    simp only [List.head?_cons, Option.mem_def, Option.some.injEq] at hd
    subst hd
    simp only [name, List.cons_append, nameStart_of hs, if_true]
    rw [← List.cons_append, takeWhile_stop _ _ _ ha' hc, dropWhile_stop _ _ _ ha' hc]

theorem value_plain {v : String} (h : PlainValue v) (s : List Char) :
    value ('"' :: (v.toList ++ '"' :: s)) = some (v.toList, s) := by
  have h1 : ∀ x ∈ v.toList, decide (x ≠ '"') = true := fun x hx => decide_eq_true (h x hx).1
  simp only [value, true_or, if_true]
  rw [dropWhile_stop _ _ _ h1 (by decide), takeWhile_stop _ _ _ h1 (by decide)]
  have h2 : '<' ∉ v.toList := fun e => (h _ e).2.1 rfl
  have h3 : v.toList.map (fun c => if isSpace c then ' ' else c) = v.toList := by
    conv => rhs; rw [← List.map_id v.toList]
    apply List.map_congr_left
    intro c hc
    have := h c hc
    by_cases hb : c = ' '
    · simp [hb]
    · have : isSpace c = false := by
        simp only [isSpace, Bool.or_eq_false_iff, beq_eq_false_iff_ne, ne_eq]
        exact ⟨⟨⟨hb, this.2.2.2.2.1⟩, this.2.2.2.1⟩, this.2.2.2.2.2⟩
      simp [this]
  simp only [if_neg h2, h3]
  rw [unescape_plain _ (fun e => (h _ e).2.2.1 rfl)]
  rfl

theorem attrs_plain (as : List (String × String)) (h : ∀ a ∈ as, XmlName a.1 ∧ PlainValue a.2) (hd : (as.map (·.1)).Nodup) (s : List Char)
    (n : Nat) (hn : as.length + 1 ≤ n) :
    attrs n ((as.flatMap fun a => ' ' :: Cxml.attr a) ++ '>' :: s) = some (as, false, s) := by
  induction as generalizing n with
  | nil =>
    obtain ⟨n, rfl⟩ : ∃ m, n = m + 1 := ⟨n - 1, by simp at hn; omega⟩
    simp [attrs, isSpace]
  | cons a as ih =>
    obtain ⟨n, rfl⟩ : ∃ m, n = m + 1 := ⟨n - 1, by simp at hn; omega⟩
    obtain ⟨hk, hv⟩ := h a (by simp)
    have e : ((a :: as).flatMap fun a => ' ' :: Cxml.attr a) ++ '>' :: s =
        ' ' :: (a.1.toList ++ '=' :: ('"' :: (a.2.toList ++ '"' :: ((as.flatMap fun a => ' ' :: Cxml.attr a) ++ '>' :: s)))) := by
      simp [Cxml.attr]
    rw [e]
    obtain ⟨⟨d, hd1, hs⟩, ha⟩ := hk
    cases hn1 : a.1.toList with
    | nil => rw [hn1] at hd1; simp at hd1
    | cons c t =>
      have hc : d = c := by rw [hn1] at hd1; simpa using hd1.symm
      subst hc
      have hns := nameStart_of hs
      have hsp : isSpace d = false := by
        cases h' : isSpace d
        · rfl
        · simp only [isSpace, Bool.or_eq_true, beq_iff_eq] at h'
          rcases h' with ((h' | h') | h') | h' <;> subst h' <;> exact absurd hns (by decide)
      have hgt : d ≠ '>' := by rintro rfl; exact absurd hns (by decide)
      have hsl : d ≠ '/' := by rintro rfl; exact absurd hns (by decide)
      have e2 : (' ' :: ((d :: t) ++ '=' :: ('"' :: (a.2.toList ++ '"' :: ((as.flatMap fun a => ' ' :: Cxml.attr a) ++ '>' :: s))))).dropWhile isSpace =
          (d :: t) ++ '=' :: ('"' :: (a.2.toList ++ '"' :: ((as.flatMap fun a => ' ' :: Cxml.attr a) ++ '>' :: s))) := by
        rw [List.dropWhile_cons, if_pos (by decide)]
        simp [hsp]
      rw [attrs, e2]
      rw [List.cons_append]
      split
      · rename_i heq; simp only [List.cons.injEq] at heq; exact absurd heq.1 hgt
      · rename_i heq; simp only [List.cons.injEq] at heq; exact absurd heq.1 hsl
      · rw [if_neg (by simp [isSpace]), ← List.cons_append, ← hn1, name_plain ⟨⟨d, hd1, hs⟩, ha⟩ '=' (by decide)]
        dsimp only
        rw [show (List.dropWhile isSpace ('=' :: '"' :: (a.2.toList ++ '"' :: ((as.flatMap fun a => ' ' :: Cxml.attr a) ++ '>' :: s)))) =
          ('=' :: '"' :: (a.2.toList ++ '"' :: ((as.flatMap fun a => ' ' :: Cxml.attr a) ++ '>' :: s))) from by
            rw [List.dropWhile_cons, if_neg (by decide)]]
        simp only []
        rw [show (List.dropWhile isSpace ('"' :: (a.2.toList ++ '"' :: ((as.flatMap fun a => ' ' :: Cxml.attr a) ++ '>' :: s)))) =
          ('"' :: (a.2.toList ++ '"' :: ((as.flatMap fun a => ' ' :: Cxml.attr a) ++ '>' :: s))) from by
            rw [List.dropWhile_cons, if_neg (by decide)], value_plain hv]
        dsimp only
        rw [ih (fun b hb => h b (by simp [hb])) (List.nodup_cons.mp hd).2 n (by simpa using hn)]
        dsimp only
        have : as.any (fun b => b.1 == String.ofList a.1.toList) = false := by
          rw [List.any_eq_false]
          intro b hb hbe
          simp only [String.ofList_toList, beq_iff_eq] at hbe
          exact (List.nodup_cons.mp hd).1 (List.mem_map.mpr ⟨b, hb, hbe⟩)
        rw [this]
        simp

theorem afterComment_plain (t s : List Char) (h : PlainComment t) : afterComment (t ++ ("-->".toList ++ s)) = some s := by
  induction t with
  | nil => rfl
  | cons c t ih =>
    have h' : PlainComment t := fun ⟨a, b, e⟩ => h ⟨c :: a, b, by simp [← e]⟩
    have hn : "-->".toList.isPrefixOf (c :: (t ++ ("-->".toList ++ s))) = false := by
      cases hp : "-->".toList.isPrefixOf (c :: (t ++ ("-->".toList ++ s))) with
      | false => rfl
      | true =>
        exfalso
        apply h
        rw [List.isPrefixOf_iff_prefix] at hp
        obtain ⟨u, hu⟩ := hp
        cases t with
        | nil =>
          simp only [String.toList, List.nil_append] at hu
          have : ['-', '-', '>'] ++ u = c :: ('-' :: '-' :: '>' :: s) := hu
          simp at this
        | cons d t =>
          have : ['-', '-', '>'] ++ u = c :: d :: (t ++ ("-->".toList ++ s)) := hu
          simp only [List.cons_append, List.cons.injEq] at this
          exact ⟨[], t ++ ['-'], by simp [← this.1, ← this.2.1]⟩
    rw [List.cons_append, afterComment, hn]
    simpa using ih h'

/-- The steps the parser needs. -/
def steps : Out → Nat
  | .nil => 1
  | .comment _ r => steps r + 1
  | .elem _ _ _ ch r => steps ch + steps r + 1

theorem steps_le (o : Out) : steps o ≤ o.write.length + 1 := by
  induction o with
  | nil => simp [steps]
  | comment t r ih => simp only [steps, Out.write, List.length_append]; have : "<!--".toList.length = 4 := rfl; omega
  | elem n as x ch r ih1 ih2 =>
    simp only [steps, Out.write, openTag, List.length_append, List.length_cons]; omega

theorem joinWith_cons (c : Char) (a : List Char) (l : List (List Char)) : joinWith c (a :: l) = a ++ l.flatMap (c :: ·) := by
  induction l generalizing a with
  | nil => simp [joinWith]
  | cons b l ih => rw [joinWith, ih]; simp

theorem openTag_eq (n : String) (as : List (String × String)) :
    openTag n as = '<' :: (n.toList ++ ((as.flatMap fun a => ' ' :: Cxml.attr a) ++ '>' :: ['\n'])) := by
  simp [openTag, joinWith_cons, List.flatMap_map]

theorem afterName (as : List (String × String)) (s : List Char) :
    ∃ c r, (as.flatMap fun a => ' ' :: Cxml.attr a) ++ '>' :: s = c :: r ∧ nameChar c = false := by
  cases as with
  | nil => exact ⟨'>', s, rfl, by decide⟩
  | cons a as => exact ⟨' ', _, by simp; rfl, by decide⟩

theorem attrs_length (as : List (String × String)) : as.length ≤ (as.flatMap fun a => ' ' :: Cxml.attr a).length := by
  induction as with
  | nil => simp
  | cons a as ih => simp only [List.flatMap_cons, List.length_append, List.length_cons]; omega

theorem nodes_write (o : Out) (h : PlainDoc o) (w k : List Char) (hw : PlainText w) (hk : k = [] ∨ ∃ r, k = '<' :: '/' :: r) (n : Nat)
    (hn : steps o ≤ n) : nodes n (w ++ (o.write ++ k)) = some (w ++ commentLines o, saidTree o, k) := by
  induction o generalizing w k n with
  | nil =>
    obtain ⟨n, rfl⟩ : ∃ m, n = m + 1 := ⟨n - 1, by simp [steps] at hn; omega⟩
    have hw1 : ∀ x ∈ w, decide (x ≠ '<') = true := fun x hx => decide_eq_true (hw x hx).1
    have hw2 : '&' ∉ w := fun e => (hw _ e).2 rfl
    simp only [Out.write, List.nil_append, commentLines, List.append_nil, saidTree]
    rcases hk with rfl | ⟨r, rfl⟩
    · have e1 : (w ++ []).takeWhile (fun c => decide (c ≠ '<')) = w := by
        rw [List.append_nil]; have := List.takeWhile_append_of_pos (l₂ := []) hw1; simpa using this
      have e2 : (w ++ []).dropWhile (fun c => decide (c ≠ '<')) = [] := by
        rw [List.append_nil]; have := List.dropWhile_append_of_pos (l₂ := []) hw1; simpa using this
      rw [nodes, e1, e2, unescape_plain _ hw2]
    · rw [nodes, takeWhile_stop _ _ _ hw1 (by decide), dropWhile_stop _ _ _ hw1 (by decide), unescape_plain _ hw2]
      rfl
  | comment t r ih =>
    obtain ⟨n, rfl⟩ : ∃ m, n = m + 1 := ⟨n - 1, by simp [steps] at hn; omega⟩
    have hw1 : ∀ x ∈ w, decide (x ≠ '<') = true := fun x hx => decide_eq_true (hw x hx).1
    have hw2 : '&' ∉ w := fun e => (hw _ e).2 rfl
    obtain ⟨h1, h2⟩ := h
    have e : w ++ ((Out.comment t r).write ++ k) = w ++ '<' :: ('!' :: '-' :: '-' :: (t ++ ("-->".toList ++ (['\n'] ++ (r.write ++ k))))) := by
      simp [Out.write]
    rw [e, nodes, takeWhile_stop _ _ _ hw1 (by decide), dropWhile_stop _ _ _ hw1 (by decide), unescape_plain _ hw2]
    dsimp only
    rw [if_neg (by simp), if_pos (by simp)]
    rw [show ('!' :: '-' :: '-' :: (t ++ ("-->".toList ++ (['\n'] ++ (r.write ++ k))))).drop 3 = t ++ ("-->".toList ++ (['\n'] ++ (r.write ++ k))) from rfl,
      afterComment_plain _ _ h1]
    dsimp only
    rw [ih h2 ['\n'] k (by intro c hc; simp at hc; subst hc; decide) hk n (by simp [steps] at hn; omega)]
    simp [commentLines, saidTree]
  | elem m as x ch r ih1 ih2 =>
    obtain ⟨n, rfl⟩ : ∃ m, n = m + 1 := ⟨n - 1, by simp [steps] at hn; omega⟩
    have hw1 : ∀ x ∈ w, decide (x ≠ '<') = true := fun x hx => decide_eq_true (hw x hx).1
    have hw2 : '&' ∉ w := fun e => (hw _ e).2 rfl
    obtain ⟨h1, h2, h3, h4, h5, h6⟩ := h
    simp only [steps] at hn
    have hxo : ownLine x = textOut x := by cases x <;> rfl
    generalize hxt : textOut x = xt
    rw [hxt] at hxo
    have hxtP : PlainText ('\n' :: xt) := by
      intro c hc
      cases x with
      | none => simp only [textOut] at hxt; subst hxt; simp at hc; subst hc; decide
      | some x =>
        simp only [textOut] at hxt; subst hxt
        simp only [List.mem_cons, List.mem_append, List.not_mem_nil, or_false] at hc
        rcases hc with rfl | hc | rfl
        · decide
        · exact h4 x rfl c hc
        · decide
    have e : w ++ ((Out.elem m as x ch r).write ++ k) =
        w ++ '<' :: (m.toList ++ ((as.flatMap fun a => ' ' :: Cxml.attr a) ++ '>' ::
          (('\n' :: xt) ++ (ch.write ++ ('<' :: '/' :: (m.toList ++ ('>' :: (['\n'] ++ (r.write ++ k)))))))))  := by
      simp [Out.write, openTag_eq, hxt]
    rw [e, nodes, takeWhile_stop _ _ _ hw1 (by decide), dropWhile_stop _ _ _ hw1 (by decide), unescape_plain _ hw2]
    dsimp only
    have hhead := h1.1
    obtain ⟨d, hd, hs⟩ := hhead
    have hns := nameStart_of hs
    have hcons : ∃ t, m.toList = d :: t := by
      cases hm : m.toList with
      | nil => rw [hm] at hd; simp at hd
      | cons c t => rw [hm] at hd; simp at hd; exact ⟨t, by rw [hd]⟩
    obtain ⟨t, ht⟩ := hcons
    have hsl : ('/' == d) = false := by
      rw [beq_eq_false_iff_ne]; rintro rfl; exact absurd hns (by decide)
    have hex : ('!' == d) = false := by
      rw [beq_eq_false_iff_ne]; rintro rfl; exact absurd hns (by decide)
    rw [if_neg (by rw [ht]; simp only [List.cons_append, List.isPrefixOf, hsl, Bool.false_and]; simp),
      if_neg (by
        rw [ht]; show ¬ ((['!', '-', '-'] : List Char).isPrefixOf _ = true)
        simp only [List.cons_append, List.isPrefixOf, hex, Bool.false_and]; simp)]
    obtain ⟨c, q, hq, hc⟩ := afterName as (('\n' :: xt) ++ (ch.write ++ ('<' :: '/' :: (m.toList ++ ('>' :: (['\n'] ++ (r.write ++ k)))))))
    have hnm := name_plain h1 c hc q
    rw [← hq] at hnm
    rw [hnm]
    dsimp only
    rw [attrs_plain as h2 h3 _ _ (by
      simp only [List.length_append, List.length_cons]
      have := attrs_length as
      omega)]
    dsimp only
    rw [ih1 h5 ('\n' :: xt) ('<' :: '/' :: (m.toList ++ ('>' :: (['\n'] ++ (r.write ++ k))))) hxtP (.inr ⟨_, rfl⟩) n (by omega)]
    dsimp only
    rw [if_pos (by simp)]
    have he : endTag m.toList (m.toList ++ '>' :: (['\n'] ++ (r.write ++ k))) = some (['\n'] ++ (r.write ++ k)) := by
      rw [endTag, name_plain h1 '>' (by decide)]
      dsimp only
      rw [if_pos rfl, List.dropWhile_cons, if_neg (by decide)]
      dsimp only
      rw [if_pos rfl]
    rw [show ('<' :: '/' :: (m.toList ++ '>' :: (['\n'] ++ (r.write ++ k)))).drop 2 = m.toList ++ '>' :: (['\n'] ++ (r.write ++ k)) from rfl, he]
    dsimp only
    rw [ih2 h6 ['\n'] k (by intro c hc; simp at hc; subst hc; decide) hk n (by omega)]
    simp [commentLines, saidTree, hxo]

end XmlParse

theorem parseXml_decl (s : List Char) :
    parseXml ("<?xml version=\"1.0\"?>\n".toList ++ s) =
      match XmlParse.nodes (('\n' :: s).length + 1) ('\n' :: s) with
      | some (t, .cons tag as x ch .nil, []) => if t.all isWs then some ⟨tag, as, x, ch⟩ else none
      | _ => none := rfl

theorem parseXml_of_nodes (s : List Char) (tag : String) (as : List (String × String)) (x : List Char) (ch : Xml)
    (h : XmlParse.nodes (('\n' :: s).length + 1) ('\n' :: s) = some (['\n'], .cons tag as x ch .nil, [])) :
    parseXml ("<?xml version=\"1.0\"?>\n".toList ++ s) = some ⟨tag, as, x, ch⟩ := by
  rw [parseXml_decl, h]
  exact if_pos (by decide)

theorem parseXml_document (n : String) (as : List (String × String)) (x : Option (List Char)) (ch : Out)
    (h : PlainDoc (.elem n as x ch .nil)) :
    parseXml (document (.elem n as x ch .nil)) = some ⟨n, as, '\n' :: (ownLine x ++ commentLines ch), saidTree ch⟩ := by
  have := XmlParse.nodes_write (.elem n as x ch .nil) h ['\n'] [] (by intro c hc; simp at hc; subst hc; decide) (.inl rfl)
    (('\n' :: (Out.elem n as x ch .nil).write).length + 1) (by
      have := XmlParse.steps_le (.elem n as x ch .nil); simp only [List.length_cons]; omega)
  rw [List.append_nil] at this
  unfold document
  exact parseXml_of_nodes _ _ _ _ _ this

end Meshio
