/-
The XML parser reads elements that are laid out with text between them.
-/
import Verif.Proofs.Cxml
namespace Meshio
open Meshio.Spec

/-- Elements one after the other: the text before an element, its name and attributes; an element is empty (`<a />`) or has children and a
text before its end tag. -/
inductive Lay where
  | nil
  | empty (pre : List Char) (name : String) (attrs : List (String × String)) (rest : Lay)
  | elem (pre : List Char) (name : String) (attrs : List (String × String)) (children : Lay) (post : List Char) (rest : Lay)

namespace Lay

def attrsText (as : List (String × String)) : List Char := as.flatMap fun a => ' ' :: Cxml.attr a

def render : Lay → List Char
  | .nil => []
  | .empty p n as r => p ++ '<' :: (n.toList ++ (attrsText as ++ (' ' :: '/' :: '>' :: render r)))
  | .elem p n as ch q r => p ++ '<' :: (n.toList ++ (attrsText as ++ '>' :: (render ch ++ (q ++ '<' :: '/' :: (n.toList ++ '>' :: render r)))))

/-- The text before the first element. -/
def first : Lay → List Char → List Char
  | .nil, w => w
  | .empty p _ _ _, _ => p
  | .elem p _ _ _ _ _, _ => p

def tree : Lay → Xml
  | .nil => .nil
  | .empty _ n as r => .cons n as [] .nil (tree r)
  | .elem _ n as ch q r => .cons n as (first ch q) (tree ch) (tree r)

def PlainAttrs (as : List (String × String)) : Prop := (∀ a ∈ as, XmlName a.1 ∧ PlainValue a.2) ∧ (as.map (·.1)).Nodup

def Plain : Lay → Prop
  | .nil => True
  | .empty p n as r => PlainText p ∧ XmlName n ∧ PlainAttrs as ∧ Plain r
  | .elem p n as ch q r => PlainText p ∧ XmlName n ∧ PlainAttrs as ∧ Plain ch ∧ PlainText q ∧ Plain r

def steps : Lay → Nat
  | .nil => 1
  | .empty _ _ _ r => steps r + 1
  | .elem _ _ _ ch _ r => steps ch + steps r + 1

theorem steps_le (l : Lay) : steps l ≤ l.render.length + 1 := by
  induction l with
  | nil => simp [steps]
  | empty p n as r ih => simp only [steps, render, List.length_append, List.length_cons]; omega
  | elem p n as ch q r ih1 ih2 => simp only [steps, render, List.length_append, List.length_cons]; omega

end Lay

namespace XmlParse
open Lay

theorem attrs_end (tl : List Char) (emp : Bool) (s : List Char)
    (ht : (tl = '>' :: s ∧ emp = false) ∨ (tl = ' ' :: '/' :: '>' :: s ∧ emp = true)) (as : List (String × String)) (h : PlainAttrs as)
    (n : Nat) (hn : as.length + 1 ≤ n) : attrs n (attrsText as ++ tl) = some (as, emp, s) := by
  obtain ⟨h, hd⟩ := h
  induction as generalizing n with
  | nil =>
    obtain ⟨n, rfl⟩ : ∃ m, n = m + 1 := ⟨n - 1, by simp at hn; omega⟩
    rcases ht with ⟨rfl, rfl⟩ | ⟨rfl, rfl⟩ <;> simp [attrs, isSpace, attrsText]
  | cons a as ih =>
    obtain ⟨n, rfl⟩ : ∃ m, n = m + 1 := ⟨n - 1, by simp at hn; omega⟩
    obtain ⟨hk, hv⟩ := h a (by simp)
    have e : attrsText (a :: as) ++ tl =
        ' ' :: (a.1.toList ++ '=' :: ('"' :: (a.2.toList ++ '"' :: (attrsText as ++ tl)))) := by
      simp [attrsText, Cxml.attr]
    rw [e]
    obtain ⟨⟨d, hd1, hs⟩, ha⟩ := hk
    cases hn1 : a.1.toList with
    | nil => rw [hn1] at hd1; simp at hd1
    | cons c t =>
      have hc : d = c := by rw [hn1] at hd1; simpa using hd1.symm
      subst hc
      have hns := nameStart_of hs
      have hsp : isSpace d = false := by
        cases h' : isSpace d
        · rfl
        · simp only [isSpace, Bool.or_eq_true, beq_iff_eq] at h'
          rcases h' with ((h' | h') | h') | h' <;> subst h' <;> exact absurd hns (by decide)
      have hgt : d ≠ '>' := by rintro rfl; exact absurd hns (by decide)
      have hsl : d ≠ '/' := by rintro rfl; exact absurd hns (by decide)
      have e2 : (' ' :: ((d :: t) ++ '=' :: ('"' :: (a.2.toList ++ '"' :: (attrsText as ++ tl))))).dropWhile isSpace =
          (d :: t) ++ '=' :: ('"' :: (a.2.toList ++ '"' :: (attrsText as ++ tl))) := by
        rw [List.dropWhile_cons, if_pos (by decide)]
        simp [hsp]
      rw [attrs, e2]
      rw [List.cons_append]
      split
      · rename_i heq; simp only [List.cons.injEq] at heq; exact absurd heq.1 hgt
      · rename_i heq; simp only [List.cons.injEq] at heq; exact absurd heq.1 hsl
      · rw [if_neg (by simp [isSpace]), ← List.cons_append, ← hn1, name_plain ⟨⟨d, hd1, hs⟩, ha⟩ '=' (by decide)]
        dsimp only
        rw [show (List.dropWhile isSpace ('=' :: '"' :: (a.2.toList ++ '"' :: (attrsText as ++ tl)))) =
          ('=' :: '"' :: (a.2.toList ++ '"' :: (attrsText as ++ tl))) from by
            rw [List.dropWhile_cons, if_neg (by decide)]]
        simp only []
        rw [show (List.dropWhile isSpace ('"' :: (a.2.toList ++ '"' :: (attrsText as ++ tl)))) =
          ('"' :: (a.2.toList ++ '"' :: (attrsText as ++ tl))) from by
            rw [List.dropWhile_cons, if_neg (by decide)], value_plain hv]
        dsimp only
        rw [ih n (by simpa using hn) (fun b hb => h b (by simp [hb])) (List.nodup_cons.mp hd).2]
        dsimp only
        have : as.any (fun b => b.1 == String.ofList a.1.toList) = false := by
          rw [List.any_eq_false]
          intro b hb hbe
          simp only [String.ofList_toList, beq_iff_eq] at hbe
          exact (List.nodup_cons.mp hd).1 (List.mem_map.mpr ⟨b, hb, hbe⟩)
        rw [this]
        simp

theorem attrsText_length (as : List (String × String)) : as.length ≤ (attrsText as).length := attrs_length as

theorem afterName' (as : List (String × String)) (tl s : List Char) (ht : tl = '>' :: s ∨ tl = ' ' :: s) :
    ∃ c r, attrsText as ++ tl = c :: r ∧ nameChar c = false := by
  cases as with
  | nil => rcases ht with rfl | rfl <;> exact ⟨_, s, rfl, by decide⟩
  | cons a as => exact ⟨' ', _, by simp [attrsText]; rfl, by decide⟩

theorem nodes_lay (l : Lay) (h : l.Plain) (w k : List Char) (hw : PlainText w) (hk : k = [] ∨ ∃ r, k = '<' :: '/' :: r) (n : Nat)
    (hn : l.steps ≤ n) : nodes n (l.render ++ (w ++ k)) = some (l.first w, l.tree, k) := by
  induction l generalizing w k n with
  | nil =>
    obtain ⟨n, rfl⟩ : ∃ m, n = m + 1 := ⟨n - 1, by simp [Lay.steps] at hn; omega⟩
    have hw1 : ∀ x ∈ w, decide (x ≠ '<') = true := fun x hx => decide_eq_true (hw x hx).1
    have hw2 : '&' ∉ w := fun e => (hw _ e).2 rfl
    simp only [Lay.render, List.nil_append, Lay.first, Lay.tree]
    rcases hk with rfl | ⟨r, rfl⟩
    · have e1 : (w ++ []).takeWhile (fun c => decide (c ≠ '<')) = w := by
        rw [List.append_nil]; have := List.takeWhile_append_of_pos (l₂ := []) hw1; simpa using this
      have e2 : (w ++ []).dropWhile (fun c => decide (c ≠ '<')) = [] := by
        rw [List.append_nil]; have := List.dropWhile_append_of_pos (l₂ := []) hw1; simpa using this
      rw [nodes, e1, e2, unescape_plain _ hw2]
    · rw [nodes, takeWhile_stop _ _ _ hw1 (by decide), dropWhile_stop _ _ _ hw1 (by decide), unescape_plain _ hw2]
      rfl
  | empty p m as r ih =>
    obtain ⟨n, rfl⟩ : ∃ m, n = m + 1 := ⟨n - 1, by simp [Lay.steps] at hn; omega⟩
    obtain ⟨h0, h1, h2, h6⟩ := h
    have hw1 : ∀ x ∈ p, decide (x ≠ '<') = true := fun x hx => decide_eq_true (h0 x hx).1
    have hw2 : '&' ∉ p := fun e => (h0 _ e).2 rfl
    simp only [Lay.steps] at hn
    have e : (Lay.empty p m as r).render ++ (w ++ k) =
        p ++ '<' :: (m.toList ++ (attrsText as ++ (' ' :: '/' :: '>' :: (r.render ++ (w ++ k))))) := by
      simp [Lay.render]
    rw [e, nodes, takeWhile_stop _ _ _ hw1 (by decide), dropWhile_stop _ _ _ hw1 (by decide), unescape_plain _ hw2]
    dsimp only
    obtain ⟨d, hd, hs⟩ := h1.1
    have hns := nameStart_of hs
    obtain ⟨t, ht⟩ : ∃ t, m.toList = d :: t := by
      cases hm : m.toList with
      | nil => rw [hm] at hd; simp at hd
      | cons c t => rw [hm] at hd; simp at hd; exact ⟨t, by rw [hd]⟩
    have hsl : ('/' == d) = false := by
      rw [beq_eq_false_iff_ne]; rintro rfl; exact absurd hns (by decide)
    have hex : ('!' == d) = false := by
      rw [beq_eq_false_iff_ne]; rintro rfl; exact absurd hns (by decide)
    rw [if_neg (by rw [ht]; simp only [List.cons_append, List.isPrefixOf, hsl, Bool.false_and]; simp),
      if_neg (by
        rw [ht]; show ¬ ((['!', '-', '-'] : List Char).isPrefixOf _ = true)
        simp only [List.cons_append, List.isPrefixOf, hex, Bool.false_and]; simp)]
    obtain ⟨c, q, hq, hc⟩ := afterName' as (' ' :: '/' :: '>' :: (r.render ++ (w ++ k))) _ (.inr rfl)
    have hnm := name_plain h1 c hc q
    rw [← hq] at hnm
    rw [hnm]
    dsimp only
    rw [attrs_end (' ' :: '/' :: '>' :: (r.render ++ (w ++ k))) true _ (.inr ⟨rfl, rfl⟩) as h2 _ (by
      simp only [List.length_append, List.length_cons]
      have := attrsText_length as
      omega)]
    dsimp only
    rw [ih h6 w k hw hk n (by omega)]
    simp [Lay.first, Lay.tree]
  | elem p m as ch z r ih1 ih2 =>
    obtain ⟨n, rfl⟩ : ∃ m, n = m + 1 := ⟨n - 1, by simp [Lay.steps] at hn; omega⟩
    obtain ⟨h0, h1, h2, h5, hz, h6⟩ := h
    have hw1 : ∀ x ∈ p, decide (x ≠ '<') = true := fun x hx => decide_eq_true (h0 x hx).1
    have hw2 : '&' ∉ p := fun e => (h0 _ e).2 rfl
    simp only [Lay.steps] at hn
    have e : (Lay.elem p m as ch z r).render ++ (w ++ k) =
        p ++ '<' :: (m.toList ++ (attrsText as ++ '>' ::
          (ch.render ++ (z ++ '<' :: '/' :: (m.toList ++ '>' :: (r.render ++ (w ++ k))))))) := by
      simp [Lay.render]
    rw [e, nodes, takeWhile_stop _ _ _ hw1 (by decide), dropWhile_stop _ _ _ hw1 (by decide), unescape_plain _ hw2]
    dsimp only
    obtain ⟨d, hd, hs⟩ := h1.1
    have hns := nameStart_of hs
    obtain ⟨t, ht⟩ : ∃ t, m.toList = d :: t := by
      cases hm : m.toList with
      | nil => rw [hm] at hd; simp at hd
      | cons c t => rw [hm] at hd; simp at hd; exact ⟨t, by rw [hd]⟩
    have hsl : ('/' == d) = false := by
      rw [beq_eq_false_iff_ne]; rintro rfl; exact absurd hns (by decide)
    have hex : ('!' == d) = false := by
      rw [beq_eq_false_iff_ne]; rintro rfl; exact absurd hns (by decide)
    rw [if_neg (by rw [ht]; simp only [List.cons_append, List.isPrefixOf, hsl, Bool.false_and]; simp),
      if_neg (by
        rw [ht]; show ¬ ((['!', '-', '-'] : List Char).isPrefixOf _ = true)
        simp only [List.cons_append, List.isPrefixOf, hex, Bool.false_and]; simp)]
    obtain ⟨c, q, hq, hc⟩ := afterName' as ('>' :: (ch.render ++ (z ++ '<' :: '/' :: (m.toList ++ '>' :: (r.render ++ (w ++ k)))))) _ (.inl rfl)
    have hnm := name_plain h1 c hc q
    rw [← hq] at hnm
    rw [hnm]
    dsimp only
    rw [attrs_end _ false _ (.inl ⟨rfl, rfl⟩) as h2 _ (by
      simp only [List.length_append, List.length_cons]
      have := attrsText_length as
      omega)]
    dsimp only
    rw [ih1 h5 z ('<' :: '/' :: (m.toList ++ '>' :: (r.render ++ (w ++ k)))) hz (.inr ⟨_, rfl⟩) n (by omega)]
    dsimp only
    rw [if_pos (by simp)]
    have he : endTag m.toList (m.toList ++ '>' :: (r.render ++ (w ++ k))) = some (r.render ++ (w ++ k)) := by
      rw [endTag, name_plain h1 '>' (by decide)]
      dsimp only
      rw [if_pos rfl, List.dropWhile_cons, if_neg (by decide)]
      dsimp only
      rw [if_pos rfl]
    rw [show ('<' :: '/' :: (m.toList ++ '>' :: (r.render ++ (w ++ k)))).drop 2 = m.toList ++ '>' :: (r.render ++ (w ++ k)) from rfl, he]
    dsimp only
    rw [ih2 h6 w k hw hk n (by omega)]
    simp [Lay.first, Lay.tree]

end XmlParse

/-- A document without declaration. -/
theorem parseXml_lay (n : String) (as : List (String × String)) (ch : Lay) (q : List Char) (h : (Lay.elem [] n as ch q .nil).Plain) :
    parseXml (Lay.elem [] n as ch q .nil).render = some ⟨n, as, ch.first q, ch.tree⟩ := by
  have h1 := h.2.1
  have := XmlParse.nodes_lay _ h [] [] (by intro c hc; simp at hc) (.inl rfl)
    ((Lay.elem [] n as ch q .nil).render.length + 1) (Lay.steps_le _)
  rw [List.append_nil, List.append_nil] at this
  unfold parseXml
  have hp : "<?xml".toList.isPrefixOf (Lay.elem [] n as ch q .nil).render = false := by
    obtain ⟨d, hd, hs⟩ := h1.1
    have hns := XmlParse.nameStart_of hs
    obtain ⟨t, ht⟩ : ∃ t, n.toList = d :: t := by
      cases hm : n.toList with
      | nil => rw [hm] at hd; simp at hd
      | cons c t => rw [hm] at hd; simp at hd; exact ⟨t, by rw [hd]⟩
    have hq : ('?' == d) = false := by
      rw [beq_eq_false_iff_ne]; rintro rfl; exact absurd hns (by decide)
    simp only [Lay.render, ht]
    show (['<', '?', 'x', 'm', 'l'] : List Char).isPrefixOf _ = false
    simp only [List.nil_append, List.cons_append, List.isPrefixOf, hq, Bool.false_and, Bool.and_false]
  rw [hp]
  simp only [Bool.false_eq_true, if_false]
  rw [this]
  simp [Lay.first, Lay.tree]

end Meshio
