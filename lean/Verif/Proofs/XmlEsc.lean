/-
The XML parser reads what `xml.etree.ElementTree` prints: values and texts are escaped.
-/
import Verif.Proofs.XmlLay
import Verif.Model.Svg
import Verif.Model.XdmfFile
namespace Meshio
open Meshio.Spec XdmfFile

/-- Elements one after the other, without text between them: name, attributes, text and children. -/
inductive Et where
  | nil
  | elem (name : String) (attrs : List (String × String)) (text : List Char) (children rest : Et)

namespace Et

def attrsText (as : List (String × String)) : List Char := as.flatMap fun a => attrText (a.1, a.2.toList)

def render : Et → List Char
  | .nil => []
  | .elem n as x ch r => '<' :: (n.toList ++ (attrsText as ++ (closeText n (Svg.escText x ++ ch.render) ++ r.render)))

def tree : Et → Xml
  | .nil => .nil
  | .elem n as x ch r => .cons n as x ch.tree r.tree

/-- A value without white space other than blanks. -/
def OkValue (v : List Char) : Prop := ∀ c ∈ v, c ≠ '\n' ∧ c ≠ '\t' ∧ c ≠ '\r'

def Ok : Et → Prop
  | .nil => True
  | .elem n as _ ch r => XmlName n ∧ (∀ a ∈ as, XmlName a.1 ∧ OkValue a.2.toList) ∧ (as.map (·.1)).Nodup ∧ ch.Ok ∧ r.Ok

def steps : Et → Nat
  | .nil => 1
  | .elem _ _ _ ch r => steps ch + steps r + 1

theorem steps_le (l : Et) : steps l ≤ l.render.length + 1 := by
  induction l with
  | nil => simp [steps]
  | elem n as x ch r ih1 ih2 =>
    have : ch.render.length + 3 ≤ (closeText n (Svg.escText x ++ ch.render)).length := by
      unfold closeText
      split
      · next h => rw [(List.append_eq_nil_iff.1 h).2]; simp
      · simp only [List.length_cons, List.length_append]; omega
    simp only [steps, render, List.length_append, List.length_cons]; omega

theorem render_nil {l : Et} (h : l.render = []) : l = .nil := by
  cases l with
  | nil => rfl
  | elem n as x ch r => cases h

end Et

namespace XmlParse
open Et

theorem escText_cons (c : Char) (s : List Char) : Svg.escText (c :: s) = Svg.escText [c] ++ Svg.escText s := by
  simp [Svg.escText]

theorem escAttr_cons (c : Char) (s : List Char) : Svg.escAttr (c :: s) = Svg.escAttr [c] ++ Svg.escAttr s := by
  simp [Svg.escAttr]

theorem escText_lt (s : List Char) : ∀ x ∈ Svg.escText s, x ≠ '<' := by
  intro x hx
  simp only [Svg.escText, List.mem_flatMap] at hx
  obtain ⟨c, _, h⟩ := hx
  split at h
  · revert x; decide
  · split at h
    · revert x; decide
    · split at h
      · revert x; decide
      · rename_i h1 _
        simp only [List.mem_singleton] at h; subst h; assumption

theorem escAttr_ok (s : List Char) (hs : OkValue s) : ∀ x ∈ Svg.escAttr s, x ≠ '<' ∧ x ≠ '"' ∧ x ≠ '\n' ∧ x ≠ '\t' ∧ x ≠ '\r' := by
  intro x hx
  simp only [Svg.escAttr, List.mem_flatMap] at hx
  obtain ⟨c, hc, h⟩ := hx
  obtain ⟨h1, h2, h3⟩ := hs c hc
  split at h
  · revert x; decide
  · split at h
    · revert x; decide
    · split at h
      · revert x; decide
      · split at h
        · revert x; decide
        · simp only [List.mem_singleton] at h; subst h
          exact ⟨by assumption, by assumption, h1, h2, h3⟩

theorem unescapeF_entity (e : List Char) (c : Char) (r : List Char)
    (h : (entities.find? fun x => x.1.isPrefixOf (e ++ r)) = some (e, c)) (n : Nat) (x : List Char) (hr : unescapeF n r = some x) :
    unescapeF (n + 1) ('&' :: (e ++ r)) = some (c :: x) := by
  rw [unescapeF, if_pos rfl, h]
  simp only [List.drop_left, hr, Option.map_some]

theorem unescape_esc (esc : List Char → List Char) (h0 : esc [] = []) (hc : ∀ c s, esc (c :: s) = esc [c] ++ esc s) (ok : List Char → Prop)
    (ho : ∀ c s, ok (c :: s) → ok s ∧
      (esc [c] = "&amp;".toList ∧ c = '&' ∨ esc [c] = "&lt;".toList ∧ c = '<' ∨ esc [c] = "&gt;".toList ∧ c = '>' ∨
        esc [c] = "&quot;".toList ∧ c = '"' ∨ esc [c] = [c] ∧ c ≠ '&')) (s : List Char) (hs : ok s) (n : Nat) (hn : (esc s).length ≤ n) :
    unescapeF n (esc s) = some s := by
  induction s generalizing n with
  | nil => rw [h0]; cases n <;> rfl
  | cons c s ih =>
    obtain ⟨h1, h2⟩ := ho c s hs
    rw [hc] at hn ⊢
    rw [List.length_append] at hn
    rcases h2 with ⟨e, rfl⟩ | ⟨e, rfl⟩ | ⟨e, rfl⟩ | ⟨e, rfl⟩ | ⟨e, hne⟩
    · rw [e] at hn ⊢
      obtain ⟨n, rfl⟩ : ∃ m, n = m + 1 := ⟨n - 1, by simp at hn; omega⟩
      exact unescapeF_entity "amp;".toList '&' _ (by simp [entities, List.isPrefixOf]) n _ (ih h1 n (by simp at hn; omega))
    · rw [e] at hn ⊢
      obtain ⟨n, rfl⟩ : ∃ m, n = m + 1 := ⟨n - 1, by simp at hn; omega⟩
      exact unescapeF_entity "lt;".toList '<' _ (by simp [entities, List.isPrefixOf]) n _ (ih h1 n (by simp at hn; omega))
    · rw [e] at hn ⊢
      obtain ⟨n, rfl⟩ : ∃ m, n = m + 1 := ⟨n - 1, by simp at hn; omega⟩
      exact unescapeF_entity "gt;".toList '>' _ (by simp [entities, List.isPrefixOf]) n _ (ih h1 n (by simp at hn; omega))
    · rw [e] at hn ⊢
      obtain ⟨n, rfl⟩ : ∃ m, n = m + 1 := ⟨n - 1, by simp at hn; omega⟩
      exact unescapeF_entity "quot;".toList '"' _ (by simp [entities, List.isPrefixOf]) n _ (ih h1 n (by simp at hn; omega))
    · rw [e] at hn ⊢
      obtain ⟨n, rfl⟩ : ∃ m, n = m + 1 := ⟨n - 1, by simp at hn; omega⟩
      rw [List.singleton_append, unescapeF, if_neg hne, ih h1 n (by simp at hn; omega)]
      rfl

theorem unescape_escText (s : List Char) : unescape (Svg.escText s) = some s := by
  refine unescape_esc Svg.escText rfl escText_cons (fun _ => True) ?_ s trivial _ (Nat.le_refl _)
  intro c s _
  refine ⟨trivial, ?_⟩
  simp only [Svg.escText, List.flatMap_cons, List.flatMap_nil, List.append_nil]
  by_cases h1 : c = '&'
  · subst h1; exact .inl ⟨rfl, rfl⟩
  · by_cases h2 : c = '<'
    · subst h2; exact .inr (.inl ⟨rfl, rfl⟩)
    · by_cases h3 : c = '>'
      · subst h3; exact .inr (.inr (.inl ⟨rfl, rfl⟩))
      · rw [if_neg h1, if_neg h2, if_neg h3]; exact .inr (.inr (.inr (.inr ⟨rfl, h1⟩)))

theorem unescape_escAttr (s : List Char) (hs : OkValue s) : unescape (Svg.escAttr s) = some s := by
  refine unescape_esc Svg.escAttr rfl escAttr_cons OkValue ?_ s hs _ (Nat.le_refl _)
  intro c s hs
  refine ⟨fun x hx => hs x (by simp [hx]), ?_⟩
  obtain ⟨g1, g2, g3⟩ := hs c (by simp)
  simp only [Svg.escAttr, List.flatMap_cons, List.flatMap_nil, List.append_nil]
  by_cases h1 : c = '&'
  · subst h1; exact .inl ⟨rfl, rfl⟩
  · by_cases h2 : c = '<'
    · subst h2; exact .inr (.inl ⟨rfl, rfl⟩)
    · by_cases h3 : c = '>'
      · subst h3; exact .inr (.inr (.inl ⟨rfl, rfl⟩))
      · by_cases h4 : c = '"'
        · subst h4; exact .inr (.inr (.inr (.inl ⟨rfl, rfl⟩)))
        · rw [if_neg h1, if_neg h2, if_neg h3, if_neg h4, if_neg g3, if_neg g1, if_neg g2]
          exact .inr (.inr (.inr (.inr ⟨rfl, h1⟩)))

theorem value_esc {v : List Char} (h : OkValue v) (s : List Char) : value ('"' :: (Svg.escAttr v ++ '"' :: s)) = some (v, s) := by
  have hk := escAttr_ok v h
  have h1 : ∀ x ∈ Svg.escAttr v, decide (x ≠ '"') = true := fun x hx => decide_eq_true (hk x hx).2.1
  simp only [value, true_or, if_true]
  rw [dropWhile_stop _ _ _ h1 (by decide), takeWhile_stop _ _ _ h1 (by decide)]
  have h2 : '<' ∉ Svg.escAttr v := fun e => (hk _ e).1 rfl
  have h3 : (Svg.escAttr v).map (fun c => if isSpace c then ' ' else c) = Svg.escAttr v := by
    rw [List.map_eq_iff]
    intro i
    cases hi : (Svg.escAttr v)[i]? with
    | none => rfl
    | some c =>
      obtain ⟨_, _, g1, g2, g3⟩ := hk c (List.mem_of_getElem? hi)
      simp only [Option.map_some, Option.some.injEq]
      split
      · next hsp =>
        simp only [isSpace, Bool.or_eq_true, beq_iff_eq] at hsp
        rcases hsp with ((h' | h') | h') | h'
        · exact h'
        · exact absurd h' g2
        · exact absurd h' g1
        · exact absurd h' g3
      · rfl
  simp only
  rw [if_neg h2, h3, unescape_escAttr v h]
  rfl

theorem attrs_esc (tl s : List Char) (b : Bool) (htl : ∀ n, attrs (n + 1) tl = some ([], b, s)) (as : List (String × String)) (h : ∀ a ∈ as, XmlName a.1 ∧ OkValue a.2.toList) (hd : (as.map (·.1)).Nodup)
    (n : Nat) (hn : as.length + 1 ≤ n) : attrs n (Et.attrsText as ++ tl) = some (as, b, s) := by
  induction as generalizing n with
  | nil =>
    obtain ⟨n, rfl⟩ : ∃ m, n = m + 1 := ⟨n - 1, by simp at hn; omega⟩
    exact htl n
  | cons a as ih =>
    obtain ⟨n, rfl⟩ : ∃ m, n = m + 1 := ⟨n - 1, by simp at hn; omega⟩
    obtain ⟨hk, hv⟩ := h a (by simp)
    have e : Et.attrsText (a :: as) ++ tl =
        ' ' :: (a.1.toList ++ '=' :: ('"' :: (Svg.escAttr a.2.toList ++ '"' :: (Et.attrsText as ++ tl)))) := by
      simp [Et.attrsText, attrText]
    rw [e]
    obtain ⟨⟨d, hd1, hs⟩, ha⟩ := hk
    cases hn1 : a.1.toList with
    | nil => rw [hn1] at hd1; simp at hd1
    | cons c t =>
      have hc : d = c := by rw [hn1] at hd1; simpa using hd1.symm
      subst hc
      have hns := nameStart_of hs
      have hsp : isSpace d = false := by
        cases h' : isSpace d
        · rfl
        · simp only [isSpace, Bool.or_eq_true, beq_iff_eq] at h'
          rcases h' with ((h' | h') | h') | h' <;> subst h' <;> exact absurd hns (by decide)
      have hgt : d ≠ '>' := by rintro rfl; exact absurd hns (by decide)
      have hsl : d ≠ '/' := by rintro rfl; exact absurd hns (by decide)
      have e2 : (' ' :: ((d :: t) ++ '=' :: ('"' :: (Svg.escAttr a.2.toList ++ '"' :: (Et.attrsText as ++ tl))))).dropWhile isSpace =
          (d :: t) ++ '=' :: ('"' :: (Svg.escAttr a.2.toList ++ '"' :: (Et.attrsText as ++ tl))) := by
        rw [List.dropWhile_cons, if_pos (by decide)]
        simp [hsp]
      rw [attrs, e2]
      rw [List.cons_append]
      split
      · rename_i heq; simp only [List.cons.injEq] at heq; exact absurd heq.1 hgt
      · rename_i heq; simp only [List.cons.injEq] at heq; exact absurd heq.1 hsl
      · rw [if_neg (by simp [isSpace]), ← List.cons_append, ← hn1, name_plain ⟨⟨d, hd1, hs⟩, ha⟩ '=' (by decide)]
        dsimp only
        rw [show (List.dropWhile isSpace ('=' :: '"' :: (Svg.escAttr a.2.toList ++ '"' :: (Et.attrsText as ++ tl)))) =
          ('=' :: '"' :: (Svg.escAttr a.2.toList ++ '"' :: (Et.attrsText as ++ tl))) from by
            rw [List.dropWhile_cons, if_neg (by decide)]]
        simp only []
        rw [show (List.dropWhile isSpace ('"' :: (Svg.escAttr a.2.toList ++ '"' :: (Et.attrsText as ++ tl)))) =
          ('"' :: (Svg.escAttr a.2.toList ++ '"' :: (Et.attrsText as ++ tl))) from by
            rw [List.dropWhile_cons, if_neg (by decide)], value_esc hv]
        dsimp only
        rw [ih (fun b hb => h b (by simp [hb])) (List.nodup_cons.mp hd).2 n (by simpa using hn)]
        dsimp only
        have : as.any (fun b => b.1 == String.ofList a.1.toList) = false := by
          rw [List.any_eq_false]
          intro b hb hbe
          simp only [String.ofList_toList, beq_iff_eq] at hbe
          exact (List.nodup_cons.mp hd).1 (List.mem_map.mpr ⟨b, hb, hbe⟩)
        rw [this]
        simp

theorem etAttrs_length (as : List (String × String)) : as.length ≤ (Et.attrsText as).length := by
  induction as with
  | nil => simp [Et.attrsText]
  | cons a as ih => 
    simp only [Et.attrsText, List.flatMap_cons, List.length_append, List.length_cons, attrText] at ih ⊢; omega

theorem attrs_gt (s : List Char) (n : Nat) : attrs (n + 1) ('>' :: s) = some ([], false, s) := by simp [attrs, isSpace]

theorem attrs_empty (s : List Char) (n : Nat) : attrs (n + 1) (' ' :: '/' :: '>' :: s) = some ([], true, s) := by
  rw [attrs]
  rfl

theorem etAfterName (as : List (String × String)) (d : Char) (s : List Char) (hd : nameChar d = false) :
    ∃ c r, Et.attrsText as ++ d :: s = c :: r ∧ nameChar c = false := by
  cases as with
  | nil => exact ⟨_, s, rfl, hd⟩
  | cons a as => exact ⟨' ', _, by simp [Et.attrsText, attrText]; rfl, by decide⟩

theorem nodes_et (l : Et) (h : l.Ok) (w k : List Char) (hk : k = [] ∨ ∃ r, k = '<' :: '/' :: r) (n : Nat)
    (hn : l.steps ≤ n) : nodes n (Svg.escText w ++ (l.render ++ k)) = some (w, l.tree, k) := by
  have hlt : ∀ w, ∀ x ∈ Svg.escText w, decide (x ≠ '<') = true := fun w x hx => decide_eq_true (escText_lt w x hx)
  induction l generalizing w k n with
  | nil =>
    obtain ⟨n, rfl⟩ : ∃ m, n = m + 1 := ⟨n - 1, by simp [Et.steps] at hn; omega⟩
    simp only [Et.render, List.nil_append, Et.tree]
    rcases hk with rfl | ⟨r, rfl⟩
    · have e1 : (Svg.escText w ++ []).takeWhile (fun c => decide (c ≠ '<')) = Svg.escText w := by
        rw [List.append_nil]; have := List.takeWhile_append_of_pos (l₂ := []) (hlt w); simpa using this
      have e2 : (Svg.escText w ++ []).dropWhile (fun c => decide (c ≠ '<')) = [] := by
        rw [List.append_nil]; have := List.dropWhile_append_of_pos (l₂ := []) (hlt w); simpa using this
      rw [nodes, e1, e2, unescape_escText]
    · rw [nodes, takeWhile_stop _ _ _ (hlt w) (by decide), dropWhile_stop _ _ _ (hlt w) (by decide), unescape_escText]
      rfl
  | elem m as x ch r ih1 ih2 =>
    obtain ⟨n, rfl⟩ : ∃ m, n = m + 1 := ⟨n - 1, by simp [Et.steps] at hn; omega⟩
    obtain ⟨h1, h2, h3, h5, h6⟩ := h
    simp only [Et.steps] at hn
    have e : (Et.elem m as x ch r).render ++ k =
        '<' :: (m.toList ++ (Et.attrsText as ++ (closeText m (Svg.escText x ++ ch.render) ++ (r.render ++ k)))) := by
      simp [Et.render]
    rw [e, nodes, takeWhile_stop _ _ _ (hlt w) (by decide), dropWhile_stop _ _ _ (hlt w) (by decide), unescape_escText]
    dsimp only
    obtain ⟨d, hd, hs⟩ := h1.1
    have hns := nameStart_of hs
    obtain ⟨t, ht⟩ : ∃ t, m.toList = d :: t := by
      cases hm : m.toList with
      | nil => rw [hm] at hd; simp at hd
      | cons c t => rw [hm] at hd; simp at hd; exact ⟨t, by rw [hd]⟩
    have hsl : ('/' == d) = false := by
      rw [beq_eq_false_iff_ne]; rintro rfl; exact absurd hns (by decide)
    have hex : ('!' == d) = false := by
      rw [beq_eq_false_iff_ne]; rintro rfl; exact absurd hns (by decide)
    rw [if_neg (by rw [ht]; simp only [List.cons_append, List.isPrefixOf, hsl, Bool.false_and]; simp),
      if_neg (by
        rw [ht]; show ¬ ((['!', '-', '-'] : List Char).isPrefixOf _ = true)
        simp only [List.cons_append, List.isPrefixOf, hex, Bool.false_and]; simp)]
    have hh := ih2 h6 [] k hk n (by omega)
    rw [show Svg.escText [] = [] from rfl, List.nil_append] at hh
    by_cases hemp : Svg.escText x ++ ch.render = []
    · have hx : x = [] := by
        have := unescape_escText x
        rw [(List.append_eq_nil_iff.1 hemp).1] at this
        exact (Option.some.inj this).symm
      have hch : ch = .nil := Et.render_nil (List.append_eq_nil_iff.1 hemp).2
      have hcl : closeText m (Svg.escText x ++ ch.render) ++ (r.render ++ k) = ' ' :: '/' :: '>' :: (r.render ++ k) := by
        unfold closeText
        rw [if_pos hemp]
        rfl
      rw [hcl]
      obtain ⟨c, q, hq, hc⟩ := etAfterName as ' ' ('/' :: '>' :: (r.render ++ k)) (by decide)
      have hnm := name_plain h1 c hc q
      rw [← hq] at hnm
      rw [hnm]
      dsimp only
      rw [attrs_esc _ _ true (attrs_empty _) as h2 h3 _ (by
        simp only [List.length_append, List.length_cons]
        have := etAttrs_length as
        omega)]
      dsimp only
      rw [hh, hx, hch]
      simp [Et.tree]
    · have hcl : closeText m (Svg.escText x ++ ch.render) ++ (r.render ++ k) =
          '>' :: (Svg.escText x ++ (ch.render ++ ('<' :: '/' :: (m.toList ++ '>' :: (r.render ++ k))))) := by
        unfold closeText
        rw [if_neg hemp]
        simp
      rw [hcl]
      obtain ⟨c, q, hq, hc⟩ := etAfterName as '>' (Svg.escText x ++ (ch.render ++ ('<' :: '/' :: (m.toList ++ '>' :: (r.render ++ k))))) (by decide)
      have hnm := name_plain h1 c hc q
      rw [← hq] at hnm
      rw [hnm]
      dsimp only
      rw [attrs_esc _ _ false (attrs_gt _) as h2 h3 _ (by
        simp only [List.length_append, List.length_cons]
        have := etAttrs_length as
        omega)]
      dsimp only
      rw [ih1 h5 x ('<' :: '/' :: (m.toList ++ '>' :: (r.render ++ k))) (.inr ⟨_, rfl⟩) n (by omega)]
      dsimp only
      rw [if_pos (by simp)]
      have he : endTag m.toList (m.toList ++ '>' :: (r.render ++ k)) = some (r.render ++ k) := by
        rw [endTag, name_plain h1 '>' (by decide)]
        dsimp only
        rw [if_pos rfl, List.dropWhile_cons, if_neg (by decide)]
        dsimp only
        rw [if_pos rfl]
      rw [show ('<' :: '/' :: (m.toList ++ '>' :: (r.render ++ k))).drop 2 = m.toList ++ '>' :: (r.render ++ k) from rfl, he]
      dsimp only
      rw [hh]
      simp [Et.tree]

end XmlParse

/-- A document without declaration. -/
theorem parseXml_et (n : String) (as : List (String × String)) (x : List Char) (ch : Et) (h : (Et.elem n as x ch .nil).Ok) :
    parseXml (Et.elem n as x ch .nil).render = some ⟨n, as, x, ch.tree⟩ := by
  have h1 := h.1
  have := XmlParse.nodes_et _ h [] [] (.inl rfl) ((Et.elem n as x ch .nil).render.length + 1) (Et.steps_le _)
  rw [List.append_nil, show Svg.escText [] = [] from rfl, List.nil_append] at this
  unfold parseXml
  have hp : "<?xml".toList.isPrefixOf (Et.elem n as x ch .nil).render = false := by
    obtain ⟨d, hd, hs⟩ := h1.1
    have hns := XmlParse.nameStart_of hs
    obtain ⟨t, ht⟩ : ∃ t, n.toList = d :: t := by
      cases hm : n.toList with
      | nil => rw [hm] at hd; simp at hd
      | cons c t => rw [hm] at hd; simp at hd; exact ⟨t, by rw [hd]⟩
    have hq : ('?' == d) = false := by
      rw [beq_eq_false_iff_ne]; rintro rfl; exact absurd hns (by decide)
    simp only [Et.render, ht]
    show (['<', '?', 'x', 'm', 'l'] : List Char).isPrefixOf _ = false
    simp only [List.cons_append, List.isPrefixOf, hq, Bool.false_and, Bool.and_false]
  rw [hp]
  simp only [Bool.false_eq_true, if_false]
  rw [this]
  simp [Et.tree]

end Meshio
