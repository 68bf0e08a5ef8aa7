/-
C64: XML documents written by meshio.
-/
import Verif.Proofs.Cxml
namespace Meshio.Props
open Meshio Meshio.Cxml Meshio.Spec

/-- The property one would like: every document with proper names is read back with the same elements, attributes and texts. -/
def C64_document_statement : Prop :=
  ∀ (n : String) (as : List (String × String)) (x : Option (List Char)) (ch : Out), WellNamed (.elem n as x ch .nil) →
    parseXml (document (.elem n as x ch .nil)) = some ⟨n, as, '\n' :: (ownLine x ++ commentLines ch), saidTree ch⟩

/-- A `DataArray` with a quote in its name. -/
def cxmlQuote : List (String × String) := [("type", "Float64"), ("Name", "a\"b")]

/-- It is false: nothing is escaped, so that an array named `a"b` makes the file unreadable. -/
theorem C64_document_false : ¬ C64_document_statement := by
  intro h
  have h1 := h "DataArray" cxmlQuote none .nil ⟨⟨⟨'D', by decide, by decide⟩, by decide +kernel⟩, by
      intro a ha
      simp only [cxmlQuote, List.mem_cons, List.not_mem_nil, or_false] at ha
      rcases ha with rfl | rfl
      · exact ⟨⟨'t', by decide, by decide⟩, by decide +kernel⟩
      · exact ⟨⟨'N', by decide, by decide⟩, by decide +kernel⟩, by decide, trivial, trivial⟩
  have h2 : parseXml (document (.elem "DataArray" cxmlQuote none .nil .nil)) = none := by decide +kernel
  rw [h2] at h1
  exact absurd h1 (by simp)

/-- Every document whose names, values, texts and comments need no escaping is read back, whatever the tree of elements.  Missing:
documents in which something would have to be escaped (`C64_document_false`, `C64_lt_unreadable`, `C64_amp_changes`). -/
theorem C64_document_partial (n : String) (as : List (String × String)) (x : Option (List Char)) (ch : Out)
    (h : PlainDoc (.elem n as x ch .nil)) :
    parseXml (document (.elem n as x ch .nil)) = some ⟨n, as, '\n' :: (ownLine x ++ commentLines ch), saidTree ch⟩ :=
  parseXml_document n as x ch h

/-- A document in which elements are nested and follow each other, with a comment and a text. -/
def cxmlSample : Out :=
  .comment "made by hand".toList (.elem "Piece" [("NumberOfPoints", "2")] none
    (.elem "DataArray" [("Name", "a b")] (some "1 2".toList) .nil (.elem "DataArray" [] none .nil .nil)) .nil)

example : parseXml (document (.elem "VTKFile" [("version", "0.1")] none cxmlSample .nil)) =
    some ⟨"VTKFile", [("version", "0.1")], "\n\n".toList,
      .cons "Piece" [("NumberOfPoints", "2")] "\n".toList
        (.cons "DataArray" [("Name", "a b")] "\n1 2\n".toList .nil (.cons "DataArray" [] "\n".toList .nil .nil)) .nil⟩ := by decide +kernel

instance (n : String) : Decidable (XmlName n) := by unfold XmlName; infer_instance
instance (n : String) : Decidable (PlainValue n) := by unfold PlainValue; infer_instance

example : PlainDoc (.elem "VTKFile" [("version", "0.1")] none cxmlSample .nil) := by
  refine ⟨by decide +kernel, by decide +kernel, by decide, by simp, ⟨?_, ?_⟩, trivial⟩
  · intro ⟨a, b, e⟩
    have h1 : ∀ c ∈ "made by hand".toList, c ≠ '-' := by decide +kernel
    have h2 := congrArg (List.count '-') e
    simp only [List.count_append] at h2
    rw [List.count_eq_zero.mpr (fun h => h1 _ h rfl)] at h2
    have h3 : List.count '-' ['-', '-'] = 2 := by decide
    have h4 : List.count '-' ['-'] = 1 := by decide
    omega
  · exact ⟨by decide +kernel, by decide +kernel, by decide, by simp,
      ⟨by decide +kernel, by decide +kernel, by decide, by intro t ht; simp at ht; subst ht; unfold PlainText; decide +kernel, trivial,
        by decide +kernel, by decide +kernel, by decide, by simp, trivial, trivial⟩, trivial⟩

theorem cxml_value_lt (v s : List Char) (h1 : '"' ∉ v) (h2 : '<' ∈ v) : XmlParse.value ('"' :: (v ++ '"' :: s)) = none := by
  have hv : ∀ x ∈ v, decide (x ≠ '"') = true := fun x hx => decide_eq_true (fun e => h1 (e ▸ hx))
  simp only [XmlParse.value, true_or, if_true]
  rw [XmlParse.dropWhile_stop _ _ _ hv (by decide), XmlParse.takeWhile_stop _ _ _ hv (by decide)]
  simp only [if_pos h2]

theorem cxml_attrs_lt (k v : String) (hk : XmlName k) (h1 : '"' ∉ v.toList) (h2 : '<' ∈ v.toList) (s : List Char) (n : Nat) :
    XmlParse.attrs n (' ' :: (Cxml.attr (k, v) ++ s)) = none := by
  cases n with
  | zero => rfl
  | succ n =>
    have e : ' ' :: (Cxml.attr (k, v) ++ s) = ' ' :: (k.toList ++ '=' :: ('"' :: (v.toList ++ '"' :: s))) := by simp [Cxml.attr]
    rw [e]
    obtain ⟨⟨d, hd1, hs⟩, ha⟩ := hk
    cases hn1 : k.toList with
    | nil => rw [hn1] at hd1; simp at hd1
    | cons c t =>
      have hc : d = c := by rw [hn1] at hd1; simpa using hd1.symm
      subst hc
      have hns := XmlParse.nameStart_of hs
      have hsp : XmlParse.isSpace d = false := by
        cases h' : XmlParse.isSpace d
        · rfl
        · simp only [XmlParse.isSpace, Bool.or_eq_true, beq_iff_eq] at h'
          rcases h' with ((h' | h') | h') | h' <;> subst h' <;> exact absurd hns (by decide)
      have hgt : d ≠ '>' := by rintro rfl; exact absurd hns (by decide)
      have hsl : d ≠ '/' := by rintro rfl; exact absurd hns (by decide)
      have e2 : (' ' :: ((d :: t) ++ '=' :: ('"' :: (v.toList ++ '"' :: s)))).dropWhile XmlParse.isSpace =
          (d :: t) ++ '=' :: ('"' :: (v.toList ++ '"' :: s)) := by
        rw [List.dropWhile_cons, if_pos (by decide)]
        simp [hsp]
      rw [XmlParse.attrs, e2]
      rw [List.cons_append]
      split
      · rename_i heq; simp only [List.cons.injEq] at heq; exact absurd heq.1 hgt
      · rename_i heq; simp only [List.cons.injEq] at heq; exact absurd heq.1 hsl
      · rw [if_neg (by simp [XmlParse.isSpace]), ← List.cons_append, ← hn1, XmlParse.name_plain ⟨⟨d, hd1, hs⟩, ha⟩ '=' (by decide)]
        dsimp only
        rw [show (List.dropWhile XmlParse.isSpace ('=' :: '"' :: (v.toList ++ '"' :: s))) = ('=' :: '"' :: (v.toList ++ '"' :: s)) from by
            rw [List.dropWhile_cons, if_neg (by decide)]]
        simp only []
        rw [show (List.dropWhile XmlParse.isSpace ('"' :: (v.toList ++ '"' :: s))) = ('"' :: (v.toList ++ '"' :: s)) from by
            rw [List.dropWhile_cons, if_neg (by decide)], cxml_value_lt _ _ h1 h2]

theorem cxml_nodes_none (s : List Char) (h : XmlParse.nodes (('\n' :: s).length + 1) ('\n' :: s) = none) :
    parseXml ("<?xml version=\"1.0\"?>\n".toList ++ s) = none := by
  rw [parseXml_decl, h]

/-- A `<` in the first value makes the whole file unreadable, whatever else is in it. -/
theorem C64_lt_unreadable (n k v : String) (as : List (String × String)) (x : Option (List Char)) (ch : Out) (hn : XmlName n) (hk : XmlName k)
    (h1 : '"' ∉ v.toList) (h2 : '<' ∈ v.toList) : parseXml (document (.elem n ((k, v) :: as) x ch .nil)) = none := by
  unfold document
  apply cxml_nodes_none
  have e : '\n' :: (Out.elem n ((k, v) :: as) x ch .nil).write = ['\n'] ++ '<' :: (n.toList ++ ' ' :: (Cxml.attr (k, v) ++
      ((as.flatMap fun a => ' ' :: Cxml.attr a) ++ '>' :: ('\n' :: (textOut x ++ (ch.write ++ ('<' :: '/' :: (n.toList ++ ['>', '\n'])))))))) := by
    simp [Out.write, XmlParse.openTag_eq]
  rw [e]
  generalize ((as.flatMap fun a => ' ' :: Cxml.attr a) ++ '>' :: ('\n' :: (textOut x ++ (ch.write ++ ('<' :: '/' :: (n.toList ++ ['>', '\n'])))))) = s
  have hw : ∀ x ∈ ['\n'], decide (x ≠ '<') = true := by decide
  rw [XmlParse.nodes, XmlParse.takeWhile_stop _ _ _ hw (by decide), XmlParse.dropWhile_stop _ _ _ hw (by decide),
    XmlParse.unescape_plain _ (by decide)]
  dsimp only
  obtain ⟨d, hd, hs⟩ := hn.1
  have hns := XmlParse.nameStart_of hs
  obtain ⟨t, ht⟩ : ∃ t, n.toList = d :: t := by
    cases hm : n.toList with
    | nil => rw [hm] at hd; simp at hd
    | cons c t => rw [hm] at hd; simp at hd; exact ⟨t, by rw [hd]⟩
  have hsl : ('/' == d) = false := by
    rw [beq_eq_false_iff_ne]; rintro rfl; exact absurd hns (by decide)
  have hex : ('!' == d) = false := by
    rw [beq_eq_false_iff_ne]; rintro rfl; exact absurd hns (by decide)
  rw [if_neg (by rw [ht]; simp only [List.cons_append, List.isPrefixOf, hsl, Bool.false_and]; simp),
    if_neg (by
      rw [ht]; show ¬ ((['!', '-', '-'] : List Char).isPrefixOf _ = true)
      simp only [List.cons_append, List.isPrefixOf, hex, Bool.false_and]; simp),
    XmlParse.name_plain hn ' ' (by decide)]
  dsimp only
  rw [cxml_attrs_lt k v hk h1 h2]

example : parseXml (document (.elem "a" [("b", "x<y"), ("c", "1")] none .nil .nil)) = none := by
  exact C64_lt_unreadable "a" "b" "x<y" [("c", "1")] none .nil (by decide +kernel) (by decide +kernel) (by decide +kernel) (by decide +kernel)

/-- An entity in a value is replaced when the file is read: the name `a&lt;b` of an array becomes `a<b`. -/
theorem C64_amp_changes : parseXml (document (.elem "DataArray" [("Name", "a&lt;b")] none .nil .nil)) =
    some ⟨"DataArray", [("Name", "a<b")], ['\n'], .nil⟩ := by decide +kernel

end Meshio.Props
