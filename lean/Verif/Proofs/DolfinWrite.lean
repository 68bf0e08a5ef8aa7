/-
Helper lemmas about DOLFIN XML files: writing.
-/
import Verif.Proofs.Dolfin
import Verif.Proofs.XmlLay
namespace Meshio
namespace Dolfin
open Meshio.Spec

variable {F α : Type}

/-- Empty elements one after the other. -/
def emps (pre : List Char) (name : String) (l : List (List (String × String))) : Lay := l.foldr (fun as r => .empty pre name as r) .nil

theorem emps_render (pre : List Char) (name : String) (l : List (List (String × String))) :
    (emps pre name l).render = l.flatMap fun as => pre ++ '<' :: (name.toList ++ (Lay.attrsText as ++ [' ', '/', '>'])) := by
  induction l with
  | nil => rfl
  | cons as l ih => simp only [emps, List.foldr_cons, Lay.render] at ih ⊢; rw [ih]; simp

theorem emps_elems (pre : List Char) (name : String) (l : List (List (String × String))) :
    (emps pre name l).tree.elems = l.map fun as => ⟨name, as, [], .nil⟩ := by
  induction l with
  | nil => rfl
  | cons as l ih => simp only [emps, List.foldr_cons, Lay.tree, Xml.elems] at ih ⊢; rw [ih]; rfl

theorem emps_plain (pre : List Char) (name : String) (l : List (List (String × String))) (hp : PlainText pre) (hn : XmlName name)
    (h : ∀ as ∈ l, Lay.PlainAttrs as) : (emps pre name l).Plain := by
  induction l with
  | nil => trivial
  | cons as l ih =>
    exact ⟨hp, hn, h as (by simp), ih (fun x hx => h x (by simp [hx]))⟩

/-- Lines that end with a line end are the same as lines that begin with one. -/
theorem shift_nl (l : List (List Char)) (s : List Char) : '\n' :: ((l.map (· ++ ['\n'])).flatten ++ s) = (l.flatMap ('\n' :: ·)) ++ '\n' :: s := by
  induction l with
  | nil => rfl
  | cons a l ih =>
    have e1 : ((a :: l).map (· ++ ['\n'])).flatten ++ s = a ++ ('\n' :: ((l.map (· ++ ['\n'])).flatten ++ s)) := by simp
    have e2 : ((a :: l).flatMap ('\n' :: ·)) ++ '\n' :: s = '\n' :: (a ++ ((l.flatMap ('\n' :: ·)) ++ '\n' :: s)) := by simp
    rw [e1, e2, ih]

/-- Attributes of one row. -/
def rowAttrs (names : List String) (fmt : α → List Char) (i : Nat) (r : List α) : List (String × String) :=
  ("index", String.ofList (fmtNat i)) :: (names.zip r).map fun a => (a.1, String.ofList (fmt a.2))

/-- An indented empty element. -/
def emptyLine (name : String) (as : List (String × String)) : List Char :=
  "      <".toList ++ (name.toList ++ (Lay.attrsText as ++ [' ', '/', '>']))

theorem vertexLine_eq (fio : FloatIO F) (dim : Nat) (hd : dim = 2 ∨ dim = 3) (i : Nat) (p : List F) (hp : p.length = dim) :
    vertexLine fio i p = emptyLine "vertex" (rowAttrs (dolfinCoords dim) fio.fmt i p) ++ ['\n'] := by
  rcases hd with rfl | rfl
  · match p, hp with
    | [a, b], _ =>
      unfold vertexLine emptyLine rowAttrs
      generalize fmtNat i = n
      simp only [dolfinCoords, if_true, List.zip_cons_cons, List.zip_nil_left, List.map_cons, List.map_nil]
      have h1 : "xyz".toList.zip [a, b] = [('x', a), ('y', b)] := rfl
      rw [h1]
      simp only [List.map_cons, List.map_nil]
      generalize fio.fmt a = x
      generalize fio.fmt b = y
      simp [attr, Cxml.attr, Lay.attrsText, joinWith]
  · match p, hp with
    | [a, b, c], _ =>
      unfold vertexLine emptyLine rowAttrs
      generalize fmtNat i = n
      have h1 : "xyz".toList.zip [a, b, c] = [('x', a), ('y', b), ('z', c)] := rfl
      have h2 : (dolfinCoords 3).zip [a, b, c] = [("x", a), ("y", b), ("z", c)] := rfl
      rw [h1, h2]
      simp only [List.map_cons, List.map_nil]
      generalize fio.fmt a = x
      generalize fio.fmt b = y
      generalize fio.fmt c = z
      simp [attr, Cxml.attr, Lay.attrsText, joinWith]

theorem cellLine_eq (kind : String × String × List String) (hk : kind ∈ dolfinKinds) (i : Nat) (c : List Int) (hc : c.length = kind.2.2.length) :
    cellLine kind.1.toList i c = emptyLine kind.1 (rowAttrs kind.2.2 fmtInt i c) ++ ['\n'] := by
  have f0 : fmtNat 0 = ['0'] := by decide
  have f1 : fmtNat 1 = ['1'] := by decide
  have f2 : fmtNat 2 = ['2'] := by decide
  have f3 : fmtNat 3 = ['3'] := by decide
  simp only [dolfinKinds, List.mem_cons, List.not_mem_nil, or_false] at hk
  rcases hk with rfl | rfl
  · match c, hc with
    | [x, y, z], _ =>
      unfold cellLine emptyLine rowAttrs
      generalize fmtNat i = n
      simp only [List.mapIdx_cons, List.mapIdx_nil, List.zip_cons_cons, List.zip_nil_left, List.map_cons, List.map_nil, f0, f1, f2, Nat.zero_add, Nat.reduceAdd]
      generalize fmtInt x = x
      generalize fmtInt y = y
      generalize fmtInt z = z
      simp [attr, Cxml.attr, Lay.attrsText, joinWith]
  · match c, hc with
    | [x, y, z, w], _ =>
      unfold cellLine emptyLine rowAttrs
      generalize fmtNat i = n
      simp only [List.mapIdx_cons, List.mapIdx_nil, List.zip_cons_cons, List.zip_nil_left, List.map_cons, List.map_nil, f0, f1, f2, f3, Nat.zero_add, Nat.reduceAdd]
      generalize fmtInt x = x
      generalize fmtInt y = y
      generalize fmtInt z = z
      generalize fmtInt w = w
      simp [attr, Cxml.attr, Lay.attrsText, joinWith]

theorem typeName_kind (kind : String × String × List String) (hk : kind ∈ dolfinKinds) : typeName kind.2.1 = kind.1.toList :=
  (by decide +kernel : ∀ k ∈ dolfinKinds, typeName k.2.1 = k.1.toList) kind hk

/-- The attribute of the root element. -/
def nsmap : List (String × String) := [("nsmap", "{'dolfin': 'https://fenicsproject.org/'}")]

/-- The rows as elements. -/
def rowEmps (tag : String) (names : List String) (fmt : α → List Char) (rows : List (List α)) : Lay :=
  emps "\n      ".toList tag (rows.mapIdx fun i r => rowAttrs names fmt i r)

/-- A list of rows. -/
def listLay (listTag tag : String) (names : List String) (fmt : α → List Char) (rows : List (List α)) (rest : Lay) : Lay :=
  .elem "\n    ".toList listTag [("size", String.ofList (fmtNat rows.length))] (rowEmps tag names fmt rows) "\n    ".toList rest

/-- The mesh as a layout. -/
def meshLay (fio : FloatIO F) (kind : String × String × List String) (m : In F) : Lay :=
  .elem "\n  ".toList "mesh" [("celltype", kind.1), ("dim", String.ofList (fmtNat m.dim))]
    (listLay "vertices" "vertex" (dolfinCoords m.dim) fio.fmt m.points
      (listLay "cells" kind.1 kind.2.2 fmtInt (dolfinCells kind.2.1 m) .nil)) "\n  ".toList .nil

theorem rowEmps_render (tag : String) (names : List String) (fmt : α → List Char) (rows : List (List α)) (line : Nat → List α → List Char)
    (h : ∀ (i : Nat) (r : List α), rows[i]? = some r → line i r = emptyLine tag (rowAttrs names fmt i r) ++ ['\n']) (s : List Char) :
    '\n' :: ((rows.mapIdx line).flatten ++ s) = (rowEmps tag names fmt rows).render ++ '\n' :: s := by
  have e : rows.mapIdx line = (rows.mapIdx fun i r => emptyLine tag (rowAttrs names fmt i r)).map (· ++ ['\n']) := by
    apply List.ext_getElem?
    intro i
    simp only [List.getElem?_map, List.getElem?_mapIdx]
    cases hi : rows[i]? with
    | none => rfl
    | some r => simp [h i r hi]
  have : (rows.mapIdx fun i r => emptyLine tag (rowAttrs names fmt i r)) =
      (rows.mapIdx fun i r => rowAttrs names fmt i r).map (emptyLine tag) := by
    apply List.ext_getElem?
    intro i
    simp only [List.getElem?_map, List.getElem?_mapIdx]
    cases rows[i]? <;> rfl
  have key : (rows.mapIdx fun i r => emptyLine tag (rowAttrs names fmt i r)).flatMap ('\n' :: ·) = (rowEmps tag names fmt rows).render := by
    unfold rowEmps
    rw [emps_render, this, List.flatMap_map]
    have : (fun as => '\n' :: emptyLine tag as) =
        fun as => "\n      ".toList ++ '<' :: (tag.toList ++ (Lay.attrsText as ++ [' ', '/', '>'])) := by
      funext as
      unfold emptyLine
      generalize Lay.attrsText as = x
      simp
    rw [this]
  rw [e, shift_nl, key]

theorem listLay_render (listTag tag : String) (names : List String) (fmt : α → List Char) (rows : List (List α)) (rest : Lay)
    (line : Nat → List α → List Char)
    (h : ∀ (i : Nat) (r : List α), rows[i]? = some r → line i r = emptyLine tag (rowAttrs names fmt i r) ++ ['\n']) (s : List Char) :
    (listLay listTag tag names fmt rows rest).render ++ s =
      '\n' :: ("    <".toList ++ (listTag.toList ++ (" size=\"".toList ++ (fmtNat rows.length ++ ("\">".toList ++
        ('\n' :: ((rows.mapIdx line).flatten ++ ("    </".toList ++ (listTag.toList ++ ('>' :: (rest.render ++ s))))))))))) := by
  rw [rowEmps_render tag names fmt rows line h]
  unfold listLay
  generalize hx : (rowEmps tag names fmt rows) = x
  generalize fmtNat rows.length = n
  simp [Lay.render, Lay.attrsText, Cxml.attr]

set_option maxRecDepth 8000 in
theorem meshText_eq (fio : FloatIO F) (kind : String × String × List String) (m : In F) (h : DolfinMesh m kind) :
    meshText fio kind.2.1 m = (Lay.elem [] "dolfin" nsmap (meshLay fio kind m) ['\n'] .nil).render := by
  unfold meshText
  simp only [typeName_kind kind h.okKind]
  rw [show (m.blocks.filter fun b => decide (b.1 = kind.2.1)).flatMap (·.2) = dolfinCells kind.2.1 m from rfl]
  have hv : ∀ (i : Nat) (r : List F), m.points[i]? = some r →
      vertexLine fio i r = emptyLine "vertex" (rowAttrs (dolfinCoords m.dim) fio.fmt i r) ++ ['\n'] :=
    fun i r hr => vertexLine_eq fio m.dim h.okDim i r (h.points r (List.mem_of_getElem? hr))
  have hc : ∀ (i : Nat) (r : List Int), (dolfinCells kind.2.1 m)[i]? = some r →
      cellLine kind.1.toList i r = emptyLine kind.1 (rowAttrs kind.2.2 fmtInt i r) ++ ['\n'] :=
    fun i r hr => cellLine_eq kind h.okKind i r (h.cells r (List.mem_of_getElem? hr))
  have e : (Lay.elem [] "dolfin" nsmap (meshLay fio kind m) ['\n'] .nil).render =
      "<dolfin nsmap=\"{'dolfin': 'https://fenicsproject.org/'}\">\n  <mesh celltype=\"".toList ++ (kind.1.toList ++ ("\" dim=\"".toList ++ (fmtNat m.dim ++ ("\">".toList ++
        ((listLay "vertices" "vertex" (dolfinCoords m.dim) fio.fmt m.points (listLay "cells" kind.1 kind.2.2 fmtInt (dolfinCells kind.2.1 m) .nil)).render ++
          "\n  </mesh>\n</dolfin>".toList))))) := by
    unfold meshLay
    generalize (listLay "vertices" "vertex" (dolfinCoords m.dim) fio.fmt m.points (listLay "cells" kind.1 kind.2.2 fmtInt (dolfinCells kind.2.1 m) .nil)) = x
    generalize fmtNat m.dim = d
    simp [Lay.render, Lay.attrsText, Cxml.attr, nsmap]
  rw [e, listLay_render _ _ _ _ _ _ _ hv, listLay_render _ _ _ _ _ _ _ hc]
  generalize (m.points.mapIdx fun i p => vertexLine fio i p) = vs
  generalize (List.mapIdx (fun i c => cellLine kind.1.toList i c) (dolfinCells kind.2.1 m)) = cs
  generalize fmtNat m.dim = d
  generalize fmtNat m.points.length = np
  generalize fmtNat (dolfinCells kind.2.1 m).length = nc
  simp [Lay.render]

theorem plain_tok {s : List Char} (ht : IsTok s) (h : ∀ c ∈ s, c ≠ '"' ∧ c ≠ '<' ∧ c ≠ '&') : PlainValue (String.ofList s) := by
  intro c hc
  rw [String.toList_ofList] at hc
  have hw := ht.2 c hc
  have h' := h c hc
  refine ⟨h'.1, h'.2.1, h'.2.2, ?_, ?_, ?_⟩ <;> rintro rfl <;> exact absurd hw (by decide)

theorem plain_digit {c : Char} (h : c.isDigit = true ∨ c = '-') : c ≠ '"' ∧ c ≠ '<' ∧ c ≠ '&' := by
  refine ⟨?_, ?_, ?_⟩ <;> rintro rfl <;> exact absurd h (by decide)

theorem plain_fmtNat (n : Nat) : PlainValue (String.ofList (fmtNat n)) :=
  plain_tok (show IsTok (fmtNat n) from isTok_fmtInt (.ofNat n)) fun _ hc => plain_digit (.inl (fmtNat_isDigit hc))

theorem fmtInt_chars (i : Int) (c : Char) (h : c ∈ fmtInt i) : c.isDigit = true ∨ c = '-' := by
  cases i with
  | ofNat n => exact .inl (fmtNat_isDigit h)
  | negSucc n =>
    simp only [fmtInt, List.mem_cons] at h
    rcases h with h | h
    · exact .inr h
    · exact .inl (fmtNat_isDigit h)

theorem plain_fmtInt (i : Int) : PlainValue (String.ofList (fmtInt i)) :=
  plain_tok (isTok_fmtInt i) fun c hc => plain_digit (fmtInt_chars i c hc)

instance (n : String) : Decidable (XmlName n) := by unfold XmlName; infer_instance
instance (n : String) : Decidable (PlainValue n) := by unfold PlainValue; infer_instance
instance (n : List Char) : Decidable (PlainText n) := by unfold PlainText; infer_instance

theorem zip_fst_sublist (names : List String) (r : List α) : ((names.zip r).map (·.1)).Sublist names := by
  induction names generalizing r with
  | nil => simp
  | cons n names ih =>
    cases r with
    | nil => simp
    | cons x r => simpa using ih r

theorem rowAttrs_plain (names : List String) (hn : ∀ n ∈ names, XmlName n) (hd : ("index" :: names).Nodup) (fmt : α → List Char)
    (hf : ∀ x, PlainValue (String.ofList (fmt x))) (i : Nat) (r : List α) : Lay.PlainAttrs (rowAttrs names fmt i r) := by
  constructor
  · intro a ha
    simp only [rowAttrs, List.mem_cons, List.mem_map] at ha
    rcases ha with rfl | ⟨p, hp, rfl⟩
    · exact ⟨(by decide +kernel : XmlName "index"), plain_fmtNat i⟩
    · exact ⟨hn _ (List.of_mem_zip (show (p.1, p.2) ∈ names.zip r from hp)).1, hf _⟩
  · have : (rowAttrs names fmt i r).map (·.1) = "index" :: (names.zip r).map (·.1) := by simp [rowAttrs, Function.comp_def]
    rw [this]
    refine List.Pairwise.sublist ?_ hd
    apply List.Sublist.cons_cons
    exact zip_fst_sublist names r

theorem listLay_plain (listTag tag : String) (names : List String) (fmt : α → List Char) (rows : List (List α)) (rest : Lay)
    (h1 : XmlName listTag) (h2 : XmlName tag) (hn : ∀ n ∈ names, XmlName n) (hd : ("index" :: names).Nodup)
    (hf : ∀ x, PlainValue (String.ofList (fmt x))) (hr : rest.Plain) : (listLay listTag tag names fmt rows rest).Plain := by
  refine ⟨by decide +kernel, h1, ⟨?_, by simp⟩, emps_plain _ _ _ (by decide +kernel) h2 ?_, by decide +kernel, hr⟩
  · intro a ha
    simp only [List.mem_cons, List.not_mem_nil, or_false] at ha
    subst ha
    exact ⟨(by decide +kernel : XmlName "size"), plain_fmtNat _⟩
  · intro as has
    obtain ⟨i, hi⟩ := List.mem_iff_getElem?.mp has
    rw [List.getElem?_mapIdx] at hi
    cases hr : rows[i]? with
    | none => rw [hr] at hi; simp at hi
    | some r =>
      rw [hr] at hi
      simp only [Option.map_some, Option.some.injEq] at hi
      rw [← hi]
      exact rowAttrs_plain names hn hd fmt hf i r

theorem plain_float (fio : FloatIO F) (h : XmlFloats fio) (x : F) : PlainValue (String.ofList (fio.fmt x)) := plain_tok (fio.tok x) (h x)

theorem meshLay_plain (fio : FloatIO F) (hf : XmlFloats fio) (kind : String × String × List String) (m : In F) (h : DolfinMesh m kind) :
    (Lay.elem [] "dolfin" nsmap (meshLay fio kind m) ['\n'] .nil).Plain := by
  have hk := (by decide +kernel : ∀ k ∈ dolfinKinds, XmlName k.1 ∧ PlainValue k.1 ∧ (∀ n ∈ k.2.2, XmlName n) ∧ ("index" :: k.2.2).Nodup) kind h.okKind
  have hc : (∀ n ∈ dolfinCoords m.dim, XmlName n) ∧ ("index" :: dolfinCoords m.dim).Nodup := by
    rcases h.okDim with e | e <;> rw [e] <;> decide +kernel
  refine ⟨by decide, by decide +kernel, ⟨by decide +kernel, by decide⟩, ⟨by decide +kernel, by decide +kernel, ⟨?_, by simp⟩, ?_, by decide +kernel, trivial⟩, by decide +kernel, trivial⟩
  · intro a ha
    simp only [List.mem_cons, List.not_mem_nil, or_false] at ha
    rcases ha with rfl | rfl
    · exact ⟨(by decide +kernel : XmlName "celltype"), hk.2.1⟩
    · exact ⟨(by decide +kernel : XmlName "dim"), plain_fmtNat _⟩
  · exact listLay_plain _ _ _ _ _ _ (by decide +kernel) (by decide +kernel) hc.1 hc.2 (plain_float fio hf)
      (listLay_plain _ _ _ _ _ _ (by decide +kernel) hk.1 hk.2.2.1 hk.2.2.2 plain_fmtInt trivial)

/-! What the document says -/

theorem find_zip (names : List String) (hd : names.Nodup) (r : List α) (g : α → String) (j : Nat) (n : String) (x : α) (hn : names[j]? = some n)
    (hx : r[j]? = some x) : ((names.zip r).map fun a => (a.1, g a.2)).find? (fun a => a.1 == n) = some (n, g x) := by
  induction names generalizing r j with
  | nil => simp at hn
  | cons m names ih =>
    cases r with
    | nil => simp at hx
    | cons y r =>
      cases j with
      | zero =>
        simp only [List.getElem?_cons_zero, Option.some.injEq] at hn hx
        subst hn; subst hx
        simp
      | succ j =>
        simp only [List.getElem?_cons_succ] at hn hx
        have : m ≠ n := by
          rintro rfl
          exact (List.nodup_cons.mp hd).1 (List.mem_of_getElem? hn)
        simp only [List.zip_cons_cons, List.map_cons, List.find?_cons]
        have e : (m == n) = false := by simpa using this
        simp only [e]
        exact ih (List.nodup_cons.mp hd).2 r j hn hx

theorem rowAttrs_says {parse : List Char → Option α} (fmt : α → List Char) (hp : ∀ x, parse (fmt x) = some x) (tag : String) (names : List String)
    (hd : ("index" :: names).Nodup) (rows : List (List α)) (i : Nat) (r : List α) (hr : rows[i]? = some r) (hl : r.length = names.length) :
    SaysRow parse tag names rows ⟨tag, rowAttrs names fmt i r, [], .nil⟩ i := by
  refine ⟨rfl, rfl, ⟨String.ofList (fmtNat i), ?_, ?_⟩, r, hr, hl, ?_⟩
  · simp [XmlElem.attr?, rowAttrs]
  · rw [String.toList_ofList]; exact parseInt_fmtNat i
  · intro j n x hn hx
    refine ⟨String.ofList (fmt x), ?_, by rw [String.toList_ofList]; exact hp x⟩
    obtain ⟨h1, h2⟩ := List.nodup_cons.mp hd
    have hne : "index" ≠ n := by
      rintro rfl
      exact h1 (List.mem_of_getElem? hn)
    unfold XmlElem.attr? rowAttrs
    simp only [List.find?_cons]
    have e : ("index" == n) = false := by simpa using hne
    rw [e]
    simp only []
    rw [find_zip names h2 r (fun x => String.ofList (fmt x)) j n x hn hx]
    rfl

theorem rowEmps_elems (tag : String) (names : List String) (fmt : α → List Char) (rows : List (List α)) :
    (rowEmps tag names fmt rows).tree.elems = rows.mapIdx fun i r => ⟨tag, rowAttrs names fmt i r, [], .nil⟩ := by
  unfold rowEmps
  rw [emps_elems]
  apply List.ext_getElem?
  intro i
  simp only [List.getElem?_map, List.getElem?_mapIdx]
  cases rows[i]? <;> rfl

theorem saysRows_rowEmps {parse : List Char → Option α} (fmt : α → List Char) (hp : ∀ x, parse (fmt x) = some x) (listTag tag : String)
    (names : List String) (hd : ("index" :: names).Nodup) (rows : List (List α)) (hl : ∀ r ∈ rows, r.length = names.length) (t : List Char) :
    SaysRows parse listTag tag names rows
      ⟨listTag, [("size", String.ofList (fmtNat rows.length))], t, (rowEmps tag names fmt rows).tree⟩ := by
  have hk : XmlElem.kids ⟨listTag, [("size", String.ofList (fmtNat rows.length))], t, (rowEmps tag names fmt rows).tree⟩ =
      rows.mapIdx fun i r => ⟨tag, rowAttrs names fmt i r, [], .nil⟩ := rowEmps_elems tag names fmt rows
  refine ⟨rfl, ⟨String.ofList (fmtNat rows.length), by simp [XmlElem.attr?], by rw [String.toList_ofList]; exact parseInt_fmtNat _⟩, ?_, ?_⟩
  · rw [hk]
    intro c hc
    obtain ⟨i, hi⟩ := List.mem_iff_getElem?.mp hc
    rw [List.getElem?_mapIdx] at hi
    cases hr : rows[i]? with
    | none => rw [hr] at hi; simp at hi
    | some r =>
      rw [hr] at hi
      simp only [Option.map_some, Option.some.injEq] at hi
      rw [← hi]
      exact ⟨i, rowAttrs_says fmt hp tag names hd rows i r hr (hl r (List.mem_of_getElem? hr))⟩
  · rw [hk]
    intro k hk
    have hr := List.getElem?_eq_getElem hk
    refine ⟨⟨tag, rowAttrs names fmt k rows[k], [], .nil⟩, ?_, rowAttrs_says fmt hp tag names hd rows k _ hr (hl _ (List.getElem_mem _))⟩
    apply List.mem_iff_getElem?.mpr
    exact ⟨k, by rw [List.getElem?_mapIdx, hr]; rfl⟩

theorem meshText_doc (fio : FloatIO F) (hf : XmlFloats fio) (kind : String × String × List String) (m : In F) (h : DolfinMesh m kind) :
    ∃ root, parseXml (meshText fio kind.2.1 m) = some root ∧ DolfinDoc fio root m.dim kind m.points (dolfinCells kind.2.1 m) := by
  refine ⟨_, by rw [meshText_eq fio kind m h]; exact parseXml_lay _ _ _ _ (meshLay_plain fio hf kind m h), h.okDim, h.okKind, rfl, ?_⟩
  have hk := (by decide +kernel : ∀ k ∈ dolfinKinds, ("index" :: k.2.2).Nodup) kind h.okKind
  have hc : ("index" :: dolfinCoords m.dim).Nodup ∧ (dolfinCoords m.dim).length = m.dim := by
    rcases h.okDim with e | e <;> rw [e] <;> decide +kernel
  refine ⟨_, [], _, [], _, [], rfl, rfl, ⟨String.ofList (fmtNat m.dim), by simp [XmlElem.attr?], by rw [String.toList_ofList]; exact parseInt_fmtNat _⟩, by simp [XmlElem.attr?],
    .inl rfl, by simp, saysRows_rowEmps fio.fmt fio.parse_fmt _ _ _ hc.1 _ (by rw [hc.2]; exact h.points) _,
    saysRows_rowEmps fmtInt parseInt_fmtInt _ _ _ hk _ h.cells _⟩

/-! Cell data -/

/-- The attributes of one value. -/
def valueAttrs (i : Nat) (v : List Char) : List (String × String) := [("index", String.ofList (fmtNat i)), ("value", String.ofList v)]

/-- The attributes of an array. -/
def functionAttrs (t : String) (dim n : Nat) : List (String × String) :=
  [("type", t), ("dim", String.ofList (fmtNat dim)), ("size", String.ofList (fmtNat n))]

/-- The array as a layout. -/
def functionLay (t : String) (dim n : Nat) (l : List (List Char)) : Lay :=
  if n = 0 then .empty [] "mesh_function" (functionAttrs t dim n) .nil
  else .elem [] "mesh_function" (functionAttrs t dim n) (emps [] "entity" (l.mapIdx valueAttrs)) [] .nil

theorem entityText_eq (i : Nat) (v : List Char) :
    entityText i v = [] ++ '<' :: ("entity".toList ++ (Lay.attrsText (valueAttrs i v) ++ [' ', '/', '>'])) := by
  unfold entityText valueAttrs
  generalize fmtNat i = n
  simp [Lay.attrsText, Cxml.attr]

theorem values_render (l : List (List Char)) : (emps [] "entity" (l.mapIdx valueAttrs)).render = (l.mapIdx entityText).flatten := by
  rw [emps_render]
  have : l.mapIdx entityText = (l.mapIdx valueAttrs).map fun as => [] ++ '<' :: ("entity".toList ++ (Lay.attrsText as ++ [' ', '/', '>'])) := by
    apply List.ext_getElem?
    intro i
    simp only [List.getElem?_map, List.getElem?_mapIdx]
    generalize l[i]? = o
    cases o with
    | none => simp only [Option.map_none]
    | some v => rw [Option.map_some, Option.map_some, Option.map_some, entityText_eq]
  rw [this]
  simp [List.flatMap_def]

set_option maxRecDepth 8000 in
theorem dataText_eq (r : Repr F) (dim : Nat) (d : Data Int F) (t : String) (h : dtypeName d = some t) :
    dataText r dim d = .ok (Lay.elem [] "dolfin" nsmap (functionLay t dim d.len (reprs r d)) [] .nil).render := by
  unfold dataText functionLay functionAttrs
  rw [h]
  simp only []
  split
  · generalize fmtNat dim = x
    simp [Lay.render, Lay.attrsText, Cxml.attr, nsmap]
  · congr 1
    rw [← List.append_nil (Lay.render _)]
    simp only [Lay.render, values_render]
    generalize ((reprs r d).mapIdx entityText).flatten = y
    generalize fmtNat dim = x
    generalize fmtNat d.len = n
    simp [Lay.attrsText, Cxml.attr, nsmap]

theorem functionLay_plain (t : String) (ht : PlainValue t) (dim n : Nat) (l : List (List Char)) (hl : ∀ v ∈ l, PlainValue (String.ofList v)) :
    (Lay.elem [] "dolfin" nsmap (functionLay t dim n l) [] .nil).Plain := by
  have ha : Lay.PlainAttrs (functionAttrs t dim n) := by
    refine ⟨?_, by simp [functionAttrs]⟩
    intro a ha
    simp only [functionAttrs, List.mem_cons, List.not_mem_nil, or_false] at ha
    rcases ha with rfl | rfl | rfl
    · exact ⟨(by decide +kernel : XmlName "type"), ht⟩
    · exact ⟨(by decide +kernel : XmlName "dim"), plain_fmtNat _⟩
    · exact ⟨(by decide +kernel : XmlName "size"), plain_fmtNat _⟩
  refine ⟨by decide, by decide +kernel, ⟨by decide +kernel, by decide⟩, ?_, by decide, trivial⟩
  unfold functionLay
  split
  · exact ⟨by decide, by decide +kernel, ha, trivial⟩
  · refine ⟨by decide, by decide +kernel, ha, emps_plain _ _ _ (by decide) (by decide +kernel) ?_, by decide, trivial⟩
    intro as has
    obtain ⟨i, hi⟩ := List.mem_iff_getElem?.mp has
    rw [List.getElem?_mapIdx] at hi
    cases hr : l[i]? with
    | none => rw [hr] at hi; simp at hi
    | some v =>
      rw [hr] at hi
      simp only [Option.map_some, Option.some.injEq] at hi
      rw [← hi]
      refine ⟨?_, by simp [valueAttrs]⟩
      intro a ha
      simp only [valueAttrs, List.mem_cons, List.not_mem_nil, or_false] at ha
      rcases ha with rfl | rfl
      · exact ⟨(by decide +kernel : XmlName "index"), plain_fmtNat _⟩
      · exact ⟨(by decide +kernel : XmlName "value"), hl v (List.mem_of_getElem? hr)⟩

theorem reprs_length (r : Repr F) (d : Data Int F) (t : String) (h : dtypeName d = some t) : (reprs r d).length = d.len := by
  cases d with
  | ints u l => simp [reprs, Data.len]
  | floats l => simp [reprs, Data.len]
  | other n => simp [dtypeName] at h

/-- The file with cell data, whatever `repr` prints. -/
theorem dataText_parse (r : Repr F) (dim : Nat) (d : Data Int F) (t : String) (h : dtypeName d = some t)
    (hl : ∀ v ∈ reprs r d, PlainValue (String.ofList v)) :
    ∃ s root f, dataText r dim d = .ok s ∧ parseXml s = some root ∧ root.kids = [f] ∧ f.tag = "mesh_function" ∧
      f.attrs = functionAttrs t dim d.len ∧ f.kids = (reprs r d).mapIdx fun i v => ⟨"entity", valueAttrs i v, [], .nil⟩ := by
  have ht : PlainValue t := by
    cases d with
    | ints u l => cases u <;> cases h <;> decide +kernel
    | floats l => cases h; decide +kernel
    | other n => simp [dtypeName] at h
  have hk : (emps [] "entity" ((reprs r d).mapIdx valueAttrs)).tree.elems = (reprs r d).mapIdx fun i v => ⟨"entity", valueAttrs i v, [], .nil⟩ := by
    rw [emps_elems]
    apply List.ext_getElem?
    intro i
    simp only [List.getElem?_map, List.getElem?_mapIdx]
    cases (reprs r d)[i]? <;> rfl
  have hp := parseXml_lay _ _ _ _ (functionLay_plain t ht dim d.len (reprs r d) hl)
  unfold functionLay at hp
  have ht := dataText_eq r dim d t h
  unfold functionLay at ht
  by_cases h0 : d.len = 0
  · rw [if_pos h0] at hp ht
    refine ⟨_, _, _, ht, hp, rfl, rfl, rfl, ?_⟩
    have : reprs r d = [] := List.length_eq_zero_iff.mp (by rw [reprs_length r d t h, h0])
    rw [this]
    rfl
  · rw [if_neg h0] at hp ht
    exact ⟨_, _, _, ht, hp, rfl, rfl, rfl, hk⟩

theorem says_values {parse : List Char → Option α} (fmt : α → List Char) (hp : ∀ x, parse (fmt x) = some x) (l : List α) (f : XmlElem) (t : String)
    (dim : Nat) (h1 : f.attrs = functionAttrs t dim l.length) (h2 : f.kids = (l.map fmt).mapIdx fun i v => ⟨"entity", valueAttrs i v, [], .nil⟩) :
    SaysValues parse l f := by
  have hv : ∀ (k : Nat) (x : α), SaysAttr parseInt ⟨"entity", valueAttrs k (fmt x), [], .nil⟩ "index" (k : Int) ∧
      SaysAttr parse ⟨"entity", valueAttrs k (fmt x), [], .nil⟩ "value" x := fun k x =>
    ⟨⟨String.ofList (fmtNat k), by simp [XmlElem.attr?, valueAttrs], by rw [String.toList_ofList]; exact parseInt_fmtNat _⟩,
      ⟨String.ofList (fmt x), by simp [XmlElem.attr?, valueAttrs], by rw [String.toList_ofList]; exact hp x⟩⟩
  refine ⟨⟨String.ofList (fmtNat l.length), by simp [XmlElem.attr?, h1, functionAttrs], by rw [String.toList_ofList]; exact parseInt_fmtNat _⟩, ?_, ?_⟩
  · rw [h2]
    intro c hc
    obtain ⟨i, hi⟩ := List.mem_iff_getElem?.mp hc
    rw [List.getElem?_mapIdx, List.getElem?_map] at hi
    cases hr : l[i]? with
    | none => rw [hr] at hi; simp at hi
    | some x =>
      rw [hr] at hi
      simp only [Option.map_some, Option.some.injEq] at hi
      rw [← hi]
      exact ⟨rfl, i, x, hr, hv i x⟩
  · rw [h2]
    intro k x hk
    refine ⟨⟨"entity", valueAttrs k (fmt x), [], .nil⟩, ?_, hv k x⟩
    apply List.mem_iff_getElem?.mpr
    exact ⟨k, by rw [List.getElem?_mapIdx, List.getElem?_map, hk]; rfl⟩

theorem dataText_doc (fio : FloatIO F) (hf : XmlFloats fio) (r : Repr F) (hr : OldRepr fio r) (dim : Nat) (d : Data Int F)
    (hd : ∀ n, d ≠ .other n) : ∃ s, dataText r dim d = .ok s ∧ FunctionDoc fio s d := by
  cases d with
  | ints u l =>
    have e : r.int = fmtInt := funext hr.1
    obtain ⟨s, root, f, h1, h2, h3, h4, h5, h6⟩ := dataText_parse r dim (.ints u l) (if u then "uint" else "int") (by cases u <;> rfl) (by
      intro v hv
      obtain ⟨i, _, rfl⟩ := List.mem_map.mp hv
      rw [hr.1]; exact plain_fmtInt i)
    refine ⟨s, h1, root, f, h2, h3, h4, by simp [XmlElem.attr?, h5, functionAttrs], ?_⟩
    exact says_values fmtInt parseInt_fmtInt l f _ dim h5 (by rw [h6]; simp only [reprs, e])
  | floats l =>
    have e : r.float = fio.fmt := funext hr.2
    obtain ⟨s, root, f, h1, h2, h3, h4, h5, h6⟩ := dataText_parse r dim (.floats l) "float" rfl (by
      intro v hv
      obtain ⟨i, _, rfl⟩ := List.mem_map.mp hv
      rw [hr.2]; exact plain_float fio hf i)
    refine ⟨s, h1, root, f, h2, h3, h4, by simp [XmlElem.attr?, h5, functionAttrs], ?_⟩
    exact says_values fio.fmt fio.parse_fmt l f _ dim h5 (by rw [h6]; simp only [reprs, e])
  | other n => exact absurd rfl (hd n)

/-! Directories -/

theorem store_get? (dir files : List (String × List Char)) (hf : Dict.Ok files) (k : String) :
    Dict.get? (store dir files) k = (match Dict.get? files k with | some s => some s | none => Dict.get? dir k) := by
  unfold store
  induction files generalizing dir with
  | nil => rfl
  | cons f files ih =>
    have hf' := List.nodup_cons.mp hf
    rw [List.foldl_cons, ih _ hf'.2, Dict.get?_cons, Dict.get?_set]
    by_cases e : k = f.1
    · subst e
      have : Dict.get? files f.1 = none := (Dict.get?_eq_none_iff _ _).mpr hf'.1
      simp [this]
    · simp [e]

theorem store_ok (dir files : List (String × List Char)) (hd : Dict.Ok dir) : Dict.Ok (store dir files) := by
  unfold store
  induction files generalizing dir with
  | nil => exact hd
  | cons f files ih => exact ih _ (Dict.Ok.set hd _ _)

/-- The name of the file of an array. -/
def dataFile (base : List Char) (n : String) : String := String.ofList (base ++ '_' :: (n.toList ++ ".xml".toList))

theorem dataFile_inj {base : List Char} {n n' : String} (h : dataFile base n = dataFile base n') : n = n' := by
  have := congrArg String.toList h
  simp only [dataFile, String.toList_ofList] at this
  have h2 := List.append_cancel_left this
  simp only [List.cons.injEq, true_and] at h2
  exact String.toList_inj.mp (List.append_cancel_right h2)

theorem dataFiles_ok (fio : FloatIO F) (hf : XmlFloats fio) (r : Repr F) (hr : OldRepr fio r) (base : List Char) (dim : Nat)
    (l : List (String × Data Int F)) (h : ∀ e ∈ l, ∀ n, e.2 ≠ .other n) :
    (dataFiles r base dim l).2 = none ∧ (dataFiles r base dim l).1.map (·.1) = l.map (fun e => dataFile base e.1) ∧
      ∀ f ∈ (dataFiles r base dim l).1, ∃ e ∈ l, f.1 = dataFile base e.1 ∧ FunctionDoc fio f.2 e.2 := by
  induction l with
  | nil => exact ⟨rfl, rfl, by simp [dataFiles]⟩
  | cons e l ih =>
    obtain ⟨n, d⟩ := e
    obtain ⟨s, h1, h2⟩ := dataText_doc fio hf r hr dim d (h (n, d) (by simp))
    obtain ⟨i1, i2, i3⟩ := ih (fun e he => h e (by simp [he]))
    simp only [dataFiles, h1]
    refine ⟨i1, by simp [i2, dataFile], ?_⟩
    intro f hf'
    rcases List.mem_cons.mp hf' with rfl | hf'
    · exact ⟨(n, d), by simp, rfl, h2⟩
    · obtain ⟨e, he, h3⟩ := i3 f hf'
      exact ⟨e, by simp [he], h3⟩

end Dolfin
end Meshio
