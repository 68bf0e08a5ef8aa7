/-
The text of an XDMF file is read as the elements that were written.
-/
import Verif.Proofs.XmlEsc
import Verif.Proofs.Xdmf
import Verif.Base.Lines
namespace Meshio
namespace XdmfFile
open Types Tables Xdmf Spec Et

variable {F T : Type}

/-- The text of a number of the given type is a word that is read as the number. -/
def NumOk (io : XdmfIO F) (d : String) (v : Xdmf.Val F) : Prop := IsTok (numFmt io d v) ∧ numParse io d (numFmt io d v) = .ok v

/-- An item that is read as it is. -/
def ItemGood (io : XdmfIO F) (it : Item F) : Prop :=
  ∃ d, find xdmfToNumpy it.num = some d ∧
    ((it.fmt = .xml ∧ ∃ l, it.text = .numbers l ∧ l.length = prod it.dims ∧ it.dims ≠ [] ∧ ∀ v ∈ l, NumOk io d v) ∨
     (it.fmt ≠ .xml ∧ ∃ s, it.text = .path s ∧ s ≠ []))

def ElemGood (io : XdmfIO F) : Elem F T → Prop
  | .geometry ty [it] => OkValue ty.toList ∧ ItemGood io it
  | .topology ty [it] => OkValue ty.toList ∧ ItemGood io it
  | .attr n ty ce [it] => OkValue n ∧ OkValue ty.toList ∧ OkValue ce.toList ∧ ItemGood io it
  | _ => False

/-! ## The elements -/

def itemAttrs (it : Item F) : List (String × String) :=
  [("DataType", it.num.1), ("Dimensions", String.ofList (joinWith ' ' (it.dims.map fmtNat))), ("Format", fmtName it.fmt),
   ("Precision", it.num.2)]

def itemEt (io : XdmfIO F) (it : Item F) (rest : Et) : Et := .elem "DataItem" (itemAttrs it) (itemText io it) .nil rest

def strAttrs (as : List (String × List Char)) : List (String × String) := as.map fun a => (a.1, String.ofList a.2)

def etItems (io : XdmfIO F) : List (Item F) → Et
  | [] => .nil
  | it :: l => itemEt io it (etItems io l)

def headDims (items : List (Item F)) : List Nat := (items.head?.map (·.dims)).getD []

def gridEt (io : XdmfIO F) (total : Nat) : List (Elem F T) → Et
  | [] => .nil
  | .geometry ty items :: r => .elem "Geometry" [("GeometryType", ty)] [] (etItems io items) (gridEt io total r)
  | .topology ty items :: r => .elem "Topology" (strAttrs (topologyAttrs total ty (headDims items))) [] (etItems io items) (gridEt io total r)
  | .attr n ty ce items :: r =>
    .elem "Attribute" [("Name", String.ofList n), ("AttributeType", ty), ("Center", ce)] [] (etItems io items) (gridEt io total r)
  | .time _ :: r => gridEt io total r
  | .incl :: r => gridEt io total r

def docEt (io : XdmfIO F) (total : Nat) (grid : List (Elem F T)) : Et :=
  .elem "Domain" [] [] (.elem "Grid" [("Name", "Grid")] [] (gridEt io total grid) .nil) .nil

theorem attrsText_str (as : List (String × List Char)) : Et.attrsText (strAttrs as) = as.flatMap attrText := by
  simp [Et.attrsText, strAttrs, List.flatMap_map]

theorem render_items (io : XdmfIO F) (l : List (Item F)) : (etItems io l).render = l.flatMap (itemXml io) := by
  induction l with
  | nil => rfl
  | cons it l ih =>
    have e : Et.attrsText (itemAttrs it) =
        [("DataType", it.num.1.toList), ("Dimensions", joinWith ' ' (it.dims.map fmtNat)), ("Format", (fmtName it.fmt).toList),
          ("Precision", it.num.2.toList)].flatMap attrText := by
      simp [Et.attrsText, itemAttrs]
    simp only [etItems, itemEt, Et.render, List.flatMap_cons, itemXml, elemText, e, ih]
    simp

theorem render_grid (io : XdmfIO F) (total : Nat) (grid : List (Elem F T)) :
    (gridEt io total grid).render = grid.flatMap (gridXml io total) := by
  have h0 : Svg.escText [] = [] := rfl
  induction grid with
  | nil => rfl
  | cons e grid ih =>
    cases e with
    | geometry ty items =>
      have e : Et.attrsText [("GeometryType", ty)] = [("GeometryType", ty.toList)].flatMap attrText := by simp [Et.attrsText]
      simp only [gridEt, Et.render, List.flatMap_cons, gridXml, elemText, ih, render_items, e, h0]
      simp
    | topology ty items =>
      simp only [gridEt, Et.render, List.flatMap_cons, gridXml, elemText, ih, render_items, attrsText_str, headDims, h0]
      simp
    | attr n ty ce items =>
      have e : Et.attrsText [("Name", String.ofList n), ("AttributeType", ty), ("Center", ce)] =
          [("Name", n), ("AttributeType", ty.toList), ("Center", ce.toList)].flatMap attrText := by simp [Et.attrsText]
      simp only [gridEt, Et.render, List.flatMap_cons, gridXml, elemText, ih, render_items, e, h0]
      simp
    | time t => simp only [gridEt, List.flatMap_cons, gridXml, List.nil_append, ih]
    | incl => simp only [gridEt, List.flatMap_cons, gridXml, List.nil_append, ih]

theorem render_doc (io : XdmfIO F) (total : Nat) (grid : List (Elem F T)) :
    document io total grid = (Et.elem "Xdmf" [("Version", "3.0")] [] (docEt io total grid) .nil).render := by
  have h0 : Svg.escText [] = [] := rfl
  simp only [document, docEt, Et.render, elemText, render_grid, h0, Et.attrsText, List.flatMap_cons, List.flatMap_nil, List.append_nil, List.nil_append]

/-! ## The elements are proper -/

theorem okValue_digits (n : Nat) : OkValue (fmtNat n) := by
  intro c hc
  have := (isTok_fmtNat n).2 c hc
  refine ⟨?_, ?_, ?_⟩ <;> (rintro rfl; exact absurd this (by decide))

theorem okValue_dims (l : List Nat) : OkValue (joinWith ' ' (l.map fmtNat)) := by
  induction l with
  | nil => intro c hc; simp [joinWith] at hc
  | cons n l ih =>
    cases l with
    | nil => simpa [joinWith] using okValue_digits n
    | cons k l =>
      intro c hc
      simp only [List.map_cons, joinWith, List.mem_append, List.mem_cons] at hc
      rcases hc with h | rfl | h
      · exact okValue_digits n c h
      · decide
      · exact ih c (by simpa [List.map_cons] using h)

instance (v : List Char) : Decidable (OkValue v) := by unfold OkValue; exact inferInstance

instance (n : String) : Decidable (XmlName n) := by unfold XmlName; exact inferInstance

theorem num_okValue (num : String × String) (d : String) (h : find xdmfToNumpy num = some d) : OkValue num.1.toList ∧ OkValue num.2.toList := by
  have key : ∀ e ∈ xdmfToNumpy, OkValue e.1.1.toList ∧ OkValue e.1.2.toList := by decide +kernel
  exact key _ (find_mem h)

theorem items_ok (io : XdmfIO F) (it : Item F) (h : ItemGood io it) : (etItems io [it]).Ok := by
  obtain ⟨d, hd, _⟩ := h
  refine ⟨by decide, ?_, by simp [itemAttrs], trivial, trivial⟩
  intro a ha
  simp only [itemAttrs, List.mem_cons, List.not_mem_nil, or_false] at ha
  rcases ha with rfl | rfl | rfl | rfl
  · exact ⟨show XmlName "DataType" by decide, (num_okValue _ _ hd).1⟩
  · exact ⟨show XmlName "Dimensions" by decide, by simpa using okValue_dims it.dims⟩
  · exact ⟨show XmlName "Format" by decide, by cases it.fmt <;> decide⟩
  · exact ⟨show XmlName "Precision" by decide, (num_okValue _ _ hd).2⟩

theorem grid_ok (io : XdmfIO F) (total : Nat) (grid : List (Elem F T)) (h : ∀ e ∈ grid, ElemGood io e) : (gridEt io total grid).Ok := by
  induction grid with
  | nil => trivial
  | cons e grid ih =>
    have hr := ih (fun x hx => h x (by simp [hx]))
    have he := h e (by simp)
    match e, he with
    | .geometry ty [it], ⟨h1, h2⟩ =>
      refine ⟨by decide, ?_, by simp, items_ok io it h2, hr⟩
      intro a ha
      simp only [List.mem_cons, List.not_mem_nil, or_false] at ha
      subst ha
      exact ⟨show XmlName "GeometryType" by decide, h1⟩
    | .topology ty [it], ⟨h1, h2⟩ =>
      refine ⟨by decide, ?_, ?_, items_ok io it h2, hr⟩
      · intro a ha
        simp only [strAttrs, topologyAttrs, List.mem_map] at ha
        obtain ⟨b, hb, rfl⟩ := ha
        split at hb
        · simp only [List.mem_cons, List.not_mem_nil, or_false] at hb
          rcases hb with rfl | rfl
          · exact ⟨show XmlName "TopologyType" by decide, by simpa using h1⟩
          · exact ⟨show XmlName "NumberOfElements" by decide, by simpa using okValue_digits _⟩
        · simp only [List.mem_cons, List.not_mem_nil, or_false] at hb
          rcases hb with rfl | rfl | rfl
          · exact ⟨show XmlName "TopologyType" by decide, by simpa using h1⟩
          · exact ⟨show XmlName "NumberOfElements" by decide, by simpa using okValue_digits _⟩
          · exact ⟨show XmlName "NodesPerElement" by decide, by simpa using okValue_digits _⟩
      · unfold strAttrs topologyAttrs
        split <;> simp
    | .attr n ty ce [it], ⟨h1, h2, h3, h4⟩ =>
      refine ⟨by decide, ?_, by simp, items_ok io it h4, hr⟩
      intro a ha
      simp only [List.mem_cons, List.not_mem_nil, or_false] at ha
      rcases ha with rfl | rfl | rfl
      · exact ⟨show XmlName "Name" by decide, by simpa using h1⟩
      · exact ⟨show XmlName "AttributeType" by decide, h2⟩
      · exact ⟨show XmlName "Center" by decide, h3⟩

/-! ## Items -/

theorem prod_cons (n : Nat) (l : List Nat) : prod (n :: l) = n * prod l := rfl

theorem splitWs_saveTxt (io : XdmfIO F) (d : String) (dims : List Nat) (l : List (Xdmf.Val F)) (hd : dims ≠ []) (hl : l.length = prod dims)
    (h : ∀ v ∈ l, NumOk io d v) : splitWs ('\n' :: saveTxt io d dims l) = l.map (numFmt io d) := by
  obtain ⟨n, inner, rfl⟩ : ∃ n inner, dims = n :: inner := by
    cases dims with
    | nil => exact absurd rfl hd
    | cons n i => exact ⟨n, i, rfl⟩
  have hf : (rowsN (prod inner) n l).flatten = l := flatten_rowsN _ _ _ hl
  have e : saveTxt io d (n :: inner) l = linesText (((rowsN (prod inner) n l).map fun r => r.map (numFmt io d)).map (joinWith ' ')) := by
    simp only [saveTxt, linesText, List.drop_one, List.tail_cons, List.headD_cons, List.map_map, List.flatMap_map]
    rfl
  have e2 : splitWs ('\n' :: saveTxt io d (n :: inner) l) = splitWs (saveTxt io d (n :: inner) l) := by
    rw [← splitWs_dropWhile ('\n' :: saveTxt io d (n :: inner) l), List.dropWhile_cons, if_pos (by decide), splitWs_dropWhile]
  rw [e2, e]
  have := splitWs_linesText ((rowsN (prod inner) n l).map fun r => r.map (numFmt io d)) (by
    intro r hr t ht
    obtain ⟨r', hr', rfl⟩ := List.mem_map.1 hr
    obtain ⟨v, hv, rfl⟩ := List.mem_map.1 ht
    exact (h v (by rw [← hf]; exact List.mem_flatten.2 ⟨r', hr', hv⟩)).1) []
  rw [List.append_nil] at this
  rw [this, ← List.map_flatten, hf]
  simp [splitWs, splitWsGo]

theorem pyNat_fmt (n : Nat) : pyNat (fmtNat n) = .ok n := by
  unfold pyNat Su2.pyInt
  rw [show strip (fmtNat n) = fmtNat n from strip_id (fun c hc => (isTok_fmtNat n).2 c (List.mem_of_mem_head? hc))
    (fun c hc => (isTok_fmtNat n).2 c (List.mem_of_getLast? hc)), parseInt_fmtNat]
  simp only
  rw [if_neg (by omega), Int.toNat_natCast]

/-- The text that belongs to an item: the numbers, or the name of heavy data. -/
def TextGood (io : XdmfIO F) (it : Item F) (d : String) (txt : List Char) : Prop :=
  (it.fmt = .xml ∧ ∃ l, it.text = .numbers l ∧ txt ≠ [] ∧ splitWs txt = l.map (numFmt io d) ∧ ∀ v ∈ l, NumOk io d v) ∨
  (it.fmt ≠ .xml ∧ it.text = .path txt ∧ txt ≠ [])

theorem itemAs_good (io : XdmfIO F) (it : Item F) (d : String) (hd : find xdmfToNumpy it.num = some d) (txt : List Char)
    (h : TextGood io it d txt) : itemAs io (.ok it.num.1) ⟨"DataItem", itemAttrs it, txt, .nil⟩ = .ok it := by
  have hdims : dimsOf ⟨"DataItem", itemAttrs it, txt, .nil⟩ = .ok it.dims := by
    unfold dimsOf
    simp only [XmlElem.attr?, itemAttrs]
    rw [show (([("DataType", it.num.1), ("Dimensions", String.ofList (joinWith ' ' (it.dims.map fmtNat))), ("Format", fmtName it.fmt),
      ("Precision", it.num.2)] : List (String × String)).find? fun a => a.1 == "Dimensions") =
        some ("Dimensions", String.ofList (joinWith ' ' (it.dims.map fmtNat))) from rfl]
    simp only [Option.map_some, String.toList_ofList]
    rw [splitWs_joinWith (by decide) _ (by
      intro t ht
      obtain ⟨n, _, rfl⟩ := List.mem_map.1 ht
      exact isTok_fmtNat n), mapRes_map]
    have := mapRes_ok_of_forall (f := fun n => pyNat (fmtNat n)) (g := fun n : Nat => n) (l := it.dims) (fun n _ => pyNat_fmt n)
    rw [this, List.map_id']
  unfold itemAs
  rw [hdims]
  simp only
  rw [show XmlElem.attr? ⟨"DataItem", itemAttrs it, txt, .nil⟩ "Format" = some (fmtName it.fmt) from rfl,
    show XmlElem.attr? ⟨"DataItem", itemAttrs it, txt, .nil⟩ "Precision" = some it.num.2 from rfl]
  simp only [Option.getD_some]
  rcases h with ⟨hf, l, hl, h1, h2, h3⟩ | ⟨hf, hs, hne⟩
  · have hn : numbers io (it.num.1, it.num.2) txt = .ok (.numbers l) := by
      unfold numbers
      rw [show (it.num.1, it.num.2) = it.num from rfl, hd]
      simp only
      rw [if_neg h1, h2, mapRes_map]
      have := mapRes_ok_of_forall (f := fun v => numParse io d (numFmt io d v)) (g := fun v => v) (l := l) (fun v hv => (h3 v hv).2)
      rw [this, List.map_id']
    rw [hf, if_pos (show fmtName .xml = "XML" from rfl), hn]
    simp only
    obtain ⟨num, dims, fmt, text⟩ := it
    simp only at hf hl
    subst hf hl
    rfl
  · obtain ⟨num, dims, fmt, text⟩ := it
    simp only at hf hs
    subst hs
    cases fmt with
    | xml => exact absurd rfl hf
    | binary =>
      rw [if_neg (show ¬ fmtName .binary = "XML" by decide), if_pos (show fmtName .binary = "Binary" from rfl)]
      simp [pathText, hne]
    | hdf =>
      rw [if_neg (show ¬ fmtName .hdf = "XML" by decide), if_neg (show ¬ fmtName .hdf = "Binary" by decide),
        if_pos (show fmtName .hdf = "HDF" from rfl)]
      simp [pathText, hne]

theorem itemOf_good (io : XdmfIO F) (it : Item F) (h : ItemGood io it) :
    itemOf io ⟨"DataItem", itemAttrs it, itemText io it, .nil⟩ = .ok it := by
  obtain ⟨d, hd, h⟩ := h
  refine itemAs_good io it d hd _ ?_
  rcases h with ⟨hf, l, hl, h1, h2, h3⟩ | ⟨hf, s, hs, hne⟩
  · have ht : itemText io it = '\n' :: saveTxt io d it.dims l := by
      unfold itemText; rw [hl, hd]; rfl
    exact .inl ⟨hf, l, hl, by rw [ht]; simp, by rw [ht]; exact splitWs_saveTxt io d _ l h2 h1 h3, h3⟩
  · have ht : itemText io it = s := by unfold itemText; rw [hs]
    exact .inr ⟨hf, by rw [ht]; exact hs, by rw [ht]; exact hne⟩

theorem readDataItem_good (io : XdmfIO F) (dir : List Char) (fs : Files F) (it : Item F) (h : ItemGood io it) :
    readDataItem io dir fs ⟨"DataItem", itemAttrs it, itemText io it, .nil⟩ = readItem false dir fs it := by
  unfold readDataItem
  rw [show XmlElem.attr? ⟨"DataItem", itemAttrs it, itemText io it, .nil⟩ "Reference" = none from rfl]
  simp only
  rw [itemOf_good io it h]

theorem onlyData_good (io : XdmfIO F) (dir : List Char) (fs : Files F) (it : Item F) (h : ItemGood io it) (tag : String)
    (as : List (String × String)) (x : List Char) :
    onlyData io dir fs ⟨tag, as, x, (etItems io [it]).tree⟩ = readItem false dir fs it := by
  unfold onlyData
  rw [show XmlElem.kids ⟨tag, as, x, (etItems io [it]).tree⟩ = [⟨"DataItem", itemAttrs it, itemText io it, .nil⟩] from rfl]
  exact readDataItem_good io dir fs it h

/-- The element that an element of the grid becomes. -/
def elemOf (io : XdmfIO F) (total : Nat) : Elem F T → XmlElem
  | .geometry ty items => ⟨"Geometry", [("GeometryType", ty)], [], (etItems io items).tree⟩
  | .topology ty items => ⟨"Topology", strAttrs (topologyAttrs total ty (headDims items)), [], (etItems io items).tree⟩
  | .attr n ty ce items => ⟨"Attribute", [("Name", String.ofList n), ("AttributeType", ty), ("Center", ce)], [], (etItems io items).tree⟩
  | .time _ => ⟨"", [], [], .nil⟩
  | .incl => ⟨"", [], [], .nil⟩

theorem elems_grid (io : XdmfIO F) (total : Nat) (grid : List (Elem F T)) (h : ∀ e ∈ grid, ElemGood io e) :
    (gridEt io total grid).tree.elems = grid.map (elemOf io total) := by
  induction grid with
  | nil => rfl
  | cons e grid ih =>
    have hr := ih (fun x hx => h x (by simp [hx]))
    have he := h e (by simp)
    cases e with
    | geometry ty items => simp only [gridEt, Et.tree, Xml.elems, List.map_cons, hr]; rfl
    | topology ty items => simp only [gridEt, Et.tree, Xml.elems, List.map_cons, hr]; rfl
    | attr n ty ce items => simp only [gridEt, Et.tree, Xml.elems, List.map_cons, hr]; rfl
    | time t => exact he.elim
    | incl => exact he.elim

/-- The outcome of a step of the abstract reader, with the field data. -/
def withField (f : List (List Char × Int × Int)) : Res (RSt F) → Res (St F)
  | .error e => .error e
  | .ok s => .ok ⟨s, f⟩

theorem elem3_good (io : XdmfIO F) (dir : List Char) (fs : Files F) (total : Nat) (e : Elem F T) (h : ElemGood io e) (s : St F) :
    elem3 io dir fs s (elemOf io total e) = withField s.field (readElem dir fs s.rst e) := by
  match e, h with
  | .geometry ty [it], ⟨h1, h2⟩ =>
    unfold elem3
    rw [if_neg (by simp [elemOf]), if_pos (show (elemOf io total (Elem.geometry (T := T) ty [it])).tag = "Geometry" from rfl)]
    rw [show either (elemOf io total (Elem.geometry (T := T) ty [it])) "Type" "GeometryType" = .ok ty from rfl]
    simp only [readElem, elemOf]
    rw [onlyData_good io dir fs it h2]
    by_cases hty : ty = "XY" ∨ ty = "XYZ"
    · rw [if_pos hty, if_pos hty]
      cases readItem false dir fs it <;> rfl
    · rw [if_neg hty, if_neg hty]; rfl
  | .topology ty [it], ⟨h1, h2⟩ =>
    unfold elem3
    rw [if_pos (show (elemOf io total (Elem.topology (T := T) ty [it])).tag = "Topology" from rfl)]
    have he : either (elemOf io total (Elem.topology (T := T) ty [it])) "Type" "TopologyType" = .ok ty := by
      by_cases hm : ty = "Mixed"
      · simp only [elemOf, topologyAttrs, if_pos hm]
        simp [either, XmlElem.attr?, strAttrs, List.find?]
      · simp only [elemOf, topologyAttrs, if_neg hm]
        simp [either, XmlElem.attr?, strAttrs, List.find?]
    rw [he]
    simp only [readElem, elemOf]
    rw [onlyData_good io dir fs it h2]
    cases readItem false dir fs it with
    | error x => rfl
    | ok a =>
      simp only
      cases readTopology s.rst.cells ty a <;> rfl
  | .attr n ty ce [it], ⟨h1, h2, h3, h4⟩ =>
    unfold elem3
    rw [if_neg (by simp [elemOf]), if_neg (by simp [elemOf]),
      if_neg (by simp [elemOf]), if_pos (show (elemOf io total (Elem.attr (T := T) n ty ce [it])).tag = "Attribute" from rfl)]
    rw [show XmlElem.attr? (elemOf io total (Elem.attr (T := T) n ty ce [it])) "Center" = some ce from rfl,
      show XmlElem.attr? (elemOf io total (Elem.attr (T := T) n ty ce [it])) "Name" = some (String.ofList n) from rfl]
    simp only [readElem, elemOf]
    rw [onlyData_good io dir fs it h4]
    cases readItem false dir fs it with
    | error x => rfl
    | ok a =>
      simp only [String.toList_ofList]
      by_cases hn : ce = "Node"
      · simp only [hn, true_or, if_true]; rfl
      · by_cases hcell : ce = "Cell"
        · simp only [hcell, show ¬ "Cell" = "Node" by decide, or_true, if_true, if_false]; rfl
        · rw [if_neg (by simp [hn, hcell]), if_neg hn, if_neg hcell]; rfl

theorem fold_good (io : XdmfIO F) (dir : List Char) (fs : Files F) (total : Nat) (grid : List (Elem F T)) (h : ∀ e ∈ grid, ElemGood io e)
    (s : St F) : foldRes (elem3 io dir fs) s (grid.map (elemOf io total)) = withField s.field (foldRes (readElem dir fs) s.rst grid) := by
  induction grid generalizing s with
  | nil => rfl
  | cons e grid ih =>
    rw [List.map_cons, foldRes, foldRes, elem3_good io dir fs total e (h e (by simp)) s]
    cases readElem dir fs s.rst e with
    | error x => rfl
    | ok r => exact ih (fun x hx => h x (by simp [hx])) ⟨r, s.field⟩

/-- The text of a file is read as its elements are. -/
theorem read_document (io : XdmfIO F) (dir : List Char) (fs : Files F) (total : Nat) (grid : List (Elem F T)) (h : ∀ e ∈ grid, ElemGood io e)
    (m : XMesh F) (hm : Xdmf.read dir fs grid = .ok m) : XdmfFile.read io dir fs (document io total grid) = .ok ⟨m, []⟩ := by
  have hok : (Et.elem "Xdmf" [("Version", "3.0")] [] (docEt io total grid) .nil).Ok := by
    refine ⟨by decide, ?_, by simp, ⟨by decide, by simp, by simp, ⟨by decide, ?_, by simp, grid_ok io total grid h, trivial⟩, trivial⟩, trivial⟩
    · decide
    · decide
  unfold XdmfFile.read
  rw [render_doc, parseXml_et _ _ _ _ hok]
  simp only
  unfold readRoot
  rw [if_neg (by simp)]
  rw [show XmlElem.attr? ⟨"Xdmf", [("Version", "3.0")], [], (docEt io total grid).tree⟩ "Version" = some "3.0" from rfl]
  simp only
  rw [if_neg (by decide), if_neg (by decide)]
  unfold readXdmf3
  rw [show gridOf ⟨"Xdmf", [("Version", "3.0")], [], (docEt io total grid).tree⟩ =
    .ok ⟨"Grid", [("Name", "Grid")], [], (gridEt io total grid).tree⟩ from rfl]
  simp only [XmlElem.kids]
  rw [elems_grid io total grid h, fold_good io dir fs total grid h]
  unfold Xdmf.read at hm
  simp only [St.init]
  split at hm
  · cases hm
  · next s hs =>
    rw [hs]
    simp only [withField, finish]
    split at hm
    · cases hm
    · next p hp =>
      rw [hp]
      simp only
      rw [hm]

/-! ## What is written is good -/

/-- An array whose numbers can be printed. -/
def Printable (io : XdmfIO F) (c : Cfg) (a : Nd F) : Prop := c.fmt = .xml → ∀ r ∈ a.rows, ∀ v ∈ r, NumOk io a.dtype v

theorem putItem_good (io : XdmfIO F) {flat : Bool} {c : Cfg} {w w' : W F} {dims : List Nat} {a : Nd F} {it : Item F}
    (h : putItem flat c w dims a = .ok (w', it)) (hd : dims ≠ []) (hl : a.rows.flatten.length = prod dims) (hp : Printable io c a) :
    ItemGood io it := by
  unfold putItem at h
  split at h
  · cases h
  · next num hn =>
    split at h
    · cases h
    · next w1 t ht =>
      injection h with h
      injection h with _ h
      subst h
      refine ⟨a.dtype, find_xdmfToNumpy _ (find_mem hn), ?_⟩
      unfold putText at ht
      split at ht
      · next hf =>
        split at ht
        · cases ht
        · split at ht
          · cases ht
          · injection ht with ht
            injection ht with _ ht
            subst ht
            refine .inl ⟨hf, _, rfl, hl, hd, ?_⟩
            intro v hv
            obtain ⟨r, hr, hv⟩ := List.mem_flatten.1 hv
            exact hp hf r hr v hv
      · next hf =>
        injection ht with ht
        injection ht with _ ht
        subst ht
        exact .inr ⟨by simp [hf], _, rfl, by simp [binName]⟩
      · next hf =>
        split at ht
        · split at ht
          · cases ht
          · injection ht with ht
            injection ht with _ ht
            subst ht
            exact .inr ⟨by simp [hf], _, rfl, by simp [h5Name]⟩
        · cases ht

theorem length_rect {a : Nd F} (h : Rect a) : a.rows.flatten.length = prod a.shape := by
  unfold Nd.shape
  rw [prod_cons]
  unfold Rect at h
  generalize prod a.inner = k at h
  generalize a.rows = rows at h
  induction rows with
  | nil => simp
  | cons r rows ih =>
    rw [List.flatten_cons, List.length_append, ih (fun x hx => h x (by simp [hx])), h r (by simp), List.length_cons, Nat.add_mul]
    omega

theorem shape_ne (a : Nd F) : a.shape ≠ [] := by simp [Nd.shape]

theorem geometryType_ok (d : Nat) (h : ¬ d > 3) : OkValue (geometryType d).toList := by
  have : d = 0 ∨ d = 1 ∨ d = 2 ∨ d = 3 := by omega
  rcases this with rfl | rfl | rfl | rfl <;> decide

theorem xdmfName_ok (t ty : String) (h : xdmfName t = some ty) : OkValue ty.toList := by
  have key : ∀ e ∈ meshioToXdmf, ∀ ty ∈ e.2, OkValue ty.toList := by decide +kernel
  unfold xdmfName at h
  cases hf : find meshioToXdmf t with
  | none => rw [hf] at h; cases h
  | some l =>
    rw [hf] at h
    exact key _ (find_mem hf) ty (List.mem_of_mem_head? h)

theorem attrType_ok (inner : List Nat) (ty : String) (h : attributeType inner = .ok ty) : OkValue ty.toList := by
  unfold attributeType at h
  split at h
  · injection h with h; subst h; decide
  · split at h
    · injection h with h; subst h; decide
    · split at h
      · injection h with h; subst h; decide
      · split at h
        · injection h with h; subst h; decide
        · split at h
          · cases h
          · injection h with h; subst h; decide

theorem putAttr_good (io : XdmfIO F) {flat : Bool} {c : Cfg} {center : String} (hce : OkValue center.toList) {s s' : W F × List (Elem F T)}
    {e : List Char × Nd F} (h : putAttr flat c center s e = .ok s') (hn : OkValue e.1) (hr : Rect e.2) (hp : Printable io c e.2)
    (hs : ∀ x ∈ s.2, ElemGood io x) : ∀ x ∈ s'.2, ElemGood io x := by
  unfold putAttr at h
  split at h
  · cases h
  · next ty hty =>
    split at h
    · cases h
    · next w it hit =>
      injection h with h
      subst h
      intro x hx
      rcases List.mem_append.1 hx with hx | hx
      · exact hs x hx
      · rw [List.mem_singleton] at hx
        subst hx
        exact ⟨hn, attrType_ok _ _ hty, hce, putItem_good io hit (shape_ne _) (length_rect hr) hp⟩

theorem putAttrs_good (io : XdmfIO F) {flat : Bool} {c : Cfg} {center : String} (hce : OkValue center.toList) (l : List (List Char × Nd F))
    {s s' : W F × List (Elem F T)} (h : foldRes (putAttr flat c center) s l = .ok s')
    (hl : ∀ e ∈ l, OkValue e.1 ∧ Rect e.2 ∧ Printable io c e.2)
    (hs : ∀ x ∈ s.2, ElemGood io x) : ∀ x ∈ s'.2, ElemGood io x := by
  induction l generalizing s with
  | nil => simp only [foldRes] at h; injection h with h; subst h; exact hs
  | cons e l ih =>
    rw [foldRes] at h
    split at h
    · cases h
    · next s1 h1 =>
      obtain ⟨g1, g2, g3⟩ := hl e (by simp)
      exact ih h (fun x hx => hl x (by simp [hx])) (putAttr_good io hce h1 g1 g2 g3 hs)

theorem int_ok (io : XdmfIO F) (i : Int) : NumOk io "int64" (.int i) := by
  refine ⟨isTok_fmtInt i, ?_⟩
  unfold numParse numFmt
  rw [if_neg (by decide), parseInt_fmtInt]

theorem putCells_good (io : XdmfIO F) {c : Cfg} {s s' : W F × List (Elem F T)} {cells : List (String × List (List Int))}
    (h : putCells c s cells = .ok s') (hu : ∀ b ∈ cells, ∀ r ∈ b.2, r.length = widthOf b.2)
    (hs : ∀ x ∈ s.2, ElemGood io x) : ∀ x ∈ s'.2, ElemGood io x := by
  unfold putCells at h
  split at h
  · injection h with h; subst h; exact hs
  · next b =>
    unfold putSingle at h
    split at h
    · cases h
    · next ty hty =>
      split at h
      · cases h
      · next w it hit =>
        injection h with h
        subst h
        intro x hx
        rcases List.mem_append.1 hx with hx | hx
        · exact hs x hx
        · rw [List.mem_singleton] at hx
          subst hx
          have hr := rect_connNd (F := F) (widthOf b.2) b.2 (hu b (by simp))
          have hlen := length_rect hr
          refine ⟨xdmfName_ok _ _ hty, putItem_good io hit (by simp) ?_ ?_⟩
          · rw [hlen]; simp [Nd.shape, connNd]
          · intro _ r hr v hv
            simp only [connNd, List.mem_map] at hr
            obtain ⟨r', _, rfl⟩ := hr
            obtain ⟨i, _, rfl⟩ := List.mem_map.1 hv
            exact int_ok io i
  · split at h
    · cases h
    · next cd hcd =>
      split at h
      · cases h
      · next w it hit =>
        injection h with h
        subst h
        intro x hx
        rcases List.mem_append.1 hx with hx | hx
        · exact hs x hx
        · rw [List.mem_singleton] at hx
          subst hx
          refine ⟨by decide, putItem_good io hit (by simp) ?_ ?_⟩
          · rw [flatten_flatNd, List.length_map, mixedDim_eq _ cd hu hcd]
            simp [prod]
          · intro _ r hr v hv
            simp only [flatNd, List.mem_map] at hr
            obtain ⟨i, _, rfl⟩ := hr
            rw [List.mem_singleton] at hv
            subst hv
            exact int_ok io i

theorem putPoints_good (io : XdmfIO F) {c : Cfg} {s s' : W F × List (Elem F T)} {p : Nd F} (h : putPoints c s p = .ok s')
    (hr : Rect p) (hp : Printable io c p) (hs : ∀ x ∈ s.2, ElemGood io x) : ∀ x ∈ s'.2, ElemGood io x := by
  unfold putPoints at h
  split at h
  · next d hd =>
    split at h
    · cases h
    · next hle =>
      split at h
      · cases h
      · next w it hit =>
        injection h with h
        subst h
        intro x hx
        rcases List.mem_append.1 hx with hx | hx
        · exact hs x hx
        · rw [List.mem_singleton] at hx
          subst hx
          exact ⟨geometryType_ok d hle, putItem_good io hit (shape_ne _) (length_rect hr) hp⟩
  · cases h

theorem concat_good (io : XdmfIO F) {c : Cfg} {l : List (Nd F)} {a : Nd F} (h : concatNd l = .ok a) (hl : ∀ b ∈ l, Rect b ∧ Printable io c b) :
    Rect a ∧ Printable io c a := by
  cases l with
  | nil => simp [concatNd] at h
  | cons b l =>
    rw [concatNd] at h
    split at h
    · next h1 =>
      split at h
      · next h2 =>
        injection h with h
        subst h
        rw [List.all_eq_true] at h1 h2
        constructor
        · intro r hr
          rcases List.mem_append.1 hr with hr | hr
          · exact (hl b (by simp)).1 r hr
          · obtain ⟨x, hx, hr⟩ := List.mem_flatMap.1 hr
            have := (hl x (by simp [hx])).1 r hr
            rw [of_decide_eq_true (h1 x hx)] at this
            exact this
        · intro hf r hr v hv
          rcases List.mem_append.1 hr with hr | hr
          · exact (hl b (by simp)).2 hf r hr v hv
          · obtain ⟨x, hx, hr⟩ := List.mem_flatMap.1 hr
            have := (hl x (by simp [hx])).2 hf r hr v hv
            rw [of_decide_eq_true (h2 x hx)] at this
            exact this
      · cases h
    · cases h

theorem raw_good (io : XdmfIO F) {c : Cfg} (cd : List (List Char × List (Nd F))) (raw : List (List Char × Nd F)) (h : rawCellData cd = .ok raw)
    (hl : ∀ e ∈ cd, OkValue e.1 ∧ ∀ b ∈ e.2, Rect b ∧ Printable io c b) : ∀ e ∈ raw, OkValue e.1 ∧ Rect e.2 ∧ Printable io c e.2 := by
  unfold rawCellData at h
  induction cd generalizing raw with
  | nil => simp only [mapRes] at h; injection h with h; subst h; intro e he; cases he
  | cons x cd ih =>
    rw [mapRes] at h
    split at h
    · cases h
    · next y hy =>
      split at h
      · cases h
      · next ys hys =>
        injection h with h
        subst h
        intro e he
        rcases List.mem_cons.1 he with rfl | he
        · cases hc : concatNd x.2 with
          | error err => rw [hc] at hy; cases hy
          | ok a =>
            rw [hc] at hy
            have hy : Except.ok (x.1, a) = Except.ok e := hy
            injection hy with hy
            subst hy
            exact ⟨(hl x (by simp)).1, concat_good io hc (hl x (by simp)).2⟩
        · exact ih ys hys (fun z hz => hl z (by simp [hz])) e he

theorem write_good (io : XdmfIO F) {c : Cfg} {w w' : W F} {m : XMesh F} {grid : List (Elem F T)} (h : Xdmf.write c w m = .ok (w', grid))
    (hp : Rect m.points ∧ Printable io c m.points) (hu : ∀ b ∈ m.cells, ∀ r ∈ b.2, r.length = widthOf b.2)
    (hpd : ∀ e ∈ m.pointData, OkValue e.1 ∧ Rect e.2 ∧ Printable io c e.2)
    (hcd : ∀ e ∈ m.cellData, OkValue e.1 ∧ ∀ b ∈ e.2, Rect b ∧ Printable io c b) : ∀ e ∈ grid, ElemGood io e := by
  unfold Xdmf.write at h
  split at h
  · cases h
  · next s1 h1 =>
    split at h
    · cases h
    · next s2 h2 =>
      split at h
      · cases h
      · next s3 h3 =>
        split at h
        · cases h
        · next raw hraw =>
          have g1 := putPoints_good io h1 hp.1 hp.2 (by intro x hx; cases hx)
          have g2 := putCells_good io h2 hu g1
          have g3 := putAttrs_good io (by decide) _ h3 hpd g2
          exact putAttrs_good io (by decide) _ h (raw_good io _ _ hraw hcd) g3

end XdmfFile
end Meshio
