/-
The text of a time series is read as the elements that were written.
-/
import Verif.Proofs.XdmfFile
import Verif.Proofs.XdmfSeries
import Verif.Model.XdmfSeriesFile
namespace Meshio
namespace XdmfFile
open Types Tables Xdmf Spec Et

variable {F T : Type}

/-- An item that is read as it is. -/
def TsItemGood (io : XdmfIO F) (it : Item F) : Prop :=
  ∃ d, find xdmfToNumpy it.num = some d ∧
    ((it.fmt = .xml ∧ ∃ l, it.text = .numbers l ∧ l ≠ [] ∧ ∀ v ∈ l, NumOk io d v) ∨ (it.fmt ≠ .xml ∧ ∃ s, it.text = .path s ∧ s ≠ []))

def TsElemGood (io : SeriesIO F T) : Elem F T → Prop
  | .geometry _ [it] => TsItemGood io.num it
  | .topology _ [it] => TsItemGood io.num it
  | .attr _ _ _ [it] => TsItemGood io.num it
  | .time t => io.parseTime (io.fmtTime t) = some t
  | .incl => True
  | _ => False

/-- The values of an item and of an element are proper. -/
def ItemValues (it : Item F) : Prop := OkValue it.num.1.toList ∧ OkValue it.num.2.toList

def ElemValues (io : SeriesIO F T) : Elem F T → Prop
  | .geometry ty items => OkValue ty.toList ∧ ∀ it ∈ items, ItemValues it
  | .topology ty items => OkValue ty.toList ∧ ∀ it ∈ items, ItemValues it
  | .attr n ty ce items => OkValue n ∧ OkValue ty.toList ∧ OkValue ce.toList ∧ ∀ it ∈ items, ItemValues it
  | .time t => OkValue (io.fmtTime t)
  | .incl => True

/-! ## The elements -/

def tsItems (io : XdmfIO F) : List (Item F) → Et
  | [] => .nil
  | it :: l => .elem "DataItem" (itemAttrs it) (tsItemText io it) .nil (tsItems io l)

/-- An element: its name, its attributes and its items. -/
def tsHead (io : SeriesIO F T) (total : Nat) : Elem F T → String × List (String × String) × List (Item F)
  | .geometry ty items => ("Geometry", [("GeometryType", ty)], items)
  | .topology ty items => ("Topology", [("TopologyType", ty), ("NumberOfElements", String.ofList (fmtNat total))], items)
  | .attr n ty ce items => ("Attribute", [("Name", String.ofList n), ("AttributeType", ty), ("Center", ce)], items)
  | .time t => ("Time", [("Value", String.ofList (io.fmtTime t))], [])
  | .incl => ("ns0:include", [("xpointer", pointer)], [])

def tsEt (io : SeriesIO F T) (total : Nat) : List (Elem F T) → Et
  | [] => .nil
  | e :: r => .elem (tsHead io total e).1 (tsHead io total e).2.1 [] (tsItems io.num (tsHead io total e).2.2) (tsEt io total r)

def stepsEt (io : SeriesIO F T) : List (List (Elem F T)) → Et
  | [] => .nil
  | g :: r => .elem "Grid" [] [] (tsEt io 0 g) (stepsEt io r)

def meshesEt (io : SeriesIO F T) : List (Nat × List (Elem F T)) → Et
  | [] => .nil
  | m :: r => .elem "Grid" [("Name", "mesh"), ("GridType", "Uniform")] [] (tsEt io m.1 m.2) (meshesEt io r)

def collAttrs : List (String × String) := [("Name", "TimeSeries_meshio"), ("GridType", "Collection"), ("CollectionType", "Temporal")]

def seriesEt (io : SeriesIO F T) (coll : List (List (Elem F T))) (meshes : List (Nat × List (Elem F T))) : Et :=
  .elem "Domain" [] [] (.elem "Grid" collAttrs [] (stepsEt io coll) (meshesEt io meshes)) .nil

theorem render_tsItems (io : XdmfIO F) (l : List (Item F)) : (tsItems io l).render = l.flatMap (tsItemXml io) := by
  induction l with
  | nil => rfl
  | cons it l ih =>
    have e : Et.attrsText (itemAttrs it) =
        [("DataType", it.num.1.toList), ("Dimensions", joinWith ' ' (it.dims.map fmtNat)), ("Format", (fmtName it.fmt).toList),
          ("Precision", it.num.2.toList)].flatMap attrText := by
      simp [Et.attrsText, itemAttrs]
    simp only [tsItems, Et.render, List.flatMap_cons, tsItemXml, elemText, e, ih]
    simp

theorem render_ts (io : SeriesIO F T) (total : Nat) (g : List (Elem F T)) : (tsEt io total g).render = g.flatMap (tsElemXml io total) := by
  have h0 : Svg.escText [] = [] := rfl
  induction g with
  | nil => rfl
  | cons e g ih =>
    cases e with
    | geometry ty items =>
      simp only [tsEt, tsHead, Et.render, List.flatMap_cons, tsElemXml, elemText, ih, render_tsItems, h0, Et.attrsText]
      simp
    | topology ty items =>
      simp only [tsEt, tsHead, Et.render, List.flatMap_cons, tsElemXml, elemText, ih, render_tsItems, h0, Et.attrsText]
      simp
    | attr n ty ce items =>
      simp only [tsEt, tsHead, Et.render, List.flatMap_cons, tsElemXml, elemText, ih, render_tsItems, h0, Et.attrsText]
      simp
    | time t =>
      simp only [tsEt, tsHead, Et.render, List.flatMap_cons, tsElemXml, elemText, ih, render_tsItems, h0, Et.attrsText]
      simp
    | incl =>
      simp only [tsEt, tsHead, Et.render, List.flatMap_cons, tsElemXml, elemText, ih, render_tsItems, h0, Et.attrsText]
      simp

theorem render_steps (io : SeriesIO F T) (coll : List (List (Elem F T))) : (stepsEt io coll).render = coll.flatMap (stepXml io) := by
  have h0 : Svg.escText [] = [] := rfl
  induction coll with
  | nil => rfl
  | cons g coll ih =>
    simp only [stepsEt, Et.render, List.flatMap_cons, stepXml, elemText, ih, render_ts, h0, Et.attrsText]
    simp

theorem render_meshes (io : SeriesIO F T) (ms : List (Nat × List (Elem F T))) : (meshesEt io ms).render = ms.flatMap (meshXml io) := by
  have h0 : Svg.escText [] = [] := rfl
  induction ms with
  | nil => rfl
  | cons g coll ih =>
    simp only [meshesEt, Et.render, List.flatMap_cons, meshXml, elemText, ih, render_ts, h0, Et.attrsText]
    simp

theorem render_series (io : SeriesIO F T) (coll : List (List (Elem F T))) (ms : List (Nat × List (Elem F T))) :
    seriesDocument io coll ms = (Et.elem "Xdmf" (strAttrs (rootAttrs coll)) [] (seriesEt io coll ms) .nil).render := by
  have h0 : Svg.escText [] = [] := rfl
  simp only [seriesDocument, seriesEt, Et.render, elemText, render_steps, render_meshes, attrsText_str, h0, List.append_nil, List.nil_append]
  simp [Et.attrsText, collAttrs]

/-! ## The elements are proper -/

theorem tsItems_ok (io : XdmfIO F) (l : List (Item F)) (h : ∀ it ∈ l, ItemValues it) : (tsItems io l).Ok := by
  induction l with
  | nil => trivial
  | cons it l ih =>
    refine ⟨by decide, ?_, by simp [itemAttrs], trivial, ih fun x hx => h x (by simp [hx])⟩
    intro a ha
    simp only [itemAttrs, List.mem_cons, List.not_mem_nil, or_false] at ha
    rcases ha with rfl | rfl | rfl | rfl
    · exact ⟨show XmlName "DataType" by decide, (h it (by simp)).1⟩
    · exact ⟨show XmlName "Dimensions" by decide, by simpa using okValue_dims it.dims⟩
    · exact ⟨show XmlName "Format" by decide, by cases it.fmt <;> decide⟩
    · exact ⟨show XmlName "Precision" by decide, (h it (by simp)).2⟩

theorem tsEt_ok (io : SeriesIO F T) (total : Nat) (g : List (Elem F T)) (h : ∀ e ∈ g, ElemValues io e) : (tsEt io total g).Ok := by
  induction g with
  | nil => trivial
  | cons e g ih =>
    have hr := ih fun x hx => h x (by simp [hx])
    have he := h e (by simp)
    cases e with
    | geometry ty items =>
      refine ⟨show XmlName "Geometry" by decide, ?_, by simp [tsHead], tsItems_ok io.num items he.2, hr⟩
      intro a ha
      simp only [tsHead, List.mem_cons, List.not_mem_nil, or_false] at ha
      subst ha
      exact ⟨show XmlName "GeometryType" by decide, he.1⟩
    | topology ty items =>
      refine ⟨show XmlName "Topology" by decide, ?_, by simp [tsHead], tsItems_ok io.num items he.2, hr⟩
      intro a ha
      simp only [tsHead, List.mem_cons, List.not_mem_nil, or_false] at ha
      rcases ha with rfl | rfl
      · exact ⟨show XmlName "TopologyType" by decide, he.1⟩
      · exact ⟨show XmlName "NumberOfElements" by decide, by simpa using okValue_digits _⟩
    | attr n ty ce items =>
      obtain ⟨h1, h2, h3, h4⟩ := he
      refine ⟨show XmlName "Attribute" by decide, ?_, by simp [tsHead], tsItems_ok io.num items h4, hr⟩
      intro a ha
      simp only [tsHead, List.mem_cons, List.not_mem_nil, or_false] at ha
      rcases ha with rfl | rfl | rfl
      · exact ⟨show XmlName "Name" by decide, by simpa using h1⟩
      · exact ⟨show XmlName "AttributeType" by decide, h2⟩
      · exact ⟨show XmlName "Center" by decide, h3⟩
    | time t =>
      refine ⟨show XmlName "Time" by decide, ?_, by simp [tsHead], trivial, hr⟩
      intro a ha
      simp only [tsHead, List.mem_cons, List.not_mem_nil, or_false] at ha
      subst ha
      exact ⟨show XmlName "Value" by decide, by simpa [ElemValues] using he⟩
    | incl =>
      refine ⟨show XmlName "ns0:include" by decide, ?_, by simp [tsHead], trivial, hr⟩
      intro a ha
      simp only [tsHead, List.mem_cons, List.not_mem_nil, or_false] at ha
      subst ha
      exact ⟨show XmlName "xpointer" by decide, show OkValue pointer.toList by decide +kernel⟩

theorem stepsEt_ok (io : SeriesIO F T) (coll : List (List (Elem F T))) (h : ∀ g ∈ coll, ∀ e ∈ g, ElemValues io e) : (stepsEt io coll).Ok := by
  induction coll with
  | nil => trivial
  | cons g coll ih =>
    exact ⟨show XmlName "Grid" by decide, by simp, by simp, tsEt_ok io 0 g (h g (by simp)), ih fun x hx => h x (by simp [hx])⟩

theorem meshesEt_ok (io : SeriesIO F T) (ms : List (Nat × List (Elem F T))) (h : ∀ m ∈ ms, ∀ e ∈ m.2, ElemValues io e) : (meshesEt io ms).Ok := by
  induction ms with
  | nil => trivial
  | cons g coll ih =>
    refine ⟨show XmlName "Grid" by decide, ?_, by simp, tsEt_ok io g.1 g.2 (h g (by simp)), ih fun x hx => h x (by simp [hx])⟩
    decide

theorem parse_series (io : SeriesIO F T) (coll : List (List (Elem F T))) (ms : List (Nat × List (Elem F T)))
    (h1 : ∀ g ∈ coll, ∀ e ∈ g, ElemValues io e) (h2 : ∀ m ∈ ms, ∀ e ∈ m.2, ElemValues io e) :
    parseXml (seriesDocument io coll ms) = some ⟨"Xdmf", strAttrs (rootAttrs coll), [], (seriesEt io coll ms).tree⟩ := by
  rw [render_series]
  apply parseXml_et
  refine ⟨by decide, ?_, ?_, ⟨by decide, by simp, by simp, ⟨by decide, ?_, ?_, stepsEt_ok io coll h1, meshesEt_ok io ms h2⟩, trivial⟩, trivial⟩
  · unfold rootAttrs
    cases hasInclude coll <;> decide +kernel
  · unfold rootAttrs
    cases hasInclude coll <;> decide +kernel
  · unfold collAttrs; decide +kernel
  · unfold collAttrs; decide +kernel

/-! ## Reading the tree -/

/-- The element that an element of a grid becomes. -/
def tsElemOf (io : SeriesIO F T) (total : Nat) (e : Elem F T) : XmlElem :=
  ⟨(tsHead io total e).1, (tsHead io total e).2.1, [], (tsItems io.num (tsHead io total e).2.2).tree⟩

theorem elems_ts (io : SeriesIO F T) (total : Nat) (g : List (Elem F T)) : (tsEt io total g).tree.elems = g.map (tsElemOf io total) := by
  induction g with
  | nil => rfl
  | cons e g ih => simp only [tsEt, Et.tree, Xml.elems, List.map_cons, ih]; rfl

def stepElemOf (io : SeriesIO F T) (g : List (Elem F T)) : XmlElem := ⟨"Grid", [], [], (tsEt io 0 g).tree⟩

def meshElemOf (io : SeriesIO F T) (m : Nat × List (Elem F T)) : XmlElem :=
  ⟨"Grid", [("Name", "mesh"), ("GridType", "Uniform")], [], (tsEt io m.1 m.2).tree⟩

theorem elems_steps (io : SeriesIO F T) (coll : List (List (Elem F T))) : (stepsEt io coll).tree.elems = coll.map (stepElemOf io) := by
  induction coll with
  | nil => rfl
  | cons e g ih => simp only [stepsEt, Et.tree, Xml.elems, List.map_cons, ih]; rfl

theorem elems_meshes (io : SeriesIO F T) (ms : List (Nat × List (Elem F T))) : (meshesEt io ms).tree.elems = ms.map (meshElemOf io) := by
  induction ms with
  | nil => rfl
  | cons e g ih => simp only [meshesEt, Et.tree, Xml.elems, List.map_cons, ih]; rfl

theorem splitWs_lines (io : XdmfIO F) (d : String) (l : List (Xdmf.Val F)) (h : ∀ v ∈ l, NumOk io d v) :
    splitWs (l.flatMap fun v => numFmt io d v ++ ['\n']) = l.map (numFmt io d) := by
  have := splitWs_linesText (l.map fun v => [numFmt io d v]) (by
    intro r hr t ht
    obtain ⟨v, hv, rfl⟩ := List.mem_map.1 hr
    rw [List.mem_singleton] at ht
    subst ht
    exact (h v hv).1) []
  rw [List.append_nil] at this
  have e : linesText ((l.map fun v => [numFmt io d v]).map (joinWith ' ')) = l.flatMap fun v => numFmt io d v ++ ['\n'] := by
    simp only [linesText, List.map_map, List.flatMap_map]
    rfl
  rw [e] at this
  rw [this]
  have key : ∀ l : List (Xdmf.Val F), ((l.map fun v => [numFmt io d v])).flatten = l.map (numFmt io d) := by
    intro l
    induction l with
    | nil => rfl
    | cons v l ih => simp only [List.map_cons, List.flatten_cons, ih]; rfl
  rw [key]
  simp [splitWs, splitWsGo]

theorem tsDataItem_good (io : XdmfIO F) (dir : List Char) (fs : Files F) (it : Item F) (h : TsItemGood io it) :
    tsDataItem io dir fs ⟨"DataItem", itemAttrs it, tsItemText io it, .nil⟩ = readItem true dir fs it := by
  obtain ⟨d, hd, h⟩ := h
  have hty : tsNumberType ⟨"DataItem", itemAttrs it, tsItemText io it, .nil⟩ = .ok it.num.1 := by
    have hne : it.num.1 ≠ "" := by
      have key : ∀ e ∈ xdmfToNumpy, e.1.1 ≠ "" := by decide +kernel
      exact key _ (find_mem hd)
    unfold tsNumberType truthy
    rw [show XmlElem.attr? ⟨"DataItem", itemAttrs it, tsItemText io it, .nil⟩ "DataType" = some it.num.1 from rfl,
      show XmlElem.attr? ⟨"DataItem", itemAttrs it, tsItemText io it, .nil⟩ "NumberType" = none from rfl]
    simp only
    rw [if_neg hne]
  unfold tsDataItem
  rw [hty, itemAs_good io it d hd]
  rcases h with ⟨hf, l, hl, h1, h2⟩ | ⟨hf, s, hs, hne⟩
  · have ht : tsItemText io it = l.flatMap fun v => numFmt io d v ++ ['\n'] := by
      unfold tsItemText; rw [hl, hd]; rfl
    refine .inl ⟨hf, l, hl, ?_, by rw [ht]; exact splitWs_lines io d l h2, h2⟩
    rw [ht]
    cases l with
    | nil => exact absurd rfl h1
    | cons v l => simp
  · have ht : tsItemText io it = s := by unfold tsItemText; rw [hs]
    exact .inr ⟨hf, by rw [ht]; exact hs, by rw [ht]; exact hne⟩

theorem tsOnly_good (io : XdmfIO F) (dir : List Char) (fs : Files F) (it : Item F) (h : TsItemGood io it) (tag : String)
    (as : List (String × String)) (x : List Char) :
    tsOnly io dir fs ⟨tag, as, x, (tsItems io [it]).tree⟩ = readItem true dir fs it := by
  unfold tsOnly
  rw [show XmlElem.kids ⟨tag, as, x, (tsItems io [it]).tree⟩ = [⟨"DataItem", itemAttrs it, tsItemText io it, .nil⟩] from rfl]
  exact tsDataItem_good io dir fs it h

theorem tsMeshElem_good (io : SeriesIO F T) (dir : List Char) (fs : Files F) (total : Nat) (e : Elem F T) (h : TsElemGood io e)
    (s : Option (Nd F) × List (String × List (List Int))) :
    tsMeshElem io.num dir fs s (tsElemOf io total e) = tsReadElem dir fs s e := by
  match e, h with
  | .geometry ty [it], h =>
    unfold tsMeshElem
    rw [if_neg (by simp [tsElemOf, tsHead]), if_pos (show (tsElemOf io total (.geometry ty [it])).tag = "Geometry" from rfl)]
    rw [show XmlElem.attr? (tsElemOf io total (.geometry ty [it])) "GeometryType" = some ty from rfl]
    simp only [tsReadElem, tsElemOf, tsHead]
    rw [tsOnly_good io.num dir fs it h]
    simp only [reduceCtorEq, Option.some.injEq, false_or]
    rfl
  | .topology ty [it], h =>
    unfold tsMeshElem
    rw [if_pos (show (tsElemOf io total (.topology ty [it])).tag = "Topology" from rfl)]
    rw [show either (tsElemOf io total (.topology ty [it])) "Type" "TopologyType" = .ok ty from rfl]
    simp only [tsReadElem, tsElemOf, tsHead]
    rw [tsOnly_good io.num dir fs it h]
    rfl
  | .attr n ty ce [it], h =>
    unfold tsMeshElem
    rw [if_neg (by simp [tsElemOf, tsHead]), if_neg (by simp [tsElemOf, tsHead])]
    rfl
  | .time t, h =>
    unfold tsMeshElem
    rw [if_neg (by simp [tsElemOf, tsHead]), if_neg (by simp [tsElemOf, tsHead])]
    rfl
  | .incl, h =>
    unfold tsMeshElem
    rw [if_neg (by simp [tsElemOf, tsHead]), if_neg (by simp [tsElemOf, tsHead])]
    rfl

theorem tsStepElem_good (io : SeriesIO F T) (dir : List Char) (fs : Files F) (total : Nat) (e : Elem F T) (h : TsElemGood io e) (s : DSt F T) :
    tsStepElem io dir fs s (tsElemOf io total e) = tsReadData dir fs s e := by
  match e, h with
  | .geometry ty [it], h =>
    unfold tsStepElem
    rw [if_neg (by simp [tsElemOf, tsHead]), if_neg (by simp [tsElemOf, tsHead])]
    rfl
  | .topology ty [it], h =>
    unfold tsStepElem
    rw [if_neg (by simp [tsElemOf, tsHead]), if_neg (by simp [tsElemOf, tsHead])]
    rfl
  | .attr n ty ce [it], h =>
    unfold tsStepElem
    rw [if_neg (by simp [tsElemOf, tsHead]), if_pos (show (tsElemOf io total (.attr n ty ce [it])).tag = "Attribute" from rfl)]
    rw [show XmlElem.attr? (tsElemOf io total (.attr n ty ce [it])) "Center" = some ce from rfl,
      show XmlElem.attr? (tsElemOf io total (.attr n ty ce [it])) "Name" = some (String.ofList n) from rfl]
    simp only [tsReadData, tsElemOf, tsHead]
    rw [tsOnly_good io.num dir fs it h]
    cases readItem true dir fs it with
    | error x => rfl
    | ok a =>
      simp only [String.toList_ofList, Option.some.injEq]
      by_cases hn : ce = "Node"
      · simp only [hn, true_or, if_true]
      · by_cases hcell : ce = "Cell"
        · simp only [hcell, show ¬ "Cell" = "Node" by decide, or_true, if_true, if_false]
        · rw [if_neg (by simp [hn, hcell]), if_neg hn, if_neg hcell]
  | .time t, h =>
    unfold tsStepElem
    rw [if_pos (show (tsElemOf io total (.time t)).tag = "Time" from rfl)]
    rw [show XmlElem.attr? (tsElemOf io total (.time t)) "Value" = some (String.ofList (io.fmtTime t)) from rfl]
    simp only [String.toList_ofList]
    rw [show io.parseTime (io.fmtTime t) = some t from h]
    rfl
  | .incl, h =>
    unfold tsStepElem
    rw [if_neg (by simp [tsElemOf, tsHead]), if_neg (by simp [tsElemOf, tsHead])]
    rfl

theorem foldRes_congr {α α' S : Type} (f : S → α' → Res S) (g : S → α → Res S) (m : α → α') (l : List α) (h : ∀ a ∈ l, ∀ s, f s (m a) = g s a) (s : S) :
    foldRes f s (l.map m) = foldRes g s l := by
  induction l generalizing s with
  | nil => rfl
  | cons a l ih =>
    rw [List.map_cons, foldRes, foldRes, h a (by simp)]
    cases g s a with
    | error e => rfl
    | ok s' => exact ih (fun x hx => h x (by simp [hx])) s'

/-- What the constructor finds in the document. -/
theorem open_series (io : SeriesIO F T) (coll : List (List (Elem F T))) (ms : List (Nat × List (Elem F T))) (m : Nat × List (Elem F T))
    (h1 : ∀ g ∈ coll, ∀ e ∈ g, ElemValues io e) (h2 : ∀ m ∈ ms, ∀ e ∈ m.2, ElemValues io e) (hm : ms.getLast? = some m) :
    openSeries (seriesDocument io coll ms) = .ok ⟨coll.map (stepElemOf io), meshElemOf io m⟩ := by
  unfold openSeries
  rw [parse_series io coll ms h1 h2]
  simp only
  have hv : XmlElem.attr? ⟨"Xdmf", strAttrs (rootAttrs coll), [], (seriesEt io coll ms).tree⟩ "Version" = some "3.0" := by
    simp only [XmlElem.attr?, rootAttrs]
    cases hasInclude coll <;> rfl
  have hk : XmlElem.kids ⟨"Xdmf", strAttrs (rootAttrs coll), [], (seriesEt io coll ms).tree⟩ =
    [⟨"Domain", [], [], .cons "Grid" collAttrs [] (stepsEt io coll).tree (meshesEt io ms).tree⟩] := rfl
  have hd : XmlElem.kids ⟨"Domain", [], [], .cons "Grid" collAttrs [] (stepsEt io coll).tree (meshesEt io ms).tree⟩ =
      ⟨"Grid", collAttrs, [], (stepsEt io coll).tree⟩ :: ms.map (meshElemOf io) := by
    simp only [XmlElem.kids, Xml.elems, elems_meshes]
  have hc : findCollection (⟨"Grid", collAttrs, [], (stepsEt io coll).tree⟩ :: ms.map (meshElemOf io)) =
      .ok ⟨"Grid", collAttrs, [], (stepsEt io coll).tree⟩ := by
    unfold findCollection
    rw [List.filter_cons, if_pos (by rfl)]
    rw [show (ms.map (meshElemOf io)).filter (fun g => decide (g.attr? "GridType" = some "Collection")) = [] by
      rw [List.filter_eq_nil_iff]
      intro a ha
      obtain ⟨x, _, rfl⟩ := List.mem_map.1 ha
      show ¬ (decide (some "Uniform" = some "Collection")) = true
      decide]
    rfl
  have hmesh : findMesh (⟨"Grid", collAttrs, [], (stepsEt io coll).tree⟩ :: ms.map (meshElemOf io)) (coll.map (stepElemOf io)) =
      .ok (meshElemOf io m) := by
    unfold findMesh
    rw [List.filter_cons, if_neg (by show ¬ (decide (some "Collection" = some "Uniform")) = true; decide)]
    rw [List.filter_eq_self.2 (by
      intro a ha
      obtain ⟨x, _, rfl⟩ := List.mem_map.1 ha
      rfl), List.getLast?_map, hm]
    rfl
  unfold tsOpen
  rw [if_neg (by simp), hv]
  simp only
  rw [if_neg (by decide), hk]
  simp only [only]
  rw [if_neg (by simp), hd, hc]
  simp only
  rw [show XmlElem.kids ⟨"Grid", collAttrs, [], (stepsEt io coll).tree⟩ = coll.map (stepElemOf io) from elems_steps io coll, hmesh]

theorem tsMesh_good (io : SeriesIO F T) (dir : List Char) (fs : Files F) (steps : List XmlElem) (m : Nat × List (Elem F T))
    (h : ∀ e ∈ m.2, TsElemGood io e) :
    tsMesh io dir fs ⟨steps, meshElemOf io m⟩ = foldRes (tsReadElem dir fs) (none, []) m.2 := by
  unfold tsMesh
  rw [show (Opened.mesh ⟨steps, meshElemOf io m⟩).kids = m.2.map (tsElemOf io m.1) from elems_ts io m.1 m.2]
  exact foldRes_congr _ _ _ _ (fun e he s => tsMeshElem_good io dir fs m.1 e (h e he) s) _

theorem tsStep_good (io : SeriesIO F T) (dir : List Char) (s : Series F T) (m : XmlElem) (cells : Option (List (String × List (List Int)))) (k : Nat)
    (h : ∀ g, s.coll[k]? = some g → ∀ e ∈ g, TsElemGood io e) :
    tsStep io dir s.w.files ⟨s.coll.map (stepElemOf io), m⟩ cells k = readData dir s cells k := by
  unfold tsStep readData
  simp only [List.getElem?_map]
  cases hg : s.coll[k]? with
  | none => rfl
  | some g =>
    simp only [Option.map_some]
    rw [show (stepElemOf io g).kids = g.map (tsElemOf io 0) from elems_ts io 0 g]
    rw [foldRes_congr _ (tsReadData dir s.w.files) _ _ (fun e he s' => tsStepElem_good io dir s.w.files 0 e (h g hg e he) s')]
    rfl

/-! ## What the calls leave behind -/

/-- An item written without an exception. -/
theorem addItem_out {c : Cfg} {w : W F} {mk : List (Item F) → Elem F T} {dims : List Nat} {a : Nd F} (h : (addItem c w mk dims a).err = none) :
    ∃ it, (addItem c w mk dims a).elems = [mk [it]] ∧ find numpyToXdmf a.dtype = some it.num ∧ it.dims = dims ∧ it.fmt = c.fmt ∧
      ∀ io, Printable io c a → (c.fmt = .xml → a.rows.flatten ≠ []) → TsItemGood io it := by
  unfold addItem at h ⊢
  cases hn : find numpyToXdmf a.dtype with
  | none => rw [hn] at h; cases h
  | some num =>
    rw [hn] at h
    simp only at h ⊢
    cases ht : putText true c w a with
    | error e => rw [ht] at h; cases h
    | ok wt =>
      obtain ⟨w', t⟩ := wt
      simp only
      refine ⟨_, rfl, rfl, rfl, rfl, ?_⟩
      intro io hp hne
      refine ⟨a.dtype, find_xdmfToNumpy _ (find_mem hn), ?_⟩
      unfold putText at ht
      split at ht
      · next hf =>
        split at ht
        · cases ht
        · split at ht
          · cases ht
          · injection ht with ht
            injection ht with _ ht
            subst ht
            refine .inl ⟨hf, _, rfl, hne hf, ?_⟩
            intro v hv
            obtain ⟨r, hr, hv⟩ := List.mem_flatten.1 hv
            exact hp hf r hr v hv
      · next hf =>
        injection ht with ht
        injection ht with _ ht
        subst ht
        exact .inr ⟨by simp [hf], _, rfl, by simp [binName]⟩
      · next hf =>
        split at ht
        · split at ht
          · cases ht
          · injection ht with ht
            injection ht with _ ht
            subst ht
            exact .inr ⟨by simp [hf], _, rfl, by simp [h5Name]⟩
        · cases ht

theorem num_values (d : String) (num : String × String) (h : find numpyToXdmf d = some num) : OkValue num.1.toList ∧ OkValue num.2.toList := by
  have key : ∀ e ∈ numpyToXdmf, OkValue e.2.1.toList ∧ OkValue e.2.2.toList := by decide +kernel
  exact key _ (find_mem h)

/-- With or without an exception. -/
theorem addItem_values {io : SeriesIO F T} {c : Cfg} {w : W F} {mk : List (Item F) → Elem F T} {dims : List Nat} {a : Nd F}
    (hmk : ∀ items, (∀ it ∈ items, ItemValues it) → ElemValues io (mk items)) : ∀ e ∈ (addItem c w mk dims a).elems, ElemValues io e := by
  intro e he
  unfold addItem at he
  cases hn : find numpyToXdmf a.dtype with
  | none =>
    rw [hn] at he
    simp only [List.mem_singleton] at he
    subst he
    exact hmk [] (by simp)
  | some num =>
    rw [hn] at he
    simp only at he
    have hv := num_values _ _ hn
    split at he
    · simp only [List.mem_singleton] at he
      subst he
      refine hmk _ ?_
      intro it hit
      rw [List.mem_singleton] at hit
      subst hit
      exact hv
    · simp only [List.mem_singleton] at he
      subst he
      refine hmk _ ?_
      intro it hit
      rw [List.mem_singleton] at hit
      subst hit
      exact hv

theorem mem_andThen {o : Xdmf.Out F T} {f : W F → Xdmf.Out F T} {e : Elem F T} (h : e ∈ (o.andThen f).elems) : e ∈ o.elems ∨ e ∈ (f o.w).elems := by
  unfold Out.andThen at h
  split at h
  · exact .inl h
  · simpa using h

theorem andThen_none {o : Xdmf.Out F T} {f : W F → Xdmf.Out F T} (h : (o.andThen f).err = none) :
    o.err = none ∧ (f o.w).err = none ∧ (o.andThen f).elems = o.elems ++ (f o.w).elems := by
  unfold Out.andThen at h ⊢
  cases ho : o.err with
  | some e => rw [ho] at h; simp only at h; rw [ho] at h; cases h
  | none => rw [ho] at h; simp only at h; exact ⟨rfl, h, rfl⟩

theorem tsPoints_values (io : SeriesIO F T) (c : Cfg) (p : Nd F) (w : W F) : ∀ e ∈ (tsPoints (T := T) c p w).elems, ElemValues io e := by
  intro e he
  unfold tsPoints at he
  split at he
  · cases he
  · split at he
    · refine addItem_values ?_ e he; intro items h; exact ⟨by decide, h⟩
    · split at he
      · cases he
      · refine addItem_values ?_ e he; intro items h; exact ⟨by decide, h⟩
  · cases he

theorem tsCells_values (io : SeriesIO F T) (c : Cfg) (cells : List (String × List (List Int))) (w : W F) :
    ∀ e ∈ (tsCells (T := T) c cells w).elems, ElemValues io e := by
  intro e he
  unfold tsCells at he
  split at he
  · cases he
  · split at he
    · cases he
    · next ty hty =>
      refine addItem_values ?_ e he; intro items h; exact ⟨xdmfName_ok _ _ hty, h⟩
  · split at he
    · simp only [List.mem_singleton] at he
      subst he
      exact ⟨by decide, by simp⟩
    · split at he
      · simp only [List.mem_singleton] at he
        subst he
        exact ⟨by decide, by simp⟩
      · refine addItem_values ?_ e he; intro items h; exact ⟨by decide, h⟩

theorem tsAttrs_values (io : SeriesIO F T) (c : Cfg) (center : String) (hce : OkValue center.toList) (l : List (List Char × Nd F))
    (hl : ∀ x ∈ l, OkValue x.1) (w : W F) : ∀ e ∈ (tsAttrs (T := T) c center l w).elems, ElemValues io e := by
  induction l generalizing w with
  | nil => intro e he; cases he
  | cons x l ih =>
    intro e he
    rcases mem_andThen he with he | he
    · unfold tsAttr at he
      split at he
      · cases he
      · next ty hty =>
      refine addItem_values ?_ e he; intro items h; exact ⟨hl x (by simp), attrType_ok _ _ hty, hce, h⟩
    · exact ih (fun y hy => hl y (by simp [hy])) _ e he

theorem raw_names (cd : List (List Char × List (Nd F))) (raw : List (List Char × Nd F)) (h : rawCellData cd = .ok raw) :
    raw.map (·.1) = cd.map (·.1) := by
  unfold rawCellData at h
  induction cd generalizing raw with
  | nil => simp only [mapRes] at h; injection h with h; subst h; rfl
  | cons x cd ih =>
    rw [mapRes] at h
    split at h
    · cases h
    · next y hy =>
      split at h
      · cases h
      · next ys hys =>
        injection h with h
        subst h
        rw [List.map_cons, List.map_cons, ih ys hys]
        congr 1
        cases hc : concatNd x.2 with
        | error err => rw [hc] at hy; cases hy
        | ok a =>
          rw [hc] at hy
          have hy : Except.ok (x.1, a) = Except.ok y := hy
          injection hy with hy
          subst hy
          rfl

theorem tsCellData_values (io : SeriesIO F T) (c : Cfg) (cd : List (List Char × List (Nd F))) (hl : ∀ x ∈ cd, OkValue x.1) (w : W F) :
    ∀ e ∈ (tsCellData (T := T) c cd w).elems, ElemValues io e := by
  intro e he
  unfold tsCellData at he
  split at he
  · cases he
  · next raw hraw =>
    refine tsAttrs_values io c "Cell" (by decide) raw ?_ w e he
    intro x hx
    have : x.1 ∈ raw.map (·.1) := List.mem_map.2 ⟨x, hx, rfl⟩
    rw [raw_names cd raw hraw] at this
    obtain ⟨y, hy, e⟩ := List.mem_map.1 this
    rw [← e]
    exact hl y hy

/-- Names and times of a call that XML keeps. -/
def OpValues (io : SeriesIO F T) : Op F T → Prop
  | .mesh _ _ => True
  | .data t pd cd => OkValue (io.fmtTime t) ∧ (∀ e ∈ pd, OkValue e.1) ∧ ∀ e ∈ cd, OkValue e.1

theorem run_values (io : SeriesIO F T) (c : Cfg) (ops : List (Op F T)) (hops : ∀ op ∈ ops, OpValues io op) (s : Series F T)
    (h1 : ∀ g ∈ s.coll, ∀ e ∈ g, ElemValues io e) (h2 : ∀ g ∈ s.meshes, ∀ e ∈ g, ElemValues io e) :
    (∀ g ∈ (run c s ops).1.coll, ∀ e ∈ g, ElemValues io e) ∧ ∀ g ∈ (run c s ops).1.meshes, ∀ e ∈ g, ElemValues io e := by
  induction ops generalizing s with
  | nil => exact ⟨h1, h2⟩
  | cons op ops ih =>
    refine ih (fun x hx => hops x (by simp [hx])) _ ?_ ?_
    · cases op with
      | mesh p cells => exact h1
      | data t pd cd =>
        obtain ⟨g1, g2, g3⟩ := hops (.data t pd cd) (by simp)
        cases hm : s.hasMesh with
        | false =>
          simp only [step, hm, Bool.not_false, if_true]
          intro g hg
          rcases List.mem_append.1 hg with hg | hg
          · exact h1 g hg
          · rw [List.mem_singleton] at hg
            subst hg
            intro e he
            cases he
        | true =>
          simp only [step, hm, Bool.not_true, Bool.false_eq_true, if_false]
          intro g hg
          rcases List.mem_append.1 hg with hg | hg
          · exact h1 g hg
          · rw [List.mem_singleton] at hg
            subst hg
            intro e he
            rcases List.mem_cons.1 he with rfl | he
            · trivial
            · rcases List.mem_cons.1 he with rfl | he
              · exact g1
              · rcases mem_andThen he with he | he
                · exact tsAttrs_values io c "Node" (by decide) pd g2 _ e he
                · exact tsCellData_values io c cd g3 _ e he
    · cases op with
      | data t pd cd =>
        cases hm : s.hasMesh <;> simpa [step, hm] using h2
      | mesh p cells =>
        simp only [step]
        intro g hg
        rcases List.mem_append.1 hg with hg | hg
        · exact h2 g hg
        · rw [List.mem_singleton] at hg
          subst hg
          intro e he
          rcases mem_andThen he with he | he
          · exact tsPoints_values io c p _ e he
          · exact tsCells_values io c cells _ e he

theorem run_lengths (c : Cfg) (ops : List (Op F T)) (s : Series F T) :
    (run c s ops).1.meshes.length = s.meshes.length + (meshTotals ops).length := by
  induction ops generalizing s with
  | nil => simp [run, meshTotals]
  | cons op ops ih =>
    simp only [run]
    rw [ih]
    cases op with
    | mesh p cells => simp [step, meshTotals]; omega
    | data t pd cd => cases hm : s.hasMesh <;> simp [step, hm, meshTotals]

end XdmfFile
end Meshio
