/-
Helper lemmas about DOLFIN XML files: reading.
-/
import Verif.Spec.Dolfin
namespace Meshio
namespace Dolfin
open Meshio.Spec

variable {F α : Type}

theorem attrOf_of {e : XmlElem} {k s : String} (h : e.attr? k = some s) : attrOf e.attrs k = .ok s := by
  unfold attrOf
  unfold XmlElem.attr? at h
  cases hf : e.attrs.find? (fun a => a.1 == k) with
  | none => rw [hf] at h; simp at h
  | some a => rw [hf] at h; simp at h; simp [h]

theorem num_of {parse : List Char → Option α} {s : String} {x : α} (h : parse s.toList = some x) : num parse s = .ok x := by
  unfold num; rw [h]

theorem intAttr_of {e : XmlElem} {k : String} {x : Int} (h : SaysAttr parseInt e k x) : intAttr e.attrs k = .ok x := by
  obtain ⟨s, h1, h2⟩ := h
  unfold intAttr; rw [attrOf_of h1]; exact num_of h2

theorem position_nat (n k : Nat) (h : k < n) : position n (k : Int) = some k := by
  unfold position
  rw [if_pos (by omega)]
  simp

/-- The values of a row, read attribute by attribute. -/
theorem row_vals {parse : List Char → Option α} {e : XmlElem} {names : List String} {r : List α} (hl : r.length = names.length)
    (h : ∀ (j : Nat) (n : String) (x : α), names[j]? = some n → r[j]? = some x → SaysAttr parse e n x) :
    ∃ vals, mapRes (attrOf e.attrs) names = .ok vals ∧ mapRes (num parse) vals = .ok r := by
  induction names generalizing r with
  | nil =>
    have : r = [] := List.length_eq_zero_iff.mp (by simpa using hl)
    subst this
    exact ⟨[], rfl, rfl⟩
  | cons n names ih =>
    cases r with
    | nil => simp at hl
    | cons x r =>
      obtain ⟨vals, h1, h2⟩ := ih (r := r) (by simpa using hl) (fun j n' x' a b => h (j + 1) n' x' (by simpa using a) (by simpa using b))
      obtain ⟨s, h3, h4⟩ := h 0 n x (by simp) (by simp)
      refine ⟨s :: vals, ?_, ?_⟩
      · simp only [mapRes, attrOf_of h3, h1]
      · simp only [mapRes, num_of h4, h2]

/-- The rows that have been said so far. -/
structure Part (rows : List (List α)) (w : Nat) (said : Nat → Prop) (a : List (List (Option α))) : Prop where
  len : a.length = rows.length
  row : ∀ (k : Nat) (r : List α), rows[k]? = some r → (a[k]? = some (r.map some)) ∨ (¬ said k ∧ a[k]? = some (List.replicate w none))

theorem Part.setRow {parse : List Char → Option α} {rows : List (List α)} {w : Nat} (hw : ∀ r ∈ rows, r.length = w) {said : Nat → Prop}
    {a : List (List (Option α))} (h : Part rows w said a) {k : Nat} {r : List α} (hk : rows[k]? = some r) {vals : List String}
    (hv : mapRes (num parse) vals = .ok r) :
    ∃ a', setRow parse a (k : Int) vals = .ok a' ∧ Part rows w (fun j => said j ∨ j = k) a' := by
  have hlt : k < rows.length := (List.getElem?_eq_some_iff.mp hk).1
  have hr : r.length = w := hw r (List.mem_of_getElem? hk)
  have hrow : (a.getD k []).length = r.length := by
    rw [List.getD_eq_getElem?_getD]
    rcases h.row k r hk with e | ⟨_, e⟩ <;> rw [e] <;> simp [hr]
  refine ⟨a.set k (r.map some), ?_, ?_, ?_⟩
  · unfold Dolfin.setRow
    rw [position_nat _ _ (by rw [h.len]; exact hlt)]
    simp only [hv]
    rw [if_neg (by simpa using hrow)]
  · simp [h.len]
  · intro j r' hj
    by_cases e : j = k
    · subst e
      rw [hk] at hj; cases hj
      left
      rw [List.getElem?_set_self (by rw [h.len]; exact hlt)]
    · rw [List.getElem?_set_ne (fun e' => e e'.symm)]
      rcases h.row j r' hj with h1 | ⟨h1, h2⟩
      · exact .inl h1
      · exact .inr ⟨fun h' => h'.elim h1 e, h2⟩

theorem Part.full {rows : List (List α)} {w : Nat} {said : Nat → Prop} {a : List (List (Option α))} (h : Part rows w said a)
    (hall : ∀ k < rows.length, said k) : a = fullRows rows := by
  apply List.ext_getElem?
  intro k
  unfold fullRows
  rw [List.getElem?_map]
  cases hk : rows[k]? with
  | none =>
    have := List.getElem?_eq_none_iff.mp hk
    rw [List.getElem?_eq_none_iff.mpr (by rw [h.len]; exact this)]
    rfl
  | some r =>
    rcases h.row k r hk with h1 | ⟨h1, _⟩
    · rw [h1]; rfl
    · exact absurd (hall k (List.getElem?_eq_some_iff.mp hk).1) h1

theorem Part.start (rows : List (List α)) (w : Nat) :
    empty (α := α) (rows.length : Int) (w : Int) = .ok (List.replicate rows.length (List.replicate w none)) ∧
      Part rows w (fun _ => False) (List.replicate rows.length (List.replicate w none)) := by
  refine ⟨?_, by simp, ?_⟩
  · unfold empty; rw [if_neg (by omega)]; simp
  · intro k r hk
    right
    refine ⟨id, ?_⟩
    rw [List.getElem?_replicate, if_pos (List.getElem?_eq_some_iff.mp hk).1]

/-! Events -/

theorem events_elems (x : Xml) : events x = x.elems.flatMap fun e => (e.tag, e.attrs) :: events e.children := by
  induction x with
  | nil => rfl
  | cons t a x c r _ ih => simp [events, Xml.elems, ih]

theorem events_of_kids {e : XmlElem} (h : e.kids = []) : events e.children = [] := by
  rw [events_elems]
  unfold XmlElem.kids at h
  rw [h]; rfl

theorem event_foreign (fio : FloatIO F) (st : St F) (t : String) (as : List (String × String)) (h : t ∉ dolfinTags) :
    event fio st (t, as) = .ok st := by
  simp only [dolfinTags, List.mem_cons, List.not_mem_nil, or_false, not_or] at h
  obtain ⟨h1, h2, h3, h4, h5, h6, h7⟩ := h
  unfold event
  simp [h1, h2, h3, h4, h5, h6, h7]

theorem fold_foreign (fio : FloatIO F) (st : St F) (x : Xml) (h : Foreign x) : foldRes (event fio) st (events x) = .ok st := by
  induction x with
  | nil => rfl
  | cons t a x c r ih1 ih2 =>
    obtain ⟨h1, h2, h3⟩ := h
    simp only [events, foldRes, event_foreign fio st t a h1]
    rw [foldRes_append, ih1 h2]
    exact ih2 h3

theorem fold_foreigns (fio : FloatIO F) (st : St F) (l : List XmlElem) (h : ∀ e ∈ l, e.tag ∉ dolfinTags ∧ Foreign e.children) :
    foldRes (event fio) st (l.flatMap fun e => (e.tag, e.attrs) :: events e.children) = .ok st := by
  induction l with
  | nil => rfl
  | cons e l ih =>
    obtain ⟨h1, h2⟩ := h e (by simp)
    simp only [List.flatMap_cons, List.cons_append, foldRes, event_foreign fio st e.tag e.attrs h1]
    rw [foldRes_append, fold_foreign fio st e.children h2]
    exact ih (fun e' he => h e' (by simp [he]))

/-- The children of `vertices`. -/
theorem fold_vertices (fio : FloatIO F) (names : List String) (rows : List (List F)) (hw : ∀ r ∈ rows, r.length = names.length)
    (l : List XmlElem) (h : ∀ c ∈ l, ∃ k, SaysRow fio.parse "vertex" names rows c k) (st : St F) (said : Nat → Prop)
    (a : List (List (Option F))) (hp : Part rows names.length said a) (hst : st.points = some (names, a)) :
    ∃ a' said', foldRes (event fio) st (l.flatMap fun e => (e.tag, e.attrs) :: events e.children) =
        .ok { st with points := some (names, a') } ∧ Part rows names.length said' a' ∧ (∀ k, said k → said' k) ∧
        ∀ c ∈ l, ∀ k, SaysRow fio.parse "vertex" names rows c k → said' k := by
  induction l generalizing st said a with
  | nil => exact ⟨a, said, by rw [← hst]; rfl, hp, fun _ h => h, by simp⟩
  | cons c l ih =>
    obtain ⟨k, hk⟩ := h c (by simp)
    obtain ⟨r, h1, h2, h3⟩ := hk.row
    obtain ⟨vals, h4, h5⟩ := row_vals h2 h3
    obtain ⟨a1, h6, h7⟩ := hp.setRow hw h1 h5
    obtain ⟨a', said', h8, h9, h10, h11⟩ := ih (fun c' hc => h c' (by simp [hc])) { st with points := some (names, a1) } _ a1 h7 rfl
    refine ⟨a', said', ?_, h9, fun j hj => h10 j (.inl hj), ?_⟩
    · simp only [List.flatMap_cons, List.cons_append, foldRes]
      rw [events_of_kids hk.alone]
      have : event fio st (c.tag, c.attrs) = .ok { st with points := some (names, a1) } := by
        unfold event
        simp only [hk.okTag]
        rw [if_neg (by decide), if_neg (by decide), if_neg (by decide), if_pos trivial]
        simp only [hst, intAttr_of hk.index, h4, h6]
      rw [this]
      exact h8
    · intro c' hc j hj
      rcases List.mem_cons.mp hc with rfl | hc
      · have e : (j : Int) = (k : Int) := by
          have := intAttr_of hj.index
          rw [intAttr_of hk.index] at this
          exact (Except.ok.inj this).symm
        have : j = k := by omega
        exact h10 j (.inr this)
      · exact h11 c' hc j hj

theorem width_of {parse : List Char → Option α} {lt tag : String} {names : List String} {rows : List (List α)} {e : XmlElem}
    (h : SaysRows parse lt tag names rows e) : ∀ r ∈ rows, r.length = names.length := by
  intro r hr
  obtain ⟨k, hk, rfl⟩ := List.getElem_of_mem hr
  obtain ⟨c, _, hc⟩ := h.all k hk
  obtain ⟨r', h1, h2, _⟩ := hc.row
  rw [List.getElem?_eq_getElem hk] at h1
  cases h1
  exact h2

/-- The element `vertices`. -/
theorem fold_vertexList (fio : FloatIO F) (dim : Nat) (hd : dim = 2 ∨ dim = 3) (rows : List (List F)) (v : XmlElem)
    (h : SaysRows fio.parse "vertices" "vertex" (dolfinCoords dim) rows v) (st : St F) (hst : st.dim = some (dim : Int)) :
    foldRes (event fio) st ((v.tag, v.attrs) :: events v.children) = .ok { st with points := some (dolfinCoords dim, fullRows rows) } := by
  have hl : (dolfinCoords dim).length = dim := by rcases hd with rfl | rfl <;> rfl
  obtain ⟨s1, s2⟩ := Part.start rows (dolfinCoords dim).length
  have e : event fio st (v.tag, v.attrs) =
      .ok { st with points := some (dolfinCoords dim, List.replicate rows.length (List.replicate (dolfinCoords dim).length none)) } := by
    unfold event
    simp only [h.okTag]
    rw [if_neg (by decide), if_neg (by decide), if_pos trivial]
    have hi : intAttr v.attrs "size" = .ok (rows.length : Int) := intAttr_of h.size
    rw [hl] at s1
    simp only [hst, hi, s1, hl]
    rcases hd with rfl | rfl <;> rfl
  obtain ⟨a', said', h1, h2, _, h4⟩ := fold_vertices fio (dolfinCoords dim) rows (width_of h) v.kids h.each
    { st with points := some (dolfinCoords dim, List.replicate rows.length (List.replicate (dolfinCoords dim).length none)) } _ _ s2 rfl
  have hf := h2.full (fun k hk => by
    obtain ⟨c, hc, hs⟩ := h.all k hk
    exact h4 c hc k hs)
  simp only [foldRes, e]
  rw [events_elems]
  rw [show v.children.elems = v.kids from rfl, h1, hf]

/-- The children of `cells`. -/
theorem fold_cells (fio : FloatIO F) (kind : String × String × List String) (hk : kind ∈ dolfinKinds) (rows : List (List Int))
    (hw : ∀ r ∈ rows, r.length = kind.2.2.length)
    (l : List XmlElem) (h : ∀ c ∈ l, ∃ k, SaysRow parseInt kind.1 kind.2.2 rows c k) (st : St F) (said : Nat → Prop)
    (a : List (List (Option Int))) (hp : Part rows kind.2.2.length said a) (hst : st.cells = some (kind.2.1, a))
    (hct : st.ctype = some (kind.2.1, kind.2.2.length)) :
    ∃ a' said', foldRes (event fio) st (l.flatMap fun e => (e.tag, e.attrs) :: events e.children) =
        .ok { st with cells := some (kind.2.1, a') } ∧ Part rows kind.2.2.length said' a' ∧ (∀ k, said k → said' k) ∧
        ∀ c ∈ l, ∀ k, SaysRow parseInt kind.1 kind.2.2 rows c k → said' k := by
  induction l generalizing st said a with
  | nil => exact ⟨a, said, by rw [← hst]; rfl, hp, fun _ h => h, by simp⟩
  | cons c l ih =>
    obtain ⟨k, hk'⟩ := h c (by simp)
    obtain ⟨r, h1, h2, h3⟩ := hk'.row
    obtain ⟨vals, h4, h5⟩ := row_vals h2 h3
    obtain ⟨a1, h6, h7⟩ := hp.setRow hw h1 h5
    obtain ⟨a', said', h8, h9, h10, h11⟩ := ih (fun c' hc => h c' (by simp [hc])) { st with cells := some (kind.2.1, a1) } _ a1 h7 rfl hct
    have htags : cellTags kind.2.2.length = kind.2.2 := (by decide +kernel : ∀ k ∈ dolfinKinds, cellTags k.2.2.length = k.2.2) kind hk
    have hname : kind.1 = "triangle" ∨ kind.1 = "tetrahedron" :=
      (by decide +kernel : ∀ k ∈ dolfinKinds, k.1 = "triangle" ∨ k.1 = "tetrahedron") kind hk
    refine ⟨a', said', ?_, h9, fun j hj => h10 j (.inl hj), ?_⟩
    · simp only [List.flatMap_cons, List.cons_append, foldRes]
      rw [events_of_kids hk'.alone]
      have : event fio st (c.tag, c.attrs) = .ok { st with cells := some (kind.2.1, a1) } := by
        unfold event
        simp only [hk'.okTag]
        have hne : kind.1 ≠ "dolfin" ∧ kind.1 ≠ "mesh" ∧ kind.1 ≠ "vertices" ∧ kind.1 ≠ "vertex" ∧ kind.1 ≠ "cells" := by
          rcases hname with e | e <;> rw [e] <;> decide
        rw [if_neg hne.1, if_neg hne.2.1, if_neg hne.2.2.1, if_neg hne.2.2.2.1, if_neg hne.2.2.2.2, if_pos hname]
        simp only [hst, hct, intAttr_of hk'.index, htags, h4, h6]
      rw [this]
      exact h8
    · intro c' hc j hj
      rcases List.mem_cons.mp hc with rfl | hc
      · have e : (j : Int) = (k : Int) := by
          have := intAttr_of hj.index
          rw [intAttr_of hk'.index] at this
          exact (Except.ok.inj this).symm
        have : j = k := by omega
        exact h10 j (.inr this)
      · exact h11 c' hc j hj

/-- The element `cells`. -/
theorem fold_cellList (fio : FloatIO F) (kind : String × String × List String) (hk : kind ∈ dolfinKinds) (rows : List (List Int)) (v : XmlElem)
    (h : SaysRows parseInt "cells" kind.1 kind.2.2 rows v) (st : St F) (hct : st.ctype = some (kind.2.1, kind.2.2.length)) :
    foldRes (event fio) st ((v.tag, v.attrs) :: events v.children) = .ok { st with cells := some (kind.2.1, fullRows rows) } := by
  obtain ⟨s1, s2⟩ := Part.start rows kind.2.2.length
  have e : event fio st (v.tag, v.attrs) =
      .ok { st with cells := some (kind.2.1, List.replicate rows.length (List.replicate kind.2.2.length none)) } := by
    unfold event
    simp only [h.okTag]
    rw [if_neg (by decide), if_neg (by decide), if_neg (by decide), if_neg (by decide), if_pos trivial]
    have hi : intAttr v.attrs "size" = .ok (rows.length : Int) := intAttr_of h.size
    simp only [hct, hi, s1]
  obtain ⟨a', said', h1, h2, _, h4⟩ := fold_cells fio kind hk rows (width_of h) v.kids h.each
    { st with cells := some (kind.2.1, List.replicate rows.length (List.replicate kind.2.2.length none)) } _ _ s2 rfl hct
  have hf := h2.full (fun k hk => by
    obtain ⟨c, hc, hs⟩ := h.all k hk
    exact h4 c hc k hs)
  simp only [foldRes, e]
  rw [events_elems]
  rw [show v.children.elems = v.kids from rfl, h1, hf]

theorem foldRes_cons_append {σ β : Type} (f : σ → β → Res σ) (s s' : σ) (l l' : List β) (h : foldRes f s l = .ok s') :
    foldRes f s (l ++ l') = foldRes f s' l' := by rw [foldRes_append, h]

/-- A mesh file. -/
theorem readMesh_doc (fio : FloatIO F) (s : List Char) (root : XmlElem) (hs : parseXml s = some root) (dim : Nat)
    (kind : String × String × List String) (points : List (List F)) (cells : List (List Int)) (h : DolfinDoc fio root dim kind points cells) :
    readMesh fio s = .ok ⟨some (dim : Int), some (dolfinCoords dim, fullRows points), some (kind.2.1, kind.2.2.length),
      some (kind.2.1, fullRows cells)⟩ := by
  obtain ⟨m, a, v, b, c, d, h1, h2, h3, h4, h5, h6, h7, h8⟩ := h.body
  unfold readMesh
  rw [hs]
  simp only [foldRes]
  have e0 : event fio ⟨none, none, none, none⟩ (root.tag, root.attrs) = .ok ⟨none, none, none, none⟩ := by
    unfold event; simp only [h.okRoot]; rw [if_pos trivial]
  rw [e0]
  simp only []
  rw [events_elems, show root.children.elems = root.kids from rfl, h1]
  simp only [List.flatMap_cons, List.flatMap_nil, List.append_nil, foldRes]
  have hct : Dict.get? cellTypes kind.1 = some (kind.2.1, kind.2.2.length) :=
    (by decide +kernel : ∀ k ∈ dolfinKinds, Dict.get? cellTypes k.1 = some (k.2.1, k.2.2.length)) kind h.okKind
  have e1 : event fio ⟨none, none, none, none⟩ (m.tag, m.attrs) = .ok ⟨some (dim : Int), none, some (kind.2.1, kind.2.2.length), none⟩ := by
    unfold event
    simp only [h2]
    rw [if_neg (by decide), if_pos trivial]
    simp only [intAttr_of h3, attrOf_of h4, hct]
  rw [e1]
  simp only []
  rw [events_elems, show m.children.elems = m.kids from rfl]
  have fa := fun st => fold_foreigns fio st a (fun e he => h6 e (.inl he))
  have fb := fun st => fold_foreigns fio st b (fun e he => h6 e (.inr (.inl he)))
  have fd := fun st => fold_foreigns fio st d (fun e he => h6 e (.inr (.inr he)))
  rcases h5 with h5 | h5
  · rw [h5, List.flatMap_append, foldRes_cons_append _ _ _ _ _ (fa _), List.flatMap_cons,
      foldRes_cons_append _ _ _ _ _ (fold_vertexList fio dim h.okDim points v h7 _ rfl), List.flatMap_append,
      foldRes_cons_append _ _ _ _ _ (fb _), List.flatMap_cons,
      foldRes_cons_append _ _ _ _ _ (fold_cellList fio kind h.okKind cells c h8 _ rfl), fd]
  · rw [h5, List.flatMap_append, foldRes_cons_append _ _ _ _ _ (fa _), List.flatMap_cons,
      foldRes_cons_append _ _ _ _ _ (fold_cellList fio kind h.okKind cells c h8 _ rfl), List.flatMap_append,
      foldRes_cons_append _ _ _ _ _ (fb _), List.flatMap_cons,
      foldRes_cons_append _ _ _ _ _ (fold_vertexList fio dim h.okDim points v h7 _ rfl), fd]

/-! Data files -/

theorem entities_ok (parse : List Char → Option α) (vals : List α) (l : List XmlElem)
    (h : ∀ c ∈ l, c.tag = "entity" ∧ ∃ (k : Nat) (x : α), vals[k]? = some x ∧ SaysAttr parseInt c "index" (k : Int) ∧ SaysAttr parse c "value" x)
    (a : List (Option α)) (hl : a.length = vals.length) (hp : ∀ (k : Nat) (x : α), vals[k]? = some x → a[k]? = some (some x) ∨
      (a[k]? = some none ∧ ∃ c ∈ l, SaysAttr parseInt c "index" (k : Int) ∧ SaysAttr parse c "value" x)) :
    entities parse a l = .ok (vals.map some) := by
  induction l generalizing a with
  | nil =>
    simp only [entities, Except.ok.injEq]
    apply List.ext_getElem?
    intro k
    rw [List.getElem?_map]
    cases hk : vals[k]? with
    | none => rw [List.getElem?_eq_none_iff.mpr (by rw [hl]; exact List.getElem?_eq_none_iff.mp hk)]; rfl
    | some x =>
      rcases hp k x hk with h1 | ⟨_, c, hc, _⟩
      · rw [h1]; rfl
      · simp at hc
  | cons c l ih =>
    obtain ⟨h1, k, x, h2, h3, s, h4, h5⟩ := h c (by simp)
    have hlt : k < vals.length := (List.getElem?_eq_some_iff.mp h2).1
    simp only [entities, h1, ne_eq, not_true, if_false, intAttr_of h3, attrOf_of h4, num_of h5]
    rw [hl, position_nat _ _ hlt]
    simp only []
    apply ih (fun c' hc => h c' (by simp [hc])) _ (by simp [hl])
    intro j y hj
    by_cases e : j = k
    · subst e
      rw [h2] at hj; cases hj
      left
      rw [List.getElem?_set_self (by rw [hl]; exact hlt)]
    · rw [List.getElem?_set_ne (fun e' => e e'.symm)]
      rcases hp j y hj with h6 | ⟨h6, c', hc', h7, h8⟩
      · exact .inl h6
      · rcases List.mem_cons.mp hc' with rfl | hc'
        · exfalso
          have e1 := intAttr_of h7
          rw [intAttr_of h3] at e1
          have := Except.ok.inj e1
          omega
        · exact .inr ⟨h6, c', hc', h7, h8⟩

theorem entities_says (parse : List Char → Option α) (vals : List α) (f : XmlElem) (h : SaysValues parse vals f) :
    entities parse (List.replicate vals.length none) f.kids = .ok (vals.map some) := by
  apply entities_ok parse vals f.kids h.each _ (by simp)
  intro k x hk
  right
  refine ⟨?_, h.all k x hk⟩
  rw [List.getElem?_replicate, if_pos (List.getElem?_eq_some_iff.mp hk).1]

theorem readFunction_doc (fio : FloatIO F) (s : List Char) (d : Data Int F) (h : FunctionDoc fio s d) :
    readFunction fio s = .ok (fullData d) := by
  obtain ⟨root, f, h1, h2, h3, h4⟩ := h
  unfold readFunction
  rw [h1]
  simp only [h2, h3, ne_eq, not_true, if_false]
  cases d with
  | ints u l =>
    obtain ⟨h5, h6⟩ := h4
    simp only [intAttr_of h6.size, attrOf_of h5]
    rw [if_pos (by cases u <;> simp), if_neg (by omega)]
    simp only [Int.toNat_natCast, entities_says _ _ _ h6]
    cases u <;> rfl
  | floats l =>
    obtain ⟨h5, h6⟩ := h4
    simp only [intAttr_of h6.size, attrOf_of h5]
    rw [if_neg (by decide), if_pos trivial, if_neg (by omega)]
    simp only [Int.toNat_natCast, entities_says _ _ _ h6]
    rfl
  | other n => exact h4.elim

theorem matchBase_plain (base : List Char) (h : PlainBase base) (s r : List Char) : matchBase base s = some r ↔ s = base ++ r := by
  induction base generalizing s with
  | nil => simp [matchBase]
  | cons b base ih =>
    have hb : b ≠ '.' := by
      intro e; subst e
      exact h '.' (by simp) (by decide)
    cases s with
    | nil => simp [matchBase]
    | cons c s =>
      simp only [matchBase, hb, false_and, false_or]
      by_cases e : b = c
      · subst e
        rw [if_pos rfl, ih (fun c hc => h c (by simp [hc]))]
        simp
      · rw [if_neg e]
        simp only [List.cons_append, List.cons.injEq]
        constructor
        · intro h'; cases h'
        · intro h'; exact absurd h'.1.symm e

theorem plainBase_underscore {base : List Char} (h : PlainBase base) : PlainBase (base ++ ['_']) := by
  intro c hc
  rcases List.mem_append.mp hc with hc | hc
  · exact h c hc
  · simp only [List.mem_cons, List.not_mem_nil, or_false] at hc; subst hc; decide

/-- The regular expression finds exactly the data files. -/
theorem dataName_iff (base : List Char) (h : PlainBase base) (f n : String) : dataName base f.toList = some n.toList ↔ IsDataFile base f n := by
  unfold dataName IsDataFile
  constructor
  · intro h1
    split at h1
    · cases h1
    · next s hs =>
      rw [matchBase_plain _ (plainBase_underscore h)] at hs
      split at h1
      · cases h1
      · next hne =>
        split at h1
        · next hp =>
          have e : s.takeWhile (fun c => decide (c ≠ '.')) = n.toList := Option.some.inj h1
          rw [List.isPrefixOf_iff_prefix] at hp
          obtain ⟨rest, hr⟩ := hp
          refine ⟨by rw [← e]; exact hne, ?_, rest, ?_⟩
          · rw [← e]
            intro hm
            have := takeWhile_all _ _ _ hm
            simp at this
          · rw [hs, List.append_assoc]
            have : s = n.toList ++ s.dropWhile (fun c => decide (c ≠ '.')) := by
              rw [← e, List.takeWhile_append_dropWhile]
            rw [← hr] at this
            rw [← this]
            rfl
        · cases h1
  · rintro ⟨h1, h2, rest, h3⟩
    have hm : matchBase (base ++ ['_']) f.toList = some (n.toList ++ (".xml".toList ++ rest)) := by
      rw [matchBase_plain _ (plainBase_underscore h), h3]; simp
    rw [hm]
    have ha : ∀ x ∈ n.toList, decide (x ≠ '.') = true := fun x hx => decide_eq_true (fun e => h2 (e ▸ hx))
    have e1 : (n.toList ++ (".xml".toList ++ rest)).takeWhile (fun c => decide (c ≠ '.')) = n.toList := by
      rw [List.takeWhile_append_of_pos ha]
      show n.toList ++ ('.' :: ("xml".toList ++ rest)).takeWhile _ = _
      simp
    have e2 : (n.toList ++ (".xml".toList ++ rest)).dropWhile (fun c => decide (c ≠ '.')) = ".xml".toList ++ rest := by
      rw [List.dropWhile_append_of_pos ha]
      show ('.' :: ("xml".toList ++ rest)).dropWhile _ = '.' :: ("xml".toList ++ rest)
      simp
    simp only [e1, e2]
    rw [if_neg h1, if_pos (by simp)]

theorem dataName_none (base : List Char) (h : PlainBase base) (f : String) (hn : ∀ n, ¬ IsDataFile base f n) : dataName base f.toList = none := by
  cases hd : dataName base f.toList with
  | none => rfl
  | some n =>
    exact absurd ((dataName_iff base h f (String.ofList n)).mp (by rw [hd, String.toList_ofList])) (hn _)

theorem isDataFile_unique {base : List Char} (h : PlainBase base) {f n n' : String} (h1 : IsDataFile base f n) (h2 : IsDataFile base f n') : n = n' := by
  have e1 := (dataName_iff base h f n).mpr h1
  have e2 := (dataName_iff base h f n').mpr h2
  rw [e1] at e2
  exact String.toList_inj.mp (Option.some.inj e2)

/-- The loop over the directory. -/
theorem readCellData_ok (fio : FloatIO F) (base : List Char) (hb : PlainBase base) (dir : List (String × List Char))
    (hdoc : ∀ f ∈ dir, ∀ n, IsDataFile base f.1 n → ∃ d, FunctionDoc fio f.2 d)
    (hone : dir.Pairwise fun f g => ∀ n, IsDataFile base f.1 n → ¬ IsDataFile base g.1 n)
    (acc : Dict (List (Data (Option Int) (Option F)))) (hacc : ∀ f ∈ dir, ∀ n, IsDataFile base f.1 n → Dict.get? acc n = none) :
    ∃ cd, readCellData fio base acc dir = .ok cd ∧ (∀ n l, Dict.get? cd n = some l ↔ Dict.get? acc n = some l ∨
        ∃ f ∈ dir, IsDataFile base f.1 n ∧ ∃ d, FunctionDoc fio f.2 d ∧ l = [fullData d]) ∧ (Dict.Ok acc → Dict.Ok cd) := by
  induction dir generalizing acc with
  | nil => exact ⟨acc, rfl, by simp, id⟩
  | cons f dir ih =>
    obtain ⟨hp1, hp2⟩ := List.pairwise_cons.mp hone
    by_cases hex : ∃ n, IsDataFile base f.1 n
    · obtain ⟨n, hn⟩ := hex
      obtain ⟨d, hd⟩ := hdoc f (by simp) n hn
      have hget := hacc f (by simp) n hn
      obtain ⟨cd, h1, h2, h3⟩ := ih (fun g hg => hdoc g (by simp [hg])) hp2 (Dict.set acc n ([] ++ [fullData d])) (by
        intro g hg k hk
        rw [Dict.get?_set, if_neg]
        · exact hacc g (by simp [hg]) k hk
        · rintro rfl
          exact hp1 g hg k hn hk)
      refine ⟨cd, ?_, ?_, fun hok => h3 (Dict.Ok.set hok _ _)⟩
      · simp only [readCellData, (dataName_iff base hb f.1 n).mpr hn, readFunction_doc fio _ d hd, String.ofList_toList, hget]
        exact h1
      · intro k l
        rw [h2, Dict.get?_set]
        constructor
        · rintro (h | ⟨g, hg, hk⟩)
          · split at h
            · next e =>
              subst e
              exact .inr ⟨f, by simp, hn, d, hd, (Option.some.inj h).symm⟩
            · exact .inl h
          · exact .inr ⟨g, by simp [hg], hk⟩
        · rintro (h | ⟨g, hg, hk, d', hd', hl⟩)
          · left
            rw [if_neg]
            · exact h
            · rintro rfl
              rw [hget] at h
              cases h
          · rcases List.mem_cons.mp hg with rfl | hg
            · left
              have := isDataFile_unique hb hn hk
              subst this
              rw [if_pos rfl, hl]
              have e := readFunction_doc fio _ d hd
              rw [readFunction_doc fio _ d' hd'] at e
              rw [Except.ok.inj e]; rfl
            · exact .inr ⟨g, hg, hk, d', hd', hl⟩
    · obtain ⟨cd, h1, h2, h3⟩ := ih (fun g hg => hdoc g (by simp [hg])) hp2 acc (fun g hg => hacc g (by simp [hg]))
      refine ⟨cd, ?_, ?_, h3⟩
      · simp only [readCellData, dataName_none base hb f.1 (fun n hn => hex ⟨n, hn⟩)]
        exact h1
      · intro k l
        rw [h2]
        constructor
        · rintro (h | ⟨g, hg, hk⟩)
          · exact .inl h
          · exact .inr ⟨g, by simp [hg], hk⟩
        · rintro (h | ⟨g, hg, hk⟩)
          · exact .inl h
          · rcases List.mem_cons.mp hg with rfl | hg
            · exact absurd ⟨k, hk.1⟩ hex
            · exact .inr ⟨g, hg, hk⟩

theorem splitDot_xml (base : List Char) : splitDot (base ++ ".xml".toList) = some (base, "xml".toList) := by
  induction base with
  | nil => decide
  | cons c base ih => simp only [List.cons_append, splitDot, ih]

theorem stem_xml (base : List Char) (h : base ≠ []) : stem (base ++ ".xml".toList) = base := by
  unfold stem
  rw [splitDot_xml]
  simp only []
  rw [if_neg (by simp [h])]

theorem splitext_xml (base : List Char) (h : base.all (· == '.') = false) : splitext (base ++ ".xml".toList) = base := by
  unfold splitext
  rw [splitDot_xml]
  simp [h]

theorem special_plain (base : List Char) (h : PlainBase base) : base.any special = false := by
  rw [List.any_eq_false]
  intro c hc hs
  apply h c hc
  simp only [special, List.contains_iff_mem] at hs
  exact List.mem_cons_of_mem '.' hs

theorem checkData_ok (n : Nat) (cd : Dict (List (Data (Option Int) (Option F)))) (h : ∀ e ∈ cd, ∃ d, e.2 = [d] ∧ d.len = n) :
    checkData n cd = .ok () := by
  induction cd with
  | nil => rfl
  | cons e cd ih =>
    obtain ⟨d, h1, h2⟩ := h e (by simp)
    obtain ⟨k, l⟩ := e
    simp only at h1
    subst h1
    simp only [checkData, h2, ne_eq, not_true, if_false]
    exact ih (fun e he => h e (by simp [he]))

theorem fullData_len (d : Data Int F) : (fullData d).len = d.len := by cases d <;> simp [fullData, Data.len]

end Dolfin
end Meshio
