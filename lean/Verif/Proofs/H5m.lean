/-
Helper lemmas for H5M files.
-/
import Verif.Spec.H5m
import Verif.Props.Hmf
namespace Meshio.H5m
open Meshio Meshio.Spec Types

variable {F : Type}

/-- Whether the blocks of a type are written. -/
def kind (t : String) : Bool := decide (t = "line" ∨ t = "tetra" ∨ t = "triangle")

/-- Name of the group of a type. -/
def nameOf (t : String) : List Char := if t = "line" then "Edge2".toList else if t = "tetra" then "Tet4".toList else "Tri3".toList

/-- Number of MOAB's type. -/
def numOf (t : String) : Nat := if t = "line" then 1 else if t = "tetra" then 5 else 2

theorem find_kind (t : String) : find meshioToH5m t = if kind t then some (String.ofList (nameOf t), numOf t) else none := by
  unfold kind nameOf numOf
  by_cases h1 : t = "line"
  · subst h1; decide
  · by_cases h2 : t = "triangle"
    · subst h2; decide
    · by_cases h3 : t = "tetra"
      · subst h3; decide
      · rw [if_neg (by simp [h1, h2, h3])]
        simp [find, meshioToH5m, Ne.symm h1, Ne.symm h2, Ne.symm h3]

/-- The groups of elements of a list of blocks. -/
def elemsOf (next : Nat) : List (String × List (List Int)) → List (List Char × Elem)
  | [] => []
  | b :: bs =>
    if kind b.1 then (nameOf b.1, ⟨numOf b.1, b.2.map fun r => r.map (· + 1), next⟩) :: elemsOf (next + b.2.length) bs
    else elemsOf next bs

/-- The number of cells that are written. -/
def cellCount (cells : List (String × List (List Int))) : Nat := ((cells.filter fun b => kind b.1).map fun b => b.2.length).sum

theorem elemsOf_names (next : Nat) (cells : List (String × List (List Int))) :
    (elemsOf next cells).map (·.1) = (cells.filter fun b => kind b.1).map fun b => nameOf b.1 := by
  induction cells generalizing next with
  | nil => rfl
  | cons b bs ih =>
    unfold elemsOf
    rw [List.filter_cons]
    cases kind b.1
    · exact ih _
    · simp only [if_true, List.map_cons, ih]

theorem putBlocks_ok (g : List (List Char × Elem)) (next : Nat) (cells : List (String × List (List Int)))
    (h : (g.map (·.1) ++ (cells.filter fun b => kind b.1).map fun b => nameOf b.1).Nodup) :
    putBlocks g next cells = .ok (g ++ elemsOf next cells, next + cellCount cells) := by
  induction cells generalizing g next with
  | nil => simp [putBlocks, elemsOf, cellCount]
  | cons b bs ih =>
    unfold putBlocks elemsOf
    rw [find_kind]
    rw [List.filter_cons] at h
    unfold cellCount
    rw [List.filter_cons]
    cases hk : kind b.1
    · simp only [hk, Bool.false_eq_true, if_false] at h ⊢
      exact ih g next h
    · simp only [hk, if_true, List.map_cons] at h ⊢
      have hni : nameOf b.1 ∉ g.map (·.1) := by
        intro hm
        exact (List.nodup_append.mp h).2.2 _ hm _ (by simp) rfl
      rw [String.toList_ofList]
      unfold hCreate
      rw [if_neg hni]
      simp only
      rw [ih _ _ (by simpa using h)]
      simp only [List.append_assoc, List.singleton_append, List.sum_cons, cellCount, Nat.add_assoc]

theorem putBlocks_twice (g : List (List Char × Elem)) (next : Nat) (cells : List (String × List (List Int)))
    (hg : (g.map (·.1)).Nodup)
    (h : ¬ (g.map (·.1) ++ (cells.filter fun b => kind b.1).map fun b => nameOf b.1).Nodup) : putBlocks g next cells = .error .valueError := by
  induction cells generalizing g next with
  | nil => simp at h; exact absurd hg h
  | cons b bs ih =>
    unfold putBlocks
    rw [find_kind]
    rw [List.filter_cons] at h
    cases hk : kind b.1
    · simp only [hk, Bool.false_eq_true, if_false] at h ⊢
      exact ih g next hg h
    · simp only [hk, if_true, List.map_cons] at h ⊢
      rw [String.toList_ofList]
      unfold hCreate
      by_cases hm : nameOf b.1 ∈ g.map (·.1)
      · rw [if_pos hm]
      · rw [if_neg hm]
        simp only
        apply ih
        · rw [List.map_append, List.nodup_append]
          refine ⟨hg, by simp, ?_⟩
          intro x hx y hy e
          simp only [List.map_cons, List.map_nil, List.mem_singleton] at hy
          subst hy
          subst e
          exact hm hx
        · simpa using h

/-- Groups of the numbers of cells. -/
theorem elemsOf_contiguous (next : Nat) (cells : List (String × List (List Int))) :
    Contiguous next ((elemsOf next cells).map fun e => (e.2.startId, e.2.connectivity.length)) (next + cellCount cells) := by
  induction cells generalizing next with
  | nil => simp [elemsOf, Contiguous, cellCount]
  | cons b bs ih =>
    unfold elemsOf cellCount
    rw [List.filter_cons]
    cases kind b.1
    · exact ih next
    · simp only [if_true, List.map_cons, Contiguous, List.length_map, List.sum_cons, true_and]
      rw [← Nat.add_assoc]
      exact ih _

/-- What a group is read as. -/
def back (e : Elem) : List (List Int) := e.connectivity.map fun r => r.map (· - 1)

theorem back_map (rows : List (List Int)) : (rows.map fun r => r.map (· + 1)).map (fun r => r.map (· - 1)) = rows := by
  rw [List.map_map]
  conv => rhs; rw [← List.map_id rows]
  apply List.map_congr_left
  intro r _
  simp only [Function.comp, List.map_map]
  conv => rhs; rw [id, ← List.map_id r]
  apply List.map_congr_left
  intro i _
  simp only [Function.comp, Int.add_sub_cancel, id]

theorem elemsOf_back (next : Nat) (cells : List (String × List (List Int))) :
    (elemsOf next cells).map (fun e => (e.1, back e.2)) = (cells.filter fun b => kind b.1).map fun b => (nameOf b.1, b.2) := by
  induction cells generalizing next with
  | nil => rfl
  | cons b bs ih =>
    unfold elemsOf
    rw [List.filter_cons]
    cases kind b.1
    · exact ih _
    · simp only [if_true, List.map_cons, ih]
      simp only [back, back_map]

/-- The type of a group. -/
def typeOf (n : List Char) : String := (find h5mToMeshio (String.ofList n)).getD ""

theorem typeOf_nameOf (t : String) (h : kind t = true) : find h5mToMeshio (String.ofList (nameOf t)) = some t ∧ typeOf (nameOf t) = t := by
  unfold kind at h
  simp only [decide_eq_true_eq] at h
  rcases h with rfl | rfl | rfl <;> decide

theorem kept_perm (cells : List (String × List (List Int))) : (cells.filter fun b => kind b.1).Perm (h5mKept cells) := by
  unfold h5mKept
  simp only [List.flatMap_cons, List.flatMap_nil, List.append_nil]
  induction cells with
  | nil => exact List.Perm.refl _
  | cons b bs ih =>
    simp only [List.filter_cons]
    by_cases h1 : b.1 = "line"
    · have : kind b.1 = true := by unfold kind; simp [h1]
      simp only [this, if_true]
      simp only [h1, decide_true, if_true, List.cons_append, show ("line" : String) ≠ "tetra" by decide, show ("line" : String) ≠ "triangle" by decide,
        decide_false, Bool.false_eq_true, if_false]
      exact ih.cons b
    · by_cases h2 : b.1 = "tetra"
      · have : kind b.1 = true := by unfold kind; simp [h2]
        simp only [this, if_true]
        simp only [h2, decide_true, if_true, List.cons_append, show ("tetra" : String) ≠ "line" by decide, show ("tetra" : String) ≠ "triangle" by decide,
          decide_false, Bool.false_eq_true, if_false]
        exact (ih.cons b).trans List.perm_middle.symm
      · by_cases h3 : b.1 = "triangle"
        · have : kind b.1 = true := by unfold kind; simp [h3]
          simp only [this, if_true]
          simp only [h3, decide_true, if_true, show ("triangle" : String) ≠ "line" by decide, show ("triangle" : String) ≠ "tetra" by decide,
            decide_false, Bool.false_eq_true, if_false]
          rw [← List.append_assoc] at ih ⊢
          exact (ih.cons b).trans List.perm_middle.symm
        · have : kind b.1 = false := by unfold kind; simp [h1, h2, h3]
          simp only [this, Bool.false_eq_true, if_false, h1, h2, h3, decide_false]
          exact ih

/-- At most one block of a type: none or one. -/
theorem atMostOne (cells : List (String × List (List Int))) (t : String) (h : (cells.filter fun b => b.1 = t).length ≤ 1) :
    (cells.filter fun b => b.1 = t) = [] ∨ ∃ r, (cells.filter fun b => b.1 = t) = [(t, r)] := by
  have hall : ∀ b ∈ cells.filter fun b => b.1 = t, b.1 = t := by
    intro b hb
    simpa using (List.mem_filter.mp hb).2
  generalize cells.filter (fun b => b.1 = t) = l at h hall
  match l, h with
  | [], _ => exact .inl rfl
  | [b], _ => exact .inr ⟨b.2, by rw [← hall b (by simp)]⟩
  | b :: c :: l, h => simp at h

theorem kept_sorted (cells : List (String × List (List Int))) (h : ∀ t ∈ ["line", "tetra", "triangle"], (cells.filter fun b => b.1 = t).length ≤ 1) :
    ((h5mKept cells).map fun b => (nameOf b.1, b.2)).Pairwise (fun a b => leChars a.1 b.1 = true) ∧
    (((h5mKept cells).map fun b => (nameOf b.1, b.2)).map (·.1)).Nodup := by
  have h1 := atMostOne cells "line" (h _ (by simp))
  have h2 := atMostOne cells "tetra" (h _ (by simp))
  have h3 := atMostOne cells "triangle" (h _ (by simp))
  unfold h5mKept
  simp only [List.flatMap_cons, List.flatMap_nil, List.append_nil]
  have e1 : leChars (nameOf "line") (nameOf "tetra") = true := by decide
  have e2 : leChars (nameOf "line") (nameOf "triangle") = true := by decide
  have e3 : leChars (nameOf "tetra") (nameOf "triangle") = true := by decide
  have n1 : nameOf "line" ≠ nameOf "tetra" := by decide
  have n2 : nameOf "line" ≠ nameOf "triangle" := by decide
  have n3 : nameOf "tetra" ≠ nameOf "triangle" := by decide
  rcases h1 with h1 | ⟨r1, h1⟩ <;> rcases h2 with h2 | ⟨r2, h2⟩ <;> rcases h3 with h3 | ⟨r3, h3⟩ <;> rw [h1, h2, h3] <;>
    simp [e1, e2, e3, n1, n2, n3]

theorem kept_kind (cells : List (String × List (List Int))) : ∀ b ∈ h5mKept cells, kind b.1 = true := by
  intro b hb
  exact (List.mem_filter.mp ((kept_perm cells).mem_iff.mpr hb)).2

theorem names_nodup (cells : List (String × List (List Int))) (h : ∀ t ∈ ["line", "tetra", "triangle"], (cells.filter fun b => b.1 = t).length ≤ 1) :
    ((cells.filter fun b => kind b.1).map fun b => nameOf b.1).Nodup := by
  have := (kept_sorted cells h).2
  rw [List.map_map] at this
  exact (((kept_perm cells).map _).nodup_iff).mpr this

/-- The blocks come back in the order of the names. -/
theorem readElems (next : Nat) (cells : List (String × List (List Int)))
    (h : ∀ t ∈ ["line", "tetra", "triangle"], (cells.filter fun b => b.1 = t).length ≤ 1) :
    mapRes readElem (hItems (elemsOf next cells)) = .ok (h5mKept cells) := by
  have key : (hItems (elemsOf next cells)).map (fun e => (e.1, back e.2)) = (h5mKept cells).map fun b => (nameOf b.1, b.2) := by
    rw [hItems_map back, elemsOf_back]
    exact Props.hItems_eq ((kept_perm cells).map _) (kept_sorted cells h).1 (kept_sorted cells h).2
  have hk := kept_kind cells
  generalize hItems (elemsOf next cells) = l at key
  generalize h5mKept cells = k at key hk
  induction l generalizing k with
  | nil =>
    cases k with
    | nil => rfl
    | cons b k => cases key
  | cons e l ih =>
    cases k with
    | nil => cases key
    | cons b k =>
      simp only [List.map_cons, List.cons.injEq, Prod.mk.injEq] at key
      unfold mapRes readElem
      rw [key.1.1, (typeOf_nameOf b.1 (hk b (by simp))).1]
      simp only
      have := ih k key.2 (fun c hc => hk c (by simp [hc]))
      unfold readElem at this
      rw [this]
      have hb := key.1.2
      unfold back at hb
      rw [hb]

/-! ### Point data -/

theorem withIds_eq (ids : Bool) (m : In F) : withIds ids m = h5mTags ids m := by
  unfold withIds h5mTags
  have hc : ("GLOBAL_ID".toList ∉ m.pointData.map (·.1) ∧ ids = true) ↔ (ids = true ∧ ∀ d ∈ m.pointData, d.1 ≠ "GLOBAL_ID".toList) := by
    constructor
    · intro ⟨h1, h2⟩
      exact ⟨h2, fun d hd e => h1 (List.mem_map.mpr ⟨d, hd, e⟩)⟩
    · intro ⟨h1, h2⟩
      refine ⟨?_, h1⟩
      intro hm
      obtain ⟨d, hd, e⟩ := List.mem_map.mp hm
      exact h2 d hd e
  have hl : ((List.range m.points.length).map fun i => ((i + 1 : Nat) : Int)) = (List.range' 1 m.points.length).map fun i => ((i : Nat) : Int) := by
    rw [List.range_eq_range', show (1 : Nat) = 1 + 0 from rfl, ← List.map_add_range', List.map_map]
    apply List.map_congr_left
    intro i _
    simp only [Function.comp]
    omega
  by_cases h : ids = true ∧ ∀ d ∈ m.pointData, d.1 ≠ "GLOBAL_ID".toList
  · rw [if_pos (hc.mpr h), if_pos h, hl]
  · rw [if_neg (fun x => h (hc.mp x)), if_neg h]

theorem putTags_ok (l acc : List (List Char × Arr F)) (hn : ((acc ++ l).map (·.1)).Nodup) (hp : ∀ e ∈ l, Hmf.plainName e.1 = true)
    (hm : ∀ e ∈ l, e.2 ≠ .more) :
    foldRes putTag (acc, acc.map fun e => (e.1, 2)) l = .ok (acc ++ l, (acc ++ l).map fun e => (e.1, 2)) := by
  induction l generalizing acc with
  | nil => simp [foldRes]
  | cons e l ih =>
    have hni : e.1 ∉ acc.map (·.1) := by
      rw [List.map_append, List.nodup_append] at hn
      intro h
      exact hn.2.2 _ h e.1 (by simp) rfl
    have hni2 : e.1 ∉ (acc.map fun e => (e.1, 2)).map (·.1) := by simpa using hni
    have hstep : putTag (acc, acc.map fun e => (e.1, 2)) e = .ok (acc ++ [e], (acc ++ [e]).map fun e => (e.1, 2)) := by
      unfold putTag
      rw [if_neg (by simp [hp e (by simp)])]
      have hne := hm e (by simp)
      obtain ⟨n, a⟩ := e
      cases a with
      | more => exact absurd rfl hne
      | ints l => simp only [hCreate, if_neg hni, if_neg hni2, List.map_append, List.map_cons, List.map_nil]
      | vec l => simp only [hCreate, if_neg hni, if_neg hni2, List.map_append, List.map_cons, List.map_nil]
      | mat w l => simp only [hCreate, if_neg hni, if_neg hni2, List.map_append, List.map_cons, List.map_nil]
    rw [foldRes, hstep]
    simp only
    rw [ih (acc ++ [e]) (by simpa using hn) (fun x hx => hp x (by simp [hx])) (fun x hx => hm x (by simp [hx]))]
    simp

theorem tags_ok (ids : Bool) (m : In F) (h : H5mMesh m) : ((h5mTags ids m).map (·.1)).Nodup ∧ (∀ e ∈ h5mTags ids m, Hmf.plainName e.1 = true) ∧
    ∀ e ∈ h5mTags ids m, e.2 ≠ .more := by
  have hp : ∀ e ∈ m.pointData, Hmf.plainName e.1 = true := by
    intro e he
    obtain ⟨h1, h2, h3⟩ := h.okPlain e he
    unfold Hmf.plainName
    simp [h1, h2, h3]
  unfold h5mTags
  by_cases hc : ids = true ∧ ∀ d ∈ m.pointData, d.1 ≠ "GLOBAL_ID".toList
  · rw [if_pos hc]
    refine ⟨?_, ?_, ?_⟩
    · rw [List.map_append, List.nodup_append]
      refine ⟨h.okNames, by simp, ?_⟩
      intro a ha b hb
      obtain ⟨d, hd, rfl⟩ := List.mem_map.mp ha
      simp only [List.map_cons, List.map_nil, List.mem_singleton] at hb
      subst hb
      exact hc.2 d hd
    · intro e he
      rcases List.mem_append.mp he with he | he
      · exact hp e he
      · simp only [List.mem_singleton] at he
        subst he
        show Hmf.plainName "GLOBAL_ID".toList = true
        decide
    · intro e he
      rcases List.mem_append.mp he with he | he
      · exact h.okAxes e he
      · simp only [List.mem_singleton] at he
        subst he
        simp
  · rw [if_neg hc]
    exact ⟨h.okNames, hp, h.okAxes⟩

theorem putCellData_ok (w : Bool) (l : List (List Char × Nat)) (h : ∀ d ∈ l, d.2 = 0) : putCellData w l = .ok () := by
  induction l with
  | nil => rfl
  | cons d l ih => rw [putCellData, if_pos (h d (by simp)), ih fun x hx => h x (by simp [hx])]

/-- What is written. -/
theorem write_eq (ids : Bool) (m : In F) (h : H5mMesh m) :
    write ids m = .ok ⟨m.points, 1, if h5mTags ids m = [] then none else some (h5mTags ids m), (h5mTags ids m).map fun e => (e.1, 2),
      elemsOf (1 + m.points.length) m.cells, 1 + m.points.length + cellCount m.cells⟩ := by
  obtain ⟨t1, t2, t3⟩ := tags_ok ids m h
  unfold write
  rw [withIds_eq]
  have := putTags_ok (h5mTags ids m) [] (by simpa using t1) t2 t3
  simp only [List.map_nil, List.nil_append] at this
  rw [this]
  simp only
  rw [putBlocks_ok [] _ _ (by simpa using names_nodup m.cells h.okCells)]
  simp only [List.nil_append]
  rw [putCellData_ok _ _ h.okCellData]

theorem mapRes_join {α β : Type} {f : α → Res β} {l l' : List α} {r r' : List β} (h : mapRes f l = .ok r) (h' : mapRes f l' = .ok r') :
    mapRes f (l ++ l') = .ok (r ++ r') := by
  induction l generalizing r with
  | nil => cases h; exact h'
  | cons a l ih =>
    rw [List.cons_append]
    unfold mapRes at h ⊢
    cases ha : f a with
    | error e => rw [ha] at h; cases h
    | ok b =>
      rw [ha] at h
      cases hl : mapRes f l with
      | error e => rw [hl] at h; cases h
      | ok bs =>
        rw [hl] at h
        cases h
        rw [ih hl]
        rfl

end Meshio.H5m
