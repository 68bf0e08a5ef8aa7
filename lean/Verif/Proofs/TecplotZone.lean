/-
Helper lemmas for Tecplot files: what a zone record says, the data and the cells.
-/
import Verif.Proofs.Tecplot
import Verif.Base.ListX

namespace Meshio
namespace Tecplot
open Types Tables
open Meshio.Spec.Tecplot (VName Word Style Entry Sep Group Location Record Separated textKeys numberKeys capital Comment joined Var Points coordinate)

variable {F : Type}

/-! ## Locations -/

theorem slicePy_inner {α : Type} (c d : α) (s : List α) : slicePy (c :: s ++ [d]) 1 (-1) = s := by
  have h1 : bound (c :: s ++ [d]).length 1 = 1 := by
    unfold bound
    rw [if_neg (by decide)]
    simp
  have h2 : bound (c :: s ++ [d]).length (-1) = s.length + 1 := by
    unfold bound
    rw [if_pos (by decide)]
    simp
    omega
  unfold slicePy
  rw [h1, h2]
  show ((s ++ [d]).drop 0).take _ = s
  rw [List.drop_zero, Nat.add_sub_cancel, List.take_left' rfl]

theorem digits_ne {n : Nat} {c : Char} (h : c.isDigit = false) : c ∉ fmtNat n := by
  intro hc
  have := fmtNat_isDigit hc
  rw [h] at this
  cases this

/-- The numbers of a group. -/
def groupNum (g : Group) : List Char := fmtNat g.lo ++ (match g.hi with | none => [] | some h => '-' :: fmtNat h)

theorem groupNum_not_mem (g : Group) (c : Char) (h : c.isDigit = false) (h' : c ≠ '-') : c ∉ groupNum g := by
  unfold groupNum
  cases g.hi with
  | none => simp [digits_ne h]
  | some k => simp [digits_ne h, h']

theorem group_text (g : Group) : g.text = ('[' :: groupNum g ++ [']']) ++ '=' :: (if g.cell then "CELLCENTERED".toList else "NODAL".toList) := by
  unfold Group.text groupNum
  have : "]=".toList = [']', '='] := by decide +kernel
  rw [this]
  generalize (if g.cell then "CELLCENTERED".toList else "NODAL".toList) = x
  simp
  rfl

theorem setAt_ok (flags : List Bool) (m : Nat) (h : m < flags.length) : setAt flags (m : Int) = .ok (flags.set m true) := by
  unfold setAt
  rw [if_pos ⟨by omega, by omega⟩, Int.toNat_natCast]

theorem set_true (flags : List Bool) (m j : Nat) (h : m < flags.length) :
    (flags.set m true)[j]? = flags[j]?.map fun b => b || decide (j = m) := by
  rw [List.getElem?_set]
  by_cases hj : m = j
  · subst hj
    rw [if_pos rfl, if_pos h, List.getElem?_eq_getElem h]
    simp
  · rw [if_neg hj]
    cases flags[j]? with
    | none => rfl
    | some b =>
      have : ¬ j = m := fun e => hj e.symm
      simp [this]

theorem setRange_ok (flags : List Bool) (m k : Nat) (h : k = 0 ∨ m + k ≤ flags.length) :
    ∃ fl, setRange flags (m : Int) k = .ok fl ∧ fl.length = flags.length ∧
      ∀ j, fl[j]? = flags[j]?.map fun b => b || decide (m ≤ j ∧ j < m + k) := by
  induction k generalizing flags m with
  | zero =>
    refine ⟨flags, rfl, rfl, ?_⟩
    intro j
    cases flags[j]? with
    | none => rfl
    | some b => simp; omega
  | succ k ih =>
    have hm : m < flags.length := by omega
    obtain ⟨fl, h1, h2, h3⟩ := ih (flags.set m true) (m + 1) (by rw [List.length_set]; omega)
    refine ⟨fl, ?_, by rw [h2, List.length_set], ?_⟩
    · rw [setRange, setAt_ok _ _ hm]
      exact h1
    · intro j
      rw [h3, set_true _ _ _ hm]
      cases flags[j]? with
      | none => rfl
      | some b =>
        simp only [Option.map_some, Option.some.injEq]
        rw [Bool.or_assoc]
        congr 1
        rw [Bool.eq_iff_iff]
        simp only [Bool.or_eq_true, decide_eq_true_eq]
        omega

theorem location_ok (flags : List Bool) (g : Group) (h1 : 1 ≤ g.lo) (h2 : g.hi.getD g.lo ≤ flags.length) :
    ∃ fl, location flags g.text = .ok fl ∧ fl.length = flags.length ∧
      ∀ j, fl[j]? = flags[j]?.map fun b => b || decide (g.cell = true ∧ g.lo ≤ j + 1 ∧ j + 1 ≤ g.hi.getD g.lo) := by
  have hsp : splitOnC '=' g.text = ['[' :: groupNum g ++ [']'], if g.cell then "CELLCENTERED".toList else "NODAL".toList] := by
    rw [group_text, splitOnC_append_sep _ _ _ (by simp [groupNum_not_mem g '=' (by decide) (by decide)]), splitOnC_not_mem]
    cases g.cell <;> decide +kernel
  unfold location
  rw [hsp]
  simp only
  cases hc : g.cell with
  | false =>
    rw [if_neg (by decide +kernel)]
    refine ⟨flags, rfl, rfl, ?_⟩
    intro j
    cases flags[j]? <;> simp
  | true =>
    rw [if_pos (by decide +kernel), slicePy_inner]
    unfold groupNum
    cases hh : g.hi with
    | none =>
      rw [hh] at h2
      simp only [List.append_nil, Option.getD_none] at h2 ⊢
      rw [splitOnC_not_mem _ _ (digits_ne (by decide))]
      simp only [parseInt_fmtNat]
      rw [show (g.lo : Int) - 1 = ((g.lo - 1 : Nat) : Int) by omega, setAt_ok _ _ (by omega)]
      refine ⟨_, rfl, by simp, ?_⟩
      intro j
      rw [set_true _ _ _ (by omega)]
      cases flags[j]? with
      | none => rfl
      | some b =>
        simp only [Option.map_some, Option.some.injEq]
        congr 1
        rw [Bool.eq_iff_iff]
        simp only [decide_eq_true_eq, true_and]
        omega
    | some k =>
      rw [hh] at h2
      simp only [Option.getD_some] at h2 ⊢
      rw [splitOnC_append_sep _ _ _ (digits_ne (by decide)), splitOnC_not_mem _ _ (digits_ne (by decide))]
      simp only [parseInt_fmtNat]
      rw [show (g.lo : Int) - 1 = ((g.lo - 1 : Nat) : Int) by omega,
        show ((k : Int) - 1 + 1 - ((g.lo - 1 : Nat) : Int)).toNat = k - (g.lo - 1) by omega]
      obtain ⟨fl, e1, e2, e3⟩ := setRange_ok flags (g.lo - 1) (k - (g.lo - 1)) (by omega)
      refine ⟨fl, e1, e2, ?_⟩
      intro j
      rw [e3]
      cases flags[j]? with
      | none => rfl
      | some b =>
        simp only [Option.map_some, Option.some.injEq]
        congr 1
        rw [Bool.eq_iff_iff]
        simp only [decide_eq_true_eq, true_and]
        omega

theorem locations_ok (gs : List Group) (flags : List Bool) (h : ∀ g ∈ gs, 1 ≤ g.lo ∧ g.hi.getD g.lo ≤ flags.length) :
    ∃ fl, foldRes location flags (gs.map Group.text) = .ok fl ∧ fl.length = flags.length ∧
      ∀ j b, fl[j]? = some b → (b = true ↔ flags[j]? = some true ∨ ∃ g ∈ gs, g.cell = true ∧ g.lo ≤ j + 1 ∧ j + 1 ≤ g.hi.getD g.lo) := by
  induction gs generalizing flags with
  | nil =>
    refine ⟨flags, rfl, rfl, ?_⟩
    intro j b hb
    rw [hb]
    simp
  | cons g gs ih =>
    obtain ⟨f1, e1, e2, e3⟩ := location_ok flags g (h g (by simp)).1 (h g (by simp)).2
    obtain ⟨fl, d1, d2, d3⟩ := ih f1 (by intro x hx; rw [e2]; exact h x (by simp [hx]))
    refine ⟨fl, ?_, by rw [d2, e2], ?_⟩
    · rw [List.map_cons, foldRes, e1]
      exact d1
    · intro j b hb
      rw [d3 j b hb, e3]
      have hj : j < flags.length := by
        have := List.getElem?_eq_some_iff.mp hb
        obtain ⟨hlt, _⟩ := this
        rw [d2, e2] at hlt
        exact hlt
      rw [List.getElem?_eq_getElem hj]
      simp only [Option.map_some, Option.some.injEq, Bool.or_eq_true, decide_eq_true_eq, List.mem_cons]
      constructor
      · rintro ((h | h) | ⟨x, hx, h⟩)
        · exact Or.inl h
        · exact Or.inr ⟨g, Or.inl rfl, h⟩
        · exact Or.inr ⟨x, Or.inr hx, h⟩
      · rintro (h | ⟨x, hx | hx, h⟩)
        · exact Or.inl (Or.inl h)
        · exact Or.inl (Or.inr (hx ▸ h))
        · exact Or.inr ⟨x, hx, h⟩

theorem flags_eq {a b : List Bool} (hl : a.length = b.length) (h : ∀ (j : Nat) x y, a[j]? = some x → b[j]? = some y → (x = true ↔ y = true)) :
    a = b := by
  apply List.ext_getElem hl
  intro j h1 h2
  have := h j _ _ (List.getElem?_eq_getElem h1) (List.getElem?_eq_getElem h2)
  rw [Bool.eq_iff_iff]
  exact this

theorem centeredOf_ok (r : Record) (h : r.Ok) (z : Zone) (hi : ∀ k ∈ numberKeys, z.ints.get? k = r.num k)
    (hl : z.strs.get? "VARLOCATION" = r.location.map fun p => '(' :: joinWith ',' (p.1.groups.map Group.text) ++ [')'])
    {nn nc : Nat} {block : Bool} {type : List Char} {flags : List Bool} (hs : r.Says nn nc block type flags) :
    centeredOf z block flags.length = .ok flags := by
  unfold centeredOf
  simp only
  cases block with
  | false =>
    rw [if_neg (by simp)]
    congr 1
    apply flags_eq (by simp)
    intro j x y hx hy
    have hx' := List.mem_of_getElem? hx
    rw [List.mem_replicate] at hx'
    rw [hs.h_flags j y hy, hx'.2]
    unfold Record.centered
    simp
  | true =>
    rw [if_pos rfl, hi "NV" (by decide +kernel)]
    cases hnv : r.num "NV" with
    | some nv =>
      simp only
      congr 1
      have hnn := hs.h_nv nv hnv
      have hb : bound flags.length nv = min nv.toNat flags.length := by
        unfold bound
        rw [if_neg (by omega)]
      rw [hb]
      apply flags_eq
      · simp; omega
      · intro j x y hx hy
        rw [hs.h_flags j y hy]
        unfold Record.centered
        rw [hnv]
        simp only [true_and]
        have hj : j < flags.length := (List.getElem?_eq_some_iff.mp hy).1
        rw [List.take_replicate] at hx
        rw [List.getElem?_append] at hx
        simp only [List.length_replicate] at hx
        by_cases hlt : j < min (min nv.toNat flags.length) flags.length
        · rw [if_pos hlt, List.getElem?_replicate, if_pos hlt] at hx
          cases hx
          simp
          omega
        · rw [if_neg hlt, List.getElem?_replicate] at hx
          split at hx
          · cases hx
            simp
            omega
          · cases hx
    | none =>
      simp only
      rw [hl]
      cases hloc : r.location with
      | none =>
        simp only [Option.map_none]
        congr 1
        apply flags_eq (by simp)
        intro j x y hx hy
        have hx' := List.mem_of_getElem? hx
        rw [List.mem_replicate] at hx'
        rw [hs.h_flags j y hy, hx'.2]
        unfold Record.centered
        rw [hnv, hloc]
        simp
      | some p =>
        obtain ⟨l, es⟩ := p
        simp only [Option.map_some]
        have hok := (h.h_loc l es hloc).1
        rw [slicePy_inner, splitOnC_joinWith]
        · obtain ⟨fl, e1, e2, e3⟩ := locations_ok l.groups (List.replicate flags.length false) (by
            intro g hg
            rw [List.length_replicate]
            exact ⟨(hs.h_groups l es hloc g hg).1, (hs.h_groups l es hloc g hg).2.1⟩)
          rw [e1]
          congr 1
          rw [List.length_replicate] at e2
          apply flags_eq e2
          intro j x y hx hy
          rw [e3 j x hx, hs.h_flags j y hy]
          unfold Record.centered
          rw [hnv, hloc]
          simp only [true_and, Option.some.injEq, Prod.mk.injEq]
          constructor
          · rintro (h | h)
            · have := List.mem_of_getElem? h
              rw [List.mem_replicate] at this
              cases this.2
            · exact ⟨l, es, ⟨rfl, rfl⟩, h⟩
          · rintro ⟨l', es', ⟨rfl, rfl⟩, h⟩
            exact Or.inr h
        · simpa using hok.2.2.2.2.2.2.2
        · intro t ht
          obtain ⟨g, _, rfl⟩ := List.mem_map.mp ht
          rw [group_text]
          have h1 := groupNum_not_mem g ',' (by decide) (by decide)
          have h2 : ',' ∉ (if g.cell then "CELLCENTERED".toList else "NODAL".toList) := by
            cases g.cell <;> decide +kernel
          generalize (if g.cell then "CELLCENTERED".toList else "NODAL".toList) = x at *
          simp [h1, h2]

theorem parseFezone_ok (r : Record) (h : r.Ok) (z : Zone) (ht : ∀ k ∈ textKeys, z.strs.get? k = r.get k)
    (hi : ∀ k ∈ numberKeys, z.ints.get? k = r.num k)
    (hl : z.strs.get? "VARLOCATION" = r.location.map fun p => '(' :: joinWith ',' (p.1.groups.map Group.text) ++ [')'])
    {nn nc : Nat} {block : Bool} {type : List Char} {flags : List Bool} (hs : r.Says nn nc block type flags) :
    parseFezone z flags.length = .ok ⟨nn, nc, block, type, flags⟩ := by
  have hf : formatOf z = .ok (block, type) := by
    unfold formatOf
    rcases hs.h_format with ⟨h1, h2⟩ | ⟨h1, h2, h3⟩
    · rw [ht "F" (by decide +kernel), ht "ET" (by decide +kernel), h1, h2]
      cases block with
      | true =>
        simp only [if_true]
        rw [if_neg (by simp), decide_eq_true trivial]
      | false =>
        simp only [Bool.false_eq_true, if_false]
        rw [if_neg (by simp)]
        rw [decide_eq_false (by decide +kernel)]
    · rw [ht "F" (by decide +kernel), h1, ht "DATAPACKING" (by decide +kernel), ht "ZONETYPE" (by decide +kernel), h2, h3]
      cases block with
      | true =>
        simp only [if_true]
        rw [decide_eq_true (by decide +kernel)]
      | false =>
        simp only [Bool.false_eq_true, if_false]
        rw [decide_eq_false (by decide +kernel)]
  have num_none : ∀ k, r.get k = none → r.num k = none := by
    intro k hk
    unfold Record.num
    rw [hk]
    rfl
  have hn : count z "N" "NODES" = .ok (nn : Int) := by
    unfold count
    rw [hi "N" (by decide +kernel), hi "NODES" (by decide +kernel)]
    rcases hs.h_nodes with h1 | ⟨h1, h2⟩
    · rw [h1]
    · rw [num_none _ h1, h2]
  have hc : count z "E" "ELEMENTS" = .ok (nc : Int) := by
    unfold count
    rw [hi "E" (by decide +kernel), hi "ELEMENTS" (by decide +kernel)]
    rcases hs.h_cells with h1 | ⟨h1, h2⟩
    · rw [h1]
    · rw [num_none _ h1, h2]
  unfold parseFezone
  rw [hf]
  simp only
  rw [hn]
  simp only
  rw [hc]
  simp only
  rw [centeredOf_ok r h z hi hl hs]

/-! ## Numbers -/

theorem rowOf_ok {α : Type} (parse : List Char → Option α) (ws : List (List Char)) (row : List α) (h : ws.map parse = row.map some) :
    rowOf parse ws = .ok row := by
  unfold rowOf
  induction ws generalizing row with
  | nil =>
    cases row with
    | nil => rfl
    | cons x row => cases h
  | cons w ws ih =>
    cases row with
    | nil => cases h
    | cons x row =>
      rw [List.map_cons, List.map_cons, List.cons.injEq] at h
      rw [mapRes, h.1, ih row h.2]

/-- The lines that are not blank, as rows. -/
def Rows {α : Type} (parse : List Char → Option α) (ls : List (List Char)) (rows : List (List α)) : Prop :=
  ((ls.filter fun l => decide (splitWs l ≠ [])).map fun l => (splitWs l).map parse) = rows.map fun r => r.map some

theorem takeRows_ok {α : Type} (parse : List Char → Option α) (weight : Nat → Nat) (hw : ∀ k, 0 < k → 0 < weight k) (ls rest : List (List Char))
    (rows : List (List α)) (h : Rows parse ls rows) (cnt need : Nat) (hn : cnt + (rows.map fun r => weight r.length).sum = need) :
    ∃ bl, (∀ b ∈ bl, splitWs b = []) ∧ takeRows parse weight (need : Int) (ls ++ rest) cnt = .ok (rows, bl ++ rest) := by
  induction ls generalizing rows cnt with
  | nil =>
    have : rows = [] := by
      unfold Rows at h
      simpa using h.symm
    subst this
    refine ⟨[], by simp, ?_⟩
    simp at hn
    rw [List.nil_append]
    cases rest with
    | nil => rw [takeRows, if_neg (by omega)]
    | cons l rest => rw [takeRows, if_neg (by omega)]
  | cons l ls ih =>
    by_cases hb : splitWs l = []
    · have h' : Rows parse ls rows := by
        unfold Rows at h ⊢
        rw [List.filter_cons_of_neg (by simp [hb])] at h
        exact h
      by_cases hc : cnt < need
      · obtain ⟨bl, h1, h2⟩ := ih rows h' cnt hn
        refine ⟨bl, h1, ?_⟩
        rw [List.cons_append, takeRows, if_pos (by omega), if_pos hb, h2]
      · obtain ⟨bl, h1, h2⟩ := ih rows h' cnt hn
        have hr : rows = [] := by
          cases rows with
          | nil => rfl
          | cons r rows =>
            exfalso
            simp only [List.map_cons, List.sum_cons] at hn
            have hpos : 0 < r.length := by
              unfold Rows at h'
              cases hf : ls.filter fun l => decide (splitWs l ≠ []) with
              | nil => rw [hf] at h'; cases h'
              | cons k ks =>
                rw [hf] at h'
                simp only [List.map_cons, List.cons.injEq] at h'
                have hk : k ∈ ls.filter fun l => decide (splitWs l ≠ []) := by rw [hf]; simp
                have hne := of_decide_eq_true (List.mem_filter.mp hk).2
                have := congrArg List.length h'.1
                simp at this
                rw [← this]
                exact List.length_pos_iff.mpr hne
            have := hw _ hpos
            omega
        subst hr
        refine ⟨l :: ls, ?_, ?_⟩
        · intro b hb'
          rcases List.mem_cons.mp hb' with rfl | hb'
          · exact hb
          · unfold Rows at h'
            simp only [List.map_nil, List.map_eq_nil_iff] at h'
            rw [List.filter_eq_nil_iff] at h'
            have := h' b hb'
            simpa using this
        · rw [List.cons_append, takeRows, if_neg (by omega)]
    · unfold Rows at h
      rw [List.filter_cons_of_pos (by simp [hb])] at h
      cases rows with
      | nil => cases h
      | cons r rows =>
        simp only [List.map_cons, List.cons.injEq] at h
        have hpos : 0 < r.length := by
          have := congrArg List.length h.1
          simp at this
          rw [← this]
          exact List.length_pos_iff.mpr hb
        have := hw _ hpos
        simp only [List.map_cons, List.sum_cons] at hn
        obtain ⟨bl, h1, h2⟩ := ih rows h.2 (cnt + weight r.length) (by omega)
        refine ⟨bl, h1, ?_⟩
        rw [List.cons_append, takeRows, if_pos (by omega), if_neg hb, rowOf_ok parse _ r h.1]
        simp only
        rw [h2]

theorem takeRows_blank {α : Type} (parse : List Char → Option α) (weight : Nat → Nat) (bl ls : List (List Char)) (h : ∀ b ∈ bl, splitWs b = [])
    (cnt need : Nat) (hc : cnt < need) : takeRows parse weight (need : Int) (bl ++ ls) cnt = takeRows parse weight (need : Int) ls cnt := by
  induction bl with
  | nil => rfl
  | cons b bl ih =>
    rw [List.cons_append, takeRows, if_pos (by omega), if_pos (h b (by simp)), ih (fun x hx => h x (by simp [hx]))]

theorem rows_of_flat {α : Type} (parse : List Char → Option α) (ls : List (List Char)) (vs : List α)
    (h : (ls.flatMap splitWs).map parse = vs.map some) : ∃ rows, Rows parse ls rows ∧ rows.flatten = vs := by
  induction ls generalizing vs with
  | nil =>
    have : vs = [] := by simpa using h.symm
    exact ⟨[], rfl, this.symm⟩
  | cons l ls ih =>
    rw [List.flatMap_cons, List.map_append] at h
    obtain ⟨a, b, rfl, h1, h2⟩ := List.map_eq_append_iff.mp h.symm
    obtain ⟨rows, e1, e2⟩ := ih b h2.symm
    by_cases hb : splitWs l = []
    · refine ⟨rows, ?_, ?_⟩
      · unfold Rows
        rw [List.filter_cons_of_neg (by simp [hb])]
        exact e1
      · rw [hb] at h1
        have : a = [] := by simpa using h1
        rw [this, e2]
        rfl
    · refine ⟨a :: rows, ?_, by rw [List.flatten_cons, e2]⟩
      unfold Rows
      rw [List.filter_cons_of_pos (by simp [hb]), List.map_cons, List.map_cons, ← h1]
      congr 1

theorem rows_strip {α : Type} (parse : List Char → Option α) (ls : List (List Char)) (rows : List (List α)) (h : Rows parse ls rows) :
    Rows parse (ls.map strip) rows := by
  unfold Rows at *
  rw [List.filter_map, List.map_map, ← h]
  have e : ((fun l => decide (splitWs l ≠ [])) ∘ strip) = fun l => decide (splitWs l ≠ []) := by
    funext l
    simp only [Function.comp, splitWs_strip]
  rw [e]
  apply List.map_congr_left
  intro l _
  simp only [Function.comp, splitWs_strip]

end Tecplot
end Meshio
