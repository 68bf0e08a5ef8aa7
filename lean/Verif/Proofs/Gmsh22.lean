/-
Helper lemmas for Gmsh files of version 2.2.
-/
import Verif.Proofs.Gmsh
import Verif.Proofs.Common
import Verif.Proofs.Dim
import Verif.Props.Types
namespace Meshio.Gmsh22
open Meshio Types Tables Gmsh Spec

variable {F : Type}

/-! ### Nodes -/

theorem tok_nodes : IsTok "Nodes".toList := ⟨by decide, by decide⟩
theorem tok_elements : IsTok "Elements".toList := ⟨by decide, by decide⟩
theorem tok_periodic : IsTok "Periodic".toList := ⟨by decide, by decide⟩
theorem tok_nodeData : IsTok "NodeData".toList := ⟨by decide, by decide⟩
theorem tok_elemData : IsTok "ElementData".toList := ⟨by decide, by decide⟩

/-- The section of nodes after its first line. -/
def nodesBody (io : GmshFloat F) (ascii : Bool) (ids : List Int) (points : List (List F)) : List Char :=
  (fmtNat points.length ++ ['\n']) ++
    ((if ascii then linesText ((ids.zip points).map fun ip => joinWith ' ' (fmtInt ip.1 :: ip.2.map io.fmt))
      else ((ids.zip points).flatMap fun ip => putInt 4 ip.1 ++ ip.2.flatMap (putF io)) ++ ['\n']) ++
      linesText ["$EndNodes".toList])

theorem mshNodes_eq (io : GmshFloat F) (ascii : Bool) (ids : List Int) (points : List (List F)) (s : List Char) :
    mshNodes io ascii ids points ++ s = "$Nodes".toList ++ '\n' :: (nodesBody io ascii ids points ++ s) := by
  unfold mshNodes nodesBody
  rw [linesText_cons, linesText_cons]
  simp only [List.append_assoc, List.cons_append, List.nil_append]
  rfl

theorem readNodes_body (io : GmshFloat F) (ascii : Bool) (ids : List Int) (points : List (List F))
    (hlen : points.length = ids.length) (h3 : ∀ p ∈ points, p.length = 3)
    (hl : ascii = true → ∀ i ∈ ids, i.natAbs < io.lim)
    (hb : ascii = false → (∀ i ∈ ids, IsInt 4 i) ∧ ids = (List.range points.length).map fun (i : Nat) => (1 + i : Int))
    (s : List Char) :
    readNodes io ascii (nodesBody io ascii ids points ++ s) = .ok ((points, ids), s) := by
  have hzl : (ids.zip points).length = points.length := by rw [List.length_zip]; omega
  have hf : (ids.zip points).map (·.1) = ids := List.map_fst_zip (by omega)
  have hsn : (ids.zip points).map (·.2) = points := List.map_snd_zip (by omega)
  have h3' : ∀ ip ∈ ids.zip points, ip.2.length = 3 := fun ip hip => h3 _ (List.of_mem_zip hip).2
  unfold nodesBody readNodes
  simp only [List.append_assoc, List.cons_append, List.nil_append]
  rw [intLine_nat]
  simp only
  rw [if_neg (by omega), Int.toNat_natCast]
  cases ascii with
  | true =>
    have hl' : ∀ ip ∈ ids.zip points, ip.1.natAbs < io.lim := fun ip hip => hl rfl _ (List.of_mem_zip hip).1
    simp only [if_true]
    have hs := scan_numbered io io.fmt io.tok io.parse_fmt 3 (ids.zip points) h3' hl' (linesText ["$EndNodes".toList] ++ s)
    have hr := reshape_numbered io 3 (ids.zip points) h3'
    rw [hzl] at hs hr
    rw [hs]
    simp only
    rw [hr]
    simp only
    congr 2
    · congr 1
      · rw [List.map_map]
        exact hsn
      · rw [List.flatMap_map]
        simp only [List.take_succ_cons, List.take_zero, List.map_cons, List.map_nil]
        rw [flatMap_congr' (g := fun ip : Int × List F => [ip.1]) (fun ip hip => by rw [io.toInt_ofInt _ (hl' ip hip)]),
          ← List.map_eq_flatMap]
        exact hf
    · have := fastForward_w "Nodes".toList tok_nodes (if ids.zip points = [] then [] else ['\n'])
        (by by_cases h : ids.zip points = [] <;> simp [h]) s
      by_cases h : ids.zip points = []
      · rw [if_pos h] at this ⊢; exact this
      · rw [if_neg h] at this ⊢; exact this
  | false =>
    simp only [Bool.false_eq_true, if_false]
    have hr := readRecords_put io 3 (ids.zip points) h3' (fun ip hip => (hb rfl).1 _ (List.of_mem_zip hip).1)
      (by rw [hf, hzl]; exact (hb rfl).2) (['\n'] ++ (linesText ["$EndNodes".toList] ++ s))
    rw [hzl, hsn] at hr
    simp only [List.append_assoc] at hr ⊢
    rw [hr]
    simp only
    rw [← (hb rfl).2]
    have := fastForward_w "Nodes".toList tok_nodes ['\n'] (Or.inr rfl) s
    rw [← this]
    rfl

/-! ### Node numbers -/

theorem length_putAt (a : List Int) (iv : Int × Int) (b : List Int) (h : putAt a iv = .ok b) : b.length = a.length := by
  unfold putAt at h
  split at h
  · split at h
    · injection h with h; subst h; simp
    · cases h
  · split at h
    · injection h with h; subst h; simp
    · cases h

theorem putAll (l : List Int) (k : Nat) (a : List Int) (hn : l.Nodup) (hb : ∀ z ∈ l, 0 ≤ z ∧ z.toNat < a.length) :
    ∃ b, foldRes putAt a ((l.zipIdx k).map fun ti => (ti.1, (ti.2 : Int))) = .ok b ∧ b.length = a.length ∧
      (∀ i (hi : i < l.length), b[(l[i]).toNat]? = some ((k + i : Nat) : Int)) ∧
      ∀ j : Nat, (j : Int) ∉ l → b[j]? = a[j]? := by
  induction l generalizing k a with
  | nil => exact ⟨a, rfl, rfl, by simp, by simp⟩
  | cons z l ih =>
    obtain ⟨hz, hz2⟩ := hb z (by simp)
    obtain ⟨b, h1, h2, h3, h4⟩ := ih (k + 1) (a.set z.toNat (k : Int)) (List.nodup_cons.1 hn).2 (by
      intro y hy
      rw [List.length_set]
      exact hb y (by simp [hy]))
    refine ⟨b, ?_, by rw [h2, List.length_set], ?_, ?_⟩
    · rw [List.zipIdx_cons, List.map_cons, foldRes]
      have : putAt a (z, (k : Int)) = .ok (a.set z.toNat (k : Int)) := by
        unfold putAt
        rw [if_pos hz, if_pos hz2]
      simp only [this]
      exact h1
    · intro i hi
      cases i with
      | zero =>
        simp only [List.getElem_cons_zero, Nat.add_zero]
        rw [h4 z.toNat (by rw [Int.toNat_of_nonneg hz]; exact (List.nodup_cons.1 hn).1)]
        rw [List.getElem?_set_self hz2]
      | succ i =>
        simp only [List.getElem_cons_succ]
        rw [h3 i (by simpa using hi)]
        congr 2
        omega
    · intro j hj
      simp only [List.mem_cons, not_or] at hj
      rw [h4 j hj.2, List.getElem?_set_ne]
      intro e
      apply hj.1
      rw [← e, Int.toNat_of_nonneg hz]

theorem le_maxOf (l : List Int) : ∀ z ∈ l, z ≤ maxOf l := by
  induction l with
  | nil => simp
  | cons a l ih =>
    intro z hz
    cases l with
    | nil => simp only [List.mem_singleton] at hz; subst hz; exact Int.le_refl _
    | cons b l =>
      rw [maxOf]
      rcases List.mem_cons.1 hz with rfl | hz
      · exact Int.le_max_left _ _
      · exact Int.le_trans (ih z hz) (Int.le_max_right _ _)

theorem remapTable_ok (ids : List Int) (hne : ids ≠ []) (hn : ids.Nodup) (hp : ∀ i ∈ ids, 1 ≤ i) :
    ∃ table, remapTable ids = .ok table ∧ ∀ p, p < ids.length → npIndex table (ids.getD p 0 - 1) = .ok (p : Int) := by
  have hpos : 0 ≤ maxOf (ids.map (· - 1)) := by
    cases ids with
    | nil => exact absurd rfl hne
    | cons a l =>
      have h1 := le_maxOf ((a :: l).map (· - 1)) (a - 1) (by simp)
      have h2 := hp a (by simp)
      omega
  have hn' : (ids.map (· - 1)).Nodup := by
    rw [List.nodup_iff_pairwise_ne, List.pairwise_map]
    exact (List.nodup_iff_pairwise_ne.1 hn).imp fun h e => h (by omega)
  obtain ⟨b, h1, h2, h3, -⟩ := putAll (ids.map (· - 1)) 0
    (List.replicate (maxOf (ids.map (· - 1)) + 1).toNat (-1)) hn' (by
      intro z hz
      have hm := le_maxOf _ z hz
      obtain ⟨i, hi, rfl⟩ := List.mem_map.1 hz
      have := hp i hi
      rw [List.length_replicate]
      constructor <;> omega)
  refine ⟨b, ?_, ?_⟩
  · unfold remapTable
    rw [if_neg hne, if_neg (by omega)]
    exact h1
  · intro p hlt
    have h := h3 p (by simpa using hlt)
    simp only [List.getElem_map, Nat.zero_add] at h
    have e : ids.getD p 0 = ids[p] := by simp [List.getD_eq_getElem?_getD, hlt]
    have := hp ids[p] (List.getElem_mem hlt)
    unfold npIndex
    rw [e, if_pos (by omega), h]

/-! ### Elements -/

theorem gmshRow_spec {α : Type} (t : String) (r : List α) (h : ∀ n, numNodesPerCell.get? t = some n → r.length = n) :
    reorder gmshGmshOrdering t r = .ok (gmshRow t r) ∧ (gmshRow t r).length = r.length ∧
      reorder gmshMeshioOrdering t (gmshRow t r) = .ok r := by
  obtain ⟨s, h1, h2, h3⟩ := Props.C17_gmsh t r h
  have : gmshRow t r = s := by unfold gmshRow; rw [h1]
  rw [this]
  exact ⟨h1, h2, h3⟩

theorem reorder_map {α β : Type} (f : α → β) (table : List (String × List Nat)) (t : String) (r s : List α)
    (h : reorder table t r = .ok s) : reorder table t (r.map f) = .ok (s.map f) := by
  unfold reorder at h ⊢
  cases hf : find table t with
  | none => rw [hf] at h; simp only [Except.ok.injEq] at h ⊢; rw [h]
  | some p => rw [hf] at h; exact pick_map f h

theorem find_eq_get? {ν : Type} (d : Dict ν) (k : String) : find d k = Dict.get? d k := by
  induction d with
  | nil => rfl
  | cons kv d ih =>
    obtain ⟨k', v⟩ := kv
    rw [find, Dict.get?_cons, ih]
    simp only [eq_comm]

theorem set_set {α : Type} (d : Dict α) (k : String) (v w : α) : Dict.set (Dict.set d k v) k w = Dict.set d k w := by
  induction d with
  | nil => simp [Dict.set]
  | cons kv d ih =>
    obtain ⟨k', v'⟩ := kv
    by_cases h : k' = k
    · simp [Dict.set, h]
    · simp [Dict.set, h, ih]

theorem set_fresh {α : Type} (d : Dict α) (k : String) (v : α) (h : k ∉ d.map (·.1)) : Dict.set d k v = d ++ [(k, v)] := by
  induction d with
  | nil => rfl
  | cons kv d ih =>
    obtain ⟨k', v'⟩ := kv
    simp only [List.map_cons, List.mem_cons, not_or] at h
    rw [Dict.set, if_neg (fun e => h.1 e.symm), ih h.2]
    rfl

/-- Setting new keys appends them. -/
theorem foldl_set_fresh {α : Type} (l d : Dict α) (h : (d.map (·.1) ++ l.map (·.1)).Nodup) :
    l.foldl (fun d e => Dict.set d e.1 e.2) d = d ++ l := by
  induction l generalizing d with
  | nil => simp
  | cons e l ih =>
    have h1 : e.1 ∉ d.map (·.1) := by
      intro hm
      have := (List.nodup_append.1 h).2.2 _ hm e.1 (by simp)
      exact this rfl
    rw [List.foldl_cons, set_fresh d e.1 e.2 h1, ih]
    · simp
    · simpa using h

theorem elem_code {n : Nat} {e : MshElem} (h : e.Ok n) :
    find meshioToGmsh e.type = some (gmshCode e.type) ∧ find gmshToMeshio (gmshCode e.type) = some e.type := by
  have h1 : find meshioToGmsh e.type = some (gmshCode e.type) := by
    unfold gmshCode
    obtain ⟨c, hc⟩ := Option.isSome_iff_exists.1 h.code
    rw [hc]; rfl
  exact ⟨h1, Props.C16_gmsh _ _ h1⟩

theorem code_fits {n : Nat} {e : MshElem} (h : e.Ok n) : IsInt 4 (gmshCode e.type) := by
  have key : ∀ kv ∈ meshioToGmsh, IsInt 4 (kv.2 : Int) := by decide +kernel
  exact key _ (find_mem (elem_code h).1)

theorem length_nodes {n : Nat} {e : MshElem} (h : e.Ok n) (ids : List Int) : (e.nodes ids).length = e.row.length := by
  have := (gmshRow_spec e.type (e.row.map fun p => ids.getD p 0) (by
    intro k hk
    rw [h.size] at hk
    rw [List.length_map]
    exact Option.some.inj hk)).2.1
  rw [MshElem.nodes, this, List.length_map]

/-- What is collected of one element. -/
def addElem (ids : List Int) (st : Elems) (e : MshElem) : Elems :=
  (pushTyped st.1 (e.type, e.nodes ids), addTags st.2 e.type [e.tags])

theorem readElem_line {n : Nat} {e : MshElem} (h : e.Ok n) (ids : List Int) (st : Elems) :
    readElem st (e.line ids ++ ['\n']) = .ok (addElem ids st e) := by
  have hl := length_nodes h ids
  have hc := (elem_code h).2
  have hs := h.size
  unfold readElem MshElem.line
  rw [splitWs_ints, mapRes_toInt]
  simp only [List.cons_append, List.nil_append, List.getElem?_cons_succ, List.getElem?_cons_zero, Int.toNat_natCast, hc,
    find_eq_get?]
  have hd : decide ((0 : Int) ≤ (gmshCode e.type : Int)) = true := by
    rw [decide_eq_true_iff]; omega
  rw [hd]
  simp only
  rw [hs]
  simp only
  rw [if_neg (by omega)]
  unfold addElem
  congr 3
  · congr 1
    have e1 : e.num :: (gmshCode e.type : Int) :: (e.tags.length : Int) :: (e.tags ++ e.nodes ids) =
        (e.num :: (gmshCode e.type : Int) :: (e.tags.length : Int) :: e.tags) ++ e.nodes ids := by simp
    rw [e1]
    apply List.drop_left'
    rw [List.length_append, hl]
    omega
  · congr 1
    unfold pySlice
    simp

theorem no_nl_line (ids : List Int) (e : MshElem) : '\n' ∉ e.line ids := no_nl_ints _

theorem readElemsText_lines (ids : List Int) (n : Nat) (l : List MshElem) (h : ∀ e ∈ l, e.Ok n) (st : Elems) (s : List Char) :
    readElemsText l.length st (linesText (l.map (MshElem.line ids)) ++ s) = .ok (l.foldl (addElem ids) st, s) := by
  induction l generalizing st with
  | nil => rfl
  | cons e l ih =>
    rw [List.length_cons, List.map_cons, linesText_cons, readElemsText, List.append_assoc, List.cons_append,
      readLine_append _ _ (no_nl_line ids e)]
    simp only
    rw [readElem_line (h e (by simp))]
    simp only
    rw [ih (fun e' he' => h e' (by simp [he']))]
    rfl

theorem pushRows_one (st : List (String × List (List Int))) (t : String) (r : List Int) :
    pushRows st t [r] = pushTyped st (t, r) := rfl

theorem pushBy_pushBy (st : List (String × List (List Int))) (t : String) (r : List Int) (rows : List (List Int)) :
    pushRows st t (r :: rows) = pushRows (pushTyped st (t, r)) t rows := by
  unfold pushRows pushTyped pushBy
  cases hg : st.getLast? with
  | none =>
    simp
  | some b =>
    simp only
    by_cases hb : b.1 = t
    · simp [hb]
    · simp [hb]

theorem pushRows_foldl (t : String) (rows : List (List Int)) (hne : rows ≠ []) (st : List (String × List (List Int))) :
    pushRows st t rows = rows.foldl (fun st r => pushTyped st (t, r)) st := by
  induction rows generalizing st with
  | nil => exact absurd rfl hne
  | cons r rows ih =>
    cases rows with
    | nil => rfl
    | cons r' rows => rw [pushBy_pushBy, ih (by simp)]; rfl

theorem addTags_foldl (t : String) (l : List (List Int)) (hne : l ≠ []) (d : Dict (List (List Int))) :
    addTags d t l = l.foldl (fun d x => addTags d t [x]) d := by
  induction l generalizing d with
  | nil => exact absurd rfl hne
  | cons x l ih =>
    cases l with
    | nil => rfl
    | cons y l =>
      rw [List.foldl_cons, ← ih (by simp)]
      unfold addTags
      rw [Dict.get?_set]
      simp only [if_true, Option.getD_some]
      rw [set_set]
      simp

theorem foldl_congr' {α β : Type} {f g : β → α → β} {l : List α} (h : ∀ a ∈ l, ∀ b, f b a = g b a) (b : β) :
    l.foldl f b = l.foldl g b := by
  induction l generalizing b with
  | nil => rfl
  | cons a l ih => rw [List.foldl_cons, List.foldl_cons, h a (by simp), ih fun a' ha' => h a' (by simp [ha'])]

theorem foldl_addElem (ids : List Int) (l : List MshElem) (st : Elems) :
    l.foldl (addElem ids) st = (l.foldl (fun c e => pushTyped c (e.type, e.nodes ids)) st.1,
      l.foldl (fun d e => addTags d e.type [e.tags]) st.2) := by
  induction l generalizing st with
  | nil => rfl
  | cons e l ih => rw [List.foldl_cons, ih]; rfl

theorem foldl_addElem_chunk (ids : List Int) (t : String) (c : List MshElem) (hne : c ≠ []) (ht : ∀ e ∈ c, e.type = t) (st : Elems) :
    c.foldl (addElem ids) st = (pushRows st.1 t (c.map (MshElem.nodes ids)), addTags st.2 t (c.map (·.tags))) := by
  rw [foldl_addElem, pushRows_foldl t _ (by simpa using hne), addTags_foldl t _ (by simpa using hne), List.foldl_map, List.foldl_map]
  congr 1
  · exact foldl_congr' (fun e he b => by rw [ht e he]) _
  · exact foldl_congr' (fun e he b => by rw [ht e he]) _

theorem mem_reorder {α : Type} {table : List (String × List Nat)} {t : String} {r s : List α} (h : reorder table t r = .ok s) :
    ∀ x ∈ s, x ∈ r := by
  unfold reorder at h
  cases hf : find table t with
  | none => rw [hf] at h; injection h with h; subst h; exact fun x hx => hx
  | some p => rw [hf] at h; exact mem_pick h

theorem mem_nodes {n : Nat} {e : MshElem} (h : e.Ok n) (ids : List Int) (hn : ids.length = n) : ∀ z ∈ e.nodes ids, z ∈ ids := by
  intro z hz
  have := (gmshRow_spec e.type (e.row.map fun p => ids.getD p 0) (by
    intro k hk
    rw [h.size] at hk
    rw [List.length_map]
    exact Option.some.inj hk)).1
  have hm := mem_reorder this z hz
  obtain ⟨p, hp, rfl⟩ := List.mem_map.1 hm
  have hp' := h.nodes p hp
  rw [List.getD_eq_getElem?_getD, List.getElem?_eq_getElem (by omega), Option.getD_some]
  exact List.getElem_mem _

theorem putInts_flatMap {α : Type} (k : Nat) (f : α → List Int) (l : List α) :
    (l.flatMap fun a => putInts k (f a)) = putInts k (l.flatMap f) := by
  unfold putInts
  rw [List.flatMap_assoc]

theorem readElemsBin_chunk (ids : List Int) (n : Nat) (hids : ids.length = n) (hfit : ∀ i ∈ ids, IsInt 4 i)
    (e0 : MshElem) (c0 : List MshElem) (hok : ∀ e ∈ e0 :: c0, e.Ok n)
    (htype : ∀ e ∈ e0 :: c0, e.type = e0.type) (htags : ∀ e ∈ e0 :: c0, e.tags.length = e0.tags.length)
    (hlen : IsInt 4 ((e0 :: c0).length : Int)) (hnt : IsInt 4 (e0.tags.length : Int)) (fuel : Nat) (todo : Int) (htodo : 0 < todo)
    (st : Elems) (s : List Char) :
    readElemsBin (fuel + 1) todo st (mshChunk ids (e0 :: c0) ++ s) =
      readElemsBin fuel (todo - ((e0 :: c0).length : Int)) ((e0 :: c0).foldl (addElem ids) st) s := by
  have ok0 := hok e0 (by simp)
  have hrow : ∀ e ∈ e0 :: c0, (e.num :: (e.tags ++ e.nodes ids)).length = 1 + e0.tags.length + e0.row.length := by
    intro e he
    have h1 := (hok e he).size
    rw [htype e he, ok0.size] at h1
    have h1 := Option.some.inj h1
    rw [List.length_cons, List.length_append, htags e he, length_nodes (hok e he)]
    omega
  rw [foldl_addElem_chunk ids e0.type (e0 :: c0) (by simp) htype]
  generalize hc : e0 :: c0 = c at *
  have e1 : mshChunk ids c ++ s = putInts 4 [(gmshCode e0.type : Int), (c.length : Int), (e0.tags.length : Int)] ++
      (putInts 4 (c.flatMap fun e => e.num :: (e.tags ++ e.nodes ids)) ++ s) := by
    rw [← hc]
    unfold mshChunk
    rw [putInts_flatMap]
    simp only [List.append_assoc]
  have e2 := getInts_putInts 4 [(gmshCode e0.type : Int), (c.length : Int), (e0.tags.length : Int)] (by
    intro z hz
    simp only [List.mem_cons, List.not_mem_nil, or_false] at hz
    rcases hz with rfl | rfl | rfl
    · exact code_fits ok0
    · exact hlen
    · exact hnt) (putInts 4 (c.flatMap fun e => e.num :: (e.tags ++ e.nodes ids)) ++ s)
  simp only [List.length_cons, List.length_nil] at e2
  have e3 : (c.flatMap fun e => e.num :: (e.tags ++ e.nodes ids)).length = c.length * (1 + e0.tags.length + e0.row.length) := by
    have := length_flatten_const (1 + e0.tags.length + e0.row.length) (c.map fun e => e.num :: (e.tags ++ e.nodes ids)) (by
      intro r hr
      obtain ⟨e, he, rfl⟩ := List.mem_map.1 hr
      exact hrow e he)
    rwa [List.length_map, ← List.flatMap_def] at this
  have e4 := getInts_putInts 4 (c.flatMap fun e => e.num :: (e.tags ++ e.nodes ids)) (by
    intro z hz
    obtain ⟨e, he, hz⟩ := List.mem_flatMap.1 hz
    rcases List.mem_cons.1 hz with rfl | hz
    · exact (hok e he).fits.1
    · rcases List.mem_append.1 hz with hz | hz
      · exact (hok e he).fits.2 z hz
      · exact hfit z (mem_nodes (hok e he) ids hids z hz)) s
  rw [e3] at e4
  have e5 : reshape c.length (1 + e0.tags.length + e0.row.length) (c.flatMap fun e => e.num :: (e.tags ++ e.nodes ids)) =
      .ok (c.map fun e => e.num :: (e.tags ++ e.nodes ids)) := by
    have := reshape_flatten (1 + e0.tags.length + e0.row.length) (c.map fun e => e.num :: (e.tags ++ e.nodes ids)) (by
      intro r hr
      obtain ⟨e, he, rfl⟩ := List.mem_map.1 hr
      exact hrow e he)
    rwa [List.length_map, ← List.flatMap_def] at this
  have hd : decide ((0 : Int) ≤ (gmshCode e0.type : Int)) = true := by
    rw [decide_eq_true_iff]; omega
  rw [readElemsBin, if_neg (by omega), e1, e2]
  simp only [Int.toNat_natCast, (elem_code ok0).2, hd, find_eq_get?]
  rw [ok0.size]
  simp only
  rw [if_neg (by omega), e4]
  simp only
  rw [e5]
  simp only [List.map_map]
  congr 2
  · congr 1
    refine List.map_congr_left fun e he => ?_
    have : e.num :: (e.tags ++ e.nodes ids) = (e.num :: e.tags) ++ e.nodes ids := rfl
    simp only [Function.comp]
    rw [this, List.drop_left']
    rw [List.length_cons, htags e he]
    omega
  · congr 1
    refine List.map_congr_left fun e he => ?_
    simp only [Function.comp, List.drop_succ_cons, List.drop_zero]
    exact List.take_left' (htags e he)

theorem readElemsBin_chunks (ids : List Int) (n : Nat) (hids : ids.length = n) (hfit : ∀ i ∈ ids, IsInt 4 i)
    (chunks : List (List MshElem)) (hok : ∀ c ∈ chunks, ∀ e ∈ c, e.Ok n)
    (hc : ∀ c ∈ chunks, c ≠ [] ∧ IsInt 4 c.length ∧ ∀ e ∈ c, ∀ e' ∈ c, e.type = e'.type)
    (ht : ∀ c ∈ chunks, ∀ e ∈ c, ∀ e' ∈ c, e.tags.length = e'.tags.length)
    (hnt : ∀ c ∈ chunks, ∀ e ∈ c, IsInt 4 e.tags.length) (fuel : Nat) (hf : chunks.length < fuel) (st : Elems) (s : List Char) :
    readElemsBin fuel (chunks.flatten.length : Int) st (chunks.flatMap (mshChunk ids) ++ s) =
      .ok (chunks.flatten.foldl (addElem ids) st, s) := by
  induction chunks generalizing fuel st with
  | nil =>
    cases fuel with
    | zero => omega
    | succ fuel => rw [readElemsBin, if_pos (by simp)]; rfl
  | cons c chunks ih =>
    cases fuel with
    | zero => omega
    | succ fuel =>
      obtain ⟨h1, h2, h3⟩ := hc c (by simp)
      cases c with
      | nil => exact absurd rfl h1
      | cons e0 c0 =>
        rw [List.flatMap_cons, List.append_assoc,
          readElemsBin_chunk ids n hids hfit e0 c0 (hok _ (by simp)) (fun e he => h3 e he e0 (by simp))
            (fun e he => ht (e0 :: c0) (by simp) e he e0 (by simp)) h2
            (hnt (e0 :: c0) (by simp) e0 (by simp)) fuel _ (by simp only [List.flatten_cons, List.length_append, List.length_cons]; omega)]
        have : ((((e0 :: c0) :: chunks).flatten.length : Nat) : Int) - ((e0 :: c0).length : Int) = (chunks.flatten.length : Int) := by
          rw [List.flatten_cons, List.length_append]
          omega
        rw [this, ih (fun c hc' => hok c (by simp [hc'])) (fun c hc' => hc c (by simp [hc']))
          (fun c hc' => ht c (by simp [hc'])) (fun c hc' => hnt c (by simp [hc'])) fuel (by simpa using hf),
          List.flatten_cons, List.foldl_append]

theorem length_chunks_le (ids : List Int) (chunks : List (List MshElem)) (h : ∀ c ∈ chunks, c ≠ []) :
    chunks.length ≤ (chunks.flatMap (mshChunk ids)).length := by
  induction chunks with
  | nil => simp
  | cons c chunks ih =>
    have := ih fun c' hc' => h c' (by simp [hc'])
    cases c with
    | nil => exact absurd rfl (h [] (by simp))
    | cons e c =>
      rw [List.flatMap_cons, List.length_append, List.length_cons, mshChunk, List.length_append, length_putInts]
      simp only [List.length_cons, List.length_nil]
      omega

/-! ### Tags -/

/-- The lists of tags of the elements of a type. -/
def tagsOf (l : List MshElem) (t : String) : List (List Int) := (l.filter fun e => decide (e.type = t)).map (·.tags)

/-- The lists of tags by type hold those of the elements `l`, in order. -/
def TagsInv (l : List MshElem) (d : Dict (List (List Int))) : Prop :=
  Dict.Ok d ∧ ∀ t, Dict.get? d t = if tagsOf l t = [] then none else some (tagsOf l t)

theorem TagsInv.add {l : List MshElem} {d : Dict (List (List Int))} (h : TagsInv l d) (e : MshElem) :
    TagsInv (l ++ [e]) (addTags d e.type [e.tags]) := by
  obtain ⟨h1, h2⟩ := h
  unfold addTags
  refine ⟨Dict.Ok.set h1 _ _, ?_⟩
  intro t
  rw [Dict.get?_set]
  by_cases ht : t = e.type
  · subst ht
    have e1 : tagsOf (l ++ [e]) e.type = tagsOf l e.type ++ [e.tags] := by simp [tagsOf, List.filter_append]
    rw [if_pos rfl, e1, if_neg (by simp), h2]
    by_cases h0 : tagsOf l e.type = []
    · simp [h0]
    · rw [if_neg h0]; rfl
  · have e1 : tagsOf (l ++ [e]) t = tagsOf l t := by
      simp [tagsOf, List.filter_append, Ne.symm ht]
    rw [if_neg ht, e1, h2]

theorem TagsInv.foldl {pre : List MshElem} {d : Dict (List (List Int))} (h : TagsInv pre d) (l : List MshElem) :
    TagsInv (pre ++ l) (l.foldl (fun d e => addTags d e.type [e.tags]) d) := by
  induction l generalizing pre d with
  | nil => simpa using h
  | cons e l ih =>
    have := ih (h.add e)
    rw [List.append_assoc] at this
    exact this

theorem addTags_inv (l : List MshElem) : TagsInv l (l.foldl (fun d e => addTags d e.type [e.tags]) []) :=
  TagsInv.foldl (pre := []) (d := []) ⟨by unfold Dict.Ok; exact List.nodup_nil, fun t => rfl⟩ l

theorem tagsAt_nil (i : Nat) (l : List (List Int)) (h : ∀ x ∈ l, x.length ≤ i) : tagsAt i l = [] := by
  unfold tagsAt
  rw [List.filterMap_eq_nil_iff]
  intro x hx
  exact List.getElem?_eq_none (h x hx)

theorem tagsAt_all (i : Nat) (l : List (List Int)) (h : ∀ x ∈ l, i < x.length) : tagsAt i l = l.map fun x => x.getD i 0 := by
  unfold tagsAt
  induction l with
  | nil => rfl
  | cons x l ih =>
    have hx := h x (by simp)
    rw [List.filterMap_cons_some (b := x.getD i 0), List.map_cons, ih fun y hy => h y (by simp [hy])]
    rw [List.getD_eq_getElem?_getD, List.getElem?_eq_getElem hx, Option.getD_some]

/-- One entry of the tags by type. -/
def tagEntry (i : Nat) (kv : String × List (List Int)) : Option (String × List Int) :=
  if tagsAt i kv.2 = [] then none else some (kv.1, tagsAt i kv.2)

theorem get?_filterMap_tag (i : Nat) (d : Dict (List (List Int))) (hd : d.Ok) (t : String) :
    Dict.get? (d.filterMap (tagEntry i)) t =
      match Dict.get? d t with
      | none => none
      | some l => if tagsAt i l = [] then none else some (tagsAt i l) := by
  induction d with
  | nil => rfl
  | cons kv d ih =>
    obtain ⟨k, l⟩ := kv
    have hd' : Dict.Ok d := (List.nodup_cons.1 hd).2
    have hk : k ∉ Dict.keys d := (List.nodup_cons.1 hd).1
    rw [Dict.get?_cons]
    by_cases ht : t = k
    · subst ht
      rw [if_pos rfl]
      simp only
      by_cases h0 : tagsAt i l = []
      · rw [List.filterMap_cons_none (by unfold tagEntry; simp only; rw [if_pos h0]), ih hd', if_pos h0,
          (Dict.get?_eq_none_iff d t).2 hk]
      · rw [List.filterMap_cons_some (b := (t, tagsAt i l)) (by unfold tagEntry; simp only; rw [if_neg h0]), Dict.get?_cons,
          if_pos rfl, if_neg h0]
    · rw [if_neg ht]
      by_cases h0 : tagsAt i l = []
      · rw [List.filterMap_cons_none (by unfold tagEntry; simp only; rw [if_pos h0]), ih hd']
      · rw [List.filterMap_cons_some (b := (k, tagsAt i l)) (by unfold tagEntry; simp only; rw [if_neg h0]), Dict.get?_cons,
          if_neg ht, ih hd']

/-- The tags that are dealt out to the blocks, when each type has the tags of its blocks. -/
theorem dealTags_blocks (d : Dict (List Int)) (bs : List (String × List (List Int × Int))) (off : Dict Nat)
    (h : ∀ t, ∃ pre, (Dict.get? d t).getD [] = pre ++ ((rowsOf bs).filter fun r => decide (r.1 = t)).map (fun r => r.2.2) ∧
      (Dict.get? off t).getD 0 = pre.length) :
    dealTags d off (bs.map fun b => (b.1, b.2.map (·.1))) = bs.map fun b => b.2.map (·.2) := by
  induction bs generalizing off with
  | nil => rfl
  | cons b bs ih =>
    obtain ⟨t, rows⟩ := b
    obtain ⟨pre, h1, h2⟩ := h t
    have e0 : ∀ t', ((rowsOf ((t, rows) :: bs)).filter fun r => decide (r.1 = t')).map (fun r => r.2.2) =
        (if t = t' then rows.map (·.2) else []) ++ ((rowsOf bs).filter fun r => decide (r.1 = t')).map fun r => r.2.2 := by
      intro t'
      have : rowsOf ((t, rows) :: bs) = rows.map (fun r => (t, r)) ++ rowsOf bs := by simp [rowsOf]
      rw [this, List.filter_append, List.map_append]
      congr 1
      by_cases ht : t = t'
      · rw [if_pos ht, List.filter_eq_self.2 (by
          intro a ha
          obtain ⟨r, -, rfl⟩ := List.mem_map.1 ha
          simpa using ht), List.map_map]
        rfl
      · rw [if_neg ht, (List.filter_eq_nil_iff (p := fun r : String × List Int × Int => decide (r.1 = t'))).2 (by
          intro a ha
          obtain ⟨r, -, rfl⟩ := List.mem_map.1 ha
          simpa using ht)]
        rfl
    rw [List.map_cons, List.map_cons, dealTags]
    simp only [List.length_map]
    congr 1
    · rw [h2, h1, e0 t, if_pos rfl]
      unfold pySlice
      rw [List.drop_left' rfl, Nat.add_sub_cancel_left, List.take_left' (by simp)]
    · apply ih
      intro t'
      by_cases ht : t = t'
      · subst ht
        refine ⟨pre ++ rows.map (·.2), ?_, ?_⟩
        · rw [h1, e0 t, if_pos rfl, List.append_assoc]
        · rw [Dict.get?_set, if_pos rfl, h2]
          simp
      · obtain ⟨pre', h1', h2'⟩ := h t'
        refine ⟨pre', ?_, ?_⟩
        · rw [h1', e0 t', if_neg ht, List.nil_append]
        · rw [Dict.get?_set, if_neg (Ne.symm ht), h2']

theorem outputTags_eq (d : Dict (List (List Int))) :
    outputTags d = (if d.filterMap (tagEntry 0) = [] then [] else [("gmsh:physical", d.filterMap (tagEntry 0))]) ++
      (if d.filterMap (tagEntry 1) = [] then [] else [("gmsh:geometrical", d.filterMap (tagEntry 1))]) := by
  have h : outputTags d = [("gmsh:physical", 0), ("gmsh:geometrical", 1)].filterMap fun (ni : String × Nat) =>
      if d.filterMap (tagEntry ni.2) = [] then none else some (ni.1, d.filterMap (tagEntry ni.2)) := rfl
  rw [h]
  by_cases h0 : d.filterMap (tagEntry 0) = [] <;> by_cases h1 : d.filterMap (tagEntry 1) = [] <;> simp [h0, h1]

theorem tagsOf_ne_nil {l : List MshElem} {e : MshElem} (he : e ∈ l) : tagsOf l e.type ≠ [] := by
  unfold tagsOf
  intro h
  rw [List.map_eq_nil_iff, List.filter_eq_nil_iff] at h
  exact h e he (by simp)

theorem noTag_filterMap {l : List MshElem} {d : Dict (List (List Int))} (h : TagsInv l d) (i : Nat)
    (hn : ∀ e ∈ l, e.tags.length ≤ i) : d.filterMap (tagEntry i) = [] := by
  rw [List.filterMap_eq_nil_iff]
  intro kv hkv
  unfold tagEntry
  rw [if_pos]
  have := Dict.get?_of_mem h.1 (k := kv.1) (v := kv.2) hkv
  rw [h.2] at this
  split at this
  · cases this
  · injection this with this
    rw [← this]
    apply tagsAt_nil
    intro x hx
    obtain ⟨e, he, rfl⟩ := List.mem_map.1 hx
    exact hn e (List.mem_filter.1 he).1

theorem hasTag_get? {l : List MshElem} {d : Dict (List (List Int))} (h : TagsInv l d) (i : Nat)
    (ht : HasTag l i) (t : String) :
    (Dict.get? (d.filterMap (tagEntry i)) t).getD [] = ((l.filter fun e => decide (e.type = t)).map fun e => e.tags.getD i 0) := by
  rw [get?_filterMap_tag i d h.1, h.2]
  by_cases h0 : tagsOf l t = []
  · rw [if_pos h0]
    unfold tagsOf at h0
    rw [List.map_eq_nil_iff] at h0
    rw [h0]; rfl
  · rw [if_neg h0]
    have e1 : tagsAt i (tagsOf l t) = (tagsOf l t).map fun x => x.getD i 0 := by
      apply tagsAt_all
      intro x hx
      obtain ⟨e, he, rfl⟩ := List.mem_map.1 hx
      exact ht.2 e (List.mem_filter.1 he).1
    simp only [e1]
    rw [if_neg (by simpa using h0), Option.getD_some]
    unfold tagsOf
    rw [List.map_map]
    rfl

theorem hasTag_ne_nil {l : List MshElem} {d : Dict (List (List Int))} (h : TagsInv l d) (i : Nat)
    (ht : HasTag l i) : d.filterMap (tagEntry i) ≠ [] := by
  obtain ⟨hne, hall⟩ := ht
  cases l with
  | nil => exact absurd rfl hne
  | cons e l =>
    intro h0
    have := hasTag_get? h i ⟨hne, hall⟩ e.type
    rw [h0] at this
    simp at this

theorem dealTags_elems {l : List MshElem} {d : Dict (List (List Int))} (h : TagsInv l d) (i : Nat) (ht : HasTag l i)
    (rows : List (List Int)) (hr : rows.length = l.length) :
    dealTags (d.filterMap (tagEntry i)) [] (groupRuns ((l.map (·.type)).zip rows)) =
      (groupRuns ((l.map (·.type)).zip (l.map fun e => e.tags.getD i 0))).map (·.2) := by
  have hz : ∀ {β : Type} (x : List β), (l.map (·.type)).zip x = (l.zip x).map fun p => (p.1.type, p.2) := by
    intro β x
    rw [List.zip_map_left]
    rfl
  have e1 : (l.map (·.type)).zip rows = ((l.zip rows).map fun p => (p.1.type, (p.2, p.1.tags.getD i 0))).map fun q => (q.1, q.2.1) := by
    rw [hz, List.map_map]; rfl
  have e2 : (l.map (·.type)).zip (l.map fun e => e.tags.getD i 0) =
      ((l.zip rows).map fun p => (p.1.type, (p.2, p.1.tags.getD i 0))).map fun q => (q.1, q.2.2) := by
    rw [List.map_map, List.zip_map']
    have : l = (l.zip rows).map (·.1) := (List.map_fst_zip (by omega)).symm
    conv => lhs; rw [this]
    rw [List.map_map]
    rfl
  generalize hL : (l.zip rows).map (fun p => (p.1.type, (p.2, p.1.tags.getD i 0))) = L at e1 e2
  rw [e1, e2, groupRuns_map, groupRuns_map, dealTags_blocks _ (groupRuns L) [], List.map_map]
  · rfl
  · intro t
    refine ⟨[], ?_, rfl⟩
    rw [List.nil_append, rowsOf_groupRuns, hasTag_get? h i ht, ← hL, List.filter_map, List.map_map]
    have : l = (l.zip rows).map (·.1) := (List.map_fst_zip (by omega)).symm
    conv => lhs; rw [this]
    rw [List.filter_map, List.map_map]
    rfl

/-! ### The section of elements -/

theorem finishBlock_ok (ids : List Int) (table : List Int) (n : Nat)
    (ht : ∀ p, p < n → npIndex table (ids.getD p 0 - 1) = .ok (p : Int)) (t : String) (l : List MshElem)
    (h : ∀ e ∈ l, e.Ok n ∧ e.type = t) :
    finishBlock table (t, l.map (MshElem.nodes ids)) = .ok (t, l.map fun e => e.row.map Int.ofNat) := by
  have hsz : ∀ e ∈ l, ∀ e' ∈ l, e.row.length = e'.row.length := by
    intro e he e' he'
    have h1 := (h e he).1.size
    have h2 := (h e' he').1.size
    rw [(h e he).2] at h1
    rw [(h e' he').2, h1] at h2
    exact Option.some.inj h2
  have hall : (l.map (MshElem.nodes ids)).all (fun r => decide (r.length = ((l.map (MshElem.nodes ids)).headD []).length)) = true := by
    rw [List.all_eq_true]
    intro r hr
    obtain ⟨e, he, rfl⟩ := List.mem_map.1 hr
    rw [decide_eq_true_iff]
    cases l with
    | nil => simp at he
    | cons e0 l =>
      simp only [List.map_cons, List.headD_cons]
      rw [length_nodes (h e he).1, length_nodes (h e0 (by simp)).1]
      exact hsz e he e0 (by simp)
  have h1 : mapRes (fun r => reorder gmshMeshioOrdering t (r.map (· - 1))) (l.map (MshElem.nodes ids)) =
      .ok (l.map fun e => e.row.map fun p => ids.getD p 0 - 1) := by
    induction l with
    | nil => rfl
    | cons e l ih =>
      obtain ⟨hok, het⟩ := h e (by simp)
      have hsp := gmshRow_spec e.type (e.row.map fun p => ids.getD p 0) (by
        intro k hk
        rw [hok.size] at hk
        rw [List.length_map]
        exact Option.some.inj hk)
      have := reorder_map (· - 1) gmshMeshioOrdering e.type _ _ hsp.2.2
      rw [List.map_cons, mapRes]
      have e2 : reorder gmshMeshioOrdering t ((e.nodes ids).map (· - 1)) = .ok (e.row.map fun p => ids.getD p 0 - 1) := by
        rw [← het, MshElem.nodes, this, List.map_map]
        rfl
      rw [e2]
      simp only
      rw [ih (fun e' he' => h e' (by simp [he'])) (fun e' he' e'' he'' => hsz e' (by simp [he']) e'' (by simp [he'']))]
      · rfl
      · rw [List.all_eq_true]
        intro r hr
        obtain ⟨e', he', rfl⟩ := List.mem_map.1 hr
        rw [decide_eq_true_iff]
        cases l with
        | nil => simp at he'
        | cons e0 l =>
          simp only [List.map_cons, List.headD_cons]
          rw [length_nodes (h e' (by simp only [List.mem_cons] at he' ⊢; right; exact he')).1,
            length_nodes (h e0 (by simp)).1]
          exact hsz e' (by simp only [List.mem_cons] at he' ⊢; right; exact he') e0 (by simp)
  have h2 : mapRes (mapRes (npIndex table)) (l.map fun e => e.row.map fun p => ids.getD p 0 - 1) =
      .ok (l.map fun e => e.row.map Int.ofNat) := by
    clear h1 hall hsz
    induction l with
    | nil => rfl
    | cons e l ih =>
      rw [List.map_cons, mapRes]
      have hn := (h e (by simp)).1.nodes
      have e2 : mapRes (npIndex table) (e.row.map fun p => ids.getD p 0 - 1) = .ok (e.row.map Int.ofNat) := by
        generalize e.row = row at hn
        induction row with
        | nil => rfl
        | cons p row ih2 =>
          rw [List.map_cons, mapRes, ht p (hn p (by simp))]
          simp only
          rw [ih2 fun q hq => hn q (by simp [hq])]
          rfl
      rw [e2]
      simp only
      rw [ih fun e' he' => h e' (by simp [he'])]
      rfl
  unfold finishBlock
  simp only
  rw [if_pos hall, h1]
  simp only
  rw [h2]

theorem mapRes_finish (ids : List Int) (table : List Int) (n : Nat)
    (ht : ∀ p, p < n → npIndex table (ids.getD p 0 - 1) = .ok (p : Int)) (l : List MshElem) (h : ∀ e ∈ l, e.Ok n) :
    mapRes (finishBlock table) (groupRuns (l.map fun e => (e.type, e.nodes ids))) =
      .ok (groupRuns (l.map fun e => (e.type, e.row.map Int.ofNat))) := by
  have e1 : ∀ {β : Type} (g : MshElem → β), l.map (fun e => (e.type, g e)) = (l.map fun e => (e.type, e)).map fun a => (a.1, g a.2) := by
    intro β g
    rw [List.map_map]; rfl
  rw [e1 (MshElem.nodes ids), e1 (fun e => e.row.map Int.ofNat), groupRuns_map,
    groupRuns_map (fun e : MshElem => e.row.map Int.ofNat)]
  have hm : ∀ b ∈ groupRuns (l.map fun e => (e.type, e)), ∀ e ∈ b.2, e.Ok n ∧ e.type = b.1 := by
    intro b hb e he
    have := mem_groupRuns _ b hb e he
    obtain ⟨e', he', heq⟩ := List.mem_map.1 this
    injection heq with h1 h2
    subst h2
    exact ⟨h e' he', h1⟩
  generalize groupRuns (l.map fun e => (e.type, e)) = bs at hm
  induction bs with
  | nil => rfl
  | cons b bs ih =>
    rw [List.map_cons, mapRes, finishBlock_ok ids table n ht b.1 b.2 (hm b (by simp))]
    simp only
    rw [ih fun b' hb' => hm b' (by simp [hb'])]
    rfl

/-- The section of elements after its first line. -/
def elemsBody (ascii : Bool) (ids : List Int) (chunks : List (List MshElem)) : List Char :=
  (fmtNat chunks.flatten.length ++ ['\n']) ++
    ((if ascii then linesText (chunks.flatten.map (MshElem.line ids)) else chunks.flatMap (mshChunk ids) ++ ['\n']) ++
      linesText ["$EndElements".toList])

theorem mshElems_eq (ascii : Bool) (ids : List Int) (chunks : List (List MshElem)) (s : List Char) :
    mshElems ascii ids chunks ++ s = "$Elements".toList ++ '\n' :: (elemsBody ascii ids chunks ++ s) := by
  unfold mshElems elemsBody
  rw [linesText_cons, linesText_cons]
  simp only [List.append_assoc, List.cons_append, List.nil_append]
  rfl

theorem readCells_body (ascii : Bool) (ids : List Int) (n : Nat) (hids : ids.length = n) (hne : n ≠ 0) (hnd : ids.Nodup)
    (hfit : ∀ i ∈ ids, 1 ≤ i ∧ IsInt 4 i) (chunks : List (List MshElem)) (hok : ∀ e ∈ chunks.flatten, e.Ok n)
    (hb : ascii = false → (∀ c ∈ chunks, c ≠ [] ∧ IsInt 4 c.length ∧ ∀ e ∈ c, ∀ e' ∈ c, e.type = e'.type) ∧
      (∀ e ∈ chunks.flatten, ∀ e' ∈ chunks.flatten, e.type = e'.type → e.tags.length = e'.tags.length) ∧
      ∀ e ∈ chunks.flatten, IsInt 4 e.tags.length)
    (st : St F) (hst : st.cells = []) (hpt : st.pointTags = some ids) (s : List Char) :
    readCells ascii st (elemsBody ascii ids chunks ++ s) =
      .ok ({ st with
        cells := groupRuns (chunks.flatten.map fun e => (e.type, e.row.map Int.ofNat))
        tags := outputTags (chunks.flatten.foldl (fun d e => addTags d e.type [e.tags]) []) }, s) := by
  obtain ⟨table, htab, htable⟩ := remapTable_ok ids (by rintro rfl; simp at hids; omega) hnd (fun i hi => (hfit i hi).1)
  rw [hids] at htable
  have hread : ∃ w, (w = [] ∨ w = ['\n']) ∧
      (if ascii then readElemsText ((chunks.flatten.length : Nat) : Int).toNat (st.cells, [])
          ((if ascii then linesText (chunks.flatten.map (MshElem.line ids)) else chunks.flatMap (mshChunk ids) ++ ['\n']) ++
            (linesText ["$EndElements".toList] ++ s))
        else readElemsBin (((if ascii then linesText (chunks.flatten.map (MshElem.line ids)) else chunks.flatMap (mshChunk ids) ++ ['\n']) ++
            (linesText ["$EndElements".toList] ++ s)).length + 1) (chunks.flatten.length : Int) (st.cells, [])
          ((if ascii then linesText (chunks.flatten.map (MshElem.line ids)) else chunks.flatMap (mshChunk ids) ++ ['\n']) ++
            (linesText ["$EndElements".toList] ++ s))) =
        .ok (chunks.flatten.foldl (addElem ids) ([], []), w ++ (linesText ["$EndElements".toList] ++ s)) := by
    rw [hst]
    cases ascii with
    | true =>
      refine ⟨[], Or.inl rfl, ?_⟩
      simp only [if_true, Int.toNat_natCast]
      exact readElemsText_lines ids n _ hok _ _
    | false =>
      refine ⟨['\n'], Or.inr rfl, ?_⟩
      obtain ⟨h1, h2, h3⟩ := hb rfl
      simp only [Bool.false_eq_true, if_false, List.append_assoc]
      have hm : ∀ c ∈ chunks, ∀ e ∈ c, e ∈ chunks.flatten := fun c hc e he => List.mem_flatten.2 ⟨c, hc, he⟩
      refine readElemsBin_chunks ids n hids (fun i hi => (hfit i hi).2) chunks (fun c hc e he => hok e (hm c hc e he)) h1 ?_ ?_ _ ?_ _ _
      · intro c hc e he e' he'
        exact h2 e (hm c hc e he) e' (hm c hc e' he') ((h1 c hc).2.2 e he e' he')
      · intro c hc e he
        exact h3 e (hm c hc e he)
      · have := length_chunks_le ids chunks fun c hc => (h1 c hc).1
        rw [List.length_append]
        omega
  obtain ⟨w, hw, hread⟩ := hread
  rw [foldl_addElem] at hread
  have hcells : chunks.flatten.foldl (fun c e => pushTyped c (e.type, e.nodes ids)) [] =
      groupRuns (chunks.flatten.map fun e => (e.type, e.nodes ids)) := by
    rw [← foldl_pushTyped, List.foldl_map]
  have hinv := addTags_inv chunks.flatten
  unfold elemsBody readCells
  rw [if_neg (by simp [hst])]
  simp only [List.append_assoc, List.cons_append, List.nil_append]
  rw [intLine_nat]
  simp only
  rw [hread]
  simp only
  rw [if_neg]
  · rw [hpt]
    simp only
    rw [htab]
    simp only
    rw [hcells, mapRes_finish ids table n htable _ hok]
    simp only
    congr 2
    exact fastForward_w "Elements".toList tok_elements w hw s
  · rintro ⟨ha, hany⟩
    rw [List.any_eq_true] at hany
    obtain ⟨kv, hkv, hany⟩ := hany
    rw [List.any_eq_true] at hany
    obtain ⟨r, hr, hneq⟩ := hany
    rw [decide_eq_true_iff] at hneq
    have hg := Dict.get?_of_mem hinv.1 (k := kv.1) (v := kv.2) hkv
    rw [hinv.2] at hg
    split at hg
    · cases hg
    · injection hg with hg
      have hall : ∀ x ∈ kv.2, ∀ y ∈ kv.2, x.length = y.length := by
        intro x hx y hy
        rw [← hg] at hx hy
        obtain ⟨e, he, rfl⟩ := List.mem_map.1 hx
        obtain ⟨e', he', rfl⟩ := List.mem_map.1 hy
        have t1 := (List.mem_filter.1 he).2
        have t2 := (List.mem_filter.1 he').2
        rw [decide_eq_true_iff] at t1 t2
        exact (hb ha).2.1 e (List.mem_filter.1 he).1 e' (List.mem_filter.1 he').1 (by rw [t1, t2])
      apply hneq
      cases hk : kv.2 with
      | nil => rw [hk] at hr; simp at hr
      | cons x l =>
        rw [List.headD_cons]
        exact hall r hr x (by rw [hk]; simp)

/-! ### Periodic links -/

theorem floats_fmt (io : GmshFloat F) (a : List F) (w : List Char) (h : splitWs w = a.map io.fmt) : floats io.parse w = .ok a := by
  unfold floats
  rw [h]
  clear h
  induction a with
  | nil => rfl
  | cons x a ih =>
    rw [List.map_cons, mapRes, io.parse_fmt]
    simp only
    rw [ih]

theorem affine_line (io : GmshFloat F) (a : List F) :
    ∃ r, strip (("Affine ".toList ++ joinWith ' ' (a.map io.fmt)) ++ ['\n']) = "Affine".toList ++ r ∧ splitWs r = a.map io.fmt := by
  have htok : ∀ x ∈ a.map io.fmt, IsTok x := by
    intro x hx
    obtain ⟨y, -, rfl⟩ := List.mem_map.1 hx
    exact io.tok y
  cases a with
  | nil =>
    refine ⟨[], ?_, rfl⟩
    exact (by decide : strip (("Affine ".toList ++ joinWith ' ' []) ++ ['\n']) = "Affine".toList ++ [])
  | cons x a =>
    have e : "Affine ".toList ++ joinWith ' ' ((x :: a).map io.fmt) = joinWith ' ' ("Affine".toList :: (x :: a).map io.fmt) := by
      rw [List.map_cons, joinWith]
      rfl
    rw [e, strip_line_nl _ (by
      intro t ht
      rcases List.mem_cons.1 ht with rfl | ht
      · exact ⟨by decide, by decide⟩
      · exact htok t ht)]
    refine ⟨' ' :: joinWith ' ' ((x :: a).map io.fmt), by rw [List.map_cons, joinWith], ?_⟩
    rw [splitWs_ws (by decide), splitWs_joinWith (by decide) _ htok]

theorem isPrefixOf_append (a r : List Char) : a.isPrefixOf (a ++ r) = true := by
  rw [List.isPrefixOf_iff_prefix]
  exact List.prefix_append a r

theorem affine_not_nat (n : Nat) : "Affine".toList.isPrefixOf (fmtNat n) = false := by
  cases hf : fmtNat n with
  | nil => exact absurd hf (fmtNat_ne_nil n)
  | cons c t =>
    have hc : c.isDigit = true := fmtNat_isDigit (n := n) (by rw [hf]; simp)
    have : c ≠ 'A' := ne_of_isDigit hc (by decide)
    show List.isPrefixOf ('A' :: "ffine".toList) (c :: t) = false
    rw [List.isPrefixOf_cons_cons]
    have : ('A' == c) = false := by simpa using fun e : 'A' = c => this e.symm
    rw [this]
    rfl

theorem pairLine_fmt (q : Int × Int) : pairLine (joinWith ' ' [fmtInt (q.1 + 1), fmtInt (q.2 + 1)] ++ ['\n']) = .ok q := by
  unfold pairLine
  have := splitWs_ints [q.1 + 1, q.2 + 1]
  simp only [List.map_cons, List.map_nil] at this
  rw [this]
  have h2 := mapRes_toInt [q.1 + 1, q.2 + 1]
  simp only [List.map_cons, List.map_nil] at h2
  rw [h2]
  simp only [Int.add_sub_cancel]

theorem readPairs (l : List (Int × Int)) (s : List Char) :
    linesN pairLine l.length (linesText (l.map fun q => joinWith ' ' [fmtInt (q.1 + 1), fmtInt (q.2 + 1)]) ++ s) = .ok (l, s) := by
  have := linesN_lines pairLine (l.map fun q => joinWith ' ' [fmtInt (q.1 + 1), fmtInt (q.2 + 1)]) l (by
    intro x hx
    obtain ⟨q, -, rfl⟩ := List.mem_map.1 hx
    exact no_nl_ints [q.1 + 1, q.2 + 1]) (by
    rw [List.map_map]
    exact List.map_congr_left fun q _ => pairLine_fmt q) s
  rwa [List.length_map] at this

theorem readLink_text (io : GmshFloat F) (p : Periodic F) (s : List Char) :
    readLink io (linesText (mshLink io p) ++ s) = .ok (p, s) := by
  obtain ⟨dim, slave, master, affine, pairs⟩ := p
  have hfirst : mapRes toInt (splitWs (joinWith ' ' [fmtInt dim, fmtInt slave, fmtInt master] ++ ['\n'])) = .ok [dim, slave, master] := by
    have := splitWs_ints [dim, slave, master]
    simp only [List.map_cons, List.map_nil] at this
    rw [this]
    exact mapRes_toInt [dim, slave, master]
  have hnl1 : '\n' ∉ joinWith ' ' [fmtInt dim, fmtInt slave, fmtInt master] := no_nl_ints [dim, slave, master]
  cases affine with
  | none =>
    have e : linesText (mshLink io ⟨dim, slave, master, none, pairs⟩) ++ s =
        joinWith ' ' [fmtInt dim, fmtInt slave, fmtInt master] ++ '\n' :: (fmtNat pairs.length ++ '\n' ::
          (linesText (pairs.map fun q => joinWith ' ' [fmtInt (q.1 + 1), fmtInt (q.2 + 1)]) ++ s)) := by
      simp only [mshLink, List.append_nil, List.cons_append, List.nil_append, linesText_cons, List.append_assoc]
    rw [e]
    unfold readLink
    rw [readLine_append _ _ hnl1]
    simp only
    rw [hfirst]
    simp only
    rw [readLine_append _ _ (tok_no_nl (isTok_fmtNat _))]
    simp only
    rw [strip_tok (isTok_fmtNat _), affine_not_nat]
    simp only [Bool.false_eq_true, if_false]
    rw [intLine_nat]
    simp only [Int.toNat_natCast]
    rw [readPairs]
  | some a =>
    have hnl2 : '\n' ∉ "Affine ".toList ++ joinWith ' ' (a.map io.fmt) := by
      intro hm
      rcases List.mem_append.1 hm with hm | hm
      · exact absurd hm (by decide)
      · refine no_newline_line (a.map io.fmt) ?_ hm
        intro x hx
        obtain ⟨y, -, rfl⟩ := List.mem_map.1 hx
        exact io.tok y
    have e : linesText (mshLink io ⟨dim, slave, master, some a, pairs⟩) ++ s =
        joinWith ' ' [fmtInt dim, fmtInt slave, fmtInt master] ++ '\n' :: (("Affine ".toList ++ joinWith ' ' (a.map io.fmt)) ++ '\n' ::
        (fmtNat pairs.length ++ '\n' ::
          (linesText (pairs.map fun q => joinWith ' ' [fmtInt (q.1 + 1), fmtInt (q.2 + 1)]) ++ s))) := by
      simp only [mshLink, List.cons_append, List.nil_append, linesText_cons, List.append_assoc]
    rw [e]
    obtain ⟨r, hr1, hr2⟩ := affine_line io a
    unfold readLink
    rw [readLine_append _ _ hnl1]
    simp only
    rw [hfirst]
    simp only
    rw [readLine_append _ _ hnl2]
    simp only
    rw [hr1, isPrefixOf_append]
    simp only [if_true]
    have e6 : ("Affine".toList ++ r).drop 6 = r := List.drop_left' (by decide)
    rw [e6, floats_fmt io a r hr2]
    simp only
    rw [intLine_nat]
    simp only [Int.toNat_natCast]
    rw [readPairs]

theorem readLinks_text (io : GmshFloat F) (l : List (Periodic F)) (s : List Char) :
    readLinks io l.length (linesText (l.flatMap (mshLink io)) ++ s) = .ok (l, s) := by
  induction l with
  | nil => rfl
  | cons p l ih =>
    rw [List.length_cons, List.flatMap_cons, linesText_append, List.append_assoc, readLinks, readLink_text]
    simp only
    rw [ih]

theorem readPeriodic_text (io : GmshFloat F) (l : List (Periodic F)) (s : List Char) :
    readPeriodic io (fmtNat l.length ++ '\n' :: (linesText (l.flatMap (mshLink io)) ++ (linesText ["$EndPeriodic".toList] ++ s))) =
      .ok (l, s) := by
  unfold readPeriodic
  rw [intLine_nat]
  simp only [Int.toNat_natCast]
  rw [readLinks_text]
  simp only
  have := fastForward_end "Periodic".toList s tok_periodic
  rw [show "$EndPeriodic".toList = "$End".toList ++ "Periodic".toList by decide, this]

/-! ### Sections -/

/-- The effect of a section on what is collected. -/
def addSec (st : St F) : MshSec F → St F
  | .names l => { st with fieldData := (l.map fun e => (String.ofList e.2.2, e.2.1, e.1)).foldl (fun fd e => Dict.set fd e.1 e.2) st.fieldData }
  | .periodic l => { st with periodic := some l }
  | .nodeData d => { st with pointData := Dict.set st.pointData (String.ofList d.name) d.array }
  | .elemData d => { st with cellDataRaw := Dict.set st.cellDataRaw (String.ofList d.name) d.array }
  | .other _ _ => st

/-- From here on the loop gives `r`. -/
def Reads (io : GmshFloat F) (ascii : Bool) (st : St F) (s : List Char) (r : Res (St F)) : Prop :=
  ∀ n, s.length < n → readLoop io ascii n st s = r

theorem reads_section (io : GmshFloat F) (ascii : Bool) (st st' : St F) (name s s' : List Char) (r : Res (St F)) (hn : IsTok name)
    (hlen : s'.length ≤ s.length) (h : readSection io ascii st name s = .ok (st', s')) (hr : Reads io ascii st' s' r) :
    Reads io ascii st ('$' :: name ++ '\n' :: s) r := by
  intro n hlt
  cases n with
  | zero => omega
  | succ n =>
    have ht : IsTok ('$' :: name) := isTok_cons (by decide) hn
    rw [readLoop, nextLine_line _ _ (tok_no_nl ht) (by rw [strip_tok ht]; exact ht.1)]
    simp only [List.cons_append, List.head?_cons, List.drop_succ_cons, List.drop_zero]
    rw [if_neg (by simp), strip_tok hn, h]
    simp only
    apply hr
    simp only [List.cons_append, List.length_cons, List.length_append] at hlt
    omega

/-- What the sections need: numbers of nodes and elements that can be read. -/
structure Nums (lim : Nat) (mode : Bool) (ids nums : List Int) : Prop where
  ascii : mode = true → (∀ i ∈ ids, i.natAbs < lim) ∧ ∀ i ∈ nums, i.natAbs < lim
  binary : mode = false → ((∀ i ∈ ids, IsInt 4 i) ∧ ids = (List.range ids.length).map fun (i : Nat) => (1 + i : Int)) ∧
    (∀ i ∈ nums, IsInt 4 i) ∧ nums = (List.range nums.length).map fun (i : Nat) => (1 + i : Int)

theorem reads_sec (io : GmshFloat F) (ascii : Bool) (ids nums : List Int) (hn : Nums io.lim ascii ids nums)
    (st : St F) (x : MshSec F) (hx : x.Ok ids.length nums.length) (s : List Char) (r : Res (St F))
    (hr : Reads io ascii (addSec st x) s r) : Reads io ascii st (x.text io ascii ids nums ++ s) r := by
  cases x with
  | names l =>
    have e : MshSec.text io ascii ids nums (.names l) ++ s = '$' :: "PhysicalNames".toList ++ '\n' ::
        (fmtNat l.length ++ '\n' :: (linesText (l.map mshName) ++ (linesText ["$EndPhysicalNames".toList] ++ s))) := by
      simp only [MshSec.text, linesText_append, linesText_cons, List.append_assoc, List.cons_append, List.nil_append]
      rfl
    rw [e]
    refine reads_section io ascii st _ _ _ s r ⟨by decide, by decide⟩ (by simp; omega) ?_ hr
    rw [readSection, if_pos rfl, readNames_lines _ l hx]
    rfl
  | periodic l =>
    have e : MshSec.text io ascii ids nums (.periodic l) ++ s = '$' :: "Periodic".toList ++ '\n' ::
        (fmtNat l.length ++ '\n' :: (linesText (l.flatMap (mshLink io)) ++ (linesText ["$EndPeriodic".toList] ++ s))) := by
      simp only [MshSec.text, linesText_append, linesText_cons, List.append_assoc, List.cons_append, List.nil_append]
      rfl
    rw [e]
    refine reads_section io ascii st _ _ _ s r tok_periodic (by simp; omega) ?_ hr
    rw [readSection, if_neg (by decide), if_neg (by decide), if_neg (by decide), if_pos rfl, readPeriodic_text]
    rfl
  | nodeData d =>
    have e : MshSec.text io ascii ids nums (.nodeData d) ++ s = _ := dataText_eq io ascii "NodeData".toList ids d s
    rw [e]
    refine reads_section io ascii st _ _ _ s r tok_nodeData (by simp) ?_ hr
    rw [readSection, if_neg (by decide), if_neg (by decide), if_neg (by decide), if_neg (by decide), if_pos rfl,
      readData_body io ascii _ tok_nodeData ids d ids.length hx rfl (fun h => (hn.ascii h).1) (fun h => (hn.binary h).1)]
    rfl
  | elemData d =>
    have e : MshSec.text io ascii ids nums (.elemData d) ++ s = _ := dataText_eq io ascii "ElementData".toList nums d s
    rw [e]
    refine reads_section io ascii st _ _ _ s r tok_elemData (by simp) ?_ hr
    rw [readSection, if_neg (by decide), if_neg (by decide), if_neg (by decide), if_neg (by decide), if_neg (by decide), if_pos rfl,
      readData_body io ascii _ tok_elemData nums d nums.length hx rfl (fun h => (hn.ascii h).2) (fun h => (hn.binary h).2)]
    rfl
  | other name lines =>
    obtain ⟨ht, hk, hl⟩ := hx
    have e : MshSec.text io ascii ids nums (.other name lines) ++ s = '$' :: name ++ '\n' ::
        (linesText lines ++ (linesText ["$End".toList ++ name] ++ s)) := by
      simp only [MshSec.text, linesText_append, linesText_cons, List.append_assoc, List.cons_append, List.nil_append]
    rw [e]
    refine reads_section io ascii st _ _ _ s r ht (by simp; omega) ?_ hr
    have hne : ∀ k ∈ mshKnown, name ≠ k.toList := by
      rintro k hk' rfl
      exact hk (by rw [String.ofList_toList]; exact hk')
    rw [readSection, if_neg (hne _ (by decide)), if_neg (hne _ (by decide)), if_neg (hne _ (by decide)),
      if_neg (hne _ (by decide)), if_neg (hne _ (by decide)), if_neg (hne _ (by decide)), fastForward_lines name ht lines hl]
    rfl

theorem reads_secs (io : GmshFloat F) (ascii : Bool) (ids nums : List Int) (hn : Nums io.lim ascii ids nums)
    (l : List (MshSec F)) (hl : ∀ x ∈ l, x.Ok ids.length nums.length) (st : St F) (s : List Char) (r : Res (St F))
    (hr : Reads io ascii (l.foldl addSec st) s r) :
    Reads io ascii st (l.flatMap (MshSec.text io ascii ids nums) ++ s) r := by
  induction l generalizing st with
  | nil => exact hr
  | cons x l ih =>
    rw [List.flatMap_cons, List.append_assoc]
    apply reads_sec io ascii ids nums hn st x (hl x (by simp))
    exact ih (fun y hy => hl y (by simp [hy])) _ hr

/-! ### What is collected in the end -/

theorem addSec_fields (l : List (MshSec F)) (st : St F) :
    (l.foldl addSec st).points = st.points ∧ (l.foldl addSec st).pointTags = st.pointTags ∧
    (l.foldl addSec st).cells = st.cells ∧ (l.foldl addSec st).tags = st.tags ∧
    (l.foldl addSec st).fieldData = ((l.flatMap MshSec.name?).map fun e => (String.ofList e.2.2, e.2.1, e.1)).foldl
      (fun fd e => Dict.set fd e.1 e.2) st.fieldData ∧
    (l.foldl addSec st).pointData = ((l.filterMap MshSec.nodeData?).map fun d => (String.ofList d.name, d.array)).foldl
      (fun fd e => Dict.set fd e.1 e.2) st.pointData ∧
    (l.foldl addSec st).cellDataRaw = ((l.filterMap MshSec.elemData?).map fun d => (String.ofList d.name, d.array)).foldl
      (fun fd e => Dict.set fd e.1 e.2) st.cellDataRaw ∧
    (l.foldl addSec st).periodic = ((l.filterMap MshSec.periodic?).getLast?).or st.periodic := by
  induction l generalizing st with
  | nil => exact ⟨rfl, rfl, rfl, rfl, rfl, rfl, rfl, rfl⟩
  | cons x l ih =>
    obtain ⟨h1, h2, h3, h4, h5, h6, h7, h8⟩ := ih (addSec st x)
    rw [List.foldl_cons]
    cases x with
    | names n =>
      refine ⟨h1, h2, h3, h4, ?_, h6, h7, h8⟩
      rw [h5, List.flatMap_cons, List.map_append, List.foldl_append]
      rfl
    | periodic p =>
      refine ⟨h1, h2, h3, h4, h5, h6, h7, ?_⟩
      rw [h8, List.filterMap_cons, show MshSec.periodic? (.periodic p) = some p from rfl]
      simp only [List.getLast?_cons]
      cases (l.filterMap MshSec.periodic?).getLast? <;> rfl
    | nodeData d =>
      refine ⟨h1, h2, h3, h4, h5, ?_, h7, h8⟩
      rw [h6, List.filterMap_cons, show MshSec.nodeData? (.nodeData d) = some d from rfl]
      rfl
    | elemData d =>
      refine ⟨h1, h2, h3, h4, h5, h6, ?_, h8⟩
      rw [h7, List.filterMap_cons, show MshSec.elemData? (.elemData d) = some d from rfl]
      rfl
    | other n ls => exact ⟨h1, h2, h3, h4, h5, h6, h7, h8⟩

theorem zip_unit {β : Type} (T : List String) (v : List β) (h : v.length = T.length) :
    (T.zip v).map (fun a => (a.1, ())) = T.map fun t => (t, ()) := by
  induction T generalizing v with
  | nil => rfl
  | cons t T ih =>
    cases v with
    | nil => simp at h
    | cons x v => rw [List.zip_cons_cons, List.map_cons, ih v (by simpa using h)]; rfl

theorem lens_zip {β : Type} (T : List String) (v : List β) (h : v.length = T.length) :
    (groupRuns (T.zip v)).map (fun b => b.2.length) = (groupRuns (T.map fun t => (t, ()))).map fun b => b.2.length := by
  rw [← zip_unit T v h, groupRuns_map (fun _ => ()), List.map_map]
  apply List.map_congr_left
  intro b _
  simp

theorem flatten_rows {β : Type} (bs : List (String × List β)) : (bs.map (·.2)).flatten = (rowsOf bs).map (·.2) := by
  unfold rowsOf
  induction bs with
  | nil => rfl
  | cons b bs ih => simp only [List.map_cons, List.flatten_cons, List.flatMap_cons, List.map_append, ih, List.map_map]; congr 1; simp [Function.comp_def]

theorem cellData_byBlock {β : Type} (T : List String) (v : List β) (h : v.length = T.length) (hne : T ≠ []) :
    cellDataFromRaw ((groupRuns (T.map fun t => (t, ()))).map fun b => b.2.length) v = (groupRuns (T.zip v)).map (·.2) := by
  have h1 := cellDataFromRaw_flatten ((groupRuns (T.zip v)).map (·.2)) (by
    intro h0
    rw [List.map_eq_nil_iff] at h0
    have := rowsOf_groupRuns (T.zip v)
    rw [h0] at this
    have hl := congrArg List.length this
    rw [List.length_zip] at hl
    have : T.length ≠ 0 := by simpa using hne
    simp [rowsOf] at hl
    omega)
  rw [List.map_map, flatten_rows, rowsOf_groupRuns] at h1
  have e1 : (groupRuns (T.zip v)).map (List.length ∘ fun b => b.2) = (groupRuns (T.map fun t => (t, ()))).map fun b => b.2.length :=
    lens_zip T v h
  rw [e1] at h1
  have e2 : (T.zip v).map (fun a => a.2) = v := List.map_snd_zip (by omega)
  rw [e2] at h1
  exact h1

theorem noTag_data (f : MshFile F) (name : String) (i : Nat) (h : ∀ e ∈ f.elems, e.tags.length ≤ i) : f.tagData name i = [] := by
  unfold MshFile.tagData
  rw [if_neg]
  rintro ⟨h0, h1⟩
  cases he : f.elems with
  | nil => exact h0 he
  | cons e l =>
    have a := h e (by rw [he]; simp)
    have b := h1 e (by rw [he]; simp)
    omega

/-- The final state. -/
structure Final (f : MshFile F) (st : St F) : Prop where
  points : st.points = f.points
  cells : st.cells = groupRuns (f.elems.map fun e => (e.type, e.row.map Int.ofNat))
  tags : st.tags = outputTags (f.elems.foldl (fun d e => addTags d e.type [e.tags]) [])
  fieldData : st.fieldData = f.names.map fun e => (String.ofList e.2.2, e.2.1, e.1)
  pointData : st.pointData = f.nodeData.map fun d => (String.ofList d.name, d.array)
  cellDataRaw : st.cellDataRaw = f.elemData.map fun d => (String.ofList d.name, d.array)
  periodic : st.periodic = (f.secs.filterMap MshSec.periodic?).getLast?

theorem tags_entry (f : MshFile F) (cells : List (String × List (List Int)))
    (hc : cells = groupRuns (f.elems.map fun e => (e.type, e.row.map Int.ofNat))) (name : String) (i : Nat)
    (h : HasTag f.elems i ∨ ∀ e ∈ f.elems, e.tags.length ≤ i) :
    ((if (f.elems.foldl (fun d e => addTags d e.type [e.tags]) ([] : Dict (List (List Int)))).filterMap (tagEntry i) = [] then
        ([] : Dict (Dict (List Int)))
      else [(name, (f.elems.foldl (fun d e => addTags d e.type [e.tags]) ([] : Dict (List (List Int)))).filterMap (tagEntry i))]).map
        fun kv => (kv.1, Cd.tags (F := F) (dealTags kv.2 [] cells))) = f.tagData name i := by
  have hinv := addTags_inv f.elems
  rcases h with h | h
  · rw [if_neg (hasTag_ne_nil hinv i h)]
    unfold MshFile.tagData MshFile.byBlock
    rw [if_pos h]
    simp only [List.map_cons, List.map_nil]
    have e : f.elems.map (fun e => (e.type, e.row.map Int.ofNat)) = (f.elems.map (·.type)).zip (f.elems.map fun e => e.row.map Int.ofNat) := by
      rw [List.zip_map']
    rw [hc, e, dealTags_elems hinv i h _ (by simp)]
  · rw [if_pos (noTag_filterMap hinv i h), noTag_data f name i h]
    rfl

theorem lens_byBlock {α : Type} (f : MshFile F) (v : List α) (h : v.length = f.elems.length) :
    (f.byBlock v).map (·.length) = (groupRuns ((f.elems.map (·.type)).map fun t => (t, ()))).map fun b => b.2.length := by
  unfold MshFile.byBlock
  rw [List.map_map, ← lens_zip (f.elems.map (·.type)) v (by rw [List.length_map, h])]
  rfl

theorem ofList_inj {a b : List Char} (h : String.ofList a = String.ofList b) : a = b := by
  have := congrArg String.toList h
  rwa [String.toList_ofList, String.toList_ofList] at this

theorem nodup_ofList {α : Type} (g : α → List Char) (l : List α) (h : (l.map g).Nodup) :
    (l.map fun a => String.ofList (g a)).Nodup := by
  induction l with
  | nil => exact List.nodup_nil
  | cons a l ih =>
    rw [List.map_cons, List.nodup_cons] at h ⊢
    refine ⟨?_, ih h.2⟩
    intro hm
    obtain ⟨b, hb, he⟩ := List.mem_map.1 hm
    exact h.1 (List.mem_map.2 ⟨b, hb, ofList_inj he⟩)

theorem cumsumFrom_dropLast' (s : Nat) (l : List Nat) : cumsumFrom s l.dropLast = (cumsumFrom s l).dropLast := by
  induction l generalizing s with
  | nil => rfl
  | cons n l ih =>
    cases l with
    | nil => rfl
    | cons m l =>
      rw [List.dropLast_cons_cons]
      show (s + n) :: cumsumFrom (s + n) ((m :: l).dropLast) = _
      rw [ih]
      show _ = ((s + n) :: (s + n + m) :: cumsumFrom (s + n + m) l).dropLast
      rw [List.dropLast_cons_cons]
      rfl

/-- Where an array is cut does not depend on the length of the last block. -/
theorem cellDataFromRaw_dropLast {α : Type} (L L' : List Nat) (v : List α) (h : L.dropLast = L'.dropLast) :
    cellDataFromRaw L v = cellDataFromRaw L' v := by
  unfold cellDataFromRaw cumsum
  rw [← cumsumFrom_dropLast', ← cumsumFrom_dropLast', h]

theorem length_slice {α : Type} (v : List α) (a b : Nat) : (slice v a b).length = min b v.length - a := by
  unfold slice
  simp

theorem twos {α : Type} (v : List α) (L : List Nat) : ∀ s, (∀ x ∈ L, 0 < x) →
    (slicesBetween v (s :: cumsumFrom s (L.dropLast.map fun _ => 2) ++ [v.length])).map (·.length) = L → ∀ x ∈ L.dropLast, x = 2 := by
  induction L with
  | nil => intro s _ _ x hx; simp at hx
  | cons a L ih =>
    intro s hpos h
    cases L with
    | nil => intro x hx; simp at hx
    | cons b L =>
      rw [List.dropLast_cons_cons] at h ⊢
      have h' : (slice v s (s + 2)).length :: (slicesBetween v ((s + 2) :: cumsumFrom (s + 2) (((b :: L).dropLast).map fun _ => 2) ++ [v.length])).map (·.length)
          = a :: b :: L := h
      rw [List.cons.injEq] at h'
      have hrest := ih (s + 2) (fun x hx => hpos x (by simp [hx])) h'.2
      have hb : b ≤ v.length - (s + 2) := by
        have h2 := h'.2
        cases L with
        | nil =>
          simp only [List.dropLast_singleton, List.map_nil, cumsumFrom, List.cons_append, List.nil_append, slicesBetween, List.map_cons, List.cons.injEq] at h2
          rw [← h2.1, length_slice]
          omega
        | cons c L =>
          simp only [List.dropLast_cons_cons, List.map_cons, cumsumFrom, List.cons_append, slicesBetween, List.cons.injEq] at h2
          rw [← h2.1, length_slice]
          omega
      have hb0 := hpos b (by simp)
      intro x hx
      rcases List.mem_cons.1 hx with rfl | hx
      · rw [← h'.1, length_slice]
        omega
      · exact hrest x hx

/-- Cutting at 2, 4, … gives blocks of the lengths `L` only if all but the last are two. -/
theorem split_twos {α : Type} (v : List α) (L : List Nat) (hpos : ∀ x ∈ L, 0 < x)
    (h : (cellDataFromRaw (L.map fun _ => 2) v).map (·.length) = L) : ∀ x ∈ L.dropLast, x = 2 := by
  apply twos v L 0 hpos
  unfold cellDataFromRaw npSplit cumsum at h
  rw [← cumsumFrom_dropLast', ← List.map_dropLast] at h
  exact h

theorem twos_eq (L : List Nat) (h : ∀ x ∈ L.dropLast, x = 2) : (L.map fun _ => 2).dropLast = L.dropLast := by
  rw [← List.map_dropLast]
  conv => rhs; rw [← List.map_id L.dropLast]
  apply List.map_congr_left
  intro x hx
  exact (h x hx).symm

theorem length_groupRuns_pos {κ α : Type} [DecidableEq κ] (l : List (κ × α)) : ∀ x ∈ (groupRuns l).map (fun b => b.2.length), 0 < x := by
  intro x hx
  obtain ⟨b, hb, rfl⟩ := List.mem_map.1 hx
  have := groupRuns_ne_nil l b hb
  exact List.length_pos_iff.2 this

theorem finish_noClash (lim : Nat) (f : MshFile F) (hf : f.Ok lim) (st : St F) (hst : Final f st) :
    ¬ (st.tags.any fun kv => (Dict.get? st.cellDataRaw kv.1).isSome) = true := by
  obtain ⟨h1, h2, h3, h4, h5, h6, h7⟩ := hst
  have hkeys : ∀ kv ∈ st.tags, kv.1 = "gmsh:physical" ∨ kv.1 = "gmsh:geometrical" := by
    intro kv hkv
    rw [h3, outputTags_eq] at hkv
    rcases List.mem_append.1 hkv with h | h
    · split at h
      · simp at h
      · simp only [List.mem_singleton] at h; subst h; exact Or.inl rfl
    · split at h
      · simp at h
      · simp only [List.mem_singleton] at h; subst h; exact Or.inr rfl
  rw [List.any_eq_true]
  rintro ⟨kv, hkv, hsome⟩
  rw [h6] at hsome
  have hno : ∀ s : List Char, s ∉ f.elemData.map (·.name) →
      Dict.get? (f.elemData.map fun d => (String.ofList d.name, d.array)) (String.ofList s) = none := by
    intro s hs
    rw [Dict.get?_eq_none_iff]
    intro hm
    obtain ⟨x, hx, hxe⟩ := List.mem_map.1 hm
    obtain ⟨d, hd, rfl⟩ := List.mem_map.1 hx
    exact hs (List.mem_map.2 ⟨d, hd, ofList_inj hxe⟩)
  rcases hkeys kv hkv with h | h
  · have := hno _ hf.elemData.2.1
    rw [String.ofList_toList] at this
    rw [h, this] at hsome
    cases hsome
  · have := hno _ hf.elemData.2.2
    rw [String.ofList_toList] at this
    rw [h, this] at hsome
    cases hsome

theorem finish_known (f : MshFile F) (st : St F) (h2 : st.cells = groupRuns (f.elems.map fun e => (e.type, e.row.map Int.ofNat)))
    (hk : f.Known) : (!(st.cells.all fun b => hasDim b.1)) = false := by
  rw [Bool.not_eq_false', all_hasDim, h2]
  intro b hb
  obtain ⟨x, hx⟩ := List.exists_mem_of_ne_nil _ (groupRuns_ne_nil _ b hb)
  have := mem_groupRuns _ b hb x hx
  obtain ⟨e, he, heq⟩ := List.mem_map.1 this
  have h := hk e he
  rw [show e.type = b.1 from congrArg Prod.fst heq] at h
  exact h

theorem finish_ok (lim : Nat) (f : MshFile F) (hf : f.Ok lim) (st : St F) (hst : Final f st)
    (hk : f.Known) (hs : f.Split) : finish st = .ok f.mesh := by
  have hclash := finish_noClash lim f hf st hst
  obtain ⟨h1, h2, h3, h4, h5, h6, h7⟩ := hst
  have hsec : ∀ d ∈ f.elemData, d.Ok f.elems.length := by
    intro d hd
    obtain ⟨x, hx, hxd⟩ := List.mem_filterMap.1 hd
    have := hf.secs x hx
    cases x with
    | elemData d' => injection hxd with hxd; subst hxd; exact this
    | _ => cases hxd
  have hsec' : ∀ d ∈ f.nodeData, d.Ok f.points.length := by
    intro d hd
    obtain ⟨x, hx, hxd⟩ := List.mem_filterMap.1 hd
    have := hf.secs x hx
    cases x with
    | nodeData d' => injection hxd with hxd; subst hxd; exact this
    | _ => cases hxd
  have hlens : (st.cells.map fun b => b.2.length) =
      (groupRuns ((f.elems.map (·.type)).map fun t => (t, ()))).map fun b => b.2.length := by
    have e : f.elems.map (fun e => (e.type, e.row.map Int.ofNat)) = (f.elems.map (·.type)).zip (f.elems.map fun e => e.row.map Int.ofNat) := by
      rw [List.zip_map']
    rw [h2, e, lens_zip _ _ (by simp)]
  have htags : st.tags.map (fun kv => (kv.1, Cd.tags (F := F) (dealTags kv.2 [] st.cells))) =
      f.tagData "gmsh:physical" 0 ++ f.tagData "gmsh:geometrical" 1 := by
    rw [h3, outputTags_eq, List.map_append, tags_entry f st.cells h2 _ 0 (hf.tags 0 (by omega)),
      tags_entry f st.cells h2 _ 1 (hf.tags 1 (by omega))]
  have hcut : ∀ d ∈ f.elemData, cellDataFromRaw (st.cells.map fun _ => 2) d.rows = cellDataFromRaw (st.cells.map fun b => b.2.length) d.rows := by
    intro d hd
    apply cellDataFromRaw_dropLast
    rcases hs with hs | hs
    · rw [hs] at hd; simp at hd
    · rw [h2]
      rw [← twos_eq ((groupRuns _).map fun b => b.2.length)]
      · rw [List.map_map]; rfl
      · intro x hx
        rw [← List.map_dropLast] at hx
        obtain ⟨b, hb, rfl⟩ := List.mem_map.1 hx
        exact hs b hb
  have hcd : st.cellDataRaw.map (fun kv => (kv.1, Cd.data kv.2.tail (cellDataFromRaw (st.cells.map fun _ => 2) kv.2.rows))) =
      f.elemData.map fun d => (String.ofList d.name, .data d.array.tail (f.byBlock d.rows)) := by
    rw [h6, List.map_map]
    apply List.map_congr_left
    intro d hd
    have hne : f.elems ≠ [] := by
      intro h0
      rw [hf.noElems h0] at hd
      simp at hd
    show (_, Cd.data _ (cellDataFromRaw _ d.rows)) = _
    rw [hcut d hd, hlens, cellData_byBlock _ d.rows (by rw [List.length_map]; exact (hsec d hd).rows.1) (by simpa using hne)]
    rfl
  unfold finish
  simp only
  rw [if_neg hclash, htags, hcd, finish_known f st h2 hk, if_neg (by decide), if_neg, if_neg]
  · rw [h1, h2, h4, h5, h7]
    rfl
  · rw [List.any_eq_true]
    rintro ⟨kv, hkv, hd⟩
    rw [decide_eq_true_iff] at hd
    apply hd
    rw [hlens]
    rcases List.mem_append.1 hkv with h | h
    · obtain ⟨d, hd', rfl⟩ := List.mem_map.1 h
      exact lens_byBlock f d.rows (hsec d hd').rows.1
    · have : ∀ name i, kv ∈ f.tagData name i → kv.2.lens = (groupRuns ((f.elems.map (·.type)).map fun t => (t, ()))).map fun b => b.2.length := by
        intro name i hm
        unfold MshFile.tagData at hm
        split at hm
        · simp only [List.mem_singleton] at hm
          subst hm
          exact lens_byBlock f _ (by simp)
        · simp at hm
      rcases List.mem_append.1 h with h | h
      · exact this _ _ h
      · exact this _ _ h
  · rw [List.any_eq_true]
    rintro ⟨kv, hkv, hd⟩
    rw [decide_eq_true_iff] at hd
    rw [h5] at hkv
    obtain ⟨d, hd', rfl⟩ := List.mem_map.1 hkv
    apply hd
    rw [h1]
    exact (hsec' d hd').rows.1

/-- A type without a dimension. -/
theorem finish_unknown (lim : Nat) (f : MshFile F) (hf : f.Ok lim) (st : St F) (hst : Final f st) (hk : ¬ f.Known) :
    finish st = .error .keyError := by
  have hclash := finish_noClash lim f hf st hst
  unfold finish
  simp only
  rw [if_neg hclash, if_pos]
  rw [Bool.not_eq_true', Bool.eq_false_iff]
  intro hall
  rw [all_hasDim] at hall
  apply hk
  intro e he
  rw [hst.cells] at hall
  have hm : (e.type, e.row.map Int.ofNat) ∈ rowsOf (groupRuns (f.elems.map fun e => (e.type, e.row.map Int.ofNat))) := by
    rw [rowsOf_groupRuns]
    exact List.mem_map.2 ⟨e, he, rfl⟩
  unfold rowsOf at hm
  obtain ⟨b, hb, hr⟩ := List.mem_flatMap.1 hm
  obtain ⟨r, -, heq⟩ := List.mem_map.1 hr
  have := hall b hb
  rw [show b.1 = e.type from congrArg Prod.fst heq] at this
  exact this

/-- Element data for blocks that are not cut at 2, 4, …. -/
theorem finish_split (lim : Nat) (f : MshFile F) (hf : f.Ok lim) (st : St F) (hst : Final f st) (hk : f.Known) (hs : ¬ f.Split) :
    finish st = .error .valueError := by
  have hclash := finish_noClash lim f hf st hst
  unfold finish
  simp only
  rw [if_neg hclash, finish_known f st hst.cells hk, if_neg (by decide)]
  split
  · rfl
  · rw [if_pos]
    rw [List.any_eq_true]
    apply Classical.byContradiction
    intro hno
    apply hs
    cases hE : f.elemData with
    | nil => exact Or.inl hE
    | cons d E =>
      right
      have hl : (cellDataFromRaw ((st.cells.map fun b => b.2.length).map fun _ => 2) d.rows).map (·.length) = st.cells.map fun b => b.2.length := by
        apply Classical.byContradiction
        intro hne
        apply hno
        refine ⟨(String.ofList d.name, Cd.data d.array.tail (cellDataFromRaw (st.cells.map fun _ => 2) d.rows)), ?_, ?_⟩
        · apply List.mem_append_left
          rw [hst.cellDataRaw, hE]
          exact List.mem_map.2 ⟨_, List.mem_map.2 ⟨d, by simp, rfl⟩, rfl⟩
        · rw [decide_eq_true_iff]
          intro h
          apply hne
          rw [List.map_map]
          exact h
      have := split_twos d.rows _ (by rw [hst.cells]; exact length_groupRuns_pos _) hl
      intro b hb
      apply this
      rw [← List.map_dropLast, hst.cells]
      exact List.mem_map.2 ⟨b, hb, rfl⟩

/-! ### The whole file -/

theorem reads_end (io : GmshFloat F) (ascii : Bool) (st : St F) : Reads io ascii st [] (.ok st) := by
  intro n hn
  cases n with
  | zero => rfl
  | succ n => rfl

theorem skipComments_format (a X : List Char) (h1 : '\n' ∉ a) (h2 : strip (a ++ ['\n']) = a) (h3 : a ≠ "$Comments".toList) :
    skipCommentsF (a ++ '\n' :: X).length (a ++ '\n' :: X) = (a, X) := by
  rw [List.length_append, List.length_cons, Nat.add_succ, skipCommentsF, readLine_append _ _ h1]
  simp only
  rw [h2, if_neg h3]

theorem tok_meshFormat : IsTok "MeshFormat".toList := ⟨by decide, by decide⟩

theorem readHeader_text (line v d : List Char) (k : Int) (hl : '\n' ∉ line) (hs : splitWs (line ++ ['\n']) = [v, ['0'], d])
    (hd : toInt d = .ok k) (s : List Char) :
    readHeader (line ++ '\n' :: (linesText ["$End".toList ++ "MeshFormat".toList] ++ s)) = .ok ((v, k, true), s) := by
  unfold readHeader
  rw [readLine_append _ _ hl, hs]
  simp only
  rw [if_neg (by decide), hd]
  simp only
  rw [if_pos trivial, fastForward_end _ _ tok_meshFormat]

theorem readHeader_bin (line v d : List Char) (k : Int) (hl : '\n' ∉ line) (hs : splitWs (line ++ ['\n']) = [v, ['1'], d])
    (hd : toInt d = .ok k) (s : List Char) :
    readHeader (line ++ '\n' :: (putInt 4 1 ++ '\n' :: (linesText ["$End".toList ++ "MeshFormat".toList] ++ s))) =
      .ok ((v, k, false), s) := by
  unfold readHeader
  rw [readLine_append _ _ hl, hs]
  simp only
  rw [if_neg (by decide), hd]
  simp only
  rw [if_neg (by decide), if_neg (by rw [List.length_append, length_putInt]; omega),
    List.take_left' (length_putInt 4 1), List.drop_left' (length_putInt 4 1), getInt_putInt 4 1 (by decide),
    if_neg (by simp), fastForward_nl _ tok_meshFormat]

theorem start_of (X : List Char) (v : List Char) (k : Int) (ascii : Bool) (s : List Char) (w : Version)
    (h : readHeader X = .ok ((v, k, ascii), s)) (hv : reader v = .ok w) :
    start ("$MeshFormat".toList ++ '\n' :: X) = .ok ((w, k, ascii), s) := by
  have hs := skipComments_format "$MeshFormat".toList X (by decide) (by decide) (by decide)
  unfold start
  generalize "$MeshFormat".toList = a at *
  rw [hs]
  simp only
  rw [if_neg (by simp), h]
  simp only
  rw [hv]

theorem start_header (ascii : Bool) (s : List Char) : start (mshHeader ascii ++ s) = .ok ((.v22, 8, ascii), s) := by
  cases ascii with
  | true =>
    exact start_of _ "2.2".toList 8 true s .v22
      (readHeader_text "2.2 0 8".toList "2.2".toList ['8'] 8 (by decide) (by decide) (by decide) s) (by decide)
  | false =>
    have e : mshHeader false ++ s = "$MeshFormat".toList ++ '\n' :: ("2.2 1 8".toList ++ '\n' :: (putInt 4 1 ++ ('\n' :: (linesText ["$End".toList ++ "MeshFormat".toList] ++ s)))) := by
      unfold mshHeader
      simp only [Bool.false_eq_true, if_false, linesText_cons, List.append_assoc, List.cons_append, List.nil_append]
      rfl
    rw [e]
    exact start_of _ "2.2".toList 8 false s .v22
      (readHeader_bin "2.2 1 8".toList "2.2".toList ['8'] 8 (by decide) (by decide) (by decide) s) (by decide)

theorem read_final (io : GmshFloat F) (ascii : Bool) (f : MshFile F) (hf : f.Ok io.lim) (hb : ascii = false → f.Binary) :
    ∃ st, Final f st ∧ Gmsh22.read io (f.text io ascii) = finish st := by
  have hlen := hf.points.2.1
  have hnf : ∀ n : Nat, numbersFrom 1 n = (List.range n).map fun (i : Nat) => (1 + i : Int) := fun n => rfl
  have hnums : Nums io.lim ascii f.ids (f.elems.map (·.num)) := by
    constructor
    · intro _
      refine ⟨fun i hi => (hf.ids.2 i hi).2.2, ?_⟩
      intro i hi
      obtain ⟨e, he, rfl⟩ := List.mem_map.1 hi
      exact (hf.elems e he).2
    · intro ha
      refine ⟨⟨fun i hi => (hf.ids.2 i hi).2.1, ?_⟩, ?_, ?_⟩
      · conv => lhs; rw [(hb ha).ids, hlen, hnf]
      · intro i hi
        obtain ⟨e, he, rfl⟩ := List.mem_map.1 hi
        exact (hf.elems e he).1.fits.1
      · conv => lhs; rw [(hb ha).nums, hnf]
        rw [List.length_map]
  have hsecs : ∀ x ∈ f.secs, x.Ok f.ids.length (f.elems.map (·.num)).length := by
    intro x hx
    rw [← hlen, List.length_map]
    exact hf.secs x hx
  have hne : f.ids.length ≠ 0 := by
    rw [← hlen]
    have := hf.points.1
    simpa using this
  obtain ⟨a1, a2, a3, a4, a5, a6, a7, a8⟩ := addSec_fields f.pre ({} : St F)
  generalize hA : f.pre.foldl addSec ({} : St F) = A at *
  obtain ⟨b1, b2, b3, b4, b5, b6, b7, b8⟩ := addSec_fields f.mid { A with points := f.points, pointTags := some f.ids }
  generalize hB : f.mid.foldl addSec { A with points := f.points, pointTags := some f.ids } = B at *
  obtain ⟨c1, c2, c3, c4, c5, c6, c7, c8⟩ := addSec_fields f.post { B with
        cells := groupRuns (f.chunks.flatten.map fun e => (e.type, e.row.map Int.ofNat))
        tags := outputTags (f.chunks.flatten.foldl (fun d e => addTags d e.type [e.tags]) []) }
  generalize hC : f.post.foldl addSec { B with
        cells := groupRuns (f.chunks.flatten.map fun e => (e.type, e.row.map Int.ofNat))
        tags := outputTags (f.chunks.flatten.foldl (fun d e => addTags d e.type [e.tags]) []) } = C at *
  have hR : Reads io ascii ({} : St F) (f.pre.flatMap (MshSec.text io ascii f.ids (f.elems.map (·.num))) ++
    (mshNodes io ascii f.ids f.points ++ (f.mid.flatMap (MshSec.text io ascii f.ids (f.elems.map (·.num))) ++
      (mshElems ascii f.ids f.chunks ++ f.post.flatMap (MshSec.text io ascii f.ids (f.elems.map (·.num))))))) (.ok C) := by
    apply reads_secs io ascii _ _ hnums f.pre (fun x hx => hsecs x (by simp [MshFile.secs, hx]))
    rw [hA, mshNodes_eq]
    refine reads_section io ascii A { A with points := f.points, pointTags := some f.ids } "Nodes".toList _
      (f.mid.flatMap (MshSec.text io ascii f.ids (f.elems.map (·.num))) ++
        (mshElems ascii f.ids f.chunks ++ f.post.flatMap (MshSec.text io ascii f.ids (f.elems.map (·.num))))) _ tok_nodes (by simp) ?_ ?_
    · rw [readSection, if_neg (by decide), if_pos rfl,
        readNodes_body io ascii f.ids f.points hlen hf.points.2.2 (fun h => (hnums.ascii h).1) (fun h => by
          rw [hlen]; exact (hnums.binary h).1)]
    · apply reads_secs io ascii _ _ hnums f.mid (fun x hx => hsecs x (by simp [MshFile.secs, hx]))
      rw [hB, mshElems_eq]
      refine reads_section io ascii B { B with
          cells := groupRuns (f.chunks.flatten.map fun e => (e.type, e.row.map Int.ofNat))
          tags := outputTags (f.chunks.flatten.foldl (fun d e => addTags d e.type [e.tags]) []) } "Elements".toList _
        (f.post.flatMap (MshSec.text io ascii f.ids (f.elems.map (·.num)))) _ tok_elements (by simp) ?_ ?_
      · rw [readSection, if_neg (by decide), if_neg (by decide), if_pos rfl]
        exact readCells_body ascii f.ids f.ids.length rfl hne hf.ids.1 (fun i hi => ⟨(hf.ids.2 i hi).1, (hf.ids.2 i hi).2.1⟩) f.chunks
          (fun e he => by rw [← hlen]; exact (hf.elems e he).1)
          (fun h => ⟨(hb h).chunks, (hb h).tags, (hb h).ntags⟩) B (by rw [b3]; exact a3) b2 _
      · have := reads_secs io ascii _ _ hnums f.post (fun x hx => hsecs x (by simp [MshFile.secs, hx])) { B with
          cells := groupRuns (f.chunks.flatten.map fun e => (e.type, e.row.map Int.ofNat))
          tags := outputTags (f.chunks.flatten.foldl (fun d e => addTags d e.type [e.tags]) []) } [] (.ok C) (by
            rw [hC]; exact reads_end io ascii C)
        rwa [List.append_nil] at this
  have hfin : Final f C := by
    refine ⟨?_, c3, c4, ?_, ?_, ?_, ?_⟩
    · rw [c1]; exact b1
    · rw [c5]
      show List.foldl _ B.fieldData _ = _
      rw [b5]
      show List.foldl _ (List.foldl _ A.fieldData _) _ = _
      rw [a5, ← List.foldl_append, ← List.foldl_append, ← List.map_append, ← List.map_append, ← List.flatMap_append, ← List.flatMap_append]
      have hn : f.names = (f.pre ++ (f.mid ++ f.post)).flatMap MshSec.name? := by
        unfold MshFile.names MshFile.secs; rw [List.append_assoc]
      rw [← hn]
      show List.foldl _ [] _ = _
      rw [foldl_set_fresh, List.nil_append]
      rw [List.map_nil, List.nil_append, List.map_map]
      exact nodup_ofList (fun e : Int × Int × List Char => e.2.2) _ hf.names
    · rw [c6]
      show List.foldl _ B.pointData _ = _
      rw [b6]
      show List.foldl _ (List.foldl _ A.pointData _) _ = _
      rw [a6, ← List.foldl_append, ← List.foldl_append, ← List.map_append, ← List.map_append, ← List.filterMap_append, ← List.filterMap_append]
      have hn : f.nodeData = (f.pre ++ (f.mid ++ f.post)).filterMap MshSec.nodeData? := by
        unfold MshFile.nodeData MshFile.secs; rw [List.append_assoc]
      rw [← hn]
      show List.foldl _ [] _ = _
      rw [foldl_set_fresh, List.nil_append]
      rw [List.map_nil, List.nil_append, List.map_map]
      exact nodup_ofList (fun e : MshData F => e.name) _ hf.nodeData
    · rw [c7]
      show List.foldl _ B.cellDataRaw _ = _
      rw [b7]
      show List.foldl _ (List.foldl _ A.cellDataRaw _) _ = _
      rw [a7, ← List.foldl_append, ← List.foldl_append, ← List.map_append, ← List.map_append, ← List.filterMap_append, ← List.filterMap_append]
      have hn : f.elemData = (f.pre ++ (f.mid ++ f.post)).filterMap MshSec.elemData? := by
        unfold MshFile.elemData MshFile.secs; rw [List.append_assoc]
      rw [← hn]
      show List.foldl _ [] _ = _
      rw [foldl_set_fresh, List.nil_append]
      rw [List.map_nil, List.nil_append, List.map_map]
      exact nodup_ofList (fun e : MshData F => e.name) _ hf.elemData.1
    · rw [c8]
      show Option.or _ B.periodic = _
      rw [b8]
      show Option.or _ (Option.or _ A.periodic) = _
      rw [a8]
      unfold MshFile.secs
      rw [List.filterMap_append, List.filterMap_append, List.getLast?_append, List.getLast?_append]
      simp
  refine ⟨C, hfin, ?_⟩
  unfold Gmsh22.read MshFile.text
  rw [start_header]
  simp only
  unfold readBuffer
  rw [hR _ (Nat.lt_succ_self _)]

end Meshio.Gmsh22
