/-
Lemmas for FLAC3D files: what is written is read back.
-/
import Verif.Proofs.Flac3dWrite

namespace Meshio
namespace Flac3d
open Types Tables
open Meshio.Spec (groupRuns)
open Meshio.Spec.Flac3d

variable {F : Type}

/-! ## The grid of a mesh -/

/-- The grid that is written for a mesh. -/
def gridW (io : FlacIO F) (d : F) (slot : String) (points : List (List F)) (cells : List (String × List (List Int)))
    (sets : Dict (List (List Int))) : Grid F where
  points := points.zipIdx.map fun p => (((p.2 + 1 : Nat) : Int), p.1)
  zones := (zonesOf io d points cells).zipIdx.map fun z => ⟨((z.2 + 1 : Nat) : Int), (at' 0 z.1.2 (flacOrder z.1.1)).map Int.toNat⟩
  faces := []
  zgroups := sets.map fun kv => ⟨kv.1.toList, slot.toList, (globalMembers cells kv.2).map Int.toNat⟩
  fgroups := []

theorem map_zipIdx_ids {α : Type} (l : List α) :
    l.zipIdx.map (fun p => ((p.2 + 1 : Nat) : Int)) = (List.range l.length).map fun (i : Nat) => ((i + 1 : Nat) : Int) := by
  apply List.ext_getElem
  · simp
  · intro i h1 h2
    simp

theorem nodup_ids (n : Nat) : ((List.range n).map fun (i : Nat) => ((i + 1 : Nat) : Int)).Nodup := by
  rw [List.nodup_iff_pairwise_ne, List.pairwise_map]
  apply List.Pairwise.imp _ List.nodup_range
  intro a b h
  omega

theorem zones_facts (io : FlacIO F) (d : F) (points : List (List F)) (cells : List (String × List (List Int)))
    (sets : Dict (List (List Int))) (h : MeshOk points cells sets) :
    ∀ z ∈ zonesOf io d points cells, z.1 ∈ kinds ∧ z.2.length = size z.1 ∧ ∀ i ∈ z.2, 0 ≤ i ∧ i < (points.length : Int) := by
  intro z hz
  unfold zonesOf at hz
  obtain ⟨b, hb, hz⟩ := List.mem_flatMap.1 hz
  obtain ⟨r, hr, rfl⟩ := List.mem_map.1 hz
  obtain ⟨k, hk⟩ := Option.isSome_iff_exists.1 (h.types b hb)
  have hkk := zoneOf_kind hk
  have hn := h.nodes b hb r hr
  rw [hk] at hn ⊢
  simp only [Option.getD_some] at hn ⊢
  exact ⟨hkk, length_oriented io d points k hkk r hn.1, fun i hi => hn.2 i (mem_oriented io d points k hkk r hn.1 i hi)⟩

theorem length_zonesOf (io : FlacIO F) (d : F) (points : List (List F)) (cells : List (String × List (List Int))) :
    (zonesOf io d points cells).length = (cells.map (·.2.length)).sum := by
  unfold zonesOf
  induction cells with
  | nil => rfl
  | cons b cells ih =>
    rw [List.flatMap_cons, List.length_append, List.length_map, ih]
    rfl

theorem mem_entries (s : Nat) (cells : List (String × List (List Int))) (set : List (List Int)) (hl : set.length = cells.length)
    (h : ∀ p ∈ cells.zip set, ∀ i ∈ p.2, 0 ≤ i ∧ i < (p.1.2.length : Int)) :
    ∀ i ∈ (List.zipWith (fun (se : Nat × Nat) (b : List Int) => b.map fun i => i + (se.1 : Int)) (segsFrom s (cells.map (·.2.length))) set).flatten,
      0 ≤ i ∧ i < ((s + (cells.map (·.2.length)).sum : Nat) : Int) := by
  induction cells generalizing s set with
  | nil =>
    rw [List.length_nil, List.length_eq_zero_iff] at hl
    subst hl
    intro i hi
    simp [segsFrom] at hi
  | cons c cells ih =>
    cases set with
    | nil => simp at hl
    | cons b set =>
      intro i hi
      rw [List.map_cons, segsFrom, List.zipWith_cons_cons, List.flatten_cons, List.mem_append] at hi
      rw [List.map_cons, List.sum_cons]
      rcases hi with hi | hi
      · obtain ⟨j, hj, rfl⟩ := List.mem_map.1 hi
        have := h (c, b) (by simp) j hj
        simp only at this ⊢
        omega
      · have := ih (s + c.2.length) set (by simpa using hl) (fun p hp => h p (by simp [hp])) i hi
        omega

theorem members_in (cells : List (String × List (List Int))) (sets : Dict (List (List Int))) (hs : SetsOk cells sets)
    (hl : ∀ kv ∈ sets, kv.2.length = cells.length) :
    ∀ kv ∈ sets, ∀ i ∈ globalMembers cells kv.2, 0 ≤ i ∧ i < ((cells.map (·.2.length)).sum : Nat) := by
  intro kv hkv i hi
  have := mem_entries 0 cells kv.2 (hl kv hkv) (hs kv hkv).2 i hi
  rw [Nat.zero_add] at this
  exact this

theorem length_entries (s : Nat) (lens : List Nat) (set : List (List Int)) (hl : set.length = lens.length) :
    (List.zipWith (fun (se : Nat × Nat) (b : List Int) => b.map fun i => i + (se.1 : Int)) (segsFrom s lens) set).flatten.length =
      set.flatten.length := by
  induction lens generalizing s set with
  | nil =>
    rw [List.length_nil, List.length_eq_zero_iff] at hl
    subst hl
    rfl
  | cons n lens ih =>
    cases set with
    | nil => simp at hl
    | cons b set =>
      rw [segsFrom, List.zipWith_cons_cons, List.flatten_cons, List.flatten_cons, List.length_append, List.length_append,
        List.length_map, ih _ set (by simpa using hl)]

theorem length_members (cells : List (String × List (List Int))) (set : List (List Int)) (hl : set.length = cells.length) :
    (globalMembers cells set).length = set.flatten.length :=
  length_entries 0 _ set (by simpa using hl)

theorem key_group (name slot : String) (m : List Nat) : key "zone" ⟨name.toList, slot.toList, m⟩ = "zone:" ++ name ++ ":" ++ slot := by
  apply String.toList_injective
  unfold key
  rw [String.toList_ofList]
  simp only [String.toList_append]
  rfl

theorem gridW_ok (io : FlacIO F) (d : F) (slot : String) (points : List (List F)) (cells : List (String × List (List Int)))
    (sets : Dict (List (List Int))) (h : MeshOk points cells sets) (hs : SetsOk cells sets) :
    GridOk (gridW io d slot points cells sets) := by
  refine ⟨?_, ?_, ⟨?_, ?_, ?_, ?_, ?_, ?_⟩, ⟨(by intro c hc; cases hc), (by intro c hc; cases hc), List.nodup_nil,
    (by intro c hc; cases hc), (by intro _ c hc; cases hc), List.nodup_nil⟩⟩
  · simp only [gridW, List.map_map]
    have := map_zipIdx_ids points
    rw [show ((fun (x : Int × List F) => x.1) ∘ fun (p : List F × Nat) => (((p.2 + 1 : Nat) : Int), p.1)) =
      (fun p => ((p.2 + 1 : Nat) : Int)) from rfl, this]
    exact nodup_ids _
  · intro p hp q hq
    obtain ⟨a, ha, rfl⟩ := List.mem_map.1 hp
    obtain ⟨b, hb, rfl⟩ := List.mem_map.1 hq
    rw [h.dims _ (List.fst_mem_of_mem_zipIdx ha), h.dims _ (List.fst_mem_of_mem_zipIdx hb)]
  · intro c hc
    obtain ⟨z, hz, rfl⟩ := List.mem_map.1 hc
    obtain ⟨h1, h2, h3⟩ := zones_facts io d points cells sets h z.1 (List.fst_mem_of_mem_zipIdx hz)
    obtain ⟨-, -, hf, -, -, hfl, -, -, hzk, -⟩ := kind_facts _ h1
    simp only [List.length_map, at', hfl]
    refine ⟨hzk, ?_⟩
    intro v hv
    obtain ⟨i, hi, rfl⟩ := List.mem_map.1 hv
    obtain ⟨j, hj, rfl⟩ := List.mem_map.1 hi
    have hjl : j < z.1.2.length := by rw [h2]; exact hf j hj
    rw [memberIds_get hjl]
    have := h3 _ (List.getElem_mem hjl)
    simp only [gridW, List.length_map, List.length_zipIdx]
    omega
  · intro c hc
    obtain ⟨z, hz, rfl⟩ := List.mem_map.1 hc
    simp only
    omega
  · simp only [gridW, List.map_map]
    have := map_zipIdx_ids (zonesOf io d points cells)
    rw [show ((fun (x : Cell) => x.id) ∘ fun (z : (String × List Int) × Nat) =>
      (⟨((z.2 + 1 : Nat) : Int), (at' 0 z.1.2 (flacOrder z.1.1)).map Int.toNat⟩ : Cell)) = (fun p => ((p.2 + 1 : Nat) : Int)) from rfl, this]
    exact nodup_ids _
  · intro g hg i hi
    obtain ⟨kv, hkv, rfl⟩ := List.mem_map.1 hg
    obtain ⟨j, hj, rfl⟩ := List.mem_map.1 hi
    have := members_in cells sets hs h.entries kv hkv j hj
    simp only [gridW, List.length_map, List.length_zipIdx, length_zonesOf]
    omega
  · intro _ g hg
    obtain ⟨kv, hkv, rfl⟩ := List.mem_map.1 hg
    simp only
    have h1 := (hs kv hkv).1
    have h2 := length_members cells kv.2 (h.entries kv hkv)
    intro hn
    apply h1
    rw [List.map_eq_nil_iff] at hn
    rw [hn] at h2
    exact List.length_eq_zero_iff.1 h2.symm
  · simp only [gridW, List.map_map]
    rw [List.map_congr_left (g := fun kv : String × List (List Int) => "zone:" ++ kv.1 ++ ":" ++ slot) (by
      intro kv _
      exact key_group kv.1 slot _)]
    have hn := h.names
    rw [List.nodup_iff_pairwise_ne, List.pairwise_map] at hn ⊢
    apply List.Pairwise.imp _ hn
    intro a b hab he
    apply hab
    have := congrArg String.toList he
    simp only [String.toList_append] at this
    rw [List.append_cancel_right_eq, List.append_cancel_right_eq, List.append_cancel_left_eq] at this
    exact String.toList_injective this

theorem at'_map_toNat (l : List Int) (p : List Nat) : at' 0 (l.map Int.toNat) p = (at' 0 l p).map Int.toNat := by
  unfold at'
  rw [List.map_map]
  apply List.map_congr_left
  intro i _
  simp only [List.getD_eq_getElem?_getD, List.getElem?_map, Function.comp_apply]
  cases l[i]? <;> rfl

theorem at'_range {α : Type} (d : α) (l : List α) (n : Nat) (h : l.length = n) : at' d l (List.range n) = l := by
  unfold at'
  apply List.ext_getElem
  · simp [h]
  · intro i h1 h2
    simp [h2]

theorem cell_gridW (k : String) (hk : k ∈ kinds) (row : List Int) (hl : row.length = size k) (id : Int) :
    cell zoneKind ⟨id, (at' 0 row (flacOrder k)).map Int.toNat⟩ = (k, row.map Int.toNat) := by
  obtain ⟨-, -, hf, -, -, hfl, -, -, hz, ht, hr, hlt⟩ := kind_facts k hk
  have h1 : ((at' 0 row (flacOrder k)).map Int.toNat).length = size k := by
    unfold at'
    rw [List.length_map, List.length_map, hfl]
  obtain ⟨p, hp, -⟩ := zoneKind_order hz
  unfold cell
  simp only
  rw [h1, hp]
  simp only
  rw [hp] at hr hlt
  simp only [Option.getD_some] at hr hlt
  rw [ht, at'_map_toNat, at'_at' 0 row _ _ (by rw [hfl]; exact hlt), hr, at'_range 0 row _ hl]

theorem mesh_gridW (io : FlacIO F) (d : F) (slot : String) (points : List (List F)) (cells : List (String × List (List Int)))
    (sets : Dict (List (List Int))) (h : MeshOk points cells sets) :
    mesh (gridW io d slot points cells sets) = backMesh io d slot points cells sets := by
  have hb : blocksOf (gridW io d slot points cells sets) =
      groupRuns ((zonesOf io d points cells).map fun z => (z.1, z.2.map Int.toNat)) := by
    unfold blocksOf
    simp only [gridW, List.map_nil, List.map_map]
    rw [show groupRuns ([] : List (String × List Nat)) = [] from rfl, List.nil_append]
    congr 1
    have : ((zonesOf io d points cells).zipIdx.map (·.1)).map (fun z => (z.1, z.2.map Int.toNat)) =
        (zonesOf io d points cells).map (fun z => (z.1, z.2.map Int.toNat)) := by
      rw [List.zipIdx_map_fst]
    rw [← this, List.map_map]
    apply List.map_congr_left
    intro z hz
    obtain ⟨h1, h2, -⟩ := zones_facts io d points cells sets h z.1 (List.fst_mem_of_mem_zipIdx hz)
    exact cell_gridW _ h1 _ h2 _
  unfold mesh backMesh
  rw [hb]
  simp only [gridW, List.map_nil, List.nil_append, List.length_nil, List.map_map]
  congr 1
  · have : points.zipIdx.map (·.1) = points := List.zipIdx_map_fst ..
    exact this
  · congr 1
    rw [← map_zipIdx_ids]
    apply List.map_congr_left
    intro z _
    simp
  · apply List.map_congr_left
    intro kv _
    simp only [Function.comp_apply]
    rw [key_group]
    simp only [Nat.add_zero, List.map_map]
    rfl

/-! ## Text -/

/-- The pieces of a text file. -/
def itemsW (io : FlacIO F) (d : F) (version ctime : List Char) (points : List (List F)) (cells : List (String × List (List Int)))
    (sets : Dict (List (List Int))) : List (Item F) :=
  [.other ("* FLAC3D grid produced by meshio v".toList ++ version), .other ("* ".toList ++ ctime), .other "* GRIDPOINTS".toList] ++
  ((points.zipIdx.map fun p => Item.point ((p.2 + 1 : Nat) : Int) p.1) ++ ([.other "* ZONES".toList] ++
  (((zonesOf io d points cells).zipIdx.map fun z => Item.zone ⟨((z.2 + 1 : Nat) : Int), (at' 0 z.1.2 (flacOrder z.1.1)).map Int.toNat⟩) ++
  ([.other "* ZONE GROUPS".toList] ++
  ((sets.map fun kv => Item.zgroup ⟨kv.1.toList, "1".toList, (globalMembers cells kv.2).map Int.toNat⟩) ++
  [.other "* FACES".toList, .other "* FACE GROUPS".toList])))))

theorem gridOf_itemsW (io : FlacIO F) (d : F) (version ctime : List Char) (points : List (List F)) (cells : List (String × List (List Int)))
    (sets : Dict (List (List Int))) : gridOf (itemsW io d version ctime points cells sets) = gridW io d "1" points cells sets := by
  have e {α β γ : Type} (l : List α) (f : α → β) (g : β → Option γ) (g' : α → γ) (h : ∀ a, g (f a) = some (g' a)) :
      (l.map f).filterMap g = l.map g' := by
    rw [List.filterMap_map, show g ∘ f = fun a => some (g' a) from funext h]
    induction l with
    | nil => rfl
    | cons a l ih => simp
  have n {α β γ : Type} (l : List α) (f : α → β) (g : β → Option γ) (h : ∀ a, g (f a) = none) : (l.map f).filterMap g = [] := by
    induction l with
    | nil => rfl
    | cons a l ih => rw [List.map_cons, List.filterMap_cons, h a, ih]
  have app3 {γ : Type} {a b c a' b' c' : List γ} (h1 : a = a') (h2 : b = b') (h3 : c = c') : a ++ (b ++ c) = a' ++ (b' ++ c') := by
    rw [h1, h2, h3]
  unfold gridOf itemsW gridW
  congr 1
  · simp only [List.filterMap_append, List.filterMap_cons, List.filterMap_nil, List.nil_append, List.append_nil]
    refine Eq.trans (app3 (e _ _ _ (fun (p : List F × Nat) => (((p.2 + 1 : Nat) : Int), p.1)) ?_) (n _ _ _ ?_) (n _ _ _ ?_)) ?_
    iterate 3 (intro _; rfl)
    rw [List.append_nil, List.append_nil]
  · simp only [List.filterMap_append, List.filterMap_cons, List.filterMap_nil, List.nil_append, List.append_nil]
    refine Eq.trans (app3 (n _ _ _ ?_) (e _ _ _ (fun (z : (String × List Int) × Nat) =>
      (⟨((z.2 + 1 : Nat) : Int), (at' 0 z.1.2 (flacOrder z.1.1)).map Int.toNat⟩ : Cell)) ?_) (n _ _ _ ?_)) ?_
    iterate 3 (intro _; rfl)
    rw [List.append_nil, List.nil_append]
  · simp only [List.filterMap_append, List.filterMap_cons, List.filterMap_nil, List.nil_append, List.append_nil]
    refine Eq.trans (app3 (n _ _ _ ?_) (n _ _ _ ?_) (n _ _ _ ?_)) ?_
    iterate 3 (intro _; rfl)
    rfl
  · simp only [List.filterMap_append, List.filterMap_cons, List.filterMap_nil, List.nil_append, List.append_nil]
    refine Eq.trans (app3 (n _ _ _ ?_) (n _ _ _ ?_) (e _ _ _ (fun (kv : String × List (List Int)) =>
      (⟨kv.1.toList, "1".toList, (globalMembers cells kv.2).map Int.toNat⟩ : Group)) ?_)) ?_
    iterate 3 (intro _; rfl)
    rfl
  · simp only [List.filterMap_append, List.filterMap_cons, List.filterMap_nil, List.nil_append, List.append_nil]
    refine Eq.trans (app3 (n _ _ _ ?_) (n _ _ _ ?_) (n _ _ _ ?_)) ?_
    iterate 3 (intro _; rfl)
    rfl

theorem splitWs_comment (s : List Char) : splitWs ('*' :: ' ' :: s) = ['*'] :: splitWs s :=
  splitWs_tok_ws (t := ['*']) ⟨by simp, by decide⟩ (by decide) s

theorem shows_comment (io : FlacIO F) (p z f : List Int) (s : List Char) :
    Shows io p z f (.other ('*' :: ' ' :: s)) ['*' :: ' ' :: s] := by
  refine ⟨rfl, ?_⟩
  intro w hw
  rw [splitWs_comment] at hw
  cases hw
  decide

theorem splitWs_spaces (n : Nat) (s : List Char) : splitWs (List.replicate n ' ' ++ s) = splitWs s := by
  induction n with
  | zero => rfl
  | succ n ih => rw [List.replicate_succ, List.cons_append, splitWs_ws (by decide), ih]

theorem splitWs_point (io : FlacIO F) (k n : Nat) (x : List F) :
    splitWs (joinWith '\t' ("G".toList :: (List.replicate k ' ' ++ fmtNat n) :: x.map io.fmt)) = "G".toList :: fmtNat n :: x.map io.fmt := by
  have e : joinWith '\t' ("G".toList :: (List.replicate k ' ' ++ fmtNat n) :: x.map io.fmt) =
      "G".toList ++ '\t' :: (List.replicate k ' ' ++ joinWith '\t' (fmtNat n :: x.map io.fmt)) := by
    cases x <;> simp [joinWith]
  rw [e, splitWs_tok_ws ⟨by decide, by decide⟩ (by decide), splitWs_spaces, splitWs_joinWith (by decide)]
  intro t ht
  rcases List.mem_cons.1 ht with rfl | ht
  · exact isTok_fmtNat n
  · obtain ⟨y, -, rfl⟩ := List.mem_map.1 ht
    exact io.tok y

theorem nl_point (io : FlacIO F) (k n : Nat) (x : List F) :
    '\n' ∉ joinWith '\t' ("G".toList :: (List.replicate k ' ' ++ fmtNat n) :: x.map io.fmt) := by
  apply not_mem_joinWith (by decide)
  intro t ht
  rcases List.mem_cons.1 ht with rfl | ht
  · decide
  rcases List.mem_cons.1 ht with rfl | ht
  · intro hm
    rcases List.mem_append.1 hm with hm | hm
    · have := List.eq_of_mem_replicate hm
      cases this
    · exact (isTok_fmtNat n).no_newline hm
  · obtain ⟨y, -, rfl⟩ := List.mem_map.1 ht
    exact (io.tok y).no_newline

theorem tok_word {k : String} (hk : k ∈ kinds) : IsTok (word k).toList ∧ (word k).toList ≠ "B7".toList := by
  unfold kinds at hk
  simp only [List.mem_cons, List.mem_nil_iff, or_false] at hk
  rcases hk with rfl | rfl | rfl | rfl <;> exact ⟨⟨by decide, by decide⟩, by decide⟩

theorem toks_zone {k : String} (hk : k ∈ kinds) (n : Nat) (l : List Int) :
    ∀ t ∈ "Z".toList :: (word k).toList :: fmtNat n :: l.map (fun i => fmtInt (i + 1)), IsTok t := by
  intro t ht
  rcases List.mem_cons.1 ht with rfl | ht
  · exact ⟨by decide, by decide⟩
  rcases List.mem_cons.1 ht with rfl | ht
  · exact (tok_word hk).1
  rcases List.mem_cons.1 ht with rfl | ht
  · exact isTok_fmtNat n
  obtain ⟨i, -, rfl⟩ := List.mem_map.1 ht
  exact isTok_fmtInt _

theorem getElem_ids {n v : Nat} (h : v < n) : ((List.range n).map fun (i : Nat) => ((i + 1 : Nat) : Int))[v]? = some ((v + 1 : Nat) : Int) := by
  simp [h]

theorem zoneLine_ok {k : String} (hk : k ∈ kinds) (n m : Nat) (l : List Int) (h : ∀ i ∈ l, 0 ≤ i ∧ i < (m : Int)) :
    CellLine "Z" ((List.range m).map fun (i : Nat) => ((i + 1 : Nat) : Int)) ⟨(n : Int), l.map Int.toNat⟩
      (joinWith ' ' ("Z".toList :: (word k).toList :: fmtNat n :: l.map fun i => fmtInt (i + 1))) := by
  refine ⟨_, _, _, l.map Int.toNat, splitWs_joinWith (by decide) _ (toks_zone hk n l), parseInt_fmtNat n, ?_, ?_, ?_⟩
  · rw [List.map_map, List.map_map]
    apply List.map_congr_left
    intro i hi
    have := h i hi
    simp only [Function.comp_apply, parseInt_fmtInt]
    rw [getElem_ids (by omega)]
    congr 1
    omega
  · intro v hv
    obtain ⟨i, hi, rfl⟩ := List.mem_map.1 hv
    have := h i hi
    simp only [List.length_map, List.length_range]
    omega
  · rw [if_neg (tok_word hk).2]

theorem flatten_rows20 {α : Type} (n : Nat) (l : List α) (h : l.length ≤ n) : (rows20 n l).flatten = l := by
  induction n generalizing l with
  | zero =>
    have : l = [] := List.length_eq_zero_iff.1 (by omega)
    subst this
    rfl
  | succ n ih =>
    cases l with
    | nil => rfl
    | cons a l =>
      rw [rows20, List.flatten_cons, ih _ (by simp at h ⊢; omega), List.take_append_drop]

theorem rows20_ne {α : Type} (n : Nat) (l : List α) : ∀ r ∈ rows20 n l, r ≠ [] := by
  induction n generalizing l with
  | zero =>
    intro r hr
    cases hr
  | succ n ih =>
    cases l with
    | nil =>
      intro r hr
      cases hr
    | cons a l =>
      intro r hr
      rw [rows20] at hr
      rcases List.mem_cons.1 hr with rfl | hr
      · simp
      · exact ih _ r hr

theorem splitWs_row (r : List Int) : splitWs (' ' :: joinWith ' ' (r.map fun i => fmtInt (i + 1))) = r.map fun i => fmtInt (i + 1) := by
  rw [splitWs_ws (by decide), splitWs_joinWith (by decide)]
  intro t ht
  obtain ⟨i, -, rfl⟩ := List.mem_map.1 ht
  exact isTok_fmtInt _

theorem members_ok (m : Nat) (name slot : List Char) (l : List Int) (h : ∀ i ∈ l, 0 ≤ i ∧ i < (m : Int)) :
    Members ((List.range m).map fun (i : Nat) => ((i + 1 : Nat) : Int)) ⟨name, slot, l.map Int.toNat⟩
      ((rows20 l.length l).map fun r => ' ' :: joinWith ' ' (r.map fun i => fmtInt (i + 1))) := by
  refine ⟨?_, ?_⟩
  · intro r hr
    obtain ⟨q, hq, rfl⟩ := List.mem_map.1 hr
    rw [splitWs_row]
    have := rows20_ne _ _ q hq
    simpa using this
  · have e : ((rows20 l.length l).map fun r => ' ' :: joinWith ' ' (r.map fun i => fmtInt (i + 1))).flatMap splitWs =
        l.map fun i => fmtInt (i + 1) := by
      rw [List.flatMap_map]
      rw [show (fun r : List Int => splitWs (' ' :: joinWith ' ' (r.map fun i => fmtInt (i + 1)))) = fun r => r.map fun i => fmtInt (i + 1)
        from funext splitWs_row]
      rw [List.flatMap_def, ← List.map_flatten, flatten_rows20 _ _ (Nat.le_refl _)]
    rw [e, List.map_map, List.map_map]
    apply List.map_congr_left
    intro i hi
    have := h i hi
    simp only [Function.comp_apply, parseInt_fmtInt]
    rw [getElem_ids (by omega)]
    congr 1
    omega

theorem inOrder_points (ps : List (Int × List F)) (n : Nat) (r : List (Item F)) (h : InOrder (n + ps.length) r) :
    InOrder n (ps.map (fun p => Item.point p.1 p.2) ++ r) := by
  induction ps generalizing n with
  | nil => exact h
  | cons p ps ih =>
    exact ih (n + 1) (by rw [List.length_cons] at h; rwa [Nat.add_assoc, Nat.add_comm 1])

theorem inOrder_zones (zs : List Cell) (n : Nat) (r : List (Item F)) (hz : ∀ c ∈ zs, ∀ v ∈ c.nodes, v < n) (h : InOrder n r) :
    InOrder n (zs.map (fun c => (Item.zone c : Item F)) ++ r) := by
  induction zs with
  | nil => exact h
  | cons c zs ih => exact ⟨hz c (by simp), ih fun c hc => hz c (by simp [hc])⟩

theorem inOrder_groups (gs : List Group) (n : Nat) (r : List (Item F)) (hr : Stops r) (h : InOrder n r) :
    InOrder n (gs.map (fun g => (Item.zgroup g : Item F)) ++ r) := by
  induction gs with
  | nil => exact h
  | cons g gs ih =>
    refine ⟨?_, ih⟩
    cases gs with
    | nil => exact hr
    | cons g' gs => trivial

/-- What is written as text is a text file of the grid. -/
theorem text_itemsW (io : FlacIO F) (d : F) (version ctime : List Char) (hv : '\n' ∉ version) (hc : '\n' ∉ ctime)
    (points : List (List F)) (cells : List (String × List (List Int))) (sets : Dict (List (List Int)))
    (h : MeshOk points cells sets) (hs : SetsOk cells sets) (hn : TextNames sets) :
    TextFile io (itemsW io d version ctime points cells sets) (linesText (textLines io d version ctime points cells sets)) := by
  have hg := gridOf_itemsW io d version ctime points cells sets
  have hzf := zones_facts io d points cells sets h
  have hzn : ∀ z ∈ zonesOf io d points cells, ∀ i ∈ at' 0 z.2 (flacOrder z.1), 0 ≤ i ∧ i < (points.length : Int) := by
    intro z hz i hi
    obtain ⟨h1, h2, h3⟩ := hzf z hz
    obtain ⟨-, -, hf, -⟩ := kind_facts _ h1
    obtain ⟨j, hj, rfl⟩ := List.mem_map.1 hi
    have hjl : j < z.2.length := by rw [h2]; exact hf j hj
    rw [memberIds_get hjl]
    exact h3 _ (List.getElem_mem hjl)
  have hm : ∀ kv ∈ sets, ∀ i ∈ globalMembers cells kv.2, 0 ≤ i ∧ i < ((zonesOf io d points cells).length : Int) := by
    intro kv hkv i hi
    rw [length_zonesOf]
    exact members_in cells sets hs h.entries kv hkv i hi
  refine ⟨?_, ?_, ?_⟩
  · refine ⟨[["* FLAC3D grid produced by meshio v".toList ++ version], ["* ".toList ++ ctime], ["* GRIDPOINTS".toList]] ++
      ((points.zipIdx.map fun p => [joinWith '\t' ("G".toList :: (List.replicate (8 - (fmtNat (p.2 + 1)).length) ' ' ++ fmtNat (p.2 + 1)) ::
        p.1.map io.fmt)]) ++ ([["* ZONES".toList]] ++
      (((zonesOf io d points cells).zipIdx.map fun z => [joinWith ' ' ("Z".toList :: (word z.1.1).toList :: fmtNat (z.2 + 1) ::
        (at' 0 z.1.2 (flacOrder z.1.1)).map fun i => fmtInt (i + 1))]) ++ ([["* ZONE GROUPS".toList]] ++
      ((sets.map fun kv => ("ZGROUP \"".toList ++ kv.1.toList ++ "\" SLOT 1".toList) ::
        (rows20 (globalMembers cells kv.2).length (globalMembers cells kv.2)).map fun r =>
          ' ' :: joinWith ' ' (r.map fun i => fmtInt (i + 1))) ++
      [["* FACES".toList], ["* FACE GROUPS".toList]]))))), ?_, ?_, ?_⟩
    · congr 1
      unfold textLines
      have e {α : Type} (l : List α) (f : α → List Char) : (l.map fun a => [f a]).flatten = l.map f := by
        induction l with
        | nil => rfl
        | cons a l ih => simp [ih]
      simp only [List.flatten_append, e, List.flatten_cons, List.flatten_nil, List.flatMap_def, List.append_assoc, List.append_nil,
        List.cons_append, List.nil_append]
    · intro l hl
      simp only [List.flatten_append, List.mem_append] at hl
      rcases hl with hl | hl | hl | hl | hl | hl | hl
      · simp only [List.flatten_cons, List.flatten_nil, List.append_nil, List.cons_append, List.nil_append, List.mem_cons,
          List.mem_nil_iff, or_false] at hl
        rcases hl with rfl | rfl | rfl
        · rw [List.mem_append]
          rintro (hx | hx)
          · revert hx
            decide
          · exact hv hx
        · rw [List.mem_append]
          rintro (hx | hx)
          · revert hx
            decide
          · exact hc hx
        · decide
      · obtain ⟨ls, hls, hl⟩ := List.mem_flatten.1 hl
        obtain ⟨p, -, rfl⟩ := List.mem_map.1 hls
        rw [List.mem_singleton] at hl
        rw [hl]
        exact nl_point io _ _ _
      · simp only [List.flatten_cons, List.flatten_nil, List.append_nil, List.mem_singleton] at hl
        rw [hl]
        decide
      · obtain ⟨ls, hls, hl⟩ := List.mem_flatten.1 hl
        obtain ⟨z, hz, rfl⟩ := List.mem_map.1 hls
        rw [List.mem_singleton] at hl
        rw [hl]
        exact no_newline_line _ (toks_zone (hzf z.1 (List.fst_mem_of_mem_zipIdx hz)).1 _ _)
      · simp only [List.flatten_cons, List.flatten_nil, List.append_nil, List.mem_singleton] at hl
        rw [hl]
        decide
      · obtain ⟨ls, hls, hl⟩ := List.mem_flatten.1 hl
        obtain ⟨kv, hkv, rfl⟩ := List.mem_map.1 hls
        rcases List.mem_cons.1 hl with rfl | hl
        · rw [List.mem_append, List.mem_append]
          rintro ((hx | hx) | hx)
          · revert hx
            decide
          · exact (hn kv hkv _ hx).2.2 rfl
          · revert hx
            decide
        · obtain ⟨r, -, rfl⟩ := List.mem_map.1 hl
          intro hx
          rcases List.mem_cons.1 hx with hx | hx
          · cases hx
          · exact no_newline_line _ (by
              intro t ht
              obtain ⟨i, -, rfl⟩ := List.mem_map.1 ht
              exact isTok_fmtInt _) hx
      · simp only [List.flatten_cons, List.flatten_nil, List.append_nil, List.cons_append, List.nil_append, List.mem_cons,
          List.mem_nil_iff, or_false] at hl
        rcases hl with rfl | rfl <;> decide
    · rw [hg]
      have hp : (gridW io d "1" points cells sets).points.map (·.1) = (List.range points.length).map fun (i : Nat) => ((i + 1 : Nat) : Int) := by
        rw [← map_zipIdx_ids]
        simp only [gridW, List.map_map]
        rfl
      have hz : (gridW io d "1" points cells sets).zones.map (·.id) =
          (List.range (zonesOf io d points cells).length).map fun (i : Nat) => ((i + 1 : Nat) : Int) := by
        rw [← map_zipIdx_ids]
        simp only [gridW, List.map_map]
        rfl
      rw [hp, hz]
      refine all2_append ⟨shows_comment io _ _ _ _, shows_comment io _ _ _ _, shows_comment io _ _ _ _, trivial⟩ ?_
      refine all2_append (all2_map ?_) ?_
      · intro p hp
        refine ⟨_, _, _, rfl, splitWs_point io _ _ _, parseInt_fmtNat _, ?_⟩
        rw [List.map_map]
        apply List.map_congr_left
        intro x _
        exact io.parse_fmt x
      refine all2_append ⟨shows_comment io _ _ _ _, trivial⟩ ?_
      refine all2_append (all2_map ?_) ?_
      · intro z hz
        have hz' := List.fst_mem_of_mem_zipIdx hz
        exact ⟨_, rfl, zoneLine_ok (hzf _ hz').1 _ _ _ (hzn _ hz')⟩
      refine all2_append ⟨shows_comment io _ _ _ _, trivial⟩ ?_
      refine all2_append (all2_map ?_) ⟨shows_comment io _ _ _ _, shows_comment io _ _ _ _, trivial⟩
      intro kv hkv
      refine ⟨_, _, rfl, ⟨[' '], [' '], [' '], [], '"', '"', ?_, by simp, ?_, by simp, by simp, hn kv hkv, ?_, ?_, ?_, ?_⟩,
        members_ok _ _ _ _ (hm kv hkv)⟩
      · have e1 : "ZGROUP \"".toList = "ZGROUP".toList ++ [' ', '"'] := rfl
        have e2 : "\" SLOT 1".toList = '"' :: ' ' :: ("SLOT".toList ++ ([' '] ++ ("1".toList ++ []))) := rfl
        rw [e1, e2]
        simp only [List.append_assoc, List.cons_append, List.nil_append]
      · intro c hc
        simpa using hc
      all_goals simp only
      · decide
      · decide
      · decide
      · intro hx
        cases hx
  · unfold itemsW
    show InOrder 0 _
    have e1 : (points.zipIdx.map fun p => Item.point ((p.2 + 1 : Nat) : Int) p.1) =
        (points.zipIdx.map fun p => (((p.2 + 1 : Nat) : Int), p.1)).map fun p => Item.point p.1 p.2 := by
      rw [List.map_map]
      rfl
    have e2 : ((zonesOf io d points cells).zipIdx.map fun z =>
        (Item.zone ⟨((z.2 + 1 : Nat) : Int), (at' 0 z.1.2 (flacOrder z.1.1)).map Int.toNat⟩ : Item F)) =
        ((zonesOf io d points cells).zipIdx.map fun z =>
          (⟨((z.2 + 1 : Nat) : Int), (at' 0 z.1.2 (flacOrder z.1.1)).map Int.toNat⟩ : Cell)).map fun c => Item.zone c := by
      rw [List.map_map]
      rfl
    have e3 : (sets.map fun kv => (Item.zgroup ⟨kv.1.toList, "1".toList, (globalMembers cells kv.2).map Int.toNat⟩ : Item F)) =
        (sets.map fun kv => (⟨kv.1.toList, "1".toList, (globalMembers cells kv.2).map Int.toNat⟩ : Group)).map fun g => Item.zgroup g := by
      rw [List.map_map]
      rfl
    rw [e1, e2, e3]
    refine inOrder_points _ 0 _ ?_
    rw [Nat.zero_add, List.length_map, List.length_zipIdx]
    refine inOrder_zones _ _ _ ?_ ?_
    · intro c hc v hv
      obtain ⟨z, hz, rfl⟩ := List.mem_map.1 hc
      obtain ⟨i, hi, rfl⟩ := List.mem_map.1 hv
      have := hzn _ (List.fst_mem_of_mem_zipIdx hz) i hi
      omega
    · refine inOrder_groups _ _ _ (Or.inr ?_) trivial
      decide
  · have : (linesText (textLines io d version ctime points cells sets)).take 8 = "* FLAC3D".toList := by
      unfold textLines
      rfl
    rw [this]
    decide

/-! ## Bytes -/

theorem packU_ok {k : Nat} {z : Int} (h0 : 0 ≤ z) (h1 : z < (256 ^ k : Nat)) : packU k z = .ok (num k z.toNat) := by
  unfold packU num
  rw [if_pos ⟨h0, by omega⟩]

theorem packUs_ok {k : Nat} {l : List Int} (h : ∀ z ∈ l, 0 ≤ z ∧ z < (256 ^ k : Nat)) :
    packUs k l = .ok (l.flatMap fun z => num k z.toNat) := by
  unfold packUs
  rw [mapRes_ok_of_forall (g := fun z => num k z.toNat) fun z hz => packU_ok (h z hz).1 (h z hz).2]
  rfl

theorem packCells_ok (io : FlacIO F) (d : F) (points : List (List F)) (cells : List (String × List (List Int))) (gid : Nat)
    (hz : ∀ z ∈ zonesOf io d points cells, z.1 ∈ kinds ∧ z.2.length = size z.1 ∧ ∀ i ∈ z.2, 0 ≤ i ∧ i < (points.length : Int))
    (hp : points.length < 256 ^ 4) (hn : gid + (cells.map (·.2.length)).sum < 256 ^ 4) :
    packCells gid (zoneBlocks io d points cells) =
      .ok (((zonesOf io d points cells).zipIdx gid).flatMap fun z => num 4 (z.2 + 1) ++ num 4 (size z.1.1) ++
        (at' 0 z.1.2 (flacOrder z.1.1)).flatMap fun i => num 4 (i + 1).toNat) := by
  induction cells generalizing gid with
  | nil => rfl
  | cons b cells ih =>
    have e : zonesOf io d points (b :: cells) = (b.2.map fun r => ((zoneOf b.1).getD "", oriented io.toArith d points ((zoneOf b.1).getD "") r)) ++
        zonesOf io d points cells := by
      unfold zonesOf
      rw [List.flatMap_cons]
    rw [e] at hz ⊢
    rw [List.map_cons, List.sum_cons] at hn
    unfold zoneBlocks
    rw [List.map_cons, packCells]
    simp only
    generalize (zoneOf b.1).getD "" = k at *
    have hb : ∀ r ∈ b.2, k ∈ kinds ∧ (oriented io.toArith d points k r).length = size k ∧
        ∀ i ∈ oriented io.toArith d points k r, 0 ≤ i ∧ i < (points.length : Int) :=
      fun r hr => hz (k, oriented io.toArith d points k r) (List.mem_append.2 (Or.inl (List.mem_map.2 ⟨r, hr, rfl⟩)))
    have hnode : ∀ r ∈ b.2, ∀ i ∈ at' 0 (oriented io.toArith d points k r) (flacOrder k), 0 ≤ i ∧ i < (points.length : Int) := by
      intro r hr i hi
      obtain ⟨h1, h2, h3⟩ := hb r hr
      obtain ⟨-, -, hf, -⟩ := kind_facts _ h1
      obtain ⟨j, hj, rfl⟩ := List.mem_map.1 hi
      have hjl : j < (oriented io.toArith d points k r).length := by rw [h2]; exact hf j hj
      rw [memberIds_get hjl]
      exact h3 _ (List.getElem_mem hjl)
    have hfl : ∀ r ∈ b.2, (at' 0 (oriented io.toArith d points k r) (flacOrder k)).length = size k := by
      intro r hr
      obtain ⟨h1, -, -⟩ := hb r hr
      obtain ⟨-, -, -, -, -, hfl, -⟩ := kind_facts _ h1
      unfold at'
      rw [List.length_map, hfl]
    have hsz : ∀ r ∈ b.2, size k ≤ 8 := by
      intro r hr
      obtain ⟨h1, -, -⟩ := hb r hr
      unfold kinds at h1
      simp only [List.mem_cons, List.mem_nil_iff, or_false] at h1
      rcases h1 with rfl | rfl | rfl | rfl <;> decide
    rw [packUs_ok (by
      intro z hz
      obtain ⟨q, hq, hz⟩ := List.mem_flatMap.1 hz
      obtain ⟨r, i⟩ := q
      have hil := List.snd_lt_of_mem_zipIdx hq
      rw [List.length_map] at hil
      have hr' := List.fst_mem_of_mem_zipIdx hq
      obtain ⟨r, hr, rfl⟩ := List.mem_map.1 hr'
      simp only at hz hil
      rcases List.mem_cons.1 hz with rfl | hz
      · omega
      rcases List.mem_cons.1 hz with rfl | hz
      · have := hfl r hr
        have := hsz r hr
        omega
      · obtain ⟨j, hj, rfl⟩ := List.mem_map.1 hz
        have := hnode r hr j hj
        omega)]
    simp only
    have := ih (gid + b.2.length) (fun z hz' => hz z (List.mem_append.2 (Or.inr hz'))) (by omega)
    unfold zoneBlocks at this
    rw [List.length_map, this]
    simp only
    congr 1
    rw [List.zipIdx_append, List.flatMap_append, List.length_map]
    congr 1
    rw [List.zipIdx_map, List.zipIdx_map, List.flatMap_map, List.flatMap_assoc, List.flatMap_map]
    apply flatMap_congr'
    intro q hq
    have hr := List.fst_mem_of_mem_zipIdx hq
    simp only [Prod.map_fst, Prod.map_snd, id_eq, List.flatMap_cons, List.flatMap_map]
    rw [hfl _ hr]
    simp [List.append_assoc]

theorem ascii_bytes (s : List Char) (h : ∀ c ∈ s, c.toNat < 128) : toChars (toBytes s) = s := by
  unfold toChars toBytes
  rw [List.map_map]
  conv => rhs; rw [← List.map_id s]
  apply List.map_congr_left
  intro c hc
  have := h c hc
  simp only [Function.comp_apply, id_eq]
  rw [show ((Fin.ofNat 256 c.toNat : Byte)).val = c.toNat from Nat.mod_eq_of_lt (by omega)]
  exact Char.ofNat_toNat c

theorem packGroup_of (io : FlacIO F) (kv : String × List Int) (n z d : List Char) (e1 : packU 2 (kv.1.toList.length : Int) = .ok n)
    (e2 : packU 4 (kv.2.length : Int) = .ok z) (e3 : packUs 4 kv.2 = .ok d) : packGroup io kv =
      .ok (n ++ toChars ((io.encode kv.1.toList).take kv.1.toList.length) ++ toChars (natEnc false 2 7) ++ "Default".toList ++ z ++ d) := by
  unfold packGroup
  rw [e1]
  simp only
  rw [e2]
  simp only
  rw [e3]

theorem packGroup_ok (io : FlacIO F) (name : String) (l : List Int) (m : Nat) (hm : m < 256 ^ 4) (h : ∀ i ∈ l, 0 ≤ i ∧ i < (m : Int))
    (h3 : l.length < 256 ^ 4) (h1 : name.toList.length < 256 ^ 2) (h2 : ∀ c ∈ name.toList, c.toNat < 128) :
    packGroup io (name, l.map (· + 1)) = .ok (num 2 name.toList.length ++ name.toList ++ num 2 7 ++ "Default".toList ++
      num 4 l.length ++ l.flatMap fun i => num 4 (i + 1).toNat) := by
  have e1 : packU 2 (name.toList.length : Int) = .ok (num 2 name.toList.length) := packU_ok (by omega) (by omega)
  have e2 : packU 4 ((l.map (· + 1)).length : Int) = .ok (num 4 l.length) := by
    rw [List.length_map]
    exact packU_ok (by omega) (by omega)
  have e3 : packUs 4 (l.map (· + 1)) = .ok (l.flatMap fun i => num 4 (i + 1).toNat) := by
    rw [packUs_ok, List.flatMap_map]
    intro z hz
    obtain ⟨i, hi, rfl⟩ := List.mem_map.1 hz
    have := h i hi
    omega
  have e4 : toChars ((io.encode name.toList).take name.toList.length) = name.toList := by
    rw [io.encode_ascii _ h2, List.take_of_length_le (by rw [toBytes, List.length_map]; omega), ascii_bytes _ h2]
  refine (packGroup_of io (name, l.map (· + 1)) _ _ _ e1 e2 e3).trans ?_
  simp only
  rw [e4]
  rfl

theorem packGroups_ok (io : FlacIO F) (cells : List (String × List (List Int))) (sets : Dict (List (List Int))) (m : Nat) (hm : m < 256 ^ 4)
    (h : ∀ kv ∈ sets, ∀ i ∈ globalMembers cells kv.2, 0 ≤ i ∧ i < (m : Int))
    (hl : ∀ kv ∈ sets, (globalMembers cells kv.2).length < 256 ^ 4) (hs : sets.length < 256 ^ 4)
    (hn : ∀ kv ∈ sets, kv.1.toList.length < 256 ^ 2 ∧ ∀ c ∈ kv.1.toList, c.toNat < 128) :
    packGroups io (sets.map fun kv => (kv.1, (globalMembers cells kv.2).map (· + 1))) =
      .ok (num 4 sets.length ++ sets.flatMap (fun kv => num 2 kv.1.toList.length ++ kv.1.toList ++ num 2 7 ++ "Default".toList ++
    num 4 (globalMembers cells kv.2).length ++ (globalMembers cells kv.2).flatMap fun i => num 4 (i + 1).toNat)) := by
  unfold packGroups
  rw [List.length_map, packU_ok (by omega) (by omega)]
  simp only
  rw [Permas.mapRes_map, mapRes_ok_of_forall (g := fun kv => num 2 kv.1.toList.length ++ kv.1.toList ++ num 2 7 ++ "Default".toList ++
    num 4 (globalMembers cells kv.2).length ++ (globalMembers cells kv.2).flatMap fun i => num 4 (i + 1).toNat) (by
    intro kv hkv
    exact packGroup_ok io kv.1 _ m hm (h kv hkv) (hl kv hkv) (hn kv hkv).1 (hn kv hkv).2)]
  simp only [Int.toNat_natCast, List.flatMap_def]

theorem writeBinary_ok (io : FlacIO F) (d : F) (points : List (List F)) (cells : List (String × List (List Int)))
    (sets : Dict (List (List Int))) (h : MeshOk points cells sets) (hs : SetsOk cells sets) (hb : BinaryOk points cells sets) :
    writeBinary io points cells sets = .ok (binaryBytes io d points cells sets, leftBehind cells sets) := by
  have hp := hb.numPoints
  have hzn := hb.numZones
  unfold writeBinary
  rw [splitFZ_ok points cells sets h]
  simp only
  rw [packU_ok (by omega) (by omega)]
  simp only
  rw [mapRes_ok_of_forall (g := fun p => num 4 (p.2 + 1) ++ p.1.flatMap fun x => toChars (io.bin.enc false 8 x)) (by
    intro p hp'
    have hm : p.1 ∈ points := List.fst_mem_of_mem_zipIdx hp'
    have hi := List.snd_lt_of_mem_zipIdx hp'
    unfold packPoint
    rw [if_pos (h.dims _ hm), packU_ok (by omega) (by omega)]
    simp only [Int.toNat_natCast])]
  simp only
  rw [zoneBlocks_ok io d points cells sets h]
  simp only
  have e : ((zoneBlocks io d points cells).map (·.2.length)).sum = (cells.map (·.2.length)).sum := by
    unfold zoneBlocks
    rw [List.map_map]
    congr 1
    apply List.map_congr_left
    intro b _
    simp
  rw [e, packU_ok (by omega) (by omega)]
  simp only
  rw [packCells_ok io d points cells 0 (zones_facts io d points cells sets h) hp (by omega)]
  simp only
  rw [packGroups_ok io cells sets _ hzn (members_in cells sets hs h.entries)
    (fun kv hkv => by rw [length_members cells kv.2 (h.entries kv hkv)]; exact hb.members kv hkv) hb.numSets hb.names]
  simp only
  have hf : packGroups io [] = .ok (num 4 0) := by
    unfold packGroups
    rw [packU_ok (by decide) (by decide)]
    rfl
  rw [hf]
  simp only
  unfold binaryBytes
  rw [length_zonesOf]
  simp only [num, List.append_assoc, Int.toNat_natCast, List.flatMap_def]

/-- What is written as bytes is a binary file of the grid. -/
theorem binary_gridW (io : FlacIO F) (d : F) (points : List (List F)) (cells : List (String × List (List Int)))
    (sets : Dict (List (List Int))) (h : MeshOk points cells sets) (hs : SetsOk cells sets) (hb : BinaryOk points cells sets) :
    BinaryFile io (gridW io d "Default" points cells sets) (binaryBytes io d points cells sets) := by
  have hzf := zones_facts io d points cells sets h
  have hp : (gridW io d "Default" points cells sets).points.map (·.1) = (List.range points.length).map fun (i : Nat) => ((i + 1 : Nat) : Int) := by
    rw [← map_zipIdx_ids]
    simp only [gridW, List.map_map]
    rfl
  have hz : (gridW io d "Default" points cells sets).zones.map (·.id) =
      (List.range (zonesOf io d points cells).length).map fun (i : Nat) => ((i + 1 : Nat) : Int) := by
    rw [← map_zipIdx_ids]
    simp only [gridW, List.map_map]
    rfl
  have hlz := length_zonesOf io d points cells
  have h1 := hb.numPoints
  have h2 := hb.numZones
  have getD_ids : ∀ {n v : Nat}, v < n → ((List.range n).map fun (i : Nat) => ((i + 1 : Nat) : Int)).getD v 0 = ((v + 1 : Nat) : Int) := by
    intro n v hv
    simp [hv]
  refine ⟨⟨num 4 1375135718 ++ num 4 3, num 4 (zonesOf io d points cells).length ++
      ((zonesOf io d points cells).zipIdx.flatMap (fun z => num 4 (z.2 + 1) ++ num 4 (size z.1.1) ++
        (at' 0 z.1.2 (flacOrder z.1.1)).flatMap fun i => num 4 (i + 1).toNat) ++ (num 4 sets.length ++
      sets.flatMap (fun kv => num 2 kv.1.toList.length ++ kv.1.toList ++ num 2 7 ++ "Default".toList ++
        num 4 (globalMembers cells kv.2).length ++ (globalMembers cells kv.2).flatMap fun i => num 4 (i + 1).toNat))),
    num 4 0 ++ num 4 0, ?_, ?_, ?_, ?_, ?_⟩, ?_, ?_, ?_, ?_⟩
  · rw [List.length_append, length_num, length_num]
  · decide +kernel
  · refine ⟨(zonesOf io d points cells).zipIdx.map (fun z => num 4 (z.2 + 1) ++ num 4 (size z.1.1) ++
        (at' 0 z.1.2 (flacOrder z.1.1)).flatMap fun i => num 4 (i + 1).toNat), ?_, ?_⟩
    · rw [hp]
      refine all2_map ?_
      intro z hz'
      obtain ⟨k1, k2, k3⟩ := hzf _ (List.fst_mem_of_mem_zipIdx hz')
      obtain ⟨-, -, hf, -, -, hfl, -⟩ := kind_facts _ k1
      have hnode : ∀ i ∈ at' 0 z.1.2 (flacOrder z.1.1), 0 ≤ i ∧ i < (points.length : Int) := by
        intro i hi
        obtain ⟨j, hj, rfl⟩ := List.mem_map.1 hi
        have hjl : j < z.1.2.length := by rw [k2]; exact hf j hj
        rw [memberIds_get hjl]
        exact k3 _ (List.getElem_mem hjl)
      have hlen : ((at' 0 z.1.2 (flacOrder z.1.1)).map Int.toNat).length = size z.1.1 := by
        unfold at'
        rw [List.length_map, List.length_map, hfl]
      refine ⟨(at' 0 z.1.2 (flacOrder z.1.1)).map Int.toNat, ?_, ?_, ?_⟩
      · intro v hv
        obtain ⟨i, hi, rfl⟩ := List.mem_map.1 hv
        have := hnode i hi
        simp only [List.length_map, List.length_range]
        omega
      · rw [hlen, List.flatMap_map, List.append_assoc]
        congr 2
        apply flatMap_congr'
        intro i hi
        have := hnode i hi
        rw [getD_ids (by omega)]
        congr 1
        omega
      · rw [if_neg]
        rw [hlen]
        unfold kinds at k1
        simp only [List.mem_cons, List.mem_nil_iff, or_false] at k1
        rcases k1 with e | e | e | e <;> rw [e] <;> decide
    · rw [hz]
      simp only [gridW, List.length_map, List.length_zipIdx, List.flatMap_map, ← List.flatMap_def]
      congr 3
      apply flatMap_congr'
      intro kv hkv
      unfold groupBytes
      simp only [List.length_map, List.flatMap_map, List.append_assoc]
      rw [show "Default".toList.length = 7 from rfl]
      congr 5
      apply flatMap_congr'
      intro i hi
      have := members_in cells sets hs h.entries kv hkv i hi
      rw [getD_ids (by omega)]
      congr 1
      omega
  · exact ⟨[], trivial, rfl⟩
  · unfold binaryBytes
    simp only [gridW, List.length_map, List.length_zipIdx, List.flatMap_map, List.append_assoc]
    rfl
  · intro p hp'
    obtain ⟨q, hq, rfl⟩ := List.mem_map.1 hp'
    have := List.snd_lt_of_mem_zipIdx hq
    refine ⟨h.dims _ (List.fst_mem_of_mem_zipIdx hq), ?_, ?_⟩ <;> simp only <;> omega
  · intro c hc
    rw [show (gridW io d "Default" points cells sets).faces = [] from rfl, List.append_nil] at hc
    obtain ⟨z, hz, rfl⟩ := List.mem_map.1 hc
    have := List.snd_lt_of_mem_zipIdx hz
    simp only
    omega
  · simp only [gridW, List.length_map, List.length_zipIdx, List.length_nil]
    have := hb.numSets
    omega
  · intro s hs'
    rw [show (gridW io d "Default" points cells sets).fgroups = [] from rfl, List.append_nil] at hs'
    obtain ⟨kv, hkv, rfl⟩ := List.mem_map.1 hs'
    have hn := hb.names kv hkv
    simp only [List.length_map]
    rw [length_members cells kv.2 (h.entries kv hkv)]
    refine ⟨hb.members kv hkv, hn.1, by decide, ?_⟩
    intro c hc
    rcases List.mem_append.1 hc with hc | hc
    · exact hn.2 c hc
    · exact (by decide : ∀ c ∈ "Default".toList, c.toNat < 128) c hc

end Flac3d
end Meshio
