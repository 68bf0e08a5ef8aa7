/-
Lemmas for FLAC3D files: writing.
-/
import Verif.Proofs.Flac3dBinary

namespace Meshio
namespace Flac3d
open Types Tables
open Meshio.Spec (groupRuns)
open Meshio.Spec.Flac3d

variable {F : Type}

/-! ## Sets -/

theorem find_zoneOf {t k : String} (h : zoneOf t = some k) : find flacZone t = some k := by
  unfold zoneOf at h
  split at h <;> first | (cases h; rfl) | cases h

theorem zoneOf_none {t : String} (h : zoneOf t = none) : find flacZone t = none := by
  cases hf : find flacZone t with
  | none => rfl
  | some k =>
    have := (by decide +kernel : ∀ kv ∈ flacZone, (zoneOf kv.1).isSome) _ (find_mem hf)
    simp only at this
    rw [h] at this
    cases this

theorem zone_not_face {t : String} (h : (zoneOf t).isSome) : isFace t = false := by
  unfold isFace
  unfold zoneOf at h
  split at h <;> first | rfl | cases h

theorem isZone_of {t : String} (h : (zoneOf t).isSome) : isZone t = true := by
  obtain ⟨k, hk⟩ := Option.isSome_iff_exists.1 h
  unfold isZone
  rw [find_zoneOf hk]
  rfl

theorem setBlocks_some (kind : String → Bool) (cells : List (String × List (List Int))) (cset : List (List Int))
    (h : ∀ b ∈ cells, kind b.1 = true) (hl : cset.length = cells.length) : setBlocks kind cells cset = cset.map some := by
  unfold setBlocks
  induction cells generalizing cset with
  | nil =>
    rw [List.length_nil, List.length_eq_zero_iff] at hl
    subst hl
    rfl
  | cons c cells ih =>
    cases cset with
    | nil => simp at hl
    | cons b cset =>
      rw [List.zipWith_cons_cons, h c (by simp), if_pos rfl, ih cset (fun b hb => h b (by simp [hb])) (by simpa using hl), List.map_cons]

theorem setBlocks_none (kind : String → Bool) (cells : List (String × List (List Int))) (cset : List (List Int))
    (h : ∀ b ∈ cells, kind b.1 = false) : (setBlocks kind cells cset).any Option.isSome = false := by
  unfold setBlocks
  induction cells generalizing cset with
  | nil => rfl
  | cons c cells ih =>
    cases cset with
    | nil => rfl
    | cons b cset =>
      rw [List.zipWith_cons_cons, h c (by simp), if_neg (by simp), List.any_cons, ih cset fun b hb => h b (by simp [hb])]
      rfl

theorem shift_some (gid : Nat) (lens : List Nat) (cset : List (List Int)) (hl : cset.length = lens.length) :
    shift gid lens (cset.map some) =
      .ok ((List.zipWith (fun (se : Nat × Nat) (b : List Int) => b.map fun i => i + (se.1 : Int)) (segsFrom gid lens) cset).map some) := by
  induction lens generalizing gid cset with
  | nil =>
    rw [List.length_nil, List.length_eq_zero_iff] at hl
    subst hl
    rfl
  | cons n lens ih =>
    cases cset with
    | nil => simp at hl
    | cons b cset =>
      rw [List.map_cons, shift, ih (gid + n) cset (by simpa using hl)]
      rfl

theorem joinSet_some (l : List (List Int)) : joinSet (l.map some) = .ok (l.flatten.map (· + 1)) := by
  induction l with
  | nil => rfl
  | cons b l ih =>
    rw [List.map_cons, joinSet, ih]
    simp

theorem filter_zone (cells : List (String × List (List Int))) (h : ∀ b ∈ cells, isZone b.1 = true) :
    cells.filter (fun c => isZone c.1) = cells := List.filter_eq_self.2 fun b hb => h b hb

/-- One entry of a set, counted through all blocks. -/
def entries (cells : List (String × List (List Int))) (set : List (List Int)) : List (List Int) :=
  List.zipWith (fun (se : Nat × Nat) (b : List Int) => b.map fun i => i + (se.1 : Int)) (segsFrom 0 (cells.map (·.2.length))) set

theorem splitFZ_ok (points : List (List F)) (cells : List (String × List (List Int))) (sets : Dict (List (List Int)))
    (h : MeshOk points cells sets) :
    splitFZ cells sets = .ok ((sets.map (fun kv => (kv.1, (globalMembers cells kv.2).map (· + 1))), []), leftBehind cells sets) := by
  have hz : ∀ b ∈ cells, isZone b.1 = true := fun b hb => isZone_of (h.types b hb)
  have hf : ∀ b ∈ cells, isFace b.1 = false := fun b hb => zone_not_face (h.types b hb)
  have h1 : shifted isZone cells sets = .ok (sets.map fun kv => (kv.1, (entries cells kv.2).map some)) := by
    unfold shifted
    rw [filter_zone cells hz, List.filter_eq_self.2 (by
      intro kv hkv
      obtain ⟨kv', hm, rfl⟩ := List.mem_map.1 hkv
      simp only
      have hl := h.entries kv' hm
      rw [setBlocks_some _ _ _ hz hl]
      cases hc : kv'.2 with
      | nil =>
        rw [hc] at hl
        exact absurd (List.length_eq_zero_iff.1 hl.symm) h.blocks
      | cons b bs => simp), Permas.mapRes_map]
    apply mapRes_ok_of_forall
    intro kv hkv
    have hl := h.entries kv hkv
    simp only
    rw [setBlocks_some _ _ _ hz hl, shift_some 0 _ _ (by simpa using hl)]
    rfl
  have h2 : shifted isFace cells sets = .ok [] := by
    unfold shifted
    have : ((sets.map fun kv => (kv.1, setBlocks isFace cells kv.2)).filter fun kv => kv.2.any Option.isSome) = [] := by
      rw [List.filter_eq_nil_iff]
      intro kv hkv
      obtain ⟨kv', hm, rfl⟩ := List.mem_map.1 hkv
      simp only
      rw [setBlocks_none _ _ _ hf]
      simp
    rw [this]
    rfl
  unfold splitFZ
  rw [h1]
  simp only
  rw [h2]
  simp only
  have h3 : joined (sets.map fun kv => (kv.1, (entries cells kv.2).map some)) =
      .ok (sets.map fun kv => (kv.1, (globalMembers cells kv.2).map (· + 1))) := by
    unfold joined
    rw [Permas.mapRes_map]
    apply mapRes_ok_of_forall
    intro kv _
    simp only
    rw [joinSet_some]
    rfl
  rw [h3]
  simp only [show joined [] = .ok [] from rfl]
  congr 2
  unfold leftBehind
  apply List.map_congr_left
  intro kv hkv
  have hg : Dict.get? (sets.map fun kv => (kv.1, (entries cells kv.2).map some)) kv.1 = some ((entries cells kv.2).map some) := by
    apply Dict.get?_of_mem
    · unfold Dict.Ok Dict.keys
      rw [List.map_map]
      exact h.names
    · exact List.mem_map.2 ⟨kv, hkv, rfl⟩
  rw [hg]
  simp only
  congr 1
  rw [List.filterMap_map]
  have : (entries cells kv.2).length = kv.2.length := by
    unfold entries
    rw [List.length_zipWith, length_segsFrom, List.length_map, h.entries kv hkv, Nat.min_self]
  rw [List.length_map, this, List.drop_length, List.append_nil]
  show (entries cells kv.2).filterMap (id ∘ some) = entries cells kv.2
  rw [show (id ∘ (some : List Int → Option (List Int))) = some from rfl, List.filterMap_some]

/-! ## Zones -/

theorem pick_atD {α : Type} (d : α) {row : List α} {p : List Nat} (h : ∀ i ∈ p, i < row.length) : pick row p = .ok (at' d row p) := by
  unfold pick at'
  apply mapRes_ok_of_forall (g := fun i => row.getD i d)
  intro i hi
  have := h i hi
  simp [this]

theorem at'_take {α : Type} (d : α) {row : List α} {p : List Nat} {n : Nat} (h : ∀ i ∈ p, i < n) : at' d (row.take n) p = at' d row p := by
  unfold at'
  apply List.map_congr_left
  intro i hi
  simp [List.getD_eq_getElem?_getD, List.getElem?_take, h i hi]

theorem at'_at' {α : Type} (d : α) (row : List α) (m p : List Nat) (h : ∀ i ∈ p, i < m.length) :
    at' d (at' d row m) p = at' d row (p.map fun i => m.getD i 0) := by
  unfold at'
  rw [List.map_map]
  apply List.map_congr_left
  intro i hi
  have := h i hi
  simp [List.getD_eq_getElem?_getD, List.getElem?_map, this]

/-- The four kinds of zones. -/
def kinds : List String := ["tetra", "pyramid", "wedge", "hexahedron"]

theorem zoneOf_kind {t k : String} (h : zoneOf t = some k) : k ∈ kinds := by
  unfold zoneOf at h
  split at h <;> first | (cases h; decide) | cases h

/-- The tables of a kind. -/
theorem kind_facts (k : String) (hk : k ∈ kinds) :
    find meshioToFlacOrder k = some (flacOrder k) ∧ find meshioToFlacOrder2 k = some ((flacOrder k).map fun i => (mirror k).getD i 0) ∧
    (∀ i ∈ flacOrder k, i < size k) ∧ (∀ i ∈ mirror k, i < size k) ∧ (mirror k).length = size k ∧ (flacOrder k).length = size k ∧
    find meshioToFlac k = some (word k) ∧ 4 ≤ size k ∧
    (zoneKind (size k)).isSome ∧ zoneType (size k) = k ∧
    (((zoneKind (size k)).getD ("", [])).2.map fun i => (flacOrder k).getD i 0) = List.range (size k) ∧
    (∀ i ∈ ((zoneKind (size k)).getD ("", [])).2, i < size k) := by
  unfold kinds at hk
  simp only [List.mem_cons, List.mem_nil_iff, or_false] at hk
  rcases hk with rfl | rfl | rfl | rfl <;> decide +kernel

theorem detPos_ok (io : FlacIO F) (d : F) (p0 p1 p2 p3 : List F) (h0 : p0.length = 3) (h1 : p1.length = 3) (h2 : p2.length = 3)
    (h3 : p3.length = 3) : detPos io [p0, p1, p2, p3] = .ok (io.pos (triple io.toArith p0 p1 p2 p3 d)) := by
  match p0, h0, p1, h1, p2, h2, p3, h3 with
  | [_, _, _], _, [_, _, _], _, [_, _, _], _, [_, _, _], _ => rfl

theorem npIndex_getD {points : List (List F)} {i : Int} (h0 : 0 ≤ i) (h1 : i < (points.length : Int)) :
    npIndex points i = .ok (points.getD i.toNat []) := by
  unfold npIndex
  rw [if_pos h0]
  have : i.toNat < points.length := by omega
  simp [this]

theorem zoneRow_ok (io : FlacIO F) (d : F) (points : List (List F)) (hp : ∀ p ∈ points, p.length = 3) (k : String) (hk : k ∈ kinds)
    (row : List Int) (hl : size k ≤ row.length) (hr : ∀ i ∈ row, 0 ≤ i ∧ i < (points.length : Int)) :
    zoneRow io points (flacOrder k) ((flacOrder k).map fun i => (mirror k).getD i 0) row =
      .ok (at' 0 (oriented io.toArith d points k row) (flacOrder k)) := by
  obtain ⟨-, -, hf, hm, hml, hfl, -, h4, -⟩ := kind_facts k hk
  have hlt : ∀ i ∈ flacOrder k, i < row.length := fun i hi => Nat.lt_of_lt_of_le (hf i hi) hl
  unfold zoneRow
  rw [pick_atD 0 (fun i hi => hlt i (List.mem_of_mem_take hi))]
  simp only
  have hrow : ∀ i < row.length, 0 ≤ row.getD i 0 ∧ row.getD i 0 < (points.length : Int) := by
    intro i hi
    rw [memberIds_get hi]
    exact hr _ (List.getElem_mem _)
  have hfour : at' 0 row ((flacOrder k).take 4) = [row.getD ((flacOrder k).getD 0 0) 0, row.getD ((flacOrder k).getD 1 0) 0,
      row.getD ((flacOrder k).getD 2 0) 0, row.getD ((flacOrder k).getD 3 0) 0] := by
    unfold kinds at hk
    simp only [List.mem_cons, List.mem_nil_iff, or_false] at hk
    rcases hk with rfl | rfl | rfl | rfl <;> rfl
  have hidx : ∀ j < 4, (flacOrder k).getD j 0 < row.length := by
    intro j hj
    have : j < (flacOrder k).length := by omega
    have hm := List.getElem_mem this
    have := hlt _ hm
    simpa [List.getD_eq_getElem?_getD, ‹j < (flacOrder k).length›] using this
  have hin : ∀ j < 4, 0 ≤ row.getD ((flacOrder k).getD j 0) 0 ∧ row.getD ((flacOrder k).getD j 0) 0 < (points.length : Int) :=
    fun j hj => hrow _ (hidx j hj)
  have hdim : ∀ j < 4, (points.getD (row.getD ((flacOrder k).getD j 0) 0).toNat []).length = 3 := by
    intro j hj
    have := hin j hj
    have hlt : (row.getD ((flacOrder k).getD j 0) 0).toNat < points.length := by omega
    generalize (row.getD ((flacOrder k).getD j 0) 0).toNat = m at hlt
    have e : points.getD m [] = points[m] := by simp [hlt]
    rw [e]
    exact hp _ (List.getElem_mem _)
  rw [hfour, mapRes_ok_of_forall (g := fun i => points.getD i.toNat []) (by
    intro i hi
    simp only [List.mem_cons, List.mem_nil_iff, or_false] at hi
    rcases hi with rfl | rfl | rfl | rfl
    · exact npIndex_getD (hin 0 (by omega)).1 (hin 0 (by omega)).2
    · exact npIndex_getD (hin 1 (by omega)).1 (hin 1 (by omega)).2
    · exact npIndex_getD (hin 2 (by omega)).1 (hin 2 (by omega)).2
    · exact npIndex_getD (hin 3 (by omega)).1 (hin 3 (by omega)).2)]
  simp only [List.map_cons, List.map_nil]
  rw [detPos_ok io d _ _ _ _ (hdim 0 (by omega)) (hdim 1 (by omega)) (hdim 2 (by omega)) (hdim 3 (by omega))]
  simp only
  have hpos : io.pos (triple io.toArith (points.getD (row.getD ((flacOrder k).getD 0 0) 0).toNat [])
      (points.getD (row.getD ((flacOrder k).getD 1 0) 0).toNat []) (points.getD (row.getD ((flacOrder k).getD 2 0) 0).toNat [])
      (points.getD (row.getD ((flacOrder k).getD 3 0) 0).toNat []) d) = positive io.toArith d points k row := rfl
  rw [hpos]
  unfold oriented
  by_cases hb : positive io.toArith d points k row = true
  · rw [hb, if_pos rfl, if_pos rfl, at'_take 0 hf]
    exact pick_atD 0 hlt
  · rw [if_neg hb, if_neg hb, at'_at' 0 _ _ _ (by rw [hml]; exact hf), at'_take 0 (by
      intro i hi
      obtain ⟨j, hj, rfl⟩ := List.mem_map.1 hi
      have hjl : j < (mirror k).length := by rw [hml]; exact hf j hj
      have : (mirror k).getD j 0 = (mirror k)[j] := by simp [hjl]
      rw [this]
      exact hm _ (List.getElem_mem _))]
    apply pick_atD
    intro i hi
    obtain ⟨j, hj, rfl⟩ := List.mem_map.1 hi
    have hjl : j < (mirror k).length := by rw [hml]; exact hf j hj
    have : (mirror k).getD j 0 = (mirror k)[j] := by simp [hjl]
    rw [this]
    exact Nat.lt_of_lt_of_le (hm _ (List.getElem_mem _)) hl

theorem length_oriented (io : FlacIO F) (d : F) (points : List (List F)) (k : String) (hk : k ∈ kinds) (row : List Int)
    (hl : size k ≤ row.length) : (oriented io.toArith d points k row).length = size k := by
  obtain ⟨-, -, -, -, hml, -⟩ := kind_facts k hk
  unfold oriented
  split
  · rw [List.length_take]
    omega
  · unfold at'
    rw [List.length_map, hml]

theorem mem_oriented (io : FlacIO F) (d : F) (points : List (List F)) (k : String) (hk : k ∈ kinds) (row : List Int)
    (hl : size k ≤ row.length) : ∀ i ∈ oriented io.toArith d points k row, i ∈ row := by
  obtain ⟨-, -, -, hm, -, -⟩ := kind_facts k hk
  intro i hi
  unfold oriented at hi
  split at hi
  · exact List.mem_of_mem_take hi
  · rw [at'_take 0 hm] at hi
    unfold at' at hi
    obtain ⟨j, hj, rfl⟩ := List.mem_map.1 hi
    have : j < row.length := Nat.lt_of_lt_of_le (hm j hj) hl
    rw [memberIds_get this]
    exact List.getElem_mem _

/-- The blocks of zones in FLAC3D's order. -/
def zoneBlocks (io : FlacIO F) (d : F) (points : List (List F)) (cells : List (String × List (List Int))) : List (String × List (List Int)) :=
  cells.map fun b => ((zoneOf b.1).getD "", b.2.map fun r =>
    at' 0 (oriented io.toArith d points ((zoneOf b.1).getD "") r) (flacOrder ((zoneOf b.1).getD "")))

theorem zoneBlocks_ok (io : FlacIO F) (d : F) (points : List (List F)) (cells : List (String × List (List Int)))
    (sets : Dict (List (List Int))) (h : MeshOk points cells sets) :
    mapRes (zoneBlock io points) cells = .ok (zoneBlocks io d points cells) := by
  apply mapRes_ok_of_forall
  intro b hb
  obtain ⟨k, hk⟩ := Option.isSome_iff_exists.1 (h.types b hb)
  have hkk := zoneOf_kind hk
  obtain ⟨h1, h2, -⟩ := kind_facts k hkk
  unfold zoneBlock
  rw [find_zoneOf hk]
  simp only
  rw [h1, h2]
  simp only
  rw [hk]
  simp only [Option.getD_some]
  rw [mapRes_ok_of_forall (g := fun r => at' 0 (oriented io.toArith d points k r) (flacOrder k))]
  intro r hr
  have := h.nodes b hb r hr
  rw [hk] at this
  exact zoneRow_ok io d points h.dims k hkk r this.1 this.2

theorem mapRes_error {α β : Type} {f : α → Res β} {l : List α} {a : α} (h : a ∈ l) {e : Err} (he : f a = .error e) :
    ∃ e, mapRes f l = .error e := by
  induction l with
  | nil => cases h
  | cons b l ih =>
    unfold mapRes
    cases hb : f b with
    | error e => exact ⟨e, rfl⟩
    | ok x =>
      simp only
      rcases List.mem_cons.1 h with rfl | h
      · rw [hb] at he
        cases he
      · obtain ⟨e, he⟩ := ih h
        rw [he]
        exact ⟨e, rfl⟩

/-- A block that is not of zones is refused. -/
theorem zoneBlocks_error (io : FlacIO F) (points : List (List F)) (cells : List (String × List (List Int)))
    (h : ∃ b ∈ cells, zoneOf b.1 = none) : ∃ e, mapRes (zoneBlock io points) cells = .error e := by
  obtain ⟨b, hb, hn⟩ := h
  refine mapRes_error hb (e := .assertionError) ?_
  unfold zoneBlock
  rw [zoneOf_none hn]

theorem cellLines_ok (io : FlacIO F) (d : F) (points : List (List F)) (cells : List (String × List (List Int)))
    (h : ∀ b ∈ cells, (zoneOf b.1).isSome) (gid : Nat) :
    cellLines 'Z' gid (zoneBlocks io d points cells) = .ok (((zonesOf io d points cells).zipIdx gid).map fun z =>
      joinWith ' ' ("Z".toList :: (word z.1.1).toList :: fmtNat (z.2 + 1) :: (at' 0 z.1.2 (flacOrder z.1.1)).map fun i => fmtInt (i + 1))) := by
  induction cells generalizing gid with
  | nil => rfl
  | cons b cells ih =>
    obtain ⟨k, hk⟩ := Option.isSome_iff_exists.1 (h b (by simp))
    obtain ⟨-, -, -, -, -, -, hw, -⟩ := kind_facts k (zoneOf_kind hk)
    unfold zoneBlocks
    rw [List.map_cons, cellLines]
    simp only
    rw [hk]
    simp only [Option.getD_some]
    rw [hw]
    simp only
    have := ih (fun b hb => h b (by simp [hb])) (gid + b.2.length)
    unfold zoneBlocks at this
    rw [List.length_map, this]
    simp only
    congr 1
    have e : zonesOf io d points (b :: cells) = (b.2.map fun r => (k, oriented io.toArith d points k r)) ++ zonesOf io d points cells := by
      unfold zonesOf
      rw [List.flatMap_cons, hk]
      rfl
    rw [e, List.zipIdx_append, List.map_append, List.length_map]
    congr 1
    rw [List.zipIdx_map, List.zipIdx_map, List.map_map, List.map_map]
    apply List.map_congr_left
    intro q _
    rfl

/-! ## Tables -/

theorem rows20_map {α β : Type} (f : α → β) (n : Nat) (l : List α) : rows20 n (l.map f) = (rows20 n l).map (List.map f) := by
  induction n generalizing l with
  | zero => rfl
  | succ n ih =>
    cases l with
    | nil => rfl
    | cons a l =>
      rw [List.map_cons, rows20, rows20, ← List.map_cons, ← List.map_take, ← List.map_drop, ih]
      rfl

theorem filter_rows (k r n : Nat) (l : List Int) (hl : l.length = k * 20 + r) (hr : r < 20) (hn : l.length ≤ n) :
    (splitLens (List.replicate k 20 ++ [r]) l).filter (fun r => r.length ≠ 0) = rows20 n l := by
  induction k generalizing l n with
  | zero =>
    simp only [List.replicate_zero, List.nil_append, splitLens]
    have hl : l.length = r := by omega
    rw [List.take_of_length_le (by omega)]
    cases n with
    | zero =>
      have : l = [] := List.length_eq_zero_iff.1 (by omega)
      subst this
      rfl
    | succ n =>
      cases l with
      | nil => rfl
      | cons a l =>
        rw [rows20, List.take_of_length_le (by omega), List.drop_eq_nil_of_le (by omega)]
        cases n <;> simp [rows20]
  | succ k ih =>
    cases l with
    | nil =>
      simp at hl
      omega
    | cons a l =>
      cases n with
      | zero => simp at hn
      | succ n =>
        rw [List.replicate_succ, List.cons_append, splitLens, rows20, List.filter_cons_of_pos (by simp),
          ih n ((a :: l).drop 20) (by rw [List.length_drop]; omega) (by rw [List.length_drop]; omega)]

theorem tableRows_ok (l : List Int) (n : Nat) (hn : l.length ≤ n) : (tableRows l).filter (fun r => r.length ≠ 0) = rows20 n l := by
  have h1 := Xdmf.cellDataFromRaw_splitLens (List.replicate (l.length / 20) 20 ++ [l.length % 20]) l (by simp) (by
    rw [List.sum_append, List.sum_replicate_nat]
    simp only [List.sum_cons, List.sum_nil]
    omega)
  have h2 : tableRows l = cellDataFromRaw (List.replicate (l.length / 20) 20 ++ [l.length % 20]) l := by
    unfold tableRows cellDataFromRaw
    congr 1
    have := cumsumFrom_dropLast 0 (List.replicate (l.length / 20) 20 ++ [l.length % 20])
    rw [List.dropLast_concat] at this
    exact this
  rw [h2, h1]
  exact filter_rows _ _ _ l (by omega) (Nat.mod_lt _ (by decide)) hn

theorem tableLines_ok (l : List Int) : tableLines (l.map (· + 1)) =
    (rows20 l.length l).map fun r => ' ' :: joinWith ' ' (r.map fun i => fmtInt (i + 1)) := by
  unfold tableLines
  rw [tableRows_ok _ l.length (by simp), rows20_map, List.map_map]
  apply List.map_congr_left
  intro r _
  simp only [Function.comp_apply, List.map_map]
  rfl

theorem writeAscii_ok (io : FlacIO F) (d : F) (version ctime : List Char) (points : List (List F)) (cells : List (String × List (List Int)))
    (sets : Dict (List (List Int))) (h : MeshOk points cells sets) :
    writeAscii io version ctime points cells sets =
      .ok (linesText (textLines io d version ctime points cells sets), leftBehind cells sets) := by
  unfold writeAscii
  rw [splitFZ_ok points cells sets h]
  simp only
  rw [mapRes_ok_of_forall (g := fun p => joinWith '\t' ("G".toList :: pad8 (fmtNat (p.2 + 1)) :: p.1.map io.fmt)) (by
    intro p hp
    have hm : p.1 ∈ points := List.fst_mem_of_mem_zipIdx hp
    have hl := h.dims _ hm
    obtain ⟨x, i⟩ := p
    match x, hl with
    | [x, y, z], _ => rfl)]
  simp only
  rw [zoneBlocks_ok io d points cells sets h]
  simp only
  rw [cellLines_ok io d points cells h.types 0]
  simp only
  congr 3
  unfold textLines
  have hg : groupLines "ZGROUP".toList (sets.map fun kv => (kv.1, (globalMembers cells kv.2).map (· + 1))) =
      sets.flatMap (fun kv => ("ZGROUP \"".toList ++ kv.1.toList ++ "\" SLOT 1".toList) ::
        (rows20 (globalMembers cells kv.2).length (globalMembers cells kv.2)).map fun r =>
          ' ' :: joinWith ' ' (r.map fun i => fmtInt (i + 1))) := by
    unfold groupLines
    rw [List.flatMap_map]
    apply flatMap_congr'
    intro kv _
    simp only
    rw [tableLines_ok]
    congr 1
  rw [hg]
  have e3 : groupLines "FGROUP".toList [] = [] := rfl
  have e4 : "* ".toList ++ ctime = '*' :: ' ' :: ctime := rfl
  rw [e3, e4]
  simp only [pad8, List.append_assoc, List.append_nil, List.cons_append, List.nil_append]

end Flac3d
end Meshio
