/-
C26: the Neuroglancer precomputed mesh format.
-/
import Verif.Model.Neuroglancer
namespace Meshio.Props
open Meshio

variable {F : Type}

/-- The triangles of a mesh, in order. -/
def triangleRows (cells : List (String × List (List Int))) : List (List Int) :=
  (cells.filter (fun c => c.1 == "triangle")).flatMap (·.2)

/-- The layout of the file: number of vertices, coordinates, vertex numbers, all
little-endian in four bytes. -/
theorem C26_file (fio : ByteIO 4 F) (points : List (List F)) (cells : List (String × List (List Int)))
    (hn : points.length < 2 ^ 32) :
    Neuroglancer.write fio points cells =
      .ok (natEnc false 4 points.length ++ (points.flatten.flatMap fio.enc ++
        (triangleRows cells).flatten.flatMap (fun i => natEnc false 4 (i % (2 ^ 32 : Int)).toNat))) := by
  unfold Neuroglancer.write
  rw [if_pos (by omega)]
  congr 3
  unfold triangleRows
  induction cells.filter (fun c => c.1 == "triangle") with
  | nil => rfl
  | cons c l ih =>
    simp only [List.flatMap_cons, List.flatten_append, List.flatMap_append, ih]
    rfl

/-- Meaning of a file: exactly which byte strings are read, and what is read from them.
(`n` vertices at 12 bytes, `t` triangles at 12 bytes.) -/
theorem C26_reads (fio : ByteIO 4 F) (n t : Nat) (hn : n < 2 ^ 32) (P : List (List Byte)) (T : List (List Int))
    (hP : P.length = 3 * n) (hPl : ∀ b ∈ P, b.length = 4)
    (hT : T.length = t) (hTl : ∀ r ∈ T, r.length = 3)
    (hTr : ∀ r ∈ T, ∀ i ∈ r, 0 ≤ i ∧ i < 2 ^ 32) :
    Neuroglancer.read fio (natEnc false 4 n ++ (P.flatten ++ T.flatten.flatMap (fun i => natEnc false 4 i.toNat))) =
      if ∃ r ∈ T, ∃ i ∈ r, i > (n : Int) then .error .readError
      else .ok (rowsN 3 n (P.map fio.dec), T) := by
  have hl1 : (natEnc false 4 n).length = 4 := length_natEnc _ _ _
  have hPf : P.flatten = P.flatMap id := by simp [List.flatMap]
  have hl2 : P.flatten.length = 4 * 3 * n := by
    rw [length_flatten_const 4 P hPl, hP]; omega
  have hTf : T.flatten.length = t * 3 := by rw [length_flatten_const 3 T hTl, hT]
  have hl3 : (T.flatten.flatMap (fun i => natEnc false 4 i.toNat)).length = t * 3 * 4 := by
    rw [length_flatMap_const 4 _ _ (fun _ _ => length_natEnc _ _ _), hTf]
  unfold Neuroglancer.read
  have ht : (natEnc false 4 n ++ (P.flatten ++ T.flatten.flatMap (fun i => natEnc false 4 i.toNat))).take 4 =
      natEnc false 4 n := by rw [List.take_left' hl1]
  have hd : (natEnc false 4 n ++ (P.flatten ++ T.flatten.flatMap (fun i => natEnc false 4 i.toNat))).drop 4 =
      P.flatten ++ T.flatten.flatMap (fun i => natEnc false 4 i.toNat) := by rw [List.drop_left' hl1]
  have hd2 : (natEnc false 4 n ++ (P.flatten ++ T.flatten.flatMap (fun i => natEnc false 4 i.toNat))).drop (4 + 4 * 3 * n) =
      T.flatten.flatMap (fun i => natEnc false 4 i.toNat) := by
    rw [← List.drop_drop, hd, List.drop_left' hl2]
  rw [ht, hl1, if_neg (by omega), hd, natDec_natEnc _ _ _ (by omega)]
  dsimp only
  rw [hd2, List.take_left' hl2, hl2, if_neg (by omega), hl3, if_neg (by omega)]
  have h1 : items 4 (3 * n) P.flatten = P := by
    have := items_flatMap' 4 id P hPl
    rw [hP] at this
    rw [hPf, this]; simp
  have h2 : items 4 (t * 3 * 4 / 4) (T.flatten.flatMap (fun i => natEnc false 4 i.toNat)) =
      T.flatten.map (fun i => natEnc false 4 i.toNat) := by
    rw [show t * 3 * 4 / 4 = T.flatten.length by omega]
    exact items_flatMap' 4 _ _ (fun _ _ => length_natEnc _ _ _)
  have h3 : (T.flatten.map (fun i => natEnc false 4 i.toNat)).map (fun b => (natDec false b : Int)) = T.flatten := by
    rw [List.map_map]
    conv => rhs; rw [← List.map_id T.flatten]
    apply List.map_congr_left
    intro i hi
    obtain ⟨r, hr, hir⟩ := List.mem_flatten.mp hi
    obtain ⟨h0, h1⟩ := hTr r hr i hir
    simp only [Function.comp, id]
    rw [natDec_natEnc _ _ _ (by omega)]
    omega
  rw [h1, h2, h3, show t * 3 * 4 / 12 = t by omega]
  have h4 : rowsN 3 t T.flatten = T := by
    rw [← hT]
    simpa using rowsN_flatten 3 T hTl []
  rw [h4]
  by_cases hx : ∃ r ∈ T, ∃ i ∈ r, i > (n : Int)
  · rw [if_pos hx, if_pos]
    obtain ⟨r, hr, i, hi, h⟩ := hx
    simp only [List.any_eq_true, decide_eq_true_eq]
    exact ⟨r, hr, i, hi, h⟩
  · rw [if_neg hx, if_neg]
    intro h
    simp only [List.any_eq_true, decide_eq_true_eq] at h
    obtain ⟨r, hr, i, hi, h⟩ := h
    exact hx ⟨r, hr, i, hi, h⟩

/-- Writing and reading 3D points and valid triangles gives them back. -/
theorem C26_roundtrip (fio : ByteIO 4 F) (points : List (List F)) (cells : List (String × List (List Int)))
    (hn : points.length < 2 ^ 32) (hp : ∀ p ∈ points, p.length = 3)
    (hw : ∀ r ∈ triangleRows cells, r.length = 3)
    (hr : ∀ r ∈ triangleRows cells, ∀ i ∈ r, 0 ≤ i ∧ i < points.length) :
    ∃ s, Neuroglancer.write fio points cells = .ok s ∧
      Neuroglancer.read fio s = .ok (points, triangleRows cells) := by
  refine ⟨_, C26_file fio points cells hn, ?_⟩
  have e : (triangleRows cells).flatten.flatMap (fun i => natEnc false 4 (i % (2 ^ 32 : Int)).toNat) =
      (triangleRows cells).flatten.flatMap (fun i => natEnc false 4 i.toNat) := by
    apply flatMap_congr'
    intro i hi
    obtain ⟨r, hr', hir⟩ := List.mem_flatten.mp hi
    obtain ⟨h0, h1⟩ := hr r hr' i hir
    rw [Int.emod_eq_of_lt h0 (by omega)]
  have hf := length_flatten_const 3 points hp
  have := C26_reads fio points.length (triangleRows cells).length hn (points.flatten.map fio.enc)
    (triangleRows cells) (by rw [List.length_map, hf]; omega)
    (by intro b hb; obtain ⟨x, _, rfl⟩ := List.mem_map.mp hb; exact fio.len x) rfl hw
    (fun r h i hi => by have := hr r h i hi; omega)
  rw [e]
  rw [show points.flatten.flatMap fio.enc = (points.flatten.map fio.enc).flatten from rfl]
  rw [this, if_neg]
  · have h3 : (points.flatten.map fio.enc).map fio.dec = points.flatten := by
      rw [List.map_map]
      conv => rhs; rw [← List.map_id points.flatten]
      apply List.map_congr_left
      intro x _
      exact fio.dec_enc x
    have h4 := rowsN_flatten 3 points hp []
    rw [List.append_nil] at h4
    rw [h3, h4]
  · rintro ⟨r, h, i, hi, hgt⟩
    have := hr r h i hi
    omega

/-- A file whose size does not fit the number of vertices, or leaves a fraction of a
triangle, is refused with ReadError. -/
theorem C26_size (fio : ByteIO 4 F) (n : Nat) (hn : n < 2 ^ 32) (rest : List Byte)
    (h : rest.length < 12 * n ∨ rest.length % 12 ≠ 0) :
    Neuroglancer.read fio (natEnc false 4 n ++ rest) = .error .readError := by
  have hl1 : (natEnc false 4 n).length = 4 := length_natEnc _ _ _
  unfold Neuroglancer.read
  rw [List.take_left' hl1, hl1, if_neg (by omega), natDec_natEnc _ _ _ (by omega)]
  dsimp only
  rw [List.drop_left' hl1, ← List.drop_drop, List.drop_left' hl1, List.length_take, List.length_drop]
  by_cases h1 : rest.length < 12 * n
  · rw [if_pos (by omega)]
  · rw [if_neg (by omega), if_pos (by omega)]

/-- Everything that is read has `n` vertices with 3 coordinates and triangles with 3 nodes
no greater than `n`. -/
theorem C26_accepted (fio : ByteIO 4 F) (s : List Byte) (P : List (List F)) (T : List (List Int))
    (h : Neuroglancer.read fio s = .ok (P, T)) :
    s.length = 4 + 12 * P.length + 12 * T.length ∧ P.length = natDec false (s.take 4) ∧
      (∀ p ∈ P, p.length = 3) ∧ (∀ r ∈ T, r.length = 3) ∧
      ∀ r ∈ T, ∀ i ∈ r, 0 ≤ i ∧ i ≤ P.length := by
  unfold Neuroglancer.read at h
  split at h
  · cases h
  next h0 =>
  dsimp only at h
  split at h
  · cases h
  next h1 =>
  split at h
  · cases h
  next h2 =>
  split at h
  · cases h
  next h3 =>
  injection h with h
  injection h with hP hT
  simp only [List.length_take, List.length_drop, ne_eq, Decidable.not_not] at h0 h1 h2
  generalize natDec false (s.take 4) = n at *
  have lP : P.length = n := by rw [← hP, length_rowsN]
  have lT : T.length = (s.length - (4 + 4 * 3 * n)) / 12 := by
    rw [← hT, length_rowsN, List.length_drop]
  refine ⟨by omega, lP, ?_, ?_, ?_⟩
  · rw [← hP]
    apply rowsN_widths
    rw [List.length_map, length_items]; omega
  · rw [← hT]
    apply rowsN_widths
    rw [List.length_map, length_items, List.length_drop]; omega
  · intro r hr i hi
    simp only [List.any_eq_true, decide_eq_true_eq, not_exists, not_and] at h3
    rw [hT] at h3
    refine ⟨?_, by have := h3 r hr i hi; omega⟩
    have hm : i ∈ T.flatten := List.mem_flatten.mpr ⟨r, hr, hi⟩
    rw [← hT, flatten_rowsN _ _ _ (by rw [List.length_map, length_items, List.length_drop]; omega)] at hm
    obtain ⟨b, _, rfl⟩ := List.mem_map.mp hm
    omega

/-- Claim: a triangle with a vertex number that does not exist is refused. -/
def C26_missing_statement : Prop :=
  ∀ (s : List Byte) P T, Neuroglancer.read (ByteIO.word 4) s = .ok (P, T) →
    ∀ r ∈ T, ∀ i ∈ r, i < P.length

/-- False: the number of vertices itself is accepted as vertex number. -/
theorem C26_missing_false : ¬ C26_missing_statement := by
  intro h
  have := C26_reads (ByteIO.word 4) 0 1 (by decide) [] [[0, 0, 0]] rfl (by simp) rfl (by simp)
    (by simp)
  rw [if_neg (by simp)] at this
  have := h _ _ _ this [0, 0, 0] (by simp) 0 (by simp)
  simp [rowsN] at this

/-- Proved part: numbers greater than the number of vertices are refused. -/
theorem C26_missing_partial (fio : ByteIO 4 F) (n t : Nat) (hn : n < 2 ^ 32) (P : List (List Byte))
    (T : List (List Int)) (hP : P.length = 3 * n) (hPl : ∀ b ∈ P, b.length = 4)
    (hT : T.length = t) (hTl : ∀ r ∈ T, r.length = 3)
    (hTr : ∀ r ∈ T, ∀ i ∈ r, 0 ≤ i ∧ i < 2 ^ 32) (hx : ∃ r ∈ T, ∃ i ∈ r, i > (n : Int)) :
    Neuroglancer.read fio (natEnc false 4 n ++ (P.flatten ++ T.flatten.flatMap (fun i => natEnc false 4 i.toNat))) =
      .error .readError := by
  rw [C26_reads fio n t hn P T hP hPl hT hTl hTr, if_pos hx]

/-- Points in the plane are written without complaint, but the file means something else:
a triangle with three plane vertices is read as three points and no triangle. -/
theorem C26_plane_false :
    ∃ (points : List (List (Fin (256 ^ 4)))) (s : List Byte) (P : List (List (Fin (256 ^ 4)))),
      Neuroglancer.write (ByteIO.word 4) points [("triangle", [[0, 1, 2]])] = .ok s ∧
      Neuroglancer.read (ByteIO.word 4) s = .ok (P, []) :=
  ⟨[[0, 0], [1, 0], [0, 1]], _, _, rfl, rfl⟩

/-- Non-trivial instance of the round trip. -/
example : ∃ s, Neuroglancer.write (ByteIO.word 4) [[0, 0, 0], [1, 0, 0], [0, 1, 0], [7, 7, 7]]
      [("triangle", [[0, 1, 2]]), ("line", [[0, 1]]), ("triangle", [[1, 2, 3]])] = .ok s ∧
    Neuroglancer.read (ByteIO.word 4) s =
      .ok ([[0, 0, 0], [1, 0, 0], [0, 1, 0], [7, 7, 7]], [[0, 1, 2], [1, 2, 3]]) :=
  C26_roundtrip (ByteIO.word 4) _ _ (by decide) (by decide) (by decide) (by decide)

/-- More points than a 32-bit count can hold are not written. -/
theorem C26_count_limit (fio : ByteIO 4 F) (points : List (List F)) (cells : List (String × List (List Int)))
    (h : 4294967296 ≤ points.length) : Neuroglancer.write fio points cells = .error .structError := by
  unfold Neuroglancer.write
  rw [if_neg]
  simp only [Nat.reducePow]
  omega

end Meshio.Props
