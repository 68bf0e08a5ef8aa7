/-
C24: the OFF format.
-/
import Verif.Model.Off
import Verif.Props.MeshViews
namespace Meshio.Props
open Meshio

variable {F R : Type}

/-- The triangles of a mesh, in order, over all triangle blocks. -/
def triangles (m : Mesh (List F) R) : List (List Int) :=
  (m.cells.filter (fun c => c.type == "triangle")).flatMap (·.data.rows)

/-- Every triangle block is an array of three columns. -/
def TriOk (m : Mesh (List F) R) : Prop :=
  ∀ c ∈ m.cells, c.type = "triangle" → c.data.tail = [3] ∧ ∀ r ∈ c.data.rows, r.length = 3

theorem getCellsType_triangle (m : Mesh (List F) R) (h : TriOk m) :
    ∃ a, m.getCellsType "triangle" = .ok a ∧ a.rows = triangles m := by
  unfold Mesh.getCellsType triangles
  split
  · next hn =>
    refine ⟨⟨[3], []⟩, rfl, ?_⟩
    have : m.cells.filter (fun c => c.type == "triangle") = [] := by
      rw [List.filter_eq_nil_iff]
      intro c hc
      have : m.cells.any (fun c => c.type == "triangle") = false := by simpa using hn
      rw [List.any_eq_false] at this
      exact this c hc
    rw [this]; rfl
  · next hn =>
    cases hf : m.cells.filter (fun c => c.type == "triangle") with
    | nil =>
      exfalso
      apply hn
      rw [List.filter_eq_nil_iff] at hf
      simpa using hf
    | cons c cs =>
      have hall : ∀ x ∈ c :: cs, x.data.tail = [3] := by
        intro x hx
        rw [← hf] at hx
        obtain ⟨h1, h2⟩ := List.mem_filter.mp hx
        exact (h x h1 (by simpa using h2)).1
      simp only [List.map_cons, npConcat]
      rw [if_pos]
      · refine ⟨_, rfl, ?_⟩
        simp [List.flatMap]
        rfl
      · rw [List.all_eq_true]
        intro b hb
        obtain ⟨x, hx, rfl⟩ := List.mem_map.mp hb
        simp [hall x (by simp [hx]), hall c (by simp)]

theorem triangles_width (m : Mesh (List F) R) (h : TriOk m) : ∀ r ∈ triangles m, r.length = 3 := by
  intro r hr
  obtain ⟨c, hc, hr⟩ := List.mem_flatMap.mp hr
  obtain ⟨h1, h2⟩ := List.mem_filter.mp hc
  exact (h c h1 (by simpa using h2)).2 r hr

/-- The tokens of the written file, as the format prescribes them: the word OFF, a comment,
three counts, the coordinates, and each triangle preceded by the number 3. -/
def offTokens (fio : FloatIO F) (points : List (List F)) (tri : List (List Int)) : List (List Char) :=
  points.flatMap (·.map fio.fmt) ++ tri.flatMap (fun r => fmtInt 3 :: r.map fmtInt)

theorem offText_tokens (fio : FloatIO F) (points : List (List F)) (tri : List (List Int)) :
    splitWs (Off.rowsText (points.map (·.map fio.fmt)) ++
      Off.rowsText (tri.map (fun r => fmtInt 3 :: r.map fmtInt))) = offTokens fio points tri := by
  have h1 : ∀ r ∈ points.map (·.map fio.fmt), ∀ t ∈ r, IsTok t := by
    intro r hr t ht
    obtain ⟨p, _, rfl⟩ := List.mem_map.mp hr
    obtain ⟨x, _, rfl⟩ := List.mem_map.mp ht
    exact fio.tok x
  have h2 : ∀ r ∈ tri.map (fun r => fmtInt 3 :: r.map fmtInt), ∀ t ∈ r, IsTok t := by
    intro r hr t ht
    obtain ⟨p, _, rfl⟩ := List.mem_map.mp hr
    rcases List.mem_cons.mp ht with rfl | ht
    · exact isTok_fmtInt _
    · obtain ⟨x, _, rfl⟩ := List.mem_map.mp ht
      exact isTok_fmtInt x
  unfold Off.rowsText
  rw [List.append_assoc, List.singleton_append, splitWs_rows _ h1, splitWs_rows _ h2]
  simp [offTokens, List.flatMap]

/-- The whole file as tokens. -/
theorem C24_file (fio : FloatIO F) (zero : F) (m : Mesh (List F) R) (h : TriOk m) :
    ∃ s, Off.write fio zero 3 m = .ok s ∧
      splitWs s = ["OFF".toList, "#".toList, "Created".toList, "by".toList, "meshio".toList,
        fmtNat m.points.length, fmtNat (triangles m).length, "0".toList] ++
          offTokens fio m.points (triangles m) := by
  obtain ⟨a, h1, h2⟩ := getCellsType_triangle m h
  refine ⟨Off.text fio m.points (triangles m), by simp [Off.write, h1, h2], ?_⟩
  unfold Off.text
  have e1 : ∀ s, splitWs ("OFF\n".toList ++ s) = "OFF".toList :: splitWs s := fun s =>
    splitWs_joinWith_ws (w := ' ') (w' := '\n') (by decide) (by decide) ["OFF".toList] (by decide) s
  have e2 : ∀ s, splitWs ("# Created by meshio\n\n".toList ++ s) =
      ["#".toList, "Created".toList, "by".toList, "meshio".toList] ++ splitWs s := by
    intro s
    have := splitWs_joinWith_ws (w := ' ') (w' := '\n') (by decide) (by decide)
      ["#".toList, "Created".toList, "by".toList, "meshio".toList] (by decide) ('\n' :: s)
    rw [splitWs_ws (by decide)] at this
    exact this
  rw [e1, e2, List.append_assoc]
  have e3 := splitWs_joinWith_ws (w := ' ') (w' := '\n') (by decide) (by decide)
    [fmtNat m.points.length, fmtNat (triangles m).length, fmtNat 0]
    (by
      intro t ht
      simp only [List.mem_cons, List.not_mem_nil, or_false] at ht
      rcases ht with rfl | rfl | rfl <;> exact isTok_fmtInt (Int.ofNat _))
    ('\n' :: (Off.rowsText (m.points.map (·.map fio.fmt)) ++
      Off.rowsText ((triangles m).map (fun r => fmtInt 3 :: r.map fmtInt))))
  rw [splitWs_ws (by decide), offText_tokens] at e3
  have e4 : "\n\n".toList = ['\n', '\n'] := by decide
  rw [e4]
  simp only [List.cons_append, List.nil_append] at e3 ⊢
  rw [e3]
  rfl

theorem offRead_text (fio : FloatIO F) (points : List (List F)) (tri : List (List Int))
    (hp : ∀ p ∈ points, p.length = 3) (ht : ∀ r ∈ tri, r.length = 3) :
    Off.read fio (Off.text fio points tri) = .ok (points, tri) := by
  have hb : Off.body fio points.length tri.length ('\n' :: (Off.rowsText (points.map (·.map fio.fmt)) ++
      Off.rowsText (tri.map (fun r => fmtInt 3 :: r.map fmtInt)))) = .ok (points, tri) := by
    have htok := offText_tokens fio points tri
    have htok : splitWs ('\n' :: (Off.rowsText (points.map (·.map fio.fmt)) ++
        Off.rowsText (tri.map (fun r => fmtInt 3 :: r.map fmtInt)))) =
        points.flatten.map fio.fmt ++ ((tri.map (fun r => (3 : Int) :: r)).flatten).map fmtInt := by
      rw [splitWs_ws (by decide), htok]
      simp only [offTokens, List.map_flatten, List.flatMap, List.map_map, Function.comp_def, List.map_cons]
    obtain ⟨s1, s2⟩ := scan_ok fio.parse fio.fmt points.flatten (fun x _ => fio.parse_fmt x) _ _ htok
    obtain ⟨s3, _⟩ := scan_ok parseInt fmtInt ((tri.map (fun r => (3 : Int) :: r)).flatten)
      (fun x _ => parseInt_fmtInt x) _ [] (by rw [s2, List.append_nil])
    have l1 := length_flatten_const 3 points hp
    have hw : ∀ r ∈ tri.map (fun r => (3 : Int) :: r), r.length = 4 := by
      intro r hr
      obtain ⟨x, hx, rfl⟩ := List.mem_map.mp hr
      simp [ht x hx]
    have l2 := length_flatten_const 4 _ hw
    rw [List.length_map] at l2
    unfold Off.body
    dsimp only
    rw [show 3 * points.length = points.flatten.length by omega, s1,
      reshape_flatten 3 points hp]
    dsimp only
    rw [show 4 * tri.length = ((tri.map (fun r => (3 : Int) :: r)).flatten).length by omega, s3]
    have hr := reshape_flatten 4 _ hw
    rw [List.length_map] at hr
    simp only [hr]
    rw [if_pos (by simp), List.map_map]
    simp [Function.comp_def]
  have hline : joinWith ' ' [fmtNat points.length, fmtNat tri.length, fmtNat 0] =
      fmtNat points.length ++ ' ' :: (fmtNat tri.length ++ ' ' :: fmtNat 0) := rfl
  have hws : ∀ c ∈ joinWith ' ' [fmtNat points.length, fmtNat tri.length, fmtNat 0],
      c = ' ' ∨ isWs c = false := by
    intro c hc
    rw [hline] at hc
    simp only [List.mem_append, List.mem_cons] at hc
    rcases hc with hc | hc | hc | hc | hc
    · exact .inr (isWs_false_of_isDigit (fmtNat_isDigit hc))
    · exact .inl hc
    · exact .inr (isWs_false_of_isDigit (fmtNat_isDigit hc))
    · exact .inl hc
    · exact .inr (isWs_false_of_isDigit (fmtNat_isDigit hc))
  have hnl : '\n' ∉ joinWith ' ' [fmtNat points.length, fmtNat tri.length, fmtNat 0] := by
    intro hc
    rcases hws _ hc with h | h
    · exact absurd h (by decide)
    · exact absurd h (by decide)
  obtain ⟨d, ds, hd⟩ : ∃ d ds, fmtNat points.length = d :: ds := by
    cases h : fmtNat points.length with
    | nil => exact absurd h (fmtNat_ne_nil _)
    | cons d ds => exact ⟨d, ds, rfl⟩
  have hdd : d.isDigit = true := fmtNat_isDigit (n := points.length) (by rw [hd]; simp)
  have hstrip : strip (joinWith ' ' [fmtNat points.length, fmtNat tri.length, fmtNat 0] ++ ['\n']) =
      joinWith ' ' [fmtNat points.length, fmtNat tri.length, fmtNat 0] := by
    apply strip_trim
    · intro c hc
      rw [hline, hd] at hc
      simp only [List.cons_append, List.head?_cons, Option.some.injEq] at hc
      subst hc
      exact isWs_false_of_isDigit hdd
    · intro c hc
      rw [hline] at hc
      have e : fmtNat points.length ++ ' ' :: (fmtNat tri.length ++ ' ' :: fmtNat 0) =
          (fmtNat points.length ++ ' ' :: (fmtNat tri.length ++ [' '])) ++ fmtNat 0 := by simp
      have e0 : fmtNat 0 = ['0'] := by decide
      rw [e, e0, List.getLast?_append, List.getLast?_singleton] at hc
      simp only [Option.some_or, Option.some.injEq] at hc
      subst hc
      decide
    · intro c hc; simp only [List.mem_singleton] at hc; subst hc; decide
  have hcounts : Off.counts (joinWith ' ' [fmtNat points.length, fmtNat tri.length, fmtNat 0]) =
      .ok (points.length, tri.length) := by
    unfold Off.counts
    rw [splitOnC_joinWith ' ' _ (by simp) (by
      intro t ht hm
      simp only [List.mem_cons, List.not_mem_nil, or_false] at ht
      rcases ht with rfl | rfl | rfl <;>
        exact absurd (isWs_false_of_isDigit (fmtNat_isDigit hm)) (by decide))]
    simp
  have hskip : ∀ (rest : List Char) (n : Nat),
      Off.skipComments (n + 3) ("# Created by meshio\n\n".toList ++
        (joinWith ' ' [fmtNat points.length, fmtNat tri.length, fmtNat 0] ++ '\n' :: rest)) =
        .ok (joinWith ' ' [fmtNat points.length, fmtNat tri.length, fmtNat 0], rest) := by
    intro rest n
    have r1 := readLine_append "# Created by meshio".toList
      ('\n' :: (joinWith ' ' [fmtNat points.length, fmtNat tri.length, fmtNat 0] ++ '\n' :: rest)) (by decide)
    have e1 : "# Created by meshio\n\n".toList ++
        (joinWith ' ' [fmtNat points.length, fmtNat tri.length, fmtNat 0] ++ '\n' :: rest) =
        "# Created by meshio".toList ++ '\n' ::
          ('\n' :: (joinWith ' ' [fmtNat points.length, fmtNat tri.length, fmtNat 0] ++ '\n' :: rest)) := rfl
    have r2 := readLine_append [] (joinWith ' ' [fmtNat points.length, fmtNat tri.length, fmtNat 0] ++ '\n' :: rest)
      (by simp)
    rw [List.nil_append, List.nil_append] at r2
    have r3 := readLine_append (joinWith ' ' [fmtNat points.length, fmtNat tri.length, fmtNat 0]) rest hnl
    have s1 : strip ("# Created by meshio".toList ++ ['\n']) = "# Created by meshio".toList := by decide
    have s2 : strip ['\n'] = [] := by decide
    rw [e1, Off.skipComments, r1]
    simp only [s1]
    rw [if_neg (by decide), Off.skipComments, r2]
    simp only [s2]
    rw [if_neg (by simp), Off.skipComments, r3]
    simp only [hstrip]
    rw [if_pos]
    refine ⟨?_, ?_⟩
    · rw [hline, hd]; simp
    · rw [hline, hd]
      simp only [List.cons_append, List.head?_cons, ne_eq, Option.some.injEq]
      exact ne_of_isDigit hdd (by decide)
  unfold Off.read Off.text
  have r0 : ∀ s, readLine ("OFF\n".toList ++ s) = ("OFF\n".toList, s) := fun s =>
    readLine_append "OFF".toList s (by decide)
  rw [r0]
  have s0 : strip "OFF\n".toList = "OFF".toList := by decide
  simp only [s0, ne_eq, not_true_eq_false, if_false]
  have e4 : "\n\n".toList = ['\n', '\n'] := by decide
  rw [e4]
  have hk := hskip ('\n' :: (Off.rowsText (points.map (·.map fio.fmt)) ++
      Off.rowsText (tri.map (fun r => fmtInt 3 :: r.map fmtInt))))
  simp only [List.append_assoc, List.cons_append, List.nil_append] at hk ⊢
  have hlen : ∀ l : List Char, ("OFF\n".toList ++ ("# Created by meshio\n\n".toList ++ l)).length + 1 =
      (l.length + 23) + 3 := by intro l; simp
  rw [hlen, hk]
  simp only [hcounts, hb]

/-- C24: writing a mesh with 3D points and reading the file yields the points and the
triangles of all triangle blocks in order. -/
theorem C24_roundtrip (fio : FloatIO F) (zero : F) (m : Mesh (List F) R)
    (hp : ∀ p ∈ m.points, p.length = 3) (h : TriOk m) :
    ∃ s, Off.write fio zero 3 m = .ok s ∧ Off.read fio s = .ok (m.points, triangles m) := by
  obtain ⟨a, h1, h2⟩ := getCellsType_triangle m h
  refine ⟨Off.text fio m.points (triangles m), by simp [Off.write, h1, h2], ?_⟩
  exact offRead_text fio _ _ hp (triangles_width m h)

/-- With 2D points a zero is appended to each. -/
theorem C24_roundtrip_2d (fio : FloatIO F) (zero : F) (m : Mesh (List F) R)
    (hp : ∀ p ∈ m.points, p.length = 2) (h : TriOk m) :
    ∃ s, Off.write fio zero 2 m = .ok s ∧
      Off.read fio s = .ok (m.points.map (· ++ [zero]), triangles m) := by
  obtain ⟨a, h1, h2⟩ := getCellsType_triangle m h
  refine ⟨Off.text fio (m.points.map (· ++ [zero])) (triangles m), by simp [Off.write, h1, h2], ?_⟩
  refine offRead_text fio _ _ ?_ (triangles_width m h)
  intro p hp'
  obtain ⟨q, hq, rfl⟩ := List.mem_map.mp hp'
  simp [hp q hq]

/-- A file whose first line is not `OFF` is rejected with ReadError. -/
theorem C24_bad_header (fio : FloatIO F) (s : List Char) (h : strip (readLine s).1 ≠ "OFF".toList) :
    Off.read fio s = .error .readError := by
  unfold Off.read
  rw [if_pos h]

/-- Faces with their node counts, as the format prescribes. -/
def faceInts (faces : List (List Int)) : List Int := faces.flatMap (fun f => (f.length : Int) :: f)

theorem faceInts_bad (faces : List (List Int)) (hbad : ∃ f ∈ faces, f.length ≠ 3) (rest : List Int) :
    ∃ r ∈ rowsN 4 faces.length (faceInts faces ++ rest), r.head? ≠ some 3 := by
  induction faces with
  | nil => obtain ⟨f, hf, _⟩ := hbad; simp at hf
  | cons f faces ih =>
    simp only [faceInts, List.flatMap_cons, List.cons_append, List.length_cons, rowsN]
    by_cases h3 : f.length = 3
    · obtain ⟨f', hf', hne⟩ := hbad
      have : ∃ f ∈ faces, f.length ≠ 3 := by
        rcases List.mem_cons.mp hf' with rfl | hf'
        · exact absurd h3 hne
        · exact ⟨f', hf', hne⟩
      obtain ⟨r, hr, hrne⟩ := ih this
      refine ⟨r, List.mem_cons_of_mem _ ?_, hrne⟩
      rw [List.append_assoc]
      simp only [List.drop_succ_cons]
      rw [List.drop_append_of_le_length (by omega), List.drop_of_length_le (by omega), List.nil_append]
      exact hr
    · refine ⟨_, List.mem_cons_self, ?_⟩
      simp only [List.take_succ_cons, List.head?_cons, ne_eq, Option.some.injEq]
      omega

/-- A file with faces of which one is not a triangle is rejected with ReadError, as long as
there are at least four integers per face. -/
theorem C24_bad_face_partial (fio : FloatIO F) (points : List (List F)) (faces : List (List Int))
    (hp : ∀ p ∈ points, p.length = 3) (s : List Char)
    (hs : splitWs s = points.flatten.map fio.fmt ++ (faceInts faces).map fmtInt)
    (hlen : 4 * faces.length ≤ (faceInts faces).length) (hbad : ∃ f ∈ faces, f.length ≠ 3) :
    Off.body fio points.length faces.length s = .error .readError := by
  obtain ⟨s1, s2⟩ := scan_ok fio.parse fio.fmt points.flatten (fun x _ => fio.parse_fmt x) _ _ hs
  obtain ⟨s3, _⟩ := scan_ok parseInt fmtInt ((faceInts faces).take (4 * faces.length))
    (fun x _ => parseInt_fmtInt x) _ (((faceInts faces).drop (4 * faces.length)).map fmtInt)
    (by rw [s2, ← List.map_append, List.take_append_drop])
  have l1 := length_flatten_const 3 points hp
  rw [List.length_take, Nat.min_eq_left hlen] at s3
  unfold Off.body
  dsimp only
  rw [show 3 * points.length = points.flatten.length by omega, s1, reshape_flatten 3 points hp]
  dsimp only
  rw [s3]
  unfold reshape
  rw [if_pos (by rw [List.length_take]; omega)]
  dsimp only
  rw [if_neg]
  rw [List.all_eq_true]
  intro hall
  obtain ⟨r, hr, hne⟩ := faceInts_bad faces hbad []
  rw [List.append_nil] at hr
  have : rowsN 4 faces.length ((faceInts faces).take (4 * faces.length)) =
      rowsN 4 faces.length (faceInts faces) := by
    have : ∀ (n : Nat) (l : List Int), rowsN 4 n (l.take (4 * n)) = rowsN 4 n l := by
      intro n
      induction n with
      | zero => intro l; rfl
      | succ n ih =>
        intro l
        simp only [rowsN, List.take_take, List.drop_take]
        rw [show min 4 (4 * (n + 1)) = 4 by omega, show 4 * (n + 1) - 4 = 4 * n by omega, ih]
    exact this _ _
  have := hall r (by rw [this]; exact hr)
  exact hne (by simpa using this)

/-- The condition on the number of integers is needed: a single two-node face is a
ValueError from numpy instead. -/
theorem C24_bad_face_false :
    Off.body FloatIO.int 0 1 "2 0 1".toList = .error .valueError := by decide +kernel

/-- Non-trivial instance of `C24_bad_face_partial`: a triangle and a quadrilateral. -/
example : splitWs "0 0 0\n3 0 1 2\n4 0 1 2 3\n".toList =
    ([[0, 0, 0]] : List (List Int)).flatten.map FloatIO.int.fmt ++
      (faceInts [[0, 1, 2], [0, 1, 2, 3]]).map fmtInt := by decide +kernel

/-- Whatever is accepted has a proper first line and faces of three nodes. -/
theorem C24_accepted (fio : FloatIO F) (s : List Char) (points : List (List F))
    (tri : List (List Int)) (h : Off.read fio s = .ok (points, tri)) :
    strip (readLine s).1 = "OFF".toList ∧ (∀ p ∈ points, p.length = 3) ∧
      ∀ r ∈ tri, r.length = 3 := by
  unfold Off.read at h
  split at h
  · cases h
  next h0 =>
  split at h
  · cases h
  split at h
  · cases h
  unfold Off.body at h
  simp only [] at h
  split at h
  · cases h
  next verts hv =>
  split at h
  · cases h
  next data hd =>
  split at h
  · simp only [Except.ok.injEq, Prod.mk.injEq] at h
    obtain ⟨rfl, rfl⟩ := h
    refine ⟨by simpa using h0, ?_, ?_⟩
    · unfold reshape at hv
      split at hv
      · cases hv; exact rowsN_widths _ _ _ (by assumption)
      · cases hv
    · unfold reshape at hd
      split at hd
      · cases hd
        intro r hr
        obtain ⟨x, hx, rfl⟩ := List.mem_map.mp hr
        have := rowsN_widths 4 _ _ (by assumption) x hx
        simp [this]
      · cases hd
  · cases h

/-- A file that ends after the first line is never finished: the loop over comment lines
reads at the end of the file for ever. -/
theorem C24_no_counts (fio : FloatIO F) (n : Nat) :
    Off.read fio ("OFF\n".toList ++ List.replicate n '\n') = .error .eofLoop := by
  have hskip : ∀ (fuel n : Nat), Off.skipComments fuel (List.replicate n '\n') = .error .eofLoop := by
    intro fuel
    induction fuel with
    | zero => intro n; rfl
    | succ fuel ih =>
      intro n
      have s2 : strip ['\n'] = [] := by decide
      have s3 : strip [] = [] := by decide
      cases n with
      | zero =>
        have := ih 0
        simpa [Off.skipComments, readLine, s3] using this
      | succ n =>
        have := ih n
        simpa [Off.skipComments, readLine, List.replicate_succ, s2] using this
  unfold Off.read
  have r0 : ∀ s, readLine ("OFF\n".toList ++ s) = ("OFF\n".toList, s) := fun s =>
    readLine_append "OFF".toList s (by decide)
  have s0 : strip "OFF\n".toList = "OFF".toList := by decide
  rw [r0]
  simp only [s0, ne_eq, not_true_eq_false, if_false, hskip]

/-- A concrete mesh: four points, two triangle blocks and a line block in between. -/
example : TriOk (⟨[[0, 0, 0], [1, 0, 0], [0, 1, 0], [0, 0, 1]],
    [⟨"triangle", ⟨[3], [[0, 1, 2]]⟩⟩, ⟨"line", ⟨[2], [[0, 1]]⟩⟩, ⟨"triangle", ⟨[3], [[1, 2, 3], [0, 2, 3]]⟩⟩],
    [], [], [], []⟩ : Mesh (List Int) Nat) := by
  intro c hc ht
  simp only [List.mem_cons, List.not_mem_nil, or_false] at hc
  rcases hc with rfl | rfl | rfl
  · decide
  · exact absurd ht (by decide)
  · decide

end Meshio.Props
