/-
C62: legacy VTK files that are in order up to some section which is not.
-/
import Verif.Proofs.VtkRefuse
import Verif.Props.VtkFileEx
namespace Meshio.Props
open Meshio Meshio.Spec Meshio.Vtk Meshio.VtkFile

variable {V : Type} {io : VtkIO V} {has : String → V → Prop}

/-- A line that begins with a word that is not a keyword, where a section has to begin. -/
theorem C62_refuses_word (hio : VtkLaws io has) {v : Ver} {ascii : Bool} {t : String} {l : List (VtkSec V)} {s d rest : List Char}
    (h : vtkFileBegins io has v ascii t l s (d ++ '\n' :: rest)) (hd : '\n' ∉ d) {w : List Char} {e : List (List Char)}
    (hk : splitWs d = w :: e) (hw : String.ofList (upper w) ∉ vtkWords) : read io s = .error .readError := by
  obtain ⟨n, info, hf, hr⟩ := read_begins hio h
  exact hr _ (C62_unknown_section v ascii n info hf.type d rest hd hk hw)

/-- Binary coordinates of points have to be followed by the end of the line. -/
theorem C62_refuses_open_points (hio : VtkLaws io has) {v : Ver} {t : String} {l : List (VtkSec V)} {s r b : List Char}
    (h : vtkFileBegins io has v false t l s r) {w ty d : _} {e : List (List Char)} {xs : List V} {k : Nat}
    (hh : VtkHead "POINTS" (w :: ty :: e) r b) (hw : Numeral w k) (hd : VtkWord v ty d) (hx : xs.length = k * 3) (hb : VtkOpen io d xs b) :
    read io s = .error .readError := by
  obtain ⟨n, info, hf, hr⟩ := read_begins hio h
  refine hr _ (section_error io v false n info hh (by decide) fun w0 => ?_)
  unfold readSection readPoints
  rw [if_neg (by decide), if_neg (by decide), if_pos rfl, count_ok (i := 1) rfl hw]
  simp only
  rw [dtypeAt_ok (i := 2) rfl hd]
  simp only
  rw [← hx, values_open hio hb]

/-- … and so have binary vectors. -/
theorem C62_refuses_open_vectors (hio : VtkLaws io has) {v : Ver} {t : String} {l : List (VtkSec V)} {s r b : List Char}
    (h : vtkFileBegins io has v false t l s r) {name ty d : _} {e : List (List Char)} {xs : List V} {k : Nat} (hc : vtkCount l = some k)
    (hh : VtkHead "VECTORS" (name :: ty :: e) r b) (hd : VtkWord v ty d) (hx : xs.length = 3 * k) (hb : VtkOpen io d xs b) :
    read io s = .error .readError := by
  have ht : t ∈ ["UNSTRUCTURED_GRID", "STRUCTURED_POINTS", "STRUCTURED_GRID", "RECTILINEAR_GRID"] := by
    obtain ⟨_, _, _, _, _, _, _, _, _, _, _, _, _, ht, _⟩ := h
    exact ht
  obtain ⟨n, info, hf, hr⟩ := read_begins hio h
  refine hr _ (subsection_error io v false n info hh (by decide) fun w0 => ?_)
  have hn : "VECTORS" ∉ (Types.find datasetInfos t).getD [] :=
    (by decide +kernel : ∀ t ∈ ["UNSTRUCTURED_GRID", "STRUCTURED_POINTS", "STRUCTURED_GRID", "RECTILINEAR_GRID"], "VECTORS" ∉ (Types.find datasetInfos t).getD []) t ht
  unfold readSubsection
  rw [hf.type]
  simp only
  rw [if_neg hn, if_neg (by decide), if_pos trivial]
  unfold readField
  simp only [List.getElem?_cons_succ, List.getElem?_cons_zero]
  rw [dtype_ok hd, hf.num k hc, ← hx]
  simp only
  rw [values_open hio hb]
  rfl

/-- The binary connectivity of older versions has to be followed by the end of the line. -/
theorem C62_refuses_open_cells (hio : VtkLaws io has) {t : String} {l : List (VtkSec V)} {s r b rest : List Char}
    (h : vtkFileBegins io has .v42 false t l s r) {w1 w2 : List Char} {e : List (List Char)} {k : Nat}
    (hh : VtkHead "CELLS" (w1 :: w2 :: e) r (b ++ rest)) (hw : Numeral w2 k) (hb : b.length = k * 4) (hrest : rest.head? ≠ some '\n') :
    read io s = .error .readError := by
  obtain ⟨n, info, hf, hr⟩ := read_begins hio h
  refine hr _ (section_error io .v42 false n info hh (by decide) fun w0 => ?_)
  unfold readSection
  rw [if_neg (by decide), if_neg (by decide), if_neg (by decide), if_pos rfl, count_ok (i := 2) rfl hw]
  simp only
  unfold intData
  rw [if_neg (by simp), fromBytes_open 4 k getBig b rest hb hrest]

/-- Version 5.1: the first offset has to be zero and the last one the number of all nodes that are listed. -/
theorem C62_refuses_offsets (hio : VtkLaws io has) {ascii : Bool} {t : String} {l : List (VtkSec V)} {s r s0 s1 s2 s3 rest : List Char}
    (h : vtkFileBegins io has .v51 ascii t l s r) {w1 w2 l1 l2 k1 k2 t1 t2 : List Char} {e e1 e2 : List (List Char)} {d1 d2 : String} {offs conn : List Int}
    (hh : VtkHead "CELLS" (w1 :: w2 :: e) r s0) (h1 : Numeral w1 offs.length) (h2 : Numeral w2 conn.length)
    (a1 : '\n' ∉ l1) (a2 : "OFFSETS".toList <+: l1) (a3 : splitWs l1 = k1 :: t1 :: e1) (a4 : (String.ofList t1, d1) ∈ dtypes .v51)
    (a5 : s0 = l1 ++ '\n' :: s1) (a6 : VtkInts ascii (itemSize d1) offs s1 s2)
    (b1 : '\n' ∉ l2) (b2 : "CONNECTIVITY".toList <+: l2) (b3 : splitWs l2 = k2 :: t2 :: e2) (b4 : (String.ofList t2, d2) ∈ dtypes .v51)
    (b5 : s2 = l2 ++ '\n' :: s3) (b6 : VtkInts ascii (itemSize d2) conn s3 rest)
    (hbad : offs.head? ≠ some 0 ∨ offs.getLast? ≠ some (conn.length : Int)) (hne : offs ≠ []) : read io s = .error .assertionError := by
  obtain ⟨n, info, hf, hr⟩ := read_begins hio h
  refine hr _ (section_error io .v51 ascii n info hh (by decide) fun w0 => ?_)
  subst a5 b5
  have p1 : "OFFSETS".toList <+: l1 ++ ['\n'] := a2.trans (List.prefix_append _ _)
  have p2 : "CONNECTIVITY".toList <+: l2 ++ ['\n'] := b2.trans (List.prefix_append _ _)
  have hc : readCells ascii (w0 :: w1 :: w2 :: e) (l1 ++ '\n' :: s1) = .error .assertionError := by
    unfold readCells
    rw [readLine_append _ _ a1]
    simp only [p1, not_true_eq_false, if_false, count_ok (split := w0 :: w1 :: w2 :: e) (i := 1) rfl h1,
      count_ok (split := w0 :: w1 :: w2 :: e) (i := 2) rfl h2, splitWs_nl, a3, List.getElem?_cons_succ, List.getElem?_cons_zero, dtype_mem a4, intData_ok a6,
      readLine_append _ _ b1, p2, b3, dtype_mem b4, intData_ok b6]
    obtain ⟨x, hx⟩ := Option.isSome_iff_exists.1 (List.isSome_head?.2 hne)
    obtain ⟨y, hy⟩ := Option.isSome_iff_exists.1 (List.getLast?_isSome.2 hne)
    rw [hx, hy] at hbad ⊢
    simp only [ne_eq, Option.some.injEq] at hbad ⊢
    by_cases h0 : x = 0
    · rw [if_neg (by simpa using h0), if_pos (by
        rcases hbad with hb | hb
        · exact absurd h0 hb
        · exact hb)]
    · rw [if_pos h0]
  unfold readSection
  rw [if_neg (by decide), if_neg (by decide), if_neg (by decide), if_pos rfl]
  simp only
  rw [hc]

/-- A structured data set has three dimensions. -/
theorem C62_refuses_dimensions (hio : VtkLaws io has) {v : Ver} {ascii : Bool} {t : String} (ht : t ≠ "UNSTRUCTURED_GRID") {s r b : List Char}
    (h : vtkFileBegins io has v ascii t [] s r) {ws : List (List Char)} {ns : List Nat} (hh : VtkHead "DIMENSIONS" ws r b)
    (hw : ws.map parseInt = ns.map fun (n : Nat) => some (n : Int)) (hn : ns.length ≠ 3) : read io s = .error .readError := by
  have ht' : t ∈ ["UNSTRUCTURED_GRID", "STRUCTURED_POINTS", "STRUCTURED_GRID", "RECTILINEAR_GRID"] := by
    obtain ⟨_, _, _, _, _, _, _, _, _, _, _, _, _, ht, _⟩ := h
    exact ht
  obtain ⟨n, info, hf, hr⟩ := read_begins hio h
  refine hr _ (subsection_error io v ascii n info hh (by decide) fun w0 => ?_)
  have hm : "DIMENSIONS" ∈ (Types.find datasetInfos t).getD [] :=
    (by decide +kernel : ∀ t ∈ ["UNSTRUCTURED_GRID", "STRUCTURED_POINTS", "STRUCTURED_GRID", "RECTILINEAR_GRID"], t ≠ "UNSTRUCTURED_GRID" →
      "DIMENSIONS" ∈ (Types.find datasetInfos t).getD []) t ht' ht
  unfold readSubsection
  rw [hf.type]
  simp only
  have hact : info.active = "DATASET" := hf.active
  rw [if_pos hm, if_neg (by simpa using hact), if_neg (by decide), if_pos trivial]
  have hmr : ∀ (ws : List (List Char)) (ns : List Nat), ws.map parseInt = ns.map (fun (n : Nat) => some (n : Int)) →
      mapRes toInt ws = .ok (ns.map Int.ofNat) := by
    intro ws
    induction ws with
    | nil => intro ns h; cases ns with
      | nil => rfl
      | cons _ _ => cases h
    | cons w ws ih =>
      intro ns h
      cases ns with
      | nil => cases h
      | cons k ns =>
        rw [List.map_cons, List.map_cons, List.cons.injEq] at h
        rw [mapRes, ih ns h.2]
        unfold toInt
        rw [h.1]
        rfl
  rw [List.drop_succ_cons, List.drop_zero, hmr ws ns hw]
  simp only
  rw [if_pos (by simpa using hn)]

/-- A type of numbers that VTK does not know. -/
theorem C62_refuses_type (hio : VtkLaws io has) {v : Ver} {ascii : Bool} {t : String} {l : List (VtkSec V)} {s r b : List Char}
    (h : vtkFileBegins io has v ascii t l s r) {w ty : List Char} {e : List (List Char)} {k : Nat}
    (hh : VtkHead "POINTS" (w :: ty :: e) r b) (hw : Numeral w k) (hd : ∀ d, ¬ VtkWord v ty d) : read io s = .error .keyError := by
  obtain ⟨n, info, hf, hr⟩ := read_begins hio h
  have herr : dtypeAt v ([] :: w :: ty :: e) 2 = .error .keyError := by
    unfold dtypeAt
    simp only [List.getElem?_cons_succ, List.getElem?_cons_zero]
    unfold dtype
    cases hfi : Types.find (dtypes v) (String.ofList (lower ty)) with
    | none => rfl
    | some d => exact absurd ⟨_, (String.toList_ofList).symm, Types.find_mem hfi⟩ (hd d)
  refine hr _ (section_error io v ascii n info hh (by decide) fun w0 => ?_)
  unfold readSection readPoints
  rw [if_neg (by decide), if_neg (by decide), if_pos rfl, count_ok (i := 1) rfl hw]
  simp only
  have : dtypeAt v (w0 :: w :: ty :: e) 2 = dtypeAt v ([] :: w :: ty :: e) 2 := rfl
  rw [this, herr]

/-! ## Examples -/

/-- A file of version 5.1 whose offsets do not match, one whose coordinates are not closed, and one with two dimensions only. -/
example : read vtkIntIO ("# vtk DataFile Version 5.1\nt\nASCII\nDATASET UNSTRUCTURED_GRID\nCELLS 2 3\nOFFSETS vtktypeint64\n0 2\nCONNECTIVITY vtktypeint64\n0 1 2\n".toList) =
    .error .assertionError := by
  refine C62_refuses_offsets vtkIntIO_laws (l := []) (rest := []) (w1 := "2".toList) (w2 := "3".toList)
    (l1 := "OFFSETS vtktypeint64".toList) (l2 := "CONNECTIVITY vtktypeint64".toList)
    (t := "UNSTRUCTURED_GRID") (ascii := true) (r := "CELLS 2 3\nOFFSETS vtktypeint64\n0 2\nCONNECTIVITY vtktypeint64\n0 1 2\n".toList)
    (s0 := "OFFSETS vtktypeint64\n0 2\nCONNECTIVITY vtktypeint64\n0 1 2\n".toList) (s1 := "0 2\nCONNECTIVITY vtktypeint64\n0 1 2\n".toList)
    (s2 := "CONNECTIVITY vtktypeint64\n0 1 2\n".toList) (s3 := "0 1 2\n".toList) (e := []) (k1 := "OFFSETS".toList) (k2 := "CONNECTIVITY".toList)
    (t1 := "vtktypeint64".toList) (t2 := "vtktypeint64".toList) (e1 := []) (e2 := []) (d1 := "int64") (d2 := "int64") (offs := [0, 2]) (conn := [0, 1, 2])
    ?_ ?_ (by decide +kernel) (by decide +kernel) (by decide +kernel) (by decide +kernel) (by decide +kernel) (by decide +kernel) (by decide +kernel) ?_
    (by decide +kernel) (by decide +kernel) (by decide +kernel) (by decide +kernel) (by decide +kernel) ?_ (.inr (by decide)) (by decide)
  · refine ⟨"5.1".toList, "t".toList, "ASCII".toList, [], "DATASET UNSTRUCTURED_GRID\nCELLS 2 3\nOFFSETS vtktypeint64\n0 2\nCONNECTIVITY vtktypeint64\n0 1 2\n".toList, _,
      (show ("5.1".toList ≠ [] ∧ ∀ c ∈ "5.1".toList, isWs c = false) by decide +kernel), by decide, by decide, by decide, by decide +kernel, by decide +kernel,
      ⟨"UNSTRUCTURED_GRID".toList, by decide +kernel, "DATASET UNSTRUCTURED_GRID".toList, "DATASET".toList, by decide, by decide +kernel, by decide +kernel, by decide +kernel⟩, by decide, rfl⟩
  · exact ⟨"CELLS 2 3".toList, "CELLS".toList, by decide, by decide +kernel, by decide +kernel, by decide +kernel⟩
  · refine ⟨"0 2\n".toList, by decide +kernel, by decide +kernel, by decide, ?_, ?_⟩
    · intro c hc
      cases (show some '\n' = some c from hc)
      rfl
    · intro _ c hc
      cases (show some 'C' = some c from hc)
      rfl
  · refine ⟨"0 1 2\n".toList, by decide +kernel, by decide +kernel, by decide, ?_, ?_⟩
    · intro c hc
      cases (show some '\n' = some c from hc)
      rfl
    · intro _ c hc
      cases hc

theorem vtkOpen_begins : vtkFileBegins vtkIntIO (fun d x => IsInt (itemSize d) x) .v42 false "UNSTRUCTURED_GRID" []
    ("# vtk DataFile Version 4.2\nt\nBINARY\nDATASET UNSTRUCTURED_GRID\nPOINTS 1 int\n".toList ++ [(1 : Int), 2, 3].flatMap (vtkIntIO.enc "int32"))
    ("POINTS 1 int\n".toList ++ [(1 : Int), 2, 3].flatMap (vtkIntIO.enc "int32")) := by
  refine ⟨"4.2".toList, "t".toList, "BINARY".toList, [], "DATASET UNSTRUCTURED_GRID\nPOINTS 1 int\n".toList ++ [(1 : Int), 2, 3].flatMap (vtkIntIO.enc "int32"), _,
      (show ("4.2".toList ≠ [] ∧ ∀ c ∈ "4.2".toList, isWs c = false) by decide +kernel), by decide, by decide, by decide, by decide +kernel, ?_,
      ⟨"UNSTRUCTURED_GRID".toList, by decide +kernel, "DATASET UNSTRUCTURED_GRID".toList, "DATASET".toList, by decide, by decide +kernel, by decide +kernel, ?_⟩, by decide, rfl⟩
  · decide +kernel
  · decide +kernel

example : read vtkIntIO ("# vtk DataFile Version 4.2\nt\nBINARY\nDATASET UNSTRUCTURED_GRID\nPOINTS 1 int\n".toList ++ [(1 : Int), 2, 3].flatMap (vtkIntIO.enc "int32")) =
    .error .readError := by
  refine C62_refuses_open_points vtkIntIO_laws vtkOpen_begins (w := "1".toList) (ty := "int".toList) (d := "int32") (e := []) (xs := [1, 2, 3]) (k := 1)
    (b := [(1 : Int), 2, 3].flatMap (vtkIntIO.enc "int32"))
    ⟨"POINTS 1 int".toList, "POINTS".toList, by decide, by decide +kernel, by decide +kernel, ?_⟩ (by decide +kernel) ⟨"int", by decide +kernel, by decide +kernel⟩ rfl
    ⟨[], by simp, by simp⟩
  decide +kernel

end Meshio.Props
