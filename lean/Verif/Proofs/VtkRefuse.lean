/-
The legacy VTK reader on files that are in order up to some section.
-/
import Verif.Proofs.VtkFileRead
import Verif.Spec.VtkRefuse
namespace Meshio.VtkFile
open Meshio Meshio.Spec

variable {V : Type} {io : VtkIO V} {has : String → V → Prop}

theorem loop_begins (hio : VtkLaws io has) {v : Ver} {ascii : Bool} {t : String} (ht : (Types.find datasetInfos t).isSome) {c : VtkCtx}
    {info : Info V} (hf : Fits t c info) (l : List (VtkSec V)) {s rest : List Char} (h : vtkBegins io has v ascii t c l s rest) (n : Nat) :
    Fits t (l.foldl VtkSec.next c) (l.foldl (step v) info) ∧
    readLoop io v ascii (n + l.length) info s = readLoop io v ascii n (l.foldl (step v) info) rest := by
  induction l generalizing c info s with
  | nil => cases h; exact ⟨hf, rfl⟩
  | cons x l ih =>
    obtain ⟨s', hok, hx, h⟩ := h
    rw [List.length_cons, ← Nat.add_assoc, loop_sec hio hf ht x hok hx, List.foldl_cons, List.foldl_cons]
    exact ih (fits_step v hf x) h

theorem begins_le {v : Ver} {ascii : Bool} {t : String} {c : VtkCtx} (l : List (VtkSec V)) {s rest : List Char}
    (h : vtkBegins io has v ascii t c l s rest) : l.length + rest.length ≤ s.length := by
  induction l generalizing c s with
  | nil => cases h; simp
  | cons x l ih =>
    obtain ⟨s', -, hx, h⟩ := h
    have h1 := ih h
    have h2 := says_lt x hx
    rw [List.length_cons]
    omega

/-- What follows is read by the loop. -/
theorem read_begins (hio : VtkLaws io has) {v : Ver} {ascii : Bool} {t : String}
    {l : List (VtkSec V)} {s rest : List Char} (h : vtkFileBegins io has v ascii t l s rest) :
    ∃ (n : Nat) (info : Info V), Fits t (l.foldl VtkSec.next {}) info ∧ ∀ e, readLoop io v ascii (n + 1) info rest = .error e → read io s = .error e := by
  obtain ⟨version, title, fmt, e, s1, s2, h1, h2, h3, h4, h5, rfl, ⟨w, hw, hd⟩, ht0, hs⟩ := h
  have ht : (Types.find datasetInfos t).isSome :=
    (by decide +kernel : ∀ t ∈ ["UNSTRUCTURED_GRID", "STRUCTURED_POINTS", "STRUCTURED_GRID", "RECTILINEAR_GRID"], (Types.find datasetInfos t).isSome) t ht0
  have hl := head_lt hd
  have hle := begins_le l hs
  obtain ⟨n, hn⟩ := Nat.exists_eq_add_of_le (show 1 + l.length ≤ s1.length by omega)
  obtain ⟨g1, g2⟩ := loop_begins hio ht (c := {}) (info := { active := "DATASET", type := some t }) ⟨rfl, rfl, by intro n hn; cases hn⟩ l hs (n + 1)
  refine ⟨n, _, g1, ?_⟩
  intro err herr
  unfold read
  have n1 : '\n' ∉ "# vtk DataFile Version ".toList ++ version := by
    rw [List.mem_append, not_or]
    exact ⟨by decide, h1.no_newline⟩
  have e1 : strip ("# vtk DataFile Version ".toList ++ version ++ ['\n']) = "# vtk DataFile Version ".toList ++ version := by
    apply strip_trim _ _ ['\n'] (by intro c hc; simp only [List.mem_singleton] at hc; subst hc; decide)
    · intro c hc
      have : c = '#' := by simpa using hc.symm
      subst this
      decide
    · intro c hc
      obtain ⟨a, hane⟩ := List.getLast?_isSome.2 h1.1 |> Option.isSome_iff_exists.1
      rw [List.getLast?_append, hane] at hc
      simp only [Option.some_or, Option.some.injEq] at hc
      subst hc
      exact h1.2 _ (List.mem_of_getLast? hane)
  have e2 : linesText ["# vtk DataFile Version ".toList ++ version, title, fmt] ++ s1 =
      ("# vtk DataFile Version ".toList ++ version) ++ '\n' :: (title ++ '\n' :: (fmt ++ '\n' :: s1)) := by
    simp [linesText]
  rw [e2, readLine_append _ _ n1]
  simp only [e1]
  have e3 : ("# vtk DataFile Version ".toList ++ version).drop 23 = version := by
    rw [List.drop_append_of_le_length (by decide)]
    rfl
  rw [if_neg (by
    rw [not_not]
    exact ⟨' ' :: version, by simp⟩), e3]
  have e4 : (if version = "5.1".toList then Ver.v51 else Ver.v42) = v := by
    cases v with
    | v51 => rw [if_pos (h2.2 rfl)]
    | v42 => rw [if_neg (fun e => by cases h2.1 e)]
  rw [e4]
  unfold readBuffer
  rw [readLine_append _ _ h3]
  simp only
  rw [readLine_append _ _ h4]
  simp only [strip_nl', h5]
  rw [if_neg (by cases ascii <;> decide)]
  have hdec : decide ((if ascii then "ASCII" else "BINARY").toList = "ASCII".toList) = ascii := by cases ascii <;> decide
  rw [hdec, show s1.length + 1 = (n + 1 + l.length) + 1 by omega]
  rw [loop_section io v ascii _ _ { active := "DATASET", type := some t } hd (by decide) (by
    intro w0
    unfold readSection
    rw [if_neg (by decide), if_pos rfl]
    simp only [List.getElem?_cons_succ, List.getElem?_cons_zero, hw, String.ofList_toList]
    cases hx : Types.find datasetInfos t with
    | none => rw [hx] at ht; cases ht
    | some _ => rfl)]
  rw [g2, herr]

theorem section_error (io : VtkIO V) (v : Ver) (ascii : Bool) (n : Nat) (info : Info V) {key : String} {args : List (List Char)}
    {s s' : List Char} {e : Err} (h : VtkHead key args s s') (hk : key ∈ sections)
    (hr : ∀ w, readSection io v ascii key (w :: args) info s' = .error e) :
    readLoop io v ascii (n + 1) info s = .error e := by
  obtain ⟨w, h1, h2, h3, h4⟩ := head_line h
  have hs : s ≠ [] := by rintro rfl; simp at h4
  rw [readLoop, if_neg hs, h1, h2]
  simp only [h3, String.ofList_toList]
  rw [if_pos hk, hr w]

theorem subsection_error (io : VtkIO V) (v : Ver) (ascii : Bool) (n : Nat) (info : Info V) {key : String} {args : List (List Char)}
    {s s' : List Char} {e : Err} (h : VtkHead key args s s') (hk : key ∉ sections)
    (hr : ∀ w, readSubsection io v ascii key (w :: args) info s' = .error e) :
    readLoop io v ascii (n + 1) info s = .error e := by
  obtain ⟨w, h1, h2, h3, h4⟩ := head_line h
  have hs : s ≠ [] := by rintro rfl; simp at h4
  rw [readLoop, if_neg hs, h1, h2]
  simp only [h3, String.ofList_toList]
  rw [if_neg hk, hr w]

/-- Bytes without the end of a line are refused. -/
theorem fromBytes_open {α : Type} (k n : Nat) (dec : List Char → α) (b rest : List Char) (hb : b.length = n * k) (hr : rest.head? ≠ some '\n') :
    fromBytes k dec n (b ++ rest) = .error .readError := by
  unfold fromBytes
  rw [blocks_chars k n b rest hb, if_neg]
  intro h
  apply hr
  cases rest with
  | nil => simp [readLine] at h
  | cons c r =>
    by_cases hc : c = '\n'
    · subst hc; rfl
    · exfalso
      unfold readLine at h
      simp [hc] at h

theorem length_flatMap_enc (hio : VtkLaws io has) (d : String) (xs : List V) : (xs.flatMap (io.enc d)).length = xs.length * itemSize d := by
  induction xs with
  | nil => simp
  | cons x xs ih => rw [List.flatMap_cons, List.length_append, ih, hio.length, List.length_cons, Nat.succ_mul]; omega

theorem values_open (hio : VtkLaws io has) {d : String} {xs : List V} {s : List Char} (h : VtkOpen io d xs s) :
    values io false d xs.length s = .error .readError := by
  obtain ⟨rest, rfl, hr⟩ := h
  unfold values
  rw [if_neg (by simp)]
  exact fromBytes_open _ _ _ _ _ (length_flatMap_enc hio d xs) hr

end Meshio.VtkFile
