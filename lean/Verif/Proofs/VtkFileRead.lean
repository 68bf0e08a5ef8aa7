/-
The legacy VTK reader on whole files.
-/
import Verif.Proofs.VtkFile
import Verif.Proofs.Dim
namespace Meshio.VtkFile
open Meshio Meshio.Spec

variable {V : Type} {io : VtkIO V} {has : String → V → Prop}

/-! ### Sections take at least a line -/

theorem text_le {α : Type} {parse : List Char → Option α} {xs : List α} {s rest : List Char} (h : VtkText parse xs s rest) :
    rest.length ≤ s.length := by
  obtain ⟨t, rfl, -⟩ := h
  simp

theorem values_le {ascii : Bool} {d : String} {xs : List V} {s rest : List Char} (h : VtkValues io has ascii d xs s rest) :
    rest.length ≤ s.length := by
  unfold VtkValues at h
  split at h
  · exact text_le h
  · rw [h.2]; simp; omega

theorem ints_le {ascii : Bool} {k : Nat} {xs : List Int} {s rest : List Char} (h : VtkInts ascii k xs s rest) : rest.length ≤ s.length := by
  unfold VtkInts at h
  split at h
  · exact text_le h
  · rw [h.2]; simp; omega

theorem meta_le {s rest : List Char} (h : VtkMeta s rest) : rest.length ≤ s.length := by
  obtain ⟨ls, b, -, -, rfl⟩ := h
  simp

theorem arrays_le {v : Ver} {ascii : Bool} (l : List (String × Arr V)) {s rest : List Char} (h : VtkArrays io has v ascii l s rest) :
    rest.length ≤ s.length := by
  induction l generalizing s with
  | nil => cases h; exact Nat.le_refl _
  | cons x l ih =>
    obtain ⟨s', hx, h⟩ := h
    have h1 := ih h
    obtain ⟨s0, s2, ln, c, n, t, dt, h0, -, -, rfl, -, -, -, -, h8⟩ := hx
    have h2 := values_le h8
    rcases h0 with rfl | ⟨m, s1, -, -, rfl, g3⟩
    · rw [List.length_append, List.length_cons]; omega
    · have h3 := meta_le g3
      rw [List.length_append, List.length_cons] at h3 ⊢
      omega

theorem head_lt {key : String} {args : List (List Char)} {s s' : List Char} (h : VtkHead key args s s') : s'.length < s.length :=
  (head_line h).choose_spec.2.2.2

theorem says_lt {v : Ver} {ascii : Bool} {num : Option Nat} (x : VtkSec V) {s rest : List Char} (h : x.Says io has v ascii num s rest) :
    rest.length < s.length := by
  cases x with
  | blank => obtain ⟨b, -, rfl⟩ := h; simp; omega
  | metadata =>
    obtain ⟨e, s', h, hm⟩ := h
    exact Nat.lt_of_le_of_lt (meta_le hm) (head_lt h)
  | points a =>
    obtain ⟨w, t, e, d, s', h, -, -, -, hv⟩ := h
    exact Nat.lt_of_le_of_lt (values_le hv) (head_lt h)
  | cells cs =>
    cases v with
    | v42 =>
      obtain ⟨w1, w2, e, s', h, -, -, hv⟩ := h
      exact Nat.lt_of_le_of_lt (ints_le hv) (head_lt h)
    | v51 =>
      obtain ⟨w1, w2, e, s', h, -, -, hv⟩ := h
      obtain ⟨l1, k1, t1, e1, d1, s1, s2, l2, k2, t2, e2, d2, s3, -, -, -, -, rfl, a5, -, -, -, -, rfl, b5⟩ := hv
      have h1 := ints_le a5
      have h2 := ints_le b5
      have h3 := head_lt h
      rw [List.length_append, List.length_cons] at h1 h3
      omega
  | types l =>
    obtain ⟨w, e, s', h, -, hv⟩ := h
    refine Nat.lt_of_le_of_lt ?_ (head_lt h)
    split at hv
    · exact text_le hv
    · rcases hv.2 with ⟨b, -, rfl⟩ | ⟨rfl, -⟩
      · rw [List.length_append, List.length_append, List.length_cons]; omega
      · simp
  | pointData n => obtain ⟨w, e, h, -⟩ := h; exact head_lt h
  | cellData n => obtain ⟨w, e, h, -⟩ := h; exact head_lt h
  | arrays l =>
    obtain ⟨w1, w2, e, s', h, -, hv⟩ := h
    exact Nat.lt_of_le_of_lt (arrays_le l hv) (head_lt h)
  | scalars name a =>
    obtain ⟨t, e, d, s', l, lt, tn, s'', h, -, -, -, -, -, -, rfl, hv⟩ := h
    have h1 := values_le hv
    have h2 := head_lt h
    rw [List.length_append, List.length_cons] at h2
    omega
  | vectors name a =>
    obtain ⟨t, e, d, s', h, -, -, hv⟩ := h
    exact Nat.lt_of_le_of_lt (values_le hv) (head_lt h)
  | tensors name a =>
    obtain ⟨t, e, d, s', h, -, -, hv⟩ := h
    exact Nat.lt_of_le_of_lt (values_le hv) (head_lt h)
  | lookup n =>
    obtain ⟨w1, w2, e, s', h, -, xs, -, hv⟩ := h
    exact Nat.lt_of_le_of_lt (text_le hv) (head_lt h)
  | colors k =>
    obtain ⟨w1, w2, e, b, h, -, -⟩ := h
    have := head_lt h
    rw [List.length_append] at this
    omega
  | dims x y z => obtain ⟨w1, w2, w3, h, -⟩ := h; exact head_lt h
  | floats key x y z => obtain ⟨w1, w2, w3, h, -⟩ := h; exact head_lt h
  | coords key a =>
    obtain ⟨w, t, e, d, s', h, -, -, -, hv⟩ := h
    exact Nat.lt_of_le_of_lt (values_le hv) (head_lt h)

theorem secs_le {v : Ver} {ascii : Bool} {t : String} {c : VtkCtx} (l : List (VtkSec V)) {s : List Char}
    (h : vtkSays io has v ascii t c l s) : l.length ≤ s.length := by
  induction l generalizing c s with
  | nil => simp
  | cons x l ih =>
    obtain ⟨s', -, hx, h⟩ := h
    have h1 := ih h
    have h2 := says_lt x hx
    rw [List.length_cons]
    omega

theorem loop_secs (hio : VtkLaws io has) {v : Ver} {ascii : Bool} {t : String} (ht : (Types.find datasetInfos t).isSome) {c : VtkCtx}
    {info : Info V} (hf : Fits t c info) (l : List (VtkSec V)) {s : List Char} (h : vtkSays io has v ascii t c l s) (n : Nat) :
    readLoop io v ascii (n + 1 + l.length) info s = .ok (l.foldl (step v) info) := by
  induction l generalizing c info s with
  | nil => cases h; rfl
  | cons x l ih =>
    obtain ⟨s', hok, hx, h⟩ := h
    rw [List.length_cons, ← Nat.add_assoc, loop_sec hio hf ht x hok hx, List.foldl_cons]
    exact ih (fits_step v hf x) h

/-! ### What is in the end -/

theorem last_proj {S X Y : Type} (f : S → X → S) (p : S → Option Y) (sel : X → Option Y) (h : ∀ s x, p (f s x) = (sel x).or (p s))
    (l : List X) (s : S) : p (l.foldl f s) = ((l.filterMap sel).getLast?).or (p s) := by
  induction l generalizing s with
  | nil => simp
  | cons x l ih =>
    rw [List.foldl_cons, ih, h, List.filterMap_cons]
    cases hx : sel x with
    | none => simp
    | some y =>
      simp only [List.getLast?_cons, Option.some_or]
      cases (List.filterMap sel l).getLast? <;> simp

theorem addNamed_same (info : Info V) (l : List (String × Arr V)) :
    (addNamed info l).points = info.points ∧ (addNamed info l).conn = info.conn ∧ (addNamed info l).offsets = info.offsets ∧
      (addNamed info l).types = info.types ∧ (addNamed info l).type = info.type := by
  unfold addNamed
  split
  · exact ⟨rfl, rfl, rfl, rfl, rfl⟩
  · split
    · exact ⟨rfl, rfl, rfl, rfl, rfl⟩
    · split <;> exact ⟨rfl, rfl, rfl, rfl, rfl⟩

theorem final_points (v : Ver) (l : List (VtkSec V)) (info : Info V) :
    (l.foldl (step v) info).points = (vtkPoints l).or info.points := by
  apply last_proj (step v) (·.points)
  intro s x
  cases x with
  | cells cs => cases v <;> rfl
  | arrays l => exact (addNamed_same s _).1
  | scalars name a => exact (addNamed_same s _).1
  | vectors name a => exact (addNamed_same s _).1
  | tensors name a => exact (addNamed_same s _).1
  | _ => rfl

theorem final_types (v : Ver) (l : List (VtkSec V)) (info : Info V) :
    (l.foldl (step v) info).types = (vtkTypes l).or info.types := by
  apply last_proj (step v) (·.types)
  intro s x
  cases x with
  | cells cs => cases v <;> rfl
  | arrays l => exact (addNamed_same s _).2.2.2.1
  | scalars name a => exact (addNamed_same s _).2.2.2.1
  | vectors name a => exact (addNamed_same s _).2.2.2.1
  | tensors name a => exact (addNamed_same s _).2.2.2.1
  | _ => rfl

theorem filterMap_map_getLast {X Y Z : Type} (sel : X → Option Y) (g : Y → Z) (l : List X) :
    (l.filterMap fun x => (sel x).map g).getLast? = ((l.filterMap sel).getLast?).map g := by
  rw [← List.getLast?_map, List.map_filterMap]

theorem final_conn (v : Ver) (l : List (VtkSec V)) (info : Info V) :
    (l.foldl (step v) info).conn = ((vtkCells l).map fun cs => match v with
      | .v42 => streamOf cs
      | .v51 => connectivityOf cs).or info.conn := by
  unfold vtkCells
  rw [← filterMap_map_getLast]
  apply last_proj (step v) (·.conn)
  intro s x
  cases x with
  | cells cs => cases v <;> rfl
  | arrays l => exact (addNamed_same s _).2.1
  | scalars name a => exact (addNamed_same s _).2.1
  | vectors name a => exact (addNamed_same s _).2.1
  | tensors name a => exact (addNamed_same s _).2.1
  | _ => rfl

theorem final_offsets (l : List (VtkSec V)) (info : Info V) :
    (l.foldl (step .v51) info).offsets = ((vtkCells l).map (endsFrom 0)).or info.offsets := by
  unfold vtkCells
  rw [← filterMap_map_getLast]
  apply last_proj (step .v51) (·.offsets)
  intro s x
  cases x with
  | cells cs => rfl
  | arrays l => exact (addNamed_same s _).2.2.1
  | scalars name a => exact (addNamed_same s _).2.2.1
  | vectors name a => exact (addNamed_same s _).2.2.1
  | tensors name a => exact (addNamed_same s _).2.2.1
  | _ => rfl

theorem final_type (v : Ver) (l : List (VtkSec V)) (info : Info V) : (l.foldl (step v) info).type = info.type := by
  induction l generalizing info with
  | nil => rfl
  | cons x l ih =>
    rw [List.foldl_cons, ih]
    cases x with
    | cells cs => cases v <;> rfl
    | arrays l => exact (addNamed_same info _).2.2.2.2
    | scalars name a => exact (addNamed_same info _).2.2.2.2
    | vectors name a => exact (addNamed_same info _).2.2.2.2
    | tensors name a => exact (addNamed_same info _).2.2.2.2
    | _ => rfl

/-- The dictionary of a target after adding arrays. -/
theorem addNamed_dicts {t : String} {c : VtkCtx} {info : Info V} (hf : Fits t c info) (l : List (String × Arr V)) :
    (addNamed info l).pointData = (if c.target = .point then l else []).foldl (fun d kv => Dict.set d kv.1 kv.2) info.pointData ∧
    (addNamed info l).cellRaw = (if c.target = .cell then l else []).foldl (fun d kv => Dict.set d kv.1 kv.2) info.cellRaw ∧
    (addNamed info l).fieldData = (if c.target = .other then l else []).foldl (fun d kv => Dict.set d kv.1 kv.2) info.fieldData ∧
    (addNamed info l).dataset = (if c.target = .dataset then l else []).foldl (fun d kv => Dict.set d kv.1 (.arr kv.2)) info.dataset := by
  have ha := hf.active
  unfold addNamed
  cases hc : c.target with
  | dataset => rw [hc] at ha; simp only at ha; rw [ha]; exact ⟨rfl, rfl, rfl, rfl⟩
  | point => rw [hc] at ha; simp only at ha; rw [ha]; exact ⟨rfl, rfl, rfl, rfl⟩
  | cell => rw [hc] at ha; simp only at ha; rw [ha]; exact ⟨rfl, rfl, rfl, rfl⟩
  | other =>
    rw [hc] at ha
    simp only [List.mem_cons, List.not_mem_nil, or_false, not_or] at ha
    rw [if_neg ha.2.1, if_neg ha.2.2, if_neg ha.1]
    exact ⟨rfl, rfl, rfl, rfl⟩

theorem step_dicts (v : Ver) {t : String} {c : VtkCtx} {info : Info V} (hf : Fits t c info) (x : VtkSec V) :
    (step v info x).pointData = (if c.target = .point then x.named else []).foldl (fun d kv => Dict.set d kv.1 kv.2) info.pointData ∧
    (step v info x).cellRaw = (if c.target = .cell then x.named else []).foldl (fun d kv => Dict.set d kv.1 kv.2) info.cellRaw ∧
    (step v info x).fieldData = (if c.target = .other then x.named else []).foldl (fun d kv => Dict.set d kv.1 kv.2) info.fieldData := by
  have hn : ∀ (β : Type) (p : Prop) [Decidable p] (d : Dict β) (f : Dict β → String × Arr V → Dict β),
      d = (if p then ([] : List (String × Arr V)) else []).foldl f d := by
    intro β p _ d f
    split <;> rfl
  have ha := fun l => addNamed_dicts hf (info := info) l
  cases x with
  | cells cs => cases v <;> exact ⟨hn _ _ _ _, hn _ _ _ _, hn _ _ _ _⟩
  | arrays l => exact ⟨(ha l).1, (ha l).2.1, (ha l).2.2.1⟩
  | scalars name a => exact ⟨(ha _).1, (ha _).2.1, (ha _).2.2.1⟩
  | vectors name a => exact ⟨(ha _).1, (ha _).2.1, (ha _).2.2.1⟩
  | tensors name a => exact ⟨(ha _).1, (ha _).2.1, (ha _).2.2.1⟩
  | _ => exact ⟨hn _ _ _ _, hn _ _ _ _, hn _ _ _ _⟩

theorem final_dicts (v : Ver) {t : String} {c : VtkCtx} {info : Info V} (hf : Fits t c info) (l : List (VtkSec V)) :
    (l.foldl (step v) info).pointData = (vtkArraysFor .point c l).foldl (fun d kv => Dict.set d kv.1 kv.2) info.pointData ∧
    (l.foldl (step v) info).cellRaw = (vtkArraysFor .cell c l).foldl (fun d kv => Dict.set d kv.1 kv.2) info.cellRaw ∧
    (l.foldl (step v) info).fieldData = (vtkArraysFor .other c l).foldl (fun d kv => Dict.set d kv.1 kv.2) info.fieldData := by
  induction l generalizing c info with
  | nil => exact ⟨rfl, rfl, rfl⟩
  | cons x l ih =>
    obtain ⟨h1, h2, h3⟩ := ih (fits_step v hf x)
    obtain ⟨g1, g2, g3⟩ := step_dicts v hf x
    rw [List.foldl_cons, h1, h2, h3, g1, g2, g3]
    simp only [vtkArraysFor, List.foldl_append]
    exact ⟨trivial, trivial, trivial⟩

/-! ### The beginning of the file -/

theorem read_header (hio : VtkLaws io has) {v : Ver} {ascii : Bool} {t : String} (ht : (Types.find datasetInfos t).isSome)
    {l : List (VtkSec V)} {s : List Char} (h : vtkFileSays io has v ascii t l s) :
    ∃ info0 : Info V, info0 = { active := "DATASET", type := some t } ∧ read io s = finish io v (l.foldl (step v) info0) := by
  obtain ⟨version, title, fmt, e, s1, s2, h1, h2, h3, h4, h5, rfl, ⟨w, hw, hd⟩, hs⟩ := h
  refine ⟨_, rfl, ?_⟩
  unfold read
  have n1 : '\n' ∉ "# vtk DataFile Version ".toList ++ version := by
    rw [List.mem_append, not_or]
    exact ⟨by decide, h1.no_newline⟩
  have e1 : strip ("# vtk DataFile Version ".toList ++ version ++ ['\n']) = "# vtk DataFile Version ".toList ++ version := by
    apply strip_trim _ _ ['\n'] (by intro c hc; simp only [List.mem_singleton] at hc; subst hc; decide)
    · intro c hc
      have : c = '#' := by simpa using hc.symm
      subst this
      decide
    · intro c hc
      obtain ⟨a, hane⟩ := List.getLast?_isSome.2 h1.1 |> Option.isSome_iff_exists.1
      rw [List.getLast?_append, hane] at hc
      simp only [Option.some_or, Option.some.injEq] at hc
      subst hc
      exact h1.2 _ (List.mem_of_getLast? hane)
  have e2 : linesText ["# vtk DataFile Version ".toList ++ version, title, fmt] ++ s1 =
      ("# vtk DataFile Version ".toList ++ version) ++ '\n' :: (title ++ '\n' :: (fmt ++ '\n' :: s1)) := by
    simp [linesText]
  rw [e2, readLine_append _ _ n1]
  simp only [e1]
  have e3 : ("# vtk DataFile Version ".toList ++ version).drop 23 = version := by
    rw [List.drop_append_of_le_length (by decide)]
    rfl
  rw [if_neg (by
    rw [not_not]
    exact ⟨' ' :: version, by simp⟩), e3]
  have e4 : (if version = "5.1".toList then Ver.v51 else Ver.v42) = v := by
    cases v with
    | v51 => rw [if_pos (h2.2 rfl)]
    | v42 => rw [if_neg (fun e => by cases h2.1 e)]
  rw [e4]
  unfold readBuffer
  rw [readLine_append _ _ h3]
  simp only
  rw [readLine_append _ _ h4]
  simp only [strip_nl', h5]
  have hb : ((if ascii then "ASCII" else "BINARY").toList = "ASCII".toList) ↔ ascii = true := by cases ascii <;> decide
  rw [if_neg (by cases ascii <;> decide)]
  have hdec : decide ((if ascii then "ASCII" else "BINARY").toList = "ASCII".toList) = ascii := by cases ascii <;> decide
  rw [hdec]
  have hl := head_lt hd
  have hle := secs_le l hs
  obtain ⟨n, hn⟩ := Nat.exists_eq_add_of_le (show 1 + 1 + l.length ≤ s1.length + 1 by omega)
  rw [show s1.length + 1 = (n + 1 + l.length) + 1 by omega]
  rw [loop_section io v ascii _ _ { active := "DATASET", type := some t } hd (by decide) (by
    intro w0
    unfold readSection
    rw [if_neg (by decide), if_pos rfl]
    simp only [List.getElem?_cons_succ, List.getElem?_cons_zero, hw, String.ofList_toList]
    cases hx : Types.find datasetInfos t with
    | none => rw [hx] at ht; cases ht
    | some _ => rfl)]
  rw [loop_secs hio ht (c := {}) ⟨rfl, rfl, by intro n hn; cases hn⟩ l hs n]

end Meshio.VtkFile
