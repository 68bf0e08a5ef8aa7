/-
Properties C08-C11: registry, file type deduction, read, write.
-/
import Verif.Proofs.Helpers

namespace Meshio.Props
open Meshio Spec
variable {Rd Wr : Type}

/-! ## C08 Format registry -/

/-- Perform one registry call. -/
def runReg (r : Registry Rd Wr) : RegOp Rd Wr → Registry Rd Wr
  | .register n es rd wm => r.register n es rd wm
  | .deregister n => r.deregister n

/-- The registry after a history of calls. -/
def regAfter (h : List (RegOp Rd Wr)) : Registry Rd Wr := h.foldl runReg Registry.init

theorem regAfter_snoc (h : List (RegOp Rd Wr)) (op : RegOp Rd Wr) :
    regAfter (h ++ [op]) = runReg (regAfter h) op := by
  simp [regAfter, List.foldl_append]

/-- Induction over histories, last call first. -/
theorem snocInd {α : Type} {p : List α → Prop} (h0 : p []) (h1 : ∀ l a, p l → p (l ++ [a]))
    (l : List α) : p l := by
  have : ∀ l : List α, p l.reverse := by
    intro l
    induction l with
    | nil => exact h0
    | cons a l ih => rw [List.reverse_cons]; exact h1 _ _ ih
  have h := this l.reverse
  rwa [List.reverse_reverse] at h

/-- C08: the formats tried for an extension are exactly those the history of
registrations and deregistrations leaves. -/
theorem C08_candidates (h : List (RegOp Rd Wr)) (e : String) :
    ((regAfter h).exts.get? e).getD [] = candidates h e := by
  induction h using snocInd with
  | h0 => rfl
  | h1 h op ih =>
    rw [regAfter_snoc]
    simp only [candidates, List.foldl_append, List.foldl_cons, List.foldl_nil] at ih ⊢
    rw [← ih]
    cases op with
    | register n es rd wm => exact registerExts_get? _ _ _ _
    | deregister n =>
      simp only [runReg, Registry.deregister, candStep]
      rw [get?_map_val _ (fun v : List String => if n ∈ v then v.erase n else v)]
      cases (regAfter h).exts.get? e with
      | none => simp
      | some l => simp [ite_mem_erase]

/-- C08: the candidates appear in registration order. -/
theorem C08_registration_order (h : List (RegOp Rd Wr)) (e : String) :
    (((regAfter h).exts.get? e).getD []).Sublist (registrations h e) := by
  rw [C08_candidates]
  induction h using snocInd with
  | h0 => exact .slnil
  | h1 h op ih =>
    simp only [candidates, registrations, List.foldl_append, List.foldl_cons, List.foldl_nil,
      List.flatMap_append, List.flatMap_cons, List.flatMap_nil, List.append_nil] at ih ⊢
    cases op with
    | register n es rd wm => exact ih.append (List.Sublist.refl _)
    | deregister n =>
      simp only [candStep, List.append_nil]
      exact List.erase_sublist.trans ih

/-- C08: a reader lookup returns the last registered reader, none after deregistration. -/
theorem C08_reader (h : List (RegOp Rd Wr)) (f : String) :
    (regAfter h).readers.get? f = lastReader h.reverse f := by
  have : (regAfter h).readers.Ok ∧ ∀ f, (regAfter h).readers.get? f = lastReader h.reverse f := by
    induction h using snocInd with
    | h0 => exact ⟨by simp [regAfter, Registry.init, Dict.Ok, Dict.keys], fun _ => rfl⟩
    | h1 h op ih =>
      rw [regAfter_snoc, List.reverse_append]
      simp only [List.reverse_cons, List.reverse_nil, List.nil_append, List.cons_append]
      cases op with
      | register n es rd wm =>
        cases rd with
        | none => exact ih
        | some rd =>
          refine ⟨ih.1.set n rd, fun f => ?_⟩
          simp only [runReg, Registry.register, lastReader, Dict.get?_set]
          rw [ih.2]
          by_cases hf : n = f
          · subst hf; simp
          · have : ¬ f = n := fun x => hf x.symm
            simp [hf, this]
      | deregister n =>
        simp only [runReg, Registry.deregister, has_erase, lastReader]
        refine ⟨ih.1.erase n, fun f => ?_⟩
        rw [Dict.get?_erase ih.1, ih.2]
        by_cases hf : n = f
        · subst hf; simp
        · have : ¬ f = n := fun x => hf x.symm
          simp [hf, this]
  exact this.2 f

/-- C08: a writer lookup returns the last registered writer for that key. -/
theorem C08_writer (h : List (RegOp Rd Wr)) (f : String)
    (hok : ∀ n es rd wm, RegOp.register n es rd wm ∈ h → wm.Ok) :
    (regAfter h).writers.get? f = lastWriter h.reverse f := by
  have : (regAfter h).writers.Ok ∧ ∀ f, (regAfter h).writers.get? f = lastWriter h.reverse f := by
    induction h using snocInd with
    | h0 => exact ⟨by simp [regAfter, Registry.init, Dict.Ok, Dict.keys], fun _ => rfl⟩
    | h1 h op ih =>
      have ih := ih (fun n es rd wm hm => hok n es rd wm (List.mem_append_left _ hm))
      rw [regAfter_snoc, List.reverse_append]
      simp only [List.reverse_cons, List.reverse_nil, List.nil_append, List.cons_append]
      cases op with
      | register n es rd wm =>
        refine ⟨ok_update ih.1 wm, fun f => ?_⟩
        simp only [runReg, Registry.register, lastWriter]
        rw [get?_update _ _ (hok n es rd wm (by simp)), ih.2]
        cases wm.get? f <;> rfl
      | deregister n =>
        simp only [runReg, Registry.deregister, has_erase, lastWriter]
        refine ⟨ih.1.erase n, fun f => ?_⟩
        rw [Dict.get?_erase ih.1, ih.2]
        by_cases hf : n = f
        · subst hf; simp
        · have : ¬ f = n := fun x => hf x.symm
          simp [hf, this]
  exact this.2 f

/-- C08: deregistering a format makes it unknown by name, and unreachable by every
extension for which it was registered (net) at most once; other formats keep their
place. -/
theorem C08_deregister (h : List (RegOp Rd Wr)) (n : String)
    (hok : ∀ n es rd wm, RegOp.register n es rd wm ∈ h → wm.Ok) :
    (regAfter (h ++ [.deregister n])).readers.get? n = none ∧
    (regAfter (h ++ [.deregister n])).writers.get? n = none ∧
    (∀ e, (candidates h e).count n ≤ 1 →
      n ∉ ((regAfter (h ++ [.deregister n])).exts.get? e).getD []) ∧
    (∀ e, (((regAfter (h ++ [.deregister n])).exts.get? e).getD []).filter (· ≠ n) =
      (candidates h e).filter (· ≠ n)) := by
  refine ⟨?_, ?_, ?_, ?_⟩
  · rw [C08_reader]; simp [lastReader]
  · rw [C08_writer]
    · simp [lastWriter]
    · intro n' es rd wm hm
      rcases List.mem_append.mp hm with hm | hm
      · exact hok n' es rd wm hm
      · simp at hm
  · intro e hc
    rw [C08_candidates]
    simp only [candidates, List.foldl_append, List.foldl_cons, List.foldl_nil, candStep] at hc ⊢
    rw [← List.count_eq_zero, List.count_erase_self]
    omega
  · intro e
    rw [C08_candidates]
    simp only [candidates, List.foldl_append, List.foldl_cons, List.foldl_nil, candStep]
    generalize List.foldl (candStep e) [] h = l
    induction l with
    | nil => rfl
    | cons a l ih =>
      by_cases ha : a = n
      · subst ha; simp
      · rw [List.erase_cons_tail (by simpa using ha)]
        simp only [List.filter_cons, ih]

/-- The unconditional clause "deregistering makes a format unreachable by its
extensions" fails for a format registered twice for one extension. -/
theorem C08_double_registration_false :
    ¬ ∀ (h : List (RegOp Nat Nat)) (n e : String),
      n ∉ ((regAfter (h ++ [.deregister n])).exts.get? e).getD [] := by
  intro hall
  have := hall [.register "x" [".x"] (some 0) [], .register "x" [".x"] (some 1) []] "x" ".x"
  revert this; decide

example : candidates (Rd := Nat) (Wr := Nat)
    [.register "gmsh" [".msh"] (some 0) [("gmsh22", 0)], .register "ansys" [".msh"] (some 1) [],
     .deregister "gmsh", .register "gmsh" [".msh", ".m"] (some 2) []] ".msh" = ["ansys", "gmsh"] := by
  decide

/-! ## C09 File type deduction -/

/-- C09: the candidates are the formats of every extension of the name, shortest
first, looked up in lower case; ReadError if there are none. -/
theorem C09_deduction (exts : Dict (List String)) (name : List Char) :
    filetypesFromPath exts name =
      (let out := (extensions name).flatMap
        (fun e => (exts.get? (String.ofList (lowerS e))).getD [])
       if out = [] then .error .readError else .ok out) := by
  unfold filetypesFromPath
  rw [filetypesLoop_extensions]

/-- C09: a successful deduction is never empty, and each result is registered for
some extension of the name. -/
theorem C09_nonempty (exts : Dict (List String)) (name : List Char) (l : List String)
    (h : filetypesFromPath exts name = .ok l) :
    l ≠ [] ∧ ∀ f ∈ l, ∃ e ∈ extensions name, ∃ fs,
      exts.get? (String.ofList (lowerS e)) = some fs ∧ f ∈ fs := by
  rw [C09_deduction] at h
  simp only at h
  split at h
  · cases h
  · next hne =>
    cases h
    refine ⟨hne, ?_⟩
    intro f hf
    obtain ⟨e, he, hfe⟩ := List.mem_flatMap.mp hf
    refine ⟨e, he, ?_⟩
    cases hg : exts.get? (String.ofList (lowerS e)) with
    | none => rw [hg] at hfe; simp at hfe
    | some fs => rw [hg] at hfe; exact ⟨fs, rfl, hfe⟩

/-- C09: the deduction does not depend on letter case (ASCII). -/
theorem C09_case_insensitive (exts : Dict (List String)) (name name' : List Char)
    (h : lowerS name = lowerS name') :
    filetypesFromPath exts name = filetypesFromPath exts name' := by
  have key : ∀ n, (extensions n).flatMap (fun e => (exts.get? (String.ofList (lowerS e))).getD []) =
      (extensions (lowerS n)).flatMap (fun e => (exts.get? (String.ofList (lowerS e))).getD []) := by
    intro n
    rw [extensions_lower, List.flatMap_map]
    simp only [lowerS_lowerS]
  rw [C09_deduction, C09_deduction, key name, key name', h]

example : filetypesFromPath [(".gz", ["gz"]), (".vtk.gz", ["vtkgz"]), (".vtk", ["vtk"])]
    "a.b.VTK.gz".toList = .ok ["gz", "vtkgz"] := by decide
example : filetypesFromPath [(".vtk", ["vtk"])] ".vtk".toList = .error .readError := by decide

/-! ## C10 read -/

/-- C10: complete description of reading an existing path with candidate formats
`cands`: (1) the first candidate whose reader does not raise ReadError decides, with
its mesh or (2) its other exception, and no later reader is called; (3) a candidate
without a reader raises ReadError; (4) if all readers raise ReadError the process
exits with status 1. -/
theorem C10_read_path {M : Type} (r : Registry (Reader M) Wr) (name : List Char)
    (fmt : Option String) (cands : List String) (hc : Considered r.exts name fmt cands) :
    (∃ i f rd m, cands[i]? = some f ∧ r.readers.get? f = some rd ∧ rd (.path name true) = .ok m ∧
        (∀ g ∈ cands.take i, Rejects r.readers (.path name true) g) ∧
        readMesh r (.path name true) fmt = ⟨.ok m, cands.take (i + 1)⟩) ∨
    (∃ i f rd e, cands[i]? = some f ∧ r.readers.get? f = some rd ∧
        rd (.path name true) = .error e ∧ e ≠ .readError ∧
        (∀ g ∈ cands.take i, Rejects r.readers (.path name true) g) ∧
        readMesh r (.path name true) fmt = ⟨.error e, cands.take (i + 1)⟩) ∨
    (∃ i f, cands[i]? = some f ∧ r.readers.get? f = none ∧
        (∀ g ∈ cands.take i, Rejects r.readers (.path name true) g) ∧
        readMesh r (.path name true) fmt = ⟨.error .readError, cands.take i⟩) ∨
    ((∀ g ∈ cands, Rejects r.readers (.path name true) g) ∧
        readMesh r (.path name true) fmt = ⟨.error (.exit 1), cands⟩) := by
  have hread : readMesh r (.path name true) fmt = readLoop r.readers (.path name true) cands [] := by
    rcases hc with ⟨f, h1, h2, h3⟩ | ⟨h1, h2⟩
    · subst h1; subst h3; simp [readMesh, readFile, truthy, h2]
    · rcases h1 with h1 | h1 <;> subst h1 <;> simp [readMesh, readFile, truthy, h2]
  rw [hread]
  simpa using readLoop_spec r.readers (.path name true) cands []

/-- C10: a missing file raises ReadError and no reader is called. -/
theorem C10_missing_file {M : Type} (r : Registry (Reader M) Wr) (name : List Char)
    (fmt : Option String) : readMesh r (.path name false) fmt = ⟨.error .readError, []⟩ := rfl

/-- C10: an explicitly given format is the only one tried. -/
theorem C10_explicit_format {M : Type} (r : Registry (Reader M) Wr) (name : List Char)
    (f : String) (hf : f ≠ "") (ex : Bool) :
    ∀ g ∈ (readMesh r (.path name ex) (some f)).calls, g = f := by
  cases ex with
  | false => intro g hg; simp [C10_missing_file] at hg
  | true =>
    have hc : Considered r.exts name (some f) [f] := .inl ⟨f, rfl, hf, rfl⟩
    intro g hg
    have hsub : ∀ i : Nat, ∀ x ∈ List.take i [f], x = f := by
      intro i x hx; simpa using List.mem_of_mem_take hx
    rcases C10_read_path r name (some f) [f] hc with ⟨i, _, _, _, _, _, _, _, h⟩ |
      ⟨i, _, _, _, _, _, _, _, _, h⟩ | ⟨i, _, _, _, _, h⟩ | ⟨_, h⟩ <;> rw [h] at hg
    · exact hsub _ g hg
    · exact hsub _ g hg
    · exact hsub _ g hg
    · simpa using hg

/-- C10: without a format and without a known extension ReadError is raised, and no
reader is called. -/
theorem C10_no_candidates {M : Type} (r : Registry (Reader M) Wr) (name : List Char) (e : Err)
    (h : filetypesFromPath r.exts name = .error e) :
    e = .readError ∧ readMesh r (.path name true) none = ⟨.error .readError, []⟩ := by
  have he : e = .readError := by
    unfold filetypesFromPath at h
    simp only at h
    split at h <;> cases h
    rfl
  subst he
  simp [readMesh, readFile, truthy, h]

/-- C10: reading from a buffer calls the reader of the given format, and raises
ReadError without calling one if the format is missing, unknown or "tetgen". -/
theorem C10_buffer {M : Type} (r : Registry (Reader M) Wr) (fmt : Option String) :
    (∃ f rd, fmt = some f ∧ f ≠ "tetgen" ∧ r.readers.get? f = some rd ∧
      readMesh r .buffer fmt = ⟨rd .buffer, [f]⟩) ∨
    ((fmt = none ∨ fmt = some "tetgen" ∨ ∃ f, fmt = some f ∧ r.readers.get? f = none) ∧
      readMesh r .buffer fmt = ⟨.error .readError, []⟩) := by
  cases fmt with
  | none => right; exact ⟨.inl rfl, rfl⟩
  | some f =>
    by_cases hf : f = "tetgen"
    · right; subst hf; exact ⟨.inr (.inl rfl), rfl⟩
    · cases hr : r.readers.get? f with
      | none =>
        right; exact ⟨.inr (.inr ⟨f, rfl, hr⟩), by simp [readMesh, readBuffer, hf, hr]⟩
      | some rd =>
        left; exact ⟨f, rd, rfl, hf, hr, by simp [readMesh, readBuffer, hf, hr]⟩

/-- Two formats share `.msh`: the first rejects the file, the second reads it. -/
def demoReg : Registry (Reader Nat) Nat where
  exts := [(".msh", ["gmsh", "ansys", "freefem"])]
  readers := [("gmsh", fun _ => .error .readError), ("ansys", fun _ => .ok 7),
    ("freefem", fun _ => .error .valueError)]
  writers := []

example : Considered demoReg.exts "a.msh".toList none ["gmsh", "ansys", "freefem"] ∧
    readMesh demoReg (.path "a.msh".toList true) none = ⟨.ok 7, ["gmsh", "ansys"]⟩ := by
  refine ⟨.inr ⟨.inl rfl, by decide⟩, by decide⟩

/-! ## C11 write -/

/-- The format `write` uses is the given one, or the first deduced one. -/
theorem writeFormat_ok_iff (exts : Dict (List String)) (t : Target) (fmt : Option String)
    (f : String) : writeFormat exts t fmt = .ok f ↔ Chosen exts t fmt f := by
  cases t with
  | buffer =>
    cases fmt with
    | none => simp [writeFormat, Chosen]
    | some g =>
      by_cases hg : g = "tetgen"
      · subst hg
        simp only [writeFormat, Chosen]
        constructor
        · intro h; cases h
        · rintro ⟨h1, h2⟩; cases h1; exact absurd rfl h2
      · simp only [writeFormat, Chosen, if_neg hg]
        constructor
        · intro h; cases h; exact ⟨rfl, hg⟩
        · rintro ⟨h1, h2⟩; cases h1; rfl
  | path name ex =>
    have hd : ∀ x : Res (List String),
        firstOf x = .ok f ↔ ∃ fs, x = .ok (f :: fs) := by
      intro x
      cases x with
      | error e => simp [firstOf]
      | ok l => cases l with
        | nil => simp [firstOf]
        | cons a l => simp [firstOf]
    cases fmt with
    | none => simp only [writeFormat, truthy, Chosen]; rw [hd]; simp
    | some g =>
      by_cases hg : g = ""
      · subst hg
        simp only [writeFormat, truthy, Chosen, if_true]; rw [hd]
        constructor
        · intro h; exact .inr ⟨.inr trivial, h⟩
        · rintro (⟨h1, h2⟩ | ⟨_, h⟩)
          · cases h1; exact absurd rfl h2
          · exact h
      · simp only [writeFormat, truthy, Chosen, if_neg hg]
        constructor
        · intro h; cases h; exact .inl ⟨rfl, hg⟩
        · rintro (⟨h1, h2⟩ | ⟨h | h, _⟩)
          · cases h1; rfl
          · cases h
          · cases h; exact absurd rfl hg

variable {P R A : Type}

/-- C11: the writer of format `f` is called if and only if `f` is the chosen format, is
known, and every block of a known type has the right number of columns; then the
result is what the writer returns for the unchanged mesh. -/
theorem C11_calls_iff (r : Registry Rd (Target → Mesh P R → Res A)) (t : Target) (m : Mesh P R)
    (fmt : Option String) (f : String) :
    (f ∈ (writeMesh r t m fmt).calls) ↔
      (Chosen r.exts t fmt f ∧ (∃ w, r.writers.get? f = some w) ∧ ColumnsOk m.cells) := by
  rw [← writeFormat_ok_iff]
  unfold writeMesh
  cases hw : writeFormat r.exts t fmt with
  | error e => simp
  | ok g =>
    simp only
    cases hg : r.writers.get? g with
    | none =>
      simp only [List.not_mem_nil, false_iff]
      rintro ⟨h1, ⟨w, h2⟩, _⟩
      cases h1; rw [hg] at h2; cases h2
    | some w =>
      simp only
      rw [← checkBlocks_ok_iff]
      cases hc : checkBlocks m.cells with
      | error e => simp
      | ok u =>
        simp only [List.mem_singleton, and_true]
        constructor
        · intro h; subst h; exact ⟨rfl, w, hg⟩
        · rintro ⟨h1, _⟩; cases h1; rfl

/-- C11: a successful decision calls exactly one writer once, with the caller's mesh. -/
theorem C11_result (r : Registry Rd (Target → Mesh P R → Res A)) (t : Target) (m : Mesh P R)
    (fmt : Option String) (f : String) (w : Target → Mesh P R → Res A)
    (hf : Chosen r.exts t fmt f) (hw : r.writers.get? f = some w) (hc : ColumnsOk m.cells) :
    writeMesh r t m fmt = ⟨w t m, [f]⟩ := by
  have h1 := (writeFormat_ok_iff r.exts t fmt f).mpr hf
  have h2 := (checkBlocks_ok_iff m.cells).mpr hc
  simp [writeMesh, h1, hw, h2]

/-- The full error clause of C11: if no writer is called, WriteError is raised. -/
def C11_error_statement : Prop :=
  ∀ (r : Registry Nat (Target → Mesh Nat Nat → Res Nat)) (t : Target) (m : Mesh Nat Nat)
    (fmt : Option String), (writeMesh r t m fmt).calls = [] →
    (writeMesh r t m fmt).result = .error .writeError

/-- It is false of the code: an unknown extension raises ReadError on writing. -/
theorem C11_error_false : ¬ C11_error_statement := by
  intro h
  have := h Registry.init (.path "a.xyz".toList false) ⟨[], [], [], [], [], []⟩ none (by decide)
  revert this; decide

/-- C11: if no writer is called, an exception is raised: ReadError exactly if the
format had to be deduced and could not be, IndexError only for a block of a known
type whose array is one-dimensional, else WriteError (missing: WriteError in those
two cases). -/
theorem C11_error_partial (r : Registry Rd (Target → Mesh P R → Res A)) (t : Target) (m : Mesh P R)
    (fmt : Option String) (h : (writeMesh r t m fmt).calls = []) :
    (writeMesh r t m fmt).result = .error .writeError ∨
    ((writeMesh r t m fmt).result = .error .readError ∧ ∃ name ex, t = .path name ex ∧
      (fmt = none ∨ fmt = some "") ∧ filetypesFromPath r.exts name = .error .readError) ∨
    ((writeMesh r t m fmt).result = .error .indexError ∧ ∃ c ∈ m.cells, c.data.tail = [] ∧
      ∃ k, numNodesPerCell.get? c.type = some k) := by
  revert h
  unfold writeMesh
  cases hw : writeFormat r.exts t fmt with
  | error e =>
    intro _
    simp only [Except.error.injEq]
    cases t with
    | buffer =>
      left
      simp only [writeFormat] at hw
      split at hw
      · cases hw; rfl
      · split at hw <;> cases hw; rfl
    | path name ex =>
      right; left
      simp only [writeFormat] at hw
      split at hw
      · cases hw
      · next ht =>
        have hfmt : fmt = none ∨ fmt = some "" := by
          cases fmt with
          | none => exact .inl rfl
          | some g =>
            right
            simp only [truthy] at ht
            split at ht
            · next hg => rw [hg]
            · cases ht
        have herr : ∀ e', filetypesFromPath r.exts name = .error e' → e' = .readError := by
          intro e' h'
          unfold filetypesFromPath at h'
          simp only at h'
          split at h' <;> cases h'
          rfl
        unfold firstOf at hw
        split at hw
        · next e' he' =>
          cases hw
          have hre := herr _ he'
          rw [hre] at he'
          exact ⟨hre, name, ex, rfl, hfmt, he'⟩
        · next hnil => exact absurd rfl (C09_nonempty _ _ _ hnil).1
        · cases hw
  | ok g =>
    simp only
    cases hg : r.writers.get? g with
    | none => intro _; left; rfl
    | some w =>
      simp only
      cases hc : checkBlocks m.cells with
      | error e =>
        intro _
        simp only [Except.error.injEq]
        rcases checkBlocks_error hc with h | ⟨h, h'⟩
        · exact .inl h
        · exact .inr (.inr ⟨h, h'⟩)
      | ok u => intro h; simp at h

/-- C11 for `write_points_cells`: nothing is written unless the mesh can be built. -/
theorem C11_write_points_cells (r : Registry Rd (Target → Mesh P R → Res A)) (t : Target)
    (points : List P) (cells : List (String × NArr (List Int))) (pd : Dict (DataArr R))
    (cd : Dict (List (DataArr R))) (ps : Dict (List Nat))
    (cs : Dict (List (Option (List Nat)))) (fmt : Option String) (f : String) :
    f ∈ (writePointsCells r t points cells pd cd ps cs fmt).calls ↔
      ∃ m, Mesh.new points cells pd cd ps cs = .ok m ∧ Chosen r.exts t fmt f ∧
        (∃ w, r.writers.get? f = some w) ∧ ColumnsOk m.cells := by
  unfold writePointsCells
  cases hm : Mesh.new points cells pd cd ps cs with
  | error e => simp
  | ok m => simp [C11_calls_iff]

example : Chosen [(".vtk", ["vtk"])] (.path "a.vtk".toList false) none "vtk" ∧
    ColumnsOk [⟨"triangle", ⟨[3], [[0, 1, 2]]⟩⟩, ⟨"polygon", ⟨[5], []⟩⟩] := by
  refine ⟨.inr ⟨.inl rfl, [], by decide⟩, ?_⟩
  rw [← checkBlocks_ok_iff]
  decide

end Meshio.Props
