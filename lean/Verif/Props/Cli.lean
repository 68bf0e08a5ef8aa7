/-
C69: the command line tools that rewrite a file in place.
-/
import Verif.Spec.Cli
import Verif.Props.Helpers
import Verif.Model.Ansys
namespace Meshio.Props
open Meshio Meshio.Cli Meshio.Spec

variable {M Wr : Type}

theorem args_table (c : Command) (fmt : String) : c.args fmt = ((meaning c).find? (fun e => e.1 = fmt)).map (·.2) := by
  cases c with
  | compress max =>
    cases max <;>
    · simp only [Command.args, compressArgs, meaning, compressMeaning, flagFormats, gzip, List.map_cons, List.map_nil, List.cons_append, List.nil_append,
        List.find?_cons, List.find?_nil, Bool.false_eq_true, if_true, if_false]
      by_cases h1 : fmt = "ansys"; · subst h1; rfl
      by_cases h2 : fmt = "cgns"; · subst h2; rfl
      by_cases h3 : fmt = "gmsh"; · subst h3; rfl
      by_cases h4 : fmt = "h5m"; · subst h4; rfl
      by_cases h5 : fmt = "mdpa"; · subst h5; rfl
      by_cases h6 : fmt = "ply"; · subst h6; rfl
      by_cases h7 : fmt = "stl"; · subst h7; rfl
      by_cases h8 : fmt = "vtk"; · subst h8; rfl
      by_cases h9 : fmt = "vtu"; · subst h9; rfl
      by_cases h10 : fmt = "xdmf"; · subst h10; rfl
      simp [h1, h2, h3, h4, h5, h6, h7, h8, h9, h10, Ne.symm h1, Ne.symm h2, Ne.symm h3, Ne.symm h4, Ne.symm h5, Ne.symm h6, Ne.symm h7, Ne.symm h8, Ne.symm h9, Ne.symm h10]
  | decompress =>
      simp only [Command.args, decompressArgs, meaning, decompressMeaning, List.find?_cons, List.find?_nil]
      by_cases h2 : fmt = "cgns"; · subst h2; rfl
      by_cases h4 : fmt = "h5m"; · subst h4; rfl
      by_cases h9 : fmt = "vtu"; · subst h9; rfl
      by_cases h10 : fmt = "xdmf"; · subst h10; rfl
      simp [h2, h4, h9, h10, Ne.symm h2, Ne.symm h4, Ne.symm h9, Ne.symm h10]
  | ascii =>
      simp only [Command.args, asciiArgs, meaning, asciiMeaning, flagFormats, List.map_cons, List.map_nil, List.cons_append, List.nil_append,
        List.find?_cons, List.find?_nil]
      by_cases h1 : fmt = "ansys"; · subst h1; rfl
      by_cases h2 : fmt = "flac3d"; · subst h2; rfl
      by_cases h3 : fmt = "gmsh"; · subst h3; rfl
      by_cases h5 : fmt = "mdpa"; · subst h5; rfl
      by_cases h6 : fmt = "ply"; · subst h6; rfl
      by_cases h7 : fmt = "stl"; · subst h7; rfl
      by_cases h8 : fmt = "vtk"; · subst h8; rfl
      by_cases h9 : fmt = "vtu"; · subst h9; rfl
      by_cases h10 : fmt = "xdmf"; · subst h10; rfl
      simp [h1, h2, h3, h5, h6, h7, h8, h9, h10, Ne.symm h1, Ne.symm h2, Ne.symm h3, Ne.symm h5, Ne.symm h6, Ne.symm h7, Ne.symm h8, Ne.symm h9, Ne.symm h10]
  | binary =>
      simp only [Command.args, binaryArgs, meaning, binaryMeaning, flagFormats, List.map_cons, List.map_nil, List.cons_append, List.nil_append,
        List.find?_cons, List.find?_nil]
      by_cases h1 : fmt = "ansys"; · subst h1; rfl
      by_cases h2 : fmt = "flac3d"; · subst h2; rfl
      by_cases h3 : fmt = "gmsh"; · subst h3; rfl
      by_cases h5 : fmt = "mdpa"; · subst h5; rfl
      by_cases h6 : fmt = "ply"; · subst h6; rfl
      by_cases h7 : fmt = "stl"; · subst h7; rfl
      by_cases h8 : fmt = "vtk"; · subst h8; rfl
      by_cases h9 : fmt = "vtu"; · subst h9; rfl
      by_cases h10 : fmt = "xdmf"; · subst h10; rfl
      simp [h1, h2, h3, h5, h6, h7, h8, h9, h10, Ne.symm h1, Ne.symm h2, Ne.symm h3, Ne.symm h5, Ne.symm h6, Ne.symm h7, Ne.symm h8, Ne.symm h9, Ne.symm h10]

theorem meaning_nodup (c : Command) : ((meaning c).map (·.1)).Nodup := by
  cases c with
  | compress max => cases max <;> decide
  | decompress => decide
  | ascii => decide
  | binary => decide

/-- Each command knows exactly the formats of its table, and gives their writers these keywords. -/
theorem C69_keywords (c : Command) (fmt : String) (kw : Kwargs) : c.args fmt = some kw ↔ (fmt, kw) ∈ meaning c := by
  rw [args_table]
  constructor
  · intro h
    obtain ⟨e, he, rfl⟩ := Option.map_eq_some_iff.mp h
    have h1 := List.mem_of_find?_eq_some he
    have h2 := List.find?_some he
    simp only [decide_eq_true_eq] at h2
    rw [← h2]
    exact h1
  · intro h
    have : ∀ l : List (String × Kwargs), (l.map (·.1)).Nodup → (fmt, kw) ∈ l → (l.find? (fun e => e.1 = fmt)).map (·.2) = some kw := by
      intro l
      induction l with
      | nil => intro _ h; cases h
      | cons e l ih =>
        intro hn hm
        rw [List.map_cons, List.nodup_cons] at hn
        rcases List.mem_cons.mp hm with rfl | hm
        · simp
        · rw [List.find?_cons_of_neg]
          · exact ih hn.2 hm
          · simp only [decide_eq_true_eq]
            intro e'
            exact hn.1 (List.mem_map.mpr ⟨_, hm, by simp [e']⟩)
    exact this _ (meaning_nodup c) h

example : Command.ascii.args "vtu" = some [("binary", .bool false)] := (C69_keywords _ _ _).mpr (by decide)

/-- Every format that a command knows has a reader and a writer, and the writer takes the keywords. -/
theorem C69_accepted (c : Command) (fmt : String) (kw : Kwargs) (h : c.args fmt = some kw) :
    (∃ e ∈ registered, e.1 = fmt ∧ e.2.2.1 = true ∧ fmt ∈ e.2.2.2.map (·.1)) ∧ ∀ a ∈ kw, a.1 ∈ moduleParams fmt := by
  have hm := (C69_keywords c fmt kw).mp h
  have key : ∀ e ∈ meaning c, (∃ r ∈ registered, r.1 = e.1 ∧ r.2.2.1 = true ∧ e.1 ∈ r.2.2.2.map (·.1)) ∧ ∀ a ∈ e.2, a.1 ∈ moduleParams e.1 := by
    cases c with
    | compress max => cases max <;> decide +kernel
    | decompress => decide +kernel
    | ascii => decide +kernel
    | binary => decide +kernel
  exact key _ hm

theorem firstOf_considered {exts : Dict (List String)} {name : List Char} {fmt : Option String} {f : String} {rest : List String}
    (h : Considered exts name fmt (f :: rest)) :
    firstOf (formatsOf exts name fmt) = .ok f := by
  unfold formatsOf
  rcases h with ⟨g, rfl, hg, hc⟩ | ⟨hf, hc⟩
  · cases hc
    simp [truthy, hg, firstOf]
  · have : truthy fmt = none := by rcases hf with rfl | rfl <;> simp [truthy]
    rw [this]
    simp only [hc, firstOf]

/-- If the file can be read and the format is known, its mesh is written once, in the first of the formats that are considered, with the
keywords of the table.  The command ends with exit code 0, or with the exception of the writer. -/
theorem C69_rewrites (c : Command) (r : Registry (Reader M) Wr) (mods : String → Fn M) (name : List Char) (fmt : Option String) (f : String)
    (rest : List String) (h : Considered r.exts name fmt (f :: rest)) (m : M) (calls : List String)
    (hr : readMesh r (.path name true) fmt = ⟨.ok m, calls⟩) (kw : Kwargs) (hk : (f, kw) ∈ meaning c) :
    inPlace c r mods name true fmt = ⟨calls, [(f, kw, m)], ((mods f).call kw m).map fun _ => 0⟩ := by
  unfold inPlace
  simp only [firstOf_considered h, hr, (C69_keywords c f kw).mpr hk]
  cases (mods f).call kw m <;> rfl

/-- In all other cases nothing is written: if the format cannot be deduced, if there is no such file, if it cannot be read, and if the command
does not know the format.  In the last case the exit code is 1. -/
theorem C69_untouched (c : Command) (r : Registry (Reader M) Wr) (mods : String → Fn M) (name : List Char) (fmt : Option String) :
    (∀ f rest, Considered r.exts name fmt (f :: rest) → (inPlace c r mods name false fmt) = ⟨[], [], .error .fileNotFound⟩) ∧
    (fmt = none → filetypesFromPath r.exts name = .error .readError → ∀ ex, inPlace c r mods name ex fmt = ⟨[], [], .error .readError⟩) ∧
    (∀ f rest e calls, Considered r.exts name fmt (f :: rest) → readMesh r (.path name true) fmt = ⟨.error e, calls⟩ →
      inPlace c r mods name true fmt = ⟨calls, [], .error e⟩) ∧
    (∀ f rest m calls, Considered r.exts name fmt (f :: rest) → readMesh r (.path name true) fmt = ⟨.ok m, calls⟩ →
      (∀ kw, (f, kw) ∉ meaning c) → ∃ e, inPlace c r mods name true fmt = ⟨calls, [], e⟩ ∧ (e = .ok 1 ∨ e = .error (.exit 1))) := by
  refine ⟨?_, ?_, ?_, ?_⟩
  · intro f rest h
    unfold inPlace
    simp only [firstOf_considered h]
    rfl
  · rintro rfl h ex
    unfold inPlace
    simp only [formatsOf, truthy, h, firstOf]
  · intro f rest e calls h hr
    unfold inPlace
    simp only [firstOf_considered h, hr]
    rfl
  · intro f rest m calls h hr hk
    have : c.args f = none := by
      cases ha : c.args f with
      | none => rfl
      | some kw => exact absurd ((C69_keywords c f kw).mp ha) (hk kw)
    unfold inPlace
    simp only [firstOf_considered h, hr, this]
    refine ⟨_, rfl, ?_⟩
    cases c <;> simp [Command.unknown]

/-- The registry after `import meshio`, with the given readers. -/
def importedReg (rd : String → Reader M) : Registry (Reader M) (List String) := imported rd fun _ p => p

/-- The extensions and their formats after `import meshio`. -/
def importedExts : Dict (List String) := registered.foldl (fun d e => registerExts d e.1 e.2.1) []

theorem importedReg_exts (rd : String → Reader M) : (importedReg rd).exts = importedExts := by
  have : ∀ (l : List (String × List String × Bool × List (String × List String))) (r : Registry (Reader M) (List String)),
      (l.foldl (fun r e => r.register e.1 e.2.1 (if e.2.2.1 then some (rd e.1) else none) (e.2.2.2.map fun w => (w.1, w.2))) r).exts =
        l.foldl (fun d e => registerExts d e.1 e.2.1) r.exts := by
    intro l
    induction l with
    | nil => intro r; rfl
    | cons e l ih => intro r; exact ih _
  exact this _ _

theorem importedReg_readers (rd : String → Reader M) (f : String) :
    (importedReg rd).readers.get? f = if registered.any (fun e => e.1 = f ∧ e.2.2.1 = true) then some (rd f) else none := by
  have : ∀ (l : List (String × List String × Bool × List (String × List String))) (r : Registry (Reader M) (List String)),
      (l.foldl (fun r e => r.register e.1 e.2.1 (if e.2.2.1 then some (rd e.1) else none) (e.2.2.2.map fun w => (w.1, w.2))) r).readers.get? f =
        if l.any (fun e => e.1 = f ∧ e.2.2.1 = true) then some (rd f) else r.readers.get? f := by
    intro l
    induction l with
    | nil => intro r; rfl
    | cons e l ih =>
      intro r
      rw [List.foldl_cons, ih, List.any_cons]
      by_cases h : l.any (fun e => e.1 = f ∧ e.2.2.1 = true) = true
      · rw [h]; simp
      · rw [Bool.not_eq_true] at h
        rw [h, Bool.or_false]
        simp only [Bool.false_eq_true, if_false]
        unfold Registry.register
        cases hb : e.2.2.1 with
        | false => simp
        | true =>
          simp only [if_true, Dict.get?_set]
          by_cases hf : e.1 = f
          · simp [hf]
          · simp [hf, Ne.symm hf]
  exact this _ _

/-- The property one would like: whatever the readers make of the files, a file is rewritten in the format in which it was read. -/
def C69_same_format_statement : Prop :=
  ∀ (rd : String → Reader Nat) (mods : String → Fn Nat) (c : Command) (name : List Char) (fmt : Option String),
    ∀ w ∈ (inPlace c (importedReg rd) mods name true fmt).writes, (inPlace c (importedReg rd) mods name true fmt).reads.getLast? = some w.1

/-- The ANSYS reader gives up on every file that begins like a Gmsh file. -/
theorem C69_gmsh_not_ansys {F : Type} (io : Ansys.AnsFloat F) (s : List Char) : Ansys.read io ('$' :: s) = .error .readError := by
  have h0 : Ansys.readSection io (readLine ('$' :: s)).1 (readLine ('$' :: s)).2 ⟨[], [], none, none⟩ = (.error .readError : Res (Ansys.St F × List Char)) := by
    obtain ⟨t, ht⟩ : ∃ t, (readLine ('$' :: s)).1 = '$' :: t := by
      unfold readLine
      exact ⟨_, rfl⟩
    rw [ht]
    unfold Ansys.readSection
    rw [if_neg, show Ansys.indexOf ('$' :: t) = none from rfl]
    intro e
    have hu := strip_head (c := '$') (by decide) t
    rw [e] at hu
    cases hu
  unfold Ansys.read
  rw [Ansys.loop, if_neg (by simp), h0]

/-- It is false: a Gmsh file with the usual extension is rewritten as an ANSYS file. -/
theorem C69_msh (rd : String → Reader M) (mods : String → Fn M) (name : List Char) (m : M)
    (hname : filetypesFromPath (importedReg rd).exts name = .ok ["ansys", "gmsh"])
    (h1 : rd "ansys" (.path name true) = .error .readError) (h2 : rd "gmsh" (.path name true) = .ok m) :
    inPlace .ascii (importedReg rd) mods name true none =
      ⟨["ansys", "gmsh"], [("ansys", [("binary", .bool false)], m)], ((mods "ansys").call [("binary", .bool false)] m).map fun _ => 0⟩ := by
  apply C69_rewrites _ _ _ _ _ "ansys" ["gmsh"] (.inr ⟨.inl rfl, hname⟩) m ["ansys", "gmsh"] _ _ (by decide)
  have r1 : (importedReg rd).readers.get? "ansys" = some (rd "ansys") := by rw [importedReg_readers]; exact if_pos (by decide +kernel)
  have r2 : (importedReg rd).readers.get? "gmsh" = some (rd "gmsh") := by rw [importedReg_readers]; exact if_pos (by decide +kernel)
  unfold readMesh readFile
  simp only [Bool.not_true, Bool.false_eq_true, if_false, truthy, hname, readLoop, r1, h1, r2, h2]
  rfl

/-- A file name with the extension of Gmsh. -/
example (rd : String → Reader M) : filetypesFromPath (importedReg rd).exts "a.b.MSH".toList = .ok ["ansys", "gmsh"] := by
  rw [importedReg_exts]
  decide +kernel

theorem C69_same_format_false : ¬ C69_same_format_statement := by
  intro h
  have e := C69_msh (M := Nat) (fun f _ => if f = "ansys" then .error .readError else .ok 7) (fun _ => ⟨["binary"], fun _ _ => .ok ()⟩) "a.msh".toList 7
    (by rw [importedReg_exts]; decide +kernel) rfl rfl
  have := h (fun f _ => if f = "ansys" then .error .readError else .ok 7) (fun _ => ⟨["binary"], fun _ _ => .ok ()⟩) .ascii "a.msh".toList none
    ("ansys", [("binary", .bool false)], 7) (by rw [e]; simp)
  rw [e] at this
  exact absurd this (by decide)

/-- It is true if the format is given, or if the reader of the first format does not give up. -/
theorem C69_same_format_partial (c : Command) (r : Registry (Reader M) Wr) (mods : String → Fn M) (name : List Char) (fmt : Option String)
    (f : String) (rest : List String) (h : Considered r.exts name fmt (f :: rest))
    (hf : rest = [] ∨ ∀ rd, r.readers.get? f = some rd → rd (.path name true) ≠ .error .readError) :
    ∀ w ∈ (inPlace c r mods name true fmt).writes, w.1 = f ∧ (inPlace c r mods name true fmt).reads = [f] := by
  intro w hw
  have key : ∀ m calls, readMesh r (.path name true) fmt = ⟨.ok m, calls⟩ → calls = [f] := by
    intro m calls hm
    rcases C10_read_path r name fmt (f :: rest) h with ⟨i, g, rd, m', h1, h2, h3, h4, h5⟩ | ⟨i, g, rd, e, h1, h2, h3, _, h4, h5⟩ | h5
    · rw [h5] at hm
      have hc : (f :: rest).take (i + 1) = calls := congrArg Traced.calls hm
      rw [← hc]
      cases i with
      | zero => rfl
      | succ i =>
        exfalso
        rcases hf with rfl | hf
        · simp at h1
        · obtain ⟨rd', q1, q2⟩ := h4 f (by simp)
          exact hf rd' q1 q2
    · rw [h5] at hm
      cases hm
    · rcases h5 with ⟨i, g, _, _, _, h5⟩ | ⟨_, h5⟩ <;> rw [h5] at hm <;> cases hm
  cases hr : readMesh r (.path name true) fmt with
  | mk res calls =>
    cases res with
    | error e =>
      rw [(C69_untouched c r mods name fmt).2.2.1 f rest e calls h hr] at hw
      cases hw
    | ok m =>
      cases ha : c.args f with
      | none =>
        obtain ⟨e, he, _⟩ := (C69_untouched c r mods name fmt).2.2.2 f rest m calls h hr (fun kw hk => by
          rw [(C69_keywords c f kw).mpr hk] at ha; cases ha)
        rw [he] at hw
        cases hw
      | some kw =>
        have := C69_rewrites c r mods name fmt f rest h m calls hr kw ((C69_keywords c f kw).mp ha)
        rw [this] at hw ⊢
        simp only [List.mem_cons, List.not_mem_nil, or_false] at hw
        subst hw
        exact ⟨rfl, key m calls hr⟩

theorem dotTails_count (s : List Char) : ∀ i e, (dotTails s)[i]? = some e → e.count '.' = (dotTails s).length - i ∧ e <:+ s ∧ e.head? = some '.' := by
  induction s with
  | nil => intro i e h; simp [dotTails] at h
  | cons c s ih =>
    have hc : s.count '.' = (dotTails s).length := by
      clear ih
      induction s with
      | nil => rfl
      | cons d s ih =>
        unfold dotTails
        by_cases hd : d = '.'
        · rw [if_pos hd, hd, List.count_cons_self, List.length_cons, ih]
        · rw [if_neg hd, List.count_cons_of_ne (Ne.symm (Ne.symm hd)), ih]
    intro i e h
    unfold dotTails at h ⊢
    by_cases hd : c = '.'
    · rw [if_pos hd] at h ⊢
      cases i with
      | zero =>
        simp only [List.getElem?_cons_zero, Option.some.injEq] at h
        subst h
        rw [hd, List.count_cons_self, hc]
        exact ⟨rfl, List.suffix_refl _, rfl⟩
      | succ i =>
        rw [List.getElem?_cons_succ] at h
        obtain ⟨h1, h2, h3⟩ := ih i e h
        refine ⟨by rw [h1, List.length_cons]; omega, h2.trans (List.suffix_cons c s), h3⟩
    · rw [if_neg hd] at h ⊢
      obtain ⟨h1, h2, h3⟩ := ih i e h
      exact ⟨h1, h2.trans (List.suffix_cons c s), h3⟩

theorem importedExts_dots : ∀ e ∈ importedExts, (e.1.toList.count '.' = 1 ∨ e.1.toList.count '.' = 2) ∧ (e.2.length = 1 ∨ e.2 = ["ansys", "gmsh"]) := by
  decide +kernel

theorem importedExts_long : ∀ e ∈ importedExts, e.1.toList.count '.' = 2 → ∀ k < e.1.toList.length,
    (e.1.toList.drop k).count '.' = 1 → (e.1.toList.drop k).head? = some '.' → importedExts.get? (String.ofList (e.1.toList.drop k)) = none := by
  decide +kernel

theorem flatMap_one {α β : Type} (f : α → List β) : ∀ l : List α, l.Pairwise (fun a b => f a = [] ∨ f b = []) →
    l.flatMap f = [] ∨ ∃ a ∈ l, l.flatMap f = f a
  | [], _ => .inl rfl
  | a :: l, h => by
    rw [List.pairwise_cons] at h
    rw [List.flatMap_cons]
    by_cases ha : f a = []
    · rw [ha, List.nil_append]
      rcases flatMap_one f l h.2 with h' | ⟨b, hb, h'⟩
      · exact .inl h'
      · exact .inr ⟨b, by simp [hb], h'⟩
    · have : l.flatMap f = [] := by
        rw [List.flatMap_eq_nil_iff]
        intro b hb
        exact (h.1 b hb).resolve_left ha
      rw [this, List.append_nil]
      exact .inr ⟨a, by simp, rfl⟩

/-- After `import meshio` a file name stands for one format, or for ANSYS and Gmsh. -/
theorem C69_candidates (name : List Char) (l : List String) (h : filetypesFromPath importedExts name = .ok l) :
    l.length = 1 ∨ l = ["ansys", "gmsh"] := by
  obtain ⟨hne, _⟩ := C09_nonempty _ _ _ h
  rw [C09_deduction] at h
  simp only at h
  split at h
  · cases h
  simp only [Except.ok.injEq] at h
  let look : List Char → List String := fun e => (importedExts.get? (String.ofList e)).getD []
  have hlook : ∀ e, look e ≠ [] → ∃ fs, (String.ofList e, fs) ∈ importedExts ∧ look e = fs := by
    intro e he
    cases hg : importedExts.get? (String.ofList e) with
    | none => exact absurd (by show (importedExts.get? (String.ofList e)).getD [] = []; rw [hg]; rfl) he
    | some fs => exact ⟨fs, Dict.mem_of_get? hg, by show (importedExts.get? (String.ofList e)).getD [] = fs; rw [hg]; rfl⟩
  have hE : ∃ s : List Char, (extensions name).map lowerS = (dotTails s).reverse ∨ (extensions name).map lowerS = [] := by
    refine ⟨lowerS (name.dropWhile (· = '.')), ?_⟩
    unfold extensions
    split
    · exact .inr rfl
    · rw [dotTails_lower, List.map_reverse]; exact .inl rfl
  have hf : l = ((extensions name).map lowerS).flatMap look := by rw [← h, List.flatMap_map]
  obtain ⟨s, hE | hE⟩ := hE
  · rw [hE] at hf
    have hp : (dotTails s).reverse.Pairwise (fun a b => look a = [] ∨ look b = []) := by
      rw [List.pairwise_iff_getElem]
      intro i j hi hj hij
      rw [List.length_reverse] at hi hj
      rw [List.getElem_reverse, List.getElem_reverse]
      obtain ⟨a1, a2, a3⟩ := dotTails_count s _ _ (List.getElem?_eq_getElem (show (dotTails s).length - 1 - i < (dotTails s).length by omega))
      obtain ⟨b1, b2, b3⟩ := dotTails_count s _ _ (List.getElem?_eq_getElem (show (dotTails s).length - 1 - j < (dotTails s).length by omega))
      generalize (dotTails s)[(dotTails s).length - 1 - i]'_ = a at a1 a2 a3 ⊢
      generalize (dotTails s)[(dotTails s).length - 1 - j]'_ = b at b1 b2 b3 ⊢
      apply Classical.byContradiction
      intro hc
      rw [not_or] at hc
      obtain ⟨fs, m1, _⟩ := hlook a hc.1
      obtain ⟨gs, m2, _⟩ := hlook b hc.2
      have d1 := (importedExts_dots _ m1).1
      have d2 := (importedExts_dots _ m2).1
      simp only [String.toList_ofList] at d1 d2
      have hab : a <:+ b := by
        rcases Nat.le_total a.length b.length with hl | hl
        · exact List.suffix_of_suffix_length_le a2 b2 hl
        · have := (List.suffix_of_suffix_length_le b2 a2 hl).sublist.count_le '.'
          omega
      have hk := importedExts_long _ m2 (by rw [String.toList_ofList]; omega) (b.length - a.length) (by
        rw [String.toList_ofList]
        have : a ≠ [] := by rintro rfl; cases a3
        have := List.length_pos_iff.mpr this
        have := hab.length_le
        omega)
      simp only [String.toList_ofList] at hk
      rw [← List.suffix_iff_eq_drop.mp hab] at hk
      have := hk (by omega) a3
      exact hc.1 (by show (importedExts.get? (String.ofList a)).getD [] = []; rw [this]; rfl)
    rcases flatMap_one look _ hp with h' | ⟨e, _, h'⟩
    · exact absurd (hf.trans h') hne
    · rw [hf, h']
      obtain ⟨fs, m1, m2⟩ := hlook e (by rw [← h', ← hf]; exact hne)
      rw [m2]
      exact (importedExts_dots _ m1).2
  · rw [hE] at hf
    exact absurd hf hne

example : filetypesFromPath importedExts "mesh.old.vol.gz".toList = .ok ["netgen"] := by decide +kernel

/-- So with the formats of meshio only files whose names stand for ANSYS and Gmsh can change their format. -/
theorem C69_same_format_imported_partial (c : Command) (rd : String → Reader M) (mods : String → Fn M) (name : List Char) (fmt : Option String)
    (l : List String) (h : Considered importedExts name fmt l) (hl : l ≠ ["ansys", "gmsh"]) :
    ∀ w ∈ (inPlace c (importedReg rd) mods name true fmt).writes, (inPlace c (importedReg rd) mods name true fmt).reads.getLast? = some w.1 := by
  have hlen : l.length = 1 := by
    rcases h with ⟨f, _, _, rfl⟩ | ⟨_, hc⟩
    · rfl
    · exact (C69_candidates name l hc).resolve_right hl
  obtain ⟨f, rfl⟩ := List.length_eq_one_iff.mp hlen
  intro w hw
  obtain ⟨h1, h2⟩ := C69_same_format_partial c (importedReg rd) mods name fmt f [] (by rw [importedReg_exts]; exact h) (.inl rfl) w hw
  rw [h2, h1]
  rfl

end Meshio.Props
