/-
C34: Nastran files say what the mesh says.  C31: numbers of points.
-/
import Verif.Proofs.NastranBack
import Verif.Props.Types
namespace Meshio.Props
open Meshio Types Tables Spec Nastran

variable {F : Type}

/-! ## Reading -/

/-- A file is read as the mesh it describes: entries in free, small or large format; continued over any number of lines, with or without
marks; comments and blank lines anywhere; points with any distinct numbers; floats with an exponent that has no letter; cells of all
types in the order of the type; entries of other kinds are passed over. -/
theorem C34_read (io : NasIO F) (f : NasFile F) (h : f.Ok io) : Nastran.read io f.text = .ok f.mesh := read_ok io f h

/-- The names of the reader's table are those of the specification, and two more that cannot be read. -/
theorem C34_names : (∀ k ∈ nastranToMeshio, k.1 ∈ nastranNames.map (·.1) ∨ k.1 = "CPYRA_" ∨ k.1 = "CPENTA_") ∧
    (∀ k ∈ nastranNames, find numNodesPerCell k.2.1 = some k.2.2.1 ∧ k.2.2.2.length = k.2.2.1 ∧ (List.range k.2.2.1).all (fun i => k.2.2.2.contains i) = true) ∧
    (∀ k ∈ nastranWritten, find numNodesPerCell k.1 = some k.2.2.1 ∧ (List.range k.2.2.1).all (fun i => k.2.2.2.contains i) = true) := by
  refine ⟨?_, ?_, ?_⟩ <;> decide +kernel

/-- Cells connect to the points that carry the listed numbers: cell by cell, in the order of the file. -/
theorem C31_nastran (io : NasIO F) (f : NasFile F) (h : f.Ok io) :
    ∃ m : Out F, Nastran.read io f.text = .ok m ∧ m.points = f.points.map (·.2.2) ∧ m.pids = f.points.map (·.1) ∧
      (rowsOf m.cells).length = f.cells.length ∧
      ∀ (i : Nat) (c : String × Int × Option Int × List Int), f.cells[i]? = some c →
        ∃ cell : List Nat, (rowsOf m.cells)[i]? = some (c.1, cell) ∧ cell.length = c.2.2.2.length ∧
          ∀ (j : Nat) (k : Int), c.2.2.2[j]? = some k → ∃ q : Nat, cell[j]? = some q ∧ m.pids[q]? = some k := by
  refine ⟨_, C34_read io f h, rfl, rfl, ?_, ?_⟩
  · unfold NasFile.mesh
    simp only
    rw [rowsOf_groupRuns, List.length_map]
  · intro i c hc
    unfold NasFile.mesh
    simp only
    rw [rowsOf_groupRuns, List.getElem?_map, hc]
    refine ⟨_, rfl, by simp, ?_⟩
    intro j k hk
    refine ⟨_, by rw [List.getElem?_map, hk]; rfl, ?_⟩
    have hm := h.nodes c (List.mem_of_getElem? hc) k (List.mem_of_getElem? hk)
    have hi := List.idxOf_lt_length_iff.2 hm
    rw [List.getElem?_eq_getElem hi, List.getElem_idxOf hi]

/-- A cell with a number that no point carries is a KeyError, wherever it stands. -/
theorem C31_nastran_missing (io : NasIO F) (f : NasFile F) (h : f.Shape io) (hk : ∃ c ∈ f.cells, ∃ k ∈ c.2.2.2, k ∉ f.points.map (·.1)) :
    Nastran.read io f.text = .error .keyError := read_missing io f h hk

theorem gather_suffix (done : List Chunks) (last : Chunks) (ls : List (List Char)) (r : List Chunks × List (List Char))
    (h : gather done last ls = .ok r) : r.2 <:+ ls := by
  induction ls generalizing done last with
  | nil => simp [gather] at h
  | cons l ls ih =>
    rw [gather] at h
    split at h
    · exact (ih _ _ h).trans (List.suffix_cons _ _)
    · split at h
      · split at h
        · cases h
        · cases hc : chunkLine l with
          | error e => rw [hc] at h; cases h
          | ok c => rw [hc] at h; exact (ih _ _ h).trans (List.suffix_cons _ _)
      · split at h
        · cases hc : chunkLine l with
          | error e => rw [hc] at h; cases h
          | ok c =>
            rw [hc] at h
            simp only at h
            split at h
            · exact (ih _ _ h).trans (List.suffix_cons _ _)
            · cases h; exact List.suffix_refl _
        · cases h; exact List.suffix_refl _

theorem nastran_loop_end (io : NasIO F) (fuel : Nat) (st st' : St F) (ls : List (List Char)) (h : loop io fuel st ls = .ok st') :
    ∃ l ∈ ls, "ENDDATA".toList <+: l := by
  induction fuel generalizing st ls with
  | zero => simp [loop] at h
  | succ fuel ih =>
    cases ls with
    | nil => simp [loop] at h
    | cons l ls =>
      rw [loop] at h
      split at h
      · rename_i hp
        exact ⟨l, by simp, List.isPrefixOf_iff_prefix.1 hp⟩
      · cases hc : chunkLine l with
        | error e => rw [hc] at h; cases h
        | ok c =>
          rw [hc] at h
          simp only at h
          cases hg : gather [] (c.map some) ls with
          | error e => rw [hg] at h; cases h
          | ok r =>
            rw [hg] at h
            simp only at h
            cases he : entry io st (fields r.1) with
            | error e => rw [he] at h; cases h
            | ok st1 =>
              rw [he] at h
              obtain ⟨x, hx, hp⟩ := ih _ _ h
              exact ⟨x, List.mem_cons_of_mem _ ((gather_suffix _ _ _ _ hg).subset hx), hp⟩

/-- A text is read only if it has the line `BEGIN BULK` and, after it, the line `ENDDATA`: a file that is cut off is refused. -/
theorem C34_complete (io : NasIO F) (text : List Char) (m : Out F) (h : Nastran.read io text = .ok m) :
    ∃ before start after, fileLines text = before ++ start :: after ∧ "BEGIN BULK".toList <+: strip start ∧
      ∃ l ∈ after, "ENDDATA".toList <+: l := by
  unfold Nastran.read at h
  have key : ∀ ls tail : List (List Char), afterBegin ls = .ok tail → ∃ before start, ls = before ++ start :: tail ∧ "BEGIN BULK".toList <+: strip start := by
    intro ls
    induction ls with
    | nil => intro tail h; simp [afterBegin] at h
    | cons l ls ih =>
      intro tail h
      rw [afterBegin] at h
      split at h
      · rename_i hp
        cases h
        exact ⟨[], l, rfl, List.isPrefixOf_iff_prefix.1 hp⟩
      · obtain ⟨b, s, rfl, hs⟩ := ih tail h
        exact ⟨l :: b, s, rfl, hs⟩
  cases ha : afterBegin (fileLines text) with
  | error e => rw [ha] at h; cases h
  | ok tail =>
    obtain ⟨b, s, he, hs⟩ := key _ _ ha
    refine ⟨b, s, tail, he, hs, ?_⟩
    rw [ha] at h
    simp only at h
    cases hd : tail.dropWhile isSkip with
    | nil => rw [hd] at h; cases h
    | cons l ls =>
      rw [hd] at h
      simp only at h
      cases hl : loop io (ls.length + 1) St.init (l :: ls) with
      | error e => rw [hl] at h; cases h
      | ok st =>
        obtain ⟨x, hx, hp⟩ := nastran_loop_end io _ _ _ _ hl
        refine ⟨x, ?_, hp⟩
        rw [← hd] at hx
        exact (List.dropWhile_suffix _).subset hx

/-- Without the line `BEGIN BULK` it is a RuntimeError. -/
theorem C34_no_bulk (io : NasIO F) (text : List Char) (h : ∀ l ∈ fileLines text, ¬ "BEGIN BULK".toList <+: strip l) :
    Nastran.read io text = .error .runtimeError := by
  have key : ∀ ls : List (List Char), (∀ l ∈ ls, ¬ "BEGIN BULK".toList <+: strip l) → afterBegin ls = .error .runtimeError := by
    intro ls
    induction ls with
    | nil => intro _; rfl
    | cons l ls ih =>
      intro h
      rw [afterBegin, if_neg (by rw [List.isPrefixOf_iff_prefix]; exact h l (by simp)), ih fun x hx => h x (by simp [hx])]
  unfold Nastran.read
  rw [key _ h]

/-! ### A file -/

/-- Integers in place of floats. -/
def NasIO.int : NasIO Int where
  sci x := fmtInt x ++ "e+0".toList
  fixed x := fmtInt x ++ ".000000".toList
  parse w :=
    if w.dropWhile (fun c => c != '.' && c != 'e' && c != 'E') ∈ [[], ".".toList, "e+0".toList, "E+0".toList] then
      parseInt (w.takeWhile (fun c => c != '.' && c != 'e' && c != 'E'))
    else none
  zero := 0

/-- A file with a comment, points in the three formats, a float without the letter of the exponent, a quadratic tetrahedron over two
lines, one of them continued without a mark, a bar with an orientation, and an entry of another kind. -/
def exNastran : NasFile Int where
  before := ["SOL 101".toList]
  start := " BEGIN BULK".toList
  blank := ["$ points".toList]
  entries := [
    (⟨⟨"GRID,10,,0.,0.,0.".toList, ["GRID".toList, "10".toList, [], "0.".toList, "0.".toList, "0.".toList], []⟩, []⟩, .grid 10 none [0, 0, 0]),
    (⟨⟨"GRID    7               1.      3+0     0.".toList,
        ["GRID    ".toList, "7       ".toList, "        ".toList, "1.      ".toList, "3+0     ".toList, "0.".toList], ["$ next".toList]⟩, []⟩, .grid 7 none [1, 3, 0]),
    (⟨⟨"GRID*                 20               0              1.              2.*       ".toList,
        ["GRID*   ".toList, "        ".toList, "      20".toList, "        ".toList, "       0".toList, "        ".toList, "      1.".toList, "        ".toList, "      2.".toList, "*       ".toList], []⟩,
      [⟨"*                    5.".toList, ["*       ".toList, "        ".toList, "     5.".toList], []⟩]⟩, .grid 20 (some 0) [1, 2, 5]),
    (⟨⟨"PSHELL  1".toList, ["PSHELL  ".toList, "1".toList], []⟩, []⟩, .other),
    (⟨⟨"CTRIA3  3               10      7       20                                      ".toList,
        ["CTRIA3  ".toList, "3       ".toList, "        ".toList, "10      ".toList, "7       ".toList, "20      ".toList, "        ".toList, "        ".toList, "        ".toList, "        ".toList], []⟩,
      [⟨"        ".toList, ["        ".toList], []⟩]⟩, .cell "CTRIA3" "triangle" [0, 1, 2] 3 none [10, 7, 20]),
    (⟨⟨"CBAR,4,,20,7,1,0,0".toList, ["CBAR".toList, "4".toList, [], "20".toList, "7".toList, "1".toList, "0".toList, "0".toList], []⟩, []⟩,
      .cell "CBAR" "line" [0, 1] 4 none [20, 7])]
  fin := ⟨"ENDDATA".toList, ["ENDDATA".toList], []⟩
  rest := "anything".toList

theorem exNastran_lines : ∀ e ∈ exNastran.entries, ∀ l ∈ e.1.allLines, l.Ok := by
  have fixed : ∀ (t : List Char) (ws : List (List Char)) (w : List Char) (a : List (List Char)), '\n' ∉ t → ¬ (t.length < 3 ∨ t.head? = some '$' ∨ t.head? = some '#' ∨ t.take 2 = ['/', '/']) →
      ',' ∉ t → t = (ws ++ [w]).flatten → (∀ v ∈ ws, v.length = 8) → 1 ≤ w.length → w.length ≤ 8 → (∀ x ∈ a, NasBlank x) → (⟨t, ws ++ [w], a⟩ : NasLine).Ok :=
    fun t ws w a h1 h2 h3 h4 h5 h6 h7 h8 => ⟨h1, fun h => h2 h.2, .inr ⟨h3, h4, ws, w, rfl, h5, h6, h7⟩, h8⟩
  have free : ∀ (t : List Char) (ws : List (List Char)), '\n' ∉ t → ¬ (t.length < 3 ∨ t.head? = some '$' ∨ t.head? = some '#' ∨ t.take 2 = ['/', '/']) →
      ',' ∈ t → t = joinWith ',' ws → (∀ v ∈ ws, ',' ∉ v) → (⟨t, ws, []⟩ : NasLine).Ok :=
    fun t ws h1 h2 h3 h4 h5 => ⟨h1, fun h => h2 h.2, .inl ⟨h3, h4, h5⟩, by simp⟩
  intro e he l hl
  simp only [exNastran, List.mem_cons, List.not_mem_nil, or_false] at he
  rcases he with rfl | rfl | rfl | rfl | rfl | rfl <;> simp only [NasEntry.allLines, List.mem_cons, List.not_mem_nil, or_false] at hl
  · subst hl
    exact free _ _ (by decide) (by decide) (by decide) (by decide) (by decide)
  · subst hl
    exact fixed _ ["GRID    ".toList, "7       ".toList, "        ".toList, "1.      ".toList, "3+0     ".toList] "0.".toList ["$ next".toList] (by decide) (by decide) (by decide) (by decide) (by decide) (by decide) (by decide)
      (by intro x hx; rw [List.mem_singleton.1 hx]; exact ⟨by decide, .inr (.inl rfl)⟩)
  · rcases hl with rfl | rfl
    · exact fixed _ ["GRID*   ".toList, "        ".toList, "      20".toList, "        ".toList, "       0".toList, "        ".toList, "      1.".toList, "        ".toList, "      2.".toList] "*       ".toList [] (by decide) (by decide) (by decide) (by decide) (by decide) (by decide) (by decide) (by simp)
    · exact fixed _ ["*       ".toList, "        ".toList] "     5.".toList [] (by decide) (by decide) (by decide) (by decide) (by decide) (by decide) (by decide) (by simp)
  · subst hl
    exact fixed _ ["PSHELL  ".toList] "1".toList [] (by decide) (by decide) (by decide) (by decide) (by decide) (by decide) (by decide) (by simp)
  · rcases hl with rfl | rfl
    · exact fixed _ ["CTRIA3  ".toList, "3       ".toList, "        ".toList, "10      ".toList, "7       ".toList, "20      ".toList, "        ".toList, "        ".toList, "        ".toList] "        ".toList [] (by decide) (by decide) (by decide) (by decide) (by decide) (by decide) (by decide) (by simp)
    · exact fixed _ [] "        ".toList [] (by decide) (by decide) (by decide) (by decide) (by decide) (by decide) (by decide) (by simp)
  · subst hl
    exact free _ _ (by decide) (by decide) (by decide) (by decide) (by decide)

theorem exNastran_items : ∀ e ∈ exNastran.entries, e.2.Is NasIO.int e.1.fields := by
  intro e he
  simp only [exNastran, List.mem_cons, List.not_mem_nil, or_false] at he
  rcases he with rfl | rfl | rfl | rfl | rfl | rfl
  · exact ⟨"GRID".toList, "10".toList, [], ["0.".toList, "0.".toList, "0.".toList], by decide +kernel, .inl rfl, by decide +kernel, rfl,
      ⟨.inl (by decide +kernel), .inl (by decide +kernel), .inl (by decide +kernel), trivial⟩⟩
  · exact ⟨"GRID".toList, "7".toList, [], ["1.".toList, "3+0".toList, "0.".toList], by decide +kernel, .inl rfl, by decide +kernel, rfl,
      ⟨.inl (by decide +kernel), .inr ⟨by decide +kernel, '3', [], '+', ['0'], by decide, by decide, .inl rfl, by decide, by decide, by decide +kernel⟩,
        .inl (by decide +kernel), trivial⟩⟩
  · exact ⟨"GRID*".toList, "20".toList, "0".toList, ["1.".toList, "2.".toList, "5.".toList], by decide +kernel, .inr rfl, by decide +kernel, ⟨by decide, by decide +kernel⟩,
      ⟨.inl (by decide +kernel), .inl (by decide +kernel), .inl (by decide +kernel), trivial⟩⟩
  · exact ⟨"PSHELL".toList, ["1".toList], by decide +kernel, by decide, by decide, by decide +kernel⟩
  · exact ⟨"3".toList, [], ["10".toList, "7".toList, "20".toList, [], [], []], by decide +kernel, by decide +kernel, rfl, by decide,
      ⟨by decide +kernel, by decide +kernel, by decide +kernel, trivial⟩⟩
  · exact ⟨"4".toList, [], ["20".toList, "7".toList, "1".toList, "0".toList, "0".toList], by decide +kernel, by decide +kernel, rfl, by decide,
      ⟨by decide +kernel, by decide +kernel, trivial⟩⟩

theorem exNastran_ok : exNastran.Ok NasIO.int where
  before := by decide +kernel
  start := by decide +kernel
  blank := by
    intro l hl
    rw [show exNastran.blank = ["$ points".toList] from rfl, List.mem_singleton] at hl
    rw [hl]
    exact ⟨by decide, .inr (.inl rfl)⟩
  lines := exNastran_lines
  chains := by
    intro e he
    simp only [exNastran, List.mem_cons, List.not_mem_nil, or_false] at he
    rcases he with rfl | rfl | rfl | rfl | rfl | rfl
    · trivial
    · trivial
    · exact ⟨.inl ⟨.inr rfl, by decide⟩, trivial⟩
    · trivial
    · exact ⟨.inr ⟨by rintro (h | h) <;> exact absurd h (by decide), by decide, by decide, by decide⟩, trivial⟩
    · trivial
  starts := by decide +kernel
  fresh := by
    intro p hp
    have : ∀ p ∈ exNastran.entries.zip exNastran.heads.tail, (p.2.text.head? ≠ some '+' ∧ p.2.text.head? ≠ some '*') ∧ p.1.1.last.words.length ≠ 10 := by decide +kernel
    exact ⟨fun h => h.elim (this p hp).1.1 (this p hp).1.2, fun h => (this p hp).2 h.1⟩
  fin := ⟨⟨by decide, fun h => absurd h.2 (by decide), .inr ⟨by decide, by decide, [], _, rfl, by simp, by decide, by decide⟩, by intro a ha; cases ha⟩, by decide⟩
  items := exNastran_items
  distinct := by decide +kernel
  dim := ⟨3, by decide +kernel⟩
  refs := .inr (by decide +kernel)
  nodes := by decide +kernel

example : Nastran.read NasIO.int exNastran.text = .ok exNastran.mesh := C34_read _ _ exNastran_ok

example : exNastran.mesh = ⟨[[0, 0, 0], [1, 3, 0], [1, 2, 5]], [10, 7, 20], [("triangle", [[0, 1, 2]]), ("line", [[2, 1]])], [[3], [4]], some [0], none⟩ := by decide +kernel

example : Nastran.read NasIO.int ({ exNastran with entries := exNastran.entries.drop 1 } : NasFile Int).text = .error .keyError := by
  have h := exNastran_ok
  refine C31_nastran_missing _ _ ⟨h.before, h.start, h.blank, fun e he => h.lines e (List.mem_of_mem_drop he), fun e he => h.chains e (List.mem_of_mem_drop he),
    fun e he => h.starts e (List.mem_of_mem_drop he), ?_, h.fin, fun e he => h.items e (List.mem_of_mem_drop he), by decide +kernel, ⟨3, by decide +kernel⟩, .inr (by decide +kernel)⟩
    (by decide +kernel)
  intro p hp
  exact h.fresh p (by
    have : exNastran.entries.zip exNastran.heads.tail = (exNastran.entries.zip exNastran.heads.tail).take 1 ++ (exNastran.entries.drop 1).zip (exNastran.heads.tail.drop 1) := rfl
    rw [this]
    exact List.mem_append_right _ hp)

example : Nastran.read NasIO.int (linesText ["SOL 101".toList, "ENDDATA".toList]) = .error .runtimeError :=
  C34_no_bulk _ _ (by decide +kernel)

/-! ## Writing -/

/-- The text that is written in each format of points, with cells in the small format: for each point its number from one on, its
reference and its coordinates; for each cell its name, number, reference and nodes in the order of the format, over as many lines as
they need.  Points of the plane get a third coordinate. -/
theorem C34_write (io : NasIO F) (version : List Char) (pf : String) (dim : Nat) (points : List (List F)) (prefs : Option (List Int))
    (cells : List (String × List (List Int))) (crefs : Option (List (List Int)))
    (h : NasWritable io pf (if dim = 2 then points.map (· ++ [io.zero]) else points) prefs cells crefs) :
    Nastran.write io version pf "fixed-small" dim points prefs cells crefs =
      .ok (nasWritten io version pf (if dim = 2 then points.map (· ++ [io.zero]) else points) prefs cells crefs) :=
  write_ok io version pf dim points prefs cells crefs h

/-- The claim of the round trip for all formats of points and cells. -/
def C34_roundtrip_statement : Prop :=
  ∀ (F : Type) (io : NasIO F) (val : F → F) (version : List Char) (pf cf : String) (dim : Nat) (points : List (List F)) (prefs : Option (List Int))
    (cells : List (String × List (List Nat))) (crefs : Option (List (List Int))),
    '\n' ∉ version → cf ∈ ["free", "fixed-small", "fixed-large"] →
    NasWritable io pf (if dim = 2 then points.map (· ++ [io.zero]) else points) prefs (cells.map fun b => (b.1, b.2.map (·.map Int.ofNat))) crefs →
    NasKeeps io pf val (if dim = 2 then points.map (· ++ [io.zero]) else points) prefs cells crefs →
    (Nastran.write io version pf cf dim points prefs (cells.map fun b => (b.1, b.2.map (·.map Int.ofNat))) crefs).bind (Nastran.read io) =
      .ok (nasBack val (if dim = 2 then points.map (· ++ [io.zero]) else points) prefs cells crefs)

/-- With cells in the small format, which is the default, a mesh that is written and read again is the same, in each of the formats of
points: the connectivity, the order of nodes, references, and the points as their texts show them (`val`).  Blocks of one type in a row
become one block.  Missing: cells in the other two formats, which the code does not keep. -/
theorem C34_roundtrip_partial (io : NasIO F) (val : F → F) (version : List Char) (pf : String) (dim : Nat) (points : List (List F)) (prefs : Option (List Int))
    (cells : List (String × List (List Nat))) (crefs : Option (List (List Int))) (hv : '\n' ∉ version)
    (hw : NasWritable io pf (if dim = 2 then points.map (· ++ [io.zero]) else points) prefs (cells.map fun b => (b.1, b.2.map (·.map Int.ofNat))) crefs)
    (hk : NasKeeps io pf val (if dim = 2 then points.map (· ++ [io.zero]) else points) prefs cells crefs) :
    (Nastran.write io version pf "fixed-small" dim points prefs (cells.map fun b => (b.1, b.2.map (·.map Int.ofNat))) crefs).bind (Nastran.read io) =
      .ok (nasBack val (if dim = 2 then points.map (· ++ [io.zero]) else points) prefs cells crefs) := by
  rw [C34_write io version pf dim points prefs _ crefs hw]
  exact roundtrip hv hw hk

theorem zip_adjacent {α β γ : Type} (cells : List (α × β)) (l : List γ) (hlen : l.length = cells.length)
    (hd : ∀ pre a b post, cells = pre ++ a :: b :: post → a.1 ≠ b.1) :
    ∀ pre a b post, (cells.map (·.1)).zip l = pre ++ a :: b :: post → a.1 ≠ b.1 := by
  intro pre a b post e
  have h1 : cells.map (·.1) = pre.map (·.1) ++ a.1 :: b.1 :: post.map (·.1) := by
    have := congrArg (List.map Prod.fst) e
    rw [List.map_fst_zip (by simp [hlen])] at this
    simpa using this
  obtain ⟨p, q, hpq, hp, hq⟩ := List.map_eq_append_iff.1 h1
  obtain ⟨x, q', hq', hx, hq2⟩ := List.map_eq_cons_iff.1 hq
  obtain ⟨y, q'', hq'', hy, hq3⟩ := List.map_eq_cons_iff.1 hq2
  have := hd p x y q'' (by rw [hpq, hq', hq''])
  rw [← hx, ← hy]
  exact this

/-- If no block is empty and neighbours have different types, the blocks come back as they were. -/
theorem C34_roundtrip_same (io : NasIO F) (version : List Char) (pf : String) (dim : Nat) (points : List (List F)) (prefs : Option (List Int))
    (cells : List (String × List (List Nat))) (crefs : Option (List (List Int))) (hv : '\n' ∉ version)
    (hw : NasWritable io pf (if dim = 2 then points.map (· ++ [io.zero]) else points) prefs (cells.map fun b => (b.1, b.2.map (·.map Int.ofNat))) crefs)
    (hk : NasKeeps io pf id (if dim = 2 then points.map (· ++ [io.zero]) else points) prefs cells crefs)
    (hp : points ≠ []) (hc : cells ≠ []) (hne : ∀ b ∈ cells, b.2 ≠ []) (hd : ∀ pre a b post, cells = pre ++ a :: b :: post → a.1 ≠ b.1) :
    ∃ m, (Nastran.write io version pf "fixed-small" dim points prefs (cells.map fun b => (b.1, b.2.map (·.map Int.ofNat))) crefs).bind (Nastran.read io) = .ok m ∧
      m.points = (if dim = 2 then points.map (· ++ [io.zero]) else points) ∧ m.cells = cells ∧ m.prefs = prefs ∧ m.crefs = crefs := by
  refine ⟨_, C34_roundtrip_partial io id version pf dim points prefs cells crefs hv hw hk, ?_, groupRuns_rowsOf cells hne hd, ?_, ?_⟩
  · unfold nasBack
    simp
  · unfold nasBack
    simp only
    rw [if_neg]
    split
    · intro h; exact hp (List.map_eq_nil_iff.1 h)
    · exact hp
  · unfold nasBack
    simp only
    rw [if_neg]
    · cases hcr : crefs with
      | none => rfl
      | some l =>
        have hl := hw.cellRefs l hcr
        simp only [List.map_map] at hl
        have hlen : l.length = cells.length := by
          have := congrArg List.length hl
          simpa using this
        rw [Option.map_some, groupRuns_rowsOf _ ?_ (zip_adjacent cells l hlen hd), List.map_snd_zip (by simp [hlen])]
        intro b hb he
        obtain ⟨i, hi, hbi⟩ := List.getElem_of_mem hb
        rw [List.getElem_zip] at hbi
        have hil : i < l.length := by rw [List.length_zip] at hi; omega
        have hic : i < cells.length := by omega
        have h1 : (l.map (·.length))[i]? = (cells.map ((fun x : String × List (List Int) => x.2.length) ∘ fun b => (b.1, b.2.map (·.map Int.ofNat))))[i]? := by rw [hl]
        rw [List.getElem?_map, List.getElem?_map, List.getElem?_eq_getElem hil, List.getElem?_eq_getElem hic] at h1
        simp only [Option.map_some, Option.some.injEq, Function.comp, List.length_map] at h1
        have h2 : l[i] = [] := by rw [← he, ← hbi]
        rw [h2, List.length_nil] at h1
        exact hne cells[i] (List.getElem_mem hic) (List.length_eq_zero_iff.1 h1.symm)
    · intro h
      obtain ⟨b, bs, rfl⟩ := List.exists_cons_of_ne_nil hc
      obtain ⟨r, rs, hr⟩ := List.exists_cons_of_ne_nil (hne b (by simp))
      unfold rowsOf at h
      rw [List.flatMap_cons, hr] at h
      simp at h

/-- A mesh with a quadratic hexahedron over three lines, and references. -/
def exNasCells : List (String × List (List Nat)) :=
  [("triangle", [[0, 1, 2], [1, 2, 3]]), ("hexahedron20", [[0, 1, 2, 3, 0, 1, 2, 3, 3, 2, 1, 0, 1, 1, 2, 2, 3, 3, 0, 0]])]
def exNasPoints : List (List Int) := [[0, 0], [1, 0], [0, -12], [5, 6]]

theorem exNas_writable (pf : String) (hpf : pf ∈ ["free", "fixed-small", "fixed-large"]) :
    NasWritable NasIO.int pf (exNasPoints.map (· ++ [0])) (some [1, 2, -3, 4]) (exNasCells.map fun b => (b.1, b.2.map (·.map Int.ofNat))) (some [[5, 6], [7]]) where
  format := by simpa using hpf
  three := by decide +kernel
  fits := (by decide +kernel : ∀ pf ∈ ["free", "fixed-small", "fixed-large"], ∀ p ∈ exNasPoints.map (· ++ [0]), ∀ x ∈ p, (nasShown NasIO.int pf x).length ≤ 16) pf hpf
  pointRefs := by intro l hl; cases hl; decide
  rows := by decide +kernel
  cellRefs := by intro l hl; cases hl; decide +kernel

theorem exNas_keeps (pf : String) (hpf : pf ∈ ["free", "fixed-small", "fixed-large"]) :
    NasKeeps NasIO.int pf id (exNasPoints.map (· ++ [0])) (some [1, 2, -3, 4]) exNasCells (some [[5, 6], [7]]) where
  types := by decide +kernel
  nodes := by decide +kernel
  number := by decide
  count := by decide
  pointRefs := by
    intro l hl
    cases hl
    intro r hr
    have := (by decide +kernel : ∀ r ∈ [1, 2, -3, (4 : Int)], (fmtInt r).length ≤ 8) r hr
    exact ⟨fun _ => this, fun _ => by omega⟩
  cellRefs := by intro l hl; cases hl; decide +kernel
  shown := by
    intro p hp x hx
    have := (by decide +kernel : ∀ pf ∈ ["free", "fixed-small", "fixed-large"], ∀ p ∈ exNasPoints.map (· ++ [0]), ∀ x ∈ p,
      IsTok (nasShown NasIO.int pf x) ∧ ',' ∉ nasShown NasIO.int pf x ∧ NasIO.int.parse (nasShown NasIO.int pf x) = some x) pf hpf p hp x hx
    exact ⟨this.1, this.2.1, .inl this.2.2⟩

example (pf : String) (hpf : pf ∈ ["free", "fixed-small", "fixed-large"]) :
    ∃ m, (Nastran.write NasIO.int "5.0".toList pf "fixed-small" 2 exNasPoints (some [1, 2, -3, 4]) (exNasCells.map fun b => (b.1, b.2.map (·.map Int.ofNat))) (some [[5, 6], [7]])).bind
      (Nastran.read NasIO.int) = .ok m ∧ m.points = exNasPoints.map (· ++ [0]) ∧ m.cells = exNasCells ∧ m.prefs = some [1, 2, -3, 4] ∧ m.crefs = some [[5, 6], [7]] :=
  C34_roundtrip_same NasIO.int "5.0".toList pf 2 exNasPoints (some [1, 2, -3, 4]) exNasCells (some [[5, 6], [7]]) (by decide) (exNas_writable pf hpf) (exNas_keeps pf hpf)
    (by decide) (by decide) (by decide) (by
      intro pre a b post e
      match pre, e with
      | [], e => cases e; decide
      | [_], e => simp [exNasCells] at e
      | _ :: _ :: _, e => simp [exNasCells] at e)

/-- In the large format of cells the reader loses all cells. -/
theorem C34_roundtrip_false : ¬ C34_roundtrip_statement := by
  intro h
  have := h Int NasIO.int id "5.0".toList "free" "fixed-large" 2 exNasPoints (some [1, 2, -3, 4]) exNasCells (some [[5, 6], [7]]) (by decide) (by decide)
    (exNas_writable "free" (by decide)) (exNas_keeps "free" (by decide))
  revert this
  decide +kernel

/-- What is read then has no cells. -/
theorem C34_large_cells_lost : ((Nastran.write NasIO.int "5.0".toList "free" "fixed-large" 2 exNasPoints none (exNasCells.map fun b => (b.1, b.2.map (·.map Int.ofNat))) none).bind
    (Nastran.read NasIO.int)).map (·.cells) = .ok [] := by decide +kernel

theorem cellsText_free (name : List Char) (refs : Option (List Int)) (id ic : Nat) (rows : List (List Int)) (hr : ∀ l, refs = some l → l.length = ic + rows.length)
    (hne : rows ≠ []) : cellsText .free name refs id ic rows = .error .unboundLocal := by
  obtain ⟨r, rs, rfl⟩ := List.exists_cons_of_ne_nil hne
  rw [cellsText]
  have : ∃ t, refText refs ic = .ok t := by
    unfold refText
    cases refs with
    | none => exact ⟨_, rfl⟩
    | some l =>
      have := hr l rfl
      simp only
      rw [List.getElem?_eq_getElem (by simp only [List.length_cons] at this; omega)]
      exact ⟨_, rfl⟩
  obtain ⟨t, ht⟩ := this
  rw [ht]
  rfl

theorem blocksText_free (refs : Option (List (List Int))) (id k : Nat) (cells : List (String × List (List Int)))
    (ht : ∀ b ∈ cells, ∃ e ∈ nastranWritten, e.1 = b.1) (hr : ∀ l, refs = some l → (l.drop k).map (·.length) = cells.map (·.2.length))
    (hne : ∃ b ∈ cells, b.2 ≠ []) : blocksText .free refs id k cells = .error .unboundLocal := by
  induction cells generalizing id k with
  | nil => obtain ⟨b, hb, _⟩ := hne; simp at hb
  | cons b bs ih =>
    obtain ⟨e, he, heb⟩ := ht b (by simp)
    have hf := (written_find e he).1
    rw [heb] at hf
    rw [blocksText, hf]
    simp only
    have hrefs : ∃ q, blockRefs refs k = .ok q ∧ ∀ l, q = some l → l.length = b.2.length := by
      unfold blockRefs
      cases hrf : refs with
      | none => exact ⟨_, rfl, fun l h => by cases h⟩
      | some l =>
        have hl := hr l hrf
        have hkl : k < l.length := by
          have := congrArg List.length hl
          simp only [List.length_map, List.length_drop, List.length_cons] at this
          omega
        simp only
        rw [List.getElem?_eq_getElem hkl]
        refine ⟨_, rfl, fun l' h => ?_⟩
        cases h
        rw [List.drop_eq_getElem_cons hkl] at hl
        simp only [List.map_cons, List.cons.injEq] at hl
        exact hl.1
    obtain ⟨q, hq, hql⟩ := hrefs
    rw [hq]
    simp only
    by_cases hb : b.2 = []
    · rw [hb]
      simp only [cellsText, List.length_nil, Nat.add_zero]
      rw [ih id (k + 1) (fun b hb => ht b (by simp [hb])) ?_ ?_]
      · intro l hl
        have := hr l hl
        have hkl : k < l.length := by
          have := congrArg List.length this
          simp only [List.length_map, List.length_drop, List.length_cons] at this
          omega
        rw [List.drop_eq_getElem_cons hkl] at this
        simp only [List.map_cons, List.cons.injEq] at this
        exact this.2
      · obtain ⟨x, hx, hxn⟩ := hne
        rcases List.mem_cons.1 hx with rfl | hx
        · exact absurd hb hxn
        · exact ⟨x, hx, hxn⟩
    · rw [cellsText_free _ _ _ _ _ (fun l h => by rw [hql l h]; omega) hb]

/-- The free format of cells is accepted, yet no mesh with cells can be written in it: the names of the small and the large format are
not bound then. -/
theorem C34_free_cells (io : NasIO F) (version : List Char) (pf : String) (dim : Nat) (points : List (List F)) (prefs : Option (List Int))
    (cells : List (String × List (List Int))) (crefs : Option (List (List Int)))
    (h : NasWritable io pf (if dim = 2 then points.map (· ++ [io.zero]) else points) prefs cells crefs) (hne : ∃ b ∈ cells, b.2 ≠ []) :
    Nastran.write io version pf "free" dim points prefs cells crefs = .error .unboundLocal := by
  have hw := write_ok io version pf dim points prefs cells crefs h
  unfold Nastran.write at hw ⊢
  cases hp : pointFormat pf with
  | error e => rw [hp] at hw; cases hw
  | ok p =>
    rw [hp] at hw
    simp only [show cellFormat "fixed-small" = .ok (.fixed false 8 '+' 6 14) from rfl, show cellFormat "free" = .ok .free from rfl] at hw ⊢
    cases hps : mapRes (pointText io p prefs) ((if dim = 2 then points.map (· ++ [io.zero]) else points).zipIdx) with
    | error e => rw [hps] at hw; cases hw
    | ok ps =>
      simp only
      rw [blocksText_free crefs 0 0 cells (fun b hb => (h.rows b hb).imp fun e he => ⟨he.1, he.2.1⟩) (fun l hl => h.cellRefs l hl) hne]

example : Nastran.write NasIO.int "5.0".toList "free" "free" 2 exNasPoints (some [1, 2, -3, 4]) (exNasCells.map fun b => (b.1, b.2.map (·.map Int.ofNat))) (some [[5, 6], [7]]) =
    .error .unboundLocal := C34_free_cells _ _ _ 2 _ _ _ _ (exNas_writable "free" (by decide)) (by decide +kernel)

/-- Unknown formats are RuntimeErrors. -/
theorem C34_formats (io : NasIO F) (version : List Char) (pf cf : String) (dim : Nat) (points : List (List F)) (prefs : Option (List Int))
    (cells : List (String × List (List Int))) (crefs : Option (List (List Int)))
    (h : pf ∉ ["free", "fixed-small", "fixed-large"] ∨ cf ∉ ["free", "fixed-small", "fixed-large"]) :
    Nastran.write io version pf cf dim points prefs cells crefs = .error .runtimeError := by
  have hp : ∀ s, s ∉ ["free", "fixed-small", "fixed-large"] → pointFormat s = .error .runtimeError ∧ cellFormat s = .error .runtimeError := by
    intro s hs
    simp only [List.mem_cons, List.not_mem_nil, or_false, not_or] at hs
    unfold pointFormat cellFormat
    rw [if_neg hs.1, if_neg hs.2.1, if_neg hs.2.2, if_neg hs.1, if_neg hs.2.1, if_neg hs.2.2]
    exact ⟨rfl, rfl⟩
  have hpo : (∃ p, pointFormat pf = .ok p) ∨ pointFormat pf = .error .runtimeError := by
    unfold pointFormat
    repeat' split
    all_goals first | exact .inl ⟨_, rfl⟩ | exact .inr rfl
  unfold Nastran.write
  rcases hpo with ⟨p, hpp⟩ | hpp
  · rw [hpp]
    rcases h with h | h
    · rw [(hp pf h).1] at hpp; cases hpp
    · simp only
      rw [(hp cf h).2]
  · rw [hpp]

example : Nastran.write NasIO.int "5.0".toList "small" "fixed-small" 3 [] none [] none = .error .runtimeError := C34_formats _ _ _ _ _ _ _ _ _ (by decide)

/-! ### What is not kept -/

/-- A coordinate with eight or more digits before the point changes in the small format. -/
theorem C34_small_truncates : ((Nastran.write NasIO.int "5.0".toList "fixed-small" "fixed-small" 3 [[10000000000, 0, 0]] none [] none).bind
    (Nastran.read NasIO.int)).map (·.points) = .ok [[10000000, 0, 0]] := by decide +kernel

/-- In the free format a text of more than sixteen characters is an assertion. -/
theorem C34_long_float : Nastran.write NasIO.int "5.0".toList "free" "fixed-small" 3 [[100000000000000, 0, 0]] none [] none = .error .assertionError := by
  decide +kernel

/-- A wedge or a pyramid with quadratic edges is written, but the file cannot be read. -/
theorem C34_wedge15_lost : (Nastran.write NasIO.int "5.0".toList "free" "fixed-small" 3 [[0, 0, 0]] none [("wedge15", [List.replicate 15 0])] none).bind
    (Nastran.read NasIO.int) = .error .keyError := by decide +kernel
theorem C34_pyramid13_lost : (Nastran.write NasIO.int "5.0".toList "free" "fixed-small" 3 [[0, 0, 0]] none [("pyramid13", [List.replicate 13 0])] none).bind
    (Nastran.read NasIO.int) = .error .keyError := by decide +kernel

/-- If only some cells have references, the references that are read do not belong to the cells. -/
theorem C34_mixed_refs : (Nastran.read NasIO.int (linesText ["BEGIN BULK".toList, "GRID,1,,0.,0.,0.".toList, "CELAS1,1,,1".toList, "CROD,2,7,1,1".toList, "ENDDATA".toList])).map (fun m => (m.cells, m.crefs)) =
    .ok ([("vertex", [[0]]), ("line", [[0, 0]])], some [[7]]) := by decide +kernel

end Meshio.Props
