/-
C39: ANSYS (Fluent) msh files.
-/
import Verif.Proofs.AnsysRefuse

namespace Meshio
namespace Props
open Ansys
open Meshio.Spec.Ansys

variable {F : Type}

/-- Words of eight bytes as floats, for examples; their text is their number. -/
def ansWord : AnsFloat (Fin (256 ^ 8)) where
  fmt x := fmtNat x.val
  parse s := (parseInt s).map fun i => ⟨i.toNat % 256 ^ 8, Nat.mod_lt _ (by decide)⟩
  parse_fmt x := by
    have : parseInt (fmtNat x.val) = some (x.val : Int) := parseInt_fmtInt (x.val : Int)
    rw [this]
    simp only [Option.map_some, Option.some.injEq]
    apply Fin.ext
    show (x.val : Int).toNat % 256 ^ 8 = x.val
    rw [Int.toNat_natCast, Nat.mod_eq_of_lt x.isLt]
  tok x := isTok_fmtNat x.val
  bin := Medit.BinFloat.word

/-- Numbers are hexadecimal: the digits are those of the number in base 16. -/
theorem C39_hex (n : Nat) : fmtHex n = Nat.toDigits 16 n ∧ parseHex (Nat.toDigits 16 n) = some (n : Int) := by
  have h : fmtHex n = Nat.toDigits 16 n := by
    have key : ∀ k n, n ≤ k → hexGo k n = Nat.toDigits 16 n := by
      intro k
      induction k with
      | zero =>
        intro n hn
        obtain rfl : n = 0 := by omega
        rfl
      | succ k ih =>
        intro n hn
        rw [hexGo]
        by_cases h16 : n < 16
        · rw [if_pos h16, Nat.toDigits_of_lt_base h16]
          exact (by decide : ∀ m, m < 16 → [hexChar m] = [m.digitChar]) n h16
        · rw [if_neg h16, ih (n / 16) (by omega), Nat.toDigits_of_base_le (by decide) (show 16 ≤ n by omega)]
          congr 1
          exact (by decide : ∀ m, m < 16 → [hexChar m] = [m.digitChar]) (n % 16) (Nat.mod_lt _ (by decide))
    exact key n n (Nat.le_refl n)
  exact ⟨h, h ▸ parseHex_fmtHex n⟩

/-- Reading a file: any sequence of sections, with the points in any number of consecutive ranges.  The points are all points of
the file in order, the cells are the cell and face blocks in order, and node numbers are counted from the first point. -/
theorem C39_read (io : AnsFloat F) (secs : List (List Char × Item F)) (h : ∀ s ∈ secs, Section io s.1 s.2)
    (ht : TotalsFirst (secs.map (·.2))) (hc : Consecutive (pointItems (secs.map (·.2)))) (dim : Nat)
    (hd : ∀ p ∈ pointItems (secs.map (·.2)), p.2.1 = dim) (first : Int)
    (hfirst : (pointItems (secs.map (·.2))).head?.map (·.1) = some first) :
    read io (secs.flatMap (·.1)) =
      .ok ⟨(pointItems (secs.map (·.2))).flatMap (·.2.2),
        (cellItems (secs.map (·.2))).map fun b => (b.1, b.2.map fun r => r.map (· - first))⟩ :=
  read_sections io secs h ht hc dim hd first hfirst

/-- What is written, character by character. -/
theorem C39_write (io : AnsFloat F) (version : List Char) (binary single : Bool) (dim : Nat) (hd : dim = 2 ∨ dim = 3) (points : List (List F))
    (cells : List Blk) (h : ∀ b ∈ cells, Good binary b) :
    write io version binary single dim points cells = .ok (fileText io version binary (if single then 4 else 8) dim points cells) :=
  write_eq io version binary single hd points h

/-- The claim for all files: what is written is read back. -/
def C39_roundtrip_statement : Prop :=
  ∀ (F : Type) (io : AnsFloat F) (version : List Char) (_ : ∀ c ∈ version, c ≠ '(' ∧ c ≠ ')' ∧ c ≠ '\n') (binary single : Bool) (dim : Nat)
    (_ : dim = 2 ∨ dim = 3) (points : List (List F)) (_ : ∀ p ∈ points, p.length = dim)
    (_ : single = true → ∀ p ∈ points, ∀ x ∈ p, io.bin.rnd 4 x = x)
    (cells : List Blk) (_ : ∀ b ∈ cells, Good binary b),
    ∃ s, write io version binary single dim points cells = .ok s ∧ read io s = .ok ⟨points, cells.map fun b => (b.type, b.rows)⟩

/-- Without points of single precision in binary files, it holds. -/
theorem C39_roundtrip_partial (io : AnsFloat F) (version : List Char) (hv : ∀ c ∈ version, c ≠ '(' ∧ c ≠ ')' ∧ c ≠ '\n') (binary single : Bool)
    (hbs : binary = false ∨ single = false) (dim : Nat) (hd : dim = 2 ∨ dim = 3) (points : List (List F)) (hp : ∀ p ∈ points, p.length = dim)
    (cells : List Blk) (h : ∀ b ∈ cells, Good binary b) :
    ∃ s, write io version binary single dim points cells = .ok s ∧ read io s = .ok ⟨points, cells.map fun b => (b.type, b.rows)⟩ := by
  refine ⟨_, write_eq io version binary single hd points h, ?_⟩
  rcases hbs with rfl | rfl
  · have : fileText io version false (if single = true then 4 else 8) dim points cells = fileText io version false 8 dim points cells := rfl
    rw [this]
    exact roundtrip io version hv false hd points hp h
  · exact roundtrip io version hv binary hd points hp h

/-- A tetrahedron and a hexahedron, in ASCII and binary. -/
def ansCells : List Blk := [⟨"tetra", [[0, 1, 2, 3], [1, 2, 3, 16]], 8⟩, ⟨"triangle", [], 4⟩, ⟨"quad", [[0, 1, 2, 300]], 4⟩]

example : ∀ binary, ∀ b ∈ ansCells, Good binary b := by
  intro binary b hb
  simp only [ansCells, List.mem_cons, List.not_mem_nil, or_false] at hb
  rcases hb with rfl | rfl | rfl
  · exact ⟨⟨4, by decide, by decide⟩, fun _ => ⟨by decide, by decide +kernel⟩⟩
  · exact ⟨⟨3, by decide, by decide⟩, fun _ => ⟨by decide, by decide +kernel⟩⟩
  · exact ⟨⟨4, by decide, by decide⟩, fun _ => ⟨by decide, by decide +kernel⟩⟩

example : (write ansWord "1.0".toList true false 2 [[1, 2], [3, 258]] ansCells).bind (read ansWord) =
    .ok ⟨[[1, 2], [3, 258]], [("tetra", [[0, 1, 2, 3], [1, 2, 3, 16]]), ("triangle", []), ("quad", [[0, 1, 2, 300]])]⟩ := by decide +kernel

example : (write ansWord "1.0".toList false false 2 [[1, 2], [3, 258]] ansCells).bind (read ansWord) =
    .ok ⟨[[1, 2], [3, 258]], [("tetra", [[0, 1, 2, 3], [1, 2, 3, 16]]), ("triangle", []), ("quad", [[0, 1, 2, 300]])]⟩ := by decide +kernel

/-- Points of single precision are written in four bytes under an index that says eight: they are not read back. -/
theorem C39_roundtrip_false : ¬ C39_roundtrip_statement := by
  intro h
  obtain ⟨s, hs, hr⟩ := h _ ansWord "1.0".toList (by decide) true true 2 (Or.inl rfl) [[1, 2], [3, 4]] (by decide) (by
      intro _ p hp x hx
      have : x.val < 256 ^ 4 := by
        have h3 : (List.flatten [[1, 2], [3, 4]] : List (Fin (256 ^ 8))).map (·.val) = [1, 2, 3, 4] := by decide +kernel
        have h4 : x.val ∈ (List.flatten [[1, 2], [3, 4]] : List (Fin (256 ^ 8))).map (·.val) :=
          List.mem_map.2 ⟨x, List.mem_flatten.2 ⟨p, hp, hx⟩, rfl⟩
        rw [h3] at h4
        exact (by decide : ∀ n ∈ [1, 2, 3, 4], n < 256 ^ 4) _ h4
      apply Fin.ext
      show x.val % 256 ^ 4 % 256 ^ 8 = x.val
      omega) [] (by simp)
  have h1 : write ansWord "1.0".toList true true 2 [[1, 2], [3, 4]] [] = .ok s ∧
    read ansWord s = .ok ⟨[[1, 2], [3, 4]], []⟩ := ⟨hs, hr⟩
  have h2 : (write ansWord "1.0".toList true true 2 [[1, 2], [3, 4]] []).bind (read ansWord) = .ok ⟨[[1, 2], [3, 4]], []⟩ := by
    rw [h1.1]; exact h1.2
  exact absurd h2 (by decide +kernel)

/-- A total number of points behind the points makes the reader forget the first index: any cells are then an error. -/
theorem C39_total_after_points :
    read ansWord "(10 (1 1 2 1 2)(\n1 2\n3 4\n))\n(10 (0 1 2 0))\n(12 (1 1 1 1 1)(\n1 2 1\n))\n".toList = .error .typeError ∧
    read ansWord "(10 (0 1 2 0))\n(10 (1 1 2 1 2)(\n1 2\n3 4\n))\n(12 (1 1 1 1 1)(\n1 2 1\n))\n".toList =
      .ok ⟨[[1, 2], [3, 4]], [("triangle", [[0, 1, 0]])]⟩ := by decide +kernel

/-- Points that do not go on where those before ended are refused, whatever follows. -/
theorem C39_gap (io : AnsFloat F) (secs : List (List Char × Item F)) (h : ∀ s ∈ secs, Section io s.1 s.2)
    (ht : TotalsFirst (secs.map (·.2))) (hc : Consecutive (pointItems (secs.map (·.2)))) (p : Int × Nat × List (List F))
    (hp : (pointItems (secs.map (·.2))).getLast? = some p) (enc : Enc) (first last kind dim : Int) (head : List Char)
    (hh : Head pointsKey enc first last kind dim head) (hgap : first ≠ p.1 + p.2.2.length) (rest : List Char) :
    read io (secs.flatMap (·.1) ++ (head ++ rest)) = .error .readError :=
  read_gap io secs h ht hc p hp enc first last kind dim head hh hgap rest

/-- A line of coordinates or of nodes with a wrong number of words is refused, whatever follows. -/
theorem C39_bad_row (io : AnsFloat F) (secs : List (List Char × Item F)) (h : ∀ s ∈ secs, Section io s.1 s.2)
    (ht : TotalsFirst (secs.map (·.2))) (hc : Consecutive (pointItems (secs.map (·.2)))) (first last kind : Int)
    (head data line : List Char) (hl : '\n' ∉ line) (rest : List Char) :
    (∀ (dim : Nat) (rows : List (List F)), Head pointsKey .text first last kind dim head → PointRows io dim .text data rows →
      rows.length < last - first + 1 → splitWs line ≠ [] → (splitWs line).length ≠ dim →
      read io (secs.flatMap (·.1) ++ (head ++ (data ++ (line ++ '\n' :: rest)))) = .error .readError) ∧
    (∀ (elem : Int) (t : String) (k : Nat) (rows : List (List Int)), kind ≠ 0 → cellType elem = some (t, k) →
      Head cellsKey .text first last kind elem head → NodeRows k 0 .text data rows → rows.length < last - first + 1 →
      (splitWs line).length ≠ k →
      read io (secs.flatMap (·.1) ++ (head ++ (data ++ (line ++ '\n' :: rest)))) = .error .readError) :=
  ⟨fun dim rows hh hr hn hne hd => read_bad_point io secs h ht hc first last kind dim head hh data rows hr hn line hl hne hd rest,
   fun elem t k rows hk hct hh hr hn hd => read_bad_cell io secs h ht hc first last kind elem t k hk hct head hh data rows hr hn line hl hd rest⟩

/-- A file of many notations: comments, blank lines, several point sections, binary and mixed sections. -/
def ansFile : List (List Char × Item (Fin (256 ^ 8))) :=
  [("(0 \"a (comment)\"\n over (two) lines)".toList, .nothing), ("  \n".toList, .nothing),
   ("(10 (0 1 3 0))\n".toList, .totalPoints),
   (" ( 10 (1 5 6 1 2)\n ( \n1 2 \n\n 3 4\n) )".toList, .points 5 2 [[1, 2], [3, 4]]), ("\n".toList, .nothing),
   ("(10 (1 7 7 1 2)(\n 9 8\n))".toList, .points 7 2 [[9, 8]]), ("\n".toList, .nothing),
   ("(13 (2 1 2 1 0)(\n2 5 6 0 1\n3 5 6 7 0 1\n))".toList, .cells [("line", [[5, 6]]), ("triangle", [[5, 6, 7]])]), ("\n".toList, .nothing),
   ("(12 (1 1 1 1 1)(\n5 6 7\n))".toList, .cells [("triangle", [[5, 6, 7]])])]

example : read ansWord (ansFile.flatMap (·.1)) =
    .ok ⟨[[1, 2], [3, 4], [9, 8]], [("line", [[0, 1]]), ("triangle", [[0, 1, 2]]), ("triangle", [[0, 1, 2]])]⟩ := by decide +kernel

/-- Those sections are sections in the sense of the specification. -/
example : Section ansWord " ( 10 (1 5 6 1 2)\n ( \n1 2 \n\n 3 4\n) )".toList (.points 5 2 [[1, 2], [3, 4]]) := by
  have hh := Head.next (key := pointsKey) (enc := .text) (first := 5) (last := 6) (kind := 1) (elem := 2) " ".toList " ".toList " ".toList [] " ".toList
    "1 5 6 1 2".toList 1 [] (by decide) (by decide) (by decide) (by decide) (by decide) (by decide) (by decide) (by decide) (by decide +kernel)
  have hr := PointRows.cons (io := ansWord) (dim := 2) [" ".toList] "1 2 ".toList [1, 2] _ _ (by decide) (by decide) (by decide) (by decide) (by decide +kernel)
    (PointRows.cons [[]] " 3 4".toList [3, 4] _ _ (by decide) (by decide) (by decide) (by decide) (by decide +kernel) PointRows.nil)
  exact Section.points .text 5 1 2 [[1, 2], [3, 4]] _ _ ") )".toList hh hr (closes_of_skipClose _ _ (by decide +kernel))

example : Section ansWord "(13 (2 1 2 1 0)(\n2 5 6 0 1\n3 5 6 7 0 1\n))".toList (.cells [("line", [[5, 6]]), ("triangle", [[5, 6, 7]])]) := by
  have hh := Head.same (key := facesKey) (enc := .text) (first := 1) (last := 2) (kind := 1) (elem := 0) [] [] " ".toList [] []
    "2 1 2 1 0".toList 2 [] (by decide) (by decide) (by decide) (by decide) (by decide) (by decide) (by decide) (by decide) (by decide +kernel)
  have hr := MixedRows.cons [] "2 5 6 0 1".toList "2".toList (splitWs "5 6 0 1".toList) 2 "line" 2 [5, 6] _ _ (by decide) (by decide) (by decide +kernel)
    (by decide +kernel) (by decide) (by decide) (by decide) (by decide +kernel)
    (MixedRows.cons [] "3 5 6 7 0 1".toList "3".toList (splitWs "5 6 7 0 1".toList) 3 "triangle" 3 [5, 6, 7] _ _ (by decide) (by decide) (by decide +kernel)
      (by decide +kernel) (by decide) (by decide) (by decide) (by decide +kernel) MixedRows.nil)
  exact Section.mixedFaces 1 1 [("line", [5, 6]), ("triangle", [5, 6, 7])] _ _ "))".toList hh hr (closes_of_skipClose _ _ (by decide +kernel))

/-- Dimensions, cell types and types of integers that cannot be written are refused. -/
theorem C39_write_refuse (io : AnsFloat F) (version : List Char) (single : Bool) (dim : Nat) (points : List (List F)) :
    (∀ binary cells, dim ≠ 2 → dim ≠ 3 → write io version binary single dim points cells = .error .writeError) ∧
    (∀ binary (good : List Blk) (b : Blk) (more : List Blk), dim = 2 ∨ dim = 3 → (∀ b ∈ good, Good binary b) → typeNumber b.type = none →
      write io version binary single dim points (good ++ b :: more) = .error .keyError) ∧
    (∀ (good : List Blk) (b : Blk) (more : List Blk), dim = 2 ∨ dim = 3 → (∀ b ∈ good, Good true b) → b.width ≠ 4 → b.width ≠ 8 →
      write io version true single dim points (good ++ b :: more) = .error .keyError) := by
  have key : ∀ (binary : Bool) (good : List Blk) (b : Blk) (more : List Blk) (first : Nat), (∀ b ∈ good, Good binary b) →
      (∀ n : Nat, cellText binary n b = .error .keyError) → cellTexts binary first (good ++ b :: more) = .error .keyError := by
    intro binary good b more
    induction good with
    | nil =>
      intro first _ hb
      rw [List.nil_append, cellTexts, hb]
    | cons g good ih =>
      intro first hg hb
      rw [List.cons_append, cellTexts, cellText_eq (hg g (by simp))]
      simp only
      rw [show (first : Int) + (g.rows.length : Int) = ((first + g.rows.length : Nat) : Int) by omega,
        ih _ (fun x hx => hg x (by simp [hx])) hb]
  refine ⟨?_, ?_, ?_⟩
  · intro binary cells h2 h3
    unfold write
    rw [if_pos ⟨h2, h3⟩]
  · intro binary good b more hd hg hb
    unfold write
    rw [if_neg (by omega), show (0 : Int) = ((0 : Nat) : Int) from rfl, key binary good b more 0 hg]
    intro n
    unfold cellText
    rw [typeNumber_eq, hb]
    split <;> rfl
  · intro good b more hd hg h4 h8
    unfold write
    rw [if_neg (by omega), show (0 : Int) = ((0 : Nat) : Int) from rfl, key true good b more 0 hg]
    intro n
    unfold cellText
    rw [if_pos rfl, if_neg h4, if_neg h8]

example : write ansWord [] true false 3 [] [⟨"line", [[0, 1]], 8⟩] = .error .keyError ∧
    write ansWord [] true false 3 [] [⟨"triangle", [[0, 1, 2]], 2⟩] = .error .keyError ∧
    write ansWord [] true false 1 [] [] = .error .writeError := by decide +kernel

end Props
end Meshio
