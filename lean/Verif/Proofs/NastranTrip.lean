/-
What is written to a Nastran file is read back.
-/
import Verif.Proofs.NastranWrite
import Verif.Proofs.AbaqusBack
namespace Meshio.Nastran
open Meshio Types Tables Spec

variable {F : Type}

/-! ## Columns -/

theorem nasLeft_length {n : Nat} {s : List Char} (h : s.length ≤ n) : (nasLeft n s).length = n := by
  unfold nasLeft
  rw [List.length_append, List.length_replicate]; omega

theorem nasRight_length {n : Nat} {s : List Char} (h : s.length ≤ n) : (nasRight n s).length = n := by
  unfold nasRight
  rw [List.length_append, List.length_replicate]; omega

theorem strip_nasLeft (n : Nat) (s : List Char) (h : s = [] ∨ IsTok s) : strip (nasLeft n s) = s := by
  unfold nasLeft
  apply strip_trim
  · intro c hc
    rcases h with rfl | h
    · cases hc
    · exact h.2 c (List.mem_of_mem_head? hc)
  · intro c hc
    rcases h with rfl | h
    · cases hc
    · exact h.2 c (List.mem_of_getLast? hc)
  · intro c hc
    rw [(List.mem_replicate.1 hc).2]; decide

theorem strip_nasRight (n : Nat) (s : List Char) (h : IsTok s) : strip (nasRight n s) = s := by
  have e : strip (nasRight n s) = strip s := by
    unfold nasRight
    generalize n - s.length = k
    induction k with
    | zero => rfl
    | succ k ih =>
      rw [List.replicate_succ, List.cons_append, ← ih]
      unfold strip
      rw [List.dropWhile_cons_of_pos (by decide)]
  rw [e, Abaqus.strip_tok h]

/-- No comma and no newline. -/
def Clean (w : List Char) : Prop := ',' ∉ w ∧ '\n' ∉ w

theorem clean_nasLeft {n : Nat} {s : List Char} (h : Clean s) : Clean (nasLeft n s) := by
  unfold nasLeft
  constructor <;> rw [List.mem_append, not_or] <;> refine ⟨?_, fun hm => ?_⟩
  · exact h.1
  · exact absurd (List.mem_replicate.1 hm).2 (by decide)
  · exact h.2
  · exact absurd (List.mem_replicate.1 hm).2 (by decide)

theorem clean_nasRight {n : Nat} {s : List Char} (h : Clean s) : Clean (nasRight n s) := by
  unfold nasRight
  constructor <;> rw [List.mem_append, not_or] <;> refine ⟨fun hm => ?_, ?_⟩
  · exact absurd (List.mem_replicate.1 hm).2 (by decide)
  · exact h.1
  · exact absurd (List.mem_replicate.1 hm).2 (by decide)
  · exact h.2

theorem clean_sub {s t : List Char} (h : Clean s) (hs : ∀ c ∈ t, c ∈ s) : Clean t := ⟨fun hm => h.1 (hs _ hm), fun hm => h.2 (hs _ hm)⟩

theorem clean_tok {s : List Char} (h : IsTok s) (hc : ',' ∉ s) : Clean s := ⟨hc, fun hm => absurd (h.2 _ hm) (by decide)⟩

theorem clean_fmtInt (i : Int) : Clean (fmtInt i) := clean_tok (isTok_fmtInt i) (Abaqus.comma_fmtInt i)

theorem clean_fmtNat (i : Nat) : Clean (fmtNat i) := clean_fmtInt (i : Int)

theorem clean_hex (n : Nat) : Clean (hexNat n) :=
  ⟨fun hm => absurd (hexNat_chars n _ hm) (by decide), fun hm => absurd (hexNat_chars n _ hm) (by decide)⟩

theorem clean_ref (r : Option Int) : Clean (nasRefText r) := by
  cases r with
  | none => exact ⟨by simp [nasRefText], by simp [nasRefText]⟩
  | some r => exact clean_fmtInt r

theorem ref_tok (r : Option Int) : nasRefText r = [] ∨ IsTok (nasRefText r) := by
  cases r with
  | none => exact .inl rfl
  | some r => exact .inr (isTok_fmtInt r)

theorem clean_flatten (ws : List (List Char)) (h : ∀ w ∈ ws, Clean w) : Clean ws.flatten := by
  constructor <;> intro hm <;> obtain ⟨w, hw, hm⟩ := List.mem_flatten.1 hm
  · exact (h w hw).1 hm
  · exact (h w hw).2 hm

/-- A line of words of eight columns. -/
def fixedLine (ws : List (List Char)) : NasLine := ⟨ws.flatten, ws, []⟩

theorem not_blank {l : List Char} {c : Char} (h3 : 3 ≤ l.length) (hc : l.head? = some c) (h1 : c ≠ '$') (h2 : c ≠ '#') (h3' : c ≠ '/') : ¬ NasBlank l := by
  rintro ⟨_, h | h | h | h⟩
  · omega
  · rw [hc, Option.some.injEq] at h; exact h1 h
  · rw [hc, Option.some.injEq] at h; exact h2 h
  · cases l with
    | nil => cases hc
    | cons a l =>
      simp only [List.head?_cons, Option.some.injEq] at hc
      subst hc
      cases l with
      | nil => simp at h
      | cons b l =>
        simp only [List.take_succ_cons, List.take_zero, List.cons.injEq, and_true] at h
        exact h3' h.1

theorem fixedLine_ok (c : Char) (w : List Char) (ws : List (List Char)) (h1 : c ≠ '$') (h2 : c ≠ '#') (h3 : c ≠ '/')
    (hc : w.head? = some c) (h8 : ∀ v ∈ w :: ws, v.length = 8) (hcl : ∀ v ∈ w :: ws, Clean v) : (fixedLine (w :: ws)).Ok := by
  have hcf := clean_flatten _ hcl
  refine ⟨hcf.2, ?_, .inr ⟨hcf.1, rfl, ?_⟩, by simp [fixedLine]⟩
  · apply not_blank (c := c) _ _ h1 h2 h3
    · have := h8 w (by simp)
      show 3 ≤ (w :: ws).flatten.length
      rw [List.flatten_cons, List.length_append]; omega
    · show (w :: ws).flatten.head? = some c
      cases w with
      | nil => cases hc
      | cons a w => exact hc
  · refine ⟨(w :: ws).dropLast, (w :: ws).getLast (by simp), (List.dropLast_concat_getLast _).symm, fun v hv => h8 v ((List.dropLast_prefix _).subset hv), ?_⟩
    have := h8 _ (List.getLast_mem (l := w :: ws) (by simp))
    omega

/-! ## Points -/

/-- The two halves of a column of sixteen. -/
def halves (s : List Char) : List (List Char) := [s.take 8, s.drop 8]

/-- The entry of a point. -/
def gridEntry (pf : String) (id : Nat) (ref x y z : List Char) : NasEntry :=
  if pf = "free" then ⟨⟨joinWith ',' ["GRID".toList, fmtNat id, ref, x, y, z], ["GRID".toList, fmtNat id, ref, x, y, z], []⟩, []⟩
  else if pf = "fixed-small" then ⟨fixedLine [nasLeft 8 "GRID".toList, nasLeft 8 (fmtNat id), nasLeft 8 ref, nasRight 8 x, nasRight 8 y, nasRight 8 z], []⟩
  else ⟨fixedLine (nasLeft 8 "GRID*".toList :: (halves (nasLeft 16 (fmtNat id)) ++ halves (nasLeft 16 ref) ++ halves (nasRight 16 x) ++ halves (nasRight 16 y))),
    [fixedLine (nasLeft 8 "*".toList :: halves (nasRight 16 z))]⟩

/-- What is needed of an entry. -/
structure EntryOk (e : NasEntry) (lines fields : List (List Char)) : Prop where
  lines : e.lines = lines
  fields : e.fields = fields
  ok : ∀ l ∈ e.allLines, l.Ok
  chain : nasChain e.first e.more
  head : e.first.text.head? = some 'G' ∨ e.first.text.head? = some 'C'
  last : e.last.words.length ≠ 10

theorem gridEntry_free (id : Nat) (ref x y z : List Char) (hr : ref = [] ∨ IsTok ref) (hrc : Clean ref) (hx : IsTok x ∧ ',' ∉ x) (hy : IsTok y ∧ ',' ∉ y) (hz : IsTok z ∧ ',' ∉ z) :
    EntryOk (gridEntry "free" id ref x y z) (nasGrid "free" id ref x y z) ["GRID".toList, fmtNat id, ref, x, y, z] := by
  have hstr : strip ref = ref := by
    rcases hr with rfl | hr
    · rfl
    · exact Abaqus.strip_tok hr
  have hg : IsTok "GRID".toList := by decide
  have hwords : ∀ w ∈ ["GRID".toList, fmtNat id, ref, x, y, z], Clean w := by
    intro w hw
    simp only [List.mem_cons, List.mem_nil_iff, or_false] at hw
    rcases hw with rfl | rfl | rfl | rfl | rfl | rfl
    · exact ⟨by decide, by decide⟩
    · exact clean_fmtNat id
    · exact hrc
    · exact clean_tok hx.1 hx.2
    · exact clean_tok hy.1 hy.2
    · exact clean_tok hz.1 hz.2
  have htext : ∃ r, joinWith ',' ["GRID".toList, fmtNat id, ref, x, y, z] = 'G' :: 'R' :: 'I' :: 'D' :: ',' :: r := ⟨_, rfl⟩
  obtain ⟨r, hr'⟩ := htext
  refine ⟨rfl, ?_, ?_, trivial, .inl ?_, (by decide : (6 : Nat) ≠ 10)⟩
  · show ["GRID".toList, fmtNat id, ref, x, y, z].map strip = _
    simp only [List.map_cons, List.map_nil, hstr, Abaqus.strip_tok hg, Abaqus.strip_tok (isTok_fmtNat id), Abaqus.strip_tok hx.1, Abaqus.strip_tok hy.1, Abaqus.strip_tok hz.1]
  · intro l hl
    have hl : l = ⟨joinWith ',' ["GRID".toList, fmtNat id, ref, x, y, z], ["GRID".toList, fmtNat id, ref, x, y, z], []⟩ := by
      simpa [gridEntry, NasEntry.allLines] using hl
    subst hl
    refine ⟨?_, ?_, .inl ⟨?_, rfl, fun w hw => (hwords w hw).1⟩, by simp⟩
    · exact not_mem_joinWith (show ('\n' : Char) ≠ ',' by decide) _ fun w hw => (hwords w hw).2
    · show ¬ NasBlank (joinWith ',' ["GRID".toList, fmtNat id, ref, x, y, z])
      rw [hr']
      exact not_blank (c := 'G') (by simp) rfl (by decide) (by decide) (by decide)
    · show ',' ∈ joinWith ',' ["GRID".toList, fmtNat id, ref, x, y, z]
      rw [hr']; simp
  · show (joinWith ',' ["GRID".toList, fmtNat id, ref, x, y, z]).head? = _
    rw [hr']; rfl

theorem gridEntry_small (id : Nat) (ref x y z : List Char) (hid : (fmtNat id).length ≤ 8) (hr : ref = [] ∨ IsTok ref) (hrc : Clean ref) (hrl : ref.length ≤ 8)
    (hx : IsTok x ∧ ',' ∉ x) (hy : IsTok y ∧ ',' ∉ y) (hz : IsTok z ∧ ',' ∉ z) (hxl : x.length ≤ 8) (hyl : y.length ≤ 8) (hzl : z.length ≤ 8) :
    EntryOk (gridEntry "fixed-small" id ref x y z) (nasGrid "fixed-small" id ref x y z) ["GRID".toList, fmtNat id, ref, x, y, z] := by
  have e : gridEntry "fixed-small" id ref x y z = ⟨fixedLine [nasLeft 8 "GRID".toList, nasLeft 8 (fmtNat id), nasLeft 8 ref, nasRight 8 x, nasRight 8 y, nasRight 8 z], []⟩ := by
    unfold gridEntry
    rw [if_neg (by decide), if_pos rfl]
  have hg : IsTok "GRID".toList := by decide
  rw [e]
  refine ⟨?_, ?_, ?_, trivial, .inl ?_, by simp [NasEntry.last, NasEntry.allLines, fixedLine]⟩
  · unfold nasGrid
    rw [if_neg (by decide), if_pos rfl]
    simp [NasEntry.lines, NasEntry.allLines, NasLine.lines, fixedLine]
  · show [nasLeft 8 "GRID".toList, nasLeft 8 (fmtNat id), nasLeft 8 ref, nasRight 8 x, nasRight 8 y, nasRight 8 z].map strip = _
    simp only [List.map_cons, List.map_nil, strip_nasLeft _ _ (.inr hg), strip_nasLeft _ _ (.inr (isTok_fmtNat id)), strip_nasLeft _ _ hr,
      strip_nasRight _ _ hx.1, strip_nasRight _ _ hy.1, strip_nasRight _ _ hz.1]
  · intro l hl
    have hl : l = fixedLine [nasLeft 8 "GRID".toList, nasLeft 8 (fmtNat id), nasLeft 8 ref, nasRight 8 x, nasRight 8 y, nasRight 8 z] := by
      simpa [NasEntry.allLines] using hl
    rw [hl]
    apply fixedLine_ok 'G' _ _ (by decide) (by decide) (by decide)
    · rfl
    · intro v hv
      simp only [List.mem_cons, List.mem_nil_iff, or_false] at hv
      rcases hv with rfl | rfl | rfl | rfl | rfl | rfl
      · exact nasLeft_length (by decide)
      · exact nasLeft_length hid
      · exact nasLeft_length hrl
      · exact nasRight_length hxl
      · exact nasRight_length hyl
      · exact nasRight_length hzl
    · intro v hv
      simp only [List.mem_cons, List.mem_nil_iff, or_false] at hv
      rcases hv with rfl | rfl | rfl | rfl | rfl | rfl
      · exact clean_nasLeft ⟨by decide, by decide⟩
      · exact clean_nasLeft (clean_fmtNat id)
      · exact clean_nasLeft hrc
      · exact clean_nasRight (clean_tok hx.1 hx.2)
      · exact clean_nasRight (clean_tok hy.1 hy.2)
      · exact clean_nasRight (clean_tok hz.1 hz.2)
  · rfl

theorem halves_ok {s : List Char} (h : s.length = 16) (hc : Clean s) : ∀ v ∈ halves s, v.length = 8 ∧ Clean v := by
  intro v hv
  simp only [halves, List.mem_cons, List.mem_nil_iff, or_false] at hv
  rcases hv with rfl | rfl
  · exact ⟨by rw [List.length_take]; omega, clean_sub hc fun c hc => List.mem_of_mem_take hc⟩
  · exact ⟨by rw [List.length_drop]; omega, clean_sub hc fun c hc => List.mem_of_mem_drop hc⟩

theorem gridEntry_large (id : Nat) (ref x y z : List Char) (hid : (fmtNat id).length ≤ 16) (hr : ref = [] ∨ IsTok ref) (hrc : Clean ref) (hrl : ref.length ≤ 16)
    (hx : IsTok x ∧ ',' ∉ x) (hy : IsTok y ∧ ',' ∉ y) (hz : IsTok z ∧ ',' ∉ z) (hxl : x.length ≤ 16) (hyl : y.length ≤ 16) (hzl : z.length ≤ 16) :
    EntryOk (gridEntry "fixed-large" id ref x y z) (nasGrid "fixed-large" id ref x y z) ["GRID*".toList, fmtNat id, ref, x, y, z] := by
  have e : gridEntry "fixed-large" id ref x y z = ⟨fixedLine (nasLeft 8 "GRID*".toList :: (halves (nasLeft 16 (fmtNat id)) ++ halves (nasLeft 16 ref) ++ halves (nasRight 16 x) ++ halves (nasRight 16 y))),
    [fixedLine (nasLeft 8 "*".toList :: halves (nasRight 16 z))]⟩ := by
    unfold gridEntry
    rw [if_neg (by decide), if_neg (by decide)]
  have hg : IsTok "GRID*".toList := by decide
  have h1 : (fixedLine (nasLeft 8 "GRID*".toList :: (halves (nasLeft 16 (fmtNat id)) ++ halves (nasLeft 16 ref) ++ halves (nasRight 16 x) ++ halves (nasRight 16 y)))).Ok := by
    have key : ∀ v ∈ halves (nasLeft 16 (fmtNat id)) ++ halves (nasLeft 16 ref) ++ halves (nasRight 16 x) ++ halves (nasRight 16 y), v.length = 8 ∧ Clean v := by
      intro v hv
      simp only [List.mem_append] at hv
      rcases hv with ((hv | hv) | hv) | hv
      · exact halves_ok (nasLeft_length hid) (clean_nasLeft (clean_fmtNat id)) v hv
      · exact halves_ok (nasLeft_length hrl) (clean_nasLeft hrc) v hv
      · exact halves_ok (nasRight_length hxl) (clean_nasRight (clean_tok hx.1 hx.2)) v hv
      · exact halves_ok (nasRight_length hyl) (clean_nasRight (clean_tok hy.1 hy.2)) v hv
    apply fixedLine_ok 'G' _ _ (by decide) (by decide) (by decide)
    · rfl
    · intro v hv
      rcases List.mem_cons.1 hv with rfl | hv
      · exact nasLeft_length (by decide)
      · exact (key v hv).1
    · intro v hv
      rcases List.mem_cons.1 hv with rfl | hv
      · exact clean_nasLeft ⟨by decide, by decide⟩
      · exact (key v hv).2
  have h2 : (fixedLine (nasLeft 8 "*".toList :: halves (nasRight 16 z))).Ok := by
    have key := halves_ok (nasRight_length hzl) (clean_nasRight (clean_tok hz.1 hz.2))
    apply fixedLine_ok '*' _ _ (by decide) (by decide) (by decide)
    · rfl
    · intro v hv
      rcases List.mem_cons.1 hv with rfl | hv
      · exact nasLeft_length (by decide)
      · exact (key v hv).1
    · intro v hv
      rcases List.mem_cons.1 hv with rfl | hv
      · exact clean_nasLeft ⟨by decide, by decide⟩
      · exact (key v hv).2
  rw [e]
  refine ⟨?_, ?_, ?_, ⟨.inl ⟨.inr rfl, by simp [fixedLine, halves]⟩, trivial⟩, .inl rfl, by simp [NasEntry.last, NasEntry.allLines, fixedLine, halves]⟩
  · unfold nasGrid
    rw [if_neg (by decide), if_neg (by decide)]
    simp only [NasEntry.lines, NasEntry.allLines, NasLine.lines, fixedLine, halves, List.flatMap_cons, List.flatMap_nil, List.append_nil, List.cons_append, List.nil_append,
      List.flatten_cons, List.flatten_nil, List.append_assoc]
    simp only [← List.append_assoc (List.take 8 _) (List.drop 8 _), List.take_append_drop]
  · show [nasLeft 8 "GRID*".toList, (nasLeft 16 (fmtNat id)).take 8 ++ (nasLeft 16 (fmtNat id)).drop 8, (nasLeft 16 ref).take 8 ++ (nasLeft 16 ref).drop 8,
      (nasRight 16 x).take 8 ++ (nasRight 16 x).drop 8, (nasRight 16 y).take 8 ++ (nasRight 16 y).drop 8, (nasRight 16 z).take 8 ++ (nasRight 16 z).drop 8].map strip = _
    simp only [List.take_append_drop, List.map_cons, List.map_nil, strip_nasLeft _ _ (.inr hg), strip_nasLeft _ _ (.inr (isTok_fmtNat id)), strip_nasLeft _ _ hr,
      strip_nasRight _ _ hx.1, strip_nasRight _ _ hy.1, strip_nasRight _ _ hz.1]
  · intro l hl
    simp only [NasEntry.allLines, List.mem_cons, List.mem_nil_iff, or_false] at hl
    rcases hl with rfl | rfl
    · exact h1
    · exact h2

/-! ## Cells -/

/-- A line of words at the left of columns of eight. -/
def colLine (ws : List (List Char)) : NasLine := fixedLine (ws.map (nasLeft 8))

/-- The entry of a cell. -/
def cellEntry (name : List Char) (id : Nat) (ref : List Char) (nodes : List (List Char)) : NasEntry :=
  if nodes.length ≤ 6 then ⟨colLine ([name, fmtNat id, ref] ++ nodes), []⟩
  else if nodes.length ≤ 14 then ⟨colLine ([name, fmtNat id, ref] ++ nodes.take 6 ++ ['+' :: '1' :: hexNat id]), [colLine (['+' :: '1' :: hexNat id] ++ nodes.drop 6)]⟩
  else ⟨colLine ([name, fmtNat id, ref] ++ nodes.take 6 ++ ['+' :: '1' :: hexNat id]),
    [colLine (['+' :: '1' :: hexNat id] ++ (nodes.drop 6).take 8 ++ ['+' :: '2' :: hexNat id]), colLine (['+' :: '2' :: hexNat id] ++ nodes.drop 14)]⟩

theorem colLine_ok (c : Char) (w : List Char) (ws : List (List Char)) (h1 : c ≠ '$') (h2 : c ≠ '#') (h3 : c ≠ '/')
    (hc : w.head? = some c) (h8 : ∀ v ∈ w :: ws, v.length ≤ 8 ∧ Clean v) : (colLine (w :: ws)).Ok := by
  unfold colLine
  apply fixedLine_ok c _ _ h1 h2 h3
  · cases w with
    | nil => cases hc
    | cons a w => exact hc
  · intro v hv
    rw [← List.map_cons] at hv
    obtain ⟨u, hu, rfl⟩ := List.mem_map.1 hv
    exact nasLeft_length (h8 u hu).1
  · intro v hv
    rw [← List.map_cons] at hv
    obtain ⟨u, hu, rfl⟩ := List.mem_map.1 hv
    exact clean_nasLeft (h8 u hu).2

theorem colLine_text (ws : List (List Char)) : (colLine ws).lines = [ws.flatMap (nasLeft 8)] := by
  unfold colLine fixedLine NasLine.lines
  rw [List.flatMap_def]

theorem map_strip_cols (ws : List (List Char)) (h : ∀ w ∈ ws, w = [] ∨ IsTok w) : (ws.map (nasLeft 8)).map strip = ws := by
  rw [List.map_map]
  exact (List.map_congr_left (g := id) fun w hw => strip_nasLeft 8 w (h w hw)).trans (List.map_id ws)

theorem lastFields (ws : List (List Char)) : nasLineFields false false true ws = ws.drop 1 := by
  unfold nasLineFields
  simp only [if_true, Bool.false_eq_true, if_false, List.nil_append]
  rw [show ws.drop 9 = (ws.drop 1).drop 8 by rw [List.drop_drop], List.take_append_drop]

theorem onlyFields (ws : List (List Char)) : nasLineFields false true true ws = ws := by
  unfold nasLineFields
  simp only [if_true, Bool.false_eq_true, if_false, List.append_assoc]
  rw [show ws.drop 9 = (ws.drop 1).drop 8 by rw [List.drop_drop], List.take_append_drop, List.take_append_drop]

theorem large_cell (name : List Char) (id : Nat) (ref : List Char) (nodes : List (List Char)) (hn : ¬ "GRID*".toList <+: nasLeft 8 name) :
    (cellEntry name id ref nodes).large = false := by
  have key : ∀ (ws : List (List Char)) more, (NasEntry.mk (colLine (name :: ws)) more).large = false := by
    intro ws more
    unfold NasEntry.large colLine fixedLine
    simp only [List.map_cons, List.headD_cons]
    rw [Bool.eq_false_iff]
    intro h
    exact hn (List.isPrefixOf_iff_prefix.1 h)
  unfold cellEntry
  split
  · exact key _ _
  · split <;> exact key _ _

theorem cellEntry_ok (name : List Char) (id : Nat) (ref : List Char) (nodes : List (List Char)) (hn : IsTok name) (hnc : Clean name) (hnl : name.length ≤ 8)
    (hhead : name.head? = some 'C') (hid : (fmtNat id).length ≤ 8) (hhex : (hexNat id).length ≤ 6) (hr : ref = [] ∨ IsTok ref) (hrc : Clean ref) (hrl : ref.length ≤ 8)
    (hnodes : ∀ w ∈ nodes, IsTok w ∧ Clean w ∧ w.length ≤ 8) (h20 : nodes.length ≤ 20) :
    EntryOk (cellEntry name id ref nodes) (nasCell name id ref nodes) (name :: fmtNat id :: ref :: nodes) := by
  obtain ⟨nc, nt, rfl⟩ : ∃ nt nc, name = nt :: nc := by
    cases name with
    | nil => cases hhead
    | cons a b => exact ⟨a, b, rfl⟩
  simp only [List.head?_cons, Option.some.injEq] at hhead
  subst hhead
  have hlg : (cellEntry ('C' :: nt) id ref nodes).large = false := large_cell _ _ _ _ (by
    intro h
    have h1 : 'G' :: "RID*".toList <+: 'C' :: (nt ++ List.replicate (8 - ('C' :: nt).length) ' ') := h
    exact absurd (List.cons_prefix_cons.1 h1).1 (by decide))
  have hname : ('C' :: nt).length ≤ 8 ∧ Clean ('C' :: nt) := ⟨hnl, hnc⟩
  have hidc : (fmtNat id).length ≤ 8 ∧ Clean (fmtNat id) := ⟨hid, clean_fmtNat id⟩
  have hrefc : ref.length ≤ 8 ∧ Clean ref := ⟨hrl, hrc⟩
  have hmark : ∀ k, k ≠ ',' → k ≠ '\n' → ('+' :: k :: hexNat id).length ≤ 8 ∧ Clean ('+' :: k :: hexNat id) := by
    intro k h1 h2
    have := clean_hex id
    refine ⟨by simp only [List.length_cons]; omega, ?_, ?_⟩
    · simp only [List.mem_cons, not_or]; exact ⟨by decide, fun h => h1 h.symm, this.1⟩
    · simp only [List.mem_cons, not_or]; exact ⟨by decide, fun h => h2 h.symm, this.2⟩
  have hm1 := hmark '1' (by decide) (by decide)
  have hm2 := hmark '2' (by decide) (by decide)
  have hnd : ∀ w ∈ nodes, w.length ≤ 8 ∧ Clean w := fun w hw => ⟨(hnodes w hw).2.2, (hnodes w hw).2.1⟩
  have hstrip : ∀ w ∈ ('C' :: nt) :: fmtNat id :: ref :: nodes, w = [] ∨ IsTok w := by
    intro w hw
    simp only [List.mem_cons] at hw
    rcases hw with rfl | rfl | rfl | hw
    · exact .inr hn
    · exact .inr (isTok_fmtNat id)
    · exact hr
    · exact .inr (hnodes w hw).1
  have hline1 : ∀ ws : List (List Char), (∀ w ∈ ws, w.length ≤ 8 ∧ Clean w) → (colLine (('C' :: nt) :: ws)).Ok := fun ws hws =>
    colLine_ok 'C' _ _ (by decide) (by decide) (by decide) rfl (by
      intro v hv
      rcases List.mem_cons.1 hv with rfl | hv
      · exact hname
      · exact hws v hv)
  have hline2 : ∀ k (ws : List (List Char)), k ≠ ',' → k ≠ '\n' → (∀ w ∈ ws, w.length ≤ 8 ∧ Clean w) → (colLine (('+' :: k :: hexNat id) :: ws)).Ok := fun k ws h1 h2 hws =>
    colLine_ok '+' _ _ (by decide) (by decide) (by decide) rfl (by
      intro v hv
      rcases List.mem_cons.1 hv with rfl | hv
      · exact hmark k h1 h2
      · exact hws v hv)
  have hlen : ∀ ws : List (List Char), (colLine ws).words.length = ws.length := by
    intro ws; simp [colLine, fixedLine]
  have hwords : ∀ ws : List (List Char), (colLine ws).words = ws.map (nasLeft 8) := fun _ => rfl
  have hplus : ∀ k (ws : List (List Char)), NasPlus (colLine (('+' :: k :: hexNat id) :: ws)) := fun k ws => .inl rfl
  unfold NasEntry.fields at *
  have hfields : (nasFields false true (cellEntry ('C' :: nt) id ref nodes).allLines).map strip = ('C' :: nt) :: fmtNat id :: ref :: nodes →
      (nasFields (cellEntry ('C' :: nt) id ref nodes).large true (cellEntry ('C' :: nt) id ref nodes).allLines).map strip = ('C' :: nt) :: fmtNat id :: ref :: nodes := by
    rw [hlg]; exact fun h => h
  have htarget : ∀ fs : List (List Char), fs = (('C' :: nt) :: fmtNat id :: ref :: nodes).map (nasLeft 8) → fs.map strip = ('C' :: nt) :: fmtNat id :: ref :: nodes := by
    intro fs h
    rw [h, map_strip_cols _ hstrip]
  rcases Nat.lt_or_ge 6 nodes.length with h6 | h6
  · have t6 : (nodes.take 6).length = 6 := by rw [List.length_take]; omega
    have hfirst : (colLine (('C' :: nt) :: (fmtNat id :: ref :: (nodes.take 6 ++ ['+' :: '1' :: hexNat id])))).Ok := by
      apply hline1
      intro w hw
      simp only [List.mem_cons, List.mem_append, List.mem_nil_iff, or_false] at hw
      rcases hw with rfl | rfl | hw | rfl
      · exact hidc
      · exact hrefc
      · exact hnd w (List.mem_of_mem_take hw)
      · exact hm1
    have hfw : nasLineFields false true false (colLine (('C' :: nt) :: (fmtNat id :: ref :: (nodes.take 6 ++ ['+' :: '1' :: hexNat id])))).words =
        (('C' :: nt) :: fmtNat id :: ref :: nodes.take 6).map (nasLeft 8) := by
      rw [hwords]
      unfold nasLineFields
      simp only [if_true, Bool.false_eq_true, if_false, List.map_cons, List.take_succ_cons, List.take_zero, List.drop_succ_cons, List.drop_zero, List.append_nil, List.map_append,
        List.cons_append, List.nil_append]
      rw [List.take_left' (by rw [List.length_map, t6])]
    rcases Nat.lt_or_ge 14 nodes.length with h14 | h14
    · have e : cellEntry ('C' :: nt) id ref nodes = ⟨colLine (('C' :: nt) :: (fmtNat id :: ref :: (nodes.take 6 ++ ['+' :: '1' :: hexNat id]))),
        [colLine (('+' :: '1' :: hexNat id) :: ((nodes.drop 6).take 8 ++ ['+' :: '2' :: hexNat id])), colLine (('+' :: '2' :: hexNat id) :: nodes.drop 14)]⟩ := by
        unfold cellEntry
        rw [if_neg (show ¬ nodes.length ≤ 6 by omega), if_neg (show ¬ nodes.length ≤ 14 by omega)]; rfl
      have t8 : ((nodes.drop 6).take 8).length = 8 := by rw [List.length_take, List.length_drop]; omega
      refine ⟨?_, hfields ?_, ?_, ?_, ?_, ?_⟩
      · rw [e]
        unfold nasCell
        dsimp only
        rw [if_neg (show ¬ nodes.length ≤ 6 by omega), if_neg (show ¬ nodes.length ≤ 14 by omega)]
        simp only [NasEntry.lines, NasEntry.allLines, List.flatMap_cons, List.flatMap_nil, colLine_text, List.append_nil, List.cons_append, List.nil_append, List.map_cons, List.map_nil]
      · apply htarget
        rw [e]
        show nasLineFields false true false _ ++ (nasLineFields false false false _ ++ nasLineFields false false true _) = _
        rw [hfw, lastFields, hwords, hwords]
        unfold nasLineFields
        simp only [Bool.false_eq_true, if_false, List.map_cons, List.drop_succ_cons, List.drop_zero, List.append_nil, List.map_append, List.cons_append, List.nil_append]
        rw [List.take_left' (by rw [List.length_map, t8]), ← List.map_append, ← List.map_append]
        have e14 : nodes.drop 14 = (nodes.drop 6).drop 8 := by rw [List.drop_drop]
        rw [e14, List.take_append_drop, List.take_append_drop]
      · rw [e]
        intro l hl
        simp only [NasEntry.allLines, List.mem_cons, List.mem_nil_iff, or_false] at hl
        rcases hl with rfl | rfl | rfl
        · exact hfirst
        · apply hline2 _ _ (by decide) (by decide)
          intro w hw
          simp only [List.mem_append, List.mem_cons, List.mem_nil_iff, or_false] at hw
          rcases hw with hw | rfl
          · exact hnd w (List.mem_of_mem_drop (List.mem_of_mem_take hw))
          · exact hm2
        · apply hline2 _ _ (by decide) (by decide)
          intro w hw
          exact hnd w (List.mem_of_mem_drop hw)
      · rw [e]
        refine ⟨.inl ⟨hplus _ _, ?_⟩, .inl ⟨hplus _ _, ?_⟩, trivial⟩
        · rw [hlen]; simp only [List.length_cons, List.length_append, t6, List.length_nil]; omega
        · rw [hlen]; simp only [List.length_cons, List.length_append, t8, List.length_nil]; omega
      · rw [e]; exact .inr rfl
      · rw [e]
        show (colLine (('+' :: '2' :: hexNat id) :: nodes.drop 14)).words.length ≠ 10
        rw [hlen]; simp only [List.length_cons, List.length_drop]; omega
    · have e : cellEntry ('C' :: nt) id ref nodes = ⟨colLine (('C' :: nt) :: (fmtNat id :: ref :: (nodes.take 6 ++ ['+' :: '1' :: hexNat id]))),
        [colLine (('+' :: '1' :: hexNat id) :: nodes.drop 6)]⟩ := by
        unfold cellEntry
        rw [if_neg (show ¬ nodes.length ≤ 6 by omega), if_pos (show nodes.length ≤ 14 by omega)]; rfl
      refine ⟨?_, hfields ?_, ?_, ?_, ?_, ?_⟩
      · rw [e]
        unfold nasCell
        dsimp only
        rw [if_neg (show ¬ nodes.length ≤ 6 by omega), if_pos (show nodes.length ≤ 14 by omega)]
        simp only [NasEntry.lines, NasEntry.allLines, List.flatMap_cons, List.flatMap_nil, colLine_text, List.append_nil, List.cons_append, List.nil_append, List.map_cons, List.map_nil]
      · apply htarget
        rw [e]
        show nasLineFields false true false _ ++ nasLineFields false false true _ = _
        rw [hfw, lastFields, hwords]
        simp only [List.map_cons, List.drop_succ_cons, List.drop_zero, List.cons_append]
        rw [← List.map_append, List.take_append_drop]
      · rw [e]
        intro l hl
        simp only [NasEntry.allLines, List.mem_cons, List.mem_nil_iff, or_false] at hl
        rcases hl with rfl | rfl
        · exact hfirst
        · apply hline2 _ _ (by decide) (by decide)
          intro w hw
          exact hnd w (List.mem_of_mem_drop hw)
      · rw [e]
        refine ⟨.inl ⟨hplus _ _, ?_⟩, trivial⟩
        rw [hlen]; simp only [List.length_cons, List.length_append, t6, List.length_nil]; omega
      · rw [e]; exact .inr rfl
      · rw [e]
        show (colLine (('+' :: '1' :: hexNat id) :: nodes.drop 6)).words.length ≠ 10
        rw [hlen]; simp only [List.length_cons, List.length_drop]; omega
  · have e : cellEntry ('C' :: nt) id ref nodes = ⟨colLine (('C' :: nt) :: (fmtNat id :: ref :: nodes)), []⟩ := by
      unfold cellEntry
      rw [if_pos (show nodes.length ≤ 6 by omega)]; rfl
    refine ⟨?_, hfields ?_, ?_, ?_, ?_, ?_⟩
    · rw [e]
      unfold nasCell
      dsimp only
      rw [if_pos (show nodes.length ≤ 6 by omega)]
      simp only [NasEntry.lines, NasEntry.allLines, List.flatMap_cons, List.flatMap_nil, colLine_text, List.append_nil, List.cons_append, List.nil_append, List.map_cons, List.map_nil]
    · apply htarget
      rw [e]
      show nasLineFields false true true _ = _
      rw [onlyFields, hwords]
    · rw [e]
      intro l hl
      simp only [NasEntry.allLines, List.mem_cons, List.mem_nil_iff, or_false] at hl
      subst hl
      apply hline1
      intro w hw
      simp only [List.mem_cons] at hw
      rcases hw with rfl | rfl | hw
      · exact hidc
      · exact hrefc
      · exact hnd w hw
    · rw [e]; trivial
    · rw [e]; exact .inr rfl
    · rw [e]
      show (colLine (('C' :: nt) :: fmtNat id :: ref :: nodes)).words.length ≠ 10
      rw [hlen]; simp only [List.length_cons]; omega

end Meshio.Nastran
