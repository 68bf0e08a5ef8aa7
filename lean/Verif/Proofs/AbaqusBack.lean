/-
Reading back what was written to Abaqus files.
-/
import Verif.Proofs.AbaqusWrite
namespace Meshio.Abaqus
open Meshio Types Tables Spec

variable {F : Type}

/-- The lines of a written set. -/
def setLines (members : List Int) : List (List Char × List Int) :=
  match (eights members).reverse with
  | [] => [([], [])]
  | r :: rs => (rs.reverse.map fun q => (joinWith ',' (q.map fmtInt) ++ [','], q)) ++ [(joinWith ',' (r.map fmtInt), r)]

theorem setLines_lines (word name : String) (members : List Int) :
    abaqusSet word name members = ("*" ++ word ++ ", " ++ word ++ "=" ++ name).toList :: (setLines members).map (·.1) := by
  unfold abaqusSet setLines
  cases (eights members).reverse with
  | nil => rfl
  | cons r rs => simp [Function.comp_def]

theorem setLines_members (members : List Int) : (setLines members).flatMap (·.2) = members := by
  have h := flatten_eights members.length members (Nat.le_refl _)
  unfold setLines
  cases hr : (eights members).reverse with
  | nil =>
    have : eights members = [] := by simpa using hr
    rw [this] at h
    rw [← h]; rfl
  | cons r rs =>
    have e : eights members = rs.reverse ++ [r] := by
      have := congrArg List.reverse hr
      simpa using this
    rw [e] at h
    simp only [List.flatMap_append, List.flatMap_cons, List.flatMap_nil, List.append_nil, List.flatMap_map]
    rw [List.flatten_append, List.flatten_cons, List.flatten_nil, List.append_nil] at h
    rw [← h, List.flatMap_def, List.map_id']

theorem all2_self_map {α β : Type} {R : α → β → Prop} (l : List β) (f : β → α) (h : ∀ x ∈ l, R (f x) x) : All2 R (l.map f) l := by
  have := all2_map (R := R) (l := l) (f := f) (g := id) h
  rwa [List.map_id] at this

theorem strip_tok {t : List Char} (h : IsTok t) : strip t = t := by
  have := strip_trim (s := t) (fun c hc => h.2 c (List.mem_of_mem_head? hc)) (fun c hc => h.2 c (List.mem_of_getLast? hc)) [] (by simp)
  simpa using this

theorem comma_fmtInt (i : Int) : ',' ∉ fmtInt i := not_mem_fmtInt (by decide) (by decide) i

theorem parse_strip_fmtInt (i : Int) : parseInt (strip (fmtInt i)) = some i := by
  rw [strip_tok (isTok_fmtInt i), parseInt_fmtInt]

/-- Numbers between commas have no blanks at the ends, and more commas may follow. -/
theorem strip_commas (ts : List (List Char)) (h : ∀ t ∈ ts, IsTok t) (hne : ts ≠ []) (k : Nat) :
    strip (joinWith ',' ts ++ List.replicate k ',') = joinWith ',' ts ++ List.replicate k ',' := by
  cases ts with
  | nil => exact absurd rfl hne
  | cons t ts =>
    have ht := h t (by simp)
    have := strip_trim (s := joinWith ',' (t :: ts) ++ List.replicate k ',') (by
      intro c hc
      rw [List.head?_append, joinWith_head _ _ _ ht.1] at hc
      cases t with
      | nil => exact absurd rfl ht.1
      | cons a t =>
        simp only [List.head?_cons, Option.some_or, Option.some.injEq] at hc
        exact ht.2 c (by simp [hc])) (by
      intro c hc
      rw [List.getLast?_append] at hc
      cases k with
      | zero =>
        simp only [List.replicate_zero, List.getLast?_nil, Option.none_or] at hc
        obtain ⟨pre, u, hu⟩ : ∃ pre u, t :: ts = pre ++ [u] := by
          rcases List.eq_nil_or_concat (t :: ts) with h | ⟨a, b, h⟩
          · cases h
          · exact ⟨a, b, by rw [h, List.concat_eq_append]⟩
        have hut := h u (by rw [hu]; simp)
        rw [hu, joinWith_getLast _ _ _ hut.1] at hc
        exact hut.2 c (List.mem_of_getLast? hc)
      | succ k =>
        rw [List.getLast?_replicate] at hc
        simp only [Nat.add_eq_zero_iff, Nat.succ_ne_self, and_false, if_false, Option.some_or, Option.some.injEq] at hc
        subst hc; decide) [] (by simp)
    simpa using this

theorem data_line (ts : List (List Char)) (h : ∀ t ∈ ts, IsTok t) (h1 : ∀ t, ts.head? = some t → t.head? ≠ some '*') (hne : ts ≠ []) (s : List Char)
    (hs : '\n' ∉ s) : IsData (joinWith ',' ts ++ s) := by
  cases ts with
  | nil => exact absurd rfl hne
  | cons t ts =>
    have ht := h t (by simp)
    constructor
    · intro hm
      rcases List.mem_append.mp hm with hm | hm
      · exact not_mem_joinWith (by decide) _ (fun t ht => (h t ht).no_newline) hm
      · exact hs hm
    · rw [List.head?_append, joinWith_head _ _ _ ht.1]
      have := h1 t rfl
      cases t with
      | nil => exact absurd rfl ht.1
      | cons c t => simpa using this

theorem fmtInt_head (i : Int) : (fmtInt i).head? ≠ some '*' := by
  intro h
  rcases fmtInt_chars (List.mem_of_mem_head? h) with h | h
  · exact absurd h (by decide)
  · exact absurd h (by decide)

theorem digits_pos (i : Int) (h : 0 < i) : (fmtInt i).all Char.isDigit = true := by
  obtain ⟨n, rfl⟩ : ∃ n : Nat, i = n := ⟨i.toNat, by omega⟩
  rw [fmtInt_ofNat, List.all_eq_true]
  intro c hc
  exact fmtNat_isDigit hc

theorem member_line (r : List Int) (hne : r ≠ []) (hp : ∀ i ∈ r, 0 < i) (k : Nat) :
    IsMembers (joinWith ',' (r.map fmtInt) ++ List.replicate k ',', r) := by
  have htok : ∀ t ∈ r.map fmtInt, IsTok t := by
    intro t ht
    obtain ⟨i, _, rfl⟩ := List.mem_map.1 ht
    exact isTok_fmtInt i
  constructor
  · apply data_line _ htok _ (by simpa using hne)
    · intro h
      have := List.eq_of_mem_replicate h
      exact absurd this (by decide)
    · intro t ht
      have := List.mem_of_mem_head? ht
      obtain ⟨i, _, rfl⟩ := List.mem_map.1 this
      exact fmtInt_head i
  · right
    cases r with
    | nil => exact absurd rfl hne
    | cons i r =>
      refine ⟨fmtInt i, r.map fmtInt, k, ?_, ?_, fmtInt_ne_nil i, digits_pos i (hp i (by simp)), ?_⟩
      · exact strip_commas _ htok (by simp) k
      · intro u hu
        rw [← List.map_cons] at hu
        obtain ⟨j, _, rfl⟩ := List.mem_map.1 hu
        exact comma_fmtInt j
      · rw [← List.map_cons]
        exact all2_self_map _ _ fun j _ => parse_strip_fmtInt j

theorem setLines_ok (members : List Int) (hp : ∀ i ∈ members, 0 < i) : ∀ l ∈ setLines members, IsMembers l := by
  have hne := eights_ne_nil members.length members (Nat.le_refl _)
  have hfl := flatten_eights members.length members (Nat.le_refl _)
  have hpos : ∀ r ∈ eights members, ∀ i ∈ r, 0 < i := by
    intro r hr i hi
    apply hp
    rw [← hfl]
    exact List.mem_flatten.2 ⟨r, hr, hi⟩
  unfold setLines
  cases hr : (eights members).reverse with
  | nil =>
    intro l hl
    simp only [List.mem_singleton] at hl
    subst hl
    exact ⟨⟨by simp, by simp⟩, .inl ⟨rfl, rfl⟩⟩
  | cons r rs =>
    have e : eights members = rs.reverse ++ [r] := by
      have := congrArg List.reverse hr
      simpa using this
    intro l hl
    rcases List.mem_append.mp hl with hl | hl
    · obtain ⟨q, hq, rfl⟩ := List.mem_map.1 hl
      have hm : q ∈ eights members := by rw [e]; simp only [List.mem_append]; exact .inl hq
      exact member_line q (hne q hm) (hpos q hm) 1
    · simp only [List.mem_singleton] at hl
      subst hl
      have hm : r ∈ eights members := by rw [e]; simp
      have := member_line r (hne r hm) (hpos r hm) 0
      simpa using this

/-- The keyword line of a written set. -/
theorem setHead_ok (word name : String) (hw : word = "ELSET" ∨ word = "NSET") (hn : AbaqusName name) :
    IsKeyLine word [(word, some name)] ("*" ++ word ++ ", " ++ word ++ "=" ++ name).toList := by
  obtain ⟨h1, h2, h3, h4⟩ := hn
  have e : ∀ w n : List Char, "*".toList ++ w ++ ", ".toList ++ w ++ "=".toList ++ n = joinWith ',' ['*' :: w, ' ' :: (w ++ '=' :: n)] := by
    intro w n; simp [joinWith]
  simp only [String.toList_append]
  rw [e]
  have hwp : ',' ∉ word.toList ∧ '=' ∉ word.toList ∧ '\n' ∉ word.toList ∧ (strip ('*' :: word.toList)).map Char.toUpper = '*' :: word.toList ∧
      (strip (' ' :: word.toList)).map Char.toUpper = word.toList := by
    rcases hw with rfl | rfl <;> decide
  obtain ⟨p1, p2, p3, p4, p5⟩ := hwp
  refine ⟨?_, '*' :: word.toList, [' ' :: (word.toList ++ '=' :: name.toList)], rfl, ?_, ?_, rfl, p4, ?_, by simp⟩
  · apply not_mem_joinWith (by decide)
    intro t ht
    simp only [List.mem_cons, List.not_mem_nil, or_false] at ht
    rcases ht with rfl | rfl
    · simpa using p3
    · simp only [List.mem_cons, List.mem_append, not_or]
      exact ⟨by decide, p3, by decide, h4⟩
  · intro w hw'
    simp only [List.mem_cons, List.not_mem_nil, or_false] at hw'
    rcases hw' with rfl | rfl
    · simpa using p1
    · simp only [List.mem_cons, List.mem_append, not_or]
      exact ⟨by decide, p1, by decide, h2⟩
  · simpa using p2
  · refine ⟨⟨' ' :: word.toList, name.toList, by simp, ?_, h3, p5, h1⟩, trivial⟩
    simpa using p2

/-- The keyword line of written cells. -/
theorem blockHead_ok (k : String × String × Nat) (hk : k ∈ abaqusNames) : IsKeyLine "ELEMENT" [("TYPE", some k.1)] ("*ELEMENT, TYPE=" ++ k.1).toList := by
  have hp : ∀ k ∈ abaqusNames, ',' ∉ k.1.toList ∧ '=' ∉ k.1.toList ∧ '\n' ∉ k.1.toList ∧ strip k.1.toList = k.1.toList := by decide +kernel
  obtain ⟨h1, h2, h3, h4⟩ := hp k hk
  have e : ("*ELEMENT, TYPE=" ++ k.1).toList = joinWith ',' ["*ELEMENT".toList, " TYPE".toList ++ '=' :: k.1.toList] := by
    rw [String.toList_append]; rfl
  rw [e]
  refine ⟨?_, "*ELEMENT".toList, [" TYPE".toList ++ '=' :: k.1.toList], rfl, ?_, by decide, rfl, by decide, ?_, by simp⟩
  · apply not_mem_joinWith (by decide)
    intro t ht
    simp only [List.mem_cons, List.not_mem_nil, or_false] at ht
    rcases ht with rfl | rfl
    · decide
    · rw [List.mem_append, List.mem_cons]
      rintro (h | h | h)
      · exact absurd h (by decide)
      · exact absurd h (by decide)
      · exact h3 h
  · intro t ht
    simp only [List.mem_cons, List.not_mem_nil, or_false] at ht
    rcases ht with rfl | rfl
    · decide
    · rw [List.mem_append, List.mem_cons]
      rintro (h | h | h)
      · exact absurd h (by decide)
      · exact absurd h (by decide)
      · exact h1 h
  · exact ⟨⟨" TYPE".toList, k.1.toList, rfl, by decide, h2, (by decide : (strip " TYPE".toList).map Char.toUpper = "TYPE".toList), h4⟩, trivial⟩

/-! ## The deck -/

/-- The written block. -/
def blockItem (name type : String) (first : Nat) (rows : List (List Int)) : AbaqusItem :=
  .block ("*ELEMENT, TYPE=" ++ name).toList name type none
    (rows.zipIdx.map fun r => (fmtNat (first + r.2 + 1) ++ ',' :: joinWith ',' (r.1.map fun i => fmtInt (i + 1)),
      ((first + r.2 + 1 : Nat) : Int) :: r.1.map fun i => i + 1))
    (rows.zipIdx.map fun r => (((first + r.2 + 1 : Nat) : Int), r.1.map fun i => i + 1))

/-- The written sets. -/
def elsetItem (name : String) (members : List Int) : AbaqusItem :=
  .elset ("*" ++ "ELSET" ++ ", " ++ "ELSET" ++ "=" ++ name).toList name (setLines members) members

/-- The written sets. -/
def nsetItem (name : String) (members : List Int) : AbaqusItem :=
  .nset ("*" ++ "NSET" ++ ", " ++ "NSET" ++ "=" ++ name).toList name (setLines members) members

theorem number_line (ts : List Int) (hne : ts ≠ []) : IsNumbers (joinWith ',' (ts.map fmtInt), ts) := by
  have htok : ∀ t ∈ ts.map fmtInt, IsTok t := by
    intro t ht
    obtain ⟨i, _, rfl⟩ := List.mem_map.1 ht
    exact isTok_fmtInt i
  have hd := data_line _ htok (by
      intro t ht
      have := List.mem_of_mem_head? ht
      obtain ⟨i, _, rfl⟩ := List.mem_map.1 this
      exact fmtInt_head i) (by simpa using hne) [] (by simp)
  rw [List.append_nil] at hd
  refine ⟨hd, ts.map fmtInt, ?_, ?_, ?_⟩
  · have := strip_commas _ htok (by simpa using hne) 0
    simpa using this
  · intro w hw
    obtain ⟨i, _, rfl⟩ := List.mem_map.1 hw
    exact comma_fmtInt i
  · have e : (ts.map fmtInt).filter (· ≠ []) = ts.map fmtInt := by
      rw [List.filter_eq_self]
      intro w hw
      obtain ⟨i, _, rfl⟩ := List.mem_map.1 hw
      simpa using fmtInt_ne_nil i
    rw [e]
    exact all2_self_map _ _ fun i _ => parse_strip_fmtInt i

theorem written_size : ∀ k ∈ abaqusNames, 0 < k.2.2 := by decide +kernel

theorem zipIdx_fst_ids (rows : List (List Int)) (first : Nat) :
    (rows.zipIdx.map fun r => (((first + r.2 + 1 : Nat) : Int))) = numbersFrom ((first : Int) + 1) rows.length := by
  unfold numbersFrom
  have := zipIdx_range_map rows (fun _ i => (((first + i + 1 : Nat) : Int))) (fun i => (first : Int) + 1 + (i : Int)) (by
    intro i _; omega)
  exact this

theorem blockItem_ok (numbers : List Int) (N : Nat) (hN : numbers = numbersFrom 1 N) (name type : String) (n : Nat)
    (hk : (name, type, n) ∈ abaqusNames) (first : Nat) (rows : List (List Int)) (hr : ∀ r ∈ rows, r.length = n ∧ ∀ i ∈ r, 0 ≤ i ∧ i < (N : Int)) :
    (blockItem name type first rows).Ok numbers := by
  have hn0 := written_size _ hk
  simp only at hn0
  refine ⟨n, [("TYPE", some name)], hk, blockHead_ok _ hk, by simp, ?_, by simp, ?_, ?_, ?_, ?_⟩
  · intro o ho
    simp only [List.mem_singleton] at ho
    subst ho
    intro e
    exact absurd e (by decide : "TYPE" ≠ "ELSET")
  · intro l hl
    obtain ⟨r, hr', rfl⟩ := List.mem_map.1 hl
    have hm := List.fst_mem_of_mem_zipIdx hr'
    have hlen := (hr _ hm).1
    have := number_line (((first + r.2 + 1 : Nat) : Int) :: r.1.map fun i => i + 1) (by simp)
    rw [List.map_cons, List.map_map] at this
    have e : joinWith ',' (fmtInt ((first + r.2 + 1 : Nat) : Int) :: r.1.map (fmtInt ∘ fun i => i + 1)) =
        fmtNat (first + r.2 + 1) ++ ',' :: joinWith ',' (r.1.map fun i => fmtInt (i + 1)) := by
      cases hq : r.1 with
      | nil => rw [hq] at hlen; simp at hlen; omega
      | cons a as => rfl
    rw [e] at this
    exact this
  · rw [List.flatMap_map, List.flatMap_map]
  · rw [List.map_map]
    have : ((fun (x : Int × List Int) => x.1) ∘ fun (r : List Int × Nat) => (((first + r.2 + 1 : Nat) : Int), r.1.map fun i => i + 1)) =
        fun r => ((first + r.2 + 1 : Nat) : Int) := rfl
    rw [this, zipIdx_fst_ids]
    exact numbersFrom_nodup _ _
  · intro r hr'
    obtain ⟨q, hq, rfl⟩ := List.mem_map.1 hr'
    have hm := List.fst_mem_of_mem_zipIdx hq
    obtain ⟨h1, h2⟩ := hr _ hm
    refine ⟨by simpa using h1, ?_⟩
    intro k hk'
    obtain ⟨i, hi, rfl⟩ := List.mem_map.1 hk'
    rw [hN]
    unfold numbersFrom
    have := h2 i hi
    exact List.mem_map.2 ⟨i.toNat, by rw [List.mem_range]; omega, by omega⟩

theorem elsetItem_ok (numbers : List Int) (name : String) (hn : AbaqusName name) (members : List Int) (hp : ∀ i ∈ members, 0 < i)
    (hne : members ≠ []) : (elsetItem name members).Ok numbers := by
  refine ⟨_, setHead_ok "ELSET" name (.inl rfl) hn, by simp, setLines_ok members hp, ?_, hne⟩
  have : (([("ELSET", some name)] : List (String × Option String)).map (·.1)).contains "GENERATE" = false := rfl
  rw [this, setLines_members]; rfl

theorem nsetItem_ok (numbers : List Int) (name : String) (hn : AbaqusName name) (members : List Int) (hp : ∀ i ∈ members, 0 < i)
    (hm : ∀ i ∈ members, i ∈ numbers) : (nsetItem name members).Ok numbers := by
  refine ⟨_, setHead_ok "NSET" name (.inr rfl) hn, by simp, setLines_ok members hp, ?_, hm⟩
  have : (([("NSET", some name)] : List (String × Option String)).map (·.1)).contains "GENERATE" = false := rfl
  rw [this, setLines_members]; rfl


/-- The written file. -/
def deck (io : FloatIO F) (version : List Char) (names : List String) (points : List (List F)) (cells : List (String × List (List Int)))
    (cellSets : Dict (List (List Int))) (pointSets : Dict (List Int)) : AbaqusFile F where
  before := ["*HEADING".toList, "Abaqus DataFile Version 6.14".toList, "written by meshio v".toList ++ version]
  head := "*NODE".toList
  nodes := points.zipIdx.map fun p => (fmtNat (p.2 + 1) ++ p.1.flatMap (fun x => ", ".toList ++ io.fmt x), some (((p.2 + 1 : Nat) : Int), p.1))
  items := (cells.zip names).zipIdx.map (fun b => blockItem b.1.2 b.1.1.1 (cellsBefore cells b.2) b.1.1.2) ++
    (List.range cells.length).flatMap (fun k => cellSets.flatMap fun s =>
      if s.2.getD k [] = [] then [] else [elsetItem s.1 ((s.2.getD k []).map fun i => i + 1 + ((cellsBefore cells k : Nat) : Int))]) ++
    pointSets.map fun s => nsetItem s.1 (s.2.map fun i => i + 1)

theorem deck_lines (io : FloatIO F) (version : List Char) (names : List String) (points : List (List F)) (cells : List (String × List (List Int)))
    (cellSets : Dict (List (List Int))) (pointSets : Dict (List Int)) :
    (deck io version names points cells cellSets pointSets).lines = abaqusLines io version names points cells cellSets pointSets := by
  unfold AbaqusFile.lines abaqusLines deck
  simp only [List.flatMap_append, List.map_map, List.flatMap_map, List.flatMap_assoc]
  have e1 : ∀ b : ((String × List (List Int)) × String) × Nat,
      (blockItem b.1.2 b.1.1.1 (cellsBefore cells b.2) b.1.1.2).lines = abaqusBlock b.1.2 (cellsBefore cells b.2) b.1.1.2 := by
    intro b
    unfold blockItem AbaqusItem.lines abaqusBlock
    simp only [List.map_map]
    rfl
  have e2 : ∀ (k : Nat) (s : String × List (List Int)), (if s.2.getD k [] = [] then [] else
      [elsetItem s.1 ((s.2.getD k []).map fun i => i + 1 + ((cellsBefore cells k : Nat) : Int))]).flatMap (·.lines) =
      if s.2.getD k [] = [] then [] else abaqusSet "ELSET" s.1 ((s.2.getD k []).map fun i => i + 1 + ((cellsBefore cells k : Nat) : Int)) := by
    intro k s
    split
    · rfl
    · rw [setLines_lines]
      simp [elsetItem, AbaqusItem.lines]
  have e3 : ∀ s : String × List Int, (nsetItem s.1 (s.2.map fun i => i + 1)).lines = abaqusSet "NSET" s.1 (s.2.map fun i => i + 1) := by
    intro s
    rw [setLines_lines]; rfl
  simp only [e1, e2, e3]
  simp only [List.cons_append, List.nil_append, List.append_assoc]
  rfl

theorem ignored_version (version : List Char) (h : '\n' ∉ version) : IsIgnored ("written by meshio v".toList ++ version) := by
  constructor
  · intro hm
    rcases List.mem_append.mp hm with hm | hm
    · exact absurd hm (by decide)
    · exact h hm
  · right
    have ha : ∀ x ∈ "written by meshio v".toList, (x != ',') = true := by decide
    rw [List.takeWhile_append_of_pos ha]
    obtain ⟨r, hr⟩ := strip_prefix "written by meshio v".toList (by decide) (by decide) (by decide) (version.takeWhile (· != ','))
    rw [hr]
    have : (("written by meshio v".toList ++ r).filter (· != '*')).map Char.toUpper =
        'W' :: ((("ritten by meshio v".toList ++ r).filter (· != '*')).map Char.toUpper) := by
      show ((('w' :: "ritten by meshio v".toList) ++ r).filter (· != '*')).map Char.toUpper = _
      rw [List.cons_append, List.filter_cons]
      rfl
    rw [this]
    intro w hw e
    have hh := congrArg List.head? e
    simp only [List.head?_cons] at hh
    have : ∀ w ∈ ["NODE", "ELEMENT", "NSET", "ELSET", "INCLUDE"], w.toList.head? ≠ some 'W' := by decide
    exact this w hw hh.symm

theorem node_line (io : FloatIO F) (hio : ∀ x, ',' ∉ io.fmt x) (k : Nat) (p : List F) :
    IsNode io (fmtNat (k + 1) ++ p.flatMap (fun x => ", ".toList ++ io.fmt x), some (((k + 1 : Nat) : Int), p)) := by
  have e : ∀ (w : List Char) (p : List F), w ++ p.flatMap (fun x => ", ".toList ++ io.fmt x) = joinWith ',' (w :: p.map fun x => ' ' :: io.fmt x) := by
    intro w p
    induction p generalizing w with
    | nil => simp [joinWith]
    | cons x p ih =>
      rw [List.flatMap_cons, List.map_cons]
      show _ = w ++ ',' :: joinWith ',' ((' ' :: io.fmt x) :: p.map fun x => ' ' :: io.fmt x)
      rw [← ih]
      simp
  have hnl : ∀ t ∈ fmtNat (k + 1) :: p.map (fun x => ' ' :: io.fmt x), '\n' ∉ t := by
    intro t ht
    rcases List.mem_cons.1 ht with rfl | ht
    · exact (isTok_fmtNat _).no_newline
    · obtain ⟨x, _, rfl⟩ := List.mem_map.1 ht
      simp only [List.mem_cons, not_or]
      exact ⟨by decide, (io.tok x).no_newline⟩
  have hh : (joinWith ',' (fmtNat (k + 1) :: p.map fun x => ' ' :: io.fmt x)).head? = (fmtNat (k + 1)).head? := joinWith_head _ _ _ (fmtNat_ne_nil _)
  refine ⟨⟨?_, ?_⟩, ?_⟩
  · simp only
    rw [e]
    exact not_mem_joinWith (by decide) _ hnl
  · simp only
    rw [e, hh]
    exact fmtInt_head ((k + 1 : Nat) : Int)
  · refine ⟨fmtNat (k + 1), p.map fun x => ' ' :: io.fmt x, ?_, ?_, ?_, ?_⟩
    · simp only
      rw [e]
      have := strip_trim (s := joinWith ',' (fmtNat (k + 1) :: p.map fun x => ' ' :: io.fmt x)) (by
        intro c hc
        rw [hh] at hc
        exact (isTok_fmtNat _).2 c (List.mem_of_mem_head? hc)) (by
        intro c hc
        obtain ⟨pre, u, hu⟩ : ∃ pre u, fmtNat (k + 1) :: p.map (fun x => ' ' :: io.fmt x) = pre ++ [u] := by
          rcases List.eq_nil_or_concat (fmtNat (k + 1) :: p.map (fun x => ' ' :: io.fmt x)) with h | ⟨a, b, h⟩
          · cases h
          · exact ⟨a, b, by rw [h, List.concat_eq_append]⟩
        have hm : u ∈ fmtNat (k + 1) :: p.map (fun x => ' ' :: io.fmt x) := by rw [hu]; simp
        rcases List.mem_cons.1 hm with rfl | hm
        · rw [hu, joinWith_getLast _ _ _ (fmtNat_ne_nil _)] at hc
          exact (isTok_fmtNat _).2 c (List.mem_of_getLast? hc)
        · obtain ⟨x, _, rfl⟩ := List.mem_map.1 hm
          rw [hu, joinWith_getLast _ _ _ (by simp)] at hc
          have hx := io.tok x
          rw [List.getLast?_cons] at hc
          cases hl : (io.fmt x).getLast? with
          | none => exact absurd (List.getLast?_eq_none_iff.mp hl) hx.1
          | some d =>
            rw [hl] at hc
            simp only [Option.getD_some, Option.some.injEq] at hc
            subst hc
            exact hx.2 _ (List.mem_of_getLast? hl)) [] (by simp)
      simpa using this
    · intro u hu
      rcases List.mem_cons.1 hu with rfl | hu
      · exact comma_fmtInt ((k + 1 : Nat) : Int)
      · obtain ⟨x, _, rfl⟩ := List.mem_map.1 hu
        simp only [List.mem_cons, not_or]
        exact ⟨by decide, hio x⟩
    · exact parse_strip_fmtInt ((k + 1 : Nat) : Int)
    · apply all2_self_map
      intro x _
      have : strip (' ' :: io.fmt x) = io.fmt x := by
        have h1 : strip (' ' :: io.fmt x) = strip (io.fmt x) := by
          unfold strip
          rw [List.dropWhile_cons]
          rfl
        rw [h1, strip_tok (io.tok x)]
      rw [this]
      exact io.parse_fmt x

end Meshio.Abaqus
