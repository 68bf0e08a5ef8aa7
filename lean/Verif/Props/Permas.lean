/-
C59: PERMAS files say what the mesh says.  C49: names of entities.  C31: numbers of nodes.
-/
import Verif.Proofs.Permas
import Verif.Props.Types
namespace Meshio.Props
open Meshio Types Tables Spec Permas

variable {F : Type}

/-- A file is read as the mesh it describes: nodes with any distinct numbers in any order, cells whose numbers are resolved through
them. -/
theorem C59_read (io : FloatIO F) (f : PermasFile F) (h : f.Ok io.fmt) :
    Permas.read io.parse (linesText f.lines) = .ok ⟨f.nodes.map (·.2.2), f.cells⟩ := read_ok io f h

/-- Cells connect to the points that carry the listed numbers. -/
theorem C31_permas (io : FloatIO F) (f : PermasFile F) (h : f.Ok io.fmt) (p : Nat) (name t : String) (o : List Char)
    (rows : List (List Char × Int × List Int)) (marks : Nat) (hp : f.parts[p]? = some (.cells name t o rows marks)) :
    ∃ (m : Out F) (b : Nat) (block : List (List Int)), Permas.read io.parse (linesText f.lines) = .ok m ∧ m.cells[b]? = some (t, block) ∧ block.length = rows.length ∧
      ∀ (i : Nat) (r : List Char × Int × List Int), rows[i]? = some r → ∃ cell : List Int, block[i]? = some cell ∧ cell.length = r.2.2.length ∧
        ∀ (j : Nat) (k : Int), r.2.2[j]? = some k →
          ∃ q : Nat, cell[j]? = some (q : Int) ∧ (f.nodes[q]?).map (·.2.1) = some k ∧ m.points[q]? = (f.nodes[q]?).map (·.2.2) := by
  have hmem : (t, rows.map fun r => r.2.2.map fun k => (((f.nodes.map (·.2.1)).idxOf k : Nat) : Int)) ∈ f.cells :=
    List.mem_filterMap.2 ⟨_, List.mem_of_getElem? hp, rfl⟩
  obtain ⟨b, hb⟩ := List.mem_iff_getElem?.1 hmem
  refine ⟨_, b, _, C59_read io f h, hb, by simp, ?_⟩
  intro i r hr
  refine ⟨_, by rw [List.getElem?_map, hr]; rfl, by simp, ?_⟩
  intro j k hk
  refine ⟨(f.nodes.map (·.2.1)).idxOf k, by rw [List.getElem?_map, hk]; rfl, ?_, by rw [List.getElem?_map]⟩
  obtain ⟨-, -, n, -, hrows⟩ := h.parts.2.2 _ (List.mem_of_getElem? hp)
  have hkm := (hrows r (List.mem_of_getElem? hr)).2.2 k (List.mem_of_getElem? hk)
  have hi := List.idxOf_lt_length_iff.2 hkm
  have := List.getElem_idxOf hi
  rw [← List.getElem?_map, List.getElem?_eq_getElem hi, this]

/-- A number no node carries is a KeyError. -/
theorem C31_permas_missing (io : FloatIO F) (f : PermasFile F) (h : f.Ok io.fmt) (name t : String) (n : Nat)
    (hname : (name, t, n) ∈ permasNames) (o : List Char) (ho : (o = [] ∨ o.head? = some ' ') ∧ '\n' ∉ o)
    (r : List Char × Int × List Int) (hr : IsWords r.1 (fmtInt r.2.1 :: r.2.2.map fmtInt)) (k : Int) (hk : k ∈ r.2.2)
    (hmiss : k ∉ f.nodes.map (·.2.1)) (more : List (List Char)) (hmore : ∀ l ∈ more, '\n' ∉ l) :
    Permas.read io.parse (linesText (f.lines ++ ("$ELEMENT TYPE=".toList ++ name.toList ++ o) :: r.1 :: more)) = .error .keyError := by
  have hm : ∀ ks : List Int, k ∈ ks → mapRes (node (f.nodes.map (·.2.1))) (ks.map fmtInt) = .error .keyError := by
    intro ks
    induction ks with
    | nil => intro h; simp at h
    | cons a ks ih =>
      intro h
      rw [List.map_cons, mapRes, node, parseInt_fmtInt]
      simp only
      by_cases ha : a ∈ f.nodes.map (·.2.1)
      · have hks : k ∈ ks := by
          rcases List.mem_cons.1 h with rfl | h
          · exact absurd ha hmiss
          · exact h
        cases hg : idGet (f.nodes.map (·.2.1)) a with
        | error e =>
          unfold idGet at hg
          cases hp : idPos (f.nodes.map (·.2.1)) a with
          | none => rw [hp] at hg; cases hg; rfl
          | some i => rw [hp] at hg; cases hg
        | ok i =>
          simp only
          rw [ih hks]
      · rw [idGet_not_mem _ _ ha]
  have hline : '\n' ∉ "$ELEMENT TYPE=".toList ++ name.toList ++ o := by
    intro hm
    simp only [List.mem_append] at hm
    rcases hm with (hm | hm) | hm
    · revert hm; decide
    · exact (names_ok hname).2.2.2.2.2 hm
    · exact ho.2 hm
  unfold Permas.read
  rw [fileLines_linesText' _ (by
    intro l hl
    rcases List.mem_append.1 hl with hl | hl
    · exact file_lines io f h l hl
    · rcases List.mem_cons.1 hl with rfl | hl
      · exact hline
      · rcases List.mem_cons.1 hl with rfl | hl
        · exact hr.2
        · exact hmore l hl)]
  obtain ⟨fuel, hf, he⟩ := readLoop_file io f h (("$ELEMENT TYPE=".toList ++ name.toList ++ o) :: r.1 :: more) (by
    intro l hl
    cases hl
    rfl)
  rw [he]
  obtain ⟨fuel, rfl⟩ : ∃ k, fuel = k + 1 := ⟨fuel - 1, by omega⟩
  rw [List.map_cons, List.map_cons, readLoop_cells io.parse fuel _ _ hname o ho.1, hids, readRows_row _ _ _ _ hr, hm _ hk]

/-- A row of nodes that is to be continued on the next line, which is what a mark at its end is for, is a ValueError: the mark is taken for
the number of a node.  Cells with many nodes have to be on one line. -/
theorem C59_continuation (io : FloatIO F) (f : PermasFile F) (h : f.Ok io.fmt) (name t : String) (n : Nat)
    (hname : (name, t, n) ∈ permasNames) (o : List Char) (ho : (o = [] ∨ o.head? = some ' ') ∧ '\n' ∉ o)
    (line : List Char) (id : Int) (ks : List Int) (hr : IsWords line (fmtInt id :: (ks.map fmtInt ++ [['!']])))
    (hk : ∀ k ∈ ks, k ∈ f.nodes.map (·.2.1)) (more : List (List Char)) (hmore : ∀ l ∈ more, '\n' ∉ l) :
    Permas.read io.parse (linesText (f.lines ++ ("$ELEMENT TYPE=".toList ++ name.toList ++ o) :: line :: more)) = .error .valueError := by
  have hm : ∀ ks : List Int, (∀ k ∈ ks, k ∈ f.nodes.map (·.2.1)) →
      mapRes (node (f.nodes.map (·.2.1))) (ks.map fmtInt ++ [['!']]) = .error .valueError := by
    intro ks
    induction ks with
    | nil => intro _; rfl
    | cons a ks ih =>
      intro h'
      rw [List.map_cons, List.cons_append, mapRes, node_ok _ h.distinct a (h' a (by simp)), ih fun k hk => h' k (by simp [hk])]
  have hline : '\n' ∉ "$ELEMENT TYPE=".toList ++ name.toList ++ o := by
    intro hm
    simp only [List.mem_append] at hm
    rcases hm with (hm | hm) | hm
    · revert hm; decide
    · exact (names_ok hname).2.2.2.2.2 hm
    · exact ho.2 hm
  unfold Permas.read
  rw [fileLines_linesText' _ (by
    intro l hl
    rcases List.mem_append.1 hl with hl | hl
    · exact file_lines io f h l hl
    · rcases List.mem_cons.1 hl with rfl | hl
      · exact hline
      · rcases List.mem_cons.1 hl with rfl | hl
        · exact hr.2
        · exact hmore l hl)]
  obtain ⟨fuel, hf, he⟩ := readLoop_file io f h (("$ELEMENT TYPE=".toList ++ name.toList ++ o) :: line :: more) (by
    intro l hl
    cases hl
    rfl)
  rw [he]
  obtain ⟨fuel, rfl⟩ : ∃ k, fuel = k + 1 := ⟨fuel - 1, by omega⟩
  have ht : ∀ x ∈ fmtInt id :: (ks.map fmtInt ++ [['!']]), IsTok x := by
    intro x hx
    simp only [List.mem_cons, List.mem_append, List.mem_map, List.not_mem_nil, or_false] at hx
    rcases hx with rfl | ⟨y, -, rfl⟩ | rfl
    · exact isTok_fmtInt _
    · exact isTok_fmtInt _
    · exact ⟨by decide, by decide⟩
  have hfl : (ks.map fmtInt ++ [['!']]).filter (fun x => decide (x ≠ [])) = ks.map fmtInt ++ [['!']] := by
    rw [List.filter_eq_self]
    intro x hx
    exact decide_eq_true (ht x (List.mem_cons_of_mem _ hx)).1
  rw [List.map_cons, List.map_cons, readLoop_cells io.parse fuel _ _ hname o ho.1, hids]
  rw [readRows, if_neg (by
    rw [words_head hr (fmtInt_ne_nil _) (by decide) (not_mem_fmtInt (by decide) (by decide) _)]; simp), words_split hr ht]
  simp only [List.tail_cons]
  rw [hfl, hm ks hk]

/-! ### Writing -/

/-- The name of a type and the order of the nodes. -/
theorem written_ok {t name : String} {n : Nat} (h : (t, name, n) ∈ permasWritten) :
    find meshioToPermas t = some name ∧ permasName t = name ∧ (name, t, n) ∈ permasNames :=
  (by decide +kernel : ∀ a ∈ permasWritten, find meshioToPermas a.1 = some a.2.1 ∧ permasName a.1 = a.2.1 ∧
    (a.2.1, a.1, a.2.2) ∈ permasNames) _ h

theorem order_ok {t name : String} {n : Nat} (h : (t, name, n) ∈ permasWritten) (r : List Int) (hl : r.length = n) :
    permasWrite t r = .ok (permasOrder t r) ∧ (permasOrder t r).length = n ∧ ∀ i ∈ permasOrder t r, i ∈ r := by
  by_cases h1 : t = "triangle6"
  · subst h1
    have : n = 6 := by
      have := (by decide : ∀ a ∈ permasWritten, a.1 = "triangle6" → a.2.2 = 6) _ h rfl
      exact this
    subst this
    match r, hl with
    | [a, b, c, d, e, f], _ => exact ⟨rfl, rfl, by simp [permasOrder]⟩
  by_cases h2 : t = "tetra10"
  · subst h2
    have : n = 10 := by
      have := (by decide : ∀ a ∈ permasWritten, a.1 = "tetra10" → a.2.2 = 10) _ h rfl
      exact this
    subst this
    match r, hl with
    | [a, b, c, d, e, f, g, i, j, k], _ => exact ⟨rfl, rfl, by simp [permasOrder]⟩
  by_cases h3 : t = "quad9"
  · subst h3
    have : n = 9 := by
      have := (by decide : ∀ a ∈ permasWritten, a.1 = "quad9" → a.2.2 = 9) _ h rfl
      exact this
    subst this
    match r, hl with
    | [a, b, c, d, e, f, g, i, j], _ => exact ⟨rfl, rfl, by simp [permasOrder]⟩
  have h4 : t ≠ "wedge15" := (by decide : ∀ a ∈ permasWritten, a.1 ≠ "wedge15") _ h
  have ho : permasOrder t r = r := by
    unfold permasOrder
    split
    · exact absurd rfl h1
    · exact absurd rfl h2
    · exact absurd rfl h3
    · rfl
  refine ⟨?_, by rw [ho, hl], by rw [ho]; exact fun i h => h⟩
  rw [ho]
  unfold permasWrite
  rw [if_neg h2, if_neg h1, if_neg h3, if_neg h4]

theorem permas_nodeLines (io : FloatIO F) (pts : List (List F)) (h : ∀ p ∈ pts, p.length = 3) :
    mapRes (Permas.nodeLine io.fmt) pts.zipIdx =
      .ok (pts.zipIdx.map fun pi => joinWith ' ' (fmtInt (1 + (pi.2 : Int)) :: pi.1.map io.fmt)) := by
  refine mapRes_ok_of_forall fun pi hpi => ?_
  have hl := h pi.1 (List.fst_mem_of_mem_zipIdx hpi)
  obtain ⟨p, k⟩ := pi
  match p, hl with
  | [x, y, z], _ =>
    simp only [Permas.nodeLine, List.map_cons, List.map_nil]
    rw [show (1 + (k : Int)) = ((k + 1 : Nat) : Int) by omega]
    rfl

/-- The rows of a block as they are written. -/
def permasRows (start : Int) (b : String × List (List Int)) : List (List Char × Int × List Int) :=
  b.2.zipIdx.map fun ri => (joinWith ' ' (fmtInt (start + ri.2) :: (permasOrder b.1 ri.1).map fun z => fmtInt (z + 1)),
    start + ri.2, (permasOrder b.1 ri.1).map (· + 1))

theorem permas_blockLines (cells pre : List (String × List (List Int))) (h : ∀ b ∈ cells, ∃ name n, (b.1, name, n) ∈ permasWritten ∧
      ∀ r ∈ b.2, r.length = n) :
    Permas.blockLines ((pre.map fun b => b.2.length).sum) cells =
      .ok ((cells.zipIdx pre.length).flatMap fun bk => [['!'], "$ELEMENT TYPE=".toList ++ (permasName bk.1.1).toList] ++
        (permasRows (1 + ((((pre ++ cells).take bk.2).map fun b => b.2.length).sum : Nat)) bk.1).map (·.1)) := by
  induction cells generalizing pre with
  | nil => rfl
  | cons b cells ih =>
    obtain ⟨name, n, hn, hrows⟩ := h b (by simp)
    obtain ⟨w1, w2, -⟩ := written_ok hn
    have ih := ih (pre ++ [b]) fun c hc => h c (by simp [hc])
    rw [show ((pre ++ [b]).map fun b => b.2.length).sum = (pre.map fun b => b.2.length).sum + b.2.length by simp,
      show (pre ++ [b]).length = pre.length + 1 by simp, show pre ++ [b] ++ cells = pre ++ b :: cells by simp] at ih
    have hr : mapRes (Permas.cellLine b.1 ((pre.map fun b => b.2.length).sum)) b.2.zipIdx =
        .ok ((permasRows (1 + ((pre.map fun b => b.2.length).sum : Nat)) b).map (·.1)) := by
      unfold permasRows
      rw [List.map_map]
      refine mapRes_ok_of_forall fun ri hri => ?_
      obtain ⟨o1, o2, -⟩ := order_ok hn ri.1 (hrows ri.1 (List.fst_mem_of_mem_zipIdx hri))
      unfold Permas.cellLine
      rw [o1]
      simp only [Function.comp_apply]
      rw [show (1 + (((pre.map fun b => b.2.length).sum : Nat) : Int) + (ri.2 : Int)) =
        (((pre.map fun b => b.2.length).sum + ri.2 + 1 : Nat) : Int) by omega]
      have hpos : permasOrder b.1 ri.1 ≠ [] := by
        have : 0 < n := (by decide : ∀ a ∈ permasWritten, 0 < a.2.2) _ hn
        intro e
        rw [e] at o2
        simp at o2
        omega
      obtain ⟨z, zs, hz⟩ := List.exists_cons_of_ne_nil hpos
      rw [hz]
      rfl
    rw [Permas.blockLines, w1]
    simp only
    rw [hr, ih, List.zipIdx_cons, List.flatMap_cons]
    simp only
    rw [List.take_left' rfl, w2]
    rfl

theorem permasSpace_length (zero : F) (m : In F) (h : PermasIn m) : ∀ p ∈ permasSpace zero m, p.length = 3 := by
  intro p hp
  obtain ⟨q, hq, rfl⟩ := List.mem_map.1 hp
  have := h.points.2 q hq
  rcases h.points.1 with e | e
  · rw [if_pos (by omega)]; simp; omega
  · rw [if_neg (by omega)]; omega

/-- What is written. -/
theorem C59_write (io : FloatIO F) (zero : F) (version : List Char) (m : In F) (h : PermasIn m) :
    Permas.write io zero version m = .ok (linesText (permasLines io zero version m)) := by
  have hpts : (if m.dim = 2 then m.points.map (· ++ [zero]) else m.points) = permasSpace zero m := by
    unfold permasSpace
    rcases h.points.1 with e | e
    · rw [if_pos e]
      refine List.map_congr_left fun p hp => ?_
      rw [if_pos (by rw [h.points.2 p hp, e])]
    · rw [if_neg (by omega)]
      conv => lhs; rw [← List.map_id m.points]
      refine List.map_congr_left fun p hp => ?_
      rw [if_neg (by rw [h.points.2 p hp]; omega)]
      rfl
  have hb := permas_blockLines m.cells [] fun b hb => by
    obtain ⟨name, n, h1, h2⟩ := h.cells b hb
    exact ⟨name, n, h1, fun r hr => (h2 r hr).1⟩
  simp only [List.map_nil, List.sum_nil, List.nil_append, List.length_nil] at hb
  unfold Permas.write
  rw [hpts, permas_nodeLines io _ (permasSpace_length zero m h), hb]
  simp only
  congr 2
  unfold permasLines
  congr 2
  refine flatMap_congr' fun bk _ => ?_
  unfold permasRows
  rw [List.map_map]
  rfl

/-! ### Round trip -/

/-- The blocks as parts of a file. -/
def permasBlocks (start : Nat) : List (String × List (List Int)) → List PermasPart
  | [] => []
  | b :: bs => .cells (permasName b.1) b.1 [] (permasRows (1 + (start : Int)) b) (if bs = [] then 0 else 1) ::
      permasBlocks (start + b.2.length) bs

theorem permasBlocks_lines (cells pre : List (String × List (List Int))) :
    ((cells.zipIdx pre.length).flatMap fun bk => [['!'], "$ELEMENT TYPE=".toList ++ (permasName bk.1.1).toList] ++
      (permasRows (1 + ((((pre ++ cells).take bk.2).map fun b => b.2.length).sum : Nat)) bk.1).map (·.1)) =
    (if cells = [] then [] else [['!']]) ++ (permasBlocks ((pre.map fun b => b.2.length).sum) cells).flatMap (·.lines) := by
  induction cells generalizing pre with
  | nil => rfl
  | cons b cells ih =>
    have ih := ih (pre ++ [b])
    rw [show ((pre ++ [b]).map fun b => b.2.length).sum = (pre.map fun b => b.2.length).sum + b.2.length by simp,
      show (pre ++ [b]).length = pre.length + 1 by simp, show pre ++ [b] ++ cells = pre ++ b :: cells by simp] at ih
    rw [List.zipIdx_cons, List.flatMap_cons, ih, permasBlocks, List.flatMap_cons, if_neg (List.cons_ne_nil b cells),
      List.take_left' rfl]
    simp only [PermasPart.lines, List.append_nil, List.append_assoc, List.cons_append, List.nil_append]
    congr 4
    by_cases hc : cells = []
    · rw [if_pos hc, if_pos hc]; rfl
    · rw [if_neg hc, if_neg hc]; rfl

/-- The file that is written. -/
def permasFile (io : FloatIO F) (zero : F) (version : List Char) (m : In F) : PermasFile F where
  before := ["!PERMAS DataFile Version 18.0".toList, "!written by meshio v".toList ++ version,
    "$ENTER COMPONENT NAME=DFLT_COMP".toList, "$STRUCTURE".toList]
  nodes := (permasSpace zero m).zipIdx.map fun pi =>
    (joinWith ' ' (fmtInt (1 + (pi.2 : Int)) :: pi.1.map io.fmt), 1 + (pi.2 : Int), pi.1)
  parts := (if m.cells = [] then [] else [.comment ['!']]) ++ permasBlocks 0 m.cells ++
    [.other "$END STRUCTURE".toList, .other "$EXIT COMPONENT".toList, .other "$FIN".toList]

theorem permasFile_lines (io : FloatIO F) (zero : F) (version : List Char) (m : In F) :
    (permasFile io zero version m).lines = permasLines io zero version m := by
  have hb := permasBlocks_lines m.cells []
  simp only [List.map_nil, List.sum_nil, List.nil_append, List.length_nil] at hb
  have hb' : (m.cells.zipIdx.flatMap fun bk => [['!'], "$ELEMENT TYPE=".toList ++ (permasName bk.1.1).toList] ++
      bk.1.2.zipIdx.map fun ri => joinWith ' ' (fmtInt (permasStart m bk.2 + ri.2) ::
        (permasOrder bk.1.1 ri.1).map fun z => fmtInt (z + 1))) =
      (if m.cells = [] then [] else [['!']]) ++ (permasBlocks 0 m.cells).flatMap (·.lines) := by
    rw [← hb]
    refine flatMap_congr' fun bk _ => ?_
    unfold permasRows
    rw [List.map_map]
    rfl
  unfold permasLines
  rw [hb']
  unfold PermasFile.lines permasFile
  simp only [List.flatMap_append, List.map_map]
  rw [show ((if m.cells = [] then [] else [PermasPart.comment ['!']]).flatMap (·.lines)) = (if m.cells = [] then [] else [['!']]) by
    split <;> rfl]
  simp only [List.append_assoc]
  rfl

theorem permas_numbers (io : FloatIO F) (zero : F) (version : List Char) (m : In F) :
    (permasFile io zero version m).nodes.map (·.2.1) = numbersFrom 1 m.points.length := by
  unfold permasFile numbersFrom permasSpace
  refine List.ext_getElem (by simp) (by simp)

theorem numbers_idx (n : Nat) (i : Int) (h : 0 ≤ i ∧ i < n) : ((numbersFrom 1 n).idxOf (i + 1) : Int) = i ∧ i + 1 ∈ numbersFrom 1 n := by
  have hi : i.toNat < (numbersFrom 1 n).length := by rw [length_numbersFrom]; omega
  have hg : (numbersFrom 1 n)[i.toNat] = i + 1 := by
    simp only [numbersFrom, List.getElem_map, List.getElem_range]; omega
  have := (numbersFrom_nodup 1 n).idxOf_getElem i.toNat hi
  rw [hg] at this
  refine ⟨by rw [this]; omega, ?_⟩
  rw [← hg]
  exact List.getElem_mem hi

theorem permasBlocks_ok (n : Nat) (cells : List (String × List (List Int))) (start : Nat)
    (h : ∀ b ∈ cells, ∃ name k, (b.1, name, k) ∈ permasWritten ∧ ∀ r ∈ b.2, r.length = k ∧ ∀ i ∈ r, 0 ≤ i ∧ i < n) :
    ∀ p ∈ permasBlocks start cells, p.Ok (numbersFrom 1 n) := by
  induction cells generalizing start with
  | nil => intro p hp; simp [permasBlocks] at hp
  | cons b cells ih =>
    intro p hp
    rcases List.mem_cons.1 hp with rfl | hp
    · obtain ⟨name, k, hn, hrows⟩ := h b (by simp)
      obtain ⟨-, w2, w3⟩ := written_ok hn
      refine ⟨.inl rfl, by simp, k, by rw [w2]; exact w3, ?_⟩
      intro r hr
      obtain ⟨ri, hri, rfl⟩ := List.mem_map.1 hr
      obtain ⟨hl, hi⟩ := hrows ri.1 (List.fst_mem_of_mem_zipIdx hri)
      obtain ⟨-, o2, o3⟩ := order_ok hn ri.1 hl
      refine ⟨⟨?_, ?_⟩, by simpa using o2, ?_⟩
      · simp only [List.map_map]
        exact strip_line' _ (by
          intro t ht
          rcases List.mem_cons.1 ht with rfl | ht
          · exact isTok_fmtInt _
          · obtain ⟨z, -, rfl⟩ := List.mem_map.1 ht
            exact isTok_fmtInt _)
      · exact no_newline_line _ (by
          intro t ht
          rcases List.mem_cons.1 ht with rfl | ht
          · exact isTok_fmtInt _
          · obtain ⟨z, -, rfl⟩ := List.mem_map.1 ht
            exact isTok_fmtInt _)
      · intro k hk
        obtain ⟨i, hi', rfl⟩ := List.mem_map.1 hk
        exact (numbers_idx n i (hi i (o3 i hi'))).2
    · exact ih _ (fun b hb => h b (by simp [hb])) p hp

theorem permasParts_others (l1 l2 l3 : List Char) : ∀ (cells : List (String × List (List Int))) (start : Nat),
    permasParts (permasBlocks start cells ++ [.other l1, .other l2, .other l3])
  | [], _ => trivial
  | [b], start => trivial
  | b :: c :: cells, start => permasParts_others l1 l2 l3 (c :: cells) (start + b.2.length)

theorem permasFile_ok (io : FloatIO F) (zero : F) (version : List Char) (hv : '\n' ∉ version) (m : In F) (h : PermasIn m) :
    (permasFile io zero version m).Ok io.fmt where
  before := by
    intro l hl
    simp only [permasFile, List.mem_cons, List.not_mem_nil, or_false] at hl
    rcases hl with rfl | rfl | rfl | rfl
    · exact .inr (by decide)
    · refine .inr ⟨rfl, ?_⟩
      intro hm
      rcases List.mem_append.1 hm with hm | hm
      · revert hm; decide
      · exact hv hm
    · exact .inl ⟨by decide, by decide, by decide⟩
    · exact .inl ⟨by decide, by decide, by decide⟩
  nodes := by
    intro r hr
    obtain ⟨pi, hpi, rfl⟩ := List.mem_map.1 hr
    have htok : ∀ t ∈ fmtInt (1 + (pi.2 : Int)) :: pi.1.map io.fmt, IsTok t := by
      intro t ht
      rcases List.mem_cons.1 ht with rfl | ht
      · exact isTok_fmtInt _
      · obtain ⟨x, -, rfl⟩ := List.mem_map.1 ht
        exact io.tok x
    exact ⟨strip_line' _ htok, no_newline_line _ htok⟩
  dim := by
    refine ⟨3, ?_⟩
    intro r hr
    obtain ⟨pi, hpi, rfl⟩ := List.mem_map.1 hr
    exact permasSpace_length zero m h _ (List.fst_mem_of_mem_zipIdx hpi)
  distinct := by
    rw [permas_numbers]
    exact numbersFrom_nodup _ _
  parts := by
    refine ⟨by simp [permasFile], ?_, ?_⟩
    · unfold permasFile
      simp only
      by_cases hc : m.cells = []
      · rw [if_pos hc]
        exact permasParts_others _ _ _ _ _
      · rw [if_neg hc]
        exact permasParts_others _ _ _ _ _
    · intro p hp
      rw [permas_numbers]
      simp only [permasFile, List.mem_append] at hp
      rcases hp with (hp | hp) | hp
      · by_cases hc : m.cells = []
        · rw [if_pos hc] at hp; simp at hp
        · rw [if_neg hc, List.mem_singleton] at hp
          subst hp
          exact ⟨rfl, by decide⟩
      · exact permasBlocks_ok _ _ _ h.cells p hp
      · simp only [List.mem_cons, List.not_mem_nil, or_false] at hp
        rcases hp with rfl | rfl | rfl
        · exact ⟨by decide, by decide, by decide⟩
        · exact ⟨by decide, by decide, by decide⟩
        · exact ⟨by decide, by decide, by decide⟩

theorem permasBlocks_cells (n : Nat) (cells : List (String × List (List Int))) (start : Nat)
    (h : ∀ b ∈ cells, ∃ name k, (b.1, name, k) ∈ permasWritten ∧ ∀ r ∈ b.2, r.length = k ∧ ∀ i ∈ r, 0 ≤ i ∧ i < n) :
    (permasBlocks start cells).filterMap (·.block (numbersFrom 1 n)) = cells.map fun b => (b.1, b.2.map (permasOrder b.1)) := by
  induction cells generalizing start with
  | nil => rfl
  | cons b cells ih =>
    rw [permasBlocks, List.filterMap_cons, ih _ fun b hb => h b (by simp [hb]), List.map_cons]
    simp only [PermasPart.block, List.cons.injEq, Prod.mk.injEq, true_and, and_true]
    obtain ⟨name, k, hn, hrows⟩ := h b (by simp)
    unfold permasRows
    rw [List.map_map]
    conv => rhs; rw [← List.zipIdx_map_fst 0 b.2, List.map_map]
    refine List.map_congr_left fun ri hri => ?_
    obtain ⟨hl, hi⟩ := hrows ri.1 (List.fst_mem_of_mem_zipIdx hri)
    obtain ⟨-, o2, o3⟩ := order_ok hn ri.1 hl
    simp only [Function.comp_apply, List.map_map]
    conv => rhs; rw [← List.map_id (permasOrder b.1 ri.1)]
    refine List.map_congr_left fun i hi' => ?_
    exact (numbers_idx n i (hi i (o3 i hi'))).1

theorem permasFile_cells (io : FloatIO F) (zero : F) (version : List Char) (m : In F) (h : PermasIn m) :
    (permasFile io zero version m).cells = m.cells.map fun b => (b.1, b.2.map (permasOrder b.1)) := by
  unfold PermasFile.cells
  rw [permas_numbers]
  unfold permasFile
  simp only
  rw [List.filterMap_append, List.filterMap_append, permasBlocks_cells _ _ _ h.cells]
  by_cases hc : m.cells = []
  · rw [if_pos hc]; simp [PermasPart.block]
  · rw [if_neg hc]; simp [PermasPart.block]

/-- Points and cells come back, block by block; the nodes of cells in the order in which they were written. -/
theorem C59_roundtrip (io : FloatIO F) (zero : F) (version : List Char) (hv : '\n' ∉ version) (m : In F) (h : PermasIn m) :
    ∃ s, Permas.write io zero version m = .ok s ∧
      Permas.read io.parse s = .ok ⟨permasSpace zero m, m.cells.map fun b => (b.1, b.2.map (permasOrder b.1))⟩ := by
  refine ⟨_, C59_write io zero version m h, ?_⟩
  rw [← permasFile_lines, C59_read io _ (permasFile_ok io zero version hv m h), permasFile_cells io zero version m h]
  congr 2
  simp only [permasFile, List.map_map]
  exact List.ext_getElem (by simp) (by simp)

/-- A written mesh is read back. -/
def C59_roundtrip_statement : Prop :=
  ∀ (F : Type) (io : FloatIO F) (zero : F) (version : List Char), '\n' ∉ version → ∀ m : In F, PermasIn m →
    ∃ s, Permas.write io zero version m = .ok s ∧ Permas.read io.parse s = .ok ⟨permasSpace zero m, m.cells⟩

/-- False: the nodes of triangles with six nodes are written in another order, and read without undoing that. -/
theorem C59_roundtrip_false : ¬ C59_roundtrip_statement := by
  intro h
  have h := h Int FloatIO.int 0 "5".toList (by decide)
    ⟨2, [[0, 0], [2, 0], [0, 2], [1, 0], [1, 1], [0, 1]], [("triangle6", [[0, 1, 2, 3, 4, 5]])]⟩
    ⟨⟨.inl rfl, by decide⟩, by
      intro b hb
      simp only [List.mem_singleton] at hb
      subst hb
      exact ⟨"TRIMS6", 6, by decide, by decide⟩⟩
  obtain ⟨s, h1, h2⟩ := h
  have h3 : Permas.write FloatIO.int 0 "5".toList ⟨2, [[0, 0], [2, 0], [0, 2], [1, 0], [1, 1], [0, 1]], [("triangle6", [[0, 1, 2, 3, 4, 5]])]⟩ =
    .ok "!PERMAS DataFile Version 18.0\n!written by meshio v5\n$ENTER COMPONENT NAME=DFLT_COMP\n$STRUCTURE\n$COOR\n1 0 0 0\n2 2 0 0\n3 0 2 0\n4 1 0 0\n5 1 1 0\n6 0 1 0\n!\n$ELEMENT TYPE=TRIMS6\n1 1 4 2 5 3 6\n$END STRUCTURE\n$EXIT COMPONENT\n$FIN\n".toList := by
    decide +kernel
  rw [h3] at h1
  rw [← Except.ok.inj h1] at h2
  revert h2
  decide +kernel

/-- It holds without the three types whose nodes are reordered. -/
theorem C59_roundtrip_partial (io : FloatIO F) (zero : F) (version : List Char) (hv : '\n' ∉ version) (m : In F) (h : PermasIn m)
    (ht : ∀ b ∈ m.cells, b.1 ≠ "triangle6" ∧ b.1 ≠ "tetra10" ∧ b.1 ≠ "quad9") :
    ∃ s, Permas.write io zero version m = .ok s ∧ Permas.read io.parse s = .ok ⟨permasSpace zero m, m.cells⟩ := by
  obtain ⟨s, h1, h2⟩ := C59_roundtrip io zero version hv m h
  refine ⟨s, h1, ?_⟩
  rw [h2]
  congr 2
  conv => rhs; rw [← List.map_id m.cells]
  refine List.map_congr_left fun b hb => ?_
  obtain ⟨ht1, ht2, ht3⟩ := ht b hb
  have : permasOrder b.1 = id := by
    funext r
    unfold permasOrder
    split
    · next e => exact absurd e ht1
    · next e => exact absurd e ht2
    · next e => exact absurd e ht3
    · rfl
  rw [this, List.map_id]
  rfl

/-- A type without a name is a KeyError. -/
theorem C59_refuses (io : FloatIO F) (zero : F) (version : List Char) (m : In F) (pre post : List (String × List (List Int)))
    (b : String × List (List Int)) (hm : m.cells = pre ++ b :: post) (ht : b.1 ≠ "wedge15" ∧ ∀ name n, (b.1, name, n) ∉ permasWritten)
    (hpre : ∀ b ∈ pre, ∃ name n, (b.1, name, n) ∈ permasWritten ∧ ∀ r ∈ b.2, r.length = n)
    (hp : (m.dim = 2 ∨ m.dim = 3) ∧ ∀ p ∈ m.points, p.length = m.dim) :
    Permas.write io zero version m = .error .keyError := by
  have hnone : find meshioToPermas b.1 = none := by
    cases hf : find meshioToPermas b.1 with
    | none => rfl
    | some nm =>
      have := (by decide +kernel : ∀ kv ∈ meshioToPermas, kv.1 = "wedge15" ∨ ∃ a ∈ permasWritten, a.1 = kv.1) _ (find_mem hf)
      rcases this with e | ⟨a, ha, e⟩
      · exact absurd e ht.1
      · exact absurd ((show a.1 = b.1 from e) ▸ ha : (b.1, a.2.1, a.2.2) ∈ permasWritten) (ht.2 _ _)
  have hl : ∀ p ∈ (if m.dim = 2 then m.points.map (· ++ [zero]) else m.points), p.length = 3 := by
    intro p hp'
    rcases hp.1 with e | e
    · rw [if_pos e] at hp'
      obtain ⟨q, hq, rfl⟩ := List.mem_map.1 hp'
      simp [hp.2 q hq, e]
    · rw [if_neg (by omega)] at hp'
      rw [hp.2 p hp', e]
  have hbl : ∀ (pre : List (String × List (List Int))) (eid : Nat),
      (∀ b ∈ pre, ∃ name n, (b.1, name, n) ∈ permasWritten ∧ ∀ r ∈ b.2, r.length = n) →
      Permas.blockLines eid (pre ++ b :: post) = .error .keyError := by
    intro pre
    induction pre with
    | nil => intro eid _; rw [List.nil_append, Permas.blockLines, hnone]
    | cons c pre ih =>
      intro eid h
      obtain ⟨name, n, hn, hrows⟩ := h c (by simp)
      rw [List.cons_append, Permas.blockLines, (written_ok hn).1]
      simp only
      have : ∃ rows, mapRes (Permas.cellLine c.1 eid) c.2.zipIdx = .ok rows :=
        ⟨_, mapRes_ok_of_forall (g := fun ri => fmtNat (eid + ri.2 + 1) ++ ' ' :: joinWith ' ' ((permasOrder c.1 ri.1).map fun z => fmtInt (z + 1)))
          fun ri hri => by
            unfold Permas.cellLine
            rw [(order_ok hn ri.1 (hrows ri.1 (List.fst_mem_of_mem_zipIdx hri))).1]⟩
      obtain ⟨rows, hr⟩ := this
      rw [hr]
      simp only
      rw [ih _ fun b hb => h b (by simp [hb])]
  unfold Permas.write
  rw [permas_nodeLines io _ hl, hm, hbl pre 0 hpre]

/-- Every name written is read as the same type. -/
theorem C49_permas (t name : String) (n : Nat) (h : (t, name, n) ∈ permasWritten) (o : List Char) (ho : o = [] ∨ o.head? = some ' ') :
    find meshioToPermas t = some name ∧
      Permas.typeOfLine (Permas.keyword ("$ELEMENT TYPE=".toList ++ name.toList ++ o ++ ['\n'])) = .ok t := by
  obtain ⟨w1, -, w3⟩ := written_ok h
  refine ⟨w1, ?_⟩
  obtain ⟨h1, h2, -, h4, -, -⟩ := names_ok w3
  rw [keyword_element w3]
  refine splitOn_type name.toList h1 h2 t (by rw [String.ofList_toList]; exact h4) _ ?_
  rcases ho with rfl | ho
  · exact .inl rfl
  · right
    rw [List.head?_map, ho]; rfl

/-- Element types without a counterpart are a ReadError, in a file with nodes. -/
theorem C59_unknown_type : Permas.read parseInt "$COOR\n1 0 0 0\n$ELEMENT TYPE=SPRING3\n1 1\n".toList = .error .readError := by
  decide +kernel

/-- Cells before the nodes are an error of the reader. -/
theorem C59_cells_first : Permas.read parseInt "$ELEMENT TYPE=PLOT1\n1 1\n$COOR\n1 0 0 0\n$FIN\n".toList = .error .unboundLocal := by
  decide +kernel

/-! ### Examples -/

/-- Nodes 7 and 3, a line from 3 to 7. -/
def permasExample : PermasFile Int where
  before := ["!comment".toList, "$STRUCTURE".toList]
  nodes := [("7 0 0 0".toList, 7, [0, 0, 0]), (" 3 5 0 0".toList, 3, [5, 0, 0])]
  parts := [.cells "PLOTL2" "line" " ESET=A".toList [("1 3 7".toList, 1, [3, 7])] 1, .other "$FIN".toList]

theorem permasExample_ok : permasExample.Ok FloatIO.int.fmt where
  before := by
    intro l hl
    simp only [permasExample, List.mem_cons, List.not_mem_nil, or_false] at hl
    rcases hl with rfl | rfl
    · exact .inr (by decide)
    · exact .inl ⟨by decide, by decide, by decide⟩
  nodes := by
    intro r hr
    simp only [permasExample, List.mem_cons, List.not_mem_nil, or_false] at hr
    rcases hr with rfl | rfl <;> exact ⟨by decide, by decide⟩
  dim := ⟨3, by decide⟩
  distinct := by decide
  parts := by
    refine ⟨by simp [permasExample], trivial, ?_⟩
    intro p hp
    simp only [permasExample, List.mem_cons, List.not_mem_nil, or_false] at hp
    rcases hp with rfl | rfl
    · refine ⟨.inr rfl, by decide, 2, by decide, ?_⟩
      intro r hr
      simp only [List.mem_singleton] at hr
      subst hr
      exact ⟨⟨by decide, by decide⟩, rfl, by decide⟩
    · exact ⟨by decide, by decide, by decide⟩

example : Permas.read parseInt "!comment\n$STRUCTURE\n$COOR\n7 0 0 0\n 3 5 0 0\n$ELEMENT TYPE=PLOTL2 ESET=A\n1 3 7\n!\n$FIN\n".toList =
    .ok ⟨[[0, 0, 0], [5, 0, 0]], [("line", [[1, 0]])]⟩ :=
  C59_read FloatIO.int permasExample permasExample_ok

example := C31_permas FloatIO.int permasExample permasExample_ok 0 _ _ _ _ _ rfl

example := C31_permas_missing FloatIO.int permasExample permasExample_ok "PLOTL2" "line" 2 (by decide) [] ⟨.inl rfl, by simp⟩
  ("2 3 4".toList, 2, [3, 4]) ⟨by decide, by decide⟩ 4 (by simp) (by decide) ["$FIN".toList] (by decide)

example := C59_continuation FloatIO.int permasExample permasExample_ok "PLOTL2" "line" 2 (by decide) [] ⟨.inl rfl, by simp⟩
  "2 7 !".toList 2 [7] ⟨by decide, by decide⟩ (by decide) ["3 7".toList, "$FIN".toList] (by decide)

example := C59_roundtrip_partial FloatIO.int 0 "5.3".toList (by decide)
  (⟨2, [[0, 0], [1, 0], [0, 1]], [("triangle", [[0, 1, 2]]), ("line", [[0, 2], [1, 2]])]⟩ : In Int)
  ⟨⟨.inl rfl, by decide⟩, by
    intro b hb
    simp only [List.mem_cons, List.not_mem_nil, or_false] at hb
    rcases hb with rfl | rfl
    · exact ⟨"TRIMS3", 3, by decide, by decide⟩
    · exact ⟨"FSCPIPE2", 2, by decide, by decide⟩⟩ (by decide)

example := C59_refuses FloatIO.int 0 [] (⟨2, [], [("line", []), ("polygon", [])]⟩ : In Int) [("line", [])] [] ("polygon", []) rfl
  ⟨by decide, by intro name n h; revert h; simp [permasWritten]⟩ (by
    intro b hb
    simp only [List.mem_singleton] at hb
    subst hb
    exact ⟨"FSCPIPE2", 2, by decide, by simp⟩) ⟨.inl rfl, by simp⟩

end Meshio.Props
