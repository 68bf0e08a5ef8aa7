/-
C34: what holds for everything that is read from Nastran files.
-/
import Verif.Props.Nastran
namespace Meshio.Props
open Types Tables Spec Nastran

variable {F : Type}

/-- Each result of `mapRes` comes from one element. -/
theorem mapRes_from {α β : Type} {f : α → Res β} {l : List α} {r : List β} (h : mapRes f l = .ok r) : ∀ y ∈ r, ∃ x ∈ l, f x = .ok y := by
  induction l generalizing r with
  | nil => cases h; simp
  | cons a l ih =>
    unfold mapRes at h
    cases ha : f a with
    | error e => rw [ha] at h; cases h
    | ok b =>
      rw [ha] at h
      simp only at h
      cases hl : mapRes f l with
      | error e => rw [hl] at h; cases h
      | ok s =>
        rw [hl] at h
        cases h
        intro y hy
        rcases List.mem_cons.1 hy with rfl | hy
        · exact ⟨a, by simp, ha⟩
        · obtain ⟨x, hx, he⟩ := ih hl y hy
          exact ⟨x, by simp [hx], he⟩

/-- A row that a type admits: not more nodes than the type has.  The types with more nodes are excepted whose nodes are not
reordered. -/
def NasRow (t : String) (n : Nat) : Prop := t = "tetra10" ∨ t = "pyramid13" ∨ ∃ k, find numNodesPerCell t = some k ∧ n ≤ k

theorem reorder_length {α : Type} {table : List (String × List Nat)} {t : String} {r c : List α} (h : reorder table t r = .ok c) :
    (find table t = none ∧ c.length = r.length) ∨ ∃ p, find table t = some p ∧ c.length = p.length := by
  unfold reorder at h
  cases ht : find table t with
  | none => rw [ht] at h; cases h; exact .inl ⟨rfl, rfl⟩
  | some p =>
    rw [ht] at h
    unfold pick at h
    exact .inr ⟨p, rfl, mapRes_length h⟩

theorem promoted_cases {t : String} {p : String × String} (h : promoted t = some p) :
    p = ("tetra10", "CTETRA_") ∨ p = ("pyramid13", "CPYRA_") ∨ p = ("wedge15", "CPENTA_") ∨ p = ("hexahedron20", "CHEXA_") := by
  unfold promoted at h
  split at h
  · cases h; simp
  · split at h
    · cases h; simp
    · split at h
      · cases h; simp
      · split at h
        · cases h; simp
        · cases h

theorem cellOf_row {keyword : String} {nodes : List Int} {c : String × List Int} (h : cellOf keyword nodes = .ok c) : NasRow c.1 c.2.length := by
  unfold cellOf at h
  cases ht : find nastranToMeshio keyword with
  | none => rw [ht] at h; cases h
  | some t =>
    rw [ht] at h
    simp only at h
    cases hn : find numNodesPerCell t with
    | none => rw [hn] at h; cases h
    | some n =>
      rw [hn] at h
      simp only at h
      split at h
      · cases hp : promoted t with
        | none => rw [hp] at h; cases h
        | some p =>
          rw [hp] at h
          simp only at h
          cases hr : reorder nastranToVtkOrder p.2 nodes with
          | error e => rw [hr] at h; cases h
          | ok d =>
            rw [hr] at h
            cases h
            rcases promoted_cases hp with rfl | rfl | rfl | rfl
            · exact .inl rfl
            · exact .inr (.inl rfl)
            · rcases reorder_length hr with ⟨h1, -⟩ | ⟨p, h1, h2⟩
              · exact absurd h1 (by decide +kernel)
              · have : p = (find nastranToVtkOrder "CPENTA_").getD [] := by rw [h1]; rfl
                refine .inr (.inr ⟨15, (by decide +kernel : find numNodesPerCell "wedge15" = some 15), ?_⟩)
                simp only
                rw [h2, this]
                decide +kernel
            · rcases reorder_length hr with ⟨h1, -⟩ | ⟨p, h1, h2⟩
              · exact absurd h1 (by decide +kernel)
              · have : p = (find nastranToVtkOrder "CHEXA_").getD [] := by rw [h1]; rfl
                refine .inr (.inr ⟨20, (by decide +kernel : find numNodesPerCell "hexahedron20" = some 20), ?_⟩)
                simp only
                rw [h2, this]
                decide +kernel
      · rename_i hle
        cases hr : reorder nastranToVtkOrder keyword nodes with
        | error e => rw [hr] at h; cases h
        | ok d =>
          rw [hr] at h
          cases h
          refine .inr (.inr ⟨n, hn, ?_⟩)
          rcases reorder_length hr with ⟨-, h2⟩ | ⟨p, h1, h2⟩
          · simp only
            omega
          · have key := (by decide +kernel : ∀ k ∈ nastranToVtkOrder, ∀ j ∈ nastranToMeshio, j.1 = k.1 → ∀ i ∈ numNodesPerCell, i.1 = j.2 → k.2.length ≤ i.2)
            have := key (keyword, p) (find_mem h1) (keyword, t) (find_mem ht) rfl (t, n) (find_mem hn) rfl
            simp only
            rw [h2]
            exact this

/-- All rows of the blocks are admitted. -/
def NasRows (l : List (String × List (List Int))) : Prop := ∀ b ∈ l, ∀ r ∈ b.2, NasRow b.1 r.length

theorem pushTyped_rows {l : List (String × List (List Int))} {t : String} {r : List Int} (hl : NasRows l) (hr : NasRow t r.length) :
    NasRows (pushTyped l (t, r)) := by
  rcases List.eq_nil_or_concat l with rfl | ⟨l, b, rfl⟩
  · intro b hb x hx
    have hb : b ∈ [(t, [r])] := hb
    rw [List.mem_singleton.1 hb] at hx ⊢
    rw [List.mem_singleton.1 hx]
    exact hr
  · rw [List.concat_eq_append] at hl ⊢
    rw [pushTyped_concat]
    split
    · rename_i he
      intro c hc x hx
      rcases List.mem_append.1 hc with hc | hc
      · exact hl c (by simp [hc]) x hx
      · rw [List.mem_singleton.1 hc] at hx ⊢
        rcases List.mem_append.1 hx with hx | hx
        · exact hl b (by simp) x hx
        · rw [List.mem_singleton.1 hx]
          simp only at he ⊢
          rw [he]
          exact hr
    · intro c hc x hx
      rcases List.mem_append.1 hc with hc | hc
      · exact hl c hc x hx
      · rw [List.mem_singleton.1 hc] at hx ⊢
        rw [List.mem_singleton.1 hx]
        exact hr

theorem push_rows {st st' : St F} {t : String} {c : List Int} {id : Int} {ref : Option Int} (h : push st t c id ref = .ok st')
    (hst : NasRows st.cells) (hc : NasRow t c.length) : NasRows st'.cells := by
  have hp := pushTyped_rows hst hc
  unfold push at h
  split at h
  · cases ha : appendLast st.cids id with
    | error e => rw [ha] at h; cases h
    | ok cids =>
      rw [ha] at h
      simp only at h
      cases ref with
      | none => cases h; exact hp
      | some r =>
        simp only at h
        cases hb : appendLast st.crefs r with
        | error e => rw [hb] at h; cases h
        | ok crefs => rw [hb] at h; cases h; exact hp
  · cases h; exact hp

theorem addCell_rows {st st' : St F} {k : String} {fs : List (List Char)} (h : addCell st k fs = .ok st') (hst : NasRows st.cells) :
    NasRows st'.cells := by
  unfold addCell at h
  cases h1 : fieldAt fs 1 with
  | error e => rw [h1] at h; cases h
  | ok w1 =>
    rw [h1] at h
    simp only at h
    cases h2 : intWord w1 with
    | error e => rw [h2] at h; cases h
    | ok id =>
      rw [h2] at h
      simp only at h
      cases h3 : fieldAt fs 2 with
      | error e => rw [h3] at h; cases h
      | ok w2 =>
        rw [h3] at h
        simp only at h
        cases h4 : refWord w2 with
        | error e => rw [h4] at h; cases h
        | ok ref =>
          rw [h4] at h
          simp only at h
          generalize mapRes intWord _ = rr at h
          cases rr with
          | error e => cases h
          | ok nodes =>
            simp only at h
            cases h6 : cellOf k nodes with
            | error e => rw [h6] at h; cases h
            | ok c =>
              rw [h6] at h
              exact push_rows h hst (cellOf_row h6)

theorem addPoint_rows {io : NasIO F} {st st' : St F} {fs : List (List Char)} (h : addPoint io st fs = .ok st') : st'.cells = st.cells := by
  unfold addPoint at h
  repeat' split at h
  all_goals first | (cases h; rfl) | cases h

theorem entry_rows {io : NasIO F} {st st' : St F} {fs : List (List Char)} (h : entry io st fs = .ok st') (hst : NasRows st.cells) :
    NasRows st'.cells := by
  unfold entry at h
  cases h1 : fs.head? with
  | none => rw [h1] at h; cases h
  | some k =>
    rw [h1] at h
    simp only at h
    split at h
    · rw [addPoint_rows h]; exact hst
    · split at h
      · exact addCell_rows h hst
      · cases h; exact hst

theorem loop_rows (io : NasIO F) (fuel : Nat) (st st' : St F) (ls : List (List Char)) (h : Nastran.loop io fuel st ls = .ok st')
    (hst : NasRows st.cells) : NasRows st'.cells := by
  induction fuel generalizing st ls with
  | zero => cases ls <;> cases h
  | succ fuel ih =>
    cases ls with
    | nil => cases h
    | cons l ls =>
      rw [Nastran.loop] at h
      split at h
      · cases h; exact hst
      · cases h1 : chunkLine l with
        | error e => rw [h1] at h; cases h
        | ok c =>
          rw [h1] at h
          simp only at h
          cases h2 : gather [] (c.map some) ls with
          | error e => rw [h2] at h; cases h
          | ok r =>
            rw [h2] at h
            simp only at h
            cases h3 : entry io st (fields r.1) with
            | error e => rw [h3] at h; cases h
            | ok st2 =>
              rw [h3] at h
              exact ih st2 r.2 h (entry_rows h3 hst)

theorem checkBlock_ok {b c : String × List (List Int)} (h : checkBlock b = .ok c) :
    c = b ∧ (∀ r ∈ b.2, ∀ s ∈ b.2, r.length = s.length) ∧ (Dict.get? topologicalDimension b.1).isSome := by
  unfold checkBlock at h
  split at h
  · rename_i ha
    cases ht : Dict.get? topologicalDimension b.1 with
    | none => rw [ht] at h; cases h
    | some d =>
      rw [ht] at h
      cases h
      refine ⟨rfl, ?_, rfl⟩
      intro r hr s hs
      have h1 := of_decide_eq_true (List.all_eq_true.1 ha r hr)
      have h2 := of_decide_eq_true (List.all_eq_true.1 ha s hs)
      rw [h1, h2]
  · cases h

/-- C34: whatever file is read: the cells of a block have one number of nodes, not more than the type has (except for tetrahedra with
more than four nodes); in particular no wedges or pyramids with nodes on their edges are read. -/
theorem C34_rows (io : NasIO F) (text : List Char) (m : Out F) (h : Nastran.read io text = .ok m) :
    ∀ b ∈ m.cells, (∀ r ∈ b.2, ∀ s ∈ b.2, r.length = s.length) ∧ b.1 ≠ "wedge15" ∧ b.1 ≠ "pyramid13" ∧
      (b.1 ≠ "tetra10" → ∃ n, find numNodesPerCell b.1 = some n ∧ ∀ r ∈ b.2, r.length ≤ n) := by
  unfold Nastran.read at h
  cases ha : afterBegin (fileLines text) with
  | error e => rw [ha] at h; cases h
  | ok tail =>
    rw [ha] at h
    simp only at h
    cases hd : tail.dropWhile isSkip with
    | nil => rw [hd] at h; cases h
    | cons l ls =>
      rw [hd] at h
      simp only at h
      cases hl : Nastran.loop io (ls.length + 1) St.init (l :: ls) with
      | error e => rw [hl] at h; cases h
      | ok st =>
        rw [hl] at h
        simp only at h
        have hst := loop_rows io _ _ _ _ hl (by intro b hb; cases hb)
        unfold Nastran.finish at h
        split at h
        · cases hc : mapRes checkBlock st.cells with
          | error e => rw [hc] at h; cases h
          | ok cells =>
            rw [hc] at h
            simp only at h
            cases hr : mapRes (resolve st.pids) cells with
            | error e => rw [hr] at h; cases h
            | ok out =>
              rw [hr] at h
              cases h
              intro b hb
              obtain ⟨x, hx, hxb⟩ := mapRes_from hr b hb
              obtain ⟨y, hy, hyx⟩ := mapRes_from hc x hx
              obtain ⟨rfl, h1, h2⟩ := checkBlock_ok hyx
              unfold resolve at hxb
              split at hxb
              · cases hxb
              · cases hm : mapRes (mapRes (idGet st.pids)) x.2 with
                | error e => rw [hm] at hxb; cases hxb
                | ok rows =>
                  rw [hm] at hxb
                  cases hxb
                  have hlen : ∀ r ∈ rows, ∃ s ∈ x.2, r.length = s.length := by
                    intro r hr'
                    obtain ⟨s, hs, hsr⟩ := mapRes_from hm r hr'
                    exact ⟨s, hs, mapRes_length hsr⟩
                  have hrow := hst x hy
                  have n1 : x.1 ≠ "wedge15" := by
                    intro e; rw [e] at h2; revert h2; decide +kernel
                  have n2 : x.1 ≠ "pyramid13" := by
                    intro e; rw [e] at h2; revert h2; decide +kernel
                  refine ⟨?_, n1, n2, ?_⟩
                  · intro r hr1 s hs1
                    obtain ⟨r', a1, a2⟩ := hlen r hr1
                    obtain ⟨s', b1, b2⟩ := hlen s hs1
                    rw [a2, b2, h1 r' a1 s' b1]
                  · intro n3
                    have hx2 : x.2 ≠ [] := by
                      intro e
                      rename_i hne
                      rw [e] at hne
                      exact hne rfl
                    obtain ⟨r0, hr0⟩ := List.exists_mem_of_ne_nil _ hx2
                    rcases hrow r0 hr0 with e | e | ⟨k, hk, hle⟩
                    · exact absurd e n3
                    · exact absurd e n2
                    · refine ⟨k, hk, ?_⟩
                      intro r hr1
                      obtain ⟨r', a1, a2⟩ := hlen r hr1
                      rw [a2, h1 r' a1 r0 hr0]
                      exact hle
        · cases h

/-- The full statement of C34 on what is read: each cell has as many nodes as its type. -/
def C34_rows_statement : Prop :=
  ∀ (text : List Char) (m : Out Int), Nastran.read NasIO.int text = .ok m → ∀ b ∈ m.cells, ∃ n, find numNodesPerCell b.1 = some n ∧ ∀ r ∈ b.2, r.length = n

/-- It does not hold: a triangle with two nodes is read. -/
theorem C34_rows_false : ¬ C34_rows_statement := by
  intro h
  obtain ⟨n, h1, h2⟩ := h (linesText ["BEGIN BULK".toList, "GRID,1,,0.,0.,0.".toList, "CTRIA3,1,,1,1".toList, "ENDDATA".toList])
    ⟨[[0, 0, 0]], [1], [("triangle", [[0, 0]])], [[1]], none, none⟩ (by decide +kernel) ("triangle", [[0, 0]]) (by simp)
  have e1 : find numNodesPerCell "triangle" = some 3 := by decide +kernel
  rw [e1] at h1
  cases h1
  exact absurd (h2 [0, 0] (by simp)) (by decide)

example : ∃ m, Nastran.read NasIO.int (linesText ["BEGIN BULK".toList, "GRID,1,,0.,0.,0.".toList, "CTRIA3,1,,1,1,1".toList, "CROD,2,,1,1".toList, "ENDDATA".toList]) = .ok m ∧
    m.cells = [("triangle", [[0, 0, 0]]), ("line", [[0, 0]])] :=
  ⟨⟨[[0, 0, 0]], [1], [("triangle", [[0, 0, 0]]), ("line", [[0, 0]])], [[1], [2]], none, none⟩, by decide +kernel, rfl⟩

end Meshio.Props
