/-
numpy indexing and slicing, and the run splitting idiom
`np.concatenate([[0], np.where(a[:-1] != a[1:])[0] + 1, [len(a)]])`.
-/
import Verif.Base.Err
namespace Meshio

/-- `a[i]` on a numpy array: negative indices count from the end. -/
def npIndex {α : Type} (a : List α) (i : Int) : Res α :=
  if 0 ≤ i then
    match a[i.toNat]? with
    | some x => .ok x
    | none => .error .indexError
  else if -(a.length : Int) ≤ i then
    match a[(i + a.length).toNat]? with
    | some x => .ok x
    | none => .error .indexError
  else .error .indexError

/-- `a[s:e]` for non-negative bounds. -/
def pySlice {α : Type} (a : List α) (s e : Nat) : List α := (a.drop s).take (e - s)

/-- `np.where(a[:-1] != a[1:])[0] + 1`, positions counted from `i`. -/
def breaksFrom {κ : Type} [DecidableEq κ] : Nat → List κ → List Nat
  | _, [] => []
  | _, [_] => []
  | i, a :: b :: l => if a = b then breaksFrom (i + 1) (b :: l) else (i + 1) :: breaksFrom (i + 1) (b :: l)

/-- `list(zip(b[:-1], b[1:]))` for `b = [0] + breaks + [len(a)]`: start and end of each
run of equal entries (one empty run for the empty array). -/
def startEnd {κ : Type} [DecidableEq κ] (a : List κ) : List (Nat × Nat) :=
  List.zip (0 :: breaksFrom 0 a) (breaksFrom 0 a ++ [a.length])

/-- Cut a list into pieces of the given lengths. -/
def splitLens {α : Type} : List Nat → List α → List (List α)
  | [], _ => []
  | n :: ns, l => l.take n :: splitLens ns (l.drop n)

/-- Start and end positions of consecutive pieces of the given lengths. -/
def segsFrom : Nat → List Nat → List (Nat × Nat)
  | _, [] => []
  | i, n :: ns => (i, i + n) :: segsFrom (i + n) ns

/-- Lengths of the maximal runs of equal entries. -/
def runLens {κ : Type} [DecidableEq κ] : List κ → List Nat
  | [] => []
  | [_] => [1]
  | a :: b :: l =>
    if a = b then
      match runLens (b :: l) with
      | [] => [1]
      | n :: ns => (n + 1) :: ns
    else 1 :: runLens (b :: l)

/-- The idiom `if blocks and same(blocks[-1], a): blocks[-1] = app(blocks[-1], a) else:
blocks.append(new(a))` by which many readers build their blocks. -/
def pushBy {α β : Type} (same : β → α → Bool) (app : β → α → β) (new : α → β) (st : List β)
    (a : α) : List β :=
  match st.getLast? with
  | none => st ++ [new a]
  | some b => if same b a then st.dropLast ++ [app b a] else st ++ [new a]

theorem runLens_ne_nil {κ : Type} [DecidableEq κ] (a : κ) (l : List κ) : runLens (a :: l) ≠ [] := by
  cases l with
  | nil => simp [runLens]
  | cons b l =>
    simp only [runLens]
    split
    · split <;> simp
    · simp

theorem sum_runLens {κ : Type} [DecidableEq κ] (l : List κ) : (runLens l).sum = l.length := by
  induction l with
  | nil => rfl
  | cons a l ih =>
    cases l with
    | nil => rfl
    | cons b l =>
      simp only [runLens]
      split
      · cases h : runLens (b :: l) with
        | nil => exact absurd h (runLens_ne_nil b l)
        | cons n ns => rw [h] at ih; simp only [List.sum_cons, List.length_cons] at ih ⊢; omega
      · simp only [List.sum_cons, List.length_cons] at ih ⊢; omega

theorem runLens_pos {κ : Type} [DecidableEq κ] {l : List κ} {n : Nat} (h : n ∈ runLens l) :
    0 < n := by
  induction l generalizing n with
  | nil => simp [runLens] at h
  | cons a l ih =>
    cases l with
    | nil => simp [runLens] at h; omega
    | cons b l =>
      simp only [runLens] at h
      split at h
      · cases h' : runLens (b :: l) with
        | nil => exact absurd h' (runLens_ne_nil b l)
        | cons m ms =>
          rw [h'] at h ih
          rcases List.mem_cons.mp h with h | h
          · omega
          · exact ih (by simp [h])
      · rcases List.mem_cons.mp h with h | h
        · omega
        · exact ih h

theorem zip_breaks {κ : Type} [DecidableEq κ] (a : κ) (l : List κ) (i : Nat) :
    List.zip (i :: breaksFrom i (a :: l)) (breaksFrom i (a :: l) ++ [i + (a :: l).length]) =
      segsFrom i (runLens (a :: l)) := by
  induction l generalizing a i with
  | nil => simp [breaksFrom, runLens, segsFrom]
  | cons b l ih =>
    have h := ih b (i + 1)
    simp only [breaksFrom, runLens]
    have hl : i + (a :: b :: l).length = i + 1 + (b :: l).length := by simp; omega
    rw [hl]
    split
    · cases hr : runLens (b :: l) with
      | nil => exact absurd hr (runLens_ne_nil b l)
      | cons n ns =>
        rw [hr] at h
        simp only [segsFrom] at h ⊢
        cases hb : breaksFrom (i + 1) (b :: l) with
        | nil =>
          rw [hb] at h
          simp only [List.nil_append, List.zip_cons_cons, List.zip_nil_left, List.cons.injEq,
            Prod.mk.injEq, true_and] at h ⊢
          obtain ⟨h1, h2⟩ := h
          refine ⟨by omega, ?_⟩
          rw [show i + (n + 1) = i + 1 + n by omega]; exact h2
        | cons x xs =>
          rw [hb] at h
          simp only [List.cons_append, List.zip_cons_cons, List.cons.injEq, Prod.mk.injEq,
            true_and] at h ⊢
          obtain ⟨h1, h2⟩ := h
          refine ⟨by omega, ?_⟩
          rw [show i + (n + 1) = i + 1 + n by omega]; exact h2
    · simp only [List.cons_append, List.zip_cons_cons, segsFrom, List.cons.injEq, true_and]
      exact h

theorem startEnd_eq {κ : Type} [DecidableEq κ] {l : List κ} (h : l ≠ []) :
    startEnd l = segsFrom 0 (runLens l) := by
  cases l with
  | nil => exact absurd rfl h
  | cons a l => have := zip_breaks a l 0; simpa [startEnd] using this

theorem map_pySlice_segs {α : Type} (ns : List Nat) (i : Nat) (l : List α) :
    (segsFrom i ns).map (fun se => pySlice l se.1 se.2) = splitLens ns (l.drop i) := by
  induction ns generalizing i with
  | nil => rfl
  | cons n ns ih =>
    simp only [segsFrom, List.map_cons, splitLens, ih]
    simp [pySlice]

theorem flatten_splitLens {α : Type} (ns : List Nat) (l : List α) (h : ns.sum = l.length) :
    (splitLens ns l).flatten = l := by
  induction ns generalizing l with
  | nil => simp at h; simp [splitLens, List.length_eq_zero_iff.mp h.symm]
  | cons n ns ih =>
    simp only [splitLens, List.flatten_cons]
    rw [ih]
    · exact List.take_append_drop n l
    · simp only [List.sum_cons] at h; simp; omega

theorem map_splitLens {α β : Type} (f : α → β) (ns : List Nat) (l : List α) :
    (splitLens ns l).map (List.map f) = splitLens ns (l.map f) := by
  induction ns generalizing l with
  | nil => rfl
  | cons n ns ih => simp [splitLens, ih]

theorem splitLens_append {α : Type} (ns : List Nat) (l x : List α) (h : ns.sum ≤ l.length) :
    splitLens ns (l ++ x) = splitLens ns l := by
  induction ns generalizing l with
  | nil => rfl
  | cons n ns ih =>
    simp only [List.sum_cons] at h
    simp only [splitLens]
    rw [List.take_append_of_le_length (by omega), List.drop_append_of_le_length (by omega),
      ih _ (by simp; omega)]

theorem length_splitLens {α : Type} (ns : List Nat) (l : List α) :
    (splitLens ns l).length = ns.length := by
  induction ns generalizing l with
  | nil => rfl
  | cons n ns ih => simp [splitLens, ih]

theorem npIndex_append {α : Type} (pre mid post : List α) (j : Nat) (h : j < mid.length) :
    npIndex (pre ++ (mid ++ post)) ((pre.length + j : Nat) : Int) = .ok mid[j] := by
  unfold npIndex
  rw [if_pos (by omega)]
  have : (pre ++ (mid ++ post))[((pre.length + j : Nat) : Int).toNat]? = some mid[j] := by
    rw [show (((pre.length + j : Nat) : Int)).toNat = pre.length + j by omega]
    rw [List.getElem?_append_right (by omega)]
    rw [show pre.length + j - pre.length = j by omega]
    rw [List.getElem?_append_left h]
    exact List.getElem?_eq_getElem h
  rw [this]

/-- Append a row with its key to a list of blocks: to the last block if that has the same key,
else as a new block (`if len(cells) == 0 or t != cells[-1][0]: cells.append((t, []))` and
`cells[-1][1].append(row)`). -/
def pushTyped {κ α : Type} [DecidableEq κ] (st : List (κ × List α)) (a : κ × α) : List (κ × List α) :=
  pushBy (fun b a => b.1 = a.1) (fun b a => (b.1, b.2 ++ [a.2])) (fun a => (a.1, [a.2])) st a

end Meshio
