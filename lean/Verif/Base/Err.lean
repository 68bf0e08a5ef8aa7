/-
Exceptions as values.
-/
namespace Meshio

/-- The Python exceptions that meshio code raises (or lets escape from numpy and
the standard library).  `readError`/`writeError` are `meshio.ReadError` and
`meshio.WriteError`, `corruptionError` is `meshio.CorruptionError` (/repo/src/meshio/_exceptions.py:1-10); `exit n` is
`sys.exit(n)`; `structError` is `struct.error`; `eofLoop` stands for a loop that
never ends because it keeps reading at the end of the file; `unmodelled` marks a branch that exists in the code but is left
out of the model (each use says so). -/
inductive Err where
  | readError
  | writeError
  | valueError
  | keyError
  | indexError
  | typeError
  | runtimeError
  | assertionError
  | attributeError
  | unboundLocal
  | stopIteration
  | structError
  | overflowError
  | fileNotFound
  | corruptionError
  | eofLoop
  | exit (code : Nat)
  | unmodelled
deriving DecidableEq, Repr

/-- Result of a Python call: a value or an exception. -/
abbrev Res (α : Type) := Except Err α

instance {ε α : Type} [DecidableEq ε] [DecidableEq α] : DecidableEq (Except ε α)
  | .ok a, .ok b => if h : a = b then isTrue (by rw [h]) else isFalse (by intro h'; cases h'; exact h rfl)
  | .error a, .error b =>
    if h : a = b then isTrue (by rw [h]) else isFalse (by intro h'; cases h'; exact h rfl)
  | .ok _, .error _ => isFalse (by intro h; cases h)
  | .error _, .ok _ => isFalse (by intro h; cases h)

/-- Did the call succeed? -/
def Res.isOk {α : Type} : Res α → Bool
  | .ok _ => true
  | .error _ => false

/-- `[f(x) for x in l]` where `f` may raise: the first exception wins. -/
def mapRes {α β : Type} (f : α → Res β) : List α → Res (List β)
  | [] => .ok []
  | a :: l =>
    match f a with
    | .error e => .error e
    | .ok b =>
      match mapRes f l with
      | .error e => .error e
      | .ok bs => .ok (b :: bs)

theorem mapRes_ok_of_forall {α β : Type} {f : α → Res β} {g : α → β} {l : List α}
    (h : ∀ a ∈ l, f a = .ok (g a)) : mapRes f l = .ok (l.map g) := by
  induction l with
  | nil => rfl
  | cons a l ih =>
    simp only [mapRes, List.map_cons]
    rw [h a (by simp), ih (fun b hb => h b (by simp [hb]))]

/-- A list read off by position. -/
theorem mapRes_range' {β : Type} (l : List β) (f : Nat → Res β) (s : Nat)
    (h : ∀ (k : Nat) (b : β), l[k]? = some b → f (s + k) = .ok b) :
    mapRes f (List.range' s l.length) = .ok l := by
  induction l generalizing s with
  | nil => rfl
  | cons a l ih =>
    simp only [List.length_cons, List.range'_succ, mapRes]
    rw [show f s = .ok a from h 0 a (by simp), ih (s + 1) (fun k b hb => by
      have := h (k + 1) b (by simpa using hb)
      rwa [show s + 1 + k = s + (k + 1) by omega])]

theorem mapRes_range {β : Type} (l : List β) (f : Nat → Res β)
    (h : ∀ (k : Nat) (b : β), l[k]? = some b → f k = .ok b) :
    mapRes f (List.range l.length) = .ok l := by
  rw [List.range_eq_range']
  exact mapRes_range' l f 0 (fun k b hb => by rw [Nat.zero_add]; exact h k b hb)

theorem mapRes_length {α β : Type} {f : α → Res β} {l : List α} {r : List β}
    (h : mapRes f l = .ok r) : r.length = l.length := by
  induction l generalizing r with
  | nil => cases h; rfl
  | cons a l ih =>
    simp only [mapRes] at h
    split at h
    · cases h
    · split at h
      · cases h
      · next hb => cases h; simp [ih hb]

/-- `for a in l: state = f(state, a)` where the body may raise. -/
def foldRes {σ α : Type} (f : σ → α → Res σ) : σ → List α → Res σ
  | s, [] => .ok s
  | s, a :: l =>
    match f s a with
    | .error e => .error e
    | .ok s' => foldRes f s' l

theorem foldRes_append {σ α : Type} (f : σ → α → Res σ) (s : σ) (l l' : List α) :
    foldRes f s (l ++ l') =
      match foldRes f s l with
      | .error e => .error e
      | .ok s' => foldRes f s' l' := by
  induction l generalizing s with
  | nil => rfl
  | cons a l ih =>
    simp only [List.cons_append, foldRes]
    cases f s a with
    | error e => rfl
    | ok s' => exact ih s'

end Meshio
