/-
Lists related entry by entry.
-/
namespace Meshio

/-- Two lists of the same length whose entries are related. -/
def All2 {α β : Type} (R : α → β → Prop) : List α → List β → Prop
  | [], [] => True
  | a :: l, b :: m => R a b ∧ All2 R l m
  | _, _ => False

theorem all2_append {α β : Type} {R : α → β → Prop} {l l' : List α} {m m' : List β} (h : All2 R l m) (h' : All2 R l' m') :
    All2 R (l ++ l') (m ++ m') := by
  induction l generalizing m with
  | nil => cases m with
    | nil => exact h'
    | cons b m => exact h.elim
  | cons a l ih => cases m with
    | nil => exact h.elim
    | cons b m => exact ⟨h.1, ih h.2⟩

theorem all2_map {α β γ : Type} {R : α → β → Prop} {l : List γ} {f : γ → α} {g : γ → β} (h : ∀ x ∈ l, R (f x) (g x)) :
    All2 R (l.map f) (l.map g) := by
  induction l with
  | nil => trivial
  | cons a l ih => exact ⟨h a (by simp), ih fun x hx => h x (by simp [hx])⟩

theorem all2_length {α β : Type} {R : α → β → Prop} {l : List α} {m : List β} (h : All2 R l m) : l.length = m.length := by
  induction l generalizing m with
  | nil => cases m with
    | nil => rfl
    | cons b m => exact h.elim
  | cons a l ih => cases m with
    | nil => exact h.elim
    | cons b m => simp [ih h.2]

end Meshio
