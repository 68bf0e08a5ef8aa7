/-
C60: what all versions of Gmsh files share: comments before the header, and names with escaped characters.
-/
import Verif.Props.Gmsh41
namespace Meshio.Props
open Meshio Meshio.Gmsh

/-- Comments before the header. -/
def gmshComments (ls : List (List Char)) : List Char := linesText ("$Comments".toList :: ls ++ ["$EndComments".toList])

theorem gmsh_fastForward_length (block : List Char) (n : Nat) (s : List Char) : (fastForwardF block n s).length ≤ s.length := by
  induction n generalizing s with
  | zero => simp [fastForwardF]
  | succ n ih =>
    rw [fastForwardF]
    by_cases hs : s = []
    · rw [if_pos hs, hs]; exact Nat.le_refl _
    · rw [if_neg hs]
      have := length_readLine s hs
      split
      · omega
      · exact Nat.le_trans (ih _) (by omega)

theorem gmsh_skip_ge (n m : Nat) (s : List Char) (hn : s.length ≤ n) (hm : s.length ≤ m) : skipCommentsF n s = skipCommentsF m s := by
  induction n generalizing m s with
  | zero =>
    have : s = [] := List.length_eq_zero_iff.1 (by omega)
    subst this
    cases m with
    | zero => rfl
    | succ m => rw [skipCommentsF, skipCommentsF, if_neg (by decide)]
  | succ n ih =>
    cases m with
    | zero =>
      have : s = [] := List.length_eq_zero_iff.1 (by omega)
      subst this
      rw [skipCommentsF, skipCommentsF, if_neg (by decide)]
    | succ m =>
      rw [skipCommentsF, skipCommentsF]
      by_cases h : strip (readLine s).1 = "$Comments".toList
      · rw [if_pos h, if_pos h]
        have h1 := gmsh_fastForward_length "Comments".toList (readLine s).2.length (readLine s).2
        have h2 : (readLine s).2.length < s.length := by
          apply length_readLine
          intro e
          rw [e] at h
          exact absurd h (by decide)
        unfold fastForward at *
        exact ih _ _ (by omega) (by omega)
      · rw [if_neg h, if_neg h]

/-- **Sections of comments before the header are skipped**, however many lines they have. -/
theorem C60_comments (ls : List (List Char)) (h : ∀ l ∈ ls, '\n' ∉ l ∧ strip (l ++ ['\n']) ≠ "$EndComments".toList) (s : List Char) :
    start (gmshComments ls ++ s) = start s := by
  have e : gmshComments ls ++ s = "$Comments".toList ++ '\n' :: (linesText ls ++ (linesText ["$End".toList ++ "Comments".toList] ++ s)) := by
    unfold gmshComments
    simp only [List.cons_append, linesText_cons, linesText_append, List.append_assoc]
    rfl
  have hf := fastForward_lines "Comments".toList ⟨by decide, by decide⟩ ls h s
  have hk : skipCommentsF (gmshComments ls ++ s).length (gmshComments ls ++ s) = skipCommentsF s.length s := by
    rw [e]
    generalize hn : ("$Comments".toList ++ '\n' :: (linesText ls ++ (linesText ["$End".toList ++ "Comments".toList] ++ s))).length = n
    have hge : s.length + 1 ≤ n := by rw [← hn]; simp only [List.length_append, List.length_cons]; omega
    obtain ⟨m, rfl⟩ := Nat.exists_eq_add_of_le hge
    rw [Nat.add_right_comm, skipCommentsF, readLine_append _ _ (by decide), if_pos (show strip ("$Comments".toList ++ ['\n']) = _ by decide), hf]
    exact gmsh_skip_ge _ _ _ (by omega) (Nat.le_refl _)
  unfold start
  rw [hk]

example : start ("$Comments\nmade by hand\n\n$EndComments\n$MeshFormat\n4.1 0 8\n$EndMeshFormat\n$Nodes\n".toList) =
    .ok ((.v41, 8, true), "$Nodes\n".toList) := by decide +kernel

/-- The text of a name between double quotes: a backslash before each double quote and each backslash. -/
def gmshEscaped (k : List Char) : List Char := k.flatMap fun c => if c = '"' ∨ c = '\\' then ['\\', c] else [c]

theorem gmsh_escaped (k s cur : List Char) (q : Bool) :
    shlexGo (gmshEscaped k ++ '"' :: s) (.quote '"') cur q = shlexGo s .word (cur ++ k) true := by
  induction k generalizing cur q with
  | nil => simp [gmshEscaped, shlexGo]
  | cons c k ih =>
    have e : gmshEscaped (c :: k) = (if c = '"' ∨ c = '\\' then ['\\', c] else [c]) ++ gmshEscaped k := by simp [gmshEscaped]
    rw [e, List.append_assoc]
    by_cases h : c = '"' ∨ c = '\\'
    · rw [if_pos h]
      show shlexGo ('\\' :: c :: (gmshEscaped k ++ '"' :: s)) _ _ _ = _
      rw [shlexGo, if_neg (by decide), if_pos ⟨rfl, rfl⟩, shlexGo, if_neg (by rcases h with h | h <;> simp [h]), ih]
      simp
    · rw [if_neg h]
      have h := not_or.1 h
      show shlexGo (c :: (gmshEscaped k ++ '"' :: s)) _ _ _ = _
      rw [shlexGo, if_neg h.1, if_neg (by simp [h.2]), ih]
      simp

/-- **A physical name may contain any characters, escaped by backslashes where needed.** -/
theorem C60_escaped_names (d n : Int) (k : List Char) :
    nameLine (fmtInt d ++ ' ' :: (fmtInt n ++ ' ' :: '"' :: (gmshEscaped k ++ '"' :: ['\n']))) = .ok (String.ofList k, n, d) := by
  have e2 : shlexGo ('"' :: (gmshEscaped k ++ '"' :: ['\n'])) .space [] false = .ok [k] := by
    rw [shlexGo, if_neg (by decide), if_neg (by decide), if_pos (Or.inl rfl), gmsh_escaped k, shlexGo, if_pos (by decide)]
    simp [shlexGo]
  unfold nameLine shlexSplit
  rw [shlex_int, shlex_int, e2]
  simp only [toInt_fmt]

example : nameLine "2 7 \"the \\\"big\\\" \\\\ one\"\n".toList = .ok ("the \"big\" \\ one", 7, 2) := by decide +kernel

end Meshio.Props
