/-
Writing Gmsh files of version 4.1.
-/
import Verif.Proofs.Gmsh41Read
import Verif.Proofs.Gmsh22W
import Verif.Spec.Gmsh41W
namespace Meshio.Gmsh41
open Meshio Types Tables Gmsh Spec

variable {F : Type}

/-! ### Pieces of text that give numbers -/

/-- The text `p` gives the numbers `ts`, whatever follows. -/
def Piece (io : GmshFloat F) (ascii : Bool) (k : Nat) (ts : List (Tok F)) (p : List Char) : Prop :=
  ∀ ts' s' rest, NumStream io ascii k ts' s' rest → NumStream io ascii k (ts ++ ts') (p ++ s') rest

theorem stream_ws (io : GmshFloat F) (k : Nat) (ts : List (Tok F)) (s rest : List Char) (c : Char) (hc : isWs c = true)
    (h : NumStream io true k ts s rest) : NumStream io true k ts (c :: s) rest := by
  cases ts with
  | nil =>
    obtain ⟨w, hw, rfl⟩ := h
    exact ⟨c :: w, by simpa [hc] using hw, rfl⟩
  | cons t ts =>
    rw [NumStream, if_pos rfl] at h ⊢
    obtain ⟨w, x, d, s', hw, hx, hd, rfl, h⟩ := h
    exact ⟨c :: w, x, d, s', by simpa [hc] using hw, hx, hd, rfl, h⟩

theorem piece_nil (io : GmshFloat F) (ascii : Bool) (k : Nat) : Piece io ascii k [] [] := fun _ _ _ h => h

theorem piece_append {io : GmshFloat F} {ascii : Bool} {k : Nat} {t1 t2 : List (Tok F)} {p1 p2 : List Char}
    (h1 : Piece io ascii k t1 p1) (h2 : Piece io ascii k t2 p2) : Piece io ascii k (t1 ++ t2) (p1 ++ p2) := by
  intro ts' s' rest h
  rw [List.append_assoc, List.append_assoc]
  exact h1 _ _ _ (h2 _ _ _ h)

theorem piece_flatMap {io : GmshFloat F} {ascii : Bool} {k : Nat} {α : Type} (l : List α) (f : α → List (Tok F)) (g : α → List Char)
    (h : ∀ a ∈ l, Piece io ascii k (f a) (g a)) : Piece io ascii k (l.flatMap f) (l.flatMap g) := by
  induction l with
  | nil => exact piece_nil _ _ _
  | cons a l ih =>
    rw [List.flatMap_cons, List.flatMap_cons]
    exact piece_append (h a (by simp)) (ih fun b hb => h b (by simp [hb]))

theorem piece_ws (io : GmshFloat F) (k : Nat) (c : Char) (hc : isWs c = true) : Piece io true k [] [c] :=
  fun _ _ _ h => stream_ws io k _ _ _ c hc h

theorem piece_tok (io : GmshFloat F) (k : Nat) (t : Tok F) (x : List Char) (c : Char) (ht : t.Text io x) (hc : isWs c = true) :
    Piece io true k [t] (x ++ [c]) := by
  intro ts' s' rest h
  rw [List.cons_append, List.nil_append, NumStream, if_pos rfl]
  exact ⟨[], x, c, s', by simp, ht, hc, by simp, stream_ws io k _ _ _ c hc h⟩

theorem piece_byte (io : GmshFloat F) (k : Nat) (t : Tok F) (ht : t.Fits k) : Piece io false k [t] (t.bytes io k) := by
  intro ts' s' rest h
  rw [List.cons_append, List.nil_append, NumStream, if_neg (by simp)]
  exact ⟨ht, s', rfl, h⟩

theorem piece_bytes (io : GmshFloat F) (k : Nat) (ts : List (Tok F)) (h : ∀ t ∈ ts, t.Fits k) :
    Piece io false k ts (ts.flatMap (Tok.bytes io k)) := by
  have := piece_flatMap (io := io) (ascii := false) (k := k) ts (fun t => [t]) (Tok.bytes io k) fun t ht => piece_byte io k t (h t ht)
  simpa using this

theorem piece_line (io : GmshFloat F) (k : Nat) (sep : Char) (hsep : isWs sep = true) (l : List (Tok F × List Char)) (h : ∀ a ∈ l, a.1.Text io a.2) :
    Piece io true k (l.map (·.1)) (joinWith sep (l.map (·.2)) ++ ['\n']) := by
  induction l with
  | nil => exact piece_ws io k '\n' (by decide)
  | cons a l ih =>
    have ih := ih fun b hb => h b (by simp [hb])
    cases l with
    | nil => exact piece_tok io k a.1 a.2 '\n' (h a (by simp)) (by decide)
    | cons b l =>
      have e : joinWith sep ((a :: b :: l).map (·.2)) ++ ['\n'] = (a.2 ++ [sep]) ++ (joinWith sep ((b :: l).map (·.2)) ++ ['\n']) := by
        simp [joinWith]
      rw [e]
      exact piece_append (piece_tok io k a.1 a.2 sep (h a (by simp)) hsep) ih

theorem text_int (io : GmshFloat F) (z : Int) : (Tok.int z : Tok F).Text io (fmtInt z) := ⟨isTok_fmtInt z, parseInt_fmtInt z⟩

theorem text_size (io : GmshFloat F) (n : Nat) : (Tok.size n : Tok F).Text io (fmtNat n) := ⟨isTok_fmtNat n, parseInt_fmtNat n⟩

theorem text_flt (io : GmshFloat F) (x : F) : (Tok.flt x : Tok F).Text io (io.fmt x) := ⟨io.tok x, io.parse_fmt x⟩

/-- A section from a piece. -/
theorem numSec_piece (io : GmshFloat F) (ascii : Bool) (k : Nat) (name : String) (ts : List (Tok F)) (p w : List Char)
    (hp : Piece io ascii k ts p) (hw : ∀ c ∈ w, isWs c = true) (rest : List Char) :
    NumSec io ascii k name ts ('$' :: name.toList ++ '\n' :: (p ++ (w ++ ("$End".toList ++ name.toList ++ '\n' :: rest)))) rest := by
  refine ⟨_, rfl, ?_⟩
  have := hp [] (w ++ ("$End".toList ++ name.toList ++ '\n' :: rest)) ("$End".toList ++ name.toList ++ '\n' :: rest) ⟨w, hw, rfl⟩
  rwa [List.append_nil] at this

theorem piece_text (io : GmshFloat F) (ascii : Bool) (k : Nat) (ts : List (Tok F)) (h : ascii = false → ∀ t ∈ ts, t.Fits k) :
    Piece io ascii k ts (ts.flatMap (Tok.text io ascii k)) := by
  cases ascii with
  | false =>
    exact piece_bytes io k ts (h rfl)
  | true =>
    have := piece_flatMap (io := io) (ascii := true) (k := k) ts (fun t => [t]) (Tok.text io true k) (by
      intro t _
      cases t with
      | int z => exact piece_tok io k _ _ ' ' (text_int io z) (by decide)
      | size n => exact piece_tok io k _ _ ' ' (text_size io n) (by decide)
      | flt x => exact piece_tok io k _ _ ' ' (text_flt io x) (by decide))
    simpa using this

theorem numSec_text (io : GmshFloat F) (ascii : Bool) (k : Nat) (name : String) (ts : List (Tok F))
    (h : ascii = false → ∀ t ∈ ts, t.Fits k) (rest : List Char) :
    NumSec io ascii k name ts (numSecText io ascii k name ts ++ rest) rest := by
  have := numSec_piece io ascii k name ts _ ['\n'] (piece_text io ascii k ts h) (by decide) rest
  unfold numSecText
  simpa using this

theorem secs_text (io : GmshFloat F) (ascii : Bool) (k : Nat) (l : List (Msh4Sec F)) (h : ascii = false → ∀ x ∈ l, ∀ t ∈ x.toks, t.Fits k)
    (rest : List Char) : msh4Says io ascii k l (l.flatMap (Msh4Sec.text io ascii k) ++ rest) rest := by
  induction l with
  | nil => rfl
  | cons x l ih =>
    refine ⟨l.flatMap (Msh4Sec.text io ascii k) ++ rest, ?_, ih fun ha y hy => h ha y (by simp [hy])⟩
    rw [List.flatMap_cons, List.append_assoc]
    cases x with
    | periodic p => exact numSec_text io ascii k "Periodic" (.size p.length :: p.flatMap msh4Link) (fun ha => h ha (.periodic p) (by simp)) _
    | names l => rfl
    | nodeData nums d => rfl
    | elemData nums d => rfl
    | other n ls => rfl

theorem says_of (io : GmshFloat F) (ascii : Bool) (k : Nat) (f : Msh4File F) (t1 t2 t3 t4 t5 t6 t7 : List Char)
    (h1 : ∀ rest, msh4Says io ascii k f.pre (t1 ++ rest) rest)
    (h2 : ∀ rest, match f.ents with
      | none => t2 ++ rest = rest
      | some l => NumSec io ascii k "Entities" (msh4Entities l) (t2 ++ rest) rest)
    (h3 : ∀ rest, msh4Says io ascii k f.mid0 (t3 ++ rest) rest) (h4 : ∀ rest, NumSec io ascii k "Nodes" f.nodeToks (t4 ++ rest) rest)
    (h5 : ∀ rest, msh4Says io ascii k f.mid (t5 ++ rest) rest) (h6 : ∀ rest, NumSec io ascii k "Elements" f.elemToks (t6 ++ rest) rest)
    (h7 : ∀ rest, msh4Says io ascii k f.post (t7 ++ rest) rest) :
    f.Says io ascii k (msh4Header ascii k ++ (t1 ++ (t2 ++ (t3 ++ (t4 ++ (t5 ++ (t6 ++ t7))))))) := by
  refine ⟨t1 ++ (t2 ++ (t3 ++ (t4 ++ (t5 ++ (t6 ++ t7))))), t2 ++ (t3 ++ (t4 ++ (t5 ++ (t6 ++ t7)))), t3 ++ (t4 ++ (t5 ++ (t6 ++ t7))),
    t4 ++ (t5 ++ (t6 ++ t7)), t5 ++ (t6 ++ t7), t6 ++ t7, t7, rfl, h1 _, ?_, h3 _, h4 _, h5 _, h6 _, ?_⟩
  · have := h2 (t3 ++ (t4 ++ (t5 ++ (t6 ++ t7))))
    cases he : f.ents with
    | none => rw [he] at this; exact this
    | some l => rw [he] at this; exact this
  · have := h7 []
    rwa [List.append_nil] at this

/-- Every description whose numbers fit has a text. -/
theorem text_says (io : GmshFloat F) (ascii : Bool) (k : Nat) (f : Msh4File F) (h : ascii = false → f.Fits k) :
    f.Says io ascii k (f.text io ascii k) := by
  have hs : ∀ l : List (Msh4Sec F), (∀ x ∈ l, x ∈ f.secs) → ascii = false → ∀ x ∈ l, ∀ t ∈ x.toks, t.Fits k :=
    fun l hl ha x hx => (h ha).2 x (hl x hx)
  unfold Msh4File.text
  refine says_of io ascii k f _ _ _ _ _ _ _ (secs_text io ascii k f.pre (hs _ fun x hx => by simp [Msh4File.secs, hx])) ?_
    (secs_text io ascii k f.mid0 (hs _ fun x hx => by simp [Msh4File.secs, hx]))
    (numSec_text io ascii k "Nodes" f.nodeToks (fun ha t ht => (h ha).1 t (by simp [ht])))
    (secs_text io ascii k f.mid (hs _ fun x hx => by simp [Msh4File.secs, hx]))
    (numSec_text io ascii k "Elements" f.elemToks (fun ha t ht => (h ha).1 t (by simp [ht])))
    (secs_text io ascii k f.post (hs _ fun x hx => by simp [Msh4File.secs, hx]))
  intro rest
  cases he : f.ents with
  | none => rfl
  | some l =>
    refine numSec_text io ascii k "Entities" _ (fun ha t ht => (h ha).1 t ?_) _
    simp only [List.mem_append, Msh4File.entToks, he]
    exact Or.inl (Or.inl ht)

/-! ### Entities -/

theorem mem_pinsert {x a : Int × Int} {l : List (Int × Int)} : a ∈ pinsert x l ↔ a = x ∨ a ∈ l := by
  induction l with
  | nil => simp [pinsert]
  | cons y l ih =>
    rw [pinsert]
    split
    · simp
    · split
      · next h => simp [h]
      · simp only [List.mem_cons, ih]
        constructor
        · rintro (h | h | h) <;> simp [h]
        · rintro (h | h | h) <;> simp [h]

theorem mem_pairUnique {a : Int × Int} {l : List (Int × Int)} : a ∈ pairUnique l ↔ a ∈ l := by
  induction l with
  | nil => simp [pairUnique]
  | cons y l ih =>
    rw [show pairUnique (y :: l) = pinsert y (pairUnique l) from rfl, mem_pinsert, ih, List.mem_cons]

theorem entLt_iff (a b : Int × Int) : pairLt a b = true ↔ EntLt a b := by
  unfold pairLt EntLt
  rw [decide_eq_true_iff]

theorem entLt_trans {a b c : Int × Int} (h1 : EntLt a b) (h2 : EntLt b c) : EntLt a c := by
  unfold EntLt at *
  omega

theorem entLt_total {a b : Int × Int} (h1 : ¬ EntLt a b) (h2 : a ≠ b) : EntLt b a := by
  obtain ⟨a1, a2⟩ := a
  obtain ⟨b1, b2⟩ := b
  unfold EntLt at *
  simp only [ne_eq, Prod.mk.injEq, not_and] at h2
  simp only at h1 ⊢
  omega

theorem pinsert_sorted {x : Int × Int} {l : List (Int × Int)} (h : l.Pairwise EntLt) : (pinsert x l).Pairwise EntLt := by
  induction l with
  | nil => simp [pinsert]
  | cons y l ih =>
    rw [List.pairwise_cons] at h
    rw [pinsert]
    split
    · next hlt =>
      rw [entLt_iff] at hlt
      rw [List.pairwise_cons, List.pairwise_cons]
      refine ⟨?_, h⟩
      intro a ha
      rcases List.mem_cons.1 ha with rfl | ha
      · exact hlt
      · exact entLt_trans hlt (h.1 a ha)
    · next hlt =>
      rw [entLt_iff] at hlt
      split
      · rw [List.pairwise_cons]; exact h
      · next hne =>
        rw [List.pairwise_cons]
        refine ⟨?_, ih h.2⟩
        intro a ha
        rcases mem_pinsert.1 ha with rfl | ha
        · exact entLt_total hlt hne
        · exact h.1 a ha

theorem pairUnique_sorted (l : List (Int × Int)) : (pairUnique l).Pairwise EntLt := by
  induction l with
  | nil => exact List.Pairwise.nil
  | cons y l ih => exact pinsert_sorted ih

theorem pairUnique_nodup (l : List (Int × Int)) : (pairUnique l).Nodup := by
  refine (pairUnique_sorted l).imp ?_
  rintro a b h rfl
  unfold EntLt at h
  omega

theorem filter_split {α : Type} (key : α → Nat) (l : List α) (h : l.Pairwise fun a b => key a ≤ key b) (d : Nat) :
    (l.filter fun a => decide (key a < d + 1)) = (l.filter fun a => decide (key a < d)) ++ l.filter fun a => decide (key a = d) := by
  induction l with
  | nil => rfl
  | cons a l ih =>
    rw [List.pairwise_cons] at h
    have ih := ih h.2
    by_cases h1 : key a < d
    · rw [List.filter_cons_of_pos (by simp; omega), List.filter_cons_of_pos (by simpa using h1), List.filter_cons_of_neg (by simp; omega), ih]
      rfl
    · have h0 : (l.filter fun a => decide (key a < d)) = [] := by
        rw [List.filter_eq_nil_iff]
        intro b hb
        have := h.1 b hb
        simp
        omega
      rw [h0, List.nil_append] at ih
      have h0' : ((a :: l).filter fun a => decide (key a < d)) = [] := by
        rw [List.filter_cons_of_neg (by simpa using h1)]
        exact h0
      rw [h0', List.nil_append]
      by_cases h2 : key a = d
      · rw [List.filter_cons_of_pos (by simp; omega), List.filter_cons_of_pos (by simpa using h2), ih]
      · rw [List.filter_cons_of_neg (by simp; omega), List.filter_cons_of_neg (by simpa using h2), ih]

theorem split_dims {α : Type} (key : α → Nat) (l : List α) (h : l.Pairwise fun a b => key a ≤ key b) (hl : ∀ a ∈ l, key a ≤ 3) :
    l = [0, 1, 2, 3].flatMap fun d => l.filter fun a => decide (key a = d) := by
  have e : l = l.filter fun a => decide (key a < 3 + 1) := by
    symm
    rw [List.filter_eq_self]
    intro a ha
    have := hl a ha
    simp
    omega
  have z : (l.filter fun a => decide (key a < 0)) = [] := by simp
  conv => lhs; rw [e, filter_split key l h 3, filter_split key l h 2, filter_split key l h 1, filter_split key l h 0, z]
  simp

theorem piece_floats0 (io : GmshFloat F) (hz : io.parse ['0'] = some io.zero) (k n : Nat) :
    Piece io true k ((List.replicate n io.zero).map Tok.flt) ((List.replicate n ()).flatMap fun _ => "0 ".toList) := by
  have e : (List.replicate n ()).flatMap (fun _ => [Tok.flt io.zero]) = (List.replicate n io.zero).map Tok.flt := by
    induction n with
    | zero => rfl
    | succ n ih => rw [List.replicate_succ, List.flatMap_cons, List.replicate_succ, List.map_cons, ← ih]; rfl
  have := piece_flatMap (io := io) (ascii := true) (k := k) (List.replicate n ()) (fun _ => [Tok.flt io.zero]) (fun _ => "0 ".toList)
    fun _ _ => piece_tok io k _ ['0'] ' ' ⟨⟨by decide, by decide⟩, hz⟩ (by decide)
  rw [e] at this
  exact this

theorem piece_ints (io : GmshFloat F) (k : Nat) (l : List Int) : Piece io true k (l.map Tok.int) (l.flatMap fun b => fmtInt b ++ [' ']) := by
  have := piece_flatMap (io := io) (ascii := true) (k := k) l (fun z => [Tok.int z]) (fun b => fmtInt b ++ [' '])
    fun z _ => piece_tok io k _ _ ' ' (text_int io z) (by decide)
  rw [← List.map_eq_flatMap] at this
  exact this

theorem entity_piece (io : GmshFloat F) (hz : io.parse ['0'] = some io.zero) (binary : Bool) (e : Int × Int) (h0 : 0 ≤ e.1)
    (ht : IsInt 4 e.2) (phys : Option Int) (hp : ∀ p ∈ phys, IsInt 4 p) (bounds : List Int) (hb : bounds.length < 2 ^ 31) (hb' : ∀ z ∈ bounds, IsInt 4 z) :
    Piece io (!binary) 8 (Msh4Entity.toks (F := F) ⟨e.1.toNat, e.2, List.replicate (if e.1 = 0 then 3 else 6) io.zero, phys.toList,
      if e.1 = 0 then [] else bounds⟩) (entityText io binary e.1 e.2 phys bounds) := by
  have hcond : e.1.toNat = 0 ↔ e.1 = 0 := by omega
  unfold Msh4Entity.toks
  simp only [hcond]
  cases binary with
  | true =>
    have : entityText io true e.1 e.2 phys bounds = List.flatMap (Tok.bytes io 8) ([.int e.2] ++ (List.replicate (if e.1 = 0 then 3 else 6) io.zero).map .flt ++
        [.size phys.toList.length] ++ phys.toList.map .int ++
        (if e.1 = 0 then [] else [.size (if e.1 = 0 then [] else bounds).length] ++ (if e.1 = 0 then [] else bounds).map .int)) := by
      unfold entityText
      simp only [if_true]
      rw [List.flatMap_append, List.flatMap_append, List.flatMap_append, List.flatMap_append, List.append_assoc ([Tok.int e.2].flatMap _ ++ _)]
      congr 1
      · congr 1
        · congr 1
          by_cases h : e.1 = 0 <;> simp [h, Tok.bytes, List.replicate]
        · cases phys with
          | none => simp [Tok.bytes, putSize]
          | some p => simp [Tok.bytes, putSize]
      · by_cases h : e.1 = 0
        · have h' : ¬ 0 < e.1 := by omega
          rw [if_neg h', if_pos h]; rfl
        · have h' : 0 < e.1 := by omega
          rw [if_pos h', if_neg h, if_neg h]
          by_cases hb0 : bounds = []
          · rw [if_pos hb0, hb0]; simp [Tok.bytes, putSize]
          · rw [if_neg hb0]
            simp [Tok.bytes, putSize, putInts, List.flatMap_map]
    rw [this]
    apply piece_bytes
    have h8 : (2 : Nat) ^ 31 ≤ 256 ^ 8 := by decide
    intro t htm
    simp only [List.mem_append, List.mem_cons, List.not_mem_nil, or_false, List.mem_map] at htm
    rcases htm with (((rfl | ⟨x, -, rfl⟩) | rfl) | ⟨p, hpp, rfl⟩) | htm
    · exact ht
    · trivial
    · show phys.toList.length < 256 ^ 8
      have : phys.toList.length ≤ 1 := by cases phys <;> simp
      omega
    · exact hp p (by simpa using hpp)
    · split at htm
      · simp at htm
      · simp only [List.mem_append, List.mem_cons, List.not_mem_nil, or_false, List.mem_map] at htm
        rcases htm with rfl | ⟨z, hz, rfl⟩
        · show bounds.length < 256 ^ 8
          omega
        · exact hb' z hz
  | false =>
    unfold entityText
    simp only [Bool.false_eq_true, if_false, Bool.not_false]
    have p1 := piece_tok io 8 (.int e.2) _ ' ' (text_int io e.2) (by decide)
    have p2 : Piece io true 8 ((List.replicate (if e.1 = 0 then 3 else 6) io.zero).map .flt)
        (if e.1 = 0 then "0 0 0 ".toList else "0 0 0 0 0 0 ".toList) := by
      split
      · exact piece_floats0 io hz 8 3
      · exact piece_floats0 io hz 8 6
    have p3 : Piece io true 8 ([.size phys.toList.length] ++ phys.toList.map .int) (match (generalizing := false) phys with
        | some p => "1 ".toList ++ fmtInt p ++ [' ']
        | none => "0 ".toList) := by
      cases phys with
      | none => exact piece_tok io 8 (.size 0) ['0'] ' ' (text_size io 0) (by decide)
      | some p =>
        have := piece_append (piece_tok io 8 (.size 1) ['1'] ' ' (text_size io 1) (by decide)) (piece_tok io 8 (.int p) _ ' ' (text_int io p) (by decide))
        simpa using this
    have p4 : Piece io true 8 (if e.1 = 0 then [] else [.size (if e.1 = 0 then [] else bounds).length] ++ (if e.1 = 0 then [] else bounds).map .int)
        (if 0 < e.1 then if bounds = [] then "0\n".toList else fmtNat bounds.length ++ [' '] ++ bounds.flatMap (fun b => fmtInt b ++ [' ']) ++ ['\n']
          else ['\n']) := by
      by_cases h : e.1 = 0
      · have h' : ¬ 0 < e.1 := by omega
        rw [if_neg h', if_pos h]
        exact piece_ws io 8 '\n' (by decide)
      · have h' : 0 < e.1 := by omega
        rw [if_pos h', if_neg h, if_neg h]
        split
        · next hb0 =>
          rw [hb0]
          exact piece_tok io 8 (.size 0) ['0'] '\n' (text_size io 0) (by decide)
        · have := piece_append (piece_append (piece_tok io 8 (.size bounds.length) _ ' ' (text_size io _) (by decide)) (piece_ints io 8 bounds))
            (piece_ws io 8 '\n' (by decide))
          simpa using this
    have := piece_append (piece_append (piece_append p1 p2) p3) p4
    rw [← List.append_assoc] at this
    exact this

theorem firstTag_ok (m : In F) (l : List (List Int)) (hl : Msh4Tags m l) (hc : ∀ b ∈ m.cells, b.2 ≠ [])
    (bi : (String × List (List Int)) × Nat) (h : bi ∈ m.cells.zipIdx) : firstTag (some l) bi.2 = .ok (msh4Tag (some l) bi.2) := by
  have hlt : bi.2 < m.cells.length := by simpa using List.snd_lt_of_mem_zipIdx h
  have hlen : bi.2 < l.length := by
    have := congrArg List.length hl.1
    simp only [List.length_map] at this
    omega
  have hget : m.cells[bi.2]? = some bi.1 := by
    have := List.mem_zipIdx_iff_getElem?.1 h
    simpa using this
  have hb := hc bi.1 (List.fst_mem_of_mem_zipIdx h)
  have hne : l[bi.2] ≠ [] := by
    intro h0
    have := congrArg (fun x => x[bi.2]?) hl.1
    simp only [List.getElem?_map, hget, List.getElem?_eq_getElem hlen, h0] at this
    simp only [Option.map_some, List.length_nil, Option.some.injEq] at this
    exact hb (List.length_eq_zero_iff.1 this.symm)
  unfold firstTag msh4Tag
  simp only
  rw [Option.getD_some, List.getD_eq_getElem?_getD, List.getElem?_eq_getElem hlen, Option.getD_some]
  simp only
  cases hx : l[bi.2] with
  | nil => exact absurd hx hne
  | cons t r => rfl

theorem msh4Tag_int (m : In F) (l : List (List Int)) (hl : Msh4Tags m l) (i : Nat) : IsInt 4 (msh4Tag (some l) i) := by
  unfold msh4Tag
  rw [Option.getD_some, List.getD_eq_getElem?_getD]
  cases h : l[i]? with
  | none => exact (by decide : IsInt 4 0)
  | some x =>
    cases x with
    | nil => exact (by decide : IsInt 4 0)
    | cons t r => exact (hl.2 _ (List.mem_of_getElem? h) t (by simp)).1

theorem zipIdx_map_zipIdx {α β : Type} (l : List α) (f : α × Nat → β) : (l.zipIdx.map f).zipIdx = l.zipIdx.map fun x => (f x, x.2) := by
  apply List.ext_getElem
  · simp
  · intro i h1 h2
    simp

theorem matching_eq (m : In F) (e : Int × Int) : matching (m.cells.zipIdx.map (msh4Owner m)) e = (msh4Blocks m e).map (·.2) := by
  unfold matching msh4Blocks
  rw [zipIdx_map_zipIdx, List.filter_map, List.map_map]
  rfl

theorem filter_nodup_le {α β : Type} [DecidableEq β] (f : α → β) (l : List α) (h : (l.map f).Nodup) (e : β) :
    (l.filter fun a => decide (f a = e)).length ≤ 1 := by
  induction l with
  | nil => simp
  | cons a l ih =>
    rw [List.map_cons, List.nodup_cons] at h
    by_cases ha : f a = e
    · rw [List.filter_cons_of_pos (by simpa using ha)]
      have : (l.filter fun a => decide (f a = e)) = [] := by
        rw [List.filter_eq_nil_iff]
        intro b hb hbe
        rw [decide_eq_true_iff] at hbe
        exact h.1 (List.mem_map.2 ⟨b, hb, hbe.trans ha.symm⟩)
      rw [this]
      simp
    · rw [List.filter_cons_of_neg (by simpa using ha)]
      exact ih h.2

theorem cellDimTags_ok (lim : Nat) (m : In F) (h : Msh4In lim m) (hg : m.geometrical.isSome) :
    cellDimTags m = .ok (m.cells.zipIdx.map (msh4Owner m)) := by
  obtain ⟨l, hl⟩ := Option.isSome_iff_exists.1 hg
  unfold cellDimTags
  apply mapRes_ok_of_forall
  intro bi hbi
  unfold msh4Owner
  rw [hl, firstTag_ok m l (h.tags l (Or.inl hl)) (fun b hb => (h.cells b hb).1) bi hbi]

theorem writeEntity_ok (io : GmshFloat F) (hz : io.parse ['0'] = some io.zero) (binary : Bool) (m : In F) (h : Msh4In io.lim m)
    (dt : List (Int × Int)) (hdt : m.dimTags = some dt) (e : Int × Int) (he : e ∈ dt) :
    ∃ t, writeEntity io binary m (m.cells.zipIdx.map (msh4Owner m)) e = .ok t ∧
      Piece io (!binary) 8 (msh4Entity io.zero m e).toks t := by
  obtain ⟨-, h2, -, h4, h5, -⟩ := h.ents dt hdt
  obtain ⟨e0, e3, ei⟩ := h2 e he
  obtain ⟨lp, hlp⟩ := Option.isSome_iff_exists.1 h4
  have hle := filter_nodup_le (msh4Owner m) m.cells.zipIdx h5 e
  have hb : ∀ bi ∈ msh4Blocks m e, bi ∈ m.cells.zipIdx ∧ msh4Owner m bi = e := by
    intro bi hbi
    have := List.mem_filter.1 hbi
    exact ⟨this.1, by simpa using this.2⟩
  unfold writeEntity
  rw [matching_eq]
  rw [if_neg (by simpa [msh4Blocks] using hle)]
  change (msh4Blocks m e).length ≤ 1 at hle
  cases hB : msh4Blocks m e with
  | nil =>
    refine ⟨_, rfl, ?_⟩
    have := entity_piece io hz binary e e0 ei none (by simp) [] (by decide) (by simp)
    unfold msh4Entity
    rw [hB]
    exact this
  | cons bi r =>
    have hr : r = [] := by
      rw [hB] at hle
      exact List.length_eq_zero_iff.1 (by simpa using hle)
    subst hr
    obtain ⟨hm, ho⟩ := hb bi (by rw [hB]; simp)
    have hp : firstTag m.physical bi.2 = .ok (msh4Tag m.physical bi.2) := by
      rw [hlp]
      exact firstTag_ok m lp (h.tags lp (Or.inr hlp)) (fun b hb => (h.cells b hb).1) bi hm
    have hpi : IsInt 4 (msh4Tag m.physical bi.2) := by
      rw [hlp]
      exact msh4Tag_int m lp (h.tags lp (Or.inr hlp)) _
    simp only [List.map_cons, List.map_nil, List.head?_cons]
    rw [hp]
    simp only
    by_cases hpos : 0 < e.1
    · rw [if_pos hpos]
      have hd : 0 < dimOf bi.1.1 := by
        have := congrArg Prod.fst ho
        unfold msh4Owner at this
        simp only at this
        omega
      have hbd : boundsOf m (some bi.2) = .ok (msh4Bounds m bi.2) ∧ (msh4Bounds m bi.2).length < 2 ^ 31 ∧ ∀ z ∈ msh4Bounds m bi.2, IsInt 4 z := by
        unfold boundsOf msh4Bounds
        cases hbo : m.bounding with
        | none => exact ⟨rfl, by simp, by simp⟩
        | some l =>
          obtain ⟨-, hbl⟩ := h.bounds l (by rw [hdt]; rfl) hbo
          obtain ⟨b, hb1, hb2⟩ := hbl bi hm hd
          simp only [Option.bind_some]
          rw [hb1]
          exact ⟨rfl, hb2⟩
      rw [hbd.1]
      refine ⟨_, rfl, ?_⟩
      have := entity_piece io hz binary e e0 ei (some (msh4Tag m.physical bi.2)) (by simpa using hpi) (msh4Bounds m bi.2) hbd.2.1 hbd.2.2
      unfold msh4Entity
      rw [hB]
      simpa using this
    · rw [if_neg hpos]
      refine ⟨_, rfl, ?_⟩
      have hz0 : e.1 = 0 := by omega
      have := entity_piece io hz binary e e0 ei (some (msh4Tag m.physical bi.2)) (by simpa using hpi) [] (by decide) (by simp)
      unfold msh4Entity
      rw [hB]
      simpa [hz0] using this

theorem mapRes_pieces {io : GmshFloat F} {ascii : Bool} {k : Nat} {α : Type} (g : α → Res (List Char)) (toks : α → List (Tok F)) (l : List α)
    (h : ∀ a ∈ l, ∃ t, g a = .ok t ∧ Piece io ascii k (toks a) t) :
    ∃ ts, mapRes g l = .ok ts ∧ Piece io ascii k (l.flatMap toks) ts.flatten := by
  induction l with
  | nil => exact ⟨[], rfl, piece_nil _ _ _⟩
  | cons a l ih =>
    obtain ⟨t, h1, h2⟩ := h a (by simp)
    obtain ⟨ts, h3, h4⟩ := ih fun b hb => h b (by simp [hb])
    refine ⟨t :: ts, ?_, ?_⟩
    · rw [mapRes, h1]
      simp only
      rw [h3]
    · rw [List.flatMap_cons, List.flatten_cons]
      exact piece_append h2 h4

theorem piece_sizes_line (io : GmshFloat F) (binary : Bool) (l : List Nat) (hl : ∀ n ∈ l, n < 2 ^ 32) :
    Piece io (!binary) 8 (l.map Tok.size) (if binary then l.flatMap putSize else linesText [joinWith ' ' (l.map fmtNat)]) := by
  cases binary with
  | true =>
    have := piece_bytes io 8 (l.map Tok.size) (by
      intro t ht
      obtain ⟨n, hn, rfl⟩ := List.mem_map.1 ht
      have := hl n hn
      show n < 256 ^ 8
      have h8 : (2 : Nat) ^ 32 ≤ 256 ^ 8 := by decide
      omega)
    rw [List.flatMap_map] at this
    exact this
  | false =>
    have := piece_line io 8 ' ' (by decide) (l.map fun n => (Tok.size n, fmtNat n)) (by
      intro a ha
      obtain ⟨n, -, rfl⟩ := List.mem_map.1 ha
      exact text_size io n)
    rw [List.map_map, List.map_map] at this
    have e : linesText [joinWith ' ' (l.map fmtNat)] = joinWith ' ' (l.map fmtNat) ++ ['\n'] := by simp [linesText]
    simp only [Bool.false_eq_true, if_false, Bool.not_false]
    rw [e]
    exact this

/-- A written section. -/
theorem numSec_written (io : GmshFloat F) (binary : Bool) (name : String) (ts : List (Tok F)) (p : List Char)
    (hp : Piece io (!binary) 8 ts p) (rest : List Char) :
    NumSec io (!binary) 8 name ts (linesText ['$' :: name.toList] ++ p ++ (if binary then ['\n'] else []) ++ linesText ["$End".toList ++ name.toList] ++ rest) rest := by
  have := numSec_piece io (!binary) 8 name ts p (if binary then ['\n'] else []) hp (by cases binary <;> decide) rest
  simpa [linesText] using this

theorem filter_length_lt {α : Type} (l : List α) (p : α → Bool) (n : Nat) (h : l.length < n) : (l.filter p).length < n :=
  Nat.lt_of_le_of_lt (List.length_filter_le _ _) h

theorem length_pairUnique (l : List (Int × Int)) : (pairUnique l).length ≤ l.length := by
  have key : ∀ x (u : List (Int × Int)), (pinsert x u).length ≤ u.length + 1 := by
    intro x u
    induction u with
    | nil => simp [pinsert]
    | cons y u ih =>
      rw [pinsert]
      split
      · simp
      · split
        · simp
        · simp only [List.length_cons]; omega
  induction l with
  | nil => simp [pairUnique]
  | cons y l ih =>
    have := key y (pairUnique l)
    rw [show pairUnique (y :: l) = pinsert y (pairUnique l) from rfl, List.length_cons]
    omega

theorem writeEntities_ok (io : GmshFloat F) (hz : io.parse ['0'] = some io.zero) (binary : Bool) (m : In F) (h : Msh4In io.lim m)
    (names : List (Int × Int × List Char)) : ∃ t, writeEntities io binary m = .ok t ∧ ∀ rest, match (msh4File io.zero m names).ents with
      | none => t ++ rest = rest
      | some l => NumSec io (!binary) 8 "Entities" (msh4Entities l) (t ++ rest) rest := by
  unfold writeEntities
  cases hdt : m.dimTags with
  | none =>
    refine ⟨[], rfl, ?_⟩
    intro rest
    unfold msh4File
    simp only [hdt, Option.map_none]
    rfl
  | some dt =>
    obtain ⟨h1, h2, h3, h4, h5, h6⟩ := h.ents dt hdt
    simp only
    rw [if_neg]
    · rw [cellDimTags_ok io.lim m h h3]
      simp only
      obtain ⟨ts, ht1, ht2⟩ := mapRes_pieces (io := io) (ascii := !binary) (k := 8) _ (fun e => (msh4Entity io.zero m e).toks) (pairUnique dt)
        fun e he => writeEntity_ok io hz binary m h dt hdt e (mem_pairUnique.1 he)
      rw [ht1]
      refine ⟨_, rfl, ?_⟩
      intro rest
      unfold msh4File
      simp only [hdt, Option.map_some]
      have hn : ((List.range 4).map fun (d : Nat) => ((pairUnique dt).filter fun e => decide (e.1 = (d : Int))).length) =
          [0, 1, 2, 3].map fun d => (((pairUnique dt).map (msh4Entity io.zero m)).filter fun e => decide (e.dim = d)).length := by
        rw [show List.range 4 = [0, 1, 2, 3] from rfl]
        apply List.map_congr_left
        intro d _
        rw [List.filter_map, List.length_map]
        congr 1
        apply List.filter_congr
        intro e he
        obtain ⟨e0, -, -⟩ := h2 e (mem_pairUnique.1 he)
        simp only [Function.comp_apply]
        rw [show (msh4Entity io.zero m e).dim = e.1.toNat from rfl]
        by_cases hd : e.1 = (d : Int)
        · rw [decide_eq_true hd, decide_eq_true (by omega)]
        · rw [decide_eq_false hd, decide_eq_false (by omega)]
      have hsort : ((pairUnique dt).map (msh4Entity io.zero m)).Pairwise fun a b => a.dim ≤ b.dim := by
        rw [List.pairwise_map]
        refine (pairUnique_sorted dt).imp ?_
        intro a b hab
        show a.1.toNat ≤ b.1.toNat
        unfold EntLt at hab
        omega
      have hdim : ∀ a ∈ (pairUnique dt).map (msh4Entity io.zero m), a.dim ≤ 3 := by
        intro a ha
        obtain ⟨e, he, rfl⟩ := List.mem_map.1 ha
        obtain ⟨e0, e3, -⟩ := h2 e (mem_pairUnique.1 he)
        show e.1.toNat ≤ 3
        omega
      have htoks : msh4Entities ((pairUnique dt).map (msh4Entity io.zero m)) =
          (((List.range 4).map fun (d : Nat) => ((pairUnique dt).filter fun e => decide (e.1 = (d : Int))).length).map Tok.size) ++
            (pairUnique dt).flatMap fun e => (msh4Entity io.zero m e).toks := by
        unfold msh4Entities
        rw [hn, List.map_map]
        congr 1
        have := congrArg (List.flatMap Msh4Entity.toks) (split_dims Msh4Entity.dim _ hsort hdim)
        rw [List.flatMap_assoc, List.flatMap_map] at this
        exact this.symm
      rw [htoks]
      have hp := piece_append (piece_sizes_line io binary ((List.range 4).map fun (d : Nat) => ((pairUnique dt).filter fun e => decide (e.1 = (d : Int))).length) (by
        intro n hn
        obtain ⟨d, -, rfl⟩ := List.mem_map.1 hn
        apply filter_length_lt
        have := length_pairUnique dt
        have := h.size.2.2.1
        omega)) ht2
      have := numSec_written io binary "Entities" _ _ hp rest
      simp only [List.append_assoc] at this ⊢
      exact this
    · rw [List.any_eq_true]
      rintro ⟨e, he, hc⟩
      obtain ⟨e0, e3, -⟩ := h2 e (mem_pairUnique.1 he)
      rw [decide_eq_true_iff] at hc
      omega

end Meshio.Gmsh41
