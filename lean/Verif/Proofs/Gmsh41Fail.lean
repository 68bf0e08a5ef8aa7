/-
Gmsh files of version 4.1 that are refused.
-/
import Verif.Proofs.Gmsh41Read
import Verif.Spec.Gmsh41W
namespace Meshio.Gmsh41
open Meshio Types Tables Gmsh Spec

variable {F : Type}

theorem reads_fail (io : GmshFloat F) (ascii : Bool) (k : Nat) (st : St F) (name s : List Char) (e : Err) (hn : IsTok name)
    (h : readSection io ascii k st name s = .error e) : Reads io ascii k st ('$' :: name ++ '\n' :: s) (.error e) := by
  intro n hlt
  cases n with
  | zero => omega
  | succ n =>
    have ht : IsTok ('$' :: name) := isTok_cons (by decide) hn
    rw [readLoop, nextLine_line _ _ (tok_no_nl ht) (by rw [strip_tok ht]; exact ht.1)]
    simp only [List.cons_append, List.head?_cons, List.drop_succ_cons, List.drop_zero]
    rw [if_neg (by simp), strip_tok hn, h]

theorem read_of (io : GmshFloat F) (ascii : Bool) (k : Nat) (hk : k = 1 ∨ k = 2 ∨ k = 4 ∨ k = 8) (s : List Char) (r : Res (St F))
    (h : Reads io ascii k ({} : St F) s r) :
    Gmsh41.read io (msh4Header ascii k ++ s) = match (generalizing := false) r with
      | .error e => .error e
      | .ok st => finish st := by
  unfold Gmsh41.read
  rw [start_header ascii k hk s]
  simp only
  unfold readBuffer
  rw [h (s.length + 1) (by omega)]
  cases r <;> rfl

/-- What is known when the elements are reached. -/
theorem reads_prefix (io : GmshFloat F) (ascii : Bool) (k : Nat) (f : Msh4File F) (hf : f.Ok io.lim ascii k) (s1 s2 s3 s4 s5 s6 : List Char)
    (p1 : msh4Says io ascii k f.pre s1 s2)
    (p2 : match f.ents with
      | none => s2 = s3
      | some l => NumSec io ascii k "Entities" (msh4Entities l) s2 s3)
    (p3 : msh4Says io ascii k f.mid0 s3 s4)
    (p4 : NumSec io ascii k "Nodes" f.nodeToks s4 s5)
    (p5 : msh4Says io ascii k f.mid s5 s6) :
    ∃ C : St F, C.nodes = some ⟨f.ids.map Int.ofNat, f.points, f.mesh.dimTags⟩ ∧ C.ents = f.ents.map sortEnts ∧ C.cells = none ∧
      ∀ r, Reads io ascii k C s6 r → Reads io ascii k ({} : St F) s1 r := by
  have hk := hf.size
  have hsec : ∀ x ∈ f.secs, x.Ok io.lim ascii f.points.length f.numElems := hf.secs
  obtain ⟨a1, a2, a3, -⟩ := addSec_fields f.pre ({} : St F)
  generalize hA : f.pre.foldl addSec ({} : St F) = A at *
  obtain ⟨b1, b2, b3, -⟩ := addSec_fields f.mid0 { A with ents := f.ents.map sortEnts }
  generalize hB : f.mid0.foldl addSec { A with ents := f.ents.map sortEnts } = B at *
  obtain ⟨c1, c2, c3, -⟩ := addSec_fields f.mid { B with nodes := some ⟨f.ids.map Int.ofNat, f.points, f.mesh.dimTags⟩ }
  generalize hC : f.mid.foldl addSec { B with nodes := some ⟨f.ids.map Int.ofNat, f.points, f.mesh.dimTags⟩ } = C at *
  simp only at b1 b2 b3 c1 c2 c3
  refine ⟨C, c1, by rw [c2, b2], by rw [c3, b3, a3], ?_⟩
  intro r hr
  apply reads_secs io ascii k hk _ _ f.pre (fun x hx => hsec x (by simp [Msh4File.secs, hx])) _ s1 s2 p1
  rw [hA]
  have hent : ∀ r, Reads io ascii k { A with ents := f.ents.map sortEnts } s3 r → Reads io ascii k A s2 r := by
    intro r hr
    cases hE : f.ents with
    | none =>
      rw [hE] at p2 hr
      have : s2 = s3 := p2
      rw [this]
      have hA' : A = { A with ents := none } := by
        have : A.ents = none := a2
        cases A
        simp only at this
        subst this
        rfl
      rw [hA']
      exact hr
    | some l =>
      rw [hE] at p2 hr
      refine reads_numSec io ascii k A _ "Entities" _ s2 s3 r tok_entities p2 ?_ hr
      intro b hb
      rw [readSection, if_neg (by decide), if_pos rfl, readEntities_stream io ascii k hk l (hf.ents l hE).1 b s3 hb]
      rfl
  apply hent
  apply reads_secs io ascii k hk _ _ f.mid0 (fun x hx => hsec x (by simp [Msh4File.secs, hx])) _ s3 s4 p3
  rw [hB]
  refine reads_numSec io ascii k B { B with nodes := some ⟨f.ids.map Int.ofNat, f.points, f.mesh.dimTags⟩ } "Nodes" _ s4 s5 _ Gmsh22.tok_nodes p4 ?_ ?_
  · intro b hb
    rw [readSection, if_neg (by decide), if_neg (by decide), if_pos rfl, readNodes_stream io ascii k hk f hf.nodes.2.2.2 b s5 hb]
  apply reads_secs io ascii k hk _ _ f.mid (fun x hx => hsec x (by simp [Msh4File.secs, hx])) _ s5 s6 p5
  rw [hC]
  exact hr

theorem readElemBlocks_fail (ascii : Bool) (k : Nat) (ents : Option (List Entity)) (n m : Nat) (s s1 : List Char) (l : List ElemBlock) (e : Err)
    (h1 : readElemBlocks ascii k ents n s = .ok (l, s1)) (h2 : readElemBlock ascii k ents s1 = .error e) (hm : n < m) :
    readElemBlocks ascii k ents m s = .error e := by
  induction n generalizing m s l with
  | zero =>
    rw [readElemBlocks] at h1
    injection h1 with h1
    injection h1 with _ h1
    subst h1
    obtain ⟨m, rfl⟩ : ∃ m', m = m' + 1 := ⟨m - 1, by omega⟩
    rw [readElemBlocks, h2]
  | succ n ih =>
    obtain ⟨m, rfl⟩ : ∃ m', m = m' + 1 := ⟨m - 1, by omega⟩
    rw [readElemBlocks] at h1 ⊢
    cases hb : readElemBlock ascii k ents s with
    | error e' => rw [hb] at h1; cases h1
    | ok x =>
      obtain ⟨b, s'⟩ := x
      rw [hb] at h1
      simp only at h1 ⊢
      cases hr : readElemBlocks ascii k ents n s' with
      | error e' => rw [hr] at h1; cases h1
      | ok y =>
        obtain ⟨l', s''⟩ := y
        rw [hr] at h1
        simp only at h1
        injection h1 with h1
        injection h1 with _ h1
        subst h1
        rw [ih m s' l' hr (by omega)]

theorem readNodeBlocks_fail (io : GmshFloat F) (ascii : Bool) (k : Nat) (n m : Nat) (s s1 : List Char) (l : Nodes F) (e : Err)
    (h1 : readNodeBlocks io ascii k n s = .ok (l, s1)) (h2 : readNodeBlock io ascii k s1 = .error e) (hm : n < m) :
    readNodeBlocks io ascii k m s = .error e := by
  induction n generalizing m s l with
  | zero =>
    rw [readNodeBlocks] at h1
    injection h1 with h1
    injection h1 with _ h1
    subst h1
    obtain ⟨m, rfl⟩ : ∃ m', m = m' + 1 := ⟨m - 1, by omega⟩
    rw [readNodeBlocks, h2]
  | succ n ih =>
    obtain ⟨m, rfl⟩ : ∃ m', m = m' + 1 := ⟨m - 1, by omega⟩
    rw [readNodeBlocks] at h1 ⊢
    cases hb : readNodeBlock io ascii k s with
    | error e' => rw [hb] at h1; cases h1
    | ok x =>
      obtain ⟨b, s'⟩ := x
      rw [hb] at h1
      simp only at h1 ⊢
      cases hr : readNodeBlocks io ascii k n s' with
      | error e' => rw [hr] at h1; cases h1
      | ok y =>
        obtain ⟨l', s''⟩ := y
        rw [hr] at h1
        simp only at h1
        injection h1 with h1
        injection h1 with _ h1
        subst h1
        rw [ih m s' l' hr (by omega)]

/-- An element block that is refused. -/
theorem read_bad_block (io : GmshFloat F) (ascii : Bool) (k : Nat) (f : Msh4File F) (hf : f.Ok io.lim ascii k) (s1 s2 s3 s4 s5 s6 b rest : List Char)
    (p1 : msh4Says io ascii k f.pre s1 s2)
    (p2 : match f.ents with
      | none => s2 = s3
      | some l => NumSec io ascii k "Entities" (msh4Entities l) s2 s3)
    (p3 : msh4Says io ascii k f.mid0 s3 s4) (p4 : NumSec io ascii k "Nodes" f.nodeToks s4 s5)
    (p5 : msh4Says io ascii k f.mid s5 s6) (h6 : s6 = '$' :: "Elements".toList ++ '\n' :: b) (n x y z : Nat) (hn : f.blocks.length < n)
    (bad : List (Tok F))
    (p6 : NumStream io ascii k ([.size n, .size x, .size y, .size z] ++ f.blocks.flatMap (Msh4Block.toks f.ids) ++ bad) b rest)
    (e : Err) (hbad : ∀ s, NumStream io ascii k bad s rest → readElemBlock ascii k (f.ents.map sortEnts) s = .error e) :
    Gmsh41.read io (msh4Header ascii k ++ s1) = .error e := by
  obtain ⟨C, c1, c2, -, hC⟩ := reads_prefix io ascii k f hf s1 s2 s3 s4 s5 s6 p1 p2 p3 p4 p5
  have hR : Reads io ascii k C s6 (.error e) := by
    rw [h6]
    apply reads_fail io ascii k C _ _ e Gmsh22.tok_elements
    rw [readSection, if_neg (by decide), if_neg (by decide), if_neg (by decide), if_pos rfl, c1]
    simp only
    have e1 : [Tok.size n, .size x, .size y, .size z] = ([n, x, y, z].map .size : List (Tok F)) := rfl
    rw [List.append_assoc, e1] at p6
    obtain ⟨t1, h1, p6⟩ := sizes_stream io ascii k _ _ b _ p6
    obtain ⟨t2, h2, p6⟩ := readElemBlocks_stream io ascii k f io.lim hf f.blocks (fun _ h => h) bad t1 _ p6
    have h1' : sizes ascii k 4 b = ([n, x, y, z], t1) := h1
    unfold readElements
    rw [sizeType_ok k hf.size]
    simp only
    rw [h1']
    simp only
    rw [c2, readElemBlocks_fail ascii k _ f.blocks.length n t1 t2 _ e h2 (hbad t2 p6) hn]
  have := read_of io ascii k hf.size s1 _ (hC _ hR)
  exact this

end Meshio.Gmsh41
