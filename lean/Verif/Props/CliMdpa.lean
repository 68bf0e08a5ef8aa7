/-
C58 and C69: binary mdpa files.
-/
import Verif.Model.CliMdpa
import Verif.Props.Cli
namespace Meshio
namespace Props
open Meshio Meshio.Cli Meshio.Spec

variable {F Wr : Type}

/-- C58.  Asked for a binary file the writer of mdpa refuses every mesh with WriteError; otherwise it writes the text of C58_write. -/
theorem C58_binary (io : Mdpa.MdpaFloat F) (m : Mdpa.In F) :
    Mdpa.writeWith io true m = .error .writeError ∧ Mdpa.writeWith io false m = Mdpa.write io m := ⟨rfl, rfl⟩

/-- C69.  `meshio binary` and `meshio compress`, with or without `--max`, say that they know mdpa, but no mdpa file can be rewritten by
them: for every file that is read the command ends with WriteError. -/
theorem C69_mdpa_binary_false (io : Mdpa.MdpaFloat F) (c : Command) (hc : c = .binary ∨ ∃ max, c = .compress max)
    (r : Registry (Reader (Mdpa.In F)) Wr) (mods : String → Fn (Mdpa.In F)) (hm : mods "mdpa" = mdpaFn io) (name : List Char)
    (fmt : Option String) (rest : List String) (h : Considered r.exts name fmt ("mdpa" :: rest)) (m : Mdpa.In F) (calls : List String)
    (hr : readMesh r (.path name true) fmt = ⟨.ok m, calls⟩) :
    inPlace c r mods name true fmt = ⟨calls, [("mdpa", [("binary", .bool true)], m)], .error .writeError⟩ := by
  have hk : ("mdpa", [("binary", Arg.bool true)]) ∈ meaning c := by
    rcases hc with rfl | ⟨max, rfl⟩
    · decide
    · cases max <;> decide
  rw [C69_rewrites c r mods name fmt "mdpa" rest h m calls hr _ hk, hm]
  rfl

/-- C69.  `meshio ascii` rewrites an mdpa file exactly if the writer takes the mesh, with its exception if not. -/
theorem C69_mdpa_ascii (io : Mdpa.MdpaFloat F) (r : Registry (Reader (Mdpa.In F)) Wr) (mods : String → Fn (Mdpa.In F))
    (hm : mods "mdpa" = mdpaFn io) (name : List Char) (fmt : Option String) (rest : List String)
    (h : Considered r.exts name fmt ("mdpa" :: rest)) (m : Mdpa.In F) (calls : List String)
    (hr : readMesh r (.path name true) fmt = ⟨.ok m, calls⟩) :
    inPlace .ascii r mods name true fmt = ⟨calls, [("mdpa", [("binary", .bool false)], m)], (Mdpa.write io m).map fun _ => 0⟩ := by
  rw [C69_rewrites .ascii r mods name fmt "mdpa" rest h m calls hr _ (by decide : ("mdpa", [("binary", Arg.bool false)]) ∈ meaning .ascii), hm]
  have e : (mdpaFn io).call [("binary", .bool false)] m = (Mdpa.write io m).map fun _ => () := rfl
  rw [e]
  cases Mdpa.write io m <;> rfl

/-- The hypotheses are met: a registry with a reader of mdpa and a file with its extension. -/
example (io : Mdpa.MdpaFloat Int) (m : Mdpa.In Int) :
    inPlace .binary (importedReg fun _ _ => .ok m) (fun _ => mdpaFn io) "a.mdpa".toList true none =
      ⟨["mdpa"], [("mdpa", [("binary", .bool true)], m)], .error .writeError⟩ := by
  have hname : filetypesFromPath (importedReg (fun _ _ => Except.ok m)).exts "a.mdpa".toList = .ok ["mdpa"] := by
    rw [importedReg_exts]; decide +kernel
  have r1 : (importedReg fun _ _ => Except.ok m).readers.get? "mdpa" = some (fun _ => Except.ok m) := by
    rw [importedReg_readers]; exact if_pos (by decide +kernel)
  apply C69_mdpa_binary_false io .binary (.inl rfl) _ _ rfl _ _ [] (.inr ⟨.inl rfl, hname⟩) m ["mdpa"]
  unfold readMesh readFile
  simp only [Bool.not_true, Bool.false_eq_true, if_false, truthy, hname, readLoop, r1]
  rfl

end Props
end Meshio
