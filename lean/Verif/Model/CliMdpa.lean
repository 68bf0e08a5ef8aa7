/-
The `write` function of mdpa as the command line tools call it.
-/
import Verif.Model.Cli
import Verif.Model.Mdpa
namespace Meshio.Cli

variable {F : Type}

/-- `binary` in the keywords of a call; the default is False. -/
def binaryOf (kw : Kwargs) : Bool := kw.any fun a => a.1 = "binary" && a.2 = .bool true

/-- `write`, /repo/src/meshio/mdpa/_mdpa.py:433-438, as a function of its keywords.  The text is left out: only whether the call returns. -/
def mdpaFn (io : Mdpa.MdpaFloat F) : Fn (Mdpa.In F) where
  params := ["float_fmt", "binary"]
  run kw m := (Mdpa.writeWith io (binaryOf kw) m).map fun _ => ()

end Meshio.Cli
