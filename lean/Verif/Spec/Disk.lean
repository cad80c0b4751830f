import Verif.Model.Disk

/-!
# What it means for a path to depend on a directory entry
-/

namespace Meds.Spec
open Disk

/-- Opening entry `e` goes through entry `x`: `x` is `e` itself or is reached by following symbolic links. -/
inductive OnPath (nm : String → String) (d : Disk) : String → String → Prop
  | here (e : String) : OnPath nm d e e
  | next {e p x : String} : d e = some (.link p) → OnPath nm d (nm p) x → OnPath nm d e x

/-- What a job gives for an input, as a whole file. -/
def extracted (f : Fits) : Extract.Job → Res Fits
  | .range a b c => Extract.extractRange f a b c
  | .catalog => Extract.extractCatalog f
  | .numbers sorts ns => Extract.extractNumbers sorts f ns

end Meds.Spec
