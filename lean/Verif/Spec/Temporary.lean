import Verif.Model.Temporary

/-!
# An extractor object in use
-/

namespace Meds.Spec
open Disk Extract Temp

/-- Does this step close object `k` explicitly: by its `close`, or by the end of its `with` block? -/
def Closes (p : Prog) (k : Nat) (a : Act) : Prop := (∃ x, a = .close x ∧ p.lookup x = some k) ∨ (a = .leave ∧ p.blocks.head? = some k)

/-- Object `k` is in use during these steps: something refers to it before and after each of them, and none of them closes it. -/
def InUse (nm : String → String) (k : Nat) : Prog → List Act → Prop
  | p, [] => p.refers k = true
  | p, a :: as => p.refers k = true ∧ ¬ Closes p k a ∧ InUse nm k (act nm p a).1 as

/-- The path that a step writes to, if any. -/
def written? : Act → Option String
  | .make _ r => some r.subFile
  | .enter _ r => some r.subFile
  | .call r => some r.subFile
  | .save q _ => some q
  | _ => none

/-- The extractor that a step constructs, if any. -/
def request? : Act → Option Request
  | .make _ r => some r
  | .enter _ r => some r
  | .call r => some r
  | _ => none

end Meds.Spec
