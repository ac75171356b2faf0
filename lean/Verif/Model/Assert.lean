/-
`assert` in builds with `--enable-assert` (configure:113-117 and 186-188), in which `NDEBUG` is not defined.
-/
import Verif.Base

namespace Scc

/-- `assert(p)` in a build with assertions: the program is aborted (`none`) if `p` is false. -/
def asrt (p : Prop) [Decidable p] : Option Unit := if p then some () else none

/-- The same between steps that use the heap. -/
def asrtM (p : Prop) [Decidable p] : M Unit := useK [] (asrt p)

end Scc
