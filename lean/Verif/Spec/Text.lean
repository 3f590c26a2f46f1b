/-
Small shared specifications: joining pieces with a separator byte.
-/
import Verif.Basic

namespace Spec

/-- The pieces joined with one separator byte between neighbours. -/
def join (sep : UInt8) : List Bytes → Bytes
  | [] => []
  | [a] => a
  | a :: b :: rest => a ++ sep :: join sep (b :: rest)

example : join 47 [b! "a", [], b! "b"] = b! "a//b" := by decide

end Spec
