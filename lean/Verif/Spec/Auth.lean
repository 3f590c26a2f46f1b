/-
Specification of the text of Authorization headers.
-/
import Verif.Spec.Nocase

namespace Spec

/-- A username as written between double quotes: every double quote is preceded by a backslash. -/
def escapeQuotes : Bytes → Bytes
  | [] => []
  | c :: cs => if c = 34 then 92 :: 34 :: escapeQuotes cs else c :: escapeQuotes cs

end Spec
