/-
A header block that comes in pieces.
-/
import Verif.Spec.HeaderBlock
import Verif.Model.HeaderParser

namespace Spec

open Model

/-- A user of the header parser who is given a block in pieces: what the parser leaves is put before the next piece. The
fields up to the end of the block and what follows it, or `none` if the end does not come or the parser fails. -/
def blockInPieces (p : HeaderParser) : Bytes → List Bytes → Option (List ParsedHeader × Bytes)
  | _, [] => none
  | left, x :: xs =>
    match p.headers (left ++ x) with
    | .ok rest (hs, true) => some (hs, rest ++ xs.flatten)
    | .ok rest (hs, false) => (blockInPieces p rest xs).map fun y => (hs ++ y.1, y.2)
    | .incomplete => blockInPieces p (left ++ x) xs
    | .err => none

end Spec
