/-
RFC 3986 section 5.2.4, "Remove Dot Segments", transcribed rule by rule.
-/
import Verif.Basic

namespace Spec.DotSegments

/-- Remove the last segment and its preceding "/" (if any) from the output buffer. -/
def removeLastSegment (out : Bytes) : Bytes := (out.reverse.dropWhile (· ≠ 47)).tail.reverse

/-- The first path segment of the input, including the initial "/" (if any) and up to, but not
including, the next "/". -/
def firstSegment : Bytes → Bytes
  | 47 :: rest => 47 :: rest.takeWhile (· ≠ 47)
  | input => input.takeWhile (· ≠ 47)

/-- One round of the loop on (input buffer, output buffer). -/
def round : Bytes × Bytes → Bytes × Bytes
  | (input, out) =>
    -- A
    if b! "../" <+: input then (input.drop 3, out)
    else if b! "./" <+: input then (input.drop 2, out)
    -- B
    else if b! "/./" <+: input then (b! "/" ++ input.drop 3, out)
    else if input = b! "/." then (b! "/", out)
    -- C
    else if b! "/../" <+: input then (b! "/" ++ input.drop 4, removeLastSegment out)
    else if input = b! "/.." then (b! "/", removeLastSegment out)
    -- D
    else if input = b! "." ∨ input = b! ".." then ([], out)
    -- E
    else (input.drop (firstSegment input).length, out ++ firstSegment input)

/-- The loop runs until the input buffer is empty; then the output buffer is the result. -/
def Removes (path result : Bytes) : Prop := ∃ n, Nat.repeat round n (path, []) = ([], result)

/-- The example of the RFC. -/
example : Removes (b! "/a/b/c/./../../g") (b! "/a/g") := ⟨7, by decide⟩
example : Removes (b! "mid/content=5/../6") (b! "mid/6") := ⟨4, by decide⟩

end Spec.DotSegments
