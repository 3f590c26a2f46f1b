/-
Specification of a well-formed HTTP header block (RFC 7230 section 3.2).
-/
import Verif.Basic

namespace Spec

/-- A `tchar` of RFC 7230: a letter, a digit or one of ``!#$%&'*+-.^_`|~``. -/
def Tchar (c : UInt8) : Prop :=
  (65 ≤ c ∧ c ≤ 90) ∨ (97 ≤ c ∧ c ≤ 122) ∨ (48 ≤ c ∧ c ≤ 57) ∨ c ∈ b! "!#$%&'*+-.^_`|~"

instance (c : UInt8) : Decidable (Tchar c) := by unfold Tchar; infer_instance

/-- White space in the sense of C's `isspace`. -/
def Blank (c : UInt8) : Prop := c ∈ ([32, 9, 10, 11, 12, 13] : Bytes)

instance (c : UInt8) : Decidable (Blank c) := by unfold Blank; infer_instance

/-- One header line: the name, blanks before the value, the value, blanks after it. -/
structure HeaderLine where
  name : Bytes
  before : Bytes
  value : Bytes
  after : Bytes
  deriving Repr, DecidableEq

/-- The name is a non-empty token, the value contains no line break and does not begin or end with a
blank, and only spaces and tabs surround it. -/
structure HeaderLine.WellFormed (h : HeaderLine) : Prop where
  nonempty : h.name ≠ []
  token : ∀ c ∈ h.name, Tchar c
  no_break : ∀ c ∈ h.value, c ≠ 13 ∧ c ≠ 10
  first : ∀ c ∈ h.value.head?, ¬ Blank c
  last : ∀ c ∈ h.value.getLast?, ¬ Blank c
  before_blank : ∀ c ∈ h.before, c = 32 ∨ c = 9
  after_blank : ∀ c ∈ h.after, c = 32 ∨ c = 9

/-- The line as written: `name ":" blanks value blanks CRLF`. -/
def HeaderLine.render (h : HeaderLine) : Bytes :=
  h.name ++ 58 :: (h.before ++ h.value ++ h.after ++ [13, 10])

/-- The lines one after the other, then an empty line. -/
def renderBlock : List HeaderLine → Bytes
  | [] => [13, 10]
  | h :: hs => h.render ++ renderBlock hs

example : renderBlock [⟨b! "Host", b! " ", b! "a", []⟩, ⟨b! "X", [], b! "1 2", b! "\t"⟩] =
    b! "Host: a\r\nX:1 2\t\r\n\r\n" := by decide

end Spec
