/-
The parser combinators of the `nom` 7.1 crate used by libhtp-rs, on byte slices. Error kinds and the
`Needed` count are dropped (no caller looks at them).
-/
import Verif.Model.Bstr

namespace Model

/-- `nom::IResult<&[u8], α>`: `Ok((rest, value))`, `Err(Err::Error(_))`, `Err(Err::Incomplete(_))`. -/
inductive IRes (α : Type) where
  | ok (rest : Bytes) (val : α)
  | err
  | incomplete
  deriving Repr, DecidableEq

/-- `Result::is_ok`. -/
def IRes.isOk {α} : IRes α → Bool
  | .ok _ _ => true
  | _ => false

/-- A parser over byte slices. -/
abbrev Parser (α : Type) := Bytes → IRes α

namespace Nom

/-- `nom::combinator::map`. -/
def map {α β} (p : Parser α) (f : α → β) : Parser β := fun i =>
  match p i with
  | .ok r a => .ok r (f a)
  | .err => .err
  | .incomplete => .incomplete

/-- Sequencing, the meaning of `nom::sequence::tuple` and of `?` between two parsers. -/
def bind {α β} (p : Parser α) (f : α → Parser β) : Parser β := fun i =>
  match p i with
  | .ok r a => f a r
  | .err => .err
  | .incomplete => .incomplete

/-- `nom::sequence::tuple` of two parsers. -/
def pair {α β} (p : Parser α) (q : Parser β) : Parser (α × β) :=
  bind p fun a => map q fun b => (a, b)

/-- `nom::branch::alt` of two alternatives: the second is tried only on `Err::Error`. -/
def alt {α} (p q : Parser α) : Parser α := fun i =>
  match p i with
  | .ok r a => .ok r a
  | .err => q i
  | .incomplete => .incomplete

/-- `nom::combinator::opt`. -/
def opt {α} (p : Parser α) : Parser (Option α) := fun i =>
  match p i with
  | .ok r a => .ok r (some a)
  | .err => .ok i none
  | .incomplete => .incomplete

/-- `nom::combinator::not`. -/
def not {α} (p : Parser α) : Parser Unit := fun i =>
  match p i with
  | .ok _ _ => .err
  | .err => .ok i ()
  | .incomplete => .incomplete

/-- `nom::combinator::peek`. -/
def peek {α} (p : Parser α) : Parser α := fun i =>
  match p i with
  | .ok _ a => .ok i a
  | .err => .err
  | .incomplete => .incomplete

/-- Result of comparing the input with a tag: do the overlapping parts agree (after `f`)? -/
def agrees (f : UInt8 → UInt8) : Bytes → Bytes → Bool
  | [], _ => true
  | _, [] => true
  | a :: as, b :: bs => f a == f b && agrees f as bs

/-- `nom::bytes::complete::tag`. -/
def tag (t : Bytes) : Parser Bytes := fun i =>
  if agrees id i t && t.length ≤ i.length then .ok (i.drop t.length) (i.take t.length) else .err

/-- `nom::bytes::complete::tag_no_case`. -/
def tagNoCase (t : Bytes) : Parser Bytes := fun i =>
  if agrees lower i t && t.length ≤ i.length then .ok (i.drop t.length) (i.take t.length) else .err

/-- `nom::bytes::streaming::tag`: an input that is a proper prefix of the tag is incomplete. -/
def tagS (t : Bytes) : Parser Bytes := fun i =>
  if agrees id i t then
    if t.length ≤ i.length then .ok (i.drop t.length) (i.take t.length) else .incomplete
  else .err

/-- `nom::bytes::complete::take_while`. -/
def takeWhile (p : UInt8 → Bool) : Parser Bytes := fun i =>
  .ok (i.dropWhile p) (i.takeWhile p)

/-- `nom::bytes::complete::take_while1`. -/
def takeWhile1 (p : UInt8 → Bool) : Parser Bytes := fun i =>
  if i.takeWhile p = [] then .err else .ok (i.dropWhile p) (i.takeWhile p)

/-- `nom::bytes::complete::take_till`. -/
def takeTill (p : UInt8 → Bool) : Parser Bytes := takeWhile (fun c => !p c)

/-- `nom::bytes::complete::is_not(set)`: one or more bytes outside the set. -/
def isNot (set : Bytes) : Parser Bytes := takeWhile1 (fun c => !set.contains c)

/-- `nom::bytes::streaming::take_while`: incomplete when the whole input matches. -/
def takeWhileS (p : UInt8 → Bool) : Parser Bytes := fun i =>
  if i.dropWhile p = [] then .incomplete else .ok (i.dropWhile p) (i.takeWhile p)

/-- `nom::bytes::streaming::take_while1`: incomplete when the whole input (even the empty one)
matches, an error when the first byte does not. -/
def takeWhile1S (p : UInt8 → Bool) : Parser Bytes := fun i =>
  if i.dropWhile p = [] then .incomplete
  else if i.takeWhile p = [] then .err
  else .ok (i.dropWhile p) (i.takeWhile p)

/-- `nom::bytes::streaming::take_till`. -/
def takeTillS (p : UInt8 → Bool) : Parser Bytes := takeWhileS (fun c => !p c)

/-- `nom::bytes::complete::take_until(t)`: everything before the first occurrence of `t`. -/
def takeUntil (t : Bytes) : Parser Bytes := fun i =>
  let rec go : Bytes → Bytes → IRes Bytes
    | pre, [] => if t.isPrefixOf [] then .ok [] pre.reverse else .err
    | pre, c :: cs =>
      if t.isPrefixOf (c :: cs) then .ok (c :: cs) pre.reverse else go (c :: pre) cs
  go [] i

/-- `nom::multi::many0(tag(" "))`, the only use of `many0` on a fixed byte: all leading spaces. -/
def many0Space : Parser Bytes := takeWhile (· == 32)

end Nom
end Model
