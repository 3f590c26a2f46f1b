/-
Model of src/table.rs (`Table`) and of the header table of src/transaction.rs (`Header`, `Headers`).
-/
import Verif.Model.Bstr
import Verif.Model.Flags

namespace Model

/-- The UTF-8 encodings of the characters with the Unicode property White_Space, which the `bstr`
crate's `trim` removes: U+0009..U+000D, U+0020, U+0085, U+00A0, U+1680, U+2000..U+200A, U+2028,
U+2029, U+202F, U+205F, U+3000. -/
def unicodeSpaces : List Bytes :=
  [[0x09], [0x0A], [0x0B], [0x0C], [0x0D], [0x20], [0xC2, 0x85], [0xC2, 0xA0], [0xE1, 0x9A, 0x80],
   [0xE2, 0x80, 0x80], [0xE2, 0x80, 0x81], [0xE2, 0x80, 0x82], [0xE2, 0x80, 0x83],
   [0xE2, 0x80, 0x84], [0xE2, 0x80, 0x85], [0xE2, 0x80, 0x86], [0xE2, 0x80, 0x87],
   [0xE2, 0x80, 0x88], [0xE2, 0x80, 0x89], [0xE2, 0x80, 0x8A], [0xE2, 0x80, 0xA8],
   [0xE2, 0x80, 0xA9], [0xE2, 0x80, 0xAF], [0xE2, 0x81, 0x9F], [0xE3, 0x80, 0x80]]

/-- Drops one of the given non-empty strings from the front as long as possible (at most `fuel`
times; called with the length of the string). -/
def stripFront (ws : List Bytes) : Nat → Bytes → Bytes
  | 0, s => s
  | fuel + 1, s =>
    match ws.find? (·.isPrefixOf s) with
    | some w => stripFront ws fuel (s.drop w.length)
    | none => s

/-- The `bstr` crate's `ByteSlice::trim` (Unicode white space at both ends): `trim_start` then
`trim_end`. -/
def trimUnicode (s : Bytes) : Bytes :=
  let s := stripFront unicodeSpaces s.length s
  (stripFront (unicodeSpaces.map List.reverse) s.length s.reverse).reverse

/-- src/bstr.rs:87-93 `cmp_nocase_nozero_trimmed`. -/
def cmpNocaseNozeroTrimmed (self other : Bytes) : Ordering :=
  iterCmp (lowerNoZeroItems (trimUnicode self)) (lowerItems other)

/-- src/table.rs:6-9 `Table::elements`. -/
abbrev Table (α : Type) := List (Bytes × α)

/-- src/table.rs:53-55 `Table::add`. -/
def Table.add {α : Type} (t : Table α) (key : Bytes) (item : α) : Table α := t ++ [(key, item)]

/-- src/table.rs:76-80 `Table::get_nocase`. -/
def Table.getNocase {α : Type} (t : Table α) (key : Bytes) : Option (Bytes × α) :=
  t.find? (fun x => cmpNocaseTrimmed x.1 key == .eq)

/-- src/transaction.rs:153-161 `struct Header`. -/
structure Header where
  name : Bytes
  value : Bytes
  flags : Flags := 0
  deriving Repr, DecidableEq

/-- src/transaction.rs:164-168 `struct Headers`. -/
abbrev Headers := List Header

/-- src/transaction.rs:181-185, 190-194 `get_nocase_nozero` (and `_mut`). -/
def Headers.getNocaseNozero (hs : Headers) (key : Bytes) : Option Header :=
  hs.find? (fun h => cmpNocaseNozeroTrimmed h.name key == .eq)

/-- src/transaction.rs:208-212, 199-203 `get_nocase` (and `_mut`). -/
def Headers.getNocase (hs : Headers) (key : Bytes) : Option Header :=
  hs.find? (fun h => cmpNocaseTrimmed h.name key == .eq)

/-- A write through the reference returned by `get_nocase_mut` (src/transaction.rs:199-203): the first
matching element is replaced by `f` of it. -/
def Headers.updateNocase (f : Header → Header) (key : Bytes) : Headers → Headers
  | [] => []
  | h :: hs => if cmpNocaseTrimmed h.name key == .eq then f h :: hs else h :: Headers.updateNocase f key hs

end Model
