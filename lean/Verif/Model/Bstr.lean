/-
Model of src/bstr.rs: comparison and search of byte strings.
-/
import Verif.Basic

namespace Model

/-- `u8::to_ascii_lowercase` (core): 'A'..='Z' are shifted by 32, other bytes unchanged. -/
def lower (c : UInt8) : UInt8 := if 65 ≤ c ∧ c ≤ 90 then c + 32 else c

/-- `[u8]::to_ascii_lowercase` / `make_ascii_lowercase` (core). -/
def lowerAll (s : Bytes) : Bytes := s.map lower

/-- src/bstr.rs:299-303 `struct LowercaseIterator` and 241-245 `struct LowercaseNoZeroIterator`:
both have the same fields. -/
structure Iter where
  src : Bytes
  idx : Nat
  first : Bool

/-- src/bstr.rs:305-313, 247-255 `new`. -/
def Iter.new (src : Bytes) : Iter := { src, idx := 0, first := true }

/-- src/bstr.rs:331-337, 280-286 `subiter`: a new iterator starting at the current byte index. -/
def Iter.subiter (it : Iter) : Iter := { it with first := true }

/-- src/bstr.rs:317-327 `LowercaseIterator::next`. -/
def Iter.next (it : Iter) : Option UInt8 × Iter :=
  let idx := if it.first then it.idx else it.idx + 1
  (it.src[idx]?.map lower, { it with idx, first := false })

/-- src/bstr.rs:261-275: the `loop` of `LowercaseNoZeroIterator::next`, from an index already
advanced: the first index at or after `i` whose lower-cased byte is not zero (possibly past the end). -/
def skipZeros (src : Bytes) (i : Nat) : Nat :=
  if src[i]?.map lower = some 0 then skipZeros src (i + 1) else i
  termination_by src.length - i
  decreasing_by
    rename_i h
    have : i < src.length := by
      by_cases hi : i < src.length
      · exact hi
      · simp [List.getElem?_eq_none (Nat.le_of_not_lt hi)] at h
    omega

/-- src/bstr.rs:260-276 `LowercaseNoZeroIterator::next`. -/
def Iter.nextNoZero (it : Iter) : Option UInt8 × Iter :=
  let idx := skipZeros it.src (if it.first then it.idx else it.idx + 1)
  (it.src[idx]?.map lower, { it with idx, first := false })

/-- `Iterator::cmp` (core) of two byte iterators given as the lists they yield: lexicographic. -/
def iterCmp : Bytes → Bytes → Ordering
  | [], [] => .eq
  | [], _ :: _ => .lt
  | _ :: _, [] => .gt
  | a :: as, b :: bs => if a < b then .lt else if a = b then iterCmp as bs else .gt

/-- All bytes an iterator still yields, using the given `next` (fuel bounds the number of items;
`drain` is always called with `src.length + 1`, more than any iterator over `src` can yield). -/
def drain (next : Iter → Option UInt8 × Iter) : Nat → Iter → Bytes
  | 0, _ => []
  | fuel + 1, it =>
    match next it with
    | (none, _) => []
    | (some c, it') => c :: drain next fuel it'

/-- The items of a fresh `LowercaseIterator` over `s`. -/
def lowerItems (s : Bytes) : Bytes := drain Iter.next (s.length + 1) (Iter.new s)

/-- The items of a fresh `LowercaseNoZeroIterator` over `s`. -/
def lowerNoZeroItems (s : Bytes) : Bytes := drain Iter.nextNoZero (s.length + 1) (Iter.new s)

/-- `u8::is_ascii_whitespace` (core): SP, TAB, LF, FF, CR (not VT). -/
def isAsciiWhitespace (c : UInt8) : Bool := c == 32 || c == 9 || c == 10 || c == 12 || c == 13

/-- The `bstr` crate's `trim_with(|c| c.is_ascii_whitespace())`: strips from both ends. The crate
decodes UTF-8 characters; as the predicate only holds for ASCII characters, it acts on bytes. -/
def trimAscii (s : Bytes) : Bytes :=
  ((s.dropWhile isAsciiWhitespace).reverse.dropWhile isAsciiWhitespace).reverse

/-- src/bstr.rs:45-47 `cmp_slice` (`Ord` of slices is lexicographic). -/
def cmpSlice (self other : Bytes) : Ordering := iterCmp self other

/-- src/bstr.rs:55-61 `cmp_nocase`. -/
def cmpNocase (self other : Bytes) : Ordering := iterCmp (lowerItems self) (lowerItems other)

/-- src/bstr.rs:64-70 `cmp_nocase_trimmed`. -/
def cmpNocaseTrimmed (self other : Bytes) : Ordering :=
  iterCmp (lowerItems (trimAscii self)) (lowerItems other)

/-- src/bstr.rs:73-75 `eq_nocase`. -/
def eqNocase (self other : Bytes) : Bool := cmpNocase self other == .eq

/-- src/bstr.rs:78-84 `cmp_nocase_nozero`. -/
def cmpNocaseNozero (self other : Bytes) : Ordering :=
  iterCmp (lowerNoZeroItems self) (lowerItems other)

/-- src/bstr.rs:96-98 `eq_nocase_nozero`. -/
def eqNocaseNozero (self other : Bytes) : Bool := cmpNocaseNozero self other == .eq

/-- src/bstr.rs:117-123 `starts_with_nocase` (`eq_ignore_ascii_case` compares lower-cased bytes). -/
def startsWithNocase (self other : Bytes) : Bool :=
  if self.length < other.length then false
  else
    let len := min self.length other.length
    lowerAll (self.take len) == lowerAll (other.take len)

/-- src/bstr.rs:223-231: the `for cmp_byte in needle` loop with its `equal` flag. -/
def matchAt (next : Iter → Option UInt8 × Iter) : Bytes → Bool → Iter → Bool
  | [], equal, _ => equal
  | c :: cs, _, test =>
    match next test with
    | (r, test') => if some c == r then matchAt next cs true test' else false

/-- src/bstr.rs:221-236: the `while let Some(s) = haystack.next()` loop of `index_of`. `fuel` bounds
the iterations; it is called with `src.length + 1` and every iteration advances the index. -/
def indexLoop (next : Iter → Option UInt8 × Iter) (first : UInt8) (needle : Bytes) :
    Nat → Iter → Option Nat
  | 0, _ => none
  | fuel + 1, it =>
    match next it with
    | (none, _) => none
    | (some s, it') =>
      if s = first then
        if matchAt next needle false it'.subiter then some it'.idx
        else indexLoop next first needle fuel it'
      else indexLoop next first needle fuel it'

/-- src/bstr.rs:219-237 `index_of`. -/
def indexOf (next : Iter → Option UInt8 × Iter) (src needle : Bytes) : Option Nat :=
  match needle with
  | [] => none
  | first :: _ => indexLoop next first needle (src.length + 1) (Iter.new src)

/-- src/bstr.rs:131-136 `index_of_nocase`. -/
def indexOfNocase (self other : Bytes) : Option Nat := indexOf Iter.next self (lowerAll other)

/-- src/bstr.rs:139-144 `index_of_nocase_nozero`. -/
def indexOfNocaseNozero (self other : Bytes) : Option Nat :=
  indexOf Iter.nextNoZero self (lowerAll other)

end Model
