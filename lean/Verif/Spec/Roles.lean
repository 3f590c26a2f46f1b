/-
What the layers of a chain of decompressors are to do when the data is not in the encoding that was announced.
-/
import Verif.Spec.Decoder

namespace Spec

open Model

/-- The encodings that are tried in their order when data is refused. -/
def attempts : Encoding → List Encoding
  | .gzip => [.gzip, .deflate, .zlib, .gzip]
  | .deflate => [.deflate, .zlib, .gzip, .deflate]
  | .zlib => [.zlib, .gzip, .deflate, .zlib]
  | .lzma => [.lzma, .deflate, .zlib, .gzip]
  | _ => []

/-- The second writer is the first one after any number of flushes. -/
inductive Flushed {C : Codecs} (w : Writer C) : Writer C → Prop
  | none : Flushed w w
  | more {w'} : Flushed w w' → Flushed w w'.flush.2

/-- A decoder that was given no data outputs nothing. -/
def Quiet {C : Codecs} (w : Writer C) : Prop :=
  ∀ w', Flushed w w' → w'.buf = [] ∧ w'.flush.1 = .ok () ∧ w'.finish = .ok []

/-- The decoder is the wrong one: it refuses the first piece of every such input, however short it is. -/
def WrongFor (C : Codecs) (lzma : Bool) (enc : Encoding) (Input : Bytes → Prop) : Prop :=
  ∃ w, Writer.new C lzma enc = some (w, false) ∧ Quiet w ∧
    ∀ x, Input x → ∀ w', Flushed w w' → ∀ p, p ≠ [] → p <+: x → (w'.write p).1 = .error .other

/-- What a layer does with its input: decode it, pass it on to the next layer unchanged, or give it out unchanged, without
any further layer. -/
inductive Role (C : Codecs) where
  | decodes (D : Decoder C)
  | skips
  | givesUp (Input : Bytes → Prop)

/-- What several layers make of their input. -/
def decodeRoles {C : Codecs} : List (Role C) → Bytes → Bytes
  | [], x => x
  | .decodes D :: Rs, x => decodeRoles Rs (D.decode x)
  | .skips :: Rs, x => decodeRoles Rs x
  | .givesUp _ :: _, x => x

/-- Input for which the layers have these roles. -/
def ValidRoles {C : Codecs} : List (Role C) → Bytes → Prop
  | [], _ => True
  | .decodes D :: Rs, x => D.Valid x ∧ ValidRoles Rs (D.decode x)
  | .skips :: Rs, x => ValidRoles Rs x
  | .givesUp Input :: _, x => x ≠ [] → ∃ y, Input (x ++ y)

/-- As above, with what is held back until the end. -/
def decodeRolesEnd {C : Codecs} : List (Role C) → Bytes → Bytes
  | [], x => x
  | .decodes D :: Rs, x => decodeRolesEnd Rs (D.decode x ++ D.last x)
  | .skips :: Rs, x => decodeRolesEnd Rs x
  | .givesUp _ :: _, x => x

/-- As above, to the end. -/
def ValidRolesEnd {C : Codecs} : List (Role C) → Bytes → Prop
  | [], _ => True
  | .decodes D :: Rs, x => D.Valid x ∧ ValidRolesEnd Rs (D.decode x ++ D.last x)
  | .skips :: Rs, x => ValidRolesEnd Rs x
  | .givesUp Input :: _, x => x ≠ [] → ∃ y, Input (x ++ y)

/-- The role of a layer for data that is announced to be in this encoding. The data is decoded if one of the encodings
that are tried is the right one and the ones tried before refuse it. It is passed on if it is announced as LZMA and LZMA
is disabled. It is given out if all encodings that are tried refuse it. -/
def RoleFor (C : Codecs) (lzma : Bool) (enc : Encoding) : Role C → Prop
  | .decodes D => ∃ wrong right rest, attempts enc = wrong ++ right :: rest ∧
      (∀ e ∈ wrong, WrongFor C lzma e D.Valid) ∧ DecoderFor C lzma right D
  | .skips => enc = .lzma ∧ lzma = false
  | .givesUp Input => attempts enc ≠ [] ∧ ∀ e ∈ attempts enc, WrongFor C lzma e Input

/-- The roles of several layers. -/
def RolesFor (C : Codecs) (lzma : Bool) : List Encoding → List (Role C) → Prop
  | [], [] => True
  | enc :: encs, R :: Rs => RoleFor C lzma enc R ∧ RolesFor C lzma encs Rs
  | _, _ => False

end Spec
