/-
What a decoder that works does, and what a chain of such decoders is to compute.
-/
import Verif.Spec.Gzip

namespace Spec

open Model

/-- A decoder that works, with the buffer it writes to: what it makes of its input (`decode`), for which inputs (`Valid`),
and what it holds back until it is told that the input has ended (`last`; nothing, for most decoders). `At fed out w`: the writer `w` has been fed `fed`, and `out` has been taken from its buffer. -/
structure Decoder (C : Codecs) where
  decode : Bytes → Bytes
  Valid : Bytes → Prop
  last : Bytes → Bytes
  At : Bytes → Bytes → Writer C → Prop
  /-- The start of a valid input is valid, and decodes to the start of the output. Nothing is decoded to nothing. -/
  valid_prefix : ∀ {x y}, Valid (x ++ y) → Valid x
  valid_nil : Valid []
  decode_nil : decode [] = []
  last_nil : last [] = []
  decode_prefix : ∀ {x y}, Valid (x ++ y) → decode x <+: decode (x ++ y)
  hasBuffer : ∀ {fed out w}, At fed out w → w.hasBuffer = true
  /-- What has been put into the buffer is the start of the output. -/
  sofar : ∀ {fed out w}, At fed out w → out ++ w.buf <+: decode fed
  /-- The buffer may be emptied. -/
  emptied : ∀ {fed out w}, At fed out w → At fed (out ++ w.buf) { w with buf := [] }
  /-- Data is taken in part or as a whole (this is also meant by the answer 0), or the buffer is full. The latter does
  not happen when all output has been taken. -/
  write : ∀ {fed out w data}, At fed out w → Valid (fed ++ data) → data ≠ [] →
    (∃ n w', w.write data = (.ok n, w') ∧ n ≤ data.length ∧
      At (fed ++ data.take (if n = 0 then data.length else n)) out w') ∨
    (∃ w', w.write data = (.error .writeZero, w') ∧ At fed out w' ∧ out ≠ decode fed)
  /-- Flushing puts all output that is still missing into the buffer, or as much as there is room for. -/
  flush : ∀ {fed out w}, At fed out w → Valid fed →
    (∃ w', w.flush = (.ok (), w') ∧ At fed out w' ∧ out ++ w'.buf = decode fed) ∨
    (∃ w', w.flush = (.error .writeZero, w') ∧ At fed out w' ∧ w'.buf ≠ [])
  /-- At the end there is only what was held back. -/
  finish : ∀ {fed w}, At fed (decode fed) w → Valid fed → w.finish = .ok (last fed)

/-- Several decoders, one after the other. -/
def decodeAll {C : Codecs} : List (Decoder C) → Bytes → Bytes
  | [], x => x
  | D :: Ds, x => decodeAll Ds (D.decode x)

/-- Input that every one of several decoders can make something of. -/
def ValidAll {C : Codecs} : List (Decoder C) → Bytes → Prop
  | [], _ => True
  | D :: Ds, x => D.Valid x ∧ ValidAll Ds (D.decode x)

/-- Several decoders, one after the other, with what they hold back until the end. -/
def decodeEnd {C : Codecs} : List (Decoder C) → Bytes → Bytes
  | [], x => x
  | D :: Ds, x => decodeEnd Ds (D.decode x ++ D.last x)

/-- Input that every one of several decoders can make something of to the end. -/
def ValidEnd {C : Codecs} : List (Decoder C) → Bytes → Prop
  | [], _ => True
  | D :: Ds, x => D.Valid x ∧ ValidEnd Ds (D.decode x ++ D.last x)

/-- The decoder works for data in this encoding. -/
def DecoderFor (C : Codecs) (lzma : Bool) (enc : Encoding) (D : Decoder C) : Prop :=
  ∃ w, Writer.new C lzma enc = some (w, false) ∧ D.At [] [] w

/-- Decoders that work for these encodings, one for each. -/
def DecodersFor (C : Codecs) (lzma : Bool) : List Encoding → List (Decoder C) → Prop
  | [], [] => True
  | enc :: encs, D :: Ds => DecoderFor C lzma enc D ∧ DecodersFor C lzma encs Ds
  | _, _ => False

/-- The outputs of a decoding all of whose outputs are accepted, and whether it succeeds. -/
def decodingOutputs : Decoding → List (Option Bytes) × Bool
  | .done ok => ([], ok)
  | .call out next => (out :: (decodingOutputs (next true)).1, (decodingOutputs (next true)).2)

end Spec
