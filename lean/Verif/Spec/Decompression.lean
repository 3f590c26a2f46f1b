/-
Specification of the choice of decompressors for a Content-Encoding field.
-/
import Verif.Spec.RequestHeaders
import Verif.Model.ConnBase

namespace Spec

open Model

/-- The pieces of a Content-Encoding list: what is between commas and spaces. -/
def pieces (ce : Bytes) : List Bytes := (ce.splitOnP fun c => c = 0x2c ∨ c = 0x20).filter fun p => p ≠ []

open Classical in
/-- The encoding a piece of the list names: gzip or deflate anywhere in it, whatever the case, or exactly lzma. -/
noncomputable def pieceEncoding (p : Bytes) : Encoding :=
  if ∃ i, OccursAt p (b! "gzip") i then .gzip
  else if ∃ i, OccursAt p (b! "deflate") i then .deflate
  else if p = b! "lzma" then .lzma
  else .none

/-- The encodings a list names, in order. -/
noncomputable def listed (ce : Bytes) : List Encoding := ((pieces ce).map pieceEncoding).filter fun e => e ≠ .none

/-- The value as a whole, ignoring case and NUL bytes, is the name of one encoding. -/
def WholeNames (ce : Bytes) : Encoding → Prop
  | .gzip => EqNocase (withoutNul ce) (b! "gzip") ∨ EqNocase (withoutNul ce) (b! "x-gzip")
  | .deflate => EqNocase (withoutNul ce) (b! "deflate") ∨ EqNocase (withoutNul ce) (b! "x-deflate")
  | .lzma => EqNocase (withoutNul ce) (b! "lzma")
  | .none => EqNocase (withoutNul ce) (b! "inflate") ∨ EqNocase (withoutNul ce) (b! "none")
  | _ => False

/-- The layers of a decompressor, in the order in which they were applied by the sender. -/
def installed (d : Option Decompressor) : List Encoding := (d.map (·.layers)).getD []

/-- A decompressor that stops, with a failure, as soon as its output is refused. -/
def StopsAtRefusal : Decoding → Prop
  | .done _ => True
  | .call _ next => StopsAtRefusal (next true) ∧ next false = .done false

/-- The decompressed size `entity` is acceptable for a compressed size `message`: at most the bomb limit, or at most
the ratio times the compressed size, where a product that does not fit 64 bits allows nothing. -/
def SizeAllowed (o : CompressionOptions) (message entity : Nat) : Prop :=
  entity ≤ o.bombLimit ∨ (message * o.bombRatio < 2 ^ 64 ∧ entity ≤ message * o.bombRatio)

/-- The number of bytes in a list of outputs (`none`: the end signal). -/
def outputSize (outs : List (Option Bytes)) : Nat := (outs.map fun o => (o.getD []).length).sum

/-- The callbacks run for a list of outputs of a request body: empty data is not reported. -/
def requestOutputs (k : Nat) (outs : List (Option Bytes)) : List Event :=
  outs.flatMap fun o =>
    if o = some [] then []
    else [.data .requestBodyDataTx k { data := o }, .data .requestBodyData k { data := o }]

/-- The callbacks run for a list of outputs of a response body: neither empty data nor the end is reported. -/
def responseOutputs (k : Nat) (outs : List (Option Bytes)) : List Event :=
  outs.flatMap fun o =>
    if o = some [] ∨ o = none then []
    else [.data .responseBodyDataTx k { data := o }, .data .responseBodyData k { data := o }]

end Spec
