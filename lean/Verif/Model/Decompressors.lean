/-
Model of the chain of decompressors: src/decompressors.rs:147-196, 218-398, 592-945. The decoders of the crates flate2
and lzma_rs are arbitrary machines that write to a buffer.
-/
import Verif.Model.Gzip
import Verif.Model.ConnBase

namespace Model

/-- `std::io::ErrorKind` as far as it is looked at: WriteZero, or any other (never Interrupted). -/
inductive IoErr where
  | writeZero | other
  deriving Repr, DecidableEq

/-- The decoders of flate2 and lzma_rs with the `Cursor<Box<[u8]>>` they write to: any machine. The buffer is the list
of the bytes before the position of the cursor. `write` answers how much of the data it has taken. `hasBuffer` is
whether `get_output_mut` gives a buffer (src/decompressors.rs:668-670). -/
structure Codecs where
  State : Type
  new : Encoding → State
  write : State → Bytes → Bytes → Except IoErr Nat × State × Bytes
  flush : State → Bytes → Except IoErr Unit × State × Bytes
  finish : State → Bytes → Except IoErr Bytes
  hasBuffer : State → Bool

/-- What stands before a decoder: nothing, the gzip header parser, or a writer without a decoder
(src/decompressors.rs:377-400 `NullBufWriter`). -/
inductive Front where
  | none | gzip (g : Gz) | null
  deriving Repr, DecidableEq

/-- src/decompressors.rs:368-375 `trait BufWriter` and its implementations. -/
structure Writer (C : Codecs) where
  front : Front
  codec : C.State
  buf : Bytes := []

namespace Writer

variable {C : Codecs}

/-- Gives data to the decoder. -/
def writeCodec (w : Writer C) (data : Bytes) : Except IoErr Nat × Writer C :=
  let r := C.write w.codec w.buf data
  (r.1, { w with codec := r.2.1, buf := r.2.2 })

/-- `Write::write` of the writers: src/decompressors.rs:383-385, 452-591, 612-614, 635-637, 658-660. The panic of the
gzip header parser is shown not to happen (`Props.C43_no_panic`); here it is an error. -/
def write (w : Writer C) (data : Bytes) : Except IoErr Nat × Writer C :=
  match w.front with
  | .none => w.writeCodec data
  | .null => (.ok 0, w)
  | .gzip g =>
    match g.write data with
    | (.ok n, g) => (.ok n, { w with front := .gzip g })
    | (.invalid, g) => (.error .other, { w with front := .gzip g })
    | (.inner data, g) => { w with front := .gzip g }.writeCodec data
    | (.panic, g) => (.error .other, { w with front := .gzip g })

/-- `Write::flush` of the writers: src/decompressors.rs:387-389, 593-595, 616-618, 639-641, 662-664. -/
def flush (w : Writer C) : Except IoErr Unit × Writer C :=
  match w.front with
  | .null => (.ok (), w)
  | _ =>
    let r := C.flush w.codec w.buf
    (r.1, { w with codec := r.2.1, buf := r.2.2 })

/-- `BufWriter::get_mut` gives a buffer: src/decompressors.rs:393-395, 599-601, 622-624, 645-647, 668-670. -/
def hasBuffer (w : Writer C) : Bool :=
  match w.front with
  | .none => C.hasBuffer w.codec
  | _ => true

/-- `BufWriter::finish`: src/decompressors.rs:397-399, 603-605, 626-628, 649-651, 672-682. -/
def finish (w : Writer C) : Except IoErr Bytes :=
  match w.front with
  | .null => .ok w.buf
  | _ => C.finish w.codec w.buf

/-- src/decompressors.rs:702-736 `InnerDecompressor::writer`: the writer for an encoding, and whether to pass data
through; `none` for NONE and ERROR. -/
def new (C : Codecs) (lzma : Bool) : Encoding → Option (Writer C × Bool)
  | .gzip => some ({ front := .gzip {}, codec := C.new .deflate }, false)
  | .deflate => some ({ front := .none, codec := C.new .deflate }, false)
  | .zlib => some ({ front := .none, codec := C.new .zlib }, false)
  | .lzma =>
    if lzma then some ({ front := .none, codec := C.new .lzma }, false)
    else some ({ front := .null, codec := C.new .lzma }, true)
  | _ => none

end Writer

/-- src/decompressors.rs:685-699 `struct InnerDecompressor` without the next one; of the options only whether LZMA is
enabled. -/
structure Layer (C : Codecs) where
  writer : Option (Writer C)
  encoding : Encoding
  passthrough : Bool
  restarts : Nat := 0
  lzma : Bool

/-- A chain: layers with the callback at the end. `lost` stands for a slot `inner` that is empty. -/
inductive Chain (C : Codecs) where
  | callback
  | lost
  | layer (l : Layer C) (inner : Chain C)

/-- A computation that calls the callback (with data, or with `none` for the end) and sees whether it accepts. `stuck`:
not finished within the given number of steps. -/
inductive Prog (α : Type) where
  | ret (a : α)
  | stuck
  | call (out : Option Bytes) (next : Bool → Prog α)

/-- Sequencing. -/
def Prog.bind {α β : Type} : Prog α → (α → Prog β) → Prog β
  | .ret a, f => f a
  | .stuck, _ => .stuck
  | .call out next, f => .call out fun b => (next b).bind f

namespace Layer

variable {C : Codecs}

/-- src/decompressors.rs:890-901: the next encoding to try. -/
def nextEncoding : Encoding → Encoding
  | .gzip => .deflate
  | .deflate => .zlib
  | .zlib => .gzip
  | .lzma => .deflate
  | e => e

/-- src/decompressors.rs:887-915 `restart`; `none` for `Err`. -/
def restart (l : Layer C) : Option (Layer C) :=
  if l.restarts < 3 then
    match Writer.new C l.lzma (nextEncoding l.encoding) with
    | some (w, p) => some { l with
        encoding := nextEncoding l.encoding
        writer := some w
        passthrough := if p then true else l.passthrough
        restarts := l.restarts + 1 }
    | none => none
  else none

end Layer

namespace Chain

variable {C : Codecs}

/-- src/decompressors.rs:919-924 `set_passthrough` (190 for the callback). -/
def setPassthrough (b : Bool) : Chain C → Chain C
  | .callback => .callback
  | .lost => .lost
  | .layer l inner => .layer { l with passthrough := b } (inner.setPassthrough b)

mutual

/-- `Write::write`: src/decompressors.rs:176-178 for the callback (it answers the length of the data,
src/request.rs:1333), 815-871 for a layer. `fuel` bounds the depth of the calls. -/
def write : Nat → Chain C → Bytes → Prog (Except IoErr Nat × Chain C)
  | 0, _, _ => .stuck
  | _ + 1, .callback, data =>
    .call (some data) fun ok => .ret (if ok then .ok data.length else .error .other, .callback)
  | _ + 1, .lost, data => .ret (.ok data.length, .lost)
  | fuel + 1, .layer l inner, data =>
    if l.passthrough then
      (write fuel inner data).bind fun r => .ret (r.1, .layer l r.2)
    else
      match l.writer with
      | none => .ret (.error .writeZero, .layer l inner)
      | some w =>
        match w.write data with
        | (.ok n, w) =>
          .ret (.ok (if n = 0 then data.length else n), .layer { l with writer := some w } inner)
        | (.error .writeZero, w) =>
          (flushWriter fuel { l with writer := none } w inner).bind fun
            | (.error e, l, _, inner) => .ret (.error e, .layer l inner)
            | (.ok _, l, w, inner) => write fuel (.layer { l with writer := some w } inner) data
        | (.error .other, _) =>
          match ({ l with writer := none } : Layer C).restart with
          | some l => write fuel (.layer l inner) data
          | none =>
            -- 756-770 `try_passthrough`
            (write fuel (inner.setPassthrough true) data).bind fun
              | (.ok n, inner) => .ret (.ok n, .layer { l with writer := none, passthrough := true } inner)
              | (.error e, inner) => .ret (.error e,
                  (Chain.layer { l with writer := none, passthrough := true } inner).setPassthrough false)

/-- `Write::write_all` (std): writes until all the data is taken. -/
def writeAll : Nat → Chain C → Bytes → Prog (Except IoErr Unit × Chain C)
  | 0, _, _ => .stuck
  | fuel + 1, c, data =>
    if data = [] then .ret (.ok (), c)
    else
      (write fuel c data).bind fun
        | (.error e, c) => .ret (.error e, c)
        | (.ok n, c) => if n = 0 then .ret (.error .writeZero, c) else writeAll fuel c (data.drop n)

/-- src/decompressors.rs:772-811 `flush_writer`. The new writer a restart makes (line 795) is put into a slot that both
callers then overwrite with the old writer. -/
def flushWriter : Nat → Layer C → Writer C → Chain C → Prog (Except IoErr Unit × Layer C × Writer C × Chain C)
  | 0, _, _, _ => .stuck
  | fuel + 1, l, w, inner =>
    match inner with
    | .lost => .ret (.error .other, l, w, .lost)
    | inner =>
      match w.flush with
      | (r, w) =>
        (if w.hasBuffer then writeAll fuel inner w.buf else .ret (.ok (), inner)).bind fun
          | (.error e, _) => .ret (.error e, l, w, .lost)
          | (.ok _, inner) =>
            let w := if w.hasBuffer then { w with buf := [] } else w
            match r with
            | .ok _ => .ret (.ok (), l, w, inner)
            | .error .writeZero => flushWriter fuel l w inner
            | .error .other =>
              match l.restart with
              | some l => .ret (.ok (), l, w, inner)
              | none => .ret (.error .other, l, w, .lost)

end

/-- `Write::flush`: src/decompressors.rs:180-182, 873-883. -/
def flush : Nat → Chain C → Prog (Except IoErr Unit × Chain C)
  | 0, _ => .stuck
  | _ + 1, .callback => .ret (.ok (), .callback)
  | _ + 1, .lost => .ret (.ok (), .lost)
  | fuel + 1, .layer l inner =>
    match l.writer with
    | none => (flush fuel inner).bind fun r => .ret (r.1, .layer l r.2)
    | some w =>
      (flushWriter fuel { l with writer := none } w inner).bind fun
        | (.error e, l, _, inner) => .ret (.error e, .layer l inner)
        | (.ok _, l, w, inner) =>
          (flush fuel inner).bind fun r => .ret (r.1, .layer { l with writer := some w } r.2)

/-- `Decompress::finish`: src/decompressors.rs:192-195, 927-944. The chain is not used afterwards. -/
def finish : Nat → Chain C → Prog (Except IoErr Unit)
  | 0, _ => .stuck
  | _ + 1, .callback => .call none fun ok => .ret (if ok then .ok () else .error .other)
  | _ + 1, .lost => .ret (.ok ())
  | fuel + 1, .layer l inner =>
    match l.writer with
    | none => finish fuel inner
    | some w =>
      (flushWriter fuel { l with writer := none } w inner).bind fun
        | (.error e, _, _, _) => .ret (.error e)
        | (.ok _, _, w, inner) =>
          match w.finish with
          | .error e => .ret (.error e)
          | .ok out =>
            (writeAll fuel inner out).bind fun
              | (.error e, _) => .ret (.error e)
              | (.ok _, inner) => finish fuel inner

/-- src/decompressors.rs:332-345 `decompress` (without the timer). -/
def decompress (fuel : Nat) (c : Chain C) (data : Bytes) : Prog (Except IoErr Unit × Chain C) :=
  (writeAll fuel c data).bind fun
    | (.error e, c) => .ret (.error e, c)
    | (.ok _, c) => flush fuel c

/-- src/decompressors.rs:275-289 `prepend` (738-754 `InnerDecompressor::new`), for an encoding other than ERROR. -/
def prepend (lzma : Bool) (c : Chain C) (enc : Encoding) : Chain C :=
  match Writer.new C lzma enc with
  | some (w, p) => .layer { writer := some w, encoding := enc, passthrough := p, lzma } c
  | none => c

/-- The chain for the given layers (src/request.rs:1239-1269, src/response.rs:1316-1350). -/
def build (C : Codecs) (lzma : Bool) (layers : List Encoding) : Chain C := layers.foldl (prepend lzma) .callback

end Chain

/-- The result when the callback accepts everything. -/
def Prog.accepted {α : Type} : Prog α → Option α
  | .ret a => some a
  | .stuck => none
  | .call _ next => (next true).accepted

/-- The chain after more data that it has decompressed successfully, all output having been accepted. -/
def Chain.after {C : Codecs} (fuel : Nat) : Chain C → List Bytes → Option (Chain C)
  | c, [] => some c
  | c, d :: ds =>
    match (c.decompress fuel d).accepted with
    | some (.ok _, c) => c.after fuel ds
    | _ => none

/-- As a decoding; a computation that does not end counts as a failure. -/
def Prog.toDecoding {α : Type} (ok : α → Bool) : Prog α → Decoding
  | .ret a => .done (ok a)
  | .stuck => .done false
  | .call out next => .call out fun b => (next b).toDecoding ok

/-- What the decompressor of a transaction does, computed by the chain. -/
def chainDecoding (C : Codecs) (lzma : Bool) (fuel : Nat) (d : Decompressor) (data : Option Bytes) : Decoding :=
  match (Chain.build C lzma d.layers).after fuel d.fed, data with
  | none, _ => .done false
  | some c, some data => (c.decompress fuel data).toDecoding fun r => r.1.toBool
  | some c, none => (c.finish fuel).toDecoding fun r => r.toBool

end Model
