/- C64: the chain of decompressors computes the composition of its decoders, however the data is cut. -/
import Verif.Lemmas.Decoder
import Verif.Lemmas.DecoderGzip

namespace Props
open Model Spec

/-- C64. For decoders that work, whatever the sizes of their buffers and of the parts in which they take data: the output
for one more piece of the body is exactly what that piece adds to the decoded body. So the output for all pieces together
is the decoded body, however it is cut. The encodings are undone in the opposite order of the list. The number of steps
needed is not known in advance, hence the bound `N`: it is finite. -/
theorem C64_decoded (C : Codecs) (lzma : Bool) (layers : List Encoding) (Ds : List (Decoder C))
    (hd : DecodersFor C lzma layers.reverse Ds) (fed : List Bytes) (data : Bytes)
    (hv : ValidAll Ds (fed.flatten ++ data)) :
    ∃ (N : Nat) (chunks : List Bytes), decodeAll Ds fed.flatten ++ chunks.flatten = decodeAll Ds (fed.flatten ++ data) ∧
      ∀ fuel, N ≤ fuel → decodingOutputs (chainDecoding C lzma fuel { layers, fed } (some data)) = (chunks.map some, true) := by
  obtain ⟨N, c, h1, h2⟩ := after_ready Ds fed (c := Chain.build C lzma layers) (fed := [])
    (by rw [decodeAll_nil]; exact build_ready hd) hv.start
  rw [List.nil_append] at h2
  obtain ⟨M, chunks, c', h3, h4, h5⟩ := decompress_gives Ds h2 hv
  refine ⟨max N M, chunks, h5, fun fuel hf => ?_⟩
  unfold chainDecoding
  rw [h1 fuel (by omega)]
  exact toDecoding_outputs _ (h3 fuel (by omega))

/-- C64. At the end of the body the output is what the decoders have held back until then, nothing for decoders that hold
back nothing. Then the end is signalled, once. -/
theorem C64_end (C : Codecs) (lzma : Bool) (layers : List Encoding) (Ds : List (Decoder C))
    (hd : DecodersFor C lzma layers.reverse Ds) (fed : List Bytes) (hv : ValidEnd Ds fed.flatten) :
    ∃ (N : Nat) (chunks : List Bytes), decodeAll Ds fed.flatten ++ chunks.flatten = decodeEnd Ds fed.flatten ∧
      ∀ fuel, N ≤ fuel →
        decodingOutputs (chainDecoding C lzma fuel { layers, fed } none) = (chunks.map some ++ [none], true) := by
  obtain ⟨N, c, h1, h2⟩ := after_ready Ds fed (c := Chain.build C lzma layers) (fed := [])
    (by rw [decodeAll_nil]; exact build_ready hd) hv.all
  rw [List.nil_append] at h2
  obtain ⟨M, chunks, h3, h4⟩ := finish_gives Ds h2 hv
  refine ⟨max N M, chunks, h4, fun fuel hf => ?_⟩
  unfold chainDecoding
  rw [h1 fuel (by omega)]
  exact toDecoding_outputs _ (h3 fuel (by omega))

/-- C64, gzip. Where raw deflate data is decoded, gzip data with a given header is as well: the header is skipped,
wherever it is cut. (For headers without extra field and checksum; see C43 for those.) -/
theorem C64_gzip (C : Codecs) (lzma : Bool) (D : Decoder C) (hD : DecoderFor C lzma .deflate D) (flags : UInt8) (h : Bytes)
    (hh : IsGzipHeader flags h) (hx : ¬ HasFlag flags 2) (hc : ¬ HasFlag flags 1) :
    ∃ G : Decoder C, DecoderFor C lzma .gzip G ∧ (∀ x, G.decode (h ++ x) = D.decode x) ∧
      (∀ x, G.last (h ++ x) = D.last x) ∧ ∀ x, D.Valid x → G.Valid (h ++ x) := by
  refine ⟨gzipDecoder D flags h hx hc, gzipDecoder_for hD hh hx hc, fun x => ?_, fun x => ?_, fun x hx => ⟨.inr (List.prefix_append ..), ?_⟩⟩
  · show D.decode ((h ++ x).drop h.length) = D.decode x
    rw [List.drop_left]
  · show D.last ((h ++ x).drop h.length) = D.last x
    rw [List.drop_left]
  · show D.Valid ((h ++ x).drop h.length)
    rwa [List.drop_left]

/-! ### An example: a decoder that doubles every byte, takes one byte at a time and has a buffer of three bytes. -/

/-- What fits into the buffer is moved there. -/
def stutterFill (s buf : Bytes) : Bytes × Bytes := (s.drop (3 - buf.length), buf ++ s.take (3 - buf.length))

/-- The example. -/
def stutter : Codecs where
  State := Bytes
  new _ := []
  write s buf data :=
    match stutterFill s buf, data with
    | ([], buf), c :: _ => (.ok 1, [c, c], buf)
    | ([], buf), [] => (.ok 0, [], buf)
    | (s, buf), _ => (.error .writeZero, s, buf)
  flush s buf :=
    match stutterFill s buf with
    | ([], buf) => (.ok (), [], buf)
    | (s, buf) => (.error .writeZero, s, buf)
  finish s buf := .ok (buf ++ s)
  hasBuffer _ := true

/-- Every byte twice. -/
def twice (x : Bytes) : Bytes := x.flatMap fun c => [c, c]

theorem stutterFill_eq (s buf : Bytes) : (stutterFill s buf).2 ++ (stutterFill s buf).1 = buf ++ s := by
  simp [stutterFill]

/-- The example with its buffer. -/
def stutterWriter (s buf : Bytes) : Writer stutter := ⟨.none, s, buf⟩

theorem stutter_write_room {s buf b : Bytes} (h : stutterFill s buf = ([], b)) (c : UInt8) (data : Bytes) :
    (stutterWriter s buf).write (c :: data) = (.ok 1, stutterWriter [c, c] b) := by
  simp only [stutterWriter, Writer.write, Writer.writeCodec, stutter, h]

theorem stutter_write_full {s buf b : Bytes} {a : UInt8} {t : Bytes} (h : stutterFill s buf = (a :: t, b)) (data : Bytes) :
    (stutterWriter s buf).write data = (.error .writeZero, stutterWriter (a :: t) b) := by
  simp only [stutterWriter, Writer.write, Writer.writeCodec, stutter, h]

theorem stutter_flush_room {s buf b : Bytes} (h : stutterFill s buf = ([], b)) :
    (stutterWriter s buf).flush = (.ok (), stutterWriter [] b) := by
  simp only [stutterWriter, Writer.flush, stutter, h]

theorem stutter_flush_full {s buf b : Bytes} {a : UInt8} {t : Bytes} (h : stutterFill s buf = (a :: t, b)) :
    (stutterWriter s buf).flush = (.error .writeZero, stutterWriter (a :: t) b) := by
  simp only [stutterWriter, Writer.flush, stutter, h]

/-- The example is a decoder that works. -/
def stutterDecoder : Decoder stutter where
  decode := twice
  Valid _ := True
  last _ := []
  At fed out w := ∃ s b, w = stutterWriter s b ∧ out ++ b ++ s = twice fed
  valid_prefix _ := trivial
  valid_nil := trivial
  decode_nil := rfl
  last_nil := rfl
  decode_prefix {x y} _ := by simp [twice]
  hasBuffer {fed out w} h := by
    obtain ⟨s, b, rfl, _⟩ := h
    rfl
  sofar {fed out w} h := by
    obtain ⟨s, b, rfl, h⟩ := h
    exact ⟨_, h⟩
  emptied {fed out w} h := by
    obtain ⟨s, b, rfl, h⟩ := h
    exact ⟨s, [], rfl, by simpa [stutterWriter] using h⟩
  write {fed out w data} h _ hd := by
    obtain ⟨s, b, rfl, h⟩ := h
    rw [List.append_assoc, ← stutterFill_eq s b] at h
    obtain ⟨c, data, rfl⟩ : ∃ c t, data = c :: t := List.exists_cons_of_ne_nil hd
    generalize hsf : stutterFill s b = p at h
    obtain ⟨s', b'⟩ := p
    dsimp only at h
    cases s' with
    | nil =>
      refine .inl ⟨1, _, stutter_write_room hsf c data, by simp, _, _, rfl, ?_⟩
      rw [List.append_nil] at h
      rw [h]
      simp [twice]
    | cons a s' =>
      refine .inr ⟨_, stutter_write_full hsf _, ⟨_, _, rfl, by simpa using h⟩, fun h0 => ?_⟩
      rw [← h0] at h
      have := congrArg List.length h
      simp at this
  flush {fed out w} h _ := by
    obtain ⟨s, b, rfl, h⟩ := h
    rw [List.append_assoc, ← stutterFill_eq s b] at h
    generalize hsf : stutterFill s b = p at h
    obtain ⟨s', b'⟩ := p
    dsimp only at h
    cases s' with
    | nil => exact .inl ⟨_, stutter_flush_room hsf, ⟨_, _, rfl, by simpa using h⟩, by simpa [stutterWriter] using h⟩
    | cons a s' =>
      refine .inr ⟨_, stutter_flush_full hsf, ⟨_, _, rfl, by simpa using h⟩, ?_⟩
      show b' ≠ []
      rintro rfl
      unfold stutterFill at hsf
      injection hsf with h1 h2
      rw [List.append_eq_nil_iff] at h2
      obtain ⟨rfl, h2⟩ := h2
      cases s with
      | nil => simp at h1
      | cons c t => simp at h2
  finish {fed w} h _ := by
    obtain ⟨s, b, rfl, h⟩ := h
    have h' : b ++ s = [] := by
      have := congrArg List.length h
      rw [List.append_assoc, List.length_append] at this
      exact List.eq_nil_of_length_eq_zero (by omega)
    show Except.ok (b ++ s) = Except.ok []
    rw [h']

theorem stutter_deflate : DecoderFor stutter true .deflate stutterDecoder := ⟨_, rfl, [], [], rfl, rfl⟩

/-- A plain gzip header. -/
def plainHeader : Bytes := [0x1f, 0x8b, 8, 0, 0, 0, 0, 0, 0, 3]

/-- Two layers, zlib inside gzip: the header is skipped, and every byte of the body appears four times. -/
example : ∃ G : Decoder stutter, DecodersFor stutter true [Encoding.zlib, .gzip].reverse [G, stutterDecoder] ∧
    ValidAll [G, stutterDecoder] ([plainHeader ++ b! "a"].flatten ++ b! "bc") ∧
    decodeAll [G, stutterDecoder] ([plainHeader ++ b! "a"].flatten ++ b! "bc") = b! "aaaabbbbcccc" := by
  have hh : IsGzipHeader 0 plainHeader := by
    have no : ∀ bit, ¬ HasFlag 0 bit := fun bit h => by simp [HasFlag] at h
    exact ⟨[0, 0, 0, 0, 0, 3], [], rfl, rfl, fun h => absurd h (no 2), fun _ => ⟨fun h => absurd h (no 3), fun _ =>
      ⟨fun h => absurd h (no 4), fun _ => ⟨fun h => absurd h (no 1), fun _ => rfl⟩⟩⟩⟩
  obtain ⟨G, h1, h2, _, h3⟩ := C64_gzip stutter true stutterDecoder stutter_deflate 0 plainHeader hh
    (by simp [HasFlag]) (by simp [HasFlag])
  refine ⟨G, ⟨h1, ⟨_, rfl, [], [], rfl, rfl⟩, trivial⟩, ⟨?_, trivial, trivial⟩, ?_⟩
  · exact h3 _ trivial
  · show twice (G.decode (plainHeader ++ b! "abc")) = _
    rw [h2]
    decide

/-- What is passed on for the second piece, in the parts in which the buffers were emptied. -/
example : decodingOutputs (chainDecoding stutter true 100 { layers := [.zlib, .gzip], fed := [plainHeader ++ b! "a"] }
    (some (b! "bc"))) = ([b! "bbb", b! "b", b! "ccc", b! "c"].map some, true) := by decide_cbv

/-- The end. -/
example : decodingOutputs (chainDecoding stutter true 100 { layers := [.zlib, .gzip], fed := [plainHeader ++ b! "a", b! "bc"] }
    none) = ([none], true) := by decide_cbv

end Props
