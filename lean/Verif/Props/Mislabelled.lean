/- C65: bodies that are not in the announced encoding are decoded with the right decoder, or given out unchanged. -/
import Verif.Lemmas.Roles

namespace Props
open Model Spec

/-- C65. The layers of a chain decode, skip or give up as specified; the output for one more piece of the body is exactly
what that piece adds to the decoded body. So it does not depend on how the body is cut. -/
theorem C65_decoded (C : Codecs) (lzma : Bool) (layers : List Encoding) (Rs : List (Role C))
    (hd : RolesFor C lzma layers.reverse Rs) (fed : List Bytes) (data : Bytes) (hv : ValidRoles Rs (fed.flatten ++ data)) :
    ∃ (N : Nat) (chunks : List Bytes), decodeRoles Rs fed.flatten ++ chunks.flatten = decodeRoles Rs (fed.flatten ++ data) ∧
      ∀ fuel, N ≤ fuel → decodingOutputs (chainDecoding C lzma fuel { layers, fed } (some data)) = (chunks.map some, true) := by
  obtain ⟨N, c, h1, h2⟩ := after_roles Rs fed (c := Chain.build C lzma layers) (fed := [])
    (by rw [decodeRoles_nil]; exact build_plays hd) hv.start
  rw [List.nil_append] at h2
  obtain ⟨M, chunks, c', h3, h4, h5⟩ := decompress_roles Rs h2 hv
  refine ⟨max N M, chunks, h5, fun fuel hf => ?_⟩
  unfold chainDecoding
  rw [h1 fuel (by omega)]
  exact toDecoding_outputs _ (h3 fuel (by omega))

/-- C65, the end of the body. -/
theorem C65_end (C : Codecs) (lzma : Bool) (layers : List Encoding) (Rs : List (Role C))
    (hd : RolesFor C lzma layers.reverse Rs) (fed : List Bytes) (hv : ValidRolesEnd Rs fed.flatten) :
    ∃ (N : Nat) (chunks : List Bytes), decodeRoles Rs fed.flatten ++ chunks.flatten = decodeRolesEnd Rs fed.flatten ∧
      ∀ fuel, N ≤ fuel →
        decodingOutputs (chainDecoding C lzma fuel { layers, fed } none) = (chunks.map some ++ [none], true) := by
  obtain ⟨N, c, h1, h2⟩ := after_roles Rs fed (c := Chain.build C lzma layers) (fed := [])
    (by rw [decodeRoles_nil]; exact build_plays hd) hv.all
  rw [List.nil_append] at h2
  obtain ⟨M, chunks, h3, h4⟩ := finish_roles Rs h2 hv
  refine ⟨max N M, chunks, h4, fun fuel hf => ?_⟩
  unfold chainDecoding
  rw [h1 fuel (by omega)]
  exact toDecoding_outputs _ (h3 fuel (by omega))

/-! ### How many decoders are tried. -/

/-- The number of layers. -/
def layerCount {C : Codecs} : Chain C → Nat
  | .layer _ inner => layerCount inner + 1
  | _ => 0

theorem layerCount_set {C : Codecs} (b : Bool) (c : Chain C) : layerCount (c.setPassthrough b) = layerCount c := by
  induction c with
  | layer l inner ih => exact congrArg (· + 1) ih
  | _ => rfl

theorem layerCount_build (C : Codecs) (lzma : Bool) (layers : List Encoding) :
    layerCount (Chain.build C lzma layers) ≤ layers.length := by
  have key : ∀ (layers : List Encoding) (c : Chain C), layerCount (layers.foldl (Chain.prepend lzma) c) ≤ layerCount c + layers.length := by
    intro layers
    induction layers with
    | nil => intro c; exact Nat.le_refl _
    | cons e es ih =>
      intro c
      rw [List.foldl_cons]
      have := ih (c.prepend lzma e)
      have hp : layerCount (c.prepend lzma e) ≤ layerCount c + 1 := by
        unfold Chain.prepend
        split
        · exact Nat.le_refl _
        · omega
      simp only [List.length_cons]
      omega
  have := key layers .callback
  rw [show layerCount (Chain.callback : Chain C) = 0 from rfl, Nat.zero_add] at this
  exact this

theorem passing_write {C : Codecs} : ∀ {c : Chain C}, Passing c → ∀ data fuel, layerCount c + 1 ≤ fuel →
    Gives (c.write fuel data) [data] (.ok data.length, c) := by
  intro c
  induction c with
  | callback =>
    intro _ data fuel hf
    obtain ⟨fuel, rfl⟩ : ∃ m, fuel = m + 1 := ⟨fuel - 1, by omega⟩
    unfold Chain.write
    rfl
  | lost => exact fun h => h.elim
  | layer l inner ih =>
    intro h data fuel hf
    simp only [layerCount] at hf
    obtain ⟨fuel, rfl⟩ : ∃ m, fuel = m + 1 := ⟨fuel - 1, by omega⟩
    unfold Chain.write
    rw [if_pos h.1]
    exact (ih h.2.2 data fuel (by omega)).bind_ret rfl

/-- C65. If the decoders of all encodings that are tried refuse the data, the first piece is given out as it is. No more
than four decoders are tried for it: the depth of the calls, one for each decoder, one for each further layer and one for
the callback, is at most the number of layers and four. -/
theorem C65_gives_up (C : Codecs) (lzma : Bool) (layers : List Encoding) (enc : Encoding) (Rs : List (Role C))
    (hd : RolesFor C lzma layers.reverse Rs) (Input : Bytes → Prop) (hr : RoleFor C lzma enc (.givesUp Input))
    (x p : Bytes) (hx : Input x) (hpx : p <+: x) (hp : p ≠ []) :
    ∃ c, outputs ((Chain.build C lzma (layers ++ [enc])).write ((layers ++ [enc]).length + 4) p) =
      ([some p], some (.ok p.length, c)) := by
  have hc := build_plays hd
  obtain ⟨hne, hw⟩ := hr
  rw [attempts_eq hne] at hw
  rw [build_append]
  obtain ⟨w, hnew, _⟩ := hw enc (by simp [rotations])
  rw [Chain.prepend, hnew]
  have ht := tries_givesUp 3 { writer := some w, encoding := enc, passthrough := false, lzma } hw ⟨rfl, rfl, w, hnew, rfl⟩ rfl
  obtain ⟨l', ⟨hwr, hrs⟩, hl⟩ := ht.write hp hx hpx (Chain.build C lzma layers)
  have hlen : (layers ++ [enc]).length + 4 = layers.length + 1 + 1 + 3 := by simp
  rw [hlen, hl, hwr.write hp hx hpx, hrs]
  have hcount := layerCount_build C lzma layers
  exact ⟨_, (passing_write hc.passing p (layers.length + 1) (by rw [layerCount_set]; omega)).bind_ret rfl⟩

/-! ### An example: decoders for data that begins with a letter of its own. -/

/-- The first byte of data in an encoding. -/
def sign : Encoding → UInt8
  | .deflate => 'd'.toNat.toUInt8
  | _ => 'z'.toNat.toUInt8

/-- The state is the encoding, and whether the first byte has been seen. Every other byte is doubled. -/
def signed : Codecs where
  State := Encoding × Bool
  new e := (e, false)
  write s buf data :=
    match s.2, data with
    | _, [] => (.ok 0, s, buf)
    | true, data => (.ok data.length, s, buf ++ data.flatMap fun c => [c, c])
    | false, c :: data =>
      if c = sign s.1 then (.ok (data.length + 1), (s.1, true), buf ++ data.flatMap fun c => [c, c]) else (.error .other, s, buf)
  flush s buf := (.ok (), s, buf)
  finish _ _ := .ok []
  hasBuffer _ := true

/-- What the decoder of the example makes of data. -/
def signedDecode (x : Bytes) : Bytes := (x.drop 1).flatMap fun c => [c, c]

/-- The decoder of the example, with its buffer. -/
def signedWriter (e : Encoding) (seen : Bool) (b : Bytes) : Writer signed := ⟨.none, (e, seen), b⟩

theorem signed_write_first (e : Encoding) (b data : Bytes) : (signedWriter e false b).write (sign e :: data) =
    (.ok (data.length + 1), signedWriter e true (b ++ data.flatMap fun c => [c, c])) := by
  simp [signedWriter, Writer.write, Writer.writeCodec, signed]

theorem signed_write_more (e : Encoding) (b : Bytes) {data : Bytes} (hd : data ≠ []) : (signedWriter e true b).write data =
    (.ok data.length, signedWriter e true (b ++ data.flatMap fun c => [c, c])) := by
  obtain ⟨c, data, rfl⟩ := List.exists_cons_of_ne_nil hd
  simp [signedWriter, Writer.write, Writer.writeCodec, signed]

/-- The example works for data that begins with the right letter. -/
def signedDecoder (e : Encoding) : Decoder signed where
  decode := signedDecode
  Valid x := [sign e] <+: x ∨ x = []
  last _ := []
  At fed out w := ∃ b, w = signedWriter e (decide (fed ≠ [])) b ∧ out ++ b = signedDecode fed
  valid_prefix {x y} h := by
    cases x with
    | nil => exact .inr rfl
    | cons c x =>
      rcases h with ⟨t, h⟩ | h
      · rw [List.cons_append, List.cons_append] at h
        injection h with h _
        exact .inl ⟨x, by rw [h]; rfl⟩
      · cases h
  valid_nil := .inr rfl
  decode_nil := rfl
  last_nil := rfl
  decode_prefix {x y} _ := by
    unfold signedDecode
    rw [List.drop_append, List.flatMap_append]
    exact List.prefix_append ..
  hasBuffer {fed out w} h := by
    obtain ⟨b, rfl, _⟩ := h
    rfl
  sofar {fed out w} h := by
    obtain ⟨b, rfl, h⟩ := h
    rw [← h]
    exact List.prefix_refl _
  emptied {fed out w} h := by
    obtain ⟨b, rfl, h⟩ := h
    exact ⟨[], rfl, by rw [← h]; simp [signedWriter]⟩
  write {fed out w data} h hv hd := by
    obtain ⟨b, rfl, h⟩ := h
    left
    cases fed with
    | nil =>
      rcases hv with ⟨t, hv⟩ | hv
      · have hdt : data = sign e :: t := hv.symm
        subst hdt
        refine ⟨_, _, signed_write_first e b t, by simp, _, rfl, ?_⟩
        have h : out ++ b = [] := h
        rw [← List.append_assoc, h]
        simp [signedDecode]
      · exact absurd hv hd
    | cons c fed =>
      have hl : data.length ≠ 0 := fun h0 => hd (List.eq_nil_of_length_eq_zero h0)
      refine ⟨_, _, signed_write_more e b hd, by simp, b ++ data.flatMap fun c => [c, c], ?_, ?_⟩
      · simp
      · rw [if_neg hl, List.take_length, ← List.append_assoc, h]
        simp [signedDecode]
  flush {fed out w} h _ := by
    obtain ⟨b, rfl, h⟩ := h
    exact .inl ⟨_, rfl, ⟨b, rfl, h⟩, h⟩
  finish {fed w} h _ := by
    obtain ⟨b, rfl, h⟩ := h
    rfl

theorem signed_flushed {f : Front} {s : Encoding × Bool} {b : Bytes} {w' : Writer signed}
    (h : Flushed (⟨f, s, b⟩ : Writer signed) w') : w' = (⟨f, s, b⟩ : Writer signed) := by
  induction h with
  | none => rfl
  | more _ ih => rw [ih]; cases f <;> rfl

theorem signed_quiet (f : Front) (s : Encoding × Bool) : Quiet (⟨f, s, []⟩ : Writer signed) := by
  intro w' h
  rw [signed_flushed h]
  cases f <;> exact ⟨rfl, rfl, rfl⟩

/-- Data that begins with another letter is refused. -/
theorem signed_refuses (e : Encoding) {c : UInt8} (hc : c ≠ sign e) (p : Bytes) :
    ((signedWriter e false []).write (c :: p)).1 = .error .other := by
  simp [signedWriter, Writer.write, Writer.writeCodec, signed, hc]

theorem starts {c : UInt8} {x p : Bytes} (h : [c] <+: x) (hp : p ≠ []) (hpx : p <+: x) : ∃ t, p = c :: t := by
  obtain ⟨a, t, rfl⟩ := List.exists_cons_of_ne_nil hp
  obtain ⟨y, rfl⟩ := h
  obtain ⟨z, hz⟩ := hpx
  injection hz with hz _
  exact ⟨t, by rw [hz]⟩

/-- A body announced as raw deflate in raw deflate. In fact it is zlib data of the example, and inside of it there is
something that no decoder accepts. It is decoded once. -/
example : ∃ Rs : List (Role signed), RolesFor signed true [Encoding.deflate, .deflate].reverse Rs ∧
    ValidRoles Rs ([b! "zx"].flatten ++ b! "yx") ∧ decodeRoles Rs ([b! "zx"].flatten ++ b! "yx") = b! "xxyyxx" := by
  refine ⟨[.decodes (signedDecoder .zlib), .givesUp fun x => b! "x" <+: x], ⟨?_, ?_, trivial⟩, ⟨.inl (by decide), ?_⟩, by decide⟩
  · refine ⟨[.deflate], .zlib, [.gzip, .deflate], rfl, ?_, _, rfl, [], rfl, rfl⟩
    intro e he
    obtain rfl : e = .deflate := by simpa using he
    refine ⟨_, rfl, signed_quiet _ _, ?_⟩
    rintro x (hx | rfl) w' hw p hp hpx
    · obtain ⟨t, rfl⟩ := starts hx hp hpx
      rw [signed_flushed hw]
      exact signed_refuses .deflate (by decide) t
    · exact absurd (List.prefix_nil.1 hpx) hp
  · refine ⟨by decide, fun e he => ?_⟩
    simp only [attempts, List.mem_cons, List.not_mem_nil, or_false] at he
    rcases he with rfl | rfl | rfl | rfl
    · refine ⟨_, rfl, signed_quiet _ _, fun x hx w' hw p hp hpx => ?_⟩
      obtain ⟨t, rfl⟩ := starts hx hp hpx
      rw [signed_flushed hw]
      exact signed_refuses .deflate (by decide) t
    · refine ⟨_, rfl, signed_quiet _ _, fun x hx w' hw p hp hpx => ?_⟩
      obtain ⟨t, rfl⟩ := starts hx hp hpx
      rw [signed_flushed hw]
      exact signed_refuses .zlib (by decide) t
    · refine ⟨_, rfl, signed_quiet _ _, fun x hx w' hw p hp hpx => ?_⟩
      obtain ⟨t, rfl⟩ := starts hx hp hpx
      rw [signed_flushed hw]
      rfl
    · refine ⟨_, rfl, signed_quiet _ _, fun x hx w' hw p hp hpx => ?_⟩
      obtain ⟨t, rfl⟩ := starts hx hp hpx
      rw [signed_flushed hw]
      exact signed_refuses .deflate (by decide) t
  · exact fun _ => ⟨[], by decide⟩

/-- What is given out for the second piece. -/
example : decodingOutputs (chainDecoding signed true 100 { layers := [.deflate, .deflate], fed := [b! "zx"] }
    (some (b! "yx"))) = ([some (b! "yyxx")], true) := by decide_cbv

/-! ### A decoder that does not refuse the first byte alone. -/

/-- As above, but the decoder for deflate looks at the second byte, which must be `d`, as one that needs more than one byte
to see that something is wrong. -/
def slow : Codecs where
  State := Encoding × Bool
  new e := (e, false)
  write s buf data :=
    match s, data with
    | _, [] => (.ok 0, s, buf)
    | (.deflate, false), [_] => (.ok 1, (.deflate, true), buf)
    | (.deflate, false), _ :: c :: data =>
      if c = sign .deflate then (.ok (data.length + 2), (.deflate, true), buf ++ data) else (.error .other, s, buf)
    | (.deflate, true), c :: data =>
      if c = sign .deflate then (.ok (data.length + 1), (.deflate, true), buf ++ data) else (.error .other, s, buf)
    | (_, true), data => (.ok data.length, s, buf ++ data.flatMap fun c => [c, c])
    | (e, false), c :: data =>
      if c = sign e then (.ok (data.length + 1), (e, true), buf ++ data.flatMap fun c => [c, c]) else (.error .other, s, buf)
  flush s buf := (.ok (), s, buf)
  finish _ _ := .ok []
  hasBuffer _ := true

/-- C65, limits. The condition that a wrong decoder refuses the first piece however short it is, is needed. Zlib data
announced as deflate is decoded if it comes in one piece, but not if its first byte comes alone: that byte was taken by the
wrong decoder, and is not given to the next one. The rest is given out without being decoded. -/
theorem C65_first_byte_alone :
    decodingOutputs (chainDecoding slow true 100 { layers := [.deflate] } (some (b! "zabc"))) = ([some (b! "aabbcc")], true) ∧
    decodingOutputs (chainDecoding slow true 100 { layers := [.deflate] } (some (b! "z"))) = ([], true) ∧
    decodingOutputs (chainDecoding slow true 100 { layers := [.deflate], fed := [b! "z"] } (some (b! "abc"))) =
      ([some (b! "abc")], true) := by
  refine ⟨?_, ?_, ?_⟩ <;> decide_cbv

end Props
