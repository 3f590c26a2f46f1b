/-
A gzip decoder that works, made from a deflate decoder that works and a header.
-/
import Verif.Lemmas.GzipChain
import Verif.Spec.Decoder

namespace Model
open Spec

variable {C : Codecs}

/-- The decoder behind the header. -/
def Writer.bare (w : Writer C) : Writer C := { w with front := .none }

theorem bare_write {w : Writer C} {g : Gz} (hw : w.front = .gzip g) (hg : g.state = .afterHeader) (data : Bytes) :
    w.write data = ((w.bare.write data).1, { (w.bare.write data).2 with front := .gzip g }) := by
  have : g.write data = (.inner data, g) := by simp only [Gz.write, hg]
  obtain ⟨_, codec, buf⟩ := w
  cases hw
  simp only [Writer.write, this, Writer.bare, Writer.writeCodec]

theorem bare_flush {w : Writer C} {g : Gz} (hw : w.front = .gzip g) :
    w.flush = ((w.bare.flush).1, { (w.bare.flush).2 with front := .gzip g }) := by
  obtain ⟨_, codec, buf⟩ := w
  cases hw
  rfl

theorem bare_finish {w : Writer C} {g : Gz} (hw : w.front = .gzip g) : w.finish = w.bare.finish := by
  obtain ⟨_, codec, buf⟩ := w
  cases hw
  rfl

theorem bare_flush_front {w : Writer C} : w.bare.flush.2.front = .none := rfl

theorem bare_write_front {w : Writer C} (data : Bytes) : (w.bare.write data).2.front = .none := rfl

theorem bare_of_front {w : Writer C} (h : w.front = .none) (f : Front) : ({ w with front := f } : Writer C).bare = w := by
  obtain ⟨_, _, _⟩ := w
  cases h
  rfl

/-- A position before the end of the header, or after it. -/
def GzipAt (D : Decoder C) (flags : UInt8) (h fed out : Bytes) (w : Writer C) : Prop :=
  ∃ g, w.front = .gzip g ∧
    ((∃ r pos, g.state ≠ .afterHeader ∧ g.Expects flags r ∧ g.At pos ∧ fed ++ r = h ∧ D.At [] out w.bare) ∨
      (g.state = .afterHeader ∧ ∃ body, fed = h ++ body ∧ D.At body out w.bare))

theorem GzipAt.decoded {D : Decoder C} {flags : UInt8} {h fed out : Bytes} {w : Writer C}
    (ha : GzipAt D flags h fed out w) : D.At (fed.drop h.length) out w.bare := by
  obtain ⟨g, hw, ⟨r, pos, hs, he, hp, hf, hd⟩ | ⟨hs, body, rfl, hd⟩⟩ := ha
  · have : fed.length ≤ h.length := by rw [← hf]; simp
    rw [List.drop_eq_nil_of_le this]
    exact hd
  · rwa [List.drop_left]

/-- The same position, with another state of the decoder. -/
theorem GzipAt.same {D : Decoder C} {flags : UInt8} {h fed out out' : Bytes} {w : Writer C} {w' : Writer C}
    (ha : GzipAt D flags h fed out w) (hf : w'.front = w.front) (hd : D.At (fed.drop h.length) out' w'.bare) :
    GzipAt D flags h fed out' w' := by
  obtain ⟨g, hw, ⟨r, pos, hs, he, hp, hfr, _⟩ | ⟨hs, body, rfl, _⟩⟩ := ha
  · have : fed.length ≤ h.length := by rw [← hfr]; simp
    rw [List.drop_eq_nil_of_le this] at hd
    exact ⟨g, by rw [hf, hw], .inl ⟨r, pos, hs, he, hp, hfr, hd⟩⟩
  · rw [List.drop_left] at hd
    exact ⟨g, by rw [hf, hw], .inr ⟨hs, body, rfl, hd⟩⟩

/-- What may follow the start of something that begins with the header, or the other way round. -/
theorem prefix_cases {x r a : Bytes} (h : x <+: r ∨ r <+: x) (hxa : r = a) : x <+: a ∨ a <+: x := hxa ▸ h

/-- A gzip decoder for data with this header. -/
def gzipDecoder (D : Decoder C) (flags : UInt8) (h : Bytes) (hx : ¬ HasFlag flags 2) (hc : ¬ HasFlag flags 1) : Decoder C where
  decode x := D.decode (x.drop h.length)
  Valid x := (x <+: h ∨ h <+: x) ∧ D.Valid (x.drop h.length)
  last x := D.last (x.drop h.length)
  At := GzipAt D flags h
  valid_prefix {x y} hv := by
    refine ⟨?_, ?_⟩
    · rcases hv.1 with hv | hv
      · exact .inl ((List.prefix_append x y).trans hv)
      · exact List.prefix_or_prefix_of_prefix (List.prefix_append x y) hv
    · have := hv.2
      rw [List.drop_append] at this
      exact D.valid_prefix this
  valid_nil := ⟨.inl List.nil_prefix, by rw [List.drop_nil]; exact D.valid_nil⟩
  last_nil := by rw [List.drop_nil]; exact D.last_nil
  decode_nil := by rw [List.drop_nil]; exact D.decode_nil
  decode_prefix {x y} hv := by
    have := hv.2
    rw [List.drop_append] at this ⊢
    exact D.decode_prefix this
  hasBuffer {fed out w} ha := by
    obtain ⟨g, hw, _⟩ := ha
    unfold Writer.hasBuffer
    rw [hw]
  sofar {fed out w} ha := by
    have := D.sofar ha.decoded
    exact this
  emptied {fed out w} ha := ha.same rfl (D.emptied ha.decoded)
  write {fed out w data} ha hv hd := by
    have hdec := ha.decoded
    obtain ⟨g, hw, ⟨r, pos, hs, he, hp, hf, hD⟩ | ⟨hs, body, rfl, hD⟩⟩ := ha
    · left
      have hcases : data <+: r ∨ r <+: data := by
        have := hv.1
        rw [← hf] at this
        simpa [List.prefix_append_right_inj] using this
      by_cases hfull : r <+: data
      · obtain ⟨tail, rfl⟩ := hfull
        obtain ⟨g', h1, h2⟩ := Gz.write_full (tail := tail) he hs
        have hr := Gz.expects_ne_nil he hs
        refine ⟨r.length, { w with front := .gzip g' }, ?_, by simp, g', rfl, .inr ⟨h2, [], ?_, hD⟩⟩
        · unfold Writer.write
          rw [hw]
          dsimp only
          rw [h1]
        · rw [if_neg (fun h0 => hr (List.eq_nil_of_length_eq_zero h0)), List.take_left, hf, List.append_nil]
      · obtain ⟨r', hr'⟩ : data <+: r := hcases.resolve_right hfull
        have hne : r' ≠ [] := by
          rintro rfl
          rw [List.append_nil] at hr'
          exact hfull (hr' ▸ List.prefix_refl _)
        subst hr'
        obtain ⟨g', h1, h2, h3⟩ := Gz.write_part he hne hd hp (fun h => absurd h hc) (fun h => absurd h hx)
        have hr := Gz.expects_ne_nil h2
        have hl : data.length ≠ 0 := fun h0 => hd (List.eq_nil_of_length_eq_zero h0)
        refine ⟨data.length, { w with front := .gzip g' }, ?_, Nat.le_refl _, g', rfl, .inl ⟨r', _, ?_, h2, h3, ?_, hD⟩⟩
        · unfold Writer.write
          rw [hw]
          dsimp only
          rw [h1]
        · intro hst
          unfold Gz.Expects at h2
          simp only [hst] at h2
          exact hne h2.2
        · rw [if_neg hl, List.take_length, List.append_assoc, hf]
    · have hv2 : D.Valid (body ++ data) := by
        have := hv.2
        rwa [List.append_assoc, List.drop_left] at this
      rw [bare_write hw hs data]
      rcases D.write hD hv2 hd with ⟨n, w', h1, h2, h3⟩ | ⟨w', h1, h2, h3⟩
      · left
        have hfr : w'.front = .none := by
          have := bare_write_front (w := w) data
          rwa [h1] at this
        rw [h1]
        refine ⟨n, { w' with front := .gzip g }, rfl, h2, g, rfl, .inr ⟨hs, _, List.append_assoc .., ?_⟩⟩
        rw [bare_of_front hfr]
        exact h3
      · right
        have hfr : w'.front = .none := by
          have := bare_write_front (w := w) data
          rwa [h1] at this
        rw [h1]
        refine ⟨{ w' with front := .gzip g }, rfl, ⟨g, rfl, .inr ⟨hs, body, rfl, ?_⟩⟩, ?_⟩
        · rw [bare_of_front hfr]
          exact h2
        · rw [List.drop_left]
          exact h3
  flush {fed out w} ha hv := by
    have hdec := ha.decoded
    obtain ⟨g, hw, _⟩ := id ha
    rw [bare_flush hw]
    rcases D.flush hdec hv.2 with ⟨w', h1, h2, h3⟩ | ⟨w', h1, h2, h3⟩
    · left
      have hfr : w'.front = .none := by
        have := bare_flush_front (w := w)
        rwa [h1] at this
      rw [h1]
      exact ⟨{ w' with front := .gzip g }, rfl, ha.same (w' := { w' with front := .gzip g }) hw.symm
        (by rw [bare_of_front hfr]; exact h2), h3⟩
    · right
      have hfr : w'.front = .none := by
        have := bare_flush_front (w := w)
        rwa [h1] at this
      rw [h1]
      exact ⟨{ w' with front := .gzip g }, rfl, ha.same (w' := { w' with front := .gzip g }) hw.symm
        (by rw [bare_of_front hfr]; exact h2), h3⟩
  finish {fed w} ha hv := by
    obtain ⟨g, hw, _⟩ := id ha
    rw [bare_finish hw]
    exact D.finish ha.decoded hv.2

theorem gzipDecoder_for {D : Decoder C} {lzma : Bool} (hD : DecoderFor C lzma .deflate D) {flags : UInt8} {h : Bytes}
    (hh : IsGzipHeader flags h) (hx : ¬ HasFlag flags 2) (hc : ¬ HasFlag flags 1) :
    DecoderFor C lzma .gzip (gzipDecoder D flags h hx hc) := by
  obtain ⟨w, hw, ha⟩ := hD
  cases hw
  obtain ⟨h1, h2⟩ := Gz.expects_start hh
  exact ⟨_, rfl, {}, rfl, .inl ⟨h, 0, by simp, h1, h2, rfl, ha⟩⟩

end Model
