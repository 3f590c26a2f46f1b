/-
Feeding a chain with one gzip layer (C43).
-/
import Verif.Lemmas.Gzip

namespace Model

open Spec

namespace Gz

/-! ### No panic -/

theorem consumed_no_panic {n : Nat} {parse : Bytes} (h : parse.length ≤ n) : consumed n parse ≠ .panic := by
  unfold consumed
  rw [if_pos h]
  simp

theorem leU16_length {d rest : Bytes} {x : Nat} (h : leU16 d = some (rest, x)) : rest.length ≤ d.length := by
  unfold leU16 at h
  split at h
  · simp only [Option.some.injEq, Prod.mk.injEq] at h
    rw [← h.1]
    simp only [List.length_cons]
    omega
  · cases h

theorem afterNul_length {d rest : Bytes} (h : afterNul d = some rest) : rest.length ≤ d.length := by
  induction d with
  | nil => cases h
  | cons c cs ih =>
    rw [afterNul_cons] at h
    split at h
    · simp only [Option.some.injEq] at h
      rw [← h]
      simp
    · exact Nat.le_trans (ih h) (by simp)

variable {g : Gz} {n : Nat} {parse : Bytes}

theorem atCrc_safe (h : parse.length ≤ n) : (g.atCrc n parse).1 ≠ .panic ∧ (g.atCrc n parse).2.state ≠ .start := by
  unfold atCrc
  split
  · cases hl : leU16 parse with
    | some x => exact ⟨consumed_no_panic (Nat.le_trans (leU16_length hl) h), by simp⟩
    | none => exact ⟨consumed_no_panic h, by simp⟩
  · exact ⟨consumed_no_panic h, by simp⟩

theorem atComment_safe (h : parse.length ≤ n) :
    (g.atComment n parse).1 ≠ .panic ∧ (g.atComment n parse).2.state ≠ .start := by
  unfold atComment
  split
  · cases hl : afterNul parse with
    | some x => exact atCrc_safe (Nat.le_trans (afterNul_length hl) h)
    | none => exact ⟨by simp, by simp⟩
  · exact atCrc_safe h

theorem atFilename_safe (h : parse.length ≤ n) :
    (g.atFilename n parse).1 ≠ .panic ∧ (g.atFilename n parse).2.state ≠ .start := by
  unfold atFilename
  split
  · cases hl : afterNul parse with
    | some x => exact atComment_safe (Nat.le_trans (afterNul_length hl) h)
    | none => exact ⟨by simp, by simp⟩
  · exact atComment_safe h

theorem atExtra_safe (h : parse.length ≤ n) :
    (g.atExtra n parse).1 ≠ .panic ∧ (g.atExtra n parse).2.state ≠ .start := by
  unfold atExtra
  split
  · split
    · exact ⟨by simp, by simp⟩
    · exact atFilename_safe (Nat.le_trans (by rw [List.length_drop]; omega) h)
  · exact atFilename_safe h

theorem atXlen_safe (h : parse.length ≤ n) :
    (g.atXlen n parse).1 ≠ .panic ∧ (g.atXlen n parse).2.state ≠ .start := by
  unfold atXlen
  split
  · cases hl : leU16 parse with
    | some x => exact atExtra_safe (Nat.le_trans (leU16_length hl) h)
    | none => exact ⟨consumed_no_panic h, by simp⟩
  · exact atExtra_safe h

theorem parseStart_length {d rest : Bytes} {f : UInt8} (h : parseStart d = .ok (some (rest, f))) :
    d.length = rest.length + 10 := by
  unfold parseStart at h
  split at h
  · split at h
    next f' rest' hd =>
      split at h
      · simp only [Except.ok.injEq, Option.some.injEq, Prod.mk.injEq] at h
        have := congrArg List.length hd
        rw [← h.1, List.length_drop]
        simp only [List.length_drop, List.length_cons] at this
        omega
      · simp at h
    · simp at h
  · cases h

theorem parseStart_short {d : Bytes} (h : parseStart d = .ok none) : d.length < 10 := by
  unfold parseStart at h
  split at h
  · split at h
    next f' rest' hd =>
      split at h
      · simp at h
      · have := congrArg List.length hd
        simp only [List.length_drop, List.length_cons] at this
        omega
    next hd =>
      have := congrArg List.length hd
      simp only [List.length_drop, List.length_nil] at this
      omega
  · cases h

/-- While the start of the header is incomplete, fewer than ten bytes are kept; unless the data has been refused. -/
def Safe (g : Gz) : Prop := g.state = .start → g.buffer.length < 10 ∨ ∃ e, parseStart g.buffer = .error e

theorem parseStart_error_append {a d : Bytes} {e : Unit} (h : parseStart a = .error e) :
    parseStart (a ++ d) = .error e := by
  unfold parseStart at h
  split at h
  next => split at h <;> (try split at h) <;> simp at h
  next hne =>
    unfold parseStart
    rw [if_neg]
    intro he
    apply hne
    have := congrArg (List.take a.length) he
    rw [List.take_take, Nat.min_comm, ← List.take_take, List.take_left, List.take_take, List.length_append,
      Nat.min_eq_left (by omega)] at this
    exact this

theorem write_safe (h : Safe g) (d : Bytes) : (g.write d).1 ≠ .panic ∧ Safe (g.write d).2 := by
  have key : ∀ {r : GzResult × Gz}, r.1 ≠ .panic ∧ r.2.state ≠ .start → r.1 ≠ .panic ∧ Safe r.2 :=
    fun h => ⟨h.1, fun hs => absurd hs h.2⟩
  cases hg : g.state
  case start =>
    cases hp : parseStart (g.buffer ++ d) with
    | error e =>
      simp only [write, hg, hp]
      refine ⟨by simp, fun _ => ?_⟩
      by_cases hb : g.buffer = []
      · simp [hb]
      · simp only [if_neg hb]
        exact .inr ⟨e, hp⟩
    | ok o =>
      cases o with
      | none =>
        simp only [write, hg, hp]
        exact ⟨by simp, fun _ => .inl (parseStart_short hp)⟩
      | some x =>
        obtain ⟨g1, hg1, _⟩ := write_start hg hp
        rw [hg1]
        refine key (atXlen_safe ?_)
        have hl := parseStart_length hp
        rw [List.length_append] at hl
        rcases h hg with h | ⟨e, h⟩
        · omega
        · rw [parseStart_error_append h] at hp
          cases hp
  case xlen => simp only [write, hg]; exact key (atXlen_safe (Nat.le_refl _))
  case extra => simp only [write, hg]; exact key (atExtra_safe (Nat.le_refl _))
  case filename => simp only [write, hg]; exact key (atFilename_safe (Nat.le_refl _))
  case comment => simp only [write, hg]; exact key (atComment_safe (Nat.le_refl _))
  case crc => simp only [write, hg]; exact key (atCrc_safe (Nat.le_refl _))
  case afterHeader => simp only [write, hg]; exact ⟨by simp, fun hs => absurd (hg.symm.trans hs) (by simp)⟩

end Gz

/-! ### The chain -/

/-- A chain with one gzip layer over the codec that hands on what it is given. -/
def gzChain (lzma : Bool) (g : Gz) (buf : Bytes) : Chain handOn :=
  .layer { writer := some { front := .gzip g, codec := (), buf }, encoding := .gzip, passthrough := false, lzma } .callback

theorem writeAll_nil (fuel : Nat) {C : Codecs} (c : Chain C) : c.writeAll (fuel + 1) [] = .ret (.ok (), c) := by
  rw [Chain.writeAll, if_pos rfl]

variable {lzma : Bool} {g g' : Gz} {buf : Bytes} {fuel : Nat}

theorem write_header {d : Bytes} {n : Nat} (h : g.write d = (.ok n, g')) (hn : n ≠ 0) :
    (gzChain lzma g buf).write (fuel + 1) d = .ret (.ok n, gzChain lzma g' buf) := by
  simp only [gzChain, Chain.write, Writer.write, h, if_neg hn, Bool.false_eq_true, if_false]

theorem write_inner {d : Bytes} (h : g.state = .afterHeader) (hd : d ≠ []) :
    (gzChain lzma g buf).write (fuel + 1) d = .ret (.ok d.length, gzChain lzma g (buf ++ d)) := by
  have : g.write d = (.inner d, g) := by simp only [Gz.write, h]
  have hn : d.length ≠ 0 := fun h => hd (List.eq_nil_of_length_eq_zero h)
  simp only [gzChain, Chain.write, Writer.write, this, Writer.writeCodec, handOn, if_neg hn, Bool.false_eq_true, if_false]

theorem writeAll_inner (d : Bytes) (h : g.state = .afterHeader) :
    (gzChain lzma g buf).writeAll (fuel + 2) d = .ret (.ok (), gzChain lzma g (buf ++ d)) := by
  by_cases hd : d = []
  · subst hd
    rw [writeAll_nil, List.append_nil]
  · have hn : d.length ≠ 0 := fun h => hd (List.eq_nil_of_length_eq_zero h)
    rw [Chain.writeAll, if_neg hd, write_inner h hd]
    simp only [Prog.bind, if_neg hn, List.drop_length]
    exact writeAll_nil _ _

theorem writeAll_part {p : Bytes} (h : g.write p = (.ok p.length, g')) (hp : p ≠ []) :
    (gzChain lzma g buf).writeAll (fuel + 2) p = .ret (.ok (), gzChain lzma g' buf) := by
  have hn : p.length ≠ 0 := fun h => hp (List.eq_nil_of_length_eq_zero h)
  rw [Chain.writeAll, if_neg hp, write_header h hn]
  simp only [Prog.bind, if_neg hn, List.drop_length]
  exact writeAll_nil _ _

theorem writeAll_full {r tail : Bytes} (h : g.write (r ++ tail) = (.ok r.length, g')) (hr : r ≠ [])
    (ha : g'.state = .afterHeader) :
    (gzChain lzma g buf).writeAll (fuel + 3) (r ++ tail) = .ret (.ok (), gzChain lzma g' (buf ++ tail)) := by
  have hn : r.length ≠ 0 := fun h => hr (List.eq_nil_of_length_eq_zero h)
  rw [Chain.writeAll, if_neg (fun h => hr (List.append_eq_nil_iff.1 h).1), write_header h hn]
  simp only [Prog.bind, if_neg hn, List.drop_left]
  exact writeAll_inner _ ha

theorem flush_gz : outputs ((gzChain lzma g buf).flush (fuel + 5)) =
    (if buf = [] then [] else [some buf], some (.ok (), gzChain lzma g [])) := by
  by_cases hb : buf = []
  · subst hb
    simp only [gzChain, Chain.flush, Chain.flushWriter, Writer.flush, Writer.hasBuffer, handOn, if_true, writeAll_nil,
      Prog.bind, outputs]
  · have hn : buf.length ≠ 0 := fun h => hb (List.eq_nil_of_length_eq_zero h)
    simp only [gzChain, Chain.flush, Chain.flushWriter, Writer.flush, Writer.hasBuffer, handOn, if_true, Chain.writeAll,
      if_neg hb, Chain.write, Prog.bind, outputs, if_neg hn, List.drop_length]

theorem decompress_gz {p buf' : Bytes} (h : (gzChain lzma g buf).writeAll (fuel + 5) p = .ret (.ok (), gzChain lzma g' buf')) :
    outputs ((gzChain lzma g buf).decompress (fuel + 5) p) =
      (if buf' = [] then [] else [some buf'], some (.ok (), gzChain lzma g' [])) := by
  rw [Chain.decompress, h]
  exact flush_gz

theorem decompressAll_step {p : Bytes} {ps : List Bytes} {out : Bytes}
    (h : (gzChain lzma g []).writeAll (fuel + 5) p = .ret (.ok (), gzChain lzma g' out)) :
    decompressAll (fuel + 5) (gzChain lzma g []) (p :: ps) =
      (decompressAll (fuel + 5) (gzChain lzma g' []) ps).map (out ++ ·) := by
  rw [decompressAll, decompress_gz h]
  by_cases ho : out = []
  · simp [ho]
  · simp [ho]

theorem decompressAll_inner (ps : List Bytes) (hs : g.state = .afterHeader) :
    decompressAll (fuel + 5) (gzChain lzma g []) ps = some ps.flatten := by
  induction ps with
  | nil => rfl
  | cons p ps ih => rw [decompressAll_step (writeAll_inner p hs), ih, Option.map_some, List.nil_append, List.flatten_cons]

theorem decompressAll_gz {flags : UInt8} (ps : List Bytes) : ∀ {g : Gz} {r body : Bytes} {pos : Nat},
    g.Expects flags r → g.At pos → ps.flatten = r ++ body →
    (∀ i, (HasFlag flags 2 → pos + (ps.take i).flatten.length ≠ 11) ∧
      (HasFlag flags 1 → (ps.take i).flatten.length + 1 ≠ r.length)) →
    decompressAll (fuel + 5) (gzChain lzma g []) ps = some body := by
  induction ps with
  | nil =>
    intro g r body pos _ _ hf _
    have := (List.append_eq_nil_iff.1 hf.symm).2
    rw [decompressAll, this]
  | cons p ps ih =>
    intro g r body pos he ha hf hcut
    rw [List.flatten_cons] at hf
    by_cases hs : g.state = .afterHeader
    · have hr : r = [] := by
        unfold Gz.Expects at he
        simp only [hs] at he
        exact he.2
      subst hr
      rw [decompressAll_inner _ hs, List.flatten_cons, hf, List.nil_append]
    · by_cases hp : p = []
      · subst hp
        rw [decompressAll_step (writeAll_nil _ _)]
        rw [ih he ha hf (fun i => by simpa using hcut (i + 1)), Option.map_some, List.nil_append]
      · have full : ∀ a, p = r ++ a → body = a ++ ps.flatten →
            decompressAll (fuel + 5) (gzChain lzma g []) (p :: ps) = some body := by
          rintro a rfl hb
          obtain ⟨g', h1, h2⟩ := Gz.write_full (tail := a) he hs
          rw [decompressAll_step (writeAll_full h1 (Gz.expects_ne_nil he hs) h2), List.nil_append]
          rw [decompressAll_inner _ h2, Option.map_some, hb]
        rcases List.append_eq_append_iff.1 hf with ⟨a, h1, h2⟩ | ⟨a, h1, h2⟩
        · by_cases han : a = []
          · subst han
            rw [List.append_nil] at h1
            exact full [] (by rw [h1, List.append_nil]) (by rw [h2, List.nil_append, List.nil_append])
          · subst h1
            have hc1 := hcut 1
            simp only [List.take_succ_cons, List.take_zero, List.flatten_cons, List.flatten_nil, List.append_nil] at hc1
            obtain ⟨g', h3, h4, h5⟩ := Gz.write_part he han hp ha
              (fun hb h => hc1.2 hb (by rw [List.length_append, h])) hc1.1
            rw [decompressAll_step (writeAll_part h3 hp), ih h4 h5 h2 fun i => ?_]
            · rfl
            · have := hcut (i + 1)
              simp only [List.take_succ_cons, List.flatten_cons, List.length_append] at this
              refine ⟨fun hb => ?_, fun hb => ?_⟩
              · have := this.1 hb
                omega
              · have := this.2 hb
                omega
        · exact full a h1 h2

end Model
