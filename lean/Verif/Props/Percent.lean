/-
C14 – C17: percent-decoding of components and of paths.
-/
import Verif.Lemmas.PercentPath
import Mathlib.Tactic.Tauto

namespace Props
open Model Spec Spec.Percent

variable {ovf : Bool} {cfg : DecoderConfig}

/-- The decoder computes exactly what the specification allows: `t` with anomalies `n`. -/
theorem C15_decode_spec {s t : Bytes} {n : List Note} (h : Decodes (optsOf cfg) s t n)
    (hp : cfg.urlEncodingInvalidHandling ≠ .processInvalid) :
    ∃ flags code, decodeUri ovf cfg s = .ok [] ⟨t, flags, code⟩ ∧
      ∀ a, isSet flags (noteFlag a) = true ↔ a ∈ n := by
  obtain ⟨code, hc⟩ := decodeUri_of_decodes (ovf := ovf) h (fun e => absurd e hp) (s.length + 1)
    ⟨[], 0, .ignore⟩ (by omega)
  refine ⟨noteFlags n, code, ?_, noteFlags_isSet n⟩
  rw [decodeUri, hc]
  simp [zero_setFlag]

/-- C15: with invalid encodings preserved or stripped, decoding always succeeds (no panic, no error)
and returns a text the specification allows. -/
theorem C15_decode_total (hp : cfg.urlEncodingInvalidHandling ≠ .processInvalid) (s : Bytes) :
    ∃ t n flags code, Decodes (optsOf cfg) s t n ∧ decodeUri ovf cfg s = .ok [] ⟨t, flags, code⟩ ∧
      ∀ a, isSet flags (noteFlag a) = true ↔ a ∈ n := by
  obtain ⟨t, n, h⟩ := decodes_total (optsOf cfg) s
  obtain ⟨flags, code, h1, h2⟩ := C15_decode_spec (ovf := ovf) h hp
  exact ⟨t, n, flags, code, h, h1, h2⟩

theorem decodes_length {o : Opts} {s t : Bytes} {n : List Note} (h : Decodes o s t n) :
    t.length ≤ s.length := by
  induction h with
  | bad _ _ _ _ ih => split <;> simp_all <;> omega
  | _ => simp_all <;> omega

/-- C15: the output is never longer than the input. -/
theorem C15_decode_never_grows (hp : cfg.urlEncodingInvalidHandling ≠ .processInvalid) (s : Bytes) :
    ∃ d, decodeUri ovf cfg s = .ok [] d ∧ d.bytes.length ≤ s.length := by
  obtain ⟨t, n, flags, code, h, h1, _⟩ := C15_decode_total (ovf := ovf) hp s
  exact ⟨_, h1, decodes_length h⟩

/-- C15: text without '%', '+' and NUL is returned unchanged with no flag, whatever the options. -/
theorem C15_plain_identity (s : Bytes) (h : ∀ c ∈ s, c ≠ 37 ∧ c ≠ 43 ∧ c ≠ 0) :
    ∃ code, decodeUri ovf cfg s = .ok [] ⟨s, 0, code⟩ := by
  have hd : Decodes (optsOf cfg) s s [] := by
    induction s with
    | nil => exact .nil
    | cons c s ih =>
      have h1 := h c (by simp)
      exact .plain h1.1 h1.2.1 h1.2.2 (ih fun c hc => h c (by simp [hc]))
  obtain ⟨code, hc⟩ := decodeUri_of_decodes (ovf := ovf) hd (by simp) (s.length + 1)
    ⟨[], 0, .ignore⟩ (by omega)
  exact ⟨code, by rw [decodeUri, hc]; simp [noteFlags, setFlag_zero]⟩

/-- Findings: processing invalid encodings panics in a build with overflow checks. -/
theorem C15_process_invalid_panics :
    decodeUri true { urlEncodingInvalidHandling := .processInvalid } (b! "%`0") = .panic ∧
    pathDecodeUri true { urlEncodingInvalidHandling := .processInvalid } (b! "/%`0") = .panic := by
  decide +kernel

example : decodeUri true {} (b! "a%20b%zz+c") =
    .ok [] ⟨b! "a b%zz c", Flag.URLEN_INVALID_ENCODING, .ignore⟩ := by decide +kernel
example : Decodes (optsOf {}) (b! "a%2b") (b! "a+") [] :=
  .plain (by decide) (by decide) (by decide) (.hex (by decide) (by decide) (by decide) .nil)

/-- What the specification says about an encoding of `s`. -/
theorem decodes_of_encodes {o : Opts} {s e : Bytes} (h : Encodes s e) (hn : o.escNulStops = false ∨ 0 ∉ s) :
    ∃ n, Decodes o e s n ∧ (∀ a ∈ n, a = .escapedNul) ∧ (.escapedNul ∈ n ↔ 0 ∈ s) := by
  induction h with
  | nil => exact ⟨[], .nil, by simp, by simp⟩
  | @cons c x y s e hx hy hc _ ih =>
    obtain ⟨n, h1, h2, h3⟩ := ih (hn.imp id fun h hm => h (by simp [hm]))
    have hb : hexByte x y = c := by
      apply UInt8.toNat_inj.mp
      have := digitValue_lt x hx
      have := digitValue_lt y hy
      rw [hexByte, UInt8.toNat_ofNat', hc]; omega
    by_cases h0 : c = 0
    · subst h0
      refine ⟨.escapedNul :: n, .hexNul hx hy hb ?_ h1, ?_, by simp⟩
      · rcases hn with hn | hn
        · exact hn
        · simp at hn
      · intro a ha
        rcases List.mem_cons.mp ha with h | h
        · exact h
        · exact h2 a h
    · have := Decodes.hex (o := o) hx hy (by rw [hb]; exact h0) h1
      rw [hb] at this
      refine ⟨n, this, h2, ?_⟩
      rw [h3]; simp [Ne.symm h0]
  | @lit c s e h37 h43 h0 _ ih =>
    obtain ⟨n, h1, h2, h3⟩ := ih (hn.imp id fun h hm => h (by simp [hm]))
    refine ⟨n, .plain h37 h43 h0 h1, h2, ?_⟩
    rw [h3]; simp [Ne.symm h0]

/-- C14: decoding any percent-encoding of `s` returns `s`; no flag but (if `s` has a NUL) the
encoded-NUL flag is raised. All options, all builds, as long as an encoded NUL does not stop the
decoder or there is none. -/
theorem C14_decode_encode {s e : Bytes} (h : Encodes s e)
    (hn : cfg.nulEncodedTerminates = false ∨ 0 ∉ s) :
    ∃ flags code, decodeUri ovf cfg e = .ok [] ⟨s, flags, code⟩ ∧
      isSet flags Flag.URLEN_INVALID_ENCODING = false ∧
      (isSet flags Flag.URLEN_ENCODED_NUL = true ↔ 0 ∈ s) ∧
      isSet flags Flag.URLEN_RAW_NUL = false := by
  obtain ⟨n, h1, h2, h3⟩ := decodes_of_encodes (o := optsOf cfg) h hn
  have hni : Note.invalid ∉ n := fun hm => by simpa using h2 _ hm
  have hnr : Note.rawNul ∉ n := fun hm => by simpa using h2 _ hm
  obtain ⟨code, hc⟩ := decodeUri_of_decodes (ovf := ovf) h1 (fun _ => hni) (e.length + 1)
    ⟨[], 0, .ignore⟩ (by omega)
  refine ⟨noteFlags n, code, ?_, ?_, ?_, ?_⟩
  · rw [decodeUri, hc]; simp [zero_setFlag]
  · rw [← Bool.not_eq_true]; exact fun h => hni ((noteFlags_isSet n .invalid).mp h)
  · exact (noteFlags_isSet n .escapedNul).trans h3
  · rw [← Bool.not_eq_true]; exact fun h => hnr ((noteFlags_isSet n .rawNul).mp h)

example : Encodes (b! "a/\x00") (b! "a%2F%00") :=
  .lit (by decide) (by decide) (by decide) <| .cons (by decide) (by decide) (by decide) <|
  .cons (by decide) (by decide) (by decide) .nil

/-! ### NUL bytes -/

theorem hex2_app {s b : Bytes} {c : UInt8} (hc : ¬ IsHexDigit c) (h : ¬ Hex2 s) : ¬ Hex2 (s ++ c :: b) := by
  rintro ⟨x, y, r, he, hx, hy⟩
  match s with
  | [] => injection he with h1 _; subst h1; exact hc hx
  | [_] => injection he with _ h1; injection h1 with h1 _; subst h1; exact hc hy
  | x' :: y' :: s =>
    injection he with h1 h2; injection h2 with h2 h3
    subst h1; subst h2
    exact h ⟨x', y', s, rfl, hx, hy⟩

theorem letterU_app {s b : Bytes} {c : UInt8} (hc : ¬ (c = 117 ∨ c = 85)) (h : ¬ LetterU s) :
    ¬ LetterU (s ++ c :: b) := by
  rintro ⟨u, r, he, hu⟩
  match s with
  | [] => injection he with h1 _; subst h1; exact hc hu
  | u' :: s => injection he with h1 _; subst h1; exact h ⟨u', s, rfl, hu⟩

theorem uhex4_app {s b : Bytes} {c : UInt8} (hx : ¬ IsHexDigit c) (hc : ¬ (c = 117 ∨ c = 85))
    (h : ¬ UHex4 s) : ¬ UHex4 (s ++ c :: b) := by
  rintro ⟨u, a1, a2, a3, a4, r, he, hu, h1, h2, h3, h4⟩
  match s with
  | [] => simp at he; obtain ⟨rfl, _⟩ := he; exact hc hu
  | [_] => simp at he; obtain ⟨_, rfl, _⟩ := he; exact hx h1
  | [_, _] => simp at he; obtain ⟨_, _, rfl, _⟩ := he; exact hx h2
  | [_, _, _] => simp at he; obtain ⟨_, _, _, rfl, _⟩ := he; exact hx h3
  | [_, _, _, _] => simp at he; obtain ⟨_, _, _, _, rfl, _⟩ := he; exact hx h4
  | u' :: b1 :: b2 :: b3 :: b4 :: s =>
    simp at he
    obtain ⟨rfl, rfl, rfl, rfl, rfl, _⟩ := he
    exact h ⟨_, _, _, _, _, s, rfl, hu, h1, h2, h3, h4⟩

/-- Text followed by something that stops the decoder decodes like the text alone. -/
theorem decodes_stop {o : Opts} {c : UInt8} {b : Bytes} {m : List Note} (hx : ¬ IsHexDigit c)
    (hc : ¬ (c = 117 ∨ c = 85)) (hb : Decodes o (c :: b) [] m) {a t : Bytes} {n : List Note}
    (h : Decodes o a t n) : ∃ n', Decodes o (a ++ c :: b) t n' := by
  induction h with
  | nil => exact ⟨m, hb⟩
  | plain h1 h2 h3 _ ih => obtain ⟨n', h⟩ := ih; exact ⟨_, .plain h1 h2 h3 h⟩
  | plus _ ih => obtain ⟨n', h⟩ := ih; exact ⟨_, .plus h⟩
  | rawNul ho _ ih => obtain ⟨n', h⟩ := ih; exact ⟨_, .rawNul ho h⟩
  | rawNulStop ho => exact ⟨_, .rawNulStop ho⟩
  | hex h1 h2 h3 _ ih => obtain ⟨n', h⟩ := ih; exact ⟨_, .hex h1 h2 h3 h⟩
  | hexNul h1 h2 h3 h4 _ ih => obtain ⟨n', h⟩ := ih; exact ⟨_, .hexNul h1 h2 h3 h4 h⟩
  | hexNulStop h1 h2 h3 h4 => exact ⟨_, .hexNulStop h1 h2 h3 h4⟩
  | u h1 h2 h3 h4 h5 h6 h7 _ ih => obtain ⟨n', h⟩ := ih; exact ⟨_, .u h1 h2 h3 h4 h5 h6 h7 h⟩
  | uNulStop h1 h2 h3 h4 h5 h6 h7 h8 => exact ⟨_, .uNulStop h1 h2 h3 h4 h5 h6 h7 h8⟩
  | literalU h1 h2 _ ih =>
    obtain ⟨n', h⟩ := ih
    obtain ⟨u, r, rfl, hu⟩ := h2
    exact ⟨_, .literalU h1 ⟨u, _, rfl, hu⟩ h⟩
  | bad h1 h2 h3 _ ih =>
    obtain ⟨n', h⟩ := ih
    exact ⟨_, .bad (hex2_app hx h1) (fun e => uhex4_app hx hc (h2 e)) (fun e => letterU_app hc (h3 e)) h⟩

/-- C16: with raw-NUL termination, nothing after a raw NUL influences the decoded text. -/
theorem C16_raw_nul_terminates (hp : cfg.urlEncodingInvalidHandling ≠ .processInvalid)
    (ht : cfg.nulRawTerminates = true) (a b : Bytes) :
    ∃ d d', decodeUri ovf cfg (a ++ 0 :: b) = .ok [] d ∧ decodeUri ovf cfg a = .ok [] d' ∧
      d.bytes = d'.bytes := by
  obtain ⟨t, n, h⟩ := decodes_total (optsOf cfg) a
  obtain ⟨n', h'⟩ := decodes_stop (c := 0) (b := b) (by decide) (by decide) (.rawNulStop ht) h
  obtain ⟨f1, c1, e1, _⟩ := C15_decode_spec (ovf := ovf) h hp
  obtain ⟨f2, c2, e2, _⟩ := C15_decode_spec (ovf := ovf) h' hp
  exact ⟨_, _, e2, e1, rfl⟩

/-- C16: with encoded-NUL termination, nothing after `%00` influences the decoded text. -/
theorem C16_encoded_nul_terminates (hp : cfg.urlEncodingInvalidHandling ≠ .processInvalid)
    (ht : cfg.nulEncodedTerminates = true) (a b : Bytes) :
    ∃ d d', decodeUri ovf cfg (a ++ b! "%00" ++ b) = .ok [] d ∧ decodeUri ovf cfg a = .ok [] d' ∧
      d.bytes = d'.bytes := by
  obtain ⟨t, n, h⟩ := decodes_total (optsOf cfg) a
  obtain ⟨n', h'⟩ := decodes_stop (c := 37) (b := 48 :: 48 :: b) (by decide) (by decide)
    (.hexNulStop (by decide) (by decide) (by decide) ht) h
  obtain ⟨f1, c1, e1, _⟩ := C15_decode_spec (ovf := ovf) h hp
  obtain ⟨f2, c2, e2, _⟩ := C15_decode_spec (ovf := ovf) h' hp
  exact ⟨⟨_, f2, c2⟩, _, by simpa using e2, e1, rfl⟩

/-- C16: a raw NUL raises the raw-NUL flag, unless an encoded NUL ended the text before. -/
theorem C16_raw_nul_flagged (hp : cfg.urlEncodingInvalidHandling ≠ .processInvalid) (s : Bytes)
    (h0 : 0 ∈ s) : ∃ d, decodeUri ovf cfg s = .ok [] d ∧
      (isSet d.flags Flag.URLEN_RAW_NUL = true ∨
        (cfg.nulEncodedTerminates = true ∧ isSet d.flags Flag.URLEN_ENCODED_NUL = true)) := by
  have hexz : ¬ IsHexDigit 0 := by decide
  obtain ⟨t, n, flags, code, h, h1, h2⟩ := C15_decode_total (ovf := ovf) hp s
  refine ⟨_, h1, ?_⟩
  rw [show isSet flags Flag.URLEN_RAW_NUL = true ↔ _ from h2 .rawNul,
    show isSet flags Flag.URLEN_ENCODED_NUL = true ↔ _ from h2 .escapedNul]
  show _ ∨ ((optsOf cfg).escNulStops = true ∧ _)
  clear h1 h2
  induction h with
  | nil => simp at h0
  | plain h1 h2 h3 _ ih => exact ih (by simpa [Ne.symm h3] using h0)
  | plus _ ih => exact ih (by simpa using h0)
  | rawNul ho _ ih => simp
  | rawNulStop ho => simp
  | @hex x y s _ _ h1 h2 h3 _ ih =>
    refine ih ?_
    simp only [List.mem_cons] at h0
    rcases h0 with h0 | rfl | rfl | h0
    · simp at h0
    · exact absurd h1 hexz
    · exact absurd h2 hexz
    · exact h0
  | @hexNul x y s _ _ h1 h2 h3 _ _ ih =>
    have := ih (by
      simp only [List.mem_cons] at h0
      rcases h0 with h0 | rfl | rfl | h0
      · simp at h0
      · exact absurd h1 hexz
      · exact absurd h2 hexz
      · exact h0)
    simp only [List.mem_cons]
    tauto
  | hexNulStop h1 h2 h3 h4 => simp [h4]
  | @u u a b c d s _ _ h1 h2 h3 h4 h5 h6 h7 _ ih =>
    have := ih (by
      simp only [List.mem_cons] at h0
      rcases h0 with h0 | rfl | rfl | rfl | rfl | rfl | h0
      · simp at h0
      · simp at h2
      · exact absurd h3 hexz
      · exact absurd h4 hexz
      · exact absurd h5 hexz
      · exact absurd h6 hexz
      · exact h0)
    simp only [List.mem_append]
    tauto
  | uNulStop h1 h2 h3 h4 h5 h6 h7 h8 =>
    right; refine ⟨h8, ?_⟩
    simp [uNotes, h7]
  | literalU h1 h2 _ ih => exact ih (by simpa using h0)
  | bad h1 h2 h3 _ ih =>
    have := ih (by simpa using h0)
    simp only [List.mem_cons]
    tauto

/-- C16: an encoded NUL after text without escapes and NULs raises the encoded-NUL flag. -/
theorem C16_encoded_nul_flagged (hp : cfg.urlEncodingInvalidHandling ≠ .processInvalid) (a b : Bytes)
    (ha : 0 ∉ a ∧ 37 ∉ a) : ∃ d, decodeUri ovf cfg (a ++ b! "%00" ++ b) = .ok [] d ∧
      isSet d.flags Flag.URLEN_ENCODED_NUL = true := by
  have key : ∃ t n, Decodes (optsOf cfg) (a ++ 37 :: 48 :: 48 :: b) t n ∧ .escapedNul ∈ n := by
    induction a with
    | nil =>
      cases ho : cfg.nulEncodedTerminates
      · obtain ⟨t, n, h⟩ := decodes_total (optsOf cfg) b
        exact ⟨_, _, .hexNul (by decide) (by decide) (by decide) ho h, by simp⟩
      · exact ⟨_, _, .hexNulStop (by decide) (by decide) (by decide) ho, by simp⟩
    | cons c a ih =>
      simp only [List.mem_cons, not_or] at ha
      obtain ⟨t, n, h, hm⟩ := ih ⟨ha.1.2, ha.2.2⟩
      by_cases h43 : c = 43
      · subst h43; exact ⟨_, _, .plus h, hm⟩
      · exact ⟨_, _, .plain (Ne.symm ha.2.1) h43 (Ne.symm ha.1.1) h, hm⟩
  obtain ⟨t, n, h, hm⟩ := key
  obtain ⟨f, c, e, hf⟩ := C15_decode_spec (ovf := ovf) h hp
  exact ⟨_, by simpa using e, (hf .escapedNul).mpr hm⟩

example : decodeUri true { nulRawTerminates := true } (b! "ab\x00cd") =
    .ok [] ⟨b! "ab", Flag.URLEN_RAW_NUL, .ignore⟩ := by decide +kernel
example : decodeUri true { nulEncodedTerminates := true } (b! "ab%00cd") =
    .ok [] ⟨b! "ab", Flag.URLEN_ENCODED_NUL, .ignore⟩ := by decide +kernel

/-! ### paths -/

open Spec.PercentPath (Unescapes mapByte squeeze)

/-- C17: the path decoder computes exactly what the specification allows. -/
theorem C17_path_spec {s t : Bytes} {n : List PercentPath.Note}
    (h : PercentPath.Decodes (Path.optsOf cfg) s t n)
    (hp : cfg.urlEncodingInvalidHandling ≠ .processInvalid) :
    ∃ flags code, pathDecodeUri ovf cfg s = .ok [] ⟨t, flags, code⟩ ∧
      ∀ a, isSet flags (Path.noteFlag a) = true ↔ a ∈ n := by
  obtain ⟨raw, h, rfl⟩ := h
  obtain ⟨code, hc⟩ := Path.decode_of_unescapes (ovf := ovf) h (fun e => absurd e hp) (s.length + 1)
    ⟨[], 0, .ignore⟩ (by omega)
  refine ⟨Path.noteFlags n, code, ?_, Path.noteFlags_isSet n⟩
  rw [pathDecodeUri, hc]
  simp only [zero_setFlag]
  by_cases hq : cfg.pathSeparatorsCompress = true
  · rw [if_pos (show (Path.optsOf cfg).squeezeSlashes = true from hq), hq,
      Path.push_squeeze _ _ (by simp)]
    simp
  · rw [if_neg (show ¬ (Path.optsOf cfg).squeezeSlashes = true from hq), Bool.eq_false_iff.mpr hq,
      Path.push_false]
    simp

/-- C15/C17: path decoding always succeeds when invalid encodings are preserved or stripped. -/
theorem C17_path_total (hp : cfg.urlEncodingInvalidHandling ≠ .processInvalid) (s : Bytes) :
    ∃ t n flags code, PercentPath.Decodes (Path.optsOf cfg) s t n ∧
      pathDecodeUri ovf cfg s = .ok [] ⟨t, flags, code⟩ ∧
      ∀ a, isSet flags (Path.noteFlag a) = true ↔ a ∈ n := by
  obtain ⟨raw, n, h⟩ := Path.unescapes_total (Path.optsOf cfg) s
  obtain ⟨flags, code, h1, h2⟩ := C17_path_spec (ovf := ovf) ⟨raw, h, rfl⟩ hp
  exact ⟨_, n, flags, code, ⟨raw, h, rfl⟩, h1, h2⟩

theorem unescapes_length {o : PercentPath.Opts} {s t : Bytes} {n : List PercentPath.Note}
    (h : Unescapes o s t n) : t.length ≤ s.length := by
  induction h with
  | bad _ _ _ _ ih => split <;> simp_all <;> omega
  | _ => simp_all <;> omega

theorem squeeze_length : ∀ s, (squeeze s).length ≤ s.length
  | [] => by simp [squeeze]
  | [_] => by simp [squeeze]
  | c :: d :: s => by
    have := squeeze_length (d :: s)
    simp only [squeeze]
    split
    · simp at this ⊢; omega
    · simpa using this

theorem squeeze_head : ∀ (c : UInt8) (s : Bytes), (squeeze (c :: s)).head? = some c
  | c, [] => by simp [squeeze]
  | c, d :: s => by
    have := squeeze_head d s
    simp only [squeeze]
    split
    · rename_i h; obtain ⟨rfl, rfl⟩ := h; exact this
    · simp

theorem squeeze_no_double : ∀ s, ¬ [47, 47] <:+: squeeze s
  | [] => by simp [squeeze]
  | [c] => by
    rintro ⟨a, b, h⟩
    have := congrArg List.length h
    simp [squeeze] at this; omega
  | c :: d :: s => by
    have ih := squeeze_no_double (d :: s)
    simp only [squeeze]
    split
    · exact ih
    · rename_i hcd
      rintro ⟨a, b, h⟩
      match a with
      | [] =>
        simp at h
        have h1 := squeeze_head d s
        rw [← h.2] at h1
        simp at h1
        exact hcd ⟨h.1.symm, h1.symm⟩
      | x :: a =>
        simp at h
        exact ih ⟨a, b, by simpa using h.2⟩

theorem squeeze_subset : ∀ s, ∀ c ∈ squeeze s, c ∈ s
  | [] => by simp [squeeze]
  | [_] => by simp [squeeze]
  | c :: d :: s => by
    have ih := squeeze_subset (d :: s)
    intro x hx
    simp only [squeeze] at hx
    split at hx
    · exact List.mem_cons_of_mem _ (ih x hx)
    · rcases List.mem_cons.mp hx with h | h
      · simp [h]
      · exact List.mem_cons_of_mem _ (ih x h)

theorem path_mem_mapped {t s : Bytes} {n : List PercentPath.Note}
    (h : PercentPath.Decodes (Path.optsOf cfg) s t n) :
    ∀ c ∈ t, ∃ c', c = mapByte (Path.optsOf cfg) c' := by
  obtain ⟨raw, _, rfl⟩ := h
  intro c hc
  have : c ∈ raw.map (mapByte (Path.optsOf cfg)) := by
    split at hc
    · exact squeeze_subset _ _ hc
    · exact hc
  obtain ⟨c', _, h⟩ := List.mem_map.mp this
  exact ⟨c', h.symm⟩

/-- C17: the decoded path is never longer than the path. -/
theorem C17_path_never_grows (hp : cfg.urlEncodingInvalidHandling ≠ .processInvalid) (s : Bytes) :
    ∃ d, pathDecodeUri ovf cfg s = .ok [] d ∧ d.bytes.length ≤ s.length := by
  obtain ⟨t, n, flags, code, ⟨raw, h, rfl⟩, h1, _⟩ := C17_path_total (ovf := ovf) hp s
  refine ⟨_, h1, ?_⟩
  have := unescapes_length h
  show List.length _ ≤ _
  split
  · have := squeeze_length (raw.map (mapByte (Path.optsOf cfg)))
    rw [List.length_map] at this
    exact Nat.le_trans this ‹_›
  · simpa using this

/-- C17: with separator compression, no two consecutive slashes. -/
theorem C17_no_double_slash (hp : cfg.urlEncodingInvalidHandling ≠ .processInvalid)
    (hc : cfg.pathSeparatorsCompress = true) (s : Bytes) :
    ∃ d, pathDecodeUri ovf cfg s = .ok [] d ∧ ¬ b! "//" <:+: d.bytes := by
  obtain ⟨t, n, flags, code, ⟨raw, h, rfl⟩, h1, _⟩ := C17_path_total (ovf := ovf) hp s
  refine ⟨_, h1, ?_⟩
  simp only [Path.optsOf, hc, if_true]
  exact squeeze_no_double _

theorem mapByte_not_backslash (o : PercentPath.Opts) (h : o.backslashIsSlash = true) (c : UInt8) :
    mapByte o c ≠ 92 := by
  have key : ∀ (l : Bool) (c : UInt8), (if c = 92 ∧ true = true then (47 : UInt8)
      else if l = true ∧ 65 ≤ c.toNat ∧ c.toNat ≤ 90 then UInt8.ofNat (c.toNat + 32) else c) ≠ 92 := by
    intro l; cases l <;> decide +kernel
  rw [mapByte, h]; exact key _ _

theorem mapByte_not_upper (o : PercentPath.Opts) (h : o.lowercase = true) (c : UInt8) :
    ¬ (65 ≤ (mapByte o c).toNat ∧ (mapByte o c).toNat ≤ 90) := by
  have key : ∀ (b : Bool) (c : UInt8), ¬ (65 ≤ (if c = 92 ∧ b = true then (47 : UInt8)
      else if true = true ∧ 65 ≤ c.toNat ∧ c.toNat ≤ 90 then UInt8.ofNat (c.toNat + 32) else c).toNat ∧
      (if c = 92 ∧ b = true then (47 : UInt8)
      else if true = true ∧ 65 ≤ c.toNat ∧ c.toNat ≤ 90 then UInt8.ofNat (c.toNat + 32) else c).toNat ≤ 90) := by
    intro b; cases b <;> decide +kernel
  rw [mapByte, h]; exact key _ _

/-- C17: with backslash conversion, no backslash, however it was written. -/
theorem C17_no_backslash (hp : cfg.urlEncodingInvalidHandling ≠ .processInvalid)
    (hc : cfg.backslashConvertSlashes = true) (s : Bytes) :
    ∃ d, pathDecodeUri ovf cfg s = .ok [] d ∧ 92 ∉ d.bytes := by
  obtain ⟨t, n, flags, code, h, h1, _⟩ := C17_path_total (ovf := ovf) hp s
  refine ⟨_, h1, fun hm => ?_⟩
  obtain ⟨c', hc'⟩ := path_mem_mapped h _ hm
  exact mapByte_not_backslash _ hc c' hc'.symm

/-- C17: with lower-casing, no upper-case letter. -/
theorem C17_no_upper (hp : cfg.urlEncodingInvalidHandling ≠ .processInvalid)
    (hc : cfg.convertLowercase = true) (s : Bytes) :
    ∃ d, pathDecodeUri ovf cfg s = .ok [] d ∧ ∀ c ∈ d.bytes, ¬ (65 ≤ c.toNat ∧ c.toNat ≤ 90) := by
  obtain ⟨t, n, flags, code, h, h1, _⟩ := C17_path_total (ovf := ovf) hp s
  refine ⟨_, h1, fun c hm => ?_⟩
  obtain ⟨c', hc'⟩ := path_mem_mapped h _ hm
  rw [hc']
  exact mapByte_not_upper _ hc c'

example : (pathDecodeUri true { pathSeparatorsCompress := true, pathSeparatorsDecode := true, backslashConvertSlashes := true, convertLowercase := true } (b! "/A\\%5c//%2F%41%zz")) =
    .ok [] ⟨b! "/a/a%zz", setFlag Flag.PATH_ENCODED_SEPARATOR Flag.PATH_INVALID_ENCODING, .ignore⟩ := by
  decide +kernel

theorem unescapes_stop {o : PercentPath.Opts} {c : UInt8} {b : Bytes} {m : List PercentPath.Note}
    (hx : ¬ IsHexDigit c) (hc : ¬ (c = 117 ∨ c = 85)) (hb : Unescapes o (c :: b) [] m) {a t : Bytes}
    {n : List PercentPath.Note} (h : Unescapes o a t n) : ∃ n', Unescapes o (a ++ c :: b) t n' := by
  induction h with
  | nil => exact ⟨m, hb⟩
  | plain h1 h2 _ ih => obtain ⟨n', h⟩ := ih; exact ⟨_, .plain h1 h2 h⟩
  | rawNulStop ho => exact ⟨_, .rawNulStop ho⟩
  | hex h1 h2 h3 h4 _ ih => obtain ⟨n', h⟩ := ih; exact ⟨_, .hex h1 h2 h3 h4 h⟩
  | hexSep h1 h2 h3 h4 _ ih => obtain ⟨n', h⟩ := ih; exact ⟨_, .hexSep h1 h2 h3 h4 h⟩
  | hexSepKept h1 h2 h3 h4 _ ih => obtain ⟨n', h⟩ := ih; exact ⟨_, .hexSepKept h1 h2 h3 h4 h⟩
  | hexNul h1 h2 h3 h4 _ ih => obtain ⟨n', h⟩ := ih; exact ⟨_, .hexNul h1 h2 h3 h4 h⟩
  | hexNulStop h1 h2 h3 h4 => exact ⟨_, .hexNulStop h1 h2 h3 h4⟩
  | u h1 h2 h3 h4 h5 h6 h7 _ ih => obtain ⟨n', h⟩ := ih; exact ⟨_, .u h1 h2 h3 h4 h5 h6 h7 h⟩
  | uNulStop h1 h2 h3 h4 h5 h6 h7 h8 => exact ⟨_, .uNulStop h1 h2 h3 h4 h5 h6 h7 h8⟩
  | literalU h1 h2 _ ih =>
    obtain ⟨n', h⟩ := ih
    obtain ⟨u, r, rfl, hu⟩ := h2
    exact ⟨_, .literalU h1 ⟨u, _, rfl, hu⟩ h⟩
  | bad h1 h2 h3 _ ih =>
    obtain ⟨n', h⟩ := ih
    exact ⟨_, .bad (hex2_app hx h1) (fun e => uhex4_app hx hc (h2 e)) (fun e => letterU_app hc (h3 e)) h⟩

/-- C16 for paths: raw-NUL termination. -/
theorem C16_path_raw_nul_terminates (hp : cfg.urlEncodingInvalidHandling ≠ .processInvalid)
    (ht : cfg.nulRawTerminates = true) (a b : Bytes) :
    ∃ d d', pathDecodeUri ovf cfg (a ++ 0 :: b) = .ok [] d ∧ pathDecodeUri ovf cfg a = .ok [] d' ∧
      d.bytes = d'.bytes := by
  obtain ⟨t, n, h⟩ := Path.unescapes_total (Path.optsOf cfg) a
  obtain ⟨n', h'⟩ := unescapes_stop (c := 0) (b := b) (by decide) (by decide) (.rawNulStop ht) h
  obtain ⟨f1, c1, e1, _⟩ := C17_path_spec (ovf := ovf) ⟨_, h, rfl⟩ hp
  obtain ⟨f2, c2, e2, _⟩ := C17_path_spec (ovf := ovf) ⟨_, h', rfl⟩ hp
  exact ⟨_, _, e2, e1, rfl⟩

/-- C16 for paths: encoded-NUL termination. -/
theorem C16_path_encoded_nul_terminates (hp : cfg.urlEncodingInvalidHandling ≠ .processInvalid)
    (ht : cfg.nulEncodedTerminates = true) (a b : Bytes) :
    ∃ d d', pathDecodeUri ovf cfg (a ++ b! "%00" ++ b) = .ok [] d ∧ pathDecodeUri ovf cfg a = .ok [] d' ∧
      d.bytes = d'.bytes := by
  obtain ⟨t, n, h⟩ := Path.unescapes_total (Path.optsOf cfg) a
  obtain ⟨n', h'⟩ := unescapes_stop (c := 37) (b := 48 :: 48 :: b) (by decide) (by decide)
    (.hexNulStop (by decide) (by decide) (by decide) ht) h
  obtain ⟨f1, c1, e1, _⟩ := C17_path_spec (ovf := ovf) ⟨_, h, rfl⟩ hp
  obtain ⟨f2, c2, e2, _⟩ := C17_path_spec (ovf := ovf) ⟨_, h', rfl⟩ hp
  exact ⟨⟨_, f2, c2⟩, _, by simpa using e2, e1, rfl⟩

/-- Finding (C16 is false for paths in one respect): a raw NUL in a path raises no flag at all. -/
theorem C16_path_raw_nul_unflagged (t : Bytes) (h : ∀ c ∈ t, c ≠ 37) :
    ∃ d, pathDecodeUri ovf cfg t = .ok [] d ∧ d.flags = 0 := by
  have hd : ∃ r, Unescapes (Path.optsOf cfg) t r [] := by
    induction t with
    | nil => exact ⟨_, .nil⟩
    | cons c s ih =>
      obtain ⟨r, hr⟩ := ih fun c hc => h c (by simp [hc])
      by_cases h0 : c = 0
      · subst h0
        cases ho : cfg.nulRawTerminates
        · exact ⟨_, .plain (by decide) (fun _ => ho) hr⟩
        · exact ⟨_, .rawNulStop ho⟩
      · exact ⟨_, .plain (h c (by simp)) (fun e => absurd e h0) hr⟩
  obtain ⟨r, hd⟩ := hd
  obtain ⟨code, hc⟩ := Path.decode_of_unescapes (ovf := ovf) hd (by simp) (t.length + 1)
    ⟨[], 0, .ignore⟩ (by omega)
  exact ⟨_, by rw [pathDecodeUri, hc], by simp [Path.noteFlags, setFlag_zero]⟩

/-- C16 for paths, the part that holds: an encoded NUL after text without escapes raises the path's
encoded-NUL flag, unless a raw NUL that ends the path comes before. Missing: raw NULs raise no flag in a
path (`C16_path_raw_nul_unflagged`). -/
theorem C16_path_nul_flag_partial (hp : cfg.urlEncodingInvalidHandling ≠ .processInvalid) (a b : Bytes)
    (ha : 37 ∉ a ∧ (cfg.nulRawTerminates = true → 0 ∉ a)) :
    ∃ d, pathDecodeUri ovf cfg (a ++ b! "%00" ++ b) = .ok [] d ∧
      isSet d.flags Flag.PATH_ENCODED_NUL = true := by
  have key : ∃ t n, Unescapes (Path.optsOf cfg) (a ++ 37 :: 48 :: 48 :: b) t n ∧ .escapedNul ∈ n := by
    induction a with
    | nil =>
      cases ho : cfg.nulEncodedTerminates
      · obtain ⟨t, n, h⟩ := Path.unescapes_total (Path.optsOf cfg) b
        exact ⟨_, _, .hexNul (by decide) (by decide) (by decide) ho h, by simp⟩
      · exact ⟨_, _, .hexNulStop (by decide) (by decide) (by decide) ho, by simp⟩
    | cons c a ih =>
      simp only [List.mem_cons, not_or] at ha
      obtain ⟨t, n, h, hm⟩ := ih ⟨ha.1.2, fun e => (ha.2 e).2⟩
      refine ⟨_, _, .plain (Ne.symm ha.1.1) (fun e => ?_) h, hm⟩
      subst e
      cases ho : cfg.nulRawTerminates
      · exact ho
      · exact absurd rfl (ha.2 ho).1
  obtain ⟨t, n, h, hm⟩ := key
  obtain ⟨f, c, e, hf⟩ := C17_path_spec (ovf := ovf) ⟨_, h, rfl⟩ hp
  exact ⟨_, by simpa using e, (hf .escapedNul).mpr hm⟩

end Props
