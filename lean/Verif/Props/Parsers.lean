/-
C08 – C11: Content-Length, chunk length, status code, protocol version.
-/
import Verif.Lemmas.Nom
import Verif.Lemmas.Numeral

namespace Props
open Model Spec Nom

/-! ### the digit scanner -/

theorem blank_not_digit : ∀ c : UInt8, nomIsSpace c = true → isDigit c = false := by decide +kernel

/-- What `ascii_digits` returns, in terms of a decomposition of the input. -/
theorem asciiDigits_iff (s r lead ds : Bytes) :
    asciiDigits s = .ok r (lead, ds) ↔
      ∃ b1 b2, s = b1 ++ lead ++ ds ++ b2 ++ r ∧ (∀ c ∈ b1, nomIsSpace c = true) ∧
        (∀ c ∈ (lead ++ ds).head?, nomIsSpace c = false) ∧ (∀ c ∈ lead, isDigit c = false) ∧
        ds ≠ [] ∧ (∀ c ∈ ds, isDigit c = true) ∧ (∀ c ∈ b2, nomIsSpace c = true) ∧
        (∀ c ∈ (b2 ++ r).head?, isDigit c = false) ∧ (∀ c ∈ r.head?, nomIsSpace c = false) := by
  simp only [asciiDigits, Nom.bind, Nom.map, nomTakeIsSpace, Nom.takeWhile, takeTill, takeWhile1]
  constructor
  · intro h
    generalize h1 : s.dropWhile nomIsSpace = s1 at h
    generalize h2 : s1.dropWhile (fun c => !isDigit c) = s2 at h
    split at h
    · rename_i r' a' hx
      split at hx
      · simp at hx
      · rename_i hne
        injection hx with hx1 hx2
        injection h with h3 h4
        injection h4 with h4 h5
        subst hx1; subst hx2; subst h3; subst h4; subst h5
        have e0 : s = s.takeWhile nomIsSpace ++ s1 := by rw [← h1, List.takeWhile_append_dropWhile]
        have e1 : s1 = s1.takeWhile (fun c => !isDigit c) ++ s2 := by
          rw [← h2, List.takeWhile_append_dropWhile]
        have e2 : s2 = s2.takeWhile isDigit ++ s2.dropWhile isDigit := by
          rw [List.takeWhile_append_dropWhile]
        have e3 := List.takeWhile_append_dropWhile (p := nomIsSpace) (l := s2.dropWhile isDigit)
        refine ⟨s.takeWhile nomIsSpace, (s2.dropWhile isDigit).takeWhile nomIsSpace, ?_,
          takeWhile_all _ _, ?_, ?_, hne, takeWhile_all _ _, takeWhile_all _ _, ?_, dropWhile_head _ _⟩
        · conv => lhs; rw [e0, e1, e2, ← e3]
          simp only [List.append_assoc]
        · intro c hc
          have : c ∈ s1.head? := by
            rw [e1, e2, ← List.append_assoc]
            cases hh : (s1.takeWhile (fun c => !isDigit c) ++ s2.takeWhile isDigit) with
            | nil => rw [hh] at hc; simp at hc
            | cons a l => rw [hh] at hc; simpa using hc
          rw [← h1] at this
          exact dropWhile_head _ _ c this
        · intro c hc
          have := takeWhile_all _ _ c hc
          simpa using this
        · rw [e3]; exact dropWhile_head _ _
    · simp at h
    · simp at h
  · rintro ⟨b1, b2, rfl, hb1, hhd, hlead, hne, hds, hb2, hd2, hr⟩
    have hhd' : ∀ c ∈ (lead ++ (ds ++ (b2 ++ r))).head?, nomIsSpace c = false := by
      intro c hc
      apply hhd c
      cases lead with
      | nil =>
        cases ds with
        | nil => exact absurd rfl hne
        | cons a l => simpa using hc
      | cons a l => simpa using hc
    have k1 := span_of_append (a := b1) (b := lead ++ (ds ++ (b2 ++ r))) hb1 hhd'
    have k2 := span_of_append (p := fun c => !isDigit c) (a := lead) (b := ds ++ (b2 ++ r))
      (by intro c hc; simp [hlead c hc])
      (by intro c hc
          cases ds with
          | nil => exact absurd rfl hne
          | cons a l => simp at hc; subst hc; simp [hds a (by simp)])
    have k3 := span_of_append (a := ds) (b := b2 ++ r) hds hd2
    have k4 := span_of_append (a := b2) (b := r) hb2 hr
    simp only [List.append_assoc, k1.2, k2.1, k2.2, k3.1, k3.2, k4.2, if_neg hne]

/-! ### C08 Content-Length -/

/-- C08: a Content-Length value denotes `n` exactly when its first maximal run of decimal digits has
the value `n` and fits in 64 bits. -/
theorem C08_parse_content_length (s : Bytes) (n : Nat) :
    parseContentLength s = some n ↔
      n < 2 ^ 64 ∧ ∃ pre ds post, s = pre ++ ds ++ post ∧ (∀ c ∈ pre, ¬ IsDecDigit c) ∧
        ds ≠ [] ∧ (∀ c ∈ ds, IsDecDigit c) ∧ (∀ c ∈ post.head?, ¬ IsDecDigit c) ∧ value 10 ds = n := by
  have nd : ∀ c, isDigit c = false ↔ ¬ IsDecDigit c := by
    intro c; rw [← isDigit_iff]; simp
  unfold parseContentLength
  constructor
  · intro h
    split at h
    · rename_i r lead ds hd
      obtain ⟨b1, b2, rfl, hb1, hhd, hlead, hne, hds, hb2, hd2, hr⟩ := (asciiDigits_iff _ _ _ _).mp hd
      have hds' : ∀ c ∈ ds, IsDecDigit c := fun c hc => (isDigit_iff c).mp (hds c hc)
      rw [fromStrRadix_digits 10 u64Max IsDecDigit (by omega) digitVal_dec not_plus_digit.1 ds hne hds'] at h
      split at h
      · rename_i hle
        injection h with h
        refine ⟨by rw [← h]; simp only [u64Max] at hle; omega, b1 ++ lead, ds, b2 ++ r,
          by simp, ?_, hne, hds', ?_, h⟩
        · intro c hc
          rw [List.mem_append] at hc
          rcases hc with hc | hc
          · exact (nd c).mp (blank_not_digit c (hb1 c hc))
          · exact (nd c).mp (hlead c hc)
        · intro c hc; exact (nd c).mp (hd2 c hc)
      · simp at h
    · simp at h
  · rintro ⟨hn, pre, ds, post, rfl, hpre, hne, hds, hpost, hv⟩
    have hd : asciiDigits (pre ++ ds ++ post) =
        .ok (post.dropWhile nomIsSpace) (pre.dropWhile nomIsSpace, ds) := by
      rw [asciiDigits_iff]
      have e1 := List.takeWhile_append_dropWhile (p := nomIsSpace) (l := pre)
      have e2 := List.takeWhile_append_dropWhile (p := nomIsSpace) (l := post)
      refine ⟨pre.takeWhile nomIsSpace, post.takeWhile nomIsSpace, ?_, takeWhile_all _ _, ?_, ?_, hne,
        fun c hc => (isDigit_iff c).mpr (hds c hc), takeWhile_all _ _, ?_, dropWhile_head _ _⟩
      · conv => lhs; rw [← e1, ← e2]
        simp only [List.append_assoc]
      · intro c hc
        cases hd : pre.dropWhile nomIsSpace with
        | nil =>
          rw [hd] at hc
          cases ds with
          | nil => exact absurd rfl hne
          | cons a l =>
            simp at hc; subst hc
            have := hds a (by simp)
            rw [← isDigit_iff] at this
            cases hb : nomIsSpace a with
            | false => rfl
            | true => rw [blank_not_digit a hb] at this; simp at this
        | cons a l =>
          rw [hd] at hc
          apply dropWhile_head nomIsSpace pre
          rw [hd]; simpa using hc
      · intro c hc
        rw [nd]; exact hpre c (List.dropWhile_subset nomIsSpace hc)
      · rw [e2]; intro c hc; rw [nd]; exact hpost c hc
    rw [hd]
    simp only
    rw [fromStrRadix_digits 10 u64Max IsDecDigit (by omega) digitVal_dec not_plus_digit.1 ds hne hds, hv,
      if_pos (by simp only [u64Max]; omega)]

/-- C08: a rendered number is read back, whatever digit-free text precedes it and whatever follows it
that does not start with a digit. -/
theorem C08_content_length_render (n : Nat) (hn : n < 2 ^ 64) (pre post : Bytes)
    (hpre : ∀ c ∈ pre, ¬ IsDecDigit c) (hpost : ∀ c ∈ post.head?, ¬ IsDecDigit c) :
    parseContentLength (pre ++ render 10 n ++ post) = some n := by
  rw [C08_parse_content_length]
  obtain ⟨h1, h2, _⟩ := render_props 10 (by omega) (by omega) n
  exact ⟨hn, pre, _, post, rfl, hpre, h1, render_dec_digits n, hpost, h2⟩

example : parseContentLength (b! " \t 0134 ") = some 134 := by decide +kernel
example : parseContentLength (b! "18446744073709551615") = some 18446744073709551615 ∧
    parseContentLength (b! "18446744073709551616") = none := by decide +kernel
example : parseContentLength (b! "x12,34") = some 12 ∧ parseContentLength (b! "abc") = none := by
  decide +kernel

/-! ### C09 chunk length -/

theorem ctl_not_hex : ∀ c : UInt8, isChunkedCtlChar c = true → isHexDigit c = false := by decide +kernel
theorem blank_ctl : ∀ c : UInt8, nomIsSpace c = true → isChunkedCtlChar c = true := by decide +kernel
theorem blank_not_hex : ∀ c : UInt8, nomIsSpace c = true → isHexDigit c = false := by decide +kernel

/-- How a chunk size line is cut: control characters, hexadecimal digits, the rest. -/
theorem chunk_line (ctl ds post : Bytes) (hctl : ∀ c ∈ ctl, isChunkedCtlChar c = true)
    (hhd : ∀ c ∈ (ds ++ post).head?, isChunkedCtlChar c = false)
    (hds : ∀ c ∈ ds, isHexDigit c = true) (hpost : ∀ c ∈ post.head?, isHexDigit c = false) :
    Nom.bind takeChunkedCtlChars (fun _ => hexDigits) (ctl ++ ds ++ post) =
      .ok (post.dropWhile nomIsSpace) ds := by
  have k1 := span_of_append (a := ctl) (b := ds ++ post) hctl hhd
  have hb : ∀ c ∈ (ds ++ post).head?, nomIsSpace c = false := by
    intro c hc
    have := hhd c hc
    cases hb : nomIsSpace c with
    | false => rfl
    | true => rw [blank_ctl c hb] at this; simp at this
  have k2 := takeWhile_eq_nil_of_head hb
  have k3 := span_of_append (a := ds) (b := post) hds hpost
  simp only [Nom.bind, takeChunkedCtlChars, hexDigits, Nom.takeWhile, nomTakeIsSpace, Nom.map,
    List.append_assoc, k1.2, k2.2, k3.1, k3.2]

/-- C09: on a line made of leading control white space, hexadecimal digits denoting `v` and any tail
that does not begin with a further digit, the result is: `v` (with the extension mark exactly when the
tail contains ';') if `v` is at most 2^31-1; no length if `v` is larger but below 2^64; an error
otherwise. -/
theorem C09_parse_chunked_length (ctl ds post : Bytes)
    (hctl : ∀ c ∈ ctl, c ∈ [0x0d, 0x0a, 0x20, 0x09, 0x0b, 0x0c]) (hne : ds ≠ [])
    (hds : ∀ c ∈ ds, IsHexDigit c) (hpost : ∀ c ∈ post.head?, ¬ IsHexDigit c) :
    parseChunkedLength (ctl ++ ds ++ post) =
      if value 16 ds ≤ 2147483647 then .ok (some (value 16 ds)) (decide (59 ∈ post))
      else if value 16 ds < 2 ^ 64 then .ok none false
      else .error := by
  have hx : ∀ c ∈ ds, isHexDigit c = true := fun c hc => (isHexDigit_iff c).mpr (hds c hc)
  have line := chunk_line ctl ds post
    (by have : ∀ c : UInt8, c ∈ [0x0d, 0x0a, 0x20, 0x09, 0x0b, 0x0c] → isChunkedCtlChar c = true := by
          decide +kernel
        exact fun c hc => this c (hctl c hc))
    (by intro c hc
        cases ds with
        | nil => exact absurd rfl hne
        | cons a l =>
          simp at hc; subst hc
          have := hx a (by simp)
          cases hb : isChunkedCtlChar a with
          | false => rfl
          | true => rw [ctl_not_hex a hb] at this; simp at this)
    hx
    (by intro c hc
        have := hpost c hc
        rw [← isHexDigit_iff] at this; simpa using this)
  have hsemi : (post.dropWhile nomIsSpace).contains 59 = decide (59 ∈ post) := by
    rw [List.contains_eq_mem]
    have e := List.takeWhile_append_dropWhile (p := nomIsSpace) (l := post)
    have : (59 ∈ post ↔ 59 ∈ post.dropWhile nomIsSpace) := by
      conv => lhs; rw [← e]
      rw [List.mem_append]
      constructor
      · rintro (h | h)
        · have := takeWhile_all _ _ _ h; simp [nomIsSpace] at this
        · exact h
      · exact .inr
    simp [this]
  unfold parseChunkedLength
  rw [line]
  simp only [hne, and_false, if_false]
  rw [fromStrRadix_digits 16 u64Max IsHexDigit (by omega) digitVal_hex not_plus_digit.2 ds hne hds]
  have hu : u64Max = 2 ^ 64 - 1 := by decide
  by_cases h1 : value 16 ds ≤ 2147483647
  · rw [if_pos (by rw [hu]; omega), if_pos h1]
    simp only [hsemi]
    rw [if_neg (by omega)]
  · rw [if_neg h1]
    by_cases h2 : value 16 ds < 2 ^ 64
    · rw [if_pos (by rw [hu]; omega), if_pos h2]
      simp only
      rw [if_pos (by omega)]
    · rw [if_neg (by rw [hu]; omega), if_neg h2]

/-- C09: without digits after the control characters, the line has no length when it is empty and is
an error otherwise. Together with `C09_parse_chunked_length` this covers every line. -/
theorem C09_parse_chunked_length_no_digits (ctl post : Bytes)
    (hctl : ∀ c ∈ ctl, c ∈ [0x0d, 0x0a, 0x20, 0x09, 0x0b, 0x0c])
    (hpost : ∀ c ∈ post.head?, ¬ IsHexDigit c ∧ c ∉ [0x0d, 0x0a, 0x20, 0x09, 0x0b, 0x0c]) :
    parseChunkedLength (ctl ++ post) = if post = [] then .ok none false else .error := by
  have hq : ∀ c : UInt8, c ∈ [0x0d, 0x0a, 0x20, 0x09, 0x0b, 0x0c] ↔ isChunkedCtlChar c = true := by
    decide +kernel
  have hnc : ∀ c ∈ post.head?, isChunkedCtlChar c = false := by
    intro c hc; have := (hpost c hc).2; rw [hq] at this; simpa using this
  have line := chunk_line ctl [] post (fun c hc => (hq c).mp (hctl c hc)) hnc (by simp)
    (by intro c hc; have := (hpost c hc).1; rw [← isHexDigit_iff] at this; simpa using this)
  have hb : post.dropWhile nomIsSpace = post := by
    apply (takeWhile_eq_nil_of_head _).2
    intro c hc
    have := hnc c hc
    cases hb : nomIsSpace c with
    | false => rfl
    | true => rw [blank_ctl c hb] at this; simp at this
  rw [List.append_nil] at line
  unfold parseChunkedLength
  rw [line, hb]
  by_cases hp : post = []
  · simp [hp]
  · have : fromStrRadix 16 u64Max [] = none := rfl
    simp [hp, this]

/-- C09: hexadecimal rendering round trip, with blanks or an extension behind the number. -/
theorem C09_chunk_length_render (n : Nat) (hn : n ≤ 2147483647) (post : Bytes)
    (hpost : ∀ c ∈ post.head?, ¬ IsHexDigit c) :
    parseChunkedLength (render 16 n ++ post) = .ok (some n) (decide (59 ∈ post)) := by
  obtain ⟨h1, h2, _⟩ := render_props 16 (by omega) (by omega) n
  have := C09_parse_chunked_length [] (render 16 n) post (by simp) h1 (render_hex_digits n) hpost
  rw [h2, if_pos hn] at this
  simpa using this

/-- C09: no chunk length above 2^31-1 is ever reported. -/
theorem C09_chunk_length_bound (s : Bytes) (n : Nat) (e : Bool)
    (h : parseChunkedLength s = .ok (some n) e) : n ≤ 2147483647 := by
  unfold parseChunkedLength at h
  split at h
  · split at h
    · simp at h
    · split at h
      · simp at h
      · split at h
        · simp at h
        · rename_i hle
          simp at h; omega
  · simp at h

example : parseChunkedLength (b! "\r\n 7fFFffff ; name=value\r\n") = .ok (some 2147483647) true := by
  decide +kernel
example : parseChunkedLength (b! "80000000\r\n") = .ok none false := by decide +kernel
example : parseChunkedLength (b! "xyz\r\n") = .error := by decide +kernel

/-! ### C10 status code -/

/-- C10: the status is the number `n` exactly when the text is blanks, digits of value `n` between 100
and 999, blanks; everything else is invalid. -/
theorem C10_parse_status (s : Bytes) (n : Nat) :
    parseStatus s = .valid n ↔
      (100 ≤ n ∧ n ≤ 999) ∧ ∃ b1 ds b2, s = b1 ++ ds ++ b2 ∧
        (∀ c ∈ b1, c = 32 ∨ c = 9) ∧ ds ≠ [] ∧ (∀ c ∈ ds, IsDecDigit c) ∧
        (∀ c ∈ b2, c = 32 ∨ c = 9) ∧ value 10 ds = n := by
  have hq : ∀ c : UInt8, nomIsSpace c = true ↔ (c = 32 ∨ c = 9) := by decide +kernel
  have hdb : ∀ c : UInt8, isDigit c = true → nomIsSpace c = false := by decide +kernel
  unfold parseStatus
  constructor
  · intro h
    split at h
    · rename_i r lead ds hd
      obtain ⟨b1, b2, rfl, hb1, hhd, hlead, hne, hds, hb2, hd2, hr⟩ := (asciiDigits_iff _ _ _ _).mp hd
      have hds' : ∀ c ∈ ds, IsDecDigit c := fun c hc => (isDigit_iff c).mp (hds c hc)
      split at h
      · simp at h
      · rename_i hrl
        simp only [ne_eq, not_or, Decidable.not_not] at hrl
        obtain ⟨rfl, rfl⟩ := hrl
        rw [fromStrRadix_digits 10 65535 IsDecDigit (by omega) digitVal_dec not_plus_digit.1 ds hne hds'] at h
        split at h
        · rename_i m hm
          split at h
          · rename_i hrange
            injection h with h; subst h
            split at hm
            · injection hm with hm
              exact ⟨hrange, b1, ds, b2, by simp, fun c hc => (hq c).mp (hb1 c hc), hne, hds',
                fun c hc => (hq c).mp (hb2 c hc), hm⟩
            · simp at hm
          · simp at h
        · simp at h
    · simp at h
  · rintro ⟨hn, b1, ds, b2, rfl, hb1, hne, hds, hb2, hv⟩
    have hd : asciiDigits (b1 ++ ds ++ b2) = .ok [] ([], ds) := by
      rw [asciiDigits_iff]
      refine ⟨b1, b2, by simp, fun c hc => (hq c).mpr (hb1 c hc), ?_, by simp, hne,
        fun c hc => (isDigit_iff c).mpr (hds c hc), fun c hc => (hq c).mpr (hb2 c hc), ?_, by simp⟩
      · intro c hc
        cases ds with
        | nil => exact absurd rfl hne
        | cons a l => simp at hc; subst hc; exact hdb a ((isDigit_iff a).mpr (hds a (by simp)))
      · intro c hc
        cases b2 with
        | nil => simp at hc
        | cons a l => simp at hc; subst hc; exact blank_not_digit a ((hq a).mpr (hb2 a (by simp)))
    rw [hd]
    simp only [ne_eq, not_true_eq_false, or_self, if_false]
    rw [fromStrRadix_digits 10 65535 IsDecDigit (by omega) digitVal_dec not_plus_digit.1 ds hne hds, hv,
      if_pos (by omega)]
    simp [hn]

/-- C10: the only other result is INVALID. -/
theorem C10_parse_status_else (s : Bytes) :
    parseStatus s = .invalid ∨ ∃ n, parseStatus s = .valid n := by
  unfold parseStatus
  split
  · split
    · exact .inl rfl
    · split
      · split
        · exact .inr ⟨_, rfl⟩
        · exact .inl rfl
      · exact .inl rfl
  · exact .inl rfl

example : parseStatus (b! " 404\t") = .valid 404 ∧ parseStatus (b! "0200") = .valid 200 ∧
    parseStatus (b! "99") = .invalid ∧ parseStatus (b! "1000") = .invalid ∧
    parseStatus (b! "2OO") = .invalid := by decide +kernel

/-! ### C11 protocol -/

/-- The accepted spellings of a version: white space, HTTP in any case, white space, a slash, white
space or zeros, the version text, white space. -/
def ProtocolText (version s : Bytes) : Prop :=
  ∃ w1 http w2 w3 w4, s = w1 ++ http ++ w2 ++ [47] ++ w3 ++ version ++ w4 ∧
    (∀ c ∈ w1, c ∈ [9, 10, 12, 13, 32]) ∧ EqNocase http (b! "HTTP") ∧
    (∀ c ∈ w2, c ∈ [9, 10, 12, 13, 32]) ∧ (∀ c ∈ w3, c ∈ [9, 10, 12, 13, 32, 48]) ∧
    (∀ c ∈ w4, c ∈ [9, 10, 12, 13, 32])

theorem protocolVersion_of_text (version s : Bytes)
    (hv : version = b! ".9" ∨ version = b! "1.0" ∨ version = b! "1.1") (h : ProtocolText version s) :
    ∃ b, protocolVersion s = .ok [] (version, b) := by
  obtain ⟨w1, http, w2, w3, w4, rfl, h1, h2, h3, h4, h5⟩ := h
  have ws : ∀ c : UInt8, c ∈ [9, 10, 12, 13, 32] → isAsciiWhitespace c = true := by decide +kernel
  have wz : ∀ c : UInt8, c ∈ [9, 10, 12, 13, 32, 48] → (isAsciiWhitespace c || c == 48) = true := by
    decide +kernel
  have hhead : ∀ c ∈ http.head?, isAsciiWhitespace c = false := by
    intro c hc
    obtain ⟨hl, he⟩ := h2
    cases http with
    | nil => simp at hl
    | cons a l =>
      simp at hc; subst hc
      have := he 0 (by simp) (by simp)
      have hH : ∀ a : UInt8, SameNocase a 72 → isAsciiWhitespace a = false := by decide +kernel
      exact hH a (by simpa using this)
  have hne : http ≠ [] := by intro e; subst e; simp [EqNocase] at h2
  have k1 := span_of_append (p := isAsciiWhitespace) (a := w1)
    (b := http ++ (w2 ++ (47 :: (w3 ++ (version ++ w4))))) (fun c hc => ws c (h1 c hc))
    (by intro c hc
        cases http with
        | nil => exact absurd rfl hne
        | cons a l => exact hhead c (by simpa using hc))
  have k2 : tagNoCase (b! "HTTP") (http ++ (w2 ++ (47 :: (w3 ++ (version ++ w4))))) =
      .ok (w2 ++ (47 :: (w3 ++ (version ++ w4)))) http := by
    rw [tagNoCase_ok_iff]; exact ⟨rfl, h2⟩
  have k3 := span_of_append (p := isAsciiWhitespace) (a := w2) (b := 47 :: (w3 ++ (version ++ w4)))
    (fun c hc => ws c (h3 c hc)) (by intro c hc; simp at hc; subst hc; decide)
  have k4 : tag (b! "/") (47 :: (w3 ++ (version ++ w4))) = .ok (w3 ++ (version ++ w4)) (b! "/") := by
    rw [tag_ok_iff]; exact ⟨rfl, rfl⟩
  have k5 := span_of_append (p := fun c => isAsciiWhitespace c || c == 48) (a := w3)
    (b := version ++ w4) (fun c hc => wz c (h4 c hc))
    (by rcases hv with rfl | rfl | rfl <;> (intro c hc; simp at hc; subst hc; decide))
  have k6 : alt (tag (b! ".9")) (alt (tag (b! "1.0")) (tag (b! "1.1"))) (version ++ w4) = .ok w4 version := by
    rcases hv with rfl | rfl | rfl
    · have := tag_append (b! ".9") w4
      simp only [alt, this]
    · have e1 : tag (b! ".9") (b! "1.0" ++ w4) = .err := by rw [tag_err_iff]; simp
      have := tag_append (b! "1.0") w4
      simp only [alt, e1, this]
    · have e1 : tag (b! ".9") (b! "1.1" ++ w4) = .err := by rw [tag_err_iff]; simp
      have e2 : tag (b! "1.0") (b! "1.1" ++ w4) = .err := by rw [tag_err_iff]; simp
      have := tag_append (b! "1.1") w4
      simp only [alt, e1, e2, this]
  have k7 := span_of_append (p := isAsciiWhitespace) (a := w4) (b := []) (fun c hc => ws c (h5 c hc)) (by simp)
  rw [List.append_nil] at k7
  refine ⟨!w2.isEmpty || !w3.isEmpty, ?_⟩
  simp only [protocolVersion, Nom.bind, Nom.map, takeAsciiWhitespace, Nom.takeWhile, List.append_assoc,
    List.cons_append, List.nil_append, k1.2, k2, k3.2, k3.1, k4, k5.1, k5.2, k6, k7.2]

theorem text_of_protocolVersion (version s : Bytes) (b : Bool)
    (h : protocolVersion s = .ok [] (version, b)) : ProtocolText version s ∧
      (version = b! ".9" ∨ version = b! "1.0" ∨ version = b! "1.1") := by
  have ws : ∀ c : UInt8, isAsciiWhitespace c = true → c ∈ [9, 10, 12, 13, 32] := by decide +kernel
  have wz : ∀ c : UInt8, (isAsciiWhitespace c || c == 48) = true → c ∈ [9, 10, 12, 13, 32, 48] := by
    decide +kernel
  simp only [protocolVersion, Nom.bind, Nom.map, takeAsciiWhitespace, Nom.takeWhile] at h
  have e0 := List.takeWhile_append_dropWhile (p := isAsciiWhitespace) (l := s)
  generalize s.dropWhile isAsciiWhitespace = s1 at h e0
  split at h <;> try (simp only [reduceCtorEq] at h)
  rename_i s2 http hh
  rw [tagNoCase_ok_iff] at hh
  have e1 := List.takeWhile_append_dropWhile (p := isAsciiWhitespace) (l := s2)
  generalize s2.dropWhile isAsciiWhitespace = s3 at h e1
  split at h <;> try (simp only [reduceCtorEq] at h)
  rename_i s4 sl hs
  rw [tag_ok_iff] at hs
  have e2 := List.takeWhile_append_dropWhile (p := fun c => isAsciiWhitespace c || c == 48) (l := s4)
  generalize s4.dropWhile (fun c => isAsciiWhitespace c || c == 48) = s5 at h e2
  split at h <;> try (simp only [reduceCtorEq] at h)
  rename_i s6 ver hver
  injection h with h1 h2
  injection h2 with h2 h3
  have e3 := List.takeWhile_append_dropWhile (p := isAsciiWhitespace) (l := s6)
  rw [h1, List.append_nil] at e3
  have hver' : s5 = ver ++ s6 ∧ (ver = b! ".9" ∨ ver = b! "1.0" ∨ ver = b! "1.1") := by
    simp only [alt] at hver
    split at hver
    · rename_i r a ha
      rw [tag_ok_iff] at ha
      injection hver with hv1 hv2
      subst hv1; subst hv2; exact ⟨by rw [ha.1, ha.2], .inl ha.2⟩
    · split at hver
      · rename_i r a ha
        rw [tag_ok_iff] at ha
        injection hver with hv1 hv2
        subst hv1; subst hv2; exact ⟨by rw [ha.1, ha.2], .inr (.inl ha.2)⟩
      · rw [tag_ok_iff] at hver
        exact ⟨by rw [hver.1, hver.2], .inr (.inr hver.2)⟩
      · simp at hver
    · simp at hver
  subst h2
  refine ⟨⟨s.takeWhile isAsciiWhitespace, http, s2.takeWhile isAsciiWhitespace,
    s4.takeWhile (fun c => isAsciiWhitespace c || c == 48), s6.takeWhile isAsciiWhitespace, ?_,
    fun c hc => ws c (takeWhile_all _ _ c hc), hh.2, fun c hc => ws c (takeWhile_all _ _ c hc),
    fun c hc => wz c (takeWhile_all _ _ c hc), fun c hc => ws c (takeWhile_all _ _ c hc)⟩, hver'.2⟩
  rw [e3]
  conv => lhs; rw [← e0, hh.1, ← e1, hs.1, ← e2, hver'.1]
  simp only [List.append_assoc]

/-- C11: the recognised protocol versions and exactly which texts denote them; the only other result is
INVALID. -/
theorem C11_parse_protocol (s : Bytes) :
    (parseProtocol s = .v0_9 ↔ ProtocolText (b! ".9") s) ∧
    (parseProtocol s = .v1_0 ↔ ProtocolText (b! "1.0") s) ∧
    (parseProtocol s = .v1_1 ↔ ProtocolText (b! "1.1") s) ∧
    (parseProtocol s = .invalid ↔
      ¬ ProtocolText (b! ".9") s ∧ ¬ ProtocolText (b! "1.0") s ∧ ¬ ProtocolText (b! "1.1") s) := by
  have det : ∀ v v', (v = b! ".9" ∨ v = b! "1.0" ∨ v = b! "1.1") →
      (v' = b! ".9" ∨ v' = b! "1.0" ∨ v' = b! "1.1") → ProtocolText v s → ProtocolText v' s → v = v' := by
    intro v v' hv hv' h h'
    obtain ⟨b, e⟩ := protocolVersion_of_text v s hv h
    obtain ⟨b', e'⟩ := protocolVersion_of_text v' s hv' h'
    rw [e] at e'; injection e' with _ e'; injection e'
  by_cases hex : ∃ v, (v = b! ".9" ∨ v = b! "1.0" ∨ v = b! "1.1") ∧ ProtocolText v s
  · obtain ⟨v, hv, ht⟩ := hex
    obtain ⟨b, e⟩ := protocolVersion_of_text v s hv ht
    have hp : parseProtocol s = if v = b! ".9" then .v0_9 else if v = b! "1.0" then .v1_0
        else if v = b! "1.1" then .v1_1 else .invalid := by
      simp [parseProtocol, e]
    have d9 := fun h => det v (b! ".9") hv (.inl rfl) ht h
    have d0 := fun h => det v (b! "1.0") hv (.inr (.inl rfl)) ht h
    have d1 := fun h => det v (b! "1.1") hv (.inr (.inr rfl)) ht h
    rw [hp]
    rcases hv with rfl | rfl | rfl
    · simp at d0 d1
      simp [ht, d0, d1]
    · simp at d9 d1
      simp [ht, d9, d1]
    · simp at d9 d0
      simp [ht, d9, d0]
  · have hno : parseProtocol s = .invalid := by
      unfold parseProtocol
      split
      · rename_i r v b hp
        split
        · rfl
        · rename_i hr
          simp only [ne_eq, Decidable.not_not] at hr
          subst hr
          have := text_of_protocolVersion v s b hp
          exact absurd ⟨v, this.2, this.1⟩ hex
      · rfl
    have n9 : ¬ ProtocolText (b! ".9") s := fun h => hex ⟨_, .inl rfl, h⟩
    have n0 : ¬ ProtocolText (b! "1.0") s := fun h => hex ⟨_, .inr (.inl rfl), h⟩
    have n1 : ¬ ProtocolText (b! "1.1") s := fun h => hex ⟨_, .inr (.inr rfl), h⟩
    rw [hno]; simp [n9, n0, n1]

example : parseProtocol (b! " hTTp / 0001.1 ") = .v1_1 ∧ parseProtocol (b! "HTTP/0.9") = .v0_9 ∧
    parseProtocol (b! "HTTP/1.0") = .v1_0 ∧ parseProtocol (b! "HTTP/2") = .invalid ∧
    parseProtocol (b! "HTTP/1.10") = .invalid := by decide +kernel

end Props
