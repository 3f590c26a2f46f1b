/-
C46: Authorization headers.
-/
import Verif.Model.Parsers
import Verif.Spec.Auth
import Verif.Lemmas.Nom
import Verif.Lemmas.Span
import Verif.Props.Bstr

open Model Spec

namespace Props

/-- A word none of whose proper non-empty suffixes is a prefix of it is found first at the place where
it was put, if it does not occur before. -/
theorem takeUntil_unbordered (t pre post : Bytes)
    (hb : ∀ k, 0 < k → k < t.length → ¬ t.drop k <+: t) (hpre : ¬ t <:+: pre) :
    Nom.takeUntil t (pre ++ (t ++ post)) = .ok (t ++ post) pre := by
  obtain ⟨r, v, hv⟩ := (takeUntil_isOk t (pre ++ (t ++ post))).mpr ⟨pre, post, by simp⟩
  obtain ⟨h1, h2, h3⟩ := takeUntil_ok _ _ _ _ hv
  suffices hvp : v = pre by
    subst hvp
    rw [hv, List.append_cancel_left h1]
  rcases List.append_eq_append_iff.mp h1 with ⟨x, e1, e2⟩ | ⟨x, e1, e2⟩
  · -- v = pre ++ x
    by_cases hx : x = []
    · rw [e1, hx, List.append_nil]
    · exact absurd ⟨post, by simp⟩ (h3 pre ⟨x, e1.symm⟩ (by rw [e1]; simpa using hx))
  · -- pre = v ++ x, r = x ++ t ++ post
    by_cases hx : x = []
    · rw [e1, hx, List.append_nil]
    · exfalso
      obtain ⟨r', hr'⟩ := h2
      rw [e2] at hr'
      -- t ++ r' = x ++ (t ++ post)
      rcases List.append_eq_append_iff.mp hr' with ⟨y, f1, f2⟩ | ⟨y, f1, f2⟩
      · -- x = t ++ y
        exact hpre ⟨v, y, by rw [e1, f1]; simp⟩
      · -- t = x ++ y, t ++ post = y ++ r'
        have hxl : 0 < x.length := List.length_pos_iff.mpr hx
        by_cases hy : y = []
        · exact hpre ⟨v, [], by rw [e1, f1, hy]; simp⟩
        · have hyl : 0 < y.length := List.length_pos_iff.mpr hy
          have hlen : t.length = x.length + y.length := by rw [f1, List.length_append]
          refine hb x.length hxl (by omega) ?_
          have hd : t.drop x.length = y := by
            conv => lhs; rw [f1]
            simp
          rw [hd]
          rcases List.prefix_or_prefix_of_prefix (⟨r', f2.symm⟩ : y <+: t ++ post) (List.prefix_append t post)
            with h | h
          · exact h
          · exact absurd h.length_le (by omega)

theorem digestLoop_step (fuel : Nat) (res p r : Bytes) (hp : 34 ∉ p) :
    digestLoop (fuel + 1) res (p ++ 34 :: r) =
      if (res ++ p).getLast? = some 92 then digestLoop fuel ((res ++ p).dropLast ++ [34]) r
      else some (r, res ++ p) := by
  have hs : (p ++ 34 :: r).takeWhile (fun c => c != 34) = p ∧ (p ++ 34 :: r).dropWhile (fun c => c != 34) = 34 :: r :=
    span_of_append (fun c hc => by
      have : c ≠ 34 := fun e => hp (e ▸ hc)
      simpa using this) (by simp)
  have ht : Nom.tag (b! "\"") (34 :: r) = .ok r (b! "\"") := tag_append (b! "\"") r
  have h1 : Nom.takeUntil (b! "\"") (p ++ 34 :: r) = .ok (34 :: r) p := by
    rw [takeUntil_single, if_pos (by simp), hs.1, hs.2]
  simp only [digestLoop, Nom.bind, h1, Nom.map, ht]

/-- Splits off the part before the first quote. -/
theorem quote_split (u : Bytes) : (34 ∉ u) ∨ ∃ p q, u = p ++ 34 :: q ∧ 34 ∉ p := by
  by_cases h : 34 ∈ u
  · obtain ⟨p, q, e, hp⟩ := List.eq_append_cons_of_mem h
    exact .inr ⟨p, q, e, hp⟩
  · exact .inl h

theorem escapeQuotes_append (p q : Bytes) : escapeQuotes (p ++ q) = escapeQuotes p ++ escapeQuotes q := by
  induction p with
  | nil => rfl
  | cons c p ih => by_cases h : c = 34 <;> simp [escapeQuotes, h, ih]

theorem escapeQuotes_id (p : Bytes) (hp : 34 ∉ p) : escapeQuotes p = p := by
  induction p with
  | nil => rfl
  | cons c p ih =>
    simp only [List.mem_cons, not_or] at hp
    simp [escapeQuotes, ih hp.2, Ne.symm hp.1]

theorem escapeQuotes_length (u : Bytes) : u.length ≤ (escapeQuotes u).length := by
  induction u with
  | nil => simp
  | cons c u ih => by_cases h : c = 34 <;> simp [escapeQuotes, h] <;> omega

theorem digestLoop_escaped : ∀ (n : Nat) (u res rest : Bytes) (fuel : Nat), u.length ≤ n →
    (escapeQuotes u).length < fuel → (res ++ u).getLast? ≠ some 92 →
    digestLoop fuel res (escapeQuotes u ++ 34 :: rest) = some (rest, res ++ u) := by
  intro n
  induction n with
  | zero =>
    intro u res rest fuel hn hf hl
    have : u = [] := List.length_eq_zero_iff.mp (Nat.le_zero.mp hn)
    subst this
    obtain ⟨f, rfl⟩ : ∃ f, fuel = f + 1 := ⟨fuel - 1, by omega⟩
    have := digestLoop_step f res [] rest (by simp)
    simp only [List.nil_append] at this
    rw [show escapeQuotes [] ++ 34 :: rest = 34 :: rest from rfl, this, if_neg hl]
  | succ n ih =>
    intro u res rest fuel hn hf hl
    obtain ⟨f, rfl⟩ : ∃ f, fuel = f + 1 := ⟨fuel - 1, by omega⟩
    rcases quote_split u with h | ⟨p, q, e, hp⟩
    · rw [escapeQuotes_id u h, digestLoop_step f res u rest h, if_neg hl]
    · subst e
      have he : escapeQuotes (p ++ 34 :: q) ++ 34 :: rest = (p ++ [92]) ++ 34 :: (escapeQuotes q ++ 34 :: rest) := by
        rw [escapeQuotes_append, escapeQuotes_id p hp]; simp [escapeQuotes]
      have hlen : (escapeQuotes (p ++ 34 :: q)).length = p.length + 2 + (escapeQuotes q).length := by
        rw [escapeQuotes_append, escapeQuotes_id p hp]; simp [escapeQuotes]; omega
      rw [he, digestLoop_step f res (p ++ [92]) _ (by simp [hp])]
      have hd : (res ++ (p ++ [92])).dropLast ++ [34] = res ++ (p ++ [34]) := by
        rw [← List.append_assoc, List.dropLast_concat, List.append_assoc]
      rw [if_pos (by rw [← List.append_assoc, List.getLast?_concat]), hd,
        ih q (res ++ (p ++ [34])) rest f (by simp at hn; omega) (by rw [hlen] at hf; omega) (by simpa using hl)]
      simp

/-- C46: the username of a digest header, written between double quotes with its double quotes
escaped, is recovered exactly, wherever the attribute stands, provided it does not end with a backslash. -/
theorem C46_digest_username (pre ws u rest : Bytes) (hpre : ¬ b! "username=" <:+: pre)
    (hws : ∀ c ∈ ws, c ∈ asciiWhitespace) (hu : u.getLast? ≠ some 92) :
    parseAuthorizationDigest (pre ++ b! "username=" ++ ws ++ b! "\"" ++ escapeQuotes u ++ b! "\"" ++ rest) =
      some (rest, u) := by
  have hw : ∀ c : UInt8, c ∈ asciiWhitespace ↔ isAsciiWhitespace c = true := by decide +kernel
  have e : pre ++ b! "username=" ++ ws ++ b! "\"" ++ escapeQuotes u ++ b! "\"" ++ rest =
      pre ++ (b! "username=" ++ (ws ++ 34 :: (escapeQuotes u ++ 34 :: rest))) := by simp
  rw [e]
  have h1 := takeUntil_unbordered (b! "username=") pre (ws ++ 34 :: (escapeQuotes u ++ 34 :: rest))
    (by
      intro k h0 hk
      have : ∀ k < 9, 0 < k → ¬ (b! "username=").drop k <+: b! "username=" := by decide +kernel
      exact this k hk h0) hpre
  have h2 := tag_append (b! "username=") (ws ++ 34 :: (escapeQuotes u ++ 34 :: rest))
  have h3 : takeAsciiWhitespace (ws ++ 34 :: (escapeQuotes u ++ 34 :: rest)) =
      .ok (34 :: (escapeQuotes u ++ 34 :: rest)) ws := by
    have := span_of_append (p := isAsciiWhitespace) (a := ws) (b := 34 :: (escapeQuotes u ++ 34 :: rest))
      (fun c hc => (hw c).mp (hws c hc)) (by simp; decide)
    simp only [takeAsciiWhitespace, Nom.takeWhile]
    rw [this.1, this.2]
  have h4 : Nom.tag (b! "\"") (34 :: (escapeQuotes u ++ 34 :: rest)) = .ok (escapeQuotes u ++ 34 :: rest) (b! "\"") :=
    tag_append (b! "\"") _
  simp only [parseAuthorizationDigest, Nom.bind, h1, h2, h3, h4]
  rw [digestLoop_escaped u.length u [] rest _ (Nat.le_refl _) (by simp; omega) (by simpa using hu)]
  simp

/-- C46 (finding): the proviso is needed: a username that ends with a backslash swallows the closing
quote, and with it the text up to the next one. -/
theorem C46_backslash_swallows_quote :
    parseAuthorizationDigest (b! "Digest username=\"a\\\", realm=\"r\"") = some (b! "r\"", b! "a\", realm=") := by
  decide +kernel

theorem startsWithNocase_iff (s t : Bytes) :
    startsWithNocase s t = true ↔ ∃ p r, s = p ++ r ∧ EqNocase p t := by
  rw [startsWithNocase]
  split
  · rename_i h
    simp only [Bool.false_eq_true, false_iff]
    rintro ⟨p, r, e, hp⟩
    have := hp.1
    rw [e, List.length_append] at h; omega
  · rename_i h
    have h' : t.length ≤ s.length := Nat.le_of_not_lt h
    have hm : min s.length t.length = t.length := Nat.min_eq_right h'
    simp only [hm, beq_iff_eq, List.take_length, lowerAll]
    constructor
    · intro he
      exact ⟨s.take t.length, s.drop t.length, (List.take_append_drop _ _).symm, (eqNocase_map _ _).mp he⟩
    · rintro ⟨p, r, e, hp⟩
      have : s.take t.length = p := by rw [e, ← hp.1, List.take_left]
      rw [this]; exact (eqNocase_map _ _).mpr hp

theorem scheme_starts (sch rest t : Bytes) (h : EqNocase sch t) : startsWithNocase (sch ++ rest) t = true :=
  (startsWithNocase_iff _ _).mpr ⟨sch, rest, rfl, h⟩

/-- Two words of which the first letters differ up to case are not both prefixes. -/
theorem not_starts (sch rest t t' : Bytes) (h : EqNocase sch t) (hn : (t.map lower).take 2 ≠ (t'.map lower).take 2)
    (hl : 2 ≤ t.length ∧ 2 ≤ t'.length) : startsWithNocase (sch ++ rest) t' = false := by
  rw [← Bool.not_eq_true, startsWithNocase_iff]
  rintro ⟨p, r, e, hp⟩
  have h1 := (eqNocase_map _ _).mpr h
  have h2 := (eqNocase_map _ _).mpr hp
  apply hn
  rw [← h1, ← h2]
  have l1 := h.1
  have l2 := hp.1
  have t1 : (sch ++ rest).take 2 = sch.take 2 := List.take_append_of_le_length (by omega)
  have t2 : (p ++ r).take 2 = p.take 2 := List.take_append_of_le_length (by omega)
  rw [← List.map_take, ← List.map_take, ← t1, ← t2, e]

/-- C46: a bearer token is the text after the scheme name (in any case) and the blanks. -/
theorem C46_bearer (base64 : Bytes → Option Bytes) (a : Auth) (sch ws token : Bytes)
    (hs : EqNocase sch (b! "bearer")) (hws : ∀ c ∈ ws, c ∈ asciiWhitespace)
    (ht : ∀ c ∈ token.head?, c ∉ asciiWhitespace) :
    parseAuthorization base64 a (some (sch ++ ws ++ token)) =
      (true, { a with type := .bearer, token := some token }) := by
  have hw : ∀ c : UInt8, c ∈ asciiWhitespace ↔ isAsciiWhitespace c = true := by decide +kernel
  have n1 := not_starts sch (ws ++ token) _ (b! "basic") hs (by decide +kernel) (by decide)
  have n2 := not_starts sch (ws ++ token) _ (b! "digest") hs (by decide +kernel) (by decide)
  have n3 := scheme_starts sch (ws ++ token) _ hs
  have h1 : Nom.tagNoCase (b! "bearer") (sch ++ (ws ++ token)) = .ok (ws ++ token) sch :=
    (tagNoCase_ok_iff _ _ _ _).mpr ⟨rfl, hs⟩
  have h2 := span_of_append (p := isAsciiWhitespace) (a := ws) (b := token)
    (fun c hc => (hw c).mp (hws c hc))
    (fun c hc => by rw [← Bool.not_eq_true, ← hw]; exact ht c hc)
  have h3 : takeAsciiWhitespace (ws ++ token) = .ok token ws := by
    simp only [takeAsciiWhitespace, Nom.takeWhile]; rw [h2.1, h2.2]
  rw [List.append_assoc]
  simp only [parseAuthorization, n1, n2, n3, Bool.false_eq_true, if_false, if_true, Nom.bind, h1, h3]

/-- C46: a digest header in any case yields the username; without a parseable one it is reported as
invalid, keeping the type. -/
theorem C46_digest (base64 : Bytes → Option Bytes) (a : Auth) (sch rest : Bytes)
    (hs : EqNocase sch (b! "digest")) :
    (∀ r u, parseAuthorizationDigest (sch ++ rest) = some (r, u) →
      parseAuthorization base64 a (some (sch ++ rest)) =
        (true, { a with type := .digest, username := some u })) ∧
    (parseAuthorizationDigest (sch ++ rest) = none →
      parseAuthorization base64 a (some (sch ++ rest)) = (false, { a with type := .digest })) := by
  have n1 := not_starts sch rest _ (b! "basic") hs (by decide +kernel) (by decide)
  have n2 := scheme_starts sch rest _ hs
  constructor
  · intro r u h
    simp only [parseAuthorization, n1, n2, Bool.false_eq_true, if_false, if_true, h]
  · intro h
    simp only [parseAuthorization, n1, n2, Bool.false_eq_true, if_false, if_true, h]

/-- C46: a basic header in any case, whose text after the scheme name and blanks decodes to
`user:password` (the user without colon), yields both; a text that does not decode, or without a colon,
is reported as invalid. -/
theorem C46_basic (base64 : Bytes → Option Bytes) (a : Auth) (sch ws text : Bytes)
    (hs : EqNocase sch (b! "basic")) (hws : ∀ c ∈ ws, c ∈ asciiWhitespace)
    (ht : ∀ c ∈ text.head?, c ∉ asciiWhitespace) :
    (∀ user password, 58 ∉ user → base64 text = some (user ++ b! ":" ++ password) →
      parseAuthorization base64 a (some (sch ++ ws ++ text)) =
        (true, { a with type := .basic, username := some user, password := some password })) ∧
    ((base64 text = none ∨ ∃ d, base64 text = some d ∧ 58 ∉ d) →
      parseAuthorization base64 a (some (sch ++ ws ++ text)) = (false, { a with type := .basic })) := by
  have hw : ∀ c : UInt8, c ∈ asciiWhitespace ↔ isAsciiWhitespace c = true := by decide +kernel
  have n1 := scheme_starts sch (ws ++ text) _ hs
  have h1 : Nom.tagNoCase (b! "basic") (sch ++ (ws ++ text)) = .ok (ws ++ text) sch :=
    (tagNoCase_ok_iff _ _ _ _).mpr ⟨rfl, hs⟩
  have h2 := span_of_append (p := isAsciiWhitespace) (a := ws) (b := text)
    (fun c hc => (hw c).mp (hws c hc))
    (fun c hc => by rw [← Bool.not_eq_true, ← hw]; exact ht c hc)
  have h3 : takeAsciiWhitespace (ws ++ text) = .ok text ws := by
    simp only [takeAsciiWhitespace, Nom.takeWhile]; rw [h2.1, h2.2]
  rw [List.append_assoc]
  simp only [parseAuthorization, n1, if_true, parseAuthorizationBasic, Nom.bind, h1, h3]
  constructor
  · intro user password hu hb
    have hs : (user ++ 58 :: password).takeWhile (fun c => c != 58) = user ∧
        (user ++ 58 :: password).dropWhile (fun c => c != 58) = 58 :: password :=
      span_of_append (fun c hc => by
        have : c ≠ 58 := fun e => hu (e ▸ hc)
        simpa using this) (by simp)
    have e : user ++ b! ":" ++ password = user ++ 58 :: password := by simp
    have h4 : Nom.takeUntil (b! ":") (user ++ 58 :: password) = .ok (58 :: password) user := by
      rw [takeUntil_single, if_pos (by simp), hs.1, hs.2]
    have h5 : Nom.tag (b! ":") (58 :: password) = .ok password (b! ":") := tag_append (b! ":") password
    rw [e] at hb
    simp only [hb, h4, Nom.map, h5]
  · rintro (hb | ⟨d, hb, hd⟩)
    · simp only [hb]
    · have h4 : Nom.takeUntil (b! ":") d = .err := by rw [takeUntil_single, if_neg hd]
      simp only [hb, h4]

/-- C46: no header leaves the type NONE; an unknown scheme is reported as unrecognized, not as an error. -/
theorem C46_other (base64 : Bytes → Option Bytes) (a : Auth) :
    parseAuthorization base64 a none = (true, { a with type := .none }) ∧
    ∀ v, (∀ t ∈ [b! "basic", b! "digest", b! "bearer"], ¬ ∃ p r, v = p ++ r ∧ EqNocase p t) →
      parseAuthorization base64 a (some v) = (true, { a with type := .unrecognized }) := by
  refine ⟨rfl, fun v hv => ?_⟩
  have f : ∀ t ∈ [b! "basic", b! "digest", b! "bearer"], startsWithNocase v t = false := by
    intro t ht
    rw [← Bool.not_eq_true, startsWithNocase_iff]
    exact hv t ht
  simp only [parseAuthorization, f _ (List.mem_cons_self), f (b! "digest") (by simp), f (b! "bearer") (by simp),
    Bool.false_eq_true, if_false]

/-! Concrete headers. -/
example : parseAuthorization (fun _ => none) {} (some (b! "DiGest realm=\"x\", username= \"a\\\"b\", x")) =
    (true, { type := .digest, username := some (b! "a\"b") }) := by decide +kernel
example : parseAuthorization (fun _ => none) {} (some (b! "BEARER  tok en")) =
    (true, { type := .bearer, token := some (b! "tok en") }) := by decide +kernel
example : parseAuthorization (fun t => if t = b! "dTpw" then some (b! "u:p:q") else none) {} (some (b! "basic dTpw")) =
    (true, { type := .basic, username := some (b! "u"), password := some (b! "p:q") }) := by decide +kernel

end Props
