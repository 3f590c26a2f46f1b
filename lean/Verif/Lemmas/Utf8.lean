/-
Helper lemmas: the UTF-8 decoder.
-/
import Verif.Model.Utf8
import Verif.Spec.Utf8
import Verif.Lemmas.Flags
import Mathlib.Tactic.Tauto

namespace Model.Utf8Decoder
open Spec.Utf8

theorem next0 : ∀ c : UInt8, nextState 0 c =
    if c.toNat < 0x80 then 0 else if c.toNat < 0xC0 then 1 else if c.toNat < 0xE0 then 2
    else if c.toNat = 0xED then 5 else if c.toNat < 0xF0 then 3 else if c.toNat < 0xF4 then 7
    else if c.toNat = 0xF4 then 8 else 1 := by decide +kernel

theorem next2 : ∀ c : UInt8, nextState 2 c = if 0x80 ≤ c.toNat ∧ c.toNat ≤ 0xBF then 0 else 1 := by
  decide +kernel
theorem next3 : ∀ c : UInt8, nextState 3 c = if 0x80 ≤ c.toNat ∧ c.toNat ≤ 0xBF then 2 else 1 := by
  decide +kernel
theorem next5 : ∀ c : UInt8, nextState 5 c = if 0x80 ≤ c.toNat ∧ c.toNat ≤ 0x9F then 2 else 1 := by
  decide +kernel
theorem next7 : ∀ c : UInt8, nextState 7 c = if 0x80 ≤ c.toNat ∧ c.toNat ≤ 0xBF then 3 else 1 := by
  decide +kernel
theorem next8 : ∀ c : UInt8, nextState 8 c = if 0x80 ≤ c.toNat ∧ c.toNat ≤ 0x8F then 3 else 1 := by
  decide +kernel

theorem first_bits : ∀ c : UInt8, c.toNat < 0xF5 → (c.toNat < 0x80 ∨ 0xC0 ≤ c.toNat) →
    (0xff >>> byteType c) &&& c.toNat =
    if c.toNat < 0x80 then c.toNat else if c.toNat < 0xE0 then c.toNat - 0xC0
    else if c.toNat < 0xF0 then c.toNat - 0xE0 else c.toNat - 0xF0 := by decide +kernel

theorem cont_bits : ∀ c : UInt8, Cont c → (c &&& 0x3f).toNat = c.toNat - 0x80 := by
  unfold Cont; decide +kernel

theorem next_bits {c : UInt8} (h : Cont c) {cp : Nat} (hcp : cp < 2 ^ 16) :
    ((c &&& 0x3f).toNat ||| (cp <<< 6)) % 2 ^ 32 = cp * 64 + (c.toNat - 0x80) := by
  rw [cont_bits c h]
  unfold Cont at h
  have h1 : c.toNat - 0x80 < 2 ^ 6 := by omega
  have h2 := Nat.shiftLeft_add_eq_or_of_lt h1 cp
  rw [Nat.or_comm, ← h2, Nat.shiftLeft_eq]
  omega

/-- Which bytes begin a character, by length. -/
theorem unfinished_one {a : UInt8} : Unfinished [a] ↔ 0xC0 ≤ a.toNat ∧ a.toNat ≤ 0xF4 := by
  constructor
  · rintro ⟨_, ext, v, he, h⟩
    rw [List.singleton_append] at h
    generalize hl : a :: ext = l at h
    cases h with
    | one h => simp at hl; exact absurd hl.2 he
    | two h1 h2 => simp at hl; rw [hl.1]; omega
    | three h1 h2 => simp at hl; rw [hl.1]; omega
    | four h1 h2 h3 h4 h5 h6 h7 =>
      simp at hl; rw [hl.1]; unfold Cont at *; omega
  · rintro ⟨h1, h2⟩
    refine ⟨by simp, ?_⟩
    have hc : Cont 0x80 := by unfold Cont; decide
    have e : (0x80 : UInt8).toNat = 0x80 := rfl
    by_cases h3 : a.toNat ≤ 0xDF
    · exact ⟨[0x80], _, by simp, .two h1 h3 hc rfl⟩
    · by_cases h4 : a.toNat ≤ 0xEF
      · exact ⟨[0x80, 0x80], _, by simp, .three (by omega) h4 hc hc rfl (by rw [e]; omega)⟩
      · exact ⟨[0x80, 0x80, 0x80], _, by simp, .four (by omega) (by omega) hc hc hc rfl (by rw [e]; omega)⟩

theorem unfinished_two {a b : UInt8} : Unfinished [a, b] ↔
    (0xE0 ≤ a.toNat ∧ a.toNat ≤ 0xEF ∧ Cont b ∧ (a.toNat = 0xED → b.toNat ≤ 0x9F)) ∨
    (0xF0 ≤ a.toNat ∧ a.toNat ≤ 0xF4 ∧ Cont b ∧ (a.toNat = 0xF4 → b.toNat ≤ 0x8F)) := by
  constructor
  · rintro ⟨_, ext, v, he, h⟩
    rw [show [a, b] ++ ext = a :: b :: ext from rfl] at h
    generalize hl : a :: b :: ext = l at h
    cases h with
    | one h => simp at hl
    | two h1 h2 => simp at hl; exact absurd hl.2.2 he
    | three h1 h2 h3 h4 h5 h6 =>
      simp at hl; rw [hl.1, hl.2.1]; left
      refine ⟨h1, h2, h3, ?_⟩
      unfold Cont at *; omega
    | four h1 h2 h3 h4 h5 h6 h7 =>
      simp at hl; rw [hl.1, hl.2.1]; right
      refine ⟨h1, ?_, h3, ?_⟩ <;> (unfold Cont at *; omega)
  · have hc : Cont 0x80 := by unfold Cont; decide
    have e : (0x80 : UInt8).toNat = 0x80 := rfl
    rintro (⟨h1, h2, h3, h4⟩ | ⟨h1, h2, h3, h4⟩)
    · exact ⟨by simp, [0x80], _, by simp, .three h1 h2 h3 hc rfl (by rw [e]; unfold Cont at h3; omega)⟩
    · exact ⟨by simp, [0x80, 0x80], _, by simp,
        .four h1 (by omega) h3 hc hc rfl (by rw [e]; unfold Cont at h3; omega)⟩

theorem unfinished_three {a b c : UInt8} : Unfinished [a, b, c] ↔
    0xF0 ≤ a.toNat ∧ a.toNat ≤ 0xF4 ∧ Cont b ∧ (a.toNat = 0xF4 → b.toNat ≤ 0x8F) ∧ Cont c := by
  constructor
  · rintro ⟨_, ext, v, he, h⟩
    rw [show [a, b, c] ++ ext = a :: b :: c :: ext from rfl] at h
    generalize hl : a :: b :: c :: ext = l at h
    cases h with
    | one h => simp at hl
    | two h1 h2 => simp at hl
    | three h1 h2 h3 h4 h5 h6 => simp at hl; exact absurd hl.2.2.2 he
    | four h1 h2 h3 h4 h5 h6 h7 =>
      simp at hl; rw [hl.1, hl.2.1, hl.2.2.1]
      refine ⟨h1, ?_, h3, ?_, h4⟩ <;> (unfold Cont at *; omega)
  · have hc : Cont 0x80 := by unfold Cont; decide
    have e : (0x80 : UInt8).toNat = 0x80 := rfl
    rintro ⟨h1, h2, h3, h4, h5⟩
    exact ⟨by simp, [0x80], _, by simp,
        .four h1 (by omega) h3 h5 hc rfl (by rw [e]; unfold Cont at h3 h5; omega)⟩

theorem unfinished_length {p : Bytes} (h : Unfinished p) :
    (∃ a, p = [a]) ∨ (∃ a b, p = [a, b]) ∨ ∃ a b c, p = [a, b, c] := by
  obtain ⟨hp, ext, v, he, h⟩ := h
  have hl : (p ++ ext).length ≤ 4 := by
    generalize p ++ ext = l at h
    cases h <;> simp
  have he' : 0 < ext.length := List.length_pos_iff.mpr he
  rw [List.length_append] at hl
  rcases p with _ | ⟨a, _ | ⟨b, _ | ⟨c, _ | ⟨d, p⟩⟩⟩⟩
  · exact absurd rfl hp
  · exact Or.inl ⟨a, rfl⟩
  · exact Or.inr (Or.inl ⟨a, b, rfl⟩)
  · exact Or.inr (Or.inr ⟨a, b, c, rfl⟩)
  · simp only [List.length_cons] at hl; omega

theorem isChar_one {a : UInt8} : (∃ v, IsChar [a] v) ↔ a.toNat < 0x80 := by
  constructor
  · rintro ⟨v, h⟩; cases h; assumption
  · exact fun h => ⟨_, .one h⟩

theorem isChar_two {a b : UInt8} : (∃ v, IsChar [a, b] v) ↔ 0xC0 ≤ a.toNat ∧ a.toNat ≤ 0xDF ∧ Cont b := by
  constructor
  · rintro ⟨v, h⟩; cases h; exact ⟨by assumption, by assumption, by assumption⟩
  · exact fun h => ⟨_, .two h.1 h.2.1 h.2.2 rfl⟩

theorem isChar_three {a b c : UInt8} : (∃ v, IsChar [a, b, c] v) ↔
    0xE0 ≤ a.toNat ∧ a.toNat ≤ 0xEF ∧ Cont b ∧ (a.toNat = 0xED → b.toNat ≤ 0x9F) ∧ Cont c := by
  constructor
  · rintro ⟨v, h⟩
    cases h with
    | three h1 h2 h3 h4 h5 h6 => refine ⟨h1, h2, h3, ?_, h4⟩; unfold Cont at *; omega
  · rintro ⟨h1, h2, h3, h4, h5⟩
    exact ⟨_, .three h1 h2 h3 h5 rfl (by unfold Cont at *; omega)⟩

theorem isChar_four {a b c d : UInt8} : (∃ v, IsChar [a, b, c, d] v) ↔
    0xF0 ≤ a.toNat ∧ a.toNat ≤ 0xF4 ∧ Cont b ∧ (a.toNat = 0xF4 → b.toNat ≤ 0x8F) ∧ Cont c ∧ Cont d := by
  constructor
  · rintro ⟨v, h⟩
    cases h with
    | four h1 h2 h3 h4 h5 h6 h7 => refine ⟨h1, ?_, h3, ?_, h4, h5⟩ <;> (unfold Cont at *; omega)
  · rintro ⟨h1, h2, h3, h4, h5, h6⟩
    exact ⟨_, .four h1 (by omega) h3 h5 h6 rfl (by unfold Cont at *; omega)⟩

/-- Any text is read in exactly one way: here, at least one. -/
theorem reads_total (s : Bytes) : ∃ items, Reads s items := by
  induction hn : s.length using Nat.strongRecOn generalizing s with
  | ind n ih =>
    subst hn
    have ch : ∀ p rest, s = p ++ rest → p ≠ [] → (∃ v, IsChar p v) → ∃ items, Reads s items := by
      intro p rest e hp ⟨v, hv⟩
      obtain ⟨it, h⟩ := ih rest.length (by
        rw [e]; cases p with
        | nil => exact absurd rfl hp
        | cons _ _ => simp; omega) rest rfl
      rw [e]; exact ⟨_, .char hv h⟩
    have br : ∀ p c rest, s = p ++ c :: rest → Unfinished p → (¬ ∃ v, IsChar (p ++ [c]) v) →
        ¬ Unfinished (p ++ [c]) → ∃ items, Reads s items := by
      intro p c rest e hp h1 h2
      obtain ⟨it, h⟩ := ih (c :: rest).length (by
        rw [e]; cases p with
        | nil => exact absurd rfl hp.1
        | cons _ _ => simp; omega) (c :: rest) rfl
      rw [e]; exact ⟨_, .broken hp h1 h2 h⟩
    match s, ch, br, ih with
    | [], _, _, _ => exact ⟨_, .nil⟩
    | a :: s, ch, br, ih =>
      by_cases h1 : ∃ v, IsChar [a] v
      · exact ch [a] s rfl (by simp) h1
      by_cases h2 : Unfinished [a]
      · match s, ch, br, ih with
        | [], _, _, _ => exact ⟨_, .cut h2⟩
        | b :: s, ch, br, ih =>
          by_cases h3 : ∃ v, IsChar [a, b] v
          · exact ch [a, b] s rfl (by simp) h3
          by_cases h4 : Unfinished [a, b]
          · match s, ch, br, ih with
            | [], _, _, _ => exact ⟨_, .cut h4⟩
            | c :: s, ch, br, ih =>
              by_cases h5 : ∃ v, IsChar [a, b, c] v
              · exact ch [a, b, c] s rfl (by simp) h5
              by_cases h6 : Unfinished [a, b, c]
              · match s, ch, br, ih with
                | [], _, _, _ => exact ⟨_, .cut h6⟩
                | d :: s, ch, br, ih =>
                  by_cases h7 : ∃ v, IsChar [a, b, c, d] v
                  · exact ch [a, b, c, d] s rfl (by simp) h7
                  · exact br [a, b, c] d s rfl h6 h7 (by
                      intro h; rcases unfinished_length h with ⟨_, h⟩ | ⟨_, _, h⟩ | ⟨_, _, _, h⟩ <;> simp at h)
              · exact br [a, b] c s rfl h4 h5 h6
          · exact br [a] b s rfl h2 h3 h4
      · obtain ⟨it, h⟩ := ih s.length (by simp) s rfl
        exact ⟨_, .badStart h1 h2 h⟩

/-! ### the decoder on one item -/

/-- The flags an item raises. -/
def itemFlags : Item → Flags
  | .char len cp =>
    if len = 1 then 0 else
    setFlag (if size cp < len then Flag.PATH_UTF8_OVERLONG else 0)
      (if 0xff00 ≤ cp ∧ cp ≤ 0xffef then Flag.PATH_HALF_FULL_RANGE else 0)
  | .bad => Flag.PATH_UTF8_INVALID
  | .cut _ => 0

def itemWide : Item → Bool
  | .char len _ => decide (len ≠ 1)
  | _ => false

/-- Between characters. -/
def Fresh (d : Utf8Decoder) : Prop := d.state = 0 ∧ d.seq = 0

/-- `d'` is `d` after item `it`. -/
def After (d d' : Utf8Decoder) (it : Item) : Prop :=
  d'.map = d.map ∧ d'.flags = setFlag d.flags (itemFlags it) ∧ d'.seenValid = (d.seenValid || itemWide it) ∧
  d'.decoded = d.decoded ++ it.out d.map.get d.map.replacement

/-- The state after the first bytes of a character: nothing else has changed. -/
def Pending (d d' : Utf8Decoder) (p : Bytes) (st cp : Nat) : Prop :=
  d' = { d with state := st, codepoint := cp, seq := p.length }

theorem decode_pending {d : Utf8Decoder} {c : UInt8} {last : Bool} {st cp q : Nat} {e : Utf8Decoder}
    (he : e = { d with state := st, codepoint := cp, seq := q })
    (hn : 2 ≤ nextState st c) :
    e.decodeByte c last =
      { d with state := nextState st c, seq := q + 1,
               codepoint := (if st ≠ 0 then ((c &&& 0x3f).toNat ||| (cp <<< 6)) % 2 ^ 32
                 else (0xff >>> byteType c) &&& c.toNat),
               decoded := if last then d.decoded ++ List.replicate q d.map.replacement else d.decoded } := by
  subst he
  have h0 : nextState st c ≠ 0 := by omega
  have h1 : nextState st c ≠ 1 := by omega
  rw [decodeByte, decodeByteRec]
  simp only [decodeByteAllowOverlong, if_neg h0, if_neg h1, Nat.add_sub_cancel]
  cases last <;> simp

theorem decode_reject {d : Utf8Decoder} {c : UInt8} {last : Bool} {st cp q : Nat} {e : Utf8Decoder}
    (he : e = { d with state := st, codepoint := cp, seq := q })
    (hq : q ≠ 0) (hn : nextState st c = 1) : ∃ d', Fresh d' ∧ After d d' .bad ∧ d'.codepoint = 0 ∧
    e.decodeByte c last = decodeByteRec 1 d' c last := by
  subst he
  refine ⟨{ d with flags := setFlag d.flags Flag.PATH_UTF8_INVALID, state := 0, codepoint := 0, seq := 0,
                   decoded := d.decoded ++ [d.map.replacement] }, ⟨rfl, rfl⟩, ⟨rfl, rfl, by simp [itemWide], rfl⟩, rfl, ?_⟩
  rw [decodeByte, decodeByteRec]
  simp [decodeByteAllowOverlong, hn, hq]

/-- With a fresh decoder one level of recursion is enough. -/
theorem decode_fresh {d : Utf8Decoder} (h : Fresh d) (c : UInt8) (last : Bool) :
    decodeByteRec 1 d c last = d.decodeByte c last := by
  obtain ⟨h1, h2⟩ := h
  rw [decodeByte, decodeByteRec, decodeByteRec]
  simp only [decodeByteAllowOverlong, h1, h2]
  split
  · rfl
  split
  · simp
  · rfl

theorem decode_badStart {d : Utf8Decoder} (h : Fresh d) {c : UInt8} (last : Bool) (hn : nextState 0 c = 1) :
    Fresh (d.decodeByte c last) ∧ After d (d.decodeByte c last) .bad := by
  obtain ⟨h1, h2⟩ := h
  rw [decodeByte, decodeByteRec]
  simp only [decodeByteAllowOverlong, h1, h2, hn]
  simp [Fresh, After, itemFlags, itemWide, Item.out]

theorem decode_ascii {d : Utf8Decoder} (h : Fresh d) {c : UInt8} (last : Bool) (hc : c.toNat < 0x80) :
    Fresh (d.decodeByte c last) ∧ After d (d.decodeByte c last) (.char 1 c.toNat) := by
  obtain ⟨h1, h2⟩ := h
  have hn : nextState 0 c = 0 := by rw [next0, if_pos hc]
  have hb := first_bits c (by omega) (Or.inl hc)
  rw [if_pos hc] at hb
  rw [decodeByte, decodeByteRec]
  simp only [decodeByteAllowOverlong, h1, h2, hn]
  have : c.toNat < 0x100 := by omega
  simp [Fresh, After, itemFlags, itemWide, Item.out, hb, setFlag_zero, this]

theorem decode_accept {d : Utf8Decoder} {c : UInt8} {last : Bool} {st cp q v : Nat} {e : Utf8Decoder}
    (he : e = { d with state := st, codepoint := cp, seq := q }) (hst : st ≠ 0)
    (hq : q = 1 ∨ q = 2 ∨ q = 3) (hn : nextState st c = 0)
    (hv : ((c &&& 0x3f).toNat ||| (cp <<< 6)) % 2 ^ 32 = v) (hv2 : v < 0x200000) :
    Fresh (e.decodeByte c last) ∧ After d (e.decodeByte c last) (.char (q + 1) v) := by
  subst he
  rw [decodeByte, decodeByteRec]
  simp only [decodeByteAllowOverlong, hn, hv, if_pos hst]
  have hq0 : q ≠ 0 := by omega
  have hs : ((q = 1 ∧ v < 0x80) ∨ (q = 2 ∧ v < 0x800) ∨ (q = 3 ∧ v < 0x10000)) ↔ size v < q + 1 := by
    unfold size; split <;> (try split) <;> (try split) <;> omega
  by_cases c1 : size v < q + 1 <;> by_cases c2 : (0xff00 ≤ v ∧ v ≤ 0xffef) <;>
    simp [hs, c1, c2, hq0, Fresh, After, itemFlags, itemWide, Item.out, setFlag_zero, zero_setFlag,
      bestfitCodepoint, setFlag_assoc]

/-- Reading the bytes of one character. -/
theorem feed_char {d : Utf8Decoder} (h : Fresh d) {s : Bytes} {v : Nat} (hs : IsChar s v) (rest : Bytes) :
    ∃ d', Fresh d' ∧ After d d' (.char s.length v) ∧ d.feed (s ++ rest) = feed d' rest := by
  have he : d = { d with state := 0, codepoint := d.codepoint, seq := 0 } := by
    obtain ⟨h1, h2⟩ := h; cases d; simp only at h1 h2; rw [h1, h2]
  cases hs with
  | one h1 =>
    obtain ⟨a1, a2⟩ := decode_ascii h rest.isEmpty h1
    exact ⟨_, a1, a2, rfl⟩
  | @two a b _ h1 h2 h3 h4 =>
    have n1 := next0 a
    rw [if_neg (by omega), if_neg (by omega), if_pos (by omega)] at n1
    have s1 := decode_pending (last := ([b] ++ rest).isEmpty) he (c := a) (by omega)
    have b1 := first_bits a (by omega) (by omega)
    rw [if_neg (by omega), if_pos (by omega)] at b1
    simp only [n1, b1, ne_eq, not_true_eq_false, if_false, Nat.zero_add] at s1
    have n2 := next2 b
    rw [if_pos (show _ ∧ _ from h3)] at n2
    have b2 := next_bits h3 (cp := a.toNat - 0xC0) (by omega)
    obtain ⟨a1, a2⟩ := decode_accept (last := rest.isEmpty) s1 (by decide) (by decide) n2 b2 (by unfold Cont at *; omega)
    rw [h4]
    exact ⟨_, a1, by simpa using a2, by simp only [List.cons_append, List.nil_append, feed]⟩
  | @three a b c _ h1 h2 h3 h4 h5 h6 =>
    have n1 := next0 a
    rw [if_neg (by omega), if_neg (by omega), if_neg (by omega)] at n1
    have n1' : (nextState 0 a = 5 ∧ a.toNat = 0xED) ∨ nextState 0 a = 3 := by
      rw [n1]; split
      · exact Or.inl ⟨rfl, by assumption⟩
      · right; rw [if_pos (by omega)]
    have s1 := decode_pending (last := ([b, c] ++ rest).isEmpty) he (c := a) (by omega)
    have b1 := first_bits a (by omega) (by omega)
    rw [if_neg (by omega), if_neg (by omega), if_pos (by omega)] at b1
    simp only [b1, ne_eq, not_true_eq_false, if_false, Nat.zero_add] at s1
    have n2 : nextState (nextState 0 a) b = 2 := by
      rcases n1' with ⟨h, h'⟩ | h <;> rw [h]
      · rw [next5, if_pos (by unfold Cont at *; omega)]
      · rw [next3, if_pos (show _ ∧ _ from h3)]
    have s2 := decode_pending (last := ([c] ++ rest).isEmpty) s1 (c := b) (by omega)
    have b2 := next_bits h3 (cp := a.toNat - 0xE0) (by omega)
    rw [if_pos (by omega), n2, b2] at s2
    have n3 := next2 c
    rw [if_pos (show _ ∧ _ from h4)] at n3
    have b3 := next_bits h4 (cp := (a.toNat - 0xE0) * 64 + (b.toNat - 0x80)) (by unfold Cont at *; omega)
    obtain ⟨a1, a2⟩ := decode_accept (last := rest.isEmpty) s2 (by decide) (by decide) n3 b3 (by unfold Cont at *; omega)
    refine ⟨_, a1, ?_, by simp only [List.cons_append, List.nil_append, feed]⟩
    rw [show (List.length [a, b, c]) = 0 + 1 + 1 + 1 from rfl, h5]
    rw [show (a.toNat - 0xE0) * 4096 + (b.toNat - 0x80) * 64 + (c.toNat - 0x80) =
      ((a.toNat - 0xE0) * 64 + (b.toNat - 0x80)) * 64 + (c.toNat - 0x80) by omega]
    simpa using a2
  | @four a b c x _ h1 h2 h3 h4 h5 h6 h7 =>
    have ha : a.toNat ≤ 0xF4 := by unfold Cont at *; omega
    have n1 := next0 a
    rw [if_neg (by omega), if_neg (by omega), if_neg (by omega), if_neg (by omega), if_neg (by omega)] at n1
    have n1' : (nextState 0 a = 8 ∧ a.toNat = 0xF4) ∨ nextState 0 a = 7 := by
      rw [n1]; split
      · exact Or.inr rfl
      · left; rw [if_pos (by omega)]; exact ⟨rfl, by omega⟩
    have s1 := decode_pending (last := ([b, c, x] ++ rest).isEmpty) he (c := a) (by omega)
    have b1 := first_bits a (by omega) (by omega)
    rw [if_neg (by omega), if_neg (by omega), if_neg (by omega)] at b1
    simp only [b1, ne_eq, not_true_eq_false, if_false, Nat.zero_add] at s1
    have n2 : nextState (nextState 0 a) b = 3 := by
      rcases n1' with ⟨h, h'⟩ | h <;> rw [h]
      · rw [next8, if_pos (by unfold Cont at *; omega)]
      · rw [next7, if_pos (show _ ∧ _ from h3)]
    have s2 := decode_pending (last := ([c, x] ++ rest).isEmpty) s1 (c := b) (by omega)
    have b2 := next_bits h3 (cp := a.toNat - 0xF0) (by omega)
    rw [if_pos (by omega), n2, b2] at s2
    have n3 : nextState 3 c = 2 := by rw [next3, if_pos (show _ ∧ _ from h4)]
    have b3 := next_bits h4 (cp := (a.toNat - 0xF0) * 64 + (b.toNat - 0x80)) (by unfold Cont at *; omega)
    have s3 := decode_pending (last := ([x] ++ rest).isEmpty) s2 (c := c) (by omega)
    rw [if_pos (by omega), n3, b3] at s3
    have n4 : nextState 2 x = 0 := by rw [next2, if_pos (show _ ∧ _ from h5)]
    have b4 := next_bits h5 (cp := ((a.toNat - 0xF0) * 64 + (b.toNat - 0x80)) * 64 + (c.toNat - 0x80))
      (by unfold Cont at *; omega)
    obtain ⟨a1, a2⟩ := decode_accept (last := rest.isEmpty) s3 (by decide) (by decide) n4 b4 (by unfold Cont at *; omega)
    refine ⟨_, a1, ?_, by simp only [List.cons_append, List.nil_append, feed]⟩
    rw [show (List.length [a, b, c, x]) = 0 + 1 + 1 + 1 + 1 from rfl, h6]
    rw [show (a.toNat - 0xF0) * 262144 + (b.toNat - 0x80) * 4096 + (c.toNat - 0x80) * 64 + (x.toNat - 0x80) =
      (((a.toNat - 0xF0) * 64 + (b.toNat - 0x80)) * 64 + (c.toNat - 0x80)) * 64 + (x.toNat - 0x80) by omega]
    simpa using a2

/-- Reading the bytes of an unfinished character with more to come. -/
theorem feed_unfinished {d : Utf8Decoder} (h : Fresh d) {p : Bytes} (hp : Unfinished p) (c : UInt8) (rest : Bytes) :
    ∃ st cp, st ≠ 0 ∧ d.feed (p ++ c :: rest) = feed { d with state := st, codepoint := cp, seq := p.length } (c :: rest) ∧
      (nextState st c = 0 → ∃ v, IsChar (p ++ [c]) v) ∧ (2 ≤ nextState st c → Unfinished (p ++ [c])) ∧
      (Unfinished (p ++ [c]) → 2 ≤ nextState st c) := by
  have he : d = { d with state := 0, codepoint := d.codepoint, seq := 0 } := by
    obtain ⟨h1, h2⟩ := h; cases d; simp only at h1 h2; rw [h1, h2]
  have first : ∀ a : UInt8, Unfinished [a] → 2 ≤ nextState 0 a := by
    intro a ha
    have ha := unfinished_one.mp ha
    rw [next0, if_neg (by omega), if_neg (by omega)]
    split; · omega
    split; · omega
    split; · omega
    split; · omega
    rw [if_pos (by omega)]; omega
  have second : ∀ a b : UInt8, Unfinished [a, b] → nextState (nextState 0 a) b = if a.toNat < 0xF0 then 2 else 3 := by
    intro a b hab
    have hab := unfinished_two.mp hab
    have n1 := next0 a
    rw [if_neg (by omega), if_neg (by omega), if_neg (by omega)] at n1
    unfold Cont at hab
    by_cases e1 : a.toNat = 0xED
    · rw [if_pos e1] at n1; rw [n1, next5, if_pos (by omega), if_pos (by omega)]
    rw [if_neg e1] at n1
    by_cases e2 : a.toNat < 0xF0
    · rw [if_pos e2] at n1; rw [n1, next3, if_pos (by omega), if_pos (by omega)]
    rw [if_neg e2] at n1
    by_cases e3 : a.toNat < 0xF4
    · rw [if_pos e3] at n1; rw [n1, next7, if_pos (by omega), if_neg (by omega)]
    rw [if_neg e3, if_pos (by omega)] at n1
    rw [n1, next8, if_pos (by omega), if_neg (by omega)]
  have prev1 : ∀ a b : UInt8, Unfinished [a, b] → Unfinished [a] := by
    intro a b h; rw [unfinished_two] at h; rw [unfinished_one]; omega
  rcases unfinished_length hp with ⟨a, rfl⟩ | ⟨a, b, rfl⟩ | ⟨a, b, x, rfl⟩
  · have s1 := decode_pending (last := (c :: rest).isEmpty) he (c := a) (first a hp)
    refine ⟨nextState 0 a, (d.decodeByte a (c :: rest).isEmpty).codepoint, by have := first a hp; omega, ?_, ?_, ?_, fun h => ?_⟩
    rotate_left
    · intro hn
      rw [List.singleton_append, isChar_two]
      have ha := unfinished_one.mp hp
      have n1 := next0 a
      rw [if_neg (by omega), if_neg (by omega)] at n1
      split at n1
      · rw [n1, next2] at hn
        split at hn
        · exact ⟨by omega, by omega, by assumption⟩
        · simp at hn
      · exfalso
        split at n1
        · rw [n1, next5] at hn; split at hn <;> simp at hn
        split at n1
        · rw [n1, next3] at hn; split at hn <;> simp at hn
        split at n1
        · rw [n1, next7] at hn; split at hn <;> simp at hn
        rw [if_pos (by omega)] at n1
        rw [n1, next8] at hn; split at hn <;> simp at hn
    · intro hn
      rw [List.singleton_append, unfinished_two]
      have ha := unfinished_one.mp hp
      have n1 := next0 a
      unfold Cont
      rw [if_neg (by omega), if_neg (by omega)] at n1
      split at n1
      · rw [n1, next2] at hn
        split at hn <;> omega
      · split at n1
        · rw [n1, next5] at hn; split at hn <;> omega
        split at n1
        · rw [n1, next3] at hn; split at hn <;> omega
        split at n1
        · rw [n1, next7] at hn; split at hn <;> omega
        rw [if_pos (by omega)] at n1
        rw [n1, next8] at hn; split at hn <;> omega
    · rw [second a c h]; split <;> omega
    · rw [List.singleton_append, feed, s1]; simp
  · have s1 := decode_pending (last := (b :: c :: rest).isEmpty) he (c := a) (first a (prev1 _ _ hp))
    have n2 := second a b hp
    have s2 := decode_pending (last := (c :: rest).isEmpty) s1 (c := b) (by rw [n2]; split <;> omega)
    refine ⟨if a.toNat < 0xF0 then 2 else 3,
      ((d.decodeByte a (b :: c :: rest).isEmpty).decodeByte b (c :: rest).isEmpty).codepoint, by split <;> omega, ?_, ?_, ?_, fun h => ?_⟩
    rotate_left
    · intro hn
      have hp := unfinished_two.mp hp
      show ∃ v, IsChar [a, b, c] v
      rw [isChar_three]
      split at hn
      · rw [next2] at hn; unfold Cont at *; split at hn <;> omega
      · rw [next3] at hn; split at hn <;> omega
    · intro hn
      have hp := unfinished_two.mp hp
      show Unfinished [a, b, c]
      rw [unfinished_three]
      split at hn
      · rw [next2] at hn; split at hn <;> omega
      · rw [next3] at hn; unfold Cont at *; split at hn <;> omega
    · have h := unfinished_three.mp h
      rw [if_neg (by omega), next3, if_pos (show _ ∧ _ from h.2.2.2.2)]; omega
    · show feed _ (a :: b :: c :: rest) = _
      rw [feed, feed, s2, n2]; simp
  · have hp2 : Unfinished [a, b] := by rw [unfinished_two]; have t := unfinished_three.mp hp; exact Or.inr ⟨t.1, t.2.1, t.2.2.1, t.2.2.2.1⟩
    have s1 := decode_pending (last := (b :: x :: c :: rest).isEmpty) he (c := a) (first a (prev1 _ _ hp2))
    have n2 := second a b hp2
    have h3 := unfinished_three.mp hp
    rw [if_neg (by omega)] at n2
    have s2 := decode_pending (last := (x :: c :: rest).isEmpty) s1 (c := b) (by omega)
    have n3 : nextState (nextState (nextState 0 a) b) x = 2 := by
      rw [n2, next3, if_pos (show _ ∧ _ from h3.2.2.2.2)]
    have s3 := decode_pending (last := (c :: rest).isEmpty) s2 (c := x) (by omega)
    refine ⟨2, (((d.decodeByte a (b :: x :: c :: rest).isEmpty).decodeByte b (x :: c :: rest).isEmpty).decodeByte x
      (c :: rest).isEmpty).codepoint, by omega, ?_, ?_, ?_, fun h => ?_⟩
    rotate_left
    · intro hn
      show ∃ v, IsChar [a, b, x, c] v
      rw [isChar_four]
      rw [next2] at hn
      split at hn
      · refine ⟨h3.1, h3.2.1, h3.2.2.1, h3.2.2.2.1, h3.2.2.2.2, by assumption⟩
      · omega
    · intro hn
      rw [next2] at hn; split at hn <;> omega
    · rcases unfinished_length h with ⟨_, h⟩ | ⟨_, _, h⟩ | ⟨_, _, _, h⟩ <;> simp at h
    · show feed _ (a :: b :: x :: c :: rest) = _
      rw [feed, feed, feed, s3, n3]; simp

/-- Reading an unfinished character at the end of the text. -/
theorem feed_cut {d : Utf8Decoder} (h : Fresh d) {p : Bytes} (hp : Unfinished p) :
    After d (d.feed p) (.cut p.length) := by
  have key : ∀ {e : Utf8Decoder} {st cp q : Nat} {c : UInt8}, e = { d with state := st, codepoint := cp, seq := q } →
      2 ≤ nextState st c → After d (e.feed [c]) (.cut (q + 1)) := by
    intro e st cp q c he hn
    have := decode_pending (last := true) he hn
    rw [feed, feed, List.isEmpty_nil, this]
    refine ⟨rfl, ?_, ?_, ?_⟩ <;> simp [itemFlags, itemWide, Item.out, setFlag_zero]
  rcases unfinished_length hp with ⟨a, rfl⟩ | ⟨a, b, rfl⟩ | ⟨a, b, c, rfl⟩
  · have he : d = { d with state := 0, codepoint := d.codepoint, seq := 0 } := by
      obtain ⟨h1, h2⟩ := h; cases d; simp only at h1 h2; rw [h1, h2]
    refine key he ?_
    have ha := unfinished_one.mp hp
    rw [next0, if_neg (by omega), if_neg (by omega)]
    split; · omega
    split; · omega
    split; · omega
    split; · omega
    rw [if_pos (by omega)]; omega
  · have h1 : Unfinished [a] := by rw [unfinished_two] at hp; rw [unfinished_one]; omega
    obtain ⟨st, cp, _, h2, _, _, h5⟩ := feed_unfinished h h1 b []
    rw [List.singleton_append] at h2
    rw [h2]; exact key rfl (h5 hp)
  · have h1 : Unfinished [a, b] := by
      have t := unfinished_three.mp hp
      rw [unfinished_two]; exact Or.inr ⟨t.1, t.2.1, t.2.2.1, t.2.2.2.1⟩
    obtain ⟨st, cp, _, h2, _, _, h5⟩ := feed_unfinished h h1 c []
    rw [show [a, b] ++ [c] = [a, b, c] from rfl] at h2
    rw [h2]; exact key rfl (h5 hp)

/-- Everything the decoder knows after the items of a text. -/
theorem feed_reads {s : Bytes} {items : List Item} (h : Reads s items) : ∀ {d : Utf8Decoder}, Fresh d →
    (d.feed s).map = d.map ∧ (d.feed s).flags = items.foldl (fun f i => setFlag f (itemFlags i)) d.flags ∧
    (d.feed s).seenValid = (d.seenValid || items.any itemWide) ∧
    (d.feed s).decoded = d.decoded ++ items.flatMap (·.out d.map.get d.map.replacement) := by
  have step : ∀ {d d' : Utf8Decoder} {it : Item} {items : List Item} {e : Utf8Decoder}, After d d' it →
      (e.map = d'.map ∧ e.flags = items.foldl (fun f i => setFlag f (itemFlags i)) d'.flags ∧
      e.seenValid = (d'.seenValid || items.any itemWide) ∧
      e.decoded = d'.decoded ++ items.flatMap (·.out d'.map.get d'.map.replacement)) →
      (e.map = d.map ∧ e.flags = (it :: items).foldl (fun f i => setFlag f (itemFlags i)) d.flags ∧
      e.seenValid = (d.seenValid || (it :: items).any itemWide) ∧
      e.decoded = d.decoded ++ (it :: items).flatMap (·.out d.map.get d.map.replacement)) := by
    rintro d d' it items e ⟨a1, a2, a3, a4⟩ ⟨e1, e2, e3, e4⟩
    refine ⟨by rw [e1, a1], by rw [e2, a2]; rfl, by rw [e3, a3]; simp [Bool.or_assoc], ?_⟩
    rw [e4, a4, a1]; simp
  induction h with
  | nil => intro d hd; simp [feed]
  | @char s v rest items hc _ ih =>
    intro d hd
    obtain ⟨d', f, a, e⟩ := feed_char hd hc rest
    rw [e]
    exact step a (ih f)
  | @badStart c rest items h1 h2 _ ih =>
    intro d hd
    have hn : nextState 0 c = 1 := by
      rw [isChar_one] at h1; rw [unfinished_one] at h2
      rw [next0, if_neg h1]
      split; · rfl
      rw [if_neg (by omega), if_neg (by omega), if_neg (by omega), if_neg (by omega), if_neg (by omega)]
    obtain ⟨f, a⟩ := decode_badStart hd rest.isEmpty hn
    rw [feed]
    exact step a (ih f)
  | @broken p c rest items hp h1 h2 _ ih =>
    intro d hd
    obtain ⟨st, cp, h0, e, h3, h4, _⟩ := feed_unfinished hd hp c rest
    have hn : nextState st c = 1 := by
      have a1 : nextState st c ≠ 0 := fun h => h1 (h3 h)
      have a2 : ¬ 2 ≤ nextState st c := fun h => h2 (h4 h)
      omega
    obtain ⟨d', f, a, _, e2⟩ := decode_reject (d := d) (last := rest.isEmpty) (c := c) rfl
      (by have := hp.1; simpa using this) hn (cp := cp) (q := p.length)
    rw [e, feed, e2, decode_fresh f]
    exact step a (ih f)
  | cut hp =>
    intro d hd
    obtain ⟨a1, a2, a3, a4⟩ := feed_cut hd hp
    exact ⟨a1, by rw [a2]; rfl, by rw [a3]; simp, by rw [a4]; simp⟩

end Model.Utf8Decoder
