/-
Lemmas about the gzip header parser.
-/
import Verif.Spec.Gzip

namespace Model

open Spec

theorem flag_iff (flags : UInt8) : (flags &&& 0x02 ≠ 0 ↔ HasFlag flags 1) ∧ (flags &&& 0x04 ≠ 0 ↔ HasFlag flags 2) ∧
    (flags &&& 0x08 ≠ 0 ↔ HasFlag flags 3) ∧ (flags &&& 0x10 ≠ 0 ↔ HasFlag flags 4) := by
  unfold HasFlag
  revert flags
  decide +kernel

namespace Gz

theorem afterNul_cons (c : UInt8) (d : Bytes) : afterNul (c :: d) = if c = 0 then some d else afterNul d := by
  unfold afterNul splitFirst
  by_cases hc : c = 0
  · simp [hc]
  · simp only [hc, if_false, beq_eq_false_iff_ne.2 hc, List.dropWhile_cons, Bool.not_false, if_true]
    cases d.dropWhile (fun c => !(c == 0)) <;> rfl

theorem afterNul_some {text rest : Bytes} (h : 0 ∉ text) : afterNul (text ++ 0 :: rest) = some rest := by
  induction text with
  | nil => rw [List.nil_append, afterNul_cons, if_pos rfl]
  | cons c cs ih =>
    rw [List.cons_append, afterNul_cons, if_neg (fun hc => h (by simp [hc]))]
    exact ih fun h' => h (List.mem_cons_of_mem _ h')

theorem afterNul_none {d : Bytes} (h : 0 ∉ d) : afterNul d = none := by
  induction d with
  | nil => rfl
  | cons c cs ih =>
    rw [afterNul_cons, if_neg (fun hc => h (by simp [hc]))]
    exact ih fun h' => h (List.mem_cons_of_mem _ h')

/-- What the parser still expects of the header: `r`. -/
def Expects (flags : UInt8) (g : Gz) (r : Bytes) : Prop :=
  match g.state with
  | .start => ∃ six rest, g.buffer ++ r = 0x1f :: 0x8b :: 0x08 :: flags :: (six ++ rest) ∧ six.length = 6 ∧
      IsExtra flags rest ∧ g.buffer.length < 10 ∧ g.xlen = 0
  | .xlen => g.flags = flags ∧ HasFlag flags 2 ∧ IsExtra flags r ∧ g.xlen = 0
  | .extra => g.flags = flags ∧ ∃ extra rest, r = extra ++ rest ∧ extra.length = g.xlen ∧ extra ≠ [] ∧ IsName flags rest
  | .filename => g.flags = flags ∧ HasFlag flags 3 ∧ IsName flags r
  | .comment => g.flags = flags ∧ HasFlag flags 4 ∧ IsComment flags r
  | .crc => g.flags = flags ∧ HasFlag flags 1 ∧ IsCrc flags r
  | .afterHeader => g.flags = flags ∧ r = []


theorem consumed_nil (n : Nat) : consumed n [] = .ok n := by simp [consumed]

/-- The two ways in which data can meet a text closed by NUL. -/
theorem nul_cases {p r' text rest : Bytes} (h : p ++ r' = text ++ 0 :: rest) (h0 : 0 ∉ text) :
    (0 ∉ p ∧ ∃ text', text = p ++ text' ∧ r' = text' ++ 0 :: rest) ∨
    (∃ p', p = text ++ 0 :: p' ∧ rest = p' ++ r') := by
  rcases List.append_eq_append_iff.1 h with ⟨a, ha, hb⟩ | ⟨a, ha, hb⟩
  · refine .inl ⟨?_, a, ha, hb⟩
    intro hp
    exact h0 (by rw [ha]; exact List.mem_append_left _ hp)
  · cases a with
    | nil =>
      refine .inl ⟨?_, [], ?_, ?_⟩
      · rw [ha]; simpa using h0
      · simpa using ha.symm
      · simpa using hb.symm
    | cons c cs =>
      simp only [List.cons_append, List.cons.injEq] at hb
      refine .inr ⟨cs, ?_, hb.2⟩
      rw [ha, hb.1]

variable {flags : UInt8} {g : Gz} {n : Nat}

theorem atCrc_full {r tail : Bytes} (hf : g.flags = flags) (h : IsCrc flags r) :
    g.atCrc n (r ++ tail) = (consumed n tail, { g with state := .afterHeader }) := by
  unfold atCrc
  subst hf
  by_cases hb : g.flags &&& 0x02 ≠ 0
  · rw [if_pos hb]
    have hl := h.1 ((flag_iff _).1.1 hb)
    match r, hl with
    | [a, b], _ => rfl
  · rw [if_neg hb, h.2 (fun h' => hb ((flag_iff _).1.2 h')), List.nil_append]

theorem atCrc_part {p r' : Bytes} (hf : g.flags = flags) (h : IsCrc flags (p ++ r')) (hr : r' ≠ [])
    (hcut : HasFlag flags 1 → r'.length ≠ 1) :
    g.atCrc n p = (.ok n, { g with state := .crc }) ∧ HasFlag flags 1 ∧ IsCrc flags r' := by
  by_cases hb : HasFlag flags 1
  · have hl := h.1 hb
    have h1 := hcut hb
    have h2 : r'.length ≠ 0 := fun h => hr (List.eq_nil_of_length_eq_zero h)
    rw [List.length_append] at hl
    have hp : p = [] := List.eq_nil_of_length_eq_zero (by omega)
    subst hp
    refine ⟨?_, hb, h⟩
    unfold atCrc
    rw [hf, if_pos ((flag_iff _).1.2 hb)]
    show (consumed n [], _) = _
    rw [consumed_nil]
  · have := h.2 hb
    exact absurd (List.append_eq_nil_iff.1 this).2 hr

theorem atComment_full {r tail : Bytes} (hf : g.flags = flags) (h : IsComment flags r) :
    g.atComment n (r ++ tail) = (consumed n tail, { g with state := .afterHeader }) := by
  unfold atComment
  subst hf
  by_cases hb : g.flags &&& 0x10 ≠ 0
  · rw [if_pos hb]
    obtain ⟨text, rest, rfl, h0, hc⟩ := h.1 ((flag_iff _).2.2.2.1 hb)
    rw [List.append_assoc, List.cons_append, afterNul_some h0]
    exact atCrc_full rfl hc
  · rw [if_neg hb]
    exact atCrc_full rfl (h.2 fun h' => hb ((flag_iff _).2.2.2.2 h'))

theorem atComment_part {p r' : Bytes} (hf : g.flags = flags) (h : IsComment flags (p ++ r')) (hr : r' ≠ [])
    (hcut : HasFlag flags 1 → r'.length ≠ 1) :
    ∃ g', g.atComment n p = (.ok n, g') ∧ Expects flags g' r' ∧ g'.state ≠ .start ∧ g'.state ≠ .xlen := by
  unfold atComment
  subst hf
  by_cases hb : g.flags &&& 0x10 ≠ 0
  · rw [if_pos hb]
    have hb' := (flag_iff _).2.2.2.1 hb
    obtain ⟨text, rest, he, h0, hc⟩ := h.1 hb'
    rcases nul_cases he h0 with ⟨hp, text', rfl, rfl⟩ | ⟨p', rfl, rfl⟩
    · rw [afterNul_none hp]
      exact ⟨_, rfl, ⟨rfl, hb', fun _ => ⟨text', rest, rfl, fun h => h0 (List.mem_append_right _ h), hc⟩,
        fun h => absurd hb' h⟩, by simp, by simp⟩
    · rw [afterNul_some h0]
      obtain ⟨h1, h2, h3⟩ := atCrc_part (n := n) rfl hc hr hcut
      exact ⟨_, h1, ⟨rfl, h2, h3⟩, by simp, by simp⟩
  · rw [if_neg hb]
    obtain ⟨h1, h2, h3⟩ := atCrc_part (n := n) rfl (h.2 fun h' => hb ((flag_iff _).2.2.2.2 h')) hr hcut
    exact ⟨_, h1, ⟨rfl, h2, h3⟩, by simp, by simp⟩

theorem atFilename_full {r tail : Bytes} (hf : g.flags = flags) (h : IsName flags r) :
    g.atFilename n (r ++ tail) = (consumed n tail, { g with state := .afterHeader }) := by
  unfold atFilename
  subst hf
  by_cases hb : g.flags &&& 0x08 ≠ 0
  · rw [if_pos hb]
    obtain ⟨text, rest, rfl, h0, hc⟩ := h.1 ((flag_iff _).2.2.1.1 hb)
    rw [List.append_assoc, List.cons_append, afterNul_some h0]
    exact atComment_full rfl hc
  · rw [if_neg hb]
    exact atComment_full rfl (h.2 fun h' => hb ((flag_iff _).2.2.1.2 h'))

theorem atFilename_part {p r' : Bytes} (hf : g.flags = flags) (h : IsName flags (p ++ r')) (hr : r' ≠ [])
    (hcut : HasFlag flags 1 → r'.length ≠ 1) :
    ∃ g', g.atFilename n p = (.ok n, g') ∧ Expects flags g' r' ∧ g'.state ≠ .start ∧ g'.state ≠ .xlen := by
  unfold atFilename
  subst hf
  by_cases hb : g.flags &&& 0x08 ≠ 0
  · rw [if_pos hb]
    have hb' := (flag_iff _).2.2.1.1 hb
    obtain ⟨text, rest, he, h0, hc⟩ := h.1 hb'
    rcases nul_cases he h0 with ⟨hp, text', rfl, rfl⟩ | ⟨p', rfl, rfl⟩
    · rw [afterNul_none hp]
      exact ⟨_, rfl, ⟨rfl, hb', fun _ => ⟨text', rest, rfl, fun h => h0 (List.mem_append_right _ h), hc⟩,
        fun h => absurd hb' h⟩, by simp, by simp⟩
    · rw [afterNul_some h0]
      exact atComment_part rfl hc hr hcut
  · rw [if_neg hb]
    exact atComment_part rfl (h.2 fun h' => hb ((flag_iff _).2.2.1.2 h')) hr hcut

theorem atExtra_full {extra r tail : Bytes} (hf : g.flags = flags) (hx : extra.length = g.xlen) (h : IsName flags r) :
    g.atExtra n (extra ++ r ++ tail) = (consumed n tail, { g with state := .afterHeader }) := by
  unfold atExtra
  split
  · rw [if_neg (by rw [List.length_append, List.length_append]; omega), List.append_assoc, List.drop_append_of_le_length
      (by omega), List.drop_eq_nil_of_le (by omega), List.nil_append]
    exact atFilename_full hf h
  · rw [List.eq_nil_of_length_eq_zero (l := extra) (by omega), List.nil_append]
    exact atFilename_full hf h

theorem atExtra_part {extra rest p r' : Bytes} (hf : g.flags = flags) (hx : extra.length = g.xlen)
    (he : p ++ r' = extra ++ rest) (h : IsName flags rest) (hr : r' ≠ []) (hcut : HasFlag flags 1 → r'.length ≠ 1) :
    ∃ g', g.atExtra n p = (.ok n, g') ∧ Expects flags g' r' ∧ g'.state ≠ .start ∧ g'.state ≠ .xlen := by
  unfold atExtra
  split
  · split
    next hlt =>
      rcases List.append_eq_append_iff.1 he with ⟨a, ha, hb⟩ | ⟨a, ha, hb⟩
      · refine ⟨_, rfl, ⟨hf, a, rest, hb, ?_, ?_, h⟩, by simp, by simp⟩
        · show a.length = g.xlen - p.length
          rw [← hx, ha, List.length_append]; omega
        · rintro rfl
          rw [List.append_nil] at ha
          rw [ha] at hx; omega
      · have : p.length = extra.length + a.length := by rw [ha, List.length_append]
        omega
    next hlt =>
      rcases List.append_eq_append_iff.1 he with ⟨a, ha, hb⟩ | ⟨a, ha, hb⟩
      · have h1 : extra.length = p.length + a.length := by rw [ha, List.length_append]
        have h2 : a = [] := List.eq_nil_of_length_eq_zero (by omega)
        subst h2
        rw [List.drop_eq_nil_of_le (by omega)]
        rw [List.nil_append] at hb
        subst hb
        exact atFilename_part (p := []) hf h hr hcut
      · rw [ha, List.drop_append_of_le_length (by omega), List.drop_eq_nil_of_le (by omega), List.nil_append]
        rw [hb] at h
        exact atFilename_part hf h hr hcut
  · rw [List.eq_nil_of_length_eq_zero (l := extra) (by omega), List.nil_append] at he
    rw [← he] at h
    exact atFilename_part hf h hr hcut

theorem atXlen_full {r tail : Bytes} (hf : g.flags = flags) (hx : g.xlen = 0) (h : IsExtra flags r) :
    ∃ x, g.atXlen n (r ++ tail) = (consumed n tail, { g with state := .afterHeader, xlen := x }) := by
  unfold atXlen
  subst hf
  by_cases hb : g.flags &&& 0x04 ≠ 0
  · rw [if_pos hb]
    obtain ⟨lo, hi, extra, rest, rfl, hl, hc⟩ := h.1 ((flag_iff _).2.1.1 hb)
    refine ⟨lo.toNat + 256 * hi.toNat, ?_⟩
    show ({ g with xlen := lo.toNat + 256 * hi.toNat } : Gz).atExtra n (extra ++ rest ++ tail) = _
    rw [atExtra_full (g := { g with xlen := lo.toNat + 256 * hi.toNat }) rfl hl hc]
  · rw [if_neg hb]
    refine ⟨g.xlen, ?_⟩
    have := atExtra_full (g := g) (n := n) (extra := []) (r := r) (tail := tail) rfl hx.symm
      (h.2 fun h' => hb ((flag_iff _).2.1.2 h'))
    rw [List.nil_append] at this
    rw [this]

theorem atXlen_part {p r' : Bytes} (hf : g.flags = flags) (hx : g.xlen = 0) (h : IsExtra flags (p ++ r')) (hr : r' ≠ [])
    (hcut1 : HasFlag flags 1 → r'.length ≠ 1) (hcut2 : HasFlag flags 2 → p.length ≠ 1) :
    ∃ g', g.atXlen n p = (.ok n, g') ∧ Expects flags g' r' ∧ g'.state ≠ .start ∧
      (g'.state = .xlen → p = []) := by
  unfold atXlen
  subst hf
  by_cases hb : g.flags &&& 0x04 ≠ 0
  · rw [if_pos hb]
    have hb' := (flag_iff _).2.1.1 hb
    obtain ⟨lo, hi, extra, rest, he, hl, hc⟩ := h.1 hb'
    match p, hcut2 hb' with
    | [], _ =>
      refine ⟨{ g with state := .xlen }, ?_, ⟨rfl, hb', by simpa using h, hx⟩, by simp, fun _ => rfl⟩
      show (consumed n [], _) = _
      rw [consumed_nil]
    | a :: b :: p, _ =>
      simp only [List.cons_append, List.cons.injEq] at he
      obtain ⟨rfl, rfl, he⟩ := he
      obtain ⟨g', h1, h2, h3, h4⟩ := atExtra_part (g := { g with xlen := a.toNat + 256 * b.toNat }) (n := n) rfl hl he hc hr
        hcut1
      exact ⟨g', h1, h2, h3, fun h => absurd h h4⟩
  · rw [if_neg hb]
    obtain ⟨g', h1, h2, h3, h4⟩ := atExtra_part (g := g) (n := n) (extra := []) rfl hx.symm (List.nil_append _).symm
      (h.2 fun h' => hb ((flag_iff _).2.1.2 h')) hr hcut1
    exact ⟨g', h1, h2, h3, fun h => absurd h h4⟩

/-- How many bytes of the header have been seen, as far as it matters. -/
def At (g : Gz) (pos : Nat) : Prop := (g.state = .start → g.buffer.length = pos) ∧ (g.state = .xlen → pos = 10)

theorem parseStart_full {six rest : Bytes} (h : six.length = 6) :
    parseStart (0x1f :: 0x8b :: 0x08 :: flags :: (six ++ rest)) = .ok (some (rest, flags)) := by
  unfold parseStart
  rw [if_pos (by simp)]
  show (if 6 ≤ (six ++ rest).length then _ else _) = _
  rw [if_pos (by rw [List.length_append]; omega), List.drop_append_of_le_length (by omega),
    List.drop_eq_nil_of_le (by omega), List.nil_append]

theorem parseStart_part {p r' six rest : Bytes} (he : p ++ r' = 0x1f :: 0x8b :: 0x08 :: flags :: (six ++ rest))
    (hl : p.length < 10) : parseStart p = .ok none := by
  unfold parseStart
  match p, he, hl with
  | [], _, _ => rfl
  | [a], he, _ =>
    simp only [List.cons_append, List.cons.injEq] at he
    obtain ⟨rfl, _⟩ := he
    rfl
  | [a, b], he, _ =>
    simp only [List.cons_append, List.cons.injEq] at he
    obtain ⟨rfl, rfl, _⟩ := he
    rfl
  | [a, b, c], he, _ =>
    simp only [List.cons_append, List.cons.injEq] at he
    obtain ⟨rfl, rfl, rfl, _⟩ := he
    rfl
  | a :: b :: c :: d :: p, he, hl =>
    simp only [List.cons_append, List.cons.injEq] at he
    obtain ⟨rfl, rfl, rfl, _⟩ := he
    rw [if_pos (by simp)]
    show (if 6 ≤ p.length then _ else _) = _
    simp only [List.length_cons] at hl
    rw [if_neg (by omega)]

theorem expects_ne_nil {r : Bytes} (h : Expects flags g r) (hs : g.state ≠ .afterHeader) : r ≠ [] := by
  rintro rfl
  unfold Expects at h
  cases hg : g.state <;> simp only [hg] at h hs
  · obtain ⟨six, rest, h1, h2, _, h3, _⟩ := h
    have := congrArg List.length h1
    simp only [List.append_nil, List.length_cons, List.length_append] at this
    omega
  · obtain ⟨_, _, _, _, h, _⟩ := h.2.2.1.1 h.2.1
    cases h
  · obtain ⟨_, extra, rest, h1, _, h2, _⟩ := h
    exact h2 (List.append_eq_nil_iff.1 h1.symm).1
  · obtain ⟨text, rest, h, _⟩ := h.2.2.1 h.2.1
    exact absurd (List.append_eq_nil_iff.1 h.symm).2 (by simp)
  · obtain ⟨text, rest, h, _⟩ := h.2.2.1 h.2.1
    exact absurd (List.append_eq_nil_iff.1 h.symm).2 (by simp)
  · have := h.2.2.1 h.2.1
    simp at this
  · exact hs rfl

theorem consumed_full (r tail : Bytes) : consumed (r ++ tail).length tail = .ok r.length := by
  unfold consumed
  rw [List.length_append, if_pos (by omega)]
  congr 1
  omega

theorem write_start {d rest : Bytes} (hs : g.state = .start)
    (h : parseStart (g.buffer ++ d) = .ok (some (rest, flags))) :
    ∃ g1 : Gz, g.write d = g1.atXlen d.length rest ∧ g1.flags = flags ∧ g1.xlen = g.xlen := by
  unfold write
  simp only [hs, h]
  exact ⟨_, rfl, rfl, by split <;> rfl⟩

/-- Data that holds the rest of the header: exactly the header is taken. -/
theorem write_full {r tail : Bytes} (h : Expects flags g r) (hs : g.state ≠ .afterHeader) :
    ∃ g', g.write (r ++ tail) = (.ok r.length, g') ∧ g'.state = .afterHeader := by
  unfold Expects at h
  cases hg : g.state <;> simp only [hg] at h hs
  · obtain ⟨six, rest, h1, h2, h3, h4, h5⟩ := h
    have hp : g.buffer ++ (r ++ tail) = 0x1f :: 0x8b :: 0x08 :: flags :: (six ++ (rest ++ tail)) := by
      rw [← List.append_assoc, h1]
      simp only [List.cons_append, List.append_assoc]
    obtain ⟨g1, hg1, hf, hx⟩ := write_start (flags := flags) (rest := rest ++ tail) hg (by rw [hp, parseStart_full h2])
    rw [h5] at hx
    rw [hg1]
    obtain ⟨x, hw⟩ := atXlen_full (n := (r ++ tail).length) (tail := tail) hf hx h3
    rw [hw, consumed_full]
    exact ⟨_, rfl, rfl⟩
  · simp only [write, hg]
    obtain ⟨x, hw⟩ := atXlen_full (n := (r ++ tail).length) (tail := tail) h.1 h.2.2.2 h.2.2.1
    rw [hw, consumed_full]
    exact ⟨_, rfl, rfl⟩
  · simp only [write, hg]
    obtain ⟨hf, extra, rest, rfl, h1, h2, h3⟩ := h
    rw [atExtra_full hf h1 h3, consumed_full]
    exact ⟨_, rfl, rfl⟩
  · simp only [write, hg]
    rw [atFilename_full h.1 h.2.2, consumed_full]
    exact ⟨_, rfl, rfl⟩
  · simp only [write, hg]
    rw [atComment_full h.1 h.2.2, consumed_full]
    exact ⟨_, rfl, rfl⟩
  · simp only [write, hg]
    rw [atCrc_full h.1 h.2.2, consumed_full]
    exact ⟨_, rfl, rfl⟩
  · exact absurd rfl hs

/-- Data that ends within the header: all of it is taken. -/
theorem write_part {p r' : Bytes} {pos : Nat} (h : Expects flags g (p ++ r')) (hr : r' ≠ []) (hp : p ≠ []) (ha : At g pos)
    (hcut1 : HasFlag flags 1 → r'.length ≠ 1) (hcut2 : HasFlag flags 2 → pos + p.length ≠ 11) :
    ∃ g', g.write p = (.ok p.length, g') ∧ Expects flags g' r' ∧ At g' (pos + p.length) := by
  unfold Expects at h
  cases hg : g.state <;> simp only [hg] at h
  · obtain ⟨six, rest, h1, h2, h3, h4, h5⟩ := h
    rw [← List.append_assoc] at h1
    have hpos := ha.1 hg
    by_cases hl : (g.buffer ++ p).length < 10
    · simp only [write, hg, parseStart_part h1 hl]
      refine ⟨_, rfl, ⟨six, rest, h1, h2, h3, hl, h5⟩, fun _ => ?_, fun hx => ?_⟩
      · show (g.buffer ++ p).length = _
        rw [List.length_append, hpos]
      · cases hx
    · have h6 := congrArg (List.take 10) h1
      have h7 := congrArg (List.drop 10) h1
      rw [List.drop_append_of_le_length (by omega)] at h7
      have e1 : (0x1f :: 0x8b :: 0x08 :: flags :: (six ++ rest)).drop 10 = rest := by
        show (six ++ rest).drop 6 = rest
        rw [List.drop_append_of_le_length (by omega), List.drop_eq_nil_of_le (by omega), List.nil_append]
      have e2 : (0x1f :: 0x8b :: 0x08 :: flags :: (six ++ rest)).take 10 = 0x1f :: 0x8b :: 0x08 :: flags :: six := by
        show 0x1f :: 0x8b :: 0x08 :: flags :: (six ++ rest).take 6 = _
        rw [List.take_append_of_le_length (by omega), List.take_of_length_le (by omega)]
      rw [e1] at h7
      rw [List.take_append_of_le_length (by omega), e2] at h6
      generalize hq : (g.buffer ++ p).drop 10 = q at h7
      have hfull : g.buffer ++ p = 0x1f :: 0x8b :: 0x08 :: flags :: (six ++ q) := by
        rw [← List.take_append_drop 10 (g.buffer ++ p), h6, hq]
        rfl
      have hlq : pos + p.length = 10 + q.length := by
        have := congrArg List.length hfull
        simp only [List.length_append, List.length_cons] at this
        omega
      obtain ⟨g1, hg1, hf, hx⟩ := write_start (flags := flags) (rest := q) hg (by rw [hfull, parseStart_full h2])
      rw [h5] at hx
      rw [hg1]
      rw [← h7] at h3
      obtain ⟨g', h8, h9, h10, h11⟩ := atXlen_part (n := p.length) hf hx h3 hr hcut1
        (fun hb h => hcut2 hb (by omega))
      refine ⟨g', h8, h9, fun h => absurd h h10, fun h => ?_⟩
      rw [hlq, h11 h]
      rfl
  · simp only [write, hg]
    obtain ⟨g', h8, h9, h10, h11⟩ := atXlen_part (n := p.length) h.1 h.2.2.2 h.2.2.1 hr hcut1
      (fun hb h => hcut2 hb (by have := ha.2 hg; omega))
    exact ⟨g', h8, h9, fun h => absurd h h10, fun h => absurd (h11 h) hp⟩
  · simp only [write, hg]
    obtain ⟨hf, extra, rest, h1, h2, h3, h4⟩ := h
    obtain ⟨g', h8, h9, h10, h11⟩ := atExtra_part (n := p.length) hf h2 h1 h4 hr hcut1
    exact ⟨g', h8, h9, fun h => absurd h h10, fun h => absurd h h11⟩
  · simp only [write, hg]
    obtain ⟨g', h8, h9, h10, h11⟩ := atFilename_part (n := p.length) h.1 h.2.2 hr hcut1
    exact ⟨g', h8, h9, fun h => absurd h h10, fun h => absurd h h11⟩
  · simp only [write, hg]
    obtain ⟨g', h8, h9, h10, h11⟩ := atComment_part (n := p.length) h.1 h.2.2 hr hcut1
    exact ⟨g', h8, h9, fun h => absurd h h10, fun h => absurd h h11⟩
  · simp only [write, hg]
    obtain ⟨h1, h2, h3⟩ := atCrc_part (n := p.length) h.1 h.2.2 hr hcut1
    exact ⟨_, h1, ⟨h.1, h2, h3⟩, by simp [At]⟩
  · exact absurd (List.append_eq_nil_iff.1 h.2).2 hr

/-- Before any data. -/
theorem expects_start {h : Bytes} (hh : IsGzipHeader flags h) : Expects flags {} h ∧ At {} 0 := by
  obtain ⟨six, rest, h1, h2, h3⟩ := hh
  exact ⟨⟨six, rest, h1, h2, h3, by simp, rfl⟩, fun _ => rfl, by simp⟩

end Gz
end Model
