/-
Helper lemmas: the percent-decoder against its specification.
-/
import Verif.Model.Urlencoded
import Verif.Spec.Percent
import Verif.Lemmas.Flags
import Verif.Lemmas.Numeral

namespace Model
open Spec Spec.Percent

/-- The specification options a configuration stands for. -/
def optsOf (cfg : DecoderConfig) : Opts where
  plusIsSpace := cfg.plusspaceDecode
  rawNulStops := cfg.nulRawTerminates
  escNulStops := cfg.nulEncodedTerminates
  uEscapes := cfg.uEncodingDecode
  dropBadPercent := decide (cfg.urlEncodingInvalidHandling = .removePercent)
  bestfit hi lo := cfg.bestfitMap.get (hi.toNat * 256 + lo.toNat)

/-- The flag of an anomaly. -/
def noteFlag : Note → Flags
  | .invalid => Flag.URLEN_INVALID_ENCODING
  | .escapedNul => Flag.URLEN_ENCODED_NUL
  | .rawNul => Flag.URLEN_RAW_NUL
  | .overlongU => Flag.URLEN_OVERLONG_U
  | .halfFullWidth => Flag.URLEN_HALF_FULL_RANGE

def noteFlags (n : List Note) : Flags := n.foldr (fun a f => setFlag (noteFlag a) f) 0

theorem noteFlags_cons (a : Note) (n : List Note) :
    noteFlags (a :: n) = setFlag (noteFlag a) (noteFlags n) := rfl

theorem noteFlags_append (a b : List Note) :
    noteFlags (a ++ b) = setFlag (noteFlags a) (noteFlags b) := by
  induction a with
  | nil => simp [noteFlags, zero_setFlag]
  | cons x a ih =>
    show setFlag (noteFlag x) (noteFlags (a ++ b)) = setFlag (setFlag (noteFlag x) (noteFlags a)) _
    rw [ih, setFlag_assoc]

theorem noteFlags_isSet (n : List Note) (a : Note) :
    isSet (noteFlags n) (noteFlag a) = true ↔ a ∈ n := by
  induction n with
  | nil => simp [noteFlags, isSet_zero]
  | cons x n ih =>
    show isSet (setFlag (noteFlag x) (noteFlags n)) _ = true ↔ _
    rw [isSet_set, Bool.or_eq_true, ih, List.mem_cons]
    have : isSet (noteFlag x) (noteFlag a) = true ↔ a = x := by cases x <;> cases a <;> decide
    rw [this]

theorem nibble_hex : ∀ (ovf : Bool) (c : UInt8), IsHexDigit c →
    nibble ovf c = some (UInt8.ofNat (digitValue c)) := by
  intro ovf; cases ovf <;> decide +kernel

theorem digitValue_lt : ∀ c : UInt8, IsHexDigit c → digitValue c < 16 := by decide +kernel

theorem x2c_hex (ovf : Bool) {x y : UInt8} (hx : IsHexDigit x) (hy : IsHexDigit y) (r : Bytes) :
    x2c ovf (x :: y :: r) = .ok r (hexByte x y) := by
  have h1 := digitValue_lt x hx
  have h2 := digitValue_lt y hy
  simp only [x2c, nibble_hex ovf x hx, nibble_hex ovf y hy]
  have e1 : (UInt8.ofNat (digitValue x) * 16).toNat = 16 * digitValue x := by
    simp [UInt8.toNat_mul, UInt8.toNat_ofNat']; omega
  have e2 : (UInt8.ofNat (digitValue y)).toNat = digitValue y := by
    simp [UInt8.toNat_ofNat']; omega
  rw [if_neg]
  · congr 1
    apply UInt8.toNat_inj.mp
    rw [UInt8.toNat_add, e1, e2, hexByte, UInt8.toNat_ofNat']
  · rw [e1, e2]; simp; intro _; omega

theorem hex_not_u : ∀ c : UInt8, IsHexDigit c → ¬ (c = 117 ∨ c = 85) := by decide +kernel

theorem uPrefix_u {u : UInt8} (h : u = 117 ∨ u = 85) (r : Bytes) : uPrefix (u :: r) = .ok r () := by
  rcases h with rfl | rfl <;> rfl

theorem uPrefix_not {s : Bytes} (h : ¬ LetterU s) : uPrefix s = .err := by
  cases s with
  | nil => rfl
  | cons c s =>
    have : ¬ (c = 117 ∨ c = 85) := fun hc => h ⟨c, s, rfl, hc⟩
    simp only [not_or] at this
    simp [uPrefix, this]

theorem takeHex2 {x y : UInt8} (hx : IsHexDigit x) (hy : IsHexDigit y) (r : Bytes) :
    takeHex 2 (x :: y :: r) = .ok r [x, y] := by
  simp [takeHex, isHexDigit_iff, hx, hy]

theorem takeHex2_not {s : Bytes} (h : ¬ Hex2 s) : takeHex 2 s = .err := by
  match s with
  | [] => rfl
  | [_] => rfl
  | x :: y :: r =>
    have : ¬ (IsHexDigit x ∧ IsHexDigit y) := fun hc => h ⟨x, y, r, rfl, hc.1, hc.2⟩
    simp only [takeHex]
    rw [if_neg]
    simp [isHexDigit_iff]
    intro hx hy; exact this ⟨hx, hy⟩

theorem takeHex4 {a b c d : UInt8} (ha : IsHexDigit a) (hb : IsHexDigit b) (hc : IsHexDigit c)
    (hd : IsHexDigit d) (r : Bytes) : takeHex 4 (a :: b :: c :: d :: r) = .ok r [a, b, c, d] := by
  simp [takeHex, isHexDigit_iff, ha, hb, hc, hd]

theorem takeHex4_not {u : UInt8} {s : Bytes} (hu : u = 117 ∨ u = 85) (h : ¬ UHex4 (u :: s)) :
    takeHex 4 s = .err := by
  match s with
  | [] => rfl
  | [_] => rfl
  | [_, _] => rfl
  | [_, _, _] => rfl
  | a :: b :: c :: d :: r =>
    have : ¬ (IsHexDigit a ∧ IsHexDigit b ∧ IsHexDigit c ∧ IsHexDigit d) := fun hc =>
      h ⟨u, a, b, c, d, r, rfl, hu, hc⟩
    simp only [takeHex]
    rw [if_neg]
    simp [isHexDigit_iff]
    intro h1 h2 h3 h4; exact this ⟨h1, h2, h3, h4⟩

/-- The decoder on one more element. -/
theorem foldMany0_step {α σ} {p : Bytes → PRes α} {g : σ → α → σ} {i r : Bytes} {a : α}
    (hp : p i = .ok r a) (hl : r.length < i.length) (fuel : Nat) (acc : σ) :
    foldMany0 p g (fuel + 1) acc i = foldMany0 p g fuel (g acc a) r := by
  rw [foldMany0, hp]; simp only; rw [if_neg (by omega)]

theorem foldMany0_stop {α σ} {p : Bytes → PRes α} {g : σ → α → σ} {i : Bytes}
    (hp : p i = .err) (fuel : Nat) (acc : σ) :
    foldMany0 p g (fuel + 1) acc i = .ok i acc := by
  rw [foldMany0, hp]

end Model

namespace Model
open Spec Spec.Percent

section
variable {ovf : Bool} {cfg : DecoderConfig}

theorem uriElem_nil : uriElem ovf cfg [] = .err := rfl

theorem uriElem_plain {c : UInt8} {s : Bytes} (h1 : c ≠ 37) (h2 : c ≠ 43) (h3 : c ≠ 0) :
    uriElem ovf cfg (c :: s) = .ok s ⟨c, .ignore, 0, true⟩ := by
  simp [uriElem, decodePercent, decodePlus, unencodedByte, PRes.orElse', h1, h2, h3]

theorem uriElem_plus {s : Bytes} : uriElem ovf cfg (43 :: s) =
    .ok s ⟨if cfg.plusspaceDecode then 32 else 43, .ignore, 0, true⟩ := by
  simp [uriElem, decodePercent, decodePlus, PRes.orElse']

theorem uriElem_nul {s : Bytes} : uriElem ovf cfg (0 :: s) =
    .ok (if cfg.nulRawTerminates then [] else s)
      ⟨0, cfg.nulRawUnwanted, Flag.URLEN_RAW_NUL, !cfg.nulRawTerminates⟩ := by
  simp [uriElem, decodePercent, decodePlus, unencodedByte, PRes.orElse']

/-- The tail of `decode_percent`, shared by all its alternatives. -/
def nulTail (cfg : DecoderConfig) (r : Bytes) (e : Elem) : PRes Elem :=
  if e.byte = 0 then
    if cfg.nulEncodedTerminates then
      .ok [] ⟨e.byte, pickCode e.code cfg.nulEncodedUnwanted, setFlag e.flags Flag.URLEN_ENCODED_NUL, false⟩
    else .ok r ⟨e.byte, pickCode e.code cfg.nulEncodedUnwanted, setFlag e.flags Flag.URLEN_ENCODED_NUL, e.insert⟩
  else .ok r e

theorem uriElem_hex {x y : UInt8} {s : Bytes} (hx : IsHexDigit x) (hy : IsHexDigit y) :
    uriElem ovf cfg (37 :: x :: y :: s) = nulTail cfg s ⟨hexByte x y, .ignore, 0, true⟩ := by
  have hu : ¬ LetterU (x :: y :: s) := by
    rintro ⟨u, r, h, hu⟩; injection h with h _; subst h; exact hex_not_u x hx hu
  have h1 := uPrefix_not hu
  simp only [uriElem, decodePercent, decodeValidUEncoding, decodeInvalidUEncoding, decodeValidHex,
    notU, h1, PRes.bind, PRes.orElse', takeHex2 hx hy, x2c_hex ovf hx hy, if_true, nulTail]
  by_cases hh : hexByte x y = 0 <;> by_cases ht : cfg.nulEncodedTerminates = true <;> simp [hh, ht]

theorem decodeU_hex {a b c d : UInt8} (ha : IsHexDigit a) (hb : IsHexDigit b) (hc : IsHexDigit c)
    (hd : IsHexDigit d) : ∃ f, decodeUEncodingParams ovf cfg [a, b, c, d] =
      .ok [] (uByte (optsOf cfg) (hexByte a b) (hexByte c d), f) ∧
      noteFlags (uNotes (optsOf cfg) (hexByte a b) (hexByte c d)) =
        setFlag f (if uByte (optsOf cfg) (hexByte a b) (hexByte c d) = 0 then Flag.URLEN_ENCODED_NUL else 0) := by
  refine ⟨if hexByte a b = 0 then Flag.URLEN_OVERLONG_U else
    if hexByte a b = 0xff ∧ hexByte c d ≤ 0xef then Flag.URLEN_HALF_FULL_RANGE else 0, ?_, ?_⟩
  · simp only [decodeUEncodingParams, x2c_hex ovf ha hb, x2c_hex ovf hc hd, PRes.bind]
    split
    · rename_i h; simp [uByte, h]
    · rename_i h; simp [uByte, h, optsOf, bestfitKey]
  · rw [uNotes, noteFlags_append]
    congr 1
    · have : (hexByte c d).toNat ≤ 0xef ↔ hexByte c d ≤ 0xef := by rw [UInt8.le_iff_toNat_le]; rfl
      simp only [this]
      split
      · rfl
      · split <;> rfl
    · split <;> rfl

theorem uriElem_u {u a b c d : UInt8} {s : Bytes} (hu : u = 117 ∨ u = 85) (ha : IsHexDigit a)
    (hb : IsHexDigit b) (hc : IsHexDigit c) (hd : IsHexDigit d) (ho : cfg.uEncodingDecode = true) :
    ∃ f, uriElem ovf cfg (37 :: u :: a :: b :: c :: d :: s) =
      nulTail cfg s ⟨uByte (optsOf cfg) (hexByte a b) (hexByte c d), cfg.uEncodingUnwanted, f, true⟩ ∧
      noteFlags (uNotes (optsOf cfg) (hexByte a b) (hexByte c d)) =
        setFlag f (if uByte (optsOf cfg) (hexByte a b) (hexByte c d) = 0 then Flag.URLEN_ENCODED_NUL else 0) := by
  obtain ⟨f, h1, h2⟩ := decodeU_hex (ovf := ovf) (cfg := cfg) ha hb hc hd
  refine ⟨f, ?_, h2⟩
  simp only [uriElem, decodePercent, decodeValidUEncoding, uPrefix_u hu, PRes.bind, PRes.orElse',
    takeHex4 ha hb hc hd, h1, if_true, ho, nulTail]
  by_cases hh : uByte (optsOf cfg) (hexByte a b) (hexByte c d) = 0 <;>
    by_cases ht : cfg.nulEncodedTerminates = true <;> simp [hh, ht]

theorem uriElem_literalU {s : Bytes} (hu : LetterU s) (ho : cfg.uEncodingDecode = false) :
    uriElem ovf cfg (37 :: s) = .ok s ⟨37, .ignore, 0, true⟩ := by
  obtain ⟨u, r, rfl, hu⟩ := hu
  simp [uriElem, decodePercent, decodeValidUEncoding, uPrefix_u hu, PRes.bind, PRes.orElse', ho]

theorem uriElem_bad {s : Bytes} (h2 : ¬ Hex2 s) (h4 : cfg.uEncodingDecode = true → ¬ UHex4 s)
    (hl : cfg.uEncodingDecode = false → ¬ LetterU s)
    (hp : cfg.urlEncodingInvalidHandling ≠ .processInvalid) :
    ∃ code, uriElem ovf cfg (37 :: s) = .ok s ⟨37, code, Flag.URLEN_INVALID_ENCODING,
      !decide (cfg.urlEncodingInvalidHandling = .removePercent)⟩ := by
  by_cases hu : LetterU s
  · have ho : cfg.uEncodingDecode = true := by
      cases h : cfg.uEncodingDecode
      · exact absurd hu (hl h)
      · rfl
    obtain ⟨u, r, rfl, hu⟩ := hu
    simp only [uriElem, decodePercent, decodeValidUEncoding, decodeInvalidUEncoding, decodeValidHex,
      decodeInvalidHex, notU, uPrefix_u hu, PRes.bind, PRes.orElse', takeHex4_not hu (h4 ho), if_true,
      ho, takeN]
    by_cases hlen : 4 ≤ r.length
    · simp only [if_pos hlen]
      cases hh : cfg.urlEncodingInvalidHandling <;> simp_all
    · simp only [if_neg hlen]
      exact ⟨_, rfl⟩
  · simp only [uriElem, decodePercent, decodeValidUEncoding, decodeInvalidUEncoding, decodeValidHex,
      decodeInvalidHex, notU, uPrefix_not hu, PRes.bind, PRes.orElse', takeHex2_not h2, if_true]
    cases hh : cfg.urlEncodingInvalidHandling <;> simp_all

/-- Soundness: what the specification says is what the decoder computes. -/
theorem decodeUri_of_decodes {i t : Bytes} {n : List Note} (h : Decodes (optsOf cfg) i t n)
    (hp : cfg.urlEncodingInvalidHandling = .processInvalid → .invalid ∉ n) :
    ∀ (fuel : Nat) (acc : Decoded), i.length < fuel → ∃ code,
      foldMany0 (uriElem ovf cfg) uriStep fuel acc i =
        .ok [] ⟨acc.bytes ++ t, setFlag acc.flags (noteFlags n), code⟩ := by
  have stop : ∀ (fuel : Nat) (acc : Decoded), 0 < fuel →
      foldMany0 (uriElem ovf cfg) uriStep fuel acc [] = .ok [] acc := by
    intro fuel acc hf
    obtain ⟨k, rfl⟩ : ∃ k, fuel = k + 1 := ⟨fuel - 1, by omega⟩
    exact foldMany0_stop uriElem_nil _ _
  have one : ∀ {i r : Bytes} {e : Elem} {t t' : Bytes} {n n' : List Note},
      uriElem ovf cfg i = .ok r e → r.length < i.length →
      (if e.insert then e.byte :: t else t) = t' → setFlag e.flags (noteFlags n) = noteFlags n' →
      (∀ (fuel : Nat) (acc : Decoded), r.length < fuel → ∃ code,
        foldMany0 (uriElem ovf cfg) uriStep fuel acc r =
          .ok [] ⟨acc.bytes ++ t, setFlag acc.flags (noteFlags n), code⟩) →
      ∀ (fuel : Nat) (acc : Decoded), i.length < fuel → ∃ code,
        foldMany0 (uriElem ovf cfg) uriStep fuel acc i =
          .ok [] ⟨acc.bytes ++ t', setFlag acc.flags (noteFlags n'), code⟩ := by
    intro i r e t t' n n' he hl ht hn ih fuel acc hf
    obtain ⟨k, rfl⟩ : ∃ k, fuel = k + 1 := ⟨fuel - 1, by omega⟩
    rw [foldMany0_step he hl]
    obtain ⟨code, hc⟩ := ih k (uriStep acc e) (by omega)
    refine ⟨code, hc.trans ?_⟩
    subst ht
    rw [← hn]
    simp only [uriStep, setFlag_assoc]
    cases e.insert <;> simp
  have stopIh : ∀ (fuel : Nat) (acc : Decoded), ([] : Bytes).length < fuel → ∃ code,
        foldMany0 (uriElem ovf cfg) uriStep fuel acc [] =
          .ok [] ⟨acc.bytes ++ [], setFlag acc.flags (noteFlags []), code⟩ := by
    intro fuel acc hf
    exact ⟨acc.code, by rw [stop fuel acc hf]; simp [noteFlags, setFlag_zero]⟩
  induction h with
  | nil => exact stopIh
  | plain h1 h2 h3 _ ih => exact one (uriElem_plain h1 h2 h3) (by simp) rfl (by simp [zero_setFlag]) (ih fun h hm => hp h (by simp [hm]))
  | plus _ ih => exact one uriElem_plus (by simp) rfl (by simp [zero_setFlag]) (ih fun h hm => hp h (by simp [hm]))
  | rawNul hr _ ih =>
    have hr : cfg.nulRawTerminates = false := hr
    exact one (r := _) (uriElem_nul.trans (by rw [hr]; rfl)) (by simp) rfl (by rw [noteFlags_cons, noteFlag]) (ih fun h hm => hp h (by simp [hm]))
  | rawNulStop hr =>
    have hr : cfg.nulRawTerminates = true := hr
    exact one (uriElem_nul.trans (by rw [hr]; rfl)) (by simp) rfl (by rw [noteFlags_cons, noteFlag]) stopIh
  | hex hx hy hb _ ih =>
    exact one ((uriElem_hex hx hy).trans (by rw [nulTail, if_neg hb])) (by simp; omega) rfl
      (by simp [zero_setFlag]) (ih fun h hm => hp h (by simp [hm]))
  | hexNul hx hy hb ho _ ih =>
    have ho : cfg.nulEncodedTerminates = false := ho
    exact one ((uriElem_hex hx hy).trans (by rw [nulTail, if_pos hb, ho]; rfl)) (by simp; omega)
      (by simp [hb]) (by rw [zero_setFlag, noteFlags_cons, noteFlag]) (ih fun h hm => hp h (by simp [hm]))
  | hexNulStop hx hy hb ho =>
    have ho : cfg.nulEncodedTerminates = true := ho
    exact one ((uriElem_hex hx hy).trans (by rw [nulTail, if_pos hb, ho]; rfl)) (by simp)
      (by simp) (by rw [zero_setFlag, noteFlags_cons, noteFlag]) stopIh
  | @u u a b c d s _ _ ho hu ha hb hc hd hz _ ih =>
    obtain ⟨f, h1, h2⟩ := uriElem_u (ovf := ovf) (cfg := cfg) (s := s) hu ha hb hc hd ho
    by_cases h0 : uByte (optsOf cfg) (hexByte a b) (hexByte c d) = 0
    · have hz : cfg.nulEncodedTerminates = false := hz h0
      rw [if_pos h0] at h2
      refine one (h1.trans (by rw [nulTail, if_pos h0, hz]; rfl)) (by simp; omega) ?_ ?_ (ih fun h hm => hp h (by simp [hm]))
      · rfl
      · rw [noteFlags_append, h2]
    · rw [if_neg h0] at h2
      refine one (h1.trans (by rw [nulTail, if_neg h0])) (by simp; omega) ?_ ?_ (ih fun h hm => hp h (by simp [hm]))
      · rfl
      · rw [noteFlags_append, h2, setFlag_zero]
  | uNulStop ho hu ha hb hc hd h0 hz =>
    obtain ⟨f, h1, h2⟩ := uriElem_u (ovf := ovf) (cfg := cfg) hu ha hb hc hd ho
    have hz : cfg.nulEncodedTerminates = true := hz
    rw [if_pos h0] at h2
    refine one (h1.trans (by rw [nulTail, if_pos h0, hz]; rfl)) (by simp) ?_ ?_ stopIh
    · rfl
    · rw [h2]; simp [noteFlags, setFlag_zero]
  | literalU ho hu _ ih => exact one (uriElem_literalU hu ho) (by simp) rfl (by simp [zero_setFlag]) (ih fun h hm => hp h (by simp [hm]))
  | bad h2 h4 hl _ ih =>
    obtain ⟨code, he⟩ := uriElem_bad (ovf := ovf) (cfg := cfg) h2 h4 hl (fun h => hp h (by simp))
    refine one he (by simp) ?_ (by rw [noteFlags_cons, noteFlag]) (ih fun h hm => hp h (by simp [hm]))
    by_cases hr : cfg.urlEncodingInvalidHandling = .removePercent <;> simp [optsOf, hr]

end

/-- Totality of the specification. -/
theorem decodes_total (o : Opts) : ∀ i : Bytes, ∃ t n, Decodes o i t n := by
  intro i
  induction hlen : i.length using Nat.strongRecOn generalizing i with
  | _ k ih =>
    match i with
    | [] => exact ⟨_, _, .nil⟩
    | c :: s =>
      obtain ⟨t, n, h⟩ := ih s.length (by simp at hlen; omega) s rfl
      by_cases h37 : c = 37
      · subst h37
        by_cases h2 : Hex2 s
        · obtain ⟨x, y, r, rfl, hx, hy⟩ := h2
          obtain ⟨t, n, h⟩ := ih r.length (by simp at hlen; omega) r rfl
          by_cases h0 : hexByte x y = 0
          · cases ho : o.escNulStops
            · exact ⟨_, _, .hexNul hx hy h0 ho h⟩
            · exact ⟨_, _, .hexNulStop hx hy h0 ho⟩
          · exact ⟨_, _, .hex hx hy h0 h⟩
        · cases hu : o.uEscapes
          · by_cases hl : LetterU s
            · exact ⟨_, _, .literalU hu hl h⟩
            · exact ⟨_, _, .bad h2 (by simp [hu]) (fun _ => hl) h⟩
          · by_cases h4 : UHex4 s
            · obtain ⟨u, a, b, c, d, r, rfl, huu, ha, hb, hc, hd⟩ := h4
              obtain ⟨t, n, h⟩ := ih r.length (by simp at hlen; omega) r rfl
              by_cases h0 : uByte o (hexByte a b) (hexByte c d) = 0
              · cases ho : o.escNulStops
                · exact ⟨_, _, .u hu huu ha hb hc hd (fun _ => ho) h⟩
                · exact ⟨_, _, .uNulStop hu huu ha hb hc hd h0 ho⟩
              · exact ⟨_, _, .u hu huu ha hb hc hd (fun h => absurd h h0) h⟩
            · exact ⟨_, _, .bad h2 (fun _ => h4) (by simp [hu]) h⟩
      · by_cases h43 : c = 43
        · subst h43; exact ⟨_, _, .plus h⟩
        · by_cases h0 : c = 0
          · subst h0
            cases ho : o.rawNulStops
            · exact ⟨_, _, .rawNul ho h⟩
            · exact ⟨_, _, .rawNulStop ho⟩
          · exact ⟨_, _, .plain h37 h43 h0 h⟩

end Model
