/-
Helper lemmas: the path decoder against its specification.
-/
import Verif.Lemmas.Percent
import Verif.Spec.PercentPath

namespace Model
open Spec Spec.Percent
namespace Path
open Spec.PercentPath

/-- The specification options a configuration stands for. -/
def optsOf (cfg : DecoderConfig) : PercentPath.Opts where
  rawNulStops := cfg.nulRawTerminates
  escNulStops := cfg.nulEncodedTerminates
  uEscapes := cfg.uEncodingDecode
  dropBadPercent := decide (cfg.urlEncodingInvalidHandling = .removePercent)
  decodeSeparators := cfg.pathSeparatorsDecode
  backslashIsSlash := cfg.backslashConvertSlashes
  lowercase := cfg.convertLowercase
  squeezeSlashes := cfg.pathSeparatorsCompress
  bestfit hi lo := cfg.bestfitMap.get (hi.toNat * 256 + lo.toNat)

/-- The flag of an anomaly. -/
def noteFlag : PercentPath.Note → Flags
  | .invalid => Flag.PATH_INVALID_ENCODING
  | .escapedNul => Flag.PATH_ENCODED_NUL
  | .overlongU => Flag.PATH_OVERLONG_U
  | .halfFullWidth => Flag.PATH_HALF_FULL_RANGE
  | .escapedSeparator => Flag.PATH_ENCODED_SEPARATOR

def noteFlags (n : List PercentPath.Note) : Flags := n.foldr (fun a f => setFlag (noteFlag a) f) 0

theorem noteFlags_cons (a : PercentPath.Note) (n : List PercentPath.Note) :
    noteFlags (a :: n) = setFlag (noteFlag a) (noteFlags n) := rfl

theorem noteFlags_append (a b : List PercentPath.Note) :
    noteFlags (a ++ b) = setFlag (noteFlags a) (noteFlags b) := by
  induction a with
  | nil => simp [noteFlags, zero_setFlag]
  | cons x a ih =>
    show setFlag (noteFlag x) (noteFlags (a ++ b)) = setFlag (setFlag (noteFlag x) (noteFlags a)) _
    rw [ih, setFlag_assoc]

theorem noteFlags_isSet (n : List PercentPath.Note) (a : PercentPath.Note) :
    isSet (noteFlags n) (noteFlag a) = true ↔ a ∈ n := by
  induction n with
  | nil => simp [noteFlags, isSet_zero]
  | cons x n ih =>
    show isSet (setFlag (noteFlag x) (noteFlags n)) _ = true ↔ _
    rw [isSet_set, Bool.or_eq_true, ih, List.mem_cons]
    have : isSet (noteFlag x) (noteFlag a) = true ↔ a = x := by cases x <;> cases a <;> decide
    rw [this]

section
variable {ovf : Bool} {cfg : DecoderConfig}

theorem lower_eq_ite : ∀ c : UInt8, lower c =
    if 65 ≤ c.toNat ∧ c.toNat ≤ 90 then UInt8.ofNat (c.toNat + 32) else c := by decide +kernel

theorem control_fst (c : UInt8) : (pathDecodeControl cfg c).1 = mapByte (optsOf cfg) c := by
  have key : ∀ b l : Bool, (if l = true then lower (if (c == 92 && b) = true then 47 else c)
      else if (c == 92 && b) = true then 47 else c) =
      if c = 92 ∧ b = true then 47
      else if l = true ∧ 65 ≤ c.toNat ∧ c.toNat ≤ 90 then UInt8.ofNat (c.toNat + 32) else c := by
    intro b l
    by_cases h : c = 92
    · subst h; revert b l; decide
    · cases b <;> cases l <;> simp [h, lower_eq_ite]
  exact key _ _

theorem mapByte_percent (o : PercentPath.Opts) : mapByte o 37 = 37 := by
  simp [mapByte]

/-- An element that yields a byte of the first stage. -/
def Yields (cfg : DecoderConfig) (i r : Bytes) (out : Bytes) (n : List PercentPath.Note) (res : PRes Elem) : Prop :=
  ∃ e : Elem, res = .ok r e ∧ r.length < i.length ∧ e.flags = noteFlags n ∧
    (if e.insert then [e.byte] else []) = out.map (mapByte (optsOf cfg))

theorem elem_nil : pathElem ovf cfg [] = .err := rfl

theorem elem_plain {c : UInt8} {s : Bytes} (h : c ≠ 37) (h0 : c = 0 → cfg.nulRawTerminates = false) :
    Yields cfg (c :: s) s [c] [] (pathElem ovf cfg (c :: s)) := by
  simp only [pathElem, pathDecodePercent, if_neg h, PRes.orElse', pathParseOther]
  rw [if_neg (by rintro ⟨h1, h2⟩; rw [h0 h1] at h2; simp at h2)]
  exact ⟨_, rfl, by simp, rfl, by simp [control_fst]⟩

theorem elem_nulStop {s : Bytes} (h0 : cfg.nulRawTerminates = true) :
    Yields cfg (0 :: s) [] [] [] (pathElem ovf cfg (0 :: s)) := by
  simp only [pathElem, pathDecodePercent, PRes.orElse', pathParseOther]
  exact ⟨_, by simp [h0]; rfl, by simp, rfl, by simp⟩

theorem sep_iff (c : UInt8) : (c == 47 || cfg.backslashConvertSlashes && c == 92) = true ↔
    Separator (optsOf cfg) c := by
  simp [Separator, optsOf]

theorem elem_hexPre {x y : UInt8} {s : Bytes} (hx : IsHexDigit x) :
    pathElem ovf cfg (37 :: x :: y :: s) =
      ((pathDecodeValidHex ovf cfg (x :: y :: s)).orElse' <|
      (pathDecodeInvalidHex ovf cfg (x :: y :: s)).orElse' <|
      pathIncomplete cfg (x :: y :: s)).orElse' (pathParseOther cfg (37 :: x :: y :: s)) := by
  have hu : ¬ LetterU (x :: y :: s) := by
    rintro ⟨u, r, h, hu⟩; injection h with h _; subst h; exact hex_not_u x hx hu
  have h1 := uPrefix_not hu
  simp only [pathElem, pathDecodePercent, pathDecodeValidUEncoding, pathDecodeInvalidUEncoding, h1,
    PRes.bind, if_true]
  rfl

theorem validHex_eval {x y : UInt8} {s : Bytes} (hx : IsHexDigit x) (hy : IsHexDigit y) :
    pathDecodeValidHex ovf cfg (x :: y :: s) =
      (let byte := hexByte x y
       let flags := if byte = 0 then Flag.PATH_ENCODED_NUL else 0
       if byte = 0 ∧ cfg.nulEncodedTerminates then .ok [] ⟨byte, cfg.nulEncodedUnwanted, flags, false⟩
       else if byte == 47 || cfg.backslashConvertSlashes && byte == 92 then
         let flags := setFlag flags Flag.PATH_ENCODED_SEPARATOR
         if !cfg.pathSeparatorsDecode then
           let bc := pathDecodeControl cfg 37
           .ok (x :: y :: s) ⟨bc.1, bc.2, flags, true⟩
         else
           let bc := pathDecodeControl cfg byte
           .ok s ⟨bc.1, bc.2, flags, true⟩
       else
         let bc := pathDecodeControl cfg byte
         .ok s ⟨bc.1, bc.2, flags, true⟩) := by
  have hu : ¬ LetterU (x :: y :: s) := by
    rintro ⟨u, r, h, hu⟩; injection h with h _; subst h; exact hex_not_u x hx hu
  simp only [pathDecodeValidHex, notU, uPrefix_not hu, PRes.bind, takeHex2 hx hy, x2c_hex ovf hx hy]

theorem elem_hex {x y : UInt8} {s : Bytes} (hx : IsHexDigit x) (hy : IsHexDigit y)
    (h0 : hexByte x y ≠ 0) (hs : ¬ Separator (optsOf cfg) (hexByte x y)) :
    Yields cfg (37 :: x :: y :: s) s [hexByte x y] [] (pathElem ovf cfg (37 :: x :: y :: s)) := by
  rw [← sep_iff] at hs
  rw [elem_hexPre hx, validHex_eval hx hy]
  simp only [h0, false_and, if_false, hs, PRes.orElse']
  exact ⟨_, rfl, by simp; omega, rfl, by simp [control_fst]⟩

theorem sep_ne_zero {c : UInt8} (h : Separator (optsOf cfg) c) : c ≠ 0 := by
  rintro rfl; simp [Separator] at h

theorem elem_hexSep {x y : UInt8} {s : Bytes} (hx : IsHexDigit x) (hy : IsHexDigit y)
    (hs : Separator (optsOf cfg) (hexByte x y)) (hd : cfg.pathSeparatorsDecode = true) :
    Yields cfg (37 :: x :: y :: s) s [hexByte x y] [.escapedSeparator]
      (pathElem ovf cfg (37 :: x :: y :: s)) := by
  have h0 := sep_ne_zero hs
  rw [← sep_iff] at hs
  rw [elem_hexPre hx, validHex_eval hx hy]
  simp only [h0, false_and, if_false, hs, if_true, PRes.orElse', hd, Bool.not_true, Bool.false_eq_true]
  exact ⟨_, rfl, by simp; omega, by simp only [zero_setFlag]; rfl, by simp [control_fst]⟩

theorem elem_hexSepKept {x y : UInt8} {s : Bytes} (hx : IsHexDigit x) (hy : IsHexDigit y)
    (hs : Separator (optsOf cfg) (hexByte x y)) (hd : cfg.pathSeparatorsDecode = false) :
    Yields cfg (37 :: x :: y :: s) (x :: y :: s) [37] [.escapedSeparator]
      (pathElem ovf cfg (37 :: x :: y :: s)) := by
  have h0 := sep_ne_zero hs
  rw [← sep_iff] at hs
  rw [elem_hexPre hx, validHex_eval hx hy]
  simp only [h0, false_and, if_false, hs, if_true, PRes.orElse', hd, Bool.not_false]
  exact ⟨_, rfl, by simp, by simp only [zero_setFlag]; rfl, by simp [control_fst]⟩

theorem elem_hexNul {x y : UInt8} {s : Bytes} (hx : IsHexDigit x) (hy : IsHexDigit y)
    (h0 : hexByte x y = 0) (hd : cfg.nulEncodedTerminates = false) :
    Yields cfg (37 :: x :: y :: s) s [0] [.escapedNul] (pathElem ovf cfg (37 :: x :: y :: s)) := by
  rw [elem_hexPre hx, validHex_eval hx hy]
  simp [h0, hd, PRes.orElse']
  exact ⟨_, rfl, by simp; omega, rfl, by simp [control_fst]⟩

theorem elem_hexNulStop {x y : UInt8} {s : Bytes} (hx : IsHexDigit x) (hy : IsHexDigit y)
    (h0 : hexByte x y = 0) (hd : cfg.nulEncodedTerminates = true) :
    Yields cfg (37 :: x :: y :: s) [] [] [.escapedNul] (pathElem ovf cfg (37 :: x :: y :: s)) := by
  rw [elem_hexPre hx, validHex_eval hx hy]
  simp [h0, hd, PRes.orElse']
  exact ⟨_, rfl, by simp, rfl, by simp⟩

theorem decodeU_hex {a b c d : UInt8} (ha : IsHexDigit a) (hb : IsHexDigit b) (hc : IsHexDigit c)
    (hd : IsHexDigit d) : ∃ f code, pathDecodeUEncoding ovf cfg [a, b, c, d] =
      .ok [] (PercentPath.uByte (optsOf cfg) (hexByte a b) (hexByte c d), f, code) ∧
      noteFlags (PercentPath.uNotes (optsOf cfg) (hexByte a b) (hexByte c d)) =
        setFlag f (if PercentPath.uByte (optsOf cfg) (hexByte a b) (hexByte c d) = 0
          then Flag.PATH_ENCODED_NUL else 0) := by
  have hr : (if hexByte a b = 0 then hexByte c d else
      cfg.bestfitMap.get (bestfitKey (hexByte a b) (hexByte c d))) =
      PercentPath.uByte (optsOf cfg) (hexByte a b) (hexByte c d) := by
    simp [PercentPath.uByte, optsOf, bestfitKey]
  simp only [pathDecodeUEncoding, x2c_hex ovf ha hb, x2c_hex ovf hc hd, PRes.bind, hr]
  refine ⟨_, _, rfl, ?_⟩
  rw [PercentPath.uNotes, noteFlags_append, noteFlags_append]
  congr 1
  · by_cases hs : Separator (optsOf cfg) (PercentPath.uByte (optsOf cfg) (hexByte a b) (hexByte c d))
    · rw [if_pos hs, if_pos (sep_iff _ |>.mpr hs)]
      congr 1
      split
      · rfl
      · split <;> rfl
    · rw [if_neg hs, if_neg (fun h => hs (sep_iff _ |>.mp h))]
      rw [show noteFlags [] = 0 from rfl, setFlag_zero]
      split
      · rfl
      · split <;> rfl
  · split <;> rfl

theorem elem_u {u a b c d : UInt8} {s : Bytes} (hu : u = 117 ∨ u = 85) (ha : IsHexDigit a)
    (hb : IsHexDigit b) (hc : IsHexDigit c) (hd : IsHexDigit d) (ho : cfg.uEncodingDecode = true)
    (hz : PercentPath.uByte (optsOf cfg) (hexByte a b) (hexByte c d) = 0 → cfg.nulEncodedTerminates = false) :
    Yields cfg (37 :: u :: a :: b :: c :: d :: s) s
      [PercentPath.uByte (optsOf cfg) (hexByte a b) (hexByte c d)]
      (PercentPath.uNotes (optsOf cfg) (hexByte a b) (hexByte c d))
      (pathElem ovf cfg (37 :: u :: a :: b :: c :: d :: s)) := by
  obtain ⟨f, code, h1, h2⟩ := decodeU_hex (ovf := ovf) (cfg := cfg) ha hb hc hd
  simp only [pathElem, pathDecodePercent, pathDecodeValidUEncoding, uPrefix_u hu, PRes.bind,
    takeHex4 ha hb hc hd, h1, if_true, ho]
  by_cases h0 : PercentPath.uByte (optsOf cfg) (hexByte a b) (hexByte c d) = 0
  · rw [if_pos h0] at h2
    simp only [h0, if_true, hz h0, pathFinish, PRes.orElse', Bool.false_eq_true, if_false]
    exact ⟨_, rfl, by simp; omega, h2.symm, by simp [control_fst]⟩
  · rw [if_neg h0, setFlag_zero] at h2
    simp only [h0, if_false, pathFinish, PRes.orElse']
    exact ⟨_, rfl, by simp; omega, h2.symm, by simp [control_fst]⟩

theorem elem_uNulStop {u a b c d : UInt8} {s : Bytes} (hu : u = 117 ∨ u = 85) (ha : IsHexDigit a)
    (hb : IsHexDigit b) (hc : IsHexDigit c) (hd : IsHexDigit d) (ho : cfg.uEncodingDecode = true)
    (h0 : PercentPath.uByte (optsOf cfg) (hexByte a b) (hexByte c d) = 0)
    (hz : cfg.nulEncodedTerminates = true) :
    Yields cfg (37 :: u :: a :: b :: c :: d :: s) [] []
      (PercentPath.uNotes (optsOf cfg) (hexByte a b) (hexByte c d))
      (pathElem ovf cfg (37 :: u :: a :: b :: c :: d :: s)) := by
  obtain ⟨f, code, h1, h2⟩ := decodeU_hex (ovf := ovf) (cfg := cfg) ha hb hc hd
  simp only [pathElem, pathDecodePercent, pathDecodeValidUEncoding, uPrefix_u hu, PRes.bind,
    takeHex4 ha hb hc hd, h1, if_true, ho]
  rw [if_pos h0] at h2
  simp only [h0, if_true, hz, PRes.orElse']
  exact ⟨_, rfl, by simp, h2.symm, by simp⟩

theorem elem_literalU {s : Bytes} (hu : LetterU s) (ho : cfg.uEncodingDecode = false) :
    Yields cfg (37 :: s) s [37] [] (pathElem ovf cfg (37 :: s)) := by
  obtain ⟨u, r, rfl, hu⟩ := hu
  simp only [pathElem, pathDecodePercent, pathDecodeValidUEncoding, uPrefix_u hu, PRes.bind, if_true,
    ho, Bool.false_eq_true, if_false, pathFinish, PRes.orElse']
  exact ⟨_, rfl, by simp, rfl, by simp [control_fst]⟩

theorem elem_bad {s : Bytes} (h2 : ¬ Hex2 s) (h4 : cfg.uEncodingDecode = true → ¬ UHex4 s)
    (hl : cfg.uEncodingDecode = false → ¬ LetterU s)
    (hp : cfg.urlEncodingInvalidHandling ≠ .processInvalid) :
    Yields cfg (37 :: s) s (if cfg.urlEncodingInvalidHandling = .removePercent then [] else [37])
      [.invalid] (pathElem ovf cfg (37 :: s)) := by
  by_cases hu : LetterU s
  · have ho : cfg.uEncodingDecode = true := by
      cases h : cfg.uEncodingDecode
      · exact absurd hu (hl h)
      · rfl
    obtain ⟨u, r, rfl, hu⟩ := hu
    simp only [pathElem, pathDecodePercent, pathDecodeValidUEncoding, pathDecodeInvalidUEncoding,
      uPrefix_u hu, PRes.bind, PRes.orElse', takeHex4_not hu (h4 ho), if_true, ho, takeN]
    by_cases hlen : 4 ≤ r.length
    · simp only [if_pos hlen]
      cases hh : cfg.urlEncodingInvalidHandling
      · exact ⟨_, rfl, by simp, rfl, by simp [control_fst]⟩
      · exact ⟨_, rfl, by simp, rfl, by simp⟩
      · exact absurd hh hp
    · simp only [if_neg hlen, pathIncomplete]
      refine ⟨_, rfl, by simp, rfl, ?_⟩
      by_cases hr : cfg.urlEncodingInvalidHandling = .removePercent <;> simp [hr, mapByte_percent]
  · simp only [pathElem, pathDecodePercent, pathDecodeValidUEncoding, pathDecodeInvalidUEncoding,
      uPrefix_not hu, PRes.bind, PRes.orElse', if_true, pathDecodeValidHex, pathDecodeInvalidHex, notU,
      takeHex2_not h2, takeN]
    by_cases hlen : 2 ≤ s.length
    · simp only [if_pos hlen]
      cases hh : cfg.urlEncodingInvalidHandling
      · exact ⟨_, rfl, by simp, rfl, by simp [control_fst]⟩
      · exact ⟨_, rfl, by simp, rfl, by simp⟩
      · exact absurd hh hp
    · simp only [if_neg hlen, pathIncomplete]
      refine ⟨_, rfl, by simp, rfl, ?_⟩
      by_cases hr : cfg.urlEncodingInvalidHandling = .removePercent <;> simp [hr, mapByte_percent]

/-- Pushing bytes with the separator compression of the decoder. -/
def push (compress : Bool) (acc : Bytes) (t : Bytes) : Bytes :=
  t.foldl (fun acc c => if c == 47 && compress then
    (if acc.getLast? = some 47 then acc else acc ++ [c]) else acc ++ [c]) acc

theorem push_append (k : Bool) (acc t t' : Bytes) : push k acc (t ++ t') = push k (push k acc t) t' := by
  simp [push]

theorem decode_of_unescapes {i t : Bytes} {n : List PercentPath.Note} (h : Unescapes (optsOf cfg) i t n)
    (hp : cfg.urlEncodingInvalidHandling = .processInvalid → .invalid ∉ n) :
    ∀ (fuel : Nat) (acc : Decoded), i.length < fuel → ∃ code,
      foldMany0 (pathElem ovf cfg) (pathStep cfg) fuel acc i =
        .ok [] ⟨push cfg.pathSeparatorsCompress acc.bytes (t.map (mapByte (optsOf cfg))),
          setFlag acc.flags (noteFlags n), code⟩ := by
  have one : ∀ {i r out : Bytes} {t : Bytes} {m n : List PercentPath.Note},
      Yields cfg i r out m (pathElem ovf cfg i) →
      (∀ (fuel : Nat) (acc : Decoded), r.length < fuel → ∃ code,
        foldMany0 (pathElem ovf cfg) (pathStep cfg) fuel acc r =
          .ok [] ⟨push cfg.pathSeparatorsCompress acc.bytes (t.map (mapByte (optsOf cfg))),
            setFlag acc.flags (noteFlags n), code⟩) →
      ∀ (fuel : Nat) (acc : Decoded), i.length < fuel → ∃ code,
        foldMany0 (pathElem ovf cfg) (pathStep cfg) fuel acc i =
          .ok [] ⟨push cfg.pathSeparatorsCompress acc.bytes ((out ++ t).map (mapByte (optsOf cfg))),
            setFlag acc.flags (noteFlags (m ++ n)), code⟩ := by
    rintro i r out t m n ⟨e, he, hl, hf, hb⟩ ih fuel acc hfuel
    obtain ⟨k, rfl⟩ : ∃ k, fuel = k + 1 := ⟨fuel - 1, by omega⟩
    rw [foldMany0_step he hl]
    obtain ⟨code, hc⟩ := ih k (pathStep cfg acc e) (by omega)
    refine ⟨code, hc.trans ?_⟩
    rw [List.map_append, push_append, ← hb, noteFlags_append, ← hf, ← setFlag_assoc]
    simp only [pathStep]
    cases hi : e.insert <;> simp [push]
  have stopIh : ∀ (fuel : Nat) (acc : Decoded), ([] : Bytes).length < fuel → ∃ code,
        foldMany0 (pathElem ovf cfg) (pathStep cfg) fuel acc [] =
          .ok [] ⟨push cfg.pathSeparatorsCompress acc.bytes (([] : Bytes).map (mapByte (optsOf cfg))),
            setFlag acc.flags (noteFlags []), code⟩ := by
    intro fuel acc hf
    obtain ⟨k, rfl⟩ : ∃ k, fuel = k + 1 := ⟨fuel - 1, by simp at hf; omega⟩
    exact ⟨acc.code, by rw [foldMany0_stop elem_nil]; simp [noteFlags, setFlag_zero, push]⟩
  induction h with
  | nil => exact stopIh
  | plain h1 h2 _ ih => exact one (elem_plain h1 h2) (ih fun h hm => hp h (by simp [hm]))
  | rawNulStop hr => exact one (t := []) (n := []) (elem_nulStop hr) stopIh
  | hex hx hy h0 hs _ ih => exact one (elem_hex hx hy h0 hs) (ih fun h hm => hp h (by simp [hm]))
  | hexSep hx hy hs hd _ ih => exact one (elem_hexSep hx hy hs hd) (ih fun h hm => hp h (by simp [hm]))
  | hexSepKept hx hy hs hd _ ih => exact one (elem_hexSepKept hx hy hs hd) (ih fun h hm => hp h (by simp [hm]))
  | hexNul hx hy h0 hd _ ih => exact one (elem_hexNul hx hy h0 hd) (ih fun h hm => hp h (by simp [hm]))
  | hexNulStop hx hy h0 hd => exact one (t := []) (n := []) (elem_hexNulStop hx hy h0 hd) stopIh
  | u ho hu ha hb hc hd hz _ ih => exact one (elem_u hu ha hb hc hd ho hz) (ih fun h hm => hp h (by simp [hm]))
  | @uNulStop u a b c d s ho hu ha hb hc hd h0 hz =>
    have := one (t := []) (n := []) (elem_uNulStop (ovf := ovf) (s := s) hu ha hb hc hd ho h0 hz) stopIh
    simpa only [List.append_nil] using this
  | literalU ho hu _ ih => exact one (elem_literalU hu ho) (ih fun h hm => hp h (by simp [hm]))
  | bad h2 h4 hl _ ih =>
    have := one (elem_bad (ovf := ovf) (cfg := cfg) h2 h4 hl (fun h => hp h (by simp))) (ih fun h hm => hp h (by simp [hm]))
    by_cases hr : cfg.urlEncodingInvalidHandling = .removePercent
    · rw [if_pos hr] at this
      simpa [optsOf, hr] using this
    · rw [if_neg hr] at this
      simpa [optsOf, hr] using this

end

theorem unescapes_total (o : PercentPath.Opts) : ∀ i : Bytes, ∃ t n, Unescapes o i t n := by
  intro i
  induction hlen : i.length using Nat.strongRecOn generalizing i with
  | _ k ih =>
    match i with
    | [] => exact ⟨_, _, .nil⟩
    | c :: s =>
      obtain ⟨t, n, h⟩ := ih s.length (by simp at hlen; omega) s rfl
      by_cases h37 : c = 37
      · subst h37
        by_cases h2 : Hex2 s
        · obtain ⟨x, y, r, rfl, hx, hy⟩ := h2
          obtain ⟨t', n', h'⟩ := ih r.length (by simp at hlen; omega) r rfl
          by_cases h0 : hexByte x y = 0
          · cases ho : o.escNulStops
            · exact ⟨_, _, .hexNul hx hy h0 ho h'⟩
            · exact ⟨_, _, .hexNulStop hx hy h0 ho⟩
          · by_cases hs : Separator o (hexByte x y)
            · cases ho : o.decodeSeparators
              · exact ⟨_, _, .hexSepKept hx hy hs ho h⟩
              · exact ⟨_, _, .hexSep hx hy hs ho h'⟩
            · exact ⟨_, _, .hex hx hy h0 hs h'⟩
        · cases hu : o.uEscapes
          · by_cases hl : LetterU s
            · exact ⟨_, _, .literalU hu hl h⟩
            · exact ⟨_, _, .bad h2 (by simp [hu]) (fun _ => hl) h⟩
          · by_cases h4 : UHex4 s
            · obtain ⟨u, a, b, c, d, r, rfl, huu, ha, hb, hc, hd⟩ := h4
              obtain ⟨t, n, h⟩ := ih r.length (by simp at hlen; omega) r rfl
              by_cases h0 : PercentPath.uByte o (hexByte a b) (hexByte c d) = 0
              · cases ho : o.escNulStops
                · exact ⟨_, _, .u hu huu ha hb hc hd (fun _ => ho) h⟩
                · exact ⟨_, _, .uNulStop hu huu ha hb hc hd h0 ho⟩
              · exact ⟨_, _, .u hu huu ha hb hc hd (fun h => absurd h h0) h⟩
            · exact ⟨_, _, .bad h2 (fun _ => h4) (by simp [hu]) h⟩
      · by_cases h0 : c = 0
        · subst h0
          cases ho : o.rawNulStops
          · exact ⟨_, _, .plain h37 (fun _ => ho) h⟩
          · exact ⟨_, _, .rawNulStop ho⟩
        · exact ⟨_, _, .plain h37 (fun h => absurd h h0) h⟩

/-- Pushing with compression is squeezing. -/
theorem push_squeeze : ∀ (t acc : Bytes), (acc.getLast? ≠ some 47 ∨ t.head? ≠ some 47) →
    push true acc t = acc ++ squeeze t := by
  intro t
  induction t with
  | nil => intro acc _; simp [push, squeeze]
  | cons c t ih =>
    intro acc h
    have hstep : push true acc (c :: t) = push true (acc ++ [c]) t := by
      simp only [push, List.foldl_cons, Bool.and_true]
      congr 1
      by_cases hc : c = 47
      · subst hc
        have : acc.getLast? ≠ some 47 := by simpa using h
        simp [this]
      · simp [hc]
    rw [hstep]
    cases t with
    | nil => simp [push, squeeze]
    | cons d t =>
      by_cases hcd : c = 47 ∧ d = 47
      · obtain ⟨rfl, rfl⟩ := hcd
        have hstep2 : push true (acc ++ [47]) (47 :: t) = push true acc (47 :: t) := by
          have ha : acc.getLast? ≠ some 47 := by simpa using h
          simp [push, ha]
        rw [hstep2, ih acc (by left; simpa using h)]
        simp [squeeze]
      · rw [ih (acc ++ [c]) (by simp; by_cases hc : c = 47 <;> simp_all)]
        simp [squeeze, hcd]

theorem push_false (t acc : Bytes) : push false acc t = acc ++ t := by
  induction t generalizing acc with
  | nil => simp [push]
  | cons c t ih =>
    have : push false acc (c :: t) = push false (acc ++ [c]) t := by simp [push]
    rw [this, ih]; simp

end Path
end Model
