/-
Helper lemmas: the status reported by the decoders (C51).
-/
import Verif.Lemmas.PercentPath
import Verif.Spec.Status

namespace Model
open Spec Spec.Percent

/-- The status a configuration asks for. -/
def asked (cfg : DecoderConfig) : Unwelcome → Unwanted
  | .rawNul => cfg.nulRawUnwanted
  | .escapedNul => cfg.nulEncodedUnwanted
  | .invalidEscape => cfg.urlEncodingInvalidUnwanted
  | .uEscape => cfg.uEncodingUnwanted

variable {ovf : Bool} {cfg : DecoderConfig}

theorem uriElem_bad_code {s : Bytes} (h2 : ¬ Hex2 s) (hl : ¬ LetterU s)
    (hp : cfg.urlEncodingInvalidHandling ≠ .processInvalid) :
    ∃ e, uriElem ovf cfg (37 :: s) = .ok s e ∧ e.code = cfg.urlEncodingInvalidUnwanted := by
  simp only [uriElem, decodePercent, decodeValidUEncoding, decodeInvalidUEncoding, decodeValidHex,
      decodeInvalidHex, notU, uPrefix_not hl, PRes.bind, PRes.orElse', takeHex2_not h2, if_true]
  cases hh : cfg.urlEncodingInvalidHandling
  · exact ⟨_, rfl, rfl⟩
  · exact ⟨_, rfl, rfl⟩
  · exact absurd hh hp

theorem uriElem_badU_code {s : Bytes} (ho : cfg.uEncodingDecode = true) (hl : LetterU s) (h4 : ¬ UHex4 s)
    (hp : cfg.urlEncodingInvalidHandling ≠ .processInvalid) :
    ∃ e, uriElem ovf cfg (37 :: s) = .ok s e ∧ e.code = if 5 ≤ s.length then
      pickCode cfg.uEncodingUnwanted cfg.urlEncodingInvalidUnwanted else cfg.urlEncodingInvalidUnwanted := by
  obtain ⟨u, r, rfl, hu⟩ := hl
  simp only [uriElem, decodePercent, decodeValidUEncoding, decodeInvalidUEncoding, decodeValidHex,
    decodeInvalidHex, notU, uPrefix_u hu, PRes.bind, PRes.orElse', takeHex4_not hu h4, if_true,
    ho, takeN]
  by_cases hlen : 4 ≤ r.length
  · simp only [if_pos hlen]
    have h5 : 5 ≤ (u :: r).length := by simp only [List.length_cons]; omega
    cases hh : cfg.urlEncodingInvalidHandling
    · exact ⟨_, rfl, by rw [if_pos h5]; rfl⟩
    · exact ⟨_, rfl, by rw [if_pos h5]; rfl⟩
    · exact absurd hh hp
  · simp only [if_neg hlen]
    have h5 : ¬ 5 ≤ (u :: r).length := by simp only [List.length_cons]; omega
    exact ⟨_, rfl, by rw [if_neg h5]⟩

theorem pickCode_ignore (c : Unwanted) : pickCode c .ignore = c := by simp [pickCode]

theorem ignore_pickCode (c : Unwanted) : pickCode .ignore c = c := by
  unfold pickCode
  split
  · rfl
  · rename_i h
    exact (Classical.not_not.1 h).symm

theorem pickCode_assoc (a b c : Unwanted) : pickCode (pickCode a b) c = pickCode a (pickCode b c) := by
  unfold pickCode
  by_cases hc : c = .ignore <;> by_cases hb : b = .ignore <;> simp [hc, hb]

/-- The status after what has been met. -/
def foldCodes (cfg : DecoderConfig) (c : Unwanted) (m : List Unwelcome) : Unwanted :=
  m.foldl (fun c a => pickCode c (asked cfg a)) c

theorem foldMany0_of_meets {s : Bytes} {m : List Unwelcome} (h : Meets (optsOf cfg) s m)
    (hp : cfg.urlEncodingInvalidHandling ≠ .processInvalid) :
    ∀ (fuel : Nat) (acc : Decoded), s.length < fuel → ∃ d,
      foldMany0 (uriElem ovf cfg) uriStep fuel acc s = .ok [] d ∧ d.code = foldCodes cfg acc.code m := by
  have stop : ∀ (fuel : Nat) (acc : Decoded), ([] : Bytes).length < fuel → ∃ d,
      foldMany0 (uriElem ovf cfg) uriStep fuel acc [] = .ok [] d ∧ d.code = foldCodes cfg acc.code [] := by
    intro fuel acc hf
    obtain ⟨k, rfl⟩ : ∃ k, fuel = k + 1 := ⟨fuel - 1, by simp at hf; omega⟩
    exact ⟨acc, foldMany0_stop uriElem_nil _ _, rfl⟩
  have one : ∀ {i r : Bytes} {e : Elem} {m m' : List Unwelcome},
      uriElem ovf cfg i = .ok r e → r.length < i.length →
      (∀ c, foldCodes cfg (pickCode c e.code) m = foldCodes cfg c m') →
      (∀ (fuel : Nat) (acc : Decoded), r.length < fuel → ∃ d,
        foldMany0 (uriElem ovf cfg) uriStep fuel acc r = .ok [] d ∧ d.code = foldCodes cfg acc.code m) →
      ∀ (fuel : Nat) (acc : Decoded), i.length < fuel → ∃ d,
        foldMany0 (uriElem ovf cfg) uriStep fuel acc i = .ok [] d ∧ d.code = foldCodes cfg acc.code m' := by
    intro i r e m m' he hl hm ih fuel acc hf
    obtain ⟨k, rfl⟩ : ∃ k, fuel = k + 1 := ⟨fuel - 1, by omega⟩
    rw [foldMany0_step he hl]
    obtain ⟨d, h1, h2⟩ := ih k (uriStep acc e) (by omega)
    exact ⟨d, h1, h2.trans (hm acc.code)⟩
  induction h with
  | nil => exact stop
  | @plain c s m h1 h2 _ ih =>
    by_cases h3 : c = 43
    · subst h3
      exact one uriElem_plus (by simp) (fun c => by rw [pickCode_ignore]) ih
    · exact one (uriElem_plain h1 h3 h2) (by simp) (fun c => by rw [pickCode_ignore]) ih
  | rawNul ho _ ih =>
    have ho : cfg.nulRawTerminates = false := ho
    exact one (uriElem_nul.trans (by rw [ho]; rfl)) (by simp) (fun c => rfl) ih
  | rawNulStop ho =>
    have ho : cfg.nulRawTerminates = true := ho
    exact one (uriElem_nul.trans (by rw [ho]; rfl)) (by simp) (fun c => rfl) stop
  | hex hx hy hb _ ih =>
    exact one ((uriElem_hex hx hy).trans (by rw [nulTail, if_neg hb])) (by simp; omega)
      (fun c => by rw [pickCode_ignore]) ih
  | hexNul hx hy hb ho _ ih =>
    have ho : cfg.nulEncodedTerminates = false := ho
    exact one ((uriElem_hex hx hy).trans (by rw [nulTail, if_pos hb, ho]; rfl)) (by simp; omega)
      (fun c => by simp only [ignore_pickCode]; rfl) ih
  | hexNulStop hx hy hb ho =>
    have ho : cfg.nulEncodedTerminates = true := ho
    exact one ((uriElem_hex hx hy).trans (by rw [nulTail, if_pos hb, ho]; rfl)) (by simp)
      (fun c => by simp only [ignore_pickCode]; rfl) stop
  | @u u a b c d s _ ho hu ha hb hc hd h0 _ ih =>
    obtain ⟨f, h1, h2⟩ := uriElem_u (ovf := ovf) (cfg := cfg) (s := s) hu ha hb hc hd ho
    exact one (h1.trans (by rw [nulTail, if_neg h0])) (by simp; omega) (fun c => rfl) ih
  | @uNul u a b c d s _ ho hu ha hb hc hd h0 hz _ ih =>
    obtain ⟨f, h1, h2⟩ := uriElem_u (ovf := ovf) (cfg := cfg) (s := s) hu ha hb hc hd ho
    have hz : cfg.nulEncodedTerminates = false := hz
    exact one (h1.trans (by rw [nulTail, if_pos h0, hz]; rfl)) (by simp; omega)
      (fun c => by simp only [← pickCode_assoc]; rfl) ih
  | @uNulStop u a b c d s ho hu ha hb hc hd h0 hz =>
    obtain ⟨f, h1, h2⟩ := uriElem_u (ovf := ovf) (cfg := cfg) (s := s) hu ha hb hc hd ho
    have hz : cfg.nulEncodedTerminates = true := hz
    exact one (h1.trans (by rw [nulTail, if_pos h0, hz]; rfl)) (by simp)
      (fun c => by simp only [← pickCode_assoc]; rfl) stop
  | literalU ho hu _ ih =>
    exact one (uriElem_literalU hu ho) (by simp) (fun c => by rw [pickCode_ignore]) ih
  | bad h2 hl _ ih =>
    obtain ⟨e, he, hc⟩ := uriElem_bad_code (ovf := ovf) h2 hl hp
    exact one he (by simp) (fun c => by rw [hc]; rfl) ih
  | badU ho hl h4 _ ih =>
    obtain ⟨e, he, hc⟩ := uriElem_badU_code (ovf := ovf) ho hl h4 hp
    refine one he (by simp) (fun c => ?_) ih
    rw [hc]
    split
    · rw [← pickCode_assoc]; rfl
    · rfl

/-- Every text meets something. -/
theorem meets_total (o : Opts) : ∀ i : Bytes, ∃ m, Meets o i m := by
  intro i
  induction hlen : i.length using Nat.strongRecOn generalizing i with
  | _ k ih =>
    match i with
    | [] => exact ⟨_, .nil⟩
    | c :: s =>
      obtain ⟨m, h⟩ := ih s.length (by simp at hlen; omega) s rfl
      by_cases h37 : c = 37
      · subst h37
        by_cases h2 : Hex2 s
        · obtain ⟨x, y, r, rfl, hx, hy⟩ := h2
          obtain ⟨m, h⟩ := ih r.length (by simp at hlen; omega) r rfl
          by_cases h0 : hexByte x y = 0
          · cases ho : o.escNulStops
            · exact ⟨_, .hexNul hx hy h0 ho h⟩
            · exact ⟨_, .hexNulStop hx hy h0 ho⟩
          · exact ⟨_, .hex hx hy h0 h⟩
        · by_cases hl : LetterU s
          · cases hu : o.uEscapes
            · exact ⟨_, .literalU hu hl h⟩
            · by_cases h4 : UHex4 s
              · obtain ⟨u, a, b, c, d, r, rfl, huu, ha, hb, hc, hd⟩ := h4
                obtain ⟨m, h⟩ := ih r.length (by simp at hlen; omega) r rfl
                by_cases h0 : uByte o (hexByte a b) (hexByte c d) = 0
                · cases ho : o.escNulStops
                  · exact ⟨_, .uNul hu huu ha hb hc hd h0 ho h⟩
                  · exact ⟨_, .uNulStop hu huu ha hb hc hd h0 ho⟩
                · exact ⟨_, .u hu huu ha hb hc hd h0 h⟩
              · exact ⟨_, .badU hu hl h4 h⟩
          · exact ⟨_, .bad h2 hl h⟩
      · by_cases h0 : c = 0
        · subst h0
          cases ho : o.rawNulStops
          · exact ⟨_, .rawNul ho h⟩
          · exact ⟨_, .rawNulStop ho⟩
        · exact ⟨_, .plain h37 h0 h⟩

theorem foldCodes_eq (m : List Unwelcome) : ∀ c, foldCodes cfg c m =
    (((m.map (asked cfg)).filter (· ≠ .ignore)).getLast?).getD c := by
  induction m with
  | nil => intro c; rfl
  | cons a m ih =>
    intro c
    show foldCodes cfg (pickCode c (asked cfg a)) m = _
    rw [ih]
    by_cases ha : asked cfg a = .ignore
    · rw [ha, pickCode_ignore, List.map_cons, List.filter_cons_of_neg (by simp [ha])]
    · rw [List.map_cons, List.filter_cons_of_pos (by simpa using ha), List.getLast?_cons]
      simp [pickCode, ha]

namespace Path
open Spec.PercentPath

theorem elem_hexNulStop_code {x y : UInt8} {s : Bytes} (hx : IsHexDigit x) (hy : IsHexDigit y)
    (h0 : hexByte x y = 0) (hd : cfg.nulEncodedTerminates = true) :
    ∃ e, pathElem ovf cfg (37 :: x :: y :: s) = .ok [] e ∧ e.code = cfg.nulEncodedUnwanted := by
  rw [elem_hexPre hx, validHex_eval hx hy]
  simp only [h0, hd, true_and, if_true, PRes.orElse']
  exact ⟨_, rfl, rfl⟩

theorem elem_uNulStop_code {u a b c d : UInt8} {s : Bytes} (hu : u = 117 ∨ u = 85) (ha : IsHexDigit a)
    (hb : IsHexDigit b) (hc : IsHexDigit c) (hd : IsHexDigit d) (ho : cfg.uEncodingDecode = true)
    (h0 : PercentPath.uByte (optsOf cfg) (hexByte a b) (hexByte c d) = 0)
    (hz : cfg.nulEncodedTerminates = true) (hn : cfg.nulEncodedUnwanted ≠ .ignore) :
    ∃ e, pathElem ovf cfg (37 :: u :: a :: b :: c :: d :: s) = .ok [] e ∧ e.code = cfg.nulEncodedUnwanted := by
  obtain ⟨f, code, h1, h2⟩ := decodeU_hex (ovf := ovf) (cfg := cfg) ha hb hc hd
  simp only [pathElem, pathDecodePercent, pathDecodeValidUEncoding, uPrefix_u hu, PRes.bind,
    takeHex4 ha hb hc hd, h1, if_true, ho]
  simp only [h0, if_true, hz, PRes.orElse']
  exact ⟨_, rfl, by simp [pickCode, hn]⟩

theorem hex2_app {s b : Bytes} (h : ¬ Hex2 s) : ¬ Hex2 (s ++ 37 :: b) := by
  rintro ⟨x, y, r, he, hx, hy⟩
  match s with
  | [] => injection he with h1 _; subst h1; revert hx; decide
  | [_] => injection he with _ h1; injection h1 with h1 _; subst h1; revert hy; decide
  | x' :: y' :: s =>
    injection he with h1 h2; injection h2 with h2 h3
    subst h1; subst h2
    exact h ⟨x', y', s, rfl, hx, hy⟩

theorem letterU_app {s b : Bytes} (h : ¬ LetterU s) : ¬ LetterU (s ++ 37 :: b) := by
  rintro ⟨u, r, he, hu⟩
  match s with
  | [] => injection he with h1 _; subst h1; revert hu; decide
  | u' :: s => injection he with h1 _; subst h1; exact h ⟨u', s, rfl, hu⟩

theorem uhex4_app {s b : Bytes} (h : ¬ UHex4 s) : ¬ UHex4 (s ++ 37 :: b) := by
  have hx : ¬ IsHexDigit 37 := by decide
  rintro ⟨u, a1, a2, a3, a4, r, he, hu, h1, h2, h3, h4⟩
  match s with
  | [] => simp at he; obtain ⟨rfl, _⟩ := he; revert hu; decide
  | [_] => simp at he; obtain ⟨_, rfl, _⟩ := he; exact hx h1
  | [_, _] => simp at he; obtain ⟨_, _, rfl, _⟩ := he; exact hx h2
  | [_, _, _] => simp at he; obtain ⟨_, _, _, rfl, _⟩ := he; exact hx h3
  | [_, _, _, _] => simp at he; obtain ⟨_, _, _, _, rfl, _⟩ := he; exact hx h4
  | u' :: b1 :: b2 :: b3 :: b4 :: s =>
    simp at he
    obtain ⟨rfl, rfl, rfl, rfl, rfl, _⟩ := he
    exact h ⟨_, _, _, _, _, s, rfl, hu, h1, h2, h3, h4⟩

/-- A path with an escaped NUL that ends it: the status asked for escaped NULs is the last one set. -/
theorem foldMany0_nulStop {a b t : Bytes} {n : List PercentPath.Note} (h : Unescapes (optsOf cfg) a t n)
    (hp : cfg.urlEncodingInvalidHandling ≠ .processInvalid) (hz : cfg.nulEncodedTerminates = true)
    (hn : cfg.nulEncodedUnwanted ≠ .ignore) (h0 : cfg.nulRawTerminates = true → 0 ∉ a) :
    ∀ (fuel : Nat) (acc : Decoded), (a ++ 37 :: 48 :: 48 :: b).length < fuel → ∃ d,
      foldMany0 (pathElem ovf cfg) (pathStep cfg) fuel acc (a ++ 37 :: 48 :: 48 :: b) = .ok [] d ∧
        d.code = cfg.nulEncodedUnwanted := by
  have last : ∀ {i : Bytes} {e : Elem}, pathElem ovf cfg i = .ok [] e → e.code = cfg.nulEncodedUnwanted →
      i ≠ [] → ∀ (fuel : Nat) (acc : Decoded), i.length < fuel → ∃ d,
        foldMany0 (pathElem ovf cfg) (pathStep cfg) fuel acc i = .ok [] d ∧ d.code = cfg.nulEncodedUnwanted := by
    intro i e he hc hi fuel acc hf
    have hl : 0 < i.length := List.length_pos_iff.2 hi
    obtain ⟨k, rfl⟩ : ∃ k, fuel = k + 2 := ⟨fuel - 2, by omega⟩
    rw [foldMany0_step he (by simpa using hl), foldMany0_stop elem_nil]
    exact ⟨_, rfl, hc⟩
  have one : ∀ {i r out : Bytes} {m : List PercentPath.Note}, Yields cfg i r out m (pathElem ovf cfg i) →
      (∀ (fuel : Nat) (acc : Decoded), r.length < fuel → ∃ d,
        foldMany0 (pathElem ovf cfg) (pathStep cfg) fuel acc r = .ok [] d ∧ d.code = cfg.nulEncodedUnwanted) →
      ∀ (fuel : Nat) (acc : Decoded), i.length < fuel → ∃ d,
        foldMany0 (pathElem ovf cfg) (pathStep cfg) fuel acc i = .ok [] d ∧ d.code = cfg.nulEncodedUnwanted := by
    rintro i r out m ⟨e, he, hl, hf, hb⟩ ih fuel acc hfuel
    obtain ⟨k, rfl⟩ : ∃ k, fuel = k + 1 := ⟨fuel - 1, by omega⟩
    rw [foldMany0_step he hl]
    exact ih k _ (by omega)
  induction h with
  | nil =>
    obtain ⟨e, he, hc⟩ := elem_hexNulStop_code (ovf := ovf) (cfg := cfg) (x := 48) (y := 48) (s := b) (by decide)
      (by decide) (by decide) hz
    exact last he hc (by simp)
  | plain h1 h2 _ ih =>
    exact one (elem_plain h1 h2) (ih fun h hm => h0 h (List.mem_cons_of_mem _ hm))
  | rawNulStop hr => exact absurd List.mem_cons_self (h0 hr)
  | hex hx hy h2 hs _ ih =>
    exact one (elem_hex hx hy h2 hs) (ih fun h hm => h0 h (by simp [hm]))
  | hexSep hx hy hs hd _ ih => exact one (elem_hexSep hx hy hs hd) (ih fun h hm => h0 h (by simp [hm]))
  | hexSepKept hx hy hs hd _ ih =>
    exact one (elem_hexSepKept hx hy hs hd) (ih fun h hm => h0 h (List.mem_cons_of_mem _ hm))
  | hexNul hx hy h2 hd _ ih => exact absurd (hz.symm.trans hd) (by simp)
  | @hexNulStop x y s hx hy h2 hd =>
    obtain ⟨e, he, hc⟩ := elem_hexNulStop_code (ovf := ovf) (cfg := cfg) (s := s ++ 37 :: 48 :: 48 :: b) hx hy h2 hz
    exact last he hc (by simp)
  | u ho hu ha hb hc hd hz' _ ih => exact one (elem_u hu ha hb hc hd ho hz') (ih fun h hm => h0 h (by simp [hm]))
  | @uNulStop u a b' c d s ho hu ha hb hc hd h2 _ =>
    obtain ⟨e, he, hc'⟩ := elem_uNulStop_code (ovf := ovf) (s := s ++ 37 :: 48 :: 48 :: b) hu ha hb hc hd ho h2 hz hn
    exact last he hc' (by simp)
  | literalU ho hu _ ih =>
    obtain ⟨u, r, rfl, hu⟩ := hu
    exact one (elem_literalU ⟨u, _, rfl, hu⟩ ho) (ih fun h hm => h0 h (List.mem_cons_of_mem _ hm))
  | bad h2 h4 hl _ ih =>
    exact one (elem_bad (hex2_app h2) (fun e => uhex4_app (h4 e)) (fun e => letterU_app (hl e)) hp)
      (ih fun h hm => h0 h (List.mem_cons_of_mem _ hm))

end Path
end Model
