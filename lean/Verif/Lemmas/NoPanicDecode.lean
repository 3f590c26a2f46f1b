/-
The decoders of src/urlencoded.rs and the normalization of URIs do not panic, unless arithmetic overflow
panics and invalid escapes are processed.
-/
import Verif.Model.ConnRequest

namespace Model

/-- Arithmetic wraps, or invalid escapes are not processed as if they were valid. -/
def NoOverflow (ovf : Bool) (cfg : DecoderConfig) : Prop :=
  ovf = false ∨ cfg.urlEncodingInvalidHandling ≠ .processInvalid

/-- Not a panic. -/
def PRes.calm {α : Type} (x : PRes α) : Prop := x ≠ .panic

namespace PRes

variable {α β : Type}

theorem calm_ok {r : Bytes} {a : α} : (PRes.ok r a).calm := by simp [calm]
theorem calm_err : (PRes.err : PRes α).calm := by simp [calm]

theorem calm_bind {x : PRes α} {f : Bytes → α → PRes β} (h : x.calm) (h' : ∀ r a, x = .ok r a → (f r a).calm) :
    (x.bind f).calm := by
  cases x with
  | ok r a => exact h' r a rfl
  | err => exact calm_err
  | panic => exact absurd rfl h

theorem calm_orElse {x y : PRes α} (h : x.calm) (h' : y.calm) : (x.orElse' y).calm := by
  cases x with
  | ok r a => exact calm_ok
  | err => exact h'
  | panic => exact absurd rfl h

end PRes

open PRes

theorem foldMany0_calm {α σ : Type} {p : Bytes → PRes α} {g : σ → α → σ} (h : ∀ i, (p i).calm) :
    ∀ (n : Nat) (acc : σ) (i : Bytes), (foldMany0 p g n acc i).calm := by
  intro n
  induction n with
  | zero => exact fun _ _ => calm_err
  | succ n ih =>
    intro acc i
    unfold foldMany0
    have := h i
    cases hp : p i with
    | ok r a =>
      dsimp only
      split
      · exact calm_err
      · exact ih _ _
    | err => exact calm_ok
    | panic => exact absurd hp this

theorem nibble_wraps : ∀ c, ∃ v, nibble false c = some v := fun c => by
  unfold nibble
  simp only [Bool.false_and, Bool.false_eq_true, if_false]
  split <;> exact ⟨_, rfl⟩

theorem nibble_hexDigit : ∀ c, isHexDigit c = true → ∃ v, nibble true c = some v ∧ v.toNat ≤ 15 := by
  decide +kernel

theorem nibble_any (ovf : Bool) (c : UInt8) (h : isHexDigit c = true) :
    ∃ v, nibble ovf c = some v ∧ (ovf = true → v.toNat ≤ 15) := by
  cases ovf
  · obtain ⟨v, hv⟩ := nibble_wraps c; exact ⟨v, hv, by simp⟩
  · obtain ⟨v, hv, h⟩ := nibble_hexDigit c h; exact ⟨v, hv, fun _ => h⟩

theorem x2c_wraps (i : Bytes) : (x2c false i).calm := by
  unfold x2c
  split
  next c1 c2 rest =>
    obtain ⟨a, ha⟩ := nibble_wraps c1
    obtain ⟨b, hb⟩ := nibble_wraps c2
    rw [ha, hb]
    exact calm_ok
  next => exact calm_err

theorem x2c_hex_calm (ovf : Bool) (i : Bytes) (h : ∀ c ∈ i, isHexDigit c = true) : (x2c ovf i).calm := by
  unfold x2c
  split
  next c1 c2 rest =>
    obtain ⟨a, ha, ha'⟩ := nibble_any ovf c1 (h c1 (by simp))
    obtain ⟨b, hb, hb'⟩ := nibble_any ovf c2 (h c2 (by simp))
    rw [ha, hb]
    dsimp only
    split
    next hc =>
      exfalso
      simp only [Bool.and_eq_true, decide_eq_true_eq] at hc
      have h1 := ha' hc.1
      have h2 := hb' hc.1
      have h3 := hc.2
      rw [UInt8.toNat_mul] at h3
      have : (16 : UInt8).toNat = 16 := rfl
      rw [this] at h3
      have := Nat.mod_le (a.toNat * 16) (2 ^ 8)
      omega
    next => exact calm_ok
  next => exact calm_err

theorem x2c_rest {ovf : Bool} {i r : Bytes} {b : UInt8} (h : x2c ovf i = .ok r b) : ∀ c ∈ r, c ∈ i := by
  unfold x2c at h
  split at h
  next c1 c2 rest =>
    split at h
    · split at h
      · cases h
      · cases h
        exact fun c hc => by simp [hc]
    · cases h
  next => cases h

/-- Two bytes in hexadecimal, given hexadecimal digits or wrapping arithmetic. -/
theorem x2c_calm {ovf : Bool} {i : Bytes} (h : ovf = false ∨ ∀ c ∈ i, isHexDigit c = true) : (x2c ovf i).calm := by
  rcases h with rfl | h
  · exact x2c_wraps i
  · exact x2c_hex_calm ovf i h

theorem x2c_step {ovf : Bool} {i r : Bytes} {b : UInt8} (h : ovf = false ∨ ∀ c ∈ i, isHexDigit c = true)
    (hx : x2c ovf i = .ok r b) : ovf = false ∨ ∀ c ∈ r, isHexDigit c = true :=
  h.imp id fun h c hc => h c (x2c_rest hx c hc)

theorem pathDecodeUEncoding_calm {ovf : Bool} {cfg : DecoderConfig} {i : Bytes}
    (h : ovf = false ∨ ∀ c ∈ i, isHexDigit c = true) : (pathDecodeUEncoding ovf cfg i).calm := by
  unfold pathDecodeUEncoding
  refine calm_bind (x2c_calm h) fun r a hx => ?_
  refine calm_bind (x2c_calm (x2c_step h hx)) fun r a hx => calm_ok

theorem decodeUEncodingParams_calm {ovf : Bool} {cfg : DecoderConfig} {i : Bytes}
    (h : ovf = false ∨ ∀ c ∈ i, isHexDigit c = true) : (decodeUEncodingParams ovf cfg i).calm := by
  unfold decodeUEncodingParams
  refine calm_bind (x2c_calm h) fun r a hx => ?_
  refine calm_bind (x2c_calm (x2c_step h hx)) fun r a hx => ?_
  split <;> exact calm_ok

theorem uPrefix_calm (i : Bytes) : (uPrefix i).calm := by
  unfold uPrefix
  split
  · split
    · exact calm_ok
    · exact calm_err
  · exact calm_err

theorem notU_calm (i : Bytes) : (notU i).calm := by
  unfold notU
  split
  · exact calm_err
  · exact calm_ok

theorem takeHex_calm (n : Nat) (i : Bytes) : (takeHex n i).calm := by
  unfold takeHex
  split
  · exact calm_ok
  · exact calm_err

theorem takeN_calm (n : Nat) (i : Bytes) : (takeN n i).calm := by
  unfold takeN
  split
  · exact calm_ok
  · exact calm_err

theorem takeHex_digits {n : Nat} {i r a : Bytes} (h : takeHex n i = .ok r a) : ∀ c ∈ a, isHexDigit c = true := by
  unfold takeHex at h
  split at h
  next hc =>
    simp only [Bool.and_eq_true] at hc
    cases h
    exact fun c hc' => List.all_eq_true.1 hc.2 c hc'
  next => cases h

theorem pathFinish_calm {cfg : DecoderConfig} {o : Bytes} {b : UInt8} {x : Unwanted} {f : Flags} :
    (pathFinish cfg o b x f).calm := calm_ok

/-- The wrapping of arithmetic, where an invalid escape is processed. -/
theorem NoOverflow.wraps {ovf : Bool} {cfg : DecoderConfig} (h : NoOverflow ovf cfg)
    (hp : cfg.urlEncodingInvalidHandling = .processInvalid) : ovf = false := by
  rcases h with h | h
  · exact h
  · exact absurd hp h

section
variable {ovf : Bool} {cfg : DecoderConfig} (h : NoOverflow ovf cfg)
include h

theorem pathElem_calm (i : Bytes) : (pathElem ovf cfg i).calm := by
  unfold pathElem
  refine calm_orElse ?_ ?_
  · unfold pathDecodePercent
    split
    next c input =>
      split
      next =>
        refine calm_orElse ?_ (calm_orElse ?_ (calm_orElse ?_ (calm_orElse ?_ (calm_orElse ?_ ?_))))
        · unfold pathDecodeValidUEncoding
          refine calm_bind (uPrefix_calm _) fun _ _ _ => ?_
          split
          · refine calm_bind (takeHex_calm _ _) fun _ _ ht => ?_
            refine calm_bind (pathDecodeUEncoding_calm (.inr (takeHex_digits ht))) fun _ _ _ => ?_
            dsimp only
            repeat' split
            all_goals first | exact calm_ok | exact pathFinish_calm
          · exact pathFinish_calm
        · unfold pathDecodeInvalidUEncoding
          refine calm_bind (uPrefix_calm _) fun _ _ _ => ?_
          split
          · refine calm_bind (takeN_calm _ _) fun _ _ _ => ?_
            split
            · exact calm_ok
            next hp => exact calm_bind (pathDecodeUEncoding_calm (.inl (h.wraps hp))) fun _ _ _ => pathFinish_calm
            · exact pathFinish_calm
          · exact pathFinish_calm
        · exact calm_bind (uPrefix_calm _) fun _ _ _ => calm_ok
        · unfold pathDecodeValidHex
          refine calm_bind (notU_calm _) fun _ _ _ => calm_bind (takeHex_calm _ _) fun _ _ ht => ?_
          refine calm_bind (x2c_calm (.inr (takeHex_digits ht))) fun _ _ _ => ?_
          dsimp only
          repeat' split
          all_goals exact calm_ok
        · unfold pathDecodeInvalidHex
          refine calm_bind (notU_calm _) fun _ _ _ => calm_bind (takeN_calm _ _) fun _ _ _ => ?_
          split
          · exact calm_ok
          next hp => exact calm_bind (x2c_calm (.inl (h.wraps hp))) fun _ _ _ => calm_ok
          · exact calm_ok
        · exact calm_ok
      next => exact calm_err
    next => exact calm_err
  · unfold pathParseOther
    repeat' split
    all_goals first | exact calm_ok | exact calm_err

theorem uriElem_calm (i : Bytes) : (uriElem ovf cfg i).calm := by
  unfold uriElem
  refine calm_orElse ?_ (calm_orElse ?_ ?_)
  · unfold decodePercent
    split
    next c input =>
      split
      next =>
        refine calm_bind (calm_orElse ?_ (calm_orElse ?_ (calm_orElse ?_ (calm_orElse ?_ ?_)))) fun _ _ _ => ?_
        · unfold decodeValidUEncoding
          refine calm_bind (uPrefix_calm _) fun _ _ _ => ?_
          split
          · refine calm_bind (takeHex_calm _ _) fun _ _ ht => ?_
            exact calm_bind (decodeUEncodingParams_calm (.inr (takeHex_digits ht))) fun _ _ _ => calm_ok
          · exact calm_ok
        · unfold decodeInvalidUEncoding
          refine calm_bind (uPrefix_calm _) fun _ _ _ => ?_
          split
          · refine calm_bind (takeN_calm _ _) fun _ _ _ => ?_
            dsimp only
            split
            · exact calm_ok
            next hp => exact calm_bind (decodeUEncodingParams_calm (.inl (h.wraps hp))) fun _ _ _ => calm_ok
            · exact calm_ok
          · exact calm_ok
        · unfold decodeValidHex
          refine calm_bind (notU_calm _) fun _ _ _ => calm_bind (takeHex_calm _ _) fun _ _ ht => ?_
          exact calm_bind (x2c_calm (.inr (takeHex_digits ht))) fun _ _ _ => calm_ok
        · unfold decodeInvalidHex
          refine calm_bind (notU_calm _) fun _ _ _ => ?_
          split
          · exact calm_ok
          next hp => exact calm_bind (x2c_calm (.inl (h.wraps hp))) fun _ _ _ => calm_ok
          · exact calm_ok
        · exact calm_ok
        · dsimp only
          repeat' split
          all_goals exact calm_ok
      next => exact calm_err
    next => exact calm_err
  · unfold decodePlus
    repeat' split
    all_goals first | exact calm_ok | exact calm_err
  · unfold unencodedByte
    repeat' split
    all_goals first | exact calm_ok | exact calm_err

theorem decodeUri_calm (i : Bytes) : (decodeUri ovf cfg i).calm := foldMany0_calm (uriElem_calm h) _ _ _

theorem pathDecodeUri_calm (i : Bytes) : (pathDecodeUri ovf cfg i).calm := foldMany0_calm (pathElem_calm h) _ _ _

theorem decodeUriInplace_calm (i : Bytes) : decodeUriInplace ovf cfg i ≠ none := by
  unfold decodeUriInplace
  have := decodeUri_calm h i
  cases hd : decodeUri ovf cfg i with
  | ok r d => simp
  | err => simp
  | panic => exact absurd hd this

theorem pathDecodeUriInplace_calm (f : Flags) (st : Unwanted) (i : Bytes) :
    pathDecodeUriInplace ovf cfg f st i ≠ none := by
  unfold pathDecodeUriInplace
  have := pathDecodeUri_calm h i
  cases hd : pathDecodeUri ovf cfg i with
  | ok r d => simp
  | err => simp
  | panic => exact absurd hd this

theorem normalizedDecoded_calm (f : Flags) (o : Option Bytes) : Uri.normalizedDecoded ovf cfg f o ≠ none := by
  unfold Uri.normalizedDecoded
  cases o with
  | none => simp
  | some s =>
    have : (decodeUriWithFlags ovf cfg f s).calm := by
      unfold decodeUriWithFlags
      exact calm_bind (decodeUri_calm h s) fun _ _ _ => calm_ok
    dsimp only
    cases hd : decodeUriWithFlags ovf cfg f s with
    | ok r d => simp
    | err => simp
    | panic => exact absurd hd this

theorem normalizedPath_calm (f : Flags) (st : Unwanted) (u : Uri) : u.normalizedPath ovf cfg f st ≠ none := by
  unfold Uri.normalizedPath
  cases u.path with
  | none => simp
  | some p => simpa using pathDecodeUriInplace_calm h f st p

theorem decodeHalf_calm (f : Form) (hf : f.cfg = cfg) (s : Bytes) :
    ∃ g t, f.decodeHalf ovf s = some (g, t) ∧ g.cfg = cfg := by
  unfold Form.decodeHalf
  split
  · have := decodeUri_calm h s
    subst hf
    cases hd : decodeUri ovf f.cfg s with
    | ok r d => exact ⟨_, _, rfl, rfl⟩
    | err => exact ⟨_, _, rfl, rfl⟩
    | panic => exact absurd hd this
  · exact ⟨_, _, rfl, hf⟩

theorem segment_calm (f : Form) (hf : f.cfg = cfg) (s : Bytes) : ∃ g, f.segment ovf s = some g ∧ g.cfg = cfg := by
  unfold Form.segment
  split
  · exact ⟨f, rfl, hf⟩
  next name value _ =>
    obtain ⟨g, t, h1, h2⟩ := decodeHalf_calm h f hf name
    obtain ⟨g', t', h3, h4⟩ := decodeHalf_calm h g h2 value
    rw [h1]
    dsimp only
    rw [h3]
    exact ⟨_, rfl, h4⟩

theorem segments_calm : ∀ (segs : List Bytes) (f : Form), f.cfg = cfg → ∃ g, f.segments ovf segs = some g ∧ g.cfg = cfg := by
  intro segs
  unfold Form.segments
  induction segs with
  | nil => exact fun f hf => ⟨f, rfl, hf⟩
  | cons x segs ih =>
    intro f hf
    obtain ⟨g, h1, h2⟩ := segment_calm h f hf x
    rw [List.foldlM_cons, h1]
    exact ih g h2

theorem parsePartial_calm (f : Form) (hf : f.cfg = cfg) (d : Bytes) :
    ∃ g, f.parsePartial ovf d = some g ∧ g.cfg = cfg := by
  unfold Form.parsePartial
  dsimp only
  split
  · split
    · exact ⟨_, rfl, hf⟩
    · exact ⟨_, rfl, hf⟩
  · split
    · obtain ⟨g, h1, h2⟩ := segments_calm h (splitOn f.sep (f.field ++ d)) { f with field := f.field ++ d, sawData := true } hf
      rw [h1]
      exact ⟨_, rfl, h2⟩
    · split
      · exact ⟨_, rfl, hf⟩
      next input remaining _ =>
        obtain ⟨g, h1, h2⟩ := segments_calm h (splitOn f.sep input) { f with field := f.field ++ d, sawData := true } hf
        rw [h1]
        exact ⟨_, rfl, h2⟩

theorem parseComplete_calm (f : Form) (hf : f.cfg = cfg) (d : Bytes) : f.parseComplete ovf d ≠ none := by
  unfold Form.parseComplete Form.finalize
  obtain ⟨g, h1, h2⟩ := parsePartial_calm h f hf d
  obtain ⟨g', h3, _⟩ := parsePartial_calm h { g with complete := true } h2 []
  rw [h1, Option.bind_some, h3]
  simp

theorem generateNormalizedUri_calm (u : Uri) : u.generateNormalizedUri ovf cfg ≠ none := by
  have h1 : u.pathOut ovf cfg ≠ none := by
    unfold Uri.pathOut
    split
    · simp
    · split
      · exact decodeUriInplace_calm h _
      · simp
  have h2 : u.queryOut ovf cfg ≠ none := by
    unfold Uri.queryOut
    split
    · simp
    next q _ =>
      obtain ⟨x, hx⟩ := Option.ne_none_iff_exists'.1 (decodeUriInplace_calm h q)
      rw [hx, Option.bind_some]
      split
      · simpa using decodeUriInplace_calm h x
      · simp
  obtain ⟨a, ha⟩ := Option.ne_none_iff_exists'.1 h1
  obtain ⟨b, hb⟩ := Option.ne_none_iff_exists'.1 h2
  unfold Uri.generateNormalizedUri
  rw [ha, hb]
  simp

end

theorem normalizeParsedUri_calm {e : TxEnv} (h : NoOverflow e.ovf e.cfg.decoderCfg) (t : Tx) :
    t.normalizeParsedUri e ≠ none := by
  unfold Tx.normalizeParsedUri
  split
  · simp
  next raw _ =>
    dsimp only
    have step : ∀ {α β : Type} {x : Option α} {f : α → Option β}, x ≠ none → (∀ a, f a ≠ none) → x.bind f ≠ none := by
      intro α β x f h1 h2
      cases x with
      | none => exact absurd rfl h1
      | some a => exact h2 a
    refine step (normalizedDecoded_calm h _ _) fun _ => ?_
    refine step (normalizedDecoded_calm h _ _) fun _ => ?_
    refine step ?_ fun _ => ?_
    · unfold Uri.normalizedHostname
      simpa using normalizedDecoded_calm h _ _
    refine step (normalizedDecoded_calm h _ _) fun _ => ?_
    refine step (normalizedPath_calm h _ _ _) fun _ => ?_
    simp

theorem storeNormalizedUri_calm {e : TxEnv} (h : NoOverflow e.ovf e.cfg.decoderCfg) (t : Tx) :
    t.storeNormalizedUri e ≠ none := by
  unfold Tx.storeNormalizedUri
  split
  · simp
  · simpa using generateNormalizedUri_calm h _

theorem queryParams_calm {e : TxEnv} (h : NoOverflow e.ovf e.cfg.decoderCfg) (t : Tx) : t.queryParams e ≠ .error .panic := by
  unfold Tx.queryParams
  split
  · split
    next hn => exact absurd hn (parseComplete_calm h _ rfl _)
    · split
      · simp
      · split <;> simp
  · simp

theorem parseRequestLine_calm {e : TxEnv} (h : NoOverflow e.ovf e.cfg.decoderCfg) (t : Tx) :
    (t.parseRequestLine e).1 ≠ .error .panic := by
  unfold Tx.parseRequestLine
  have h1 : (t.splitRequestUri e).1 ≠ .error .panic := by
    unfold Tx.splitRequestUri
    repeat' split
    all_goals simp
  split
  next err t' he =>
    rw [he] at h1
    exact h1
  next u t' he =>
    unfold Tx.finishRequestUri
    split
    next hn =>
      exfalso
      split at hn
      · exact normalizeParsedUri_calm h _ hn
      · cases hn
    next t'' _ =>
      have := queryParams_calm h t''
      split
      next err he => rw [he] at this; exact this
      next => simp

theorem processRequestHeaders_calm (e : TxEnv) (t : Tx) : (t.processRequestHeaders e).1 ≠ .error .panic := by
  unfold Tx.processRequestHeaders Tx.examineRest
  repeat' split
  all_goals simp

end Model
