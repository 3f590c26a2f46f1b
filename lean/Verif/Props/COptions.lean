/-
C70: what a C program sets and what it is told.
-/
import Verif.Spec.CApi

namespace Props

open Model Spec

/-- The option a setter is for, and the value it is meant to give it: on and off as 1 and 0; a limit of 0 or
less is no limit (no LZMA at all for the memory limit). -/
def meaning : Setter → Option (Setting × OptionValue)
  | .backslashConvertSlashes n => some (.backslashConvertSlashes, .bool (n = 1))
  | .bestfitReplacementByte b => some (.bestfitReplacementByte, .byte (UInt8.ofNat (b % 256).toNat))
  | .compressionBombLimit n => some (.compressionBombLimit, .number n)
  | .compressionTimeLimit n => some (.compressionTimeLimit, .number n)
  | .convertLowercase n => some (.convertLowercase, .bool (n = 1))
  | .fieldLimit n => some (.fieldLimit, .number n)
  | .lzmaMemlimit n => some (.lzmaMemlimit, .limit (if n = 0 then none else some n))
  | .lzmaLayers n => some (.lzmaLayers, .limit (if n ≤ 0 then none else some n.toNat))
  | .maxTx n => some (.maxTx, .number n)
  | .nulEncodedTerminates n => some (.nulEncodedTerminates, .bool (n = 1))
  | .nulRawTerminates n => some (.nulRawTerminates, .bool (n = 1))
  | .parseRequestCookies _ => none
  | .pathSeparatorsCompress n => some (.pathSeparatorsCompress, .bool (n = 1))
  | .plusspaceDecode n => some (.plusspaceDecode, .bool (n = 1))
  | .pathSeparatorsDecode n => some (.pathSeparatorsDecode, .bool (n = 1))
  | .requestDecompression n => some (.requestDecompression, .bool (n = 1))
  | .decompressionLayerLimit n => some (.decompressionLayerLimit, .limit (if n ≤ 0 then none else some n.toNat))
  | .allowSpaceUri b => some (.allowSpaceUri, .bool b)
  | .serverPersonality _ => none
  | .uEncodingDecode n => some (.uEncodingDecode, .bool (n = 1))
  | .urlEncodingInvalidHandling h => some (.urlEncodingInvalidHandling, .handling h)
  | .utf8ConvertBestfit n => some (.utf8ConvertBestfit, .bool (n = 1))
  | .doubleDecodeNormalizedQuery b => some (.doubleDecodeNormalizedQuery, .bool b)
  | .doubleDecodeNormalizedPath b => some (.doubleDecodeNormalizedPath, .bool b)
  | .normalizedUriIncludeAll b => some (.normalizedUriIncludeAll, .bool b)
  | .txAutoDestroy n => some (.txAutoDestroy, .bool (n = 1))
  | .flushIncomplete n => some (.flushIncomplete, .bool (n = 1))
  | .parseUrlencoded n => some (.parseUrlencoded, .bool (n = 1))

/-- C70. A setter gives its option its value and leaves all the others as they are. -/
theorem C70_setter (c : Config) (s : Setter) (k : Setting) (v : OptionValue) (h : meaning s = some (k, v)) :
    readSetting (s.apply c) k = v ∧ ∀ j, j ≠ k → readSetting (s.apply c) j = readSetting c j := by
  cases s <;> cases h <;>
    exact ⟨by first | rfl | simp [readSetting, Setter.apply, Config.setBackslashConvertSlashes,
        Config.setConvertLowercase, Config.setPathSeparatorsCompress, Config.setPathSeparatorsDecode,
        Config.setUEncodingDecode, Config.setUrlEncodingInvalidHandling, Config.setUtf8ConvertBestfit,
        limitOfInt, lzmaOfLimit],
      fun j hj => by cases j <;> first | rfl | exact absurd rfl hj⟩

/-- What a server personality stands for, of the options that can be set one by one. -/
def personalityMeaning : Personality → List (Setting × OptionValue)
  | .minimal | .iis_4_0 | .iis_5_0 => []
  | .generic =>
    [(.backslashConvertSlashes, .bool true), (.pathSeparatorsDecode, .bool true), (.pathSeparatorsCompress, .bool true)]
  | .ids =>
    [(.backslashConvertSlashes, .bool true), (.pathSeparatorsDecode, .bool true), (.pathSeparatorsCompress, .bool true),
     (.convertLowercase, .bool true), (.utf8ConvertBestfit, .bool true), (.uEncodingDecode, .bool true)]
  | .apache_2 =>
    [(.backslashConvertSlashes, .bool false), (.pathSeparatorsDecode, .bool false), (.pathSeparatorsCompress, .bool true),
     (.uEncodingDecode, .bool false), (.urlEncodingInvalidHandling, .handling .preservePercent)]
  | .iis_5_1 =>
    [(.backslashConvertSlashes, .bool true), (.pathSeparatorsDecode, .bool true), (.pathSeparatorsCompress, .bool true),
     (.uEncodingDecode, .bool false), (.urlEncodingInvalidHandling, .handling .preservePercent)]
  | .iis_6_0 | .iis_7_0 | .iis_7_5 =>
    [(.backslashConvertSlashes, .bool true), (.pathSeparatorsDecode, .bool true), (.pathSeparatorsCompress, .bool true),
     (.uEncodingDecode, .bool true), (.urlEncodingInvalidHandling, .handling .preservePercent)]

/-- All that a setter is for. -/
def meanings : Setter → List (Setting × OptionValue)
  | .serverPersonality p => personalityMeaning p
  | s => (meaning s).toList

/-- The value that these settings, one after the other, leave an option with. -/
def settled (k : Setting) (old : OptionValue) (l : List (Setting × OptionValue)) : OptionValue :=
  ((l.reverse.find? fun x => x.1 = k).map (·.2)).getD old

theorem settled_append (k : Setting) (old : OptionValue) (a b : List (Setting × OptionValue)) :
    settled k old (a ++ b) = settled k (settled k old a) b := by
  unfold settled
  rw [List.reverse_append, List.find?_append]
  cases b.reverse.find? (fun x => x.1 = k) <;> rfl

/-- C70. A server personality sets the options it stands for and leaves the others as they are. -/
theorem C70_personality (c : Config) (p : Personality) (k : Setting) :
    readSetting ((Setter.serverPersonality p).apply c) k = settled k (readSetting c k) (personalityMeaning p) := by
  cases p <;> cases k <;>
    simp [settled, personalityMeaning, readSetting, Setter.apply, Config.setServerPersonality,
      Config.setServerPersonality.remember, Config.setBackslashConvertSlashes, Config.setConvertLowercase,
      Config.setPathSeparatorsCompress, Config.setPathSeparatorsDecode, Config.setUEncodingDecode,
      Config.setUrlEncodingInvalidHandling, Config.setUtf8ConvertBestfit, Config.setUEncodingUnwanted,
      Config.setControlCharsUnwanted, Config.setUrlEncodingInvalidUnwanted,
      Config.setRequestlineLeadingWhitespaceUnwanted]

/-- C70. After any calls of setters on a configuration, each option has the value of the last call for it, or the one it
had. -/
theorem C70_last_setting (c : Config) (l : List Setter) (k : Setting) :
    readSetting (l.foldl Setter.apply c) k = settled k (readSetting c k) (l.flatMap meanings) := by
  induction l generalizing c with
  | nil => rfl
  | cons s l ih =>
    rw [List.foldl_cons, ih (s.apply c), List.flatMap_cons, settled_append]
    congr 1
    by_cases hp : ∃ p, s = .serverPersonality p
    · obtain ⟨p, rfl⟩ := hp
      exact C70_personality c p k
    · have hm : meanings s = (meaning s).toList := by
        cases s with
        | serverPersonality p => exact absurd ⟨p, rfl⟩ hp
        | _ => rfl
      rw [hm]
      cases hs : meaning s with
      | none =>
        have : s.apply c = c := by
          cases s with
          | parseRequestCookies n => rfl
          | serverPersonality p => exact absurd ⟨p, rfl⟩ hp
          | _ => cases hs
        rw [this]
        rfl
      | some x =>
        obtain ⟨j, v⟩ := x
        obtain ⟨h1, h2⟩ := C70_setter c s j v hs
        by_cases hj : j = k
        · subst hj; simp [settled, h1]
        · simp [settled, hj, h2 k (Ne.symm hj)]

/-- Case for C70: a personality, then one of its options is changed, then another personality that does not touch it. -/
example : readSetting (([.serverPersonality .ids, .convertLowercase 0, .serverPersonality .apache_2] : List Setter).foldl
    Setter.apply {}) .convertLowercase = .bool false := by decide

/-- C70. "On" is 1 and nothing else: any other number (2, -1: true for C) switches an option off. -/
theorem C70_true_is_one (c : Config) (n : Int) (h : n ≠ 1) :
    readSetting ((Setter.txAutoDestroy n).apply c) .txAutoDestroy = .bool false ∧
    readSetting ((Setter.requestDecompression n).apply c) .requestDecompression = .bool false := by
  simp [readSetting, Setter.apply, h]

/-- C70. The numbers told about a transaction: a length or a count is told as it is, up to 2^63; a port or a status
code if there is one; yes or no as 1 or 0. -/
theorem C70_numbers (t : Tx) :
    (∀ x ∈ [(TxNumber.index, t.index), (.requestMessageLen, t.requestMessageLen), (.requestEntityLen, t.requestEntityLen),
        (.responseMessageLen, t.responseMessageLen), (.responseEntityLen, t.responseEntityLen),
        (.requestHeadersSize, t.requestHeaders.length), (.responseHeadersSize, t.responseHeaders.length)],
      ∀ n, x.1.call (some t) = Int.ofNat n ↔ x.2 = n ∧ n < 2 ^ 63) ∧
    (TxNumber.flags.call (some t) = t.flags) ∧
    (TxNumber.isProtocol09.call (some t) ∈ [0, 1] ∧ (TxNumber.isProtocol09.call (some t) = 1 ↔ t.isProtocol09 = true)) ∧
    (TxNumber.isHttp2Upgrade.call (some t) ∈ [0, 1] ∧ (TxNumber.isHttp2Upgrade.call (some t) = 1 ↔ t.isHttp2Upgrade = true)) ∧
    (∀ x ∈ [(Unwanted.ignore, 0), (.code400, 400), (.code404, 404)],
      (TxNumber.responseStatusExpectedNumber.call (some t) = x.2 ↔ t.responseStatusExpectedNumber = x.1)) ∧
    (∀ n, TxNumber.requestContentLength.call (some t) = Int.ofNat n ↔
      t.requestContentLength = some n ∧ n < 2 ^ 63) ∧
    (∀ n, TxNumber.responseContentLength.call (some t) = Int.ofNat n ↔
      t.responseContentLength = some n ∧ n < 2 ^ 63) ∧
    (∀ n, TxNumber.requestPortNumber.call (some t) = Int.ofNat n ↔ t.requestPortNumber = some n) ∧
    (∀ n, 0 < n → (TxNumber.responseStatusNumber.call (some t) = Int.ofNat n ↔
      t.responseStatusNumber = .valid n)) := by
  have hs : ∀ n m : Nat, signed n = Int.ofNat m ↔ n = m ∧ n < 2 ^ 63 := by
    intro n m
    unfold signed
    split
    · next h => simp only [Int.ofNat_eq_natCast]; omega
    · next h => simp only [Int.ofNat_eq_natCast]; omega
  have hl : ∀ (o : Option Nat) (n : Nat), (o.map signed).getD (-1) = Int.ofNat n ↔ o = some n ∧ n < 2 ^ 63 := by
    intro o n
    cases o with
    | none => simp
    | some m =>
      show signed m = _ ↔ _
      rw [hs]
      constructor
      · rintro ⟨rfl, h⟩; exact ⟨rfl, h⟩
      · rintro ⟨h, h'⟩; cases h; exact ⟨rfl, h'⟩
  have hs' : ∀ n m : Nat, signed n = Int.ofNat m ↔ n = m ∧ m < 2 ^ 63 := by
    intro n m
    rw [hs]
    constructor <;> (rintro ⟨rfl, h⟩; exact ⟨rfl, h⟩)
  refine ⟨?_, rfl, ?_, ?_, ?_, hl _, hl _, ?_, ?_⟩
  · simp only [List.mem_cons, List.not_mem_nil, or_false]
    rintro x (rfl | rfl | rfl | rfl | rfl | rfl | rfl) n <;> exact hs' _ n
  · unfold TxNumber.call boolToC; dsimp only; cases t.isProtocol09 <;> decide
  · unfold TxNumber.call boolToC; dsimp only; cases t.isHttp2Upgrade <;> decide
  · unfold TxNumber.call unwantedToC; dsimp only; cases t.responseStatusExpectedNumber <;> decide
  · intro n
    show (t.requestPortNumber.map Int.ofNat).getD (-1) = _ ↔ _
    cases t.requestPortNumber with
    | none => simp
    | some m => simp only [Option.map_some, Option.getD_some, Int.ofNat_eq_natCast, Option.some.injEq]; omega
  · intro n hn
    unfold TxNumber.call
    dsimp only
    cases t.responseStatusNumber with
    | unknown => simp only [Int.ofNat_eq_natCast, reduceCtorEq, iff_false]; omega
    | invalid => simp only [Int.ofNat_eq_natCast, reduceCtorEq]
    | valid m => simp only [Int.ofNat_eq_natCast, ResponseNumber.valid.injEq]; omega

/-- C70. A length of 2^63 or more is told as "none". -/
theorem C70_huge_length (t : Tx) (n : Nat) (h : t.requestContentLength = some n) (hn : 2 ^ 63 ≤ n) :
    TxNumber.requestContentLength.call (some t) = TxNumber.requestContentLength.call none := by
  unfold TxNumber.call
  dsimp only
  rw [h]
  show signed n = -1
  unfold signed
  rw [if_neg (by omega)]

/-- C70. The functions on a parser or a configuration accept NULL: they do nothing and answer ERROR, NULL or
-1, whatever the other arguments; `htp_config_destroy` and `htp_connp_create` too. -/
theorem C70_null_partial (base : Env) (w : World) :
    (∀ c, (Call.conn none c).run base w = .ok (c.onNull, w)) ∧
    (∀ s, (Call.configSet none s).run base w = .ok (s.onNull, w)) ∧
    (∀ k f, (Call.configRegister none k f).run base w = .ok (.void, w)) ∧
    (Call.configDestroy none).run base w = .ok (.void, w) ∧
    ∃ w', (Call.connpCreate none).run base w = .ok (.handle w.next, w') ∧ w'.configs = w.configs ∧
      w'.parsers w.next = some ⟨({} : Settings).env base, {}⟩ :=
  ⟨fun _ => rfl, fun _ => rfl, fun _ _ => rfl, rfl, _, rfl, rfl, if_pos rfl⟩

/-- C70. The documentation of two functions allows NULL, but they do not check for it: the normalized URI of
a transaction and the destruction of a parser. -/
theorem C70_null_missing (base : Env) (w : World) :
    txNormalizedUri none = .error .null ∧ (Call.connpDestroyAll none).run base w = .error .null := ⟨rfl, rfl⟩

/-- C70. The normalized URI of a transaction is the complete or the partial one, as configured. -/
theorem C70_normalized_uri (cfg : Config) (t : Tx) :
    txNormalizedUri (some (cfg, t)) = .ok (bif cfg.decoderCfg.normalizedUriIncludeAll
      then t.completeNormalizedUri else t.partialNormalizedUri) := by
  unfold txNormalizedUri Ptr.deref
  dsimp only
  cases cfg.decoderCfg.normalizedUriIncludeAll <;> rfl

/-- Case for C70: some setters after each other. -/
example : readSetting ([Setter.fieldLimit 100, .txAutoDestroy 1, .lzmaLayers (-3), .fieldLimit 7].foldl
      Setter.apply {}) .fieldLimit = .number 7 ∧
    readSetting ([Setter.fieldLimit 100, .txAutoDestroy 1, .lzmaLayers (-3), .fieldLimit 7].foldl
      Setter.apply {}) .txAutoDestroy = .bool true ∧
    readSetting ([Setter.fieldLimit 100, .txAutoDestroy 1, .lzmaLayers (-3), .fieldLimit 7].foldl
      Setter.apply {}) .lzmaLayers = .limit none ∧
    readSetting ([Setter.fieldLimit 100, .txAutoDestroy 1, .lzmaLayers (-3), .fieldLimit 7].foldl
      Setter.apply {}) .plusspaceDecode = .bool true := by decide +kernel

end Props
