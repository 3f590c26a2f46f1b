/-
C20: UTF-8 in paths.
-/
import Verif.Lemmas.Utf8

namespace Props
open Model Utf8Decoder Spec.Utf8

theorem flags_fold (items : List Item) (f m : Flags) :
    isSet (items.foldl (fun f i => setFlag f (itemFlags i)) f) m = (isSet f m || items.any fun i => isSet (itemFlags i) m) := by
  induction items generalizing f with
  | nil => simp
  | cons i items ih => simp [ih, isSet_set, Bool.or_assoc]

theorem itemFlags_invalid (i : Item) : isSet (itemFlags i) Flag.PATH_UTF8_INVALID = decide (i = .bad) := by
  cases i with
  | char len cp =>
    simp only [itemFlags]
    split
    · simp [isSet_zero]
    · rw [isSet_set]; split <;> split <;> simp [isSet_zero] <;> decide
  | bad => decide
  | cut => simp [itemFlags, isSet_zero]

theorem itemFlags_overlong (i : Item) : isSet (itemFlags i) Flag.PATH_UTF8_OVERLONG =
    match i with | .char len cp => decide (len ≠ 1 ∧ size cp < len) | _ => false := by
  cases i with
  | char len cp =>
    simp only [itemFlags]
    split
    · simp [isSet_zero, *]
    · rw [isSet_set]
      by_cases h : size cp < len <;> by_cases h' : 0xff00 ≤ cp ∧ cp ≤ 0xffef <;> simp [isSet_zero, *] <;> decide
  | bad => decide
  | cut => simp [itemFlags, isSet_zero]

theorem itemFlags_half (i : Item) : isSet (itemFlags i) Flag.PATH_HALF_FULL_RANGE =
    match i with | .char len cp => decide (len ≠ 1 ∧ 0xff00 ≤ cp ∧ cp ≤ 0xffef) | _ => false := by
  cases i with
  | char len cp =>
    simp only [itemFlags]
    split
    · simp [isSet_zero, *]
    · rw [isSet_set]
      by_cases h : 0xff00 ≤ cp ∧ cp ≤ 0xffef <;> by_cases h' : size cp < len <;> simp [isSet_zero, *] <;> decide
  | bad => decide
  | cut => simp [itemFlags, isSet_zero]

theorem itemFlags_valid (i : Item) : isSet (itemFlags i) Flag.PATH_UTF8_VALID = false := by
  cases i with
  | char len cp =>
    simp only [itemFlags]
    split
    · simp [isSet_zero]
    · rw [isSet_set]; split <;> split <;> simp [isSet_zero] <;> decide
  | bad => decide
  | cut => simp [itemFlags, isSet_zero]

/-- C20: what the decoder reports about a text read as `items`: the invalid flag exactly if something
in it is not UTF-8, the overlong flag exactly if a character has a longer form than necessary, the
half/full-width flag exactly if there is such a character, the valid flag exactly if there is a
multi-byte character and nothing bad; and the single-byte text. -/
theorem C20_utf8_report {map : BestfitMap} {s : Bytes} {items : List Item} (h : Reads s items) :
    let d := decodeAndValidate map s
    (isSet d.flags Flag.PATH_UTF8_INVALID = true ↔ .bad ∈ items) ∧
    (isSet d.flags Flag.PATH_UTF8_OVERLONG = true ↔ ∃ len cp, .char len cp ∈ items ∧ size cp < len) ∧
    (isSet d.flags Flag.PATH_HALF_FULL_RANGE = true ↔ ∃ len cp, .char len cp ∈ items ∧ 0xff00 ≤ cp ∧ cp ≤ 0xffef) ∧
    (isSet d.flags Flag.PATH_UTF8_VALID = true ↔ (∃ len cp, .char len cp ∈ items ∧ 1 < len) ∧ .bad ∉ items) ∧
    d.decoded = items.flatMap (·.out map.get map.replacement) := by
  obtain ⟨h1, h2, h3, h4⟩ := feed_reads h (d := { map := map }) ⟨rfl, rfl⟩
  have hlen : ∀ len cp, Item.char len cp ∈ items → 1 ≤ len ∧ (len = 1 → cp < 0x80) := by
    clear h1 h2 h3 h4
    intro len cp hm
    induction h with
    | nil => simp at hm
    | char hc _ ih =>
      rcases List.mem_cons.mp hm with hm | hm
      · injection hm with e1 e2; subst e1 e2
        cases hc <;> simp; assumption
      · exact ih hm
    | badStart _ _ _ ih => exact ih (by simpa using hm)
    | broken _ _ _ _ ih => exact ih (by simpa using hm)
    | cut => simp at hm
  have hinv : isSet (feed { map := map } s).flags Flag.PATH_UTF8_INVALID = true ↔ .bad ∈ items := by
    rw [h2, flags_fold]
    simp only [itemFlags_invalid]
    simp [isSet_zero]
  have hval : isSet (feed { map := map } s).flags Flag.PATH_UTF8_VALID = false := by
    rw [h2, flags_fold]; simp [itemFlags_valid, isSet_zero]
  have hsz : ∀ cp, 1 ≤ size cp := by intro cp; unfold size; split <;> (try split) <;> (try split) <;> omega
  have hover : isSet (feed { map := map } s).flags Flag.PATH_UTF8_OVERLONG = true ↔
      ∃ len cp, .char len cp ∈ items ∧ size cp < len := by
    rw [h2, flags_fold]
    simp only [itemFlags_overlong, isSet_zero, Bool.false_or, List.any_eq_true]
    constructor
    · rintro ⟨i, hi, hm⟩
      cases i <;> simp at hm
      exact ⟨_, _, hi, hm.2⟩
    · rintro ⟨len, cp, hi, hm⟩
      exact ⟨_, hi, by have := hsz cp; simp only [decide_eq_true_eq]; omega⟩
  have hhalf : isSet (feed { map := map } s).flags Flag.PATH_HALF_FULL_RANGE = true ↔
      ∃ len cp, .char len cp ∈ items ∧ 0xff00 ≤ cp ∧ cp ≤ 0xffef := by
    rw [h2, flags_fold]
    simp only [itemFlags_half, isSet_zero, Bool.false_or, List.any_eq_true]
    constructor
    · rintro ⟨i, hi, hm⟩
      cases i <;> simp at hm
      exact ⟨_, _, hi, hm.2⟩
    · rintro ⟨len, cp, hi, hm⟩
      exact ⟨_, hi, by have := hlen _ _ hi; simp only [decide_eq_true_eq]; omega⟩
  have hseen : (feed { map := map } s).seenValid = true ↔ ∃ len cp, .char len cp ∈ items ∧ 1 < len := by
    rw [h3]
    simp only [Bool.false_or, List.any_eq_true]
    constructor
    · rintro ⟨i, hi, hm⟩
      cases i <;> simp [itemWide] at hm
      exact ⟨_, _, hi, by have := hlen _ _ hi; omega⟩
    · rintro ⟨len, cp, hi, hm⟩
      exact ⟨_, hi, by simp [itemWide]; omega⟩
  simp only [decodeAndValidate]
  have v1 : isSet Flag.PATH_UTF8_VALID Flag.PATH_UTF8_INVALID = false := by decide
  have v2 : isSet Flag.PATH_UTF8_VALID Flag.PATH_UTF8_OVERLONG = false := by decide
  have v3 : isSet Flag.PATH_UTF8_VALID Flag.PATH_HALF_FULL_RANGE = false := by decide
  have v4 : isSet Flag.PATH_UTF8_VALID Flag.PATH_UTF8_VALID = true := by decide
  by_cases hc : (∃ len cp, Item.char len cp ∈ items ∧ 1 < len) ∧ Item.bad ∉ items
  · rw [if_pos (by rw [hseen, hinv]; exact hc)]
    refine ⟨?_, ?_, ?_, ?_, by rw [h4]; simp⟩
    · rw [isSet_set, v1, Bool.or_false]; exact hinv
    · rw [isSet_set, v2, Bool.or_false]; exact hover
    · rw [isSet_set, v3, Bool.or_false]; exact hhalf
    · rw [isSet_set, v4, Bool.or_true]; simp only [true_iff]; exact hc
  · rw [if_neg (by rw [hseen, hinv]; exact hc)]
    refine ⟨hinv, hover, hhalf, ?_, by rw [h4]; simp⟩
    rw [hval]; simp only [hc]; simp

/-- C20: every text can be read, so the report above covers every input. -/
theorem C20_utf8_total (s : Bytes) : ∃ items, Reads s items := reads_total s

/-- The decoder changes nothing but the output, flags and status of its arguments as documented. -/
theorem C20_inplace (cfg : DecoderConfig) (flags : Flags) (status : Unwanted) (path : Bytes) :
    decodeAndValidateInplace cfg flags status path =
      ((if cfg.utf8ConvertBestfit then (decodeAndValidate cfg.bestfitMap path).decoded else path),
       flags ||| (decodeAndValidate cfg.bestfitMap path).flags,
       (if (isSet flags Flag.PATH_UTF8_INVALID ∨
            isSet (decodeAndValidate cfg.bestfitMap path).flags Flag.PATH_UTF8_INVALID) ∧
          cfg.utf8InvalidUnwanted ≠ .ignore then cfg.utf8InvalidUnwanted else status)) := by
  simp only [decodeAndValidateInplace, setFlag, isSet_or, Bool.or_eq_true]

theorem ofNat_toNat {n : Nat} (h : n < 256) : (UInt8.ofNat n).toNat = n := by
  simp only [UInt8.toNat_ofNat']; omega

theorem isChar_encode {v : Nat} (h : Scalar v) : IsChar (encode v) v ∧ (encode v).length = size v := by
  obtain ⟨h1, h2⟩ := h
  unfold encode size
  split
  · refine ⟨?_, rfl⟩
    have : v = (UInt8.ofNat v).toNat := (ofNat_toNat (by omega)).symm
    conv => rhs; rw [this]
    refine .one ?_
    omega
  split
  · refine ⟨.two ?_ ?_ ?_ ?_, rfl⟩ <;> (try unfold Cont) <;> rw [ofNat_toNat (by omega)] <;>
      (try rw [ofNat_toNat (by omega)]) <;> omega
  split
  · refine ⟨.three ?_ ?_ ?_ ?_ ?_ h2, rfl⟩ <;> (try unfold Cont) <;> rw [ofNat_toNat (by omega)] <;>
      (try rw [ofNat_toNat (by omega)]) <;> (try rw [ofNat_toNat (by omega)]) <;> omega
  · refine ⟨.four ?_ ?_ ?_ ?_ ?_ ?_ h1, rfl⟩ <;> (try unfold Cont) <;> rw [ofNat_toNat (by omega)] <;>
      (try rw [ofNat_toNat (by omega)]) <;> (try rw [ofNat_toNat (by omega)]) <;>
      (try rw [ofNat_toNat (by omega)]) <;> omega

/-- Proper UTF-8 text is read as its characters. -/
theorem reads_encode (vs : List Nat) (h : ∀ v ∈ vs, Scalar v) :
    Reads (vs.flatMap encode) (vs.map fun v => .char (size v) v) := by
  induction vs with
  | nil => exact .nil
  | cons v vs ih =>
    obtain ⟨h1, h2⟩ := isChar_encode (h v (by simp))
    have := Reads.char h1 (ih fun v hv => h v (by simp [hv]))
    rw [h2] at this
    simpa using this

/-- C20: proper UTF-8 text with a non-ASCII character is reported valid, not invalid and not
overlong. -/
theorem C20_well_formed_valid (map : BestfitMap) (vs : List Nat) (h : ∀ v ∈ vs, Scalar v) (hw : ∃ v ∈ vs, 0x80 ≤ v) :
    let d := decodeAndValidate map (vs.flatMap encode)
    isSet d.flags Flag.PATH_UTF8_VALID = true ∧ isSet d.flags Flag.PATH_UTF8_INVALID = false ∧
    isSet d.flags Flag.PATH_UTF8_OVERLONG = false := by
  obtain ⟨h1, h2, _, h4, _⟩ := C20_utf8_report (map := map) (reads_encode vs h)
  refine ⟨h4.mpr ⟨?_, by simp⟩, ?_, ?_⟩
  · obtain ⟨v, hv, hb⟩ := hw
    refine ⟨size v, v, by simp only [List.mem_map]; exact ⟨v, hv, rfl⟩, ?_⟩
    unfold size; rw [if_neg (by omega)]; split <;> (try split) <;> omega
  · rw [← Bool.not_eq_true, h1]; simp
  · rw [← Bool.not_eq_true, h2]
    rintro ⟨len, cp, hm, hlt⟩
    simp only [List.mem_map] at hm
    obtain ⟨v, _, e⟩ := hm
    injection e with e1 e2
    subst e2; omega

/-- C20: pure ASCII is returned unchanged with no flag. -/
theorem C20_ascii_unchanged (map : BestfitMap) (s : Bytes) (h : ∀ c ∈ s, c.toNat < 0x80) :
    (decodeAndValidate map s).decoded = s ∧ (decodeAndValidate map s).flags = 0 := by
  have hr : Reads s (s.map fun c => .char 1 c.toNat) := by
    induction s with
    | nil => exact .nil
    | cons c s ih => exact .char (s := [c]) (.one (h c (by simp))) (ih fun c hc => h c (by simp [hc]))
  obtain ⟨h1, h2, h3, h4⟩ := feed_reads hr (d := { map := map }) ⟨rfl, rfl⟩
  have hs : (feed { map := map } s).seenValid = false := by
    rw [h3]; simp [itemWide]
  have hf : (feed { map := map } s).flags = 0 := by
    rw [h2]
    clear hr h1 h2 h3 h4 hs
    have : ∀ s : Bytes, ∀ f, (s.map fun c => Item.char 1 c.toNat).foldl (fun f i => setFlag f (itemFlags i)) f = f := by
      intro s
      induction s with
      | nil => intro f; rfl
      | cons c s ih => intro f; rw [List.map_cons, List.foldl_cons, ih]; simp [itemFlags, setFlag_zero]
    exact this s 0
  simp only [decodeAndValidate, hs]
  refine ⟨?_, by simpa using hf⟩
  simp only [Bool.false_eq_true, false_and, if_false, h4, List.nil_append]
  clear hr h1 h2 h3 h4 hs hf
  induction s with
  | nil => rfl
  | cons c s ih =>
    have hc := h c (by simp)
    have := ih fun c hc => h c (by simp [hc])
    rw [List.map_cons, List.flatMap_cons, this, Item.out, if_pos (by omega)]
    simp

/-- Finding: a text that ends in the middle of a character is not reported as invalid, and the
unfinished character is dropped or shortened by one. -/
theorem C20_truncated_not_invalid (map : BestfitMap) {p : Bytes} (hp : Unfinished p) :
    isSet (decodeAndValidate map p).flags Flag.PATH_UTF8_INVALID = false ∧
    (decodeAndValidate map p).decoded = List.replicate (p.length - 1) map.replacement := by
  obtain ⟨h1, _, _, _, h5⟩ := C20_utf8_report (map := map) (Reads.cut hp)
  refine ⟨by rw [← Bool.not_eq_true, h1]; simp, by rw [h5]; simp [Item.out]⟩

/-- C20: a text followed by an overlong slash is flagged overlong. -/
example : (decodeAndValidate {} [47, 0xC0, 0xAF]).flags = Flag.PATH_UTF8_OVERLONG ||| Flag.PATH_UTF8_VALID ∧
    (decodeAndValidate {} [47, 0xC0, 0xAF]).decoded = [47, 47] := by decide +kernel
/-- A surrogate is invalid: the first byte and the last two are replaced. -/
example : (decodeAndValidate {} [0xED, 0xA0, 0x80]).decoded = [63, 63, 63] := by decide +kernel
example : [0xe9, 0x20ac, 0x1F600].flatMap encode = [0xC3, 0xA9, 0xE2, 0x82, 0xAC, 0xF0, 0x9F, 0x98, 0x80] := by decide
example : Unfinished [0xE2, 0x82] := unfinished_two.mpr (by unfold Cont; decide)

end Props
