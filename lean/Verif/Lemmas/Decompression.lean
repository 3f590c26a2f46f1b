/-
Lemmas about the choice of decompressors.
-/
import Verif.Model.Decompression
import Verif.Spec.Decompression
import Verif.Props.Bstr

namespace Model

open Spec

theorem splitOn_eq_splitOnP (sep : UInt8) (p : UInt8 → Bool) (f : UInt8 → UInt8) (hf : ∀ c, f c = sep ↔ p c = true)
    (hg : ∀ c, p c = false → f c = c) (s : Bytes) : splitOn sep (s.map f) = s.splitOnP p := by
  induction s with
  | nil => simp [splitOn]
  | cons c cs ih =>
    rw [List.splitOnP_cons_eq_if_modifyHead, List.map_cons]
    simp only [splitOn, ih]
    by_cases h : p c = true
    · rw [if_pos ((hf c).2 h), if_pos h]
    · rw [if_neg (fun h' => h ((hf c).1 h')), if_neg h, hg c (by simpa using h)]
      cases hs : cs.splitOnP p with
      | nil => exact absurd hs (List.splitOnP_ne_nil _ _)
      | cons a as => rfl

theorem encodingTokens_eq (ce : Bytes) : encodingTokens ce = pieces ce := by
  unfold encodingTokens pieces
  rw [splitOn_eq_splitOnP 44 (fun c => decide (c = 0x2c ∨ c = 0x20)) (fun c => if c == 32 then 44 else c)
    (by decide +kernel) (by decide +kernel)]

theorem isSome_occurs {v w : Bytes} (hw : w ≠ []) : (indexOfNocase v w).isSome = true ↔ ∃ i, OccursAt v w i := by
  cases h : indexOfNocase v w with
  | none =>
    simp only [Option.isSome_none, Bool.false_eq_true, false_iff]
    rcases (Props.C02_index_of_nocase_none v w).1 h with h | h
    · exact absurd h hw
    · rintro ⟨i, hi⟩
      exact h i hi
  | some i =>
    simp only [Option.isSome_some, true_iff]
    exact ⟨i, ((Props.C02_index_of_nocase_some v w i).1 h).2.1⟩

theorem iterCmp_eq_iff : ∀ a b : Bytes, iterCmp a b = .eq ↔ a = b
  | [], [] => by simp [iterCmp]
  | [], _ :: _ => by simp [iterCmp]
  | _ :: _, [] => by simp [iterCmp]
  | a :: as, b :: bs => by
    unfold iterCmp
    by_cases h : a < b
    · rw [if_pos h]
      simp only [reduceCtorEq, List.cons.injEq, false_iff, not_and]
      rintro rfl
      exact absurd h (UInt8.lt_irrefl a)
    · rw [if_neg h]
      by_cases h2 : a = b
      · rw [if_pos h2, iterCmp_eq_iff as bs]
        simp [h2]
      · rw [if_neg h2]
        simp [h2]

theorem tokenEncoding_eq (p : Bytes) : tokenEncoding p = pieceEncoding p := by
  unfold tokenEncoding pieceEncoding
  have h1 := isSome_occurs (v := p) (w := b! "gzip") (by decide)
  have h2 := isSome_occurs (v := p) (w := b! "deflate") (by decide)
  have h3 : (cmpSlice p (b! "lzma") == .eq) = true ↔ p = b! "lzma" := by
    rw [beq_iff_eq]
    exact iterCmp_eq_iff _ _
  by_cases a1 : ∃ i, OccursAt p (b! "gzip") i
  · rw [if_pos (h1.2 a1), if_pos a1]
  · rw [if_neg (fun h => a1 (h1.1 h)), if_neg a1]
    by_cases a2 : ∃ i, OccursAt p (b! "deflate") i
    · rw [if_pos (h2.2 a2), if_pos a2]
    · rw [if_neg (fun h => a2 (h2.1 h)), if_neg a2]
      by_cases a3 : p = b! "lzma"
      · rw [if_pos (h3.2 a3), if_pos a3]
      · rw [if_neg (fun h => a3 (h3.1 h)), if_neg a3]

theorem tokenEncoding_cases (p : Bytes) :
    tokenEncoding p = .gzip ∨ tokenEncoding p = .deflate ∨ tokenEncoding p = .lzma ∨ tokenEncoding p = .none := by
  unfold tokenEncoding
  split
  · exact .inl rfl
  · split
    · exact .inr (.inl rfl)
    · split
      · exact .inr (.inr (.inl rfl))
      · exact .inr (.inr (.inr rfl))

theorem directEncoding_iff (ce : Bytes) (enc : Encoding) : directEncoding ce = some enc ↔ WholeNames ce enc := by
  have key : ∀ w, (cmpNocaseNozero ce w == .eq) = decide ((withoutNul ce).map lower = w.map lower) := by
    intro w
    rw [Bool.eq_iff_iff, beq_iff_eq, decide_eq_true_eq, Props.C01_cmp_nocase_nozero, Props.C01_cmp_nocase_eq_iff,
      eqNocase_map]
  unfold directEncoding
  simp only [key]
  cases enc <;> simp only [WholeNames, ← eqNocase_map] <;> generalize (withoutNul ce).map lower = l <;>
    (by_cases h1 : l = (b! "gzip").map lower
     · subst h1; decide
     by_cases h2 : l = (b! "x-gzip").map lower
     · subst h2; decide
     by_cases h3 : l = (b! "deflate").map lower
     · subst h3; decide
     by_cases h4 : l = (b! "x-deflate").map lower
     · subst h4; decide
     by_cases h5 : l = (b! "lzma").map lower
     · subst h5; decide
     by_cases h6 : l = (b! "inflate").map lower
     · subst h6; decide
     by_cases h7 : l = (b! "none").map lower
     · subst h7; decide
     simp only [h1, h2, h3, h4, h5, h6, h7]
     simp)

theorem requestLayers_prefix (o : CompressionOptions) (toks : List Bytes) (n : Nat) :
    requestLayers o n toks <+: (toks.map tokenEncoding).filter fun e => e ≠ .none := by
  induction toks generalizing n with
  | nil => simp [requestLayers]
  | cons p ps ih =>
    unfold requestLayers
    simp only
    split
    · exact List.nil_prefix
    · rcases tokenEncoding_cases p with h | h | h | h <;> rw [List.map_cons, h]
      · rw [List.filter_cons_of_pos (by decide)]
        exact (List.prefix_cons_inj _).2 (ih _)
      · rw [List.filter_cons_of_pos (by decide)]
        exact (List.prefix_cons_inj _).2 (ih _)
      · rw [List.filter_cons_of_pos (by decide)]
        simp only
        split
        · exact List.nil_prefix
        · exact (List.prefix_cons_inj _).2 (ih _)
      · rw [List.filter_cons_of_neg (by decide)]
        exact ih _

theorem requestLayers_length (o : CompressionOptions) (l : Nat) (hl : o.layerLimit = some l) (toks : List Bytes)
    (n : Nat) : (requestLayers o n toks).length ≤ l - n := by
  induction toks generalizing n with
  | nil => simp [requestLayers]
  | cons p ps ih =>
    unfold requestLayers
    simp only
    split
    · simp
    · rename_i hov
      simp only [overLimit, hl, decide_eq_true_eq] at hov
      have := ih (n + 1)
      rcases tokenEncoding_cases p with h | h | h | h <;> rw [h] <;> simp only
      · rw [List.length_cons]; omega
      · rw [List.length_cons]; omega
      · split
        · simp
        · rw [List.length_cons]; omega
      · omega

theorem requestLayers_lzma (o : CompressionOptions) (l : Nat) (hl : o.lzmaLayers = some l) (toks : List Bytes)
    (n : Nat) : (requestLayers o n toks).count .lzma ≤ l - n := by
  induction toks generalizing n with
  | nil => simp [requestLayers]
  | cons p ps ih =>
    unfold requestLayers
    simp only
    split
    · simp
    · have := ih (n + 1)
      rcases tokenEncoding_cases p with h | h | h | h <;> rw [h] <;> simp only
      · rw [List.count_cons_of_ne (by decide)]; omega
      · rw [List.count_cons_of_ne (by decide)]; omega
      · simp only [overLimit, hl, decide_eq_true_eq]
        split
        · simp
        · rw [List.count_cons_self]; omega
      · omega

theorem requestLayers_all (o : CompressionOptions) (toks : List Bytes) (n : Nat)
    (h1 : ∀ l, o.layerLimit = some l → n + toks.length ≤ l)
    (h2 : ∀ l, o.lzmaLayers = some l → .lzma ∈ toks.map tokenEncoding → n + toks.length ≤ l) :
    requestLayers o n toks = (toks.map tokenEncoding).filter fun e => e ≠ .none := by
  induction toks generalizing n with
  | nil => simp [requestLayers]
  | cons p ps ih =>
    have ih := ih (n + 1) (fun l hl => by have := h1 l hl; rw [List.length_cons] at this; omega)
      (fun l hl hm => by
        have := h2 l hl (by rw [List.map_cons]; exact List.mem_cons_of_mem _ hm); rw [List.length_cons] at this; omega)
    have h3 : overLimit o.layerLimit (n + 1) = false := by
      unfold overLimit
      split
      · have := h1 _ (by assumption)
        rw [List.length_cons] at this
        simp only [decide_eq_false_iff_not]; omega
      · rfl
    unfold requestLayers
    simp only [h3, Bool.false_eq_true, if_false]
    rcases tokenEncoding_cases p with h | h | h | h <;> rw [List.map_cons, h]
    · rw [List.filter_cons_of_pos (by decide), ih]
    · rw [List.filter_cons_of_pos (by decide), ih]
    · have h4 : overLimit o.lzmaLayers (n + 1) = false := by
        unfold overLimit
        split
        · have := h2 _ (by assumption) (by rw [List.map_cons, h]; exact List.mem_cons_self)
          rw [List.length_cons] at this
          simp only [decide_eq_false_iff_not]; omega
        · rfl
      simp only [h4, Bool.false_eq_true, if_false]
      rw [List.filter_cons_of_pos (by decide), ih]
    · rw [List.filter_cons_of_neg (by decide), ← ih]

theorem responseLayers_prefix (o : CompressionOptions) (toks : List Bytes) (n m : Nat) :
    responseLayers o n m toks <+: (toks.map tokenEncoding).filter fun e => e ≠ .none := by
  induction toks generalizing n m with
  | nil => simp [responseLayers]
  | cons p ps ih =>
    unfold responseLayers
    simp only
    split
    · exact List.nil_prefix
    · rcases tokenEncoding_cases p with h | h | h | h <;> rw [List.map_cons, h]
      · rw [List.filter_cons_of_pos (by decide)]
        exact (List.prefix_cons_inj _).2 (ih _ _)
      · rw [List.filter_cons_of_pos (by decide)]
        exact (List.prefix_cons_inj _).2 (ih _ _)
      · rw [List.filter_cons_of_pos (by decide)]
        simp only
        split
        · exact List.nil_prefix
        · exact (List.prefix_cons_inj _).2 (ih _ _)
      · rw [List.filter_cons_of_neg (by decide)]
        exact ih _ _

theorem responseLayers_length (o : CompressionOptions) (l : Nat) (hl : o.layerLimit = some l) (toks : List Bytes)
    (n m : Nat) : (responseLayers o n m toks).length ≤ l - n := by
  induction toks generalizing n m with
  | nil => simp [responseLayers]
  | cons p ps ih =>
    unfold responseLayers
    simp only
    split
    · simp
    · rename_i hov
      simp only [overLimit, hl, decide_eq_true_eq] at hov
      have := ih (n + 1) m
      have := ih (n + 1) (m + 1)
      rcases tokenEncoding_cases p with h | h | h | h <;> rw [h] <;> simp only
      · rw [List.length_cons]; omega
      · rw [List.length_cons]; omega
      · split
        · simp
        · rw [List.length_cons]; omega
      · omega

theorem responseLayers_lzma (o : CompressionOptions) (l : Nat) (hl : o.lzmaLayers = some l) (toks : List Bytes)
    (n m : Nat) : (responseLayers o n m toks).count .lzma ≤ l - m := by
  induction toks generalizing n m with
  | nil => simp [responseLayers]
  | cons p ps ih =>
    unfold responseLayers
    simp only
    split
    · simp
    · have := ih (n + 1) m
      have := ih (n + 1) (m + 1)
      rcases tokenEncoding_cases p with h | h | h | h <;> rw [h] <;> simp only
      · rw [List.count_cons_of_ne (by decide)]; omega
      · rw [List.count_cons_of_ne (by decide)]; omega
      · simp only [overLimit, hl, decide_eq_true_eq]
        split
        · simp
        · rw [List.count_cons_self]; omega
      · omega

theorem responseLayers_all (o : CompressionOptions) (toks : List Bytes) (n m : Nat)
    (h1 : ∀ l, o.layerLimit = some l → n + toks.length ≤ l)
    (h2 : ∀ l, o.lzmaLayers = some l → m + (toks.map tokenEncoding).count .lzma ≤ l) :
    responseLayers o n m toks = (toks.map tokenEncoding).filter fun e => e ≠ .none := by
  induction toks generalizing n m with
  | nil => simp [responseLayers]
  | cons p ps ih =>
    have ih := fun m => ih (n + 1) m (fun l hl => by have := h1 l hl; rw [List.length_cons] at this; omega)
    have h3 : overLimit o.layerLimit (n + 1) = false := by
      unfold overLimit
      split
      · have := h1 _ (by assumption)
        rw [List.length_cons] at this
        simp only [decide_eq_false_iff_not]; omega
      · rfl
    unfold responseLayers
    simp only [h3, Bool.false_eq_true, if_false]
    rcases tokenEncoding_cases p with h | h | h | h <;> rw [List.map_cons, h] at h2 ⊢
    · rw [List.count_cons_of_ne (by decide)] at h2
      rw [List.filter_cons_of_pos (by decide), ← ih m h2]
    · rw [List.count_cons_of_ne (by decide)] at h2
      rw [List.filter_cons_of_pos (by decide), ← ih m h2]
    · rw [List.count_cons_self] at h2
      have h4 : overLimit o.lzmaLayers (m + 1) = false := by
        unfold overLimit
        split
        · have := h2 _ (by assumption)
          simp only [decide_eq_false_iff_not]; omega
        · rfl
      simp only [h4, Bool.false_eq_true, if_false]
      rw [List.filter_cons_of_pos (by decide), ih]
      intro l hl
      have := h2 l hl; omega
    · rw [List.filter_cons_of_neg (by decide), ← ih m]
      rw [List.count_cons_of_ne (by decide)] at h2; exact h2

theorem prependRequest_installed (encs : List Encoding) (t : Tx) :
    installed (encs.foldl Tx.prependRequestDecompressor t).requestDecompressor =
      installed t.requestDecompressor ++ encs := by
  induction encs generalizing t with
  | nil => simp
  | cons e es ih =>
    rw [List.foldl_cons, ih]
    have : installed (t.prependRequestDecompressor e).requestDecompressor = installed t.requestDecompressor ++ [e] := by
      unfold Tx.prependRequestDecompressor prependLayer
      cases h : t.requestDecompressor <;> rfl
    rw [this, List.append_assoc]
    rfl

theorem prependResponse_installed (encs : List Encoding) (t : Tx) :
    installed (encs.foldl Tx.prependResponseDecompressor t).responseDecompressor =
      installed t.responseDecompressor ++ encs := by
  induction encs generalizing t with
  | nil => simp
  | cons e es ih =>
    rw [List.foldl_cons, ih]
    have : installed (t.prependResponseDecompressor e).responseDecompressor =
        installed t.responseDecompressor ++ [e] := by
      unfold Tx.prependResponseDecompressor prependLayer
      cases h : t.responseDecompressor <;> rfl
    rw [this, List.append_assoc]
    rfl

/-- What is installed, by the two ways of `request_initialize_decompressors`. -/
theorem initRequest_installed (cfg : Config) (t : Tx) (h0 : t.requestDecompressor = none) :
    installed (t.initRequestDecompressors cfg).requestDecompressor =
      if cfg.requestDecompressionEnabled = true then
        match ((t.requestHeaders.getNocaseNozero (b! "content-encoding")).map (·.value)).bind directEncoding with
        | some .none => []
        | some enc => [enc]
        | none => requestLayers cfg.compressionOptions 0
            (encodingTokens (((t.requestHeaders.getNocaseNozero (b! "content-encoding")).map (·.value)).getD []))
      else [] := by
  unfold Tx.initRequestDecompressors
  generalize (t.requestHeaders.getNocaseNozero (b! "content-encoding")).map (·.value) = ce
  dsimp only
  generalize ce.bind directEncoding = d
  split
  · cases d with
    | none =>
      dsimp only
      rw [prependRequest_installed]
      rw [h0]; rfl
    | some enc =>
      cases enc <;> dsimp only <;>
        first
        | (rw [h0]; rfl)
        | exact (prependRequest_installed [_] _).trans (by dsimp only; rw [h0]; rfl)
  · rw [h0]; rfl

theorem initResponse_installed (cfg : Config) (t : Tx) (h0 : t.responseDecompressor = none) :
    installed (t.initResponseDecompressors cfg).responseDecompressor =
      if cfg.responseDecompressionEnabled = true then
        match ((t.responseHeaders.getNocaseNozero (b! "content-encoding")).map (·.value)).bind directEncoding with
        | some .none => []
        | some enc => [enc]
        | none => responseLayers cfg.compressionOptions 0 0
            (encodingTokens (((t.responseHeaders.getNocaseNozero (b! "content-encoding")).map (·.value)).getD []))
      else [] := by
  unfold Tx.initResponseDecompressors
  generalize (t.responseHeaders.getNocaseNozero (b! "content-encoding")).map (·.value) = ce
  dsimp only
  generalize ce.bind directEncoding = d
  split
  · cases d with
    | none =>
      dsimp only
      rw [prependResponse_installed]
      rw [h0]; rfl
    | some enc =>
      cases enc <;> dsimp only <;>
        first
        | (rw [h0]; rfl)
        | exact (prependResponse_installed [_] _).trans (by dsimp only; rw [h0]; rfl)
  · rw [h0]; rfl

end Model
