/-
Properties of decompression: C41, C42.
-/
import Verif.Lemmas.Decompression
import Verif.Lemmas.ConnDecompress

namespace Props

open Model Spec

/-- C42. The number of decompressors installed for a request never exceeds the layer limit, and the number of LZMA
decompressors never exceeds the LZMA limit, except that one decompressor is installed even where the limit is zero
(`C42_request_limit_zero`, `C42_request_lzma_limit_zero`). -/
theorem C42_request_partial (cfg : Config) (t : Tx) (h0 : t.requestDecompressor = none) :
    let layers := installed (t.initRequestDecompressors cfg).requestDecompressor
    (∀ n, cfg.compressionOptions.layerLimit = some n → layers.length ≤ max n 1) ∧
    (∀ n, cfg.compressionOptions.lzmaLayers = some n → layers.count .lzma ≤ max n 1) := by
  intro layers
  have h : layers = _ := initRequest_installed cfg t h0
  rw [h]
  split
  · split
    · simp
    · refine ⟨fun n _ => by simp; omega, fun n _ => ?_⟩
      rename_i enc _ _ _
      have := List.count_le_length (a := Encoding.lzma) (l := [enc])
      simp only [List.length_singleton] at this
      omega
    · refine ⟨fun n hn => ?_, fun n hn => ?_⟩
      · have := requestLayers_length _ n hn (encodingTokens
          (((t.requestHeaders.getNocaseNozero (b! "content-encoding")).map (·.value)).getD [])) 0
        omega
      · have := requestLayers_lzma _ n hn (encodingTokens
          (((t.requestHeaders.getNocaseNozero (b! "content-encoding")).map (·.value)).getD [])) 0
        omega
  · simp

/-- C42. The same for responses. -/
theorem C42_response_partial (cfg : Config) (t : Tx) (h0 : t.responseDecompressor = none) :
    let layers := installed (t.initResponseDecompressors cfg).responseDecompressor
    (∀ n, cfg.compressionOptions.layerLimit = some n → layers.length ≤ max n 1) ∧
    (∀ n, cfg.compressionOptions.lzmaLayers = some n → layers.count .lzma ≤ max n 1) := by
  intro layers
  have h : layers = _ := initResponse_installed cfg t h0
  rw [h]
  split
  · split
    · simp
    · refine ⟨fun n _ => by simp; omega, fun n _ => ?_⟩
      rename_i enc _ _ _
      have := List.count_le_length (a := Encoding.lzma) (l := [enc])
      simp only [List.length_singleton] at this
      omega
    · refine ⟨fun n hn => ?_, fun n hn => ?_⟩
      · have := responseLayers_length _ n hn (encodingTokens
          (((t.responseHeaders.getNocaseNozero (b! "content-encoding")).map (·.value)).getD [])) 0 0
        omega
      · have := responseLayers_lzma _ n hn (encodingTokens
          (((t.responseHeaders.getNocaseNozero (b! "content-encoding")).map (·.value)).getD [])) 0 0
        omega
  · simp

/-- C42. What is installed for a request: nothing unless decompression is enabled, the one encoding the whole value
names, or else the first of the listed encodings; all of them when there are no more pieces than the limits allow.
`ce` is the Content-Encoding field. If LZMA is listed, all pieces count towards the LZMA limit. -/
theorem C42_request_layers (cfg : Config) (t : Tx) (h0 : t.requestDecompressor = none) (ce : Option Header)
    (hce : Named t.requestHeaders (b! "content-encoding") ce) :
    let layers := installed (t.initRequestDecompressors cfg).requestDecompressor
    (cfg.requestDecompressionEnabled = false → layers = []) ∧
    (ce = none → layers = []) ∧
    (∀ h, cfg.requestDecompressionEnabled = true → ce = some h →
      (∀ enc, WholeNames h.value enc → layers = if enc = .none then [] else [enc]) ∧
      ((∀ enc, ¬ WholeNames h.value enc) → layers <+: listed h.value ∧
        ((∀ n, cfg.compressionOptions.layerLimit = some n → (pieces h.value).length ≤ n) →
          (∀ n, cfg.compressionOptions.lzmaLayers = some n → .lzma ∈ listed h.value → (pieces h.value).length ≤ n) →
          layers = listed h.value))) := by
  intro layers
  have h : layers = _ := initRequest_installed cfg t h0
  rw [named_eq hce] at h
  refine ⟨fun hd => by rw [h, if_neg (by simp [hd])], fun hn => ?_, fun f hd hf => ⟨fun enc he => ?_, fun hno => ?_⟩⟩
  · subst hn
    rw [h]
    split
    · simp [encodingTokens, splitOn, requestLayers]
    · rfl
  · subst hf
    rw [h, if_pos hd]
    simp only [Option.map_some, Option.bind_some, (directEncoding_iff f.value enc).2 he]
    cases enc <;> rfl
  · subst hf
    have hdir : directEncoding f.value = none := by
      cases hx : directEncoding f.value with
      | none => rfl
      | some enc => exact absurd ((directEncoding_iff _ _).1 hx) (hno enc)
    have hl : layers = requestLayers cfg.compressionOptions 0 (encodingTokens f.value) := by
      rw [h, if_pos hd]
      simp only [Option.map_some, Option.bind_some, hdir, Option.getD_some]
    have hlist : listed f.value = ((encodingTokens f.value).map tokenEncoding).filter fun e => e ≠ .none := by
      rw [listed, encodingTokens_eq, funext tokenEncoding_eq]
    rw [hl, hlist]
    refine ⟨requestLayers_prefix _ _ _, fun h1 h2 => requestLayers_all _ _ _ (fun n hn => ?_) fun n hn hm => ?_⟩
    · rw [Nat.zero_add, encodingTokens_eq]
      exact h1 n hn
    · rw [Nat.zero_add, encodingTokens_eq]
      exact h2 n hn (List.mem_filter.2 ⟨hm, by decide⟩)

/-- C42. The same for responses, where only the LZMA pieces count towards the LZMA limit. -/
theorem C42_response_layers (cfg : Config) (t : Tx) (h0 : t.responseDecompressor = none) (ce : Option Header)
    (hce : Named t.responseHeaders (b! "content-encoding") ce) :
    let layers := installed (t.initResponseDecompressors cfg).responseDecompressor
    (cfg.responseDecompressionEnabled = false → layers = []) ∧
    (ce = none → layers = []) ∧
    (∀ h, cfg.responseDecompressionEnabled = true → ce = some h →
      (∀ enc, WholeNames h.value enc → layers = if enc = .none then [] else [enc]) ∧
      ((∀ enc, ¬ WholeNames h.value enc) → layers <+: listed h.value ∧
        ((∀ n, cfg.compressionOptions.layerLimit = some n → (pieces h.value).length ≤ n) →
          (∀ n, cfg.compressionOptions.lzmaLayers = some n → (listed h.value).count .lzma ≤ n) →
          layers = listed h.value))) := by
  intro layers
  have h : layers = _ := initResponse_installed cfg t h0
  rw [named_eq hce] at h
  refine ⟨fun hd => by rw [h, if_neg (by simp [hd])], fun hn => ?_, fun f hd hf => ⟨fun enc he => ?_, fun hno => ?_⟩⟩
  · subst hn
    rw [h]
    split
    · simp [encodingTokens, splitOn, responseLayers]
    · rfl
  · subst hf
    rw [h, if_pos hd]
    simp only [Option.map_some, Option.bind_some, (directEncoding_iff f.value enc).2 he]
    cases enc <;> rfl
  · subst hf
    have hdir : directEncoding f.value = none := by
      cases hx : directEncoding f.value with
      | none => rfl
      | some enc => exact absurd ((directEncoding_iff _ _).1 hx) (hno enc)
    have hl : layers = responseLayers cfg.compressionOptions 0 0 (encodingTokens f.value) := by
      rw [h, if_pos hd]
      simp only [Option.map_some, Option.bind_some, hdir, Option.getD_some]
    have hlist : listed f.value = ((encodingTokens f.value).map tokenEncoding).filter fun e => e ≠ .none := by
      rw [listed, encodingTokens_eq, funext tokenEncoding_eq]
    rw [hl, hlist]
    refine ⟨responseLayers_prefix _ _ _ _, fun h1 h2 => responseLayers_all _ _ _ _ (fun n hn => ?_) fun n hn => ?_⟩
    · rw [Nat.zero_add, encodingTokens_eq]
      exact h1 n hn
    · have := h2 n hn
      rw [List.count_filter (by decide)] at this
      omega

/-- A message with one Content-Encoding field. -/
def encodedTx (value : Bytes) : Tx :=
  { index := 0
    requestHeaders := [{ name := b! "Content-Encoding", value }]
    responseHeaders := [{ name := b! "Content-Encoding", value }] }

/-- A configuration with the given limits. -/
def limitedCfg (layers lzma : Option Nat) : Config :=
  { requestDecompressionEnabled := true
    compressionOptions := { layerLimit := layers, lzmaLayers := lzma } }

/-- C42 is false for a limit of zero: a value that names one encoding installs it without looking at the limits. -/
theorem C42_request_limit_zero : ∃ (cfg : Config) (t : Tx), t.requestDecompressor = none ∧
    cfg.compressionOptions.layerLimit = some 0 ∧
    installed (t.initRequestDecompressors cfg).requestDecompressor = [.gzip] := by
  refine ⟨limitedCfg (some 0) (some 0), encodedTx (b! "gzip"), rfl, rfl, ?_⟩
  decide +kernel

theorem C42_response_limit_zero : ∃ (cfg : Config) (t : Tx), t.responseDecompressor = none ∧
    cfg.compressionOptions.layerLimit = some 0 ∧
    installed (t.initResponseDecompressors cfg).responseDecompressor = [.gzip] := by
  refine ⟨limitedCfg (some 0) (some 0), encodedTx (b! "gzip"), rfl, rfl, ?_⟩
  decide +kernel

/-- C42: nor does a limit of zero LZMA layers keep LZMA out. -/
theorem C42_request_lzma_limit_zero : ∃ (cfg : Config) (t : Tx), t.requestDecompressor = none ∧
    cfg.compressionOptions.lzmaLayers = some 0 ∧
    installed (t.initRequestDecompressors cfg).requestDecompressor = [.lzma] := by
  refine ⟨limitedCfg none (some 0), encodedTx (b! "lzma"), rfl, rfl, ?_⟩
  decide +kernel

theorem C42_response_lzma_limit_zero : ∃ (cfg : Config) (t : Tx), t.responseDecompressor = none ∧
    cfg.compressionOptions.lzmaLayers = some 0 ∧
    installed (t.initResponseDecompressors cfg).responseDecompressor = [.lzma] := by
  refine ⟨limitedCfg none (some 0), encodedTx (b! "lzma"), rfl, rfl, ?_⟩
  decide +kernel

/- The limits at work. -/
example : installed ((encodedTx (b! "gzip, deflate,x-gzip")).initResponseDecompressors
    (limitedCfg (some 2) (some 1))).responseDecompressor = [.gzip, .deflate] := by decide +kernel
example : installed ((encodedTx (b! "gzip, lzma, lzma, gzip")).initResponseDecompressors
    (limitedCfg none (some 1))).responseDecompressor = [.gzip, .lzma] := by decide +kernel
/- For requests a layer that is not LZMA counts towards the LZMA limit. -/
example : installed ((encodedTx (b! "gzip, lzma")).initRequestDecompressors
    (limitedCfg none (some 1))).requestDecompressor = [.gzip] := by decide +kernel

/-! ### The size of the output -/

/-- C41. Whatever the decoders of flate2 and lzma_rs compute, the chain of decompressors stops, with a failure, as soon
as the callback refuses its output. -/
theorem C41_chain (C : Codecs) (lzma : Bool) (fuel : Nat) (d : Decompressor) (data : Option Bytes) :
    StopsAtRefusal (chainDecoding C lzma fuel d data) := chainDecoding_stops C lzma fuel d data

/-- C41. A piece of a compressed request body, for any decompressors that stop when they are refused: `outs` is their
output. Every output but the last was accepted with the total size allowed; the call succeeds only if the total size of
all the output is allowed, and answers ERROR otherwise. If the callbacks accept everything they have been given exactly
this output. The lengths are 64-bit counters. -/
theorem C41_request (e : Env) (hdec : ∀ tr k d o, StopsAtRefusal (e.decoder tr k d o)) (data : Bytes)
    (s : Conn) (t : Tx) (d : Decompressor) (ht : s.txs.get s.txs.request = some t)
    (henc : t.requestContentEncodingProcessing ≠ .none ∧ t.requestContentEncodingProcessing ≠ .error)
    (hd : t.requestDecompressor = some d) (hu : t.requestEntityLen < 2 ^ 64) :
    let after := requestBodyData e (some data) s
    let total := fun outs => (t.requestEntityLen + outputSize outs) % 2 ^ 64
    ∃ outs t', after.2.txs.get s.txs.request = some t' ∧
      t'.requestMessageLen = (t.requestMessageLen + data.length) % 2 ^ 64 ∧ t'.requestEntityLen = total outs ∧
      (∀ i, i ≠ [] → i <+: outs → i ≠ outs →
        SizeAllowed e.cfg.compressionOptions t'.requestMessageLen (total i)) ∧
      (after.1 = .ok () → outs ≠ [] →
        SizeAllowed e.cfg.compressionOptions t'.requestMessageLen (total outs)) ∧
      (after.1 = .ok () ∨ after.1 = .error (.status .error)) ∧
      (CallbacksOK e → after.2.trace = s.trace ++ requestOutputs s.txs.request outs) := by
  intro after total
  obtain ⟨r, outs, evs, t', s', h1, h2, h3, h4, h5, h6, h7, h8⟩ :=
    requestBodyData_decompress hdec data ht henc hd hu
  have hafter : after = (r, s') := h1
  rw [hafter]
  refine ⟨outs, t', h2.here, h3, h4, h7, fun hr hne => ?_, h5, fun hcb => ?_⟩
  · have := (h6 hr).2 hne
    rw [h4] at this
    exact this
  · rw [← h8 hcb]
    exact h2.trace

/-- C41. The same for responses. -/
theorem C41_response (e : Env) (hdec : ∀ tr k d o, StopsAtRefusal (e.decoder tr k d o)) (data : Bytes)
    (s : Conn) (t : Tx) (d : Decompressor) (ht : s.txs.get s.txs.response = some t)
    (henc : t.responseContentEncodingProcessing ≠ .none ∧ t.responseContentEncodingProcessing ≠ .error)
    (hd : t.responseDecompressor = some d) (hu : t.responseEntityLen < 2 ^ 64) :
    let after := responseBodyData e (some data) s
    let total := fun outs => (t.responseEntityLen + outputSize outs) % 2 ^ 64
    ∃ outs t', after.2.txs.get s.txs.response = some t' ∧
      t'.responseMessageLen = (t.responseMessageLen + data.length) % 2 ^ 64 ∧ t'.responseEntityLen = total outs ∧
      (∀ i, i ≠ [] → i <+: outs → i ≠ outs →
        SizeAllowed e.cfg.compressionOptions t'.responseMessageLen (total i)) ∧
      (after.1 = .ok () → outs ≠ [] →
        SizeAllowed e.cfg.compressionOptions t'.responseMessageLen (total outs)) ∧
      (after.1 = .ok () ∨ after.1 = .error (.status .error)) ∧
      (CallbacksOK e → after.2.trace = s.trace ++ responseOutputs s.txs.response outs) := by
  intro after total
  obtain ⟨r, outs, evs, t', s', h1, h2, h3, h4, h5, h6, h7, h8⟩ :=
    responseBodyData_decompress hdec data ht henc hd hu
  have hafter : after = (r, s') := h1
  rw [hafter]
  refine ⟨outs, t', h2.here, h3, h4, h7, fun hr hne => ?_, h5, fun hcb => ?_⟩
  · have := (h6 hr).2 hne
    rw [h4] at this
    exact this
  · rw [← h8 hcb]
    exact h2.trace

/-- C41. The bound is kept from piece to piece: after every piece of a request body that is accepted, the decompressed
size is at most the bomb limit or at most ratio times the compressed size. -/
theorem C41_request_bounded (e : Env) (hdec : ∀ tr k d o, StopsAtRefusal (e.decoder tr k d o)) (data : Bytes)
    (s s' : Conn) (t t' : Tx) (d : Decompressor) (ht : s.txs.get s.txs.request = some t)
    (henc : t.requestContentEncodingProcessing ≠ .none ∧ t.requestContentEncodingProcessing ≠ .error)
    (hd : t.requestDecompressor = some d) (hu : t.requestEntityLen < 2 ^ 64)
    (hm : t.requestMessageLen + data.length < 2 ^ 64)
    (hb : t.requestEntityLen ≤ e.cfg.compressionOptions.bombLimit ∨
      t.requestEntityLen ≤ t.requestMessageLen * e.cfg.compressionOptions.bombRatio)
    (hrun : requestBodyData e (some data) s = (.ok (), s')) (ht' : s'.txs.get s.txs.request = some t') :
    t'.requestMessageLen = t.requestMessageLen + data.length ∧
    (t'.requestEntityLen ≤ e.cfg.compressionOptions.bombLimit ∨
      t'.requestEntityLen ≤ t'.requestMessageLen * e.cfg.compressionOptions.bombRatio) := by
  obtain ⟨outs, t1, h1, h2, h3, h4, h5, h6, h7⟩ := C41_request e hdec data s t d ht henc hd hu
  rw [hrun] at h1 h5
  rw [ht'] at h1
  cases h1
  rw [Nat.mod_eq_of_lt hm] at h2
  refine ⟨h2, ?_⟩
  by_cases ho : outs = []
  · rw [ho] at h3
    rw [h3, h2]
    simp only [outputSize, List.map_nil, List.sum_nil, Nat.add_zero, Nat.mod_eq_of_lt hu]
    rcases hb with h | h
    · exact .inl h
    · refine .inr (Nat.le_trans h ?_)
      exact Nat.mul_le_mul_right _ (Nat.le_add_right _ _)
  · rw [h3]
    rcases h5 rfl ho with h | h
    · exact .inl h
    · exact .inr h.2

/-- C41. The same for responses. -/
theorem C41_response_bounded (e : Env) (hdec : ∀ tr k d o, StopsAtRefusal (e.decoder tr k d o)) (data : Bytes)
    (s s' : Conn) (t t' : Tx) (d : Decompressor) (ht : s.txs.get s.txs.response = some t)
    (henc : t.responseContentEncodingProcessing ≠ .none ∧ t.responseContentEncodingProcessing ≠ .error)
    (hd : t.responseDecompressor = some d) (hu : t.responseEntityLen < 2 ^ 64)
    (hm : t.responseMessageLen + data.length < 2 ^ 64)
    (hb : t.responseEntityLen ≤ e.cfg.compressionOptions.bombLimit ∨
      t.responseEntityLen ≤ t.responseMessageLen * e.cfg.compressionOptions.bombRatio)
    (hrun : responseBodyData e (some data) s = (.ok (), s')) (ht' : s'.txs.get s.txs.response = some t') :
    t'.responseMessageLen = t.responseMessageLen + data.length ∧
    (t'.responseEntityLen ≤ e.cfg.compressionOptions.bombLimit ∨
      t'.responseEntityLen ≤ t'.responseMessageLen * e.cfg.compressionOptions.bombRatio) := by
  obtain ⟨outs, t1, h1, h2, h3, h4, h5, h6, h7⟩ := C41_response e hdec data s t d ht henc hd hu
  rw [hrun] at h1 h5
  rw [ht'] at h1
  cases h1
  rw [Nat.mod_eq_of_lt hm] at h2
  refine ⟨h2, ?_⟩
  by_cases ho : outs = []
  · rw [ho] at h3
    rw [h3, h2]
    simp only [outputSize, List.map_nil, List.sum_nil, Nat.add_zero, Nat.mod_eq_of_lt hu]
    rcases hb with h | h
    · exact .inl h
    · refine .inr (Nat.le_trans h ?_)
      exact Nat.mul_le_mul_right _ (Nat.le_add_right _ _)
  · rw [h3]
    rcases h5 rfl ho with h | h
    · exact .inl h
    · exact .inr h.2

/-- A decoder that turns every byte into three, through a chain with one layer. -/
def triple : Codecs where
  State := Unit
  new _ := ()
  write _ buf data := (.ok data.length, (), buf ++ data.flatMap fun c => [c, c, c])
  flush _ buf := (.ok (), (), buf)
  finish _ buf := .ok buf
  hasBuffer _ := true

/-- Bodies are tripled; a ratio of 2 and the given limit. -/
def tripleEnv (limit : Nat) : Env :=
  { sampleEnv with
    cfg := { compressionOptions := { bombLimit := limit, bombRatio := 2 } }
    decoder := fun _ _ d data => chainDecoding triple true 10 d data }

/-- A response whose body is being decompressed. -/
def tripleTx : Tx :=
  { index := 0, responseContentEncodingProcessing := .deflate, responseDecompressor := some { layers := [.deflate] } }

/-- A parser with that response. -/
def tripleConn : Conn := { txs := (({} : Txs).set 0 tripleTx) }

/- `C41_response` applies, and the limit decides. -/
example : tripleConn.txs.get tripleConn.txs.response = some tripleTx := by decide
example : (responseBodyData (tripleEnv 6) (some (b! "ab")) tripleConn).1 = .ok () := by decide_cbv
example : (responseBodyData (tripleEnv 5) (some (b! "ab")) tripleConn).1 = .error (.status .error) := by decide_cbv
example : (responseBodyData (tripleEnv 6) (some (b! "ab")) tripleConn).2.trace =
    responseOutputs 0 [some (b! "aaabbb")] := by decide_cbv

end Props
