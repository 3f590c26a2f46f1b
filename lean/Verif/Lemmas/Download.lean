/-
Body data in some content coding, given to a connection parser whose callbacks accept everything.
-/
import Verif.Spec.Download
import Verif.Lemmas.RespSequence
import Verif.Props.Decompression
import Verif.Props.Decoder

namespace Model

open M Spec Props

/-! ### The header fields -/

open Classical in
/-- Looking up a name that exactly one field has. -/
theorem lookup_one {hs pre post : List HeaderLine} {h : HeaderLine} (hw : ∀ h ∈ hs, h.WellFormed) {key : Bytes}
    (heq : hs = pre ++ h :: post) (he : EqNocase h.name key) (ho : ∀ h' ∈ pre ++ post, ¬ EqNocase h'.name key) (m : Flags) :
    ∃ x, Headers.getNocaseNozero (storedTable m (fieldsOf hs)) key = some x ∧ x.value = h.value := by
  have hlen : (fieldsOf hs).length = pre.length + (post.length + 1) := by rw [heq]; simp [fieldsOf]
  have hf : field (fieldsOf hs) pre.length = { name := h.name, value := h.value } := by
    unfold field fieldsOf List.getD
    rw [heq]
    simp
  have hoth : ∀ j, j ≠ pre.length → j < (fieldsOf hs).length → ¬ EqNocase (field (fieldsOf hs) j).name key := by
    intro j hj hjl
    have : ∃ h' ∈ pre ++ post, field (fieldsOf hs) j = { name := h'.name, value := h'.value } := by
      rcases Nat.lt_or_gt_of_ne hj with h1 | h1
      · refine ⟨pre[j], by simp, ?_⟩
        unfold field fieldsOf List.getD
        rw [heq]
        simp [List.getElem?_append_left, h1]
      · rw [hlen] at hjl
        obtain ⟨i, rfl⟩ : ∃ i, j = pre.length + 1 + i := ⟨j - (pre.length + 1), by omega⟩
        have h3 : pre.length + 1 + i - pre.length = i + 1 := by omega
        have h5 : i < post.length := by omega
        refine ⟨post[i], List.mem_append_right _ (List.getElem_mem _), ?_⟩
        unfold field fieldsOf List.getD
        rw [heq, List.map_append, List.getElem?_append_right (by simp; omega), List.length_map, List.map_cons, h3,
          List.getElem?_cons_succ]
        simp [List.getElem?_eq_getElem h5]
    obtain ⟨h', hm, e1⟩ := this
    rw [e1]
    exact ho h' hm
  have hmem : h ∈ hs := by rw [heq]; simp
  obtain ⟨x, y, hx, -⟩ := lookup_some hw hmem he m
  refine ⟨x, hx, ?_⟩
  have h1 := C04_headers_get_nocase_nozero (storedTable m (fieldsOf hs)) key
  rw [hx] at h1
  obtain ⟨a, b, h2, h3, -⟩ := h1
  obtain ⟨i, hi, -, rfl⟩ := mem_storedTable (x := x) (by rw [h2]; simp)
  obtain ⟨z, hz, e1⟩ := fieldsOf_field hi
  have h4 : EqNocase (field (fieldsOf hs) i).name key := by
    have : NameMatchesNozero (field (fieldsOf hs) i).name key := h3
    rw [e1] at this ⊢
    exact (nameMatches_token (hw z hz).token).1 this
  have hip : i = pre.length := Decidable.byContradiction fun hne => hoth i hne hi h4
  subst hip
  show (if _ then _ else _) = _
  split
  · rw [hf]
  · have hfil : ((List.range (fieldsOf hs).length).filter
        (fun j => decide (Spec.Same (fieldsOf hs) j pre.length ∧ Recorded (fieldsOf hs) j))) = [pre.length] := by
      refine List.perm_singleton.1 ((List.perm_ext_iff_of_nodup (List.nodup_range.filter _) (by simp)).2 fun j => ?_)
      simp only [List.mem_filter, List.mem_range, decide_eq_true_eq, List.mem_singleton]
      constructor
      · rintro ⟨hj, hs', -⟩
        exact Decidable.byContradiction fun hne => hoth j hne hj (eqNocase_trans hs' h4)
      · rintro rfl
        refine ⟨hi, (eqNocase_map _ _).1 rfl, .inl ?_⟩
        have : before (fieldsOf hs) pre.length = 0 := by
          unfold before
          rw [List.countP_eq_zero]
          intro k hk hs'
          simp only [decide_eq_true_eq] at hs'
          exact hoth k (by have := List.mem_range.1 hk; omega) (by have := List.mem_range.1 hk; omega) (eqNocase_trans hs' h4)
        omega
    rw [hfil]
    show (field (fieldsOf hs) pre.length).value = _
    rw [hf]

theorem lookup_hasOne {r : ResponseHead} (hw : r.WellFormed) {key v : Bytes} (h : r.HasOne key v) (m : Flags) :
    ∃ x, Headers.getNocaseNozero (storedTable m (fieldsOf r.headers)) key = some x ∧ x.value = v := by
  obtain ⟨pre, h, post, h1, h2, rfl, h4⟩ := h
  exact lookup_one hw.headers h1 h2 h4 m

/-! ### The decompressors that are installed -/

/-- What is installed when these codings are to be undone and this data has been decoded. -/
def Undoes (layers : List Encoding) (fed : List Bytes) (t : Tx) : Prop :=
  (layers = [] → t.responseContentEncodingProcessing = .none) ∧
  (layers ≠ [] → t.responseContentEncodingProcessing ≠ .none ∧ t.responseContentEncodingProcessing ≠ .error ∧
    t.responseDecompressor = some { layers, fed })

theorem prepend_more (encs : List Encoding) : ∀ (t : Tx) (d : Decompressor), t.responseDecompressor = some d →
    encs.foldl Tx.prependResponseDecompressor t = { t with responseDecompressor := some { d with layers := d.layers ++ encs } } := by
  induction encs with
  | nil => intro t d h; cases t; simp_all
  | cons x xs ih =>
    intro t d h
    rw [List.foldl_cons]
    have : t.prependResponseDecompressor x = { t with responseDecompressor := some { d with layers := d.layers ++ [x] } } := by
      unfold Tx.prependResponseDecompressor prependLayer
      rw [h]
      rfl
    rw [this, ih _ { d with layers := d.layers ++ [x] } rfl]
    simp

theorem prepend_first (encs : List Encoding) (hne : ∀ x ∈ encs, x ≠ .none ∧ x ≠ .error) (t : Tx)
    (h : t.responseDecompressor = none) (hp : t.responseContentEncodingProcessing = .none) :
    ∃ p d, encs.foldl Tx.prependResponseDecompressor t =
      { t with responseContentEncodingProcessing := p, responseDecompressor := d } ∧
      Undoes encs [] (encs.foldl Tx.prependResponseDecompressor t) := by
  cases encs with
  | nil => exact ⟨_, _, rfl, fun _ => hp, fun h => absurd rfl h⟩
  | cons x xs =>
    have h1 : t.prependResponseDecompressor x =
        { t with responseContentEncodingProcessing := x, responseDecompressor := some { layers := [x] } } := by
      unfold Tx.prependResponseDecompressor prependLayer
      rw [h]
      rfl
    rw [List.foldl_cons, h1, prepend_more xs _ { layers := [x] } rfl]
    exact ⟨_, _, rfl, (fun h => by cases h), fun _ => ⟨(hne x (by simp)).1, (hne x (by simp)).2, rfl⟩⟩

theorem init_coded {cfg : Config} {r : ResponseHead} {layers : List Encoding} (hw : r.WellFormed) (hc : r.Coded cfg layers)
    {m : Flags} {t : Tx} (ht : t.responseHeaders = storedTable m (fieldsOf r.headers)) (h0 : t.responseDecompressor = none) :
    ∃ c p d, t.initResponseDecompressors cfg =
        { t with responseContentEncoding := c, responseContentEncodingProcessing := p, responseDecompressor := d } ∧
      Undoes layers [] (t.initResponseDecompressors cfg) := by
  unfold Tx.initResponseDecompressors
  cases hc with
  | off hd =>
    dsimp only
    rw [if_neg (by rw [hd]; simp)]
    exact ⟨_, _, _, rfl, fun _ => rfl, fun h => absurd rfl h⟩
  | none hn =>
    rw [show t.responseHeaders.getNocaseNozero (b! "content-encoding") = Option.none from by
      rw [ht]; exact lookup_none hw.headers (fun x hx he => hn x ⟨hx, he⟩) _]
    dsimp only [Option.map, Option.bind, Option.getD]
    split
    · have : responseLayers cfg.compressionOptions 0 0 (encodingTokens []) = [] := by
        rw [show encodingTokens [] = [] from rfl]
        rfl
      rw [this]
      exact ⟨_, _, _, rfl, fun _ => rfl, fun h => absurd rfl h⟩
    · exact ⟨_, _, _, rfl, fun _ => rfl, fun h => absurd rfl h⟩
  | @one v enc hon hv hn =>
    obtain ⟨x, hx, rfl⟩ := lookup_hasOne hw hv m
    rw [← ht] at hx
    rw [hx]
    dsimp only [Option.map]
    rw [show (some x.value).bind directEncoding = some enc from (directEncoding_iff _ _).2 hn, if_pos hon]
    dsimp only [Option.getD]
    have hne : enc ≠ .error := by rintro rfl; exact hn
    cases enc with
    | none => exact ⟨_, _, _, rfl, fun _ => rfl, fun h => absurd rfl h⟩
    | error => exact absurd rfl hne
    | _ =>
      dsimp only
      unfold Tx.prependResponseDecompressor prependLayer
      rw [h0]
      exact ⟨_, _, _, rfl, (fun h => by cases h), fun _ => ⟨by simp, by simp, rfl⟩⟩
  | @list v hon hv hno hl1 hl2 =>
    obtain ⟨x, hx, rfl⟩ := lookup_hasOne hw hv m
    rw [← ht] at hx
    rw [hx]
    dsimp only [Option.map]
    have hdir : directEncoding x.value = Option.none := by
      cases hd : directEncoding x.value with
      | none => rfl
      | some enc => exact absurd ((directEncoding_iff _ _).1 hd) (hno enc)
    have hlist : listed x.value = ((encodingTokens x.value).map tokenEncoding).filter fun e => e ≠ .none := by
      rw [listed, encodingTokens_eq, funext tokenEncoding_eq]
    have hall : responseLayers cfg.compressionOptions 0 0 (encodingTokens x.value) = listed x.value := by
      rw [hlist]
      refine responseLayers_all _ _ _ _ (fun n hn => ?_) fun n hn => ?_
      · rw [Nat.zero_add, encodingTokens_eq]
        exact hl1 n hn
      · have := hl2 n hn
        rw [hlist, List.count_filter (by decide)] at this
        omega
    rw [show (some x.value).bind directEncoding = Option.none from hdir, if_pos hon]
    dsimp only [Option.getD]
    rw [hall]
    have hne : ∀ y ∈ listed x.value, y ≠ .none ∧ y ≠ .error := by
      intro y hy
      rw [hlist] at hy
      obtain ⟨hy, hn⟩ := List.mem_filter.1 hy
      refine ⟨by simpa using hn, ?_⟩
      obtain ⟨p, -, rfl⟩ := List.mem_map.1 hy
      rcases tokenEncoding_cases p with h | h | h | h <;> rw [h] <;> simp
    obtain ⟨p, d, h1, h2⟩ := prepend_first (listed x.value) hne
      { t with responseContentEncoding := .none, responseContentEncodingProcessing := .none } h0 rfl
    exact ⟨.none, p, d, h1, h2⟩

/-! ### Body data -/

/-- The callbacks for these outputs of a decompressor. -/
def outputCallbacks (k : Nat) (outs : List (Option Bytes)) : List Event :=
  (outs.flatMap fun o => o.toList.filter (· ≠ [])).flatMap (answerBodyCallbacks k)

theorem outputs_flatten (outs : List (Option Bytes)) :
    (outs.flatMap fun o => o.toList.filter (· ≠ [])).flatten = outs.flatMap (·.getD []) := by
  induction outs with
  | nil => rfl
  | cons o os ih =>
    rw [List.flatMap_cons, List.flatten_append, ih, List.flatMap_cons]
    congr 1
    cases o with
    | none => rfl
    | some x => cases x <;> simp

theorem outputSize_flat (outs : List (Option Bytes)) : outputSize outs = (outs.flatMap (·.getD [])).length := by
  induction outs with
  | nil => rfl
  | cons o os ih =>
    rw [List.flatMap_cons, List.length_append, ← ih]
    rfl

/-- The output callback, for output that is not too much. -/
theorem callback_rp {e : Env} (hcb : CallbacksOK e) (s : Conn) (h : Half) (t : Tx) (evs : List Event) (inp : PData)
    (out : Option Bytes) (hlen : t.responseEntityLen + (out.getD []).length < 2 ^ 64)
    (hs : SizeAllowed e.cfg.compressionOptions t.responseMessageLen (t.responseEntityLen + (out.getD []).length)) :
    responseDecompressorCallback e out (rp s h t evs inp) = (.ok (), rp s h
      { t with responseEntityLen := t.responseEntityLen + (out.getD []).length }
      (evs ++ outputCallbacks s.txs.response [out]) inp) := by
  have hw : wrapAdd t.responseEntityLen (out.getD []).length = t.responseEntityLen + (out.getD []).length :=
    Nat.mod_eq_of_lt hlen
  unfold responseDecompressorCallback
  rw [rp_tx_bind, rp_put_bind, hw]
  unfold responseRunHookBodyData
  have he : ({ data := out } : PData).isEmpty = decide (out.getD [] = []) := by
    cases out with
    | none => rfl
    | some x => cases x <;> rfl
  rw [he]
  by_cases h0 : out.getD [] = []
  · rw [if_pos (by simp [h0])]
    have hno : outputCallbacks s.txs.response [out] = [] := by
      cases out with
      | none => rfl
      | some x =>
        cases x with
        | nil => rfl
        | cons c cs => cases h0
    rw [M.pure_bind_run, rp_tx_bind, if_pos ((bombAccepts_iff _ _ _).2 (by simpa [h0] using hs)), hno, List.append_nil]
    rfl
  · obtain ⟨c, cs, rfl⟩ : ∃ c cs, out = some (c :: cs) := by
      cases out with
      | none => exact absurd rfl h0
      | some x =>
        cases x with
        | nil => exact absurd rfl h0
        | cons c cs => exact ⟨c, cs, rfl⟩
    rw [if_neg (by simp), M.bind_bind, rp_tx_bind, M.bind_bind, rp_state_bind, rp_response, M.bind_bind,
      rp_emit_bind _ _ _ _ _ hcb, rp_emit_bind _ _ _ _ _ hcb, rp_tx_bind, if_pos ((bombAccepts_iff _ _ _).2 hs),
      List.append_assoc]
    rfl

theorem decoding_rp {e : Env} (hcb : CallbacksOK e) (s : Conn) (h : Half) (inp : PData) (m total : Nat)
    (htot : total < 2 ^ 64) (hs : SizeAllowed e.cfg.compressionOptions m total) (p : Decoding) :
    ∀ (t : Tx) (evs : List Event), t.responseMessageLen = m → t.responseEntityLen + outputSize (decodingOutputs p).1 ≤ total →
    runDecoding (responseDecompressorCallback e) p (rp s h t evs inp) = (.ok (decodingOutputs p).2, rp s h
      { t with responseEntityLen := t.responseEntityLen + outputSize (decodingOutputs p).1 }
      (evs ++ outputCallbacks s.txs.response (decodingOutputs p).1) inp) := by
  have mono : ∀ n, n ≤ total → SizeAllowed e.cfg.compressionOptions m n := by
    intro n hn
    rcases hs with h | h
    · exact .inl (by omega)
    · exact .inr ⟨h.1, by omega⟩
  induction p with
  | done ok =>
    intro t evs _ _
    show (Except.ok ok, _) = _
    simp [decodingOutputs, outputSize, outputCallbacks]
  | call out next ih =>
    intro t evs hm hle
    have hsz : outputSize (decodingOutputs (.call out next)).1 = (out.getD []).length + outputSize (decodingOutputs (next true)).1 := by
      simp [decodingOutputs, outputSize]
    rw [hsz] at hle ⊢
    unfold runDecoding
    rw [M.bind_ok (M.attempt_ok (callback_rp hcb s h t evs inp out (by omega) (by rw [hm]; exact mono _ (by omega))))]
    show runDecoding _ (next true) _ = _
    rw [ih true { t with responseEntityLen := t.responseEntityLen + (out.getD []).length } _ hm (by
      show t.responseEntityLen + _ + _ ≤ _
      omega)]
    have h1 : outputCallbacks s.txs.response (decodingOutputs (.call out next)).1 =
        outputCallbacks s.txs.response [out] ++ outputCallbacks s.txs.response (decodingOutputs (next true)).1 := by
      simp [decodingOutputs, outputCallbacks]
    rw [h1, List.append_assoc, Nat.add_assoc]
    rfl

/-- What a transaction says of the body received so far: the codings still to be undone, the bytes received and the
bytes decoded. -/
structure Receives {C : Codecs} (Ds : List (Decoder C)) (layers : List Encoding) (fed : List Bytes) (t : Tx) : Prop where
  undoes : Undoes layers fed t
  message : t.responseMessageLen = fed.flatten.length
  entity : t.responseEntityLen = (decodeAll Ds fed.flatten).length

/-- Nothing is left to be decoded. -/
def Ended (t : Tx) : Prop :=
  t.responseContentEncodingProcessing = .none ∨
  (t.responseContentEncodingProcessing ≠ .error ∧ t.responseDecompressor = none)

theorem decodersFor_nil {C : Codecs} {lzma : Bool} {Ds : List (Decoder C)} (h : DecodersFor C lzma [] Ds) : Ds = [] := by
  cases Ds with
  | nil => rfl
  | cons D Ds => exact absurd h (by simp [DecodersFor])

theorem outputs_some (chunks : List Bytes) :
    outputSize (chunks.map some) = chunks.flatten.length ∧
    (∀ k, outputCallbacks k (chunks.map some) = (chunks.filter (· ≠ [])).flatMap (answerBodyCallbacks k)) ∧
    (chunks.filter (· ≠ [])).flatten = chunks.flatten := by
  refine ⟨?_, fun k => ?_, ?_⟩
  · rw [outputSize_flat]
    congr 1
    induction chunks with
    | nil => rfl
    | cons x xs ih => rw [List.map_cons, List.flatMap_cons, ih]; rfl
  · unfold outputCallbacks
    congr 1
    induction chunks with
    | nil => rfl
    | cons x xs ih =>
      rw [List.map_cons, List.flatMap_cons, ih]
      cases x <;> simp
  · induction chunks with
    | nil => rfl
    | cons x xs ih => cases x <;> simp_all

theorem outputs_append_none (outs : List (Option Bytes)) :
    outputSize (outs ++ [none]) = outputSize outs ∧ ∀ k, outputCallbacks k (outs ++ [none]) = outputCallbacks k outs := by
  refine ⟨?_, fun k => ?_⟩
  · simp [outputSize_flat]
  · simp [outputCallbacks]

/-- Body data in some coding is given to the decompressors. -/
theorem coded_body {e : Env} (s : Conn) (h : Half) (t : Tx) (evs : List Event) (inp : PData) (d : Option Bytes)
    (h1 : t.responseContentEncodingProcessing ≠ .none) (h2 : t.responseContentEncodingProcessing ≠ .error) :
    responseBodyData e d (rp s h t evs inp) = responseDecompress e d (rp s h
      { t with responseMessageLen := wrapAdd t.responseMessageLen (d.getD []).length } evs inp) := by
  unfold responseBodyData
  rw [rp_tx_bind, rp_put_bind]
  generalize rp s h _ evs inp = s1
  revert h1 h2
  cases t.responseContentEncodingProcessing <;> intro h1 h2 <;> first | rfl | exact absurd rfl h1 | exact absurd rfl h2

theorem decompress_data {e : Env} (s : Conn) (h : Half) (t t' : Tx) (evs evs' : List Event) (inp : PData) (data : Bytes)
    (d : Decompressor) (hd : t.responseDecompressor = some d)
    (hr : runDecoding (responseDecompressorCallback e) (e.decoder (s.trace ++ evs) s.txs.response d (some data))
      (rp s h { t with responseDecompressor := none } evs inp) = (.ok true, rp s h t' evs' inp)) :
    responseDecompress e (some data) (rp s h t evs inp) =
      (.ok (), rp s h { t' with responseDecompressor := some { d with fed := d.fed ++ [data] } } evs' inp) := by
  unfold responseDecompress
  rw [rp_tx_bind, hd]
  refine (M.bind_ok (rp_put s h t evs inp { t with responseDecompressor := none })).trans ?_
  refine (rp_state_bind _ _ _ _ _ _).trans ((M.bind_ok hr).trans ?_)
  exact rp_modify _ _ _ _ _ _ _

theorem decompress_end {e : Env} (s : Conn) (h : Half) (t t' : Tx) (evs evs' : List Event) (inp : PData)
    (d : Decompressor) (ok : Bool) (hd : t.responseDecompressor = some d)
    (hr : runDecoding (responseDecompressorCallback e) (e.decoder (s.trace ++ evs) s.txs.response d none)
      (rp s h { t with responseDecompressor := none } evs inp) = (.ok ok, rp s h t' evs' inp)) :
    responseDecompress e none (rp s h t evs inp) = (.ok (), rp s h t' evs' inp) := by
  unfold responseDecompress
  rw [rp_tx_bind, hd]
  refine (M.bind_ok (rp_put s h t evs inp { t with responseDecompressor := none })).trans ?_
  exact (rp_state_bind _ _ _ _ _ _).trans (M.bind_ok hr)

theorem decompress_nothing {e : Env} (s : Conn) (h : Half) (t : Tx) (evs : List Event) (inp : PData)
    (hd : t.responseDecompressor = none) :
    responseDecompress e none (rp s h t evs inp) = (.ok (), rp s h t evs inp) := by
  unfold responseDecompress
  rw [rp_tx_bind, hd]
  rfl

/-- Body data, in whatever coding. -/
theorem rp_codedData {e : Env} (hcb : CallbacksOK e) {C : Codecs} {lzma : Bool} (hdec : Decompresses e C lzma)
    {layers : List Encoding} {Ds : List (Decoder C)} (hD : DecodersFor C lzma layers.reverse Ds)
    (s : Conn) (h : Half) (t : Tx) (evs : List Event) (inp : PData) {fed : List Bytes} (hr : Receives Ds layers fed t)
    (data : Bytes) (hne : data ≠ []) (hv : ValidAll Ds (fed.flatten ++ data))
    (hm : (fed.flatten ++ data).length < 2 ^ 64) (he : (decodeAll Ds (fed.flatten ++ data)).length < 2 ^ 64)
    (hs : layers ≠ [] →
      SizeAllowed e.cfg.compressionOptions (fed.flatten ++ data).length (decodeAll Ds (fed.flatten ++ data)).length) :
    ∃ (t' : Tx) (ds : List Bytes), responseBodyData e (some data) (rp s h t evs inp) =
        (.ok (), rp s h t' (evs ++ ds.flatMap (answerBodyCallbacks s.txs.response)) inp) ∧
      (∃ ml el d, t' = { t with responseMessageLen := ml, responseEntityLen := el, responseDecompressor := d }) ∧
      decodeAll Ds fed.flatten ++ ds.flatten = decodeAll Ds (fed.flatten ++ data) ∧ (∀ d ∈ ds, d ≠ []) ∧
      Receives Ds layers (fed ++ [data]) t' := by
  have hflat : (fed ++ [data]).flatten = fed.flatten ++ data := by simp
  have hmw : wrapAdd t.responseMessageLen data.length = (fed.flatten ++ data).length := by
    rw [hr.message, List.length_append]
    exact Nat.mod_eq_of_lt (by rw [List.length_append] at hm; exact hm)
  by_cases h0 : layers = []
  · subst h0
    obtain rfl := decodersFor_nil hD
    have henc := hr.undoes.1 rfl
    have hel : t.responseEntityLen = fed.flatten.length := hr.entity
    refine ⟨{ t with
        responseMessageLen := wrapAdd t.responseMessageLen data.length
        responseEntityLen := t.responseEntityLen + data.length }, [data],
      (rp_bodyData hcb s h t evs inp (some data) henc ?_).trans ?_, ⟨_, _, t.responseDecompressor, rfl⟩, ?_, ?_, ?_⟩
    · rw [hel, ← List.length_append]; exact hm
    · rw [show ((some data).getD []) = data from rfl, if_neg hne]
      simp
    · simp [decodeAll]
    · simpa using hne
    · refine ⟨⟨fun _ => henc, fun h => absurd rfl h⟩, ?_, ?_⟩
      · rw [hflat]; exact hmw
      · show t.responseEntityLen + data.length = (fed ++ [data]).flatten.length
        rw [hel, hflat, List.length_append]
  · obtain ⟨hp1, hp2, hd⟩ := hr.undoes.2 h0
    obtain ⟨N, chunks, hc1, hc2⟩ := C64_decoded C lzma layers Ds hD fed data hv
    have hout := hdec (s.trace ++ evs) s.txs.response { layers, fed } (some data) (chunks.map some, true) ⟨N, hc2⟩
    obtain ⟨ho1, ho2, ho3⟩ := outputs_some chunks
    have hlen : t.responseEntityLen + chunks.flatten.length = (decodeAll Ds (fed.flatten ++ data)).length := by
      rw [hr.entity, ← List.length_append, hc1]
    have hrun := decoding_rp hcb s h inp (fed.flatten ++ data).length (decodeAll Ds (fed.flatten ++ data)).length he (hs h0)
      (e.decoder (s.trace ++ evs) s.txs.response { layers, fed } (some data))
      { t with responseMessageLen := (fed.flatten ++ data).length, responseDecompressor := none } evs rfl (by
        rw [hout, ho1]
        exact Nat.le_of_eq hlen)
    rw [hout, ho1, ho2] at hrun
    refine ⟨{ t with
        responseMessageLen := (fed.flatten ++ data).length
        responseEntityLen := t.responseEntityLen + chunks.flatten.length
        responseDecompressor := some { layers, fed := fed ++ [data] } }, chunks.filter (· ≠ []), ?_, ⟨_, _, _, rfl⟩, ?_, ?_, ?_⟩
    · rw [coded_body _ _ _ _ _ _ hp1 hp2, show ((some data).getD []) = data from rfl, hmw]
      have := decompress_data s h { t with responseMessageLen := (fed.flatten ++ data).length } _ evs _ inp data
        { layers, fed } hd hrun
      exact this
    · rw [ho3]; exact hc1
    · intro d hd'; simpa using (List.mem_filter.1 hd').2
    · refine ⟨⟨fun h => absurd h h0, fun _ => ⟨hp1, hp2, rfl⟩⟩, by rw [hflat], ?_⟩
      show t.responseEntityLen + _ = _
      rw [hlen, hflat]

/-- The end of the body, in whatever coding. -/
theorem rp_codedEnd {e : Env} (hcb : CallbacksOK e) {C : Codecs} {lzma : Bool} (hdec : Decompresses e C lzma)
    {layers : List Encoding} {Ds : List (Decoder C)} (hD : DecodersFor C lzma layers.reverse Ds)
    (s : Conn) (h : Half) (t : Tx) (evs : List Event) (inp : PData) {fed : List Bytes} (hr : Receives Ds layers fed t)
    (hv : ValidEnd Ds fed.flatten)
    (hm : fed.flatten.length < 2 ^ 64) (he : (decodeEnd Ds fed.flatten).length < 2 ^ 64)
    (hs : layers ≠ [] → SizeAllowed e.cfg.compressionOptions fed.flatten.length (decodeEnd Ds fed.flatten).length) :
    ∃ (t' : Tx) (ds : List Bytes), responseBodyData e none (rp s h t evs inp) =
        (.ok (), rp s h t' (evs ++ ds.flatMap (answerBodyCallbacks s.txs.response)) inp) ∧
      (∃ el d, t' = { t with responseEntityLen := el, responseDecompressor := d }) ∧
      decodeAll Ds fed.flatten ++ ds.flatten = decodeEnd Ds fed.flatten ∧ (∀ d ∈ ds, d ≠ []) ∧
      Ended t' ∧ t'.responseEntityLen = (decodeEnd Ds fed.flatten).length := by
  have hmw : wrapAdd t.responseMessageLen 0 = t.responseMessageLen := by
    rw [hr.message]
    exact Nat.mod_eq_of_lt hm
  by_cases h0 : layers = []
  · subst h0
    obtain rfl := decodersFor_nil hD
    have henc := hr.undoes.1 rfl
    have hel : t.responseEntityLen = fed.flatten.length := hr.entity
    refine ⟨t, [], (rp_bodyData hcb s h t evs inp none henc (by rw [hel]; exact hm)).trans ?_,
      ⟨t.responseEntityLen, t.responseDecompressor, rfl⟩, ?_, ?_, .inl henc, hel⟩
    · rw [show ((none : Option Bytes).getD []) = [] from rfl, if_pos rfl, List.length_nil, hmw]
      rfl
    · simp [decodeAll, decodeEnd]
    · simp
  · obtain ⟨hp1, hp2, hd⟩ := hr.undoes.2 h0
    obtain ⟨N, chunks, hc1, hc2⟩ := C64_end C lzma layers Ds hD fed hv
    have hout := hdec (s.trace ++ evs) s.txs.response { layers, fed } none (chunks.map some ++ [none], true) ⟨N, hc2⟩
    obtain ⟨ho1, ho2, ho3⟩ := outputs_some chunks
    obtain ⟨ho4, ho5⟩ := outputs_append_none (chunks.map some)
    have hlen : t.responseEntityLen + chunks.flatten.length = (decodeEnd Ds fed.flatten).length := by
      rw [hr.entity, ← List.length_append, hc1]
    have hrun := decoding_rp hcb s h inp fed.flatten.length (decodeEnd Ds fed.flatten).length he (hs h0)
      (e.decoder (s.trace ++ evs) s.txs.response { layers, fed } none)
      { t with responseDecompressor := none } evs hr.message (by
        rw [hout, ho4, ho1]
        exact Nat.le_of_eq hlen)
    rw [hout, ho4, ho1, ho5, ho2] at hrun
    refine ⟨{ t with
        responseEntityLen := t.responseEntityLen + chunks.flatten.length
        responseDecompressor := none }, chunks.filter (· ≠ []), ?_, ⟨_, _, rfl⟩, ?_, ?_, .inr ⟨hp2, rfl⟩, hlen⟩
    · rw [coded_body _ _ _ _ _ _ hp1 hp2, show ((none : Option Bytes).getD []) = [] from rfl, List.length_nil, hmw]
      exact decompress_end _ _ _ _ _ _ _ { layers, fed } _ hd hrun
    · rw [ho3]; exact hc1
    · intro d hd'; simpa using (List.mem_filter.1 hd').2

/-- Reporting the end once more has no effect. -/
theorem rp_codedEnded {e : Env} (hcb : CallbacksOK e) (s : Conn) (h : Half) (t : Tx) (evs : List Event) (inp : PData)
    (hd : Ended t) (hm : t.responseMessageLen < 2 ^ 64) (he : t.responseEntityLen < 2 ^ 64) :
    responseBodyData e none (rp s h t evs inp) = (.ok (), rp s h t evs inp) := by
  have hmw : wrapAdd t.responseMessageLen 0 = t.responseMessageLen := Nat.mod_eq_of_lt hm
  rcases hd with h0 | ⟨h1, h2⟩
  · rw [rp_bodyData hcb s h t evs inp none h0 (by simpa using he)]
    rw [show ((none : Option Bytes).getD []) = [] from rfl, if_pos rfl, List.length_nil, hmw]
    simp
  · by_cases h0 : t.responseContentEncodingProcessing = .none
    · rw [rp_bodyData hcb s h t evs inp none h0 (by simpa using he)]
      rw [show ((none : Option Bytes).getD []) = [] from rfl, if_pos rfl, List.length_nil, hmw]
      simp
    · rw [coded_body _ _ _ _ _ _ h0 h1, show ((none : Option Bytes).getD []) = [] from rfl, List.length_nil, hmw]
      exact decompress_nothing _ _ _ _ _ h2

end Model
