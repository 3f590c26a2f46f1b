/-
One well-formed response after another.
-/
import Verif.Lemmas.RespRounds
import Verif.Lemmas.ReqSequence

namespace Model

open M Spec Props

theorem _root_.Spec.Unanswered.fields {t : Tx} (h : Unanswered t) :
    t.responseHeaders = [] ∧ t.responseHeaderRepetitions = 0 ∧ t.responseContentLength = none ∧ t.responseEntityLen = 0 ∧
    t.responseProgress = .notStarted :=
  ⟨congrArg Tx.responseHeaders h, congrArg Tx.responseHeaderRepetitions h, congrArg Tx.responseContentLength h,
    congrArg Tx.responseEntityLen h, congrArg Tx.responseProgress h⟩

/-- What is known when the status line of the response to `t0` has been read. -/
structure LineRead (t0 : Tx) (r : Response) (t : Tx) : Prop where
  same : requestSide t = requestSide t0
  line : t.responseLine = some (r.line ++ [13, 10])
  protocol : t.responseProtocol = some r.protocol
  protocolNumber : t.responseProtocolNumber = parseProtocol r.protocol
  status : t.responseStatus = some (Spec.render 10 r.code)
  statusNumber : t.responseStatusNumber = .valid r.code
  message : t.responseMessage = some r.message
  progress : t.responseProgress ≠ .complete

theorem LineRead.requestProgress {t0 t : Tx} {r : Response} (h : LineRead t0 r t) : t.requestProgress = t0.requestProgress :=
  by
  have := congrArg Tx.requestProgress h.same
  exact this
theorem LineRead.method {t0 t : Tx} {r : Response} (h : LineRead t0 r t) : t.requestMethodNumber = t0.requestMethodNumber :=
  by
  have := congrArg Tx.requestMethodNumber h.same
  exact this
theorem LineRead.requestHeaders {t0 t : Tx} {r : Response} (h : LineRead t0 r t) : t.requestHeaders = t0.requestHeaders :=
  by
  have := congrArg Tx.requestHeaders h.same
  exact this

/-- What is known of the response side. -/
structure BetweenAnswers (s : Conn) (h : Half) : Prop where
  buf : h.buf = []
  header : h.header = none
  status : h.status = s.resp.status

theorem head_noBlank {rest : Bytes} (hn : UpcomingAnswer rest) : ∀ c ∈ rest.head?, c ≠ 32 ∧ c ≠ 9 ∧ c ≠ 13 := by
  intro c hc
  rcases hn with rfl | ⟨b, r', hr', rest', rfl⟩
  · cases hc
  · obtain ⟨ds, hd⟩ := response_cons hr'.head
    have : (r'.line ++ [13, 10] ++ rest').head? = some 72 := by rw [hd]; rfl
    rw [this] at hc
    cases hc
    decide

theorem answerFollows_headers {head : Bool} {r : Response} (hr : r.WellFormed head) {rest : Bytes} (hn : UpcomingAnswer rest)
    (hfill : rest = [] ∨ r.Filled) : AnswerFollows r.headers (r.body.render ++ rest) := by
  have hf := hr.framed
  unfold Response.Framed at hf
  constructor
  · intro h0
    obtain rfl : rest = [] := hfill.resolve_right fun h => h.1 h0
    have hno : ∀ n h, ¬ r.Has n h := by
      intro n h hh
      have := hh.1
      rw [h0] at this
      cases this
    cases hb : r.body with
    | absent => rfl
    | sized content =>
      rw [hb] at hf
      obtain ⟨-, -, ⟨h, hh⟩, -⟩ := hf
      exact absurd hh (hno _ h)
    | chunked chunks last trailer =>
      rw [hb] at hf
      obtain ⟨-, ⟨h, hh⟩, -⟩ := hf
      exact absurd hh (hno _ h)
  · cases hb : r.body with
    | absent => exact head_noBlank hn
    | sized content =>
      rw [hb] at hf
      cases content with
      | nil => exact head_noBlank hn
      | cons c cs => exact hf.2.2.2.2
    | chunked chunks last trailer =>
      rw [hb] at hf
      obtain ⟨-, -, -, hv, hlast, -⟩ := hf
      have hx : ∀ c : UInt8, IsHexDigit c → c ≠ 32 ∧ c ≠ 9 ∧ c ≠ 13 := by decide +kernel
      have hsl : ∀ {line : Bytes} {n : Nat} (rest : Bytes), SizeLine line n → ∀ c ∈ (line ++ rest).head?, c ≠ 32 ∧ c ≠ 9 ∧ c ≠ 13 := by
        intro line n rest hl c hc
        obtain ⟨d, ds, rfl, hd⟩ := sizeLine_head hl
        cases Option.some.inj hc
        exact hx _ hd
      cases chunks with
      | nil =>
        have e1 : (Body.chunked [] last trailer).render ++ rest = last ++ (renderBlock trailer ++ rest) := by
          simp [Body.render, encoded, bytesOf]
        rw [e1]
        exact hsl _ hlast
      | cons c cs =>
        have e1 : (Body.chunked (c :: cs) last trailer).render ++ rest =
            c.line ++ (c.data ++ ([13, 10] ++ bytesOf (encoded cs)) ++ (last ++ (renderBlock trailer ++ rest))) := by
          show bytesOf (encoded (c :: cs)) ++ (last ++ renderBlock trailer) ++ rest = _
          rw [encoded_cons, bytesOf_cons_line, bytesOf_append, bytesOf_byte]
          simp
        rw [e1]
        exact hsl _ (hv c (by simp)).1

theorem answerFollows_trailer {r : Response} {chunks : List BodyChunk} {last : Bytes} {trailer : List HeaderLine} {rest : Bytes}
    (hb : r.body = .chunked chunks last trailer) (hn : UpcomingAnswer rest) (hfill : rest = [] ∨ r.Filled) :
    AnswerFollows trailer rest :=
  ⟨fun h0 => hfill.resolve_right fun h => h.2 chunks last (by rw [hb, h0]), head_noBlank hn⟩

theorem answers_head {e : Env} (hcb : CallbacksOK e) {r : Response} {s : Conn} (hb : BetweenResponses s) {t0 : Tx}
    (hg : s.txs.get s.txs.response = some t0) (hx : t0.index = s.txs.response) (ha : AnswerableBy t0 r)
    {done rest : Bytes} {q : Nat} (hi : s.input = win done (r.render ++ rest) q)
    (hlim : r.line.length + 2 ≤ e.cfg.fieldLimit) (hn : UpcomingAnswer rest) (hfill : rest = [] ∨ r.Filled) :
    ∃ h t, Rounds (responseStep e) 3 s (rp s h t [.tx .responseStart s.txs.response, .tx .responseLine s.txs.response]
        (win (done ++ (r.line ++ [13, 10]) ++ renderBlock r.headers) (r.body.render ++ rest) (done ++ (r.line ++ [13, 10])).length)) ∧
      h.state = .bodyDetermine ∧ h.receiver = some .responseHeaderData ∧ BetweenAnswers s h ∧ LineRead t0 r t ∧
      t.responseEntityLen = 0 ∧ t.responseContentLength = none ∧
      t.responseHeaders = storedTable HFlag.FIELD_REPEATED (fieldsOf r.headers) ∧
      t.responseHeaderRepetitions = min 64 (extras (fieldsOf r.headers) (fieldsOf r.headers).length) := by
  have hal : s.resp.status ≠ .tunnel ∧ s.resp.status ≠ .closed := by
    rcases hb.status with h | h | h <;> rw [h] <;> decide
  obtain ⟨u1, u2, u3, u4, u5⟩ := ha.unanswered.fields
  have hr := ha.response
  have hren : r.render ++ rest = r.line ++ [13, 10] ++ (renderBlock r.headers ++ (r.body.render ++ rest)) := by
    simp [Response.render]
  have hne : r.render ++ rest ≠ [] := by
    obtain ⟨cs, hc⟩ := response_cons hr.head
    rw [hren, hc]
    simp
  have r1 := answer_idle hcb hb hg (by rw [ha.complete]; decide) ha.notProtocol09 hi hne
  rw [hi, hren] at r1
  have r2 := answer_line hcb hr.head s
    { s.resp with contentLength := none, bodyDataLeft := none, state := .line, statePrevious := .line }
    { t0 with responseProgress := .line } [.tx .responseStart s.txs.response] done
    (renderBlock r.headers ++ (r.body.render ++ rest)) q rfl rfl hb.buf hb.header hal hlim hx
  have r3 := (fun {h t evs done q}
    (_ : responseStep e _ = (.ok none, rp s h t evs (win done (renderBlock r.headers ++ (r.body.render ++ rest)) q))) =>
    answer_headers (e := e) hr.head s h t evs done (r.body.render ++ rest) q) r2 rfl hb.header hal rfl u1 u2
    (answerFollows_headers hr hn hfill)
  refine ⟨_, _, .next r1 (.next r2 (.next r3 (.zero _))), rfl, rfl, ⟨rfl, rfl, rfl⟩,
    ⟨rfl, rfl, rfl, rfl, rfl, rfl, rfl, by show Progress.headers ≠ .complete; decide⟩, u4, u3, rfl, rfl⟩

theorem answers_body_via {e : Env} (hcb : CallbacksOK e) {r : Response} (s s' : Conn) (h : Half) (t0 t : Tx)
    (hresp : r.WellFormed (decide (t0.requestMethodNumber = .head)))
    (hm : Settles e s s' t)
    (evs : List Event) (done rest : Bytes) (hst : h.state = .bodyDetermine) (hrc : h.receiver = some .responseHeaderData)
    (hal : Alive h) (hc : BetweenAnswers s' h)
    (ht : LineRead t0 r t) (hel : t.responseEntityLen = 0) (hcl : t.responseContentLength = none)
    (htab : t.responseHeaders = storedTable HFlag.FIELD_REPEATED (fieldsOf r.headers))
    (hrep : t.responseHeaderRepetitions = min 64 (extras (fieldsOf r.headers) (fieldsOf r.headers).length))
    (hn : UpcomingAnswer rest) (hfill : rest = [] ∨ r.Filled) :
    ∃ k h' t' q', Rounds (responseStep e) k
        (rp s h t evs (win (done ++ renderBlock r.headers) (r.body.render ++ rest) done.length))
        (rp s' h' t' (evs ++ ([.data .responseHeaderData s'.txs.response (.ofBytes (renderBlock r.headers)),
            .tx .responseHeaders s'.txs.response] ++ r.body.answerCallbacks s'.txs.response))
          (win (done ++ renderBlock r.headers ++ r.body.render) rest q')) ∧
      h'.state = .finalize ∧ h'.receiver = none ∧ Alive h' ∧ BetweenAnswers s' h' ∧ LineRead t0 r t' ∧
      t'.responseContentEncodingProcessing = .none ∧ t'.responseTransferCoding = r.body.coding ∧
      t'.responseContentLength = r.body.size ∧ t'.responseEntityLen = r.body.content.length ∧
      t'.responseHeaders = storedTable HFlag.FIELD_REPEATED (fieldsOf (r.headers ++ r.body.trailer)) := by
  have hr := hresp
  rw [← ht.method] at hr
  have hf := hr.framed
  have hlen := hr.length
  unfold Response.Framed at hf
  cases hb : r.body with
  | absent =>
    have r1 := answer_determine_absent_via (e := e) hcb s s' h t evs done (renderBlock r.headers) rest hr hb hst hal hrc htab hm
      ht.statusNumber
    rw [show Body.absent.render ++ rest = rest from rfl,
      show done ++ renderBlock r.headers ++ Body.absent.render = done ++ renderBlock r.headers from List.append_nil _,
      show [Event.data .responseHeaderData s'.txs.response (.ofBytes (renderBlock r.headers)),
            .tx .responseHeaders s'.txs.response] ++ Body.absent.answerCallbacks s'.txs.response = _ from List.append_nil _]
    refine ⟨1, _, _, _, .one r1, rfl, rfl, hal, ⟨hc.buf, hc.header, hc.status⟩,
      ⟨ht.same, ht.line, ht.protocol, ht.protocolNumber, ht.status, ht.statusNumber, ht.message, ht.progress⟩, rfl, rfl, hcl, hel, ?_⟩
    simpa [Body.trailer] using htab
  | sized content =>
    rw [hb] at hlen
    have htab' : t.responseHeaders = storedTable HFlag.FIELD_REPEATED (fieldsOf (r.headers ++ (Body.sized content).trailer)) := by
      simpa [Body.trailer] using htab
    obtain ⟨fl, ct, r1⟩ := answer_determine_sized_via (e := e) hcb s s' h t evs done (renderBlock r.headers) (content ++ rest) content
      hr hb hst hal hrc htab hm
    by_cases h0 : content = []
    · subst h0
      simp only [if_true] at r1
      rw [show (Body.sized []).render ++ rest = rest from rfl,
        show done ++ renderBlock r.headers ++ (Body.sized []).render = done ++ renderBlock r.headers from List.append_nil _,
        show [Event.data .responseHeaderData s'.txs.response (.ofBytes (renderBlock r.headers)),
            .tx .responseHeaders s'.txs.response] ++ (Body.sized []).answerCallbacks s'.txs.response = _ from List.append_nil _]
      exact ⟨1, _, _, _, .one r1, rfl, rfl, hal, ⟨hc.buf, hc.header, hc.status⟩,
        ⟨ht.same, ht.line, ht.protocol, ht.protocolNumber, ht.status, ht.statusNumber, ht.message, ht.progress⟩, rfl, rfl, rfl, hel,
        htab'⟩
    · simp only [if_neg h0] at r1
      have r2 := (fun {h t evs done q} (_ : responseStep e _ = (.ok none, rp s' h t evs (win done (content ++ rest) q))) =>
        answer_identity (e := e) hcb s' h t evs done content rest q) r1 rfl hal rfl h0 rfl (by
          show t.responseEntityLen + _ < _
          rw [hel, Nat.zero_add]; exact hlen)
      have hev : (Body.sized content).answerCallbacks s'.txs.response = answerBodyCallbacks s'.txs.response content := if_neg h0
      rw [hev, ← List.append_assoc]
      refine ⟨2, _, _, _, .next r1 (.next r2 (.zero _)), rfl, rfl, hal, ⟨hc.buf, hc.header, hc.status⟩,
        ⟨ht.same, ht.line, ht.protocol, ht.protocolNumber, ht.status, ht.statusNumber, ht.message,
          by show Progress.body ≠ .complete; decide⟩, rfl, rfl, rfl, ?_, htab'⟩
      show t.responseEntityLen + _ = _
      rw [hel, Nat.zero_add]
      rfl
  | chunked chunks last trailer =>
    rw [hb] at hlen hf
    obtain ⟨-, -, -, hv, hlast, htr⟩ := hf
    obtain ⟨fl, ct, r1⟩ := answer_determine_chunked_via (e := e) hcb s s' h t evs done (renderBlock r.headers)
      (bytesOf (encoded chunks) ++ (last ++ (renderBlock trailer ++ rest)))
      hr hb hst hal hrc htab hm
    obtain ⟨k, b, cl, ml, r2⟩ := (fun {h t evs done q}
      (_ : responseStep e _ = (.ok none, rp s' h t evs (win done (bytesOf (encoded chunks) ++ (last ++ (renderBlock trailer ++ rest))) q))) =>
        answer_chunks (e := e) hcb s' chunks hv h t evs done (last ++ (renderBlock trailer ++ rest)) q) r1 rfl rfl hal hc.buf
          rfl (by
          show t.responseEntityLen + _ < _
          rw [hel, Nat.zero_add]; exact hlen)
    have r3 := (fun {h t evs done q k s0} (_ : Rounds (responseStep e) k s0
        (rp s' h t evs (win done (last ++ (renderBlock trailer ++ rest)) q))) =>
        answer_last (e := e) s' h t evs done last (renderBlock trailer ++ rest) q) r2 rfl rfl hal hc.buf hlast
    have r4 := (fun {h t evs done q} (_ : responseStep e _ = (.ok none, rp s' h t evs (win done (renderBlock trailer ++ rest) q))) =>
      answer_trailer (e := e) hcb trailer htr s' h t evs done rest) r3 rfl hc.header rfl hal rfl
      (answerFollows_trailer hb hn hfill)
    have hin : (Body.chunked chunks last trailer).render ++ rest =
      bytesOf (encoded chunks) ++ (last ++ (renderBlock trailer ++ rest)) := by simp [Body.render]
    have hout : done ++ renderBlock r.headers ++ (Body.chunked chunks last trailer).render =
      done ++ renderBlock r.headers ++ bytesOf (encoded chunks) ++ last ++ renderBlock trailer := by simp [Body.render]
    have hev : evs ++ ([.data .responseHeaderData s'.txs.response (.ofBytes (renderBlock r.headers)),
            .tx .responseHeaders s'.txs.response] ++ (Body.chunked chunks last trailer).answerCallbacks s'.txs.response) =
      evs ++ [.data .responseHeaderData s'.txs.response (.ofBytes (renderBlock r.headers)),
            .tx .responseHeaders s'.txs.response] ++ (chunks.flatMap fun c => answerBodyCallbacks s'.txs.response c.data) ++
        [.data .responseTrailerData s'.txs.response (.ofBytes (renderBlock trailer)), .tx .responseTrailer s'.txs.response] := by
      simp [Body.answerCallbacks]
    rw [hin, hout, hev]
    refine ⟨_, _, _, _, .next r1 (r2.append (.next r3 (.next r4 (.zero _)))), rfl, rfl, hal,
      ⟨hc.buf, rfl, hc.status⟩,
      ⟨ht.same, ht.line, ht.protocol, ht.protocolNumber, ht.status, ht.statusNumber, ht.message,
          by show Progress.trailer ≠ .complete; decide⟩, rfl, rfl, hcl, ?_, ?_⟩
    · show t.responseEntityLen + _ = _
      rw [hel, Nat.zero_add]
      rfl
    · show (List.foldl _ (t.responseHeaders, t.responseHeaderRepetitions) _).1 = _
      have h1 := stored_lines r.headers hr.headers
      have h2 := stored_lines (r.headers ++ trailer) (by
        intro x hx
        rcases List.mem_append.mp hx with hx | hx
        · exact hr.headers x hx
        · exact htr x hx)
      rw [show fieldsOf (r.headers ++ trailer) = fieldsOf r.headers ++ fieldsOf trailer from List.map_append,
        List.foldl_append, h1, ← htab, ← hrep] at h2
      rw [h2, show fieldsOf (r.headers ++ (Body.chunked chunks last trailer).trailer) = fieldsOf r.headers ++ fieldsOf trailer
        from List.map_append]

theorem answers_body {e : Env} (hcb : CallbacksOK e) {r : Response} (s : Conn) (h : Half) (t0 t : Tx) (ha : AnswerableBy t0 r)
    (evs : List Event) (done rest : Bytes) (hst : h.state = .bodyDetermine) (hrc : h.receiver = some .responseHeaderData)
    (hal : Alive h) (hc : BetweenAnswers s h)
    (ht : LineRead t0 r t) (hel : t.responseEntityLen = 0) (hcl : t.responseContentLength = none)
    (htab : t.responseHeaders = storedTable HFlag.FIELD_REPEATED (fieldsOf r.headers))
    (hrep : t.responseHeaderRepetitions = min 64 (extras (fieldsOf r.headers) (fieldsOf r.headers).length))
    (hn : UpcomingAnswer rest) (hfill : rest = [] ∨ r.Filled) :
    ∃ k h' t' q', Rounds (responseStep e) k
        (rp s h t evs (win (done ++ renderBlock r.headers) (r.body.render ++ rest) done.length))
        (rp s h' t' (evs ++ ([.data .responseHeaderData s.txs.response (.ofBytes (renderBlock r.headers)),
            .tx .responseHeaders s.txs.response] ++ r.body.answerCallbacks s.txs.response))
          (win (done ++ renderBlock r.headers ++ r.body.render) rest q')) ∧
      h'.state = .finalize ∧ h'.receiver = none ∧ Alive h' ∧ BetweenAnswers s h' ∧ LineRead t0 r t' ∧
      t'.responseContentEncodingProcessing = .none ∧ t'.responseTransferCoding = r.body.coding ∧
      t'.responseContentLength = r.body.size ∧ t'.responseEntityLen = r.body.content.length ∧
      t'.responseHeaders = storedTable HFlag.FIELD_REPEATED (fieldsOf (r.headers ++ r.body.trailer)) :=
  answers_body_via hcb s s h t0 t ha.response (settles_plain s (by rw [ht.method]; exact ha.notConnect) ht.statusNumber
    ha.response.code.1 (by rw [ht.requestHeaders]; exact ha.notRefused)) evs done rest hst hrc
    hal hc ht hel hcl htab hrep hn hfill

/-- What becomes of the transaction `k` that is answered by `r`. -/
def AnswerKept (auto : Bool) (s s' : Conn) (k : Nat) (r : Response) : Prop :=
  if auto then s'.txs.get k = none
  else ∃ t t', s.txs.get k = some t ∧ s'.txs.get k = some t' ∧ RecordsResponse t' r ∧ requestSide t' = requestSide t

theorem Txs.length_erase_lt (k : Nat) (m : List (Nat × Tx)) (h : (Txs.lookup m k).isSome) :
    (Txs.erase k m).length < m.length := by
  obtain ⟨p, hp, hk⟩ := List.mem_map.1 ((Txs.mem_keys_iff m k).2 h)
  unfold Txs.erase
  refine List.length_filter_lt_length_iff_exists.2 ⟨p, hp, ?_⟩
  simp [hk]

theorem occupied_answered {auto : Bool} {s : Conn} {k m : Nat} {t0 : Tx} (t : Tx) (hg : s.txs.get s.txs.response = some t0)
    (hlt : s.txs.response < s.txs.request) {s' : Conn} (hs : s'.txs = answeredTxs auto s.txs t) (ho : Occupied s m) (hk : k = 1) :
    Occupied s' (if auto then m - k else m) := by
  subst hk
  unfold Occupied at ho ⊢
  rw [hs]
  have h1 : (Txs.put s.txs.response t s.txs.map).length = s.txs.map.length :=
    Txs.length_put_of_some _ _ _ ho.1 (by show (s.txs.get _).isSome = true; rw [hg]; rfl)
  have hsort := Txs.sorted_put s.txs.response t s.txs.map ho.1
  unfold answeredTxs
  cases auto with
  | false =>
    refine ⟨hsort, ?_⟩
    show ((s.txs.set s.txs.response t).get s.txs.request = none ∧ (Txs.put s.txs.response t s.txs.map).length ≤ m) ∨
      (((s.txs.set s.txs.response t).get s.txs.request).isSome ∧ (Txs.put s.txs.response t s.txs.map).length ≤ m + 1)
    rw [Txs.get_set, if_neg (by omega), h1]
    exact ho.2
  | true =>
    refine ⟨Txs.sorted_erase _ _ hsort, ?_⟩
    have h2 := Txs.length_erase_lt s.txs.response (Txs.put s.txs.response t s.txs.map)
      (by show ((s.txs.set s.txs.response t).get s.txs.response).isSome = true; rw [Txs.get_set, if_pos rfl]; rfl)
    show (((s.txs.set s.txs.response t).remove s.txs.response).get s.txs.request = none ∧
        (Txs.erase s.txs.response (Txs.put s.txs.response t s.txs.map)).length ≤ m - 1) ∨
      ((((s.txs.set s.txs.response t).remove s.txs.response).get s.txs.request).isSome ∧
        (Txs.erase s.txs.response (Txs.put s.txs.response t s.txs.map)).length ≤ m - 1 + 1)
    rw [Txs.get_remove, if_neg (by omega), Txs.get_set, if_neg (by omega)]
    rcases ho.2 with ⟨a, b⟩ | ⟨a, b⟩
    · exact .inl ⟨a, by omega⟩
    · exact .inr ⟨a, by omega⟩

/-- What one response, or several, do. -/
structure AnswersDone (auto : Bool) (s s' : Conn) (rs : List Response) : Prop where
  between : BetweenResponses s'
  trace : s'.trace = s.trace ++ responseCallbacks s.txs.response rs
  records : ∀ i r, rs[i]? = some r → AnswerKept auto s s' (s.txs.response + i) r
  others : ∀ j, (j < s.txs.response ∨ s.txs.response + rs.length < j ∨
    (j = s.txs.response + rs.length ∧ (s.txs.get j).isSome)) → s'.txs.get j = s.txs.get j
  next : s.txs.get (s.txs.response + rs.length) = none →
    s'.txs.get (s.txs.response + rs.length) = none ∨
    s'.txs.get (s.txs.response + rs.length) = some { index := s.txs.response + rs.length }
  response : s'.txs.response = s.txs.response + rs.length
  request : s'.txs.request = s.txs.request
  req : s'.req = s.req
  count : s'.requestChunkCount = s.requestChunkCount
  occupied : ∀ m, s.txs.response + rs.length ≤ s.txs.request →
    (s.txs.response + rs.length < s.txs.request → (s.txs.get (s.txs.response + rs.length)).isSome) →
    Occupied s m → Occupied s' (if auto then m - rs.length else m)

/-- One response. -/
theorem answers_one {e : Env} (hcb : CallbacksOK e) {r : Response} {s : Conn} (hb : BetweenResponses s) {t0 : Tx}
    (hg : s.txs.get s.txs.response = some t0) (hx : t0.index = s.txs.response) (ha : AnswerableBy t0 r)
    {done rest : Bytes} {q : Nat} (hi : s.input = win done (r.render ++ rest) q)
    (hlim : r.line.length + 2 ≤ e.cfg.fieldLimit) (hn : UpcomingAnswer rest) (hfill : rest = [] ∨ r.Filled) :
    ∃ k s' q', Rounds (responseStep e) k s s' ∧ s'.input = win (done ++ r.render) rest q' ∧
      AnswersDone e.cfg.txAutoDestroy s s' [r] ∧ s'.txs.get (s.txs.response + 1) = s.txs.get (s.txs.response + 1) := by
  have hal : s.resp.status ≠ .tunnel ∧ s.resp.status ≠ .closed ∧ s.resp.status ≠ .dataOther := by
    rcases hb.status with h | h | h <;> rw [h] <;> decide
  obtain ⟨h1, t1, r1, hst1, hrc1, hc1, hh1, hel, hcl, htab, hrep⟩ := answers_head hcb hb hg hx ha hi hlim hn hfill
  have hal1 : Alive h1 := by unfold Alive; rw [hc1.status]; exact ⟨hal.1, hal.2.1⟩
  obtain ⟨k2, h2, t2, q2, r2, hst2, hrc2, hal2, hc2, hh2, henc2, hcod2, hsz2, hel2, htab2⟩ := answers_body hcb s h1 t0 t1 ha
    [.tx .responseStart s.txs.response, .tx .responseLine s.txs.response] (done ++ (r.line ++ [13, 10])) rest
    hst1 hrc1 hal1 hc1 hh1 hel hcl htab hrep hn hfill
  obtain ⟨ml, b, r3⟩ := answer_finalize (e := e) hcb s h2 t2 _ _ rest q2 hst2 hal2 hc2.buf hn hrc2
    (by rw [hc2.status]; exact hal.2.2) hb.notBlocked (by rw [hh2.requestProgress]; exact ha.complete) hh2.progress henc2
    (by rw [hel2]; exact ha.response.length)
  have hget : ∀ t j, (answeredTxs e.cfg.txAutoDestroy s.txs t).get j =
      if j = s.txs.response then (if e.cfg.txAutoDestroy then none else some t) else s.txs.get j := by
    intro t j
    unfold answeredTxs
    cases e.cfg.txAutoDestroy with
    | true =>
      show ((s.txs.set s.txs.response t).remove s.txs.response).get j = _
      rw [Txs.get_remove, Txs.get_set]
      split
      · rfl
      · rfl
    | false =>
      show (s.txs.set s.txs.response t).get j = _
      rw [Txs.get_set]
      rfl
  refine ⟨_, _, q2, r1.append (r2.append (.next r3 (.zero _))), ?_, ?_, ?_⟩
  · show win _ rest q2 = _
    simp [Response.render]
  · refine ⟨⟨rfl, hc2.buf, hc2.header, hrc2, ?_, hb.notBlocked⟩, ?_, ?_, ?_, ?_, ?_, ?_, rfl, rfl, ?_⟩
    · show h2.status = _ ∨ _
      rw [hc2.status]
      exact hb.status
    · show s.trace ++ _ = _
      simp [responseCallbacks, Response.callbacks]
    · intro i r' hi'
      cases i with
      | succ i => cases hi'
      | zero =>
        cases hi'
        unfold AnswerKept
        rw [Nat.add_zero]
        show if _ then (answeredTxs _ s.txs _).get s.txs.response = none else _
        rw [hget, if_pos rfl]
        split
        next ha' => rfl
        next ha' =>
          refine ⟨t0, _, hg, (hget _ _).trans ((if_pos rfl).trans (if_neg ha')), ?_, ?_⟩
          · obtain ⟨p, hp⟩ := ha.response.protocol
            refine ⟨hh2.line, hh2.protocol, ?_, hh2.status, hh2.statusNumber, hh2.message, htab2, hcod2, hsz2, hel2, rfl⟩
            show (r.protocol, t2.responseProtocolNumber) ∈ _
            rw [hh2.protocolNumber, (protocol_facts _ hp).1]
            exact hp
          · exact hh2.same
    · intro j hj
      show (answeredTxs _ s.txs _).get j = _
      rw [hget, if_neg (by simp only [List.length_singleton] at hj; omega)]
    · intro hnone
      left
      show (answeredTxs _ s.txs _).get _ = none
      rw [hget, if_neg (by simp)]
      exact hnone
    · show (answeredTxs e.cfg.txAutoDestroy s.txs _).response = _
      rfl
    · show (answeredTxs e.cfg.txAutoDestroy s.txs _).request = _
      unfold answeredTxs
      cases e.cfg.txAutoDestroy <;> rfl
    · intro m hle _ ho
      exact occupied_answered _ hg hle rfl ho rfl
  · show (answeredTxs _ s.txs _).get _ = _
    rw [hget, if_neg (by omega)]

theorem responseCallbacks_append (as bs : List Response) : ∀ k,
    responseCallbacks k (as ++ bs) = responseCallbacks k as ++ responseCallbacks (k + as.length) bs := by
  induction as with
  | nil => intro k; rfl
  | cons a as ih =>
    intro k
    show _ ++ responseCallbacks (k + 1) (as ++ bs) = (_ ++ responseCallbacks (k + 1) as) ++ _
    rw [ih, List.append_assoc, List.length_cons, Nat.add_assoc, Nat.add_comm 1]

theorem AnswersDone.nil {auto : Bool} {s : Conn} (h : BetweenResponses s) : AnswersDone auto s s [] :=
  ⟨h, (List.append_nil _).symm, (fun _ _ h => by simp at h), fun _ _ => rfl, fun h => .inl h, rfl, rfl, rfl, rfl,
    fun _ _ _ h => by rw [List.length_nil, Nat.sub_zero, ite_self]; exact h⟩

theorem AnswersDone.trans {auto : Bool} {s s1 s2 : Conn} {as bs : List Response} (h1 : AnswersDone auto s s1 as)
    (h2 : AnswersDone auto s1 s2 bs) (hbs : bs ≠ [] → (s.txs.get (s.txs.response + as.length)).isSome) :
    AnswersDone auto s s2 (as ++ bs) := by
  have hk : s1.txs.response + bs.length = s.txs.response + (as ++ bs).length := by
    rw [h1.response, List.length_append]; omega
  refine ⟨h2.between, by rw [h2.trace, h1.trace, responseCallbacks_append, h1.response, List.append_assoc], ?_, ?_, ?_,
    by rw [h2.response, h1.response, List.length_append, Nat.add_assoc], h2.request.trans h1.request, h2.req.trans h1.req,
    h2.count.trans h1.count, ?_⟩
  · intro i r hi
    by_cases hlt : i < as.length
    · rw [List.getElem?_append_left hlt] at hi
      have := h1.records i r hi
      unfold AnswerKept at this ⊢
      rw [h2.others _ (.inl (by rw [h1.response]; omega))]
      exact this
    · rw [List.getElem?_append_right (by omega)] at hi
      have hbs' : bs ≠ [] := by rintro rfl; simp at hi
      have := h2.records _ r hi
      have e1 : s1.txs.response + (i - as.length) = s.txs.response + i := by rw [h1.response]; omega
      rw [e1] at this
      unfold AnswerKept at this ⊢
      rw [h1.others (s.txs.response + i) (by
        rcases Nat.lt_or_ge as.length i with h | h
        · exact .inr (.inl (by omega))
        · have : i = as.length := by omega
          exact .inr (.inr ⟨by omega, by rw [this]; exact hbs hbs'⟩))] at this
      exact this
  · intro j hj
    rw [List.length_append] at hj
    rcases Nat.eq_zero_or_pos bs.length with h0 | h0
    · obtain rfl : bs = [] := List.length_eq_zero_iff.1 h0
      have h3 : s1.txs.get j = s.txs.get j := h1.others j (by simpa using hj)
      rw [← h3]
      refine h2.others j ?_
      rw [h1.response, h3]
      rcases hj with h | h | ⟨h, h'⟩
      · exact .inl (by omega)
      · exact .inr (.inl (by simp at h ⊢; omega))
      · exact .inr (.inr ⟨by simp at h ⊢; omega, h'⟩)
    · have h3 : s1.txs.get j = s.txs.get j := h1.others j (by omega)
      rw [← h3]
      refine h2.others j ?_
      rw [h1.response, h3]
      rcases hj with h | h | ⟨h, h'⟩
      · exact .inl (by omega)
      · exact .inr (.inl (by omega))
      · exact .inr (.inr ⟨by omega, h'⟩)
  · intro hnone
    rw [← hk] at hnone ⊢
    rcases Nat.eq_zero_or_pos bs.length with h0 | h0
    · rw [h0, Nat.add_zero, h1.response] at hnone
      have h4 := h1.next hnone
      rw [h0, Nat.add_zero, h1.response]
      rcases h4 with h4 | h4
      · have := h2.next (by rw [h0, Nat.add_zero, h1.response]; exact h4)
        rwa [h0, Nat.add_zero, h1.response] at this
      · right
        rw [h2.others _ (.inr (.inr ⟨by rw [h0, h1.response]; omega, by rw [h4]; rfl⟩)), h4]
    · have h3 := h1.others (s1.txs.response + bs.length) (.inr (.inl (by rw [h1.response]; omega)))
      exact h2.next (by rw [h3]; exact hnone)
  · intro m hle hsome ho
    have hl : (as ++ bs).length = as.length + bs.length := List.length_append
    rw [hl] at hle hsome
    have h5 := h1.occupied m (by omega) (fun hlt => by
      rcases Nat.eq_zero_or_pos bs.length with h0 | h0
      · rw [h0] at hsome
        exact hsome hlt
      · exact hbs (List.ne_nil_of_length_pos h0)) ho
    have h6 := h2.occupied _ (by rw [h1.response, h1.request]; omega) (fun hlt => by
      rw [h1.response, h1.request] at hlt
      have h7 := hsome (by omega)
      rw [h1.response, Nat.add_assoc, h1.others _ (by
        rcases Nat.eq_zero_or_pos bs.length with h0 | h0
        · exact .inr (.inr ⟨by omega, h7⟩)
        · exact .inr (.inl (by omega)))]
      exact h7) h5
    have h8 : (if auto then (if auto then m - as.length else m) - bs.length else (if auto then m - as.length else m)) =
        if auto then m - (as ++ bs).length else m := by
      rw [hl]
      cases auto
      · rfl
      · show m - _ - _ = m - _
        omega
    rw [h8] at h6
    exact h6

/-- Each of these responses can be the answer to its transaction. -/
def AllAnswerable (s : Conn) (rs : List Response) : Prop :=
  ∀ i r, rs[i]? = some r → ∃ t, s.txs.get (s.txs.response + i) = some t ∧ t.index = s.txs.response + i ∧ AnswerableBy t r

theorem upcoming_responses {s : Conn} (rs : List Response) (k : Nat)
    (h : ∀ i r, rs[i]? = some r → ∃ t, s.txs.get (k + i) = some t ∧ t.index = k + i ∧ AnswerableBy t r) :
    UpcomingAnswer (rs.flatMap Response.render) := by
  cases rs with
  | nil => exact .inl rfl
  | cons r rs =>
    obtain ⟨t, -, -, ha⟩ := h 0 r rfl
    refine .inr ⟨_, r, ha.response, (renderBlock r.headers ++ r.body.render) ++ rs.flatMap Response.render, ?_⟩
    simp [Response.render]

/-- What earlier responses leave alone can still be answered. -/
theorem AllAnswerable.after {auto : Bool} {s s1 : Conn} {as bs : List Response} (h : AllAnswerable s (as ++ bs))
    (h1 : AnswersDone auto s s1 as) : AllAnswerable s1 bs := by
  intro i r hi
  obtain ⟨t, ht, hx, ha⟩ := h (as.length + i) r (by rw [List.getElem?_append_right (by omega)]; simpa using hi)
  rw [← Nat.add_assoc, ← h1.response] at ht hx
  refine ⟨t, ?_, hx, ha⟩
  rw [h1.others (s1.txs.response + i) (by
    rw [h1.response]
    rcases Nat.eq_zero_or_pos i with h0 | h0
    · exact .inr (.inr ⟨by omega, by rw [← h1.response, ht]; rfl⟩)
    · exact .inr (.inl (by omega)))]
  exact ht

/-- Several responses. -/
theorem answers_many {e : Env} (hcb : CallbacksOK e) (rs : List Response) : ∀ {s : Conn} {done : Bytes} {q : Nat},
    (∀ r ∈ rs, r.line.length + 2 ≤ e.cfg.fieldLimit) → BetweenResponses s → AllAnswerable s rs →
    (∀ r ∈ rs.dropLast, r.Filled) →
    s.input = win done (rs.flatMap Response.render) q →
    ∃ k s' q', Rounds (responseStep e) k s s' ∧ s'.input = win (done ++ rs.flatMap Response.render) [] q' ∧
      AnswersDone e.cfg.txAutoDestroy s s' rs := by
  induction rs with
  | nil =>
    intro s done q _ hb _ _ hi
    exact ⟨0, s, q, .zero _, by rw [hi]; simp, .nil hb⟩
  | cons r rs ih =>
    intro s done q hlim hb ha hfill hi
    obtain ⟨t, ht, hx, hat⟩ := ha 0 r rfl
    rw [Nat.add_zero] at ht hx
    obtain ⟨k1, s1, q1, r1, hi1, ha1, -⟩ := answers_one hcb hb ht hx hat (hi.trans (by rw [List.flatMap_cons])) (hlim r (by simp))
      (upcoming_responses rs (s := s) (s.txs.response + 1) (fun i r hi => by
        have := ha (i + 1) r hi
        rwa [← Nat.add_assoc, Nat.add_right_comm] at this))
      (by
        cases rs with
        | nil => exact .inl rfl
        | cons r' rs => exact .inr (hfill r (by simp)))
    have haf : AllAnswerable s1 rs := AllAnswerable.after (as := [r]) ha ha1
    obtain ⟨k2, s2, q2, r2, hi2, ha2⟩ := ih (fun r hr' => hlim r (List.mem_cons_of_mem _ hr')) ha1.between haf
      (fun x hx => hfill x (by
        cases rs with
        | nil => cases hx
        | cons r' rs => rw [List.dropLast_cons_cons]; exact List.mem_cons_of_mem _ hx)) hi1
    refine ⟨_, s2, q2, r1.append r2, by rw [hi2, List.flatMap_cons, List.append_assoc], ha1.trans ha2 ?_⟩
    intro hne
    cases rs with
    | nil => exact absurd rfl hne
    | cons r' rs =>
      obtain ⟨t, ht, -⟩ := ha 1 r' rfl
      rw [List.length_singleton, ht]
      rfl

/-- The end of the data: the parser asks for more. This also holds if the connection has been closed. -/
theorem answers_idle_any {e : Env} {s : Conn} (hb : BetweenResponses { s with resp := { s.resp with status := .data } })
    (hem : s.input.isEmpty = true) (hgap : s.input.isGap = false) :
    ∃ s', responseStep e s = (.ok (some .data), s') ∧ AnswersDone e.cfg.txAutoDestroy s s' [] ∧
      (Txs.Sorted s.txs.map → Txs.Sorted s'.txs.map) := by
  have h1 : handleResponseState e s = (.error (.status .data), s) := by
    rw [hps (show s.resp.state = .idle from hb.state)]
    show responseIdle e s = _
    unfold responseIdle
    rw [M.bind_state, if_pos hem]
    rfl
  have hg : (s.input.isGap && !responseGapState s.resp.state) = false := by rw [hgap]; rfl
  have h2 : responseStep e s = (.ok (some .data), { s with
      input := s.input.callbackData.2, txs := (s.txs.responseMut e.cfg.maxTx).2, resp := { s.resp with status := .data } }) := by
    rw [responseStep_rc hg (M.attempt_error h1)]
    unfold responseStepTail
    rw [M.bind_state]
    dsimp only
    unfold responseAfterStep
    have h3 : ∃ r, M.attempt (responseReceiverSendData e) s = (.ok r, { s with
        input := s.input.callbackData.2, txs := (s.txs.responseMut e.cfg.maxTx).2 }) := by
      cases hq : s.txs.responseMut e.cfg.maxTx with
      | mk o txs =>
      cases o with
      | some t =>
        refine ⟨_, M.attempt_ok (a := ()) ?_⟩
        unfold responseReceiverSendData
        have : responseTx e (.status .error) { s with input := s.input.callbackData.2 } =
            (.ok t, { s with input := s.input.callbackData.2, txs := txs }) := by
          unfold responseTx
          rw [show ({ s with input := s.input.callbackData.2 } : Conn).txs.responseMut e.cfg.maxTx = (some t, txs) from hq]
        rw [M.bind_state, M.bind_modify, M.bind_ok this, (show s.resp.receiver = none from hb.receiver)]
        rfl
      | none =>
        refine ⟨_, M.attempt_error (x := .error) ?_⟩
        unfold responseReceiverSendData
        have : responseTx e (.status .error) { s with input := s.input.callbackData.2 } =
            (.error (.status .error), { s with input := s.input.callbackData.2, txs := txs }) := by
          unfold responseTx
          rw [show ({ s with input := s.input.callbackData.2 } : Conn).txs.responseMut e.cfg.maxTx = (none, txs) from hq]
        rw [M.bind_state, M.bind_modify]
        exact M.bind_error this
    obtain ⟨r, h3⟩ := h3
    rw [M.bind_ok h3]
    rfl
  refine ⟨_, h2, ?_⟩
  have hbt : ∀ inp txs, BetweenResponses { s with input := inp, txs := txs, resp := { s.resp with status := .data } } :=
    fun _ _ => ⟨(show s.resp.state = .idle from hb.state), hb.buf, hb.header, hb.receiver, .inr (.inr rfl), hb.notBlocked⟩
  unfold Txs.responseMut Txs.entry
  cases hq : s.txs.get s.txs.response with
  | some t =>
    exact ⟨⟨hbt _ _, (List.append_nil _).symm, (fun _ _ h => by simp at h), fun _ _ => rfl, fun h => .inl h, rfl, rfl, rfl, rfl,
      fun _ _ _ h => by rw [List.length_nil, Nat.sub_zero, ite_self]; exact h⟩, id⟩
  | none =>
    dsimp only
    split
    · exact ⟨⟨hbt _ _, (List.append_nil _).symm, (fun _ _ h => by simp at h), fun _ _ => rfl, fun h => .inl h, rfl, rfl, rfl, rfl,
        fun _ _ _ h => by rw [List.length_nil, Nat.sub_zero, ite_self]; exact h⟩, id⟩
    · refine ⟨⟨hbt _ _, (List.append_nil _).symm, (fun _ _ h => by simp at h), ?_, ?_, rfl, rfl, rfl, rfl, ?_⟩,
        fun hso => Txs.sorted_put _ _ _ hso⟩
      · intro j hj
        refine (Txs.get_set _ _ _ _).trans (if_neg ?_)
        rintro rfl
        rcases hj with h | h | ⟨-, h⟩
        · omega
        · simp at h
        · rw [hq] at h; cases h
      · intro _
        exact .inr ((Txs.get_set _ _ _ _).trans (if_pos rfl))
      · intro m hle hsome ho
        rw [List.length_nil, Nat.sub_zero, ite_self]
        rw [List.length_nil, Nat.add_zero] at hle hsome
        have heq : s.txs.response = s.txs.request := by
          rcases Nat.lt_or_ge s.txs.response s.txs.request with h | h
          · have := hsome h
            rw [hq] at this
            cases this
          · omega
        refine ⟨Txs.sorted_put _ _ _ ho.1, .inr ⟨?_, ?_⟩⟩
        · show ((s.txs.set s.txs.response _).get s.txs.request).isSome = true
          rw [Txs.get_set, if_pos heq.symm]
          rfl
        · show (Txs.put _ _ _).length ≤ _
          have := Txs.length_put_le s.txs.response { index := s.txs.response } s.txs.map
          rcases ho.2 with ⟨-, h⟩ | ⟨h, -⟩
          · omega
          · rw [← heq, hq] at h; cases h


theorem answers_idle {e : Env} {s : Conn} (hb : BetweenResponses s) {done : Bytes} {q : Nat} (hi : s.input = win done [] q) :
    ∃ s', responseStep e s = (.ok (some .data), s') ∧ AnswersDone e.cfg.txAutoDestroy s s' [] ∧
      (Txs.Sorted s.txs.map → Txs.Sorted s'.txs.map) :=
  answers_idle_any ⟨hb.state, hb.buf, hb.header, hb.receiver, .inr (.inr rfl), hb.notBlocked⟩ (by rw [hi, win_isEmpty]; rfl)
    (by rw [hi]; rfl)

/-- One call with some responses. -/
theorem call_responses {e : Env} (hcb : CallbacksOK e) (rs : List Response) (hne : rs ≠ []) {s : Conn}
    (hlim : ∀ r ∈ rs, r.line.length + 2 ≤ e.cfg.fieldLimit) (hb : BetweenResponses s) (ha : AllAnswerable s rs)
    (hfill : ∀ r ∈ rs.dropLast, r.Filled) :
    ∃ s', responseData e (.ofBytes (rs.flatMap Response.render)) s = (.ok (some .data), s') ∧
      AnswersDone e.cfg.txAutoDestroy s s' rs := by
  have hbytes : rs.flatMap Response.render ≠ [] := by
    cases rs with
    | nil => exact absurd rfl hne
    | cons r rs =>
      obtain ⟨t, -, -, hat⟩ := ha 0 r rfl
      obtain ⟨cs, hc⟩ := response_cons hat.response.head
      simp [Response.render, hc]
  have hst : s.resp.status ≠ .stop ∧ s.resp.status ≠ .error ∧ s.resp.status ≠ .tunnel ∧ s.resp.status ≠ .closed := by
    rcases hb.status with h | h | h <;> rw [h] <;> decide
  rw [responseData_data hbytes hst.1 hst.2.1 hst.2.2.1]
  generalize hb0 : rs.flatMap Response.render = b at hbytes
  have hb1 : BetweenResponses (responseFed b s) := ⟨hb.state, hb.buf, hb.header, hb.receiver, hb.status, hb.notBlocked⟩
  obtain ⟨k, s1, q1, r1, hi1, ha1⟩ := answers_many hcb rs (s := responseFed b s) (done := []) (q := 0) hlim hb1 ha hfill
    (by rw [hb0]; rfl)
  obtain ⟨s2, h2, ha2, -⟩ := answers_idle (e := e) ha1.between hi1
  have hok : RespOK e (responseFed b s) := by
    refine ⟨toPData_wf (.data b), rfl, Nat.zero_le _, fun h => absurd h hst.2.2.2, ?_⟩
    show s.resp.buf.length + (s.resp.header.getD []).length ≤ _
    rw [hb.buf, hb.header]
    exact Nat.zero_le _
  have hk : k < 16 * (b.length + 2 * s.resp.buf.length + 2) := by
    have := (response_rounds e r1 hok).2
    have := respMeasure_lt_rounds (responseFed b s)
    have hx : responseRounds (responseFed b s) = 16 * (b.length + 2 * s.resp.buf.length + 2) := by
      unfold responseRounds
      rw [show (responseFed b s).input.len = b.length from toPData_len (.data b)]
      rfl
    omega
  obtain ⟨N, hN⟩ : ∃ N, 16 * (b.length + 2 * s.resp.buf.length + 2) = k + (N + 1) :=
    ⟨16 * (b.length + 2 * s.resp.buf.length + 2) - k - 1, by omega⟩
  have h3 := ha1.trans ha2 (fun h => absurd rfl h)
  rw [List.append_nil] at h3
  refine ⟨s2, ?_, ⟨h3.between, h3.trace, h3.records, h3.others, h3.next, h3.response, h3.request, h3.req, h3.count, h3.occupied⟩⟩
  rw [hN, responseLoop_rounds _ r1]
  exact responseLoop_some (by omega) h2

end Model
