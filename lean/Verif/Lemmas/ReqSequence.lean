/-
One well-formed request after another.
-/
import Verif.Lemmas.ReqRounds
import Verif.Props.Stream

namespace Model

open M Spec Props

theorem _root_.Spec.Unanswered.progress {t : Tx} (h : Unanswered t) : t.responseProgress = .notStarted :=
  congrArg Tx.responseProgress h

/-- What is known when the head of request `k` has been read. -/
structure HeadRead (r : Request) (k : Nat) (t : Tx) : Prop where
  index : t.index = k
  line : t.requestLine = some r.line
  method : t.requestMethod = some r.method
  methodNumber : t.requestMethodNumber = Method.new r.method
  uri : t.requestUri = some r.uri
  protocol : t.requestProtocol = some r.protocol
  protocolNumber : t.requestProtocolNumber = parseProtocol r.protocol
  notProtocol09 : t.isProtocol09 = false
  coding : t.requestTransferCoding = r.body.coding
  contentLength : t.requestContentLength = r.body.size
  encoding : t.requestContentEncodingProcessing = .none
  side : t.requestHeaderParser.side = .request
  unanswered : Unanswered t
  progress : t.requestProgress ≠ .complete

/-- What is known of the request side. -/
structure Between (s : Conn) (h : Half) : Prop where
  buf : h.buf = []
  header : h.header = none
  receiver : h.receiver = none
  status : h.status = s.req.status

theorem follows_headers {r : Request} (hr : r.WellFormed) {rest : Bytes} (hn : Upcoming rest) :
    Follows r.headers (r.body.render ++ rest) := by
  intro h0 c hc
  have hf := hr.framed
  have hno : ∀ n h, ¬ r.Has n h := by
    intro n h hh
    have := hh.1
    rw [h0] at this
    cases this
  unfold Request.Framed at hf
  cases hb : r.body with
  | absent =>
    rw [hb] at hc
    rcases hn with rfl | ⟨r', hr', rest', rfl⟩
    · cases hc
    · obtain ⟨d, ds, hd, hbl⟩ := line_cons hr'
      have : (Body.absent.render ++ (r'.line ++ [13, 10] ++ rest')).head? = some d := by rw [hd]; rfl
      rw [this] at hc
      cases hc
      rintro rfl
      exact hbl (by decide)
  | sized content =>
    rw [hb] at hf
    obtain ⟨-, ⟨h, hh⟩, -⟩ := hf
    exact absurd hh (hno _ h)
  | chunked chunks last trailer =>
    rw [hb] at hf
    obtain ⟨⟨h, hh⟩, -⟩ := hf
    exact absurd hh (hno _ h)

theorem follows_next (hs : List HeaderLine) {rest : Bytes} (hn : Upcoming rest) : Follows hs rest := by
  intro _ c hc
  rcases hn with rfl | ⟨r', hr', rest', rfl⟩
  · cases hc
  · obtain ⟨d, ds, hd, hbl⟩ := line_cons hr'
    have : (r'.line ++ [13, 10] ++ rest').head? = some d := by rw [hd]; rfl
    rw [this] at hc
    cases hc
    rintro rfl
    exact hbl (by decide)

theorem block_ne (hs : List HeaderLine) : renderBlock hs ≠ [] := by
  cases hs <;> simp [renderBlock, HeaderLine.render]

/-- The parser, told that the request began with the current chunk. -/
def noted (s : Conn) : Conn := { s with requestChunkRequestIndex := s.requestChunkCount }

/-- The head of a request is read, whatever its method. -/
theorem rounds_fields {e : Env} (hw : Willing e) {ms : List (Bytes × Method)} [KnownMethods ms] {r : Request}
    (hr : r.WellFormedIn ms) {s : Conn} (hb : BetweenRequests s)
    {done rest : Bytes} {q : Nat} (hi : s.input = win done (r.line ++ [13, 10] ++ (renderBlock r.headers ++ rest)) q)
    (hlim : r.line.length + 2 ≤ e.cfg.fieldLimit)
    (hroom : s.txs.get s.txs.request = none → s.txs.map.length < e.cfg.maxTx) (hn : Follows r.headers rest) :
    ∃ h t q', Rounds (requestStep e) 4 s (rq (noted s) h t
        [.tx .requestStart s.txs.request, .tx .requestUriNormalize s.txs.request, .tx .requestLine s.txs.request,
         .data .requestHeaderData s.txs.request (.ofBytes (renderBlock r.headers)), .tx .requestHeaders s.txs.request]
        (win (done ++ (r.line ++ [13, 10] ++ renderBlock r.headers)) rest q')) ∧
      h.state = .connectCheck ∧ Between s h ∧ HeadRead r s.txs.request t ∧ t.requestEntityLen = 0 ∧
      t.requestHeaders = storedTable HFlag.FIELD_REPEATED (fieldsOf r.headers) ∧
      t.requestHeaderRepetitions = min 64 (extras (fieldsOf r.headers) (fieldsOf r.headers).length) ∧
      t.requestProgress = .headers ∧
      h.bytesConsumed = (done ++ (r.line ++ [13, 10] ++ renderBlock r.headers)).length := by
  have hal : s.req.status ≠ .tunnel ∧ s.req.status ≠ .closed := by
    rcases hb.status with h | h | h | h <;> rw [h] <;> decide
  have hne : r.line ++ [13, 10] ++ (renderBlock r.headers ++ rest) ≠ [] := by simp
  have r1 := round_idle hw.callbacks hb.state hal.1 hb.next hi hne hroom
  rw [hi] at r1
  obtain ⟨raw, u, st, fl, a, b, r2⟩ := round_line hw hr (noted s)
    { s.req with contentLength := none, bodyDataLeft := none, state := .line, statePrevious := .line }
    { index := s.txs.request, requestProgress := .line } [.tx .requestStart s.txs.request] done
    (r.line ++ [13, 10]) (renderBlock r.headers ++ rest) q rfl (by
      show s.req.buf ++ _ = _
      rw [hb.buf]; rfl) (by simp) hb.header hal hlim rfl
  have r3 := (fun {h t evs done rest q} (_ : requestStep e _ = (.ok none, rq (noted s) h t evs (win done rest q))) =>
    round_protocol (e := e) (noted s) h t evs done rest q) r2 rfl rfl hal rfl
  obtain ⟨fl', host, port, auth, ct, r4⟩ := (fun {h t evs done q}
    (_ : requestStep e _ = (.ok none, rq (noted s) h t evs (win done (renderBlock r.headers ++ rest) q))) =>
    round_headers hw hr (noted s) h t evs done (renderBlock r.headers) rest [] r.headers) r3 rfl rfl
    (by
      show s.req.header.getD [] ++ _ = _
      rw [hb.header]; rfl)
    (block_ne _) (fun _ => by
      show s.req.header.getD [] = _
      rw [hb.header]; rfl) rfl hal rfl rfl rfl rfl hn
  have hdone : done ++ (r.line ++ [13, 10]) ++ renderBlock r.headers = done ++ (r.line ++ [13, 10] ++ renderBlock r.headers) := by
    simp
  rw [hdone] at r4
  refine ⟨_, _, _, .next r1 (.next r2 (.next r3 (.next r4 (.zero _)))), rfl,
    ⟨rfl, rfl, rfl, rfl⟩, ⟨rfl, rfl, rfl, rfl, rfl, rfl, rfl, rfl, rfl, rfl, rfl, rfl, rfl,
      by show Progress.headers ≠ .complete; decide⟩, rfl, rfl, rfl, rfl, ?_⟩
  rfl

theorem rounds_head {e : Env} (hw : Willing e) {r : Request} (hr : r.WellFormed) {s : Conn} (hb : BetweenRequests s)
    {done rest : Bytes} {q : Nat} (hi : s.input = win done (r.render ++ rest) q)
    (hlim : r.line.length + 2 ≤ e.cfg.fieldLimit)
    (hroom : s.txs.get s.txs.request = none → s.txs.map.length < e.cfg.maxTx) (hn : Upcoming rest) :
    ∃ h t q', Rounds (requestStep e) 5 s (rq (noted s) h t
        [.tx .requestStart s.txs.request, .tx .requestUriNormalize s.txs.request, .tx .requestLine s.txs.request,
         .data .requestHeaderData s.txs.request (.ofBytes (renderBlock r.headers)), .tx .requestHeaders s.txs.request]
        (win (done ++ (r.line ++ [13, 10] ++ renderBlock r.headers)) (r.body.render ++ rest) q')) ∧
      h.state = .bodyDetermine ∧ Between s h ∧ HeadRead r s.txs.request t ∧ t.requestEntityLen = 0 ∧
      t.requestHeaders = storedTable HFlag.FIELD_REPEATED (fieldsOf r.headers) ∧
      t.requestHeaderRepetitions = min 64 (extras (fieldsOf r.headers) (fieldsOf r.headers).length) := by
  have hren : r.render ++ rest = r.line ++ [13, 10] ++ (renderBlock r.headers ++ (r.body.render ++ rest)) := by
    simp [Request.render]
  obtain ⟨m, hm⟩ := hr.method
  obtain ⟨m0, mc, -⟩ := method_facts _ hm
  dsimp only at m0 mc
  rw [hren] at hi
  obtain ⟨h, t, q', r4, h1, h2, h3, h4, h5, h6, h7, h8⟩ := rounds_fields hw hr hb hi hlim hroom (follows_headers hr hn)
  have hal : h.status ≠ .tunnel ∧ h.status ≠ .closed := by
    rw [h2.status]
    rcases hb.status with h | h | h | h <;> rw [h] <;> decide
  have r5 := round_connectCheck (e := e) (noted s) h t
    [.tx .requestStart s.txs.request, .tx .requestUriNormalize s.txs.request, .tx .requestLine s.txs.request,
         .data .requestHeaderData s.txs.request (.ofBytes (renderBlock r.headers)), .tx .requestHeaders s.txs.request]
    (done ++ (r.line ++ [13, 10] ++ renderBlock r.headers)) (r.body.render ++ rest) q' h1 hal
    (by rw [h3.methodNumber, m0]; exact mc)
  exact ⟨_, _, _, r4.append (.one r5), rfl, ⟨h2.buf, h2.header, h2.receiver, h2.status⟩, h3, h4, h5, h6⟩

/-- The fields are those of the head and of the trailer. -/
def TableRead (r : Request) (t : Tx) : Prop :=
  t.requestHeaders = storedTable HFlag.FIELD_REPEATED (fieldsOf (r.headers ++ r.body.trailer))

/-- The callbacks for the body before the request is over. -/
def bodyRun (k : Nat) : Body → List Event
  | .absent => []
  | .sized content => if content = [] then [] else bodyCallbacks k (some content) ++ bodyCallbacks k none
  | .chunked chunks _ trailer =>
    chunks.flatMap (fun c => bodyCallbacks k (some c.data)) ++
    [.data .requestTrailerData k (.ofBytes (renderBlock trailer)), .tx .requestTrailer k]

theorem rounds_body {e : Env} (hcb : CallbacksOK e) {r : Request} (hr : r.WellFormed) (s : Conn) (h : Half) (t : Tx)
    (evs : List Event) (done rest : Bytes) (q : Nat) (hst : h.state = .bodyDetermine) (hal : Alive h) (hc : Between s h)
    (ht : HeadRead r s.txs.request t) (hel : t.requestEntityLen = 0)
    (htab : t.requestHeaders = storedTable HFlag.FIELD_REPEATED (fieldsOf r.headers))
    (hrep : t.requestHeaderRepetitions = min 64 (extras (fieldsOf r.headers) (fieldsOf r.headers).length))
    (hn : Upcoming rest) :
    ∃ k h' t' q', Rounds (requestStep e) k (rq s h t evs (win done (r.body.render ++ rest) q))
        (rq s h' t' (evs ++ bodyRun s.txs.request r.body) (win (done ++ r.body.render) rest q')) ∧
      h'.state = .finalize ∧ Alive h' ∧ Between s h' ∧ HeadRead r s.txs.request t' ∧
      t'.requestEntityLen = r.body.content.length ∧ TableRead r t' := by
  have hcod := ht.coding
  have hsiz := ht.contentLength
  have hf := hr.framed
  have hlen := hr.length
  unfold Request.Framed at hf
  unfold TableRead
  cases hb : r.body with
  | absent =>
    rw [hb] at hcod
    have r1 := round_determine_absent (e := e) s h t evs done rest q hst hal hcod
    rw [show Body.absent.render ++ rest = rest from rfl, show done ++ Body.absent.render = done from List.append_nil _,
      show evs ++ bodyRun s.txs.request .absent = evs from List.append_nil _]
    refine ⟨1, _, _, _, .one r1, rfl, hal, ⟨hc.buf, hc.header, hc.receiver, hc.status⟩, ht, hel, ?_⟩
    simpa [Body.trailer] using htab
  | sized content =>
    rw [hb] at hcod hsiz hlen
    have htab' : t.requestHeaders = storedTable HFlag.FIELD_REPEATED (fieldsOf (r.headers ++ (Body.sized content).trailer)) := by
      simpa [Body.trailer] using htab
    by_cases h0 : content = []
    · subst h0
      have r1 := round_determine_empty (e := e) s h t evs done rest q hst hal hcod hsiz
      rw [show (Body.sized []).render ++ rest = rest from rfl, show done ++ (Body.sized []).render = done from List.append_nil _,
        show evs ++ bodyRun s.txs.request (.sized []) = evs from List.append_nil _]
      exact ⟨1, _, _, _, .one r1, rfl, hal, ⟨hc.buf, hc.header, hc.receiver, hc.status⟩, ht, hel, htab'⟩
    · have r1 := round_determine_sized (e := e) s h t evs done (content ++ rest) q content.length hst hal hcod hsiz (by
        rw [ne_eq, List.length_eq_zero_iff]; exact h0)
      have r2 := (fun {h t evs done q} (_ : requestStep e _ = (.ok none, rq s h t evs (win done (content ++ rest) q))) =>
        round_identity (e := e) hcb s h t evs done content rest q) r1 rfl hal rfl h0 ht.encoding (by
          show t.requestEntityLen + _ < _
          rw [hel, Nat.zero_add]; exact hlen)
      have hev : bodyRun s.txs.request (.sized content) =
          bodyCallbacks s.txs.request (some content) ++ bodyCallbacks s.txs.request none := if_neg h0
      rw [hev]
      refine ⟨2, _, _, _, .next r1 (.next r2 (.zero _)), rfl, hal, ⟨hc.buf, hc.header, hc.receiver, hc.status⟩, ?_, ?_, htab'⟩
      · exact ⟨ht.index, ht.line, ht.method, ht.methodNumber, ht.uri, ht.protocol, ht.protocolNumber, ht.notProtocol09,
          ht.coding, ht.contentLength, ht.encoding, ht.side, ht.unanswered, by show Progress.body ≠ .complete; decide⟩
      · show t.requestEntityLen + _ = _
        rw [hel, Nat.zero_add]
        rfl
  | chunked chunks last trailer =>
    rw [hb] at hcod hsiz hlen hf
    obtain ⟨-, -, hv, hlast, htr⟩ := hf
    have r1 := round_determine_chunked (e := e) s h t evs done (bytesOf (encoded chunks) ++ (last ++ (renderBlock trailer ++ rest)))
      q hst hal hcod
    obtain ⟨k, b, cl, ml, r2⟩ := (fun {h t evs done q}
      (_ : requestStep e _ = (.ok none, rq s h t evs (win done (bytesOf (encoded chunks) ++ (last ++ (renderBlock trailer ++ rest))) q))) =>
        rounds_chunks (e := e) hcb s chunks hv h t evs done (last ++ (renderBlock trailer ++ rest)) q) r1 rfl rfl hal hc.buf
          ht.encoding (by
          show t.requestEntityLen + _ < _
          rw [hel, Nat.zero_add]; exact hlen)
    have r3 := (fun {h t evs done q k s0} (_ : Rounds (requestStep e) k s0
        (rq s h t evs (win done (last ++ (renderBlock trailer ++ rest)) q))) =>
        round_last (e := e) s h t evs done last (renderBlock trailer ++ rest) q) r2 rfl rfl hal hc.buf hlast
    have r4 := (fun {h t evs done q} (_ : requestStep e _ = (.ok none, rq s h t evs (win done (renderBlock trailer ++ rest) q))) =>
      round_trailer (e := e) hcb trailer htr s h t evs done (renderBlock trailer) rest) r3 rfl
      (by
        show h.header.getD [] ++ _ = _
        rw [hc.header]; rfl)
      (block_ne _) (fun _ => by
        show h.header.getD [] = _
        rw [hc.header]; rfl) rfl hal rfl ht.side (follows_next _ hn)
    have hin : (Body.chunked chunks last trailer).render ++ rest =
      bytesOf (encoded chunks) ++ (last ++ (renderBlock trailer ++ rest)) := by simp [Body.render]
    have hout : done ++ (Body.chunked chunks last trailer).render =
      done ++ bytesOf (encoded chunks) ++ last ++ renderBlock trailer := by simp [Body.render]
    have hev : evs ++ bodyRun s.txs.request (.chunked chunks last trailer) =
      evs ++ (chunks.flatMap fun c => bodyCallbacks s.txs.request (some c.data)) ++
        [.data .requestTrailerData s.txs.request (.ofBytes (renderBlock trailer)), .tx .requestTrailer s.txs.request] := by
      simp [bodyRun]
    rw [hin, hout, hev]
    refine ⟨_, _, _, _, .next r1 (r2.append (.next r3 (.next r4 (.zero _)))), rfl, hal,
      ⟨hc.buf, rfl, rfl, hc.status⟩, ?_, ?_, ?_⟩
    · exact ⟨ht.index, ht.line, ht.method, ht.methodNumber, ht.uri, ht.protocol, ht.protocolNumber, ht.notProtocol09,
          ht.coding, ht.contentLength, ht.encoding, ht.side, ht.unanswered, by show Progress.trailer ≠ .complete; decide⟩
    · show t.requestEntityLen + _ = _
      rw [hel, Nat.zero_add]
      rfl
    · show (List.foldl _ (t.requestHeaders, t.requestHeaderRepetitions) _).1 = _
      have h1 := stored_lines r.headers hr.headers
      have h2 := stored_lines (r.headers ++ trailer) (by
        intro x hx
        rcases List.mem_append.mp hx with hx | hx
        · exact hr.headers x hx
        · exact htr x hx)
      rw [show fieldsOf (r.headers ++ trailer) = fieldsOf r.headers ++ fieldsOf trailer from List.map_append,
        List.foldl_append, h1, ← htab, ← hrep] at h2
      rw [h2, show fieldsOf (r.headers ++ (Body.chunked chunks last trailer).trailer) = fieldsOf r.headers ++ fieldsOf trailer
        from List.map_append]

theorem callbacks_split (r : Request) (k : Nat) (t : Tx) (h : t.requestTransferCoding = r.body.coding) :
    [.tx .requestStart k, .tx .requestUriNormalize k, .tx .requestLine k,
     .data .requestHeaderData k (.ofBytes (renderBlock r.headers)), .tx .requestHeaders k] ++ bodyRun k r.body ++
      ((if t.requestHasBody then bodyCallbacks k none else []) ++ [.tx .requestComplete k]) = requestCallbacks k [r] := by
  have h1 : t.requestHasBody = (match r.body with | .absent => false | _ => true) := by
    unfold Tx.requestHasBody
    rw [h]
    cases r.body <;> rfl
  rw [h1]
  unfold requestCallbacks Request.callbacks requestCallbacks
  cases r.body <;> simp [bodyRun, Body.callbacks]

theorem Txs.length_put_le (k : Nat) (t : Tx) (m : List (Nat × Tx)) : (Txs.put k t m).length ≤ m.length + 1 := by
  induction m with
  | nil => simp [Txs.put]
  | cons p m ih =>
    obtain ⟨i, u⟩ := p
    simp only [Txs.put]
    split
    · simp
    · split
      · simp
      · simp; omega

/-- Everything but what happens to other transactions: what one request, or several, do. -/
structure After (s s' : Conn) (rs : List Request) : Prop where
  between : BetweenRequests s'
  trace : s'.trace = s.trace ++ requestCallbacks s.txs.request rs
  records : ∀ i r, rs[i]? = some r → ∃ t, s'.txs.get (s.txs.request + i) = some t ∧ Records t (s.txs.request + i) r ∧ Unanswered t
  others : ∀ j, j < s.txs.request → s'.txs.get j = s.txs.get j
  request : s'.txs.request = s.txs.request + rs.length
  response : s'.txs.response = s.txs.response
  resp : s'.resp = s.resp
  status : s'.req.status = s.req.status
  count : s'.requestChunkCount = s.requestChunkCount
  blocked : s'.responseDataOtherAtTxEnd = s.responseDataOtherAtTxEnd
  size : s'.txs.map.length ≤ s.txs.map.length + rs.length
  sorted : Txs.Sorted s.txs.map → Txs.Sorted s'.txs.map

/-- One request. -/
theorem rounds_request {e : Env} (hw : Willing e) {r : Request} (hr : r.WellFormed) {s : Conn} (hb : BetweenRequests s)
    {done rest : Bytes} {q : Nat} (hi : s.input = win done (r.render ++ rest) q)
    (hlim : r.line.length + 2 ≤ e.cfg.fieldLimit)
    (hroom : s.txs.get s.txs.request = none → s.txs.map.length < e.cfg.maxTx) (hn : Upcoming rest) :
    ∃ k s' q', Rounds (requestStep e) k s s' ∧ s'.input = win (done ++ r.render) rest q' ∧ After s s' [r] ∧
      s'.txs.get s'.txs.request = none ∧
      ((s.txs.get s.txs.request).isSome → Txs.Sorted s.txs.map → s'.txs.map.length ≤ s.txs.map.length) := by
  have hal : s.req.status ≠ .tunnel ∧ s.req.status ≠ .closed := by
    rcases hb.status with h | h | h | h <;> rw [h] <;> decide
  obtain ⟨h1, t1, q1, r1, hst1, hc1, hh1, hel, htab, hrep⟩ := rounds_head hw hr hb hi hlim hroom hn
  have hal1 : Alive h1 := by unfold Alive; rw [hc1.status]; exact hal
  obtain ⟨k2, h2, t2, q2, r2, hst2, hal2, hc2, hh2, hel2, htab2⟩ := rounds_body hw.callbacks hr (noted s) h1 t1
    [.tx .requestStart s.txs.request, .tx .requestUriNormalize s.txs.request, .tx .requestLine s.txs.request,
     .data .requestHeaderData s.txs.request (.ofBytes (renderBlock r.headers)), .tx .requestHeaders s.txs.request]
    (done ++ (r.line ++ [13, 10] ++ renderBlock r.headers)) rest q1
    hst1 hal1 ⟨hc1.buf, hc1.header, hc1.receiver, hc1.status⟩ hh1 hel htab hrep hn
  obtain ⟨ml, b, dl, r3⟩ := round_finalize (e := e) hw.callbacks (noted s) h2 t2 _
    (done ++ (r.line ++ [13, 10] ++ renderBlock r.headers) ++ r.body.render) rest q2 hst2 hal2 hc2.header
    (by rw [hc2.buf]; exact hn.resumed e _) hc2.receiver
    hh2.progress hh2.notProtocol09 (by rw [hh2.unanswered.progress]; decide) hh2.encoding (by rw [hel2]; exact hr.length)
  refine ⟨_, _, q2, r1.append (r2.append (.next r3 (.zero _))), ?_, ?_, ?_, ?_⟩
  · show win _ rest q2 = _
    simp [Request.render]
  · have hget : ∀ j t, (s.txs.set s.txs.request t).get j = if j = s.txs.request then some t else s.txs.get j :=
      fun j t => Txs.get_set _ _ _ _
    refine ⟨⟨rfl, hc2.buf, hc2.header, hc2.receiver, ?_, .inl ?_, ?_⟩, ?_, ?_, ?_, rfl, rfl, rfl, hc2.status, rfl, rfl, ?_, ?_⟩
    · show h2.status = _ ∨ _
      rw [hc2.status]
      exact hb.status
    · show (s.txs.set s.txs.request _).get (s.txs.request + 1) = none
      rw [hget, if_neg (by omega)]
      exact hb.beyond _ (by omega)
    · intro j hj
      show (s.txs.set s.txs.request _).get j = none
      have hj' : s.txs.request + 1 < j := hj
      rw [hget, if_neg (by omega)]
      exact hb.beyond _ (by omega)
    · show s.trace ++ _ = _
      rw [show (noted s).txs.request = s.txs.request from rfl, callbacks_split r _ t2 hh2.coding]
    · intro i r' hi'
      cases i with
      | succ i => cases hi'
      | zero =>
        cases hi'
        refine ⟨_, (hget _ _).trans (if_pos rfl), ?_⟩
        obtain ⟨m, hm⟩ := hr.method
        obtain ⟨p, hp⟩ := hr.protocol
        refine ⟨⟨hh2.index, hh2.line, hh2.method, ?_, hh2.uri, hh2.protocol, ?_, hh2.notProtocol09, htab2, hh2.coding,
          hh2.contentLength, hel2, rfl⟩, hh2.unanswered⟩
        · show (r.method, t2.requestMethodNumber) ∈ _
          rw [hh2.methodNumber, (method_facts _ hm).1]
          exact hm
        · show (r.protocol, t2.requestProtocolNumber) ∈ _
          rw [hh2.protocolNumber, (protocol_facts _ hp).1]
          exact hp
    · intro j hj
      show (s.txs.set s.txs.request _).get j = _
      rw [hget, if_neg (by omega)]
    · exact Txs.length_put_le _ _ _
    · exact Txs.sorted_put _ _ _
  · show (s.txs.set s.txs.request _).get (s.txs.request + 1) = none
    rw [Txs.get_set, if_neg (by omega)]
    exact hb.beyond _ (by omega)
  · intro hsome hsort
    exact Nat.le_of_eq (Txs.length_put_of_some _ _ _ hsort hsome)

theorem requestCallbacks_append (as bs : List Request) : ∀ k,
    requestCallbacks k (as ++ bs) = requestCallbacks k as ++ requestCallbacks (k + as.length) bs := by
  induction as with
  | nil => intro k; rfl
  | cons a as ih =>
    intro k
    show _ ++ requestCallbacks (k + 1) (as ++ bs) = (_ ++ requestCallbacks (k + 1) as) ++ _
    rw [ih, List.append_assoc, List.length_cons, Nat.add_assoc, Nat.add_comm 1]

theorem After.nil {s : Conn} (h : BetweenRequests s) : After s s [] :=
  ⟨h, (List.append_nil _).symm, (fun _ _ h => by simp at h), fun _ _ => rfl, rfl, rfl, rfl, rfl, rfl, rfl, Nat.le_refl _, id⟩

theorem After.trans {s s1 s2 : Conn} {as bs : List Request} (h1 : After s s1 as) (h2 : After s1 s2 bs) :
    After s s2 (as ++ bs) where
  between := h2.between
  trace := by rw [h2.trace, h1.trace, requestCallbacks_append, h1.request, List.append_assoc]
  records := by
    intro i r hi
    by_cases hlt : i < as.length
    · rw [List.getElem?_append_left hlt] at hi
      obtain ⟨t, ht, hr⟩ := h1.records i r hi
      exact ⟨t, by rw [h2.others _ (by rw [h1.request]; omega), ht], hr⟩
    · rw [List.getElem?_append_right (by omega)] at hi
      obtain ⟨t, ht, hr⟩ := h2.records _ r hi
      have : s1.txs.request + (i - as.length) = s.txs.request + i := by rw [h1.request]; omega
      rw [this] at ht hr
      exact ⟨t, ht, hr⟩
  others := fun j hj => by rw [h2.others j (by rw [h1.request]; omega), h1.others j hj]
  request := by rw [h2.request, h1.request, List.length_append, Nat.add_assoc]
  response := h2.response.trans h1.response
  resp := h2.resp.trans h1.resp
  status := h2.status.trans h1.status
  count := h2.count.trans h1.count
  blocked := h2.blocked.trans h1.blocked
  size := by have := h1.size; have := h2.size; rw [List.length_append]; omega
  sorted := fun h => h2.sorted (h1.sorted h)

/-- `m` transactions other than the one for the next request. -/
def Occupied (s : Conn) (m : Nat) : Prop :=
  Txs.Sorted s.txs.map ∧ ((s.txs.get s.txs.request = none ∧ s.txs.map.length ≤ m) ∨
    ((s.txs.get s.txs.request).isSome ∧ s.txs.map.length ≤ m + 1))

theorem next_of_requests (rs : List Request) (h : ∀ r ∈ rs, r.WellFormed) : Upcoming (rs.flatMap Request.render) := by
  cases rs with
  | nil => exact .inl rfl
  | cons r rs =>
    refine .inr ⟨r, h r (by simp), (renderBlock r.headers ++ r.body.render) ++ rs.flatMap Request.render, ?_⟩
    simp [Request.render]

/-- Several requests. -/
theorem rounds_requests {e : Env} (hw : Willing e) (rs : List Request) : ∀ {s : Conn} {done : Bytes} {q m : Nat},
    (∀ r ∈ rs, r.WellFormed ∧ r.line.length + 2 ≤ e.cfg.fieldLimit) → BetweenRequests s →
    s.input = win done (rs.flatMap Request.render) q → Occupied s m → m + rs.length ≤ e.cfg.maxTx →
    ∃ k s' q', Rounds (requestStep e) k s s' ∧ s'.input = win (done ++ rs.flatMap Request.render) [] q' ∧ After s s' rs ∧
      Occupied s' (m + rs.length) := by
  induction rs with
  | nil =>
    intro s done q m _ hb hi ho _
    exact ⟨0, s, q, .zero _, by rw [hi]; simp, .nil hb, ho⟩
  | cons r rs ih =>
    intro s done q m hr hb hi ho hm
    rw [List.length_cons] at hm
    obtain ⟨hwf, hlim⟩ := hr r (by simp)
    obtain ⟨k1, s1, q1, r1, hi1, ha1, hn1, hl1⟩ := rounds_request hw hwf hb (hi.trans (by rw [List.flatMap_cons])) hlim
      (fun hn => by
        rcases ho.2 with ⟨-, h⟩ | ⟨h, -⟩
        · omega
        · rw [hn] at h; cases h)
      (next_of_requests rs fun r hr' => (hr r (List.mem_cons_of_mem _ hr')).1)
    have ho1 : Occupied s1 (m + 1) := by
      refine ⟨ha1.sorted ho.1, .inl ⟨hn1, ?_⟩⟩
      rcases ho.2 with ⟨-, h⟩ | ⟨h, h'⟩
      · have := ha1.size
        simp at this
        omega
      · have := hl1 h ho.1
        omega
    obtain ⟨k2, s2, q2, r2, hi2, ha2, ho2⟩ := ih (fun r hr' => hr r (List.mem_cons_of_mem _ hr')) ha1.between hi1 ho1
      (by omega)
    refine ⟨_, s2, q2, r1.append r2, by rw [hi2, List.flatMap_cons, List.append_assoc], ha1.trans ha2, ?_⟩
    rw [List.length_cons, show m + (rs.length + 1) = m + 1 + rs.length from by omega]
    exact ho2

/-- The end of the data: the parser asks for more. This also holds if the connection has been closed. -/
theorem step_idle_any {e : Env} {s : Conn} (hb : BetweenRequests { s with req := { s.req with status := .data } }) {m : Nat}
    (hem : s.input.isEmpty = true) (hgap : s.input.isGap = false) (ho : Occupied s m) :
    ∃ s', requestStep e s = (.ok (some .data), s') ∧ BetweenRequests s' ∧ s'.trace = s.trace ∧
      (∀ j, j ≠ s.txs.request → s'.txs.get j = s.txs.get j) ∧ s'.txs.request = s.txs.request ∧
      s'.txs.response = s.txs.response ∧ s'.resp = s.resp ∧ s'.responseDataOtherAtTxEnd = s.responseDataOtherAtTxEnd ∧
      s'.req.status = .data ∧ Occupied s' m := by
  have h1 : handleRequestState e s = (.error (.status .data), s) := by
    rw [hrs (show s.req.state = .idle from hb.state)]
    show requestIdle e s = _
    unfold requestIdle
    rw [M.bind_state, if_pos ⟨hem, .inr hb.buf⟩]
    rfl
  have hg : (s.input.isGap && !requestGapState s.req.state) = false := by rw [hgap]; rfl
  have h2 : requestStep e s = (.ok (some .data), { s with
      input := s.input.callbackData.2, txs := (s.txs.requestMut e.cfg.maxTx).2, req := { s.req with status := .data } }) := by
    rw [requestStep_rc hg (M.attempt_error h1)]
    unfold requestStepTail
    rw [M.bind_state]
    dsimp only
    unfold requestAfterStep
    have h3 : ∃ r, M.attempt (requestReceiverSendData e) s = (.ok r, { s with
        input := s.input.callbackData.2, txs := (s.txs.requestMut e.cfg.maxTx).2 }) := by
      cases hq : s.txs.requestMut e.cfg.maxTx with
      | mk o txs =>
      cases o with
      | some t =>
        refine ⟨_, M.attempt_ok (a := ()) ?_⟩
        unfold requestReceiverSendData
        have : requestTx e (.status .error) { s with input := s.input.callbackData.2 } =
            (.ok t, { s with input := s.input.callbackData.2, txs := txs }) := by
          unfold requestTx
          rw [show ({ s with input := s.input.callbackData.2 } : Conn).txs.requestMut e.cfg.maxTx = (some t, txs) from hq]
        rw [M.bind_state, M.bind_modify, M.bind_ok this, (show s.req.receiver = none from hb.receiver)]
        rfl
      | none =>
        refine ⟨_, M.attempt_error (x := .error) ?_⟩
        unfold requestReceiverSendData
        have : requestTx e (.status .error) { s with input := s.input.callbackData.2 } =
            (.error (.status .error), { s with input := s.input.callbackData.2, txs := txs }) := by
          unfold requestTx
          rw [show ({ s with input := s.input.callbackData.2 } : Conn).txs.requestMut e.cfg.maxTx = (none, txs) from hq]
        rw [M.bind_state, M.bind_modify]
        exact M.bind_error this
    obtain ⟨r, h3⟩ := h3
    rw [M.bind_ok h3]
    rfl
  refine ⟨_, h2, ?_⟩
  unfold Txs.requestMut Txs.entry
  cases hq : s.txs.get s.txs.request with
  | some t =>
    exact ⟨⟨(show s.req.state = .idle from hb.state), hb.buf, hb.header, hb.receiver, .inr (.inr (.inl rfl)), hb.next, hb.beyond⟩, rfl, fun _ _ => rfl, rfl, rfl, rfl,
      rfl, rfl, ho⟩
  | none =>
    dsimp only
    split
    · exact ⟨⟨(show s.req.state = .idle from hb.state), hb.buf, hb.header, hb.receiver, .inr (.inr (.inl rfl)), hb.next, hb.beyond⟩, rfl, fun _ _ => rfl, rfl, rfl, rfl,
        rfl, rfl, ho⟩
    · refine ⟨⟨(show s.req.state = .idle from hb.state), hb.buf, hb.header, hb.receiver, .inr (.inr (.inl rfl)), .inr ?_, ?_⟩, rfl, ?_, rfl, rfl, rfl,
        rfl, rfl, Txs.sorted_put _ _ _ ho.1, .inr ⟨?_, ?_⟩⟩
      · exact (Txs.get_set _ _ _ _).trans (if_pos rfl)
      · intro j (hj : s.txs.request < j)
        exact (Txs.get_set _ _ _ _).trans ((if_neg (by omega)).trans (hb.beyond j hj))
      · intro j hj
        exact (Txs.get_set _ _ _ _).trans (if_neg hj)
      · show ((s.txs.set _ _).get s.txs.request).isSome = true
        rw [Txs.get_set, if_pos rfl]; rfl
      · show (Txs.put _ _ _).length ≤ _
        have := Txs.length_put_le s.txs.request { index := s.txs.request } s.txs.map
        rcases ho.2 with ⟨-, h⟩ | ⟨h, -⟩
        · omega
        · rw [hq] at h; cases h


theorem step_idle {e : Env} {s : Conn} (hb : BetweenRequests s) {done : Bytes} {q m : Nat} (hi : s.input = win done [] q)
    (ho : Occupied s m) :
    ∃ s', requestStep e s = (.ok (some .data), s') ∧ BetweenRequests s' ∧ s'.trace = s.trace ∧
      (∀ j, j ≠ s.txs.request → s'.txs.get j = s.txs.get j) ∧ s'.txs.request = s.txs.request ∧
      s'.txs.response = s.txs.response ∧ s'.resp = s.resp ∧ s'.responseDataOtherAtTxEnd = s.responseDataOtherAtTxEnd ∧
      s'.req.status = .data ∧ Occupied s' m :=
  step_idle_any ⟨hb.state, hb.buf, hb.header, hb.receiver, .inr (.inr (.inl rfl)), hb.next, hb.beyond⟩ (by rw [hi, win_isEmpty]; rfl)
    (by rw [hi]; rfl) ho

/-- What a call, or several, do. -/
structure Done (s s' : Conn) (rs : List Request) : Prop where
  between : BetweenRequests s'
  trace : s'.trace = s.trace ++ requestCallbacks s.txs.request rs
  records : ∀ i r, rs[i]? = some r → ∃ t, s'.txs.get (s.txs.request + i) = some t ∧ Records t (s.txs.request + i) r ∧ Unanswered t
  others : ∀ j, j < s.txs.request → s'.txs.get j = s.txs.get j
  request : s'.txs.request = s.txs.request + rs.length
  response : s'.txs.response = s.txs.response
  resp : s'.resp = (if rs ≠ [] ∧ s.resp.status = .dataOther then { s.resp with status := .data } else s.resp)
  blocked : s'.responseDataOtherAtTxEnd = s.responseDataOtherAtTxEnd

/-- One call with some requests. -/
theorem call_requests {e : Env} (hw : Willing e) (rs : List Request) (hne : rs ≠ []) {s : Conn} {m : Nat}
    (hr : ∀ r ∈ rs, r.WellFormed ∧ r.line.length + 2 ≤ e.cfg.fieldLimit) (hb : BetweenRequests s)
    (ho : Occupied s m) (hm : m + rs.length ≤ e.cfg.maxTx) :
    ∃ s', requestData e (.ofBytes (rs.flatMap Request.render)) s = (.ok (some .data), s') ∧ Done s s' rs ∧
      Occupied s' (m + rs.length) := by
  have hbytes : rs.flatMap Request.render ≠ [] := by
    cases rs with
    | nil => exact absurd rfl hne
    | cons r rs =>
      obtain ⟨c, cs, hc, -⟩ := line_cons (hr r (by simp)).1
      simp [Request.render, hc]
  have hst : s.req.status ≠ .stop ∧ s.req.status ≠ .error ∧ s.req.status ≠ .tunnel ∧ s.req.status ≠ .closed := by
    rcases hb.status with h | h | h | h <;> rw [h] <;> decide
  rw [requestData_data hbytes hst.1 hst.2.1 hst.2.2.1]
  generalize hb0 : rs.flatMap Request.render = b at hbytes
  have hb1 : BetweenRequests (requestFed b s) := ⟨hb.state, hb.buf, hb.header, hb.receiver, hb.status, hb.next, hb.beyond⟩
  obtain ⟨k, s1, q1, r1, hi1, ha1, ho1⟩ := rounds_requests hw rs (s := requestFed b s) (done := []) (q := 0) hr hb1
    (by rw [hb0]; rfl) ho hm
  obtain ⟨s2, h2, hb2, htr2, hot2, hq2, hp2, hs2, hbl2, -, ho2⟩ := step_idle (e := e) ha1.between hi1 ho1
  have hok : ReqOK e (requestFed b s) := by
    refine ⟨toPData_wf (.data b), rfl, Nat.zero_le _, fun h => absurd h hst.2.2.2, ?_⟩
    show s.req.buf.length + (s.req.header.getD []).length ≤ _
    rw [hb.buf, hb.header]
    exact Nat.zero_le _
  have hk : k < 16 * (b.length + 2 * s.req.buf.length + 2) := by
    have := (request_rounds e r1 hok).2
    have := reqMeasure_lt_rounds (requestFed b s)
    have hx : requestRounds (requestFed b s) = 16 * (b.length + 2 * s.req.buf.length + 2) := by
      unfold requestRounds
      rw [show (requestFed b s).input.len = b.length from toPData_len (.data b)]
      rfl
    omega
  refine ⟨s2, (C32_loop e _ _ _ (by simp)).mpr ⟨k, s1, hk, r1, h2⟩, ⟨hb2, ?_, ?_, ?_, ?_, ?_, ?_, hbl2.trans ha1.blocked⟩, ho2⟩
  · rw [htr2, ha1.trace]; rfl
  · intro i r hir
    obtain ⟨t, ht, hrt⟩ := ha1.records i r hir
    refine ⟨t, ?_, hrt⟩
    have : i < rs.length := by
      rcases Nat.lt_or_ge i rs.length with h | h
      · exact h
      · rw [List.getElem?_eq_none h] at hir; cases hir
    rw [hot2 _ (by rw [ha1.request]; show s.txs.request + i ≠ s.txs.request + _; omega)]
    exact ht
  · intro j hj
    rw [hot2 _ (by rw [ha1.request]; show j ≠ s.txs.request + _; omega), ha1.others j hj]
    rfl
  · rw [hq2, ha1.request]; rfl
  · rw [hp2, ha1.response]; rfl
  · rw [hs2, ha1.resp]
    show (if s.resp.status = .dataOther then _ else _) = _
    simp [hne]

end Model
