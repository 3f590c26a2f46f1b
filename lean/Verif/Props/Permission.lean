/-
C82: requests that wait for permission to send their body.
-/
import Verif.Lemmas.Permission
import Verif.Props.Connect
import Verif.Props.Dialogue
import Verif.Props.Expect

namespace Props

open Model Spec

/-- What is recorded of the head is what belongs to the request. -/
theorem recordsHead_side {t t' : Tx} {k n : Nat} {r : Request} (h : RecordsHead t k r n) (hs : requestSide t' = requestSide t) :
    RecordsHead t' k r n := by
  have e1 : t'.index = t.index := by have := congrArg Tx.index hs; exact this
  have e2 : t'.requestLine = t.requestLine := by have := congrArg Tx.requestLine hs; exact this
  have e3 : t'.requestMethod = t.requestMethod := by have := congrArg Tx.requestMethod hs; exact this
  have e4 : t'.requestMethodNumber = t.requestMethodNumber := by have := congrArg Tx.requestMethodNumber hs; exact this
  have e5 : t'.requestUri = t.requestUri := by have := congrArg Tx.requestUri hs; exact this
  have e6 : t'.requestProtocol = t.requestProtocol := by have := congrArg Tx.requestProtocol hs; exact this
  have e7 : t'.requestProtocolNumber = t.requestProtocolNumber := by have := congrArg Tx.requestProtocolNumber hs; exact this
  have e8 : t'.isProtocol09 = t.isProtocol09 := by have := congrArg Tx.isProtocol09 hs; exact this
  have e9 : t'.requestHeaders = t.requestHeaders := by have := congrArg Tx.requestHeaders hs; exact this
  have e10 : t'.requestTransferCoding = t.requestTransferCoding := by have := congrArg Tx.requestTransferCoding hs; exact this
  have e11 : t'.requestContentEncodingProcessing = t.requestContentEncodingProcessing := by
    have := congrArg Tx.requestContentEncodingProcessing hs; exact this
  have e12 : t'.requestEntityLen = t.requestEntityLen := by have := congrArg Tx.requestEntityLen hs; exact this
  have e13 : t'.requestProgress = t.requestProgress := by have := congrArg Tx.requestProgress hs; exact this
  have e14 : t'.requestContentLength = t.requestContentLength := by have := congrArg Tx.requestContentLength hs; exact this
  exact ⟨e1.trans h.index, e2.trans h.line, e3.trans h.method, by rw [e4]; exact h.methodNumber, e5.trans h.uri, e6.trans h.protocol,
    by rw [e7]; exact h.protocolNumber, e8.trans h.notProtocol09, e9.trans h.headers, e10.trans h.coding, e14.trans h.contentLength,
    e11.trans h.noCoding, e12.trans h.bodyLength, e13.trans h.progress⟩

theorem answersTo_append (e : Env) (xs ys : List Op) : ∀ s,
    answersTo e (xs ++ ys) s = answersTo e xs s ++ answersTo e ys (xs.foldl (Op.after e) s) := by
  induction xs with
  | nil => intro s; rfl
  | cons x xs ih => intro s; exact congrArg _ (ih _)

theorem answersTo_responses (e : Env) (cs : List Chunk) : ∀ s, answersTo e (cs.map Op.response) s = responseAnswers e cs s := by
  induction cs with
  | nil => intro s; rfl
  | cons c cs ih => intro s; exact congrArg _ (ih _)

theorem reachable_after {e : Env} {s : Conn} {op : Op} {x : Option StreamState} (h : Reachable e s) (ho : (op.run e s).1 = .ok x) :
    Reachable e (op.after e s) :=
  .call _ x h (Prod.ext ho rfl)

/-- Calls that return lead from one reachable state to another. -/
theorem reachable_feed {e : Env} {x : Option StreamState} (cs : List Chunk) : ∀ {s : Conn}, Reachable e s →
    responseAnswers e cs s = cs.map (fun _ => .ok x) → Reachable e (feedResponse e cs s) := by
  induction cs with
  | nil => intro s h _; exact h
  | cons c cs ih =>
    intro s h ha
    have h1 : ((Op.response c).run e s).1 :: responseAnswers e cs ((Op.response c).after e s) = .ok x :: cs.map (fun _ => .ok x) := ha
    rw [List.cons.injEq] at h1
    exact ih (.call _ x h (Prod.ext h1.1 rfl)) h1.2

theorem methods_plain : ∀ p ∈ methods, p.2 ≠ .connect ∧ (p.1 = b! "HEAD" ↔ p.2 = .head) := by decide +kernel

/-- A response can be given to a request that has not been read to its end. -/
theorem head_answerable {t : Tx} {k n : Nat} {r : Request} (h : RecordsHead t k r n) {a : Response}
    (ha : a.WellFormed (decide (r.method = b! "HEAD"))) :
    t.requestMethodNumber ≠ .connect ∧ a.WellFormed (decide (t.requestMethodNumber = .head)) := by
  obtain ⟨h1, h2⟩ := methods_plain _ h.methodNumber
  refine ⟨h1, ?_⟩
  rw [← decide_eq_decide.2 h2]
  exact ha

theorem betweenResponses_kept {s s' : Conn} (hb : BetweenResponses s)
    (h1 : s'.resp = (if s.resp.status = .dataOther then { s.resp with status := .data } else s.resp))
    (h2 : s'.responseDataOtherAtTxEnd = s.responseDataOtherAtTxEnd) : BetweenResponses s' := by
  have : s'.resp = s.resp := by
    rw [h1, if_neg]
    rcases hb.status with h | h | h <;> rw [h] <;> decide
  exact ⟨by rw [this]; exact hb.state, by rw [this]; exact hb.buf, by rw [this]; exact hb.header, by rw [this]; exact hb.receiver,
    by rw [this]; exact hb.status, h2.trans hb.notBlocked⟩

/-- No more than two transactions have been added. -/
theorem txs_grown {txs txs' : Txs} {k : Nat} (hs : Txs.Sorted txs'.map) (h1 : ∀ j, j < k → txs'.get j = txs.get j)
    (h2 : ∀ j, k + 1 < j → txs'.get j = none) : txs'.map.length ≤ txs.map.length + 2 := by
  have hsub : txs'.map.map (·.1) ⊆ k :: (k + 1) :: txs.map.map (·.1) := by
    intro j hj
    have hj' := (Txs.mem_keys_iff _ _).1 hj
    rcases Nat.lt_or_ge j k with h | h
    · refine List.mem_cons_of_mem _ (List.mem_cons_of_mem _ ((Txs.mem_keys_iff _ _).2 ?_))
      have := h1 j h
      unfold Txs.get at this
      rw [← this]
      exact hj'
    · rcases Nat.lt_or_ge (k + 1) j with h' | h'
      · have := h2 j h'
        unfold Txs.get at this
        rw [this] at hj'
        cases hj'
      · have : j = k ∨ j = k + 1 := by omega
        rcases this with rfl | rfl <;> simp
  have hnd : (txs'.map.map (·.1)).Nodup := hs.imp fun h => Nat.ne_of_lt h
  have := (List.subperm_of_subset hnd hsub).length_le
  simpa using this

/-- C82, the head: a request with a body of a known length, of which the head has come and nothing more. The callbacks of
a request head are run, and the body is awaited. -/
theorem C82_head {e : Env} {s : Conn} (hw : Willing e) (hb : BetweenRequests s) {r : Request} (hr : r.WellFormed) {content : Bytes}
    (hbody : r.body = .sized content) (hne : content ≠ []) (hlimit : r.line.length + 2 ≤ e.cfg.fieldLimit)
    (hroom : s.txs.map.length < e.cfg.maxTx) :
    let call := Op.request (.data r.head)
    let final := call.after e s
    (call.run e s).1 = .ok (some .data) ∧
    final.trace = s.trace ++ connectCallbacks r s.txs.request ∧
    (∃ t, AtBody final t content.length ∧ RecordsHead t s.txs.request r content.length ∧ Unanswered t) ∧
    final.txs.request = s.txs.request ∧ final.txs.response = s.txs.response ∧
    (∀ j, j ≠ s.txs.request → final.txs.get j = s.txs.get j) ∧
    (BetweenResponses s → BetweenResponses final) := by
  obtain ⟨s', t, h1, h2, h3, h4, h5, h6, h7, h8, h9, h10⟩ := call_pauses hw hb hr hbody hne hlimit (fun _ => hroom)
  intro call final
  have hrun : call.run e s = _ := h1
  have hfin : final = s' := congrArg Prod.snd hrun
  rw [hfin]
  exact ⟨by rw [hrun], h2, ⟨t, h3, h4, h5⟩, h6, h7, h8, fun hp => betweenResponses_kept hp h9 h10⟩

/-- C82, permission: interim responses come while the body is awaited, any number of them in any number of calls (as in
C71). The body is still awaited. -/
theorem C82_permission {e : Env} (hcb : CallbacksOK e) (groups : List (List Response)) {s : Conn} {t : Tx} {start : List Event} {k n : Nat}
    {r : Request} (hs : Reachable e s) (h : AtBody s t n) (hq : RecordsHead t k r n) (hk : s.txs.response = s.txs.request)
    (hp : NextStatusLine s t start) (hne : groups ≠ []) (hnes : ∀ g ∈ groups, g ≠ [])
    (hi : ∀ g ∈ groups, ∀ i ∈ g, i.Interim ∧ i.line.length + 2 ≤ e.cfg.fieldLimit)
    (hf : ∀ g ∈ groups, ∀ i ∈ g.dropLast, i.headers ≠ []) :
    let calls := groups.map fun g => Chunk.data (g.flatMap Response.render)
    let final := feedResponse e calls s
    responseAnswers e calls s = groups.map (fun _ => .ok (some .data)) ∧
    final.trace = s.trace ++ (start ++ groups.flatMap (interimCallbacks s.txs.response)) ∧
    (∃ t', AtBody final t' n ∧ RecordsHead t' k r n ∧ AwaitsResponse final t') ∧
    final.txs.response = s.txs.response ∧ final.txs.request = s.txs.request ∧
    (∀ j, j ≠ s.txs.response → final.txs.get j = s.txs.get j) := by
  have hm := (methods_plain _ hq.methodNumber).1
  obtain ⟨h1, h2, ⟨t', h3, h4⟩, h5, h6, h7, h8⟩ := C71_interim_calls_partial hcb groups hs (by rw [hk]; exact h.current) hp
    ⟨by rw [hq.progress]; decide, hm, hq.notProtocol09⟩ hne hnes hi hf
  refine ⟨h1, h2, ⟨t', ⟨⟨?_, ?_, ?_, ?_, ?_, ?_, ?_⟩, ?_, ?_, ?_⟩, recordsHead_side hq h4, h3⟩, h5, h8, h6⟩
  · rw [h7]; exact h.buf
  · rw [h7]; exact h.header
  · rw [h7]; exact h.receiver
  · rw [h7]; exact h.status
  · rw [h8, ← hk, ← h5]; exact h3.current
  · rw [h8, h6 _ (by omega)]; exact h.next
  · intro j hj
    rw [h8] at hj
    rw [h6 _ (by omega)]; exact h.beyond j hj
  · rw [h7]; exact h.state
  · rw [h7]; exact h.length
  · rw [h7]; exact h.left

/-- C82, the body: it comes, and requests may follow it in the same call. The request is recorded as if it had come in one
piece, and its transaction is complete if it has been answered. -/
theorem C82_body {e : Env} {s : Conn} (hs : Reachable e s) (hw : Willing e) {t : Tx} {k : Nat} {r : Request} {content : Bytes}
    (hr : r.WellFormed) (hbody : r.body = .sized content) (hne : content ≠ []) (h : AtBody s t content.length)
    (hq : RecordsHead t k r content.length) (rs : List Request)
    (hrs : ∀ r ∈ rs, r.WellFormed ∧ r.line.length + 2 ≤ e.cfg.fieldLimit) (hroom : s.txs.map.length + rs.length ≤ e.cfg.maxTx) :
    let call := Op.request (.data (content ++ rs.flatMap Request.render))
    let final := call.after e s
    (call.run e s).1 = .ok (some .data) ∧
    final.trace = s.trace ++ (r.body.callbacks s.txs.request ++ [.tx .requestComplete s.txs.request] ++
      (if t.responseProgress = .complete then [.tx .transactionComplete s.txs.request] else []) ++ requestCallbacks (s.txs.request + 1) rs) ∧
    (∃ t', final.txs.get s.txs.request = (if t.responseProgress = .complete ∧ e.cfg.txAutoDestroy then none else some t') ∧
      Records t' k r ∧ responseSide t' = responseSide t) ∧
    (∀ i r, rs[i]? = some r → ∃ t, final.txs.get (s.txs.request + 1 + i) = some t ∧ Records t (s.txs.request + 1 + i) r ∧ Unanswered t) ∧
    (∀ j, j < s.txs.request → final.txs.get j = s.txs.get j) ∧ final.txs.request = s.txs.request + 1 + rs.length ∧
    final.txs.response = s.txs.response ∧ BetweenRequests final ∧ (BetweenResponses s → BetweenResponses final) ∧
    (AwaitsResponse s t → s.txs.response = s.txs.request → ∃ t', AwaitsResponse final t' ∧ Records t' k r) ∧
    (rs = [] → ¬ WholeBodyAhead final.req) := by
  obtain ⟨s', t', h1, h2, h3, h4, h5, h6, h7, h8, h9, h10, h11, h12, h13⟩ := call_body hw rs hrs (reachable_bounded hs).1 hr hbody hne h hq hroom
  intro call final
  have hrun : call.run e s = _ := h1
  have hfin : final = s' := congrArg Prod.snd hrun
  rw [hfin]
  refine ⟨by rw [hrun], h2, ⟨t', h3, h4, h5⟩, h6, h7, h8, h9, h10, fun hp => betweenResponses_kept hp h11 h12, fun hp hk => ?_, h13⟩
  have hsame : s'.resp = s.resp := by rw [h11, if_neg (by rw [hp.status]; decide)]
  have hpr : t.responseProgress ≠ .complete := by rw [hp.progress]; decide
  rw [if_neg (fun h => hpr h.1)] at h3
  have e1 : t'.seen100Continue = t.seen100Continue := by have := congrArg Tx.seen100Continue h5; exact this
  have e2 : t'.responseHeaders = t.responseHeaders := by have := congrArg Tx.responseHeaders h5; exact this
  have e3 : t'.responseHeaderRepetitions = t.responseHeaderRepetitions := by
    have := congrArg Tx.responseHeaderRepetitions h5; exact this
  have e4 : t'.responseContentLength = t.responseContentLength := by have := congrArg Tx.responseContentLength h5; exact this
  have e5 : t'.responseEntityLen = t.responseEntityLen := by have := congrArg Tx.responseEntityLen h5; exact this
  have e6 : t'.responseProgress = t.responseProgress := by have := congrArg Tx.responseProgress h5; exact this
  have e7 : t'.responseHeaderParser = t.responseHeaderParser := by have := congrArg Tx.responseHeaderParser h5; exact this
  exact ⟨t', ⟨by rw [h9, hk]; exact h3, by rw [hsame]; exact hp.state, by rw [hsame]; exact hp.buf, by rw [hsame]; exact hp.header,
    by rw [hsame]; exact hp.status, h12.trans hp.notBlocked, e1.trans hp.seen, e2.trans hp.noHeaders, e3.trans hp.noRepetitions,
    e4.trans hp.noLength, e5.trans hp.noBody, e6.trans hp.progress, e7.trans hp.parser⟩, h4⟩

/-- C82, an early response: the final response comes while the body is awaited, and it is no refusal of a request that
asked for permission. The body is still awaited. -/
theorem C82_early {e : Env} {s : Conn} (hcb : CallbacksOK e) {t : Tx} {n : Nat} {r : Request}
    (h : AtBody s t n) (hq : RecordsHead t s.txs.request r n) (hu : Unanswered t) (hb : BetweenResponses s)
    (hk : s.txs.response = s.txs.request) {a : Response} (ha : a.WellFormed (decide (r.method = b! "HEAD")))
    (hc : t.requestHeaders.getNocase (b! "expect") = none ∨ ¬ (400 ≤ a.code ∧ a.code ≤ 499))
    (hlimit : a.line.length + 2 ≤ e.cfg.fieldLimit) :
    let call := Op.response (.data a.render)
    let final := call.after e s
    (call.run e s).1 = .ok (some .data) ∧
    final.trace = s.trace ++ (a.callbacks s.txs.request).dropLast ∧
    (∃ t', AtBody final t' n ∧ RecordsHead t' s.txs.request r n ∧ RecordsResponse t' a) ∧
    final.txs.response = s.txs.response + 1 ∧ final.txs.request = s.txs.request ∧
    (∀ j, j < s.txs.request → final.txs.get j = s.txs.get j) ∧ BetweenResponses final := by
  obtain ⟨hm, hwf⟩ := head_answerable hq ha
  obtain ⟨s', t', h1, h2, h3, h4, h5, h6, h7, h8, h9, h10, h11, h12⟩ := call_early_answer hcb h.toReads hq.index hq.progress hq.notProtocol09 hm hu
    hb hk hwf hlimit (g := s.req) (fun t1 ht1 hn => heeds_none _ hn (by rw [ht1]; exact hc))
  intro call final
  have hrun : call.run e s = _ := h1
  have hfin : final = s' := congrArg Prod.snd hrun
  rw [hfin]
  refine ⟨by rw [hrun], h2, ⟨t', ⟨⟨?_, ?_, ?_, ?_, ?_, ?_, ?_⟩, ?_, ?_, ?_⟩, recordsHead_side hq h5, h4⟩, h9, h10, h12, h6⟩
  · rw [h11]; exact h.buf
  · rw [h11]; exact h.header
  · rw [h11]; exact h.receiver
  · rw [h11]; exact h.status
  · rw [h10]; exact h3
  · rw [h10]; exact h7
  · rw [h10]; exact h8
  · rw [h11]; exact h.state
  · rw [h11]; exact h.length
  · rw [h11]; exact h.left

/-- C82, a refusal: the request asked for permission, and a 4xx response comes while the body is awaited. The body is not
awaited any more. -/
theorem C82_refused {e : Env} {s : Conn} (hcb : CallbacksOK e) {t : Tx} {n : Nat} {r : Request} (hr : r.WellFormed) (hasks : r.Asks)
    (h : AtBody s t n) (h0 : n ≠ 0) (hq : RecordsHead t s.txs.request r n) (hu : Unanswered t) (hb : BetweenResponses s)
    (hk : s.txs.response = s.txs.request) {a : Response} (ha : a.WellFormed (decide (r.method = b! "HEAD")))
    (hc : 400 ≤ a.code ∧ a.code ≤ 499) (hlimit : a.line.length + 2 ≤ e.cfg.fieldLimit) :
    let call := Op.response (.data a.render)
    let final := call.after e s
    (call.run e s).1 = .ok (some .data) ∧
    final.trace = s.trace ++ (a.callbacks s.txs.request).dropLast ∧
    (∃ t', GivenUp final t' ∧ RecordsHead t' s.txs.request r n ∧ RecordsResponse t' a) ∧
    final.txs.response = s.txs.response + 1 ∧ final.txs.request = s.txs.request ∧
    (∀ j, j < s.txs.request → final.txs.get j = s.txs.get j) ∧ BetweenResponses final := by
  obtain ⟨hm, hwf⟩ := head_answerable hq ha
  obtain ⟨x, hx, hv⟩ := expect_found hr.headers hasks HFlag.FIELD_REPEATED
  obtain ⟨s', t', h1, h2, h3, h4, h5, h6, h7, h8, h9, h10, h11, h12⟩ := call_early_answer hcb h.toReads hq.index hq.progress hq.notProtocol09 hm hu
    hb hk hwf hlimit (g := { s.req with state := .finalize })
    (fun t1 ht1 hn => heeds_refused _ hn hc (by rw [ht1, hq.headers]; exact hx) hv h.length h.left h0)
  intro call final
  have hrun : call.run e s = _ := h1
  have hfin : final = s' := congrArg Prod.snd hrun
  rw [hfin]
  refine ⟨by rw [hrun], h2, ⟨t', ⟨⟨?_, ?_, ?_, ?_, ?_, ?_, ?_⟩, ?_⟩, recordsHead_side hq h5, h4⟩, h9, h10, h12, h6⟩
  · rw [h11]; exact h.buf
  · rw [h11]; exact h.header
  · rw [h11]; exact h.receiver
  · rw [h11]; exact h.status
  · rw [h10]; exact h3
  · rw [h10]; exact h7
  · rw [h10]; exact h8
  · rw [h11]

/-- C82, after a refusal: the client goes on with other requests. The refused request and its transaction are reported
complete, without a body, and the requests are read as they are. -/
theorem C82_next {e : Env} {s : Conn} (hs : Reachable e s) (hw : Willing e) {t : Tx} {k n : Nat} {r : Request} {a : Response}
    (h : GivenUp s t) (hq : RecordsHead t k r n) (hp : RecordsResponse t a) (rs : List Request) (hne : rs ≠ [])
    (hrs : ∀ r ∈ rs, r.WellFormed ∧ r.line.length + 2 ≤ e.cfg.fieldLimit) (hroom : s.txs.map.length + rs.length ≤ e.cfg.maxTx) :
    let call := Op.request (.data (rs.flatMap Request.render))
    let final := call.after e s
    (call.run e s).1 = .ok (some .data) ∧
    final.trace = s.trace ++ (bodyCallbacks s.txs.request none ++
      [.tx .requestComplete s.txs.request, .tx .transactionComplete s.txs.request] ++ requestCallbacks (s.txs.request + 1) rs) ∧
    (∃ t', final.txs.get s.txs.request = (if e.cfg.txAutoDestroy then none else some t') ∧ RecordsRefused t' k r n ∧ RecordsResponse t' a) ∧
    (∀ i r, rs[i]? = some r → ∃ t, final.txs.get (s.txs.request + 1 + i) = some t ∧ Records t (s.txs.request + 1 + i) r ∧ Unanswered t) ∧
    (∀ j, j < s.txs.request → final.txs.get j = s.txs.get j) ∧ final.txs.request = s.txs.request + 1 + rs.length ∧
    final.txs.response = s.txs.response ∧ BetweenRequests final ∧ (BetweenResponses s → BetweenResponses final) := by
  obtain ⟨s', ml, h1, h2, h3, h6, h7, h8, h9, h10, h11, h12⟩ := call_next hw rs hne hrs (reachable_bounded hs).1 h
    (by rw [hq.progress]; decide) hq.notProtocol09 hp.progress hq.coding hq.noCoding (by rw [hq.bodyLength]; decide) hroom
  intro call final
  have hrun : call.run e s = _ := h1
  have hfin : final = s' := congrArg Prod.snd hrun
  rw [hfin]
  refine ⟨by rw [hrun], h2, ⟨_, h3, ?_, ?_⟩, h6, h7, h8, h9, h10, fun hp => betweenResponses_kept hp h11 h12⟩
  · exact ⟨hq.index, hq.line, hq.method, hq.uri, hq.protocol, hq.headers, hq.contentLength, hq.bodyLength, rfl⟩
  · exact ⟨hp.line, hp.protocol, hp.protocolNumber, hp.status, hp.statusNumber, hp.message, hp.headers, hp.coding, hp.contentLength,
      hp.bodyLength, hp.progress⟩

/-- C82, permission denied, from beginning to end: the head of a request that asks for permission, a 4xx response to it,
and further requests. The refused request is over without a body, exactly as much is recorded and reported of it as has
been sent, and the requests after it are read as they are. -/
theorem C82_denied {e : Env} {s : Conn} (hs : Reachable e s) (hw : Willing e) (hb : BetweenRequests s) (hp : BetweenResponses s)
    (hk : s.txs.response = s.txs.request) {r : Request} (hr : r.WellFormed) (hasks : r.Asks) {content : Bytes}
    (hbody : r.body = .sized content) (hne : content ≠ []) (hlimit : r.line.length + 2 ≤ e.cfg.fieldLimit)
    {a : Response} (ha : a.WellFormed (decide (r.method = b! "HEAD")))
    (hc : 400 ≤ a.code ∧ a.code ≤ 499) (halimit : a.line.length + 2 ≤ e.cfg.fieldLimit) (rs : List Request) (hrne : rs ≠ [])
    (hrs : ∀ r ∈ rs, r.WellFormed ∧ r.line.length + 2 ≤ e.cfg.fieldLimit) (hroom : s.txs.map.length + 2 + rs.length ≤ e.cfg.maxTx) :
    let k := s.txs.request
    let calls := [Op.request (.data r.head), .response (.data a.render), .request (.data (rs.flatMap Request.render))]
    let final := calls.foldl (Op.after e) s
    answersTo e calls s = [.ok (some .data), .ok (some .data), .ok (some .data)] ∧
    final.trace = s.trace ++ (connectCallbacks r k ++ (a.callbacks k).dropLast ++ bodyCallbacks k none ++
      [.tx .requestComplete k, .tx .transactionComplete k] ++ requestCallbacks (k + 1) rs) ∧
    (∃ t, final.txs.get k = (if e.cfg.txAutoDestroy then none else some t) ∧ RecordsRefused t k r content.length ∧ RecordsResponse t a) ∧
    (∀ i r, rs[i]? = some r → ∃ t, final.txs.get (k + 1 + i) = some t ∧ Records t (k + 1 + i) r ∧ Unanswered t) ∧
    (∀ j, j < k → final.txs.get j = s.txs.get j) ∧ final.txs.request = k + 1 + rs.length ∧ final.txs.response = k + 1 ∧
    BetweenRequests final ∧ BetweenResponses final := by
  intro k calls final
  have hpos : content.length ≠ 0 := by rw [ne_eq, List.length_eq_zero_iff]; exact hne
  obtain ⟨a1, a2, ⟨t1, a3, a4, a5⟩, a6, a7, a8, a9⟩ := C82_head hw hb hr hbody hne hlimit (by omega)
  have hs1 : Reachable e ((Op.request (.data r.head)).after e s) := .call _ _ hs (Prod.ext a1 rfl)
  generalize h1 : (Op.request (.data r.head)).after e s = s1 at *
  rw [← a6] at a4
  obtain ⟨b1, b2, ⟨t2, b3, b4, b5⟩, b6, b7, b8, b9⟩ := C82_refused hw.callbacks hr hasks a3 hpos a4 a5 (a9 hp) (by rw [a6, a7, hk]) ha hc halimit
  have hs2 : Reachable e ((Op.response (.data a.render)).after e s1) := .call _ _ hs1 (Prod.ext b1 rfl)
  generalize h2 : (Op.response (.data a.render)).after e s1 = s2 at *
  obtain ⟨c1, c2, ⟨t3, c3, c4, c5⟩, c6, c7, c8, c9, c10, c11⟩ := C82_next hs2 hw b3 b4 b5 rs hrne hrs (by
    have := txs_grown (txs := s.txs) (k := k) (reachable_bounded hs2).1 (fun j hj => by
      rw [b8 j (by rw [a6]; exact hj), a8 j (by show j ≠ k; omega)]) (fun j hj => b3.beyond j (by rw [b7, a6]; exact hj))
    omega)
  have hfin : final = (Op.request (.data (rs.flatMap Request.render))).after e s2 := by
    show (Op.request _).after e ((Op.response _).after e ((Op.request _).after e s)) = _
    rw [h1, h2]
  rw [hfin]
  generalize (Op.request (.data (rs.flatMap Request.render))).after e s2 = s3 at *
  have k2 : s2.txs.request = k := b7.trans a6
  rw [k2] at c2 c3 c6 c7 c8
  refine ⟨?_, ?_, ⟨t3, c3, ?_, c5⟩, c6, ?_, c8, ?_, c10, c11 b9⟩
  · show [((Op.request _).run e s).1, ((Op.response _).run e ((Op.request _).after e s)).1,
      ((Op.request _).run e ((Op.response _).after e ((Op.request _).after e s))).1] = _
    rw [h1, h2, a1, b1, c1]
  · rw [c2, b2, a2, a6]
    simp [k]
  · rw [a6] at c4
    exact c4
  · intro j hj
    rw [c7 j hj, b8 j (by rw [a6]; exact hj), a8 j (by omega)]
  · rw [c9, b6, a7, hk]

/-- C82, permission given, from beginning to end: the head of a request, interim responses in any number of calls, the body
and possibly further requests, and the final response. The callbacks of the request and of the response are run with the
interim ones in their place, and the transaction records both as if nothing had come in between. Partial: if the request
asked for permission and other requests follow its body before it is answered, the response is not a 4xx. -/
theorem C82_granted_partial {e : Env} {s : Conn} (hs : Reachable e s) (hw : Willing e) (hb : BetweenRequests s) (hp : BetweenResponses s)
    (hk : s.txs.response = s.txs.request) {r : Request} (hr : r.WellFormed) {content : Bytes}
    (hbody : r.body = .sized content) (hne : content ≠ []) (hlimit : r.line.length + 2 ≤ e.cfg.fieldLimit)
    (groups : List (List Response)) (hgne : groups ≠ []) (hnes : ∀ g ∈ groups, g ≠ [])
    (hi : ∀ g ∈ groups, ∀ i ∈ g, i.Interim ∧ i.line.length + 2 ≤ e.cfg.fieldLimit)
    (hf : ∀ g ∈ groups, ∀ i ∈ g.dropLast, i.headers ≠ []) (rs : List Request)
    (hrs : ∀ r ∈ rs, r.WellFormed ∧ r.line.length + 2 ≤ e.cfg.fieldLimit) (hroom : s.txs.map.length + 2 + rs.length ≤ e.cfg.maxTx)
    {a : Response} (ha : a.WellFormed (decide (r.method = b! "HEAD"))) (halimit : a.line.length + 2 ≤ e.cfg.fieldLimit)
    (hc : (∀ h ∈ r.headers, ¬ EqNocase h.name (b! "expect")) ∨ ¬ (400 ≤ a.code ∧ a.code ≤ 499) ∨ rs = []) :
    let k := s.txs.request
    let calls := Op.request (.data r.head) :: (groups.map fun g => Op.response (.data (g.flatMap Response.render))) ++
      [.request (.data (content ++ rs.flatMap Request.render)), .response (.data a.render)]
    let final := calls.foldl (Op.after e) s
    answersTo e calls s = calls.map (fun _ => .ok (some .data)) ∧
    final.trace = s.trace ++ (connectCallbacks r k ++ (.tx .responseStart k :: groups.flatMap (interimCallbacks k)) ++
      (r.body.callbacks k ++ [.tx .requestComplete k]) ++ requestCallbacks (k + 1) rs ++ (a.callbacks k).tail) ∧
    (if e.cfg.txAutoDestroy then final.txs.get k = none else ∃ t, final.txs.get k = some t ∧ Records t k r ∧ RecordsResponse t a) ∧
    (∀ i r, rs[i]? = some r → ∃ t, final.txs.get (k + 1 + i) = some t ∧ Records t (k + 1 + i) r ∧ Unanswered t) ∧
    (∀ j, j < k → final.txs.get j = s.txs.get j) ∧ final.txs.request = k + 1 + rs.length ∧ final.txs.response = k + 1 ∧
    BetweenResponses final := by
  intro k calls final
  obtain ⟨a1, a2, ⟨t1, a3, a4, a5⟩, a6, a7, a8, a9⟩ := C82_head hw hb hr hbody hne hlimit (by omega)
  have hs1 : Reachable e ((Op.request (.data r.head)).after e s) := .call _ _ hs (Prod.ext a1 rfl)
  generalize h1 : (Op.request (.data r.head)).after e s = s1 at *
  have k1 : s1.txs.response = k := by rw [a7, hk]
  have hn1 : NextStatusLine s1 t1 [.tx .responseStart k] := by
    have := NextStatusLine.between (a9 hp) a5
    rwa [k1] at this
  obtain ⟨b1, b2, ⟨t2, b3, b4, b5⟩, b6, b7, b8⟩ := C82_permission hw.callbacks groups hs1 a3 a4 (by rw [k1, a6]) hn1 hgne hnes hi hf
  rw [k1] at b2 b6 b8
  have hs2 : Reachable e (feedResponse e (groups.map fun g => Chunk.data (g.flatMap Response.render)) s1) :=
    reachable_feed (x := some .data) _ hs1 (by rw [b1, List.map_map]; rfl)
  have h2 : feedResponse e (groups.map fun g => Chunk.data (g.flatMap Response.render)) s1 =
      (groups.map fun g => Op.response (.data (g.flatMap Response.render))).foldl (Op.after e) s1 := by
    unfold feedResponse
    rw [List.foldl_map, List.foldl_map]
  have h2' : answersTo e (groups.map fun g => Op.response (.data (g.flatMap Response.render))) s1 = groups.map (fun _ => .ok (some .data)) := by
    rw [← b1, ← answersTo_responses, List.map_map]
    rfl
  generalize hs2' : feedResponse e (groups.map fun g => Chunk.data (g.flatMap Response.render)) s1 = s2 at *
  have k2 : s2.txs.request = k := by rw [b7, a6]
  obtain ⟨c1, c2, ⟨t3, c3, c4, c5⟩, c6, c7, c8, c9, c10, -, c12, c13⟩ := C82_body hs2 hw hr hbody hne b3 b4 rs hrs (by
    have := txs_grown (txs := s.txs) (k := k) (reachable_bounded hs2).1 (fun j hj => by
      rw [b8 j (by omega), a8 j (by show j ≠ k; omega)]) (fun j hj => b3.beyond j (by rw [k2]; exact hj))
    omega)
  obtain ⟨t4, c14, c15⟩ := c12 b5 (by rw [b6, k2])
  have hs3 : Reachable e ((Op.request (.data (content ++ rs.flatMap Request.render))).after e s2) := .call _ _ hs2 (Prod.ext c1 rfl)
  rw [if_neg (by rw [b5.progress]; decide), List.append_nil] at c2
  generalize h3 : (Op.request (.data (content ++ rs.flatMap Request.render))).after e s2 = s3 at *
  rw [k2] at c2 c3 c6 c7 c8
  have k3 : s3.txs.response = k := by rw [c9, b6]
  obtain ⟨hm, hwf⟩ := methods_plain _ c15.methodNumber
  obtain ⟨d1, d2, d3, d4, d5, d6, d7, d8⟩ := C71_final_response_partial hs3 hw.callbacks c14.current (.waiting c14) (r := a)
    ⟨c15.progress, hm, c15.notProtocol09, by
      rcases hc with h | h | h
      · left
        rw [c15.headers]
        rw [hbody]
        refine lookup_nocase_none (fun x hx => hr.headers x ?_) (fun x hx => h x ?_) _
        all_goals simpa [Body.trailer] using hx
      · exact .inr (.inl h)
      · exact .inr (.inr (c13 h)), by rw [← decide_eq_decide.2 hwf]; exact ha⟩ halimit [] (by simp) (by simp)
  rw [List.flatMap_nil, List.nil_append] at d1 d2 d3 d4 d5 d6 d7 d8
  have hfin : final = (Op.response (.data a.render)).after e s3 := by
    show List.foldl (Op.after e) s (_ :: _ ++ _) = _
    rw [List.cons_append, List.foldl_cons, h1, List.foldl_append, ← h2, List.foldl_cons, h3]
    rfl
  rw [hfin]
  rw [k3] at d2 d3 d4 d5
  generalize (Op.response (.data a.render)).after e s3 = s4 at *
  refine ⟨?_, ?_, ?_, ?_, ?_, d7.trans c8, d4, d8⟩
  · show answersTo e (_ :: _ ++ _) s = _
    rw [List.cons_append]
    show (((Op.request _).run e s).1 :: answersTo e (_ ++ _) ((Op.request _).after e s)) = _
    rw [h1, a1, answersTo_append, ← h2, h2']
    show _ :: (_ ++ [((Op.request _).run e s2).1, ((Op.response _).run e ((Op.request _).after e s2)).1]) = _
    rw [h3, c1, d1]
    simp [calls]
  · rw [d2, c2, b2, a2]
    simp [k]
  · split
    · next h => rwa [if_pos h] at d3
    · next h =>
      rw [if_neg h] at d3
      obtain ⟨t5, e1, e2, e3⟩ := d3
      exact ⟨t5, e1, records_same c15 e3, e2⟩
  · intro i r' hir
    obtain ⟨t, ht, hrt⟩ := c6 i r' hir
    refine ⟨t, ?_, hrt⟩
    rw [d5 _ (by
      rcases Nat.eq_zero_or_pos i with h0 | h0
      · exact .inr (.inr ⟨by omega, by rw [ht]; rfl⟩)
      · exact .inr (.inl (by omega)))]
    exact ht
  · intro j hj
    rw [d5 j (.inl hj), c7 j hj, b8 j (by omega), a8 j (by show j ≠ k; omega)]

/-! ### Concrete cases -/

/-- A request that asks for permission, the same without asking, a refusal, and a request after it. -/
def askingRequest : Request :=
  { method := b! "PUT", uri := b! "/x", protocol := b! "HTTP/1.1"
    headers := [⟨b! "Host", b! " ", b! "a", []⟩, ⟨b! "expect", b! " ", b! "100-continue", []⟩, ⟨b! "Content-Length", b! " ", b! "2", []⟩]
    body := .sized (b! "ok") }
def deniedResponse : Response := { connectRefused with code := 417 }
def laterRequest : Request :=
  { method := b! "GET", uri := b! "/c", protocol := b! "HTTP/1.1", headers := [⟨b! "Host", b! " ", b! "a", []⟩], body := .absent }

theorem askingRequest_wellFormed : askingRequest.WellFormed := by
  refine ⟨⟨.put, by decide +kernel⟩, by decide +kernel, ⟨.v1_1, by decide +kernel⟩, by decide +kernel, ⟨?_, ?_, ?_⟩,
    by decide +kernel, ?_, ?_⟩
  · exact fun h hh => absurd hh.2 ((by decide +kernel : ∀ h ∈ askingRequest.headers, ¬ EqNocase h.name _) h hh.1)
  · exact ⟨⟨b! "Content-Length", b! " ", b! "2", []⟩, by decide +kernel, by decide +kernel⟩
  · exact fun h hh => (by decide +kernel : ∀ h ∈ askingRequest.headers, EqNocase h.name _ → h.value = _) h hh.1 hh.2
  all_goals exact fun h hh => absurd hh.2 ((by decide +kernel : ∀ h ∈ askingRequest.headers, ¬ EqNocase h.name _) h hh.1)

theorem askingRequest_asks : askingRequest.Asks :=
  ⟨[⟨b! "Host", b! " ", b! "a", []⟩], ⟨b! "expect", b! " ", b! "100-continue", []⟩, [⟨b! "Content-Length", b! " ", b! "2", []⟩],
    rfl, by decide +kernel, rfl, by decide +kernel⟩

theorem laterRequest_wellFormed : laterRequest.WellFormed := by
  refine ⟨⟨.get, by decide +kernel⟩, by decide +kernel, ⟨.v1_1, by decide +kernel⟩, by decide +kernel, ⟨?_, ?_⟩,
    by decide +kernel, ?_, ?_⟩
  all_goals exact fun h hh => absurd hh.2 ((by decide +kernel : ∀ h ∈ laterRequest.headers, ¬ EqNocase h.name _) h hh.1)

theorem deniedResponse_wellFormed : deniedResponse.WellFormed false := by
  refine ⟨⟨.v1_1, by decide +kernel⟩, by decide, by decide +kernel, by decide +kernel, ⟨rfl, ?_, ?_, ?_, by decide +kernel⟩,
    by decide +kernel, ?_⟩
  · exact fun h hh => absurd hh.2 ((by decide +kernel : ∀ h ∈ deniedResponse.headers, ¬ EqNocase h.name _) h hh.1)
  · exact ⟨⟨b! "Content-Length", b! " ", b! "2", []⟩, by decide +kernel, by decide +kernel⟩
  · exact fun h hh => (by decide +kernel : ∀ h ∈ deniedResponse.headers, EqNocase h.name _ → h.value = _) h hh.1 hh.2
  · exact fun h hh => absurd hh.2 ((by decide +kernel : ∀ h ∈ deniedResponse.headers, ¬ EqNocase h.name _) h hh.1)

theorem newParser_between : BetweenRequests {} ∧ BetweenResponses {} :=
  ⟨⟨rfl, rfl, rfl, rfl, .inl rfl, .inl rfl, fun _ _ => rfl⟩, ⟨rfl, rfl, rfl, rfl, .inl rfl, rfl⟩⟩

/-- The parser after the head, and after the refusal. -/
def askedPermission : Conn := (Op.request (.data askingRequest.head)).after sampleEnv {}
def deniedPermission : Conn := (Op.response (.data deniedResponse.render)).after sampleEnv askedPermission

/-- Case for C82_head. Its result is the case for C82_permission, C82_body, C82_early and C82_refused. -/
theorem askedPermission_facts : ∀ s, askedPermission = s → Reachable sampleEnv s ∧ BetweenResponses s ∧
    s.txs.request = 0 ∧ s.txs.response = 0 ∧
    ∃ t, AtBody s t 2 ∧ RecordsHead t 0 askingRequest 2 ∧ Unanswered t := by
  obtain ⟨h1, -, h2, h3, h4, -, h5⟩ := C82_head (s := {}) willing_sample newParser_between.1 askingRequest_wellFormed
    (content := b! "ok") rfl (by decide) (by decide +kernel) (by decide)
  have h6 := reachable_after .new h1
  have h7 := h5 newParser_between.2
  clear h1 h5
  unfold askedPermission
  generalize (Op.request (.data askingRequest.head)).after sampleEnv {} = s0 at h2 h3 h4 h6 h7 ⊢
  intro s hs
  subst hs
  exact ⟨h6, h7, h3, h4, h2⟩

/-- Case for C82_refused. Its result is the case for C82_next. -/
theorem deniedPermission_facts : ∀ s, deniedPermission = s → Reachable sampleEnv s ∧
    ∃ t, GivenUp s t ∧ RecordsHead t 0 askingRequest 2 ∧ RecordsResponse t deniedResponse := by
  unfold deniedPermission
  generalize hs0 : askedPermission = s0
  obtain ⟨h1, h2, h3, h4, t, h5, h6, h7⟩ := askedPermission_facts s0 hs0
  have h := C82_refused (e := sampleEnv) (fun _ _ => rfl) askingRequest_wellFormed askingRequest_asks h5 (by decide)
    (by rw [h3]; exact h6) h7 h2 (h4.trans h3.symm) (a := deniedResponse) deniedResponse_wellFormed (by decide) (by decide +kernel)
  obtain ⟨g1, -, g2, -⟩ := h
  rw [h3] at g2
  intro s hs
  subst hs
  exact ⟨reachable_after h1 g1, g2⟩

/-- Case for C82_early: the response is a 200. -/
example : ∀ s, askedPermission = s → ∃ t, AtBody s t 2 ∧ RecordsHead t s.txs.request askingRequest 2 ∧ Unanswered t ∧
    sizedResponse.WellFormed (decide (askingRequest.method = b! "HEAD")) ∧ ¬ (400 ≤ sizedResponse.code ∧ sizedResponse.code ≤ 499) := by
  intro s hs
  obtain ⟨-, -, h3, -, t, h5, h6, h7⟩ := askedPermission_facts s hs
  exact ⟨t, h5, by rw [h3]; exact h6, h7, sizedResponse_wellFormed, by decide⟩

/-- Case for C82_denied: the refusal, and a request after it. -/
example : Reachable sampleEnv {} ∧ Willing sampleEnv ∧ BetweenRequests {} ∧ BetweenResponses {} ∧ askingRequest.WellFormed ∧
    askingRequest.Asks ∧ askingRequest.body = .sized (b! "ok") ∧ askingRequest.line.length + 2 ≤ sampleEnv.cfg.fieldLimit ∧
    deniedResponse.WellFormed (decide (askingRequest.method = b! "HEAD")) ∧ (400 ≤ deniedResponse.code ∧ deniedResponse.code ≤ 499) ∧
    deniedResponse.line.length + 2 ≤ sampleEnv.cfg.fieldLimit ∧
    (∀ r ∈ [laterRequest], r.WellFormed ∧ r.line.length + 2 ≤ sampleEnv.cfg.fieldLimit) ∧
    ({} : Conn).txs.map.length + 2 + [laterRequest].length ≤ sampleEnv.cfg.maxTx := by
  refine ⟨.new, willing_sample, newParser_between.1, newParser_between.2, askingRequest_wellFormed, askingRequest_asks, rfl,
    by decide +kernel, deniedResponse_wellFormed, by decide, by decide +kernel, ?_, by decide⟩
  intro r hr
  rw [List.mem_singleton] at hr
  rw [hr]
  exact ⟨laterRequest_wellFormed, by decide +kernel⟩

/-- Case for C82_granted_partial: permission in two calls, the body, and a 4xx response to it. -/
example : Reachable sampleEnv {} ∧ Willing sampleEnv ∧ BetweenRequests {} ∧ BetweenResponses {} ∧ askingRequest.WellFormed ∧
    (∀ g ∈ [[datedInterim, bareInterim], [datedInterim]], ∀ i ∈ g, i.Interim ∧ i.line.length + 2 ≤ sampleEnv.cfg.fieldLimit) ∧
    (∀ g ∈ [[datedInterim, bareInterim], [datedInterim]], ∀ i ∈ g.dropLast, i.headers ≠ []) ∧
    ({} : Conn).txs.map.length + 2 + ([] : List Request).length ≤ sampleEnv.cfg.maxTx ∧
    deniedResponse.WellFormed (decide (askingRequest.method = b! "HEAD")) ∧
    deniedResponse.line.length + 2 ≤ sampleEnv.cfg.fieldLimit := by
  refine ⟨.new, willing_sample, newParser_between.1, newParser_between.2, askingRequest_wellFormed, ?_, by decide +kernel, by decide,
    deniedResponse_wellFormed, by decide +kernel⟩
  have h1 : datedInterim.line.length + 2 ≤ sampleEnv.cfg.fieldLimit := by decide +kernel
  have h2 : bareInterim.line.length + 2 ≤ sampleEnv.cfg.fieldLimit := by decide +kernel
  intro g hg i hi
  simp only [List.mem_cons, List.not_mem_nil, or_false] at hg
  rcases hg with rfl | rfl
  · simp only [List.mem_cons, List.not_mem_nil, or_false] at hi
    rcases hi with rfl | rfl
    · exact ⟨datedInterim_interim, h1⟩
    · exact ⟨bareInterim_interim, h2⟩
  · simp only [List.mem_cons, List.not_mem_nil, or_false] at hi
    rw [hi]
    exact ⟨datedInterim_interim, h1⟩

end Props
