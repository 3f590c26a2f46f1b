/-
Properties of the end of the response headers: C50.
-/
import Verif.Lemmas.ConnFraming
import Verif.Spec.Chunked

namespace Props

open Model Spec M

/-- C50. After the headers of a response the body is framed by the documented precedence (`Spec.framing`), and what
the parser waits for next, the transfer coding of the transaction and the status of the streams say so
(`Spec.Outcome`), whatever the callbacks do. `te`, `cl` and `ct` are the fields Transfer-Encoding, Content-Length and
Content-Type of the response, if any. -/
theorem C50_framing (e : Env) (s : Conn) (t : Tx) (hs : s.resp.state = .bodyDetermine)
    (ht : s.txs.get s.txs.response = some t) (te cl ct : Option Header)
    (hte : Named t.responseHeaders (b! "transfer-encoding") te)
    (hcl : Named t.responseHeaders (b! "content-length") cl)
    (hct : Named t.responseHeaders (b! "content-type") ct) :
    let after := handleResponseState e s
    ∃ t', after.2.txs.get s.txs.response = some t' ∧ after.2.txs.response = s.txs.response ∧
      Outcome s after.2 t' (framing t te cl ct) ∧
      (framing t te cl ct = .refused → after.1 = .error (.status .error)) ∧
      (CallbacksOK e → framing t te cl ct ≠ .refused → after.1 = .ok ()) := by
  intro after
  obtain ⟨s1, t1, a1, o1, -, -, -, hrun⟩ := responseBodyDetermine_run (e := e) hs ht te cl ct
    (named_eq hte) (named_eq hcl) (named_eq hct)
  have hafter : after = responseBodyDetermine e s := handleResponseState_bodyDetermine hs
  rw [hafter, hrun]
  by_cases h1 : framing t te cl ct = .refused
  · rw [if_pos h1]
    exact ⟨t1, by rw [← a1.1]; exact a1.2, a1.1, o1, fun _ => rfl, fun _ h => absurd h1 h⟩
  · rw [if_neg h1]
    by_cases h2 : framing t te cl ct = .interim
    · rw [if_pos h2]
      exact ⟨t1, by rw [← a1.1]; exact a1.2, a1.1, o1, fun h => absurd h h1, fun _ _ => rfl⟩
    · rw [if_neg h2]
      obtain ⟨r, s2, p1, p2, p3⟩ := stateResponseHeaders_run (e := e) a1.here
      rw [p1]
      have hrs : s2.txs.response = s.txs.response := p2.response.trans a1.1
      obtain ⟨t2, ht2⟩ : ∃ t2, s2.txs.get s2.txs.response = some t2 := by
        rcases p2.here with h | h <;> exact ⟨_, h⟩
      exact ⟨t2, by rw [← hrs]; exact ht2, hrs, (Outcome.sent h2 o1 p2 ht2).1, fun h => absurd h h1,
        fun hcb _ => (p3 hcb).1⟩

/-- C50. The smuggling flag is raised exactly for a chunked response with a Content-Length field, and for a repeated
Content-Length field that counts. -/
theorem C50_smuggling (e : Env) (s : Conn) (t : Tx) (hs : s.resp.state = .bodyDetermine)
    (ht : s.txs.get s.txs.response = some t) (te cl ct : Option Header)
    (hte : Named t.responseHeaders (b! "transfer-encoding") te)
    (hcl : Named t.responseHeaders (b! "content-length") cl)
    (hct : Named t.responseHeaders (b! "content-type") ct) (t' : Tx)
    (ht' : (handleResponseState e s).2.txs.get s.txs.response = some t') :
    isSet t'.flags Flag.REQUEST_SMUGGLING = true ↔
      isSet t.flags Flag.REQUEST_SMUGGLING = true ∨ Ambiguous cl (framing t te cl ct) := by
  obtain ⟨s1, t1, a1, o1, -, -, hfl, hrun⟩ := responseBodyDetermine_run (e := e) hs ht te cl ct
    (named_eq hte) (named_eq hcl) (named_eq hct)
  rw [handleResponseState_bodyDetermine hs, hrun] at ht'
  have h1 : s1.txs.get s.txs.response = some t1 := by rw [← a1.1]; exact a1.2
  by_cases h2 : framing t te cl ct = .refused
  · rw [if_pos h2, h1] at ht'
    cases ht'
    exact hfl
  · rw [if_neg h2] at ht'
    by_cases h3 : framing t te cl ct = .interim
    · rw [if_pos h3, h1] at ht'
      cases ht'
      exact hfl
    · rw [if_neg h3] at ht'
      obtain ⟨r, s2, p1, p2, p3⟩ := stateResponseHeaders_run (e := e) a1.here
      rw [p1] at ht'
      rw [(Outcome.sent h3 o1 p2 (by rw [p2.response, a1.1]; exact ht')).2]
      exact hfl

/-- C50. A response to CONNECT that is not a success lets the request stream go on, unless that has failed. -/
theorem C50_connect_failed (e : Env) (s : Conn) (t : Tx) (hs : s.resp.state = .bodyDetermine)
    (ht : s.txs.get s.txs.response = some t) (hm : t.requestMethodNumber = .connect) (hc : ¬ Code t 200 299)
    (h101 : ¬ Code t 101 101) (hr : s.req.status ≠ .error) :
    (handleResponseState e s).2.req.status = .data := by
  rw [handleResponseState_bodyDetermine hs]
  unfold responseBodyDetermine
  rcases responseConnect_run (e := e) ht with ⟨h1, h2, -⟩ | ⟨h0, s1, hrun, a1, r1, q1, -⟩
  · exact absurd h2 hc
  · rw [M.bind_ok hrun, if_neg (by simp), responseDetermineRest_reqStatus a1.here h101, q1, if_pos hm, if_neg hr]

/-- C50, with C34 and C35: what is known after the round in which the framing is decided, when the callbacks accept
everything and no decompression takes place. -/
theorem C50_next (e : Env) (hcb : CallbacksOK e) (s : Conn) (t : Tx) (hs : s.resp.state = .bodyDetermine)
    (hst : s.resp.status = .open ∨ s.resp.status = .data) (hg : s.input.isGap = false)
    (ht : s.txs.get s.txs.response = some t) (te cl ct : Option Header)
    (hte : Named t.responseHeaders (b! "transfer-encoding") te)
    (hcl : Named t.responseHeaders (b! "content-length") cl)
    (hct : Named t.responseHeaders (b! "content-type") ct)
    (hce : e.cfg.responseDecompressionEnabled = false ∨ Named t.responseHeaders (b! "content-encoding") none)
    (h1 : framing t te cl ct ≠ .refused) (h2 : framing t te cl ct ≠ .upgraded) (h3 : framing t te cl ct ≠ .interim) :
    ∃ s', responseStep e s = (.ok none, s') ∧
      s'.input.data = s.input.data ∧ s'.input.position = s.input.position ∧ s'.txs.response = s.txs.response ∧
      (∀ n, n ≠ 0 → framing t te cl ct = .length n → ReceivingResponse s' n) ∧
      (framing t te cl ct = .untilClose → ReceivingUntilClose s') ∧
      (framing t te cl ct = .chunked → s.resp.buf = [] → AwaitingResponseChunk s') := by
  obtain ⟨s1, t1, a1, o1, hk, hb, -, hrun⟩ := responseBodyDetermine_run (e := e) hs ht te cl ct
    (named_eq hte) (named_eq hcl) (named_eq hct)
  rw [if_neg h1, if_neg h3] at hrun
  obtain ⟨r, s2, p1, p2, p3⟩ := stateResponseHeaders_run (e := e) a1.here
  obtain ⟨rfl, ht2⟩ := p3 hcb
  have hplain := initResponse_plain (cfg := e.cfg) (t := t1)
    (hce.imp id fun h => by rw [(hk h3).headers]; exact named_eq h)
  have o2 := (Outcome.sent h3 o1 p2 ht2).1
  generalize t1.initResponseDecompressors e.cfg = t2 at ht2 hplain o2
  have hstate : s2.resp.state ≠ .headers ∧ s2.resp.status = s.resp.status := by
    generalize framing t te cl ct = f at o2 h1 h2 h3
    cases f with
    | refused => exact absurd rfl h1
    | upgraded => exact absurd rfl h2
    | interim => exact absurd rfl h3
    | connected => exact ⟨by rw [o2.1]; decide, o2.2.1⟩
    | empty => exact ⟨by rw [o2.1]; decide, o2.2.1⟩
    | chunked => exact ⟨by rw [o2.1]; decide, o2.2.1⟩
    | untilClose => exact ⟨by rw [o2.1]; decide, o2.2.1⟩
    | length n =>
      refine ⟨?_, o2.1⟩
      by_cases hn : n = 0
      · rw [o2.2.2.2.1 hn]; decide
      · rw [(o2.2.2.2.2 hn).1]; decide
  have hst2 : s2.resp.status = .open ∨ s2.resp.status = .data := by rw [hstate.2]; exact hst
  have hrecv : s2.resp.receiver = none := by rw [p2.resp]
  refine ⟨_, responseStep_ok (by rw [hg]; rfl)
    ((handleResponseState_bodyDetermine hs).trans (hrun.trans p1))
    (by rcases hst2 with h | h <;> rw [h] <;> decide) (responseHandleStateChange_ok hstate.1), ?_, ?_, ?_, ?_, ?_, ?_⟩
  · show s2.input.data = _
    rw [p2.data.1, a1.input]
  · show s2.input.position = _
    rw [p2.data.2.2, a1.input]
  · show s2.txs.response = _
    rw [p2.response, a1.response]
  · intro n hn hf
    rw [hf] at o2
    obtain ⟨u1, u2, u3⟩ := o2.2.2.2.2 hn
    exact ⟨u1, u2, hst2, hrecv, t2, ht2, u3, hplain⟩
  · intro hf
    rw [hf] at o2
    exact ⟨o2.1, hst2, hrecv, t2, ht2, o2.2.2.2, hplain⟩
  · intro hf hbuf
    rw [hf] at o2 hb
    refine ⟨o2.1, ?_, hst2, hrecv, t2, ht2, o2.2.2.2, hplain⟩
    show ∀ c ∈ s2.resp.buf, _
    rw [p2.resp]
    show ∀ c ∈ s1.resp.buf, _
    rw [(hb (by decide) (by decide) (by decide)).1, hbuf]
    simp

/-- A state the theorems speak about (the headers of a response with a length are complete), and a framing. -/
example :
    let s0 := Conn.history sampleEnv [.open, .request (.data (b! "GET / HTTP/1.1\r\n\r\n"))];
    let s1 := responseFed (b! "HTTP/1.1 200 OK\r\nContent-Length: 9\r\n\r\nabc") s0;
    let s := (responseStep sampleEnv (responseStep sampleEnv (responseStep sampleEnv s1).2).2).2;
    s.resp.state = .bodyDetermine ∧ s.resp.status = .open ∧ s.input.isGap = false ∧
    (s.txs.get s.txs.response).map (fun t => (t.responseStatusNumber, t.responseHeaders.map (·.name))) =
      some (.valid 200, [b! "Content-Length"]) := by
  decide_cbv

example : framing { index := 0, responseStatusNumber := .valid 200 } none
    (some { name := b! "Content-Length", value := b! "9", flags := 0 }) none = .length 9 := by
  have hc : ∀ lo hi, Code { index := 0, responseStatusNumber := .valid 200 } lo hi ↔ lo ≤ 200 ∧ 200 ≤ hi := by
    intro lo hi; simp [Code]
  have hp : parseContentLength (b! "9") = some 9 := by decide +kernel
  unfold framing
  simp [hc, hp]

end Props
