/-
The exchange of HTTP/0.9 (C79).
-/
import Verif.Lemmas.Simple
import Verif.Props.Answer

namespace Props

open Model Spec

/-- The pieces of the line, one call each. -/
theorem simple_pieces {e : Env} (hw : Willing e) {r : SimpleRequest} (hr : r.WellFormed)
    (hlim : r.line.length + 2 ≤ e.cfg.fieldLimit) {s0 : Conn} (hb0 : BetweenRequests s0) (hn0 : s0.resp.status ≠ .dataOther)
    (hroom : s0.txs.get s0.txs.request = none → s0.txs.map.length < e.cfg.maxTx) (pieces : List Bytes) :
    ∀ {s : Conn} {p : Bytes}, (∀ b ∈ pieces, b ≠ []) → pieces ≠ [] → p ++ pieces.flatten = r.render → Asking s0 p s →
    requestAnswers e (pieces.map .data) s = pieces.map (fun _ => .ok (some .data)) ∧
    Asked09 s0 r (feedRequest e (pieces.map .data) s) := by
  induction pieces with
  | nil => intro s p _ h; exact absurd rfl h
  | cons b bs ih =>
    intro s p hne _ hp ha
    rw [List.flatten_cons, ← List.append_assoc] at hp
    obtain ⟨s1, h1, h2, h3⟩ := line_call hw hr hlim hb0 hn0 hroom hp (hne b (by simp)) ha
    have hrun : (Op.request (.data b)).run e s = (.ok (some .data), s1) := h1
    have hafter : (Op.request (.data b)).after e s = s1 := congrArg Prod.snd hrun
    have hfeed : feedRequest e ((b :: bs).map .data) s = feedRequest e (bs.map .data) s1 := by
      show feedRequest e (bs.map .data) ((Op.request (.data b)).after e s) = _
      rw [hafter]
    have hans : requestAnswers e ((b :: bs).map .data) s = .ok (some .data) :: requestAnswers e (bs.map .data) s1 := by
      show ((Op.request _).run e s).1 :: requestAnswers e (bs.map .data) ((Op.request _).after e s) = _
      rw [hafter, hrun]
    rw [hfeed, hans]
    by_cases hbs : bs = []
    · subst hbs
      exact ⟨rfl, h3 rfl⟩
    · have hfl : bs.flatten ≠ [] := by
        cases bs with
        | nil => exact absurd rfl hbs
        | cons c cs => simp [hne c (by simp)]
      obtain ⟨i1, i2⟩ := ih (fun x hx => hne x (by simp [hx])) hbs hp (h2 hfl)
      exact ⟨by rw [i1]; rfl, i2⟩

/-- The calls after it. -/
theorem simple_calls {e : Env} (hcb : CallbacksOK e) {r : SimpleRequest} {s0 : Conn} (ops : List Op) :
    ∀ {s : Conn} {fed : List Bytes} {extra : Bool}, (∀ op ∈ ops, SimpleCall op) →
    (fed ++ respondedIn ops).flatten.length < 2 ^ 64 → Served s0 r fed extra s →
    answersTo e ops s = ops.map (fun _ => .ok (some .data)) ∧
    Served s0 r (fed ++ respondedIn ops) (extra || !(requestedIn ops).isEmpty) (ops.foldl (Op.after e) s) := by
  induction ops with
  | nil =>
    intro s fed extra _ _ h
    refine ⟨rfl, ?_⟩
    have e1 : (extra || !(requestedIn []).isEmpty) = extra := by simp [requestedIn]
    rw [e1]
    simpa [respondedIn] using h
  | cons op ops ih =>
    intro s fed extra hc hlen h
    cases hc op (by simp) with
    | @request b hb =>
      obtain ⟨s1, h1, h2⟩ := served_request (e := e) hb h
      have hrun : (Op.request (.data b)).run e s = (.ok (some .data), s1) := h1
      have hafter : Op.after e s (Op.request (.data b)) = s1 := congrArg Prod.snd hrun
      obtain ⟨i1, i2⟩ := ih (fun x hx => hc x (by simp [hx])) hlen h2
      refine ⟨?_, ?_⟩
      · show ((Op.request _).run e s).1 :: answersTo e ops (Op.after e s (Op.request _)) = _
        rw [hafter, hrun, i1]
        rfl
      · rw [List.foldl_cons, hafter]
        have e1 : (extra || !(requestedIn (.request (.data b) :: ops)).isEmpty) = (true || !(requestedIn ops).isEmpty) := by
          simp [requestedIn]
        rw [e1]
        exact i2
    | @response b hb =>
      obtain ⟨s1, h1, h2⟩ := served_response (e := e) hcb hb (by
        have : (fed ++ b :: respondedIn ops).flatten.length < 2 ^ 64 := hlen
        simp only [List.flatten_append, List.flatten_cons, List.length_append, List.flatten_nil, List.append_nil] at this ⊢
        omega) h
      have hrun : (Op.response (.data b)).run e s = (.ok (some .data), s1) := h1
      have hafter : Op.after e s (Op.response (.data b)) = s1 := congrArg Prod.snd hrun
      have e2 : fed ++ respondedIn (.response (.data b) :: ops) = fed ++ [b] ++ respondedIn ops := by simp [respondedIn]
      rw [e2] at hlen
      obtain ⟨i1, i2⟩ := ih (fun x hx => hc x (by simp [hx])) hlen h2
      refine ⟨?_, ?_⟩
      · show ((Op.response _).run e s).1 :: answersTo e ops (Op.after e s (Op.response _)) = _
        rw [hafter, hrun, i1]
        rfl
      · rw [List.foldl_cons, hafter, e2]
        exact i2

/-- C79, the request: a request of HTTP/0.9, cut into calls in any way, to a parser that is between two requests. Every call
is answered with "more data". The callbacks for a request line are run and the one that says that the request is complete;
the transaction records the method and the URI, no protocol and no header fields. -/
theorem C79_request {e : Env} {s : Conn} (hs : Reachable e s) (hw : Willing e) (hb : BetweenRequests s)
    (hother : s.resp.status ≠ .dataOther) {r : SimpleRequest} (hr : r.WellFormed)
    (hlimit : r.line.length + 2 ≤ e.cfg.fieldLimit) (hroom : s.txs.map.length < e.cfg.maxTx)
    {pieces : List Bytes} (hne : ∀ p ∈ pieces, p ≠ []) (hp : pieces.flatten = r.render) :
    let final := feedRequest e (pieces.map .data) s
    requestAnswers e (pieces.map .data) s = pieces.map (fun _ => .ok (some .data)) ∧
    final.trace = s.trace ++ simpleCallbacks s.txs.request ∧
    (∃ t, final.txs.get s.txs.request = some t ∧ RecordsSimple t s.txs.request r ∧ Unanswered t) ∧
    final.txs.request = s.txs.request + 1 ∧ final.txs.response = s.txs.response ∧ final.resp = s.resp ∧
    (∀ j, j < s.txs.request → final.txs.get j = s.txs.get j) := by
  intro final
  have hpn : pieces ≠ [] := by
    rintro rfl
    simp [SimpleRequest.render] at hp
  obtain ⟨h1, h2⟩ := simple_pieces hw hr hlimit hb hother (fun _ => hroom) pieces hne hpn (s := s) (p := []) (by simpa using hp)
    ⟨rfl, rfl, rfl, fun _ _ => rfl, rfl, (reachable_bounded hs).1, rfl, hb.header, hb.receiver, hb.buf, .inl ⟨rfl, rfl⟩⟩
  exact ⟨h1, h2.trace, h2.tx, h2.request, h2.response, h2.resp, fun j hj => h2.others j (by omega) (by omega)⟩

/-- C79, the answer and the end of the connection. After the line come calls with data from either side, in any order. All
are answered with "more data". What the client sends is ignored, except that the connection is marked; what the server
sends is all body: it is handed out call by call as it came, after one callback that says that a response starts.
Closing the connection completes the response and the transaction, if anything came; the transaction records the length of
the body. (Incomplete transactions are not to be reported, as in `C67_until_close`.) -/
theorem C79_exchange {e : Env} {s : Conn} (hs : Reachable e s) (hw : Willing e) (hb : BetweenRequests s)
    (hb' : BetweenResponses s) (hk : s.txs.response = s.txs.request) {r : SimpleRequest} (hr : r.WellFormed)
    (hlimit : r.line.length + 2 ≤ e.cfg.fieldLimit) (hroom : s.txs.map.length < e.cfg.maxTx)
    {pieces : List Bytes} (hne : ∀ p ∈ pieces, p ≠ []) (hp : pieces.flatten = r.render)
    {ops : List Op} (hops : ∀ op ∈ ops, SimpleCall op) (hfit : (respondedIn ops).flatten.length < 2 ^ 64) :
    let asked := feedRequest e (pieces.map .data) s
    let final := ops.foldl (Op.after e) asked
    let k := s.txs.request
    answersTo e ops asked = ops.map (fun _ => .ok (some .data)) ∧
    final.trace = s.trace ++ simpleCallbacks k ++ simpleAnswer k (respondedIn ops) ∧
    (∃ t, final.txs.get k = some t ∧ RecordsSimple t k r ∧ t.responseEntityLen = (respondedIn ops).flatten.length) ∧
    final.connFlags = (if requestedIn ops = [] then s.connFlags else setFlag s.connFlags ConnFlag.HTTP_0_9_EXTRA) ∧
    (e.cfg.flushIncomplete = false → ∃ s', closeConn e final = (.ok (some .data, some .data), s') ∧
      s'.trace = final.trace ++
        (if respondedIn ops = [] then [] else [.tx .responseComplete k, .tx .transactionComplete k]) ∧
      (if respondedIn ops ≠ [] ∧ e.cfg.txAutoDestroy = true then s'.txs.get k = none
       else ∃ t, s'.txs.get k = some t ∧ RecordsSimple t k r ∧ t.responseEntityLen = (respondedIn ops).flatten.length ∧
        (t.responseProgress = .complete ↔ respondedIn ops ≠ []))) := by
  intro asked final k
  have hother : s.resp.status ≠ .dataOther := by rcases hb'.status with h | h | h <;> rw [h] <;> decide
  have hpn : pieces ≠ [] := by
    rintro rfl
    simp [SimpleRequest.render] at hp
  obtain ⟨-, h2⟩ := simple_pieces hw hr hlimit hb hother (fun _ => hroom) pieces hne hpn (s := s) (p := []) (by simpa using hp)
    ⟨rfl, rfl, rfl, fun _ _ => rfl, rfl, (reachable_bounded hs).1, rfl, hb.header, hb.receiver, hb.buf, .inl ⟨rfl, rfl⟩⟩
  have h3 : Served s r [] false asked := by
    obtain ⟨t, ht, htr, htu⟩ := h2.tx
    have u1 : t.responseEntityLen = 0 := congrArg Tx.responseEntityLen htu
    have u2 : t.responseContentEncodingProcessing = .none := congrArg Tx.responseContentEncodingProcessing htu
    have u3 : t.responseProgress = .notStarted := congrArg Tx.responseProgress htu
    refine ⟨h2.state, h2.receiver, h2.status, h2.buf, h2.request, h2.response.trans hk, h2.others,
      h2.blocked.trans hb'.notBlocked, h2.sorted, ?_, ?_, .inl ⟨rfl, ?_⟩, ⟨t, ht, htr, u1, u2, by rw [u3]; decide⟩⟩
    · rw [h2.trace]
      simp [simpleAnswer]
    · rw [if_neg (by simp)]
      exact h2.flags (by omega)
    · exact ⟨by rw [h2.resp]; exact hb'.state, by rw [h2.resp]; exact hb'.buf, by rw [h2.resp]; exact hb'.header,
        by rw [h2.resp]; exact hb'.receiver, by rw [h2.resp]; exact hb'.status, h2.blocked.trans hb'.notBlocked⟩
  obtain ⟨h4, h5⟩ := simple_calls (e := e) hw.callbacks ops hops (by simpa using hfit) h3
  rw [List.nil_append] at h5
  refine ⟨h4, h5.trace, ?_, ?_, ?_⟩
  · obtain ⟨t, ht, htr, hel, -⟩ := h5.tx
    exact ⟨t, ht, htr, hel⟩
  · refine h5.flags.trans ?_
    cases h : requestedIn ops <;> simp
  · intro hfl
    obtain ⟨s', h6, h7⟩ := served_close hw.callbacks hfl hfit h5
    refine ⟨s', h6, ?_, ?_⟩
    · rw [h7.trace, h5.trace]
    · split
      next h => exact h7.removed h.1 h.2
      next h =>
        refine h7.kept ?_
        by_cases h8 : respondedIn ops = []
        · exact .inl h8
        · exact .inr (by cases ha : e.cfg.txAutoDestroy with
            | true => exact absurd ⟨h8, ha⟩ h
            | false => rfl)

/-- A request, cut in the middle; the answer and more data from the client; the end. -/
def simpleSample : SimpleRequest := { method := b! "GET", uri := b! "/a" }
def simplePieces : List Bytes := [b! "GE", b! "T /a\r", b! "\n"]
def simpleOps : List Op := [.response (.data (b! "<p>")), .request (.data (b! "GET /b\r\n")), .response (.data (b! "hi"))]

example : simpleSample.WellFormed ∧ simplePieces.flatten = simpleSample.render ∧ (∀ p ∈ simplePieces, p ≠ []) ∧
    (∀ op ∈ simpleOps, SimpleCall op) ∧ respondedIn simpleOps = [b! "<p>", b! "hi"] ∧ requestedIn simpleOps = [b! "GET /b\r\n"] := by
  refine ⟨⟨⟨by decide, by unfold Word; decide +kernel, by decide +kernel⟩, ⟨by decide, by unfold Word; decide +kernel, by decide +kernel⟩⟩, by decide, by decide, ?_, rfl, rfl⟩
  intro op h
  simp only [simpleOps, List.mem_cons, List.not_mem_nil, or_false] at h
  rcases h with rfl | rfl | rfl
  · exact .response (by decide)
  · exact .request (by decide)
  · exact .response (by decide)

/-- The hypotheses on the parser are met by a new one. -/
example : Reachable sampleEnv {} ∧ Willing sampleEnv ∧ BetweenRequests {} ∧ BetweenResponses {} ∧
    ({} : Conn).txs.response = ({} : Conn).txs.request ∧ ({} : Conn).txs.map.length < sampleEnv.cfg.maxTx ∧
    simpleSample.line.length + 2 ≤ sampleEnv.cfg.fieldLimit ∧ sampleEnv.cfg.flushIncomplete = false :=
  ⟨.new, ⟨fun _ _ => rfl, .inr (by decide), fun f h => by cases h⟩,
    ⟨rfl, rfl, rfl, rfl, .inl rfl, .inl rfl, fun _ _ => rfl⟩, ⟨rfl, rfl, rfl, rfl, .inl rfl, rfl⟩, rfl, by decide, by decide, rfl⟩

set_option maxRecDepth 8000 in
/-- C79 is about requests that end with the data of a call: a request line without protocol after which, in the same call,
there is more than white space is not taken for HTTP/0.9; in two calls it is. -/
theorem C79_cut :
    let whole := Conn.history sampleEnv [.open, .request (.data (b! "GET /a\r\nHost: a\r\n\r\n"))]
    let cut := Conn.history sampleEnv [.open, .request (.data (b! "GET /a\r\n")), .request (.data (b! "Host: a\r\n\r\n"))]
    (whole.txs.get 0).map (fun t => (t.isProtocol09, t.requestHeaders.length)) = some (false, 1) ∧
    (cut.txs.get 0).map (fun t => (t.isProtocol09, t.requestHeaders.length)) = some (true, 0) := by
  decide_cbv

end Props
