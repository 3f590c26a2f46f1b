/-
CONNECT requests and the tunnels they ask for (C74).
-/
import Verif.Lemmas.ConnectResp
import Verif.Lemmas.ConnectAfter
import Verif.Props.Answer
import Verif.Props.Stream
import Verif.Spec.Dialogue

namespace Props

open Model Spec

theorem unanswered_progress {t : Tx} (h : Unanswered t) : NotAnswered t := by
  have := congrArg Tx.responseProgress h
  exact .inl this

/-- What is recorded of a CONNECT request is what belongs to the request. -/
theorem recordsConnect_side {t t' : Tx} {k : Nat} {r : Request} (h : RecordsConnect t k r) (hs : requestSide t' = requestSide t) :
    RecordsConnect t' k r := by
  have e1 : t'.index = t.index := by have := congrArg Tx.index hs; exact this
  have e2 : t'.requestLine = t.requestLine := by have := congrArg Tx.requestLine hs; exact this
  have e3 : t'.requestMethod = t.requestMethod := by have := congrArg Tx.requestMethod hs; exact this
  have e4 : t'.requestMethodNumber = t.requestMethodNumber := by have := congrArg Tx.requestMethodNumber hs; exact this
  have e5 : t'.requestUri = t.requestUri := by have := congrArg Tx.requestUri hs; exact this
  have e6 : t'.requestProtocol = t.requestProtocol := by have := congrArg Tx.requestProtocol hs; exact this
  have e7 : t'.requestProtocolNumber = t.requestProtocolNumber := by have := congrArg Tx.requestProtocolNumber hs; exact this
  have e8 : t'.isProtocol09 = t.isProtocol09 := by have := congrArg Tx.isProtocol09 hs; exact this
  have e9 : t'.requestHeaders = t.requestHeaders := by have := congrArg Tx.requestHeaders hs; exact this
  have e10 : t'.requestTransferCoding = t.requestTransferCoding := by have := congrArg Tx.requestTransferCoding hs; exact this
  have e11 : t'.requestContentEncodingProcessing = t.requestContentEncodingProcessing := by
    have := congrArg Tx.requestContentEncodingProcessing hs; exact this
  have e12 : t'.requestEntityLen = t.requestEntityLen := by have := congrArg Tx.requestEntityLen hs; exact this
  have e13 : t'.requestProgress = t.requestProgress := by have := congrArg Tx.requestProgress hs; exact this
  exact ⟨e1.trans h.index, e2.trans h.line, e3.trans h.method, e4.trans h.methodNumber, e5.trans h.uri, e6.trans h.protocol,
    by rw [e7]; exact h.protocolNumber, e8.trans h.notProtocol09, e9.trans h.headers, e10.trans h.coding, e11.trans h.noCoding,
    e12.trans h.bodyLength, e13.trans h.progress⟩

/-- C74, the request: a CONNECT request, and possibly data after it in the same call, to a parser that is between two
requests. The head of the request is consumed and nothing after it; if there is something after it, the call answers
that the other side has to be heard first. The callbacks of a request head are run, with this very header block, but none
that says that the request is complete. The transaction records the head. -/
theorem C74_request {e : Env} {s : Conn} (hw : Willing e) (hb : BetweenRequests s) {r : Request} (hr : r.Connects)
    (hlimit : r.line.length + 2 ≤ e.cfg.fieldLimit) (hroom : s.txs.map.length < e.cfg.maxTx) (early : Bytes)
    (hf : r.headers = [] → early.head? ≠ some 32) :
    let call := Op.request (.data (r.render ++ early))
    let final := call.after e s
    (call.run e s).1 = .ok (some (if early = [] then .data else .dataOther)) ∧
    final.req.bytesConsumed = r.render.length ∧
    final.trace = s.trace ++ connectCallbacks r s.txs.request ∧
    (∃ t, Negotiates final t ∧ RecordsConnect t s.txs.request r ∧ Unanswered t) ∧
    final.txs.request = s.txs.request ∧ final.txs.response = s.txs.response ∧
    (∀ j, j ≠ s.txs.request → final.txs.get j = s.txs.get j) ∧
    (BetweenResponses s → BetweenResponses final) := by
  obtain ⟨s', t, h1, h2, h3, h4, h5, h6, h7, h8, h9, h10, h11⟩ := call_connect hw hb hr hlimit (fun _ => hroom) early hf
  intro call final
  have hrun : call.run e s = _ := h1
  have hfin : final = s' := congrArg Prod.snd hrun
  rw [hfin]
  refine ⟨by rw [hrun], h2, h3, ⟨t, h4, h5, h6⟩, h7, h8, h9, fun hp => ?_⟩
  have : s'.resp = s.resp := by
    rw [h10, if_neg]
    rcases hp.status with h | h | h <;> rw [h] <;> decide
  exact ⟨by rw [this]; exact hp.state, by rw [this]; exact hp.buf, by rw [this]; exact hp.header, by rw [this]; exact hp.receiver,
    by rw [this]; exact hp.status, h11.trans hp.notBlocked⟩

/-- C74, the wait: as long as the response has not been read, every call with client data answers that the other side has
to be heard first. It consumes nothing, runs no callback and changes no transaction. -/
theorem C74_waits {e : Env} (pieces : List Bytes) : ∀ {s : Conn} {t : Tx}, Reachable e s → Negotiates s t → NotAnswered t →
    (∀ p ∈ pieces, p ≠ []) →
    let final := feedRequest e (pieces.map .data) s
    requestAnswers e (pieces.map .data) s = pieces.map (fun _ => .ok (some .dataOther)) ∧
    (pieces ≠ [] → final.req.bytesConsumed = 0) ∧
    final.trace = s.trace ∧ final.txs = s.txs ∧ Negotiates final t ∧
    (BetweenResponses s → BetweenResponses final) ∧ Reachable e final := by
  induction pieces with
  | nil => intro s t hs hn _ _; exact ⟨rfl, fun h => absurd rfl h, rfl, rfl, hn, id, hs⟩
  | cons p ps ih =>
    intro s t hs hn hna hp
    obtain ⟨s1, h1, h2, h3, h4, h5, h6, h7⟩ := call_early (reachable_bounded hs).1 hn hna (hp p (by simp))
    have hrun : (Op.request (.data p)).run e s = (.ok (some .dataOther), s1) := h1
    have hafter : (Op.request (.data p)).after e s = s1 := congrArg Prod.snd hrun
    have hs1 : Reachable e s1 := .call _ _ hs hrun
    obtain ⟨i1, i2, i3, i4, i5, i6, i7⟩ := ih hs1 h4 hna (fun x hx => hp x (by simp [hx]))
    have hfeed : feedRequest e ((p :: ps).map .data) s = feedRequest e (ps.map .data) s1 := by
      show feedRequest e (ps.map .data) ((Op.request (.data p)).after e s) = _
      rw [hafter]
    rw [hfeed]
    refine ⟨?_, ?_, i3.trans h3, i4.trans h5, i5, ?_, i7⟩
    · show ((Op.request _).run e s).1 :: requestAnswers e (ps.map .data) ((Op.request _).after e s) = _
      rw [hafter, hrun, i1]
      rfl
    · intro _
      by_cases h0 : ps = []
      · subst h0; exact h2
      · exact i2 h0
    · intro hb
      have : s1.resp = s.resp := by
        rw [h6, if_neg]
        rcases hb.status with h | h | h <;> rw [h] <;> decide
      exact i6 ⟨by rw [this]; exact hb.state, by rw [this]; exact hb.buf, by rw [this]; exact hb.header, by rw [this]; exact hb.receiver,
        by rw [this]; exact hb.status, h7.trans hb.notBlocked⟩

/-- C74, the tunnel is granted: a response with a 2xx status is read while the request waits. It is taken to have no body,
whatever its header fields announce. The callbacks of a response are run, and not the one that says that the transaction
is complete; the transaction records the response and keeps what was recorded of the request. -/
theorem C74_accepted {e : Env} {s : Conn} (hcb : CallbacksOK e) {t : Tx} {r : Request}
    (hn : Negotiates s t) (hr : RecordsConnect t s.txs.request r) (hu : Unanswered t) (hb : BetweenResponses s)
    (hk : s.txs.response = s.txs.request) {a : Response} (ha : a.WellFormed true) (hc : a.code ≤ 299)
    (hlimit : a.line.length + 2 ≤ e.cfg.fieldLimit) :
    let call := Op.response (.data a.render)
    let final := call.after e s
    (call.run e s).1 = .ok (some .data) ∧
    final.trace = s.trace ++ [.tx .responseStart s.txs.request, .tx .responseLine s.txs.request,
      .data .responseHeaderData s.txs.request (.ofBytes (renderBlock a.headers)), .tx .responseHeaders s.txs.request,
      .tx .responseComplete s.txs.request] ∧
    (∃ t', Negotiates final t' ∧ RecordsConnect t' s.txs.request r ∧ RecordsVerdict t' a ∧ Decided t' ∧ Granted final t' []) ∧
    final.txs.response = s.txs.response + 1 ∧ final.txs.request = s.txs.request ∧ final.req = s.req ∧
    (∀ j, j < s.txs.request → final.txs.get j = s.txs.get j) ∧ BetweenResponses final := by
  obtain ⟨s', t', h1, h2, h3, h4, h5, h6, h7, h8, h9, h10⟩ := call_accepted hcb hn hr hu hb hk ha hc hlimit
  intro call final
  have hrun : call.run e s = _ := h1
  have hfin : final = s' := congrArg Prod.snd hrun
  rw [hfin]
  exact ⟨by rw [hrun], h2, ⟨t', h3, recordsConnect_side hr h5, h4, ⟨h4.progress, _, h4.statusNumber⟩,
    .waiting _ h3 h4.progress h4.statusNumber ⟨ha.code.1, hc⟩⟩, h7, h8, h9, h10, h6⟩

/-- The first word of a line that does not begin with the name of a method is not one. -/
theorem no_method {line : Bytes} (h : ¬ BeginsWithMethod line) : Method.new (firstWord line) = .unknown := by
  unfold Method.new
  cases hl : methodNames.lookup (firstWord line) with
  | none => rfl
  | some m =>
    refine absurd ?_ h
    have hsp : ∀ c, isSpace c = true ↔ Blank c := by
      intro c
      unfold isSpace Blank
      simp only [Bool.or_eq_true, beq_iff_eq, List.mem_cons, List.not_mem_nil, or_false]
      constructor
      · rintro (((((h | h) | h) | h) | h) | h) <;> simp [h]
      · rintro (h | h | h | h | h | h) <;> simp [h]
    refine ⟨line.takeWhile isSpace, firstWord line, (line.dropWhile isSpace).dropWhile (fun c => !isSpace c), ?_, ?_, ?_, ?_, m, ?_⟩
    · unfold firstWord
      rw [List.append_assoc, List.takeWhile_append_dropWhile, List.takeWhile_append_dropWhile]
    · intro c hc
      exact (hsp c).1 (takeWhile_all _ _ c hc)
    · intro c hc hb
      have := takeWhile_all (fun c => !isSpace c) _ c hc
      rw [(hsp c).2 hb] at this
      cases this
    · intro c hc
      have := List.head?_dropWhile_not (fun c => !isSpace c) (line.dropWhile isSpace)
      rw [show List.head? (List.dropWhile _ _) = some c from hc] at this
      exact (hsp c).1 (by simpa using this)
    · have hmem : ∀ (l : List (Bytes × Method)) (k : Bytes), l.lookup k = some m → (k, m) ∈ l := by
        intro l k
        induction l with
        | nil => intro h; cases h
        | cons x l ih =>
          obtain ⟨a, v⟩ := x
          rw [List.lookup_cons]
          split
          · rename_i h
            intro hv
            cases hv
            rw [eq_of_beq h]
            exact List.mem_cons_self
          · exact fun h => List.mem_cons_of_mem _ (ih h)
      exact hmem _ _ hl

/-- C74, the tunnel: it has been granted, and the client sends a first line (it ends with a line feed or with a NUL) that
does not begin with the name of a request method, in any number of pieces, and anything after it in the last one. Every
call but the last answers that it took everything in, and the last one that this is a tunnel. From then on any data on
either side changes nothing: both sides are tunnels, no callback is run and no transaction is changed from the beginning
of that line on. (The server must not have spoken before it: `C74_server_speaks_first`. The line must fit into the buffer, if it is not in one piece.) -/
theorem C74_tunnel_partial {e : Env} (pieces : List Bytes) : ∀ {s : Conn} {t : Tx} {b : Bytes}, Reachable e s → Granted s t b →
    (∀ p ∈ pieces, p ≠ []) → (∀ p ∈ pieces, ∀ c ∈ p, c ≠ 10 ∧ c ≠ 0) →
    ∀ {x rest : Bytes} {c : UInt8}, (∀ d ∈ x, d ≠ 10 ∧ d ≠ 0) → c = 10 ∨ c = 0 →
    (b ++ pieces.flatten ≠ [] → (b ++ pieces.flatten ++ x).length < e.cfg.fieldLimit) →
    ¬ BeginsWithMethod (b ++ pieces.flatten ++ x ++ [c]) → ∀ (ops : List Op), Feeds ops →
    let calls := pieces.map Chunk.data ++ [.data (x ++ c :: rest)]
    let final := ops.foldl (Op.after e) (feedRequest e calls s)
    requestAnswers e calls s = pieces.map (fun _ => .ok (some .data)) ++ [.ok (some .tunnel)] ∧
    final.req.status = .tunnel ∧ final.resp.status = .tunnel ∧ final.txs = s.txs ∧ final.trace = s.trace := by
  induction pieces with
  | nil =>
    intro s t b hs hg _ _ x rest c hx hc hl hm ops hops
    simp only [List.flatten_nil, List.append_nil] at hl hm
    obtain ⟨s1, h1, h2, h3, h4, h5⟩ := call_tunnel (rest := rest) (reachable_bounded hs).1 hg hx hc hl (no_method hm)
    have hrun : (Op.request (.data (x ++ c :: rest))).run e s = (.ok (some .tunnel), s1) := h1
    have hafter : (Op.request (.data (x ++ c :: rest))).after e s = s1 := congrArg Prod.snd hrun
    obtain ⟨f1, f2, f3, f4⟩ := C38_forever e s1 ⟨h4, h5⟩ ops hops
    have hfeed : feedRequest e (([] : List Bytes).map Chunk.data ++ [.data (x ++ c :: rest)]) s = s1 := hafter
    refine ⟨?_, ?_⟩
    · show [((Op.request _).run e s).1] = _
      rw [hrun]
      rfl
    · rw [hfeed]
      exact ⟨f1, f2, f3.trans h3, f4.trans h2⟩
  | cons p ps ih =>
    intro s t b hs hg hp hpp x rest c hx hc hl hm ops hops
    have hpne := hp p (by simp)
    have hlen : (b ++ p).length ≤ e.cfg.fieldLimit := by
      have := hl (by simp [hpne])
      simp only [List.flatten_cons, List.length_append] at this ⊢
      omega
    obtain ⟨s1, h1, h2, h3, h4⟩ := call_probe (reachable_bounded hs).1 hg hpne (hpp p (by simp)) hlen
    have hrun : (Op.request (.data p)).run e s = (.ok (some .data), s1) := h1
    have hafter : (Op.request (.data p)).after e s = s1 := congrArg Prod.snd hrun
    have hflat : b ++ (p :: ps).flatten = b ++ p ++ ps.flatten := by simp
    rw [hflat] at hl hm
    obtain ⟨i1, i2, i3, i4, i5⟩ := ih (rest := rest) (.call _ _ hs hrun) (.probing h4) (fun q hq => hp q (by simp [hq])) (fun q hq => hpp q (by simp [hq]))
      hx hc hl hm ops hops
    have hfeed : feedRequest e ((p :: ps).map Chunk.data ++ [.data (x ++ c :: rest)]) s =
        feedRequest e (ps.map Chunk.data ++ [.data (x ++ c :: rest)]) s1 := by
      show feedRequest e (ps.map Chunk.data ++ _) ((Op.request (.data p)).after e s) = _
      rw [hafter]
    refine ⟨?_, ?_⟩
    · show ((Op.request _).run e s).1 :: requestAnswers e (ps.map Chunk.data ++ _) ((Op.request _).after e s) = _
      rw [hafter, hrun, i1]
      rfl
    · rw [hfeed]
      exact ⟨i2, i3, i4.trans h3, i5.trans h2⟩

/-- C74, credentials are asked for: a response with status 407 is read, with or without body, while the request waits. The
callbacks of a response are run, and not the one that says that the transaction is complete; the transaction records the
response and keeps what was recorded of the request, and the parser is between two responses. -/
theorem C74_credentials {e : Env} {s : Conn} (hcb : CallbacksOK e) {t : Tx} {r : Request}
    (hn : Negotiates s t) (hr : RecordsConnect t s.txs.request r) (hu : Unanswered t) (hb : BetweenResponses s)
    (hk : s.txs.response = s.txs.request) {a : Response} (ha : a.WellFormed false) (hc : a.code = 407)
    (hx : t.requestHeaders.getNocase (b! "expect") = none) (hlimit : a.line.length + 2 ≤ e.cfg.fieldLimit) :
    let call := Op.response (.data a.render)
    let final := call.after e s
    (call.run e s).1 = .ok (some .data) ∧
    final.trace = s.trace ++ (a.callbacks s.txs.request).dropLast ∧
    (∃ t', Negotiates final t' ∧ RecordsConnect t' s.txs.request r ∧ RecordsResponse t' a ∧ Decided t') ∧
    final.txs.response = s.txs.response + 1 ∧ final.txs.request = s.txs.request ∧ final.req = { s.req with status := .data } ∧
    (∀ j, j < s.txs.request → final.txs.get j = s.txs.get j) ∧ BetweenResponses final := by
  obtain ⟨s', t', h1, h2, h3, h4, h5, h6, h7, h8, h9, h10⟩ := call_credentials hcb hn hr hu hb hk ha hc hx hlimit
  intro call final
  have hrun : call.run e s = _ := h1
  have hfin : final = s' := congrArg Prod.snd hrun
  rw [hfin]
  exact ⟨by rw [hrun], h2, ⟨t', h3, recordsConnect_side hr h5, h4, h4.progress, _, h4.statusNumber⟩, h7, h8, h9, h10, h6⟩

/-- C74, the tunnel is refused: a response with another status (3xx, 4xx, ...) is read, with or without body, while the
request waits. The callbacks of a response are run, and not the one that says that the transaction is complete; the
transaction records the response and keeps what was recorded of the request. The parser does not go on to the next
response (`Refused`) before it is given response data again. What it does then is not covered:
`C74_refusal_reported_twice`, `C74_refusal_comes_back`. -/
theorem C74_refused_partial {e : Env} {s : Conn} (hcb : CallbacksOK e) {t : Tx} {r : Request}
    (hn : Negotiates s t) (hr : RecordsConnect t s.txs.request r) (hu : Unanswered t) (hb : BetweenResponses s)
    (hk : s.txs.response = s.txs.request) {a : Response} (ha : a.WellFormed false) (hc : 300 ≤ a.code ∧ a.code ≠ 407)
    (hx : t.requestHeaders.getNocase (b! "expect") = none ∨ ¬ (400 ≤ a.code ∧ a.code ≤ 499))
    (hlimit : a.line.length + 2 ≤ e.cfg.fieldLimit) :
    let call := Op.response (.data a.render)
    let final := call.after e s
    (call.run e s).1 = .ok (some .data) ∧
    final.trace = s.trace ++ (a.callbacks s.txs.request).dropLast ∧
    (∃ t', Negotiates final t' ∧ RecordsConnect t' s.txs.request r ∧ RecordsResponse t' a ∧ Decided t') ∧
    final.txs.response = s.txs.response ∧ final.txs.request = s.txs.request ∧ final.req = { s.req with status := .data } ∧
    (∀ j, j ≠ s.txs.request → final.txs.get j = s.txs.get j) ∧ Refused final := by
  obtain ⟨s', t', h1, h2, h3, h4, h5, h6, h7, h8, h9, h10⟩ := call_refused hcb hn hr hu hb hk ha hc hx hlimit
  intro call final
  have hrun : call.run e s = _ := h1
  have hfin : final = s' := congrArg Prod.snd hrun
  rw [hfin]
  exact ⟨by rw [hrun], h2, ⟨t', h3, recordsConnect_side hr h5, h4, h4.progress, _, h4.statusNumber⟩, h7, h8, h9, h10, h6⟩

/-- C74, the client goes on with HTTP: the response to the CONNECT request has been read, whatever its status, and the
client sends requests. The call answers that it took everything in. The CONNECT request and its transaction are reported
complete, and then these requests are, as if there had been no CONNECT (C61). The transaction of the CONNECT request is
unchanged otherwise (or removed, if the configuration says so), and the parser is between two requests. -/
theorem C74_goes_on {e : Env} {s : Conn} (hs : Reachable e s) (hw : Willing e) {t : Tx} {k : Nat} {r0 : Request}
    (hn : Negotiates s t) (hq : RecordsConnect t k r0) (hd : Decided t) (rs : List Request) (hne : rs ≠ [])
    (hr : ∀ r ∈ rs, r.WellFormed ∧ r.line.length + 2 ≤ e.cfg.fieldLimit)
    (hroom : s.txs.map.length + rs.length ≤ e.cfg.maxTx) :
    let call := Op.request (.data (rs.flatMap Request.render))
    let final := call.after e s
    (call.run e s).1 = .ok (some .data) ∧
    final.trace = s.trace ++ ([.tx .requestComplete s.txs.request, .tx .transactionComplete s.txs.request] ++
      requestCallbacks (s.txs.request + 1) rs) ∧
    final.txs.get s.txs.request = (if e.cfg.txAutoDestroy then none else some { t with requestProgress := .complete }) ∧
    (∀ i r, rs[i]? = some r → ∃ t, final.txs.get (s.txs.request + 1 + i) = some t ∧
      Records t (s.txs.request + 1 + i) r ∧ Unanswered t) ∧
    (∀ j, j < s.txs.request → final.txs.get j = s.txs.get j) ∧
    final.txs.request = s.txs.request + 1 + rs.length ∧ final.txs.response = s.txs.response ∧ BetweenRequests final ∧
    (BetweenResponses s → BetweenResponses final) := by
  obtain ⟨hp, n, hnum⟩ := hd
  obtain ⟨s', h1, h2, h3, h4, h5, h6, h7, h8, h9, h10⟩ := call_resume hw rs hne hr (reachable_bounded hs).1 hn hq hp hnum hroom
  intro call final
  have hrun : call.run e s = _ := h1
  have hfin : final = s' := congrArg Prod.snd hrun
  rw [hfin]
  refine ⟨by rw [hrun], h2, h3, h4, h5, h6, h7, h8, fun hb => ?_⟩
  have : s'.resp = s.resp := by
    rw [h9, if_neg]
    rcases hb.status with h | h | h <;> rw [h] <;> decide
  exact ⟨by rw [this]; exact hb.state, by rw [this]; exact hb.buf, by rw [this]; exact hb.header, by rw [this]; exact hb.receiver,
    by rw [this]; exact hb.status, h10.trans hb.notBlocked⟩

/-- C74, the client asks again: the response to the CONNECT request has been read (usually a 407), and the client sends
another CONNECT request. The first one and its transaction are reported complete, and the second one is read as the first
one was, as the next transaction. -/
theorem C74_again {e : Env} {s : Conn} (hs : Reachable e s) (hw : Willing e) {t : Tx} {k : Nat} {r0 : Request}
    (hn : Negotiates s t) (hq : RecordsConnect t k r0) (hd : Decided t) {r : Request} (hr : r.Connects)
    (hlimit : r.line.length + 2 ≤ e.cfg.fieldLimit) (hroom : s.txs.map.length < e.cfg.maxTx) (early : Bytes)
    (hf : r.headers = [] → early.head? ≠ some 32) :
    let call := Op.request (.data (r.render ++ early))
    let final := call.after e s
    (call.run e s).1 = .ok (some (if early = [] then .data else .dataOther)) ∧
    final.req.bytesConsumed = r.render.length ∧
    final.trace = s.trace ++ ([.tx .requestComplete s.txs.request, .tx .transactionComplete s.txs.request] ++
      connectCallbacks r (s.txs.request + 1)) ∧
    final.txs.get s.txs.request = (if e.cfg.txAutoDestroy then none else some { t with requestProgress := .complete }) ∧
    (∃ t', Negotiates final t' ∧ RecordsConnect t' (s.txs.request + 1) r ∧ Unanswered t') ∧
    (∀ j, j < s.txs.request → final.txs.get j = s.txs.get j) ∧
    final.txs.request = s.txs.request + 1 ∧ final.txs.response = s.txs.response ∧
    (BetweenResponses s → BetweenResponses final) := by
  obtain ⟨hp, n, hnum⟩ := hd
  obtain ⟨s', t', h1, h2, h3, h4, h5, h6, h7, h8, h9, h10, h11, h12⟩ := call_reconnect hw hr hlimit early hf (reachable_bounded hs).1 hn hq hp hnum hroom
  intro call final
  have hrun : call.run e s = _ := h1
  have hfin : final = s' := congrArg Prod.snd hrun
  rw [hfin]
  refine ⟨by rw [hrun], h2, h3, h4, ⟨t', h5, h6, h7⟩, h8, h9, h10, fun hb => ?_⟩
  have : s'.resp = s.resp := by
    rw [h11, if_neg]
    rcases hb.status with h | h | h <;> rw [h] <;> decide
  exact ⟨by rw [this]; exact hb.state, by rw [this]; exact hb.buf, by rw [this]; exact hb.header, by rw [this]; exact hb.receiver,
    by rw [this]; exact hb.status, h12.trans hb.notBlocked⟩

/-! Concrete cases. -/

/-- A request for a tunnel; it is granted, refused, and credentials are asked for. -/
def connectRequest : Request :=
  { method := b! "CONNECT", uri := b! "a:22", protocol := b! "HTTP/1.1", headers := [⟨b! "Host", b! " ", b! "a", []⟩], body := .absent }
def connectGranted : Response :=
  { protocol := b! "HTTP/1.1", code := 200, message := b! "OK", headers := [⟨b! "X", b! " ", b! "y", []⟩], body := .absent }
def connectRefused : Response :=
  { protocol := b! "HTTP/1.1", code := 403, message := b! "No", headers := [⟨b! "Content-Length", b! " ", b! "2", []⟩]
    body := .sized (b! "no") }
def connectCredentials : Response := { connectRefused with code := 407 }

theorem connectRequest_connects : connectRequest.Connects := by
  refine ⟨⟨⟨.connect, by decide +kernel⟩, by decide +kernel, ⟨.v1_1, by decide +kernel⟩, by decide +kernel, ⟨?_, ?_⟩,
    by decide +kernel, ?_, ?_⟩, rfl⟩
  all_goals exact fun h hh => absurd hh.2 ((by decide +kernel : ∀ h ∈ connectRequest.headers, ¬ EqNocase h.name _) h hh.1)

theorem connectGranted_wellFormed : connectGranted.WellFormed true := by
  refine ⟨⟨.v1_1, by decide +kernel⟩, by decide, by decide +kernel, by decide +kernel, ?_, by decide +kernel, ?_⟩
  · exact Or.inl rfl
  · exact fun h hh => absurd hh.2 ((by decide +kernel : ∀ h ∈ connectGranted.headers, ¬ EqNocase h.name _) h hh.1)

theorem connectRefused_wellFormed : connectRefused.WellFormed false := by
  refine ⟨⟨.v1_1, by decide +kernel⟩, by decide, by decide +kernel, by decide +kernel, ⟨rfl, ?_, ?_, ?_, by decide +kernel⟩,
    by decide +kernel, ?_⟩
  · exact fun h hh => absurd hh.2 ((by decide +kernel : ∀ h ∈ connectRefused.headers, ¬ EqNocase h.name _) h hh.1)
  · exact ⟨⟨b! "Content-Length", b! " ", b! "2", []⟩, by decide +kernel, by decide +kernel⟩
  · exact fun h hh => (by decide +kernel : ∀ h ∈ connectRefused.headers, EqNocase h.name _ → h.value = _) h hh.1 hh.2
  · exact fun h hh => absurd hh.2 ((by decide +kernel : ∀ h ∈ connectRefused.headers, ¬ EqNocase h.name _) h hh.1)

theorem connectCredentials_wellFormed : connectCredentials.WellFormed false := by
  refine ⟨⟨.v1_1, by decide +kernel⟩, by decide, by decide +kernel, by decide +kernel, ⟨rfl, ?_, ?_, ?_, by decide +kernel⟩,
    by decide +kernel, ?_⟩
  · exact fun h hh => absurd hh.2 ((by decide +kernel : ∀ h ∈ connectCredentials.headers, ¬ EqNocase h.name _) h hh.1)
  · exact ⟨⟨b! "Content-Length", b! " ", b! "2", []⟩, by decide +kernel, by decide +kernel⟩
  · exact fun h hh => (by decide +kernel : ∀ h ∈ connectCredentials.headers, EqNocase h.name _ → h.value = _) h hh.1 hh.2
  · exact fun h hh => absurd hh.2 ((by decide +kernel : ∀ h ∈ connectCredentials.headers, ¬ EqNocase h.name _) h hh.1)

theorem willing_sample : Willing sampleEnv := ⟨fun _ _ => rfl, .inr (by decide), fun f h => by cases h⟩

/-- A parser that has seen the request, and data after it that it did not consume. -/
def connectAsked : Conn := (Op.request (.data (connectRequest.render ++ b! "SSH-"))).after sampleEnv {}

theorem connectAsked_is {s0 s : Conn} (h : (Op.request (.data (connectRequest.render ++ b! "SSH-"))).after sampleEnv s0 = s)
    (h0 : BetweenRequests s0) (h1 : BetweenResponses s0) (hq : s0.txs.request = 0) (hp : s0.txs.response = 0) (hl : s0.txs.map.length = 0)
    (hx : (s.txs.get s.txs.request).map (fun t => t.requestHeaders.getNocase (b! "expect")) = some none) :
    BetweenResponses s ∧ s.txs.request = 0 ∧ s.txs.response = 0 ∧
    ∃ t, Negotiates s t ∧ RecordsConnect t s.txs.request connectRequest ∧ Unanswered t ∧
      t.requestHeaders.getNocase (b! "expect") = none := by
  have key := C74_request willing_sample h0 connectRequest_connects
    (by decide +kernel) (by rw [hl]; decide) (b! "SSH-") (fun h => by cases h)
  dsimp only at key
  rw [h] at key
  obtain ⟨-, -, -, ⟨t, a4, a5, a6⟩, a7, a8, -, a9⟩ := key
  refine ⟨a9 h1, a7.trans hq, a8.trans hp, t, a4, by rw [a7]; exact a5, a6, ?_⟩
  rw [a4.current] at hx
  simpa using hx

set_option maxRecDepth 8000 in
/-- Case for C74_request: the request with early data. -/
theorem connectAsked_facts : Reachable sampleEnv connectAsked ∧ connectAsked.txs.map.length = 1 ∧
    BetweenResponses connectAsked ∧ connectAsked.txs.request = 0 ∧ connectAsked.txs.response = 0 ∧
    ∃ t, Negotiates connectAsked t ∧ RecordsConnect t connectAsked.txs.request connectRequest ∧ Unanswered t ∧
      t.requestHeaders.getNocase (b! "expect") = none :=
  ⟨Reachable.history [.request (.data (connectRequest.render ++ b! "SSH-"))] (by decide_cbv), by decide_cbv,
    connectAsked_is rfl ⟨rfl, rfl, rfl, rfl, .inl rfl, .inl rfl, fun _ _ => rfl⟩ ⟨rfl, rfl, rfl, rfl, .inl rfl, rfl⟩ rfl rfl rfl (by decide_cbv)⟩

/-- Case for C74_waits: two calls with data before the response. -/
example : Reachable sampleEnv connectAsked ∧ (∃ t, Negotiates connectAsked t ∧ NotAnswered t) ∧ ∀ p ∈ [b! "SSH-", b! "SSH-2.0"], p ≠ [] := by
  obtain ⟨h1, -, -, -, -, t, h2, -, h3, -⟩ := connectAsked_facts
  exact ⟨h1, ⟨t, h2, unanswered_progress h3⟩, by decide +kernel⟩

/-- The parser after the tunnel was granted. -/
def connectOpen : Conn := (Op.response (.data connectGranted.render)).after sampleEnv connectAsked

theorem connectOpen_is {s0 s : Conn} (h : (Op.response (.data connectGranted.render)).after sampleEnv s0 = s) (hr : Reachable sampleEnv s0)
    (hb : BetweenResponses s0) (h3 : s0.txs.request = 0) (h4 : s0.txs.response = 0)
    (ht : ∃ t, Negotiates s0 t ∧ RecordsConnect t s0.txs.request connectRequest ∧ Unanswered t ∧
      t.requestHeaders.getNocase (b! "expect") = none) : Reachable sampleEnv s ∧ BetweenResponses s ∧
    ∃ t, Negotiates s t ∧ RecordsConnect t 0 connectRequest ∧ Decided t ∧ Granted s t [] := by
  obtain ⟨t, h6, h7, h8, -⟩ := ht
  have key := C74_accepted (e := sampleEnv) (fun _ _ => rfl) h6 h7 h8 hb (h4.trans h3.symm)
    connectGranted_wellFormed (by decide) (by decide +kernel)
  dsimp only at key
  rw [h, h3] at key
  obtain ⟨a1, -, ⟨t', b1, b2, -, b4, b5⟩, -, -, -, -, b6⟩ := key
  exact ⟨.call _ _ hr (Prod.ext a1 h), b6, t', b1, b2, b4, b5⟩

set_option maxRecDepth 8000 in
/-- Case for C74_accepted. -/
theorem connectOpen_facts : connectOpen.txs.map.length = 2 ∧ Reachable sampleEnv connectOpen ∧ BetweenResponses connectOpen ∧
    ∃ t, Negotiates connectOpen t ∧ RecordsConnect t 0 connectRequest ∧ Decided t ∧ Granted connectOpen t [] := by
  obtain ⟨h1, -, h2, h3, h4, h5⟩ := connectAsked_facts
  exact ⟨by decide_cbv, connectOpen_is rfl h1 h2 h3 h4 h5⟩

/-- Case for C74_tunnel_partial: the first line of another protocol in two pieces. -/
example : Reachable sampleEnv connectOpen ∧ (∃ t, Granted connectOpen t []) ∧ (∀ p ∈ [b! "SSH-"], p ≠ []) ∧
    (∀ p ∈ [b! "SSH-"], ∀ c ∈ p, c ≠ 10 ∧ c ≠ 0) ∧ (∀ d ∈ b! "2.0-client\r", d ≠ 10 ∧ d ≠ 0) ∧
    (([] ++ [b! "SSH-"].flatten ++ b! "2.0-client\r").length < sampleEnv.cfg.fieldLimit) ∧
    ¬ BeginsWithMethod ([] ++ [b! "SSH-"].flatten ++ b! "2.0-client\r" ++ [10]) := by
  obtain ⟨-, h1, -, t, -, -, -, h2⟩ := connectOpen_facts
  refine ⟨h1, ⟨t, h2⟩, by decide +kernel, by decide +kernel, by decide +kernel, by decide +kernel, ?_⟩
  rintro ⟨lead, word, rest, h, hlead, -, -, m, hm⟩
  have hl : lead = [] := by
    cases lead with
    | nil => rfl
    | cons c l =>
      have hc := hlead c List.mem_cons_self
      have : c = 83 := by
        have := congrArg List.head? h
        simpa using this.symm
      rw [this] at hc
      exact absurd hc (by decide)
  rw [hl, List.nil_append] at h
  have : ∀ w ∈ methodNames.map (·.1), ¬ w <+: ([] ++ [b! "SSH-"].flatten ++ b! "2.0-client\r" ++ [10]) := by decide +kernel
  exact this word (List.mem_map.2 ⟨_, hm, rfl⟩) ⟨rest, h.symm⟩

/-- Case for C74_goes_on and C74_again, after the tunnel was granted. -/
example : Reachable sampleEnv connectOpen ∧ Willing sampleEnv ∧
    (∃ t, Negotiates connectOpen t ∧ RecordsConnect t 0 connectRequest ∧ Decided t) ∧
    (∀ r ∈ threeRequests, r.WellFormed ∧ r.line.length + 2 ≤ sampleEnv.cfg.fieldLimit) ∧
    connectOpen.txs.map.length + threeRequests.length ≤ sampleEnv.cfg.maxTx ∧
    connectRequest.Connects ∧ connectOpen.txs.map.length < sampleEnv.cfg.maxTx := by
  obtain ⟨h3, h1, -, t, h4, h5, h6, -⟩ := connectOpen_facts
  have hm : sampleEnv.cfg.maxTx = 512 := rfl
  have h3' : threeRequests.length = 3 := rfl
  exact ⟨h1, willing_sample, ⟨t, h4, h5, h6⟩, fun r hr => ⟨threeRequests_wellFormed r hr,
    (by decide +kernel : ∀ r ∈ threeRequests, r.line.length + 2 ≤ sampleEnv.cfg.fieldLimit) r hr⟩, by omega, connectRequest_connects, by omega⟩

/-- Cases for C74_credentials and C74_refused_partial. -/
example : CallbacksOK sampleEnv ∧ BetweenResponses connectAsked ∧ connectAsked.txs.response = connectAsked.txs.request ∧
    (∃ t, Negotiates connectAsked t ∧ RecordsConnect t connectAsked.txs.request connectRequest ∧ Unanswered t ∧
      t.requestHeaders.getNocase (b! "expect") = none) ∧
    connectCredentials.WellFormed false ∧ connectCredentials.code = 407 ∧ connectRefused.WellFormed false ∧
    300 ≤ connectRefused.code ∧ connectRefused.code ≠ 407 := by
  obtain ⟨h1, h5, h2, h3, h4, h6⟩ := connectAsked_facts
  exact ⟨fun _ _ => rfl, h2, h4.trans h3.symm, h6, connectCredentials_wellFormed, rfl, connectRefused_wellFormed,
    by decide, by decide⟩

/-! Where the library does not do what one would expect. -/

set_option maxRecDepth 8000 in
/-- The server speaks first in a tunnel that was granted (SSH, SMTP, ... do this): its line is reported as a response, with
body, of a transaction for which there was no request. The client's first line is then reported as a request body of that
transaction, which is reported complete a second time. The tunnel is never recognised. -/
theorem C74_server_speaks_first :
    ∀ final, [Op.response (.data (b! "SSH-2.0-server\r\n")), .request (.data (b! "SSH-2.0-client\r\n"))].foldl
        (Op.after sampleEnv) connectOpen = final →
      final.req.status = .data ∧ final.resp.status = .data ∧
      .tx .responseStart 1 ∈ final.trace ∧ .data .responseBodyData 1 (.ofBytes (b! "SSH-2.0-server\r\n")) ∈ final.trace ∧
      .data .requestBodyData 1 (.ofBytes (b! "SSH-2.0-client\r\n")) ∈ final.trace ∧
      final.trace.count (.tx .transactionComplete 1) = 2 := by
  rintro _ rfl
  refine ⟨?_, ?_, ?_, ?_, ?_, ?_⟩ <;> decide_cbv

/-- A tunnel is refused, the client sends a request, and the server answers it. -/
def refusedThenAnswered : List Op :=
  [.request (.data connectRequest.render), .response (.data connectRefused.render),
   .request (.data (b! "GET / HTTP/1.1\r\n\r\n")), .response (.data connectRefused.render)]

set_option maxRecDepth 8000 in
/-- A tunnel is refused. The transaction of the CONNECT request is reported complete twice: when the client goes on, and
when the server does. -/
theorem C74_refusal_reported_twice :
    (Conn.history sampleEnv refusedThenAnswered).trace.count (.tx .transactionComplete 0) = 2 ∧
    (Conn.history sampleEnv refusedThenAnswered).trace.count (.tx .transactionComplete 1) = 1 := by
  refine ⟨?_, ?_⟩ <;> decide_cbv

/-- The same with transactions that are removed when they are complete. -/
def destroyingEnv : Env := { sampleEnv with cfg := { sampleEnv.cfg with txAutoDestroy := true } }

set_option maxRecDepth 8000 in
/-- A tunnel is refused, and complete transactions are to be removed. The transaction of the CONNECT request is removed when
the client goes on. When the server does, it is made anew, without a request, and its response is reported complete for a
second time; this one is not removed. -/
theorem C74_refusal_comes_back :
    ((Conn.history destroyingEnv (refusedThenAnswered.take 3)).txs.get 0).isNone = true ∧
    ((Conn.history destroyingEnv refusedThenAnswered).txs.get 0).map (fun t => (t.requestMethod, t.requestProgress, t.responseProgress)) =
      some (none, .notStarted, .complete) ∧
    (Conn.history destroyingEnv refusedThenAnswered).trace.count (.tx .responseComplete 0) = 2 := by
  refine ⟨?_, ?_, ?_⟩ <;> decide_cbv

end Props
