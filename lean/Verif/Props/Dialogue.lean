/- C60: conversations are recovered exactly. -/
import Verif.Spec.Dialogue
import Verif.Props.Answer

namespace Props
open Model Spec

/-- Between two messages on either side, with these requests waiting for their responses. -/
structure Conversing (s : Conn) (pending : List Request) : Prop where
  requests : BetweenRequests s
  responses : BetweenResponses s
  indices : s.txs.response + pending.length = s.txs.request
  wellFormed : ∀ q ∈ pending, q.WellFormed
  records : ∀ i q, pending[i]? = some q →
    ∃ t, s.txs.get (s.txs.response + i) = some t ∧ Records t (s.txs.response + i) q ∧ Unanswered t

theorem records_same {t t' : Tx} {k : Nat} {q : Request} (h : Records t k q) (hs : requestSide t' = requestSide t) :
    Records t' k q := by
  refine ⟨?_, ?_, ?_, ?_, ?_, ?_, ?_, ?_, ?_, ?_, ?_, ?_, ?_⟩
  · have := congrArg Tx.index hs; exact Eq.trans this h.index
  · have := congrArg Tx.requestLine hs; exact Eq.trans this h.line
  · have := congrArg Tx.requestMethod hs; exact Eq.trans this h.method
  · have : t'.requestMethodNumber = t.requestMethodNumber := by have := congrArg Tx.requestMethodNumber hs; exact this
    rw [this]; exact h.methodNumber
  · have := congrArg Tx.requestUri hs; exact Eq.trans this h.uri
  · have := congrArg Tx.requestProtocol hs; exact Eq.trans this h.protocol
  · have : t'.requestProtocolNumber = t.requestProtocolNumber := by have := congrArg Tx.requestProtocolNumber hs; exact this
    rw [this]; exact h.protocolNumber
  · have := congrArg Tx.isProtocol09 hs; exact Eq.trans this h.notProtocol09
  · have := congrArg Tx.requestHeaders hs; exact Eq.trans this h.headers
  · have := congrArg Tx.requestTransferCoding hs; exact Eq.trans this h.coding
  · have := congrArg Tx.requestContentLength hs; exact Eq.trans this h.contentLength
  · have := congrArg Tx.requestEntityLen hs; exact Eq.trans this h.bodyLength
  · have := congrArg Tx.requestProgress hs; exact Eq.trans this h.progress

theorem conversing_ask {e : Env} (hw : Willing e) {s : Conn} {pending qs : List Request} {m : Nat} (hc : Conversing s pending)
    (hq : Sendable e.cfg qs) (ho : Occupied s m) (hm : m + qs.length ≤ e.cfg.maxTx) :
    ∃ s', (Turn.ask qs).op.run e s = (.ok (some .data), s') ∧ Conversing s' (pending ++ qs) ∧ Occupied s' (m + qs.length) ∧
      s'.trace = s.trace ++ requestCallbacks s.txs.request qs ∧ s'.txs.response = s.txs.response ∧
      s'.txs.request = s.txs.request + qs.length ∧ ∀ j, j < s.txs.response → s'.txs.get j = s.txs.get j := by
  obtain ⟨s', h1, hd, ho'⟩ := call_requests hw qs hq.nonempty (fun q h => ⟨hq.wellFormed q h, hq.limit q h⟩) hc.requests ho hm
  have hresp : s'.resp = s.resp := by
    rw [hd.resp, if_neg]
    rintro ⟨-, h⟩
    rcases hc.responses.status with h' | h' | h' <;> rw [h'] at h <;> cases h
  refine ⟨s', h1, ⟨hd.between, ?_, ?_, ?_, ?_⟩, ho', hd.trace, hd.response, hd.request, ?_⟩
  · have hb := hc.responses
    refine ⟨?_, ?_, ?_, ?_, ?_, hd.blocked.trans hb.notBlocked⟩ <;> rw [hresp]
    · exact hb.state
    · exact hb.buf
    · exact hb.header
    · exact hb.receiver
    · exact hb.status
  · rw [hd.response, hd.request, List.length_append, ← Nat.add_assoc, hc.indices]
  · intro q h
    rcases List.mem_append.1 h with h | h
    · exact hc.wellFormed q h
    · exact hq.wellFormed q h
  · intro i q hi
    rw [hd.response]
    rcases Nat.lt_or_ge i pending.length with hl | hl
    · rw [List.getElem?_append_left hl] at hi
      obtain ⟨t, ht, hr⟩ := hc.records i q hi
      exact ⟨t, by rw [hd.others _ (by have := hc.indices; omega), ht], hr⟩
    · rw [List.getElem?_append_right hl] at hi
      obtain ⟨t, ht, hr⟩ := hd.records _ q hi
      have : s.txs.request + (i - pending.length) = s.txs.response + i := by have := hc.indices; omega
      rw [this] at ht hr
      exact ⟨t, ht, hr⟩
  · exact fun j hj => hd.others j (by have := hc.indices; omega)

theorem conversing_answer {e : Env} (hcb : CallbacksOK e) {s : Conn} {pending : List Request} {rs : List Response} {m : Nat}
    (hc : Conversing s pending) (hr : Answers e.cfg pending rs) (ho : Occupied s m) :
    ∃ s', (Turn.answer rs).op.run e s = (.ok (some .data), s') ∧ Conversing s' (pending.drop rs.length) ∧
      Occupied s' (if e.cfg.txAutoDestroy then m - rs.length else m) ∧
      s'.trace = s.trace ++ responseCallbacks s.txs.response rs ∧ s'.txs.response = s.txs.response + rs.length ∧
      s'.txs.request = s.txs.request ∧ (∀ j, j < s.txs.response → s'.txs.get j = s.txs.get j) ∧
      ∀ i q r, pending[i]? = some q → rs[i]? = some r →
        Exchanged e.cfg.txAutoDestroy s'.txs (s.txs.response + i) q (some r) := by
  have hind := hc.indices
  have hlen := hr.asked
  obtain ⟨s', h1, hd⟩ := call_responses hcb rs hr.nonempty hr.limit hc.responses (fun i r hi => by
    have hl : i < pending.length := Nat.lt_of_lt_of_le (List.getElem?_eq_some_iff.1 hi).1 hlen
    obtain ⟨t, ht, hrec, hun⟩ := hc.records i _ (List.getElem?_eq_getElem hl)
    exact ⟨t, ht, hrec.index, answerable (hc.wellFormed _ (List.getElem_mem hl)) hrec hun
      (hr.notRefused i _ r (List.getElem?_eq_getElem hl) hi) (hr.wellFormed i _ r (List.getElem?_eq_getElem hl) hi)⟩) hr.filled
  have hpres : s.txs.response + rs.length < s.txs.request → (s.txs.get (s.txs.response + rs.length)).isSome := by
    intro hlt
    obtain ⟨t, ht, -⟩ := hc.records rs.length _ (List.getElem?_eq_getElem (by omega : rs.length < pending.length))
    rw [ht]
    rfl
  refine ⟨s', h1, ⟨⟨?_, ?_, ?_, ?_, ?_, ?_, ?_⟩, hd.between, ?_, ?_, ?_⟩, hd.occupied m (by omega) hpres ho, hd.trace,
    hd.response, hd.request, fun j hj => hd.others j (.inl hj), ?_⟩
  · rw [hd.req]; exact hc.requests.state
  · rw [hd.req]; exact hc.requests.buf
  · rw [hd.req]; exact hc.requests.header
  · rw [hd.req]; exact hc.requests.receiver
  · rw [hd.req]; exact hc.requests.status
  · rw [hd.request]
    rcases Nat.lt_or_ge (s.txs.response + rs.length) s.txs.request with hlt | hge
    · rw [hd.others _ (.inr (.inl hlt))]
      exact hc.requests.next
    · have he : s.txs.request = s.txs.response + rs.length := by omega
      rcases hc.requests.next with hn | hn
      · rw [he] at hn ⊢
        exact hd.next hn
      · rw [hd.others _ (.inr (.inr ⟨he, by rw [hn]; rfl⟩))]
        exact .inr hn
  · intro j hj
    rw [hd.request] at hj
    rw [hd.others _ (.inr (.inl (by omega)))]
    exact hc.requests.beyond j hj
  · rw [hd.response, hd.request, List.length_drop]
    omega
  · exact fun q h => hc.wellFormed q (List.mem_of_mem_drop h)
  · intro i q hi
    rw [List.getElem?_drop] at hi
    obtain ⟨t, ht, hrec⟩ := hc.records _ q hi
    rw [← Nat.add_assoc, ← hd.response] at ht hrec
    refine ⟨t, ?_, hrec⟩
    rw [hd.others _ (by
      rw [hd.response]
      rcases Nat.eq_zero_or_pos i with h0 | h0
      · exact .inr (.inr ⟨by omega, by rw [← hd.response, ht]; rfl⟩)
      · exact .inr (.inl (by omega)))]
    exact ht
  · intro i q r hq hi
    have := hd.records i r hi
    unfold AnswerKept at this
    show if e.cfg.txAutoDestroy then _ else _
    split
    next ha => rw [if_pos ha] at this; exact this
    next ha =>
      rw [if_neg ha] at this
      obtain ⟨t, t', ht, ht', hrec, hsame⟩ := this
      obtain ⟨t1, ht1, hq1, -⟩ := hc.records i q hq
      rw [ht1] at ht
      cases ht
      exact ⟨t', ht', records_same hq1 hsame, hrec⟩

theorem conversing {e : Env} (hw : Willing e) (ts : List Turn) : ∀ {s : Conn} {pending : List Request} {m : Nat},
    Conversing s pending → Occupied s m → Sensible e.cfg pending m ts →
    ∀ final, (ts.map Turn.op).foldl (Op.after e) s = final →
    answersTo e (ts.map Turn.op) s = ts.map (fun _ => .ok (some .data)) ∧
    final.trace = s.trace ++ conversation s.txs.request s.txs.response ts ∧
    (∀ i q, (pending ++ ts.flatMap Turn.asked)[i]? = some q →
      Exchanged e.cfg.txAutoDestroy final.txs (s.txs.response + i) q (ts.flatMap Turn.answered)[i]?) ∧
    (∀ j, j < s.txs.response → final.txs.get j = s.txs.get j) ∧
    Conversing final ((pending ++ ts.flatMap Turn.asked).drop (ts.flatMap Turn.answered).length) ∧
    final.txs.response = s.txs.response + (ts.flatMap Turn.answered).length ∧
    final.txs.request = s.txs.request + (ts.flatMap Turn.asked).length := by
  induction ts with
  | nil =>
    rintro s pending m hc - - _ rfl
    refine ⟨rfl, (List.append_nil _).symm, ?_, fun _ _ => rfl, ?_, rfl, rfl⟩
    · intro i q hi
      rw [List.flatMap_nil, List.append_nil] at hi
      exact hc.records i q hi
    · show Conversing s (pending ++ [])
      rw [List.append_nil]
      exact hc
  | cons turn ts ih =>
    rintro s pending m hc ho hs final hf
    cases turn with
    | ask qs =>
      obtain ⟨hq, hm, hs⟩ := hs
      obtain ⟨s1, h1, hc1, ho1, htr1, hresp1, hreq1, hoth1⟩ := conversing_ask hw hc hq ho hm
      have hafter : (Turn.ask qs).op.after e s = s1 := congrArg Prod.snd h1
      obtain ⟨ha, htr, hex, hoth, hfin, hrn, hqn⟩ := ih hc1 ho1 hs final (by rw [← hafter]; exact hf)
      refine ⟨?_, ?_, ?_, ?_, ?_, ?_, ?_⟩
      · show ((Turn.ask qs).op.run e s).1 :: answersTo e _ ((Turn.ask qs).op.after e s) = _
        rw [hafter, ha, h1]
        rfl
      · rw [htr, htr1, hresp1, hreq1, List.append_assoc]
        rfl
      · intro i q hi
        have := hex i q (by rw [List.append_assoc]; exact hi)
        rw [hresp1] at this
        exact this
      · intro j hj
        rw [hoth j (by rw [hresp1]; exact hj), hoth1 j hj]
      · rw [List.append_assoc] at hfin
        exact hfin
      · rw [hrn, hresp1]
        rfl
      · rw [hqn, hreq1]
        show _ = _ + (qs ++ ts.flatMap Turn.asked).length
        rw [List.length_append, Nat.add_assoc]
    | answer rs =>
      obtain ⟨hr, hs⟩ := hs
      obtain ⟨s1, h1, hc1, ho1, htr1, hresp1, hreq1, hoth1, hex1⟩ := conversing_answer hw.callbacks hc hr ho
      have hafter : (Turn.answer rs).op.after e s = s1 := congrArg Prod.snd h1
      obtain ⟨ha, htr, hex, hoth, hfin, hrn, hqn⟩ := ih hc1 ho1 hs final (by rw [← hafter]; exact hf)
      have hlen := hr.asked
      have hdrop : pending.drop rs.length ++ ts.flatMap Turn.asked = (pending ++ ts.flatMap Turn.asked).drop rs.length := by
        rw [List.drop_append_of_le_length hlen]
      refine ⟨?_, ?_, ?_, ?_, ?_, ?_, ?_⟩
      · show ((Turn.answer rs).op.run e s).1 :: answersTo e _ ((Turn.answer rs).op.after e s) = _
        rw [hafter, ha, h1]
        rfl
      · rw [htr, htr1, hresp1, hreq1, List.append_assoc]
        rfl
      · intro i q hi
        have hi : (pending ++ ts.flatMap Turn.asked)[i]? = some q := hi
        show Exchanged _ _ _ _ (rs ++ ts.flatMap Turn.answered)[i]?
        rcases Nat.lt_or_ge i rs.length with hl | hl
        · rw [List.getElem?_append_left hl, List.getElem?_eq_getElem hl]
          rw [List.getElem?_append_left (by omega)] at hi
          have := hex1 i q _ hi (List.getElem?_eq_getElem hl)
          unfold Exchanged at this ⊢
          rw [hoth _ (by rw [hresp1]; omega)]
          exact this
        · rw [List.getElem?_append_right hl]
          have h2 := hex (i - rs.length) q (by
            rw [hdrop, List.getElem?_drop, Nat.add_sub_cancel' hl]
            exact hi)
          rw [hresp1, Nat.add_assoc, Nat.add_sub_cancel' hl] at h2
          exact h2
      · intro j hj
        rw [hoth j (by rw [hresp1]; omega), hoth1 j hj]
      · rw [hdrop, List.drop_drop] at hfin
        show Conversing final ((pending ++ ts.flatMap Turn.asked).drop (rs ++ ts.flatMap Turn.answered).length)
        rw [List.length_append]
        exact hfin
      · rw [hrn, hresp1]
        show _ = _ + (rs ++ ts.flatMap Turn.answered).length
        rw [List.length_append, Nat.add_assoc]
      · rw [hqn, hreq1]
        rfl

/-- C60: a conversation of any length, in which well-formed requests and responses come in any number of calls with any
number of messages each, and no response before its request, with a parser that is between two messages on either
side and owes no response. Every call answers that it took everything in. The callbacks are exactly those of the
messages, in the order in which the messages were given, each request and its response under the same index. In the
end each request is in a transaction of its own, together with its response if that was given (or the transaction was
removed, if the configuration says so); earlier transactions are untouched. With automatic removal only the unanswered
requests count towards the limit of transactions. -/
theorem C60_conversation {e : Env} {s : Conn} (hs : Reachable e s) (hw : Willing e) (hq : BetweenRequests s)
    (hp : BetweenResponses s) (hx : s.txs.request = s.txs.response) (turns : List Turn)
    (ht : Sensible e.cfg [] s.txs.map.length turns) :
    let ops := turns.map Turn.op
    let final := ops.foldl (Op.after e) s
    answersTo e ops s = turns.map (fun _ => .ok (some .data)) ∧
    final.trace = s.trace ++ conversation s.txs.request s.txs.request turns ∧
    (∀ i q, (turns.flatMap Turn.asked)[i]? = some q →
      Exchanged e.cfg.txAutoDestroy final.txs (s.txs.request + i) q (turns.flatMap Turn.answered)[i]?) ∧
    (∀ j, j < s.txs.request → final.txs.get j = s.txs.get j) ∧
    BetweenRequests final ∧ BetweenResponses final ∧
    final.txs.request = s.txs.request + (turns.flatMap Turn.asked).length ∧
    final.txs.response = s.txs.request + (turns.flatMap Turn.answered).length := by
  have ho : Occupied s s.txs.map.length := by
    refine ⟨(reachable_bounded hs).1, ?_⟩
    rcases hq.next with h | h
    · exact .inl ⟨h, Nat.le_refl _⟩
    · exact .inr ⟨by rw [h]; rfl, Nat.le_succ _⟩
  obtain ⟨h1, h2, h3, h4, h5, h6, h7⟩ := conversing hw turns (pending := [])
    ⟨hq, hp, hx.symm, (fun _ h => by cases h), (fun _ _ h => by cases h)⟩ ho ht _ rfl
  rw [← hx] at h2 h3 h4 h6
  rw [List.nil_append] at h3 h5
  refine ⟨h1, h2, h3, h4, h5.requests, h5.responses, h7, h6⟩

/-- A configuration with room for two transactions, which are removed when they are complete. -/
def smallEnv : Env := { sampleEnv with cfg := { txAutoDestroy := true, maxTx := 2 } }

/-- Two requests, an answer to the first, a third request, two answers in two calls, another request. -/
def sampleTurns : List Turn :=
  [.ask (threeRequests.take 2), .answer [trailerResponse], .ask (threeRequests.drop 2), .answer [noTrailerResponse],
   .answer [sizedResponse], .ask (threeRequests.take 1)]

/-- Case for C60: this conversation, from the start, with and without automatic removal. -/
example : Willing smallEnv ∧ BetweenRequests {} ∧ BetweenResponses {} ∧ Reachable smallEnv {} ∧
    Sensible smallEnv.cfg [] ({} : Conn).txs.map.length sampleTurns ∧
    Willing sampleEnv ∧ Sensible sampleEnv.cfg [] ({} : Conn).txs.map.length sampleTurns := by
  have hreq : ∀ cfg : Config, cfg.fieldLimit = 18000 → ∀ qs ≠ [], (∀ q ∈ qs, q ∈ threeRequests) → Sendable cfg qs := by
    intro cfg hcfg qs hne hm
    refine ⟨hne, fun q h => threeRequests_wellFormed q (hm q h), fun q h => ?_⟩
    rw [hcfg]
    exact (by decide +kernel : ∀ q ∈ threeRequests, q.line.length + 2 ≤ 18000) q (hm q h)
  have hresp : ∀ cfg : Config, cfg.fieldLimit = 18000 → ∀ pending ≠ [], (∀ q ∈ pending, q ∈ threeRequests) →
      ∀ r ∈ [trailerResponse, noTrailerResponse, sizedResponse], Answers cfg pending [r] := by
    intro cfg hcfg pending hne hm r hr
    refine ⟨by simp, ?_, ?_, ?_, by simp, ?_⟩
    · cases pending with
      | nil => exact absurd rfl hne
      | cons q pending => simp
    · intro i q r' hq hr'
      have h1 : q.method ≠ b! "HEAD" := (by decide +kernel : ∀ q ∈ threeRequests, q.method ≠ b! "HEAD") q
        (hm q (List.mem_of_getElem? hq))
      rw [decide_eq_false h1]
      have h2 : r' ∈ [trailerResponse, noTrailerResponse, sizedResponse] := by
        have := List.mem_of_getElem? hr'
        rw [List.mem_singleton] at this
        rw [this]; exact hr
      simp only [List.mem_cons, List.not_mem_nil, or_false] at h2
      rcases h2 with rfl | rfl | rfl
      · exact trailerResponse_wellFormed
      · exact noTrailerResponse_wellFormed
      · exact sizedResponse_wellFormed
    · intro i q r' hq _
      exact .inl ((by decide +kernel : ∀ q ∈ threeRequests, ∀ h ∈ q.headers ++ q.body.trailer, ¬ EqNocase h.name (b! "expect")) q
        (hm q (List.mem_of_getElem? hq)))
    · intro r' hr'
      rw [List.mem_singleton] at hr'
      subst hr'
      rw [hcfg]
      exact (by decide +kernel : ∀ r ∈ [trailerResponse, noTrailerResponse, sizedResponse], r.line.length + 2 ≤ 18000) r' hr
  refine ⟨⟨fun _ _ => rfl, .inr (by decide), fun f h => by cases h⟩, ⟨rfl, rfl, rfl, rfl, .inl rfl, .inl rfl, fun _ _ => rfl⟩,
    ⟨rfl, rfl, rfl, rfl, .inl rfl, rfl⟩, .new, ?_, ⟨fun _ _ => rfl, .inr (by decide), fun f h => by cases h⟩, ?_⟩
  · refine ⟨hreq _ rfl _ (by decide) ?_, by decide, hresp _ rfl _ (by decide) ?_ _ (by simp),
      hreq _ rfl _ (by decide) ?_, by decide, hresp _ rfl _ (by decide) ?_ _ (by simp), hresp _ rfl _ (by decide) ?_ _ (by simp),
      hreq _ rfl _ (by decide) ?_, by decide, trivial⟩ <;> simp [threeRequests]
  · refine ⟨hreq _ rfl _ (by decide) ?_, by decide, hresp _ rfl _ (by decide) ?_ _ (by simp),
      hreq _ rfl _ (by decide) ?_, by decide, hresp _ rfl _ (by decide) ?_ _ (by simp), hresp _ rfl _ (by decide) ?_ _ (by simp),
      hreq _ rfl _ (by decide) ?_, by decide, trivial⟩ <;> simp [threeRequests]

end Props
