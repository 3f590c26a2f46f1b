/-
Conversations in which requests and responses come in pieces.
-/
import Verif.Lemmas.Joint
import Verif.Props.Segmented
import Verif.Props.SegmentedAnswer

namespace Props
open Model Spec

/-- C66: a conversation of any length in which requests and responses come in pieces, cut where C61 and C62 allow it, and
the pieces of the one side come between the pieces of the other. A piece of a response may come when it is clear that
its request is over (`RequestsOver`); the next requests may be on their way. Every call answers that it took everything
in. On either side the callbacks are those of the messages (C58, C59), except that header and body data may be handed out
in several pieces, which make up the same data; no callback of the one side depends on how the other was cut. Each
request and its response are in the same transaction. -/
theorem C66_interleaved_partial {e : Env} {s : Conn} (hs : Reachable e s) (hw : Willing e) (hq : BetweenRequests s)
    (hp : BetweenResponses s) (hx : s.txs.request = s.txs.response) (requests : List Request) (responses : List Response)
    (moves : List Move) (hm : Interleaved e.cfg s.txs.map.length requests responses moves) :
    let ops := moves.map Move.op
    let final := ops.foldl (Op.after e) s
    answersTo e ops s = moves.map (fun _ => .ok (some .data)) ∧
    (∃ evs, final.trace.filter Event.ofRequest = s.trace.filter Event.ofRequest ++ evs ∧
      Pieces (requestCallbacks s.txs.request requests) evs) ∧
    (∃ evs, final.trace.filter Event.ofResponse = s.trace.filter Event.ofResponse ++ evs ∧
      Pieces (responseCallbacks s.txs.request responses) evs) ∧
    (∀ i q, requests[i]? = some q → Exchanged e.cfg.txAutoDestroy final.txs (s.txs.request + i) q responses[i]?) ∧
    (∀ j, j < s.txs.request → final.txs.get j = s.txs.get j) ∧
    BetweenRequests final ∧ BetweenResponses final ∧
    final.txs.request = s.txs.request + requests.length ∧
    final.txs.response = s.txs.request + responses.length := by
  have ho : Occupied s s.txs.map.length := by
    refine ⟨(reachable_bounded hs).1, ?_⟩
    rcases hq.next with h | h
    · exact .inl ⟨h, Nat.le_refl _⟩
    · exact .inr ⟨by rw [h]; rfl, Nat.le_succ _⟩
  obtain ⟨h1, dq, cq, fq, TQ, dr, cr, fr, TR, o, J⟩ := Joint.moves hw hm moves [] rfl (Joint.start hq hp hx ho)
  obtain ⟨rfl, rfl, rfl⟩ := J.asks.over Request.lineTokens_prefix Request.lineTokens_ne hm.asked
  obtain ⟨rfl, rfl, rfl⟩ := J.answers.over Response.lineTokens_prefix Response.lineTokens_ne hm.answered
  obtain rfl := J.old.2 rfl
  have hM := J.askWay _ _ (.refl _ _) J.occupied
  have hN := J.answerWay _ (.refl _ _ J.occupied.1)
  obtain ⟨-, hbq, -, evs, h2, h3⟩ := hM.over
  obtain ⟨-, hbp, -, -, evs', h4, h5⟩ := hN.over
  refine ⟨h1, ⟨evs, h2, ?_⟩, ⟨evs', h4, ?_⟩, ?_, J.others, hbq, hbp, J.request, J.response⟩
  · simpa [requestCallbacks, askLog, Log.at] using h3
  · simpa [responseCallbacks, answerLog, Log.at] using h5
  · intro i q hqi
    rcases h : dr[i]? with _ | r
    · exact J.waiting i q (List.getElem?_eq_none_iff.1 h) hqi
    · exact J.exchanged i q r hqi h

deriving instance DecidableEq for Spec.Token

/-- Three requests and two responses in seven calls. The first call has the first request and a part of the line of the
second; with the rest of that line it is clear that the first is over, and its response begins to come before the second
request is over. The third request begins in the middle of the second response. -/
def sampleMoves : List Move :=
  let q := threeRequests.flatMap Request.tokens
  let r := twoTokens
  [.ask (q.take 40), .ask ((q.drop 40).take 20), .answer (r.take 30), .ask ((q.drop 60).take 40), .answer ((r.drop 30).take 52),
   .ask (q.drop 100), .answer (r.drop 82)]

set_option maxRecDepth 8000 in
/-- Case for C66: this is such a conversation, with room for only two transactions. -/
example : Reachable smallEnv {} ∧ Willing smallEnv ∧ BetweenRequests {} ∧ BetweenResponses {} ∧
    Interleaved smallEnv.cfg 0 threeRequests [trailerResponse, sizedResponse] sampleMoves := by
  refine ⟨.new, ⟨fun _ _ => rfl, .inr (by decide), fun f h => by cases h⟩,
    ⟨rfl, rfl, rfl, rfl, .inl rfl, .inl rfl, fun _ _ => rfl⟩, ⟨rfl, rfl, rfl, rfl, .inl rfl, rfl⟩, ?_, ?_, ?_, ?_, ?_, ?_, ?_, ?_⟩
  · intro q hq
    refine ⟨threeRequests_wellFormed q hq, ?_⟩
    revert q
    decide +kernel
  · intro i q r hq hr
    match i with
    | 0 => cases hq; cases hr; exact ⟨trailerResponse_wellFormed, by decide +kernel⟩
    | 1 => cases hq; cases hr; exact ⟨sizedResponse_wellFormed, by decide +kernel⟩
  · decide +kernel
  · decide +kernel
  · decide +kernel
  · intro i c hc
    match i with
    | 2 => cases hc; exact ⟨1, ⟨by decide, .inr ⟨_, ((threeRequests.flatMap Request.tokens).take 60).drop 49, rfl, by decide +kernel⟩⟩, by decide +kernel⟩
    | 4 => cases hc; exact ⟨2, ⟨by decide, .inl ⟨_, [], (List.append_nil _).symm, by decide +kernel⟩⟩, by decide +kernel⟩
    | 6 => cases hc; exact ⟨3, ⟨by decide, .inl ⟨_, [], (List.append_nil _).symm, by decide +kernel⟩⟩, by decide +kernel⟩
  · intro i r hr hf
    refine absurd ?_ hf
    match i with
    | 0 => cases hr; exact ⟨by decide, by intro _ _ h; cases h⟩
    | 1 => cases hr; exact ⟨by decide, by intro _ _ h; cases h⟩
  · intro i c hc
    have h0 : ResponsesOver [trailerResponse, sizedResponse] 0 [] := ⟨by decide, .inl ⟨[], [], rfl, rfl⟩⟩
    match i with
    | 0 => cases hc; exact ⟨2, 0, by decide +kernel, h0, by decide⟩
    | 1 => cases hc; exact ⟨2, 0, by decide +kernel, h0, by decide⟩
    | 3 => cases hc; exact ⟨2, 0, by decide +kernel, ⟨by decide, .inl ⟨[], _, rfl, rfl⟩⟩, by decide⟩
    | 5 => cases hc; exact ⟨3, 1, by decide +kernel, ⟨by decide, .inr ⟨_, (twoTokens.take 82).drop 81, rfl, by decide +kernel⟩⟩, by decide⟩
    | 6 => cases hc
    | n + 7 => cases hc

/-- A request line, header fields and whether the request has been reported as complete, for every transaction. -/
def requestsSeen (ops : List Op) : List (Option Bytes × Nat) × List Nat :=
  let s := ops.foldl (Op.after sampleEnv) {}
  (s.txs.map.map fun p => (p.2.requestLine, p.2.requestHeaders.length),
   s.trace.filterMap fun ev => match ev with | .tx .requestComplete k => some k | _ => none)

set_option maxRecDepth 8000 in
/-- Why responses must not come early: two responses come when the line of the first request has come, but not its header
fields. The second response is given a transaction of its own, and the request parser goes over to that transaction: the
first request is never reported as complete, and its header field is recorded in the other transaction. -/
theorem C66_early_responses : ∃ a b : Bytes, a ++ b = (threeRequests.take 2).flatMap Request.render ∧
    requestsSeen [.request (.data a), .request (.data b), .response (.data (sizedResponse.render ++ sizedResponse.render))] =
      ([(some (b! "GET /a?b=c HTTP/1.1"), 1), (some (b! "POST /p HTTP/1.0"), 2), (none, 0)], [0, 1]) ∧
    requestsSeen [.request (.data a), .response (.data (sizedResponse.render ++ sizedResponse.render)), .request (.data b)] =
      ([(some (b! "GET /a?b=c HTTP/1.1"), 0), (none, 1), (some (b! "POST /p HTTP/1.0"), 2), (none, 0)], [2]) :=
  ⟨b! "GET /a?b=c HTTP/1.1\r\nHost", b! ": h\r\n\r\n" ++ ((threeRequests.take 2).drop 1).flatMap Request.render,
    by decide +kernel, by decide_cbv, by decide_cbv⟩

end Props
