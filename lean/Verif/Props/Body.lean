/-
Properties of message bodies: C34.
-/
import Verif.Lemmas.ConnIdentity

namespace Props

open Model Spec M

/-- The number of bytes in these chunks. -/
def total (cs : List Chunk) : Nat := (cs.map chunkLength).sum

theorem content_total (cs : List Chunk) : (cs.flatMap content).length = total cs := by
  unfold total
  induction cs with
  | nil => rfl
  | cons c cs ih => simp [ih, content_length]

/-! ### C34: bodies of known length -/

/-- C34. A request body of known length, `n` bytes of which are still missing, and any chunks (of data, or
gaps) that do not reach its end: every call wants more data, everything received has been given to the
callbacks, in order, and nothing else, and the right number of bytes is still missing. -/
theorem C34_request_inside (e : Env) (hcb : CallbacksOK e) (cs : List Chunk) (s : Conn) (n : Nat)
    (h : ReceivingRequest s n) (hne : ∀ c ∈ cs, chunkLength c ≠ 0) (hlt : total cs < n) :
    (∀ a ∈ requestAnswers e cs s, a = .ok (some .data)) ∧
    (feedRequest e cs s).txs.request = s.txs.request ∧
    delivered .requestBodyData s.txs.request (feedRequest e cs s).trace =
      delivered .requestBodyData s.txs.request s.trace ++ cs.flatMap content ∧
    ReceivingRequest (feedRequest e cs s) (n - total cs) := by
  induction cs generalizing s n with
  | nil => exact ⟨(by simp [requestAnswers]), rfl, (by simp [feedRequest]), h⟩
  | cons c cs ih =>
    have hc := hne c (by simp)
    have hs : total (c :: cs) = chunkLength c + total cs := by simp [total]
    rw [hs] at hlt
    obtain ⟨N, s1, hrun, -, h1, hin, htr, hrq⟩ := request_enter (e := e) h c hc
    have hl : s1.input.len = chunkLength c := by rw [hin]; exact toPData_len c
    obtain ⟨s2, hstep, h2, hrq2, -, hd⟩ := requestIdentity_round_inside hcb h1 (by rw [hl]; exact hc)
      (by omega)
    have hall : (Op.request c).run e s = (.ok (some .data), s2) := by
      rw [hrun]
      exact requestLoop_some (by omega) hstep
    have haft : (Op.request c).after e s = s2 := congrArg Prod.snd hall
    have hans : ((Op.request c).run e s).1 = .ok (some .data) := congrArg Prod.fst hall
    rw [hl] at h2
    obtain ⟨i1, i2, i3, i4⟩ := ih s2 (n - chunkLength c) h2 (fun c hc => hne c (by simp [hc])) (by omega)
    have hfeed : feedRequest e (c :: cs) s = feedRequest e cs s2 := by
      show feedRequest e cs ((Op.request c).after e s) = _
      rw [haft]
    rw [hrq2, hrq] at i2 i3
    rw [hfeed, hs]
    refine ⟨?_, i2, ?_, ?_⟩
    · intro a ha
      unfold requestAnswers at ha
      rw [hans, haft] at ha
      rcases List.mem_cons.1 ha with rfl | ha
      · rfl
      · exact i1 a ha
    · rw [hrq] at hd
      rw [i3, hd, htr, hin, handedOut_toPData]
      simp
    · rw [← Nat.sub_sub]
      exact i4

/-- C34. The chunk in which the body ends, whatever the segmentation before: after one round of the loop the
callbacks have been given exactly the first `n` bytes, in order, and the next byte to be read is the one
that follows them. -/
theorem C34_request_end (e : Env) (hcb : CallbacksOK e) (cs : List Chunk) (c : Chunk) (s : Conn) (n : Nat)
    (h : ReceivingRequest s n) (hne : ∀ c ∈ cs, chunkLength c ≠ 0) (hlt : total cs < n)
    (hend : n ≤ total (cs ++ [c])) :
    ∃ s1, Rounds (requestStep e) 1 (requestLoopStart e c (feedRequest e cs s)) s1 ∧
      s1.req.state = .finalize ∧
      delivered .requestBodyData s.txs.request s1.trace =
        delivered .requestBodyData s.txs.request s.trace ++ ((cs ++ [c]).flatMap content).take n ∧
      handedOut s1.input = ((cs ++ [c]).flatMap content).drop n ∧
      s1.trace <+: ((Op.request c).after e (feedRequest e cs s)).trace := by
  obtain ⟨-, i2, i3, i4⟩ := C34_request_inside e hcb cs s n h hne hlt
  have hs : total (cs ++ [c]) = total cs + chunkLength c := by simp [total]
  rw [hs] at hend
  obtain ⟨N, s1, hrun, hstart, h1, hin, htr, hrq⟩ := request_enter (e := e) i4 c (by omega)
  have hl : s1.input.len = chunkLength c := by rw [hin]; exact toPData_len c
  obtain ⟨s2, hstep, hst, hin2, hrq2, -, hd⟩ := requestIdentity_round_last hcb h1 (by omega) (by omega)
  have hc : handedOut s1.input = content c := by rw [hin]; exact handedOut_toPData c
  refine ⟨s2, ?_, hst, ?_, ?_, ?_⟩
  · rw [hstart]
    exact .next hstep (.zero _)
  · rw [hrq, i2] at hd
    rw [hd, htr, i3, hc, List.append_assoc]
    congr 1
    rw [List.flatMap_append, List.take_append, content_total,
      List.take_of_length_le (l := cs.flatMap content) (by rw [content_total]; omega)]
    simp
  · rw [hin2, handedOut_consume _ _ (by omega), hc, List.flatMap_append, List.drop_append, content_total,
      List.drop_of_length_le (l := cs.flatMap content) (by rw [content_total]; omega)]
    simp
  · show s2.trace <+: ((Op.request c).run e (feedRequest e cs s)).2.trace
    rw [hrun, requestLoop_none hstep]
    exact (requestLoop_frame e N s2).trace

theorem C34_response_inside (e : Env) (hcb : CallbacksOK e) (cs : List Chunk) (s : Conn) (n : Nat)
    (h : ReceivingResponse s n) (hne : ∀ c ∈ cs, chunkLength c ≠ 0) (hlt : total cs < n) :
    (∀ a ∈ responseAnswers e cs s, a = .ok (some .data)) ∧
    (feedResponse e cs s).txs.response = s.txs.response ∧
    delivered .responseBodyData s.txs.response (feedResponse e cs s).trace =
      delivered .responseBodyData s.txs.response s.trace ++ cs.flatMap content ∧
    ReceivingResponse (feedResponse e cs s) (n - total cs) := by
  induction cs generalizing s n with
  | nil => exact ⟨(by simp [responseAnswers]), rfl, (by simp [feedResponse]), h⟩
  | cons c cs ih =>
    have hc := hne c (by simp)
    have hs : total (c :: cs) = chunkLength c + total cs := by simp [total]
    rw [hs] at hlt
    obtain ⟨N, s1, hrun, -, h1, hin, htr, hrq⟩ := response_enter (e := e) h c hc
    have hl : s1.input.len = chunkLength c := by rw [hin]; exact toPData_len c
    obtain ⟨s2, hstep, h2, hrq2, -, hd⟩ := responseIdentity_round_inside hcb h1 (by rw [hl]; exact hc)
      (by omega)
    have hall : (Op.response c).run e s = (.ok (some .data), s2) := by
      rw [hrun]
      exact responseLoop_some (by omega) hstep
    have haft : (Op.response c).after e s = s2 := congrArg Prod.snd hall
    have hans : ((Op.response c).run e s).1 = .ok (some .data) := congrArg Prod.fst hall
    rw [hl] at h2
    obtain ⟨i1, i2, i3, i4⟩ := ih s2 (n - chunkLength c) h2 (fun c hc => hne c (by simp [hc])) (by omega)
    have hfeed : feedResponse e (c :: cs) s = feedResponse e cs s2 := by
      show feedResponse e cs ((Op.response c).after e s) = _
      rw [haft]
    rw [hrq2, hrq] at i2 i3
    rw [hfeed, hs]
    refine ⟨?_, i2, ?_, ?_⟩
    · intro a ha
      unfold responseAnswers at ha
      rw [hans, haft] at ha
      rcases List.mem_cons.1 ha with rfl | ha
      · rfl
      · exact i1 a ha
    · rw [hrq] at hd
      rw [i3, hd, htr, hin, handedOut_toPData]
      simp
    · rw [← Nat.sub_sub]
      exact i4

theorem C34_response_end (e : Env) (hcb : CallbacksOK e) (cs : List Chunk) (c : Chunk) (s : Conn) (n : Nat)
    (h : ReceivingResponse s n) (hne : ∀ c ∈ cs, chunkLength c ≠ 0) (hlt : total cs < n)
    (hend : n ≤ total (cs ++ [c])) :
    ∃ s1, Rounds (responseStep e) 1 (responseLoopStart e c (feedResponse e cs s)) s1 ∧
      s1.resp.state = .finalize ∧
      delivered .responseBodyData s.txs.response s1.trace =
        delivered .responseBodyData s.txs.response s.trace ++ ((cs ++ [c]).flatMap content).take n ∧
      handedOut s1.input = ((cs ++ [c]).flatMap content).drop n ∧
      s1.trace <+: ((Op.response c).after e (feedResponse e cs s)).trace := by
  obtain ⟨-, i2, i3, i4⟩ := C34_response_inside e hcb cs s n h hne hlt
  have hs : total (cs ++ [c]) = total cs + chunkLength c := by simp [total]
  rw [hs] at hend
  obtain ⟨N, s1, hrun, hstart, h1, hin, htr, hrq⟩ := response_enter (e := e) i4 c (by omega)
  have hl : s1.input.len = chunkLength c := by rw [hin]; exact toPData_len c
  obtain ⟨s2, hstep, hst, hin2, hrq2, -, hd⟩ := responseIdentity_round_last hcb h1 (by omega) (by omega)
  have hc : handedOut s1.input = content c := by rw [hin]; exact handedOut_toPData c
  refine ⟨s2, ?_, hst, ?_, ?_, ?_⟩
  · rw [hstart]
    exact .next hstep (.zero _)
  · rw [hrq, i2] at hd
    rw [hd, htr, i3, hc, List.append_assoc]
    congr 1
    rw [List.flatMap_append, List.take_append, content_total,
      List.take_of_length_le (l := cs.flatMap content) (by rw [content_total]; omega)]
    simp
  · rw [hin2, handedOut_consume _ _ (by omega), hc, List.flatMap_append, List.drop_append, content_total,
      List.drop_of_length_le (l := cs.flatMap content) (by rw [content_total]; omega)]
    simp
  · show s2.trace <+: ((Op.response c).run e (feedResponse e cs s)).2.trace
    rw [hrun, responseLoop_none hstep]
    exact (responseLoop_frame e N s2).trace

/-- C34. How a request gets there: its headers are complete, its body is not encoded and a length `n` was announced.
One round later `n` bytes are missing; nothing of the input has been used and nothing was handed out. -/
theorem C34_request_start (e : Env) (s : Conn) (t : Tx) (n : Nat) (hs : s.req.state = .bodyDetermine)
    (hg : s.input.isGap = false) (hst : s.req.status = .open ∨ s.req.status = .data) (hr : s.req.receiver = none)
    (ht : s.txs.get s.txs.request = some t) (hcod : t.requestTransferCoding = .identity)
    (hn : t.requestContentLength = some n) (hn0 : n ≠ 0) (henc : t.requestContentEncodingProcessing = .none)
    (hlen : t.requestEntityLen + n < 2 ^ 64) :
    ∃ s', requestStep e s = (.ok none, s') ∧ ReceivingRequest s' n ∧ s'.input = s.input ∧ s'.trace = s.trace ∧
      s'.txs.request = s.txs.request := by
  obtain ⟨s', h, h1, h2, h3, h4, h5, h6, h7, h8⟩ := requestBodyDetermine_identity (e := e) hs hg hst ht hcod hn hn0
  exact ⟨s', h, ⟨h1, h2, by rw [h3]; exact hst, h4.trans hr, _, h8, rfl, henc, hlen⟩, h5, h6, h7⟩

/-- C34. A response body that ends with the stream: everything received is handed out, in order. -/
theorem C34_response_until_close (e : Env) (hcb : CallbacksOK e) (cs : List Chunk) (s : Conn)
    (h : ReceivingUntilClose s) (hne : ∀ c ∈ cs, chunkLength c ≠ 0) :
    (∀ a ∈ responseAnswers e cs s, a = .ok (some .data)) ∧
    delivered .responseBodyData s.txs.response (feedResponse e cs s).trace =
      delivered .responseBodyData s.txs.response s.trace ++ cs.flatMap content ∧
    ReceivingUntilClose (feedResponse e cs s) := by
  induction cs generalizing s with
  | nil => exact ⟨(by simp [responseAnswers]), (by simp [feedResponse]), h⟩
  | cons c cs ih =>
    obtain ⟨s1, hrun, h1, hrq, hd⟩ := responseStreamClose_call hcb h c (hne c (by simp))
    obtain ⟨i1, i2, i3⟩ := ih s1 h1 fun c hc => hne c (by simp [hc])
    have haft : (Op.response c).after e s = s1 := congrArg Prod.snd hrun
    have hans : ((Op.response c).run e s).1 = .ok (some .data) := congrArg Prod.fst hrun
    have hfeed : feedResponse e (c :: cs) s = feedResponse e cs s1 := by
      show feedResponse e cs ((Op.response c).after e s) = _
      rw [haft]
    rw [hfeed]
    refine ⟨?_, ?_, i3⟩
    · intro a ha
      unfold responseAnswers at ha
      rw [hans, haft] at ha
      rcases List.mem_cons.1 ha with rfl | ha
      · rfl
      · exact i1 a ha
    · rw [hrq] at i2
      rw [i2, hd]
      simp

/-- Bodies being received, with data and gaps that end them. -/
example : CallbacksOK sampleEnv := fun _ _ => rfl

example : let s := Conn.history sampleEnv [.open, .request (.data (b! "POST / HTTP/1.1\r\nContent-Length: 9\r\n\r\nabc"))];
    s.req.state = .bodyIdentity ∧ s.req.bodyDataLeft = some 6 ∧ s.req.status = .data ∧ s.req.receiver = none ∧
    (s.txs.get s.txs.request).map (fun t => (t.requestProgress, t.requestContentEncodingProcessing,
      t.requestEntityLen)) = some (.body, .none, 3) ∧
    total [.data (b! "de"), .gap 2] < 6 ∧ 6 ≤ total ([.data (b! "de"), .gap 2] ++ [.data (b! "hiGET")]) := by
  decide_cbv

example : let s := Conn.history sampleEnv [.open, .request (.data (b! "GET / HTTP/1.1\r\n\r\n")), .response (.data (b! "HTTP/1.1 200 OK\r\nContent-Length: 9\r\n\r\nabc"))];
    s.resp.state = .bodyIdentityClKnown ∧ s.resp.bodyDataLeft = some 6 ∧ s.resp.status = .data ∧
    s.resp.receiver = none ∧
    (s.txs.get s.txs.response).map (fun t => (t.responseProgress, t.responseContentEncodingProcessing)) =
      some (.body, .none) := by
  decide_cbv

example : let s := Conn.history sampleEnv [.open, .request (.data (b! "GET / HTTP/1.1\r\n\r\n")), .response (.data (b! "HTTP/1.1 200 OK\r\nServer: a\r\n\r\nabc"))];
    s.resp.state = .bodyIdentityStreamClose ∧ s.resp.status = .data ∧ s.resp.receiver = none ∧
    (s.txs.get s.txs.response).map (fun t => (t.responseProgress, t.responseContentEncodingProcessing)) =
      some (.body, .none) := by
  decide_cbv

end Props
