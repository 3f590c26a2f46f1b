/-
CONNECT requests: what the client sends when they have been answered.
-/
import Verif.Lemmas.ConnectResp

namespace Model

open M Spec Props

/-! The first line is looked at. -/

theorem takeTillLfNull_line {x rest : Bytes} {c : UInt8} (hx : ∀ d ∈ x, d ≠ 10 ∧ d ≠ 0) (hc : c = 10 ∨ c = 0) :
    takeTillLfNull (x ++ c :: rest) = .ok rest (x ++ [c]) := by
  have hp : (c == 10 || c == 0) = true := by rcases hc with rfl | rfl <;> rfl
  have h1 : (x ++ c :: rest).takeWhile (fun c => !(c == 10 || c == 0)) = x ∧
      (x ++ c :: rest).dropWhile (fun c => !(c == 10 || c == 0)) = c :: rest := by
    refine span_of_append ?_ ?_
    · intro d hd
      have := hx d hd
      simp [this.1, this.2]
    · intro d hd
      cases hd
      simp [hp]
  unfold takeTillLfNull takeTillIncl Nom.takeTillS Nom.takeWhileS
  rw [h1.1, h1.2, if_neg (by simp)]
  dsimp only
  have h2 : x.length + 1 = (x ++ [c]).length := by simp
  have h3 : x ++ c :: rest = (x ++ [c]) ++ rest := by simp
  rw [h2, h3, List.drop_left, List.take_left]

theorem takeTillLfNull_none {x : Bytes} (hx : ∀ d ∈ x, d ≠ 10 ∧ d ≠ 0) : takeTillLfNull x = .incomplete := by
  have : x.dropWhile (fun c => !(c == 10 || c == 0)) = [] := by
    induction x with
    | nil => rfl
    | cons c x ih =>
      have := hx c (by simp)
      rw [List.dropWhile_cons, if_pos (by simp [this.1, this.2])]
      exact ih fun d hd => hx d (List.mem_cons_of_mem _ hd)
  unfold takeTillLfNull takeTillIncl Nom.takeTillS Nom.takeWhileS
  rw [if_pos this]

/-- The request side goes on when the response is complete. -/
theorem wait_over {e : Env} {s : Conn} (hs : Txs.Sorted s.txs.map) {t : Tx} (h : Negotiates s t) (hp : t.responseProgress = .complete)
    {n : Nat} (hn : t.responseStatusNumber = .valid n) (b : Bytes) :
    requestStep e (requestFed b s) = (.ok none, rq (requestFed b s)
      { (requestFed b s).req with
        state := if 200 ≤ n ∧ n ≤ 299 then .connectProbeData else .finalize
        statePrevious := if 200 ≤ n ∧ n ≤ 299 then .connectProbeData else .finalize } t [] (win [] b 0)) := by
  have hself : rq (requestFed b s) (requestFed b s).req t [] (win [] b 0) = requestFed b s :=
    rq_self (s := requestFed b s) hs h.current _ rfl
  refine rq_round (s0 := requestFed b s) (requestFed b s)
    { (requestFed b s).req with state := if 200 ≤ n ∧ n ≤ 299 then .connectProbeData else .finalize } t [] (win [] b 0) rfl ?_
    h.live.2.2.1 (by dsimp only; split <;> simp)
  rw [hrs (s := requestFed b s) (st := .connectWaitResponse) h.state]
  show requestConnectWaitResponse e (requestFed b s) = _
  suffices hk : requestConnectWaitResponse e (rq (requestFed b s) (requestFed b s).req t [] (win [] b 0)) = (.ok (), rq (requestFed b s)
      { (requestFed b s).req with state := if 200 ≤ n ∧ n ≤ 299 then .connectProbeData else .finalize } t [] (win [] b 0)) by
    rwa [hself] at hk
  unfold requestConnectWaitResponse
  rw [rq_tx_bind, if_neg (by rw [hp]; decide), hn]
  by_cases hc : 200 ≤ n ∧ n ≤ 299
  · rw [if_pos (by simpa [ResponseNumber.inRange] using hc), if_pos hc]
    rfl
  · rw [if_neg (by simpa [ResponseNumber.inRange] using hc), if_neg hc]
    rfl

/-- Part of the first line is read. -/
theorem probe_part {e : Env} (s : Conn) (h : Half) (t : Tx) (evs : List Event) (d : Bytes) (q : Nat)
    (hst : h.state = .connectProbeData) (hr : h.receiver = none) (hd : ∀ c ∈ d, c ≠ 10 ∧ c ≠ 0)
    (hl : h.buffered + d.length ≤ e.cfg.fieldLimit) :
    ∃ inp, requestStep e (rq s h t evs (win [] d q)) = (.ok (some .data),
      rq s { h with buf := h.buf ++ d, bytesConsumed := d.length, status := .data } t evs inp) := by
  refine ⟨_, rq_pause s { h with buf := h.buf ++ d, bytesConsumed := d.length } t evs evs (win ([] ++ d) [] q) _
    (.inr rfl) (by rfl) ?_ (rq_send_none _ _ _ _ _ hr)⟩
  rw [hrs (st := .connectProbeData) hst]
  show requestConnectProbeData e _ = _
  unfold requestConnectProbeData
  rw [rq_state_bind, rq_input, win_asSlice, takeTillLfNull_none hd]
  exact rq_absentLf s h t evs [] d q hl

/-- The first line does not begin with a method: the tunnel is recognised. -/
theorem probe_tunnel {e : Env} (s : Conn) (h : Half) (t : Tx) (evs : List Event) (x rest : Bytes) (c : UInt8) (q : Nat)
    (hst : h.state = .connectProbeData) (hx : ∀ d ∈ x, d ≠ 10 ∧ d ≠ 0) (hc : c = 10 ∨ c = 0)
    (hl : h.buf ≠ [] → h.buffered + (x ++ [c]).length ≤ e.cfg.fieldLimit) (hm : Method.new (firstWord (h.buf ++ (x ++ [c]))) = .unknown) :
    requestStep e (rq s h t evs (win [] (x ++ c :: rest) q)) = (.ok (some .tunnel),
      rq { s with resp := { s.resp with status := .tunnel } } { h with status := .tunnel } t evs (win [] (x ++ c :: rest) q)) := by
  have h1 : handleRequestState e (rq s h t evs (win [] (x ++ c :: rest) q)) = (.ok (),
      rq { s with resp := { s.resp with status := .tunnel } } { h with status := .tunnel } t evs (win [] (x ++ c :: rest) q)) := by
    rw [hrs (st := .connectProbeData) hst]
    show requestConnectProbeData e _ = _
    unfold requestConnectProbeData
    rw [rq_state_bind, rq_input, win_asSlice, takeTillLfNull_line hx hc]
    dsimp only
    rw [rq_req]
    have hchk : M.when (decide (h.buf ≠ [])) (checkRequestBufferLimit e (x ++ [c]).length) (rq s h t evs (win [] (x ++ c :: rest) q)) =
        (.ok (), rq s h t evs (win [] (x ++ c :: rest) q)) := by
      by_cases h0 : h.buf = []
      · rw [show decide (h.buf ≠ []) = false from by simp [h0]]
        rfl
      · rw [show decide (h.buf ≠ []) = true from by simp [h0]]
        show checkRequestBufferLimit e _ _ = _
        unfold checkRequestBufferLimit
        rw [rq_state_bind, rq_req, if_neg (by have := hl h0; omega)]
        rfl
    rw [M.bind_ok hchk, if_pos hm]
    rfl
  rw [requestStep_rc (by rfl) (M.attempt_ok h1)]
  rfl

/-! The request is over. -/

/-- The transactions after a request that has been answered. -/
def finishedTxs (auto : Bool) (txs : Txs) (t : Tx) : Txs :=
  { (if auto then (txs.set txs.request t).remove txs.request else txs.set txs.request t) with request := txs.request + 1 }

/-- The parser after the current request, which has been answered: this request side, this transaction for it, these
further callbacks run and this window. -/
def finished (auto : Bool) (s : Conn) (h : Half) (t : Tx) (evs : List Event) (inp : PData) : Conn :=
  { s with
    req := h, txs := finishedTxs auto s.txs t, trace := s.trace ++ evs, input := inp
    connFlags := if s.txs.request > s.txs.response then setFlag s.connFlags ConnFlag.PIPELINED else s.connFlags }

theorem get_finished (auto : Bool) (txs : Txs) (t : Tx) (j : Nat) :
    (finishedTxs auto txs t).get j = if j = txs.request then (if auto then none else some t) else txs.get j := by
  unfold finishedTxs
  cases auto with
  | true =>
    show ((txs.set txs.request t).remove txs.request).get j = _
    rw [Txs.get_remove, Txs.get_set]
    split <;> rfl
  | false =>
    show (txs.set txs.request t).get j = _
    rw [Txs.get_set]
    rfl

theorem complete_finished {e : Env} (hcb : CallbacksOK e) (s : Conn) (h : Half) (t : Tx) (evs : List Event) (inp : PData)
    (hr : h.receiver = none) (hp : t.requestProgress ≠ .complete) (hp9 : t.isProtocol09 = false)
    (hrp : t.responseProgress = .complete) (hbody : t.requestTransferCoding = .noBody) :
    stateRequestComplete e (rq s h t evs inp) = (.ok (),
      finished e.cfg.txAutoDestroy s { h with state := .idle } { t with requestProgress := .complete }
        (evs ++ [.tx .requestComplete s.txs.request, .tx .transactionComplete s.txs.request]) inp) := by
  have hhb : t.requestHasBody = false := by unfold Tx.requestHasBody; rw [hbody]; rfl
  generalize ht' : ({ t with requestProgress := .complete } : Tx) = t'
  have hc' : t'.isComplete = true := by rw [← ht']; simp [Tx.isComplete, hrp]
  have hp9' : t'.isProtocol09 = false := by rw [← ht']; exact hp9
  have h2 : completeRequest e t (rq s h t evs inp) = (.ok (), rq s h t' (evs ++ [.tx .requestComplete s.txs.request]) inp) := by
    unfold completeRequest
    rw [hhb]
    refine (M.when_false_bind _ _ _).trans ?_
    rw [rq_modify_bind, rq_state_bind, rq_request, rq_hook_bind _ _ _ _ _ hcb, rq_finalizeClear_none _ _ _ _ _ hr, ← ht']
  unfold stateRequestComplete
  rw [rq_tx_bind, show (t.requestProgress != .complete) = true from by simpa using hp]
  rw [M.bind_ok (show M.when true (completeRequest e t) _ = _ from h2), rq_tx_bind, rq_setReq_bind, rq_state_bind, rq_request,
    hp9']
  have h3 : ∀ h', finalizeTx e s.txs.request (rq s h' t' (evs ++ [.tx .requestComplete s.txs.request]) inp) =
      (.ok (), rq s h' t' (evs ++ [.tx .requestComplete s.txs.request, .tx .transactionComplete s.txs.request]) inp) := by
    intro h'
    unfold finalizeTx
    rw [rq_state_bind, rq_get]
    dsimp only
    rw [hc']
    refine (rq_hook s h' t' _ inp hcb .transactionComplete).trans ?_
    rw [List.append_assoc]
    rfl
  rw [M.bind_ok (h3 _)]
  unfold requestNext
  have h4 : ∀ evs' h', ((rq s h' t' evs' inp).txs).requestNext e.cfg.txAutoDestroy = finishedTxs e.cfg.txAutoDestroy s.txs t' := by
    intro evs' h'
    unfold Txs.requestNext Txs.checkFree finishedTxs
    rw [rq_request, rq_get]
    dsimp only
    rw [hc']
    cases e.cfg.txAutoDestroy <;> rfl
  show (Except.ok (), ({ rq s _ _ _ inp with connFlags := _, txs := _ } : Conn)) = _
  rw [h4]
  rfl

theorem finished_round {e : Env} {s0 : Conn} {auto : Bool} (s : Conn) (h : Half) (t : Tx) (evs : List Event) (inp : PData)
    (hg : s0.input.isGap = false) (h1 : handleRequestState e s0 = (.ok (), finished auto s h t evs inp)) (ht : h.status ≠ .tunnel)
    (hs : h.state ≠ .headers) :
    requestStep e s0 = (.ok none, finished auto s { h with statePrevious := h.state } t evs inp) := by
  refine requestStep_ok (by rw [hg]; rfl) h1 ht ?_
  unfold requestHandleStateChange
  rw [M.bind_state]
  show (if h.statePrevious = h.state then (pure () : M Unit) else _) _ = _
  split
  next h' =>
    have : { h with statePrevious := h.state } = h := by
      cases h
      dsimp only at h'
      rw [h']
    rw [this]
    rfl
  next =>
    have : (h.state == State.headers) = false := by simpa using hs
    show (M.when (h.state == State.headers) _ >>= _) _ = _
    rw [this]
    rfl

theorem line_noEnd {ms : List (Bytes × Method)} [KnownMethods ms] {r : Request} (h : r.WellFormedIn ms) :
    ∀ c ∈ r.line ++ [13], c ≠ 10 ∧ c ≠ 0 := by
  have h10 := line_noLf h
  have h0 : (0 : UInt8) ∉ r.line := by
    obtain ⟨m, hm⟩ := h.method
    obtain ⟨p, hp⟩ := h.protocol
    have h1 := (KnownMethods.facts _ hm).2.2.2.2.1
    have h2 : ∀ x ∈ protocols, (0 : UInt8) ∉ x.1 := by decide
    have h3 := h2 _ hp
    simp [Request.line, h1, h3, h.uri.2.2]
  intro c hc
  rcases List.mem_append.1 hc with hc | hc
  · exact ⟨fun h => h10 (h ▸ hc), fun h => h0 (h ▸ hc)⟩
  · simp only [List.mem_singleton] at hc
    rw [hc]
    decide

/-- Another request follows: the CONNECT request is over. -/
theorem resume_rounds {e : Env} (hcb : CallbacksOK e) {ms : List (Bytes × Method)} [KnownMethods ms] {r : Request}
    (hr : r.WellFormedIn ms) {s : Conn} (hs : Txs.Sorted s.txs.map) {t : Tx} {k : Nat} {r0 : Request} (h : Negotiates s t)
    (hq : RecordsConnect t k r0) (hp : t.responseProgress = .complete) {n : Nat} (hn : t.responseStatusNumber = .valid n)
    {b rest : Bytes} (hb : b = r.line ++ [13, 10] ++ rest) :
    ∃ hh, Rounds (requestStep e) 2 (requestFed b s) (finished e.cfg.txAutoDestroy (requestFed b s) hh
        { t with requestProgress := .complete } [.tx .requestComplete s.txs.request, .tx .transactionComplete s.txs.request] (win [] b 0)) ∧
      hh.state = .idle ∧ hh.buf = [] ∧ hh.header = none ∧ hh.receiver = none ∧ hh.status = s.req.status := by
  have hb' : b = (r.line ++ [13]) ++ 10 :: rest := by rw [hb]; simp
  have hfw := firstWord_line hr [13, 10]
  obtain ⟨m, hm⟩ := hr.method
  obtain ⟨m0, m3, m1, -, -, -⟩ := KnownMethods.facts _ hm
  dsimp only at m0 m1 m3
  have r1 := wait_over (e := e) hs h hp hn b
  by_cases hc : 200 ≤ n ∧ n ≤ 299
  · rw [if_pos hc] at r1
    have h2 := complete_finished hcb (requestFed b s)
      { (requestFed b s).req with state := .connectProbeData, statePrevious := .connectProbeData } t [] (win [] b 0) h.receiver
      (by rw [hq.progress]; decide) hq.notProtocol09 hp hq.coding
    have r2 := finished_round (e := e) (s0 := rq (requestFed b s)
      { (requestFed b s).req with state := .connectProbeData, statePrevious := .connectProbeData } t [] (win [] b 0)) (requestFed b s)
      { (requestFed b s).req with state := .idle, statePrevious := .connectProbeData } { t with requestProgress := .complete }
      [.tx .requestComplete s.txs.request, .tx .transactionComplete s.txs.request] (win [] b 0) rfl (by
        rw [hrs (st := .connectProbeData) rfl]
        show requestConnectProbeData e _ = _
        unfold requestConnectProbeData
        rw [rq_state_bind, rq_input, win_asSlice, hb', takeTillLfNull_line (line_noEnd hr) (.inl rfl), ← hb']
        dsimp only
        rw [rq_req, show decide ((requestFed b s).req.buf ≠ []) = false from by
          simp only [decide_eq_false_iff_not, ne_eq, Decidable.not_not]
          exact h.buf]
        refine (M.when_false_bind _ _ _).trans ?_
        rw [if_neg (by
          show ¬ Method.new (firstWord (s.req.buf ++ _)) = _
          rw [h.buf, List.nil_append, show r.line ++ [13] ++ [10] = r.line ++ [13, 10] from by simp, hfw, m0]
          exact m3)]
        exact h2) h.live.2.2.1 (by simp)
    exact ⟨{ (requestFed b s).req with state := .idle, statePrevious := .idle }, .next r1 (.next r2 (.zero _)), rfl, h.buf, h.header, h.receiver, rfl⟩
  · rw [if_neg hc] at r1
    have h2 := complete_finished hcb (requestFed b s)
      { (requestFed b s).req with state := .finalize, statePrevious := .finalize, bytesConsumed := 0, bodyDataLeft := none } t [] (win [] b 0)
      h.receiver (by rw [hq.progress]; decide) hq.notProtocol09 hp hq.coding
    have r2 := finished_round (e := e) (s0 := rq (requestFed b s)
      { (requestFed b s).req with state := .finalize, statePrevious := .finalize } t [] (win [] b 0)) (requestFed b s)
      { (requestFed b s).req with state := .idle, statePrevious := .finalize, bytesConsumed := 0, bodyDataLeft := none }
      { t with requestProgress := .complete }
      [.tx .requestComplete s.txs.request, .tx .transactionComplete s.txs.request] (win [] b 0) rfl (by
        rw [hrs (st := .finalize) rfl]
        show requestFinalize e _ = _
        unfold requestFinalize
        have hl : takeTillLf (r.line ++ [13, 10] ++ rest) = .ok rest (r.line ++ [13, 10]) := by
          have := takeTillLf_line (x := r.line ++ [13]) (rest := rest) (fun h => (line_noEnd hr _ h).1 rfl)
          simpa using this
        rw [rq_state_bind, rq_input, win_isGap, if_neg (by simp), rq_req, if_neg (by exact h.live.2.2.2), win_asSlice, hb,
          if_neg (by simp), hl]
        dsimp only
        have hw : win [] (r.line ++ [13, 10] ++ rest) 0 = win [] ((r.line ++ [13, 10]) ++ rest) 0 := rfl
        rw [rq_consume_bind, win_consume]
        unfold requestFinalizeLine
        rw [rq_state_bind, rq_req, ← hb]
        dsimp only
        rw [show decide ((requestFed b s).req.buf ≠ []) = false from by
          simp only [decide_eq_false_iff_not, ne_eq, Decidable.not_not]
          exact h.buf]
        refine (M.when_false_bind _ _ _).trans ?_
        have e2 : (requestFed b s).req.buf ++ (r.line ++ [13, 10]) = r.line ++ [13, 10] := by
          rw [show (requestFed b s).req.buf = [] from h.buf]
          rfl
        rw [rq_setReq_bind, e2, if_neg (by simp), hfw, if_neg m1, m0, if_neg m3, rq_setReq_bind, rq_unconsume_bind, win_unconsume, ← hb]
        exact h2) h.live.2.2.1 (by simp)
    exact ⟨{ (requestFed b s).req with state := .idle, statePrevious := .idle, bytesConsumed := 0, bodyDataLeft := none },
      .next r1 (.next r2 (.zero _)), rfl, h.buf, h.header, h.receiver, rfl⟩

/-! The calls. -/

/-- Part of the first line. -/
theorem call_probe {e : Env} {s : Conn} (hs : Txs.Sorted s.txs.map) {t : Tx} {b : Bytes}
    (h : Granted s t b)
    {d : Bytes} (hd : d ≠ []) (hdd : ∀ c ∈ d, c ≠ 10 ∧ c ≠ 0) (hl : (b ++ d).length ≤ e.cfg.fieldLimit) :
    ∃ s', requestData e (.ofBytes d) s = (.ok (some .data), s') ∧ s'.trace = s.trace ∧ s'.txs = s.txs ∧ Probes s' t (b ++ d) := by
  have hself : ∀ (hc : s.txs.get s.txs.request = some t),
      rq (requestFed d s) (requestFed d s).req t [] (win [] d 0) = requestFed d s := fun hc =>
    rq_self (s := requestFed d s) hs hc _ rfl
  have hput : ∀ (hc : s.txs.get s.txs.request = some t), s.txs.set s.txs.request t = s.txs := by
    intro hc
    unfold Txs.set
    rw [Txs.put_self _ _ _ hs hc]
  rw [List.length_append] at hl
  rcases h with ⟨n, h, hp, hn, hn2⟩ | h
  · have r1 := wait_over (e := e) hs h hp hn d
    rw [if_pos hn2] at r1
    obtain ⟨inp, h2⟩ := probe_part (e := e) (requestFed d s)
      { (requestFed d s).req with state := .connectProbeData, statePrevious := .connectProbeData } t [] d 0 rfl h.receiver hdd (by
        have := h.buffered 0
        have h0 : Half.buffered { (requestFed d s).req with state := .connectProbeData, statePrevious := .connectProbeData } = s.req.buffered := rfl
        simp only [List.length_nil] at hl
        omega)
    exact ⟨_, ask_rounds hd h.live (h.buffered _) (.next r1 (.zero _)) h2, List.append_nil _, hput h.current, rfl,
      by show s.req.buf ++ d = _; rw [h.buf], h.header, h.receiver, rfl, rq_get _ _ _ _ _⟩
  · have hbuf : s.req.buffered = b.length := by unfold Half.buffered; rw [h.buf, h.header]; rfl
    obtain ⟨inp, h2⟩ := probe_part (e := e) (requestFed d s) (requestFed d s).req t [] d 0 h.state h.receiver hdd (by
        have h0 : Half.buffered (requestFed d s).req = s.req.buffered := rfl
        omega)
    rw [hself h.current] at h2
    exact ⟨_, ask_rounds hd (by rw [h.status]; decide) (by omega) (.zero _) h2, List.append_nil _, hput h.current, h.state,
      by show s.req.buf ++ d = _; rw [h.buf], h.header, h.receiver, rfl, rq_get _ _ _ _ _⟩

/-- The end of the first line. -/
theorem call_tunnel {e : Env} {s : Conn} (hs : Txs.Sorted s.txs.map) {t : Tx} {b : Bytes}
    (h : Granted s t b)
    {x rest : Bytes} {c : UInt8} (hx : ∀ d ∈ x, d ≠ 10 ∧ d ≠ 0) (hc : c = 10 ∨ c = 0)
    (hl : b ≠ [] → (b ++ x).length < e.cfg.fieldLimit) (hm : Method.new (firstWord (b ++ x ++ [c])) = .unknown) :
    ∃ s', requestData e (.ofBytes (x ++ c :: rest)) s = (.ok (some .tunnel), s') ∧ s'.trace = s.trace ∧ s'.txs = s.txs ∧
      s'.req.status = .tunnel ∧ s'.resp.status = .tunnel := by
  generalize hd0 : x ++ c :: rest = d
  have hd : d ≠ [] := by rw [← hd0]; simp
  have hself : ∀ (hc : s.txs.get s.txs.request = some t),
      rq (requestFed d s) (requestFed d s).req t [] (win [] d 0) = requestFed d s := fun hc =>
    rq_self (s := requestFed d s) hs hc _ rfl
  have hput : ∀ (hc : s.txs.get s.txs.request = some t), s.txs.set s.txs.request t = s.txs := by
    intro hc
    unfold Txs.set
    rw [Txs.put_self _ _ _ hs hc]
  rw [List.length_append] at hl
  rw [List.append_assoc] at hm
  rcases h with ⟨n, h, hp, hn, hn2⟩ | h
  · have r1 := wait_over (e := e) hs h hp hn d
    rw [if_pos hn2] at r1
    have h2 := probe_tunnel (e := e) (requestFed d s)
      { (requestFed d s).req with state := .connectProbeData, statePrevious := .connectProbeData } t [] x rest c 0 rfl hx hc
      (fun h0 => absurd h.buf h0) (by
        show Method.new (firstWord (s.req.buf ++ _)) = _
        rw [h.buf]
        exact hm)
    rw [hd0] at h2
    exact ⟨_, ask_rounds hd h.live (h.buffered _) (.next r1 (.zero _)) h2, List.append_nil _, hput h.current, rfl, rfl⟩
  · have hbuf : s.req.buffered = b.length := by unfold Half.buffered; rw [h.buf, h.header]; rfl
    by_cases hb0 : b = []
    · subst hb0
      have h2 := probe_tunnel (e := e) (requestFed d s) (requestFed d s).req t [] x rest c 0 h.state hx hc
        (fun h0 => absurd h.buf h0) (by
          show Method.new (firstWord (s.req.buf ++ _)) = _
          rw [h.buf]
          exact hm)
      rw [hd0, hself h.current] at h2
      exact ⟨_, ask_rounds hd (by rw [h.status]; decide) (by rw [hbuf]; exact Nat.zero_le _) (.zero _) h2, List.append_nil _, hput h.current, rfl, rfl⟩
    · have := hl hb0
      have h2 := probe_tunnel (e := e) (requestFed d s) (requestFed d s).req t [] x rest c 0 h.state hx hc
        (fun _ => by
          show s.req.buffered + _ ≤ _
          rw [hbuf, List.length_append, List.length_singleton]
          omega) (by
          show Method.new (firstWord (s.req.buf ++ _)) = _
          rw [h.buf]
          exact hm)
      rw [hd0, hself h.current] at h2
      exact ⟨_, ask_rounds hd (by rw [h.status]; decide) (by omega) (.zero _) h2, List.append_nil _, hput h.current, rfl, rfl⟩

/-- The state in which the next request is read. -/
theorem between_finished {auto : Bool} {s : Conn} {t : Tx} (h : Negotiates s t) {b : Bytes} {hh : Half} {t' : Tx} {evs : List Event} {inp : PData}
    (h1 : hh.state = .idle) (h2 : hh.buf = []) (h3 : hh.header = none) (h4 : hh.receiver = none) (h5 : hh.status = s.req.status) :
    BetweenRequests (finished auto (requestFed b s) hh t' evs inp) := by
  have hget : ∀ j, s.txs.request < j → (finishedTxs auto s.txs t').get j = s.txs.get j := by
    intro j hj
    rw [get_finished, if_neg (by omega)]
  refine ⟨h1, h2, h3, h4, ?_, ?_, ?_⟩
  · show hh.status = _ ∨ hh.status = _ ∨ hh.status = _ ∨ hh.status = _
    rw [h5]
    exact .inr (.inr h.status)
  · have := hget (s.txs.request + 1) (by omega)
    exact h.next.imp this.trans this.trans
  · intro j (hj : s.txs.request + 1 < j)
    exact (hget j (by omega)).trans (h.beyond j hj)

theorem length_finished (auto : Bool) {txs : Txs} (hs : Txs.Sorted txs.map) (t : Tx) (hc : (txs.get txs.request).isSome) :
    Txs.Sorted (finishedTxs auto txs t).map ∧ (finishedTxs auto txs t).map.length ≤ txs.map.length := by
  have h1 := Txs.length_put_of_some txs.request t txs.map hs hc
  have h2 := Txs.sorted_put txs.request t txs.map hs
  cases auto with
  | false => exact ⟨h2, by rw [show (finishedTxs false txs t).map = Txs.put txs.request t txs.map from rfl, h1]; exact Nat.le_refl _⟩
  | true =>
    refine ⟨Txs.sorted_erase _ _ h2, ?_⟩
    have := Txs.length_erase_le txs.request (Txs.put txs.request t txs.map)
    rw [h1] at this
    exact this

/-- The end of the data leaves the parser as it is. -/
theorem step_idle_req {e : Env} {s s' : Conn} (hb : BetweenRequests s) {done : Bytes} {q : Nat} (hi : s.input = win done [] q)
    (h : requestStep e s = (.ok (some .data), s')) : s'.req = { s.req with status := .data } := by
  have h1 : handleRequestState e s = (.error (.status .data), s) := by
    rw [hrs (show s.req.state = .idle from hb.state)]
    show requestIdle e s = _
    unfold requestIdle
    rw [M.bind_state, if_pos ⟨by rw [hi, win_isEmpty]; rfl, .inr hb.buf⟩]
    rfl
  have hg : (s.input.isGap && !requestGapState s.req.state) = false := by rw [hi]; rfl
  rw [requestStep_rc hg (M.attempt_error h1)] at h
  unfold requestStepTail at h
  rw [M.bind_state] at h
  dsimp only at h
  unfold requestAfterStep at h
  have h3 : ∃ r s1, M.attempt (requestReceiverSendData e) s = (.ok r, s1) ∧ s1.req = s.req := by
    cases hq : s.txs.requestMut e.cfg.maxTx with
    | mk o txs =>
    cases o with
    | some t =>
      refine ⟨_, { s with input := s.input.callbackData.2, txs := txs }, M.attempt_ok (a := ()) ?_, rfl⟩
      · unfold requestReceiverSendData
        have : requestTx e (.status .error) { s with input := s.input.callbackData.2 } =
            (.ok t, { s with input := s.input.callbackData.2, txs := txs }) := by
          unfold requestTx
          rw [show ({ s with input := s.input.callbackData.2 } : Conn).txs.requestMut e.cfg.maxTx = (some t, txs) from hq]
        rw [M.bind_state, M.bind_modify, M.bind_ok this, (show s.req.receiver = none from hb.receiver)]
        rfl
    | none =>
      refine ⟨_, { s with input := s.input.callbackData.2, txs := txs }, M.attempt_error (x := .error) ?_, rfl⟩
      · unfold requestReceiverSendData
        have : requestTx e (.status .error) { s with input := s.input.callbackData.2 } =
            (.error (.status .error), { s with input := s.input.callbackData.2, txs := txs }) := by
          unfold requestTx
          rw [show ({ s with input := s.input.callbackData.2 } : Conn).txs.requestMut e.cfg.maxTx = (none, txs) from hq]
        rw [M.bind_state, M.bind_modify]
        exact M.bind_error this
  obtain ⟨r, s1, h3, h4⟩ := h3
  rw [M.bind_ok h3] at h
  have h5 := congrArg (fun x => x.2.req) h
  rw [← h4]
  exact h5.symm

/-- Requests follow one that has been read to its end in the same call. -/
theorem call_resume_via {e : Env} (hw : Willing e) (rs : List Request) {b done : Bytes} {q : Nat} {auto : Bool} (hbytes : b ≠ [])
    (hr : ∀ r ∈ rs, r.WellFormed ∧ r.line.length + 2 ≤ e.cfg.fieldLimit) {s : Conn} (hs : Txs.Sorted s.txs.map) {t' : Tx}
    (hcur : (s.txs.get s.txs.request).isSome)
    (hlive : s.req.status ≠ .stop ∧ s.req.status ≠ .error ∧ s.req.status ≠ .tunnel ∧ s.req.status ≠ .closed)
    (hbuf : s.req.buffered ≤ e.cfg.fieldLimit) {hh : Half} {evs : List Event} {n : Nat}
    (r1 : Rounds (requestStep e) n (requestFed b s)
      (finished auto (requestFed b s) hh t' evs (win done (rs.flatMap Request.render) q)))
    (hb1 : BetweenRequests (finished auto (requestFed b s) hh t' evs (win done (rs.flatMap Request.render) q)))
    (hm : s.txs.map.length + rs.length ≤ e.cfg.maxTx) :
    ∃ s', requestData e (.ofBytes b) s = (.ok (some .data), s') ∧
      s'.trace = s.trace ++ (evs ++ requestCallbacks (s.txs.request + 1) rs) ∧
      s'.txs.get s.txs.request = (if auto then none else some t') ∧
      (∀ i r, rs[i]? = some r → ∃ t, s'.txs.get (s.txs.request + 1 + i) = some t ∧ Records t (s.txs.request + 1 + i) r ∧ Unanswered t) ∧
      (∀ j, j < s.txs.request → s'.txs.get j = s.txs.get j) ∧ s'.txs.request = s.txs.request + 1 + rs.length ∧
      s'.txs.response = s.txs.response ∧ BetweenRequests s' ∧
      s'.resp = (if s.resp.status = .dataOther then { s.resp with status := .data } else s.resp) ∧
      s'.responseDataOtherAtTxEnd = s.responseDataOtherAtTxEnd ∧ (rs = [] → s'.req = { hh with status := .data }) := by
  obtain ⟨l1, l2⟩ := length_finished auto (txs := s.txs) hs t' hcur
  generalize hs1 : finished auto (requestFed b s) hh t' evs (win done (rs.flatMap Request.render) q) = s1 at r1 hb1
  have ho : Occupied s1 s.txs.map.length := by
    rw [← hs1]
    refine ⟨l1, ?_⟩
    cases hc : (finished auto (requestFed b s) hh t' evs (win done (rs.flatMap Request.render) q)).txs.get _ with
    | none => exact .inl ⟨rfl, l2⟩
    | some x => exact .inr ⟨rfl, by have : (finishedTxs auto s.txs t').map.length ≤ s.txs.map.length + 1 := by omega
                                    exact this⟩
  have hin : s1.input = win done (rs.flatMap Request.render) q := by rw [← hs1]; rfl
  obtain ⟨k2, s2, q2, r2, hi2, ha2, ho2, hz⟩ : ∃ k s' q', Rounds (requestStep e) k s1 s' ∧ s'.input = win (done ++ rs.flatMap Request.render) [] q' ∧
      After s1 s' rs ∧ Occupied s' (s.txs.map.length + rs.length) ∧ (rs = [] → s' = s1) := by
    by_cases h0 : rs = []
    · subst h0
      exact ⟨0, s1, q, .zero _, by rw [hin]; simp, .nil hb1, ho, fun _ => rfl⟩
    · obtain ⟨k, s', q', h1, h2, h3, h4⟩ := rounds_requests hw rs hr hb1 hin ho hm
      exact ⟨k, s', q', h1, h2, h3, h4, fun h => absurd h h0⟩
  obtain ⟨s3, h3, hb3, htr3, hot3, hq3, hp3, hs3, hbl3, -, -⟩ := step_idle (e := e) ha2.between hi2 ho2
  have q1 : s1.txs.request = s.txs.request + 1 := by rw [← hs1]; rfl
  have p1 : s1.txs.response = s.txs.response := by
    rw [← hs1]
    show (finishedTxs auto s.txs _).response = _
    unfold finishedTxs
    cases auto <;> rfl
  have hget : ∀ j, s1.txs.get j = if j = s.txs.request then (if auto then none else some t') else s.txs.get j := by
    intro j
    rw [← hs1]
    exact get_finished _ _ _ _
  refine ⟨s3, ask_rounds hbytes hlive hbuf (r1.append r2) h3, ?_, ?_, ?_, ?_, ?_, ?_, hb3, ?_, ?_, ?_⟩
  · rw [htr3, ha2.trace, q1, ← hs1]
    show s.trace ++ _ ++ _ = _
    rw [List.append_assoc]
  · rw [hot3 _ (by rw [ha2.request, q1]; omega), ha2.others _ (by rw [q1]; omega), hget, if_pos rfl]
  · intro i r hir
    obtain ⟨t2, ht2, hrt2⟩ := ha2.records i r hir
    rw [q1] at ht2 hrt2
    refine ⟨t2, ?_, hrt2⟩
    have : i < rs.length := by
      rcases Nat.lt_or_ge i rs.length with h | h
      · exact h
      · rw [List.getElem?_eq_none h] at hir; cases hir
    rw [hot3 _ (by rw [ha2.request, q1]; omega)]
    exact ht2
  · intro j hj
    rw [hot3 _ (by rw [ha2.request, q1]; omega), ha2.others _ (by rw [q1]; omega), hget, if_neg (by omega)]
  · rw [hq3, ha2.request, q1]
  · rw [hp3, ha2.response, p1]
  · rw [hs3, ha2.resp, ← hs1]
    rfl
  · rw [hbl3, ha2.blocked, ← hs1]
    rfl
  · intro h0
    rw [step_idle_req ha2.between hi2 h3, hz h0, ← hs1]
    rfl

theorem requests_ne {rs : List Request} (hne : rs ≠ []) : rs.flatMap Request.render ≠ [] := by
  cases rs with
  | nil => exact absurd rfl hne
  | cons r rs => simp [Request.render]

theorem requests_begin {rs : List Request} (hne : rs ≠ []) {p : Request → Prop} (hr : ∀ r ∈ rs, r.WellFormed ∧ p r) :
    ∃ r rest, Request.WellFormed r ∧ rs.flatMap Request.render = r.line ++ [13, 10] ++ rest := by
  cases rs with
  | nil => exact absurd rfl hne
  | cons r rs =>
    exact ⟨r, renderBlock r.headers ++ r.body.render ++ rs.flatMap Request.render, (hr r (by simp)).1, by simp [Request.render]⟩

/-- Requests follow. -/
theorem call_resume {e : Env} (hw : Willing e) (rs : List Request) (hne : rs ≠ [])
    (hr : ∀ r ∈ rs, r.WellFormed ∧ r.line.length + 2 ≤ e.cfg.fieldLimit) {s : Conn} (hs : Txs.Sorted s.txs.map) {t : Tx} {k : Nat} {r0 : Request}
    (h : Negotiates s t) (hq : RecordsConnect t k r0) (hp : t.responseProgress = .complete) {n : Nat} (hn : t.responseStatusNumber = .valid n)
    (hm : s.txs.map.length + rs.length ≤ e.cfg.maxTx) :
    ∃ s', requestData e (.ofBytes (rs.flatMap Request.render)) s = (.ok (some .data), s') ∧
      s'.trace = s.trace ++ ([.tx .requestComplete s.txs.request, .tx .transactionComplete s.txs.request] ++
        requestCallbacks (s.txs.request + 1) rs) ∧
      s'.txs.get s.txs.request = (if e.cfg.txAutoDestroy then none else some { t with requestProgress := .complete }) ∧
      (∀ i r, rs[i]? = some r → ∃ t, s'.txs.get (s.txs.request + 1 + i) = some t ∧ Records t (s.txs.request + 1 + i) r ∧ Unanswered t) ∧
      (∀ j, j < s.txs.request → s'.txs.get j = s.txs.get j) ∧ s'.txs.request = s.txs.request + 1 + rs.length ∧
      s'.txs.response = s.txs.response ∧ BetweenRequests s' ∧
      s'.resp = (if s.resp.status = .dataOther then { s.resp with status := .data } else s.resp) ∧
      s'.responseDataOtherAtTxEnd = s.responseDataOtherAtTxEnd := by
  obtain ⟨r, rest, hrw, hbe⟩ := requests_begin hne hr
  obtain ⟨hh, r1, g1, g2, g3, g4, g5⟩ := resume_rounds hw.callbacks hrw hs h hq hp hn hbe
  obtain ⟨s', c1, c2, c3, c4, c5, c6, c7, c8, c9, c10, -⟩ := call_resume_via hw rs (requests_ne hne) hr hs (by rw [h.current]; rfl) h.live
    (h.buffered _) r1 (between_finished h g1 g2 g3 g4 g5) hm
  exact ⟨s', c1, c2, c3, c4, c5, c6, c7, c8, c9, c10⟩

/-- Another CONNECT request follows. -/
theorem call_reconnect {e : Env} (hw : Willing e) {r : Request} (hr : r.Connects) (hlim : r.line.length + 2 ≤ e.cfg.fieldLimit)
    (early : Bytes) (hf : r.headers = [] → early.head? ≠ some 32)
    {s : Conn} (hs : Txs.Sorted s.txs.map) {t : Tx} {k : Nat} {r0 : Request}
    (h : Negotiates s t) (hq : RecordsConnect t k r0) (hp : t.responseProgress = .complete) {n : Nat} (hn : t.responseStatusNumber = .valid n)
    (hm : s.txs.map.length < e.cfg.maxTx) :
    ∃ s' t', requestData e (.ofBytes (r.render ++ early)) s = (.ok (some (if early = [] then .data else .dataOther)), s') ∧
      s'.req.bytesConsumed = r.render.length ∧
      s'.trace = s.trace ++ ([.tx .requestComplete s.txs.request, .tx .transactionComplete s.txs.request] ++
        connectCallbacks r (s.txs.request + 1)) ∧
      s'.txs.get s.txs.request = (if e.cfg.txAutoDestroy then none else some { t with requestProgress := .complete }) ∧
      Negotiates s' t' ∧ RecordsConnect t' (s.txs.request + 1) r ∧ Unanswered t' ∧
      (∀ j, j < s.txs.request → s'.txs.get j = s.txs.get j) ∧ s'.txs.request = s.txs.request + 1 ∧ s'.txs.response = s.txs.response ∧
      s'.resp = (if s.resp.status = .dataOther then { s.resp with status := .data } else s.resp) ∧
      s'.responseDataOtherAtTxEnd = s.responseDataOtherAtTxEnd := by
  have hren : r.render ++ early = r.line ++ [13, 10] ++ (renderBlock r.headers ++ early) := by
    simp [Request.render, hr.noBody, Body.render]
  have hne : r.render ++ early ≠ [] := by rw [hren]; simp
  obtain ⟨hh, r1, g1, g2, g3, g4, g5⟩ := resume_rounds hw.callbacks hr.wellFormed hs h hq hp hn hren
  have hb1 := between_finished (auto := e.cfg.txAutoDestroy) h (b := r.render ++ early) (t' := { t with requestProgress := .complete })
    (evs := [.tx .requestComplete s.txs.request, .tx .transactionComplete s.txs.request]) (inp := win [] (r.render ++ early) 0) g1 g2 g3 g4 g5
  obtain ⟨l1, l2⟩ := length_finished e.cfg.txAutoDestroy (txs := s.txs) hs { t with requestProgress := .complete } (by rw [h.current]; rfl)
  obtain ⟨s2, s', t', r4, h9, c1, c2, c3, c4, c5, c6, c7, c8, c9, c10⟩ := rounds_connect hw hb1 hr hlim (fun _ => by
    show (finishedTxs e.cfg.txAutoDestroy s.txs _).map.length < _
    omega) early hf (done := []) (q := 0) rfl
  have hget : ∀ j, j < s.txs.request + 1 → s'.txs.get j = if j = s.txs.request then
      (if e.cfg.txAutoDestroy then none else some { t with requestProgress := .complete }) else s.txs.get j := by
    intro j hj
    rw [c8 j (by show j ≠ s.txs.request + 1; omega)]
    exact get_finished _ _ _ _
  refine ⟨s', t', ask_rounds hne h.live (h.buffered _) (r1.append r4) h9, c1, ?_, ?_, c3, c4, c5, ?_, c6, ?_, c9, c10⟩
  · rw [c2]
    show s.trace ++ _ ++ _ = _
    rw [List.append_assoc]
    rfl
  · rw [hget _ (by omega), if_pos rfl]
  · intro j hj
    rw [hget _ (by omega), if_neg (by omega)]
  · rw [c7]
    show (finishedTxs e.cfg.txAutoDestroy s.txs _).response = _
    unfold finishedTxs
    cases e.cfg.txAutoDestroy <;> rfl

end Model
