/-
The steps of the request machine keep the order of the request callbacks.
-/
import Verif.Lemmas.OrderReq

namespace Model

open M Spec

theorem requestChunkedLengthLoop_orderly {r k : Nat} (e : Env) (d : Bytes) :
    Ends (InBody true r k) (requestChunkedLengthLoop e d) := by
  induction h : d.length using Nat.strongRecOn generalizing d with
  | ind n ih =>
    unfold requestChunkedLengthLoop
    split
    next remaining line hl =>
      have := takeTillIncl_shorter hl
      have ih := ih remaining.length (by omega) remaining rfl
      refine Ends.bind (F := Any) (fun _ => InBody.orderly) (by keeps_walk) fun _ _ => ?_
      refine Ends.bind_state fun s0 h0 => ?_
      refine Ends.bind (F := Any) (fun _ => InBody.orderly) (by keeps_walk) fun _ _ => ?_
      refine Ends.bind (fun _ => InBody.orderly) (Keeps.requestTx InBody.stable) fun t ht => ?_
      refine Ends.ite (fun _ => ?_) fun _ => requestChunkLine_orderly e line
      refine Ends.bind (F := Any) (fun _ => InBody.orderly) (by keeps_walk; fact_leaf) fun _ _ => ih
    all_goals
      refine Ends.of (F := Any) (fun _ => InBody.orderly) ?_
      keeps_walk

theorem requestBodyChunkedLength_orderly {r k : Nat} (e : Env) :
    Ends (InBody true r k) (requestBodyChunkedLength e) := by
  unfold requestBodyChunkedLength
  exact Ends.bind_state fun s0 _ => requestChunkedLengthLoop_orderly e _

/-- Removing a transaction, or not. -/
theorem get_checkFree {a : Bool} {t : Txs} {j i : Nat} {u : Tx} (h : (t.checkFree a j).get i = some u) :
    t.get i = some u := by
  unfold Txs.checkFree at h
  have hr : (t.remove j).get i = some u → t.get i = some u := by
    intro h
    have h' : Txs.lookup (Txs.erase j t.map) i = some u := h
    rw [Txs.lookup_erase] at h'
    split at h'
    · cases h'
    · exact h'
  split at h
  · split at h
    · split at h
      · exact hr h
      · exact h
    · exact hr h
  · exact h

/-- The end of `state_request_complete`: the next request becomes the current one. -/
theorem requestNext_orderly (e : Env) {r k : Nat} {s : Conn} (hs : Store r k (fun _ => True) s)
    (hst : s.req.state = .idle ∨ s.req.state = .ignoreDataAfterHttp09) (hr : s.req.receiver = none)
    (hc : Core s.trace (r + 1) 0) : Orderly (requestNext e s).2 := by
  have h1 : (requestNext e s).2.txs.request = r + 1 := by
    show (s.txs.checkFree e.cfg.txAutoDestroy s.txs.request).request + 1 = r + 1
    rw [(checkFree_response ..).2, hs.1]
  have hget : ∀ i u, (requestNext e s).2.txs.get i = some u → s.txs.get i = some u := by
    intro i u hu
    exact get_checkFree (j := s.txs.request) (a := e.cfg.txAutoDestroy) hu
  refine ⟨⟨rfl, rfl, ?_, ?_, ?_⟩, ?_, .inl hr, ?_⟩
  · intro i u hu
    exact hs.3 i u (hget i u hu)
  · intro u hu
    rw [h1] at hu
    rw [hs.5 (r + 1) u (by omega) (hget _ u hu)]
    simp [Undone]
  · intro i u hi hu
    rw [h1] at hi
    exact hs.5 i u (by omega) (hget i u hu)
  · unfold Fits
    rw [h1]
    rcases hst with hst | hst
    · have : (requestNext e s).2.req.state = .idle := hst
      rw [this]; exact hc
    · have : (requestNext e s).2.req.state = .ignoreDataAfterHttp09 := hst
      rw [this]; exact hc
  · rcases hst with hst | hst
    · exact .inr (.inl hst)
    · exact .inr (.inr (.inl hst))

theorem requestTx_found (e : Env) (x : Err) {s : Conn} {t : Tx} (h : s.txs.get s.txs.request = some t) :
    requestTx e x s = (.ok t, s) := by
  unfold requestTx Txs.requestMut Txs.entry
  rw [h]

theorem finalizeTx_ok {e : Env} (hE : EndsAccepted e) (i : Nat) (s : Conn) :
    finalizeTx e i s = (.ok (), s) ∨
      finalizeTx e i s = (.ok (), { s with trace := s.trace ++ [.tx .transactionComplete i] }) := by
  unfold finalizeTx
  show (match s.txs.get i with
    | some t => M.when t.isComplete (runTxHook e .transactionComplete i)
    | none => pure ()) s = _ ∨ (match s.txs.get i with
    | some t => M.when t.isComplete (runTxHook e .transactionComplete i)
    | none => pure ()) s = _
  cases hg : s.txs.get i with
  | none => exact .inl rfl
  | some t =>
    dsimp only
    cases t.isComplete with
    | false => exact .inl rfl
    | true =>
      right
      show M.when (s.txs.get i).isSome (emit e _) s = _
      rw [hg]
      show emit e _ s = _
      unfold emit
      rw [(hE s.trace i).2]

/-- The rest of `state_request_complete` once the request is complete. -/
theorem completeTail_orderly {e : Env} (hE : EndsAccepted e) {r k : Nat} {s : Conn} {t : Tx}
    (hs : Store r k (fun _ => True) s) (ht : s.txs.get r = some t) (hr : s.req.receiver = none)
    (hc : Core s.trace (r + 1) 0) : Orderly ((do
      let t ← requestTx e .panic
      setReq fun h => { h with state := if t.isProtocol09 then .ignoreDataAfterHttp09 else .idle }
      let s ← state
      finalizeTx e s.txs.request
      requestNext e : M Unit) s).2 := by
  rw [M.bind_ok (requestTx_found e .panic (by rw [hs.1]; exact ht))]
  show Orderly ((finalizeTx e s.txs.request >>= fun _ => requestNext e) { s with
    req := { s.req with state := if t.isProtocol09 then .ignoreDataAfterHttp09 else .idle } }).2
  have hst : (if t.isProtocol09 then State.ignoreDataAfterHttp09 else .idle) = .idle ∨
      (if t.isProtocol09 then State.ignoreDataAfterHttp09 else .idle) = .ignoreDataAfterHttp09 := by
    cases t.isProtocol09
    · exact .inl rfl
    · exact .inr rfl
  rcases finalizeTx_ok hE s.txs.request { s with
    req := { s.req with state := if t.isProtocol09 then .ignoreDataAfterHttp09 else .idle } } with h | h
  · rw [M.bind_ok h]
    exact requestNext_orderly e (hs.same rfl) hst hr hc
  · rw [M.bind_ok h]
    exact requestNext_orderly e (hs.same rfl) hst hr (hc.other rfl)

theorem completeRequest_run {e : Env} (hE : EndsAccepted e) {s : Conn} {t : Tx}
    (ht : s.txs.get s.txs.request = some t) (hr : s.req.receiver = none) :
    (do
      let s ← state
      runTxHook e .requestComplete s.txs.request
      requestReceiverFinalizeClear e : M Unit) s =
    (.ok (), { s with trace := s.trace ++ [.tx .requestComplete s.txs.request] }) := by
  have h1 : runTxHook e .requestComplete s.txs.request s =
      (.ok (), { s with trace := s.trace ++ [.tx .requestComplete s.txs.request] }) := by
    show M.when (s.txs.get s.txs.request).isSome (emit e _) s = _
    rw [ht]
    show emit e _ s = _
    unfold emit
    rw [(hE s.trace s.txs.request).1]
  show (runTxHook e .requestComplete s.txs.request >>= fun _ => requestReceiverFinalizeClear e) s = _
  rw [M.bind_ok h1]
  unfold requestReceiverFinalizeClear
  show (match s.req.receiver with
    | none => pure ()
    | some _ => _ : M Unit) _ = _
  rw [hr]
  rfl

theorem stateRequestComplete_orderly {e : Env} (hE : EndsAccepted e) {b : Bool} {r k : Nat} :
    Ends (InBody b r k) (stateRequestComplete e) := by
  unfold stateRequestComplete
  refine Ends.bind (fun _ => InBody.orderly) (Keeps.requestTx InBody.stable) fun t ht => ?_
  have hw : (t.requestProgress != .complete) = true := by
    have := ht.2
    unfold Undone at this
    simpa using this
  rw [hw]
  show Ends (InBody b r k) (completeRequest e t >>= _)
  intro s hs
  -- the pieces of `completeRequest`
  refine post.bind (Q := fun _ s' => Orderly s') ?_
  unfold completeRequest
  refine post.bind ?_
  have h1 : Keeps (InBody b r k) Any (M.when t.requestHasBody (requestBodyData e none)) := by keeps_walk
  refine post.mono (Q := fun _ s' => InBody b r k s') (h1 s hs).1 ?_
  intro x s1 k1
  cases x with
  | error x => exact k1.orderly
  | ok _ =>
    dsimp only
    refine post.bind ?_
    unfold post
    have key : (∃ t', modifyRequest e (fun t => { t with requestProgress := .complete }) s1 =
          (.ok (), { s1 with txs := t' }) ∧ Store r k (fun _ => True) { s1 with txs := t' } ∧
          (t'.get r).isSome = true) ∨
        modifyRequest e (fun t => { t with requestProgress := .complete }) s1 = (.error .panic, s1) := by
      have hst : Store r k (fun _ => True) s1 := k1.store.mono fun _ _ => trivial
      have hP : ReqStable (Store r k fun _ => True) (ReqFact r fun _ => True) :=
        ⟨fun h => h.get_request, fun h _ => ⟨h.1, trivial⟩, fun h => h.put_request⟩
      have hk := (Keeps.modifyRequest hP (e := e) (f := fun t => { t with requestProgress := .complete })
        (fun t ht => ⟨ht.1, trivial⟩) s1 hst).1
      unfold modifyRequest at hk ⊢
      cases hg : s1.txs.get s1.txs.request with
      | some u =>
        left
        rw [M.bind_ok (requestTx_found e .panic hg)] at hk ⊢
        refine ⟨_, rfl, hk, ?_⟩
        rw [Txs.get_set, if_pos k1.store.1.symm]
        rfl
      | none =>
        by_cases hl : s1.txs.map.length ≥ e.cfg.maxTx
        · right
          have : requestTx e .panic s1 = (.error .panic, s1) := by
            unfold requestTx Txs.requestMut Txs.entry
            rw [hg]
            dsimp only
            rw [if_pos hl]
          rw [M.bind_error this]
        · left
          have : requestTx e .panic s1 = (.ok { index := s1.txs.request },
              { s1 with txs := s1.txs.set s1.txs.request { index := s1.txs.request } }) := by
            unfold requestTx Txs.requestMut Txs.entry
            rw [hg]
            dsimp only
            rw [if_neg hl]
          rw [M.bind_ok this] at hk ⊢
          refine ⟨_, rfl, hk, ?_⟩
          rw [Txs.get_set]
          exact (congrArg Option.isSome (if_pos (show r = s1.txs.request from k1.store.1.symm))).trans rfl
    rcases key with ⟨t', h2, h3, h4⟩ | h2
    · rw [h2]
      dsimp only
      obtain ⟨u, hu⟩ := Option.isSome_iff_exists.1 h4
      have hreq : t'.request = r := h3.1
      have h5 := completeRequest_run hE (s := { s1 with txs := t' }) (t := u) (by
        show t'.get t'.request = some u
        rw [hreq]; exact hu) k1.recv
      rw [h5]
      dsimp only
      refine completeTail_orderly hE (h3.same rfl) hu k1.recv ?_
      rw [hreq]
      exact k1.core.finish (by omega)
    · rw [h2]
      exact k1.orderly

theorem requestConnectProbeData_orderly {e : Env} (hE : EndsAccepted e) {r k : Nat} :
    Ends (InBody true r k) (requestConnectProbeData e) := by
  unfold requestConnectProbeData
  refine Ends.bind_state fun s0 h0 => ?_
  split
  · refine Ends.bind (F := Any) (fun _ => InBody.orderly) (by keeps_walk) fun _ _ => ?_
    refine Ends.ite (fun _ => ?_) fun _ => stateRequestComplete_orderly hE
    intro s h
    have h' : InBody true r k { s with
        req := { s.req with status := .tunnel }, resp := { s.resp with status := .tunnel } } :=
      ⟨h.1.same rfl, h.2, h.3, h.4, h.5⟩
    exact h'.orderly
  · refine Ends.of (F := Any) (fun _ => InBody.orderly) ?_
    keeps_walk

theorem requestFinalizeLine_orderly {e : Env} (hE : EndsAccepted e) {r k : Nat} (work : Bytes) :
    Ends (InBody false r k) (requestFinalizeLine e work) := by
  unfold requestFinalizeLine
  refine Ends.bind_state fun s0 h0 => ?_
  refine Ends.bind (F := Any) (fun _ => InBody.orderly) (by keeps_walk) fun _ _ => ?_
  refine Ends.bind (F := Any) (fun _ => InBody.orderly) (by keeps_walk; body_leaf) fun _ _ => ?_
  refine Ends.ite (fun _ => stateRequestComplete_orderly hE) fun _ => ?_
  refine Ends.ite (fun _ => ?_) fun _ => ?_
  · refine Ends.of (F := Any) (fun _ => InBody.orderly) ?_
    keeps_walk
  · refine Ends.ite (fun _ => ?_) fun _ => ?_
    · refine Ends.of (F := Any) (fun _ => InBody.orderly) ?_
      keeps_walk
      body_leaf
    · refine Ends.bind (F := Any) (fun _ => InBody.orderly) (by keeps_walk; body_leaf) fun _ _ => ?_
      refine Ends.bind (F := Any) (fun _ => InBody.orderly) (by keeps_walk) fun _ _ => ?_
      exact stateRequestComplete_orderly hE

theorem requestFinalize_orderly {e : Env} (hE : EndsAccepted e) {r k : Nat} :
    Ends (InBody false r k) (requestFinalize e) := by
  unfold requestFinalize
  refine Ends.bind_state fun s0 h0 => ?_
  refine Ends.ite (fun _ => stateRequestComplete_orderly hE) fun _ => ?_
  refine Ends.ite (fun _ => requestFinalizeLine_orderly hE _) fun _ => ?_
  refine Ends.ite (fun _ => stateRequestComplete_orderly hE) fun _ => ?_
  split
  · refine Ends.bind (F := Any) (fun _ => InBody.orderly) (by keeps_walk) fun _ _ => ?_
    exact requestFinalizeLine_orderly hE _
  · refine Ends.of (F := Any) (fun _ => InBody.orderly) ?_
    keeps_walk

theorem InLine.emit {r k : Nat} {s : Conn} {ev : Event} (h : InLine r k s)
    (hev : requestStage ev = some (r, .line)) : InLine r k { s with trace := s.trace ++ [ev] } :=
  ⟨h.1.same rfl, h.2, h.3, h.4, h.5.step hev (.inr ⟨rfl, by simp, by simp⟩) (by simp)⟩

theorem InLine.set {r k : Nat} {s : Conn} {h' : Half} (h : InLine r k s) (hr : h'.receiver = s.req.receiver)
    (hs : h'.state = s.req.state ∨ h'.state = .protocol)
    (hc : h'.contentLength = s.req.contentLength) : InLine r k { s with req := h' } := by
  refine ⟨h.1.same rfl, ?_, hr.trans h.3, hc.trans h.4, h.5⟩
  rcases hs with hs | hs
  · exact hs.symm ▸ h.2
  · exact .inr hs

macro "line_leaf" : tactic => `(tactic|
  first
  | fact_leaf
  | (refine InLine.set (by assumption) rfl ?_ rfl; simp; done))

theorem stateRequestLine_line {r k : Nat} (e : Env) : Keeps (InLine r k) Any (stateRequestLine e) := by
  unfold stateRequestLine
  keeps_walk
  · rename_i ht
    exact ht.of_tag (Tx.tag_parseRequestLine _ _)
  · rename_i h0 _ h
    exact h.emit (by rw [h0.store.1]; rfl)
  · rename_i h0 _ _ _ h
    exact h.emit (by rw [h0.store.1]; rfl)
  · rename_i ht _ _ hu
    exact ht.of_tag (Tx.tag_storeNormalizedUri _ _ hu)
  · line_leaf

macro_rules | `(tactic| keeps_known) => `(tactic| exact stateRequestLine_line _)

theorem requestLineComplete_line {r k : Nat} (e : Env) (line : Bytes) :
    Keeps (InLine r k) Any (requestLineComplete e line) := by
  unfold requestLineComplete
  keeps_walk
  · line_leaf
  · rename_i ht _
    exact ht.of_tag (Tx.tag_readRequestLine _ _ _)

macro_rules | `(tactic| keeps_known) => `(tactic| exact requestLineComplete_line _ _)

theorem requestLine_line {r k : Nat} (e : Env) : Keeps (InLine r k) Any (requestLine e) := by
  unfold requestLine
  keeps_walk <;> line_leaf

theorem requestProtocol_orderly {r k : Nat} (e : Env) : Ends (InLine r k) (requestProtocol e) := by
  unfold requestProtocol
  refine Ends.bind (fun _ => InLine.orderly) (Keeps.requestTx InLine.stable) fun t ht => ?_
  refine Ends.bind_state fun s0 h0 => ?_
  refine Ends.ite (fun _ => ?_) fun _ => Ends.ite (fun _ => ?_) fun _ => ?_
  · refine Ends.bind (fun _ => InLine.orderly) (Keeps.putRequest InLine.stable ⟨ht.1, by simp [Undone]⟩) ?_
    intro _ _ s h
    exact InHead.orderly (b := false) ⟨h.1.same rfl, rfl, .inl h.3, h.4, h.5.mono (by decide)⟩
  · refine Ends.bind (fun _ => InLine.orderly) (Keeps.putRequest InLine.stable ⟨ht.1, by simp [Undone]⟩) ?_
    intro _ _ s h
    exact InHead.orderly (b := false) ⟨h.1.same rfl, rfl, .inl h.3, h.4, h.5.mono (by decide)⟩
  · intro s h
    exact InBody.orderly (b := true) ⟨h.1.same rfl, rfl, h.3, h.4, h.5.mono (by decide)⟩

/-! ### The headers -/

theorem InHead.set {b : Bool} {r k : Nat} {s : Conn} {h' : Half} (h : InHead b r k s)
    (hr : h'.receiver = s.req.receiver ∨ h'.receiver = none) (hs : h'.state = s.req.state)
    (hc : h'.contentLength = s.req.contentLength) : InHead b r k { s with req := h' } := by
  refine ⟨h.1.same rfl, hs.trans h.2, ?_, hc.trans h.4, h.5⟩
  rcases hr with hr | hr
  · exact hr.symm ▸ h.3
  · exact .inl hr

macro "head_leaf" : tactic => `(tactic|
  first
  | fact_leaf
  | (refine InHead.set (by assumption) ?_ rfl rfl; simp; done)
  | (rename_i h; exact ⟨h.1.same rfl, h.2, h.3, h.4, h.5⟩))

theorem requestReceiverSendData_head {b : Bool} {r k : Nat} (e : Env) :
    Keeps (InHead b r k) Any (requestReceiverSendData e) := by
  unfold requestReceiverSendData
  refine Keeps.bind_state fun s0 h0 => ?_
  refine Keeps.bind (F := Any) (Keeps.modify fun s h => ⟨h.1.same rfl, h.2, h.3, h.4, h.5⟩) fun _ _ => ?_
  refine Keeps.bind (Keeps.requestTx InHead.stable) fun t ht => ?_
  rcases h0.recv with hr | hr
  · rw [hr]; exact Keeps.pure
  · rw [hr]
    refine Keeps.emit fun s h => ⟨h.1.same rfl, h.2, h.3, h.4, ?_⟩
    rw [h0.store.1]
    cases b
    · exact h.5.step (k := .headers) rfl (.inr ⟨rfl, by simp, by simp⟩) (by simp)
    · exact h.5.step (k := .body) rfl (.inr ⟨rfl, by simp, by simp⟩) (by simp)

macro_rules | `(tactic| keeps_known) => `(tactic| exact requestReceiverSendData_head _)

theorem requestReceiverFinalizeClear_head {b : Bool} {r k : Nat} (e : Env) :
    Keeps (InHead b r k) Any (requestReceiverFinalizeClear e) := by
  unfold requestReceiverFinalizeClear
  keeps_walk
  head_leaf

/-- When the receiver has been told, there is none. -/
theorem requestReceiverFinalizeClear_none (e : Env) (s : Conn) :
    post (requestReceiverFinalizeClear e) s (fun r s' => r = .ok () → s'.req.receiver = none) := by
  unfold requestReceiverFinalizeClear
  refine post.bind_state ?_
  cases hr : s.req.receiver with
  | none => exact fun _ => hr
  | some x =>
    refine post.bind_any fun rc s1 => ?_
    refine post.bind_modify ?_
    cases rc with
    | ok _ => exact fun _ => rfl
    | error x => exact fun h => by cases h

/-- The headers have been read and the receiver of the raw data has been told. -/
def Told (b : Bool) (r k : Nat) (s : Conn) : Prop := InHead b r k s ∧ s.req.receiver = none

theorem Told.stable {b : Bool} {r k : Nat} : ReqStable (Told b r k) (ReqFact r (if b then Late else Undone)) where
  get h := InHead.stable.get h.1
  new h hn := InHead.stable.new h.1 hn
  put h ht := ⟨InHead.stable.put h.1 ht, h.2⟩

macro_rules | `(tactic| keeps_stable) => `(tactic| exact Told.stable)

theorem Told.orderly {b : Bool} {r k : Nat} {s : Conn} (h : Told b r k s) : Orderly s := h.1.orderly

/-- The end of a trailer. -/
theorem stateRequestTrailer_orderly {r k : Nat} (e : Env) : Ends (Told true r k) (stateRequestTrailer e) := by
  unfold stateRequestTrailer
  refine Ends.bind_state fun s0 h0 => ?_
  refine Ends.bind (F := Any) (fun _ => Told.orderly) (Keeps.runTxHook fun s h => ?_) fun _ _ s h => ?_
  · rw [h0.1.store.1]
    exact ⟨⟨h.1.1.same rfl, h.1.2, h.1.3, h.1.4,
      h.1.5.step (k := .body) rfl (.inr ⟨rfl, by simp, by simp⟩) (by simp)⟩, h.2⟩
  · exact InBody.orderly (b := true) ⟨(h.1.1.mono fun p hp => hp.1).same rfl, rfl, h.2, h.1.4, h.1.5⟩

/-- The end of the headers. -/
theorem stateRequestHeadersDone_orderly {r k : Nat} (e : Env) :
    Ends (Told false r k) (stateRequestHeadersDone e) := by
  unfold stateRequestHeadersDone
  refine Ends.bind_state fun s0 h0 => ?_
  refine Ends.bind (F := Any) (fun _ => Told.orderly)
    (Keeps.when fun _ => Keeps.modifyRequest Told.stable fun t ht => ht) fun _ _ => ?_
  refine Ends.bind (F := Any) (fun _ => Told.orderly)
    (Keeps.onRequest Told.stable fun t ht => ht.of_tag (Tx.tag_processRequestHeaders _ _)) fun _ _ => ?_
  refine Ends.bind (F := Any) (fun _ => Told.orderly) (Keeps.runTxHook fun s h => ?_) fun _ _ => ?_
  · rw [h0.1.store.1]
    exact ⟨⟨h.1.1.same rfl, h.1.2, h.1.3, h.1.4,
      h.1.5.step (k := .headers) rfl (.inr ⟨rfl, by simp, by simp⟩) (by simp)⟩, h.2⟩
  refine Ends.bind (fun _ => Told.orderly) (Keeps.requestTx Told.stable) fun t ht => ?_
  refine Ends.bind (fun _ => Told.orderly)
    (Keeps.putRequest Told.stable (ht.of_tag (Tx.tag_initRequestDecompressors _ _))) fun _ _ s h => ?_
  exact InBody.orderly (b := true) ⟨h.1.1.same rfl, rfl, h.2, h.1.4, h.1.5.mono (by decide)⟩

/-- What a successful look at the current request leaves. -/
theorem requestTx_get (e : Env) (x : Err) (s : Conn) :
    post (requestTx e x) s (fun r s' => ∀ t, r = .ok t → s'.txs.get s'.txs.request = some t) := by
  unfold post requestTx Txs.requestMut Txs.entry
  cases hg : s.txs.get s.txs.request with
  | some t => rintro u h; cases h; exact hg
  | none =>
    dsimp only
    by_cases hl : s.txs.map.length ≥ e.cfg.maxTx
    · rw [if_pos hl]; rintro u h; cases h
    · rw [if_neg hl]
      rintro u h
      cases h
      show (s.txs.set s.txs.request _).get s.txs.request = _
      rw [Txs.get_set, if_pos rfl]

theorem Late.of_rank {p : Progress} (h : p.rank > Progress.headers.rank) (hu : Undone p) : Late p := by
  cases p <;> first | exact absurd h (by decide) | exact ⟨hu, by decide, by decide⟩

theorem stateRequestHeaders_orderly {b : Bool} {r k : Nat} (e : Env) :
    Ends (InHead b r k) (stateRequestHeaders e) := by
  unfold stateRequestHeaders
  intro s h
  refine post.bind (Q := fun _ s' => Orderly s') ?_
  have h1 := (requestReceiverFinalizeClear_head e s h).1
  have h2 := requestReceiverFinalizeClear_none e s
  unfold post at h2 ⊢
  generalize requestReceiverFinalizeClear e s = x at h1 h2 ⊢
  obtain ⟨rc, s1⟩ := x
  cases rc with
  | error x => exact h1.orderly
  | ok _ =>
    have h3 : Told b r k s1 := ⟨h1, h2 rfl⟩
    dsimp only
    refine post.bind (Q := fun _ s' => Orderly s') ?_
    have h4 := Keeps.requestTx (e := e) (x := .status .error) Told.stable s1 h3
    have h5 := requestTx_get e (.status .error) s1
    unfold post at h5 ⊢
    generalize requestTx e (.status .error) s1 = y at h4 h5 ⊢
    obtain ⟨rt, s2⟩ := y
    cases rt with
    | error x => exact h4.1.orderly
    | ok t =>
      dsimp only at h4 h5 ⊢
      have h6 := h4.2 t rfl
      have h7 := h5 t rfl
      have hu : Undone t.requestProgress := by
        have := h6.2
        cases b
        · exact this
        · exact this.1
      by_cases hp : t.requestProgress.rank > Progress.headers.rank
      · rw [if_pos hp]
        refine stateRequestTrailer_orderly (r := r) (k := k) e s2 ?_
        obtain ⟨h8, h9⟩ := h4.1
        refine ⟨⟨?_, h8.2, .inl h9, h8.4, ?_⟩, h9⟩
        · refine ⟨h8.1.1, h8.1.2, h8.1.3, ?_, h8.1.5⟩
          intro u hu'
          rw [h8.1.1, hu'] at h7
          cases h7
          exact Late.of_rank hp hu
        · exact h8.5.mono (by cases b <;> decide)
      · rw [if_neg hp]
        by_cases hp2 : t.requestProgress.rank ≥ Progress.line.rank
        · rw [if_pos hp2]
          cases b with
          | false => exact stateRequestHeadersDone_orderly e s2 h4.1
          | true =>
            have hl : Late t.requestProgress := h6.2
            cases hq : t.requestProgress <;> rw [hq] at hp hp2 hl <;>
              first
              | exact absurd rfl hl.1
              | exact absurd rfl hl.2.1
              | exact absurd rfl hl.2.2
              | exact absurd hp2 (by decide)
              | exact absurd hp (by decide)
        · rw [if_neg hp2]
          exact h4.1.orderly

theorem requestHeadersClosed_orderly {b : Bool} {r k : Nat} (e : Env) :
    Ends (InHead b r k) (requestHeadersClosed e) := by
  unfold requestHeadersClosed
  refine Ends.bind (fun _ => InHead.orderly) (Keeps.requestTx InHead.stable) fun t ht => ?_
  refine Ends.bind (fun _ => InHead.orderly)
    (Keeps.putRequest InHead.stable ⟨ht.1, by cases b <;> simp [Undone, Late]⟩) fun _ _ => ?_
  refine Ends.bind_state fun s0 h0 => ?_
  refine Ends.bind (F := Any) (fun _ => InHead.orderly) (by keeps_walk; head_leaf) fun _ _ => ?_
  refine Ends.bind (F := Any) (fun _ => InHead.orderly) ?_ fun _ _ => ?_
  · exact Keeps.when fun _ => Keeps.bind (F := Any) (Keeps.withRequest InHead.stable fun t ht =>
      ht.of_tag (Tx.tag_parseRequestHeaders _ _)) fun _ _ => Keeps.pure
  refine Ends.bind (F := Any) (fun _ => InHead.orderly) (by keeps_walk; head_leaf) fun _ _ => ?_
  exact stateRequestHeaders_orderly e

theorem requestHeaders_orderly {b : Bool} {r k : Nat} (e : Env) :
    Ends (InHead b r k) (requestHeaders e) := by
  unfold requestHeaders
  refine Ends.bind_state fun s0 h0 => ?_
  refine Ends.ite (fun _ => requestHeadersClosed_orderly e) fun _ => ?_
  refine Ends.bind (F := Any) (fun _ => InHead.orderly) (by keeps_walk; head_leaf) fun _ _ => ?_
  refine Ends.bind (F := Any) (fun _ => InHead.orderly)
    (Keeps.withRequest InHead.stable fun t ht => ht.of_tag (Tx.tag_parseRequestHeaders _ _)) fun x _ => ?_
  obtain ⟨remaining, eoh⟩ := x
  dsimp only
  refine Ends.ite (fun _ => ?_) fun _ => ?_
  · refine Ends.bind (F := Any) (fun _ => InHead.orderly) (by keeps_walk) fun _ _ => ?_
    exact stateRequestHeaders_orderly e
  · refine Ends.of (F := Any) (fun _ => InHead.orderly) ?_
    keeps_walk
    head_leaf

/-! ### Idle -/

theorem stateRequestStart_orderly (e : Env) (s : Conn) (h : Orderly s)
    (hs : s.req.state = .idle) (hc : s.req.contentLength = none) : Orderly (stateRequestStart e s).2 := by
  unfold stateRequestStart
  have hf : Core s.trace s.txs.request 0 := by
    have := h.fits
    unfold Fits at this
    rw [hs] at this
    exact this
  have hr : s.req.receiver = none := by
    rcases h.recv with h1 | h1
    · exact h1
    · rw [hs] at h1; cases h1.1
  -- the state of the machine is changed first
  let P : Conn → Prop := fun s' => InLine s.txs.request s.txs.response s' ∧ Core s'.trace s.txs.request 0
  have hP : ReqStable P (ReqFact s.txs.request Undone) :=
    ⟨fun h => InLine.stable.get h.1, fun h hn => InLine.stable.new h.1 hn, fun h ht => ⟨InLine.stable.put h.1 ht, h.2⟩⟩
  have h1 : P { s with req := { s.req with state := .line } } :=
    ⟨⟨h.store.same rfl, .inl rfl, hr, hc, hf.mono (by omega)⟩, hf⟩
  suffices h2 : Ends P (do
      let t ← requestTx e
      putRequest { t with requestProgress := .line }
      let s ← state
      runTxHook e .requestStart s.txs.request) from h2 _ h1
  refine Ends.bind (fun _ h => h.1.orderly) (Keeps.requestTx hP) fun t ht => ?_
  refine Ends.bind (fun _ h => h.1.orderly) (Keeps.putRequest hP ⟨ht.1, by simp [Undone]⟩) fun _ _ => ?_
  refine Ends.bind_state fun s0 h0 => ?_
  intro s' h'
  have h3 : Orderly { s' with trace := s'.trace ++ [.tx .requestStart s0.txs.request] } := by
    refine InLine.orderly (r := s.txs.request) (k := s.txs.response)
      ⟨h'.1.1.same rfl, h'.1.2, h'.1.3, h'.1.4, ?_⟩
    have : s0.txs.request = s.txs.request := h0.1.1.1
    rw [this]
    exact (h'.2.step (k := .start) rfl (.inl (by decide)) (by simp)).mono (by decide)
  unfold runTxHook
  show Orderly (M.when (s'.txs.get s0.txs.request).isSome (emit e _) s').2
  cases (s'.txs.get s0.txs.request).isSome with
  | false => exact h'.1.orderly
  | true =>
    show Orderly (emit e _ s').2
    unfold emit
    split <;> exact h3

theorem attempt_snd {α : Type} (m : M α) (s : Conn) : (M.attempt m s).2 = (m s).2 := by
  unfold M.attempt
  cases hm : m s with
  | mk r s' =>
    cases r with
    | ok a => rfl
    | error x => cases x <;> rfl

theorem requestIdle_orderly (e : Env) (s : Conn) (h : Orderly s) (hs : s.req.state = .idle) :
    Orderly (requestIdle e s).2 := by
  unfold requestIdle
  show Orderly ((if s.input.isEmpty ∧ (s.req.status ≠ .closed ∨ s.req.buf = []) then _ else _ : M Unit) s).2
  split
  · exact h
  · show Orderly ((M.attempt (stateRequestStart e) >>= fun _ => pure ()) { s with
      req := { s.req with contentLength := none, bodyDataLeft := none }
      requestChunkRequestIndex := s.requestChunkCount }).2
    refine post.bind (Q := fun _ s' => Orderly s') ?_
    have h1 : Orderly (M.attempt (stateRequestStart e) { s with
        req := { s.req with contentLength := none, bodyDataLeft := none }
        requestChunkRequestIndex := s.requestChunkCount }).2 := by
      rw [attempt_snd]
      refine stateRequestStart_orderly e _ ⟨h.store.same rfl, ?_, h.recv, .inl rfl⟩ hs rfl
      exact h.fits
    unfold post
    generalize M.attempt (stateRequestStart e) _ = x at h1 ⊢
    obtain ⟨r, s'⟩ := x
    cases r <;> exact h1

/-! ### The loop -/

/-- Writing the current request, which comes no closer to its start. -/
theorem Orderly.put {s : Conn} {t : Tx} (h : Orderly s) (hi : t.index = s.txs.request)
    (hu : Undone t.requestProgress)
    (he : t.requestProgress = .line ∨ t.requestProgress = .headers → Early s) :
    Orderly { s with txs := s.txs.set s.txs.request t } := by
  have hE : Early { s with txs := s.txs.set s.txs.request t } → Early s := by
    rintro ⟨u, hu', hp⟩
    have hu'' : (s.txs.set s.txs.request t).get s.txs.request = some u := hu'
    rw [Txs.get_set, if_pos rfl] at hu''
    cases hu''
    exact he hp
  refine ⟨h.store.put_request ⟨hi, hu⟩, ?_, ?_, h.cl⟩
  · have := h.fits
    unfold Fits at this ⊢
    cases hs : s.req.state <;> simp only [hs] at this ⊢ <;> first
      | exact this
      | exact ⟨this.1, fun h' => this.2 (h'.imp id hE)⟩
  · exact h.recv.imp id fun h' => ⟨h'.1, h'.2.imp id fun h'' => ⟨h''.1, fun h3 => h''.2 (hE h3)⟩⟩

theorem requestTx_orderly (e : Env) (x : Err) (s : Conn) (h : Orderly s) :
    Orderly (requestTx e x s).2 ∧ ∀ t, (requestTx e x s).1 = .ok t →
      t.index = s.txs.request ∧ Undone t.requestProgress ∧
      (requestTx e x s).2.txs.request = s.txs.request ∧ (requestTx e x s).2.txs.get s.txs.request = some t ∧
      (requestTx e x s).2.req = s.req := by
  unfold requestTx Txs.requestMut Txs.entry
  cases hg : s.txs.get s.txs.request with
  | some t =>
    refine ⟨h, fun u hu => ?_⟩
    cases hu
    exact ⟨(h.store.get_request hg).1, (h.store.get_request hg).2, rfl, hg, rfl⟩
  | none =>
    dsimp only
    by_cases hl : s.txs.map.length ≥ e.cfg.maxTx
    · rw [if_pos hl]; exact ⟨h, fun u hu => by cases hu⟩
    · rw [if_neg hl]
      refine ⟨h.put rfl (by simp [Undone]) (by simp), fun u hu => ?_⟩
      cases hu
      refine ⟨rfl, by simp [Undone], rfl, ?_, rfl⟩
      show (s.txs.set s.txs.request _).get s.txs.request = _
      rw [Txs.get_set, if_pos rfl]

/-- Parts of the state that do not matter. -/
theorem Orderly.same {s s' : Conn} (h : Orderly s) (ht : s'.txs = s.txs) (htr : s'.trace = s.trace)
    (hs : s'.req.state = s.req.state) (hr : s'.req.receiver = s.req.receiver)
    (hc : s'.req.contentLength = s.req.contentLength) : Orderly s' := by
  have hE : Early s' ↔ Early s := by unfold Early; rw [ht]
  refine ⟨?_, ?_, ?_, ?_⟩
  · rw [ht]; exact h.store.same ht
  · have := h.fits
    unfold Fits at this ⊢
    rw [ht, htr, hs, hr, hE]
    exact this
  · rw [hr, hs, hE]; exact h.recv
  · rw [hc, hs]; exact h.cl

theorem requestReceiverSendData_orderly (e : Env) (s : Conn) (h : Orderly s) :
    Orderly (requestReceiverSendData e s).2 := by
  by_cases hr : s.req.receiver = none
  · unfold requestReceiverSendData
    refine post.bind_state (Q := fun _ s' => Orderly s') ?_
    rw [hr]
    have h1 : Orderly { s with input := s.input.callbackData.2 } := h.same rfl rfl rfl rfl rfl
    have h2 := (requestTx_orderly e (.status .error) _ h1).1
    refine post.bind_modify (Q := fun _ s' => Orderly s') ?_
    refine post.bind (Q := fun _ s' => Orderly s') ?_
    unfold post
    generalize requestTx e (.status .error) { s with input := s.input.callbackData.2 } = x at h2 ⊢
    obtain ⟨r, s'⟩ := x
    cases r <;> exact h2
  · have hs : s.req.state = .headers := by
      rcases h.recv with h1 | h1
      · exact absurd h1 hr
      · exact h1.1
    obtain ⟨b, hb⟩ := h.inHead hs
    exact (requestReceiverSendData_head e s hb).1.orderly

theorem requestSetReceiver_orderly (e : Env) (s : Conn) (h : Orderly s) (hs : s.req.state = .headers) :
    Orderly (requestSetReceiver e s).2 := by
  unfold requestSetReceiver
  refine post.bind (Q := fun _ s' => Orderly s') ?_
  have h1 := requestTx_orderly e .panic s h
  unfold post
  generalize requestTx e .panic s = x at h1 ⊢
  obtain ⟨r, s1⟩ := x
  cases r with
  | error x => exact h1.1
  | ok t =>
    obtain ⟨h2, h3⟩ := h1
    obtain ⟨-, h4, h5, h6, h7⟩ := h3 t rfl
    dsimp only at h2 h4 h5 h6 h7 ⊢
    have hs1 : s1.req.state = .headers := by rw [h7]; exact hs
    have hf := h2.fits
    unfold Fits at hf
    rw [hs1] at hf
    have hcl : s1.req.contentLength = none := by
      rcases h2.cl with hc | hc | hc | hc | hc
      · exact hc
      all_goals rw [hs1] at hc; cases hc
    have hget : s1.txs.get s1.txs.request = some t := by rw [h5]; exact h6
    refine post.bind_modify (Q := fun _ s' => Orderly s') ?_
    cases hp : t.requestProgress
    case headers =>
      have hc := hf.2 (.inr ⟨t, hget, .inr hp⟩)
      exact InHead.orderly (b := false) ⟨h2.store.same rfl, hs1, .inr rfl, hcl, hc⟩
    case trailer =>
      refine InHead.orderly (b := true) (k := s1.txs.response) ⟨?_, hs1, .inr rfl, hcl, hf.1⟩
      refine ⟨rfl, rfl, h2.store.3, ?_, h2.store.5⟩
      intro u (hu : s1.txs.get s1.txs.request = some u)
      rw [hget] at hu
      cases hu
      rw [hp]
      simp [Late]
    all_goals exact Orderly.same (s := s1) h2 rfl rfl rfl rfl rfl

theorem requestHandleStateChange_orderly (e : Env) (s : Conn) (h : Orderly s) :
    Orderly (requestHandleStateChange e s).2 := by
  unfold requestHandleStateChange
  refine post.bind_state (Q := fun _ s' => Orderly s') ?_
  unfold post
  split
  · exact h
  · refine post.bind (Q := fun _ s' => Orderly s') ?_
    have h1 : Orderly (M.when (s.req.state == .headers) (requestSetReceiver e) s).2 := by
      cases hb : s.req.state == .headers
      · exact h
      · exact requestSetReceiver_orderly e s h (by simpa using hb)
    unfold post
    generalize M.when (s.req.state == .headers) (requestSetReceiver e) s = x at h1 ⊢
    obtain ⟨r, s'⟩ := x
    cases r with
    | ok _ => exact Orderly.same (s := s') h1 rfl rfl rfl rfl rfl
    | error x => exact h1

theorem handleRequestState_orderly {e : Env} (hE : EndsAccepted e) (s : Conn) (h : Orderly s) :
    Orderly (handleRequestState e s).2 := by
  unfold handleRequestState
  refine post.bind_state (Q := fun _ s' => Orderly s') ?_
  unfold post
  have hb := h.inBody
  cases hs : s.req.state with
  | idle => exact requestIdle_orderly e s h hs
  | ignoreDataAfterHttp09 =>
    show Orderly (requestIgnoreDataAfterHttp09 s).2
    unfold requestIgnoreDataAfterHttp09
    refine post.bind_state (Q := fun _ s' => Orderly s') ?_
    cases s.input.isEmpty
    · exact h.same rfl rfl rfl rfl rfl
    · exact h.same rfl rfl rfl rfl rfl
  | line => exact (requestLine_line e s (h.inLine (.inl hs))).1.orderly
  | protocol => exact requestProtocol_orderly e s (h.inLine (.inr hs))
  | headers =>
    obtain ⟨b, hb⟩ := h.inHead hs
    exact requestHeaders_orderly e s hb
  | connectWaitResponse =>
    rw [hs] at hb
    exact (requestConnectWaitResponse_body e s (hb rfl)).1.orderly
  | connectCheck =>
    rw [hs] at hb
    exact (requestConnectCheck_body e s (hb rfl)).1.orderly
  | connectProbeData =>
    rw [hs] at hb
    exact requestConnectProbeData_orderly hE s (hb rfl)
  | bodyDetermine =>
    rw [hs] at hb
    exact requestBodyDetermine_orderly e s (hb rfl)
  | bodyChunkedData =>
    rw [hs] at hb
    exact (requestBodyChunkedData_body e s (hb rfl)).1.orderly
  | bodyChunkedLength =>
    rw [hs] at hb
    exact requestBodyChunkedLength_orderly e s (hb rfl)
  | bodyChunkedDataEnd =>
    rw [hs] at hb
    exact (requestBodyChunkedDataEnd_body e s (hb rfl)).1.orderly
  | bodyIdentity =>
    rw [hs] at hb
    exact (requestBodyIdentity_body e s (hb rfl)).1.orderly
  | finalize =>
    rw [hs] at hb
    exact requestFinalize_orderly hE s (hb rfl)
  | none => exact h
  | bodyIdentityStreamClose => exact h
  | bodyIdentityClKnown => exact h

theorem requestReturn_orderly (st : StreamState) (s : Conn) (h : Orderly s) : Orderly (requestReturn st s).2 :=
  Orderly.same (s := s) h rfl rfl rfl rfl rfl

/-- The rule for an attempted function. -/
theorem orderly_attempt {α β : Type} {m : M α} {f : Except Status α → M β} {s : Conn} (h : Orderly (m s).2)
    (hf : ∀ x s', Orderly s' → Orderly (f x s').2) : Orderly ((M.attempt m >>= f) s).2 := by
  refine post.bind (Q := fun _ s' => Orderly s') ?_
  have h1 : Orderly (M.attempt m s).2 := by rw [attempt_snd]; exact h
  unfold post
  generalize M.attempt m s = x at h1 ⊢
  obtain ⟨r, s'⟩ := x
  cases r with
  | ok a => exact hf a s' h1
  | error x => exact h1

theorem requestAfterStep_orderly (e : Env) (rc : Except Status Unit) (s : Conn) (h : Orderly s) :
    Orderly (requestAfterStep e rc s).2 := by
  have hsend : Orderly ((do
      let _ ← attempt (requestReceiverSendData e)
      requestReturn .data : M (Option StreamState)) s).2 :=
    orderly_attempt (requestReceiverSendData_orderly e s h) fun _ s' h' => requestReturn_orderly _ s' h'
  cases rc with
  | ok _ => exact h
  | error st =>
    cases st
    case data => exact hsend
    case dataBuffer => exact hsend
    case dataOther =>
      show Orderly ((if s.input.isEmpty then requestReturn .data else requestReturn .dataOther) s).2
      split <;> exact requestReturn_orderly _ s h
    all_goals exact requestReturn_orderly _ s h

theorem requestStep_orderly {e : Env} (hE : EndsAccepted e) (s : Conn) (h : Orderly s) :
    Orderly (requestStep e s).2 := by
  unfold requestStep
  refine post.bind_state (Q := fun _ s' => Orderly s') ?_
  unfold post
  split
  · exact h
  · refine orderly_attempt (handleRequestState_orderly hE s h) fun rc s1 h1 => ?_
    unfold requestStepTail
    refine post.bind_state (Q := fun _ s' => Orderly s') ?_
    unfold post
    cases rc with
    | ok _ =>
      dsimp only
      split
      · exact h1
      · exact orderly_attempt (requestHandleStateChange_orderly e s1 h1) fun rc s2 h2 =>
          requestAfterStep_orderly e rc s2 h2
    | error st => exact requestAfterStep_orderly e _ s1 h1

/-- The rule for a sequence. -/
theorem orderly_bind {α β : Type} {m : M α} {f : α → M β} {s : Conn} (h : Orderly (m s).2)
    (hf : ∀ x s', Orderly s' → Orderly (f x s').2) : Orderly ((m >>= f) s).2 := by
  refine post.bind (Q := fun _ s' => Orderly s') ?_
  unfold post
  generalize m s = x at h ⊢
  obtain ⟨r, s'⟩ := x
  cases r with
  | ok a => exact hf a s' h
  | error x => exact h

theorem requestLoop_orderly {e : Env} (hE : EndsAccepted e) (n : Nat) :
    ∀ s, Orderly s → Orderly (requestLoop e n s).2 := by
  induction n with
  | zero => exact fun s h => h
  | succ n ih =>
    intro s h
    unfold requestLoop
    refine orderly_bind (requestStep_orderly hE s h) fun x s1 h1 => ?_
    cases x with
    | some st => exact h1
    | none => exact ih s1 h1

theorem requestNoteGap_orderly (e : Env) (s : Conn) (h : Orderly s) : Orderly (requestNoteGap e s).2 := by
  unfold requestNoteGap
  refine post.bind (Q := fun _ s' => Orderly s') (post.attempt ?_)
  have h1 := requestTx_orderly e (.status .error) s h
  unfold post
  generalize requestTx e (.status .error) s = x at h1 ⊢
  obtain ⟨r, s1⟩ := x
  cases r with
  | error x => cases x <;> exact h1.1
  | ok t =>
    obtain ⟨h2, h3⟩ := h1
    obtain ⟨h8, h4, h5, h6, h7⟩ := h3 t rfl
    dsimp only at h2 h4 h5 h6 h7 ⊢
    refine post.bind_state (Q := fun _ s' => Orderly s') ?_
    unfold post
    split
    · exact requestReturn_orderly .error _ (Orderly.put (s := s1)
        (t := { t.setFlags Flag.REQUEST_MISSING_BYTES with requestProgress := .gap })
        h2 (by rw [h5]; exact h8) (by simp [Undone]) (by simp))
    · exact Orderly.put (s := s1) (t := t.setFlags Flag.REQUEST_MISSING_BYTES)
        h2 (by rw [h5]; exact h8) h4 fun hp => ⟨t, by rw [h5]; exact h6, hp⟩

theorem requestProcess_orderly {e : Env} (hE : EndsAccepted e) (s : Conn) (h : Orderly s) :
    Orderly (requestProcess e s).2 := by
  unfold requestProcess
  refine orderly_bind (Orderly.same (s := s) h rfl rfl rfl rfl rfl) fun _ s1 h1 => ?_
  refine post.bind_state (Q := fun _ s' => Orderly s') ?_
  refine orderly_bind ?_ fun x s2 h2 => ?_
  · unfold requestEarly
    refine post.bind_state (Q := fun _ s' => Orderly s') ?_
    unfold post
    split
    · exact requestNoteGap_orderly e s1 h1
    · exact h1
  · cases x with
    | some st => exact h2
    | none => exact requestLoop_orderly hE _ s2 h2

theorem requestData_orderly {e : Env} (hE : EndsAccepted e) (c : PData) (s : Conn) (h : Orderly s) :
    Orderly (requestData e c s).2 := by
  unfold requestData
  refine orderly_bind (Orderly.same (s := s) h rfl rfl rfl rfl rfl) fun _ s1 h1 => ?_
  refine post.bind_state (Q := fun _ s' => Orderly s') ?_
  unfold post
  split
  · exact h1
  · split
    · exact h1
    · split
      · exact h1
      · refine orderly_bind (Orderly.same (s := s1) h1 rfl rfl rfl rfl rfl) fun _ s2 h2 => ?_
        split
        · exact h2
        · exact requestProcess_orderly hE s2 h2

end Model
