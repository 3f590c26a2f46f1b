/-
Every step of the request loop keeps the invariants and makes the measure smaller.
-/
import Verif.Lemmas.ConnReqInv

namespace Model

open M

/-- The invariant of the request side while a chunk is processed. -/
structure ReqOK (e : Env) (s : Conn) : Prop where
  wf : s.input.WF
  consumed : s.req.bytesConsumed = s.input.position
  inside : s.input.position ≤ s.input.total
  closed : s.req.status = .closed → s.input.total = 0
  buffered : s.req.buffered ≤ e.cfg.fieldLimit

/-- A bound on the position of the state in the sequence of states of a request. -/
def reqRank : State → Nat
  | .protocol => 9
  | .headers => 8
  | .connectCheck => 7
  | .bodyDetermine => 6
  | .bodyIdentity | .bodyChunkedLength | .bodyChunkedData | .bodyChunkedDataEnd => 5
  | .connectWaitResponse => 4
  | .connectProbeData => 3
  | .finalize => 2
  | .idle => 1
  | _ => 0

/-- How often the buffered bytes can still be looked at. -/
def reqWeight : State → Nat
  | .idle | .line | .ignoreDataAfterHttp09 => 1
  | _ => 2

/-- The measure. -/
def reqMeasure (s : Conn) : Nat :=
  16 * (s.input.len + reqWeight s.req.state * s.req.buf.length) + reqRank s.req.state

theorem reqRank_lt (st : State) : reqRank st < 10 := by cases st <;> decide

theorem reqWeight_le (st : State) : 1 ≤ reqWeight st ∧ reqWeight st ≤ 2 := by cases st <;> decide

theorem ReqKept.len {s s' : Conn} (h : ReqKept s s') : s'.input.len = s.input.len := by
  simp only [PData.len, PData.asSlice, h.position, h.data, h.gap]

theorem ReqKept.total {s s' : Conn} (h : ReqKept s s') : s'.input.total = s.input.total := by
  simp only [PData.total, h.data, h.gap]

theorem ReqKept.asSlice {s s' : Conn} (h : ReqKept s s') : s'.input.asSlice = s.input.asSlice := by
  simp only [PData.asSlice, h.position, h.data]

theorem ReqOK.kept {e : Env} {s s' : Conn} (h : ReqOK e s) (k : ReqKept s s') : ReqOK e s' where
  wf := by
    have := h.wf
    unfold PData.WF at *
    rw [k.gap, k.data]; exact this
  consumed := by rw [k.consumed, k.position]; exact h.consumed
  inside := by rw [k.position, k.total]; exact h.inside
  closed := fun x => by rw [k.total]; exact h.closed (k.status x)
  buffered := by
    have := h.buffered
    unfold Half.buffered at *
    rw [k.buf, k.header]; exact this

/-- What a step does. -/
def ReqGood (e : Env) (s : Conn) (r : Except Err Unit) (s' : Conn) : Prop :=
  ReqOK e s' ∧ (r = .ok () → reqMeasure s' < reqMeasure s ∨ s'.req.status = .tunnel)

/-- A step that only goes on to a later state. -/
theorem ReqGood.of_kept {e : Env} {s s' : Conn} {r : Except Err Unit} (h : ReqOK e s) (k : ReqKept s s')
    (hs : r = .ok () → reqRank s'.req.state < reqRank s.req.state ∧
      reqWeight s'.req.state ≤ reqWeight s.req.state) : ReqGood e s r s' := by
  refine ⟨h.kept k, fun hr => .inl ?_⟩
  obtain ⟨h1, h2⟩ := hs hr
  unfold reqMeasure
  rw [k.len, k.buf]
  have := Nat.mul_le_mul_right s.req.buf.length h2
  omega

/-- A step that consumes something. -/
theorem reqMeasure_of_len {s s' : Conn}
    (h : s'.input.len + reqWeight s'.req.state * s'.req.buf.length <
      s.input.len + reqWeight s.req.state * s.req.buf.length) : reqMeasure s' < reqMeasure s := by
  unfold reqMeasure
  have := reqRank_lt s'.req.state
  omega

/-- Consuming unread bytes. -/
theorem ReqOK.consume {e : Env} {s : Conn} (h : ReqOK e s) {n : Nat} (hn : n ≤ s.input.len) :
    ReqOK e (requestConsume n s).2 where
  wf := h.wf
  consumed := rfl
  inside := by
    rw [PData.len_eq] at hn
    have := h.inside
    show s.input.position + n ≤ s.input.total
    omega
  closed := h.closed
  buffered := h.buffered

theorem requestConsume_len (s : Conn) (n : Nat) :
    (requestConsume n s).2.input.len = s.input.len - n := by
  rw [PData.len_eq, PData.len_eq]
  show s.input.total - (s.input.position + n) = _
  omega

theorem ReqOK.unconsume {e : Env} {s : Conn} (h : ReqOK e s) (n : Nat) :
    ReqOK e (requestUnconsume n s).2 where
  wf := by
    have := h.wf
    unfold PData.WF at *
    show (s.input.unconsume n).gapLen.isSome → (s.input.unconsume n).data = none
    rw [PData.unconsume_gapLen, PData.unconsume_data]
    exact this
  consumed := rfl
  inside := by
    show (s.input.unconsume n).position ≤ (s.input.unconsume n).total
    rw [PData.unconsume_position, PData.unconsume_total]
    have := h.inside
    omega
  closed := by
    show _ → (s.input.unconsume n).total = 0
    rw [PData.unconsume_total]
    exact h.closed
  buffered := h.buffered

theorem requestUnconsume_len (s : Conn) (n : Nat) :
    (requestUnconsume n s).2.input.len ≤ s.input.len + n := by
  rw [PData.len_eq, PData.len_eq]
  show (s.input.unconsume n).total - (s.input.unconsume n).position ≤ _
  rw [PData.unconsume_position, PData.unconsume_total]
  omega

theorem post.bind_ok {α β : Type} {m : M α} {f : α → M β} {s : Conn} {a : α} {s' : Conn}
    {Q : Except Err β → Conn → Prop} (h : m s = (.ok a, s')) (h' : post (f a) s' Q) :
    post (m >>= f) s Q := by
  refine post.bind ?_
  unfold post
  rw [h]
  exact h'

theorem post.bind_consume {β : Type} {f : Unit → M β} {s : Conn} {n : Nat}
    {Q : Except Err β → Conn → Prop} (h : post (f ()) (requestConsume n s).2 Q) :
    post (requestConsume n >>= f) s Q := post.bind_ok rfl h

theorem post.bind_unconsume {β : Type} {f : Unit → M β} {s : Conn} {n : Nat}
    {Q : Except Err β → Conn → Prop} (h : post (f ()) (requestUnconsume n s).2 Q) :
    post (requestUnconsume n >>= f) s Q := post.bind_ok rfl h

/-- The buffer check. -/
theorem checkRequestBufferLimit_post (e : Env) (s : Conn) (n : Nat) :
    post (checkRequestBufferLimit e n) s (fun r s' => s = s' ∧
      (r = .ok () → n = 0 ∨ s.req.buffered + n ≤ e.cfg.fieldLimit)) := by
  unfold checkRequestBufferLimit
  refine post.bind_state ?_
  refine post.ite (fun _ => ?_) fun h => ?_
  · exact ⟨rfl, fun h => by cases h⟩
  · refine ⟨rfl, fun _ => ?_⟩
    omega

/-- Data without a line end is buffered. -/
theorem handleRequestAbsentLf_good (e : Env) (s : Conn) (h : ReqOK e s) :
    post (handleRequestAbsentLf e) s (fun r s' => ReqOK e s' ∧ ∃ x, r = .error x) := by
  unfold handleRequestAbsentLf
  refine post.bind_state ?_
  refine post.bind ((checkRequestBufferLimit_post e s _).mono ?_)
  rintro r _ ⟨rfl, hr⟩
  cases r with
  | error x => exact ⟨h, x, rfl⟩
  | ok u =>
    have hb : s.req.buffered + s.input.len ≤ e.cfg.fieldLimit := by
      rcases hr rfl with h0 | h0
      · rw [h0]; exact h.buffered
      · exact h0
    refine post.bind_setReq ?_
    refine post.bind_consume ?_
    refine ⟨?_, _, rfl⟩
    refine ReqOK.consume (s := { s with req := { s.req with buf := s.req.buf ++ s.input.asSlice } })
      ⟨h.wf, h.consumed, h.inside, h.closed, ?_⟩ (Nat.le_refl _)
    have := h.wf.asSlice_le
    simp only [Half.buffered, List.length_append] at hb ⊢
    omega

theorem ReqGood.absentLf {e : Env} {s s0 : Conn} (h : ReqOK e s) :
    post (handleRequestAbsentLf e) s (ReqGood e s0) :=
  (handleRequestAbsentLf_good e s h).mono fun r s' ⟨h1, x, hx⟩ => ⟨h1, fun hr => by rw [hx] at hr; cases hr⟩

/-! The handlers. -/

theorem take_split {data rest line : Bytes} {k : Nat} (hd : data ≠ []) (hk : k ≠ 0)
    (hr : data.drop k = rest) (hl : data.take k = line) :
    line.length ≤ data.length ∧ rest = data.drop line.length ∧ line = data.take line.length ∧
      1 ≤ line.length := by
  have hlen : line.length = min k data.length := by rw [← hl, List.length_take]
  have hpos : data.length ≠ 0 := by simpa using hd
  refine ⟨by omega, ?_, ?_, by omega⟩
  · rw [← hr, hlen]
    by_cases h : k ≤ data.length
    · rw [Nat.min_eq_left h]
    · rw [Nat.min_eq_right (by omega), List.drop_length, List.drop_eq_nil_of_le (by omega)]
  · rw [← hl, List.length_take, ← List.take_take, List.take_length]

theorem takeTillIncl_split {p : UInt8 → Bool} {data rest line : Bytes}
    (h : takeTillIncl p data = .ok rest line) :
    line.length ≤ data.length ∧ rest = data.drop line.length ∧ line = data.take line.length ∧
      1 ≤ line.length := by
  unfold takeTillIncl at h
  cases data with
  | nil => simp [Nom.takeTillS, Nom.takeWhileS] at h
  | cons c cs =>
    generalize Nom.takeTillS p (c :: cs) = r at h
    cases r with
    | ok a b =>
      simp only [IRes.ok.injEq] at h
      exact take_split (by simp) (by omega) h.1 h.2
    | err => simp at h
    | incomplete => simp at h

theorem requestIdle_good (e : Env) (s : Conn) (h : ReqOK e s) (hs : s.req.state = .idle) :
    post (requestIdle e) s (ReqGood e s) := by
  have hst : post (requestIdle e) s (fun r s' => r = .ok () → s'.req.state = .line) := by
    unfold requestIdle
    refine post.bind_state (post.ite (fun _ => ?_) fun _ => ?_)
    · intro hr; cases hr
    · refine post.bind_any fun _ s1 => ?_
      refine post.bind (post.attempt ?_)
      have := stateRequestStart_state e s1
      unfold post
      cases hq : stateRequestStart e s1 with
      | mk r s2 =>
        rw [hq] at this
        cases r with
        | ok a => exact fun _ => this
        | error x =>
          cases x with
          | status x => exact fun _ => this
          | panic => intro hr; cases hr
  refine (((requestIdle_kept e).post s).conj hst).mono fun r s' ⟨k, hst⟩ => ?_
  refine ReqGood.of_kept h k fun hr => ?_
  rw [hst hr, hs]
  decide

theorem requestIgnoreDataAfterHttp09_good (e : Env) (s : Conn) (h : ReqOK e s) :
    post requestIgnoreDataAfterHttp09 s (ReqGood e s) := by
  unfold requestIgnoreDataAfterHttp09
  refine post.bind_state ?_
  refine post.bind (post.when (fun _ => post.modify ?_) fun _ => ?_)
  · refine post.bind_consume ⟨?_, fun hr => by cases hr⟩
    exact ReqOK.consume (s := { s with connFlags := setFlag s.connFlags ConnFlag.HTTP_0_9_EXTRA })
      ⟨h.1, h.2, h.3, h.4, h.5⟩ (Nat.le_refl _)
  · refine post.bind_consume ⟨?_, fun hr => by cases hr⟩
    exact ReqOK.consume h (Nat.le_refl _)

theorem requestConnectCheck_good (e : Env) (s : Conn) (h : ReqOK e s) (hs : s.req.state = .connectCheck) :
    post (requestConnectCheck e) s (ReqGood e s) := by
  have hst : post (requestConnectCheck e) s (fun r s' => r = .ok () → s'.req.state = .bodyDetermine) := by
    unfold requestConnectCheck
    refine post.bind_any fun _ _ => post.ite (fun _ => ?_) fun _ => ?_
    · refine post.bind_any fun _ _ => ?_
      intro hr; cases hr
    · exact post.last_setReq fun _ => rfl
  refine (((requestConnectCheck_kept e).post s).conj hst).mono fun r s' ⟨k, hst⟩ => ?_
  refine ReqGood.of_kept h k fun hr => ?_
  rw [hst hr, hs]
  decide

theorem requestConnectWaitResponse_good (e : Env) (s : Conn) (h : ReqOK e s)
    (hs : s.req.state = .connectWaitResponse) :
    post (requestConnectWaitResponse e) s (ReqGood e s) := by
  have hst : post (requestConnectWaitResponse e) s (fun r s' => r = .ok () →
      s'.req.state = .connectProbeData ∨ s'.req.state = .finalize) := by
    unfold requestConnectWaitResponse
    refine post.bind_any fun _ _ => post.ite (fun _ => ?_) fun _ => post.ite (fun _ => ?_) fun _ => ?_
    · intro hr; cases hr
    · exact post.last_setReq fun _ => .inl rfl
    · exact post.last_setReq fun _ => .inr rfl
  refine (((requestConnectWaitResponse_kept e).post s).conj hst).mono fun r s' ⟨k, hst⟩ => ?_
  refine ReqGood.of_kept h k fun hr => ?_
  rcases hst hr with hst | hst <;> rw [hst, hs] <;> decide

theorem requestBodyDetermine_good (e : Env) (s : Conn) (h : ReqOK e s)
    (hs : s.req.state = .bodyDetermine) :
    post (requestBodyDetermine e) s (ReqGood e s) := by
  have hst : post (requestBodyDetermine e) s (fun r s' => r = .ok () →
      s'.req.state = .bodyChunkedLength ∨ s'.req.state = .bodyIdentity ∨ s'.req.state = .finalize) := by
    unfold requestBodyDetermine
    refine post.bind_any fun _ _ => ?_
    split
    · refine post.bind_any fun _ _ => ?_
      exact post.last_setReq fun _ => .inl rfl
    · refine post.ite (fun _ => ?_) fun _ => ?_
      · refine post.bind_any fun _ _ => ?_
        exact post.last_setReq fun _ => .inr (.inl rfl)
      · exact post.last_setReq fun _ => .inr (.inr rfl)
    · exact post.last_setReq fun _ => .inr (.inr rfl)
    · intro hr; cases hr
  refine (((requestBodyDetermine_kept e).post s).conj hst).mono fun r s' ⟨k, hst⟩ => ?_
  refine ReqGood.of_kept h k fun hr => ?_
  rcases hst hr with hst | hst | hst <;> rw [hst, hs] <;> decide

theorem requestProtocol_good (e : Env) (s : Conn) (h : ReqOK e s) (hs : s.req.state = .protocol) :
    post (requestProtocol e) s (ReqGood e s) := by
  have hst : post (requestProtocol e) s (fun r s' => r = .ok () →
      s'.req.state = .headers ∨ s'.req.state = .finalize) := by
    unfold requestProtocol
    refine post.bind_any fun _ _ => post.bind_any fun _ _ => ?_
    refine post.ite (fun _ => ?_) fun _ => post.ite (fun _ => ?_) fun _ => ?_
    · refine post.bind_any fun _ _ => ?_
      exact post.last_setReq fun _ => .inl rfl
    · refine post.bind_any fun _ _ => ?_
      exact post.last_setReq fun _ => .inl rfl
    · exact post.last_setReq fun _ => .inr rfl
  refine (((requestProtocol_kept e).post s).conj hst).mono fun r s' ⟨k, hst⟩ => ?_
  refine ReqGood.of_kept h k fun hr => ?_
  rcases hst hr with hst | hst <;> rw [hst, hs] <;> decide

theorem requestConnectProbeData_good (e : Env) (s : Conn) (h : ReqOK e s)
    (hs : s.req.state = .connectProbeData) :
    post (requestConnectProbeData e) s (ReqGood e s) := by
  unfold requestConnectProbeData
  refine post.bind_state ?_
  split
  · refine post.bind_rel (R := ReqKept) (by rel_walk) (fun _ s1 k => ?_) fun x s1 k => ?_
    · refine post.ite (fun _ => ?_) fun _ => ?_
      · have h' := h.kept k
        exact ⟨⟨h'.1, h'.2, h'.3, (by intro hh; cases hh), h'.5⟩, fun _ => .inr rfl⟩
      · refine (((stateRequestComplete_kept e).post s1).conj (stateRequestComplete_state e s1)).mono
          fun r s' ⟨k', hst⟩ => ?_
        refine ReqGood.of_kept h (ReqKept.pre.trans k k') fun hr => ?_
        rcases hst hr with hst | hst <;> rw [hst, hs] <;> decide
    · exact ⟨h.kept k, fun hr => by cases hr⟩
  · exact ReqGood.absentLf h

theorem requestBodyChunkedDataEnd_good (e : Env) (s : Conn) (h : ReqOK e s)
    (hs : s.req.state = .bodyChunkedDataEnd) :
    post (requestBodyChunkedDataEnd e) s (ReqGood e s) := by
  unfold requestBodyChunkedDataEnd
  refine post.bind_rel (R := ReqKept) (by rel_known) (fun t s1 k => ?_) fun x s1 k => ?_
  rotate_left
  · exact ⟨h.kept k, fun hr => by cases hr⟩
  refine post.bind_state ?_
  split
  next rest line hl =>
    obtain ⟨hle, _, _, hpos⟩ := takeTillIncl_split hl
    refine post.bind_rel (R := Same) (by rel_known) (fun _ s2 k2 => ?_) fun x s2 k2 => ?_
    rotate_left
    · exact ⟨(h.kept k).kept k2.reqKept, fun hr => by cases hr⟩
    have k2' := ReqKept.pre.trans k k2.reqKept
    have h2 := h.kept k2'
    have hlen : line.length ≤ s2.input.len := by
      have := h2.wf.asSlice_le
      rw [← k2.reqKept.asSlice] at hle
      omega
    have h3 := h2.consume hlen
    refine post.bind_consume (post.setReq ⟨⟨h3.1, h3.2, h3.3, h3.4, h3.5⟩, fun _ => .inl ?_⟩)
    refine reqMeasure_of_len ?_
    dsimp only
    rw [requestConsume_len, hs]
    show s2.input.len - line.length + 2 * s2.req.buf.length < _ + 2 * _
    rw [k2'.buf, ← k2'.len]
    omega
  · refine post.bind_rel (R := ReqKept) (by rel_known) (fun _ s2 k2 => ?_) fun x s2 k2 => ?_
    · exact ReqGood.absentLf ((h.kept k).kept k2)
    · exact ⟨(h.kept k).kept k2, fun hr => by cases hr⟩

theorem inputPrefix_post (s : Conn) (n : Nat) :
    post (inputPrefix n) s (fun r s' => s = s' ∧ ∀ d, r = .ok d →
      d = s.input.asSlice.take n ∧ n ≤ s.input.asSlice.length) := by
  unfold post inputPrefix
  split
  · exact ⟨rfl, fun d hd => by cases hd; exact ⟨rfl, by assumption⟩⟩
  · exact ⟨rfl, fun d hd => by cases hd⟩

theorem requestBodyChunkedData_good (e : Env) (s : Conn) (h : ReqOK e s)
    (hs : s.req.state = .bodyChunkedData) :
    post (requestBodyChunkedData e) s (ReqGood e s) := by
  unfold requestBodyChunkedData
  refine post.bind_state ?_
  generalize hn : min s.input.len (s.req.chunkedLength.getD 0) = n
  refine post.ite (fun _ => ⟨h, fun hr => by cases hr⟩) fun hn0 => ?_
  have hnl : n ≤ s.input.len := by omega
  refine post.bind_rel (R := Same) (by rel_known) (fun _ s1 k1 => ?_) fun x s2 k2 => ?_
  rotate_left
  · exact ⟨h.kept k2.reqKept, fun hr => by cases hr⟩
  refine post.bind_rel (R := Same) (by rel_known) (fun _ s2 k2 => ?_) fun x s2 k2 => ?_
  rotate_left
  · exact ⟨h.kept (Same.pre.trans k1 k2).reqKept, fun hr => by cases hr⟩
  have k := (Same.pre.trans k1 k2).reqKept
  have h2 := h.kept k
  have h3 := h2.consume (n := n) (by rw [k.len]; exact hnl)
  refine post.bind_consume (post.bind_setReq (post.bind_state ?_))
  refine post.ite (fun _ => post.setReq ?_) fun _ => ?_
  · refine ⟨⟨h3.1, h3.2, h3.3, h3.4, h3.5⟩, fun _ => .inl (reqMeasure_of_len ?_)⟩
    dsimp only
    rw [requestConsume_len, hs]
    show s2.input.len - n + 2 * s2.req.buf.length < _ + 2 * _
    rw [k.buf, ← k.len] at *
    omega
  · exact ⟨⟨h3.1, h3.2, h3.3, h3.4, h3.5⟩, fun hr => by cases hr⟩

theorem requestChunkLine_state (e : Env) (s : Conn) (l : Bytes) :
    post (requestChunkLine e l) s (fun r s' => r = .ok () →
      s'.req.state = .headers ∨ s'.req.state = .bodyChunkedData) := by
  unfold requestChunkLine
  refine post.bind_any fun _ _ => post.bind_any fun _ _ => ?_
  split
  · intro hr; cases hr
  · refine post.bind_any fun _ _ => ?_
    split
    · intro hr; cases hr
    · refine post.bind_setReq ?_
      refine (Rel.post (R := ReqSt) (by rel_known) _).mono fun r s' h _ => ?_
      exact .inl h
    · exact post.last_setReq fun _ => .inr rfl

/-- Moving on by some bytes of data. -/
theorem ReqGood.consumed {e : Env} {s0 s s' : Conn} {r : Except Err Unit} {n : Nat}
    (h : ReqOK e s') (hn : 1 ≤ n) (hl : n ≤ s.input.len) (hlen : s'.input.len = s.input.len - n)
    (hle : s.input.len ≤ s0.input.len)
    (hb : reqWeight s'.req.state * s'.req.buf.length ≤ reqWeight s0.req.state * s0.req.buf.length) :
    ReqGood e s0 r s' :=
  ⟨h, fun _ => .inl (reqMeasure_of_len (by omega))⟩

theorem requestChunkedLengthLoop_good (e : Env) (s0 s : Conn) (h : ReqOK e s) (data : Bytes)
    (hd : data = s.input.asSlice) (hlen : s.input.len ≤ s0.input.len) (hbuf : s.req.buf = s0.req.buf)
    (hs : s0.req.state = .bodyChunkedLength) :
    post (requestChunkedLengthLoop e data) s (ReqGood e s0) := by
  induction hk : data.length using Nat.strongRecOn generalizing data s with
  | ind k ih =>
    unfold requestChunkedLengthLoop
    split
    next rest line hl =>
      obtain ⟨hle, hrest, _, hpos⟩ := takeTillIncl_split hl
      have hin : line.length ≤ s.input.len := by
        have := h.wf.asSlice_le
        rw [hd] at hle
        omega
      have h1 := h.consume hin
      refine post.bind_consume (post.bind_state ?_)
      refine post.bind_rel (R := ReqKept) (by rel_walk) (fun _ s2 k2 => ?_) fun x s2 k2 => ?_
      rotate_left
      · exact ⟨h1.kept k2, fun hr => by cases hr⟩
      refine post.bind_rel (R := ReqKept) (by rel_known) (fun t s3 k3 => ?_) fun x s2 k3 => ?_
      rotate_left
      · exact ⟨h1.kept (ReqKept.pre.trans k2 k3), fun hr => by cases hr⟩
      have k := ReqKept.pre.trans k2 k3
      refine post.ite (fun _ => ?_) fun _ => ?_
      · refine post.bind_rel (R := ReqKept) (by rel_known) (fun t s4 k4 => ?_) fun x s4 k4 => ?_
        rotate_left
        · exact ⟨(h1.kept k).kept k4, fun hr => by cases hr⟩
        have k' := ReqKept.pre.trans k k4
        refine ih rest.length ?_ s4 (h1.kept k') rest ?_ ?_ ?_ rfl
        · rw [hrest, List.length_drop]; omega
        · rw [k'.asSlice]
          show rest = (s.input.consume line.length).asSlice
          rw [PData.consume_asSlice (by rw [← hd]; exact hle), hrest, hd]
        · rw [k'.len, requestConsume_len]; omega
        · rw [k'.buf]; exact hbuf
      · refine (((requestChunkLine_kept e _).post s3).conj (requestChunkLine_state e s3 _)).mono
          fun r s' ⟨k4, hst⟩ => ?_
        have k' := ReqKept.pre.trans k k4
        refine ⟨h1.kept k', fun hr => .inl (reqMeasure_of_len ?_)⟩
        rw [k'.len, requestConsume_len, k'.buf, hs]
        show _ + _ * s.req.buf.length < _ + 2 * _
        rw [hbuf]
        have : reqWeight s'.req.state = 2 := by rcases hst hr with hst | hst <;> rw [hst] <;> rfl
        rw [this]
        omega
    · refine post.ite (fun _ => ReqGood.absentLf h) fun _ => ⟨h, fun hr => by cases hr⟩

theorem requestBodyChunkedLength_good (e : Env) (s : Conn) (h : ReqOK e s)
    (hs : s.req.state = .bodyChunkedLength) :
    post (requestBodyChunkedLength e) s (ReqGood e s) :=
  requestChunkedLengthLoop_good e s s h _ rfl (Nat.le_refl _) rfl hs

theorem requestBodyIdentity_good (e : Env) (s : Conn) (h : ReqOK e s)
    (hs : s.req.state = .bodyIdentity) :
    post (requestBodyIdentity e) s (ReqGood e s) := by
  unfold requestBodyIdentity
  refine post.bind_state ?_
  split
  · exact ⟨h, fun hr => by cases hr⟩
  next left hleft =>
  generalize hn : min s.input.len left = n
  refine post.ite (fun _ => ⟨h, fun hr => by cases hr⟩) fun hn0 => ?_
  refine post.bind_rel (R := Same) (by rel_known) (fun _ s1 k1 => ?_) fun x s2 k2 => ?_
  rotate_left
  · exact ⟨h.kept k2.reqKept, fun hr => by cases hr⟩
  have k := k1.reqKept
  have h3 := (h.kept k).consume (n := n) (by rw [k.len]; omega)
  refine post.bind_consume (post.bind_setReq ?_)
  refine post.ite (fun _ => ?_) fun _ => ?_
  · exact ⟨⟨h3.1, h3.2, h3.3, h3.4, h3.5⟩, fun hr => by cases hr⟩
  · refine post.bind_setReq ?_
    refine (Rel.post (R := Same) (by rel_known) _).mono fun r s' k2 => ?_
    refine ⟨ReqOK.kept ?_ k2.reqKept, fun hr => .inl (reqMeasure_of_len ?_)⟩
    · exact ⟨h3.1, h3.2, h3.3, h3.4, h3.5⟩
    have hst : s'.req.state = .finalize := by
      obtain ⟨_, _, rfl⟩ := k2
      rfl
    rw [hst, hs, k2.reqKept.len, k2.reqKept.buf]
    dsimp only
    rw [requestConsume_len, k.len]
    show _ + 2 * s1.req.buf.length < _ + 2 * _
    rw [k.buf]
    omega

theorem requestLineComplete_state (e : Env) (s : Conn) (l : Bytes) (hs : s.req.state = .line) :
    post (requestLineComplete e l) s (fun r s' => r = .ok () →
      l ≠ [] ∧ (s'.req.state = .line ∨ s'.req.state = .protocol)) := by
  unfold requestLineComplete
  refine post.bind_rel (R := ReqSt) (by rel_known) (fun _ s1 k1 => ?_) fun x s1 _ => by intro hr; cases hr
  refine post.ite (fun _ => by intro hr; cases hr) fun hl => ?_
  refine post.bind_rel (R := ReqSt) (by rel_known) (fun _ s2 k2 => ?_) fun x s1 _ => by intro hr; cases hr
  refine post.ite (fun _ => ?_) fun _ => ?_
  · refine (Rel.post (R := ReqSt) (by rel_known) _).mono fun r s' k3 _ => ⟨hl, .inl ?_⟩
    rw [k3, k2, k1, hs]
  · refine post.bind_any fun _ _ => ?_
    exact (stateRequestLine_state e _).mono fun r s' h hr => ⟨hl, .inr (h hr)⟩

theorem requestLine_good (e : Env) (s : Conn) (h : ReqOK e s) (hs : s.req.state = .line) :
    post (requestLine e) s (ReqGood e s) := by
  have hclear : ReqOK e { s with req := { s.req with buf := [] } } :=
    ⟨h.1, h.2, h.3, h.4, by have := h.5; simp only [Half.buffered] at *; simp only [List.length_nil]; omega⟩
  unfold requestLine
  refine post.bind_state ?_
  split
  next rest line hl =>
    obtain ⟨hle, _, _, hpos⟩ := takeTillIncl_split hl
    have hin : line.length ≤ s.input.len := by
      have := h.wf.asSlice_le
      omega
    have h1 := hclear.consume hin
    refine post.bind_setReq (post.bind_consume ?_)
    refine (((requestLineComplete_kept e _).post _).conj (requestLineComplete_state e _ _ (by exact hs))).mono
          fun r s' ⟨k, hst⟩ => ?_
    refine ⟨h1.kept k, fun hr => .inl (reqMeasure_of_len ?_)⟩
    rw [k.len, requestConsume_len, k.buf]
    show s.input.len - _ + _ * 0 < _
    omega
  · refine post.ite (fun _ => ?_) fun _ => ReqGood.absentLf h
    have h1 := hclear.consume (n := s.input.len) (Nat.le_refl _)
    refine post.bind_setReq (post.bind_consume ?_)
    refine (((requestLineComplete_kept e _).post _).conj (requestLineComplete_state e _ _ (by exact hs))).mono
          fun r s' ⟨k, hst⟩ => ?_
    refine ⟨h1.kept k, fun hr => .inl (reqMeasure_of_len ?_)⟩
    rw [k.len, requestConsume_len, k.buf, hs]
    have hne := (hst hr).1
    have := h.wf.asSlice_le
    have hl : (s.req.buf ++ s.input.asSlice).length ≠ 0 := by simpa using hne
    rw [List.length_append] at hl
    show s.input.len - s.input.len + _ * 0 < _ + 1 * _
    omega

theorem requestHeadersConsumed_le (n : Nat) (r : Bytes) (b : Bool) : requestHeadersConsumed n r b ≤ n := by
  unfold requestHeadersConsumed
  repeat' split
  all_goals omega

theorem requestHeadersClosed_good (e : Env) (s : Conn) (h : ReqOK e s) (hs : s.req.state = .headers) :
    post (requestHeadersClosed e) s (ReqGood e s) := by
  unfold requestHeadersClosed
  refine post.bind_rel (R := ReqKept) (by rel_known) (fun _ s1 k1 => ?_) fun x s1 k1 => ?_
  rotate_left
  · exact ⟨h.kept k1, fun hr => by cases hr⟩
  refine post.bind_rel (R := ReqKept) (by rel_known) (fun _ s2 k2 => ?_) fun x s2 k2 => ?_
  rotate_left
  · exact ⟨(h.kept k1).kept k2, fun hr => by cases hr⟩
  have k := ReqKept.pre.trans k1 k2
  have h2 := h.kept k
  refine post.bind_state (post.bind_setReq ?_)
  have h3 : ReqOK e { s2 with req := { s2.req with header := none } } :=
    ⟨h2.1, h2.2, h2.3, h2.4, by
      have := h2.5; simp only [Half.buffered] at *; simp only [Option.getD_none, List.length_nil]; omega⟩
  refine post.bind_rel (R := ReqKept) (by rel_walk) (fun _ s4 k4 => ?_) fun x s4 k4 => ?_
  rotate_left
  · exact ⟨h3.kept k4, fun hr => by cases hr⟩
  have h4 := h3.kept k4
  refine post.bind_setReq ?_
  have h5 : ReqOK e { s4 with req := { s4.req with buf := [] } } :=
    ⟨h4.1, h4.2, h4.3, h4.4, by
      have := h4.5; simp only [Half.buffered] at *; simp only [List.length_nil]; omega⟩
  refine (((stateRequestHeaders_kept e).post _).conj (stateRequestHeaders_state e _)).mono
          fun r s' ⟨k5, hst⟩ => ?_
  refine ⟨h5.kept k5, fun hr => .inl ?_⟩
  unfold reqMeasure
  rw [k5.len, k5.buf, hs]
  have hl4 : s4.input.len = s.input.len := by
    rw [k4.len]; exact k.len
  show 16 * (s4.input.len + _ * 0) + _ < 16 * (_ + 2 * _) + 8
  rcases hst hr with hst | hst <;> rw [hst, hl4] <;> simp only [reqRank] <;> omega

theorem requestHeaders_good (e : Env) (s : Conn) (h : ReqOK e s) (hs : s.req.state = .headers) :
    post (requestHeaders e) s (ReqGood e s) := by
  unfold requestHeaders
  refine post.bind_state (post.ite (fun _ => requestHeadersClosed_good e s h hs) fun _ => ?_)
  have h1 : ReqOK e { s with req := { s.req with header := none } } :=
    ⟨h.1, h.2, h.3, h.4, by
      have := h.5; simp only [Half.buffered] at *; simp only [Option.getD_none, List.length_nil]; omega⟩
  have hle := h.wf.asSlice_le
  refine post.bind_setReq ?_
  refine post.bind_rel (R := Same) (by rel_known) (fun p s2 k2 => ?_) fun x s2 k2 => ?_
  rotate_left
  · exact ⟨h1.kept k2.reqKept, fun hr => by cases hr⟩
  have k := k2.reqKept
  have h2 := h1.kept k
  have hl2 : s2.input.len = s.input.len := k.len
  obtain ⟨remaining, eoh⟩ := p
  dsimp only
  refine post.ite (fun _ => ?_) fun _ => ?_
  · generalize hc : requestHeadersConsumed s.input.asSlice.length remaining _ = n
    have hn : n ≤ s2.input.len := by
      rw [← hc, hl2]
      exact Nat.le_trans (requestHeadersConsumed_le ..) hle
    refine post.bind_consume ?_
    refine (((stateRequestHeaders_kept e).post _).conj (stateRequestHeaders_state e _)).mono
          fun r s' ⟨k5, hst⟩ => ?_
    have h3 := h2.consume hn
    refine ⟨h3.kept k5, fun hr => .inl ?_⟩
    unfold reqMeasure
    rw [k5.len, k5.buf, hs, requestConsume_len, hl2]
    show 16 * (_ + _ * s2.req.buf.length) + _ < 16 * (_ + 2 * _) + 8
    rw [k.buf]
    show 16 * (_ + _ * s.req.buf.length) + _ < 16 * (_ + 2 * s.req.buf.length) + 8
    have hw : reqWeight s'.req.state = 2 := by
      rcases hst hr with hst | hst <;> rw [hst] <;> rfl
    have hr' : reqRank s'.req.state < 8 := by
      rcases hst hr with hst | hst <;> rw [hst] <;> decide
    rw [hw]
    omega
  · have h3 := h2.consume (n := s.input.asSlice.length) (by rw [hl2]; exact hle)
    have hhd : (requestConsume s.input.asSlice.length s2).2.req.header = none := k.header
    refine post.bind_consume ?_
    generalize (requestConsume s.input.asSlice.length s2).2 = s3 at h3 hhd ⊢
    refine post.bind ((checkRequestBufferLimit_post e _ _).mono ?_)
    rintro r s' ⟨rfl, hr⟩
    cases r with
    | error x => exact ⟨h3, fun hr => by cases hr⟩
    | ok u =>
      refine post.bind_setReq ⟨⟨h3.1, h3.2, h3.3, h3.4, ?_⟩, fun hr => by cases hr⟩
      have := h3.5
      have hr := hr rfl
      simp only [Half.buffered, hhd, Option.getD_none, List.length_nil] at this hr
      show s3.req.buf.length + remaining.length ≤ _
      omega

theorem requestFinalizeLine_good (e : Env) (s0 s : Conn) (h : ReqOK e s) (work : Bytes)
    (hs : s0.req.state = .finalize) (hst : s.req.state = .finalize) (hbuf : s.req.buf = s0.req.buf)
    (hlen : s.input.len + work.length ≤ s0.input.len) :
    post (requestFinalizeLine e work) s (ReqGood e s0) := by
  unfold requestFinalizeLine
  refine post.bind_state ?_
  refine post.bind_rel (R := Same) (by rel_walk) (fun _ s1 k1 => ?_) fun x s1 k1 => ?_
  rotate_left
  · exact ⟨h.kept k1.reqKept, fun hr => by cases hr⟩
  have h1 := h.kept k1.reqKept
  have hl1 := k1.reqKept.len
  have hst1 : s1.req.state = .finalize := by
    obtain ⟨_, _, rfl⟩ := k1
    exact hst
  refine post.bind_setReq ?_
  have h2 : ReqOK e { s1 with req := { s1.req with buf := [] } } :=
    ⟨h1.1, h1.2, h1.3, h1.4, by
      have := h1.5; simp only [Half.buffered] at *; simp only [List.length_nil]; omega⟩
  have body : ∀ (s2 : Conn), ReqOK e s2 → s2.req.state = .finalize → s2.req.buf = [] →
      s2.input.len = s1.input.len → (s.req.buf ++ work).length ≠ 0 →
      post (requestBodyData e (some (s.req.buf ++ work))) s2 (ReqGood e s0) := by
    intro s2 h2 hst2 hb2 hl2 hne
    refine (Rel.post (R := Same) (by rel_known) _).mono fun r s' k2 => ?_
    refine ⟨h2.kept k2.reqKept, fun hr => .inl (reqMeasure_of_len ?_)⟩
    have hst' : s'.req.state = .finalize := by
      obtain ⟨_, _, rfl⟩ := k2
      exact hst2
    rw [List.length_append] at hne
    rw [hst', hs, k2.reqKept.len, k2.reqKept.buf, hb2, hl2, hl1]
    show _ + 2 * 0 < _ + 2 * _
    rw [← hbuf]
    omega
  refine post.ite (fun _ => ?_) fun hne => ?_
  · refine (((stateRequestComplete_kept e).post _).conj (stateRequestComplete_state e _)).mono
          fun r s' ⟨k2, hst⟩ => ?_
    refine ⟨h2.kept k2, fun hr => .inl ?_⟩
    unfold reqMeasure
    rw [k2.len, k2.buf, hs]
    show 16 * (s1.input.len + _ * 0) + _ < 16 * (_ + 2 * _) + 2
    have : reqRank s'.req.state < 2 := by rcases hst hr with hst | hst <;> rw [hst] <;> decide
    omega
  · have hne' : (s.req.buf ++ work).length ≠ 0 := by simpa using hne
    refine post.ite (fun _ => body _ h2 hst1 rfl rfl hne') fun _ => post.ite (fun _ => ?_) fun _ => ?_
    · refine post.bind_setReq ?_
      exact body _ ⟨h2.1, h2.2, h2.3, h2.4, h2.5⟩ hst1 rfl rfl hne'
    · refine post.bind_setReq (post.bind_unconsume ?_)
      have h3 : ReqOK e { s1 with req := { s1.req with bodyDataLeft := none, buf := s.req.buf } } := by
        refine ⟨h1.1, h1.2, h1.3, h1.4, ?_⟩
        have := h1.5
        simp only [Half.buffered] at *
        rw [k1.reqKept.buf] at this
        exact this
      have h4 := h3.unconsume (s.req.buf ++ work).length
      have hl4 := requestUnconsume_len
        { s1 with req := { s1.req with bodyDataLeft := none, buf := s.req.buf } } (s.req.buf ++ work).length
      refine (((stateRequestComplete_kept e).post _).conj (stateRequestComplete_state e _)).mono
          fun r s' ⟨k2, hst⟩ => ?_
      refine ⟨h4.kept k2, fun hr => .inl ?_⟩
      unfold reqMeasure
      rw [k2.buf, k2.len, hs]
      dsimp only at hl4 ⊢
      rw [List.length_append] at hl4
      have hw : reqWeight s'.req.state = 1 := by rcases hst hr with hst | hst <;> rw [hst] <;> rfl
      have hr' : reqRank s'.req.state < 2 := by rcases hst hr with hst | hst <;> rw [hst] <;> decide
      rw [hw]
      show 16 * (_ + 1 * s.req.buf.length) + _ < 16 * (_ + 2 * _) + 2
      rw [← hbuf]
      simp only [List.length_append] at hl4 ⊢
      omega

theorem requestFinalize_good (e : Env) (s : Conn) (h : ReqOK e s) (hs : s.req.state = .finalize) :
    post (requestFinalize e) s (ReqGood e s) := by
  have hcomp : post (stateRequestComplete e) s (ReqGood e s) := by
    refine (((stateRequestComplete_kept e).post s).conj (stateRequestComplete_state e s)).mono
          fun r s' ⟨k', hst⟩ => ?_
    refine ReqGood.of_kept h k' fun hr => ?_
    rcases hst hr with hst | hst <;> rw [hst, hs] <;> decide
  unfold requestFinalize
  refine post.bind_state (post.ite (fun _ => hcomp) fun _ => ?_)
  refine post.ite (fun hc => ?_) fun _ => post.ite (fun _ => hcomp) fun _ => ?_
  · have ht := h.closed hc
    have : s.input.len = 0 := by rw [PData.len_eq, ht]; omega
    have := h.wf.asSlice_le
    exact requestFinalizeLine_good e s s h _ hs hs rfl (by omega)
  · split
    next rest line hl =>
      obtain ⟨hle, _, _, hpos⟩ := takeTillIncl_split hl
      have := h.wf.asSlice_le
      refine post.bind_consume ?_
      refine requestFinalizeLine_good e s _ (h.consume (by omega)) _ hs hs rfl ?_
      rw [requestConsume_len]
      omega
    · exact ReqGood.absentLf h

theorem handleRequestState_good (e : Env) (s : Conn) (h : ReqOK e s) :
    post (handleRequestState e) s (ReqGood e s) := by
  unfold handleRequestState
  refine post.bind_state ?_
  cases hs : s.req.state
  case idle => exact requestIdle_good e s h hs
  case ignoreDataAfterHttp09 => exact requestIgnoreDataAfterHttp09_good e s h
  case line => exact requestLine_good e s h hs
  case protocol => exact requestProtocol_good e s h hs
  case headers => exact requestHeaders_good e s h hs
  case connectWaitResponse => exact requestConnectWaitResponse_good e s h hs
  case connectCheck => exact requestConnectCheck_good e s h hs
  case connectProbeData => exact requestConnectProbeData_good e s h hs
  case bodyDetermine => exact requestBodyDetermine_good e s h hs
  case bodyChunkedData => exact requestBodyChunkedData_good e s h hs
  case bodyChunkedLength => exact requestBodyChunkedLength_good e s h hs
  case bodyChunkedDataEnd => exact requestBodyChunkedDataEnd_good e s h hs
  case bodyIdentity => exact requestBodyIdentity_good e s h hs
  case finalize => exact requestFinalize_good e s h hs
  all_goals exact ⟨h, fun hr => by cases hr⟩

end Model
