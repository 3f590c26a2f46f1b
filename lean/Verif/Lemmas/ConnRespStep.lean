/-
Every step of the response loop keeps the invariants and makes the measure smaller.
-/
import Verif.Lemmas.ConnRespInv

namespace Model

open M

/-- The invariant of the response side while a chunk is processed. -/
structure RespOK (e : Env) (s : Conn) : Prop where
  wf : s.input.WF
  consumed : s.resp.bytesConsumed = s.input.position
  inside : s.input.position ≤ s.input.total
  closed : s.resp.status = .closed → s.input.total = 0
  buffered : s.resp.buffered ≤ e.cfg.fieldLimit

/-- A bound on the position of the state in the sequence of states of a response. -/
def respRank : State → Nat
  | .headers => 9
  | .bodyDetermine => 8
  | .bodyChunkedLength | .bodyChunkedData | .bodyChunkedDataEnd => 7
  | .bodyIdentityClKnown => 6
  | .bodyIdentityStreamClose => 5
  | .finalize => 4
  | .idle => 2
  | _ => 1

/-- How often the buffered bytes can still be looked at. -/
def respWeight : State → Nat
  | .idle | .line => 1
  | _ => 2

/-- The measure. In the state `bodyIdentityStreamClose` an open stream always waits for more data. -/
def respMeasure (s : Conn) : Nat :=
  if s.resp.state = .bodyIdentityStreamClose ∧ s.resp.status ≠ .closed then 0
  else 16 * (s.input.len + respWeight s.resp.state * s.resp.buf.length) + respRank s.resp.state

theorem respRank_lt (st : State) : respRank st < 10 ∧ 1 ≤ respRank st := by cases st <;> decide

theorem RespKept.len {s s' : Conn} (h : RespKept s s') : s'.input.len = s.input.len := by
  simp only [PData.len, PData.asSlice, h.position, h.data, h.gap]

theorem RespKept.total {s s' : Conn} (h : RespKept s s') : s'.input.total = s.input.total := by
  simp only [PData.total, h.data, h.gap]

theorem RespKept.asSlice {s s' : Conn} (h : RespKept s s') : s'.input.asSlice = s.input.asSlice := by
  simp only [PData.asSlice, h.position, h.data]

theorem RespOK.kept {e : Env} {s s' : Conn} (h : RespOK e s) (k : RespKept s s') : RespOK e s' where
  wf := by
    have := h.wf
    unfold PData.WF at *
    rw [k.gap, k.data]; exact this
  consumed := by rw [k.consumed, k.position]; exact h.consumed
  inside := by rw [k.position, k.total]; exact h.inside
  closed := fun x => by rw [k.total]; exact h.closed (k.status x)
  buffered := by
    have := h.buffered
    unfold Half.buffered at *
    rw [k.buf, k.header]; exact this

/-- What a step does. -/
def RespGood (e : Env) (s : Conn) (r : Except Err Unit) (s' : Conn) : Prop :=
  RespOK e s' ∧ (r = .ok () → respMeasure s' < respMeasure s)

theorem respMeasure_le (s : Conn) :
    respMeasure s ≤ 16 * (s.input.len + respWeight s.resp.state * s.resp.buf.length) +
      respRank s.resp.state := by
  unfold respMeasure
  split <;> omega

theorem respMeasure_eq {s : Conn} (h : s.resp.state ≠ .bodyIdentityStreamClose) :
    respMeasure s = 16 * (s.input.len + respWeight s.resp.state * s.resp.buf.length) +
      respRank s.resp.state := by
  unfold respMeasure
  rw [if_neg (fun hh => h hh.1)]

/-- A step that only goes on to a later state. -/
theorem RespGood.of_kept {e : Env} {s s' : Conn} {r : Except Err Unit} (h : RespOK e s)
    (hst : s.resp.state ≠ .bodyIdentityStreamClose) (k : RespKept s s')
    (hs : r = .ok () → respRank s'.resp.state < respRank s.resp.state ∧
      respWeight s'.resp.state ≤ respWeight s.resp.state) : RespGood e s r s' := by
  refine ⟨h.kept k, fun hr => ?_⟩
  obtain ⟨h1, h2⟩ := hs hr
  have := respMeasure_le s'
  rw [respMeasure_eq hst]
  rw [k.len, k.buf] at this
  have := Nat.mul_le_mul_right s.resp.buf.length h2
  omega

/-- A step that consumes something. -/
theorem respMeasure_of_len {s s' : Conn} (hst : s.resp.state ≠ .bodyIdentityStreamClose)
    (h : s'.input.len + respWeight s'.resp.state * s'.resp.buf.length <
      s.input.len + respWeight s.resp.state * s.resp.buf.length) : respMeasure s' < respMeasure s := by
  have := respMeasure_le s'
  rw [respMeasure_eq hst]
  have := respRank_lt s'.resp.state
  omega

/-- Consuming unread bytes. -/
theorem RespOK.consume {e : Env} {s : Conn} (h : RespOK e s) {n : Nat} (hn : n ≤ s.input.len) :
    RespOK e (responseConsume n s).2 where
  wf := h.wf
  consumed := rfl
  inside := by
    rw [PData.len_eq] at hn
    have := h.inside
    show s.input.position + n ≤ s.input.total
    omega
  closed := h.closed
  buffered := h.buffered

theorem responseConsume_len (s : Conn) (n : Nat) :
    (responseConsume n s).2.input.len = s.input.len - n := by
  rw [PData.len_eq, PData.len_eq]
  show s.input.total - (s.input.position + n) = _
  omega

theorem RespOK.unconsume {e : Env} {s : Conn} (h : RespOK e s) (n : Nat) :
    RespOK e (responseUnconsume n s).2 where
  wf := by
    have := h.wf
    unfold PData.WF at *
    show (s.input.unconsume n).gapLen.isSome → (s.input.unconsume n).data = none
    rw [PData.unconsume_gapLen, PData.unconsume_data]
    exact this
  consumed := rfl
  inside := by
    show (s.input.unconsume n).position ≤ (s.input.unconsume n).total
    rw [PData.unconsume_position, PData.unconsume_total]
    have := h.inside
    omega
  closed := by
    show _ → (s.input.unconsume n).total = 0
    rw [PData.unconsume_total]
    exact h.closed
  buffered := h.buffered

theorem responseUnconsume_len (s : Conn) (n : Nat) :
    (responseUnconsume n s).2.input.len ≤ s.input.len + n := by
  rw [PData.len_eq, PData.len_eq]
  show (s.input.unconsume n).total - (s.input.unconsume n).position ≤ _
  rw [PData.unconsume_position, PData.unconsume_total]
  omega

theorem post.bind_consume' {β : Type} {f : Unit → M β} {s : Conn} {n : Nat}
    {Q : Except Err β → Conn → Prop} (h : post (f ()) (responseConsume n s).2 Q) :
    post (responseConsume n >>= f) s Q := post.bind_ok rfl h

theorem post.bind_unconsume' {β : Type} {f : Unit → M β} {s : Conn} {n : Nat}
    {Q : Except Err β → Conn → Prop} (h : post (f ()) (responseUnconsume n s).2 Q) :
    post (responseUnconsume n >>= f) s Q := post.bind_ok rfl h

/-- The buffer check. -/
theorem checkResponseBufferLimit_post (e : Env) (s : Conn) (n : Nat) :
    post (checkResponseBufferLimit e n) s (fun r s' => s = s' ∧
      (r = .ok () → n = 0 ∨ s.resp.buffered + n ≤ e.cfg.fieldLimit)) := by
  unfold checkResponseBufferLimit
  refine post.bind_state ?_
  refine post.ite (fun _ => ?_) fun h => ?_
  · exact ⟨rfl, fun h => by cases h⟩
  · refine ⟨rfl, fun _ => ?_⟩
    omega

/-- Data without a line end is buffered. -/
theorem handleResponseAbsentLf_good (e : Env) (s : Conn) (h : RespOK e s) :
    post (handleResponseAbsentLf e) s (fun r s' => RespOK e s' ∧ ∃ x, r = .error x) := by
  unfold handleResponseAbsentLf
  refine post.bind_state ?_
  refine post.bind ((checkResponseBufferLimit_post e s _).mono ?_)
  rintro r _ ⟨rfl, hr⟩
  cases r with
  | error x => exact ⟨h, x, rfl⟩
  | ok u =>
    have hb : s.resp.buffered + s.input.len ≤ e.cfg.fieldLimit := by
      rcases hr rfl with h0 | h0
      · rw [h0]; exact h.buffered
      · exact h0
    refine post.bind_setResp ?_
    refine post.bind_consume' ?_
    refine ⟨?_, _, rfl⟩
    refine RespOK.consume (s := { s with resp := { s.resp with buf := s.resp.buf ++ s.input.asSlice } })
      ⟨h.wf, h.consumed, h.inside, h.closed, ?_⟩ (Nat.le_refl _)
    have := h.wf.asSlice_le
    simp only [Half.buffered, List.length_append] at hb ⊢
    omega

theorem RespGood.absentLf {e : Env} {s s0 : Conn} (h : RespOK e s) :
    post (handleResponseAbsentLf e) s (RespGood e s0) :=
  (handleResponseAbsentLf_good e s h).mono fun r s' ⟨h1, x, hx⟩ => ⟨h1, fun hr => by rw [hx] at hr; cases hr⟩

/-! The handlers. -/

theorem takeTillEol_split {data rest line : Bytes} {eol : Eol}
    (h : takeTillEol data = .ok rest (line, eol)) :
    line.length ≤ data.length ∧ rest = data.drop line.length ∧ line = data.take line.length ∧
      1 ≤ line.length := by
  unfold takeTillEol at h
  cases data with
  | nil => simp [Nom.pair, Nom.bind, Nom.takeTillS, Nom.takeWhileS] at h
  | cons c cs =>
    generalize Nom.pair _ _ (c :: cs) = r at h
    cases r with
    | ok a b =>
      obtain ⟨l, eo⟩ := b
      dsimp only at h
      repeat' split at h
      all_goals first
        | (simp only [IRes.ok.injEq, Prod.mk.injEq] at h
           exact take_split (by simp) (by omega) h.1 h.2.1)
        | cases h
    | err => simp at h
    | incomplete => simp at h

theorem responseIdle_good (e : Env) (s : Conn) (h : RespOK e s) (hs : s.resp.state = .idle) :
    post (responseIdle e) s (RespGood e s) := by
  refine (((responseIdle_kept e).post s).conj (responseIdle_state e s)).mono fun r s' ⟨k, hst⟩ => ?_
  refine ⟨h.kept k, fun hr => ?_⟩
  obtain ⟨hne, hst⟩ := hst hr
  rw [respMeasure_eq (s := s) (by rw [hs]; decide), hs]
  rcases hst with hst | hst
  · have hnc : s'.resp.status ≠ .closed := by
      intro hc
      have ht := h.closed (k.status hc)
      have : s.input.len = 0 := by rw [PData.len_eq, ht]; omega
      simp [PData.isEmpty, this] at hne
    unfold respMeasure
    rw [if_pos ⟨hst, hnc⟩]
    simp only [respRank]
    omega
  · rw [respMeasure_eq (by rw [hst]; decide), hst, k.len, k.buf]
    simp only [respRank, respWeight]
    omega

theorem responseBodyDetermine_good (e : Env) (s : Conn) (h : RespOK e s)
    (hs : s.resp.state = .bodyDetermine) :
    post (responseBodyDetermine e) s (RespGood e s) := by
  refine (((responseBodyDetermine_kept e).post s).conj (responseBodyDetermine_state e s)).mono
    fun r s' ⟨k, hst⟩ => ?_
  refine RespGood.of_kept h (by rw [hs]; decide) k fun hr => ?_
  rcases hst hr with hst | hst | hst | hst | hst <;> rw [hst, hs] <;> decide

theorem responseBodyChunkedDataEnd_good (e : Env) (s : Conn) (h : RespOK e s)
    (hs : s.resp.state = .bodyChunkedDataEnd) :
    post (responseBodyChunkedDataEnd e) s (RespGood e s) := by
  unfold responseBodyChunkedDataEnd
  refine post.bind_rel (R := RespKept) (by rel_known) (fun t s1 k => ?_) fun x s1 k => ?_
  rotate_left
  · exact ⟨h.kept k, fun hr => by cases hr⟩
  have h1 := h.kept k
  refine post.bind_state ?_
  split
  next rest line hl =>
    obtain ⟨hle, _, _, hpos⟩ := takeTillIncl_split hl
    have hlen : line.length ≤ s1.input.len := by
      have := h1.wf.asSlice_le
      omega
    have h3 := h1.consume hlen
    refine post.bind_consume' ?_
    refine post.bind_rel (R := Same) (by rel_known) (fun _ s2 k2 => ?_) fun x s2 k2 => ?_
    rotate_left
    · exact ⟨h3.kept k2.respKept, fun hr => by cases hr⟩
    have h4 := h3.kept k2.respKept
    refine post.setResp ⟨⟨h4.1, h4.2, h4.3, h4.4, h4.5⟩, fun _ => ?_⟩
    refine respMeasure_of_len (by rw [hs]; decide) ?_
    dsimp only
    rw [k2.respKept.len, k2.respKept.buf, responseConsume_len, hs]
    show s1.input.len - line.length + 2 * s1.resp.buf.length < _ + 2 * _
    rw [k.buf, ← k.len]
    omega
  · refine post.bind_rel (R := RespKept) (by rel_known) (fun _ s2 k2 => ?_) fun x s2 k2 => ?_
    · refine post.bind_consume' ⟨?_, fun hr => by cases hr⟩
      exact (h1.kept k2).consume (by rw [k2.len]; exact Nat.le_refl _)
    · exact ⟨(h.kept k).kept k2, fun hr => by cases hr⟩

theorem responseBodyChunkedData_good (e : Env) (s : Conn) (h : RespOK e s)
    (hs : s.resp.state = .bodyChunkedData) :
    post (responseBodyChunkedData e) s (RespGood e s) := by
  unfold responseBodyChunkedData
  refine post.bind_state ?_
  generalize hn : min s.input.len (s.resp.chunkedLength.getD 0) = n
  refine post.ite (fun _ => ⟨h, fun hr => by cases hr⟩) fun hn0 => ?_
  have hnl : n ≤ s.input.len := by omega
  refine post.bind_rel (R := Same) (by rel_known) (fun _ s1 k1 => ?_) fun x s2 k2 => ?_
  rotate_left
  · exact ⟨h.kept k2.respKept, fun hr => by cases hr⟩
  refine post.bind_rel (R := Same) (by rel_known) (fun _ s2 k2 => ?_) fun x s2 k2 => ?_
  rotate_left
  · exact ⟨h.kept (Same.pre.trans k1 k2).respKept, fun hr => by cases hr⟩
  have k := (Same.pre.trans k1 k2).respKept
  have h2 := h.kept k
  have h3 := h2.consume (n := n) (by rw [k.len]; exact hnl)
  refine post.bind_consume' (post.bind_setResp (post.bind_state ?_))
  refine post.ite (fun _ => post.setResp ?_) fun _ => ?_
  · refine ⟨⟨h3.1, h3.2, h3.3, h3.4, h3.5⟩, fun _ => respMeasure_of_len (by rw [hs]; decide) ?_⟩
    dsimp only
    rw [responseConsume_len, hs]
    show s2.input.len - n + 2 * s2.resp.buf.length < _ + 2 * _
    rw [k.buf, ← k.len] at *
    omega
  · exact ⟨⟨h3.1, h3.2, h3.3, h3.4, h3.5⟩, fun hr => by cases hr⟩

/-- A chunk-length line: `n` bytes were just consumed. -/
theorem responseChunkLine_good (e : Env) (s0 s : Conn) (line : Bytes) (h : RespOK e s)
    (hs0 : s0.resp.state = .bodyChunkedLength) (hbuf : s.resp.buf = s0.resp.buf) (hpos : 1 ≤ line.length)
    (hlen : s.input.len + line.length ≤ s0.input.len) :
    post (responseChunkLine e line) s (RespGood e s0) := by
  have hm : respMeasure s0 = 16 * (s0.input.len + 2 * s0.resp.buf.length) + 7 := by
    rw [respMeasure_eq (by rw [hs0]; decide), hs0]; rfl
  -- nothing is given back
  have fwd : ∀ s' : Conn, RespKept s s' → respWeight s'.resp.state ≤ 2 → respMeasure s' < respMeasure s0 := by
    intro s' k hw
    refine respMeasure_of_len (by rw [hs0]; decide) ?_
    rw [k.len, k.buf, hs0, hbuf]
    have := Nat.mul_le_mul_right s0.resp.buf.length hw
    show _ < _ + 2 * _
    omega
  have hw2 : ∀ st, respWeight st ≤ 2 := by intro st; cases st <;> decide
  unfold responseChunkLine
  refine post.bind_state ?_
  dsimp only
  refine post.bind_rel (R := RespKept) (by rel_known) (fun _ s1 k1 => ?_) fun x s1 k1 => ?_
  rotate_left
  · exact ⟨h.kept k1, fun hr => by cases hr⟩
  have h1 := h.kept k1
  split
  · refine post.bind_unconsume' (post.bind_setResp ?_)
    have h2 := h1.unconsume line.length
    have hl2 := responseUnconsume_len s1 line.length
    refine (Rel.post (R := Same) (by rel_known) _).mono fun r s' k2 => ?_
    refine ⟨RespOK.kept ?_ k2.respKept, fun hr => ?_⟩
    · exact ⟨h2.1, h2.2, h2.3, h2.4, h2.5⟩
    have hst : s'.resp.state = .bodyIdentityStreamClose := by
      obtain ⟨_, _, rfl⟩ := k2
      rfl
    have := respMeasure_le s'
    rw [hst, k2.respKept.len, k2.respKept.buf] at this
    have hb : (responseUnconsume line.length s1).2.resp.buf = s0.resp.buf := k1.buf.trans hbuf
    dsimp only at this
    rw [hb] at this
    simp only [respRank, respWeight] at this
    rw [hm]
    rw [k1.len] at hl2
    omega
  · refine post.bind_setResp ?_
    have k2 : RespKept s { s1 with resp := { s1.resp with chunkedLength := ‹Option Nat› } } :=
      RespKept.pre.trans k1 ⟨rfl, rfl, rfl, id, rfl, rfl, rfl⟩
    split
    · exact ⟨h.kept k2, fun _ => fwd _ k2 (hw2 _)⟩
    · refine post.bind_setResp ?_
      refine (Rel.post (R := RespKept) (by rel_known) _).mono fun r s' k3 => ?_
      have k4 : RespKept s s' := RespKept.pre.trans k2
        (RespKept.pre.trans (by exact ⟨rfl, rfl, rfl, id, rfl, rfl, rfl⟩) k3)
      exact ⟨h.kept k4, fun _ => fwd _ k4 (hw2 _)⟩
    · have k4 : RespKept s { s1 with resp :=
          { s1.resp with chunkedLength := some ‹Nat›, state := .bodyChunkedData } } :=
        RespKept.pre.trans k1 ⟨rfl, rfl, rfl, id, rfl, rfl, rfl⟩
      exact post.setResp ⟨h.kept k4, fun _ => fwd _ k4 (hw2 _)⟩

theorem responseChunkedLengthLoop_good (e : Env) (s0 s : Conn) (h : RespOK e s) (data : Bytes)
    (hd : data = s.input.asSlice) (hlen : s.input.len ≤ s0.input.len) (hbuf : s.resp.buf = s0.resp.buf)
    (hs0 : s0.resp.state = .bodyChunkedLength) (hs : s.resp.state = .bodyChunkedLength) :
    post (responseChunkedLengthLoop e data) s (RespGood e s0) := by
  induction hk : data.length using Nat.strongRecOn generalizing data s with
  | ind k ih =>
    unfold responseChunkedLengthLoop
    refine post.bind_rel (R := Same) (by rel_known) (fun t s1 k1 => ?_) fun x s1 k1 => ?_
    rotate_left
    · exact ⟨h.kept k1.respKept, fun hr => by cases hr⟩
    have h1 := h.kept k1.respKept
    have st1 : s1.resp.state = .bodyChunkedLength := by obtain ⟨_, _, rfl⟩ := k1; exact hs
    replace k1 := k1.respKept
    split
    next rest line hl =>
      obtain ⟨hle, hrest, _, hpos⟩ := takeTillIncl_split hl
      rw [hd, ← k1.asSlice] at hle
      have hin : line.length ≤ s1.input.len := by
        have := h1.wf.asSlice_le
        omega
      have h2 := h1.consume hin
      refine post.bind_consume' (post.bind_state ?_)
      refine post.bind_rel (R := Same) (by rel_walk) (fun _ s2 k2 => ?_) fun x s2 k2 => ?_
      rotate_left
      · exact ⟨h2.kept k2.respKept, fun hr => by cases hr⟩
      have st2 : s2.resp.state = .bodyChunkedLength := by obtain ⟨_, _, rfl⟩ := k2; exact st1
      replace k2 := k2.respKept
      have h3 := h2.kept k2
      refine post.ite (fun _ => ?_) fun _ => ?_
      · refine post.bind_rel (R := Same) (by rel_known) (fun t s4 k4 => ?_) fun x s4 k4 => ?_
        rotate_left
        · exact ⟨h3.kept k4.respKept, fun hr => by cases hr⟩
        have st4 : s4.resp.state = .bodyChunkedLength := by obtain ⟨_, _, rfl⟩ := k4; exact st2
        have k' := RespKept.pre.trans k2 k4.respKept
        refine ih rest.length ?_ s4 (h2.kept k') rest ?_ ?_ ?_ st4 rfl
        · rw [hrest, List.length_drop]
          rw [k1.asSlice, ← hd] at hle
          omega
        · rw [k'.asSlice]
          show rest = (s1.input.consume line.length).asSlice
          rw [PData.consume_asSlice hle, hrest, hd, k1.asSlice]
        · rw [k'.len, responseConsume_len, k1.len]; omega
        · rw [k'.buf]; exact k1.buf.trans hbuf
      · refine responseChunkLine_good e s0 s2 line h3 hs0 ?_ hpos ?_
        · rw [k2.buf]; exact k1.buf.trans hbuf
        · rw [k2.len, responseConsume_len, ← k1.len] at *
          omega
    · refine post.ite (fun _ => RespGood.absentLf h1) fun _ => ?_
      refine post.bind_rel (R := RespKept) (by rel_known) (fun t s4 k4 => ?_) fun x s4 k4 => ?_
      · have h4 := h1.kept k4
        refine post.setResp ⟨⟨h4.1, h4.2, h4.3, h4.4, h4.5⟩, fun _ => ?_⟩
        have := respMeasure_le { s4 with resp := { s4.resp with state := .bodyIdentityStreamClose } }
        dsimp only at this
        have e1 : s4.input.len = s.input.len := by rw [k4.len, k1.len]
        have e2 : s4.resp.buf.length = s0.resp.buf.length := by rw [k4.buf, k1.buf, hbuf]
        simp only [respRank, respWeight] at this
        rw [respMeasure_eq (s := s0) (by rw [hs0]; decide), hs0]
        simp only [respRank, respWeight]
        omega
      · exact ⟨h1.kept k4, fun hr => by cases hr⟩

theorem responseBodyChunkedLength_good (e : Env) (s : Conn) (h : RespOK e s)
    (hs : s.resp.state = .bodyChunkedLength) :
    post (responseBodyChunkedLength e) s (RespGood e s) :=
  responseChunkedLengthLoop_good e s s h _ rfl (Nat.le_refl _) rfl hs hs

theorem responseIdentityOpen_good (e : Env) (s : Conn) (h : RespOK e s)
    (hs : s.resp.state = .bodyIdentityClKnown) :
    post (responseIdentityOpen e) s (RespGood e s) := by
  unfold responseIdentityOpen
  refine post.bind_state ?_
  split
  · exact ⟨h, fun hr => by cases hr⟩
  next left hleft =>
  generalize hn : min s.input.len left = n
  refine post.ite (fun _ => ⟨h, fun hr => by cases hr⟩) fun hn0 => ?_
  refine post.bind_rel (R := Same) (by rel_known) (fun _ s1 k1 => ?_) fun x s2 k2 => ?_
  rotate_left
  · exact ⟨h.kept k2.respKept, fun hr => by cases hr⟩
  have k := k1.respKept
  have h3 := (h.kept k).consume (n := n) (by rw [k.len]; omega)
  refine post.bind_consume' (post.bind_setResp ?_)
  refine post.ite (fun _ => ?_) fun _ => ?_
  · exact ⟨⟨h3.1, h3.2, h3.3, h3.4, h3.5⟩, fun hr => by cases hr⟩
  · refine post.bind_setResp ?_
    refine (Rel.post (R := Same) (by rel_known) _).mono fun r s' k2 => ?_
    refine ⟨RespOK.kept ?_ k2.respKept, fun hr => respMeasure_of_len (by rw [hs]; decide) ?_⟩
    · exact ⟨h3.1, h3.2, h3.3, h3.4, h3.5⟩
    have hst : s'.resp.state = .finalize := by
      obtain ⟨_, _, rfl⟩ := k2
      rfl
    rw [hst, hs, k2.respKept.len, k2.respKept.buf]
    dsimp only
    rw [responseConsume_len, k.len]
    show _ + 2 * s1.resp.buf.length < _ + 2 * _
    rw [k.buf]
    omega

theorem responseBodyIdentityClKnown_good (e : Env) (s : Conn) (h : RespOK e s)
    (hs : s.resp.state = .bodyIdentityClKnown) :
    post (responseBodyIdentityClKnown e) s (RespGood e s) := by
  unfold responseBodyIdentityClKnown
  refine post.bind_state (post.ite (fun _ => ?_) fun _ => responseIdentityOpen_good e s h hs)
  refine post.bind_setResp ?_
  refine (Rel.post (R := Same) (by rel_known) _).mono fun r s' k2 => ?_
  have hst : s'.resp.state = .finalize := by
    obtain ⟨_, _, rfl⟩ := k2
    rfl
  refine RespGood.of_kept h (by rw [hs]; decide)
    (RespKept.pre.trans (by exact ⟨rfl, rfl, rfl, id, rfl, rfl, rfl⟩) k2.respKept) fun hr => ?_
  rw [hst, hs]
  decide

theorem responseStreamData_good (e : Env) (s : Conn) (h : RespOK e s) :
    post (responseStreamData e) s (fun _ s' => RespOK e s' ∧ s'.resp.state = s.resp.state ∧
      s'.resp.buf = s.resp.buf ∧ s'.resp.status = s.resp.status ∧ s'.input.len ≤ s.input.len) := by
  have hsame : ∀ s', Same s s' → RespOK e s' ∧ s'.resp.state = s.resp.state ∧
      s'.resp.buf = s.resp.buf ∧ s'.resp.status = s.resp.status ∧ s'.input.len ≤ s.input.len := by
    intro s' k
    refine ⟨h.kept k.respKept, ?_, k.respKept.buf, ?_, Nat.le_of_eq k.respKept.len⟩ <;>
      obtain ⟨_, _, rfl⟩ := k <;> rfl
  unfold responseStreamData
  refine post.bind_state (post.ite (fun _ => ?_) fun _ => post.ite (fun _ => ?_) fun _ => ?_)
  · exact (Rel.post (R := Same) (by rel_walk) _).mono fun r s' k => hsame s' k
  · exact hsame s (Same.pre.refl s)
  · refine post.bind_rel (R := Same) (by rel_known) (fun _ s1 k1 => ?_) fun x s1 k1 => hsame s1 k1
    have hs1 := hsame s1 k1
    refine ⟨hs1.1.consume (by rw [k1.respKept.len]; exact Nat.le_refl _), hs1.2.1, hs1.2.2.1, hs1.2.2.2.1, ?_⟩
    rw [responseConsume_len]
    omega

theorem responseBodyIdentityStreamClose_good (e : Env) (s : Conn) (h : RespOK e s)
    (hs : s.resp.state = .bodyIdentityStreamClose) :
    post (responseBodyIdentityStreamClose e) s (RespGood e s) := by
  unfold responseBodyIdentityStreamClose
  refine post.bind ((responseStreamData_good e s h).mono fun r s1 ⟨h1, hst, hb, hsta, hl⟩ => ?_)
  cases r with
  | error x => exact ⟨h1, fun hr => by cases hr⟩
  | ok _ =>
    refine post.bind_state (post.ite (fun hc => ?_) fun _ => ⟨h1, fun hr => by cases hr⟩)
    refine post.setResp ⟨⟨h1.1, h1.2, h1.3, h1.4, h1.5⟩, fun _ => ?_⟩
    rw [respMeasure_eq (by dsimp only; decide)]
    unfold respMeasure
    rw [if_neg (by rw [← hsta]; exact fun hh => hh.2 hc), hs]
    dsimp only
    rw [hb]
    simp only [respRank, respWeight]
    omega

theorem responseLineAsBody_state (e : Env) (l : Bytes) (s : Conn) (hs : s.resp.state = .line) :
    post (responseLineAsBody e l) s (fun r s' => r = .ok () →
      s'.resp.state = .line ∨ s'.resp.state = .finalize) := by
  unfold responseLineAsBody
  refine post.bind_rel (R := RespSt) (by rel_known) (fun _ s1 k1 => ?_) fun x s1 _ => by intro hr; cases hr
  refine post.bind_rel (R := RespSt) (by rel_known) (fun _ s2 k2 => ?_) fun x s1 _ => by intro hr; cases hr
  refine post.bind_state (post.when (fun _ => ?_) fun _ _ => ?_)
  · refine post.bind_any fun _ _ => ?_
    exact post.last_setResp fun _ => .inr rfl
  · left
    rw [k2, k1, hs]

theorem responseLineRead_state (e : Env) (l : Bytes) (s : Conn) (hs : s.resp.state = .line) :
    post (responseLineRead e l) s (fun r s' => r = .ok () →
      s'.resp.state = .line ∨ s'.resp.state = .finalize ∨ s'.resp.state = .headers) := by
  unfold responseLineRead
  refine post.bind_rel (R := RespSt) (by rel_known) (fun _ s1 k1 => ?_) fun x s1 _ => by intro hr; cases hr
  refine post.bind_state (post.ite (fun _ => ?_) fun _ => ?_)
  · split
    · intro hr; cases hr
    · refine (Rel.post (R := RespSt) (by rel_known) _).mono fun r s' h _ => ?_
      rw [h, k1, hs]; simp
    · refine (responseLineAsBody_state e l s1 (by rw [k1, hs])).mono fun r s' h hr => ?_
      rcases h hr with h | h <;> simp [h]
  · refine post.bind_any fun _ _ => post.bind_any fun _ _ => ?_
    refine post.bind_setResp ?_
    refine (Rel.post (R := RespSt) (by rel_known) _).mono fun r s' h _ => ?_
    rw [h]; simp

theorem responseLineComplete_state (e : Env) (l : Bytes) (s : Conn) (hs : s.resp.state = .line) :
    post (responseLineComplete e l) s (fun r s' => r = .ok () → l ≠ [] ∧
      (s'.resp.state = .line ∨ s'.resp.state = .finalize ∨ s'.resp.state = .headers)) := by
  unfold responseLineComplete
  refine post.bind_rel (R := RespSt) (by rel_known) (fun _ s1 k1 => ?_) fun x s1 _ => by intro hr; cases hr
  refine post.ite (fun _ => by intro hr; cases hr) fun hne => ?_
  refine post.bind_rel (R := RespSt) (by rel_known) (fun _ s2 k2 => ?_) fun x s1 _ => by intro hr; cases hr
  have st2 : s2.resp.state = .line := by rw [k2, k1, hs]
  refine post.ite (fun _ => ?_) fun _ => ?_
  · refine post.bind_setResp ?_
    refine (Rel.post (R := RespSt) (by rel_known) _).mono fun r s' h _ => ⟨hne, ?_⟩
    rw [h]
    dsimp only
    split
    · simp
    · rw [st2]; simp
  · exact (responseLineRead_state e l s2 st2).mono fun r s' h hr => ⟨hne, h hr⟩

theorem responseLine_good (e : Env) (s : Conn) (h : RespOK e s) (hs : s.resp.state = .line) :
    post (responseLine e) s (RespGood e s) := by
  have hclear : RespOK e { s with resp := { s.resp with buf := [] } } :=
    ⟨h.1, h.2, h.3, h.4, by have := h.5; simp only [Half.buffered] at *; simp only [List.length_nil]; omega⟩
  unfold responseLine
  refine post.bind_state ?_
  split
  next rest line _ hl =>
    obtain ⟨hle, _, _, hpos⟩ := takeTillEol_split hl
    have hin : line.length ≤ s.input.len := by
      have := h.wf.asSlice_le
      omega
    have h1 := hclear.consume hin
    refine post.bind_setResp (post.bind_consume' ?_)
    refine (((responseLineComplete_kept e _).post _).conj
      (responseLineComplete_state e _ _ (by exact hs))).mono fun r s' ⟨k, hst⟩ => ?_
    refine ⟨h1.kept k, fun hr => respMeasure_of_len (by rw [hs]; decide) ?_⟩
    rw [k.len, responseConsume_len, k.buf]
    show s.input.len - _ + _ * 0 < _
    omega
  · refine post.ite (fun _ => ?_) fun _ => RespGood.absentLf h
    have h1 := hclear.consume (n := s.input.len) (Nat.le_refl _)
    refine post.bind_setResp (post.bind_consume' ?_)
    refine (((responseLineComplete_kept e _).post _).conj
      (responseLineComplete_state e _ _ (by exact hs))).mono fun r s' ⟨k, hst⟩ => ?_
    refine ⟨h1.kept k, fun hr => respMeasure_of_len (by rw [hs]; decide) ?_⟩
    rw [k.len, responseConsume_len, k.buf, hs]
    have hne := (hst hr).1
    have := h.wf.asSlice_le
    have hl : (s.resp.buf ++ s.input.asSlice).length ≠ 0 := by simpa using hne
    rw [List.length_append] at hl
    show s.input.len - s.input.len + _ * 0 < _ + 1 * _
    omega

theorem responseHeadersClosed_good (e : Env) (s : Conn) (h : RespOK e s) (hs : s.resp.state = .headers) :
    post (responseHeadersClosed e) s (RespGood e s) := by
  unfold responseHeadersClosed
  refine post.bind_rel (R := RespKept) (by rel_known) (fun _ s1 k1 => ?_) fun x s1 k1 => ?_
  rotate_left
  · exact ⟨h.kept k1, fun hr => by cases hr⟩
  refine post.bind_rel (R := RespKept) (by rel_known) (fun _ s2 k2 => ?_) fun x s2 k2 => ?_
  rotate_left
  · exact ⟨(h.kept k1).kept k2, fun hr => by cases hr⟩
  have k := RespKept.pre.trans k1 k2
  have h2 := h.kept k
  refine post.bind_state (post.bind_setResp ?_)
  have h3 : RespOK e { s2 with resp := { s2.resp with header := none } } :=
    ⟨h2.1, h2.2, h2.3, h2.4, by
      have := h2.5; simp only [Half.buffered] at *; simp only [Option.getD_none, List.length_nil]; omega⟩
  refine post.bind_rel (R := RespKept) (by rel_walk) (fun _ s4 k4 => ?_) fun x s4 k4 => ?_
  rotate_left
  · exact ⟨h3.kept k4, fun hr => by cases hr⟩
  have h4 := h3.kept k4
  refine (((responseTrailer_kept e).post _).conj (responseTrailer_state e _)).mono
          fun r s' ⟨k5, hst⟩ => ?_
  refine ⟨h4.kept k5, fun hr => ?_⟩
  rw [respMeasure_eq (by rw [hst hr]; decide), respMeasure_eq (s := s) (by rw [hs]; decide), hst hr, hs, k5.len,
    k5.buf, k4.len, k4.buf]
  dsimp only
  rw [k.len, k.buf]
  simp only [respRank, respWeight]
  omega

theorem responseHeaders_good (e : Env) (s : Conn) (h : RespOK e s) (hs : s.resp.state = .headers) :
    post (responseHeaders e) s (RespGood e s) := by
  unfold responseHeaders
  refine post.bind_state (post.ite (fun _ => responseHeadersClosed_good e s h hs) fun _ => ?_)
  have h1 : RespOK e { s with resp := { s.resp with header := none } } :=
    ⟨h.1, h.2, h.3, h.4, by
      have := h.5; simp only [Half.buffered] at *; simp only [Option.getD_none, List.length_nil]; omega⟩
  dsimp only
  refine post.bind_setResp ?_
  refine post.bind_rel (R := Same) (by rel_known) (fun p s2 k2 => ?_) fun x s2 k2 => ?_
  rotate_left
  · exact ⟨h1.kept k2.respKept, fun hr => by cases hr⟩
  have k := k2.respKept
  have h2 := h1.kept k
  have hl2 : s2.input.len = s.input.len := k.len
  obtain ⟨remaining, eoh⟩ := p
  dsimp only
  refine post.ite (fun _ => ?_) fun _ => ?_
  · have aux : ∀ n, n ≤ s2.input.len →
        post (responseConsume n >>= fun _ => responseHeadersDone e) s2 (RespGood e s) := ?_
    · refine aux _ ?_
      rw [hl2]
      split <;> omega
    intro n hn
    refine post.bind_consume' ?_
    refine (((responseHeadersDone_kept e).post _).conj (responseHeadersDone_state e _)).mono
          fun r s' ⟨k5, hst⟩ => ?_
    have h3 := h2.consume hn
    refine ⟨h3.kept k5, fun hr => ?_⟩
    rw [respMeasure_eq (s := s) (by rw [hs]; decide), hs]
    have := respMeasure_le s'
    rw [k5.len, k5.buf, responseConsume_len, hl2] at this
    have hb : (responseConsume n s2).2.resp.buf = s.resp.buf := k.buf
    rw [hb] at this
    simp only [respRank, respWeight]
    rcases hst hr with hst | hst <;> rw [hst] at this <;> simp only [respRank, respWeight] at this <;> omega
  · have h3 := h2.consume (n := s.input.len) (by rw [hl2]; exact Nat.le_refl _)
    have hhd : (responseConsume s.input.len s2).2.resp.header = none := k.header
    refine post.bind_consume' ?_
    generalize (responseConsume s.input.len s2).2 = s3 at h3 hhd ⊢
    refine post.bind ((checkResponseBufferLimit_post e _ _).mono ?_)
    rintro r s' ⟨rfl, hr⟩
    cases r with
    | error x => exact ⟨h3, fun hr => by cases hr⟩
    | ok u =>
      refine post.bind_setResp ⟨⟨h3.1, h3.2, h3.3, h3.4, ?_⟩, fun hr => by cases hr⟩
      have := h3.5
      have hr := hr rfl
      simp only [Half.buffered, hhd, Option.getD_none, List.length_nil] at this hr
      show s3.resp.buf.length + remaining.length ≤ _
      omega

theorem responseFinalizeLine_good (e : Env) (s0 s : Conn) (h : RespOK e s) (work : Bytes)
    (hs : s0.resp.state = .finalize) (hst : s.resp.state = .finalize) (hbuf : s.resp.buf = s0.resp.buf)
    (hlen : s.input.len + work.length ≤ s0.input.len) :
    post (responseFinalizeLine e work) s (RespGood e s0) := by
  have hs' : s0.resp.state ≠ .bodyIdentityStreamClose := by rw [hs]; decide
  unfold responseFinalizeLine
  refine post.bind_state ?_
  refine post.bind_rel (R := Same) (by rel_walk) (fun _ s1 k1 => ?_) fun x s1 k1 => ?_
  rotate_left
  · exact ⟨h.kept k1.respKept, fun hr => by cases hr⟩
  have h1 := h.kept k1.respKept
  have hl1 := k1.respKept.len
  have hst1 : s1.resp.state = .finalize := by
    obtain ⟨_, _, rfl⟩ := k1
    exact hst
  refine post.bind_setResp ?_
  have h2 : RespOK e { s1 with resp := { s1.resp with buf := [] } } :=
    ⟨h1.1, h1.2, h1.3, h1.4, by
      have := h1.5; simp only [Half.buffered] at *; simp only [List.length_nil]; omega⟩
  refine post.ite (fun _ => ?_) fun hne => ?_
  · refine (((stateResponseComplete_kept e).post _).conj (stateResponseComplete_state e _)).mono
          fun r s' ⟨k2, hst⟩ => ?_
    refine ⟨h2.kept k2, fun hr => ?_⟩
    rw [respMeasure_eq hs', respMeasure_eq (by rw [hst hr]; decide), hst hr, hs, k2.len, k2.buf]
    simp only [respRank, respWeight, List.length_nil]
    omega
  · have hne' : (s.resp.buf ++ work).length ≠ 0 := by simpa using hne
    refine post.ite (fun _ => ?_) fun _ => ?_
    · refine (Rel.post (R := Same) (by rel_known) _).mono fun r s' k2 => ?_
      refine ⟨h2.kept k2.respKept, fun hr => respMeasure_of_len hs' ?_⟩
      have hst' : s'.resp.state = .finalize := by
        obtain ⟨_, _, rfl⟩ := k2
        exact hst1
      rw [List.length_append] at hne'
      rw [hst', hs, k2.respKept.len, k2.respKept.buf]
      dsimp only
      rw [hl1]
      show _ + 2 * 0 < _ + 2 * _
      rw [← hbuf]
      omega
    · refine post.bind_setResp (post.bind_unconsume' ?_)
      have h3 : RespOK e { s1 with resp := { s1.resp with buf := s.resp.buf } } := by
        refine ⟨h1.1, h1.2, h1.3, h1.4, ?_⟩
        have := h1.5
        simp only [Half.buffered] at *
        rw [k1.respKept.buf] at this
        exact this
      have h4 := h3.unconsume (s.resp.buf ++ work).length
      have hl4 := responseUnconsume_len
        { s1 with resp := { s1.resp with buf := s.resp.buf } } (s.resp.buf ++ work).length
      refine (((stateResponseComplete_kept e).post _).conj (stateResponseComplete_state e _)).mono
          fun r s' ⟨k2, hst⟩ => ?_
      refine ⟨h4.kept k2, fun hr => ?_⟩
      rw [respMeasure_eq hs', respMeasure_eq (by rw [hst hr]; decide), hst hr, hs, k2.len, k2.buf]
      dsimp only at hl4 ⊢
      show 16 * (_ + 1 * s.resp.buf.length) + 2 < 16 * (_ + 2 * _) + 4
      rw [← hbuf]
      simp only [List.length_append] at hl4 ⊢
      omega

theorem responseFinalize_good (e : Env) (s : Conn) (h : RespOK e s) (hs : s.resp.state = .finalize) :
    post (responseFinalize e) s (RespGood e s) := by
  have hcomp : post (stateResponseComplete e) s (RespGood e s) := by
    refine (((stateResponseComplete_kept e).post s).conj (stateResponseComplete_state e s)).mono
          fun r s' ⟨k', hst⟩ => ?_
    refine RespGood.of_kept h (by rw [hs]; decide) k' fun hr => ?_
    rw [hst hr, hs]; decide
  have hle := h.wf.asSlice_le
  unfold responseFinalize
  refine post.bind_state (post.ite (fun _ => hcomp) fun _ => ?_)
  refine post.ite (fun hc => ?_) fun _ => ?_
  · have ht := h.closed hc
    have : s.input.len = 0 := by rw [PData.len_eq, ht]; omega
    exact responseFinalizeLine_good e s s h _ hs hs rfl (by omega)
  · split
    · exact hcomp
    next c rest hd =>
      rw [hd] at hle
      refine post.ite (fun _ => ?_) fun _ => ?_
      · refine post.bind_consume' ?_
        refine responseFinalizeLine_good e s _ (h.consume hle) _ hs hs rfl ?_
        rw [responseConsume_len]
        omega
      · split
        next rest' line hl =>
          obtain ⟨hle', _, _, hpos⟩ := takeTillIncl_split hl
          refine post.bind_consume' ?_
          refine responseFinalizeLine_good e s _ (h.consume (by omega)) _ hs hs rfl ?_
          rw [responseConsume_len]
          omega
        · exact RespGood.absentLf h

theorem handleResponseState_good (e : Env) (s : Conn) (h : RespOK e s) :
    post (handleResponseState e) s (RespGood e s) := by
  unfold handleResponseState
  refine post.bind_state ?_
  cases hs : s.resp.state
  case idle => exact responseIdle_good e s h hs
  case line => exact responseLine_good e s h hs
  case headers => exact responseHeaders_good e s h hs
  case bodyDetermine => exact responseBodyDetermine_good e s h hs
  case bodyChunkedData => exact responseBodyChunkedData_good e s h hs
  case bodyChunkedLength => exact responseBodyChunkedLength_good e s h hs
  case bodyChunkedDataEnd => exact responseBodyChunkedDataEnd_good e s h hs
  case finalize => exact responseFinalize_good e s h hs
  case bodyIdentityStreamClose => exact responseBodyIdentityStreamClose_good e s h hs
  case bodyIdentityClKnown => exact responseBodyIdentityClKnown_good e s h hs
  all_goals exact ⟨h, fun hr => by cases hr⟩

end Model
