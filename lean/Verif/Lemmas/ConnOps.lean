/-
The calls of the connection parser as a whole.
-/
import Verif.Lemmas.ConnLoop
import Verif.Lemmas.ConnReqFrame
import Verif.Lemmas.ConnRespFrame
import Verif.Spec.Conn

namespace Model

open M Spec

theorem M.bind_ok {α β : Type} {m : M α} {f : α → M β} {s s' : Conn} {a : α} (h : m s = (.ok a, s')) :
    (m >>= f) s = f a s' := by
  show (match m s with | (.ok a, s) => f a s | (.error e, s) => (.error e, s)) = _
  rw [h]

theorem M.bind_error {α β : Type} {m : M α} {f : α → M β} {s s' : Conn} {x : Err}
    (h : m s = (.error x, s')) : (m >>= f) s = (.error x, s') := by
  show (match m s with | (.ok a, s) => f a s | (.error e, s) => (.error e, s)) = _
  rw [h]

theorem requestEarly_kept (e : Env) : Rel ReqKept (requestEarly e) := by
  unfold requestEarly requestNoteGap requestReturn
  rel_walk
  exact ⟨rfl, rfl, rfl, (by simp), rfl, rfl, rfl⟩

theorem responseEarly_kept (e : Env) : Rel RespKept (responseEarly e) := by
  unfold responseEarly responseNoteGap responseReturn
  rel_walk
  exact ⟨rfl, rfl, rfl, (by simp), rfl, rfl, rfl⟩

theorem toPData_wf (c : Chunk) : c.toPData.WF := by
  cases c <;> simp [Chunk.toPData, PData.WF, PData.ofBytes, PData.ofGap]

theorem toPData_total (c : Chunk) : c.toPData.total = chunkLength c := by
  cases c <;> rfl

theorem toPData_position (c : Chunk) : c.toPData.position = 0 := by
  cases c <;> rfl

theorem toPData_len (c : Chunk) : c.toPData.len = chunkLength c := by
  rw [PData.len_eq, toPData_total, toPData_position]
  rfl

theorem toPData_isEmpty (c : Chunk) : c.toPData.isEmpty = true ↔ chunkLength c = 0 := by
  rw [PData.isEmpty, toPData_len]
  simp

/-- What `requestProcess` leaves alone. -/
theorem requestProcess_frame (e : Env) (s : Conn) :
    ReqFrame { s with resp := if s.resp.status = .dataOther then { s.resp with status := .data } else s.resp }
      (requestProcess e s).2 := by
  have h : Rel ReqFrame (do
      let s ← state
      let early ← requestEarly e
      match early with
      | some st => pure (some st)
      | none => requestLoop e (requestRounds s) : M (Option StreamState)) := by
    rel_walk
  exact h _

/-- `request_data` without its bookkeeping: the state `s` already has the new chunk. -/
theorem requestData_eq (e : Env) (c : PData) (s : Conn) :
    requestData e c s =
      if s.req.status = .stop then (.ok (some .stop), { s with req := { s.req with bytesConsumed := 0 }, input := c })
      else if s.req.status = .error then
        (.ok (some .error), { s with req := { s.req with bytesConsumed := 0 }, input := c })
      else if c.isEmpty = true ∧ s.req.status ≠ .closed then
        (.ok (some .closed), { s with req := { s.req with bytesConsumed := 0 }, input := c })
      else if s.req.status = .tunnel then (.ok (some .tunnel),
        { s with
          req := { s.req with bytesConsumed := 0 }, input := c
          requestChunkCount := s.requestChunkCount + 1
          requestDataCounter := wrapAdd s.requestDataCounter c.len })
      else requestProcess e
        { s with
          req := { s.req with bytesConsumed := 0 }, input := c
          requestChunkCount := s.requestChunkCount + 1
          requestDataCounter := wrapAdd s.requestDataCounter c.len } := by
  unfold requestData
  show (if s.req.status = .stop then _ else _ : M (Option StreamState)) _ = _
  split
  · rfl
  · split
    · rfl
    · split
      · rfl
      · show (if s.req.status = .tunnel then _ else _ : M (Option StreamState)) _ = _
        split <;> rfl

theorem responseData_eq (e : Env) (c : PData) (s : Conn) :
    responseData e c s =
      if s.resp.status = .stop then
        (.ok (some .stop), { s with resp := { s.resp with bytesConsumed := 0 }, input := c })
      else if s.resp.status = .error then
        (.ok (some .error), { s with resp := { s.resp with bytesConsumed := 0 }, input := c })
      else if c.isEmpty = true ∧ s.resp.status ≠ .closed then
        (.ok (some .closed), { s with resp := { s.resp with bytesConsumed := 0 }, input := c })
      else if s.resp.status = .tunnel then (.ok (some .tunnel),
        { s with
          resp := { s.resp with bytesConsumed := 0 }, input := c
          responseDataCounter := wrapAdd s.responseDataCounter c.len })
      else responseProcess e
        { s with
          resp := { s.resp with bytesConsumed := 0 }, input := c
          responseDataCounter := wrapAdd s.responseDataCounter c.len } := by
  unfold responseData
  show (if s.resp.status = .stop then _ else _ : M (Option StreamState)) _ = _
  split
  · rfl
  · split
    · rfl
    · split
      · rfl
      · show (if s.resp.status = .tunnel then _ else _ : M (Option StreamState)) _ = _
        split <;> rfl

/-- What holds of the parser between two calls. -/
structure Boundary (e : Env) (s : Conn) : Prop where
  reqBuf : s.req.buffered ≤ e.cfg.fieldLimit
  respBuf : s.resp.buffered ≤ e.cfg.fieldLimit
  reqOpen : s.req.status ≠ .closed
  respOpen : s.resp.status ≠ .closed

/-- A fed chunk: fresh, and empty if the stream is closed. -/
structure Fresh (c : PData) (st : StreamState) : Prop where
  wf : c.WF
  position : c.position = 0
  closed : st = .closed → c.total = 0 ∧ c.isGap = false

/-- One call of `request_data`. -/
theorem requestData_done (e : Env) (c : PData) (s : Conn) (hf : Fresh c s.req.status)
    (hb : s.req.buffered ≤ e.cfg.fieldLimit) :
    post (requestData e c) s (fun r s' => ReqOK e s' ∧ s'.input.total = c.total ∧ r ≠ .ok none ∧
      (∀ x, r ≠ .error (.status x)) ∧ (∀ st, r = .ok (some st) → s'.req.status ≠ .closed)) := by
  have h0 : ReqOK e { s with req := { s.req with bytesConsumed := 0 }, input := c } :=
    ⟨hf.wf, hf.position.symm, by dsimp only; rw [hf.position]; exact Nat.zero_le _,
      fun h => (hf.closed h).1, hb⟩
  unfold post
  rw [requestData_eq]
  split
  next h => exact ⟨h0, rfl, by simp, by simp, fun _ _ hc => by rw [h] at hc; cases hc⟩
  split
  next h => exact ⟨h0, rfl, by simp, by simp, fun _ _ hc => by rw [h] at hc; cases hc⟩
  split
  next h => exact ⟨h0, rfl, by simp, by simp, fun _ _ hc => h.2 hc⟩
  rename_i hne
  split
  next h => exact ⟨⟨h0.1, h0.2, h0.3, h0.4, h0.5⟩, rfl, by simp, by simp, fun _ _ hc => by rw [h] at hc; cases hc⟩
  generalize hs1 : ({ s with
          req := { s.req with bytesConsumed := 0 }, input := c
          requestChunkCount := s.requestChunkCount + 1
          requestDataCounter := wrapAdd s.requestDataCounter c.len } : Conn) = s1
  have h1 : ReqOK e s1 := by
    subst hs1
    exact ⟨h0.1, h0.2, h0.3, h0.4, h0.5⟩
  have hi : s1.input = c := by subst hs1; rfl
  have hst : s1.req.status = s.req.status := by subst hs1; rfl
  obtain ⟨a, b, d, g⟩ := requestProcess_done e s1 h1
  have hfr := requestProcess_frame e s1
  have hgap : (requestProcess e s1).2.input.gapLen = c.gapLen := by rw [hfr.gap]; exact congrArg _ hi
  have hdat : (requestProcess e s1).2.input.data = c.data := by rw [hfr.data]; exact congrArg _ hi
  have htot : (requestProcess e s1).2.input.total = c.total := by
    unfold PData.total
    rw [hgap, hdat]
  refine ⟨a, htot, b, d, fun st hr hc => ?_⟩
  have hg := g st hr hc
  have hcg : c.isGap = true := by rw [← hg]; unfold PData.isGap; rw [hgap]
  have ht : c.total = 0 := by rw [← htot]; exact a.closed hc
  have hemp : c.isEmpty = true := by simp [PData.isEmpty, PData.len_eq, ht]
  have hcl : s.req.status = .closed := by
    cases hs : decide (s.req.status = .closed) with
    | true => exact of_decide_eq_true hs
    | false => exact absurd ⟨hemp, of_decide_eq_false hs⟩ hne
  rw [(hf.closed hcl).2] at hcg
  cases hcg

/-- One call of `response_data`. -/
theorem responseData_done (e : Env) (c : PData) (s : Conn) (hf : Fresh c s.resp.status)
    (hb : s.resp.buffered ≤ e.cfg.fieldLimit) :
    post (responseData e c) s (fun r s' => RespOK e s' ∧ s'.input.total = c.total ∧ r ≠ .ok none ∧
      (∀ x, r ≠ .error (.status x)) ∧ (∀ st, r = .ok (some st) → s'.resp.status ≠ .closed)) := by
  have h0 : RespOK e { s with resp := { s.resp with bytesConsumed := 0 }, input := c } :=
    ⟨hf.wf, hf.position.symm, by dsimp only; rw [hf.position]; exact Nat.zero_le _,
      fun h => (hf.closed h).1, hb⟩
  unfold post
  rw [responseData_eq]
  split
  next h => exact ⟨h0, rfl, by simp, by simp, fun _ _ hc => by rw [h] at hc; cases hc⟩
  split
  next h => exact ⟨h0, rfl, by simp, by simp, fun _ _ hc => by rw [h] at hc; cases hc⟩
  split
  next h => exact ⟨h0, rfl, by simp, by simp, fun _ _ hc => h.2 hc⟩
  rename_i hne
  split
  next h => exact ⟨⟨h0.1, h0.2, h0.3, h0.4, h0.5⟩, rfl, by simp, by simp, fun _ _ hc => by rw [h] at hc; cases hc⟩
  generalize hs1 : ({ s with
          resp := { s.resp with bytesConsumed := 0 }, input := c
          responseDataCounter := wrapAdd s.responseDataCounter c.len } : Conn) = s1
  have h1 : RespOK e s1 := by
    subst hs1
    exact ⟨h0.1, h0.2, h0.3, h0.4, h0.5⟩
  have hi : s1.input = c := by subst hs1; rfl
  have hst : s1.resp.status = s.resp.status := by subst hs1; rfl
  obtain ⟨a, b, d, g⟩ := responseProcess_done e s1 h1
  have hfr := responseProcess_frame e s1
  have hgap : (responseProcess e s1).2.input.gapLen = c.gapLen := by rw [hfr.gap]; exact congrArg _ hi
  have hdat : (responseProcess e s1).2.input.data = c.data := by rw [hfr.data]; exact congrArg _ hi
  have htot : (responseProcess e s1).2.input.total = c.total := by
    unfold PData.total
    rw [hgap, hdat]
  refine ⟨a, htot, b, d, fun st hr hc => ?_⟩
  have hg := g st hr hc
  have hcg : c.isGap = true := by rw [← hg]; unfold PData.isGap; rw [hgap]
  have ht : c.total = 0 := by rw [← htot]; exact a.closed hc
  have hemp : c.isEmpty = true := by simp [PData.isEmpty, PData.len_eq, ht]
  have hcl : s.resp.status = .closed := by
    cases hs : decide (s.resp.status = .closed) with
    | true => exact of_decide_eq_true hs
    | false => exact absurd ⟨hemp, of_decide_eq_false hs⟩ hne
  rw [(hf.closed hcl).2] at hcg
  cases hcg

/-- The invariant between calls, one call. -/
theorem requestData_boundary (e : Env) (c : PData) (s : Conn) (hf : Fresh c s.req.status)
    (hb : s.req.buffered ≤ e.cfg.fieldLimit) (hb' : s.resp.buffered ≤ e.cfg.fieldLimit) :
    post (requestData e c) s (fun r s' => s'.req.buffered ≤ e.cfg.fieldLimit ∧
      s'.resp.buffered ≤ e.cfg.fieldLimit ∧ (s'.resp.status = .closed → s.resp.status = .closed) ∧
      (∀ a, r = .ok a → s'.req.status ≠ .closed)) := by
  obtain ⟨h1, _, hn, _, h2⟩ := requestData_done e c s hf hb
  have h3 : (requestData e c s).2.resp.buffered = s.resp.buffered ∧
      ((requestData e c s).2.resp.status = .closed → s.resp.status = .closed) := by
    rw [requestData_eq]
    split
    · exact ⟨rfl, id⟩
    split
    · exact ⟨rfl, id⟩
    split
    · exact ⟨rfl, id⟩
    split
    · exact ⟨rfl, id⟩
    · rename_i h
      clear h
      generalize hs1 : ({ s with
          req := { s.req with bytesConsumed := 0 }, input := c
          requestChunkCount := s.requestChunkCount + 1
          requestDataCounter := wrapAdd s.requestDataCounter c.len } : Conn) = s1
      have hs1' : s1.resp = s.resp := by subst hs1; rfl
      have hfr := requestProcess_frame e s1
      rw [hs1'] at hfr
      rcases hfr.resp with h | h <;> dsimp only at h <;> rw [h] <;> split <;> rename_i h' <;>
        simp [Half.buffered] <;> simp [h']
  refine ⟨h1.buffered, by rw [h3.1]; exact hb', h3.2, fun a hr => ?_⟩
  cases a with
  | none => exact absurd hr hn
  | some st => exact h2 st hr

theorem responseData_boundary (e : Env) (c : PData) (s : Conn) (hf : Fresh c s.resp.status)
    (hb : s.req.buffered ≤ e.cfg.fieldLimit) (hb' : s.resp.buffered ≤ e.cfg.fieldLimit) :
    post (responseData e c) s (fun r s' => s'.req.buffered ≤ e.cfg.fieldLimit ∧
      s'.resp.buffered ≤ e.cfg.fieldLimit ∧ (s'.req.status = .closed → s.req.status = .closed) ∧
      (∀ a, r = .ok a → s'.resp.status ≠ .closed)) := by
  obtain ⟨h1, _, hn, _, h2⟩ := responseData_done e c s hf hb'
  have h3 : (responseData e c s).2.req.buffered = s.req.buffered ∧
      ((responseData e c s).2.req.status = .closed → s.req.status = .closed) := by
    rw [responseData_eq]
    split
    · exact ⟨rfl, id⟩
    split
    · exact ⟨rfl, id⟩
    split
    · exact ⟨rfl, id⟩
    split
    · exact ⟨rfl, id⟩
    · generalize hs1 : ({ s with
          resp := { s.resp with bytesConsumed := 0 }, input := c
          responseDataCounter := wrapAdd s.responseDataCounter c.len } : Conn) = s1
      have hs1' : s1.req = s.req := by subst hs1; rfl
      have hfr := responseProcess_frame e s1
      have := hfr.req
      rw [hs1'] at this
      obtain ⟨h1, h2, h3⟩ := this
      refine ⟨by rw [h1]; rfl, fun hc => ?_⟩
      rcases h2 with h2 | h2
      · rw [← h2]; exact hc
      · rcases h2.2 with h2 | h2 <;> rw [h2] at hc <;> cases hc
  refine ⟨by rw [h3.1]; exact hb, h1.buffered, h3.2, fun a hr => ?_⟩
  cases a with
  | none => exact absurd hr hn
  | some st => exact h2 st hr

theorem fresh_chunk (c : Chunk) {st : StreamState} (h : st ≠ .closed) : Fresh c.toPData st :=
  ⟨toPData_wf c, toPData_position c, fun h' => absurd h' h⟩

theorem fresh_empty (st : StreamState) : Fresh {} st :=
  ⟨by simp [PData.WF], rfl, fun _ => ⟨rfl, rfl⟩⟩

theorem markClosed_ne (h : Half) : h.markClosed.buffered = h.buffered := rfl

/-- The two sides are kept. -/
def HalvesKept (s s' : Conn) : Prop := s'.req = s.req ∧ s'.resp = s.resp

theorem HalvesKept.pre : Pre HalvesKept where
  refl _ := ⟨rfl, rfl⟩
  trans h h' := ⟨h'.1.trans h.1, h'.2.trans h.2⟩

theorem Rel.halvesKept {α : Type} {m : M α} (h : Rel Same m) : Rel HalvesKept m := fun s => by
  obtain ⟨_, _, h⟩ := h s
  unfold HalvesKept
  rw [h]
  exact ⟨rfl, rfl⟩

macro_rules | `(tactic| rel_pre) => `(tactic| exact HalvesKept.pre)
macro_rules | `(tactic| rel_known) => `(tactic| (refine Rel.halvesKept ?_; rel_known))

theorem flushOne_frame (e : Env) (i : Nat) : Rel HalvesKept (flushOne e i) := by
  unfold flushOne
  rel_walk
  exact ⟨rfl, rfl⟩

macro_rules | `(tactic| rel_known) => `(tactic| exact flushOne_frame _ _)

theorem flushAll_frame (e : Env) (l : List Nat) : Rel HalvesKept (flushAll e l) := by
  induction l with
  | nil => exact Rel.pure HalvesKept.pre
  | cons i l ih =>
    unfold flushAll
    rel_walk

macro_rules | `(tactic| rel_known) => `(tactic| exact flushAll_frame _ _)

/-- Flushing fails with no error. -/
theorem flushAll_result (e : Env) (l : List Nat) (s : Conn) :
    post (flushAll e l) s (fun r _ => r = .ok () ∨ r = .error .panic) := by
  induction l generalizing s with
  | nil => exact .inl rfl
  | cons i l ih =>
    unfold flushAll flushOne
    refine post.bind (post.bind_attempt_rel (R := Same) (by rel_known) (fun x s1 k => ?_) fun s1 k => .inr rfl)
    refine post.when (fun _ => post.modify ?_) fun _ => ?_ <;> exact ih _

theorem flush_result (e : Env) (l : List Nat) (s : Conn) :
    post (M.when e.cfg.flushIncomplete (flushAll e l)) s (fun r _ => r = .ok () ∨ r = .error .panic) :=
  post.when (fun _ => flushAll_result e l s) fun _ => .inl rfl

/-- `close`. -/
theorem closeConn_boundary (e : Env) (s : Conn) (h : Boundary e s) :
    post (closeConn e) s (fun r s' => ∀ a, r = .ok a → Boundary e s') := by
  unfold closeConn
  refine post.bind_modify ?_
  generalize hs0 : ({ s with req := s.req.markClosed, resp := s.resp.markClosed } : Conn) = s0
  have hb0 : s0.req.buffered ≤ e.cfg.fieldLimit ∧ s0.resp.buffered ≤ e.cfg.fieldLimit := by
    subst hs0
    exact ⟨h.1, h.2⟩
  refine post.bind ((requestData_boundary e {} s0 (fresh_empty _) hb0.1 hb0.2).mono fun r s1 hd1 => ?_)
  cases r with
  | error x => intro a hr; cases hr
  | ok a =>
    refine post.bind ((responseData_boundary e {} s1 (fresh_empty _) hd1.1 hd1.2.1).mono fun r s2 hd2 => ?_)
    cases r with
    | error x => intro a hr; cases hr
    | ok b =>
      have h2 : Boundary e s2 := ⟨hd2.1, hd2.2.1, fun hc => hd1.2.2.2 a rfl (hd2.2.2.1 hc), hd2.2.2.2 b rfl⟩
      refine post.bind_state ?_
      refine post.bind_rel (R := HalvesKept) (by rel_walk) (fun _ s3 k => ?_) fun x s3 k a hr => by cases hr
      intro _ _
      show Boundary e s3
      exact ⟨by rw [k.1]; exact h2.1, by rw [k.2]; exact h2.2, by rw [k.1]; exact h2.3, by rw [k.2]; exact h2.4⟩

/-- Every call that returns keeps the invariant. -/
theorem Boundary.run {e : Env} {s s' : Conn} (h : Boundary e s) (op : Op) (r : Option StreamState)
    (hr : op.run e s = (.ok r, s')) : Boundary e s' := by
  cases op with
  | «open» =>
    have : s' = (openConn s).2 := (congrArg Prod.snd hr).symm
    subst this
    unfold openConn M.modify
    dsimp only
    split
    · exact h
    · exact ⟨h.1, h.2, by simp, by simp⟩
  | request c =>
    have hd := requestData_boundary e c.toPData s (fresh_chunk c h.reqOpen) h.reqBuf h.respBuf
    have hr' : requestData e c.toPData s = (.ok r, s') := hr
    unfold post at hd
    rw [hr'] at hd
    exact ⟨hd.1, hd.2.1, hd.2.2.2 r rfl, fun hc => h.respOpen (hd.2.2.1 hc)⟩
  | response c =>
    have hd := responseData_boundary e c.toPData s (fresh_chunk c h.respOpen) h.reqBuf h.respBuf
    have hr' : responseData e c.toPData s = (.ok r, s') := hr
    unfold post at hd
    rw [hr'] at hd
    exact ⟨hd.1, hd.2.1, fun hc => h.reqOpen (hd.2.2.1 hc), hd.2.2.2 r rfl⟩
  | requestClose =>
    have hd := requestData_boundary e {} { s with req := s.req.markClosed } (fresh_empty _) h.reqBuf h.respBuf
    have hr' : requestData e {} { s with req := s.req.markClosed } = (.ok r, s') := hr
    unfold post at hd
    rw [hr'] at hd
    exact ⟨hd.1, hd.2.1, hd.2.2.2 r rfl, fun hc => h.respOpen (hd.2.2.1 hc)⟩
  | close =>
    have hd : post (Op.run e .close) s (fun r s' => ∀ a, r = .ok a → Boundary e s') := by
      unfold Op.run
      refine post.bind ((closeConn_boundary e s h).mono fun r s1 hd => ?_)
      cases r with
      | error x => intro a hr; cases hr
      | ok a => exact fun _ _ => hd a rfl
    unfold post at hd
    rw [hr] at hd
    exact hd r rfl
  | removeTx i =>
    have : s' = { s with txs := s.txs.remove i } := (congrArg Prod.snd hr).symm
    subst this
    exact ⟨h.1, h.2, h.3, h.4⟩
  | askRequest =>
    have : s' = { s with txs := (s.txs.requestMut e.cfg.maxTx).2 } := (congrArg Prod.snd hr).symm
    subst this
    exact ⟨h.1, h.2, h.3, h.4⟩
  | askResponse =>
    have : s' = { s with txs := (s.txs.responseMut e.cfg.maxTx).2 } := (congrArg Prod.snd hr).symm
    subst this
    exact ⟨h.1, h.2, h.3, h.4⟩

theorem boundary_of_reachable {e : Env} {s : Conn} (h : Reachable e s) : Boundary e s := by
  induction h with
  | new => exact ⟨Nat.zero_le _, Nat.zero_le _, by decide, by decide⟩
  | call op r _ hr ih => exact ih.run op r hr

end Model
