/-
What the answer of a call tells, after any history.
-/
import Verif.Lemmas.ConsumedRespLive
import Verif.Lemmas.Isolation

namespace Model

open M Spec

/-- The pieces of bodies that are awaited are positive. -/
structure Lives (s : Conn) : Prop where
  req : ReqLive s
  resp : RespLive s

theorem ReqLive.sameReq {s s' : Conn} (h : ReqLive s) (k : SameReq s s') : ReqLive s' := by
  have h1 := congrArg Half.chunkedLength k.1
  have h2 := congrArg Half.bodyDataLeft k.1
  dsimp only at h1 h2
  refine ⟨fun hs => ?_, fun hs => ?_⟩
  · rcases k.2 with h3 | h3
    · rw [h1]; exact h.1 (h3.symm.trans hs)
    · rw [h3] at hs; cases hs
  · rcases k.2 with h3 | h3
    · rw [h2]; exact h.2 (h3.symm.trans hs)
    · rw [h3] at hs; cases hs

theorem RespLive.sameResp {s s' : Conn} (h : RespLive s) (k : SameResp s s') : RespLive s' := by
  have h1 := congrArg Half.chunkedLength k.machine
  have h2 := congrArg Half.bodyDataLeft k.machine
  have h3 := congrArg Half.state k.machine
  dsimp only at h1 h2 h3
  exact ⟨fun hs => by rw [h1]; exact h.1 (h3.symm.trans hs), fun hs => by rw [h2]; exact h.2 (h3.symm.trans hs)⟩

theorem requestData_lives {e : Env} (hd : Definite e) (c : PData) (s : Conn) (h : Lives s) : Lives (requestData e c s).2 :=
  ⟨(requestData_told hd c s h.req).live, h.resp.sameResp (requestData_sameResp e c s)⟩

theorem responseData_lives {e : Env} (hd : Definite e) (c : PData) (s : Conn) (h : Lives s) : Lives (responseData e c s).2 :=
  ⟨h.req.sameReq (responseData_sameReq e c s), (responseData_told hd c s h.resp).live⟩

theorem closeConn_lives {e : Env} (hd : Definite e) (s : Conn) (h : Lives s) : post (closeConn e) s (fun _ s' => Lives s') := by
  unfold closeConn
  refine post.bind_modify ?_
  have h0 : Lives { s with req := s.req.markClosed, resp := s.resp.markClosed } := ⟨⟨h.1.1, h.1.2⟩, ⟨h.2.1, h.2.2⟩⟩
  have h1 : post (requestData e {}) { s with req := s.req.markClosed, resp := s.resp.markClosed } (fun _ s' => Lives s') :=
    requestData_lives hd {} _ h0
  refine post.bind (h1.mono fun r s1 h1 => ?_)
  cases r with
  | error x => exact h1
  | ok a =>
    have h2 : post (responseData e {}) s1 (fun _ s' => Lives s') := responseData_lives hd {} _ h1
    refine post.bind (h2.mono fun r s2 h2 => ?_)
    cases r with
    | error x => exact h2
    | ok b =>
      refine post.bind_state ?_
      have kept : ∀ {s3}, HalvesKept s2 s3 → Lives s3 := fun {s3} k => by
        obtain ⟨⟨a1, a2⟩, ⟨b1, b2⟩⟩ := h2
        rw [← k.1] at a1 a2
        rw [← k.2] at b1 b2
        exact ⟨⟨a1, a2⟩, ⟨b1, b2⟩⟩
      exact post.bind_rel (R := HalvesKept) (by rel_walk) (fun _ s3 k => kept k) fun x s3 k => kept k

theorem Lives.run {e : Env} (hd : Definite e) {s s' : Conn} (h : Lives s) (op : Op) (r : Option StreamState)
    (hr : op.run e s = (.ok r, s')) : Lives s' := by
  have hs : s' = (op.run e s).2 := (congrArg Prod.snd hr).symm
  cases op with
  | «open» =>
    have : s' = (openConn s).2 := hs
    subst this
    unfold openConn M.modify
    dsimp only
    split
    · exact h
    · exact ⟨⟨h.1.1, h.1.2⟩, ⟨h.2.1, h.2.2⟩⟩
  | request c => rw [hs]; exact requestData_lives hd _ s h
  | response c => rw [hs]; exact responseData_lives hd _ s h
  | requestClose =>
    rw [hs]
    exact requestData_lives hd {} { s with req := s.req.markClosed } ⟨⟨h.1.1, h.1.2⟩, ⟨h.2.1, h.2.2⟩⟩
  | close =>
    have hc : post (Op.run e .close) s (fun _ s' => Lives s') := by
      unfold Op.run
      refine post.bind ((closeConn_lives hd s h).mono fun r s1 hd => ?_)
      cases r with
      | error x => exact hd
      | ok a => exact hd
    rw [hs]
    exact hc
  | removeTx i =>
    have : s' = { s with txs := s.txs.remove i } := hs
    subst this
    exact ⟨⟨h.1.1, h.1.2⟩, ⟨h.2.1, h.2.2⟩⟩
  | askRequest =>
    have : s' = { s with txs := (s.txs.requestMut e.cfg.maxTx).2 } := hs
    subst this
    exact ⟨⟨h.1.1, h.1.2⟩, ⟨h.2.1, h.2.2⟩⟩
  | askResponse =>
    have : s' = { s with txs := (s.txs.responseMut e.cfg.maxTx).2 } := hs
    subst this
    exact ⟨⟨h.1.1, h.1.2⟩, ⟨h.2.1, h.2.2⟩⟩

theorem lives_of_reachable {e : Env} (hd : Definite e) {s : Conn} (h : Reachable e s) : Lives s := by
  induction h with
  | new => exact ⟨⟨nofun, nofun⟩, ⟨nofun, nofun⟩⟩
  | call op r _ hr ih => exact ih.run hd op r hr

theorem toPData_gap {c : Chunk} (h : c.toPData.isGap = true) : ∃ n, c = .gap n := by
  cases c with
  | data b => cases h
  | gap n => exact ⟨n, rfl⟩

end Model
