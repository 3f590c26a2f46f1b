/-
Responses cut into pieces: what is left to come when a call returns, and that this does not depend on the request side.
-/
import Verif.Lemmas.AnsMain
import Verif.Lemmas.SegJoin

namespace Model.Ans

open M Spec Props

theorem TracedBody.say {own : Event → Bool} {g : Log own} {X Y : List Event} {k : Nat} {d : Bytes} {s s' : Conn}
    (h : TracedBody g (X ++ Y) k d s) (hl : s'.trace.filter g.keep = s.trace.filter g.keep) :
    TracedBody ((g.say X).at s') Y k d s' := by
  obtain ⟨-, evs, ds, h1, h2, h3⟩ := h
  refine ⟨rfl, evs, ds, hl.trans h1, ?_, h3⟩
  show Pieces (g.said ++ X ++ Y) (g.assumed ++ evs)
  rw [List.append_assoc]
  exact h2

/-- The second connection is the same as far as responses are concerned. -/
structure SameResponses (keep : Event → Bool) (busy : Prop) (s s' : Conn) : Prop where
  resp : s'.resp = s.resp
  response : s.txs.response = s'.txs.response
  blocked : s'.responseDataOtherAtTxEnd = s.responseDataOtherAtTxEnd
  here : busy → s'.txs.get s'.txs.response = s.txs.get s'.txs.response
  sorted : Txs.Sorted s'.txs.map
  log : s'.trace.filter keep = s.trace.filter keep

/-- The connection as if nothing of the current response had been seen. -/
def unseen (o : Option Tx) (s : Conn) : Conn :=
  match o with
  | none => s
  | some t0 => { s with txs := s.txs.set s.txs.response t0 }

section
variable {e : Env} {g : Log Event.ofResponse} {s0 : Conn} {all : List Response}

theorem upto_unseen {auto : Bool} {s : Conn} {t : Tx} (t0 : Tx)
    (hst : s.resp.status = .new ∨ s.resp.status = .open ∨ s.resp.status = .data) (hb : s.responseDataOtherAtTxEnd = false)
    (hso : Txs.Sorted s.txs.map) (ht : s.txs.get s.txs.response = some t) : Upto auto (unseen (some t0) s) [] s := by
  have hget : ∀ j, (unseen (some t0) s).txs.get j = if j = s.txs.response then some t0 else s.txs.get j :=
    fun j => Txs.get_set _ _ _ _
  refine ⟨(fun i r h => by cases h), ?_, rfl, rfl, rfl, rfl, hst, hb, hso, ?_⟩
  · intro j hj
    have hj : j < s.txs.response ∨ s.txs.response + 0 < j := hj
    rw [hget, if_neg (by omega)]
  · intro m _ _ ho
    rw [List.length_nil, Nat.sub_zero, ite_self]
    refine ⟨hso, ?_⟩
    have hl : (unseen (some t0) s).txs.map.length = s.txs.map.length :=
      Txs.length_put_of_some s.txs.response t0 s.txs.map hso (by
        have : (s.txs.get s.txs.response).isSome := by rw [ht]; rfl
        exact this)
    have h2 := ho.2
    rw [hl, show (unseen (some t0) s).txs.request = s.txs.request from rfl, hget] at h2
    by_cases he : s.txs.request = s.txs.response
    · rw [if_pos he] at h2
      rcases h2 with ⟨h, -⟩ | ⟨-, h⟩
      · cases h
      · exact .inr ⟨by rw [he, ht]; rfl, h⟩
    · rw [if_neg he] at h2
      exact h2

theorem upto_same {auto : Bool} {s : Conn} 
    (hst : s.resp.status = .new ∨ s.resp.status = .open ∨ s.resp.status = .data) (hb : s.responseDataOtherAtTxEnd = false)
    (hso : Txs.Sorted s.txs.map) : Upto auto s [] s := by
  refine ⟨(fun i r h => by cases h), fun _ _ => rfl, rfl, rfl, rfl, rfl, hst, hb, hso, ?_⟩
  intro m _ _ ho
  rw [List.length_nil, Nat.sub_zero, ite_self]
  exact ho

theorem At.again {s s' : Conn} {st : State} {buf : Bytes} {header : Option Bytes} {rcv : Option DataHook}
    (h : At s.resp st buf header rcv) (hr : s'.resp = s.resp) : At s'.resp st buf header rcv := by rw [hr]; exact h

theorem Amid.again {auto : Bool} {pre post post' : List Response} {r : Response} {s s' : Conn} {t0 t : Tx} {keep : Event → Bool}
    (am : Amid auto s0 all pre r post s t0 t) (hf : SameResponses keep True s s') :
    Amid auto (unseen (some t0) s') (r :: post') [] r post' s' t0 t := by
  have hhere : s'.txs.get s'.txs.response = some t := by
    rw [hf.here trivial, ← hf.response]
    exact am.here
  refine ⟨rfl, upto_unseen t0 ?_ ?_ hf.sorted hhere, ?_, am.ans, hhere, am.parser⟩
  · rw [hf.resp]; exact am.upto.status
  · rw [hf.blocked]; exact am.upto.notBlocked
  · exact (Txs.get_set _ _ _ _).trans (if_pos rfl)

/-- Where the parser is can be said without the responses before, and without the request side. -/
theorem Midway.rebase {T : List Token} {s : Conn} (h : Midway e g s0 all T s) :
    ∃ pre cur post T', all = pre ++ (cur ++ post) ∧ T = T' ++ post.flatMap Response.tokens ∧ Unfinished Response.tokens Response.lineTokens cur T' ∧
      Upto e.cfg.txAutoDestroy s0 pre s ∧ (cur = [] → NextFree s0 s) ∧
      ∃ o : Option Tx, (o = none ↔ cur = []) ∧
        (∀ t0, o = some t0 → s0.txs.get s.txs.response = some t0 ∧ ∃ t, s.txs.get s.txs.response = some t ∧
          requestSide t = requestSide t0) ∧
        ∀ s', SameResponses g.keep (cur ≠ []) s s' →
          Midway e ((g.say (responseCallbacks s0.txs.response pre)).at s') (unseen o s') cur T' s' := by
  have hbusy : ∀ {r : Response} {rs : List Response} {s s' : Conn}, SameResponses g.keep (r :: rs ≠ []) s s' →
      SameResponses g.keep True s s' := fun h => ⟨h.resp, h.response, h.blocked, fun _ => h.here (by simp), h.sorted, h.log⟩
  have hold : ∀ {pre post : List Response} {r : Response} {t0 t : Tx}, Amid e.cfg.txAutoDestroy s0 all pre r post s t0 t →
      requestSide t = requestSide t0 → ∀ u, some t0 = some u →
      s0.txs.get s.txs.response = some u ∧ ∃ t, s.txs.get s.txs.response = some t ∧ requestSide t = requestSide u := by
    intro pre post r t0 t am hs u hu
    cases hu
    exact ⟨am.old, t, am.here, hs⟩
  cases h with
  | @idle _ pre post split up hb next tr =>
    refine ⟨pre, [], post, [], split, rfl, .none, up, fun _ => next, none, by simp, (fun _ h => by cases h), ?_⟩
    intro s' hf
    have hst : s'.resp.status = .new ∨ s'.resp.status = .open ∨ s'.resp.status = .data := by rw [hf.resp]; exact hb.status
    have hbl : s'.responseDataOtherAtTxEnd = false := by rw [hf.blocked]; exact hb.notBlocked
    refine .idle (pre := []) (post := []) rfl (upto_same hst hbl hf.sorted) ⟨?_, ?_, ?_, ?_, hst, hbl⟩
      ⟨fun _ h => h, fun h => .inl h⟩ ?_
    · rw [hf.resp]; exact hb.state
    · rw [hf.resp]; exact hb.buf
    · rw [hf.resp]; exact hb.header
    · rw [hf.resp]; exact hb.receiver
    · rw [← List.append_nil (responseCallbacks _ _)] at tr
      exact tr.say hf.log
  | @line _ pre r post p rem t0 am hx hp hat tr =>
    refine ⟨pre, [r], post, loose rem ++ .line [13, 10] :: behind r [], am.split, ?_, .one r (by simp) ?_, am.upto, by simp,
      some t0, by simp, hold am rfl, ?_⟩
    · simp [behind]
    · have := congrArg List.length hp
      simp [Response.tokens, behind, loose] at this ⊢
      omega
    · intro s' hf
      have hf := hbusy hf
      rw [hf.response] at hx tr
      exact .line (pre := []) (post := []) (am.again hf) hx hp (At.again hat hf.resp) (tr.say hf.log)
  | @head _ pre r post header d b js ls t0 t am hjl hls hb hne hd hlim hat ht hp hlen hcl htab tr =>
    refine ⟨pre, [r], post, loose b ++ (r.body.answerTokens ++ [].flatMap Response.tokens), am.split, ?_,
      .one r (by simp [loose, hne]) ?_, am.upto, by simp, some t0, by simp, hold am ht.same, ?_⟩
    · simp
    · have := congrArg List.length hd
      rw [List.length_append] at this
      simp [Response.tokens, loose] at this ⊢
      omega
    · intro s' hf
      have hf := hbusy hf
      rw [hf.response] at tr
      exact .head (pre := []) (post := []) (am.again hf) hjl hls hb hne hd hlim (At.again hat hf.resp) ht hp hlen hcl htab
        (tr.say hf.log)
  | @sized _ pre r post d b t0 t am ht hh hbody hne hat hl hlen htab tr =>
    refine ⟨pre, [r], post, loose b ++ [].flatMap Response.tokens, am.split, ?_,
      .one r (by simp [loose, hne]) ?_, am.upto, by simp, some t0, by simp, hold am ht.same, ?_⟩
    · simp
    · simp [Response.tokens, hbody, Body.answerTokens, loose]
      omega
    · intro s' hf
      have hf := hbusy hf
      rw [hf.response] at tr
      exact .sized (pre := []) (post := []) (am.again hf) ht hh hbody hne (At.again hat hf.resp) (by rw [hf.resp]; exact hl)
        hlen htab (tr.say hf.log)
  | @size _ pre r post cs ds last trailer t0 t am ht hh hbody hat hlen htab tr =>
    refine ⟨pre, [r], post, chunksLeft ds last trailer [], am.split, ?_,
      .one r (by simp [chunksLeft]) ?_, am.upto, by simp, some t0, by simp, hold am ht.same, ?_⟩
    · simp [chunksLeft]
    · simp [Response.tokens, hbody, Body.answerTokens, loose, chunksLeft]
      omega
    · intro s' hf
      have hf := hbusy hf
      rw [hf.response] at tr
      rw [soFar, List.append_assoc] at tr
      exact .size (pre := []) (post := []) (am.again hf) ht hh hbody (At.again hat hf.resp) hlen htab (tr.say hf.log)
  | @data _ pre r post cs ds c last trailer d b t0 t am ht hh hbody hc hne hat hl hlen htab tr =>
    refine ⟨pre, [r], post, loose b ++ (loose [13, 10] ++ chunksLeft ds last trailer []), am.split, ?_,
      .one r (by simp [chunksLeft]) ?_, am.upto, by simp, some t0, by simp, hold am ht.same, ?_⟩
    · simp [chunksLeft]
    · have hk : (answerChunkTokens c).length = 3 + (d.length + b.length) := by
        rw [← List.length_append, ← hc]
        simp [answerChunkTokens, loose]
        omega
      simp [Response.tokens, hbody, Body.answerTokens, loose, chunksLeft]
      omega
    · intro s' hf
      have hf := hbusy hf
      rw [hf.response] at tr
      rw [soFar, List.append_assoc] at tr
      exact .data (pre := []) (post := []) (am.again hf) ht hh hbody hc hne (At.again hat hf.resp) (by rw [hf.resp]; exact hl)
        hlen htab (tr.say hf.log)
  | @dataEnd _ pre r post cs ds last trailer x t0 t am ht hh hbody hx hat hlen htab tr =>
    refine ⟨pre, [r], post, loose (x ++ [10]) ++ chunksLeft ds last trailer [], am.split, ?_,
      .one r (by simp [chunksLeft]) ?_, am.upto, by simp, some t0, by simp, hold am ht.same, ?_⟩
    · simp [chunksLeft]
    · have := hx.2
      have hk : ∀ hs, 2 ≤ (renderBlock hs).length := by
        intro hs
        induction hs with
        | nil => exact Nat.le_refl _
        | cons h hs ih => rw [renderBlock, List.length_append]; omega
      have hk := hk r.headers
      simp [Response.tokens, hbody, Body.answerTokens, loose, chunksLeft]
      omega
    · intro s' hf
      have hf := hbusy hf
      rw [hf.response] at tr
      rw [soFar, List.append_assoc] at tr
      exact .dataEnd (pre := []) (post := []) (am.again hf) ht hh hbody hx (At.again hat hf.resp) hlen htab (tr.say hf.log)
  | @trailer _ pre r post cs last trailer header d b js ls t0 t am ht hh hbody hjl hls hb hne hd hlim hp hat hlen htab tr =>
    refine ⟨pre, [r], post, loose b ++ [].flatMap Response.tokens, am.split, ?_,
      .one r (by simp [loose, hne]) ?_, am.upto, by simp, some t0, by simp, hold am ht.same, ?_⟩
    · simp
    · have := congrArg List.length hd
      rw [List.length_append] at this
      simp [Response.tokens, hbody, Body.answerTokens, loose]
      omega
    · intro s' hf
      have hf := hbusy hf
      rw [hf.response] at tr
      rw [soFar, List.append_assoc] at tr
      exact .trailer (pre := []) (post := []) (am.again hf) ht hh hbody hjl hls hb hne hd hlim hp (At.again hat hf.resp) hlen htab
        (tr.say hf.log)
  | @final _ pre r r' post p rem t0 t am ht hh hp hp0 hat hlen htab tr =>
    refine ⟨pre, [r, r'], post, loose rem ++ .line [13, 10] :: behind r' [], am.split, ?_,
      .two r r' p.length (by simpa using hp0) ?_ ?_, am.upto, by simp, some t0, by simp, hold am ht.same, ?_⟩
    · simp [behind]
    · rw [Response.lineTokens, List.length_append, loose, List.length_map, ← hp, List.length_append]
      simp
      omega
    · have := congrArg List.length hp
      simp [Response.tokens, loose, behind] at this ⊢
      omega
    · intro s' hf
      have hf := hbusy hf
      rw [hf.response] at tr
      rw [soFar, List.append_assoc] at tr
      exact .final (pre := []) (post := []) (am.again hf) ht hh hp hp0 (At.again hat hf.resp) hlen htab (tr.say hf.log)

/-- More responses are to come. -/
theorem Midway.extend {T : List Token} {s : Conn} (h : Midway e g s0 all T s) (more : List Response) :
    Midway e g s0 (all ++ more) (T ++ more.flatMap Response.tokens) s := by
  have hs : ∀ {pre post : List Response}, all = pre ++ post → all ++ more = pre ++ (post ++ more) := by
    rintro pre post rfl
    rw [List.append_assoc]
  have ha : ∀ {pre post : List Response} {r : Response} {t0 t : Tx}, Amid e.cfg.txAutoDestroy s0 all pre r post s t0 t →
      Amid e.cfg.txAutoDestroy s0 (all ++ more) pre r (post ++ more) s t0 t := by
    intro pre post r t0 t am
    refine ⟨?_, am.upto, am.old, am.ans, am.here, am.parser⟩
    rw [am.split]
    simp
  have hb : ∀ (r : Response) (post : List Response), behind r post ++ more.flatMap Response.tokens = behind r (post ++ more) := by
    intro r post
    simp [behind]
  have hc : ∀ (ds : List BodyChunk) (last : Bytes) (trailer : List HeaderLine) (post : List Response),
      chunksLeft ds last trailer post ++ more.flatMap Response.tokens = chunksLeft ds last trailer (post ++ more) := by
    intro ds last trailer post
    simp [chunksLeft]
  cases h with
  | idle split up hb next tr =>
    rw [← List.flatMap_append]
    exact .idle (hs split) up hb next tr
  | line am hx hp hat tr =>
    simp only [List.append_assoc, List.cons_append, hb]
    exact .line (ha am) hx hp hat tr
  | head am hjl hls hb hne hd hlim hat ht hp hlen hcl htab tr =>
    simp only [List.append_assoc, ← List.flatMap_append]
    exact .head (ha am) hjl hls hb hne hd hlim hat ht hp hlen hcl htab tr
  | sized am ht hh hbody hne hat hl hlen htab tr =>
    simp only [List.append_assoc, ← List.flatMap_append]
    exact .sized (ha am) ht hh hbody hne hat hl hlen htab tr
  | size am ht hh hbody hat hlen htab tr =>
    rw [hc]
    exact .size (ha am) ht hh hbody hat hlen htab tr
  | data am ht hh hbody hch hne hat hl hlen htab tr =>
    rw [List.append_assoc, List.append_assoc, hc]
    exact .data (ha am) ht hh hbody hch hne hat hl hlen htab tr
  | dataEnd am ht hh hbody hx hat hlen htab tr =>
    rw [List.append_assoc, hc]
    exact .dataEnd (ha am) ht hh hbody hx hat hlen htab tr
  | trailer am ht hh hbody hjl hls hb hne hd hlim hp hat hlen htab tr =>
    simp only [List.append_assoc, ← List.flatMap_append]
    exact .trailer (ha am) ht hh hbody hjl hls hb hne hd hlim hp hat hlen htab tr
  | final am ht hh hp hp0 hat hlen htab tr =>
    simp only [List.append_assoc, List.cons_append, hb]
    exact .final (ha am) ht hh hp hp0 hat hlen htab tr

end

end Model.Ans
