/-
Responses cut into pieces: the status line, and the end of a response.
-/
import Verif.Lemmas.AnsStages

namespace Model.Ans

open M Spec Props

theorem bytesOf_answerChunks (cs : List BodyChunk) : bytesOf (cs.flatMap answerChunkTokens) = bytesOf (encoded cs) := by
  induction cs with
  | nil => rfl
  | cons c cs ih =>
    rw [List.flatMap_cons, bytesOf_append, ih, encoded_cons]
    unfold answerChunkTokens
    rw [bytesOf_cons_line, bytesOf_cons_line, bytesOf_append, bytesOf_loose]
    have h := bytesOf_loose c.data
    unfold loose bytesOf at h
    simp [bytesOf, Token.bytes, h]

theorem bytesOf_answerBody (b : Body) : bytesOf b.answerTokens = b.render := by
  cases b with
  | absent => rfl
  | sized content => exact bytesOf_loose content
  | chunked chunks last trailer =>
    unfold Body.answerTokens Body.render
    rw [bytesOf_append, bytesOf_answerChunks, bytesOf_cons_line, bytesOf_loose]

theorem bytesOf_response (r : Response) : bytesOf r.tokens = r.render := by
  unfold Response.tokens Response.render
  rw [bytesOf_append, bytesOf_loose, bytesOf_cons_line, bytesOf_append, bytesOf_loose, bytesOf_answerBody, List.append_assoc]

theorem bytesOf_responses (rs : List Response) : bytesOf (rs.flatMap Response.tokens) = rs.flatMap Response.render := by
  induction rs with
  | nil => rfl
  | cons r rs ih => rw [List.flatMap_cons, bytesOf_append, ih, bytesOf_response, List.flatMap_cons]

theorem follows_left {hs : List HeaderLine} {a b : Bytes} (h : AnswerFollows hs (a ++ b)) : AnswerFollows hs a := by
  refine ⟨fun h0 => (List.append_eq_nil_iff.mp (h.1 h0)).1, fun c hc => h.2 c ?_⟩
  cases a with
  | nil => cases hc
  | cons x a => exact hc

section
variable {e : Env} {g : Log Event.ofResponse} {s0 : Conn} {all : List Response}

theorem Fit.answerable (F : Fit e s0 all) {pre : List Response} {r : Response} {post : List Response}
    (hall : all = pre ++ r :: post) :
    ∃ t, s0.txs.get (s0.txs.response + pre.length) = some t ∧ t.index = s0.txs.response + pre.length ∧ AnswerableBy t r :=
  F.ans pre.length r (by rw [hall]; simp)

theorem Fit.upcoming (F : Fit e s0 all) {pre post : List Response} (hall : all = pre ++ post) :
    UpcomingAnswer (post.flatMap Response.render) :=
  upcoming_responses (s := s0) post (s0.txs.response + pre.length) (fun i r hi => by
    have := F.ans (pre.length + i) r (by rw [hall, List.getElem?_append_right (by omega)]; simpa using hi)
    rwa [← Nat.add_assoc] at this)

theorem Fit.full (F : Fit e s0 all) {pre : List Response} {r : Response} {post : List Response}
    (hall : all = pre ++ r :: post) : post.flatMap Response.render = [] ∨ r.Filled := by
  cases post with
  | nil => exact .inl rfl
  | cons r' post =>
    refine .inr (F.filled r ?_)
    rw [hall, show pre ++ r :: r' :: post = (pre ++ [r]) ++ r' :: post by simp, List.dropLast_append_of_ne_nil (by simp)]
    simp

/-- What follows the head of a response, as far as it is there. -/
theorem Fit.follows_head (F : Fit e s0 all) {pre : List Response} {r : Response} {post : List Response}
    (hall : all = pre ++ r :: post) {c later : List Token}
    (hc : r.body.answerTokens ++ post.flatMap Response.tokens = c ++ later) : AnswerFollows r.headers (bytesOf c) := by
  obtain ⟨t, -, -, ha⟩ := F.answerable hall
  have h1 := answerFollows_headers ha.response (F.upcoming (pre := pre ++ [r]) (post := post) (by rw [hall]; simp)) (F.full hall)
  have h2 := congrArg bytesOf hc
  rw [bytesOf_append, bytesOf_append, bytesOf_answerBody, bytesOf_responses] at h2
  rw [h2] at h1
  exact follows_left h1

/-- What follows the trailer. -/
theorem Fit.follows_trailer (F : Fit e s0 all) {pre : List Response} {r : Response} {post : List Response}
    (hall : all = pre ++ r :: post) {cs : List BodyChunk} {last : Bytes} {trailer : List HeaderLine}
    (hb : r.body = .chunked cs last trailer) {c later : List Token}
    (hc : post.flatMap Response.tokens = c ++ later) : AnswerFollows trailer (bytesOf c) := by
  have h1 := answerFollows_trailer hb (F.upcoming (pre := pre ++ [r]) (post := post) (by rw [hall]; simp)) (F.full hall)
  have h2 := congrArg bytesOf hc
  rw [bytesOf_append, bytesOf_responses] at h2
  rw [h2] at h1
  exact follows_left h1

/-- The status line. -/
theorem run_line (F : Fit e s0 all) {s : Conn} {pre : List Response} {r : Response} {post : List Response} {p rem : Bytes}
    {t0 : Tx} (am : Amid e.cfg.txAutoDestroy s0 all pre r post s t0 { t0 with responseProgress := .line })
    (hx : t0.index = s.txs.response) (hp : p ++ rem = r.line) (hat : At s.resp .line p none none)
    (tr : Traced g (responseCallbacks s0.txs.response pre ++ [.tx .responseStart s.txs.response]) s)
    {c later : List Token} (ih : Goes e g s0 all c.length)
    (hc : loose rem ++ .line [13, 10] :: behind r post = c ++ later)
    {done : Bytes} {q : Nat} (hi : s.input = win done (bytesOf c) q) : Pauses e g s0 all later s := by
  have hmem : r ∈ all := by rw [am.split]; simp
  have hw := am.ans.response
  have hlim := F.line r hmem
  have hself := rp_self am.upto.sorted am.here _ hi
  rcases block_cut hc with ⟨a, b, hab, rfl, hlater⟩ | ⟨c', rfl, hT⟩
  · rw [bytesOf_loose] at hself
    subst hab
    have hl := congrArg List.length hp
    obtain ⟨inp, h1⟩ := pause_line (e := e) s s.resp _ [] done a q hat.state am.upto.alive hat.receiver
      (fun x hx => response_noEol hw.head x (by rw [← hp]; simp [hx])) (by
        unfold Half.buffered
        rw [hat.buf, hat.header]
        simp at hl ⊢
        omega)
    rw [hself] at h1
    refine .now h1 ?_
    rw [hlater]
    refine .line (p := p ++ a) ⟨am.split, am.upto.rp (.inr (.inr rfl)) am.here _ _ _, am.old, am.ans, rp_get _ _ _ _ _, am.parser⟩
      hx (by rw [List.append_assoc]; exact hp)
      ⟨hat.state, hat.previous, ?_, hat.header, hat.receiver⟩ (tr.same (List.append_nil _))
    show s.resp.buf ++ a = _
    rw [hat.buf]
  · rw [bytesOf_append, bytesOf_loose, bytesOf_cons_line, ← List.append_assoc] at hself
    have h1 := line_from F.callbacks hw s s.resp { t0 with responseProgress := .line } [] done rem (bytesOf c') q hat.state
      hat.previous (by rw [hat.buf]; exact hp) hat.header am.upto.alive hlim hx
    rw [hself] at h1
    refine .after h1 ?_
    obtain ⟨u1, u2, u3, u4, u5⟩ := am.ans.unanswered.fields
    refine ih c' later _ (done ++ (rem ++ [13, 10])) (done ++ (rem ++ [13, 10])).length
      (by simp [loose]; omega) ?_ rfl (fun _ => rfl) (by simp [rp_resp])
    rw [← hT]
    refine .head (js := []) (ls := r.headers) (d := []) (header := none)
      ⟨am.split, am.upto.rp (by exact am.upto.status) am.here _ _ _, am.old, am.ans, rp_get _ _ _ _ _, am.parser⟩
      rfl (fun _ => rfl) rfl (by rw [renderBlock_lines]; simp) rfl (by simp)
      ⟨rfl, rfl, rfl, hat.header, rfl⟩
      ⟨rfl, rfl, rfl, rfl, rfl, rfl, rfl, by show Progress.headers ≠ .complete; decide⟩ rfl u4 u3 ?_ ?_
    · show (t0.responseHeaders, t0.responseHeaderRepetitions) = ([], 0)
      rw [u1, u2]
    · have := (tr.add (s' := rp s s.resp t0 [.tx .responseLine s.txs.response] s.input) rfl).raw
        (s' := rp s s.resp t0 [.tx .responseLine s.txs.response] s.input) rfl .responseHeaderData s.txs.response
      rw [List.append_assoc] at this
      exact this

/-- Between two responses, with something to read. -/
theorem run_idle (F : Fit e s0 all) {s : Conn} {pre : List Response} {r : Response} {post : List Response} {p rem : Bytes}
    (split : all = pre ++ r :: post) (up : Upto e.cfg.txAutoDestroy s0 pre s) (hp : p ++ rem = r.line)
    (hst : s.resp.state = .idle) (hbuf : s.resp.buf = p) (hh : s.resp.header = none) (hr : s.resp.receiver = none)
    (next : NextFree s0 s)
    (tr : Traced g (responseCallbacks s0.txs.response pre) s)
    {c later : List Token} (ih : Goes e g s0 all c.length) (hne : c ≠ [])
    (hc : loose rem ++ .line [13, 10] :: behind r post = c ++ later)
    {done : Bytes} {q : Nat} (hi : s.input = win done (bytesOf c) q) : Pauses e g s0 all later s := by
  have hbne : bytesOf c ≠ [] := by
    rcases block_cut hc with ⟨a, b, hab, rfl, hlater⟩ | ⟨c', rfl, hT⟩
    · rw [bytesOf_loose]
      rintro rfl
      exact hne rfl
    · rw [bytesOf_append, bytesOf_cons_line]
      simp
  obtain ⟨t0, hold, hx, ha⟩ := F.answerable split
  rw [← up.response] at hold hx
  have hg := next.1 t0 hold
  have h1 := idle_from F.callbacks hst up.alive.1 hg (by rw [ha.complete]; decide) ha.notProtocol09 hi hbne
  refine .after h1 ?_
  refine run_line F (t0 := t0) ⟨split, up.rp (by exact up.status) hg _ _ _, hold, ha, rp_get _ _ _ _ _, ?_⟩ hx hp ?_ ?_ ih hc
    (done := done) (q := q) hi
  · exact congrArg Tx.responseHeaderParser ha.unanswered
  · exact ⟨rfl, rfl, hbuf, hh, hr⟩
  · exact tr.add rfl

theorem HeadDone.trailer_wf {head : Bool} {r : Response} (hw : r.WellFormed head) :
    ∀ h ∈ r.headers ++ r.body.trailer, h.WellFormed := by
  intro x hx
  rcases List.mem_append.mp hx with hx | hx
  · exact hw.headers x hx
  · have hf := hw.framed
    unfold Response.Framed at hf
    cases hb : r.body with
    | absent => rw [hb] at hx; cases hx
    | sized content => rw [hb] at hx; cases hx
    | chunked cs last trailer =>
      rw [hb] at hx hf
      exact hf.2.2.2.2.2 x hx

/-- Between two responses, with nothing to read. -/
theorem idle_pause {s : Conn} {pre post : List Response} (split : all = pre ++ post)
    (up : Upto e.cfg.txAutoDestroy s0 pre s)
    (hb : BetweenResponses s) (next : NextFree s0 s) (tr : Traced g (responseCallbacks s0.txs.response pre) s)
    {done : Bytes} {q : Nat}
    (hi : s.input = win done [] q) : Pauses e g s0 all (post.flatMap Response.tokens) s := by
  obtain ⟨s2, h2, ha2, hso⟩ := answers_idle (e := e) hb hi
  have hresp : s2.txs.response = s.txs.response := ha2.response
  refine .now h2 ?_
  refine .idle split ⟨?_, ?_, hresp.trans up.response, ha2.request.trans up.request, ha2.req.trans up.req,
    ha2.count.trans up.count, ha2.between.status, ha2.between.notBlocked, hso up.sorted, ?_⟩ ha2.between ⟨?_, ?_⟩
    (tr.same (ha2.trace.trans (List.append_nil _)))
  · intro i r' hi'
    have : i < pre.length := (List.getElem?_eq_some_iff.mp hi').1
    have h1 := up.records i r' hi'
    have h3 := ha2.others (s0.txs.response + i) (.inl (by rw [up.response]; omega))
    unfold AnswerKept at h1 ⊢
    rw [h3]
    exact h1
  · intro j hj
    rw [ha2.others j (by rw [up.response]; simp; omega)]
    exact up.others j hj
  · intro m h3 h4 h5
    have h6 := ha2.occupied _ (by rw [up.response, up.request]; exact h3) (by
      rw [List.length_nil, Nat.add_zero, up.response, up.request]
      intro hlt
      have := h4 hlt
      cases hq : s0.txs.get (s0.txs.response + pre.length) with
      | none => rw [hq] at this; cases this
      | some t =>
        rw [← up.response] at hq ⊢
        rw [next.1 t hq]
        rfl) (up.occupied m h3 h4 h5)
    rw [List.length_nil, Nat.sub_zero, ite_self] at h6
    exact h6
  · intro t ht
    rw [hresp] at ht ⊢
    have h3 := next.1 t ht
    rw [ha2.others s.txs.response (.inr (.inr ⟨rfl, by rw [h3]; rfl⟩))]
    exact h3
  · intro hn
    rw [hresp] at hn ⊢
    rcases next.2 hn with h3 | h3
    · exact ha2.next h3
    · right
      rw [ha2.others s.txs.response (.inr (.inr ⟨rfl, by rw [h3]; rfl⟩))]
      exact h3

/-- The end of a response. -/
theorem run_final (F : Fit e s0 all) {s : Conn} {pre : List Response} {r : Response} {post : List Response} {p : Bytes}
    {t0 t : Tx} (am : Amid e.cfg.txAutoDestroy s0 all pre r post s t0 t) (ht : LineRead t0 r t) (hh : HeadDone r t)
    (hat : At s.resp .finalize p none none)
    (hlen : t.responseEntityLen = r.body.content.length) (htab : Tabled t (r.headers ++ r.body.trailer))
    (tr : Traced g (soFar s0 pre r s.txs.response ++ r.body.answerCallbacks s.txs.response) s)
    {c later : List Token} (ih : Goes e g s0 all c.length) {done : Bytes} {q : Nat} (hi : s.input = win done (bytesOf c) q)
    (hnext : (p = [] ∧ post.flatMap Response.tokens = c ++ later) ∨
      (p ≠ [] ∧ done = [] ∧ c ≠ [] ∧ ∃ r' post' rem, post = r' :: post' ∧ p ++ rem = r'.line ∧
        loose rem ++ .line [13, 10] :: behind r' post' = c ++ later)) :
    Pauses e g s0 all later s := by
  have up := am.upto
  have hw := am.ans.response
  have hself := rp_self up.sorted am.here _ hi
  have hrec : ∀ ml, RecordsResponse { t with responseMessageLen := ml, responseProgress := .complete } r ∧
      requestSide { t with responseMessageLen := ml, responseProgress := .complete } = requestSide t0 := by
    intro ml
    obtain ⟨pp, hpp⟩ := hw.protocol
    refine ⟨⟨ht.line, ht.protocol, ?_, ht.status, ht.statusNumber, ht.message, htab.stored (HeadDone.trailer_wf hw), hh.coding, hh.size, hlen, rfl⟩,
      ht.same⟩
    show (r.protocol, t.responseProtocolNumber) ∈ _
    rw [ht.protocolNumber, (protocol_facts _ hpp).1]
    exact hpp
  have hevs : responseCallbacks s0.txs.response (pre ++ [r]) = soFar s0 pre r s.txs.response ++
      r.body.answerCallbacks s.txs.response ++ [.tx .responseComplete s.txs.response, .tx .transactionComplete s.txs.response] := by
    rw [responseCallbacks_append, ← up.response]
    unfold soFar headEvents
    simp [responseCallbacks, Response.callbacks]
  -- what follows once the response is over
  have hover : ∀ (ml : Nat) (b : Nat) (done' rest : Bytes) (q' : Nat),
      let s1 := answered e.cfg.txAutoDestroy s { s.resp with bytesConsumed := b, state := .idle, statePrevious := .idle }
        { t with responseMessageLen := ml, responseProgress := .complete }
        ([] ++ [.tx .responseComplete s.txs.response, .tx .transactionComplete s.txs.response]) (win done' rest q')
      Upto e.cfg.txAutoDestroy s0 (pre ++ [r]) s1 ∧ NextFree s0 s1 ∧
        Traced g (responseCallbacks s0.txs.response (pre ++ [r])) s1 := by
    intro ml b done' rest q'
    have u := up.over (h := { s.resp with bytesConsumed := b, state := .idle, statePrevious := .idle })
      up.status am.old am.here (hrec ml)
      ([] ++ [.tx .responseComplete s.txs.response, .tx .transactionComplete s.txs.response]) (win done' rest q')
    have hget : (answered e.cfg.txAutoDestroy s { s.resp with bytesConsumed := b, state := .idle, statePrevious := .idle }
        { t with responseMessageLen := ml, responseProgress := .complete }
        ([] ++ [.tx .responseComplete s.txs.response, .tx .transactionComplete s.txs.response]) (win done' rest q')).txs.get
          (s.txs.response + 1) = s0.txs.get (s.txs.response + 1) := by
      refine (get_answered _ _ _ _).trans ((if_neg (by omega)).trans ?_)
      exact up.others _ (by rw [up.response]; omega)
    refine ⟨u, ⟨?_, ?_⟩, by rw [hevs]; exact tr.add rfl⟩
    · intro t' ht'
      exact hget.trans ht'
    · intro hn
      exact .inl (hget.trans hn)
  have hfin := fun (done rest : Bytes) (q : Nat) (hn : UpcomingAnswer rest) (hb : s.resp.buf = []) =>
    answer_finalize (e := e) F.callbacks s s.resp t [] done rest q hat.state up.alive hb hn hat.receiver up.notOther up.notBlocked
      (by rw [ht.requestProgress]; exact am.ans.complete) ht.progress hh.encoding (by rw [hlen]; exact hw.length)
  have hidle : p = [] → c = [] → post.flatMap Response.tokens = later → Pauses e g s0 all later s := by
    intro hp0 hc0 hl
    subst hc0 hl
    obtain ⟨ml, b, h1⟩ := hfin done [] q (.inl rfl) (hat.buf.trans hp0)
    rw [show win done [] q = win done (bytesOf []) q from rfl, hself] at h1
    obtain ⟨u, hn, tr1⟩ := hover ml b done (bytesOf []) q
    refine .after h1 ?_
    exact idle_pause (pre := pre ++ [r]) (by rw [am.split]; simp) u
      ⟨rfl, hat.buf.trans hp0, hat.header, hat.receiver, up.status, up.notBlocked⟩ hn tr1 rfl
  -- with the line of the next response
  have hgo : ∀ r' post' rem, post = r' :: post' → p ++ rem = r'.line → (p ≠ [] → done = []) → c ≠ [] →
      loose rem ++ .line [13, 10] :: behind r' post' = c ++ later →
      Pauses e g s0 all later s := by
    intro r' post' rem hpost hpr hcame hc0 hc
    subst hpost
    have hall' : all = (pre ++ [r]) ++ r' :: post' := by rw [am.split]; simp
    have hmem' : r' ∈ all := by rw [hall']; simp
    obtain ⟨t', -, -, ha'⟩ := F.answerable hall'
    have hw' := ha'.response
    have hlim' := F.line r' hmem'
    have hl := congrArg List.length hpr
    rcases block_cut hc with ⟨a, b, hab, rfl, hlater⟩ | ⟨c', rfl, hT⟩
    · rw [bytesOf_loose] at hself
      subst hab
      have ha0 : a ≠ [] := by rintro rfl; exact hc0 rfl
      obtain ⟨inp, h1⟩ := pause_final (e := e) s s.resp t [] done a q hat.state up.alive hat.receiver
        (fun x hx => response_noEol hw'.head x (by rw [← hpr]; simp [hx])) ha0 (by
          unfold Half.buffered
          rw [hat.buf, hat.header]
          simp at hl ⊢
          omega)
      rw [hself] at h1
      refine .now h1 ?_
      rw [hlater]
      refine .final (p := p ++ a) (r := r) ⟨am.split, up.rp (.inr (.inr rfl)) am.here _ _ _, am.old, am.ans, rp_get _ _ _ _ _, am.parser⟩
        ht hh (by rw [List.append_assoc]; exact hpr) (by simp [ha0])
        ⟨hat.state, hat.previous, ?_, hat.header, hat.receiver⟩ hlen htab (tr.same (List.append_nil _))
      show s.resp.buf ++ a = _
      rw [hat.buf]
    · rw [bytesOf_append, bytesOf_loose, bytesOf_cons_line, ← List.append_assoc] at hself
      obtain ⟨ml, b, h1⟩ := finalize_from (e := e) F.callbacks s s.resp t [] done rem (bytesOf c') q hat.state up.alive hw'
        (by rw [hat.buf]; exact hpr) (by rw [hat.buf]; exact hcame) (by
          unfold Half.buffered
          rw [hat.buf, hat.header]
          simp at hl ⊢
          omega) hat.receiver up.notOther up.notBlocked
        (by rw [ht.requestProgress]; exact am.ans.complete) ht.progress hh.encoding (by rw [hlen]; exact hw.length)
      rw [hself] at h1
      obtain ⟨u, hn, tr1⟩ := hover ml b done (rem ++ [13, 10] ++ bytesOf c') q
      refine .after h1 ?_
      exact run_idle F (pre := pre ++ [r]) hall' u hpr rfl hat.buf hat.header hat.receiver hn tr1
        ih hc0 hc (by rw [bytesOf_append, bytesOf_loose, bytesOf_cons_line, ← List.append_assoc]; rfl)
  rcases hnext with ⟨rfl, hc⟩ | ⟨hp0, hdone, hc0, r', post', rem, hpost, hpr, hc⟩
  · by_cases hc0 : c = []
    · subst hc0
      exact hidle rfl rfl hc
    · cases post with
      | nil =>
        rw [List.flatMap_nil] at hc
        exact absurd (List.append_eq_nil_iff.mp hc.symm).1 hc0
      | cons r' post' =>
        refine hgo r' post' r'.line rfl rfl (fun h => absurd rfl h) hc0 ?_
        rw [← hc, List.flatMap_cons]
        simp [Response.tokens, behind]
  · exact hgo r' post' rem hpost hpr (fun _ => hdone) hc0 hc

end

end Model.Ans
