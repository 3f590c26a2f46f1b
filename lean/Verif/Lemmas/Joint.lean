/-
Requests and responses in pieces, in any order: what holds between two calls.
-/
import Verif.Lemmas.AnsJoin
import Verif.Lemmas.Sofar
import Verif.Props.Dialogue

namespace Model

open M Spec Props Ans

theorem Request.lineTokens_prefix (r : Request) : r.lineTokens <+: r.tokens := ⟨_, rfl⟩

theorem Request.lineTokens_ne (r : Request) : r.lineTokens ≠ [] := by simp [Request.lineTokens, loose]

theorem Response.lineTokens_prefix (r : Response) : r.lineTokens <+: r.tokens :=
  ⟨loose (renderBlock r.headers) ++ r.body.answerTokens, by simp [Response.lineTokens, Response.tokens]⟩

theorem Response.lineTokens_ne (r : Response) : r.lineTokens ≠ [] := by simp [Response.lineTokens]

theorem SameRequests.refl (keep : Event → Bool) (s : Conn) : SameRequests keep s s :=
  ⟨rfl, rfl, fun _ h => h, fun h => .inl h, fun _ _ => rfl, rfl⟩

theorem SameRequests.trans {keep : Event → Bool} {s s' s'' : Conn} (h : SameRequests keep s s') (h' : SameRequests keep s' s'') :
    SameRequests keep s s'' := by
  have hr := h'.request
  refine ⟨h'.req.trans h.req, h.request.trans hr, ?_, ?_, ?_, h'.log.trans h.log⟩
  · intro t ht
    rw [← hr] at ht
    have := h.here t ht
    rw [hr] at this
    exact h'.here t this
  · intro hn
    rw [← hr] at hn
    rcases h.free hn with h1 | h1
    · rw [hr] at h1
      exact h'.free h1
    · rw [hr] at h1
      exact .inr (h'.here _ h1)
  · intro j hj
    rw [h'.beyond j hj]
    exact h.beyond j (by rw [hr]; exact hj)

theorem Ans.SameResponses.refl (keep : Event → Bool) (busy : Prop) {s : Conn} (hs : Txs.Sorted s.txs.map) : SameResponses keep busy s s :=
  ⟨rfl, rfl, rfl, fun _ => rfl, hs, rfl⟩

theorem Ans.SameResponses.trans {keep : Event → Bool} {busy : Prop} {s s' s'' : Conn} (h : SameResponses keep busy s s')
    (h' : SameResponses keep busy s' s'') : SameResponses keep busy s s'' := by
  refine ⟨h'.resp.trans h.resp, h.response.trans h'.response, h'.blocked.trans h.blocked, ?_, h'.sorted, h'.log.trans h.log⟩
  intro hb
  rw [h'.here hb, ← h'.response]
  exact h.here hb

theorem Midway.foreign {e : Env} {g : Log Event.ofRequest} {s0 s : Conn} {m : Nat} {all : List Request} {T : List Token}
    (h : Midway e g s0 m all T s) : s.trace.filter (fun ev => !ev.ofRequest) = g.foreign := by
  cases h <;> exact And.left ‹_›

theorem Ans.Midway.foreign {e : Env} {g : Log Event.ofResponse} {s0 s : Conn} {all : List Response} {T : List Token}
    (h : Ans.Midway e g s0 all T s) : s.trace.filter (fun ev => !ev.ofResponse) = g.foreign := by
  cases h <;> exact And.left ‹_›

theorem get_unseen_none (s : Conn) (j : Nat) : (unseen none s).txs.get j = s.txs.get j := rfl

theorem get_unseen_of_ne {o : Option Tx} {s : Conn} {j : Nat} (h : j ≠ s.txs.response) : (unseen o s).txs.get j = s.txs.get j := by
  cases o with
  | none => rfl
  | some t0 => exact (Txs.get_set _ _ _ _).trans (if_neg h)

theorem get_unseen_response (s : Conn) (t0 : Tx) : (unseen (some t0) s).txs.get s.txs.response = some t0 :=
  (Txs.get_set _ _ _ _).trans (if_pos rfl)

theorem unseen_fields (o : Option Tx) (s : Conn) : (unseen o s).txs.response = s.txs.response ∧ (unseen o s).txs.request = s.txs.request ∧
    (unseen o s).req = s.req ∧ (unseen o s).trace = s.trace := by cases o <;> exact ⟨rfl, rfl, rfl, rfl⟩

theorem occupied_unseen {o : Option Tx} {s : Conn} {m : Nat} (ho : Occupied s m) (hh : o ≠ none → (s.txs.get s.txs.response).isSome) :
    Occupied (unseen o s) m := by
  cases o with
  | none => exact ho
  | some t0 =>
    have hh := hh (by simp)
    have hl : (unseen (some t0) s).txs.map.length = s.txs.map.length :=
      Txs.length_put_of_some s.txs.response t0 s.txs.map ho.1 hh
    refine ⟨Txs.sorted_put _ _ _ ho.1, ?_⟩
    rw [hl, (unseen_fields _ s).2.1]
    by_cases he : s.txs.request = s.txs.response
    · rw [he, get_unseen_response]
      rcases ho.2 with ⟨h, -⟩ | ⟨-, h⟩
      · rw [he] at h; rw [h] at hh; cases hh
      · exact .inr ⟨rfl, h⟩
    · rw [get_unseen_of_ne he]
      exact ho.2

/-- The callbacks for requests, when these requests are over. -/
def askLog (s0 : Conn) (over : List Request) : Log Event.ofRequest :=
  ⟨Event.ofRequest, s0.trace.filter Event.ofRequest, requestCallbacks s0.txs.request over, [], [], fun _ h => h⟩

/-- The callbacks for responses, when these responses are over. -/
def answerLog (s0 : Conn) (over : List Response) : Log Event.ofResponse :=
  ⟨Event.ofResponse, s0.trace.filter Event.ofResponse, responseCallbacks s0.txs.request over, [], [], fun _ h => h⟩

theorem askLog_say (s0 s' : Conn) (a b : List Request) (s : Conn) :
    ((((askLog s0 a).at s).say (requestCallbacks (s0.txs.request + a.length) b)).at s') = (askLog s0 (a ++ b)).at s' := by
  unfold askLog
  rw [requestCallbacks_append]
  rfl

theorem answerLog_say (s0 s' : Conn) (a b : List Response) (s : Conn) :
    ((((answerLog s0 a).at s).say (responseCallbacks (s0.txs.request + a.length) b)).at s') = (answerLog s0 (a ++ b)).at s' := by
  unfold answerLog
  rw [responseCallbacks_append]
  rfl

/-- What holds between two calls: `dq` and `dr` are the requests and the responses that are over, `cq` and `cr` those that
have begun, of which `TQ` and `TR` are to come. -/
structure Joint (e : Env) (s0 : Conn) (held : Nat) (qs : List Request) (rs : List Response) (A B : List (List Token))
    (dq cq fq : List Request) (TQ : List Token) (dr cr fr : List Response) (TR : List Token) (o : Option Tx) (s : Conn) : Prop where
  asks : Sofar Request.tokens Request.lineTokens qs A dq cq fq TQ
  answers : Sofar Response.tokens Response.lineTokens rs B dr cr fr TR
  request : s.txs.request = s0.txs.request + dq.length
  response : s.txs.response = s0.txs.request + dr.length
  causal : dr.length + cr.length ≤ dq.length
  old : o = none ↔ cr = []
  here : o ≠ none → (s.txs.get s.txs.response).isSome
  resp : s.resp.status ≠ .dataOther
  askWay : ∀ s' m', SameRequests Event.ofRequest s s' → Occupied s' m' → Midway e ((askLog s0 dq).at s') s' m' cq TQ s'
  answerWay : ∀ s', SameResponses Event.ofResponse (cr ≠ []) s s' → Ans.Midway e ((answerLog s0 dr).at s') (unseen o s') cr TR s'
  waiting : ∀ i q, dr.length ≤ i → dq[i]? = some q →
    ∃ t, (unseen o s).txs.get (s0.txs.request + i) = some t ∧ Records t (s0.txs.request + i) q ∧ Unanswered t
  exchanged : ∀ i q r, dq[i]? = some q → dr[i]? = some r → Exchanged e.cfg.txAutoDestroy s.txs (s0.txs.request + i) q (some r)
  others : ∀ j, j < s0.txs.request → s.txs.get j = s0.txs.get j
  occupied : Occupied s (held + dq.length - if e.cfg.txAutoDestroy then dr.length else 0)

section
variable {e : Env} {s0 : Conn} {held : Nat} {qs : List Request} {rs : List Response} {A B : List (List Token)}
  {dq cq fq : List Request} {TQ : List Token} {dr cr fr : List Response} {TR : List Token} {o : Option Tx} {s : Conn}

/-- A call with a piece of the requests. -/
theorem Joint.ask (J : Joint e s0 held qs rs A B dq cq fq TQ dr cr fr TR o s) (hw : Willing e)
    (hq : ∀ q ∈ qs, q.WellFormed ∧ q.line.length + 2 ≤ e.cfg.fieldLimit ∧
      ∀ h ∈ q.headers ++ q.body.trailer, ¬ EqNocase h.name (b! "expect") ∧ h.render.length ≤ e.cfg.fieldLimit)
    {c : List Token} (hc : c ≠ []) (hroom : ∃ n k, (A ++ [c]).flatten <+: (qs.take n).flatMap Request.tokens ∧ ResponsesOver rs k B ∧
      held + n ≤ e.cfg.maxTx + if e.cfg.txAutoDestroy then k else 0) :
    ∃ s' dq cq fq TQ, (Move.ask c).op.run e s = (.ok (some .data), s') ∧
      Joint e s0 held qs rs (A ++ [c]) B dq cq fq TQ dr cr fr TR o s' := by
  obtain ⟨n, k, hn, hk, hroom⟩ := hroom
  have hkd := J.answers.settled k hk
  have hpre := Request.lineTokens_prefix
  obtain ⟨more, fut', later, hr, hle⟩ := J.asks.reaches (fun x => (hpre x).length_le) hc hn
  have hM := (J.askWay s _ (.refl _ s) J.occupied).extend more
  rw [← hr.here] at hM
  have hcaus := J.causal
  have hmem : ∀ q ∈ cq ++ more, q ∈ qs := by
    intro q hq
    rw [J.asks.split, hr.fut, ← List.append_assoc cq]
    exact List.mem_append_right _ (List.mem_append_left _ hq)
  have F : Fit e (held + dq.length - if e.cfg.txAutoDestroy then dr.length else 0) (cq ++ more) := by
    refine ⟨hw, fun q h => (hq q (hmem q h)).1, fun q h => (hq q (hmem q h)).2.1, fun q h x hx => ((hq q (hmem q h)).2.2 x hx).2, ?_⟩
    split
    next ha => rw [if_pos ha] at hroom; omega
    next ha => rw [if_neg ha] at hroom; omega
  have hbytes : bytesOf c ≠ [] := by
    cases c with
    | nil => exact absurd rfl hc
    | cons x xs =>
      have h1 : x ∈ (qs.take n).flatMap Request.tokens := hn.subset (by simp)
      obtain ⟨q, hq1, hq2⟩ := List.mem_flatMap.1 h1
      have := tokens_ne (hq q (List.mem_of_mem_take hq1)).1 x hq2
      simp [bytesOf, this]
  obtain ⟨s1, hrun, hM1⟩ := call_pieces F hM hc hbytes
  obtain ⟨pre, cur, post, T', hall, hT', hu, up, way⟩ := hM1.rebase
  have hfor : s1.trace.filter Event.ofResponse = s.trace.filter Event.ofResponse := hM1.foreign
  have hresp : s1.resp = s.resp := by
    rcases up.resp with h | ⟨h, -⟩
    · exact h
    · exact absurd h J.resp
  have hreq1 : s1.txs.request = s0.txs.request + (dq ++ pre).length := by
    rw [up.request, J.request, List.length_append]; omega
  have hresp1 : s1.txs.response = s0.txs.request + dr.length := up.response.trans J.response
  have hoth : ∀ j, j < s0.txs.request + dq.length → s1.txs.get j = s.txs.get j := fun j hj => up.others j (by rw [J.request]; exact hj)
  have hbusy : o ≠ none → dr.length < dq.length := by
    intro h
    have h1 : cr ≠ [] := fun h0 => h (J.old.2 h0)
    have := List.length_pos_iff.2 h1
    omega
  have hunseen : ∀ j, j < s0.txs.request + dq.length → (unseen o s1).txs.get j = (unseen o s).txs.get j := by
    intro j hj
    by_cases hj2 : j = s0.txs.request + dr.length
    · cases o with
      | none => exact hoth j hj
      | some t0 =>
        rw [hj2]
        conv => lhs; rw [← hresp1]
        conv => rhs; rw [← J.response]
        rw [get_unseen_response, get_unseen_response]
    · rw [get_unseen_of_ne (by rw [hresp1]; exact hj2), get_unseen_of_ne (by rw [J.response]; exact hj2)]
      exact hoth j hj
  refine ⟨s1, dq ++ pre, cur, post ++ fut', T', hrun,
    J.asks.next hpre Request.lineTokens_ne hr hall hT' hu, J.answers, hreq1, hresp1, ?_, J.old, ?_, ?_, ?_, ?_, ?_, ?_, ?_, ?_⟩
  · rw [List.length_append]; omega
  · intro h
    have := hbusy h
    rw [hresp1, hoth _ (by omega), ← J.response]
    exact J.here h
  · rw [hresp]; exact J.resp
  · intro s' m' hs ho
    have := way s' m' hs ho
    rw [J.request, askLog_say] at this
    exact this
  · intro s' hs
    refine J.answerWay s' (.trans ⟨hresp, up.response.symm, up.blocked, ?_, up.occupied.1, hfor⟩ hs)
    intro hb
    have := hbusy fun h0 => hb (J.old.1 h0)
    exact hoth _ (by rw [hresp1]; omega)
  · intro i q hi hqi
    rcases Nat.lt_or_ge i dq.length with hlt | hge
    · rw [List.getElem?_append_left hlt] at hqi
      obtain ⟨t, ht, h1⟩ := J.waiting i q hi hqi
      exact ⟨t, (hunseen _ (by omega)).trans ht, h1⟩
    · rw [List.getElem?_append_right hge] at hqi
      obtain ⟨t, ht, h1⟩ := up.records _ q hqi
      rw [J.request, Nat.add_assoc, Nat.add_sub_cancel' hge] at ht h1
      refine ⟨t, ?_, h1⟩
      cases o with
      | none => exact ht
      | some t0 =>
        have := hbusy (by simp)
        rw [get_unseen_of_ne (by rw [hresp1]; omega)]
        exact ht
  · intro i q r hqi hri
    have hlt : i < dr.length := (List.getElem?_eq_some_iff.1 hri).1
    rw [List.getElem?_append_left (by omega)] at hqi
    have := J.exchanged i q r hqi hri
    unfold Exchanged at this ⊢
    rw [hoth _ (by omega)]
    exact this
  · intro j hj
    rw [hoth j (by omega)]
    exact J.others j hj
  · have := up.occupied
    rw [List.length_append]
    refine (congrArg (Occupied s1) ?_).mp this
    split <;> omega

/-- A call with a piece of the responses. -/
theorem Joint.answer (J : Joint e s0 held qs rs A B dq cq fq TQ dr cr fr TR o s) (hw : Willing e)
    (hq : ∀ q ∈ qs, q.WellFormed ∧ q.line.length + 2 ≤ e.cfg.fieldLimit ∧
      ∀ h ∈ q.headers ++ q.body.trailer, ¬ EqNocase h.name (b! "expect") ∧ h.render.length ≤ e.cfg.fieldLimit)
    (hrs : ∀ (i : Nat) (q : Request) (r : Response), qs[i]? = some q → rs[i]? = some r →
      r.WellFormed (decide (q.method = b! "HEAD")) ∧ r.line.length + 2 ≤ e.cfg.fieldLimit ∧
      ∀ h ∈ r.headers ++ r.body.trailer, h.render.length + 1 ≤ e.cfg.fieldLimit)
    {c : List Token} (hc : c ≠ []) {after : List (List Token)}
    (hfill : ∀ (i : Nat) (r : Response), rs[i]? = some r → ¬ r.Filled →
      ∃ early late, B ++ c :: after = early ++ late ∧ early.flatten = (rs.take (i + 1)).flatMap Response.tokens)
    (hcausal : ∃ n, RequestsOver qs n A ∧ (B ++ [c]).flatten <+: (rs.take n).flatMap Response.tokens) :
    ∃ s' dr cr fr TR o, (Move.answer c).op.run e s = (.ok (some .data), s') ∧
      Joint e s0 held qs rs A (B ++ [c]) dq cq fq TQ dr cr fr TR o s' := by
  obtain ⟨n, hna, hn⟩ := hcausal
  have hnd := J.asks.settled n hna
  have hpre := Response.lineTokens_prefix
  obtain ⟨more, fut', later, hr, hle⟩ := J.answers.reaches (fun x => (hpre x).length_le) hc hn
  have hM := (J.answerWay s (.refl _ _ J.occupied.1)).extend more
  rw [← hr.here] at hM
  have hu1 := unseen_fields o s
  have hcaus := J.causal
  have hnext : ∀ i r, (cr ++ more)[i]? = some r → rs[dr.length + i]? = some r := by
    intro i r hi
    rw [J.answers.split, hr.fut, ← List.append_assoc cr, List.getElem?_append_right (by omega), Nat.add_sub_cancel_left,
      List.getElem?_append_left (List.getElem?_eq_some_iff.1 hi).1]
    exact hi
  have hask : ∀ i (h : i < dq.length), qs[i]? = some dq[i] := by
    intro i hi
    rw [J.asks.split, List.getElem?_append_left hi]
    exact List.getElem?_eq_getElem hi
  have hof : ∀ r ∈ cr ++ more, ∃ (i : Nat) (h : dr.length + i < dq.length), (cr ++ more)[i]? = some r ∧
      qs[dr.length + i]? = some dq[dr.length + i] ∧ rs[dr.length + i]? = some r := by
    intro r h
    obtain ⟨i, hi, rfl⟩ := List.mem_iff_getElem.1 h
    have hlt : dr.length + i < dq.length := by omega
    exact ⟨i, hlt, List.getElem?_eq_getElem hi, hask _ hlt, hnext i _ (List.getElem?_eq_getElem hi)⟩
  have F : Ans.Fit e (unseen o s) (cr ++ more) := by
    refine ⟨hw.callbacks, ?_, ?_, ?_, ?_⟩
    · intro i r hi
      have hi2 := (List.getElem?_eq_some_iff.1 hi).1
      have hlt : dr.length + i < dq.length := by omega
      obtain ⟨t, ht, hrec, hun⟩ := J.waiting (dr.length + i) _ (by omega) (List.getElem?_eq_getElem hlt)
      have hmem : dq[dr.length + i] ∈ qs := List.mem_of_getElem? (hask _ hlt)
      rw [hu1.1, J.response, Nat.add_assoc]
      exact ⟨t, ht, hrec.index, answerable (hq _ hmem).1 hrec hun (.inl fun h hh => ((hq _ hmem).2.2 h hh).1)
        (hrs _ _ r (hask _ hlt) (hnext i r hi)).1⟩
    · intro r h
      obtain ⟨i, hlt, -, h1, h2⟩ := hof r h
      exact (hrs _ _ r h1 h2).2.1
    · intro r h
      obtain ⟨i, hlt, -, h1, h2⟩ := hof r h
      exact (hrs _ _ r h1 h2).2.2
    · intro r h
      refine Classical.byContradiction fun hnf => ?_
      obtain ⟨i, hi, hri⟩ := List.mem_iff_getElem.1 h
      have h1 : (cr ++ more)[i]? = some r := by
        rw [← hri, List.getElem_dropLast]
        exact List.getElem?_eq_getElem _
      obtain ⟨early, late, h2, h3⟩ := hfill _ r (hnext i r h1) hnf
      exact J.answers.noCut hr hi after early late h2 h3
  have hbytes : bytesOf c ≠ [] := by
    cases c with
    | nil => exact absurd rfl hc
    | cons x xs =>
      have h1 : x ∈ (rs.take n).flatMap Response.tokens := hn.subset (by simp)
      obtain ⟨r, hr1, hr2⟩ := List.mem_flatMap.1 h1
      obtain ⟨i, hi, rfl⟩ := List.mem_iff_getElem.1 hr1
      have hi2 : i < n := by rw [List.length_take] at hi; omega
      have := Ans.tokens_ne (hrs i _ _ (hask i (by omega)) (by rw [List.getElem_take]; exact List.getElem?_eq_getElem _)).1 x hr2
      simp [bytesOf, this]
  obtain ⟨s1, hrun, hM1⟩ := Ans.call_pieces F hM hc hbytes
  obtain ⟨pre, cur, post, T', hall, hT', hu, up, hfree, o', ho', hold, way⟩ := hM1.rebase
  have hfor : s1.trace.filter Event.ofRequest = s.trace.filter Event.ofRequest := by
    have h1 := hM1.foreign
    have h2 : (fun ev : Event => !ev.ofResponse) = Event.ofRequest := by
      funext ev
      simp [Event.ofResponse]
    rw [h2] at h1
    refine h1.trans ?_
    show s.trace.filter (fun ev : Event => !ev.ofResponse) = _
    rw [h2]
  have hlen := congrArg List.length hall
  simp only [List.length_append] at hlen hle
  have hresp1 : s1.txs.response = s0.txs.request + (dr ++ pre).length := by
    rw [up.response, hu1.1, J.response, List.length_append]; omega
  have hreq1 : s1.txs.request = s0.txs.request + dq.length := by rw [up.request, hu1.2.1, J.request]
  have hbusy : o ≠ none → dr.length < dq.length := by
    intro h
    have h1 : cr ≠ [] := fun h0 => h (J.old.2 h0)
    have := List.length_pos_iff.2 h1
    omega
  have hoth : ∀ j, j < s0.txs.request + dr.length ∨ s0.txs.request + dr.length + pre.length < j → s1.txs.get j = s.txs.get j := by
    intro j hj
    rw [up.others j (by rw [hu1.1, J.response]; exact hj)]
    exact get_unseen_of_ne (by rw [J.response]; omega)
  have hsame : ∀ j, s0.txs.request + dr.length + pre.length < j → s1.txs.get j = (unseen o s).txs.get j := by
    intro j hj
    exact up.others j (by rw [hu1.1, J.response]; exact .inr hj)
  have hreqs : (unseen o s).txs.get s.txs.request = s.txs.get s.txs.request := by
    cases o with
    | none => rfl
    | some t0 =>
      have := hbusy (by simp)
      exact get_unseen_of_ne (by rw [J.request, J.response]; omega)
  have hcausal' : (dr ++ pre).length + cur.length ≤ dq.length := by rw [List.length_append]; omega
  have hreqSame : SameRequests Event.ofRequest s s1 := by
    have h0 : s.txs.request = s1.txs.request := by rw [hreq1, J.request]
    have hnf : s0.txs.request + dr.length + pre.length = s.txs.request → NextFree (unseen o s) s1 ∧ s1.txs.response = s1.txs.request := by
      intro he
      rw [J.request] at he
      refine ⟨hfree ?_, by rw [hresp1, hreq1, List.length_append]; omega⟩
      rw [List.length_append] at hcausal'
      exact List.length_eq_zero_iff.1 (by omega)
    refine ⟨up.req.trans hu1.2.2.1, h0, ?_, ?_, ?_, hfor⟩
    · intro t ht
      rcases Nat.lt_or_ge (s0.txs.request + dr.length + pre.length) s.txs.request with hlt | hge
      · rw [hoth _ (.inr (by rw [← h0]; exact hlt))]
        exact ht
      · obtain ⟨h1, h2⟩ := hnf (by rw [J.request] at hge ⊢; rw [List.length_append] at hcausal'; omega)
        rw [← h0, ← hreqs, h0, ← h2] at ht
        rw [← h2]
        exact h1.1 t ht
    · intro hn
      rcases Nat.lt_or_ge (s0.txs.request + dr.length + pre.length) s.txs.request with hlt | hge
      · rw [hoth _ (.inr (by rw [← h0]; exact hlt))]
        exact .inl hn
      · obtain ⟨h1, h2⟩ := hnf (by rw [J.request] at hge ⊢; rw [List.length_append] at hcausal'; omega)
        rw [← h0, ← hreqs, h0, ← h2] at hn
        rw [← h2]
        exact h1.2 hn
    · intro j hj
      rw [hreq1] at hj
      rw [List.length_append] at hcausal'
      exact hoth j (.inr (by omega))
  have hwait : ∀ i q, (dr ++ pre).length ≤ i → dq[i]? = some q →
      ∃ t, (unseen o' s1).txs.get (s0.txs.request + i) = some t ∧ Records t (s0.txs.request + i) q ∧ Unanswered t := by
    intro i q hi hqi
    rw [List.length_append] at hi
    obtain ⟨t, ht, h1⟩ := J.waiting i q (by omega) hqi
    refine ⟨t, ?_, h1⟩
    rcases Nat.lt_or_ge (dr.length + pre.length) i with hlt | hge
    · rw [get_unseen_of_ne (by rw [hresp1, List.length_append]; omega), hsame _ (by omega)]
      exact ht
    · have he : s0.txs.request + i = s1.txs.response := by rw [hresp1, List.length_append]; omega
      rw [he] at ht ⊢
      cases o' with
      | none => exact (hfree (ho'.1 rfl)).1 t ht
      | some t0 =>
        rw [get_unseen_response]
        rw [(hold t0 rfl).1] at ht
        exact ht
  refine ⟨s1, dr ++ pre, cur, post ++ fut', T', o', hrun,
    J.asks, J.answers.next hpre Response.lineTokens_ne hr hall hT' hu, hreq1, hresp1, hcausal', ho', ?_, ?_, ?_, ?_, hwait, ?_, ?_, ?_⟩
  · intro h
    cases o' with
    | none => exact absurd rfl h
    | some t0 =>
      obtain ⟨t, ht, -⟩ := (hold t0 rfl).2
      rw [ht]; rfl
  · rcases up.status with h | h | h <;> rw [h] <;> decide
  · exact fun s' m' hs ho => J.askWay s' m' (hreqSame.trans hs) ho
  · intro s' hs
    have := way s' hs
    rw [hu1.1, J.response, answerLog_say] at this
    exact this
  · intro i q r hqi hri
    rcases Nat.lt_or_ge i dr.length with hlt | hge
    · rw [List.getElem?_append_left hlt] at hri
      have := J.exchanged i q r hqi hri
      unfold Exchanged at this ⊢
      rw [hoth _ (.inl (by omega))]
      exact this
    · rw [List.getElem?_append_right hge] at hri
      have := up.records _ r hri
      rw [hu1.1, J.response, Nat.add_assoc, Nat.add_sub_cancel' hge] at this
      unfold AnswerKept at this
      show if e.cfg.txAutoDestroy then _ else _
      split
      next ha => rw [if_pos ha] at this; exact this
      next ha =>
        rw [if_neg ha] at this
        obtain ⟨t, t', ht, ht', hrec, hsame⟩ := this
        obtain ⟨t1, ht1, hq1, -⟩ := J.waiting i q hge hqi
        rw [ht1] at ht
        cases ht
        exact ⟨t', ht', records_same hq1 hsame, hrec⟩
  · intro j hj
    rw [hoth j (.inl (by omega))]
    exact J.others j hj
  · rw [List.length_append] at hcausal' ⊢
    have := up.occupied _ (by rw [hu1.1, hu1.2.1, J.response, J.request]; omega) (by
      intro hlt
      rw [hu1.1, hu1.2.1, J.response, J.request] at hlt
      obtain ⟨t, ht, -⟩ := J.waiting (dr.length + pre.length) _ (by omega) (List.getElem?_eq_getElem (by omega))
      rw [hu1.1, J.response, Nat.add_assoc, ht]
      rfl) (occupied_unseen J.occupied J.here)
    refine (congrArg (Occupied s1) ?_).mp this
    split <;> omega

/-- What a sequence of calls does. -/
theorem Joint.moves (hw : Willing e) {ms : List Move} (H : Interleaved e.cfg held qs rs ms) : ∀ (after before : List Move) {s : Conn}
    {dq cq fq : List Request} {TQ : List Token} {dr cr fr : List Response} {TR : List Token} {o : Option Tx}, ms = before ++ after →
    Joint e s0 held qs rs (askedIn before) (answeredIn before) dq cq fq TQ dr cr fr TR o s →
    answersTo e (after.map Move.op) s = after.map (fun _ => .ok (some .data)) ∧
    ∃ dq cq fq TQ dr cr fr TR o, Joint e s0 held qs rs (askedIn ms) (answeredIn ms) dq cq fq TQ dr cr fr TR o
      ((after.map Move.op).foldl (Op.after e) s) := by
  have happ : ∀ a b : List Move, askedIn (a ++ b) = askedIn a ++ askedIn b ∧ answeredIn (a ++ b) = answeredIn a ++ answeredIn b := by
    intro a b
    induction a with
    | nil => exact ⟨rfl, rfl⟩
    | cons m a ih => cases m <;> simp [askedIn, answeredIn, ih]
  intro after
  induction after with
  | nil =>
    intro before s dq cq fq TQ dr cr fr TR o hms J
    rw [List.append_nil] at hms
    subst hms
    exact ⟨rfl, _, _, _, _, _, _, _, _, _, J⟩
  | cons m after ih =>
    intro before s dq cq fq TQ dr cr fr TR o hms J
    have hms' : ms = (before ++ [m]) ++ after := by rw [hms]; simp
    have hstep : ∃ s' dq cq fq TQ dr cr fr TR o, m.op.run e s = (.ok (some .data), s') ∧
        Joint e s0 held qs rs (askedIn (before ++ [m])) (answeredIn (before ++ [m])) dq cq fq TQ dr cr fr TR o s' := by
      have hne := H.nonempty
      rw [(happ before [m]).1, (happ before [m]).2]
      cases m with
      | ask c =>
        obtain ⟨s', dq, cq, fq, TQ, h1, h2⟩ := J.ask hw H.requests (c := c)
          (hne c (by rw [hms, (happ _ _).1]; simp [askedIn])) (by simpa [hms] using H.room before.length c (by simp [hms]))
        refine ⟨s', dq, cq, fq, TQ, dr, cr, fr, TR, o, h1, ?_⟩
        simpa [askedIn, answeredIn] using h2
      | answer c =>
        have hB : answeredIn ms = answeredIn before ++ c :: answeredIn after := by rw [hms, (happ _ _).2]; rfl
        obtain ⟨s', dr, cr, fr, TR, o, h1, h2⟩ := J.answer hw H.requests H.responses (c := c)
          (hne c (by rw [hB]; simp)) (after := answeredIn after) (by rw [← hB]; exact H.filled) (by simpa [hms] using H.causal before.length c (by simp [hms]))
        refine ⟨s', dq, cq, fq, TQ, dr, cr, fr, TR, o, h1, ?_⟩
        simpa [askedIn, answeredIn] using h2
    obtain ⟨s', dq', cq', fq', TQ', dr', cr', fr', TR', o', hrun, J'⟩ := hstep
    have hafter : m.op.after e s = s' := congrArg Prod.snd hrun
    obtain ⟨h1, h2⟩ := ih (before ++ [m]) hms' J'
    refine ⟨?_, ?_⟩
    · show (m.op.run e s).1 :: answersTo e (after.map Move.op) (m.op.after e s) = _
      rw [hafter, h1, hrun]
      rfl
    · show ∃ dq cq fq TQ dr cr fr TR o, Joint e s0 held qs rs (askedIn ms) (answeredIn ms) dq cq fq TQ dr cr fr TR o
        ((after.map Move.op).foldl (Op.after e) (m.op.after e s))
      rw [hafter]
      exact h2

/-- At the start. -/
theorem Joint.start (hq : BetweenRequests s) (hp : BetweenResponses s) (hx : s.txs.request = s.txs.response) (ho : Occupied s held) :
    Joint e s held qs rs [] [] [] [] qs [] [] [] rs [] none s := by
  have hnil : ∀ {α : Type} {tokens line : α → List Token} (msgs : List α), (∀ x, line x <+: tokens x) → (∀ x, line x ≠ []) →
      Sofar tokens line msgs [] [] [] msgs [] := by
    intro α tokens line msgs hl hne
    refine ⟨rfl, rfl, .none, ?_⟩
    rintro n ⟨hn, h⟩
    have htn : ∀ x, tokens x ≠ [] := fun x h0 => hne x (List.prefix_nil.1 (h0 ▸ hl x))
    have h0 : (msgs.take n).flatMap tokens = [] := by
      rcases h with ⟨early, late, h1, h2⟩ | ⟨m, rest, -, h1⟩
      · rw [← h2, (List.append_eq_nil_iff.1 h1.symm).1]
        rfl
      · exact (List.append_eq_nil_iff.1 h1.symm).1
    cases n with
    | zero => exact Nat.le_refl _
    | succ n =>
      cases msgs with
      | nil => exact absurd hn (by simp)
      | cons x xs =>
        rw [List.take_succ_cons, List.flatMap_cons] at h0
        exact absurd (List.append_eq_nil_iff.1 h0).1 (htn x)
  refine ⟨hnil _ Request.lineTokens_prefix Request.lineTokens_ne, hnil _ Response.lineTokens_prefix Response.lineTokens_ne, rfl,
    hx.symm, Nat.le_refl _, by simp, by simp, ?_, ?_, ?_, ?_, ?_, fun _ _ => rfl, ?_⟩
  · rcases hp.status with h | h | h <;> rw [h] <;> decide
  · intro s' m' hs ho'
    have hM : Midway e ((askLog s []).at s) s held [] ([].flatMap Request.tokens) s :=
      .idle (pre := []) (post := []) rfl ⟨by simp, fun _ _ => rfl, rfl, rfl, .inl rfl, rfl, hq.beyond, hq.status, ho⟩ hq
        ⟨rfl, [], by simp [askLog, Log.at], .nil⟩
    obtain ⟨pre, cur, post, T', h1, h2, h3, -, h4⟩ := hM.rebase
    obtain ⟨rfl, h1'⟩ := List.append_eq_nil_iff.1 h1.symm
    obtain ⟨rfl, rfl⟩ := List.append_eq_nil_iff.1 h1'
    have : T' = [] := by simpa using h2.symm
    subst this
    exact h4 s' m' hs ho'
  · intro s' hs
    have hM : Ans.Midway e ((answerLog s []).at s) s [] ([].flatMap Response.tokens) s :=
      .idle (pre := []) (post := []) rfl (upto_same hp.status hp.notBlocked ho.1) hp ⟨fun _ h => h, fun h => .inl h⟩
        ⟨rfl, [], by simp [answerLog, Log.at], .nil⟩
    obtain ⟨pre, cur, post, T', h1, h2, h3, -, -, o, h5, -, h4⟩ := hM.rebase
    obtain ⟨rfl, h1'⟩ := List.append_eq_nil_iff.1 h1.symm
    obtain ⟨rfl, rfl⟩ := List.append_eq_nil_iff.1 h1'
    have : T' = [] := by simpa using h2.symm
    subst this
    obtain rfl := h5.2 rfl
    exact h4 s' hs
  · intro i q _ h; cases h
  · intro i q r h; cases h
  · rw [List.length_nil, List.length_nil, ite_self]
    exact ho

end

end Model
