/-
Interim responses, and the final response after them in pieces.
-/
import Verif.Lemmas.AnsJoin
import Verif.Lemmas.Interim

namespace Model

open M Spec Props

theorem pieces_tail {h : TxHook} {k : Nat} {xs ys : List Event} (hp : Pieces (.tx h k :: xs) (.tx h k :: ys)) : Pieces xs ys := by
  generalize ha : Event.tx h k :: xs = a at hp
  generalize hb : Event.tx h k :: ys = b at hp
  cases hp with
  | nil => cases ha
  | same hp => cases ha; cases hb; exact hp
  | raw hk hne hp => cases ha
  | body hne h0 hp => simp [bodyCallbacks] at ha
  | answer hne h0 hp => simp [answerBodyCallbacks] at ha

namespace Ans

/-- One call with interim responses, if any, and the beginning of the final one. -/
theorem call_interims_line {e : Env} (hcb : CallbacksOK e) {s : Conn} {t : Tx} {start : List Event} (hp : NextStatusLine s t start)
    (hs : Txs.Sorted s.txs.map) (hg : s.txs.get s.txs.response = some t) (hx : t.index = s.txs.response) {r : Response}
    (ha : Answerable t r) (rs : List Response)
    (hrs : ∀ i r', rs[i]? = some r' → ∃ t', s.txs.get (s.txs.response + (i + 1)) = some t' ∧ t'.index = s.txs.response + (i + 1) ∧
      AnswerableBy t' r')
    (hline : ∀ r' ∈ r :: rs, r'.line.length + 2 ≤ e.cfg.fieldLimit)
    (hfields : ∀ r' ∈ r :: rs, ∀ h ∈ r'.headers ++ r'.body.trailer, h.render.length + 1 ≤ e.cfg.fieldLimit)
    (hfill : ∀ r' ∈ (r :: rs).dropLast, r'.Filled)
    (is : List Response) (hi : ∀ i ∈ is, i.Interim ∧ i.line.length + 2 ≤ e.cfg.fieldLimit) (hf : ∀ i ∈ is, i.headers ≠ [])
    (first later : List Token) (hfirst : r.lineTokens <+: first) (hall : first ++ later = (r :: rs).flatMap Response.tokens) :
    ∃ (s0 s' : Conn) (g : Log Event.ofResponse),
      responseData e (.ofBytes (is.flatMap Response.render ++ bytesOf first)) s = (.ok (some .data), s') ∧
      Fit e s0 (r :: rs) ∧ Midway e g s0 (r :: rs) later s' ∧
      g.keep = (fun _ => true) ∧ g.said = [] ∧ g.assumed = [.tx .responseStart s.txs.response] ∧
      g.before = s.trace ++ (start ++ is.map fun _ => .tx .responseLine s.txs.response) ∧
      s0.txs.response = s.txs.response ∧ s0.txs.request = s.txs.request ∧ s0.req = s.req ∧
      s0.txs.get s.txs.response = some (requestSide t) ∧ ∀ j, j ≠ s.txs.response → s0.txs.get j = s.txs.get j := by
  have hst := hp.status
  have hst' : s.resp.status ≠ .stop ∧ s.resp.status ≠ .error ∧ s.resp.status ≠ .tunnel ∧ s.resp.status ≠ .closed ∧
      s.resp.status ≠ .dataOther := by
    rcases hst with h | h | h <;> rw [h] <;> decide
  obtain ⟨cs, hc⟩ := response_cons ha.response.head
  obtain ⟨c', rfl⟩ := hfirst
  have hbf : bytesOf (r.lineTokens ++ c') = r.line ++ [13, 10] ++ bytesOf c' := by
    rw [bytesOf_append, Response.lineTokens, bytesOf_append, bytesOf_loose]
    rfl
  have hT : c' ++ later = behind r rs := by
    rw [List.flatMap_cons, Response.tokens, Response.lineTokens] at hall
    simp only [List.append_assoc, List.cons_append, List.nil_append] at hall
    have := List.append_cancel_left hall
    simpa [behind] using this
  have hhead : (bytesOf (r.lineTokens ++ c')).head? = some 72 := by rw [hbf, hc]; rfl
  have hrne : bytesOf (r.lineTokens ++ c') ≠ [] := by intro h; rw [h] at hhead; cases hhead
  have hasked : Spec.Asked t := ⟨by rw [ha.complete]; decide, ha.notConnect, ha.notProtocol09⟩
  have hby : AnswerableBy (requestSide t) r := ⟨ha.complete, rfl, ha.notConnect, ha.notProtocol09, ha.notRefused, ha.response⟩
  generalize hb0 : is.flatMap Response.render ++ bytesOf (r.lineTokens ++ c') = b
  have hbytes : b ≠ [] := by
    rw [← hb0]
    intro h
    exact hrne (List.append_eq_nil_iff.1 h).2
  obtain ⟨k1, h1, t1, r1, hl1⟩ := hp.start (e := e) hcb hs hg hasked hbytes
  obtain ⟨k2, h2, t2, q2, r2, hl2, -, -⟩ := interims_many hcb (responseFed b s) t ha.notConnect hx ⟨hst'.2.2.1, hst'.2.2.2.1⟩
    (bytesOf (r.lineTokens ++ c'))
    (fun c hc => by rw [hhead] at hc; cases hc; decide) is hi (fun i h => hf i (List.dropLast_subset _ h))
    (fun i h h0 => absurd h0 (hf i (List.mem_of_getLast? h))) h1 t1 start [] 0 hl1
  rw [List.nil_append, hb0, hbf] at r2
  have hal2 : Alive h2 := by unfold Alive; rw [hl2.status]; exact ⟨hst'.2.2.1, hst'.2.2.2.1⟩
  have r3 := line_from hcb ha.response (responseFed b s) h2 t2
    (start ++ is.map fun _ => .tx .responseLine (responseFed b s).txs.response) (is.flatMap Response.render) r.line (bytesOf c') q2
    hl2.state.1 hl2.state.2 (by rw [hl2.buf]; rfl) hl2.header hal2 (hline r (by simp)) (hl2.index.trans hx)
  generalize hdone : is.flatMap Response.render ++ (r.line ++ [13, 10]) = done at r3
  generalize hsH : rp (responseFed b s) _ _ _ (win done (bytesOf c') done.length) = sH at r3
  have hgetH : ∀ j, j ≠ s.txs.response → sH.txs.get j = s.txs.get j := by
    intro j hj
    rw [← hsH]
    exact (Txs.get_set _ _ _ _).trans (if_neg hj)
  have hrespH : sH.txs.response = s.txs.response := by rw [← hsH]; rfl
  have hsoH : Txs.Sorted sH.txs.map := by rw [← hsH]; exact Txs.sorted_put _ _ _ hs
  have hget0 : ∀ j, (unseen (some (requestSide t)) sH).txs.get j = if j = s.txs.response then some (requestSide t) else s.txs.get j := by
    intro j
    refine (Txs.get_set _ _ _ _).trans ?_
    rw [hrespH]
    split
    · rfl
    · next h => exact hgetH j h
  have F : Fit e (unseen (some (requestSide t)) sH) (r :: rs) := by
    refine ⟨hcb, ?_, hline, hfields, hfill⟩
    intro i r' hr'
    rw [hget0, show (unseen (some (requestSide t)) sH).txs.response = s.txs.response from hrespH]
    cases i with
    | zero =>
      rw [if_pos (by omega)]
      cases hr'
      exact ⟨_, rfl, hx, hby⟩
    | succ i =>
      rw [if_neg (by omega)]
      exact hrs i r' hr'
  have hM : Midway e ⟨fun _ => true, s.trace ++ (start ++ is.map fun _ => .tx .responseLine s.txs.response), [],
      sH.trace.filter (fun ev => !Event.ofResponse ev), [.tx .responseStart s.txs.response], fun _ _ => rfl⟩
      (unseen (some (requestSide t)) sH) (r :: rs) (c' ++ later) sH := by
    rw [hT]
    have hhere : ∃ u, sH.txs.get sH.txs.response = some u ∧ u.responseHeaderParser = resP ∧ LineRead (requestSide t) r u ∧
        u.responseProgress = .headers ∧ u.responseEntityLen = 0 ∧ u.responseContentLength = none ∧ Tabled u [] := by
      rw [← hsH]
      refine ⟨_, rp_get _ _ _ _ _, hl2.parser, ⟨hl2.same, rfl, rfl, rfl, rfl, rfl, rfl, by show Progress.headers ≠ .complete; decide⟩, rfl,
        hl2.noBody, hl2.noLength, ?_⟩
      show (t2.responseHeaders, t2.responseHeaderRepetitions) = ([], 0)
      rw [hl2.noHeaders, hl2.noRepetitions]
    obtain ⟨u, hu1, hu2, hu3, hu4, hu5, hu6, hu7⟩ := hhere
    have hup : Upto e.cfg.txAutoDestroy (unseen (some (requestSide t)) sH) [] sH := by
      refine upto_unseen _ ?_ ?_ hsoH hu1
      · rw [← hsH]
        show h2.status = _ ∨ h2.status = _ ∨ h2.status = _
        rw [hl2.status]
        exact hst
      · rw [← hsH]
        exact hp.notBlocked
    refine .head (pre := []) (js := []) (ls := r.headers) (d := []) (header := none)
      ⟨rfl, hup, ?_, hby, hu1, hu2⟩
      rfl (fun _ => rfl) rfl (by rw [renderBlock_lines]; simp) rfl (by simp) ?_ hu3 hu4 hu5 hu6 hu7 ?_
    · rw [hget0, if_pos hrespH]
    · rw [← hsH]
      exact ⟨rfl, rfl, rfl, hl2.header, rfl⟩
    · refine ⟨rfl, [.tx .responseLine s.txs.response], [], ?_, ?_, rfl⟩
      · rw [← hsH]
        show List.filter (fun _ => true) (s.trace ++ _) = _
        rw [List.filter_eq_self.2 (fun _ _ => rfl)]
        simp [responseFed]
      · rw [hrespH]
        exact .refl _
  obtain ⟨n, s1, s2, r4, h5, hM2⟩ := goes F (c'.length + 1) c' later sH done done.length (Nat.lt_succ_self _) hM
    (by rw [← hsH]; rfl) (fun _ => rfl) (by rw [← hsH]; simp [rp_resp])
  have hcall := call_rounds hbytes ⟨hst'.1, hst'.2.1, hst'.2.2.1, hst'.2.2.2.1⟩ hp.buf.1 hp.buf.2
    (r1.append (r2.append (.next r3 r4))) h5
  refine ⟨_, s2, _, hcall, F, hM2, rfl, rfl, rfl, rfl, hrespH, ?_, ?_, ?_, ?_⟩
  · show sH.txs.request = _
    rw [← hsH]; rfl
  · show sH.req = _
    rw [← hsH]; rfl
  · rw [hget0, if_pos rfl]
  · intro j hj
    rw [hget0, if_neg hj]

end Ans

end Model
