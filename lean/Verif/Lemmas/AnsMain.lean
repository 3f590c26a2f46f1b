/-
Responses cut into pieces: one call, and any number of calls.
-/
import Verif.Lemmas.AnsBody
import Verif.Props.Answer

namespace Model.Ans

open M Spec Props

section
variable {e : Env} {g : Log Event.ofResponse} {s0 : Conn} {all : List Response}

/-- From wherever the parser is, except where it looks for the end of a response. -/
theorem goes (F : Fit e s0 all) : ∀ n, Goes e g s0 all n := by
  intro n
  induction n with
  | zero => intro c later s done q hc; omega
  | succ n ih =>
    intro c later s done q hcn hM hi hq hst
    replace ih := ih.mono (Nat.le_of_lt_succ hcn)
    generalize hT : c ++ later = T at hM
    cases hM with
    | @idle _ pre post split up hb next tr =>
      by_cases hc : c = []
      · subst hc
        rw [List.nil_append] at hT
        rw [hT]
        exact idle_pause split up hb next tr hi
      · cases post with
        | nil => exact absurd (List.append_eq_nil_iff.mp hT).1 hc
        | cons r post =>
          refine run_idle F split up (p := []) (rem := r.line) rfl hb.state hb.buf hb.header hb.receiver
            next tr ih hc ?_ hi
          rw [hT, List.flatMap_cons]
          simp [Response.tokens, behind]
    | line am hx hp hat tr => exact run_line F am hx hp hat tr ih hT.symm hi
    | head am hjl hls hb hne hd _ hat ht hp hlen hcl htab tr =>
      have : q = done.length := hq (by rw [hat.receiver]; simp)
      subst this
      exact run_head F am hjl hls hb hne hd hat ht hp hlen hcl htab tr ih hi hT.symm
    | sized am ht hh hbody hne hat hl hlen htab tr => exact run_sized F am ht hh hbody hne hat hl hlen htab tr ih hi hT.symm
    | size am ht hh hbody hat hlen htab tr => exact run_size am ht hh hbody hat hlen htab tr ih hi hT.symm
    | data am ht hh hbody hch hne hat hl hlen htab tr =>
      exact run_data F am ht hh hbody hch hne hat hl hlen htab tr ih hi hT.symm
    | dataEnd am ht hh hbody hx hat hlen htab tr => exact run_dataEnd am ht hh hbody hx hat hlen htab tr ih hi hT.symm
    | trailer am ht hh hbody hjl hls hb _ hd _ hp hat hlen htab tr =>
      have : q = done.length := hq (by rw [hat.receiver]; simp)
      subst this
      exact run_trailer F am ht hh hbody hjl hls hb hd hp hat hlen htab tr ih hi hT.symm
    | final _ _ _ _ _ hat _ _ _ => exact absurd hat.state hst

theorem Amid.fed {auto : Bool} {pre post : List Response} {r : Response} {s : Conn} {t0 t : Tx}
    (am : Amid auto s0 all pre r post s t0 t) (b : Bytes) : Amid auto s0 all pre r post (responseFed b s) t0 t :=
  ⟨am.split, am.upto.fed b, am.old, am.ans, am.here, am.parser⟩

/-- A new call leaves the parser where it is. -/
theorem Midway.fed {T : List Token} {s : Conn} (h : Midway e g s0 all T s) (b : Bytes) :
    Midway e g s0 all T (responseFed b s) := by
  cases h with
  | idle split up hb next tr =>
    exact .idle split (up.fed b) ⟨hb.state, hb.buf, hb.header, hb.receiver, hb.status, hb.notBlocked⟩ next tr
  | line am hx hp hat tr =>
    exact .line (am.fed b) hx hp ⟨hat.state, hat.previous, hat.buf, hat.header, hat.receiver⟩ tr
  | head am hjl hls hb hne hd hlim hat ht hp hlen hcl htab tr =>
    exact .head (am.fed b) hjl hls hb hne hd hlim ⟨hat.state, hat.previous, hat.buf, hat.header, hat.receiver⟩ ht hp hlen hcl htab tr
  | sized am ht hh hbody hne hat hl hlen htab tr =>
    exact .sized (am.fed b) ht hh hbody hne ⟨hat.state, hat.previous, hat.buf, hat.header, hat.receiver⟩ hl hlen htab tr
  | size am ht hh hbody hat hlen htab tr =>
    exact .size (am.fed b) ht hh hbody ⟨hat.state, hat.previous, hat.buf, hat.header, hat.receiver⟩ hlen htab tr
  | data am ht hh hbody hch hne hat hl hlen htab tr =>
    exact .data (am.fed b) ht hh hbody hch hne ⟨hat.state, hat.previous, hat.buf, hat.header, hat.receiver⟩ hl hlen htab tr
  | dataEnd am ht hh hbody hx hat hlen htab tr =>
    exact .dataEnd (am.fed b) ht hh hbody hx ⟨hat.state, hat.previous, hat.buf, hat.header, hat.receiver⟩ hlen htab tr
  | trailer am ht hh hbody hjl hls hb hne hd hlim hp hat hlen htab tr =>
    exact .trailer (am.fed b) ht hh hbody hjl hls hb hne hd hlim hp
      ⟨hat.state, hat.previous, hat.buf, hat.header, hat.receiver⟩ hlen htab tr
  | final am ht hh hp hp0 hat hlen htab tr =>
    exact .final (am.fed b) ht hh hp hp0 ⟨hat.state, hat.previous, hat.buf, hat.header, hat.receiver⟩ hlen htab tr

theorem Midway.status {T : List Token} {s : Conn} (h : Midway e g s0 all T s) :
    s.resp.status = .new ∨ s.resp.status = .open ∨ s.resp.status = .data := by
  cases h with
  | idle _ up _ _ _ => exact up.status
  | line am _ _ _ _ => exact am.upto.status
  | head am _ _ _ _ _ _ _ _ _ _ _ _ _ => exact am.upto.status
  | sized am _ _ _ _ _ _ _ _ _ => exact am.upto.status
  | size am _ _ _ _ _ _ _ => exact am.upto.status
  | data am _ _ _ _ _ _ _ _ _ _ => exact am.upto.status
  | dataEnd am _ _ _ _ _ _ _ _ => exact am.upto.status
  | trailer am _ _ _ _ _ _ _ _ _ _ _ _ _ _ => exact am.upto.status
  | final am _ _ _ _ _ _ _ _ => exact am.upto.status

/-- What is kept of the data fits. -/
theorem Midway.buffered {T : List Token} {s : Conn} (F : Fit e s0 all) (h : Midway e g s0 all T s) :
    s.resp.buffered ≤ e.cfg.fieldLimit := by
  have hp : ∀ {p rem : Bytes} {r : Response}, r ∈ all → p ++ rem = r.line → p.length ≤ e.cfg.fieldLimit := by
    intro p rem r hr h
    have h1 := congrArg List.length h
    have h2 := F.line r hr
    simp at h1
    omega
  unfold Half.buffered
  cases h with
  | idle _ _ hb _ _ => rw [hb.buf, hb.header]; exact Nat.zero_le _
  | line am _ h hat _ => rw [hat.buf, hat.header]; exact hp (by rw [am.split]; simp) h
  | head _ _ _ _ _ _ hlim hat _ _ _ _ _ _ => rw [hat.buf, hat.header]; simpa using hlim
  | sized _ _ _ _ _ hat _ _ _ _ => rw [hat.buf, hat.header]; exact Nat.zero_le _
  | size _ _ _ _ hat _ _ _ => rw [hat.buf, hat.header]; exact Nat.zero_le _
  | data _ _ _ _ _ _ hat _ _ _ _ => rw [hat.buf, hat.header]; exact Nat.zero_le _
  | dataEnd _ _ _ _ _ hat _ _ _ => rw [hat.buf, hat.header]; exact Nat.zero_le _
  | trailer _ _ _ _ _ _ _ _ _ hlim _ hat _ _ _ => rw [hat.buf, hat.header]; simpa using hlim
  | final am _ _ h _ hat _ _ _ => rw [hat.buf, hat.header]; exact hp (by rw [am.split]; simp) h

/-- The data of a call is taken in. -/
theorem call_goes (F : Fit e s0 all) {c later : List Token} {s : Conn} (hM : Midway e g s0 all (c ++ later) s) (hc : c ≠ [])
    (hi : s.input = win [] (bytesOf c) 0) : Pauses e g s0 all later s := by
  by_cases hst : s.resp.state = .finalize
  · generalize hT : c ++ later = T at hM
    cases hM with
    | idle _ _ hb _ _ => rw [hb.state] at hst; cases hst
    | line _ _ _ hat _ => rw [hat.state] at hst; cases hst
    | head _ _ _ _ _ _ _ hat _ _ _ _ _ _ => rw [hat.state] at hst; cases hst
    | sized _ _ _ _ _ hat _ _ _ _ => rw [hat.state] at hst; cases hst
    | size _ _ _ _ hat _ _ _ => rw [hat.state] at hst; cases hst
    | data _ _ _ _ _ _ hat _ _ _ _ => rw [hat.state] at hst; cases hst
    | dataEnd _ _ _ _ _ hat _ _ _ => rw [hat.state] at hst; cases hst
    | trailer _ _ _ _ _ _ _ _ _ _ _ hat _ _ _ => rw [hat.state] at hst; cases hst
    | final am ht hh hp hp0 hat hlen htab tr =>
      exact run_final F am ht hh hat hlen htab tr (goes F _) hi (.inr ⟨hp0, rfl, hc, _, _, _, rfl, hp, hT.symm⟩)
  · exact goes F (c.length + 1) c later s [] 0 (Nat.lt_succ_self _) hM hi (fun _ => rfl) hst

theorem call_pieces (F : Fit e s0 all) {c later : List Token} {s : Conn} (hM : Midway e g s0 all (c ++ later) s) (hc : c ≠ [])
    (hne : bytesOf c ≠ []) :
    ∃ s', responseData e (.ofBytes (bytesOf c)) s = (.ok (some .data), s') ∧ Midway e g s0 all later s' := by
  have hst : s.resp.status ≠ .stop ∧ s.resp.status ≠ .error ∧ s.resp.status ≠ .tunnel ∧ s.resp.status ≠ .closed := by
    rcases hM.status with h | h | h <;> rw [h] <;> decide
  rw [responseData_data hne hst.1 hst.2.1 hst.2.2.1]
  have hbuf := hM.buffered F
  obtain ⟨k, s1, s2, r1, h2, hM2⟩ := call_goes F (hM.fed (bytesOf c)) hc rfl
  generalize bytesOf c = b at *
  have hok : RespOK e (responseFed b s) :=
    ⟨toPData_wf (.data b), rfl, Nat.zero_le _, fun h => absurd h hst.2.2.2, hbuf⟩
  have hk : k < 16 * (b.length + 2 * s.resp.buf.length + 2) := by
    have := (response_rounds e r1 hok).2
    have := respMeasure_lt_rounds (responseFed b s)
    have hx : responseRounds (responseFed b s) = 16 * (b.length + 2 * s.resp.buf.length + 2) := by
      unfold responseRounds
      rw [show (responseFed b s).input.len = b.length from toPData_len (.data b)]
      rfl
    omega
  obtain ⟨N, hN⟩ : ∃ N, 16 * (b.length + 2 * s.resp.buf.length + 2) = k + (N + 1) :=
    ⟨16 * (b.length + 2 * s.resp.buf.length + 2) - k - 1, by omega⟩
  refine ⟨s2, ?_, hM2⟩
  rw [hN, responseLoop_rounds _ r1]
  exact responseLoop_some (by omega) h2

/-- Any number of calls. -/
theorem calls_pieces (F : Fit e s0 all) (calls : List (List Token)) :
    ∀ {s : Conn} {later : List Token}, (∀ c ∈ calls, c ≠ []) → (∀ c ∈ calls, ∀ x ∈ c, x.bytes ≠ []) →
    Midway e g s0 all (calls.flatten ++ later) s →
    responseAnswers e (calls.map fun c => .data (bytesOf c)) s = calls.map (fun _ => .ok (some .data)) ∧
    Midway e g s0 all later (feedResponse e (calls.map fun c => .data (bytesOf c)) s) := by
  induction calls with
  | nil => intro s later _ _ h; exact ⟨rfl, h⟩
  | cons c cs ih =>
    intro s later hne hb hM
    rw [List.flatten_cons, List.append_assoc] at hM
    have hbytes : bytesOf c ≠ [] := by
      cases hc : c with
      | nil => exact absurd hc (hne c (by simp))
      | cons x xs =>
        have := hb c (by simp) x (by rw [hc]; simp)
        unfold bytesOf
        rw [List.flatMap_cons]
        simp [this]
    obtain ⟨s1, h1, hM1⟩ := call_pieces F hM (hne c (by simp)) hbytes
    have hrun : (Op.response (.data (bytesOf c))).run e s = (.ok (some .data), s1) := h1
    have hafter : (Op.response (.data (bytesOf c))).after e s = s1 := by
      show ((Op.response (.data (bytesOf c))).run e s).2 = s1
      rw [hrun]
    obtain ⟨ha, hM2⟩ := ih (fun x hx => hne x (by simp [hx])) (fun x hx => hb x (by simp [hx])) hM1
    constructor
    · show ((Op.response (.data (bytesOf c))).run e s).1 ::
        responseAnswers e (cs.map fun c => .data (bytesOf c)) ((Op.response (.data (bytesOf c))).after e s) = _
      rw [hafter, ha, hrun]
      rfl
    · show Midway e g s0 all later (feedResponse e (cs.map fun c => .data (bytesOf c)) ((Op.response (.data (bytesOf c))).after e s))
      rw [hafter]
      exact hM2

/-- When nothing is to come any more, the parser is behind the last response. -/
theorem Midway.over {s : Conn} (h : Midway e g s0 all [] s) :
    Upto e.cfg.txAutoDestroy s0 all s ∧ BetweenResponses s ∧ NextFree s0 s ∧
      Traced g (responseCallbacks s0.txs.response all) s := by
  have hnil : ∀ {b : Bytes} {T : List Token}, b ≠ [] → loose b ++ T ≠ [] := by
    intro b T hb h
    refine hb ?_
    rw [← bytesOf_loose b, (List.append_eq_nil_iff.mp h).1]
    rfl
  have hcons : ∀ {T T' : List Token} {x : Token}, T ++ x :: T' ≠ [] := by
    intro T T' x h
    simp at h
  generalize hT : ([] : List Token) = T at h
  cases h with
  | @idle _ pre post split up hb next tr =>
    cases post with
    | nil =>
      rw [List.append_nil] at split
      subst split
      exact ⟨up, hb, next, tr⟩
    | cons r post =>
      rw [List.flatMap_cons, Response.tokens, List.append_assoc, List.cons_append] at hT
      exact absurd hT.symm hcons
  | line _ _ _ _ _ => exact absurd hT.symm hcons
  | head _ _ _ _ hne _ _ _ _ _ _ _ _ _ => exact absurd hT.symm (hnil hne)
  | sized _ _ _ _ hne _ _ _ _ _ => exact absurd hT.symm (hnil hne)
  | size _ _ _ _ _ _ _ _ => exact absurd hT.symm hcons
  | data _ _ _ _ _ hne _ _ _ _ _ => exact absurd hT.symm (hnil hne)
  | dataEnd _ _ _ _ _ _ _ _ _ => exact absurd hT.symm (hnil (by simp))
  | trailer _ _ _ _ _ _ _ hne _ _ _ _ _ _ _ => exact absurd hT.symm (hnil hne)
  | final _ _ _ _ _ _ _ _ _ => exact absurd hT.symm hcons

end

/-- Nothing that is not cut is empty. -/
theorem tokens_ne {head : Bool} {r : Response} (hw : r.WellFormed head) : ∀ x ∈ r.tokens, x.bytes ≠ [] := by
  have hloose : ∀ (b : Bytes), ∀ x ∈ loose b, x.bytes ≠ [] := by
    intro b x hx
    obtain ⟨c, -, rfl⟩ := List.mem_map.mp hx
    simp [Token.bytes]
  have hsize : ∀ {l : Bytes} {n : Nat}, SizeLine l n → (Token.line l).bytes ≠ [] := by
    rintro l n ⟨ds, ext, rfl, -⟩
    simp [Token.bytes]
  intro x hx
  rcases List.mem_append.mp hx with hx | hx
  · exact hloose _ x hx
  · rcases List.mem_cons.mp hx with rfl | hx
    · simp [Token.bytes]
    · rcases List.mem_append.mp hx with hx | hx
      · exact hloose _ x hx
      · cases hb : r.body with
        | absent => rw [hb] at hx; cases hx
        | sized content => rw [hb] at hx; exact hloose _ x hx
        | chunked cs last trailer =>
          obtain ⟨hv, hlast, -, -⟩ := chunked_facts hw hb
          rw [hb] at hx
          rcases List.mem_append.mp hx with hx | hx
          · obtain ⟨c, hc, hx⟩ := List.mem_flatMap.mp hx
            rcases List.mem_cons.mp hx with rfl | hx
            · exact hsize (hv c hc).1
            · exact hloose _ x hx
          · rcases List.mem_cons.mp hx with rfl | hx
            · exact hsize hlast
            · exact hloose _ x hx

/-- What some responses that came in pieces do. -/
structure Cut (auto : Bool) (s s' : Conn) (rs : List Response) : Prop where
  done : AnswersDone auto s { s' with trace := s.trace ++ responseCallbacks s.txs.response rs } rs
  traced : Traced (.all Event.ofResponse s.trace) (responseCallbacks s.txs.response rs) s'
  sorted : Txs.Sorted s'.txs.map

/-- Responses that arrive in pieces. -/
theorem pieces_group {e : Env} (hcb : CallbacksOK e) {s : Conn} (hso : Txs.Sorted s.txs.map) (hb : BetweenResponses s)
    (rs : List Response) (ha : AllAnswerable s rs) (hline : ∀ r ∈ rs, r.line.length + 2 ≤ e.cfg.fieldLimit)
    (hfields : ∀ r ∈ rs, ∀ h ∈ r.headers ++ r.body.trailer, h.render.length + 1 ≤ e.cfg.fieldLimit)
    (hfill : ∀ r ∈ rs.dropLast, r.Filled) (calls : List (List Token)) (hne : ∀ c ∈ calls, c ≠ [])
    (hc : calls.flatten = rs.flatMap Response.tokens) :
    responseAnswers e (calls.map fun c => .data (bytesOf c)) s = calls.map (fun _ => .ok (some .data)) ∧
    Cut e.cfg.txAutoDestroy s (feedResponse e (calls.map fun c => .data (bytesOf c)) s) rs := by
  have F : Fit e s rs := ⟨hcb, ha, hline, hfields, hfill⟩
  have hM : Midway e (.all _ s.trace) s rs (calls.flatten ++ []) s := by
    rw [List.append_nil, hc]
    refine .idle (pre := []) (post := rs) rfl
      ⟨(fun _ _ h => by simp at h), fun _ _ => rfl, rfl, rfl, rfl, rfl, hb.status, hb.notBlocked, hso, ?_⟩ hb
      ⟨fun _ h => h, fun h => .inl h⟩ ⟨rfl, [], by simp [Log.all], .nil⟩
    intro m _ _ h
    rw [List.length_nil, Nat.sub_zero, ite_self]
    exact h
  have hbytes : ∀ c ∈ calls, ∀ x ∈ c, x.bytes ≠ [] := by
    intro c hc' x hx
    have h1 : x ∈ calls.flatten := List.mem_flatten.mpr ⟨c, hc', hx⟩
    rw [hc] at h1
    obtain ⟨r, hr, hx'⟩ := List.mem_flatMap.mp h1
    obtain ⟨i, hi, rfl⟩ := List.mem_iff_getElem.mp hr
    obtain ⟨t, -, -, hat⟩ := ha i rs[i] (List.getElem?_eq_getElem hi)
    exact tokens_ne hat.response x hx'
  obtain ⟨h1, h2⟩ := calls_pieces F calls hne hbytes hM
  obtain ⟨u, hb', nx, tr⟩ := h2.over
  generalize feedResponse e (calls.map fun c => .data (bytesOf c)) s = s' at *
  refine ⟨h1, ⟨⟨hb'.state, hb'.buf, hb'.header, hb'.receiver, hb'.status, hb'.notBlocked⟩, rfl, u.records, ?_, ?_, u.response,
    u.request, u.req, u.count, u.occupied⟩, tr, u.sorted⟩
  · intro j hj
    show s'.txs.get j = _
    by_cases h : j = s.txs.response + rs.length
    · subst h
      rw [← u.response]
      cases hq : s.txs.get s'.txs.response with
      | none =>
        rw [u.response] at hq
        rw [hq] at hj
        simp at hj
        omega
      | some t => exact nx.1 t hq
    · exact u.others j (by omega)
  · intro hn
    show s'.txs.get _ = _ ∨ s'.txs.get _ = _
    rw [← u.response] at hn ⊢
    exact nx.2 hn

theorem moved {auto : Bool} {s s1 s2 : Conn} {rs : List Response} (h1 : s1.txs = s.txs) (h2 : s1.req = s.req)
    (h3 : s1.requestChunkCount = s.requestChunkCount) (h : AnswersDone auto s s2 rs) :
    AnswersDone auto s1 { s2 with trace := s1.trace ++ responseCallbacks s1.txs.response rs } rs := by
  refine ⟨⟨h.between.state, h.between.buf, h.between.header, h.between.receiver, h.between.status, h.between.notBlocked⟩, rfl, ?_, ?_, ?_,
    ?_, ?_, ?_, ?_, ?_⟩
  · intro i r hi
    have := h.records i r hi
    unfold AnswerKept at this ⊢
    rw [h1]
    exact this
  · rw [h1]; exact h.others
  · rw [h1]; exact h.next
  · rw [h1]; exact h.response
  · rw [h1]; exact h.request
  · rw [h2]; exact h.req
  · rw [h3]; exact h.count
  · intro m
    have := h.occupied m
    rw [h1]
    unfold Occupied at this ⊢
    rw [h1]
    exact this

theorem Cut.trans {auto : Bool} {s s1 s2 : Conn} {as bs : List Response} (h1 : Cut auto s s1 as)
    (h2 : Cut auto s1 s2 bs) (hbs : bs ≠ [] → (s.txs.get (s.txs.response + as.length)).isSome) :
    Cut auto s s2 (as ++ bs) := by
  have hr : s1.txs.response = s.txs.response + as.length := h1.done.response
  have h3 := h1.done.trans (moved (s := s1) (s1 := { s1 with trace := s.trace ++ responseCallbacks s.txs.response as }) rfl rfl rfl h2.done) hbs
  have he : responseCallbacks s.txs.response (as ++ bs) = responseCallbacks s.txs.response as ++ responseCallbacks s1.txs.response bs := by
    rw [responseCallbacks_append, hr]
  refine ⟨?_, ?_, h2.sorted⟩
  · rw [he, ← List.append_assoc]
    exact h3
  · obtain ⟨f1, e1, t1, p1⟩ := h1.traced
    obtain ⟨f2, e2, t2, p2⟩ := h2.traced
    rw [he]
    rw [Log.all_filter] at t1 t2
    exact ⟨f2.trans f1, e1 ++ e2, by rw [Log.all_filter, t2, t1]; simp [Log.all], p1.append p2⟩

/-- Any number of groups of responses. -/
theorem pieces_groups {e : Env} (hcb : CallbacksOK e) (groups : List (List Response × List (List Token))) :
    ∀ {s : Conn}, Txs.Sorted s.txs.map → BetweenResponses s →
    AllAnswerable s (groups.flatMap (·.1)) → (∀ g ∈ groups, ∀ r ∈ g.1, r.line.length + 2 ≤ e.cfg.fieldLimit) →
    (∀ g ∈ groups, ∀ r ∈ g.1, ∀ h ∈ r.headers ++ r.body.trailer, h.render.length + 1 ≤ e.cfg.fieldLimit) →
    (∀ g ∈ groups, ∀ r ∈ g.1.dropLast, r.Filled) → (∀ g ∈ groups, ∀ c ∈ g.2, c ≠ []) →
    (∀ g ∈ groups, g.2.flatten = g.1.flatMap Response.tokens) →
    responseAnswers e ((groups.flatMap (·.2)).map fun c => .data (bytesOf c)) s =
      (groups.flatMap (·.2)).map (fun _ => .ok (some .data)) ∧
    Cut e.cfg.txAutoDestroy s (feedResponse e ((groups.flatMap (·.2)).map fun c => .data (bytesOf c)) s) (groups.flatMap (·.1)) := by
  induction groups with
  | nil =>
    intro s hso hb _ _ _ _ _ _
    refine ⟨rfl, ⟨?_, ⟨rfl, [], by simp [feedResponse, Log.all], .nil⟩, hso⟩⟩
    have := moved (s1 := s) rfl rfl rfl (AnswersDone.nil (auto := e.cfg.txAutoDestroy) hb)
    exact this
  | cons g gs ih =>
    intro s hso hb ha hl hf hfill hne hc
    rw [List.flatMap_cons] at ha
    have hag : AllAnswerable s g.1 := by
      intro i r hi
      have hl := (List.getElem?_eq_some_iff.1 hi).1
      exact ha i r (by rw [List.getElem?_append_left hl]; exact hi)
    obtain ⟨h1, h2⟩ := pieces_group hcb hso hb g.1 hag (hl g (by simp)) (hf g (by simp)) (hfill g (by simp)) g.2 (hne g (by simp))
      (hc g (by simp))
    have hb1 := h2.done.between
    obtain ⟨h3, h4⟩ := ih (s := feedResponse e (g.2.map fun c => .data (bytesOf c)) s) h2.sorted
      ⟨hb1.state, hb1.buf, hb1.header, hb1.receiver, hb1.status, hb1.notBlocked⟩ (by have := AllAnswerable.after ha h2.done; exact this)
      (fun x hx => hl x (by simp [hx])) (fun x hx => hf x (by simp [hx])) (fun x hx => hfill x (by simp [hx]))
      (fun x hx => hne x (by simp [hx])) (fun x hx => hc x (by simp [hx]))
    have happ : ∀ (xs ys : List Chunk) (s : Conn),
        responseAnswers e (xs ++ ys) s = responseAnswers e xs s ++ responseAnswers e ys (feedResponse e xs s) ∧
        feedResponse e (xs ++ ys) s = feedResponse e ys (feedResponse e xs s) := by
      intro xs ys
      induction xs with
      | nil => intro s; exact ⟨rfl, rfl⟩
      | cons x xs ih =>
        intro s
        obtain ⟨i1, i2⟩ := ih ((Op.response x).after e s)
        constructor
        · show _ :: responseAnswers e (xs ++ ys) _ = _ :: _
          rw [i1]
          rfl
        · exact i2
    simp only [List.flatMap_cons, List.map_append]
    rw [(happ _ _ _).1, (happ _ _ _).2, h1, h3]
    refine ⟨rfl, h2.trans h4 ?_⟩
    intro hne'
    cases hq : gs.flatMap (·.1) with
    | nil => exact absurd hq hne'
    | cons r rs =>
      obtain ⟨t, ht, -⟩ := ha g.1.length r (by rw [List.getElem?_append_right (Nat.le_refl _), hq, Nat.sub_self]; rfl)
      rw [ht]
      rfl

end Model.Ans
