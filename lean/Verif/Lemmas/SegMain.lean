/-
Requests cut into pieces: one call, and any number of calls.
-/
import Verif.Lemmas.SegBody
import Verif.Props.Message

namespace Model

open M Spec Props

section
variable {e : Env} {g : Log Event.ofRequest} {s0 : Conn} {m : Nat} {all : List Request}

/-- Between two requests, with nothing to read. -/
theorem idle_pause {s : Conn} {pre post : List Request} (split : all = pre ++ post) (up : Upto s0 m pre s)
    (hb : BetweenRequests s) (tr : Traced g (requestCallbacks s0.txs.request pre) s) {done : Bytes} {q : Nat}
    (hi : s.input = win done [] q) : Pauses e g s0 m all (post.flatMap Request.tokens) s := by
  obtain ⟨s2, h2, hb2, htr2, hot2, hq2, hp2, hs2, hbl2, hst2, ho2⟩ := step_idle (e := e) hb hi up.occupied
  refine .now h2 ?_
  refine .idle split ⟨?_, ?_, ?_, ?_, ?_, ?_, hb2.beyond, .inr (.inr (.inl hst2)), ho2⟩ hb2 (tr.same htr2)
  · intro i r' hi'
    have : i < pre.length := (List.getElem?_eq_some_iff.mp hi').1
    rw [hot2 _ (by rw [up.request]; omega)]
    exact up.records i r' hi'
  · intro j hj
    rw [hot2 _ (by rw [up.request]; omega)]
    exact up.others j hj
  · rw [hq2]; exact up.request
  · rw [hp2]; exact up.response
  · rw [hs2]; exact up.resp
  · rw [hbl2]; exact up.blocked

/-- From wherever the parser is, except where it looks for the end of a request. -/
theorem goes (F : Fit e m all) : ∀ n, Goes e g s0 m all n := by
  intro n
  induction n with
  | zero => intro c later s done q hc; omega
  | succ n ih =>
    intro c later s done q hcn hM hi hq hst
    replace ih := ih.mono (Nat.le_of_lt_succ hcn)
    generalize hT : c ++ later = T at hM
    cases hM with
    | @idle _ pre post split up hb tr =>
      by_cases hc : c = []
      · subst hc
        rw [List.nil_append] at hT
        rw [hT]
        exact idle_pause split up hb tr hi
      · cases post with
        | nil => exact absurd (List.append_eq_nil_iff.mp hT).1 hc
        | cons r post =>
          refine run_idle F split up (p := []) (rem := r.line ++ [13, 10]) rfl (by simp) hb.state hb.buf hb.header hb.receiver
            hb.next tr ih hc ?_ hi
          rw [hT, List.flatMap_cons]
          simp [Request.tokens]
    | line split up hp hrem hat here tr => exact run_line F split up hp hrem hat here tr ih hT.symm hi
    | head split up hjl hls hb hd _ hat here ht htab tr =>
      have : q = done.length := hq (by rw [hat.receiver]; simp)
      subst this
      exact run_head F split up hjl hls hb hd hat here ht htab tr ih hi hT.symm
    | sized ib hbody hne hat hl hlen htab tr => exact run_sized F ib hbody hne hat hl hlen htab tr ih hi hT.symm
    | size ib hbody hat hlen htab tr => exact run_size F ib hbody hat hlen htab tr ih hi hT.symm
    | data ib hbody hch hne hat hl hlen htab tr => exact run_data F ib hbody hch hne hat hl hlen htab tr ih hi hT.symm
    | dataEnd ib hbody hat hlen htab tr => exact run_dataEnd ib hbody hat hlen htab tr ih hi hT.symm
    | trailer ib hbody hjl hls hb hd _ hp hat hlen htab tr =>
      have : q = done.length := hq (by rw [hat.receiver]; simp)
      subst this
      exact run_trailer F ib hbody hjl hls hb hd hp hat hlen htab tr ih hi hT.symm
    | final _ _ _ _ hat _ _ _ => exact absurd hat.state hst

/-- A new call leaves the parser where it is. -/
theorem Midway.fed {T : List Token} {s : Conn} (h : Midway e g s0 m all T s) (b : Bytes) : Midway e g s0 m all T (requestFed b s) := by
  cases h with
  | idle split up hb tr =>
    exact .idle split (up.fed b) ⟨hb.state, hb.buf, hb.header, hb.receiver, hb.status, hb.next, hb.beyond⟩ tr
  | line split up hp hrem hat here tr =>
    exact .line split (up.fed b) hp hrem ⟨hat.state, hat.previous, hat.buf, hat.header, hat.receiver⟩ here tr
  | head split up hjl hls hb hd hlim hat here ht htab tr =>
    exact .head split (up.fed b) hjl hls hb hd hlim ⟨hat.state, hat.previous, hat.buf, hat.header, hat.receiver⟩ here ht htab tr
  | sized ib hbody hne hat hl hlen htab tr =>
    exact .sized ⟨ib.split, ib.upto.fed b, ib.here, ib.head, ib.parser⟩ hbody hne
      ⟨hat.state, hat.previous, hat.buf, hat.header, hat.receiver⟩ hl hlen htab tr
  | size ib hbody hat hlen htab tr =>
    exact .size ⟨ib.split, ib.upto.fed b, ib.here, ib.head, ib.parser⟩ hbody
      ⟨hat.state, hat.previous, hat.buf, hat.header, hat.receiver⟩ hlen htab tr
  | data ib hbody hch hne hat hl hlen htab tr =>
    exact .data ⟨ib.split, ib.upto.fed b, ib.here, ib.head, ib.parser⟩ hbody hch hne
      ⟨hat.state, hat.previous, hat.buf, hat.header, hat.receiver⟩ hl hlen htab tr
  | dataEnd ib hbody hat hlen htab tr =>
    exact .dataEnd ⟨ib.split, ib.upto.fed b, ib.here, ib.head, ib.parser⟩ hbody
      ⟨hat.state, hat.previous, hat.buf, hat.header, hat.receiver⟩ hlen htab tr
  | trailer ib hbody hjl hls hb hd hlim hp hat hlen htab tr =>
    exact .trailer ⟨ib.split, ib.upto.fed b, ib.here, ib.head, ib.parser⟩ hbody hjl hls hb hd hlim hp
      ⟨hat.state, hat.previous, hat.buf, hat.header, hat.receiver⟩ hlen htab tr
  | final ib hp hrem hp0 hat hlen htab tr =>
    exact .final ⟨ib.split, ib.upto.fed b, ib.here, ib.head, ib.parser⟩ hp hrem hp0
      ⟨hat.state, hat.previous, hat.buf, hat.header, hat.receiver⟩ hlen htab tr

theorem Midway.status {T : List Token} {s : Conn} (h : Midway e g s0 m all T s) :
    s.req.status = .new ∨ s.req.status = .open ∨ s.req.status = .data ∨ s.req.status = .dataOther := by
  cases h with
  | idle _ up _ _ => exact up.status
  | line _ up _ _ _ _ _ => exact up.status
  | head _ up _ _ _ _ _ _ _ _ _ _ => exact up.status
  | sized ib _ _ _ _ _ _ _ => exact ib.upto.status
  | size ib _ _ _ _ _ => exact ib.upto.status
  | data ib _ _ _ _ _ _ _ _ => exact ib.upto.status
  | dataEnd ib _ _ _ _ _ => exact ib.upto.status
  | trailer ib _ _ _ _ _ _ _ _ _ _ _ => exact ib.upto.status
  | final ib _ _ _ _ _ _ _ => exact ib.upto.status

/-- What is kept of the data fits. -/
theorem Midway.buffered {T : List Token} {s : Conn} (F : Fit e m all) (h : Midway e g s0 m all T s) :
    s.req.buffered ≤ e.cfg.fieldLimit := by
  have hp : ∀ {p rem : Bytes} {r : Request}, r ∈ all → p ++ rem = r.line ++ [13, 10] → p.length ≤ e.cfg.fieldLimit := by
    intro p rem r hr h
    have h1 := congrArg List.length h
    have h2 := F.line r hr
    simp at h1
    omega
  unfold Half.buffered
  cases h with
  | idle _ _ hb _ => rw [hb.buf, hb.header]; exact Nat.zero_le _
  | line split _ h _ hat _ _ => rw [hat.buf, hat.header]; exact hp (by rw [split]; simp) h
  | head _ _ _ _ _ _ hlim hat _ _ _ _ => rw [hat.buf, hat.header]; simpa using hlim
  | sized _ _ _ hat _ _ _ _ => rw [hat.buf, hat.header]; exact Nat.zero_le _
  | size _ _ hat _ _ _ => rw [hat.buf, hat.header]; exact Nat.zero_le _
  | data _ _ _ _ hat _ _ _ _ => rw [hat.buf, hat.header]; exact Nat.zero_le _
  | dataEnd _ _ hat _ _ _ => rw [hat.buf, hat.header]; exact Nat.zero_le _
  | trailer _ _ _ _ _ _ hlim _ hat _ _ _ => rw [hat.buf, hat.header]; simpa using hlim
  | final ib h _ _ hat _ _ _ => rw [hat.buf, hat.header]; exact hp (by rw [ib.split]; simp) h

/-- The data of a call is taken in. -/
theorem call_goes (F : Fit e m all) {c later : List Token} {s : Conn} (hM : Midway e g s0 m all (c ++ later) s) (hc : c ≠ [])
    (hi : s.input = win [] (bytesOf c) 0) : Pauses e g s0 m all later s := by
  by_cases hst : s.req.state = .finalize
  · generalize hT : c ++ later = T at hM
    cases hM with
    | idle _ _ hb _ => rw [hb.state] at hst; cases hst
    | line _ _ _ _ hat _ _ => rw [hat.state] at hst; cases hst
    | head _ _ _ _ _ _ _ hat _ _ _ _ => rw [hat.state] at hst; cases hst
    | sized _ _ _ hat _ _ _ _ => rw [hat.state] at hst; cases hst
    | size _ _ hat _ _ _ => rw [hat.state] at hst; cases hst
    | data _ _ _ _ hat _ _ _ _ => rw [hat.state] at hst; cases hst
    | dataEnd _ _ hat _ _ _ => rw [hat.state] at hst; cases hst
    | trailer _ _ _ _ _ _ _ _ hat _ _ _ => rw [hat.state] at hst; cases hst
    | final ib hp hrem hp0 hat hlen htab tr =>
      exact run_final F ib hat hlen htab tr (goes F _) hi (.inr ⟨hp0, rfl, hc, _, _, _, rfl, hp, hrem, hT.symm⟩)
  · exact goes F (c.length + 1) c later s [] 0 (Nat.lt_succ_self _) hM hi (fun _ => rfl) hst

theorem call_pieces (F : Fit e m all) {c later : List Token} {s : Conn} (hM : Midway e g s0 m all (c ++ later) s) (hc : c ≠ [])
    (hne : bytesOf c ≠ []) :
    ∃ s', requestData e (.ofBytes (bytesOf c)) s = (.ok (some .data), s') ∧ Midway e g s0 m all later s' := by
  have hst : s.req.status ≠ .stop ∧ s.req.status ≠ .error ∧ s.req.status ≠ .tunnel ∧ s.req.status ≠ .closed := by
    rcases hM.status with h | h | h | h <;> rw [h] <;> decide
  rw [requestData_data hne hst.1 hst.2.1 hst.2.2.1]
  have hbuf := hM.buffered F
  obtain ⟨k, s1, s2, r1, h2, hM2⟩ := call_goes F (hM.fed (bytesOf c)) hc rfl
  generalize bytesOf c = b at *
  have hok : ReqOK e (requestFed b s) :=
    ⟨toPData_wf (.data b), rfl, Nat.zero_le _, fun h => absurd h hst.2.2.2, hbuf⟩
  have hk : k < 16 * (b.length + 2 * s.req.buf.length + 2) := by
    have := (request_rounds e r1 hok).2
    have := reqMeasure_lt_rounds (requestFed b s)
    have hx : requestRounds (requestFed b s) = 16 * (b.length + 2 * s.req.buf.length + 2) := by
      unfold requestRounds
      rw [show (requestFed b s).input.len = b.length from toPData_len (.data b)]
      rfl
    omega
  exact ⟨s2, (C32_loop e _ _ _ (by simp)).mpr ⟨k, s1, hk, r1, h2⟩, hM2⟩

/-- Any number of calls. -/
theorem calls_pieces (F : Fit e m all) (calls : List (List Token)) :
    ∀ {s : Conn} {later : List Token}, (∀ c ∈ calls, c ≠ []) → (∀ c ∈ calls, ∀ x ∈ c, x.bytes ≠ []) →
    Midway e g s0 m all (calls.flatten ++ later) s →
    requestAnswers e (calls.map fun c => .data (bytesOf c)) s = calls.map (fun _ => .ok (some .data)) ∧
    Midway e g s0 m all later (feedRequest e (calls.map fun c => .data (bytesOf c)) s) := by
  induction calls with
  | nil => intro s later _ _ h; exact ⟨rfl, h⟩
  | cons c cs ih =>
    intro s later hne hb hM
    rw [List.flatten_cons, List.append_assoc] at hM
    have hbytes : bytesOf c ≠ [] := by
      cases hc : c with
      | nil => exact absurd hc (hne c (by simp))
      | cons x xs =>
        have := hb c (by simp) x (by rw [hc]; simp)
        unfold bytesOf
        rw [List.flatMap_cons]
        simp [this]
    obtain ⟨s1, h1, hM1⟩ := call_pieces F hM (hne c (by simp)) hbytes
    have hrun : (Op.request (.data (bytesOf c))).run e s = (.ok (some .data), s1) := h1
    have hafter : (Op.request (.data (bytesOf c))).after e s = s1 := by
      show ((Op.request (.data (bytesOf c))).run e s).2 = s1
      rw [hrun]
    obtain ⟨ha, hM2⟩ := ih (fun x hx => hne x (by simp [hx])) (fun x hx => hb x (by simp [hx])) hM1
    constructor
    · show ((Op.request (.data (bytesOf c))).run e s).1 ::
        requestAnswers e (cs.map fun c => .data (bytesOf c)) ((Op.request (.data (bytesOf c))).after e s) = _
      rw [hafter, ha, hrun]
      rfl
    · show Midway e g s0 m all later (feedRequest e (cs.map fun c => .data (bytesOf c)) ((Op.request (.data (bytesOf c))).after e s))
      rw [hafter]
      exact hM2

/-- When nothing is to come any more, the parser is behind the last request. -/
theorem Midway.over {s : Conn} (h : Midway e g s0 m all [] s) :
    Upto s0 m all s ∧ BetweenRequests s ∧ Traced g (requestCallbacks s0.txs.request all) s := by
  have hl : ∀ {b : Bytes} {T : List Token}, b ≠ [] → loose b ++ T ≠ [] := by
    intro b T hb h
    have := (List.append_eq_nil_iff.mp h).1
    exact hb (List.map_eq_nil_iff.mp this)
  have hc : ∀ {x : Token} {A B : List Token}, A ++ x :: B ≠ [] := by simp
  generalize hT : ([] : List Token) = T at h
  replace hT := hT.symm
  cases h with
  | @idle _ pre post split up hb' tr =>
    have : post = [] := by
      cases post with
      | nil => rfl
      | cons r post =>
        rw [List.flatMap_cons, Request.tokens, List.append_assoc] at hT
        exact absurd hT (hl (by simp))
    subst this
    rw [List.append_nil] at split
    subst split
    exact ⟨up, hb', tr⟩
  | line _ _ _ hrem _ _ _ => exact absurd hT (hl hrem)
  | head _ _ _ _ _ _ _ _ _ _ _ _ => exact absurd hT hc
  | sized _ _ hne _ _ _ _ _ => exact absurd hT (hl hne)
  | size _ _ _ _ _ _ => exact absurd hT hc
  | data _ _ _ hne _ _ _ _ _ => exact absurd hT (hl hne)
  | dataEnd _ _ _ _ _ _ => exact absurd hT (by simp)
  | trailer _ _ _ _ _ _ _ _ _ _ _ _ => exact absurd hT hc
  | final _ _ hrem _ _ _ _ _ => exact absurd hT (hl hrem)

end

/-- Nothing that is not cut is empty. -/
theorem tokens_ne {r : Request} (hw : r.WellFormed) : ∀ x ∈ r.tokens, x.bytes ≠ [] := by
  have hloose : ∀ (b : Bytes), ∀ x ∈ loose b, x.bytes ≠ [] := by
    intro b x hx
    obtain ⟨c, -, rfl⟩ := List.mem_map.mp hx
    simp [Token.bytes]
  have hblock : ∀ (hs : List HeaderLine), ∀ x ∈ blockTokens hs, x.bytes ≠ [] := by
    intro hs x hx
    rcases List.mem_append.mp hx with hx | hx
    · exact hloose _ x hx
    · rw [List.mem_singleton.mp hx]
      simp [Token.bytes]
  have hsize : ∀ {l : Bytes} {n : Nat}, SizeLine l n → (Token.line l).bytes ≠ [] := by
    rintro l n ⟨ds, ext, rfl, -⟩
    simp [Token.bytes]
  intro x hx
  rcases List.mem_append.mp hx with hx | hx
  · exact hloose _ x hx
  · rcases List.mem_append.mp hx with hx | hx
    · exact hblock _ x hx
    · cases hb : r.body with
      | absent => rw [hb] at hx; cases hx
      | sized content => rw [hb] at hx; exact hloose _ x hx
      | chunked cs last trailer =>
        obtain ⟨hv, hlast, -, -⟩ := chunked_facts hw hb
        rw [hb] at hx
        rcases List.mem_append.mp hx with hx | hx
        · obtain ⟨c, hc, hx⟩ := List.mem_flatMap.mp hx
          rcases List.mem_cons.mp hx with rfl | hx
          · exact hsize (hv c hc).1
          · rcases List.mem_append.mp hx with hx | hx
            · exact hloose _ x hx
            · rw [List.mem_singleton.mp hx]
              simp [Token.bytes]
        · rcases List.mem_cons.mp hx with rfl | hx
          · exact hsize hlast
          · exact hblock _ x hx

end Model
