/-
Requests cut into pieces: the parser goes on from wherever it was.
-/
import Verif.Lemmas.SegStages

namespace Model

open M Spec Props

section
variable {e : Env} {g : Log Event.ofRequest} {s0 : Conn} {m : Nat} {all : List Request}

theorem bytesOf_line_cons (l : Bytes) (ts : List Token) : bytesOf (.line l :: ts) = l ++ bytesOf ts := bytesOf_cons_line l ts

theorem blockTokens_eq (hs : List HeaderLine) (T : List Token) :
    blockTokens hs ++ T = loose (linesOf hs) ++ .line [13, 10] :: T := by
  simp [blockTokens, linesOf]

theorem bytesOf_block (hs : List HeaderLine) : bytesOf (blockTokens hs) = renderBlock hs := by
  unfold blockTokens
  rw [bytesOf_append, bytesOf_loose, renderBlock_lines]
  rfl

theorem bytesOf_chunks (cs : List BodyChunk) : bytesOf (cs.flatMap chunkTokens) = bytesOf (encoded cs) := by
  induction cs with
  | nil => rfl
  | cons c cs ih =>
    rw [List.flatMap_cons, bytesOf_append, ih, encoded_cons]
    unfold chunkTokens
    rw [bytesOf_cons_line, bytesOf_cons_line, bytesOf_append, bytesOf_append, bytesOf_loose]
    have h := bytesOf_loose c.data
    unfold loose bytesOf at h
    simp [bytesOf, Token.bytes, h]

theorem bytesOf_body (b : Body) : bytesOf b.tokens = b.render := by
  cases b with
  | absent => rfl
  | sized content => exact bytesOf_loose content
  | chunked chunks last trailer =>
    unfold Body.tokens Body.render
    rw [bytesOf_append, bytesOf_chunks, bytesOf_cons_line, bytesOf_block]

theorem bytesOf_request (r : Request) : bytesOf r.tokens = r.render := by
  unfold Request.tokens Request.render
  rw [bytesOf_append, bytesOf_loose, bytesOf_append, bytesOf_block, bytesOf_body]

theorem bytesOf_requests (rs : List Request) : bytesOf (rs.flatMap Request.tokens) = rs.flatMap Request.render := by
  induction rs with
  | nil => rfl
  | cons r rs ih => rw [List.flatMap_cons, bytesOf_append, ih, bytesOf_request, List.flatMap_cons]

theorem _root_.Spec.Follows.left {hs : List HeaderLine} {a b : Bytes} (h : Follows hs (a ++ b)) : Follows hs a := by
  intro h0 c hc
  refine h h0 c ?_
  cases a with
  | nil => cases hc
  | cons x a => exact hc

/-- What follows the head of a request, as far as it is there. -/
theorem Fit.follows_head (F : Fit e m all) {pre : List Request} {r : Request} {post : List Request}
    (hall : all = pre ++ r :: post) {c later : List Token} (hc : r.body.tokens ++ post.flatMap Request.tokens = c ++ later) :
    Follows r.headers (bytesOf c) := by
  have h1 := follows_headers (F.wf r (by rw [hall]; simp)) (next_of_requests post fun x hx => F.wf x (by rw [hall]; simp [hx]))
  have h2 := congrArg bytesOf hc
  rw [bytesOf_append, bytesOf_append, bytesOf_body, bytesOf_requests] at h2
  rw [h2] at h1
  exact Spec.Follows.left h1

theorem Fit.follows_next (F : Fit e m all) {pre : List Request} {r : Request} {post : List Request}
    (hall : all = pre ++ r :: post) (hs : List HeaderLine) {c later : List Token}
    (hc : post.flatMap Request.tokens = c ++ later) : Follows hs (bytesOf c) := by
  have h1 := Model.follows_next hs (next_of_requests post fun x hx => F.wf x (by rw [hall]; simp [hx]))
  have h2 := congrArg bytesOf hc
  rw [bytesOf_append, bytesOf_requests] at h2
  rw [h2] at h1
  exact Spec.Follows.left h1

theorem line_prefix {p a b l : Bytes} (h : p ++ (a ++ b) = l) (hb : b ≠ []) : (p ++ a).length < l.length := by
  have := congrArg List.length h
  have h2 : b.length ≠ 0 := by rw [ne_eq, List.length_eq_zero_iff]; exact hb
  simp only [List.length_append] at this ⊢
  omega

/-- The request line. -/
theorem run_line (F : Fit e m all) {s : Conn} {pre : List Request} {r : Request} {post : List Request} {p rem : Bytes}
    (split : all = pre ++ r :: post) (up : Upto s0 m pre s) (hp : p ++ rem = r.line ++ [13, 10]) (hrem : rem ≠ [])
    (hat : At s.req .line p none none)
    (here : s.txs.get s.txs.request = some { index := s.txs.request, requestProgress := .line })
    (tr : Traced g (requestCallbacks s0.txs.request pre ++ [.tx .requestStart s.txs.request]) s)
    {c later : List Token} (ih : Goes e g s0 m all c.length)
    (hc : loose rem ++ (blockTokens r.headers ++ (r.body.tokens ++ post.flatMap Request.tokens)) = c ++ later)
    {done : Bytes} {q : Nat} (hi : s.input = win done (bytesOf c) q) : Pauses e g s0 m all later s := by
  have hmem : r ∈ all := by rw [split]; simp
  have hw := F.wf r hmem
  have hlim := F.line r hmem
  have hself := rq_self up.occupied.1 here _ hi
  rcases loose_split hc with ⟨a, b, hab, hb, rfl, hlater⟩ | ⟨c', rfl, hT⟩
  · rw [bytesOf_loose] at hself
    subst hab
    obtain ⟨x, -, -, hnp⟩ := line_rest hw (p := p ++ a) (rem := b) (by rw [List.append_assoc]; exact hp) hb
    have hl := line_prefix hp hb
    obtain ⟨inp, h1⟩ := pause_line (e := e) s s.req _ [] done a q hat.state up.alive hat.receiver
      (fun h => hnp (List.mem_append_right _ h)) (by
        unfold Half.buffered
        rw [hat.buf, hat.header]
        simp at hl ⊢
        omega)
    rw [hself] at h1
    refine .now h1 ?_
    rw [hlater]
    refine .line (p := p ++ a) split (up.rq (.inr (.inr (.inl rfl))) _ _ _) (by rw [List.append_assoc]; exact hp) hb
      ⟨hat.state, hat.previous, ?_, hat.header, hat.receiver⟩ (rq_get _ _ _ _ _) (tr.same (List.append_nil _))
    show s.req.buf ++ a = _
    rw [hat.buf]
  · rw [bytesOf_append, bytesOf_loose] at hself
    obtain ⟨raw, u, st, fl, a, b, h1⟩ := round_line F.willing hw s s.req { index := s.txs.request, requestProgress := .line } [] done rem (bytesOf c') q hat.state
      (by rw [hat.buf]; exact hp) hrem hat.header up.alive hlim rfl
    have h2 := (fun {h t evs done rest q} (_ : requestStep e _ = (.ok none, rq s h t evs (win done rest q))) =>
      round_protocol (e := e) s h t evs done rest q) h1 rfl rfl up.alive rfl
    rw [hself] at h1
    refine .after h1 (.after h2 ?_)
    have hlen : c'.length < (loose rem ++ c').length := by
      have : rem.length ≠ 0 := by rw [ne_eq, List.length_eq_zero_iff]; exact hrem
      simp [loose]
      omega
    refine ih c' later _ (done ++ rem) (done ++ rem).length hlen ?_ rfl (fun _ => rfl) (by simp [rq_req])
    rw [← hT, blockTokens_eq]
    exact .head (js := []) (ls := r.headers) (d := []) (header := none) split (up.rq (by exact up.status) _ _ _) rfl (fun _ => rfl) rfl rfl (by simp)
      ⟨rfl, rfl, rfl, hat.header, rfl⟩ (rq_get _ _ _ _ _)
      ⟨rfl, rfl, rfl, rfl, rfl, rfl, rfl, rfl, rfl, rfl, rfl, rfl, rfl⟩ rfl
      (by
        have := (tr.add (s' := rq s s.req { index := s.txs.request, requestProgress := .line }
          [.tx .requestUriNormalize s.txs.request, .tx .requestLine s.txs.request] s.input) rfl).raw (hk := .requestHeaderData) (k := s.txs.request) (s' := rq s s.req { index := s.txs.request, requestProgress := .line }
          [.tx .requestUriNormalize s.txs.request, .tx .requestLine s.txs.request] s.input) rfl
        rw [List.append_assoc] at this
        exact this)

/-- Between two requests, with something to read. -/
theorem run_idle (F : Fit e m all) {s : Conn} {pre : List Request} {r : Request} {post : List Request} {p rem : Bytes}
    (split : all = pre ++ r :: post) (up : Upto s0 m pre s) (hp : p ++ rem = r.line ++ [13, 10]) (hrem : rem ≠ [])
    (hst : s.req.state = .idle) (hbuf : s.req.buf = p) (hh : s.req.header = none) (hr : s.req.receiver = none)
    (next : s.txs.get s.txs.request = none ∨ s.txs.get s.txs.request = some { index := s.txs.request })
    (tr : Traced g (requestCallbacks s0.txs.request pre) s)
    {c later : List Token} (ih : Goes e g s0 m all c.length) (hne : c ≠ [])
    (hc : loose rem ++ (blockTokens r.headers ++ (r.body.tokens ++ post.flatMap Request.tokens)) = c ++ later)
    {done : Bytes} {q : Nat} (hi : s.input = win done (bytesOf c) q) : Pauses e g s0 m all later s := by
  have hmem : r ∈ all := by rw [split]; simp
  have hbne : bytesOf c ≠ [] := by
    rcases loose_split hc with ⟨a, b, hab, hb, rfl, hlater⟩ | ⟨c', rfl, hT⟩
    · rw [bytesOf_loose]
      rintro rfl
      exact hne rfl
    · rw [bytesOf_append, bytesOf_loose]
      simp [hrem]
  have hroom : s.txs.get s.txs.request = none → s.txs.map.length < e.cfg.maxTx := by
    intro hn
    have := F.room
    rw [split] at this
    simp at this
    rcases up.occupied.2 with ⟨-, h⟩ | ⟨h, -⟩
    · omega
    · rw [hn] at h; cases h
  have h1 := round_idle F.willing.callbacks hst up.alive.1 next hi hbne hroom
  have up' : Upto s0 m pre { s with requestChunkRequestIndex := s.requestChunkCount } :=
    ⟨up.records, up.others, up.request, up.response, up.resp, up.blocked, up.beyond, up.status, up.occupied⟩
  refine .after h1 ?_
  refine run_line F split ?_ hp hrem ?_ ?_ ?_ ih hc (done := done) (q := q) hi
  · exact up'.rq (by exact up.status) _ _ _
  · exact ⟨rfl, rfl, hbuf, hh, hr⟩
  · exact rq_get _ _ _ _ _
  · exact tr.add rfl

/-- The end of a request. -/
theorem run_final (F : Fit e m all) {s : Conn} {pre : List Request} {r : Request} {post : List Request} {p : Bytes} {t : Tx}
    (ib : BodyAt s0 m all pre r post s t) (hat : At s.req .finalize p none none)
    (hlen : t.requestEntityLen = r.body.content.length) (htab : Tabled t (r.headers ++ r.body.trailer))
    (tr : Traced g (soFar s0 pre r s.txs.request ++ bodyRun s.txs.request r.body) s)
    {c later : List Token} (ih : Goes e g s0 m all c.length) {done : Bytes} {q : Nat} (hi : s.input = win done (bytesOf c) q)
    (hnext : (p = [] ∧ post.flatMap Request.tokens = c ++ later) ∨
      (p ≠ [] ∧ done = [] ∧ c ≠ [] ∧ ∃ r' post' rem, post = r' :: post' ∧ p ++ rem = r'.line ++ [13, 10] ∧ rem ≠ [] ∧
        loose rem ++ (blockTokens r'.headers ++ (r'.body.tokens ++ post'.flatMap Request.tokens)) = c ++ later)) :
    Pauses e g s0 m all later s := by
  obtain ⟨split, up, here, hr, hpar⟩ := ib
  have hw := F.wf r (by rw [split]; simp)
  have hself := rq_self up.occupied.1 here _ hi
  have hwl : ∀ h ∈ r.headers ++ r.body.trailer, h.WellFormed := by
    intro x hx
    rcases List.mem_append.mp hx with hx | hx
    · exact hw.headers x hx
    · have hf := hw.framed
      unfold Request.Framed at hf
      cases hb : r.body with
      | absent => rw [hb] at hx; cases hx
      | sized content => rw [hb] at hx; cases hx
      | chunked cs last trailer =>
        rw [hb] at hx hf
        exact hf.2.2.2.2 x hx
  have hrec : ∀ ml, Records { t with requestMessageLen := ml, requestProgress := .complete } s.txs.request r ∧
      Unanswered { t with requestMessageLen := ml, requestProgress := .complete } := by
    intro ml
    obtain ⟨mm, hm⟩ := hw.method
    obtain ⟨pp, hpp⟩ := hw.protocol
    refine ⟨⟨hr.index, hr.line, hr.method, ?_, hr.uri, hr.protocol, ?_, hr.notProtocol09, htab.stored hwl, hr.coding,
          hr.contentLength, hlen, rfl⟩, hr.unanswered⟩
    · show (r.method, t.requestMethodNumber) ∈ _
      rw [hr.methodNumber, (method_facts _ hm).1]
      exact hm
    · show (r.protocol, t.requestProtocolNumber) ∈ _
      rw [hr.protocolNumber, (protocol_facts _ hpp).1]
      exact hpp
  have hevs : requestCallbacks s0.txs.request (pre ++ [r]) = soFar s0 pre r s.txs.request ++ bodyRun s.txs.request r.body ++
      ((if t.requestHasBody then bodyCallbacks s.txs.request none else []) ++ [.tx .requestComplete s.txs.request]) := by
    rw [requestCallbacks_append, ← up.request, ← callbacks_split r _ t hr.coding]
    unfold soFar headEvents
    simp only [List.append_assoc]
  have hfin := fun (done rest : Bytes) (q : Nat) (hn : Resumed e s.req.buf done rest) =>
    round_finalize (e := e) F.willing.callbacks s s.req t [] done rest q hat.state up.alive hat.header hn
    hat.receiver hr.progress hr.notProtocol09 (by rw [hr.unanswered.progress]; decide) hr.encoding (by rw [hlen]; exact hw.length)
  -- what follows once the request is over
  have hover : ∀ (ml : Nat) (b : Nat) (dl : Option Nat) (done' rest : Bytes) (q' : Nat),
      let s1 := over s { s.req with bytesConsumed := b, bodyDataLeft := dl, state := .idle, statePrevious := .idle }
        { t with requestMessageLen := ml, requestProgress := .complete }
        ([] ++ ((if t.requestHasBody then bodyCallbacks s.txs.request none else []) ++ [.tx .requestComplete s.txs.request]))
        (win done' rest q')
      Upto s0 m (pre ++ [r]) s1 ∧ s1.txs.get s1.txs.request = none ∧
        Traced g (requestCallbacks s0.txs.request (pre ++ [r])) s1 := by
    intro ml b dl done' rest q'
    have u := up.over (h := { s.req with bytesConsumed := b, bodyDataLeft := dl, state := .idle, statePrevious := .idle })
      up.status (hrec ml)
      ([] ++ ((if t.requestHasBody then bodyCallbacks s.txs.request none else []) ++ [.tx .requestComplete s.txs.request]))
      (win done' rest q')
    refine ⟨u, ?_, by rw [hevs]; exact tr.add rfl (by cases t.requestHasBody <;> rfl)⟩
    show (over s _ _ _ _).txs.get (s.txs.request + 1) = none
    rw [show (over s _ _ _ _).txs.get (s.txs.request + 1) = _ from Txs.get_set _ _ _ _, if_neg (by omega)]
    exact up.beyond _ (by omega)
  have hidle : p = [] → c = [] → post.flatMap Request.tokens = later → Pauses e g s0 m all later s := by
    intro hp0 hc0 hl
    subst hc0 hl
    obtain ⟨ml, b, dl, h1⟩ := hfin done [] q (by rw [hat.buf, hp0]; exact .inl ⟨rfl, rfl⟩)
    rw [show win done [] q = win done (bytesOf []) q from rfl, hself] at h1
    obtain ⟨u, hn, tr1⟩ := hover ml b dl done (bytesOf []) q
    have hbet : BetweenRequests (over s
        { s.req with bytesConsumed := b, bodyDataLeft := dl, state := .idle, statePrevious := .idle }
        { t with requestMessageLen := ml, requestProgress := .complete }
        ([] ++ ((if t.requestHasBody then bodyCallbacks s.txs.request none else []) ++ [.tx .requestComplete s.txs.request]))
        (win done (bytesOf []) q)) :=
      ⟨rfl, hat.buf.trans hp0, hat.header, hat.receiver, up.status, .inl hn, u.beyond⟩
    obtain ⟨s2, h2, hb2, htr2, hot2, hq2, hp2, hs2, hbl2, hst2, ho2⟩ := step_idle (e := e) hbet rfl u.occupied
    refine .after h1 (.now h2 ?_)
    refine .idle (pre := pre ++ [r]) (by rw [split]; simp) ⟨?_, ?_, ?_, ?_, ?_, ?_, hb2.beyond, .inr (.inr (.inl hst2)), ho2⟩ hb2 (tr1.same htr2)
    · intro i r' hi'
      have : i < (pre ++ [r]).length := (List.getElem?_eq_some_iff.mp hi').1
      rw [hot2 _ (by rw [u.request]; omega)]
      exact u.records i r' hi'
    · intro j hj
      rw [hot2 _ (by rw [u.request]; omega)]
      exact u.others j hj
    · rw [hq2]; exact u.request
    · rw [hp2]; exact u.response
    · rw [hs2]; exact u.resp
    · rw [hbl2]; exact u.blocked
  -- with the line of the next request
  have hgo : ∀ r' post' rem, post = r' :: post' → p ++ rem = r'.line ++ [13, 10] → rem ≠ [] → (p = [] ∨ done = []) → c ≠ [] →
      loose rem ++ (blockTokens r'.headers ++ (r'.body.tokens ++ post'.flatMap Request.tokens)) = c ++ later →
      Pauses e g s0 m all later s := by
    intro r' post' rem hpost hpr hrem hcame hc0 hc
    subst hpost
    have hmem' : r' ∈ all := by rw [split]; simp
    have hw' := F.wf r' hmem'
    have hlim' := F.line r' hmem'
    rcases loose_split hc with ⟨a, b, hab, hb, rfl, hlater⟩ | ⟨c', rfl, hT⟩
    · rw [bytesOf_loose] at hself
      subst hab
      obtain ⟨x, -, -, hnp⟩ := line_rest hw' (p := p ++ a) (rem := b) (by rw [List.append_assoc]; exact hpr) hb
      have hl := line_prefix hpr hb
      have ha0 : a ≠ [] := by rintro rfl; exact hc0 rfl
      obtain ⟨inp, h1⟩ := pause_final (e := e) s s.req t [] done a q hat.state up.alive hat.receiver
        (fun h => hnp (List.mem_append_right _ h)) ha0 (by
          unfold Half.buffered
          rw [hat.buf, hat.header]
          simp at hl ⊢
          omega)
      rw [hself] at h1
      refine .now h1 ?_
      rw [hlater]
      refine .final (p := p ++ a) (r := r) ⟨split, up.rq (.inr (.inr (.inl rfl))) _ _ _, rq_get _ _ _ _ _, hr, hpar⟩
        (by rw [List.append_assoc]; exact hpr) hb (by simp [ha0])
        ⟨hat.state, hat.previous, ?_, hat.header, hat.receiver⟩ hlen htab (tr.same (List.append_nil _))
      show s.req.buf ++ a = _
      rw [hat.buf]
    · rw [bytesOf_append, bytesOf_loose] at hself
      obtain ⟨ml, b, dl, h1⟩ := hfin done (rem ++ bytesOf c') q (by
        rw [hat.buf]
        refine .inr ⟨r', rem, bytesOf c', hw', hpr, hrem, rfl, ?_⟩
        rcases hcame with h | h
        · exact .inl h
        · exact .inr ⟨h, hlim'⟩)
      rw [hself] at h1
      obtain ⟨u, hn, tr1⟩ := hover ml b dl done (rem ++ bytesOf c') q
      refine .after h1 ?_
      exact run_idle F (pre := pre ++ [r]) (by rw [split]; simp) u hpr hrem rfl hat.buf hat.header hat.receiver (.inl hn) tr1
        ih hc0 hc (by rw [bytesOf_append, bytesOf_loose]; rfl)
  rcases hnext with ⟨rfl, hc⟩ | ⟨hp0, hdone, hc0, r', post', rem, hpost, hpr, hrem, hc⟩
  · by_cases hc0 : c = []
    · subst hc0
      exact hidle rfl rfl hc
    · cases post with
      | nil =>
        rw [List.flatMap_nil] at hc
        exact absurd (List.append_eq_nil_iff.mp hc.symm).1 hc0
      | cons r' post' =>
        refine hgo r' post' (r'.line ++ [13, 10]) rfl rfl (by simp) (.inl rfl) hc0 ?_
        rw [← hc, List.flatMap_cons]
        simp [Request.tokens]
  · exact hgo r' post' rem hpost hpr hrem (.inr hdone) hc0 hc

end

end Model
