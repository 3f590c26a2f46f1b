/-
Responses cut into pieces: where the parser is when a call returns, and how it goes on.
-/
import Verif.Lemmas.AnsRun

namespace Model.Ans

open M Spec Props

section
variable {own : Event → Bool} {g : Log own}

/-- These callbacks have been run, and then data of the body was handed out, which is not complete. -/
def TracedBody (g : Log own) (X : List Event) (k : Nat) (d : Bytes) (s : Conn) : Prop :=
  s.trace.filter (fun ev => !own ev) = g.foreign ∧
  ∃ (evs : List Event) (ds : List Bytes), s.trace.filter g.keep = g.before ++ (evs ++ ds.flatMap (answerBodyCallbacks k)) ∧
    Pieces (g.said ++ X) (g.assumed ++ evs) ∧ ds.flatten = d ∧ ∀ d ∈ ds, d ≠ []

theorem traced_body {s s' : Conn} {X : List Event} (h : Traced g X s) (hs : s'.trace = s.trace) (k : Nat) :
    TracedBody g X k [] s' := by
  obtain ⟨h0, evs', h1, h2⟩ := h
  exact ⟨by rw [hs]; exact h0, evs', [], by rw [hs, h1]; simp, h2, rfl, by simp⟩

theorem TracedBody.add {s s' : Conn} {X : List Event} {k : Nat} {d x : Bytes} (h : TracedBody g X k d s)
    (hs : s'.trace = s.trace ++ if x = [] then [] else answerBodyCallbacks k x)
    (ho : (answerBodyCallbacks k x).all own = true := by rfl) : TracedBody g X k (d ++ x) s' := by
  obtain ⟨h0, evs, ds, h1, h2, h3, h4⟩ := h
  by_cases hx : x = []
  · rw [if_pos hx, List.append_nil] at hs
    exact ⟨by rw [hs]; exact h0, evs, ds, by rw [hs, h1], h2, by rw [hx, List.append_nil, h3], h4⟩
  · rw [if_neg hx] at hs
    refine ⟨by rw [hs, List.filter_append, h0, Log.own ho, List.append_nil], evs, ds ++ [x], by rw [hs, List.filter_append, h1, g.kept ho]; simp, h2, by simp [h3], ?_⟩
    intro y hy
    rcases List.mem_append.mp hy with hy | hy
    · exact h4 y hy
    · rw [List.mem_singleton.mp hy]; exact hx

theorem TracedBody.close {s s' : Conn} {X : List Event} {k : Nat} {d x : Bytes} (h : TracedBody g X k d s)
    (hx : x ≠ []) (hs : s'.trace = s.trace ++ answerBodyCallbacks k x)
    (ho : (answerBodyCallbacks k x).all own = true := by rfl) :
    Traced g (X ++ answerBodyCallbacks k (d ++ x)) s' := by
  obtain ⟨h0, evs', ds, h1, h2, h3, h4⟩ := h
  refine ⟨by rw [hs, List.filter_append, h0, Log.own ho, List.append_nil], evs' ++ (ds ++ [x]).flatMap (answerBodyCallbacks k), ?_, ?_⟩
  · rw [hs, List.filter_append, h1, g.kept ho]; simp
  rw [← List.append_assoc g.said, ← List.append_assoc g.assumed]
  refine h2.append ?_
  have : d ++ x = (ds ++ [x]).flatten := by simp [h3]
  rw [this]
  have h5 : ∀ y ∈ ds ++ [x], y ≠ [] := by
    intro y hy
    rcases List.mem_append.mp hy with hy | hy
    · exact h4 y hy
    · rw [List.mem_singleton.mp hy]; exact hx
  have h6 := Pieces.answer (k := k) (evs := []) (evs' := []) (ds := ds ++ [x]) (by simp) h5 .nil
  rwa [List.append_nil, List.append_nil] at h6

end

/-! The transactions. -/

/-- The parser has taken in these responses, and may be in the middle of another. -/
structure Upto (auto : Bool) (s0 : Conn) (pre : List Response) (s : Conn) : Prop where
  records : ∀ i r, pre[i]? = some r → AnswerKept auto s0 s (s0.txs.response + i) r
  others : ∀ j, j < s0.txs.response ∨ s0.txs.response + pre.length < j → s.txs.get j = s0.txs.get j
  response : s.txs.response = s0.txs.response + pre.length
  request : s.txs.request = s0.txs.request
  req : s.req = s0.req
  count : s.requestChunkCount = s0.requestChunkCount
  status : s.resp.status = .new ∨ s.resp.status = .open ∨ s.resp.status = .data
  notBlocked : s.responseDataOtherAtTxEnd = false
  sorted : Txs.Sorted s.txs.map
  occupied : ∀ m, s0.txs.response + pre.length ≤ s0.txs.request →
    (s0.txs.response + pre.length < s0.txs.request → (s0.txs.get (s0.txs.response + pre.length)).isSome) →
    Occupied s0 m → Occupied s (if auto then m - pre.length else m)

theorem Upto.alive {auto : Bool} {s0 : Conn} {pre : List Response} {s : Conn} (h : Upto auto s0 pre s) : Alive s.resp := by
  unfold Alive
  rcases h.status with h | h | h <;> rw [h] <;> decide

theorem Upto.notOther {auto : Bool} {s0 : Conn} {pre : List Response} {s : Conn} (h : Upto auto s0 pre s) :
    s.resp.status ≠ .dataOther := by
  rcases h.status with h | h | h <;> rw [h] <;> decide

theorem rp_self {s : Conn} {t : Tx} (hs : Txs.Sorted s.txs.map) (h : s.txs.get s.txs.response = some t) (inp : PData)
    (hi : s.input = inp) : rp s s.resp t [] inp = s := by
  subst hi
  unfold rp Txs.set
  rw [Txs.put_self _ _ _ hs h, List.append_nil]

theorem occupied_rp {s : Conn} {m : Nat} (ho : Occupied s m) (h : Half) (t : Tx)
    (evs : List Event) (inp : PData) (hg : (s.txs.get s.txs.response).isSome) : Occupied (rp s h t evs inp) m := by
  have hl := Txs.length_put_of_some s.txs.response t s.txs.map ho.1 hg
  have hget : (rp s h t evs inp).txs.get s.txs.request = if s.txs.request = s.txs.response then some t else s.txs.get s.txs.request :=
    Txs.get_set _ _ _ _
  refine ⟨Txs.sorted_put _ _ _ ho.1, ?_⟩
  show ((rp s h t evs inp).txs.get s.txs.request = none ∧ (Txs.put s.txs.response t s.txs.map).length ≤ m) ∨
    (((rp s h t evs inp).txs.get s.txs.request).isSome ∧ (Txs.put s.txs.response t s.txs.map).length ≤ m + 1)
  rw [hget, hl]
  by_cases he : s.txs.request = s.txs.response
  · rw [if_pos he]
    rcases ho.2 with ⟨h1, -⟩ | ⟨-, h2⟩
    · rw [he] at h1
      rw [h1] at hg
      cases hg
    · exact .inr ⟨rfl, h2⟩
  · rw [if_neg he]
    exact ho.2

theorem Upto.rp {auto : Bool} {s0 : Conn} {pre : List Response} {s : Conn} (u : Upto auto s0 pre s) {h : Half}
    (hst : h.status = .new ∨ h.status = .open ∨ h.status = .data) {t0 : Tx} (hg : s.txs.get s.txs.response = some t0)
    (t : Tx) (evs : List Event) (inp : PData) : Upto auto s0 pre (rp s h t evs inp) := by
  have hget : ∀ j, j ≠ s.txs.response → (Model.rp s h t evs inp).txs.get j = s.txs.get j := by
    intro j hj
    exact (Txs.get_set _ _ _ _).trans (if_neg hj)
  refine ⟨?_, ?_, u.response, u.request, u.req, u.count, hst, u.notBlocked, Txs.sorted_put _ _ _ u.sorted, ?_⟩
  · intro i r hi
    have : i < pre.length := (List.getElem?_eq_some_iff.mp hi).1
    have h1 := u.records i r hi
    unfold AnswerKept at h1 ⊢
    rw [hget _ (by rw [u.response]; omega)]
    exact h1
  · intro j hj
    rw [hget _ (by rw [u.response]; omega)]
    exact u.others j hj
  · intro m h1 h2 h3
    exact occupied_rp (u.occupied m h1 h2 h3) _ _ _ _ (by rw [hg]; rfl)

theorem get_answered (auto : Bool) (txs : Txs) (t : Tx) (j : Nat) : (answeredTxs auto txs t).get j =
    if j = txs.response then (if auto then none else some t) else txs.get j := by
  unfold answeredTxs
  cases auto with
  | true =>
    show ((txs.set txs.response t).remove txs.response).get j = _
    rw [Txs.get_remove, Txs.get_set]
    split
    · rfl
    · rfl
  | false =>
    show (txs.set txs.response t).get j = _
    rw [Txs.get_set]
    rfl

theorem Upto.over {auto : Bool} {s0 : Conn} {pre : List Response} {s : Conn} (u : Upto auto s0 pre s) {h : Half}
    (hst : h.status = .new ∨ h.status = .open ∨ h.status = .data) {t0 t1 t : Tx} {r : Response}
    (hold : s0.txs.get s.txs.response = some t0) (hg : s.txs.get s.txs.response = some t1)
    (ht : RecordsResponse t r ∧ requestSide t = requestSide t0) (evs : List Event) (inp : PData) :
    Upto auto s0 (pre ++ [r]) (answered auto s h t evs inp) := by
  have hget : ∀ j, (answered auto s h t evs inp).txs.get j =
      if j = s.txs.response then (if auto then none else some t) else s.txs.get j := fun j => get_answered _ _ _ _
  have hl : (pre ++ [r]).length = pre.length + 1 := by simp
  refine ⟨?_, ?_, ?_, ?_, u.req, u.count, hst, u.notBlocked, ?_, ?_⟩
  · intro i r' hi
    rcases Nat.lt_or_ge i pre.length with hlt | hge
    · rw [List.getElem?_append_left hlt] at hi
      have h1 := u.records i r' hi
      have h2 : (answered auto s h t evs inp).txs.get (s0.txs.response + i) = s.txs.get (s0.txs.response + i) :=
        (hget _).trans (if_neg (by rw [u.response]; omega))
      unfold AnswerKept at h1 ⊢
      rw [h2]
      exact h1
    · have : i = pre.length := by
        have := (List.getElem?_eq_some_iff.mp hi).1
        omega
      subst this
      simp at hi
      subst hi
      unfold AnswerKept
      have h2 := (hget s.txs.response).trans (if_pos rfl)
      rw [← u.response, h2]
      cases auto with
      | true => rfl
      | false => exact ⟨t0, t, hold, rfl, ht⟩
  · intro j hj
    rw [hl] at hj
    rw [hget, if_neg (by rw [u.response]; omega)]
    exact u.others j (by omega)
  · show s.txs.response + 1 = _
    rw [u.response, hl]
    rfl
  · show (answeredTxs auto s.txs _).request = _
    rw [← u.request]
    unfold answeredTxs
    cases auto <;> rfl
  · show Txs.Sorted (answeredTxs auto s.txs _).map
    have hsort := Txs.sorted_put s.txs.response t s.txs.map u.sorted
    unfold answeredTxs
    cases auto with
    | true => exact Txs.sorted_erase _ _ hsort
    | false => exact hsort
  · intro m h1 h2 h3
    rw [hl] at h1
    have h4 := u.occupied m (by omega) (fun _ => by rw [← u.response, hold]; rfl) h3
    have h5 := occupied_answered (auto := auto) (k := 1) t hg (by rw [u.response, u.request]; omega)
      (s' := answered auto s h t evs inp) rfl h4 rfl
    have h6 : (if auto then (if auto then m - pre.length else m) - 1 else (if auto then m - pre.length else m)) =
        if auto then m - (pre ++ [r]).length else m := by
      rw [hl]
      cases auto
      · rfl
      · show m - _ - _ = m - _
        omega
    rwa [h6] at h5

/-- A new call. -/
theorem Upto.fed {auto : Bool} {s0 : Conn} {pre : List Response} {s : Conn} (u : Upto auto s0 pre s) (b : Bytes) :
    Upto auto s0 pre (responseFed b s) :=
  ⟨u.records, u.others, u.response, u.request, u.req, u.count, u.status, u.notBlocked, u.sorted, u.occupied⟩

/-! Where the parser is. -/

/-- The fields of these lines have been stored. -/
def Tabled (t : Tx) (hs : List HeaderLine) : Prop :=
  (t.responseHeaders, t.responseHeaderRepetitions) = (fieldsOf hs).foldl (fun s h => s.1.store s.2 h) (([], 0) : Headers × Nat)

theorem Tabled.add {t : Tx} {hs : List HeaderLine} (h : Tabled t hs) (js : List HeaderLine) :
    Tabled { t with
      responseHeaders := ((fieldsOf js).foldl (fun s h => s.1.store s.2 h) (t.responseHeaders, t.responseHeaderRepetitions)).1
      responseHeaderRepetitions :=
        ((fieldsOf js).foldl (fun s h => s.1.store s.2 h) (t.responseHeaders, t.responseHeaderRepetitions)).2 } (hs ++ js) := by
  unfold Tabled
  rw [show fieldsOf (hs ++ js) = fieldsOf hs ++ fieldsOf js from List.map_append, List.foldl_append, ← h]

theorem Tabled.stored {t : Tx} {hs : List HeaderLine} (h : Tabled t hs) (hw : ∀ h ∈ hs, h.WellFormed) :
    t.responseHeaders = storedTable HFlag.FIELD_REPEATED (fieldsOf hs) := by
  unfold Tabled at h
  rw [stored_lines _ hw] at h
  exact congrArg Prod.fst h

/-- In the middle of response `r`. -/
structure Amid (auto : Bool) (s0 : Conn) (all pre : List Response) (r : Response) (post : List Response) (s : Conn)
    (t0 t : Tx) : Prop where
  split : all = pre ++ r :: post
  upto : Upto auto s0 pre s
  old : s0.txs.get s.txs.response = some t0
  ans : AnswerableBy t0 r
  here : s.txs.get s.txs.response = some t
  parser : t.responseHeaderParser = resP

/-- What is known in the body, or behind it. -/
structure HeadDone (r : Response) (t : Tx) : Prop where
  encoding : t.responseContentEncodingProcessing = .none
  coding : t.responseTransferCoding = r.body.coding
  size : t.responseContentLength = r.body.size

/-- The callbacks for the head of a response. -/
def headEvents (r : Response) (k : Nat) : List Event :=
  [.tx .responseStart k, .tx .responseLine k, .data .responseHeaderData k (.ofBytes (renderBlock r.headers)),
   .tx .responseHeaders k]

/-- Those for some chunks. -/
def chunkEvents (k : Nat) (cs : List BodyChunk) : List Event := cs.flatMap fun c => answerBodyCallbacks k c.data

/-- The callbacks for the responses before the current one, and for the head of that. -/
def soFar (s0 : Conn) (pre : List Response) (r : Response) (k : Nat) : List Event :=
  responseCallbacks s0.txs.response pre ++ headEvents r k

/-- What follows the status line. -/
def behind (r : Response) (post : List Response) : List Token :=
  loose (renderBlock r.headers) ++ (r.body.answerTokens ++ post.flatMap Response.tokens)

/-- What follows a chunk. -/
def chunksLeft (ds : List BodyChunk) (last : Bytes) (trailer : List HeaderLine) (post : List Response) : List Token :=
  ds.flatMap answerChunkTokens ++ .line last :: (loose (renderBlock trailer) ++ post.flatMap Response.tokens)

/-- The transaction of the next response. -/
def NextFree (s0 s : Conn) : Prop :=
  (∀ t, s0.txs.get s.txs.response = some t → s.txs.get s.txs.response = some t) ∧
  (s0.txs.get s.txs.response = none →
    s.txs.get s.txs.response = none ∨ s.txs.get s.txs.response = some { index := s.txs.response })

/-- Where the parser is, and what is still to come. -/
inductive Midway (e : Env) (g : Log Event.ofResponse) (s0 : Conn) (all : List Response) : List Token → Conn → Prop where
  | idle {s : Conn} {pre post : List Response} (split : all = pre ++ post) (up : Upto e.cfg.txAutoDestroy s0 pre s)
      (hb : BetweenResponses s) (next : NextFree s0 s)
      (tr : Traced g (responseCallbacks s0.txs.response pre) s) : Midway e g s0 all (post.flatMap Response.tokens) s
  | line {s : Conn} {pre : List Response} {r : Response} {post : List Response} {p rem : Bytes} {t0 : Tx}
      (am : Amid e.cfg.txAutoDestroy s0 all pre r post s t0 { t0 with responseProgress := .line })
      (hx : t0.index = s.txs.response) (hp : p ++ rem = r.line) (hat : At s.resp .line p none none)
      (tr : Traced g (responseCallbacks s0.txs.response pre ++ [.tx .responseStart s.txs.response]) s) :
      Midway e g s0 all (loose rem ++ .line [13, 10] :: behind r post) s
  | head {s : Conn} {pre : List Response} {r : Response} {post : List Response} {header : Option Bytes} {d b : Bytes}
      {js ls : List HeaderLine} {t0 t : Tx} (am : Amid e.cfg.txAutoDestroy s0 all pre r post s t0 t)
      (hjl : r.headers = js ++ ls) (hls : ls = [] → js = []) (hb : header.getD [] ++ b = renderBlock ls) (hne : b ≠ [])
      (hd : d ++ b = renderBlock r.headers) (hlim : (header.getD []).length ≤ e.cfg.fieldLimit)
      (hat : At s.resp .headers [] header (some .responseHeaderData)) (ht : LineRead t0 r t)
      (hp : t.responseProgress = .headers) (hlen : t.responseEntityLen = 0) (hcl : t.responseContentLength = none)
      (htab : Tabled t js)
      (tr : TracedRaw g (responseCallbacks s0.txs.response pre ++
        [.tx .responseStart s.txs.response, .tx .responseLine s.txs.response]) .responseHeaderData s.txs.response d s) :
      Midway e g s0 all (loose b ++ (r.body.answerTokens ++ post.flatMap Response.tokens)) s
  | sized {s : Conn} {pre : List Response} {r : Response} {post : List Response} {d b : Bytes} {t0 t : Tx}
      (am : Amid e.cfg.txAutoDestroy s0 all pre r post s t0 t) (ht : LineRead t0 r t) (hh : HeadDone r t)
      (hbody : r.body = .sized (d ++ b)) (hne : b ≠ [])
      (hat : At s.resp .bodyIdentityClKnown [] none none) (hl : s.resp.bodyDataLeft = some b.length)
      (hlen : t.responseEntityLen = d.length)
      (htab : Tabled t r.headers) (tr : TracedBody g (soFar s0 pre r s.txs.response) s.txs.response d s) :
      Midway e g s0 all (loose b ++ post.flatMap Response.tokens) s
  | size {s : Conn} {pre : List Response} {r : Response} {post : List Response} {cs ds : List BodyChunk} {last : Bytes}
      {trailer : List HeaderLine} {t0 t : Tx} (am : Amid e.cfg.txAutoDestroy s0 all pre r post s t0 t) (ht : LineRead t0 r t)
      (hh : HeadDone r t)
      (hbody : r.body = .chunked (cs ++ ds) last trailer) (hat : At s.resp .bodyChunkedLength [] none none)
      (hlen : t.responseEntityLen = (carried cs).length) (htab : Tabled t r.headers)
      (tr : Traced g (soFar s0 pre r s.txs.response ++ chunkEvents s.txs.response cs) s) :
      Midway e g s0 all (chunksLeft ds last trailer post) s
  | data {s : Conn} {pre : List Response} {r : Response} {post : List Response} {cs ds : List BodyChunk} {c : BodyChunk}
      {last : Bytes} {trailer : List HeaderLine} {d b : Bytes} {t0 t : Tx}
      (am : Amid e.cfg.txAutoDestroy s0 all pre r post s t0 t) (ht : LineRead t0 r t) (hh : HeadDone r t)
      (hbody : r.body = .chunked (cs ++ c :: ds) last trailer) (hc : c.data = d ++ b) (hne : b ≠ [])
      (hat : At s.resp .bodyChunkedData [] none none) (hl : s.resp.chunkedLength = some b.length)
      (hlen : t.responseEntityLen = (carried cs).length + d.length) (htab : Tabled t r.headers)
      (tr : TracedBody g (soFar s0 pre r s.txs.response ++ chunkEvents s.txs.response cs) s.txs.response d s) :
      Midway e g s0 all (loose b ++ (loose [13, 10] ++ chunksLeft ds last trailer post)) s
  | dataEnd {s : Conn} {pre : List Response} {r : Response} {post : List Response} {cs ds : List BodyChunk}
      {last : Bytes} {trailer : List HeaderLine} {x : Bytes} {t0 t : Tx}
      (am : Amid e.cfg.txAutoDestroy s0 all pre r post s t0 t)
      (ht : LineRead t0 r t) (hh : HeadDone r t)
      (hbody : r.body = .chunked (cs ++ ds) last trailer) (hx : (10 : UInt8) ∉ x ∧ x.length ≤ 1)
      (hat : At s.resp .bodyChunkedDataEnd [] none none)
      (hlen : t.responseEntityLen = (carried cs).length) (htab : Tabled t r.headers)
      (tr : Traced g (soFar s0 pre r s.txs.response ++ chunkEvents s.txs.response cs) s) :
      Midway e g s0 all (loose (x ++ [10]) ++ chunksLeft ds last trailer post) s
  | trailer {s : Conn} {pre : List Response} {r : Response} {post : List Response} {cs : List BodyChunk} {last : Bytes}
      {trailer : List HeaderLine} {header : Option Bytes} {d b : Bytes} {js ls : List HeaderLine} {t0 t : Tx}
      (am : Amid e.cfg.txAutoDestroy s0 all pre r post s t0 t) (ht : LineRead t0 r t) (hh : HeadDone r t)
      (hbody : r.body = .chunked cs last trailer) (hjl : trailer = js ++ ls)
      (hls : ls = [] → js = []) (hb : header.getD [] ++ b = renderBlock ls) (hne : b ≠ []) (hd : d ++ b = renderBlock trailer)
      (hlim : (header.getD []).length ≤ e.cfg.fieldLimit) (hp : t.responseProgress = .trailer)
      (hat : At s.resp .headers [] header (some .responseTrailerData))
      (hlen : t.responseEntityLen = (carried cs).length) (htab : Tabled t (r.headers ++ js))
      (tr : TracedRaw g (soFar s0 pre r s.txs.response ++ chunkEvents s.txs.response cs) .responseTrailerData
        s.txs.response d s) :
      Midway e g s0 all (loose b ++ post.flatMap Response.tokens) s
  | final {s : Conn} {pre : List Response} {r r' : Response} {post : List Response} {p rem : Bytes} {t0 t : Tx}
      (am : Amid e.cfg.txAutoDestroy s0 all pre r (r' :: post) s t0 t) (ht : LineRead t0 r t) (hh : HeadDone r t)
      (hp : p ++ rem = r'.line) (hp0 : p ≠ [])
      (hat : At s.resp .finalize p none none) (hlen : t.responseEntityLen = r.body.content.length)
      (htab : Tabled t (r.headers ++ r.body.trailer))
      (tr : Traced g (soFar s0 pre r s.txs.response ++ r.body.answerCallbacks s.txs.response) s) :
      Midway e g s0 all (loose rem ++ .line [13, 10] :: behind r' post) s

/-- The call comes to its end, having asked for more data, and this is then to come. -/
def Pauses (e : Env) (g : Log Event.ofResponse) (s0 : Conn) (all : List Response) (later : List Token) (s : Conn) : Prop :=
  ∃ n s1 s2, Rounds (responseStep e) n s s1 ∧ responseStep e s1 = (.ok (some .data), s2) ∧ Midway e g s0 all later s2

theorem Pauses.now {e : Env} {g : Log Event.ofResponse} {s0 : Conn} {all : List Response} {later : List Token} {s s2 : Conn}
    (h : responseStep e s = (.ok (some .data), s2)) (h2 : Midway e g s0 all later s2) : Pauses e g s0 all later s :=
  ⟨0, s, s2, .zero _, h, h2⟩

theorem Pauses.after {e : Env} {g : Log Event.ofResponse} {s0 : Conn} {all : List Response} {later : List Token} {s s' : Conn}
    (h : responseStep e s = (.ok none, s')) (h2 : Pauses e g s0 all later s') : Pauses e g s0 all later s := by
  obtain ⟨n, s1, s2, h3, h4, h5⟩ := h2
  exact ⟨_, s1, s2, .next h h3, h4, h5⟩

/-- Data of fewer than `n` tokens is taken in. -/
def Goes (e : Env) (g : Log Event.ofResponse) (s0 : Conn) (all : List Response) (n : Nat) : Prop :=
  ∀ (c later : List Token) (s : Conn) (done : Bytes) (q : Nat), c.length < n → Midway e g s0 all (c ++ later) s →
    s.input = win done (bytesOf c) q → (s.resp.receiver ≠ none → q = done.length) → s.resp.state ≠ .finalize →
    Pauses e g s0 all later s

theorem Goes.mono {e : Env} {g : Log Event.ofResponse} {s0 : Conn} {all : List Response} {n n' : Nat} (h : Goes e g s0 all n) (hn : n' ≤ n) :
    Goes e g s0 all n' := fun c later s done q hc => h c later s done q (by omega)

/-- The responses fit in. -/
structure Fit (e : Env) (s0 : Conn) (all : List Response) : Prop where
  callbacks : CallbacksOK e
  ans : AllAnswerable s0 all
  line : ∀ r ∈ all, r.line.length + 2 ≤ e.cfg.fieldLimit
  fields : ∀ r ∈ all, ∀ h ∈ r.headers ++ r.body.trailer, h.render.length + 1 ≤ e.cfg.fieldLimit
  filled : ∀ r ∈ all.dropLast, r.Filled

end Model.Ans
