/-
Requests cut into pieces: where the parser is when a call returns, and how it goes on.
-/
import Verif.Lemmas.SegRun

namespace Model

open M Spec Props

/-! Callbacks that run in pieces. -/

theorem _root_.Spec.Pieces.refl (evs : List Event) : Pieces evs evs := by
  induction evs with
  | nil => exact .nil
  | cons ev evs ih => exact .same ih

theorem _root_.Spec.Pieces.append {a a' b b' : List Event} (h : Pieces a a') (h' : Pieces b b') : Pieces (a ++ b) (a' ++ b') := by
  induction h with
  | nil => exact h'
  | same _ ih => exact .same ih
  | raw hk hd _ ih =>
    rw [List.append_assoc]
    exact .raw hk hd ih
  | body hd hd' _ ih =>
    rw [List.append_assoc, List.append_assoc]
    exact .body hd hd' ih
  | answer hd hd' _ ih =>
    rw [List.append_assoc, List.append_assoc]
    exact .answer hd hd' ih

/-- What is said about the callbacks: only some are of interest (among them those of the side in question), these were
run before, and of those since, these are accounted for already. The callbacks of the other side are these. Some are
taken to have been run first, although they were not run since. -/
structure Log (own : Event → Bool) where
  keep : Event → Bool
  before : List Event
  said : List Event
  foreign : List Event
  assumed : List Event
  keeps : ∀ ev, own ev = true → keep ev = true

/-- Some more are accounted for. -/
def Log.say {own : Event → Bool} (g : Log own) (evs : List Event) : Log own := { g with said := g.said ++ evs }

/-- All callbacks are of interest. -/
def Log.all (own : Event → Bool) (before : List Event) : Log own :=
  ⟨fun _ => true, before, [], before.filter (fun ev => !own ev), [], fun _ _ => rfl⟩

theorem Log.all_filter (own : Event → Bool) (before evs : List Event) : evs.filter (Log.all own before).keep = evs :=
  List.filter_eq_self.mpr fun _ _ => rfl

theorem Log.own {own : Event → Bool} {evs : List Event} (h : evs.all own = true) : evs.filter (fun ev => !own ev) = [] :=
  List.filter_eq_nil_iff.mpr fun ev hev => by rw [List.all_eq_true.mp h ev hev]; decide

theorem Log.kept {own : Event → Bool} (g : Log own) {evs : List Event} (h : evs.all own = true) : evs.filter g.keep = evs :=
  List.filter_eq_self.mpr fun ev hev => g.keeps ev (List.all_eq_true.mp h ev hev)

section
variable {own : Event → Bool} {g : Log own}

/-- These callbacks have been run since, perhaps in pieces. -/
def Traced (g : Log own) (X : List Event) (s : Conn) : Prop :=
  s.trace.filter (fun ev => !own ev) = g.foreign ∧ ∃ evs, s.trace.filter g.keep = g.before ++ evs ∧ Pieces (g.said ++ X) (g.assumed ++ evs)

/-- These, and then raw data was handed out, which is not complete. -/
def TracedRaw (g : Log own) (X : List Event) (hk : DataHook) (k : Nat) (d : Bytes) (s : Conn) : Prop :=
  s.trace.filter (fun ev => !own ev) = g.foreign ∧
  ∃ (evs : List Event) (ds : List Bytes), s.trace.filter g.keep = g.before ++ (evs ++ ds.map fun d => .data hk k (.ofBytes d)) ∧
    Pieces (g.said ++ X) (g.assumed ++ evs) ∧ ds.flatten = d

/-- These, and then data of the body was handed out, which is not complete. -/
def TracedBody (g : Log own) (X : List Event) (k : Nat) (d : Bytes) (s : Conn) : Prop :=
  s.trace.filter (fun ev => !own ev) = g.foreign ∧
  ∃ (evs : List Event) (ds : List Bytes), s.trace.filter g.keep = g.before ++ (evs ++ ds.flatMap fun d => bodyCallbacks k (some d)) ∧
    Pieces (g.said ++ X) (g.assumed ++ evs) ∧ ds.flatten = d ∧ ∀ d ∈ ds, d ≠ []

theorem Traced.add {s s' : Conn} {X evs : List Event} (h : Traced g X s) (hs : s'.trace = s.trace ++ evs)
    (ho : evs.all own = true := by rfl) : Traced g (X ++ evs) s' := by
  obtain ⟨h0, evs', h1, h2⟩ := h
  refine ⟨by rw [hs, List.filter_append, h0, Log.own ho, List.append_nil], evs' ++ evs, by rw [hs, List.filter_append, h1, g.kept ho, List.append_assoc], ?_⟩
  rw [← List.append_assoc, ← List.append_assoc g.assumed]
  exact h2.append (.refl _)

theorem Traced.same {s s' : Conn} {X : List Event} (h : Traced g X s) (hs : s'.trace = s.trace) : Traced g X s' := by
  unfold Traced
  rw [hs]
  exact h

theorem Traced.raw {s s' : Conn} {X : List Event} (h : Traced g X s) (hs : s'.trace = s.trace) (hk : DataHook) (k : Nat) :
    TracedRaw g X hk k [] s' := by
  obtain ⟨h0, evs', h1, h2⟩ := h
  exact ⟨by rw [hs]; exact h0, evs', [], by rw [hs, h1]; simp, h2, rfl⟩

theorem Traced.body {s s' : Conn} {X : List Event} (h : Traced g X s) (hs : s'.trace = s.trace) (k : Nat) :
    TracedBody g X k [] s' := by
  obtain ⟨h0, evs', h1, h2⟩ := h
  exact ⟨by rw [hs]; exact h0, evs', [], by rw [hs, h1]; simp, h2, rfl, by simp⟩

theorem TracedRaw.add {s s' : Conn} {X : List Event} {hk : DataHook} {k : Nat} {d x : Bytes} (h : TracedRaw g X hk k d s)
    (hs : s'.trace = s.trace ++ [.data hk k (.ofBytes x)]) (ho : own (.data hk k (.ofBytes x)) = true := by rfl) :
    TracedRaw g X hk k (d ++ x) s' := by
  obtain ⟨h0, evs, ds, h1, h2, h3⟩ := h
  have hf := g.kept (evs := [.data hk k (.ofBytes x)]) (by simp [ho])
  exact ⟨by rw [hs, List.filter_append, h0, Log.own (evs := [.data hk k (.ofBytes x)]) (by simp [ho]), List.append_nil],
    evs, ds ++ [x], by rw [hs, List.filter_append, h1, hf]; simp, h2, by simp [h3]⟩

theorem TracedRaw.close {s s' : Conn} {X evs : List Event} {hk : DataHook} {k : Nat} {d x : Bytes}
    (h : TracedRaw g X hk k d s) (hhk : hk ∈ rawHooks)
    (hs : s'.trace = s.trace ++ (.data hk k (.ofBytes x) :: evs))
    (ho : (Event.data hk k (.ofBytes x) :: evs).all own = true := by rfl) :
    Traced g (X ++ (.data hk k (.ofBytes (d ++ x)) :: evs)) s' := by
  obtain ⟨h0, evs', ds, h1, h2, h3⟩ := h
  refine ⟨by rw [hs, List.filter_append, h0, Log.own ho, List.append_nil], evs' ++ ((ds ++ [x]).map (fun d => .data hk k (.ofBytes d)) ++ evs), ?_, ?_⟩
  · rw [hs, List.filter_append, h1, g.kept ho]; simp
  rw [← List.append_assoc g.said, ← List.append_assoc g.assumed]
  refine h2.append ?_
  have : d ++ x = (ds ++ [x]).flatten := by simp [h3]
  rw [this]
  exact .raw hhk (by simp) (.refl _)

theorem TracedBody.add {s s' : Conn} {X : List Event} {k : Nat} {d x : Bytes} (h : TracedBody g X k d s)
    (hs : s'.trace = s.trace ++ if x = [] then [] else bodyCallbacks k (some x))
    (ho : (bodyCallbacks k (some x)).all own = true := by rfl) : TracedBody g X k (d ++ x) s' := by
  obtain ⟨h0, evs, ds, h1, h2, h3, h4⟩ := h
  by_cases hx : x = []
  · rw [if_pos hx, List.append_nil] at hs
    exact ⟨by rw [hs]; exact h0, evs, ds, by rw [hs, h1], h2, by rw [hx, List.append_nil, h3], h4⟩
  · rw [if_neg hx] at hs
    refine ⟨by rw [hs, List.filter_append, h0, Log.own ho, List.append_nil], evs, ds ++ [x], by rw [hs, List.filter_append, h1, g.kept ho]; simp, h2, by simp [h3], ?_⟩
    intro y hy
    rcases List.mem_append.mp hy with hy | hy
    · exact h4 y hy
    · rw [List.mem_singleton.mp hy]; exact hx

theorem TracedBody.close {s s' : Conn} {X evs : List Event} {k : Nat} {d x : Bytes} (h : TracedBody g X k d s)
    (hx : x ≠ []) (hs : s'.trace = s.trace ++ (bodyCallbacks k (some x) ++ evs))
    (ho : (bodyCallbacks k (some x) ++ evs).all own = true := by rfl) :
    Traced g (X ++ (bodyCallbacks k (some (d ++ x)) ++ evs)) s' := by
  obtain ⟨h0, evs', ds, h1, h2, h3, h4⟩ := h
  refine ⟨by rw [hs, List.filter_append, h0, Log.own ho, List.append_nil], evs' ++ ((ds ++ [x]).flatMap (fun d => bodyCallbacks k (some d)) ++ evs), ?_, ?_⟩
  · rw [hs, List.filter_append, h1, g.kept ho]; simp
  rw [← List.append_assoc g.said, ← List.append_assoc g.assumed]
  refine h2.append ?_
  have : d ++ x = (ds ++ [x]).flatten := by simp [h3]
  rw [this]
  refine .body (by simp) ?_ (.refl _)
  intro y hy
  rcases List.mem_append.mp hy with hy | hy
  · exact h4 y hy
  · rw [List.mem_singleton.mp hy]; exact hx

end

/-! The transactions. -/

/-- The parser has taken in these requests, and may be in the middle of another. -/
structure Upto (s0 : Conn) (m : Nat) (pre : List Request) (s : Conn) : Prop where
  records : ∀ i r, pre[i]? = some r →
    ∃ t, s.txs.get (s0.txs.request + i) = some t ∧ Records t (s0.txs.request + i) r ∧ Unanswered t
  others : ∀ j, j < s0.txs.request → s.txs.get j = s0.txs.get j
  request : s.txs.request = s0.txs.request + pre.length
  response : s.txs.response = s0.txs.response
  resp : s.resp = s0.resp ∨ (s0.resp.status = .dataOther ∧ s.resp = { s0.resp with status := .data })
  blocked : s.responseDataOtherAtTxEnd = s0.responseDataOtherAtTxEnd
  beyond : ∀ j, s.txs.request < j → s.txs.get j = none
  status : s.req.status = .new ∨ s.req.status = .open ∨ s.req.status = .data ∨ s.req.status = .dataOther
  occupied : Occupied s (m + pre.length)

theorem Upto.alive {s0 : Conn} {m : Nat} {pre : List Request} {s : Conn} (h : Upto s0 m pre s) : Alive s.req := by
  unfold Alive
  rcases h.status with h | h | h | h <;> rw [h] <;> decide

theorem Txs.put_self (k : Nat) (t : Tx) (m : List (Nat × Tx)) (hs : Sorted m) (h : lookup m k = some t) : put k t m = m := by
  induction m with
  | nil => cases h
  | cons p m ih =>
    obtain ⟨j, u⟩ := p
    simp only [Sorted, List.map_cons, List.pairwise_cons] at hs ih
    unfold lookup at h
    by_cases hj : j = k
    · subst hj
      simp at h
      simp [put, h]
    · have hb : (k == j) = false := beq_eq_false_iff_ne.mpr (Ne.symm hj)
      rw [List.lookup_cons, hb] at h
      have h1 : j < k := by
        obtain ⟨x, hx⟩ := List.lookup_eq_some_iff.mp h
        obtain ⟨y, hxy, -⟩ := hx
        exact hs.1 k (by rw [hxy]; simp)
      simp only [put]
      rw [if_neg (by omega), if_neg (by omega), ih hs.2 h]

theorem rq_self {s : Conn} {t : Tx} (hs : Txs.Sorted s.txs.map) (h : s.txs.get s.txs.request = some t) (inp : PData)
    (hi : s.input = inp) : rq s s.req t [] inp = s := by
  subst hi
  unfold rq Txs.set
  rw [Txs.put_self _ _ _ hs h, List.append_nil]

theorem Occupied.rq {s : Conn} {m : Nat} (h : Occupied s m) (hf : Half) (t : Tx)
    (evs : List Event) (inp : PData) : Occupied (rq s hf t evs inp) m := by
  refine ⟨Txs.sorted_put _ _ _ h.1, .inr ⟨?_, ?_⟩⟩
  · rw [rq_request, rq_get]; rfl
  · show (Txs.put _ _ _).length ≤ _
    rcases h.2 with ⟨-, h2⟩ | ⟨h1, h2⟩
    · have := Txs.length_put_le s.txs.request t s.txs.map
      omega
    · have := Txs.length_put_of_some s.txs.request t s.txs.map h.1 h1
      omega

theorem Upto.rq {s0 : Conn} {m : Nat} {pre : List Request} {s : Conn} (u : Upto s0 m pre s) {h : Half}
    (hst : h.status = .new ∨ h.status = .open ∨ h.status = .data ∨ h.status = .dataOther) (t : Tx) (evs : List Event) (inp : PData) :
    Upto s0 m pre (rq s h t evs inp) := by
  have hget : ∀ j, j ≠ s.txs.request → (Model.rq s h t evs inp).txs.get j = s.txs.get j := by
    intro j hj
    exact (Txs.get_set _ _ _ _).trans (if_neg hj)
  refine ⟨?_, ?_, u.request, u.response, u.resp, u.blocked, ?_, hst, u.occupied.rq h t evs inp⟩
  · intro i r hi
    have : i < pre.length := (List.getElem?_eq_some_iff.mp hi).1
    rw [hget _ (by rw [u.request]; omega)]
    exact u.records i r hi
  · intro j hj
    rw [hget _ (by rw [u.request]; omega)]
    exact u.others j hj
  · intro j hj
    have hj : s.txs.request < j := hj
    rw [hget _ (by omega)]
    exact u.beyond j hj

theorem Upto.over {s0 : Conn} {m : Nat} {pre : List Request} {s : Conn} (u : Upto s0 m pre s) {h : Half}
    (hst : h.status = .new ∨ h.status = .open ∨ h.status = .data ∨ h.status = .dataOther) {t : Tx} {r : Request}
    (ht : Records t s.txs.request r ∧ Unanswered t) (evs : List Event) (inp : PData) :
    Upto s0 m (pre ++ [r]) (over s h t evs inp) := by
  have hget : ∀ j, (Model.over s h t evs inp).txs.get j = if j = s.txs.request then some t else s.txs.get j :=
    fun j => Txs.get_set _ _ _ _
  refine ⟨?_, ?_, ?_, u.response, u.resp, u.blocked, ?_, hst, ?_⟩
  · intro i r' hi
    rw [hget]
    rcases Nat.lt_or_ge i pre.length with hl | hl
    · rw [List.getElem?_append_left hl] at hi
      rw [if_neg (by rw [u.request]; omega)]
      exact u.records i r' hi
    · have : i = pre.length := by
        have := (List.getElem?_eq_some_iff.mp hi).1
        simp at this
        omega
      subst this
      simp at hi
      subst hi
      rw [u.request] at ht ⊢
      rw [if_pos rfl]
      exact ⟨t, rfl, ht⟩
  · intro j hj
    rw [hget, if_neg (by rw [u.request]; omega)]
    exact u.others j hj
  · show s.txs.request + 1 = _
    rw [u.request, List.length_append]
    rfl
  · intro j hj
    have hj : s.txs.request + 1 < j := hj
    rw [hget, if_neg (by omega)]
    exact u.beyond j (by omega)
  · refine ⟨Txs.sorted_put _ _ _ u.occupied.1, .inl ⟨?_, ?_⟩⟩
    · show (Model.over s h t evs inp).txs.get (s.txs.request + 1) = none
      rw [hget, if_neg (by omega)]
      exact u.beyond _ (by omega)
    · show (Txs.put _ _ _).length ≤ _
      rw [List.length_append, List.length_singleton]
      rcases u.occupied.2 with ⟨-, h2⟩ | ⟨h1, h2⟩
      · have := Txs.length_put_le s.txs.request t s.txs.map
        omega
      · have := Txs.length_put_of_some s.txs.request t s.txs.map u.occupied.1 h1
        omega

/-- A new call. -/
theorem Upto.fed {s0 : Conn} {m : Nat} {pre : List Request} {s : Conn} (u : Upto s0 m pre s) (b : Bytes) :
    Upto s0 m pre (requestFed b s) := by
  refine ⟨u.records, u.others, u.request, u.response, ?_, u.blocked, u.beyond, u.status, u.occupied⟩
  have h0 : (requestFed b s).resp = if s.resp.status = .dataOther then { s.resp with status := .data } else s.resp := rfl
  rw [h0]
  rcases u.resp with h | ⟨h1, h2⟩
  · rw [h]
    split
    · rename_i h'
      exact .inr ⟨h', rfl⟩
    · exact .inl rfl
  · rw [if_neg (by rw [h2]; simp)]
    exact .inr ⟨h1, h2⟩

/-! Where the parser is. -/

/-- The request side. -/
structure At (h : Half) (st : State) (buf : Bytes) (header : Option Bytes) (rcv : Option DataHook) : Prop where
  state : h.state = st
  previous : h.statePrevious = st
  buf : h.buf = buf
  header : h.header = header
  receiver : h.receiver = rcv

/-- What is known when the line of request `k` has been read. -/
structure Began (r : Request) (k : Nat) (t : Tx) : Prop where
  index : t.index = k
  line : t.requestLine = some r.line
  method : t.requestMethod = some r.method
  methodNumber : t.requestMethodNumber = Method.new r.method
  uri : t.requestUri = some r.uri
  protocol : t.requestProtocol = some r.protocol
  protocolNumber : t.requestProtocolNumber = parseProtocol r.protocol
  notProtocol09 : t.isProtocol09 = false
  parser : t.requestHeaderParser = reqP
  unanswered : Unanswered t
  contentLength : t.requestContentLength = none
  progress : t.requestProgress = .headers
  length : t.requestEntityLen = 0

/-- The fields of these lines have been stored. -/
def Tabled (t : Tx) (hs : List HeaderLine) : Prop :=
  (t.requestHeaders, t.requestHeaderRepetitions) = (fieldsOf hs).foldl (fun s h => s.1.store s.2 h) (([], 0) : Headers × Nat)

theorem Tabled.add {t : Tx} {hs : List HeaderLine} (h : Tabled t hs) (js : List HeaderLine) :
    Tabled { t with
      requestHeaders := ((fieldsOf js).foldl (fun s h => s.1.store s.2 h) (t.requestHeaders, t.requestHeaderRepetitions)).1
      requestHeaderRepetitions :=
        ((fieldsOf js).foldl (fun s h => s.1.store s.2 h) (t.requestHeaders, t.requestHeaderRepetitions)).2 } (hs ++ js) := by
  unfold Tabled
  rw [show fieldsOf (hs ++ js) = fieldsOf hs ++ fieldsOf js from List.map_append, List.foldl_append, ← h]

theorem Tabled.stored {t : Tx} {hs : List HeaderLine} (h : Tabled t hs) (hw : ∀ h ∈ hs, h.WellFormed) :
    t.requestHeaders = storedTable HFlag.FIELD_REPEATED (fieldsOf hs) := by
  unfold Tabled at h
  rw [stored_lines _ hw] at h
  exact congrArg Prod.fst h

/-- In the body, or behind it. -/
structure BodyAt (s0 : Conn) (m : Nat) (all pre : List Request) (r : Request) (post : List Request) (s : Conn) (t : Tx) : Prop where
  split : all = pre ++ r :: post
  upto : Upto s0 m pre s
  here : s.txs.get s.txs.request = some t
  head : HeadRead r s.txs.request t
  parser : t.requestHeaderParser = reqP

/-- The callbacks for the head of a request. -/
def headEvents (r : Request) (k : Nat) : List Event :=
  [.tx .requestStart k, .tx .requestUriNormalize k, .tx .requestLine k,
   .data .requestHeaderData k (.ofBytes (renderBlock r.headers)), .tx .requestHeaders k]

/-- Those for some chunks. -/
def chunkEvents (k : Nat) (cs : List BodyChunk) : List Event := cs.flatMap fun c => bodyCallbacks k (some c.data)

/-- The callbacks for the requests before the current one, and for the head of that. -/
def soFar (s0 : Conn) (pre : List Request) (r : Request) (k : Nat) : List Event :=
  requestCallbacks s0.txs.request pre ++ headEvents r k

/-- Where the parser is, and what is still to come. -/
inductive Midway (e : Env) (g : Log Event.ofRequest) (s0 : Conn) (m : Nat) (all : List Request) : List Token → Conn → Prop where
  | idle {s : Conn} {pre post : List Request} (split : all = pre ++ post) (up : Upto s0 m pre s) (hb : BetweenRequests s)
      (tr : Traced g (requestCallbacks s0.txs.request pre) s) : Midway e g s0 m all (post.flatMap Request.tokens) s
  | line {s : Conn} {pre : List Request} {r : Request} {post : List Request} {p rem : Bytes} (split : all = pre ++ r :: post)
      (up : Upto s0 m pre s) (hp : p ++ rem = r.line ++ [13, 10]) (hrem : rem ≠ []) (hat : At s.req .line p none none)
      (here : s.txs.get s.txs.request = some { index := s.txs.request, requestProgress := .line })
      (tr : Traced g (requestCallbacks s0.txs.request pre ++ [.tx .requestStart s.txs.request]) s) :
      Midway e g s0 m all (loose rem ++ (blockTokens r.headers ++ (r.body.tokens ++ post.flatMap Request.tokens))) s
  | head {s : Conn} {pre : List Request} {r : Request} {post : List Request} {header : Option Bytes} {d b : Bytes}
      {js ls : List HeaderLine} {t : Tx} (split : all = pre ++ r :: post) (up : Upto s0 m pre s) (hjl : r.headers = js ++ ls)
      (hls : ls = [] → js = []) (hb : header.getD [] ++ b = linesOf ls) (hd : d ++ b = linesOf r.headers)
      (hlim : (header.getD []).length ≤ e.cfg.fieldLimit)
      (hat : At s.req .headers [] header (some .requestHeaderData)) (here : s.txs.get s.txs.request = some t)
      (ht : Began r s.txs.request t) (htab : Tabled t js)
      (tr : TracedRaw g (requestCallbacks s0.txs.request pre ++
        [.tx .requestStart s.txs.request, .tx .requestUriNormalize s.txs.request, .tx .requestLine s.txs.request])
        .requestHeaderData s.txs.request d s) :
      Midway e g s0 m all (loose b ++ .line [13, 10] :: (r.body.tokens ++ post.flatMap Request.tokens)) s
  | sized {s : Conn} {pre : List Request} {r : Request} {post : List Request} {d b : Bytes} {t : Tx}
      (ib : BodyAt s0 m all pre r post s t) (hbody : r.body = .sized (d ++ b)) (hne : b ≠ [])
      (hat : At s.req .bodyIdentity [] none none) (hl : s.req.bodyDataLeft = some b.length) (hlen : t.requestEntityLen = d.length)
      (htab : Tabled t r.headers) (tr : TracedBody g (soFar s0 pre r s.txs.request) s.txs.request d s) :
      Midway e g s0 m all (loose b ++ post.flatMap Request.tokens) s
  | size {s : Conn} {pre : List Request} {r : Request} {post : List Request} {cs ds : List BodyChunk} {last : Bytes}
      {trailer : List HeaderLine} {t : Tx} (ib : BodyAt s0 m all pre r post s t)
      (hbody : r.body = .chunked (cs ++ ds) last trailer) (hat : At s.req .bodyChunkedLength [] none none)
      (hlen : t.requestEntityLen = (carried cs).length) (htab : Tabled t r.headers)
      (tr : Traced g (soFar s0 pre r s.txs.request ++ chunkEvents s.txs.request cs) s) :
      Midway e g s0 m all (ds.flatMap chunkTokens ++ .line last :: (blockTokens trailer ++ post.flatMap Request.tokens)) s
  | data {s : Conn} {pre : List Request} {r : Request} {post : List Request} {cs ds : List BodyChunk} {c : BodyChunk}
      {last : Bytes} {trailer : List HeaderLine} {d b : Bytes} {t : Tx} (ib : BodyAt s0 m all pre r post s t)
      (hbody : r.body = .chunked (cs ++ c :: ds) last trailer) (hc : c.data = d ++ b) (hne : b ≠ [])
      (hat : At s.req .bodyChunkedData [] none none) (hl : s.req.chunkedLength = some b.length)
      (hlen : t.requestEntityLen = (carried cs).length + d.length) (htab : Tabled t r.headers)
      (tr : TracedBody g (soFar s0 pre r s.txs.request ++ chunkEvents s.txs.request cs) s.txs.request d s) :
      Midway e g s0 m all (loose b ++ .line [13, 10] ::
        (ds.flatMap chunkTokens ++ .line last :: (blockTokens trailer ++ post.flatMap Request.tokens))) s
  | dataEnd {s : Conn} {pre : List Request} {r : Request} {post : List Request} {cs ds : List BodyChunk}
      {last : Bytes} {trailer : List HeaderLine} {t : Tx} (ib : BodyAt s0 m all pre r post s t)
      (hbody : r.body = .chunked (cs ++ ds) last trailer) (hat : At s.req .bodyChunkedDataEnd [] none none)
      (hlen : t.requestEntityLen = (carried cs).length) (htab : Tabled t r.headers)
      (tr : Traced g (soFar s0 pre r s.txs.request ++ chunkEvents s.txs.request cs) s) :
      Midway e g s0 m all (.line [13, 10] ::
        (ds.flatMap chunkTokens ++ .line last :: (blockTokens trailer ++ post.flatMap Request.tokens))) s
  | trailer {s : Conn} {pre : List Request} {r : Request} {post : List Request} {cs : List BodyChunk} {last : Bytes}
      {trailer : List HeaderLine} {header : Option Bytes} {d b : Bytes} {js ls : List HeaderLine} {t : Tx}
      (ib : BodyAt s0 m all pre r post s t) (hbody : r.body = .chunked cs last trailer) (hjl : trailer = js ++ ls)
      (hls : ls = [] → js = []) (hb : header.getD [] ++ b = linesOf ls) (hd : d ++ b = linesOf trailer)
      (hlim : (header.getD []).length ≤ e.cfg.fieldLimit) (hp : t.requestProgress = .trailer)
      (hat : At s.req .headers [] header (some .requestTrailerData))
      (hlen : t.requestEntityLen = (carried cs).length) (htab : Tabled t (r.headers ++ js))
      (tr : TracedRaw g (soFar s0 pre r s.txs.request ++ chunkEvents s.txs.request cs) .requestTrailerData s.txs.request d s) :
      Midway e g s0 m all (loose b ++ .line [13, 10] :: post.flatMap Request.tokens) s
  | final {s : Conn} {pre : List Request} {r r' : Request} {post : List Request} {p rem : Bytes} {t : Tx}
      (ib : BodyAt s0 m all pre r (r' :: post) s t) (hp : p ++ rem = r'.line ++ [13, 10]) (hrem : rem ≠ []) (hp0 : p ≠ [])
      (hat : At s.req .finalize p none none) (hlen : t.requestEntityLen = r.body.content.length)
      (htab : Tabled t (r.headers ++ r.body.trailer))
      (tr : Traced g (soFar s0 pre r s.txs.request ++ bodyRun s.txs.request r.body) s) :
      Midway e g s0 m all (loose rem ++ (blockTokens r'.headers ++ (r'.body.tokens ++ post.flatMap Request.tokens))) s

/-- The call comes to its end, having asked for more data, and this is then to come. -/
def Pauses (e : Env) (g : Log Event.ofRequest) (s0 : Conn) (m : Nat) (all : List Request) (later : List Token) (s : Conn) : Prop :=
  ∃ n s1 s2, Rounds (requestStep e) n s s1 ∧ requestStep e s1 = (.ok (some .data), s2) ∧ Midway e g s0 m all later s2

theorem Pauses.now {e : Env} {g : Log Event.ofRequest} {s0 : Conn} {m : Nat} {all : List Request} {later : List Token} {s s2 : Conn}
    (h : requestStep e s = (.ok (some .data), s2)) (h2 : Midway e g s0 m all later s2) : Pauses e g s0 m all later s :=
  ⟨0, s, s2, .zero _, h, h2⟩

theorem Pauses.after {e : Env} {g : Log Event.ofRequest} {s0 : Conn} {m : Nat} {all : List Request} {later : List Token} {s s' : Conn}
    (h : requestStep e s = (.ok none, s')) (h2 : Pauses e g s0 m all later s') : Pauses e g s0 m all later s := by
  obtain ⟨n, s1, s2, h3, h4, h5⟩ := h2
  exact ⟨_, s1, s2, .next h h3, h4, h5⟩

/-- Data of fewer than `n` tokens is taken in. -/
def Goes (e : Env) (g : Log Event.ofRequest) (s0 : Conn) (m : Nat) (all : List Request) (n : Nat) : Prop :=
  ∀ (c later : List Token) (s : Conn) (done : Bytes) (q : Nat), c.length < n → Midway e g s0 m all (c ++ later) s →
    s.input = win done (bytesOf c) q → (s.req.receiver ≠ none → q = done.length) → s.req.state ≠ .finalize →
    Pauses e g s0 m all later s

theorem Goes.mono {e : Env} {g : Log Event.ofRequest} {s0 : Conn} {m : Nat} {all : List Request} {n n' : Nat} (h : Goes e g s0 m all n) (hn : n' ≤ n) :
    Goes e g s0 m all n' := fun c later s done q hc => h c later s done q (by omega)

/-- The requests fit in. -/
structure Fit (e : Env) (m : Nat) (all : List Request) : Prop where
  willing : Willing e
  wf : ∀ r ∈ all, r.WellFormed
  line : ∀ r ∈ all, r.line.length + 2 ≤ e.cfg.fieldLimit
  fields : ∀ r ∈ all, ∀ h ∈ r.headers ++ r.body.trailer, h.render.length ≤ e.cfg.fieldLimit
  room : m + all.length ≤ e.cfg.maxTx

end Model
