/-
C75: a callback's refusal is obeyed.
-/
import Verif.Lemmas.ObeysCalls
import Verif.Props.Stream

namespace Props

open Model Spec

/-- C75. Whatever was fed before, and whatever is fed now: when a callback that is obeyed refuses, it is the last callback
of the call, the call answers accordingly (`STOP` if that was the refusal, otherwise `ERROR`), and so does the state of
the stream. -/
theorem C75_obeyed_partial {e : Env} (hp : PlainAnswers e) {s : Conn} (hs : Reachable e s) {op : Op} {status : Conn → StreamState}
    (ho : Feeding op status) {r : Option StreamState} {s' : Conn} (h : op.run e s = (.ok r, s'))
    {past : List Event} {ev : Event} {later : List Event} {st : Status} (ht : s'.trace = past ++ ev :: later)
    (hn : s.trace.length ≤ past.length) (hev : Obeyed e.cfg ev) (hr : e.hook past ev = .error st) :
    later = [] ∧ r = some (answerTo st) ∧ status s' = answerTo st := by
  rcases feeding_fed hp (reachable_plainConn hp hs) ho h with hc | ⟨st', hk, h1, h2⟩
  · have := hc.fine past ev later ht hn hev
    rw [hr] at this
    cases this
  · obtain ⟨pre, ev', ht', hn', -, hr', hall⟩ := hk.last
    rw [ht] at ht'
    rcases List.eq_nil_or_concat later with rfl | ⟨later', y, rfl⟩
    · have h3 := List.append_inj_left' ht' rfl
      have h4 := List.append_inj_right' ht' rfl
      cases h4
      subst h3
      rw [hr] at hr'
      cases hr'
      exact ⟨rfl, h1, h2⟩
    · rw [List.concat_eq_append, ← List.cons_append, ← List.append_assoc] at ht'
      have := hall past ev later' (List.append_inj_left' ht' rfl).symm hn hev
      rw [hr] at this
      cases this

/-- C75. Conversely, when a call answers neither `STOP` nor `ERROR`, every callback that is obeyed has accepted. -/
theorem C75_accepted_partial {e : Env} (hp : PlainAnswers e) {s : Conn} (hs : Reachable e s) {op : Op} {status : Conn → StreamState}
    (ho : Feeding op status) {r : Option StreamState} {s' : Conn} (h : op.run e s = (.ok r, s'))
    (h1 : r ≠ some .stop) (h2 : r ≠ some .error) {past : List Event} {ev : Event} {later : List Event}
    (ht : s'.trace = past ++ ev :: later) (hn : s.trace.length ≤ past.length) (hev : Obeyed e.cfg ev) :
    e.hook past ev = .ok () := by
  cases hr : e.hook past ev with
  | ok u => rfl
  | error st =>
    have := (C75_obeyed_partial hp hs ho h ht hn hev hr).2.1
    rw [this] at h1 h2
    cases st <;> first | exact absurd rfl h1 | exact absurd rfl h2

/-- C75. From then on the stream gives the same answer to every piece of data, without any callback being run. -/
theorem C75_request_over {e : Env} {s : Conn} {st : Status} (h : s.req.status = answerTo st) (c : Chunk) :
    ((Op.request c).run e s).1 = .ok (some (answerTo st)) ∧ ((Op.request c).after e s).trace = s.trace ∧
      ((Op.request c).after e s).req.status = answerTo st := by
  have ha : answerTo st = .stop ∨ answerTo st = .error := by cases st <;> first | exact .inl rfl | exact .inr rfl
  unfold Op.after
  rcases ha with ha | ha
  · rw [ha] at h ⊢
    rw [C28_request_stop e s c h]
    exact ⟨rfl, rfl, h⟩
  · rw [ha] at h ⊢
    rw [C28_request_error e s c h]
    exact ⟨rfl, rfl, h⟩

theorem C75_response_over {e : Env} {s : Conn} {st : Status} (h : s.resp.status = answerTo st) (c : Chunk) :
    ((Op.response c).run e s).1 = .ok (some (answerTo st)) ∧ ((Op.response c).after e s).trace = s.trace ∧
      ((Op.response c).after e s).resp.status = answerTo st := by
  have ha : answerTo st = .stop ∨ answerTo st = .error := by cases st <;> first | exact .inl rfl | exact .inr rfl
  unfold Op.after
  rcases ha with ha | ha
  · rw [ha] at h ⊢
    rw [C28_response_stop e s c h]
    exact ⟨rfl, rfl, h⟩
  · rw [ha] at h ⊢
    rw [C28_response_error e s c h]
    exact ⟨rfl, rfl, h⟩

/-! ### Cases -/

/-- An environment in which one kind of data callback refuses. -/
def refusingData (h : DataHook) (st : Status) : Env :=
  { sampleEnv with
    cfg := { ({} : Config) with responseDecompressionEnabled := false }
    hook := fun _ ev =>
      match ev with
      | .data h' _ _ => if h' = h then .error st else .ok ()
      | _ => .ok () }

/-- Refusing with `STOP` or `ERROR` is a plain answer. -/
theorem plain_failing (k : TxHook) (st : Status) (h : st = .stop ∨ st = .error) : PlainAnswers (failingEnv k st) := by
  intro past ev st' h'
  unfold failingEnv at h'
  dsimp only at h'
  split at h'
  · split at h'
    · cases h'
      rcases h with rfl | rfl <;> decide
    · cases h'
  · cases h'

theorem plain_refusing (k : DataHook) (st : Status) (h : st = .stop ∨ st = .error) : PlainAnswers (refusingData k st) := by
  intro past ev st' h'
  unfold refusingData at h'
  dsimp only at h'
  split at h'
  · split at h'
    · cases h'
      rcases h with rfl | rfl <;> decide
    · cases h'
  · cases h'

/-- What the call answers, the state of the stream and the callbacks run. -/
def refusalOf (e : Env) (ops : List Op) (op : Op) : Except Err (Option StreamState) × List Event :=
  ((op.run e (Conn.history e ops)).1, (op.after e (Conn.history e ops)).trace)

/-- The headers of a request are refused: no body is given out. -/
example : refusalOf (failingEnv .requestHeaders .stop) [.open]
    (.request (.data (b! "POST / HTTP/1.1\r\nHost: a\r\nContent-Length: 3\r\n\r\nabcGET / HTTP/1.1\r\n\r\n"))) =
    (.ok (some .stop), [.tx .requestStart 0, .tx .requestUriNormalize 0, .tx .requestLine 0,
      .data .requestHeaderData 0 (.ofBytes (b! "Host: a\r\nContent-Length: 3\r\n\r\n")), .tx .requestHeaders 0]) := by
  decide_cbv

/-- The body of a response is refused: the response is not completed. -/
example : (refusalOf (refusingData .responseBodyData .error) [.open, .request (.data (b! "GET / HTTP/1.1\r\nHost: a\r\n\r\n"))]
    (.response (.data (b! "HTTP/1.1 200 OK\r\nContent-Length: 3\r\n\r\nabc")))).1 = .ok (some .error) ∧
    (refusalOf (refusingData .responseBodyData .error) [.open, .request (.data (b! "GET / HTTP/1.1\r\nHost: a\r\n\r\n"))]
      (.response (.data (b! "HTTP/1.1 200 OK\r\nContent-Length: 3\r\n\r\nabc")))).2.getLast? =
      some (.data .responseBodyData 0 (.ofBytes (b! "abc"))) := by
  constructor <;> decide_cbv

/-! ### Refusals that are not obeyed -/

/-- The refusal of the start of a request is ignored: the request is parsed all the same. -/
theorem C75_start_ignored : ∃ (e : Env) (s : Conn) (op : Op), PlainAnswers e ∧ Reachable e s ∧
    (op.run e s).1 = .ok (some .data) ∧
    hookRuns .requestStart (op.after e s).trace = [0] ∧ hookRuns .requestComplete (op.after e s).trace = [0] ∧
    ∀ past, e.hook past (.tx .requestStart 0) = .error .stop :=
  ⟨failingEnv .requestStart .stop, Conn.history (failingEnv .requestStart .stop) [.open],
    .request (.data (b! "GET / HTTP/1.1\r\nHost: a\r\n\r\n")), plain_failing _ _ (.inl rfl), .history _ (by decide_cbv),
    by decide_cbv, by decide_cbv, by decide_cbv, fun _ => rfl⟩

/-- The refusal of raw headers is ignored at the end of a call, but obeyed at the end of the headers. -/
theorem C75_headers_ignored : ∃ (e : Env) (s : Conn) (op op' : Op), PlainAnswers e ∧ Reachable e s ∧
    (∀ past i d, e.hook past (.data .requestHeaderData i d) = .error .stop) ∧
    (op.run e s).1 = .ok (some .data) ∧ (op.after e s).trace.getLast? = some (.data .requestHeaderData 0 (.ofBytes (b! "Host: a\r\n"))) ∧
    (op'.run e (op.after e s)).1 = .ok (some .stop) ∧
    (op'.after e (op.after e s)).trace.getLast? = some (.data .requestHeaderData 0 (.ofBytes (b! "\r\n"))) :=
  ⟨refusingData .requestHeaderData .stop, Conn.history (refusingData .requestHeaderData .stop) [.open],
    .request (.data (b! "GET / HTTP/1.1\r\nHost: a\r\n")), .request (.data (b! "\r\n")), plain_refusing _ _ (.inl rfl),
    .history _ (by decide_cbv), fun _ _ _ => rfl, by decide_cbv, by decide_cbv, by decide_cbv, by decide_cbv⟩

/-- The same with decompression of responses and requests. -/
def refusingCoded (h : DataHook) (st : Status) (onlyEnd : Bool) : Env :=
  { sampleEnv with
    cfg := { ({} : Config) with requestDecompressionEnabled := true }
    hook := fun _ ev =>
      match ev with
      | .data h' _ d => if h' = h ∧ (onlyEnd = true → d.data = none) then .error st else .ok ()
      | _ => .ok () }

theorem plain_coded (k : DataHook) (st : Status) (b : Bool) (h : st = .stop ∨ st = .error) :
    PlainAnswers (refusingCoded k st b) := by
  intro past ev st' h'
  unfold refusingCoded at h'
  dsimp only at h'
  split at h'
  · split at h'
    · cases h'
      rcases h with rfl | rfl <;> decide
    · cases h'
  · cases h'

/-- The body of a compressed response is refused with `STOP`: the answer is `ERROR`. -/
theorem C75_coded_stop : ∃ (e : Env) (s : Conn) (op : Op), PlainAnswers e ∧ Reachable e s ∧
    (∀ past i d, e.hook past (.data .responseBodyData i d) = .error .stop) ∧ (op.run e s).1 = .ok (some .error) ∧
    (op.after e s).trace.getLast? = some (.data .responseBodyData 0 (.ofBytes (b! "abc"))) :=
  ⟨refusingCoded .responseBodyData .stop false,
    Conn.history (refusingCoded .responseBodyData .stop false) [.open, .request (.data (b! "GET / HTTP/1.1\r\nHost: a\r\n\r\n"))],
    .response (.data (b! "HTTP/1.1 200 OK\r\nContent-Encoding: gzip\r\nContent-Length: 3\r\n\r\nabc")),
    plain_coded _ _ _ (.inl rfl), .history _ (by decide_cbv), fun _ _ _ => by unfold refusingCoded; simp, by decide_cbv, by decide_cbv⟩

/-- The end of the body of a compressed request is refused: this is ignored, the request is completed. Without compression
the same refusal is obeyed. -/
theorem C75_coded_end_ignored : ∃ (e : Env) (s : Conn) (op op' : Op), PlainAnswers e ∧ Reachable e s ∧
    (∀ past i, e.hook past (.data .requestBodyData i { data := none }) = .error .stop) ∧
    (op.run e s).1 = .ok (some .data) ∧ hookRuns .requestComplete (op.after e s).trace = [0] ∧
    (op'.run e s).1 = .ok (some .stop) ∧ hookRuns .requestComplete (op'.after e s).trace = [] :=
  ⟨refusingCoded .requestBodyData .stop true, Conn.history (refusingCoded .requestBodyData .stop true) [.open],
    .request (.data (b! "POST / HTTP/1.1\r\nHost: a\r\nContent-Encoding: gzip\r\nContent-Length: 3\r\n\r\nabc")),
    .request (.data (b! "POST / HTTP/1.1\r\nHost: a\r\nContent-Length: 3\r\n\r\nabc")),
    plain_coded _ _ _ (.inl rfl), .history _ (by decide_cbv), fun _ _ => by unfold refusingCoded; simp, by decide_cbv, by decide_cbv,
    by decide_cbv, by decide_cbv⟩

end Props
