/-
C77: nothing observed of a transaction is taken back.
-/
import Verif.Lemmas.GrowthCalls
import Verif.Props.Stream

namespace Props

open Model Spec

/-- C77. Where transactions are not removed automatically, a transaction that the user does not remove is still there after
any calls, whatever the callbacks answer and whatever the calls return: it has the same index, every flag that was raised is
raised, and an interim response or an upgrade that was noted stays noted. -/
theorem C77_nothing_taken_back {e : Env} (he : e.cfg.txAutoDestroy = false) (s : Conn) (ops : List Op) (k : Nat) (t : Tx)
    (hk : .removeTx k ∉ ops) (h : s.txs.get k = some t) :
    ∃ t', (ops.foldl (Op.after e) s).txs.get k = some t' ∧ Later t t' :=
  ops_survive he ops hk ⟨t, h, Later.refl t⟩

/-- Raised flags, as the user tests for them. -/
theorem isSet_of_raised {a b m : Flags} (h : Raised a b) (ha : isSet a m = true) : isSet b m = true := by
  unfold isSet at *
  simp only [bne_iff_ne, ne_eq] at *
  intro hb
  apply ha
  apply Nat.eq_of_testBit_eq
  intro i
  have h1 := congrArg (Nat.testBit · i) hb
  simp only [Nat.testBit_and, Nat.zero_testBit] at h1 ⊢
  cases hi : a.testBit i with
  | false => rfl
  | true => rw [h i hi] at h1; exact h1

/-- C77, for the test the user makes: a mask that was found set is found set ever after. -/
theorem C77_flag_stays {e : Env} (he : e.cfg.txAutoDestroy = false) (s : Conn) (ops : List Op) (k : Nat) (t : Tx) (m : Flags)
    (hk : .removeTx k ∉ ops) (h : s.txs.get k = some t) (hm : isSet t.flags m = true) :
    ∃ t', (ops.foldl (Op.after e) s).txs.get k = some t' ∧ isSet t'.flags m = true := by
  obtain ⟨t', h1, h2⟩ := C77_nothing_taken_back he s ops k t hk h
  exact ⟨t', h1, isSet_of_raised h2.flags hm⟩

/-- The transaction with index `k` is there and has every flag of `m`. -/
def Marked (k : Nat) (m : Flags) (s : Conn) : Prop := ∃ t, s.txs.get k = some t ∧ Raised m t.flags

theorem Marked.ops {e : Env} (he : e.cfg.txAutoDestroy = false) {s : Conn} {k : Nat} {m : Flags} (h : Marked k m s)
    {ops : List Op} (hk : .removeTx k ∉ ops) : Marked k m (ops.foldl (Op.after e) s) := by
  obtain ⟨t, h1, h2⟩ := h
  obtain ⟨t', h3, h4⟩ := C77_nothing_taken_back he s ops k t hk h1
  exact ⟨t', h3, h2.trans h4.flags⟩

theorem raised_mask (f m : Flags) : Raised m (setFlag f m) := fun i h => by
  unfold setFlag
  rw [Nat.testBit_or, h, Bool.or_true]

theorem entry_room {txs : Txs} {n r : Nat} (hroom : (txs.get r).isSome ∨ txs.map.length < n) :
    ∃ t, (txs.entry n r).1 = some t := by
  unfold Txs.entry
  cases hg : txs.get r with
  | some t => exact ⟨t, rfl⟩
  | none =>
    rw [hg] at hroom
    have : txs.map.length < n := by simpa using hroom
    dsimp only
    rw [if_neg (by omega)]
    exact ⟨_, rfl⟩

/-- C77, gaps. A gap of any length fed to a request stream that has not stopped marks the current request's transaction as
missing bytes (if there is one or room for one), whatever becomes of the call, and the mark stays. -/
theorem C77_request_gap_marked {e : Env} (he : e.cfg.txAutoDestroy = false) (s : Conn) (n : Nat) (hn : n ≠ 0)
    (hst : s.req.status ≠ .stop ∧ s.req.status ≠ .error ∧ s.req.status ≠ .tunnel)
    (hroom : (s.txs.get s.txs.request).isSome ∨ s.txs.map.length < e.cfg.maxTx)
    (ops : List Op) (hk : .removeTx s.txs.request ∉ ops) :
    Marked s.txs.request Flag.REQUEST_MISSING_BYTES (ops.foldl (Op.after e) ((Op.request (.gap n)).after e s)) := by
  refine Marked.ops he ?_ hk
  unfold Op.after
  rw [requestData_gap hn hst, requestProcess_gap (by rfl), requestNoteGap_eq]
  obtain ⟨t, ht⟩ := entry_room hroom
  have hr : (s.txs.entry e.cfg.maxTx s.txs.request).2.request = s.txs.request := by
    unfold Txs.entry
    cases s.txs.get s.txs.request with
    | some t => rfl
    | none => dsimp only; split <;> rfl
  dsimp only [requestOffered, Txs.requestMut]
  generalize s.txs.entry e.cfg.maxTx s.txs.request = x at ht hr
  obtain ⟨o, txs⟩ := x
  dsimp only at ht hr
  subst ht
  dsimp only
  by_cases hc : txs.request = 0 ∧ t.requestProgress = .notStarted
  · rw [if_pos hc]
    refine ⟨{ t.setFlags Flag.REQUEST_MISSING_BYTES with requestProgress := .gap }, ?_, raised_mask _ _⟩
    show (txs.set txs.request _).get _ = _
    rw [Txs.get_set, hr, if_pos rfl]
  · rw [if_neg hc]
    have h1 : ∀ s' : Conn, s'.txs = txs.set txs.request (t.setFlags Flag.REQUEST_MISSING_BYTES) → ∀ n,
        Marked s.txs.request Flag.REQUEST_MISSING_BYTES (requestLoop e n s').2 := by
      intro s' hs' n
      have h2 : Survives s.txs.request (t.setFlags Flag.REQUEST_MISSING_BYTES) s' :=
        ⟨_, by rw [hs', Txs.get_set, hr, if_pos rfl], Later.refl _⟩
      obtain ⟨t', h3, h4⟩ := requestLoop_stays (survives_reqWalk he _ _) (survives_onTxs _ _) n s' h2
      exact ⟨t', h3, (raised_mask t.flags _).trans h4.flags⟩
    exact h1 _ rfl _

theorem C77_response_gap_marked {e : Env} (he : e.cfg.txAutoDestroy = false) (s : Conn) (n : Nat) (hn : n ≠ 0)
    (hst : s.resp.status ≠ .stop ∧ s.resp.status ≠ .error ∧ s.resp.status ≠ .tunnel)
    (hroom : (s.txs.get s.txs.response).isSome ∨ s.txs.map.length < e.cfg.maxTx)
    (ops : List Op) (hk : .removeTx s.txs.response ∉ ops) :
    Marked s.txs.response Flag.RESPONSE_MISSING_BYTES (ops.foldl (Op.after e) ((Op.response (.gap n)).after e s)) := by
  refine Marked.ops he ?_ hk
  unfold Op.after
  rw [responseData_gap hn hst, responseProcess_gap (by rfl), responseNoteGap_eq]
  obtain ⟨t, ht⟩ := entry_room hroom
  have hr : (s.txs.entry e.cfg.maxTx s.txs.response).2.response = s.txs.response := by
    unfold Txs.entry
    cases s.txs.get s.txs.response with
    | some t => rfl
    | none => dsimp only; split <;> rfl
  dsimp only [responseOffered, Txs.responseMut]
  generalize s.txs.entry e.cfg.maxTx s.txs.response = x at ht hr
  obtain ⟨o, txs⟩ := x
  dsimp only at ht hr
  subst ht
  dsimp only
  by_cases hc : txs.request = 0 ∧ t.responseProgress = .notStarted
  · rw [if_pos hc]
    refine ⟨{ t.setFlags Flag.RESPONSE_MISSING_BYTES with responseProgress := .gap }, ?_, raised_mask _ _⟩
    show (txs.set txs.response _).get _ = _
    rw [Txs.get_set, hr, if_pos rfl]
  · rw [if_neg hc]
    have h1 : ∀ s' : Conn, s'.txs = txs.set txs.response (t.setFlags Flag.RESPONSE_MISSING_BYTES) → ∀ n,
        Marked s.txs.response Flag.RESPONSE_MISSING_BYTES (responseLoop e n s').2 := by
      intro s' hs' n
      have h2 : Survives s.txs.response (t.setFlags Flag.RESPONSE_MISSING_BYTES) s' :=
        ⟨_, by rw [hs', Txs.get_set, hr, if_pos rfl], Later.refl _⟩
      obtain ⟨t', h3, h4⟩ := responseLoop_stays (survives_respWalk he _ _) (OnTxs.onRequests (survives_onTxs _ _)) n s' h2
      exact ⟨t', h3, (raised_mask t.flags _).trans h4.flags⟩
    exact h1 _ rfl _

/-! ### Concrete cases -/

/-- A request with both framings, and its body. -/
def smuggled : Conn := Conn.history sampleEnv
  [.request (.data (b! "POST / HTTP/1.1\r\nHost: a\r\nContent-Length: 3\r\nTransfer-Encoding: chunked\r\n\r\n"))]

set_option maxRecDepth 8000 in
theorem smuggled_flag : (smuggled.txs.get 0).map (fun t => isSet t.flags Flag.REQUEST_SMUGGLING) = some true := by decide_cbv

/-- Case for C77_nothing_taken_back and C77_flag_stays: the smuggling flag is raised before the body has come. -/
example : sampleEnv.cfg.txAutoDestroy = false ∧
    ∃ t, smuggled.txs.get 0 = some t ∧ isSet t.flags Flag.REQUEST_SMUGGLING = true := by
  refine ⟨rfl, ?_⟩
  have h := smuggled_flag
  cases hg : smuggled.txs.get 0 with
  | none => rw [hg] at h; cases h
  | some t => rw [hg] at h; exact ⟨t, rfl, by simpa using h⟩

/-- The head of a request with a body. -/
def announced : Conn := Conn.history sampleEnv
  [.request (.data (b! "POST / HTTP/1.1\r\nHost: a\r\nContent-Length: 9\r\n\r\nabc"))]

set_option maxRecDepth 8000 in
theorem announced_status : announced.req.status = .data := by decide_cbv

set_option maxRecDepth 8000 in
theorem announced_current : (announced.txs.get announced.txs.request).isSome = true := by decide_cbv

/-- Case for C77_request_gap_marked: part of the body is missing. -/
example : (announced.req.status ≠ .stop ∧ announced.req.status ≠ .error ∧ announced.req.status ≠ .tunnel) ∧
    ((announced.txs.get announced.txs.request).isSome ∨ announced.txs.map.length < sampleEnv.cfg.maxTx) := by
  rw [announced_status]
  exact ⟨⟨nofun, nofun, nofun⟩, .inl announced_current⟩

/-- A response of which the head has been seen. -/
def answeredPart : Conn := Conn.history sampleEnv
  [.request (.data (b! "GET / HTTP/1.1\r\nHost: a\r\n\r\n")),
    .response (.data (b! "HTTP/1.1 200 OK\r\nContent-Length: 9\r\n\r\nabc"))]

set_option maxRecDepth 8000 in
theorem answeredPart_status : answeredPart.resp.status = .data := by decide_cbv

set_option maxRecDepth 8000 in
theorem answeredPart_current : (answeredPart.txs.get answeredPart.txs.response).isSome = true := by decide_cbv

/-- Case for C77_response_gap_marked. -/
example : (answeredPart.resp.status ≠ .stop ∧ answeredPart.resp.status ≠ .error ∧ answeredPart.resp.status ≠ .tunnel) ∧
    ((answeredPart.txs.get answeredPart.txs.response).isSome ∨ answeredPart.txs.map.length < sampleEnv.cfg.maxTx) := by
  rw [answeredPart_status]
  exact ⟨⟨nofun, nofun, nofun⟩, .inl answeredPart_current⟩

end Props
