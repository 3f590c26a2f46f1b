/-
The recorded length of a request body and the data handed out agree after any request call.
-/
import Verif.Lemmas.HandedReq
import Verif.Lemmas.ApartCalls

namespace Model

open M Spec

section
variable {k r n : Nat}

theorem reqAgree (s : Conn) (h : ReqEven k r n s) : ReqAgree k r s := ⟨n, h⟩

/-- The current request has been counted `l` bytes more than were handed out. -/
structure ReqOwed (k r n l : Nat) (s : Conn) : Prop where
  index : s.txs.request = r
  receiver : s.req.receiver ≠ some .requestBodyDataTx
  there : ∃ t, s.txs.get r = some t
  len : ∀ t, s.txs.get k = some t → t.requestEntityLen = if k = r then wrapAdd n l else n
  absent : s.txs.get k = none → n = 0
  trace : Counts n (handed .requestBodyDataTx k s.trace)

theorem ReqOwed.put {s : Conn} {t : Tx} (l : Nat) (h : ReqEven k r n s) (ht : ReqLen k r n t) :
    ReqOwed k r n l { s with txs := s.txs.set s.txs.request { t with requestEntityLen := wrapAdd t.requestEntityLen l } } := by
  have hi := h.index
  refine ⟨hi, h.2, ⟨_, by rw [hi]; exact (Txs.get_set ..).trans (if_pos rfl)⟩, fun u hu => ?_, fun hu => ?_, h.even.3⟩
  · have hu' : (s.txs.set s.txs.request _).get k = some u := hu
    rw [Txs.get_set, hi] at hu'
    split at hu'
    · next hk => cases hu'; rw [if_pos hk, ← ht hk]
    · next hk => rw [if_neg hk]; exact h.even.1 u hu'
  · have hu' : (s.txs.set s.txs.request _).get k = none := hu
    rw [Txs.get_set] at hu'
    split at hu'
    · cases hu'
    · exact h.even.2 hu'

/-- Handing out the data settles it. -/
theorem requestRunHookBodyData_owed (e : Env) (o : Option Bytes) :
    Leads (ReqOwed k r n (o.getD []).length) (ReqAgree k r) (requestRunHookBodyData e { data := o }) := by
  intro s h
  have hi := h.index
  have done : ∀ tr, Counts (if k = r then wrapAdd n (o.getD []).length else n) (handed .requestBodyDataTx k tr) →
      ReqAgree k r { s with trace := tr } := fun tr htr =>
    ⟨if k = r then wrapAdd n (o.getD []).length else n, hi, h.receiver, h.len, fun hu => by
      by_cases hk : k = r
      · obtain ⟨t, ht⟩ := h.there
        rw [← hk] at ht
        rw [show s.txs.get k = none from hu] at ht
        cases ht
      · rw [if_neg hk]; exact h.absent hu, htr⟩
  obtain ⟨t, ht⟩ := h.there
  have h1 : requestTx e .panic s = (.ok t, s) := by
    unfold requestTx Txs.requestMut Txs.entry
    rw [hi, ht]
  unfold requestRunHookBodyData
  rw [M.bind_ok h1, pdata_empty]
  by_cases hd : (({ data := o } : PData).unconsumed.isSome && decide ((o.getD []).length = 0)) = true
  · rw [if_pos hd]
    refine done s.trace ?_
    have hd : (o.getD []).length = 0 := by simpa using (Bool.and_eq_true_iff.1 hd).2
    rw [hd]
    have h1 := h.trace
    unfold Counts at h1 ⊢
    unfold wrapAdd
    split <;> omega
  · rw [if_neg hd]
    have h2 : (M.state : M Conn) s = (.ok s, s) := rfl
    rw [M.bind_ok h2]
    have h0 : handedBy .requestBodyDataTx k (.data .requestBodyDataTx s.txs.request { data := o }) =
        if k = r then (o.getD []).length else 0 := by
      show (if _ ∧ _ ∧ _ then _ else 0) = _
      by_cases hk : k = r
      · rw [if_pos ⟨rfl, by rw [hi, hk], rfl⟩, if_pos hk]
      · rw [if_neg fun h => hk (by rw [← hi]; exact h.2.1.symm), if_neg hk]
    have hc : Counts (if k = r then wrapAdd n (o.getD []).length else n) (handed .requestBodyDataTx k s.trace +
        if k = r then (o.getD []).length else 0) := by
      by_cases hk : k = r
      · rw [if_pos hk, if_pos hk]; exact counts_add h.trace
      · rw [if_neg hk, if_neg hk]; exact h.trace
    have h3 : handedBy .requestBodyDataTx k (.data .requestBodyData s.txs.request { data := o }) = 0 := rfl
    rcases emit_emit_snd e (.data .requestBodyDataTx s.txs.request { data := o })
      (.data .requestBodyData s.txs.request { data := o }) s with h4 | h4 <;> rw [h4]
    · refine done _ ?_
      rw [handed_append, handed_one, h0]; exact hc
    · refine done _ ?_
      rw [handed_append, handed_append, handed_one, handed_one, h0, h3]; exact hc

theorem requestRunHookBodyData_gap_even (e : Env) {d : PData} (hd : d.gapLen ≠ none) :
    Keeps (ReqEven k r n) Any (requestRunHookBodyData e d) := by
  unfold requestRunHookBodyData
  even_walk
  · exact ReqEven.emit (by assumption) (if_neg fun h => hd h.2.2)
  · even_leaf'

theorem requestDecompressorCallback_counts (e : Env) (o : Option Bytes) (n : Nat) :
    Leads (ReqEven k r n) (ReqAgree k r) (requestDecompressorCallback e o) := by
  unfold requestDecompressorCallback
  refine Leads.bind reqAgree (Keeps.requestTx ReqEven.stable) fun t ht => ?_
  intro s hs
  refine Leads.afterReq (requestRunHookBodyData_owed e o) reqAgree (fun _ n => ?_) _ (ReqOwed.put _ hs ht)
  refine Leads.of (F := Any) reqAgree ?_
  even_walk

theorem requestDecompress_counts (e : Env) (o : Option Bytes) (n : Nat) :
    Leads (ReqEven k r n) (ReqAgree k r) (requestDecompress e o) := by
  unfold requestDecompress
  refine Leads.bind reqAgree (Keeps.requestTx ReqEven.stable) fun t ht => ?_
  split
  · exact Leads.of (F := Any) reqAgree Keeps.pure
  · exact Leads.of (F := Any) reqAgree Keeps.fail
  · refine Leads.bind (F := Any) reqAgree (Keeps.putRequest ReqEven.stable (ht.same rfl)) fun _ _ => ?_
    refine Leads.bind_state fun s1 _ => ?_
    refine Leads.afterReq (Leads.decodingReq (requestDecompressorCallback_counts e) _ n) reqAgree fun _ n => ?_
    exact Leads.of (F := Any) reqAgree Keeps.pure
  · refine Leads.bind (F := Any) reqAgree (Keeps.putRequest ReqEven.stable (ht.same rfl)) fun _ _ => ?_
    refine Leads.bind_state fun s1 _ => ?_
    refine Leads.afterReq (Leads.decodingReq (requestDecompressorCallback_counts e) _ n) reqAgree fun _ n => ?_
    refine Leads.of (F := Any) reqAgree ?_
    even_walk <;> even_leaf'

theorem requestPlainBody_counts (e : Env) (o : Option Bytes) (n : Nat) :
    Leads (ReqEven k r n) (ReqAgree k r) (requestPlainBody e o) := by
  unfold requestPlainBody
  refine Leads.bind reqAgree (Keeps.requestTx ReqEven.stable) fun t ht => ?_
  refine Leads.ite (fun _ => Leads.of (F := Any) reqAgree Keeps.raise) fun _ => ?_
  intro s hs
  exact requestRunHookBodyData_owed e o _ (ReqOwed.put _ hs ht)

theorem requestBodyData_counts (e : Env) (o : Option Bytes) (n : Nat) :
    Leads (ReqEven k r n) (ReqAgree k r) (requestBodyData e o) := by
  unfold requestBodyData
  refine Leads.bind reqAgree (Keeps.requestTx ReqEven.stable) fun t ht => ?_
  refine Leads.bind (F := Any) reqAgree (Keeps.putRequest ReqEven.stable (ht.same rfl)) fun _ _ => ?_
  split
  · exact requestPlainBody_counts e o n
  · exact Leads.of (F := Any) reqAgree Keeps.fail
  · exact requestDecompress_counts e o n

theorem requestBodyChunkedData_counts (e : Env) (n : Nat) :
    Leads (ReqEven k r n) (ReqAgree k r) (requestBodyChunkedData e) := by
  unfold requestBodyChunkedData
  refine Leads.bind_state fun s1 _ => ?_
  dsimp only
  refine Leads.ite (fun _ => Leads.of (F := Any) reqAgree Keeps.fail) fun _ => ?_
  refine Leads.bind (F := Any) reqAgree Keeps.inputPrefix fun d _ => ?_
  refine Leads.afterReq (requestBodyData_counts e _ n) reqAgree fun _ n => ?_
  refine Leads.of (F := Any) reqAgree ?_
  even_walk <;> even_leaf'

theorem requestIdentityData_counts (e : Env) (m n : Nat) :
    Leads (ReqEven k r n) (ReqAgree k r) (requestIdentityData e m) := by
  unfold requestIdentityData
  refine Leads.bind_state fun s1 _ => ?_
  refine Leads.ite (fun _ => Leads.of (F := Any) reqAgree ?_) fun _ => ?_
  · refine Keeps.bind (Keeps.requestTx ReqEven.stable) fun t ht => ?_
    refine Keeps.bind (F := Any) (Keeps.putRequest ReqEven.stable (ht.same rfl)) fun _ _ => ?_
    exact requestRunHookBodyData_gap_even e (by simp [PData.ofGap])
  · refine Leads.bind (F := Any) reqAgree Keeps.inputPrefix fun d _ => ?_
    exact requestBodyData_counts e _ n

theorem requestBodyIdentity_counts (e : Env) (n : Nat) :
    Leads (ReqEven k r n) (ReqAgree k r) (requestBodyIdentity e) := by
  unfold requestBodyIdentity
  refine Leads.bind_state fun s1 _ => ?_
  split
  · exact Leads.of (F := Any) reqAgree Keeps.fail
  · dsimp only
    refine Leads.ite (fun _ => Leads.of (F := Any) reqAgree Keeps.fail) fun _ => ?_
    refine Leads.afterReq (requestIdentityData_counts e _ n) reqAgree fun _ n => ?_
    refine Leads.bind (F := Any) reqAgree (by even_walk) fun _ _ => ?_
    refine Leads.bind (F := Any) reqAgree (by even_walk; even_leaf') fun _ _ => ?_
    refine Leads.ite (fun _ => Leads.of (F := Any) reqAgree Keeps.fail) fun _ => ?_
    refine Leads.bind (F := Any) reqAgree (by even_walk; even_leaf') fun _ _ => ?_
    exact requestBodyData_counts e _ n

theorem completeRequest_counts (e : Env) (t : Tx) (n : Nat) :
    Leads (ReqEven k r n) (ReqAgree k r) (completeRequest e t) := by
  unfold completeRequest
  refine Leads.afterReq (Leads.when reqAgree (requestBodyData_counts e _ n)) reqAgree fun _ n => ?_
  exact Leads.of (F := Any) reqAgree (by even_walk <;> even_leaf')

/-- They agree, whatever the current request. -/
def ReqTrue (k : Nat) (s : Conn) : Prop := ∃ r, ReqAgree k r s

theorem reqTrue (s : Conn) (h : ReqEven k r n s) : ReqTrue k s := ⟨r, n, h⟩

theorem Leads.toReqTrue {α : Type} {m : M α} (h : Leads (ReqEven k r n) (ReqAgree k r) m) : Leads (ReqEven k r n) (ReqTrue k) m :=
  fun s hs => ⟨r, h s hs⟩

variable {e : Env}

theorem stateRequestComplete_counts (he : e.cfg.txAutoDestroy = false) (n : Nat) :
    Leads (ReqEven k r n) (ReqTrue k) (stateRequestComplete e) := by
  unfold stateRequestComplete
  refine Leads.bind reqTrue (Keeps.requestTx ReqEven.stable) fun t ht => ?_
  refine Leads.afterReq (Leads.when reqAgree (completeRequest_counts e t n)) reqTrue fun _ n => ?_
  refine Leads.bind reqTrue (Keeps.requestTx ReqEven.stable) fun t ht => ?_
  refine Leads.bind (F := Any) reqTrue (by even_walk <;> even_leaf') fun _ _ => ?_
  refine Leads.bind_state fun s1 _ => ?_
  refine Leads.bind (F := Any) reqTrue (by even_walk) fun _ _ => ?_
  intro s h
  refine ⟨r + 1, n, ?_⟩
  have hx : (s.txs.requestNext e.cfg.txAutoDestroy) = { s.txs with request := s.txs.request + 1 } := by rw [he]; rfl
  refine ⟨?_, h.2, ?_⟩
  · show (s.txs.requestNext e.cfg.txAutoDestroy).request = _
    rw [hx]; exact congrArg (· + 1) h.1
  · refine ⟨fun t => ?_, ?_, h.3.3⟩
    · show (s.txs.requestNext e.cfg.txAutoDestroy).get k = some t → _
      rw [hx]; exact h.3.1 t
    · show (s.txs.requestNext e.cfg.txAutoDestroy).get k = none → _
      rw [hx]; exact h.3.2

theorem requestConnectProbeData_counts (he : e.cfg.txAutoDestroy = false) (n : Nat) :
    Leads (ReqEven k r n) (ReqTrue k) (requestConnectProbeData e) := by
  unfold requestConnectProbeData
  refine Leads.bind_state fun s1 h1 => ?_
  split
  · refine Leads.bind (F := Any) reqTrue (by even_walk) fun _ _ => ?_
    refine Leads.ite (fun _ => ?_) fun _ => stateRequestComplete_counts he n
    exact Leads.of (F := Any) reqTrue (by even_walk; even_leaf')
  · exact Leads.of (F := Any) reqTrue (by even_walk)

theorem requestFinalizeLine_counts (he : e.cfg.txAutoDestroy = false) (w : Bytes) (n : Nat) :
    Leads (ReqEven k r n) (ReqTrue k) (requestFinalizeLine e w) := by
  unfold requestFinalizeLine
  refine Leads.bind_state fun s1 h1 => ?_
  refine Leads.bind (F := Any) reqTrue (by even_walk) fun _ _ => ?_
  refine Leads.bind (F := Any) reqTrue (by even_walk; even_leaf') fun _ _ => ?_
  dsimp only
  refine Leads.ite (fun _ => stateRequestComplete_counts he n) fun _ => ?_
  refine Leads.ite (fun _ => (requestBodyData_counts e _ n).toReqTrue) fun _ => ?_
  refine Leads.ite (fun _ => ?_) fun _ => ?_
  · refine Leads.bind (F := Any) reqTrue (by even_walk; even_leaf') fun _ _ => ?_
    exact (requestBodyData_counts e _ n).toReqTrue
  · refine Leads.bind (F := Any) reqTrue (by even_walk; even_leaf') fun _ _ => ?_
    refine Leads.bind (F := Any) reqTrue (by even_walk) fun _ _ => ?_
    exact stateRequestComplete_counts he n

theorem requestFinalize_counts (he : e.cfg.txAutoDestroy = false) (n : Nat) :
    Leads (ReqEven k r n) (ReqTrue k) (requestFinalize e) := by
  unfold requestFinalize
  refine Leads.bind_state fun s1 h1 => ?_
  refine Leads.ite (fun _ => stateRequestComplete_counts he n) fun _ => ?_
  refine Leads.ite (fun _ => requestFinalizeLine_counts he _ n) fun _ => ?_
  refine Leads.ite (fun _ => stateRequestComplete_counts he n) fun _ => ?_
  split
  · refine Leads.bind (F := Any) reqTrue (by even_walk) fun _ _ => ?_
    exact requestFinalizeLine_counts he _ n
  · exact Leads.of (F := Any) reqTrue (by even_walk)

theorem handleRequestState_counts (he : e.cfg.txAutoDestroy = false) (n : Nat) :
    Leads (ReqEven k r n) (ReqTrue k) (handleRequestState e) := by
  unfold handleRequestState
  refine Leads.bind_state fun s1 _ => ?_
  cases s1.req.state with
  | bodyChunkedData => exact (requestBodyChunkedData_counts e n).toReqTrue
  | bodyIdentity => exact (requestBodyIdentity_counts e n).toReqTrue
  | finalize => exact requestFinalize_counts he n
  | connectProbeData => exact requestConnectProbeData_counts he n
  | _ => exact Leads.of (F := Any) reqTrue (by even_walk)

/-- The same as a relation between the states before and after. -/
theorem Leads.toReqStays {α : Type} {m : M α} (h : ∀ r n, Leads (ReqEven k r n) (ReqTrue k) m) : Rel (Stays (ReqTrue k)) m := by
  rintro s ⟨r, n, hs⟩
  exact h r n s hs

theorem Keeps.toReqStays {α : Type} {F : α → Prop} {m : M α} (h : ∀ r n, Keeps (ReqEven k r n) F m) : Rel (Stays (ReqTrue k)) m :=
  Leads.toReqStays fun r n => Leads.of reqTrue (h r n)

theorem requestStep_counts (he : e.cfg.txAutoDestroy = false) : Rel (Stays (ReqTrue k)) (requestStep e) := by
  unfold requestStep
  refine Rel.bind Stays.pre (Rel.state Stays.pre) fun s => ?_
  refine Rel.ite (Rel.pure Stays.pre) ?_
  refine Rel.bind Stays.pre (Rel.attempt (Leads.toReqStays fun r n => handleRequestState_counts he n)) fun rc => ?_
  unfold requestStepTail
  refine Rel.bind Stays.pre (Rel.state Stays.pre) fun s => ?_
  cases rc with
  | ok _ =>
    refine Rel.ite (Rel.pure Stays.pre) ?_
    exact Rel.bind Stays.pre (Rel.attempt (Keeps.toReqStays fun r n => requestHandleStateChange_even e))
      fun rc => Keeps.toReqStays fun r n => requestAfterStep_even e rc
  | error st => exact Keeps.toReqStays fun r n => requestAfterStep_even e _

theorem requestLoop_counts (he : e.cfg.txAutoDestroy = false) (n : Nat) : Rel (Stays (ReqTrue k)) (requestLoop e n) := by
  induction n with
  | zero => exact Rel.pure Stays.pre
  | succ n ih =>
    unfold requestLoop
    refine Rel.bind Stays.pre (requestStep_counts he) fun r => ?_
    cases r with
    | some st => exact Rel.pure Stays.pre
    | none => exact ih

theorem ReqTrue.other {s s' : Conn} (h : ReqTrue k s) (h1 : s'.txs = s.txs) (h2 : s'.trace = s.trace)
    (h3 : s'.req.receiver = s.req.receiver) : ReqTrue k s' := by
  obtain ⟨r, n, h⟩ := h
  exact ⟨r, n, h.other h1 h2 (.inl h3)⟩

theorem requestData_counts (he : e.cfg.txAutoDestroy = false) (c : PData) : Rel (Stays (ReqTrue k)) (requestData e c) := by
  unfold requestData
  refine Rel.bind Stays.pre (fun s h => h.other rfl rfl rfl) fun _ => ?_
  refine Rel.bind Stays.pre (Rel.state Stays.pre) fun s => ?_
  refine Rel.ite (Rel.pure Stays.pre) (Rel.ite (Rel.pure Stays.pre) (Rel.ite (Rel.pure Stays.pre) ?_))
  refine Rel.bind Stays.pre (fun s h => h.other rfl rfl rfl) fun _ => ?_
  refine Rel.ite (Rel.pure Stays.pre) ?_
  unfold requestProcess requestEarly
  refine Rel.bind Stays.pre (fun s h => h.other rfl rfl rfl) fun _ => ?_
  refine Rel.bind Stays.pre (Rel.state Stays.pre) fun s => ?_
  refine Rel.bind Stays.pre ?_ fun x => ?_
  · refine Rel.bind Stays.pre (Rel.state Stays.pre) fun s => ?_
    exact Rel.ite (Keeps.toReqStays fun r n => requestNoteGap_even e) (Rel.pure Stays.pre)
  · cases x with
    | some st => exact Rel.pure Stays.pre
    | none => exact requestLoop_counts he _

end

end Model
