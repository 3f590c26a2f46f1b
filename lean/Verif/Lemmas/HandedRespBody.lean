/-
The functions of the response side that hand out body data count it.
-/
import Verif.Lemmas.HandedResp
import Verif.Lemmas.ApartCalls

namespace Model

open M Spec

section
variable {k r n : Nat}

theorem respAgree (s : Conn) (h : RespEven k r n s) : RespAgree k r s := ⟨n, h⟩

/-- The current response has been counted `l` bytes more than were handed out. -/
structure RespOwed (k r n l : Nat) (s : Conn) : Prop where
  index : s.txs.response = r
  receiver : s.resp.receiver ≠ some .responseBodyDataTx
  there : ∃ t, s.txs.get r = some t
  len : ∀ t, s.txs.get k = some t → t.responseEntityLen = if k = r then wrapAdd n l else n
  absent : s.txs.get k = none → n = 0
  trace : Counts n (handed .responseBodyDataTx k s.trace)

theorem RespOwed.put {s : Conn} {t : Tx} (l : Nat) (h : RespEven k r n s) (ht : RespLen k r n t) :
    RespOwed k r n l { s with txs := s.txs.set s.txs.response { t with responseEntityLen := wrapAdd t.responseEntityLen l } } := by
  have hi := h.index
  refine ⟨hi, h.2, ⟨_, by rw [hi]; exact (Txs.get_set ..).trans (if_pos rfl)⟩, fun u hu => ?_, fun hu => ?_, h.even.3⟩
  · have hu' : (s.txs.set s.txs.response _).get k = some u := hu
    rw [Txs.get_set, hi] at hu'
    split at hu'
    · next hk => cases hu'; rw [if_pos hk, ← ht hk]
    · next hk => rw [if_neg hk]; exact h.even.1 u hu'
  · have hu' : (s.txs.set s.txs.response _).get k = none := hu
    rw [Txs.get_set] at hu'
    split at hu'
    · cases hu'
    · exact h.even.2 hu'

/-- Handing out the data settles it. -/
theorem responseRunHookBodyData_owed (e : Env) (o : Option Bytes) :
    Leads (RespOwed k r n (o.getD []).length) (RespAgree k r) (responseRunHookBodyData e { data := o }) := by
  intro s h
  have hi := h.index
  have done : ∀ tr, Counts (if k = r then wrapAdd n (o.getD []).length else n) (handed .responseBodyDataTx k tr) →
      RespAgree k r { s with trace := tr } := fun tr htr =>
    ⟨if k = r then wrapAdd n (o.getD []).length else n, hi, h.receiver, h.len, fun hu => by
      by_cases hk : k = r
      · obtain ⟨t, ht⟩ := h.there
        rw [← hk] at ht
        rw [show s.txs.get k = none from hu] at ht
        cases ht
      · rw [if_neg hk]; exact h.absent hu, htr⟩
  unfold responseRunHookBodyData
  rw [pdata_empty]
  by_cases hd : (o.getD []).length = 0
  · rw [if_pos (by simp [hd])]
    refine done s.trace ?_
    rw [hd]
    have h1 := h.trace
    unfold Counts at h1 ⊢
    unfold wrapAdd
    split <;> omega
  · rw [if_neg (by simp [hd])]
    obtain ⟨t, ht⟩ := h.there
    have h1 : responseTx e .panic s = (.ok t, s) := by
      unfold responseTx Txs.responseMut Txs.entry
      rw [hi, ht]
    rw [M.bind_ok h1]
    have h2 : (M.state : M Conn) s = (.ok s, s) := rfl
    rw [M.bind_ok h2]
    have h0 : handedBy .responseBodyDataTx k (.data .responseBodyDataTx s.txs.response { data := o }) =
        if k = r then (o.getD []).length else 0 := by
      show (if _ ∧ _ ∧ _ then _ else 0) = _
      by_cases hk : k = r
      · rw [if_pos ⟨rfl, by rw [hi, hk], rfl⟩, if_pos hk]
      · rw [if_neg fun h => hk (by rw [← hi]; exact h.2.1.symm), if_neg hk]
    have hc : Counts (if k = r then wrapAdd n (o.getD []).length else n) (handed .responseBodyDataTx k s.trace +
        if k = r then (o.getD []).length else 0) := by
      by_cases hk : k = r
      · rw [if_pos hk, if_pos hk]; exact counts_add h.trace
      · rw [if_neg hk, if_neg hk]; exact h.trace
    have h3 : handedBy .responseBodyDataTx k (.data .responseBodyData s.txs.response { data := o }) = 0 := rfl
    rcases emit_emit_snd e (.data .responseBodyDataTx s.txs.response { data := o })
      (.data .responseBodyData s.txs.response { data := o }) s with h4 | h4 <;> rw [h4]
    · refine done _ ?_
      rw [handed_append, handed_one, h0]; exact hc
    · refine done _ ?_
      rw [handed_append, handed_append, handed_one, handed_one, h0, h3]; exact hc

theorem responseRunHookBodyData_gap_even (e : Env) {d : PData} (hd : d.gapLen ≠ none) :
    Keeps (RespEven k r n) Any (responseRunHookBodyData e d) := by
  unfold responseRunHookBodyData
  even_walk
  · exact RespEven.emit (by assumption) (if_neg fun h => hd h.2.2)
  · even_leaf

theorem responseDecompressorCallback_counts (e : Env) (o : Option Bytes) (n : Nat) :
    Leads (RespEven k r n) (RespAgree k r) (responseDecompressorCallback e o) := by
  unfold responseDecompressorCallback
  refine Leads.bind respAgree (Keeps.responseTx RespEven.stable) fun t ht => ?_
  intro s hs
  refine Leads.afterResp (responseRunHookBodyData_owed e o) respAgree (fun _ n => ?_) _ (RespOwed.put _ hs ht)
  refine Leads.of (F := Any) respAgree ?_
  even_walk

theorem responseDecompress_counts (e : Env) (o : Option Bytes) (n : Nat) :
    Leads (RespEven k r n) (RespAgree k r) (responseDecompress e o) := by
  unfold responseDecompress
  refine Leads.bind respAgree (Keeps.responseTx RespEven.stable) fun t ht => ?_
  split
  · exact Leads.of (F := Any) respAgree Keeps.pure
  · exact Leads.of (F := Any) respAgree Keeps.fail
  · refine Leads.bind (F := Any) respAgree (Keeps.putResponse RespEven.stable (ht.same rfl)) fun _ _ => ?_
    refine Leads.bind_state fun s1 _ => ?_
    refine Leads.afterResp (Leads.decodingResp (responseDecompressorCallback_counts e) _ n) respAgree fun _ n => ?_
    exact Leads.of (F := Any) respAgree Keeps.pure
  · refine Leads.bind (F := Any) respAgree (Keeps.putResponse RespEven.stable (ht.same rfl)) fun _ _ => ?_
    refine Leads.bind_state fun s1 _ => ?_
    refine Leads.afterResp (Leads.decodingResp (responseDecompressorCallback_counts e) _ n) respAgree fun _ n => ?_
    refine Leads.of (F := Any) respAgree ?_
    even_walk <;> even_leaf

theorem responsePlainBody_counts (e : Env) (o : Option Bytes) (n : Nat) :
    Leads (RespEven k r n) (RespAgree k r) (responsePlainBody e o) := by
  unfold responsePlainBody
  intro s hs
  have hk := Keeps.responseTx RespEven.stable (e := e) (x := .panic) s hs
  rcases hr : responseTx e .panic s with ⟨x, s'⟩
  rw [hr] at hk
  cases x with
  | error x =>
    have h1 : modifyResponse e (fun t => { t with responseEntityLen := wrapAdd t.responseEntityLen (o.getD []).length }) s =
      (.error x, s') := M.bind_error hr
    rw [M.bind_error h1]
    exact ⟨n, hk.1⟩
  | ok t =>
    have h1 : modifyResponse e (fun t => { t with responseEntityLen := wrapAdd t.responseEntityLen (o.getD []).length }) s =
      putResponse { t with responseEntityLen := wrapAdd t.responseEntityLen (o.getD []).length } s' := M.bind_ok hr
    rw [M.bind_ok h1]
    exact responseRunHookBodyData_owed e o _ (RespOwed.put _ hk.1 (hk.2 t rfl))

theorem responseBodyData_counts (e : Env) (o : Option Bytes) (n : Nat) :
    Leads (RespEven k r n) (RespAgree k r) (responseBodyData e o) := by
  unfold responseBodyData
  refine Leads.bind respAgree (Keeps.responseTx RespEven.stable) fun t ht => ?_
  refine Leads.bind (F := Any) respAgree (Keeps.putResponse RespEven.stable (ht.same rfl)) fun _ _ => ?_
  split
  · exact responsePlainBody_counts e o n
  · exact Leads.of (F := Any) respAgree Keeps.fail
  · exact responseDecompress_counts e o n

theorem responseBodyChunkedData_counts (e : Env) (n : Nat) :
    Leads (RespEven k r n) (RespAgree k r) (responseBodyChunkedData e) := by
  unfold responseBodyChunkedData
  refine Leads.bind_state fun s1 _ => ?_
  dsimp only
  refine Leads.ite (fun _ => Leads.of (F := Any) respAgree Keeps.fail) fun _ => ?_
  refine Leads.bind (F := Any) respAgree Keeps.inputPrefix fun d _ => ?_
  refine Leads.afterResp (responseBodyData_counts e _ n) respAgree fun _ n => ?_
  refine Leads.of (F := Any) respAgree ?_
  even_walk <;> even_leaf

theorem responseIdentityData_counts (e : Env) (m n : Nat) :
    Leads (RespEven k r n) (RespAgree k r) (responseIdentityData e m) := by
  unfold responseIdentityData
  refine Leads.bind_state fun s1 _ => ?_
  refine Leads.ite (fun _ => Leads.of (F := Any) respAgree ?_) fun _ => ?_
  · refine Keeps.bind (Keeps.responseTx RespEven.stable) fun t ht => ?_
    refine Keeps.bind (F := Any) (Keeps.putResponse RespEven.stable (ht.same rfl)) fun _ _ => ?_
    exact responseRunHookBodyData_gap_even e (by simp [PData.ofGap])
  · refine Leads.bind (F := Any) respAgree Keeps.inputPrefix fun d _ => ?_
    exact responseBodyData_counts e _ n

theorem responseIdentityOpen_counts (e : Env) (n : Nat) :
    Leads (RespEven k r n) (RespAgree k r) (responseIdentityOpen e) := by
  unfold responseIdentityOpen
  refine Leads.bind_state fun s1 _ => ?_
  split
  · exact Leads.of (F := Any) respAgree Keeps.fail
  · dsimp only
    refine Leads.ite (fun _ => Leads.of (F := Any) respAgree Keeps.fail) fun _ => ?_
    refine Leads.afterResp (responseIdentityData_counts e _ n) respAgree fun _ n => ?_
    refine Leads.bind (F := Any) respAgree (by even_walk) fun _ _ => ?_
    refine Leads.bind (F := Any) respAgree (by even_walk; even_leaf) fun _ _ => ?_
    refine Leads.ite (fun _ => Leads.of (F := Any) respAgree Keeps.fail) fun _ => ?_
    refine Leads.bind (F := Any) respAgree (by even_walk; even_leaf) fun _ _ => ?_
    exact responseBodyData_counts e _ n

theorem responseBodyIdentityClKnown_counts (e : Env) (n : Nat) :
    Leads (RespEven k r n) (RespAgree k r) (responseBodyIdentityClKnown e) := by
  unfold responseBodyIdentityClKnown
  refine Leads.bind_state fun s1 _ => ?_
  refine Leads.ite (fun _ => ?_) fun _ => responseIdentityOpen_counts e n
  refine Leads.bind (F := Any) respAgree (by even_walk; even_leaf) fun _ _ => ?_
  exact responseBodyData_counts e _ n

theorem responseStreamData_counts (e : Env) (n : Nat) :
    Leads (RespEven k r n) (RespAgree k r) (responseStreamData e) := by
  unfold responseStreamData
  refine Leads.bind_state fun s1 _ => ?_
  refine Leads.ite (fun hg => Leads.of (F := Any) respAgree ?_) fun _ => ?_
  · refine Keeps.bind (Keeps.responseTx RespEven.stable) fun t ht => ?_
    refine responseRunHookBodyData_gap_even e fun h => ?_
    rw [PData.isGap, h] at hg
    cases hg
  · refine Leads.ite (fun _ => Leads.of (F := Any) respAgree Keeps.pure) fun _ => ?_
    refine Leads.afterResp (responseBodyData_counts e _ n) respAgree fun _ n => ?_
    exact Leads.of (F := Any) respAgree (by even_walk)

theorem responseBodyIdentityStreamClose_counts (e : Env) (n : Nat) :
    Leads (RespEven k r n) (RespAgree k r) (responseBodyIdentityStreamClose e) := by
  unfold responseBodyIdentityStreamClose
  refine Leads.afterResp (responseStreamData_counts e n) respAgree fun _ n => ?_
  exact Leads.of (F := Any) respAgree (by even_walk; even_leaf)

theorem completeResponse_counts (e : Env) (t : Tx) (n : Nat) (ht : RespLen k r n t) :
    Leads (RespEven k r n) (RespAgree k r) (completeResponse e t) := by
  unfold completeResponse
  refine Leads.bind (F := Any) respAgree (Keeps.putResponse RespEven.stable (ht.same rfl)) fun _ _ => ?_
  refine Leads.afterResp (Leads.when respAgree ?_) respAgree fun _ n => ?_
  · refine Leads.afterResp (Leads.attempt (responseBodyData_counts e _ n)) respAgree fun _ n => ?_
    exact Leads.of (F := Any) respAgree Keeps.pure
  · exact Leads.of (F := Any) respAgree (by even_walk; even_leaf)

theorem responseLineAsBody_counts (e : Env) (l : Bytes) (n : Nat) :
    Leads (RespEven k r n) (RespAgree k r) (responseLineAsBody e l) := by
  unfold responseLineAsBody
  refine Leads.bind (F := Any) respAgree (by even_walk; even_leaf) fun _ _ => ?_
  refine Leads.afterResp (responseBodyData_counts e _ n) respAgree fun _ n => ?_
  exact Leads.of (F := Any) respAgree (by even_walk <;> even_leaf)

theorem responseLineRead_counts (e : Env) (l : Bytes) (n : Nat) :
    Leads (RespEven k r n) (RespAgree k r) (responseLineRead e l) := by
  unfold responseLineRead
  refine Leads.bind (F := Any) respAgree (by even_walk; even_leaf) fun _ _ => ?_
  refine Leads.bind_state fun s1 _ => ?_
  refine Leads.ite (fun _ => ?_) fun _ => Leads.of (F := Any) respAgree (by even_walk <;> even_leaf)
  split
  · exact Leads.of (F := Any) respAgree Keeps.raise
  · exact Leads.of (F := Any) respAgree (by even_walk; even_leaf)
  · exact responseLineAsBody_counts e l n

theorem responseLineComplete_counts (e : Env) (l : Bytes) (n : Nat) :
    Leads (RespEven k r n) (RespAgree k r) (responseLineComplete e l) := by
  unfold responseLineComplete
  refine Leads.bind (F := Any) respAgree Keeps.checkResponseBufferLimit fun _ _ => ?_
  refine Leads.ite (fun _ => Leads.of (F := Any) respAgree Keeps.fail) fun _ => ?_
  refine Leads.bind respAgree (Keeps.responseTx RespEven.stable) fun t ht => ?_
  refine Leads.ite (fun _ => Leads.of (F := Any) respAgree ?_) fun _ => responseLineRead_counts e l n
  exact Keeps.bind (F := Any) (Keeps.setResp fun _ h => h.other rfl rfl (Or.inl rfl)) fun _ _ =>
    Keeps.putResponse RespEven.stable (ht.same rfl)

theorem responseLine_counts (e : Env) (n : Nat) : Leads (RespEven k r n) (RespAgree k r) (responseLine e) := by
  unfold responseLine
  refine Leads.bind_state fun s1 _ => ?_
  split
  · refine Leads.bind (F := Any) respAgree (by even_walk; even_leaf) fun _ _ => ?_
    refine Leads.bind (F := Any) respAgree (by even_walk) fun _ _ => ?_
    exact responseLineComplete_counts e _ n
  · refine Leads.ite (fun _ => ?_) fun _ => Leads.of (F := Any) respAgree (by even_walk)
    refine Leads.bind (F := Any) respAgree (by even_walk; even_leaf) fun _ _ => ?_
    refine Leads.bind (F := Any) respAgree (by even_walk) fun _ _ => ?_
    exact responseLineComplete_counts e _ n

end

end Model
