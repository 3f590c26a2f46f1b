/-
What handing out body data does.
-/
import Verif.Lemmas.ConnRun
import Verif.Spec.Body

namespace Model

open M Spec

/-- From `s` to `s'` these callbacks ran and transaction `k` became `t`; nothing else changed. -/
structure TxStep (k : Nat) (t : Tx) (evs : List Event) (s s' : Conn) : Prop where
  eq : ∃ m, s' = { s with txs := { s.txs with map := m }, trace := s.trace ++ evs }
  here : s'.txs.get k = some t
  others : ∀ j, j ≠ k → s'.txs.get j = s.txs.get j

namespace TxStep

variable {k : Nat} {t t' : Tx} {evs evs' : List Event} {s s' s'' : Conn}

theorem refl (h : s.txs.get k = some t) : TxStep k t [] s s := ⟨⟨s.txs.map, by simp⟩, h, fun _ _ => rfl⟩

theorem trans (h : TxStep k t evs s s') (h' : TxStep k t' evs' s' s'') :
    TxStep k t' (evs ++ evs') s s'' := by
  obtain ⟨⟨m, rfl⟩, h1, h2⟩ := h
  obtain ⟨⟨m', rfl⟩, h3, h4⟩ := h'
  exact ⟨⟨m', by simp⟩, h3, fun j hj => (h4 j hj).trans (h2 j hj)⟩

theorem request (h : TxStep k t evs s s') : s'.txs.request = s.txs.request := by obtain ⟨⟨m, rfl⟩, -, -⟩ := h; rfl
theorem response (h : TxStep k t evs s s') : s'.txs.response = s.txs.response := by
  obtain ⟨⟨m, rfl⟩, -, -⟩ := h; rfl
theorem req (h : TxStep k t evs s s') : s'.req = s.req := by obtain ⟨⟨m, rfl⟩, -, -⟩ := h; rfl
theorem resp (h : TxStep k t evs s s') : s'.resp = s.resp := by obtain ⟨⟨m, rfl⟩, -, -⟩ := h; rfl
theorem input (h : TxStep k t evs s s') : s'.input = s.input := by obtain ⟨⟨m, rfl⟩, -, -⟩ := h; rfl
theorem trace (h : TxStep k t evs s s') : s'.trace = s.trace ++ evs := by obtain ⟨⟨m, rfl⟩, -, -⟩ := h; rfl

end TxStep

theorem putRequest_step (t : Tx) (s : Conn) :
    ∃ s', putRequest t s = (.ok (), s') ∧ TxStep s.txs.request t [] s s' :=
  ⟨_, rfl, ⟨_, by simp only [List.append_nil]; rfl⟩, (Txs.lookup_put _ _ _ _).trans (if_pos rfl),
    fun _ hj => set_other _ _ _ _ hj⟩

theorem putResponse_step (t : Tx) (s : Conn) :
    ∃ s', putResponse t s = (.ok (), s') ∧ TxStep s.txs.response t [] s s' :=
  ⟨_, rfl, ⟨_, by simp only [List.append_nil]; rfl⟩, (Txs.lookup_put _ _ _ _).trans (if_pos rfl),
    fun _ hj => set_other _ _ _ _ hj⟩

theorem emit_ok {e : Env} (hcb : CallbacksOK e) (ev : Event) (s : Conn) :
    emit e ev s = (.ok (), { s with trace := s.trace ++ [ev] }) := by
  unfold emit
  rw [hcb]

theorem emit_step {e : Env} (hcb : CallbacksOK e) (ev : Event) {s : Conn} {k : Nat} {t : Tx}
    (h : s.txs.get k = some t) : ∃ s', emit e ev s = (.ok (), s') ∧ TxStep k t [ev] s s' :=
  ⟨_, emit_ok hcb ev s, ⟨s.txs.map, rfl⟩, h, fun _ _ => rfl⟩

/-- The callbacks run for one piece of body data. -/
def requestBodyEvents (k : Nat) (d : PData) : List Event :=
  if (d.unconsumed.isSome && d.isEmpty) = true then []
  else [.data .requestBodyDataTx k d, .data .requestBodyData k d]
def responseBodyEvents (k : Nat) (d : PData) : List Event :=
  if d.isEmpty = true then [] else [.data .responseBodyDataTx k d, .data .responseBodyData k d]

theorem requestRunHookBodyData_step {e : Env} (hcb : CallbacksOK e) (d : PData) {s : Conn} {t : Tx}
    (ht : s.txs.get s.txs.request = some t) :
    ∃ s', requestRunHookBodyData e d s = (.ok (), s') ∧
      TxStep s.txs.request t (requestBodyEvents s.txs.request d) s s' := by
  unfold requestRunHookBodyData requestBodyEvents
  rw [M.bind_ok (requestTx_some ht)]
  split
  next h => exact ⟨s, rfl, .refl ht⟩
  next h =>
    rw [M.bind_state]
    obtain ⟨s1, h1, k1⟩ := emit_step hcb (.data .requestBodyDataTx s.txs.request d) ht
    obtain ⟨s2, h2, k2⟩ := emit_step hcb (.data .requestBodyData s.txs.request d) k1.here
    rw [M.bind_ok h1, h2]
    exact ⟨s2, rfl, k1.trans k2⟩

theorem responseRunHookBodyData_step {e : Env} (hcb : CallbacksOK e) (d : PData) {s : Conn} {t : Tx}
    (ht : s.txs.get s.txs.response = some t) :
    ∃ s', responseRunHookBodyData e d s = (.ok (), s') ∧
      TxStep s.txs.response t (responseBodyEvents s.txs.response d) s s' := by
  unfold responseRunHookBodyData responseBodyEvents
  split
  next h => exact ⟨s, rfl, .refl ht⟩
  next h =>
    rw [M.bind_ok (responseTx_some ht), M.bind_state]
    obtain ⟨s1, h1, k1⟩ := emit_step hcb (.data .responseBodyDataTx s.txs.response d) ht
    obtain ⟨s2, h2, k2⟩ := emit_step hcb (.data .responseBodyData s.txs.response d) k1.here
    rw [M.bind_ok h1, h2]
    exact ⟨s2, rfl, k1.trans k2⟩

/-- Body data that is not compressed. -/
theorem requestBodyData_step {e : Env} (hcb : CallbacksOK e) (d : Option Bytes) {s : Conn} {t : Tx}
    (ht : s.txs.get s.txs.request = some t) (henc : t.requestContentEncodingProcessing = .none)
    (hlen : t.requestEntityLen + (d.getD []).length < 2 ^ 64) :
    ∃ s', requestBodyData e d s = (.ok (), s') ∧
      TxStep s.txs.request
        { t with
          requestMessageLen := wrapAdd t.requestMessageLen (d.getD []).length
          requestEntityLen := t.requestEntityLen + (d.getD []).length }
        (requestBodyEvents s.txs.request { data := d }) s s' := by
  generalize ht' : ({ t with
    requestMessageLen := wrapAdd t.requestMessageLen (d.getD []).length
    requestEntityLen := t.requestEntityLen + (d.getD []).length } : Tx) = t'
  unfold requestBodyData
  rw [M.bind_ok (requestTx_some ht)]
  obtain ⟨s1, h1, k1⟩ := putRequest_step
    { t with requestMessageLen := wrapAdd t.requestMessageLen (d.getD []).length } s
  rw [M.bind_ok h1, henc]
  dsimp only
  unfold requestPlainBody
  rw [M.bind_ok (requestTx_some (k1.request ▸ k1.here))]
  rw [if_neg (by simp; intro _; exact hlen)]
  obtain ⟨s2, h2, k2⟩ := putRequest_step
    { t with
      requestMessageLen := wrapAdd t.requestMessageLen (d.getD []).length
      requestEntityLen := wrapAdd t.requestEntityLen (d.getD []).length } s1
  rw [M.bind_ok h2]
  have hw : wrapAdd t.requestEntityLen (d.getD []).length = t.requestEntityLen + (d.getD []).length :=
    Nat.mod_eq_of_lt hlen
  rw [hw] at k2
  rw [k1.request] at k2
  obtain ⟨s3, h3, k3⟩ := requestRunHookBodyData_step hcb { data := d } (s := s2)
    (by rw [k2.request, k1.request]; exact k2.here)
  rw [k2.request, k1.request] at k3
  rw [h3]
  have h := (k1.trans k2).trans k3
  rw [List.nil_append, List.nil_append, ht'] at h
  exact ⟨s3, rfl, h⟩

theorem responseBodyData_step {e : Env} (hcb : CallbacksOK e) (d : Option Bytes) {s : Conn} {t : Tx}
    (ht : s.txs.get s.txs.response = some t) (henc : t.responseContentEncodingProcessing = .none) :
    ∃ s', responseBodyData e d s = (.ok (), s') ∧
      TxStep s.txs.response
        { t with
          responseMessageLen := wrapAdd t.responseMessageLen (d.getD []).length
          responseEntityLen := wrapAdd t.responseEntityLen (d.getD []).length }
        (responseBodyEvents s.txs.response { data := d }) s s' := by
  generalize ht' : ({ t with
    responseMessageLen := wrapAdd t.responseMessageLen (d.getD []).length
    responseEntityLen := wrapAdd t.responseEntityLen (d.getD []).length } : Tx) = t'
  unfold responseBodyData
  rw [M.bind_ok (responseTx_some ht)]
  obtain ⟨s1, h1, k1⟩ := putResponse_step
    { t with responseMessageLen := wrapAdd t.responseMessageLen (d.getD []).length } s
  rw [M.bind_ok h1, henc]
  dsimp only
  unfold responsePlainBody modifyResponse
  obtain ⟨s2, h2, k2⟩ := putResponse_step
    { t with
      responseMessageLen := wrapAdd t.responseMessageLen (d.getD []).length
      responseEntityLen := wrapAdd t.responseEntityLen (d.getD []).length } s1
  have h12 : (do
      let t ← responseTx e .panic
      putResponse { t with responseEntityLen := wrapAdd t.responseEntityLen (d.getD []).length } : M Unit) s1 =
      (.ok (), s2) := by
    rw [M.bind_ok (responseTx_some (k1.response ▸ k1.here))]
    exact h2
  rw [M.bind_ok h12]
  rw [k1.response] at k2
  obtain ⟨s3, h3, k3⟩ := responseRunHookBodyData_step hcb { data := d } (s := s2)
    (by rw [k2.response, k1.response]; exact k2.here)
  rw [k2.response, k1.response] at k3
  rw [h3]
  have h := (k1.trans k2).trans k3
  rw [List.nil_append, List.nil_append, ht'] at h
  exact ⟨s3, rfl, h⟩

/-! What is delivered. -/

theorem delivered_append (h : DataHook) (k : Nat) (a b : List Event) :
    delivered h k (a ++ b) = delivered h k a ++ delivered h k b := by
  induction a with
  | nil => rfl
  | cons ev a ih => cases ev <;> simp [delivered, ih]

theorem delivered_requestBodyEvents (k : Nat) (d : PData) :
    delivered .requestBodyData k (requestBodyEvents k d) = handedOut d := by
  unfold requestBodyEvents
  split
  next h =>
    simp only [Bool.and_eq_true, PData.isEmpty, beq_iff_eq] at h
    unfold handedOut delivered
    cases hg : d.gapLen with
    | some g => simp [h.2]
    | none =>
      have : d.len = d.asSlice.length := by
        unfold PData.len
        rw [hg]
      rw [this] at h
      simp [List.length_eq_zero_iff.1 h.2]
  next => simp [delivered]

theorem delivered_responseBodyEvents (k : Nat) (d : PData) :
    delivered .responseBodyData k (responseBodyEvents k d) = handedOut d := by
  unfold responseBodyEvents
  split
  next h =>
    simp only [PData.isEmpty, beq_iff_eq] at h
    unfold handedOut delivered
    cases hg : d.gapLen with
    | some g => simp [h]
    | none =>
      have : d.len = d.asSlice.length := by
        unfold PData.len
        rw [hg]
      rw [this] at h
      simp [List.length_eq_zero_iff.1 h]
  next => simp [delivered]

end Model
