/-
The functions of the request state machine do not panic: the transactions they unwrap exist.
-/
import Verif.Lemmas.NoPanicDecode
import Verif.Lemmas.Conn
import Verif.Lemmas.Txs
import Verif.Lemmas.ConnReqInv

namespace Model

open M

/-- From a state in `P`, `m` does not panic and ends in a state in `Q`, whether it succeeds or not. -/
def Calm {α : Type} (P Q : Conn → Prop) (m : M α) : Prop :=
  ∀ s, P s → (m s).1 ≠ .error .panic ∧ Q (m s).2

/-- Any state. -/
abbrev Top : Conn → Prop := fun _ => True

/-- The current request transaction exists. -/
def HasReq : Conn → Prop := fun s => (s.txs.get s.txs.request).isSome = true

/-- The current response transaction exists. -/
def HasResp : Conn → Prop := fun s => (s.txs.get s.txs.response).isSome = true

/-- A predicate that survives everything but the removal of transactions and the step to the next one. -/
structure Lasting (P : Conn → Prop) : Prop where
  same : ∀ {s s' : Conn}, s'.txs = s.txs → P s → P s'
  set : ∀ {s : Conn} {k : Nat} {t : Tx}, P s → P { s with txs := s.txs.set k t }

theorem Lasting.top : Lasting Top := ⟨fun _ _ => trivial, fun _ => trivial⟩

theorem Lasting.hasReq : Lasting HasReq where
  same h hs := by unfold HasReq at *; rw [h]; exact hs
  set {s k t} hs := by
    unfold HasReq at *
    show ((s.txs.set k t).get s.txs.request).isSome = true
    rw [Txs.get_set]
    split
    · rfl
    · exact hs

theorem Lasting.hasResp : Lasting HasResp where
  same h hs := by unfold HasResp at *; rw [h]; exact hs
  set {s k t} hs := by
    unfold HasResp at *
    show ((s.txs.set k t).get s.txs.response).isSome = true
    rw [Txs.get_set]
    split
    · rfl
    · exact hs

namespace Calm

variable {α β : Type} {P Q R : Conn → Prop}

theorem weaken {m : M α} (h : Calm P Q m) (hq : ∀ s, Q s → R s) : Calm P R m :=
  fun s hs => ⟨(h s hs).1, hq _ (h s hs).2⟩

theorem top {m : M α} (h : Calm P Q m) : Calm P Top m := h.weaken fun _ _ => trivial

theorem pre {m : M α} (h : Calm Q R m) (hp : ∀ s, P s → Q s) : Calm P R m := fun s hs => h s (hp s hs)

theorem bind {m : M α} {f : α → M β} (h : Calm P Q m) (h' : ∀ a, Calm Q R (f a)) (hq : ∀ s, Q s → R s) :
    Calm P R (m >>= f) := by
  intro s hs
  show (match m s with | (.ok a, s) => f a s | (.error e, s) => (.error e, s)).1 ≠ .error .panic ∧
    R (match m s with | (.ok a, s) => f a s | (.error e, s) => (.error e, s)).2
  have hm := h s hs
  cases hr : m s with
  | mk r s' =>
    rw [hr] at hm
    cases r with
    | ok a => exact h' a s' hm.2
    | error x =>
      refine ⟨fun he => hm.1 ?_, hq _ hm.2⟩
      cases he
      rfl

theorem bind_keep {m : M α} {f : α → M β} (h : Calm P P m) (h' : ∀ a, Calm P R (f a)) (hq : ∀ s, P s → R s) :
    Calm P R (m >>= f) := bind h h' hq

/-- The rule for a function that succeeds only in states in `Q`. -/
theorem bind_ok {m : M α} {f : α → M β} (h : ∀ s, P s → (m s).1 ≠ .error .panic ∧ ∀ a, (m s).1 = .ok a → Q (m s).2)
    (h' : ∀ a, Calm Q Top (f a)) : Calm P Top (m >>= f) := by
  intro s hs
  refine ⟨?_, trivial⟩
  show (match m s with | (.ok a, s) => f a s | (.error e, s) => (.error e, s)).1 ≠ .error .panic
  have hm := h s hs
  cases hr : m s with
  | mk r s' =>
    rw [hr] at hm
    cases r with
    | ok a => exact (h' a s' (hm.2 a rfl)).1
    | error x =>
      intro he
      refine hm.1 ?_
      cases he
      rfl

theorem bind_state {f : Conn → M β} (h : ∀ s, Calm (fun s' => P s' ∧ s' = s) R (f s)) : Calm P R (M.state >>= f) :=
  fun s hs => h s s ⟨hs, rfl⟩

/-- What is read is not used. -/
theorem bind_read {f : Conn → M β} (h : ∀ s, Calm P R (f s)) : Calm P R (M.state >>= f) :=
  fun s hs => h s s hs

theorem pure {a : α} (h : ∀ s, P s → Q s) : Calm P Q (Pure.pure a) := fun s hs => ⟨by simp [Pure.pure], h s hs⟩

theorem fail {x : Status} (h : ∀ s, P s → Q s) : Calm P Q (M.fail x : M α) :=
  fun s hs => ⟨by simp [M.fail, M.raise], h s hs⟩

theorem ofExcept {x : Except Err α} (h : ∀ s, P s → Q s) (hx : x ≠ .error .panic) : Calm P Q (M.ofExcept x) := by
  intro s hs
  cases x with
  | ok a => exact ⟨by simp [M.ofExcept, Pure.pure], h s hs⟩
  | error e =>
    refine ⟨?_, h s hs⟩
    simp only [M.ofExcept, M.raise]
    exact fun he => hx (by cases he; rfl)

theorem ofStatus {x : Except Status α} (h : ∀ s, P s → Q s) : Calm P Q (M.ofExcept (x.mapError .status)) :=
  ofExcept h (by cases x <;> simp [Except.mapError])

theorem ite {c : Prop} [Decidable c] {m m' : M α} (h : c → Calm P Q m) (h' : ¬c → Calm P Q m') :
    Calm P Q (if c then m else m') := by
  by_cases hc : c
  · rw [if_pos hc]; exact h hc
  · rw [if_neg hc]; exact h' hc

theorem when {c : Bool} {m : M Unit} (hp : ∀ s, P s → Q s) (h : c = true → Calm P Q m) : Calm P Q (M.when c m) := by
  cases c
  · exact pure hp
  · exact h rfl

theorem attempt {m : M α} (h : Calm P Q m) : Calm P Q (M.attempt m) := by
  intro s hs
  have := h s hs
  unfold M.attempt
  cases hm : m s with
  | mk r s' =>
    rw [hm] at this
    cases r with
    | ok a => exact ⟨by simp, this.2⟩
    | error x =>
      cases x with
      | status st => exact ⟨by simp, this.2⟩
      | panic => exact absurd rfl this.1

theorem runDecoding {cb : Option Bytes → M Unit} (h : ∀ o, Calm P P (cb o)) (d : Decoding) :
    Calm P P (Model.runDecoding cb d) := by
  induction d with
  | done ok => exact pure fun _ h => h
  | call out next ih => exact bind (attempt (h out)) (fun r => ih _) fun _ h => h

theorem modify {f : Conn → Conn} (hP : Lasting P) (h : ∀ s, (f s).txs = s.txs) : Calm P P (M.modify f) :=
  fun s hs => ⟨by simp [M.modify], hP.same (h s) hs⟩

theorem setReq {f : Half → Half} (hP : Lasting P) : Calm P P (M.setReq f) := modify hP fun _ => rfl
theorem setResp {f : Half → Half} (hP : Lasting P) : Calm P P (M.setResp f) := modify hP fun _ => rfl

theorem emit {e : Env} {ev : Event} (hP : Lasting P) : Calm P P (emit e ev) := by
  intro s hs
  unfold Model.emit
  cases e.hook s.trace ev with
  | ok _ => exact ⟨by simp, hP.same (s := s) rfl hs⟩
  | error _ => exact ⟨by simp, hP.same (s := s) rfl hs⟩

theorem runTxHook {e : Env} {k : TxHook} {i : Nat} (hP : Lasting P) : Calm P P (runTxHook e k i) := by
  unfold Model.runTxHook
  exact bind_read fun s => when (fun _ h => h) fun _ => emit hP

/-- The transaction is looked up; nothing is known of its existence. -/
theorem requestTx {e : Env} {x : Status} (hP : Lasting P) : Calm P P (requestTx e (.status x)) := by
  intro s hs
  unfold Model.requestTx Txs.requestMut Txs.entry
  cases hg : s.txs.get s.txs.request with
  | some t => exact ⟨by simp, hs⟩
  | none =>
    dsimp only
    by_cases hl : s.txs.map.length ≥ e.cfg.maxTx
    · rw [if_pos hl]; exact ⟨by simp, hs⟩
    · rw [if_neg hl]; exact ⟨by simp, hP.set hs⟩

theorem responseTx {e : Env} {x : Status} (hP : Lasting P) : Calm P P (responseTx e (.status x)) := by
  intro s hs
  unfold Model.responseTx Txs.responseMut Txs.entry
  cases hg : s.txs.get s.txs.response with
  | some t => exact ⟨by simp, hs⟩
  | none =>
    dsimp only
    by_cases hl : s.txs.map.length ≥ e.cfg.maxTx
    · rw [if_pos hl]; exact ⟨by simp, hs⟩
    · rw [if_neg hl]; exact ⟨by simp, hP.set hs⟩

/-- Once the transaction was found, it is there. -/
theorem bind_requestTx {e : Env} {x : Status} {f : Tx → M β} (h : ∀ t, Calm HasReq Top (f t)) :
    Calm P Top (Model.requestTx e (.status x) >>= f) := by
  refine bind_ok (Q := HasReq) (fun s _ => ?_) h
  unfold Model.requestTx Txs.requestMut Txs.entry
  cases hg : s.txs.get s.txs.request with
  | some t => exact ⟨by simp, fun a _ => by unfold HasReq; rw [hg]; rfl⟩
  | none =>
    dsimp only
    by_cases hl : s.txs.map.length ≥ e.cfg.maxTx
    · rw [if_pos hl]; exact ⟨by simp, fun a h => by cases h⟩
    · rw [if_neg hl]
      refine ⟨by simp, fun a _ => ?_⟩
      show ((s.txs.set s.txs.request _).get s.txs.request).isSome = true
      rw [Txs.get_set, if_pos rfl]; rfl

theorem bind_responseTx {e : Env} {x : Status} {f : Tx → M β} (h : ∀ t, Calm HasResp Top (f t)) :
    Calm P Top (Model.responseTx e (.status x) >>= f) := by
  refine bind_ok (Q := HasResp) (fun s _ => ?_) h
  unfold Model.responseTx Txs.responseMut Txs.entry
  cases hg : s.txs.get s.txs.response with
  | some t => exact ⟨by simp, fun a _ => by unfold HasResp; rw [hg]; rfl⟩
  | none =>
    dsimp only
    by_cases hl : s.txs.map.length ≥ e.cfg.maxTx
    · rw [if_pos hl]; exact ⟨by simp, fun a h => by cases h⟩
    · rw [if_neg hl]
      refine ⟨by simp, fun a _ => ?_⟩
      show ((s.txs.set s.txs.response _).get s.txs.response).isSome = true
      rw [Txs.get_set, if_pos rfl]; rfl

theorem hasReq {e : Env} {x : Err} : Calm HasReq HasReq (Model.requestTx e x) := by
  intro s hs
  unfold Model.requestTx Txs.requestMut Txs.entry
  cases hg : s.txs.get s.txs.request with
  | some t => exact ⟨by simp, hs⟩
  | none => unfold HasReq at hs; rw [hg] at hs; cases hs

theorem hasResp {e : Env} {x : Err} : Calm HasResp HasResp (Model.responseTx e x) := by
  intro s hs
  unfold Model.responseTx Txs.responseMut Txs.entry
  cases hg : s.txs.get s.txs.response with
  | some t => exact ⟨by simp, hs⟩
  | none => unfold HasResp at hs; rw [hg] at hs; cases hs

theorem putRequest {t : Tx} (hP : Lasting P) : Calm P P (putRequest t) :=
  fun s hs => ⟨by simp [Model.putRequest, M.modify], hP.set hs⟩

theorem putResponse {t : Tx} (hP : Lasting P) : Calm P P (putResponse t) :=
  fun s hs => ⟨by simp [Model.putResponse, M.modify], hP.set hs⟩

theorem modifyRequest {e : Env} {f : Tx → Tx} : Calm HasReq HasReq (modifyRequest e f) :=
  bind hasReq (fun _ => putRequest .hasReq) fun _ h => h

theorem modifyResponse {e : Env} {f : Tx → Tx} : Calm HasResp HasResp (modifyResponse e f) :=
  bind hasResp (fun _ => putResponse .hasResp) fun _ h => h

theorem withRequest {e : Env} {f : Tx → α × Tx} (hP : Lasting P) : Calm P P (withRequest e f) :=
  bind (requestTx hP) (fun _ => bind (putRequest hP) (fun _ => pure fun _ h => h) fun _ h => h) fun _ h => h

theorem withResponse {e : Env} {f : Tx → α × Tx} (hP : Lasting P) : Calm P P (withResponse e f) :=
  bind (responseTx hP) (fun _ => bind (putResponse hP) (fun _ => pure fun _ h => h) fun _ h => h) fun _ h => h

theorem onRequest {e : Env} {f : Tx → Except Err α × Tx} (hP : Lasting P) (hf : ∀ t, (f t).1 ≠ .error .panic) :
    Calm P P (onRequest e f) :=
  bind (requestTx hP) (fun t => bind (putRequest hP) (fun _ => ofExcept (fun _ h => h) (hf t)) fun _ h => h)
    fun _ h => h

theorem requestConsume {n : Nat} (hP : Lasting P) : Calm P P (requestConsume n) := modify hP fun _ => rfl
theorem requestUnconsume {n : Nat} (hP : Lasting P) : Calm P P (requestUnconsume n) := modify hP fun _ => rfl
theorem responseConsume {n : Nat} (hP : Lasting P) : Calm P P (responseConsume n) := modify hP fun _ => rfl
theorem responseUnconsume {n : Nat} (hP : Lasting P) : Calm P P (responseUnconsume n) := modify hP fun _ => rfl

theorem checkRequestBufferLimit {e : Env} {n : Nat} : Calm P P (checkRequestBufferLimit e n) :=
  bind_read fun _ => ite (fun _ => fail fun _ h => h) fun _ => pure fun _ h => h

theorem checkResponseBufferLimit {e : Env} {n : Nat} : Calm P P (checkResponseBufferLimit e n) :=
  bind_read fun _ => ite (fun _ => fail fun _ h => h) fun _ => pure fun _ h => h

end Calm

/-- Extensible: closes a goal `Calm P Q f` for a function `f` already dealt with. -/
syntax "calm_known" : tactic

macro_rules | `(tactic| calm_known) => `(tactic| assumption)

/-- Closes `Lasting P`. -/
macro "lasting" : tactic => `(tactic| first | assumption | exact Lasting.hasReq | exact Lasting.hasResp | exact Lasting.top)

/-- Closes the implications between predicates. -/
macro "calm_imp" : tactic => `(tactic| first | exact fun _ h => h | exact fun _ _ => trivial)

/-- The functions that keep any lasting predicate. -/
macro "calm_prim" : tactic => `(tactic| first
  | calm_known
  | exact Calm.pure (by calm_imp)
  | exact Calm.fail (by calm_imp)
  | exact Calm.ofStatus (by calm_imp)
  | exact Calm.checkRequestBufferLimit
  | exact Calm.checkResponseBufferLimit
  | exact Calm.hasReq
  | exact Calm.hasResp
  | exact Calm.requestTx (by lasting)
  | exact Calm.responseTx (by lasting)
  | exact Calm.putRequest (by lasting)
  | exact Calm.putResponse (by lasting)
  | exact Calm.modifyRequest
  | exact Calm.modifyResponse
  | exact Calm.withRequest (by lasting)
  | exact Calm.withResponse (by lasting)
  | exact Calm.emit (by lasting)
  | exact Calm.runTxHook (by lasting)
  | exact Calm.setReq (by lasting)
  | exact Calm.setResp (by lasting)
  | exact Calm.requestConsume (by lasting)
  | exact Calm.requestUnconsume (by lasting)
  | exact Calm.responseConsume (by lasting)
  | exact Calm.responseUnconsume (by lasting)
  | exact Calm.modify (by lasting) (fun _ => rfl))

/-- Walks through the text of a function. -/
macro "calm_walk" : tactic => `(tactic| repeat' (with_reducible first
  | calm_prim
  | exact Calm.top (P := HasReq) (Q := HasReq) (by calm_prim)
  | exact Calm.top (P := HasResp) (Q := HasResp) (by calm_prim)
  | exact Calm.pre (Q := Top) (by calm_known) (by calm_imp)
  | refine Calm.bind_read ?_
  | refine Calm.bind (Q := HasReq) Calm.hasReq ?_ (by calm_imp)
  | refine Calm.bind (Q := HasResp) Calm.hasResp ?_ (by calm_imp)
  | refine Calm.bind_requestTx ?_
  | refine Calm.bind_responseTx ?_
  | refine Calm.onRequest (by lasting) ?_
  | refine Calm.ite ?_ ?_
  | refine Calm.when (by calm_imp) ?_
  | refine Calm.attempt ?_
  | refine Calm.runDecoding ?_ _
  | refine Calm.bind_keep ?_ ?_ (by calm_imp)
  | intro _
  | split))

end Model
