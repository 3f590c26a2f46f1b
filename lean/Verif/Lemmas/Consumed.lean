/-
The parser asks for more data only when it has used up what it was given: judgements.
-/
import Verif.Lemmas.ConnRun
import Verif.Lemmas.Keeps
import Verif.Spec.Consumed

namespace Model

open M Spec

/-- The statuses by which the machine asks for more data. -/
def Wait (st : Status) : Prop := st = .data ∨ st = .dataBuffer

/-- The function does not ask for more data. -/
def Sure {α : Type} (m : M α) : Prop := ∀ s st, (m s).1 = .error (.status st) → ¬ Wait st

/-- A result that does not ask for more data. -/
def SureRes {α : Type} (x : Except Err α) : Prop := ∀ st, x = .error (.status st) → ¬ Wait st

theorem definite_wait {e : Env} (h : Definite e) {past : List Event} {ev : Event} {st : Status}
    (hh : e.hook past ev = .error st) : ¬ Wait st := by
  intro hw
  have := h.hook past ev st hh
  rcases hw with hw | hw
  · exact this.1 hw
  · exact this.2 hw

namespace Sure

variable {α β : Type}

theorem pure {a : α} : Sure (Pure.pure a) := fun _ _ h => by cases h
theorem state : Sure M.state := fun _ _ h => by cases h
theorem panic : Sure (M.raise .panic : M α) := fun _ _ h => by cases h
theorem error : Sure (M.fail .error : M α) := fun _ _ h => by
  cases h
  rintro (h | h) <;> cases h
theorem dataOther : Sure (M.fail .dataOther : M α) := fun _ _ h => by
  cases h
  rintro (h | h) <;> cases h
theorem modify {f : Conn → Conn} : Sure (M.modify f) := fun _ _ h => by cases h
theorem setReq {f : Half → Half} : Sure (M.setReq f) := fun _ _ h => by cases h
theorem setResp {f : Half → Half} : Sure (M.setResp f) := fun _ _ h => by cases h

theorem ofExcept {x : Except Err α} (h : SureRes x) : Sure (M.ofExcept x) := by
  intro s st hst
  cases x with
  | ok a => cases hst
  | error x => exact h st (by cases hst; rfl)

theorem bind {m : M α} {f : α → M β} (h : Sure m) (h' : ∀ a, Sure (f a)) : Sure (m >>= f) := by
  intro s st hst
  cases hm : m s with
  | mk r s' =>
    cases r with
    | ok a => rw [M.bind_ok hm] at hst; exact h' a s' st hst
    | error x =>
      rw [M.bind_error hm] at hst
      refine h s st ?_
      rw [hm]
      cases hst
      rfl

/-- The result of the first part is handed to the second. -/
theorem bind_attempt {m : M Unit} {f : Except Status Unit → M β} (h : Sure m)
    (h' : ∀ rc : Except Status Unit, SureRes (rc.mapError Err.status) → Sure (f rc)) : Sure (M.attempt m >>= f) := by
  intro s st hst
  have hs := h s
  cases hm : m s with
  | mk r s' =>
    rw [hm] at hs
    cases r with
    | ok a => exact h' (.ok a) (fun _ h => by cases h) s' st (by rw [← hst, M.bind_ok (M.attempt_ok hm)])
    | error x =>
      cases x with
      | panic =>
        have ha : M.attempt m s = (.error .panic, s') := by unfold M.attempt; rw [hm]
        rw [M.bind_error ha] at hst
        cases hst
      | status x =>
        refine h' (.error x) (fun y hy => hs y ?_) s' st (by rw [← hst, M.bind_ok (M.attempt_error hm)])
        exact hy

theorem ite {c : Prop} [Decidable c] {m m' : M α} (h : Sure m) (h' : Sure m') : Sure (if c then m else m') := by
  split
  · exact h
  · exact h'

theorem when {c : Bool} {m : M Unit} (h : Sure m) : Sure (M.when c m) := by
  cases c
  · exact pure
  · exact h

theorem attempt {m : M α} : Sure (M.attempt m) := by
  intro s st hst
  unfold M.attempt at hst
  split at hst <;> cases hst

theorem runDecoding {cb : Option Bytes → M Unit} (d : Decoding) : Sure (Model.runDecoding cb d) := by
  induction d with
  | done ok => exact pure
  | call out next ih => exact bind attempt fun r => ih _

theorem inputPrefix {n : Nat} : Sure (inputPrefix n) := by
  intro s st hst
  unfold Model.inputPrefix at hst
  split at hst <;> cases hst

theorem emit {e : Env} (h : Definite e) {ev : Event} : Sure (emit e ev) := by
  intro s st hst
  unfold Model.emit at hst
  cases hh : e.hook s.trace ev with
  | ok u => rw [hh] at hst; cases hst
  | error x => rw [hh] at hst; cases hst; exact definite_wait h hh

theorem runTxHook {e : Env} (h : Definite e) {k : TxHook} {i : Nat} : Sure (runTxHook e k i) :=
  bind state fun _ => when (emit h)

theorem notError : ¬ Wait .error := by rintro (h | h) <;> cases h

theorem requestTx {e : Env} : Sure (requestTx e) := by
  intro s st hst
  unfold Model.requestTx at hst
  split at hst <;> cases hst
  exact notError

theorem requestTxPanic {e : Env} : Sure (Model.requestTx e .panic) := by
  intro s st hst
  unfold Model.requestTx at hst
  split at hst <;> cases hst

theorem responseTx {e : Env} : Sure (responseTx e) := by
  intro s st hst
  unfold Model.responseTx at hst
  split at hst <;> cases hst
  exact notError

theorem responseTxPanic {e : Env} : Sure (Model.responseTx e .panic) := by
  intro s st hst
  unfold Model.responseTx at hst
  split at hst <;> cases hst

theorem putRequest {t : Tx} : Sure (putRequest t) := modify
theorem putResponse {t : Tx} : Sure (putResponse t) := modify
theorem modifyRequest {e : Env} {f : Tx → Tx} : Sure (modifyRequest e f) := bind requestTxPanic fun _ => putRequest
theorem modifyResponse {e : Env} {f : Tx → Tx} : Sure (modifyResponse e f) := bind responseTxPanic fun _ => putResponse
theorem onRequest {e : Env} {f : Tx → Except Err α × Tx} (h : ∀ t, SureRes (f t).1) : Sure (onRequest e f) :=
  bind requestTx fun t => bind putRequest fun _ => ofExcept (h t)
theorem withRequest {e : Env} {f : Tx → α × Tx} : Sure (withRequest e f) :=
  bind requestTx fun _ => bind putRequest fun _ => pure
theorem withResponse {e : Env} {f : Tx → α × Tx} : Sure (withResponse e f) :=
  bind responseTx fun _ => bind putResponse fun _ => pure
theorem requestConsume {n : Nat} : Sure (requestConsume n) := modify
theorem requestUnconsume {n : Nat} : Sure (requestUnconsume n) := modify
theorem responseConsume {n : Nat} : Sure (responseConsume n) := modify
theorem responseUnconsume {n : Nat} : Sure (responseUnconsume n) := modify
theorem requestNext {e : Env} : Sure (requestNext e) := modify
theorem responseNext {e : Env} : Sure (responseNext e) := modify
theorem checkRequestBufferLimit {e : Env} {n : Nat} : Sure (checkRequestBufferLimit e n) :=
  bind state fun _ => ite error pure
theorem checkResponseBufferLimit {e : Env} {n : Nat} : Sure (checkResponseBufferLimit e n) :=
  bind state fun _ => ite error pure

end Sure

/-- Extensible: closes a goal `Sure f` for a function `f` already dealt with. -/
syntax "sure_known" : tactic

macro_rules | `(tactic| sure_known) => `(tactic| assumption)

/-- Walks through the text of a function. -/
macro "sure_walk" : tactic => `(tactic| repeat' (with_reducible first
  | sure_known
  | exact Sure.pure
  | exact Sure.state
  | exact Sure.panic
  | exact Sure.error
  | exact Sure.dataOther
  | exact Sure.modify
  | exact Sure.setReq
  | exact Sure.setResp
  | exact Sure.attempt
  | exact Sure.runDecoding _
  | exact Sure.inputPrefix
  | exact Sure.emit (by assumption)
  | exact Sure.runTxHook (by assumption)
  | exact Sure.requestTx
  | exact Sure.requestTxPanic
  | exact Sure.responseTx
  | exact Sure.responseTxPanic
  | exact Sure.putRequest
  | exact Sure.putResponse
  | exact Sure.modifyRequest
  | exact Sure.modifyResponse
  | exact Sure.withRequest
  | exact Sure.withResponse
  | exact Sure.requestConsume
  | exact Sure.requestUnconsume
  | exact Sure.responseConsume
  | exact Sure.responseUnconsume
  | exact Sure.requestNext
  | exact Sure.responseNext
  | exact Sure.checkRequestBufferLimit
  | exact Sure.checkResponseBufferLimit
  | refine Sure.bind ?_ ?_
  | refine Sure.ite ?_ ?_
  | refine Sure.when ?_
  | refine Sure.onRequest ?_
  | refine Sure.ofExcept ?_
  | intro _
  | split))

/-- When the function asks for more data, the chunk is used up. -/
def Said (r : Except Err Unit) (s' : Conn) : Prop := ∀ st, r = .error (.status st) → Wait st → s'.input.len = 0

theorem Said.ok {s : Conn} {u : Unit} : Said (.ok u) s := fun _ h => by cases h
theorem Said.empty {r : Except Err Unit} {s : Conn} (h : s.input.len = 0) : Said r s := fun _ _ _ => h

theorem Said.failed {s : Conn} {st : Status} (h : s.input.len = 0) : post (M.fail st) s Said := Said.empty h

theorem Sure.said {m : M Unit} (h : Sure m) (s : Conn) : post m s Said := fun st hst hw => absurd hw (h s st hst)

theorem Sure.bind_said {α : Type} {m : M α} {f : α → M Unit} {s : Conn} (h : Sure m)
    (h' : ∀ a s', m s = (.ok a, s') → post (f a) s' Said) : post (m >>= f) s Said := by
  unfold post
  cases hm : m s with
  | mk r s' =>
    cases r with
    | ok a => rw [M.bind_ok hm]; exact h' a s' hm
    | error x =>
      rw [M.bind_error hm]
      intro st hst hw
      refine absurd hw (h s st ?_)
      rw [hm]
      cases hst
      rfl

theorem sureRes_ok {α : Type} {a : α} : SureRes (.ok a : Except Err α) := fun _ h => by cases h
theorem sureRes_panic {α : Type} : SureRes (.error .panic : Except Err α) := fun _ h => by cases h
theorem sureRes_error {α : Type} : SureRes (.error (.status .error) : Except Err α) := fun _ h => by
  cases h
  exact Sure.notError

theorem Tx.sure_processRequestHeaders (e : TxEnv) (t : Tx) : SureRes (t.processRequestHeaders e).1 := by
  unfold Tx.processRequestHeaders Tx.examineRest
  repeat' split
  all_goals first | exact sureRes_ok | exact sureRes_error

theorem Tx.sure_splitRequestUri (e : TxEnv) (t : Tx) : SureRes (t.splitRequestUri e).1 := by
  unfold Tx.splitRequestUri
  repeat' split
  all_goals first | exact sureRes_ok | exact sureRes_error

theorem Tx.sure_queryParams {e : Env} (h : Definite e) (t : Tx) : SureRes (t.queryParams e.toTxEnv) := by
  unfold Tx.queryParams
  split
  · split
    · exact sureRes_panic
    · split
      · exact sureRes_ok
      · rename_i f hf
        split
        · rename_i st hst
          intro st' hst' hw
          cases hst'
          obtain ⟨p, -, hp⟩ := List.exists_of_findSome?_eq_some hst
          split at hp
          · rename_i x hx
            cases hp
            have := h.processor f hf _ _ _ hx
            rcases hw with hw | hw
            · exact this.1 hw
            · exact this.2 hw
          · cases hp
        · exact sureRes_ok
  · exact sureRes_ok

theorem Tx.sure_finishRequestUri {e : Env} (h : Definite e) (t : Tx) : SureRes (t.finishRequestUri e.toTxEnv).1 := by
  unfold Tx.finishRequestUri
  repeat' split
  all_goals first | exact sureRes_ok | exact sureRes_panic | skip
  rename_i err herr
  have := Tx.sure_queryParams h
  intro st hst
  exact this _ st (herr.trans hst)

theorem Tx.sure_parseRequestLine {e : Env} (h : Definite e) (t : Tx) : SureRes (t.parseRequestLine e.toTxEnv).1 := by
  unfold Tx.parseRequestLine
  repeat' split
  all_goals first | exact sureRes_ok | exact sureRes_panic | exact Tx.sure_finishRequestUri h _ | skip
  rename_i err t' herr
  have := Tx.sure_splitRequestUri e.toTxEnv t
  intro st hst
  refine this st ?_
  rw [herr]
  exact hst

end Model
