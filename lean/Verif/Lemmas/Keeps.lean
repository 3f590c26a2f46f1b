/-
Reasoning about functions on the connection parser: predicates on states that a function keeps, with
what is known of the values it returns.
-/
import Verif.Lemmas.Conn
import Verif.Lemmas.Txs
import Verif.Lemmas.Tag

namespace Model

open M

/-- `m` keeps `P`, and its result, if there is one, satisfies `F`. -/
def Keeps {α : Type} (P : Conn → Prop) (F : α → Prop) (m : M α) : Prop :=
  ∀ s, P s → P (m s).2 ∧ ∀ a, (m s).1 = .ok a → F a

/-- Nothing is known of the result. -/
abbrev Any {α : Type} : α → Prop := fun _ => True

/-- The predicate survives reading and writing the current request transaction, of which `F` is known. -/
structure ReqStable (P : Conn → Prop) (F : Tx → Prop) : Prop where
  get : ∀ {s : Conn} {t : Tx}, P s → s.txs.get s.txs.request = some t → F t
  new : ∀ {s : Conn}, P s → s.txs.get s.txs.request = none → F { index := s.txs.request }
  put : ∀ {s : Conn} {t : Tx}, P s → F t → P { s with txs := s.txs.set s.txs.request t }

/-- The predicate survives reading and writing the current response transaction, of which `F` is known. -/
structure RespStable (P : Conn → Prop) (F : Tx → Prop) : Prop where
  get : ∀ {s : Conn} {t : Tx}, P s → s.txs.get s.txs.response = some t → F t
  new : ∀ {s : Conn}, P s → s.txs.get s.txs.response = none → F { index := s.txs.response }
  put : ∀ {s : Conn} {t : Tx}, P s → F t → P { s with txs := s.txs.set s.txs.response t }

namespace Keeps

variable {α β : Type} {P : Conn → Prop} {F : α → Prop} {G : β → Prop} {T : Tx → Prop}

theorem any {m : M α} (h : Keeps P F m) : Keeps P Any m := fun s hs => ⟨(h s hs).1, fun _ _ => trivial⟩

theorem pure {a : α} : Keeps P Any (Pure.pure a) := fun _ hs => ⟨hs, fun _ _ => trivial⟩

theorem raise {x : Err} : Keeps P F (M.raise x : M α) := fun _ hs => ⟨hs, fun _ h => by cases h⟩

theorem fail {x : Status} : Keeps P F (M.fail x : M α) := fun _ hs => ⟨hs, fun _ h => by cases h⟩

theorem ofExcept {x : Except Err α} : Keeps P Any (M.ofExcept x) := by
  cases x
  · exact raise
  · exact pure

theorem bind {m : M α} {f : α → M β} (h : Keeps P F m) (h' : ∀ a, F a → Keeps P G (f a)) :
    Keeps P G (m >>= f) := by
  intro s hs
  show P (match m s with | (.ok a, s) => f a s | (.error e, s) => (.error e, s)).2 ∧
    ∀ a, (match m s with | (.ok a, s) => f a s | (.error e, s) => (.error e, s)).1 = .ok a → G a
  have hm := h s hs
  cases hr : m s with
  | mk r s' =>
    rw [hr] at hm
    cases r with
    | ok a => exact h' a (hm.2 a rfl) s' hm.1
    | error x => exact ⟨hm.1, fun _ h => by cases h⟩

theorem state : Keeps P P M.state := fun s hs => ⟨hs, fun a h => by cases h; exact hs⟩

theorem bind_state {f : Conn → M β} (h : ∀ s, P s → Keeps P G (f s)) : Keeps P G (M.state >>= f) :=
  bind state h

theorem ite {c : Prop} [Decidable c] {m m' : M α} (h : c → Keeps P F m) (h' : ¬c → Keeps P F m') :
    Keeps P F (if c then m else m') := by
  by_cases hc : c
  · rw [if_pos hc]; exact h hc
  · rw [if_neg hc]; exact h' hc

theorem when {c : Bool} {m : M Unit} (h : c = true → Keeps P Any m) : Keeps P Any (M.when c m) := by
  cases c
  · exact pure
  · exact h rfl

theorem attempt {m : M α} (h : Keeps P F m) : Keeps P Any (M.attempt m) := by
  intro s hs
  have := (h s hs).1
  refine ⟨?_, fun _ _ => trivial⟩
  unfold M.attempt
  cases hm : m s with
  | mk r s' =>
    rw [hm] at this
    cases r with
    | ok a => exact this
    | error x => cases x <;> exact this

theorem runDecoding {cb : Option Bytes → M Unit} (h : ∀ o, Keeps P Any (cb o)) (d : Decoding) :
    Keeps P Any (Model.runDecoding cb d) := by
  induction d with
  | done ok => exact pure
  | call out next ih => exact bind (attempt (h out)) fun r _ => ih _

theorem modify {f : Conn → Conn} (h : ∀ s, P s → P (f s)) : Keeps P Any (M.modify f) :=
  fun s hs => ⟨h s hs, fun _ _ => trivial⟩

theorem setReq {f : Half → Half} (h : ∀ s, P s → P { s with req := f s.req }) : Keeps P Any (M.setReq f) :=
  modify h

theorem setResp {f : Half → Half} (h : ∀ s, P s → P { s with resp := f s.resp }) : Keeps P Any (M.setResp f) :=
  modify h

theorem inputPrefix {n : Nat} : Keeps P Any (inputPrefix n) := by
  intro s hs
  refine ⟨?_, fun _ _ => trivial⟩
  unfold Model.inputPrefix
  split <;> exact hs

theorem emit {e : Env} {ev : Event} (h : ∀ s, P s → P { s with trace := s.trace ++ [ev] }) :
    Keeps P Any (emit e ev) := by
  intro s hs
  refine ⟨?_, fun _ _ => trivial⟩
  unfold Model.emit
  cases e.hook s.trace ev <;> exact h s hs

theorem runTxHook {e : Env} {k : TxHook} {i : Nat} (h : ∀ s, P s → P { s with trace := s.trace ++ [.tx k i] }) :
    Keeps P Any (runTxHook e k i) := by
  unfold Model.runTxHook
  exact bind_state fun s _ => when fun _ => emit h

theorem requestTx (hP : ReqStable P T) {e : Env} {x : Err} : Keeps P T (requestTx e x) := by
  intro s hs
  unfold Model.requestTx Txs.requestMut Txs.entry
  cases hg : s.txs.get s.txs.request with
  | some t => exact ⟨hs, fun a h => by cases h; exact hP.get hs hg⟩
  | none =>
    dsimp only
    by_cases hl : s.txs.map.length ≥ e.cfg.maxTx
    · rw [if_pos hl]; exact ⟨hs, fun a h => by cases h⟩
    · rw [if_neg hl]; exact ⟨hP.put hs (hP.new hs hg), fun a h => by cases h; exact hP.new hs hg⟩

theorem responseTx (hP : RespStable P T) {e : Env} {x : Err} : Keeps P T (responseTx e x) := by
  intro s hs
  unfold Model.responseTx Txs.responseMut Txs.entry
  cases hg : s.txs.get s.txs.response with
  | some t => exact ⟨hs, fun a h => by cases h; exact hP.get hs hg⟩
  | none =>
    dsimp only
    by_cases hl : s.txs.map.length ≥ e.cfg.maxTx
    · rw [if_pos hl]; exact ⟨hs, fun a h => by cases h⟩
    · rw [if_neg hl]; exact ⟨hP.put hs (hP.new hs hg), fun a h => by cases h; exact hP.new hs hg⟩

theorem putRequest (hP : ReqStable P T) {t : Tx} (ht : T t) : Keeps P Any (putRequest t) :=
  modify fun _ hs => hP.put hs ht

theorem putResponse (hP : RespStable P T) {t : Tx} (ht : T t) : Keeps P Any (putResponse t) :=
  modify fun _ hs => hP.put hs ht

theorem modifyRequest (hP : ReqStable P T) {e : Env} {f : Tx → Tx} (hf : ∀ t, T t → T (f t)) :
    Keeps P Any (modifyRequest e f) :=
  bind (requestTx hP) fun t ht => putRequest hP (hf t ht)

theorem modifyResponse (hP : RespStable P T) {e : Env} {f : Tx → Tx} (hf : ∀ t, T t → T (f t)) :
    Keeps P Any (modifyResponse e f) :=
  bind (responseTx hP) fun t ht => putResponse hP (hf t ht)

theorem onRequest (hP : ReqStable P T) {e : Env} {f : Tx → Except Err α × Tx} (hf : ∀ t, T t → T (f t).2) :
    Keeps P Any (onRequest e f) :=
  bind (requestTx hP) fun t ht => bind (putRequest hP (hf t ht)) fun _ _ => ofExcept

theorem withRequest (hP : ReqStable P T) {e : Env} {f : Tx → α × Tx} (hf : ∀ t, T t → T (f t).2) :
    Keeps P Any (withRequest e f) :=
  bind (requestTx hP) fun t ht => bind (putRequest hP (hf t ht)) fun _ _ => pure

theorem withResponse (hP : RespStable P T) {e : Env} {f : Tx → α × Tx} (hf : ∀ t, T t → T (f t).2) :
    Keeps P Any (withResponse e f) :=
  bind (responseTx hP) fun t ht => bind (putResponse hP (hf t ht)) fun _ _ => pure

theorem checkRequestBufferLimit {e : Env} {n : Nat} : Keeps P Any (checkRequestBufferLimit e n) :=
  bind_state fun _ _ => ite (fun _ => fail) fun _ => pure

theorem checkResponseBufferLimit {e : Env} {n : Nat} : Keeps P Any (checkResponseBufferLimit e n) :=
  bind_state fun _ _ => ite (fun _ => fail) fun _ => pure

end Keeps

/-- Extensible: closes a goal `Keeps P F f` for a function `f` already dealt with. -/
syntax "keeps_known" : tactic

macro_rules | `(tactic| keeps_known) => `(tactic| assumption)

/-- Extensible: a proof of `ReqStable P T` or `RespStable P T`. -/
syntax "keeps_stable" : tactic

macro_rules | `(tactic| keeps_stable) => `(tactic| assumption)

/-- Walks through the text of a function, leaving the primitive changes of state as goals. -/
macro "keeps_walk" : tactic => `(tactic| repeat' (with_reducible first
  | keeps_known
  | exact Keeps.pure
  | exact Keeps.raise
  | exact Keeps.fail
  | exact Keeps.ofExcept
  | exact Keeps.inputPrefix
  | exact Keeps.checkRequestBufferLimit
  | exact Keeps.checkResponseBufferLimit
  | refine Keeps.bind_state ?_
  | refine Keeps.bind (Keeps.requestTx (by keeps_stable)) ?_
  | refine Keeps.bind (Keeps.responseTx (by keeps_stable)) ?_
  | refine Keeps.bind (F := Any) ?_ ?_
  | refine Keeps.ite ?_ ?_
  | refine Keeps.when ?_
  | refine Keeps.attempt (F := Any) ?_
  | refine Keeps.runDecoding ?_ _
  | refine Keeps.putRequest (by keeps_stable) ?_
  | refine Keeps.putResponse (by keeps_stable) ?_
  | refine Keeps.modifyRequest (by keeps_stable) ?_
  | refine Keeps.modifyResponse (by keeps_stable) ?_
  | refine Keeps.onRequest (by keeps_stable) ?_
  | refine Keeps.withRequest (by keeps_stable) ?_
  | refine Keeps.withResponse (by keeps_stable) ?_
  | refine Keeps.emit ?_
  | refine Keeps.runTxHook ?_
  | refine Keeps.modify ?_
  | refine Keeps.setReq ?_
  | refine Keeps.setResp ?_
  | intro _
  | split))

end Model
