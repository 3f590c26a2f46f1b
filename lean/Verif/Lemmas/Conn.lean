/-
Reasoning about functions on the connection parser: postconditions and frames.
-/
import Verif.Model.Connection

namespace Model

open M

/-- `m`, run from `s`, ends with a result and a state satisfying `Q`. -/
def post {α : Type} (m : M α) (s : Conn) (Q : Except Err α → Conn → Prop) : Prop := Q (m s).1 (m s).2

namespace post

variable {α β : Type} {s : Conn}

theorem mono {m : M α} {Q Q' : Except Err α → Conn → Prop} (h : post m s Q)
    (hq : ∀ r s', Q r s' → Q' r s') : post m s Q' := hq _ _ h

theorem conj {m : M α} {Q Q' : Except Err α → Conn → Prop} (h : post m s Q) (h' : post m s Q') :
    post m s (fun r s' => Q r s' ∧ Q' r s') := ⟨h, h'⟩

theorem pure {a : α} {Q : Except Err α → Conn → Prop} (h : Q (.ok a) s) : post (Pure.pure a) s Q := h

theorem state {Q : Except Err Conn → Conn → Prop} (h : Q (.ok s) s) : post M.state s Q := h

theorem modify {f : Conn → Conn} {Q : Except Err Unit → Conn → Prop} (h : Q (.ok ()) (f s)) :
    post (M.modify f) s Q := h

theorem setReq {f : Half → Half} {Q : Except Err Unit → Conn → Prop}
    (h : Q (.ok ()) { s with req := f s.req }) : post (M.setReq f) s Q := h

theorem setResp {f : Half → Half} {Q : Except Err Unit → Conn → Prop}
    (h : Q (.ok ()) { s with resp := f s.resp }) : post (M.setResp f) s Q := h

theorem raise {x : Err} {Q : Except Err α → Conn → Prop} (h : Q (.error x) s) :
    post (M.raise x) s Q := h

theorem fail {x : Status} {Q : Except Err α → Conn → Prop} (h : Q (.error (.status x)) s) :
    post (M.fail x) s Q := h

theorem bind {m : M α} {f : α → M β} {Q : Except Err β → Conn → Prop}
    (h : post m s (fun r s' => match r with
      | .ok a => post (f a) s' Q
      | .error x => Q (.error x) s')) : post (m >>= f) s Q := by
  unfold post at h ⊢
  show Q (match m s with | (.ok a, s) => f a s | (.error e, s) => (.error e, s)).1
    (match m s with | (.ok a, s) => f a s | (.error e, s) => (.error e, s)).2
  cases hm : m s with
  | mk r s' =>
    rw [hm] at h
    cases r with
    | ok a => exact h
    | error x => exact h

/-- The rule for a sequence when the first part always succeeds. -/
theorem bind_state {f : Conn → M β} {Q : Except Err β → Conn → Prop} (h : post (f s) s Q) :
    post (M.state >>= f) s Q := h

theorem bind_modify {g : Conn → Conn} {f : Unit → M β} {Q : Except Err β → Conn → Prop}
    (h : post (f ()) (g s) Q) : post (M.modify g >>= f) s Q := h

theorem bind_setReq {g : Half → Half} {f : Unit → M β} {Q : Except Err β → Conn → Prop}
    (h : post (f ()) { s with req := g s.req } Q) : post (M.setReq g >>= f) s Q := h

theorem bind_setResp {g : Half → Half} {f : Unit → M β} {Q : Except Err β → Conn → Prop}
    (h : post (f ()) { s with resp := g s.resp } Q) : post (M.setResp g >>= f) s Q := h

theorem bind_pure {a : α} {f : α → M β} {Q : Except Err β → Conn → Prop} (h : post (f a) s Q) :
    post (Pure.pure a >>= f) s Q := h

theorem ite {c : Prop} [Decidable c] {m m' : M α} {Q : Except Err α → Conn → Prop}
    (h : c → post m s Q) (h' : ¬c → post m' s Q) : post (if c then m else m') s Q := by
  by_cases hc : c
  · rw [if_pos hc]; exact h hc
  · rw [if_neg hc]; exact h' hc

theorem when {c : Bool} {m : M Unit} {Q : Except Err Unit → Conn → Prop}
    (h : c = true → post m s Q) (h' : c = false → Q (.ok ()) s) : post (M.when c m) s Q := by
  cases c
  · exact h' rfl
  · exact h rfl

theorem attempt {m : M α} {Q : Except Err (Except Status α) → Conn → Prop}
    (h : post m s (fun r s' => match r with
      | .ok a => Q (.ok (.ok a)) s'
      | .error (.status x) => Q (.ok (.error x)) s'
      | .error .panic => Q (.error .panic) s')) : post (M.attempt m) s Q := by
  unfold post M.attempt
  unfold post at h
  cases hm : m s with
  | mk r s' =>
    rw [hm] at h
    cases r with
    | ok a => exact h
    | error x => cases x <;> exact h

theorem ofExcept {x : Except Err α} {Q : Except Err α → Conn → Prop} (h : Q x s) :
    post (M.ofExcept x) s Q := by
  cases x <;> exact h

end post

/-- A relation between the state before and after `m`, whatever its result. -/
def Rel {α : Type} (R : Conn → Conn → Prop) (m : M α) : Prop := ∀ s, R s (m s).2

/-- Reflexive and transitive. -/
structure Pre (R : Conn → Conn → Prop) : Prop where
  refl : ∀ s, R s s
  trans : ∀ {a b c}, R a b → R b c → R a c

namespace Rel

variable {α β : Type} {R : Conn → Conn → Prop}

theorem post {m : M α} (h : Rel R m) (s : Conn) : post m s (fun _ s' => R s s') := h s

theorem pure (hR : Pre R) {a : α} : Rel R (Pure.pure a) := fun s => hR.refl s
theorem state (hR : Pre R) : Rel R M.state := fun s => hR.refl s
theorem raise (hR : Pre R) {x : Err} : Rel R (M.raise x : M α) := fun s => hR.refl s
theorem fail (hR : Pre R) {x : Status} : Rel R (M.fail x : M α) := fun s => hR.refl s
theorem modify {f : Conn → Conn} (h : ∀ s, R s (f s)) : Rel R (M.modify f) := h
theorem setReq {f : Half → Half} (h : ∀ s, R s { s with req := f s.req }) : Rel R (M.setReq f) := h
theorem setResp {f : Half → Half} (h : ∀ s, R s { s with resp := f s.resp }) : Rel R (M.setResp f) := h

theorem bind (hR : Pre R) {m : M α} {f : α → M β} (h : Rel R m) (h' : ∀ a, Rel R (f a)) :
    Rel R (m >>= f) := by
  intro s
  show R s (match m s with | (.ok a, s) => f a s | (.error e, s) => (.error e, s)).2
  have hs := h s
  cases hm : m s with
  | mk r s' =>
    rw [hm] at hs
    cases r with
    | ok a => exact hR.trans hs (h' a s')
    | error x => exact hs

theorem ite {c : Prop} [Decidable c] {m m' : M α} (h : Rel R m) (h' : Rel R m') :
    Rel R (if c then m else m') := by
  by_cases hc : c
  · rw [if_pos hc]; exact h
  · rw [if_neg hc]; exact h'

theorem when (hR : Pre R) {c : Bool} {m : M Unit} (h : Rel R m) : Rel R (M.when c m) := by
  cases c
  · exact pure hR
  · exact h

theorem attempt {m : M α} (h : Rel R m) : Rel R (M.attempt m) := by
  intro s
  have hs := h s
  unfold M.attempt
  cases hm : m s with
  | mk r s' =>
    rw [hm] at hs
    cases r with
    | ok a => exact hs
    | error x => cases x <;> exact hs

theorem ofExcept (hR : Pre R) {x : Except Err α} : Rel R (M.ofExcept x) := by
  cases x
  · exact raise hR
  · exact pure hR

theorem runDecoding (hR : Pre R) {cb : Option Bytes → M Unit} (h : ∀ o, Rel R (cb o)) (d : Decoding) :
    Rel R (Model.runDecoding cb d) := by
  induction d with
  | done ok => exact pure hR
  | call out next ih => exact bind hR (attempt (h out)) fun r => ih _

end Rel

/-- Extensible: closes a goal `Rel R f` for a function `f` already dealt with. -/
syntax "rel_known" : tactic

macro_rules | `(tactic| rel_known) => `(tactic| assumption)

/-- Extensible: a proof of `Pre R`. -/
syntax "rel_pre" : tactic

macro_rules | `(tactic| rel_pre) => `(tactic| assumption)

/-- Walks through the text of a function, leaving the primitive changes of state as goals. -/
macro "rel_walk" : tactic => `(tactic| repeat' (with_reducible first
  | rel_known
  | exact Rel.pure (by rel_pre)
  | exact Rel.state (by rel_pre)
  | exact Rel.raise (by rel_pre)
  | exact Rel.fail (by rel_pre)
  | exact Rel.ofExcept (by rel_pre)
  | refine Rel.bind (by rel_pre) ?_ ?_
  | refine Rel.ite ?_ ?_
  | refine Rel.when (by rel_pre) ?_
  | refine Rel.attempt ?_
  | refine Rel.runDecoding (by rel_pre) ?_ _
  | refine Rel.modify ?_
  | refine Rel.setReq ?_
  | refine Rel.setResp ?_
  | intro _
  | split))

/-- Only the contents of the transactions and the trace may differ; the trace grows at its end. -/
def Same (s s' : Conn) : Prop :=
  ∃ m evs, s' = { s with txs := { s.txs with map := m }, trace := s.trace ++ evs }

theorem Same.pre : Pre Same where
  refl s := ⟨s.txs.map, [], by simp⟩
  trans := by
    rintro a b c ⟨m, evs, rfl⟩ ⟨m', evs', rfl⟩
    exact ⟨m', evs ++ evs', by simp⟩

macro_rules | `(tactic| rel_pre) => `(tactic| exact Same.pre)

theorem entry_eq (maxTx : Nat) (t : Txs) (k : Nat) :
    ∃ m, (t.entry maxTx k).2 = { t with map := m } := by
  unfold Txs.entry
  split
  · exact ⟨t.map, rfl⟩
  · split
    · exact ⟨t.map, rfl⟩
    · exact ⟨_, rfl⟩

theorem requestTx_same (e : Env) (x : Err) : Rel Same (requestTx e x) := by
  intro s
  obtain ⟨m, hm⟩ := entry_eq e.cfg.maxTx s.txs s.txs.request
  refine ⟨m, [], ?_⟩
  unfold requestTx Txs.requestMut
  cases h : s.txs.entry e.cfg.maxTx s.txs.request with
  | mk o t =>
    rw [h] at hm
    cases o <;> simp [← hm]

theorem responseTx_same (e : Env) (x : Err) : Rel Same (responseTx e x) := by
  intro s
  obtain ⟨m, hm⟩ := entry_eq e.cfg.maxTx s.txs s.txs.response
  refine ⟨m, [], ?_⟩
  unfold responseTx Txs.responseMut
  cases h : s.txs.entry e.cfg.maxTx s.txs.response with
  | mk o t =>
    rw [h] at hm
    cases o <;> simp [← hm]

theorem putRequest_same (t : Tx) : Rel Same (putRequest t) := fun s => ⟨_, [], by
  simp [putRequest, M.modify, Txs.set]; rfl⟩

theorem putResponse_same (t : Tx) : Rel Same (putResponse t) := fun s => ⟨_, [], by
  simp [putResponse, M.modify, Txs.set]; rfl⟩

theorem emit_same (e : Env) (ev : Event) : Rel Same (emit e ev) := by
  intro s
  refine ⟨s.txs.map, [ev], ?_⟩
  unfold emit
  cases e.hook s.trace ev <;> rfl

theorem inputPrefix_same (n : Nat) : Rel Same (inputPrefix n) := by
  intro s
  unfold inputPrefix
  split <;> exact Same.pre.refl s

macro_rules | `(tactic| rel_known) => `(tactic| exact requestTx_same _ _)
macro_rules | `(tactic| rel_known) => `(tactic| exact responseTx_same _ _)
macro_rules | `(tactic| rel_known) => `(tactic| exact putRequest_same _)
macro_rules | `(tactic| rel_known) => `(tactic| exact putResponse_same _)
macro_rules | `(tactic| rel_known) => `(tactic| exact emit_same _ _)
macro_rules | `(tactic| rel_known) => `(tactic| exact inputPrefix_same _)

theorem modifyRequest_same (e : Env) (f : Tx → Tx) : Rel Same (modifyRequest e f) := by
  unfold modifyRequest; rel_walk

theorem modifyResponse_same (e : Env) (f : Tx → Tx) : Rel Same (modifyResponse e f) := by
  unfold modifyResponse; rel_walk

theorem onRequest_same {α : Type} (e : Env) (f : Tx → Except Err α × Tx) : Rel Same (onRequest e f) := by
  unfold onRequest; rel_walk

theorem withRequest_same {α : Type} (e : Env) (f : Tx → α × Tx) : Rel Same (withRequest e f) := by
  unfold withRequest; rel_walk

theorem withResponse_same {α : Type} (e : Env) (f : Tx → α × Tx) : Rel Same (withResponse e f) := by
  unfold withResponse; rel_walk

theorem runTxHook_same (e : Env) (h : TxHook) (i : Nat) : Rel Same (runTxHook e h i) := by
  unfold runTxHook; rel_walk

macro_rules | `(tactic| rel_known) => `(tactic| exact modifyRequest_same _ _)
macro_rules | `(tactic| rel_known) => `(tactic| exact modifyResponse_same _ _)
macro_rules | `(tactic| rel_known) => `(tactic| exact onRequest_same _ _)
macro_rules | `(tactic| rel_known) => `(tactic| exact withRequest_same _ _)
macro_rules | `(tactic| rel_known) => `(tactic| exact withResponse_same _ _)
macro_rules | `(tactic| rel_known) => `(tactic| exact runTxHook_same _ _ _)

theorem requestRunHookBodyData_same (e : Env) (d : PData) : Rel Same (requestRunHookBodyData e d) := by
  unfold requestRunHookBodyData; rel_walk

theorem responseRunHookBodyData_same (e : Env) (d : PData) : Rel Same (responseRunHookBodyData e d) := by
  unfold responseRunHookBodyData; rel_walk

macro_rules | `(tactic| rel_known) => `(tactic| exact requestRunHookBodyData_same _ _)
macro_rules | `(tactic| rel_known) => `(tactic| exact responseRunHookBodyData_same _ _)

theorem requestDecompressorCallback_same (e : Env) (o : Option Bytes) :
    Rel Same (requestDecompressorCallback e o) := by
  unfold requestDecompressorCallback; rel_walk

theorem responseDecompressorCallback_same (e : Env) (o : Option Bytes) :
    Rel Same (responseDecompressorCallback e o) := by
  unfold responseDecompressorCallback; rel_walk

macro_rules | `(tactic| rel_known) => `(tactic| exact requestDecompressorCallback_same _ _)
macro_rules | `(tactic| rel_known) => `(tactic| exact responseDecompressorCallback_same _ _)

theorem requestDecompress_same (e : Env) (d : Option Bytes) : Rel Same (requestDecompress e d) := by
  unfold requestDecompress; rel_walk

theorem responseDecompress_same (e : Env) (d : Option Bytes) : Rel Same (responseDecompress e d) := by
  unfold responseDecompress; rel_walk

macro_rules | `(tactic| rel_known) => `(tactic| exact requestDecompress_same _ _)
macro_rules | `(tactic| rel_known) => `(tactic| exact responseDecompress_same _ _)

theorem requestPlainBody_same (e : Env) (d : Option Bytes) : Rel Same (requestPlainBody e d) := by
  unfold requestPlainBody; rel_walk

theorem responsePlainBody_same (e : Env) (d : Option Bytes) : Rel Same (responsePlainBody e d) := by
  unfold responsePlainBody; rel_walk

macro_rules | `(tactic| rel_known) => `(tactic| exact requestPlainBody_same _ _)
macro_rules | `(tactic| rel_known) => `(tactic| exact responsePlainBody_same _ _)

theorem requestBodyData_same (e : Env) (d : Option Bytes) : Rel Same (requestBodyData e d) := by
  unfold requestBodyData; rel_walk

theorem responseBodyData_same (e : Env) (d : Option Bytes) : Rel Same (responseBodyData e d) := by
  unfold responseBodyData; rel_walk

macro_rules | `(tactic| rel_known) => `(tactic| exact requestBodyData_same _ _)
macro_rules | `(tactic| rel_known) => `(tactic| exact responseBodyData_same _ _)

theorem finalizeTx_same (e : Env) (i : Nat) : Rel Same (finalizeTx e i) := by
  unfold finalizeTx; rel_walk

macro_rules | `(tactic| rel_known) => `(tactic| exact finalizeTx_same _ _)

theorem requestIdentityData_same (e : Env) (n : Nat) : Rel Same (requestIdentityData e n) := by
  unfold requestIdentityData; rel_walk

theorem responseIdentityData_same (e : Env) (n : Nat) : Rel Same (responseIdentityData e n) := by
  unfold responseIdentityData; rel_walk

theorem checkRequestBufferLimit_same (e : Env) (n : Nat) : Rel Same (checkRequestBufferLimit e n) := by
  unfold checkRequestBufferLimit; rel_walk

theorem checkResponseBufferLimit_same (e : Env) (n : Nat) : Rel Same (checkResponseBufferLimit e n) := by
  unfold checkResponseBufferLimit; rel_walk

macro_rules | `(tactic| rel_known) => `(tactic| exact requestIdentityData_same _ _)
macro_rules | `(tactic| rel_known) => `(tactic| exact responseIdentityData_same _ _)
macro_rules | `(tactic| rel_known) => `(tactic| exact checkRequestBufferLimit_same _ _)
macro_rules | `(tactic| rel_known) => `(tactic| exact checkResponseBufferLimit_same _ _)

end Model
