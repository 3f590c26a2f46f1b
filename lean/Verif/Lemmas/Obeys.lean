/-
Reasoning about refusals: what a function on the parser leaves behind when a callback refuses on the way.
-/
import Verif.Lemmas.Keeps
import Verif.Lemmas.OrderStep
import Verif.Lemmas.TxCoding
import Verif.Spec.Refusal

namespace Model

open M Spec

/-- Bodies that are not decompressed are not marked as coded. -/
def Tx.Plain (cfg : Config) (t : Tx) : Prop :=
  (cfg.requestDecompressionEnabled = false → t.requestContentEncodingProcessing = .none) ∧
  (cfg.responseDecompressionEnabled = false → t.responseContentEncodingProcessing = .none)

theorem Tx.Plain.coding {cfg : Config} {t t' : Tx} (h : t.Plain cfg) (he : t'.coding = t.coding) : t'.Plain cfg := by
  have h1 : t'.requestContentEncodingProcessing = t.requestContentEncodingProcessing := congrArg Prod.fst he
  have h2 : t'.responseContentEncodingProcessing = t.responseContentEncodingProcessing := congrArg Prod.snd he
  exact ⟨fun hc => h1.trans (h.1 hc), fun hc => h2.trans (h.2 hc)⟩

/-- A receiver for raw headers, or none. -/
def RawHook : Option DataHook → Prop
  | none | some .requestHeaderData | some .requestTrailerData | some .responseHeaderData | some .responseTrailerData => True
  | _ => False

/-- What holds of every reachable state. -/
structure PlainConn (e : Env) (s : Conn) : Prop where
  txs : ∀ i t, s.txs.get i = some t → t.Plain e.cfg
  req : RawHook s.req.receiver
  resp : RawHook s.resp.receiver

/-- No callback that is obeyed has refused since the first `n` events. -/
structure Clean (e : Env) (n : Nat) (s : Conn) : Prop where
  plain : PlainConn e s
  len : n ≤ s.trace.length
  fine : ∀ pre ev post, s.trace = pre ++ ev :: post → n ≤ pre.length → Obeyed e.cfg ev → e.hook pre ev = .ok ()

/-- The last event is the refusal, and the first since the first `n` events. -/
structure Struck (e : Env) (n : Nat) (st : Status) (s : Conn) : Prop where
  plain : PlainConn e s
  last : ∃ pre ev, s.trace = pre ++ [ev] ∧ n ≤ pre.length ∧ Obeyed e.cfg ev ∧ e.hook pre ev = .error st ∧
    ∀ pre' ev' post', pre = pre' ++ ev' :: post' → n ≤ pre'.length → Obeyed e.cfg ev' → e.hook pre' ev' = .ok ()

/-- What may be left behind. -/
def Outcome {α : Type} (e : Env) (n : Nat) (F : α → Prop) : Except Err α × Conn → Prop
  | (.ok a, s) => Clean e n s ∧ F a
  | (.error .panic, _) => True
  | (.error (.status st), s) => Clean e n s ∨ Struck e n st s

/-- The function obeys: a refusal is what it ends with. -/
def Obeys {α : Type} (e : Env) (n : Nat) (F : α → Prop) (m : M α) : Prop := ∀ s, Clean e n s → Outcome e n F (m s)

section
variable {α β : Type} {e : Env} {n : Nat} {F : α → Prop} {G : β → Prop}

theorem Clean.mod {s s' : Conn} (h : Clean e n s) (ht : s'.txs = s.txs) (hr : s'.trace = s.trace)
    (h1 : s'.req.receiver = s.req.receiver ∨ RawHook s'.req.receiver)
    (h2 : s'.resp.receiver = s.resp.receiver ∨ RawHook s'.resp.receiver) : Clean e n s' := by
  refine ⟨⟨?_, ?_, ?_⟩, ?_, ?_⟩
  · rw [ht]; exact h.plain.txs
  · exact h1.elim (fun h1 => h1 ▸ h.plain.req) id
  · exact h2.elim (fun h2 => h2 ▸ h.plain.resp) id
  · rw [hr]; exact h.len
  · rw [hr]; exact h.fine

theorem Clean.put {s : Conn} {t : Tx} (i : Nat) (h : Clean e n s) (ht : t.Plain e.cfg) :
    Clean e n { s with txs := s.txs.set i t } := by
  refine ⟨⟨fun j u hj => ?_, h.plain.req, h.plain.resp⟩, h.len, h.fine⟩
  dsimp only at hj
  rw [Txs.get_set] at hj
  split at hj
  · cases hj; exact ht
  · exact h.plain.txs j u hj

theorem Tx.plain_new (cfg : Config) (i : Nat) : Tx.Plain cfg { index := i } := ⟨fun _ => rfl, fun _ => rfl⟩

theorem clean_req : ReqStable (Clean e n) (Tx.Plain e.cfg) :=
  ⟨fun h hg => h.plain.txs _ _ hg, fun _ _ => Tx.plain_new .., fun h ht => h.put _ ht⟩

theorem clean_resp : RespStable (Clean e n) (Tx.Plain e.cfg) :=
  ⟨fun h hg => h.plain.txs _ _ hg, fun _ _ => Tx.plain_new .., fun h ht => h.put _ ht⟩

/-- An event that is not obeyed, or was accepted. -/
theorem Clean.event {s : Conn} {ev : Event} (h : Clean e n s) (hev : Obeyed e.cfg ev → e.hook s.trace ev = .ok ()) :
    Clean e n { s with trace := s.trace ++ [ev] } := by
  refine ⟨⟨h.plain.txs, h.plain.req, h.plain.resp⟩, ?_, fun pre x post hp hn hx => ?_⟩
  · have := h.len
    simp only [List.length_append]
    omega
  · dsimp only at hp
    rcases List.eq_nil_or_concat post with rfl | ⟨post', y, rfl⟩
    · have hp := List.append_inj_right' hp rfl |> fun h1 => And.intro (List.append_inj_left' hp rfl) h1
      obtain ⟨hp1, hp2⟩ := hp
      cases hp2
      rw [← hp1]
      exact hev hx
    · rw [List.concat_eq_append, ← List.cons_append, ← List.append_assoc] at hp
      exact h.fine pre x post' (List.append_inj_left' hp rfl) hn hx

namespace Obeys

theorem of_keeps {m : M α} (h : Keeps (Clean e n) F m) : Obeys e n F m := by
  intro s hs
  have := h s hs
  cases hm : m s with
  | mk r s' =>
    rw [hm] at this
    cases r with
    | ok a => exact ⟨this.1, this.2 a rfl⟩
    | error x =>
      cases x with
      | panic => trivial
      | status st => exact .inl this.1

theorem bind {m : M α} {f : α → M β} (h : Obeys e n F m) (h' : ∀ a, F a → Obeys e n G (f a)) : Obeys e n G (m >>= f) := by
  intro s hs
  have hm := h s hs
  cases hr : m s with
  | mk r s' =>
    rw [hr] at hm
    cases r with
    | ok a => rw [M.bind_ok hr]; exact h' a hm.2 s' hm.1
    | error x =>
      rw [M.bind_error hr]
      cases x with
      | panic => trivial
      | status st => exact hm

theorem bind_state {f : Conn → M β} (h : ∀ s, Clean e n s → Obeys e n G (f s)) : Obeys e n G (M.state >>= f) :=
  bind (of_keeps Keeps.state) h

theorem ite {c : Prop} [Decidable c] {m m' : M α} (h : c → Obeys e n F m) (h' : ¬c → Obeys e n F m') :
    Obeys e n F (if c then m else m') := by
  by_cases hc : c
  · rw [if_pos hc]; exact h hc
  · rw [if_neg hc]; exact h' hc

theorem when {c : Bool} {m : M Unit} (h : c = true → Obeys e n Any m) : Obeys e n Any (M.when c m) := by
  cases c
  · exact of_keeps Keeps.pure
  · exact h rfl

theorem emit {ev : Event} : Obeys e n Any (emit e ev) := by
  intro s hs
  unfold Model.emit
  cases hh : e.hook s.trace ev with
  | ok u => exact ⟨hs.event fun _ => hh, trivial⟩
  | error st =>
    by_cases ho : Obeyed e.cfg ev
    · exact .inr ⟨⟨hs.plain.txs, hs.plain.req, hs.plain.resp⟩, s.trace, ev, rfl, hs.len, ho, hh, hs.fine⟩
    · exact .inl (hs.event fun h => absurd h ho)

theorem runTxHook {k : TxHook} {i : Nat} : Obeys e n Any (runTxHook e k i) := by
  unfold Model.runTxHook
  exact bind_state fun s _ => when fun _ => emit

end Obeys

end

/-- Extensible: closes a goal for a function already dealt with. -/
syntax "obeys_known" : tactic

macro_rules | `(tactic| obeys_known) => `(tactic| assumption)

/-- Walks through the text of a function. -/
macro "obeys_walk" : tactic => `(tactic| repeat' (with_reducible first
  | obeys_known
  | exact Obeys.of_keeps Keeps.pure
  | exact Obeys.of_keeps Keeps.raise
  | exact Obeys.of_keeps Keeps.fail
  | exact Obeys.of_keeps Keeps.ofExcept
  | exact Obeys.of_keeps Keeps.inputPrefix
  | exact Obeys.of_keeps Keeps.checkRequestBufferLimit
  | exact Obeys.of_keeps Keeps.checkResponseBufferLimit
  | exact Obeys.emit
  | exact Obeys.runTxHook
  | refine Obeys.bind_state ?_
  | refine Obeys.bind (Obeys.of_keeps (Keeps.requestTx clean_req)) ?_
  | refine Obeys.bind (Obeys.of_keeps (Keeps.responseTx clean_resp)) ?_
  | refine Obeys.bind (F := Any) ?_ ?_
  | refine Obeys.ite ?_ ?_
  | refine Obeys.when ?_
  | refine Obeys.of_keeps (Keeps.putRequest clean_req ?_)
  | refine Obeys.of_keeps (Keeps.putResponse clean_resp ?_)
  | refine Obeys.of_keeps (Keeps.modifyRequest clean_req ?_)
  | refine Obeys.of_keeps (Keeps.modifyResponse clean_resp ?_)
  | refine Obeys.of_keeps (Keeps.onRequest clean_req ?_)
  | refine Obeys.of_keeps (Keeps.withRequest clean_req ?_)
  | refine Obeys.of_keeps (Keeps.withResponse clean_resp ?_)
  | refine Obeys.of_keeps (Keeps.modify ?_)
  | refine Obeys.of_keeps (Keeps.setReq ?_)
  | refine Obeys.of_keeps (Keeps.setResp ?_)
  | intro _
  | split))

/-- Closes the goals the walk leaves. -/
macro "obeys_leaf" : tactic => `(tactic| first
  | assumption
  | (rename_i hs; refine Clean.mod hs rfl rfl ?_ ?_ <;> first | exact Or.inl rfl | exact Or.inr trivial)
  | (rename_i hs _; refine Clean.mod hs rfl rfl ?_ ?_ <;> first | exact Or.inl rfl | exact Or.inr trivial)
  | (rename_i hs; split <;> refine Clean.mod hs rfl rfl ?_ ?_ <;> first | exact Or.inl rfl | exact Or.inr trivial)
  | (refine Tx.Plain.coding (by assumption) ?_; first
    | (with_reducible exact Tx.coding_parseRequestLine ..)
    | (with_reducible exact Tx.coding_processRequestHeaders ..)
    | (with_reducible exact Tx.coding_parseRequestHeaders ..)
    | (with_reducible exact Tx.coding_readRequestLine ..)
    | (with_reducible exact Tx.coding_storeNormalizedUri _ _ (by assumption))
    | (with_reducible exact Tx.coding_validateResponseLine ..)
    | (with_reducible exact Tx.coding_parseResponseHeaders ..)
    | (with_reducible exact Tx.coding_readResponseLine ..)
    | rfl)
  | (rename_i ht; exact Tx.Plain.coding ht rfl)
  | (rename_i ht _; exact Tx.Plain.coding ht rfl)
  | (rename_i ht _ _; exact Tx.Plain.coding ht rfl)
  | (rename_i ht _ _ _; exact Tx.Plain.coding ht rfl))

end Model
