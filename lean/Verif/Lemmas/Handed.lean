/-
The recorded length of a body and the data handed out, on one side.
-/
import Verif.Lemmas.Apart
import Verif.Lemmas.Lens
import Verif.Spec.Handed

namespace Model

open M Spec

theorem handed_append (h : DataHook) (k : Nat) (a b : List Event) : handed h k (a ++ b) = handed h k a + handed h k b := by
  simp [handed]

theorem handed_one (h : DataHook) (k : Nat) (ev : Event) : handed h k [ev] = handedBy h k ev := by simp [handed]

/-- The length that `len` reads off transaction `k` is `n`, and so is the amount of data handed to the callbacks `h`. -/
structure Even (len : Tx → Nat) (h : DataHook) (k n : Nat) (s : Conn) : Prop where
  len : ∀ t, s.txs.get k = some t → len t = n
  absent : s.txs.get k = none → n = 0
  trace : Counts n (handed h k s.trace)

section
variable {len : Tx → Nat} {h : DataHook} {k n : Nat} {s : Conn}

theorem Even.other {s' : Conn} (he : Even len h k n s) (h1 : s'.txs = s.txs) (h2 : s'.trace = s.trace) : Even len h k n s' :=
  ⟨by rw [h1]; exact he.1, by rw [h1]; exact he.2, by rw [h2]; exact he.3⟩

theorem Even.emit {ev : Event} (he : Even len h k n s) (h0 : handedBy h k ev = 0) :
    Even len h k n { s with trace := s.trace ++ [ev] } :=
  ⟨he.1, he.2, by rw [handed_append, handed_one, h0]; exact he.3⟩

theorem Even.put {t : Tx} {r : Nat} (he : Even len h k n s) (ht : k = r → len t = n) :
    Even len h k n { s with txs := s.txs.set r t } := by
  refine ⟨fun u hu => ?_, fun hu => ?_, he.3⟩
  · have hu' : (s.txs.set r t).get k = some u := hu
    rw [Txs.get_set] at hu'
    split at hu'
    · next hk => cases hu'; exact ht hk
    · exact he.1 u hu'
  · have hu' : (s.txs.set r t).get k = none := hu
    rw [Txs.get_set] at hu'
    split at hu'
    · cases hu'
    · exact he.2 hu'

end

/-- The same while `r` is the current response; the receiver of raw data is not the one of bodies. -/
structure RespEven (k r n : Nat) (s : Conn) : Prop where
  index : s.txs.response = r
  receiver : s.resp.receiver ≠ some .responseBodyDataTx
  even : Even Tx.responseEntityLen .responseBodyDataTx k n s

/-- The same while `r` is the current request. -/
structure ReqEven (k r n : Nat) (s : Conn) : Prop where
  index : s.txs.request = r
  receiver : s.req.receiver ≠ some .requestBodyDataTx
  even : Even Tx.requestEntityLen .requestBodyDataTx k n s

/-- What is known of the current transaction, when its index is `r`. -/
def RespLen (k r n : Nat) (t : Tx) : Prop := k = r → t.responseEntityLen = n

def ReqLen (k r n : Nat) (t : Tx) : Prop := k = r → t.requestEntityLen = n

theorem RespLen.same {k r n : Nat} {t t' : Tx} (h : RespLen k r n t) (hs : t'.lens = t.lens) : RespLen k r n t' :=
  fun hk => (congrArg Prod.snd hs).trans (h hk)

theorem ReqLen.same {k r n : Nat} {t t' : Tx} (h : ReqLen k r n t) (hs : t'.lens = t.lens) : ReqLen k r n t' :=
  fun hk => (congrArg Prod.fst hs).trans (h hk)

section
variable {k r n : Nat}

theorem RespEven.stable : RespStable (RespEven k r n) (RespLen k r n) where
  get h ht := fun hk => h.even.1 _ (by rw [hk, ← h.index]; exact ht)
  new h ht := fun hk => (h.even.2 (by rw [hk, ← h.index]; exact ht)).symm
  put {s t} h ht := ⟨h.1, h.2, by rw [h.index]; exact h.3.put ht⟩

theorem ReqEven.stable : ReqStable (ReqEven k r n) (ReqLen k r n) where
  get h ht := fun hk => h.even.1 _ (by rw [hk, ← h.index]; exact ht)
  new h ht := fun hk => (h.even.2 (by rw [hk, ← h.index]; exact ht)).symm
  put {s t} h ht := ⟨h.1, h.2, by rw [h.index]; exact h.3.put ht⟩

theorem RespEven.other {s s' : Conn} (h : RespEven k r n s) (h1 : s'.txs = s.txs) (h2 : s'.trace = s.trace)
    (h3 : s'.resp.receiver = s.resp.receiver ∨ s'.resp.receiver = none ∨ s'.resp.receiver = some .responseHeaderData ∨
      s'.resp.receiver = some .responseTrailerData) : RespEven k r n s' := by
  refine ⟨by rw [h1]; exact h.1, ?_, h.3.other h1 h2⟩
  rcases h3 with h3 | h3 | h3 | h3 <;> rw [h3]
  · exact h.2
  all_goals exact fun h => by cases h

theorem ReqEven.other {s s' : Conn} (h : ReqEven k r n s) (h1 : s'.txs = s.txs) (h2 : s'.trace = s.trace)
    (h3 : s'.req.receiver = s.req.receiver ∨ s'.req.receiver = none ∨ s'.req.receiver = some .requestHeaderData ∨
      s'.req.receiver = some .requestTrailerData) : ReqEven k r n s' := by
  refine ⟨by rw [h1]; exact h.1, ?_, h.3.other h1 h2⟩
  rcases h3 with h3 | h3 | h3 | h3 <;> rw [h3]
  · exact h.2
  all_goals exact fun h => by cases h

theorem RespEven.emit {s : Conn} {ev : Event} (h : RespEven k r n s) (h0 : handedBy .responseBodyDataTx k ev = 0) :
    RespEven k r n { s with trace := s.trace ++ [ev] } := ⟨h.1, h.2, h.3.emit h0⟩

theorem ReqEven.emit {s : Conn} {ev : Event} (h : ReqEven k r n s) (h0 : handedBy .requestBodyDataTx k ev = 0) :
    ReqEven k r n { s with trace := s.trace ++ [ev] } := ⟨h.1, h.2, h.3.emit h0⟩

end

theorem counts_add {n b c : Nat} (h : Counts n b) : Counts (wrapAdd n c) (b + c) := by
  unfold Counts wrapAdd at *
  omega

theorem emit_snd (e : Env) (ev : Event) (s : Conn) : (emit e ev s).2 = { s with trace := s.trace ++ [ev] } := by
  unfold emit
  cases e.hook s.trace ev <;> rfl

/-- Two callbacks: the second one may not be run. -/
theorem emit_emit_snd (e : Env) (ev ev' : Event) (s : Conn) :
    ((emit e ev >>= fun _ => emit e ev') s).2 = { s with trace := s.trace ++ [ev] } ∨
    ((emit e ev >>= fun _ => emit e ev') s).2 = { s with trace := s.trace ++ [ev] ++ [ev'] } := by
  have h := emit_snd e ev s
  rcases hr : emit e ev s with ⟨x, s'⟩
  rw [hr] at h
  cases x with
  | error x => left; rw [M.bind_error hr]; exact h
  | ok a =>
    right
    rw [M.bind_ok hr, emit_snd]
    rw [show s' = _ from h]

theorem pdata_empty (o : Option Bytes) : ({ data := o } : PData).isEmpty = decide ((o.getD []).length = 0) := by
  cases o with
  | none => rfl
  | some b =>
    unfold PData.isEmpty PData.len PData.asSlice
    cases b <;> rfl

/-- Extensible: closes a goal for a function already dealt with. -/
syntax "even_known" : tactic

macro_rules | `(tactic| even_known) => `(tactic| assumption)

/-- Extensible: a proof of `ReqStable P T` or `RespStable P T`. -/
syntax "even_stable" : tactic

macro_rules | `(tactic| even_stable) => `(tactic| exact RespEven.stable)
macro_rules | `(tactic| even_stable) => `(tactic| exact ReqEven.stable)

/-- Walks through the text of a function. -/
macro "even_walk" : tactic => `(tactic| repeat' (with_reducible first
  | even_known
  | exact Keeps.pure
  | exact Keeps.raise
  | exact Keeps.fail
  | exact Keeps.ofExcept
  | exact Keeps.inputPrefix
  | exact Keeps.checkRequestBufferLimit
  | exact Keeps.checkResponseBufferLimit
  | refine Keeps.bind_state ?_
  | refine Keeps.bind (Keeps.requestTx (by even_stable)) ?_
  | refine Keeps.bind (Keeps.responseTx (by even_stable)) ?_
  | refine Keeps.bind (F := Any) ?_ ?_
  | refine Keeps.ite ?_ ?_
  | refine Keeps.when ?_
  | refine Keeps.attempt (F := Any) ?_
  | refine Keeps.putRequest (by even_stable) ?_
  | refine Keeps.putResponse (by even_stable) ?_
  | refine Keeps.modifyRequest (by even_stable) ?_
  | refine Keeps.modifyResponse (by even_stable) ?_
  | refine Keeps.onRequest (by even_stable) ?_
  | refine Keeps.withRequest (by even_stable) ?_
  | refine Keeps.withResponse (by even_stable) ?_
  | refine Keeps.emit ?_
  | refine Keeps.runTxHook ?_
  | refine Keeps.modify ?_
  | refine Keeps.setReq ?_
  | refine Keeps.setResp ?_
  | intro _
  | split))

/-! ### From one length to another -/

/-- The two agree, whatever they are. -/
def RespAgree (k r : Nat) (s : Conn) : Prop := ∃ n, RespEven k r n s

def ReqAgree (k r : Nat) (s : Conn) : Prop := ∃ n, ReqEven k r n s

section
variable {α β : Type} {k r n : Nat} {P Q : Conn → Prop}

theorem Leads.afterResp {m : M α} {f : α → M β} (h : Leads P (RespAgree k r) m)
    (hq : ∀ {n : Nat} (s : Conn), RespEven k r n s → Q s) (h' : ∀ a n, Leads (RespEven k r n) Q (f a)) : Leads P Q (m >>= f) := by
  intro s hs
  show Q (match m s with | (.ok a, s) => f a s | (.error e, s) => (.error e, s)).2
  have hm := h s hs
  rcases hr : m s with ⟨x, s'⟩
  rw [hr] at hm
  obtain ⟨n', hm⟩ := hm
  cases x with
  | ok a => exact h' a n' s' hm
  | error x => exact hq s' hm

theorem Leads.afterReq {m : M α} {f : α → M β} (h : Leads P (ReqAgree k r) m)
    (hq : ∀ {n : Nat} (s : Conn), ReqEven k r n s → Q s) (h' : ∀ a n, Leads (ReqEven k r n) Q (f a)) : Leads P Q (m >>= f) := by
  intro s hs
  show Q (match m s with | (.ok a, s) => f a s | (.error e, s) => (.error e, s)).2
  have hm := h s hs
  rcases hr : m s with ⟨x, s'⟩
  rw [hr] at hm
  obtain ⟨n', hm⟩ := hm
  cases x with
  | ok a => exact h' a n' s' hm
  | error x => exact hq s' hm

theorem Leads.attempt {m : M α} (h : Leads P Q m) : Leads P Q (M.attempt m) := by
  intro s hs
  have := h s hs
  unfold M.attempt
  rcases hm : m s with ⟨x, s'⟩
  rw [hm] at this
  cases x with
  | ok a => exact this
  | error x => cases x <;> exact this

theorem Leads.when {c : Bool} {m : M Unit} (hq : ∀ s, P s → Q s) (h : Leads P Q m) : Leads P Q (M.when c m) := by
  cases c
  · exact fun s hs => hq s hs
  · exact h

theorem Leads.decodingResp {cb : Option Bytes → M Unit} (h : ∀ o n, Leads (RespEven k r n) (RespAgree k r) (cb o))
    (d : Decoding) : ∀ n, Leads (RespEven k r n) (RespAgree k r) (runDecoding cb d) := by
  induction d with
  | done ok => exact fun n s hs => ⟨n, hs⟩
  | call out next ih =>
    exact fun n => Leads.afterResp (Leads.attempt (h out n)) (fun s hs => ⟨_, hs⟩) fun a n => ih _ n

theorem Leads.decodingReq {cb : Option Bytes → M Unit} (h : ∀ o n, Leads (ReqEven k r n) (ReqAgree k r) (cb o))
    (d : Decoding) : ∀ n, Leads (ReqEven k r n) (ReqAgree k r) (runDecoding cb d) := by
  induction d with
  | done ok => exact fun n s hs => ⟨n, hs⟩
  | call out next ih =>
    exact fun n => Leads.afterReq (Leads.attempt (h out n)) (fun s hs => ⟨_, hs⟩) fun a n => ih _ n

end

end Model
