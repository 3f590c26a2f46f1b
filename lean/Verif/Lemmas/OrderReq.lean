/-
The request functions keep the order of the request callbacks.
-/
import Verif.Lemmas.Order
import Verif.Lemmas.Keeps

namespace Model

open M Spec

/-- What is known of the stored transactions: the indices, the progress `q` of the current request, and
that later requests have not begun. -/
structure Store (r k : Nat) (q : Progress → Prop) (s : Conn) : Prop where
  request : s.txs.request = r
  response : s.txs.response = k
  index : ∀ i t, s.txs.get i = some t → t.index = i
  prog : ∀ t, s.txs.get r = some t → q t.requestProgress
  ahead : ∀ i t, r < i → s.txs.get i = some t → t.requestProgress = .notStarted

/-- What is known of the current request transaction. -/
def ReqFact (r : Nat) (q : Progress → Prop) (t : Tx) : Prop := t.index = r ∧ q t.requestProgress

/-- What is known of the current response transaction. -/
def RespFact (r k : Nat) (q : Progress → Prop) (t : Tx) : Prop :=
  t.index = k ∧ (k = r → q t.requestProgress) ∧ (r < k → t.requestProgress = .notStarted)

theorem ReqFact.of_tag {r : Nat} {q : Progress → Prop} {t u : Tx} (h : ReqFact r q t) (hu : u.tag = t.tag) :
    ReqFact r q u := by
  simp only [Tx.tag, Prod.mk.injEq] at hu
  unfold ReqFact
  rw [hu.1, hu.2.1]
  exact h

theorem RespFact.of_tag {r k : Nat} {q : Progress → Prop} {t u : Tx} (h : RespFact r k q t)
    (hu : u.index = t.index ∧ u.requestProgress = t.requestProgress) : RespFact r k q u := by
  unfold RespFact
  rw [hu.1, hu.2]
  exact h

theorem RespFact.of_tag' {r k : Nat} {q : Progress → Prop} {t u : Tx} (h : RespFact r k q t)
    (hu : u.tag = t.tag) : RespFact r k q u := by
  simp only [Tx.tag, Prod.mk.injEq] at hu
  exact h.of_tag ⟨hu.1, hu.2.1⟩

theorem Store.put_request {r k : Nat} {q : Progress → Prop} {s : Conn} {t : Tx} (h : Store r k q s)
    (ht : ReqFact r q t) : Store r k q { s with txs := s.txs.set s.txs.request t } := by
  refine ⟨h.1, h.2, ?_, ?_, ?_⟩
  · intro i u hu
    rw [Txs.get_set] at hu
    split at hu
    · next hi =>
      cases hu
      rw [hi, h.1]
      exact ht.1
    · exact h.3 i u hu
  · intro u hu
    rw [Txs.get_set, h.1, if_pos rfl] at hu
    cases hu
    exact ht.2
  · intro i u hi hu
    rw [Txs.get_set, h.1, if_neg (by omega)] at hu
    exact h.5 i u hi hu

theorem Store.put_response {r k : Nat} {q : Progress → Prop} {s : Conn} {t : Tx} (h : Store r k q s)
    (ht : RespFact r k q t) : Store r k q { s with txs := s.txs.set s.txs.response t } := by
  refine ⟨h.1, h.2, ?_, ?_, ?_⟩
  · intro i u hu
    rw [Txs.get_set] at hu
    split at hu
    · next hi =>
      cases hu
      rw [hi, h.2]
      exact ht.1
    · exact h.3 i u hu
  · intro u hu
    rw [Txs.get_set, h.2] at hu
    split at hu
    · next hi => cases hu; exact ht.2.1 hi.symm
    · exact h.4 u hu
  · intro i u hi hu
    rw [Txs.get_set, h.2] at hu
    split at hu
    · next hk => cases hu; exact ht.2.2 (hk ▸ hi)
    · exact h.5 i u hi hu

theorem Store.get_request {r k : Nat} {q : Progress → Prop} {s : Conn} {t : Tx} (h : Store r k q s)
    (ht : s.txs.get s.txs.request = some t) : ReqFact r q t := by
  rw [h.1] at ht
  exact ⟨h.3 r t ht, h.4 t ht⟩

theorem Store.get_response {r k : Nat} {q : Progress → Prop} {s : Conn} {t : Tx} (h : Store r k q s)
    (ht : s.txs.get s.txs.response = some t) : RespFact r k q t := by
  rw [h.2] at ht
  exact ⟨h.3 k t ht, fun hk => h.4 t (hk ▸ ht), fun hk => h.5 k t hk ht⟩

theorem Store.mono {r k : Nat} {q q' : Progress → Prop} {s : Conn} (h : Store r k q s)
    (hq : ∀ p, q p → q' p) : Store r k q' s :=
  ⟨h.1, h.2, h.3, fun t ht => hq _ (h.4 t ht), h.5⟩

/-- The same store in another state. -/
theorem Store.same {r k : Nat} {q : Progress → Prop} {s s' : Conn} (h : Store r k q s) (ht : s'.txs = s.txs) :
    Store r k q s' := by
  refine ⟨by rw [ht]; exact h.1, by rw [ht]; exact h.2, ?_, ?_, ?_⟩
  · rw [ht]; exact h.3
  · rw [ht]; exact h.4
  · rw [ht]; exact h.5

/-- The request is not complete; it is past its headers. -/
def Undone (p : Progress) : Prop := p ≠ .complete
def Late (p : Progress) : Prop := p ≠ .complete ∧ p ≠ .line ∧ p ≠ .headers

/-- The current request is at most in its headers. -/
def Early (s : Conn) : Prop :=
  ∃ t, s.txs.get s.txs.request = some t ∧ (t.requestProgress = .line ∨ t.requestProgress = .headers)

/-- How far the callbacks of the current request can have come. -/
def Fits (s : Conn) : Prop :=
  match s.req.state with
  | .idle | .ignoreDataAfterHttp09 => Core s.trace s.txs.request 0
  | .line | .protocol => Core s.trace s.txs.request 2
  | .headers => Core s.trace s.txs.request 4 ∧
      (s.req.receiver = some .requestHeaderData ∨ Early s → Core s.trace s.txs.request 3)
  | _ => Core s.trace s.txs.request 4

/-- The invariant between the steps of the request machine. -/
structure Orderly (s : Conn) : Prop where
  store : Store s.txs.request s.txs.response Undone s
  fits : Fits s
  recv : s.req.receiver = none ∨ s.req.state = .headers ∧
    (s.req.receiver = some .requestHeaderData ∨ s.req.receiver = some .requestTrailerData ∧ ¬Early s)
  cl : s.req.contentLength = none ∨ s.req.state = .idle ∨ s.req.state = .ignoreDataAfterHttp09 ∨
    s.req.state = .bodyIdentity ∨ s.req.state = .finalize

/-- The request line is awaited or has been read. -/
structure InLine (r k : Nat) (s : Conn) : Prop where
  store : Store r k Undone s
  state : s.req.state = .line ∨ s.req.state = .protocol
  recv : s.req.receiver = none
  cl : s.req.contentLength = none
  core : Core s.trace r 2

/-- The headers (or the trailer, when `late`) are being read. -/
structure InHead (late : Bool) (r k : Nat) (s : Conn) : Prop where
  store : Store r k (if late then Late else Undone) s
  state : s.req.state = .headers
  recv : s.req.receiver = none ∨
    s.req.receiver = some (if late then .requestTrailerData else .requestHeaderData)
  cl : s.req.contentLength = none
  core : Core s.trace r (if late then 4 else 3)

/-- A state after the headers. -/
def State.isBody : State → Bool
  | .idle | .ignoreDataAfterHttp09 | .line | .protocol | .headers => false
  | _ => true

/-- The headers have been read; `b` tells that no length is known. -/
structure InBody (b : Bool) (r k : Nat) (s : Conn) : Prop where
  store : Store r k Undone s
  state : s.req.state.isBody = true
  recv : s.req.receiver = none
  cl : if b then s.req.contentLength = none else s.req.state = .bodyIdentity ∨ s.req.state = .finalize
  core : Core s.trace r 4

theorem InLine.orderly {r k : Nat} {s : Conn} (h : InLine r k s) : Orderly s := by
  obtain rfl := h.store.1
  obtain rfl := h.store.2
  refine ⟨h.store, ?_, .inl h.recv, .inl h.cl⟩
  unfold Fits
  rcases h.state with hs | hs <;> rw [hs] <;> exact h.core

theorem InBody.orderly {b : Bool} {r k : Nat} {s : Conn} (h : InBody b r k s) : Orderly s := by
  obtain rfl := h.store.1
  obtain rfl := h.store.2
  refine ⟨h.store, ?_, .inl h.recv, ?_⟩
  · unfold Fits
    have h1 := h.state
    have h2 := h.core
    cases hs : s.req.state <;> rw [hs] at h1 <;> first | exact h2 | exact absurd h1 (by decide)
  · have h1 := h.cl
    cases b
    · exact .inr (.inr (.inr h1))
    · exact .inl h1

theorem InHead.orderly {b : Bool} {r k : Nat} {s : Conn} (h : InHead b r k s) : Orderly s := by
  obtain rfl := h.store.1
  obtain rfl := h.store.2
  cases b with
  | false =>
    have hc : Core s.trace s.txs.request 3 := h.core
    refine ⟨h.store, ?_, ?_, .inl h.cl⟩
    · unfold Fits
      rw [h.state]
      exact ⟨hc.mono (by omega), fun _ => hc⟩
    · rcases h.recv with h1 | h1
      · exact .inl h1
      · exact .inr ⟨h.state, .inl h1⟩
  | true =>
    have hc : Core s.trace s.txs.request 4 := h.core
    have hne : ¬Early s := by
      rintro ⟨t, ht, hp⟩
      have : Late t.requestProgress := h.store.4 t ht
      exact hp.elim this.2.1 this.2.2
    refine ⟨h.store.mono fun p hp => hp.1, ?_, ?_, .inl h.cl⟩
    · unfold Fits
      rw [h.state]
      refine ⟨hc, ?_⟩
      rintro (h1 | h1)
      · rcases h.recv with h2 | h2 <;> rw [h2] at h1 <;> cases h1
      · exact absurd h1 hne
    · rcases h.recv with h1 | h1
      · exact .inl h1
      · exact .inr ⟨h.state, .inr ⟨h1, hne⟩⟩

theorem Orderly.inLine {s : Conn} (h : Orderly s) (hs : s.req.state = .line ∨ s.req.state = .protocol) :
    InLine s.txs.request s.txs.response s := by
  have h1 := h.fits
  unfold Fits at h1
  refine ⟨h.store, hs, ?_, ?_, ?_⟩
  · rcases h.recv with h2 | h2
    · exact h2
    · rcases hs with hs | hs <;> rw [hs] at h2 <;> cases h2.1
  · rcases h.cl with h2 | h2 | h2 | h2 | h2
    · exact h2
    all_goals rcases hs with hs | hs <;> rw [hs] at h2 <;> cases h2
  · rcases hs with hs | hs <;> rw [hs] at h1 <;> exact h1

theorem Orderly.inHead {s : Conn} (h : Orderly s) (hs : s.req.state = .headers) :
    ∃ b, InHead b s.txs.request s.txs.response s := by
  have h1 := h.fits
  unfold Fits at h1
  rw [hs] at h1
  have hcl : s.req.contentLength = none := by
    rcases h.cl with h2 | h2 | h2 | h2 | h2
    · exact h2
    all_goals rw [hs] at h2; cases h2
  by_cases he : s.req.receiver = some .requestHeaderData ∨ Early s
  · refine ⟨false, h.store, hs, ?_, hcl, h1.2 he⟩
    rcases h.recv with h2 | ⟨-, h2 | h2⟩
    · exact .inl h2
    · exact .inr h2
    · rcases he with he | he
      · rw [h2.1] at he; cases he
      · exact absurd he h2.2
  · refine ⟨true, ?_, hs, ?_, hcl, h1.1⟩
    · refine ⟨rfl, rfl, h.store.3, ?_, h.store.5⟩
      intro t ht
      exact ⟨h.store.4 t ht, fun hp => he (.inr ⟨t, ht, .inl hp⟩), fun hp => he (.inr ⟨t, ht, .inr hp⟩)⟩
    · rcases h.recv with h2 | ⟨-, h2 | h2⟩
      · exact .inl h2
      · exact absurd (.inl h2) he
      · exact .inr h2.1

theorem Orderly.inBody {s : Conn} (h : Orderly s) (hs : s.req.state.isBody = true) :
    InBody (decide (s.req.state ≠ .bodyIdentity ∧ s.req.state ≠ .finalize)) s.txs.request s.txs.response s := by
  refine ⟨h.store, hs, ?_, ?_, ?_⟩
  · rcases h.recv with h2 | h2
    · exact h2
    · rw [h2.1] at hs; cases hs
  · by_cases hc : s.req.state ≠ .bodyIdentity ∧ s.req.state ≠ .finalize
    · rw [decide_eq_true hc]
      rcases h.cl with h2 | h2 | h2 | h2 | h2
      · exact h2
      · rw [h2] at hs; cases hs
      · rw [h2] at hs; cases hs
      · exact absurd h2 hc.1
      · exact absurd h2 hc.2
    · rw [decide_eq_false hc]
      show s.req.state = .bodyIdentity ∨ s.req.state = .finalize
      cases hst : s.req.state <;> rw [hst] at hc <;> simp at hc <;> simp
  · have h1 := h.fits
    unfold Fits at h1
    cases hst : s.req.state <;> rw [hst] at h1 hs <;> first | exact h1 | exact absurd hs (by decide)

theorem InLine.stable {r k : Nat} : ReqStable (InLine r k) (ReqFact r Undone) where
  get h := h.store.get_request
  new h _ := ⟨h.store.1, by simp [Undone]⟩
  put h ht := ⟨h.store.put_request ht, h.2, h.3, h.4, h.5⟩

theorem InHead.stable {b : Bool} {r k : Nat} : ReqStable (InHead b r k) (ReqFact r (if b then Late else Undone)) where
  get h := h.store.get_request
  new h _ := ⟨h.store.1, by cases b <;> simp [Undone, Late]⟩
  put h ht := ⟨h.store.put_request ht, h.2, h.3, h.4, h.5⟩

theorem InBody.stable {b : Bool} {r k : Nat} : ReqStable (InBody b r k) (ReqFact r Undone) where
  get h := h.store.get_request
  new h _ := ⟨h.store.1, by simp [Undone]⟩
  put h ht := ⟨h.store.put_request ht, h.2, h.3, h.4, h.5⟩

macro_rules | `(tactic| keeps_stable) => `(tactic| exact InLine.stable)
macro_rules | `(tactic| keeps_stable) => `(tactic| exact InHead.stable)
macro_rules | `(tactic| keeps_stable) => `(tactic| exact InBody.stable)

/-- Closes `ReqFact r q u` where `u` is a transaction with the same index and progress as a known one. -/
macro "fact_leaf" : tactic => `(tactic|
  first
  | assumption
  | (refine ReqFact.of_tag ?_ ?_; first | assumption | rfl)
  | exact fun _ h => h)

theorem requestConsume_line {r k n : Nat} : Keeps (InLine r k) Any (requestConsume n) :=
  Keeps.modify fun _ h => ⟨h.1.same rfl, h.2, h.3, h.4, h.5⟩
theorem requestConsume_head {b : Bool} {r k n : Nat} : Keeps (InHead b r k) Any (requestConsume n) :=
  Keeps.modify fun _ h => ⟨h.1.same rfl, h.2, h.3, h.4, h.5⟩
theorem requestConsume_body {b : Bool} {r k n : Nat} : Keeps (InBody b r k) Any (requestConsume n) :=
  Keeps.modify fun _ h => ⟨h.1.same rfl, h.2, h.3, h.4, h.5⟩
theorem requestUnconsume_body {b : Bool} {r k n : Nat} : Keeps (InBody b r k) Any (requestUnconsume n) :=
  Keeps.modify fun _ h => ⟨h.1.same rfl, h.2, h.3, h.4, h.5⟩

macro_rules | `(tactic| keeps_known) => `(tactic| exact requestConsume_line)
macro_rules | `(tactic| keeps_known) => `(tactic| exact requestConsume_head)
macro_rules | `(tactic| keeps_known) => `(tactic| exact requestConsume_body)
macro_rules | `(tactic| keeps_known) => `(tactic| exact requestUnconsume_body)

theorem handleRequestAbsentLf_line {r k : Nat} (e : Env) : Keeps (InLine r k) Any (handleRequestAbsentLf e) := by
  unfold handleRequestAbsentLf
  keeps_walk
  rename_i h
  exact ⟨h.1.same rfl, h.2, h.3, h.4, h.5⟩

theorem handleRequestAbsentLf_body {b : Bool} {r k : Nat} (e : Env) :
    Keeps (InBody b r k) Any (handleRequestAbsentLf e) := by
  unfold handleRequestAbsentLf
  keeps_walk
  rename_i h
  exact ⟨h.1.same rfl, h.2, h.3, h.4, h.5⟩

macro_rules | `(tactic| keeps_known) => `(tactic| exact handleRequestAbsentLf_line _)
macro_rules | `(tactic| keeps_known) => `(tactic| exact handleRequestAbsentLf_body _)

theorem InBody.emit {b : Bool} {r k : Nat} {s : Conn} {ev : Event} (h : InBody b r k s)
    (hev : requestStage ev = some (r, .body)) : InBody b r k { s with trace := s.trace ++ [ev] } :=
  ⟨h.1.same rfl, h.2, h.3, h.4, h.5.step hev (.inr ⟨rfl, by simp, by simp⟩) (by simp)⟩

theorem requestRunHookBodyData_body {b : Bool} {r k : Nat} (e : Env) (d : PData) :
    Keeps (InBody b r k) Any (requestRunHookBodyData e d) := by
  unfold requestRunHookBodyData
  keeps_walk
  · rename_i h0 _ h
    exact h.emit (by rw [h0.store.1]; rfl)
  · rename_i h0 _ _ _ h
    exact h.emit (by rw [h0.store.1]; rfl)

macro_rules | `(tactic| keeps_known) => `(tactic| exact requestRunHookBodyData_body _ _)

theorem requestDecompressorCallback_body {b : Bool} {r k : Nat} (e : Env) (o : Option Bytes) :
    Keeps (InBody b r k) Any (requestDecompressorCallback e o) := by
  unfold requestDecompressorCallback
  keeps_walk
  fact_leaf

macro_rules | `(tactic| keeps_known) => `(tactic| exact requestDecompressorCallback_body _ _)

theorem requestDecompress_body {b : Bool} {r k : Nat} (e : Env) (o : Option Bytes) :
    Keeps (InBody b r k) Any (requestDecompress e o) := by
  unfold requestDecompress
  keeps_walk <;> fact_leaf

theorem requestPlainBody_body {b : Bool} {r k : Nat} (e : Env) (o : Option Bytes) :
    Keeps (InBody b r k) Any (requestPlainBody e o) := by
  unfold requestPlainBody
  keeps_walk <;> fact_leaf

macro_rules | `(tactic| keeps_known) => `(tactic| exact requestDecompress_body _ _)
macro_rules | `(tactic| keeps_known) => `(tactic| exact requestPlainBody_body _ _)

theorem requestBodyData_body {b : Bool} {r k : Nat} (e : Env) (o : Option Bytes) :
    Keeps (InBody b r k) Any (requestBodyData e o) := by
  unfold requestBodyData
  keeps_walk <;> fact_leaf

macro_rules | `(tactic| keeps_known) => `(tactic| exact requestBodyData_body _ _)

theorem requestIdentityData_body {b : Bool} {r k : Nat} (e : Env) (n : Nat) :
    Keeps (InBody b r k) Any (requestIdentityData e n) := by
  unfold requestIdentityData
  keeps_walk <;> fact_leaf

macro_rules | `(tactic| keeps_known) => `(tactic| exact requestIdentityData_body _ _)

/-- A change of state within the body. -/
theorem InBody.set {b : Bool} {r k : Nat} {s : Conn} {h' : Half} (h : InBody b r k s)
    (hr : h'.receiver = s.req.receiver)
    (hs : h'.state = s.req.state ∨ h'.state = .finalize ∨ b = true ∧ h'.state.isBody = true)
    (hc : h'.contentLength = s.req.contentLength) : InBody b r k { s with req := h' } := by
  refine ⟨h.1.same rfl, ?_, hr.trans h.3, ?_, h.5⟩
  · rcases hs with h1 | h1 | h1
    · exact h1.symm ▸ h.2
    · exact h1.symm ▸ rfl
    · exact h1.2
  · have h2 := h.cl
    cases b
    · rcases hs with h1 | h1 | h1
      · exact h1.symm ▸ h2
      · exact .inr h1
      · cases h1.1
    · exact hc.trans h2

macro "body_leaf" : tactic => `(tactic|
  first
  | fact_leaf
  | (refine InBody.set (by assumption) rfl ?_ rfl; simp [State.isBody]; done))

theorem requestBodyChunkedDataEnd_body {r k : Nat} (e : Env) :
    Keeps (InBody true r k) Any (requestBodyChunkedDataEnd e) := by
  unfold requestBodyChunkedDataEnd
  keeps_walk <;> body_leaf

theorem requestBodyChunkedData_body {r k : Nat} (e : Env) :
    Keeps (InBody true r k) Any (requestBodyChunkedData e) := by
  unfold requestBodyChunkedData
  keeps_walk <;> body_leaf

theorem requestBodyIdentity_body {r k : Nat} (e : Env) : Keeps (InBody false r k) Any (requestBodyIdentity e) := by
  unfold requestBodyIdentity
  keeps_walk <;> body_leaf

theorem requestConnectCheck_body {r k : Nat} (e : Env) : Keeps (InBody true r k) Any (requestConnectCheck e) := by
  unfold requestConnectCheck
  keeps_walk <;> body_leaf

theorem requestConnectWaitResponse_body {r k : Nat} (e : Env) :
    Keeps (InBody true r k) Any (requestConnectWaitResponse e) := by
  unfold requestConnectWaitResponse
  keeps_walk <;> body_leaf

/-- `m`, run from a state with `P`, ends in an orderly state. -/
def Ends {α : Type} (P : Conn → Prop) (m : M α) : Prop := ∀ s, P s → Orderly (m s).2

namespace Ends

variable {α β : Type} {P : Conn → Prop} {F : α → Prop}

theorem bind {m : M α} {f : α → M β} (hP : ∀ s, P s → Orderly s) (h : Keeps P F m)
    (h' : ∀ a, F a → Ends P (f a)) : Ends P (m >>= f) := by
  intro s hs
  show Orderly (match m s with | (.ok a, s) => f a s | (.error e, s) => (.error e, s)).2
  have hm := h s hs
  cases hr : m s with
  | mk r s' =>
    rw [hr] at hm
    cases r with
    | ok a => exact h' a (hm.2 a rfl) s' hm.1
    | error x => exact hP _ hm.1

theorem of {m : M α} (hP : ∀ s, P s → Orderly s) (h : Keeps P F m) : Ends P m := fun s hs => hP _ (h s hs).1

theorem ite {c : Prop} [Decidable c] {m m' : M α} (h : c → Ends P m) (h' : ¬c → Ends P m') :
    Ends P (if c then m else m') := by
  by_cases hc : c
  · rw [if_pos hc]; exact h hc
  · rw [if_neg hc]; exact h' hc

theorem bind_state {f : Conn → M β} (h : ∀ s, P s → Ends P (f s)) : Ends P (M.state >>= f) :=
  fun s hs => h s hs s hs

end Ends

theorem requestBodyDetermine_orderly {r k : Nat} (e : Env) : Ends (InBody true r k) (requestBodyDetermine e) := by
  unfold requestBodyDetermine
  refine Ends.bind (fun _ => InBody.orderly) (Keeps.requestTx InBody.stable) fun t ht => ?_
  split
  · refine Ends.of (F := Any) (fun _ => InBody.orderly) ?_
    keeps_walk
    · exact ⟨ht.1, by simp [Undone]⟩
    · body_leaf
  · refine Ends.ite (fun _ => ?_) fun _ => ?_
    · refine Ends.bind (fun _ => InBody.orderly) (Keeps.putRequest InBody.stable ⟨ht.1, by simp [Undone]⟩) ?_
      intro _ _ s h
      exact InBody.orderly (b := false) ⟨h.1.same rfl, rfl, h.3, .inl rfl, h.5⟩
    · intro s h
      exact InBody.orderly (b := false) ⟨h.1.same rfl, rfl, h.3, .inr rfl, h.5⟩
  · refine Ends.of (F := Any) (fun _ => InBody.orderly) ?_
    keeps_walk <;> body_leaf
  · exact Ends.of (F := Any) (fun _ => InBody.orderly) Keeps.fail

theorem requestChunkLine_orderly {r k : Nat} (e : Env) (line : Bytes) :
    Ends (InBody true r k) (requestChunkLine e line) := by
  unfold requestChunkLine
  refine Ends.bind_state fun s0 h0 => ?_
  refine Ends.bind (F := Any) (fun _ => InBody.orderly) (by keeps_walk; fact_leaf) fun _ _ => ?_
  split
  · exact Ends.of (F := Any) (fun _ => InBody.orderly) Keeps.fail
  · refine Ends.bind (F := Any) (fun _ => InBody.orderly) (by keeps_walk; body_leaf) fun _ _ => ?_
    split
    · exact Ends.of (F := Any) (fun _ => InBody.orderly) Keeps.fail
    · intro s h
      show Orderly (Model.modifyRequest e _ { s with req := { s.req with state := .headers } }).2
      unfold Model.modifyRequest
      refine post.bind (Q := fun _ s' => Orderly s') ?_
      have key : ∀ t s', s' = { s with
            req := { s.req with state := .headers }, txs := s.txs.set s.txs.request t } →
          t.index = r → Late t.requestProgress → InHead true r k s' := by
        rintro t s' rfl hi hp
        refine ⟨?_, rfl, .inl h.3, h.4, h.5⟩
        obtain ⟨s1, s2, s3, s4, s5⟩ := h.store.put_request (t := t) ⟨hi, hp.1⟩
        refine ⟨s1, s2, s3, ?_, s5⟩
        intro u hu
        have hu' : (s.txs.set s.txs.request t).get r = some u := hu
        rw [Txs.get_set, h.store.1, if_pos rfl] at hu'
        cases hu'
        exact hp
      unfold post Model.requestTx Txs.requestMut Txs.entry
      cases hg : s.txs.get s.txs.request with
      | some t =>
        dsimp only
        have ht := h.store.get_request hg
        refine (key { t with requestProgress := .trailer } _ rfl ht.1 (by simp [Late])).orderly
      | none =>
        dsimp only
        by_cases hl : s.txs.map.length ≥ e.cfg.maxTx
        · rw [if_pos hl]
          refine InHead.orderly (b := true) (r := r) (k := k) ⟨⟨h.store.1, h.store.2, h.store.3, ?_, h.store.5⟩,
            rfl, .inl h.3, h.4, h.5⟩
          intro t ht
          rw [h.store.1] at hg
          have : s.txs.get r = some t := ht
          rw [hg] at this
          cases this
        · rw [if_neg hl]
          have h1 := h.store
          refine InHead.orderly (b := true) (r := r) (k := k) ?_
          refine ⟨⟨h1.1, h1.2, ?_, ?_, ?_⟩, rfl, .inl h.3, h.4, h.5⟩
          · intro i u hu
            simp only [putRequest, M.modify, Txs.get_set] at hu
            split at hu
            · next hi => cases hu; exact hi.symm
            · split at hu
              · next hi => cases hu; exact hi.symm
              · exact h1.3 i u hu
          · intro u hu
            have hu' : ((s.txs.set s.txs.request _).set s.txs.request
              { index := s.txs.request, requestProgress := .trailer }).get r = some u := hu
            rw [Txs.get_set, if_pos h1.1.symm] at hu'
            cases hu'
            simp [Late]
          · intro i u hi hu
            have hu' : ((s.txs.set s.txs.request { index := s.txs.request }).set s.txs.request
              { index := s.txs.request, requestProgress := .trailer }).get i = some u := hu
            have hne : i ≠ s.txs.request := by rw [h1.1]; omega
            rw [Txs.get_set, if_neg hne, Txs.get_set, if_neg hne] at hu'
            exact h1.5 i u hi hu'
    · refine Ends.of (F := Any) (fun _ => InBody.orderly) ?_
      keeps_walk
      body_leaf

end Model
