/-
A call on one side of a connection and what belongs to the other.
-/
import Verif.Lemmas.ApartCalls
import Verif.Lemmas.ConnOps
import Verif.Spec.Apart

namespace Model

open M Spec

/-! ### Request calls -/

/-- Since `s0` nothing has changed that belongs to the responses; `r` is the current request. -/
structure RepliesKept (e : Env) (s0 : Conn) (r : Nat) (s : Conn) : Prop where
  request : s.txs.request = r
  kept : ∀ k t, s0.txs.get k = some t →
    (∃ t', s.txs.get k = some t' ∧ responseSide t' = responseSide t) ∨
    k < r ∧ s.txs.get k = none ∧ t.responseProgress = .complete ∧ e.cfg.txAutoDestroy = true
  fresh : ∀ k t', s0.txs.get k = none → s.txs.get k = some t' → Unanswered t'

/-- What is known of the current request transaction. -/
structure ReplyKept (s0 : Conn) (r : Nat) (t : Tx) : Prop where
  kept : ∀ t0, s0.txs.get r = some t0 → responseSide t = responseSide t0
  fresh : s0.txs.get r = none → Unanswered t

theorem RepliesKept.localReq (e : Env) (s0 : Conn) (r : Nat) : ReqLocal (RepliesKept e s0 r) (ReplyKept s0 r) where
  stable :=
    { get := fun {s t} h ht => by
        rw [h.request] at ht
        refine ⟨fun t0 h0 => ?_, fun h0 => h.fresh r t h0 ht⟩
        rcases h.kept r t0 h0 with ⟨t', h1, h2⟩ | h1
        · rw [ht] at h1; cases h1; exact h2
        · exact absurd h1.1 (Nat.lt_irrefl r)
      new := fun {s} h ht => by
        rw [h.request] at ht
        refine ⟨fun t0 h0 => ?_, fun _ => rfl⟩
        rcases h.kept r t0 h0 with ⟨t', h1, h2⟩ | h1
        · rw [ht] at h1; cases h1
        · exact absurd h1.1 (Nat.lt_irrefl r)
      put := fun {s t} h ht => by
        refine ⟨h.request, fun k t0 h0 => ?_, fun k t' h0 h1 => ?_⟩
        · by_cases hk : k = r
          · subst hk
            refine .inl ⟨t, ?_, ht.kept t0 h0⟩
            show (s.txs.set s.txs.request t).get k = some t
            rw [Txs.get_set, h.request, if_pos rfl]
          · have hs : (s.txs.set s.txs.request t).get k = s.txs.get k := by
              rw [Txs.get_set, h.request, if_neg hk]
            show (∃ t', (s.txs.set s.txs.request t).get k = some t' ∧ _) ∨ _ ∧ (s.txs.set s.txs.request t).get k = none ∧ _
            rw [hs]
            exact h.kept k t0 h0
        · have h1 : (s.txs.set s.txs.request t).get k = some t' := h1
          rw [Txs.get_set, h.request] at h1
          split at h1
          · next hk => subst hk; cases h1; exact ht.fresh h0
          · exact h.fresh k t' h0 h1 }
  other := fun {s s'} h hs => by
    refine ⟨by rw [hs]; exact h.request, ?_, ?_⟩
    · rw [hs]; exact h.kept
    · rw [hs]; exact h.fresh
  same := fun {t t'} h hs => by
    have : responseSide t' = responseSide t := congrArg Prod.snd hs.answer
    refine ⟨fun t0 h0 => this.trans (h.kept t0 h0), fun h0 => ?_⟩
    unfold Unanswered
    rw [this]
    exact h.fresh h0

/-- Where a transaction is looked up after `checkFree`. -/
theorem get_checkFree_cases (a : Bool) (x : Txs) (i k : Nat) :
    (x.checkFree a i).get k = x.get k ∨
    k = i ∧ (x.checkFree a i).get k = none ∧ a = true ∧ ∀ t, x.get i = some t → t.isComplete = true := by
  unfold Txs.checkFree
  cases a with
  | false => exact .inl rfl
  | true =>
    rw [if_pos rfl]
    cases hg : x.get i with
    | none =>
      dsimp only
      by_cases hk : k = i
      · subst hk
        left
        rw [Txs.get_remove, if_pos rfl, hg]
      · left
        rw [Txs.get_remove, if_neg hk]
    | some t =>
      dsimp only
      by_cases hc : t.isComplete = true
      · rw [if_pos hc]
        by_cases hk : k = i
        · subst hk
          right
          exact ⟨rfl, by rw [Txs.get_remove, if_pos rfl], rfl, fun u hu => by cases hu; exact hc⟩
        · left
          rw [Txs.get_remove, if_neg hk]
      · rw [if_neg hc]
        exact .inl rfl

/-- Since `s0` nothing has changed that belongs to the responses. -/
def Unharmed (e : Env) (s0 s : Conn) : Prop := RepliesKept e s0 s.txs.request s

theorem requestNext_unharmed (e : Env) (s0 : Conn) (r : Nat) : Leads (RepliesKept e s0 r) (Unharmed e s0) (requestNext e) := by
  intro s h
  have hreq : (requestNext e s).2.txs.request = r + 1 := by
    show (Txs.checkFree e.cfg.txAutoDestroy s.txs s.txs.request).request + 1 = _
    rw [(checkFree_response ..).2, h.request]
  have hget : ∀ k, (requestNext e s).2.txs.get k = (Txs.checkFree e.cfg.txAutoDestroy s.txs r).get k := by
    intro k
    rw [← h.request]
    rfl
  refine ⟨rfl, fun k t0 h0 => ?_, fun k t' h0 h1 => ?_⟩
  · rw [hreq, hget]
    rcases get_checkFree_cases e.cfg.txAutoDestroy s.txs r k with hc | ⟨hk, h1, h2, h3⟩
    · rw [hc]
      rcases h.kept k t0 h0 with hl | hr
      · exact .inl hl
      · exact .inr ⟨by omega, hr.2⟩
    · rw [h1]
      subst hk
      rcases h.kept k t0 h0 with ⟨t', h4, h5⟩ | hr
      · right
        have h6 := h3 t' h4
        have h7 : t'.responseProgress = .complete := by
          unfold Tx.isComplete at h6
          simp only [Bool.and_eq_true, beq_iff_eq] at h6
          exact h6.2
        have h8 : t0.responseProgress = t'.responseProgress := by
          have := congrArg Tx.responseProgress h5
          exact this.symm
        exact ⟨by omega, rfl, h8.trans h7, h2⟩
      · exact absurd hr.1 (Nat.lt_irrefl k)
  · rw [hget] at h1
    rcases get_checkFree_cases e.cfg.txAutoDestroy s.txs r k with hc | ⟨hk, h2, -⟩
    · rw [hc] at h1
      exact h.fresh k t' h0 h1
    · rw [h2] at h1; cases h1

theorem unharmed_walk (e : Env) (s0 : Conn) : ReqWalk e (Unharmed e s0) := fun s hs =>
  ⟨_, _, RepliesKept.localReq e s0 s.txs.request, hs, fun s' h' => by
    unfold Unharmed
    have := h'
    rw [← h'.request] at this
    exact this, requestNext_unharmed e s0 _⟩

theorem unharmed_onTxs (e : Env) (s0 : Conn) : OnTxs (Unharmed e s0) := fun {s s'} h hs => by
  unfold Unharmed
  rw [hs]
  exact (RepliesKept.localReq e s0 _).other h hs

theorem unharmed_refl (e : Env) (s0 : Conn) : Unharmed e s0 s0 :=
  ⟨rfl, fun _ t h => .inl ⟨t, h, rfl⟩, fun _ _ h h' => by rw [h] at h'; cases h'⟩

/-- The response parser is the same but for its status. -/
structure SameResp (s s' : Conn) : Prop where
  index : s'.txs.response = s.txs.response
  machine : { s'.resp with status := .new } = { s.resp with status := .new }
  other : s'.responseDataOtherAtTxEnd = s.responseDataOtherAtTxEnd
  status : s'.resp.status = s.resp.status ∨ s'.resp.status = .tunnel ∨ s.resp.status = .dataOther ∧ s'.resp.status = .data

theorem ReqFrame.sameResp {s s' : Conn} (h : ReqFrame s s') : SameResp s s' :=
  ⟨h.response, by rcases h.resp with h1 | h1 <;> rw [h1], h.other, by
    rcases h.resp with h1 | h1
    · exact .inl (by rw [h1])
    · exact .inr (.inl (by rw [h1]))⟩

theorem SameResp.refl (s : Conn) : SameResp s s := ⟨rfl, rfl, rfl, .inl rfl⟩

theorem SameResp.trans {a b c : Conn} (h : SameResp a b) (h' : SameResp b c) : SameResp a c :=
  ⟨h'.1.trans h.1, h'.2.trans h.2, h'.3.trans h.3, by
    rcases h'.4 with h1 | h1 | h1
    · rw [h1]; exact h.4
    · exact .inr (.inl h1)
    · rcases h.4 with h2 | h2 | h2
      · rw [← h2]; exact .inr (.inr h1)
      · rw [h2] at h1; cases h1.1
      · rw [h2.2] at h1; cases h1.1⟩

theorem requestData_sameResp (e : Env) (c : PData) (s : Conn) : SameResp s (requestData e c s).2 := by
  rw [requestData_eq]
  split
  · exact ⟨rfl, rfl, rfl, .inl rfl⟩
  · split
    · exact ⟨rfl, rfl, rfl, .inl rfl⟩
    · split
      · exact ⟨rfl, rfl, rfl, .inl rfl⟩
      · split
        · exact ⟨rfl, rfl, rfl, .inl rfl⟩
        · refine SameResp.trans ?_ (requestProcess_frame e _).sameResp
          dsimp only
          split
          · next h => exact ⟨rfl, rfl, rfl, .inr (.inr ⟨h, rfl⟩)⟩
          · exact ⟨rfl, rfl, rfl, .inl rfl⟩

/-! ### Response calls -/

/-- The transaction's request has begun, and the transaction is not over before its turn. -/
def Counts (s0 : Conn) (k : Nat) (t : Tx) : Prop :=
  t.requestProgress ≠ .notStarted ∧ (t.isComplete = false ∨ k < s0.txs.response)

/-- No request had begun. -/
def NoRequest (s0 : Conn) (k : Nat) : Prop := ∀ t, s0.txs.get k = some t → t.requestProgress = .notStarted

/-- What may be recorded where no request had begun. -/
def Blank (s0 : Conn) (k : Nat) (t' : Tx) : Prop :=
  ∃ t, (t = { index := k } ∨ s0.txs.get k = some t) ∧ (t'.asked = t.asked ∨ t'.asked = (madeUp t).asked)

/-- Since `s0` nothing has changed that belongs to the requests; `r` is the current response. -/
structure AskedKept (e : Env) (s0 : Conn) (r : Nat) (s : Conn) : Prop where
  response : s.txs.response = r
  start : s0.txs.response ≤ r
  kept : ∀ k t, s0.txs.get k = some t → Counts s0 k t →
    (∃ t', s.txs.get k = some t' ∧ t'.asked = t.asked) ∨
    k < r ∧ s.txs.get k = none ∧ t.requestProgress = .complete ∧ e.cfg.txAutoDestroy = true
  fresh : ∀ k t', NoRequest s0 k → s.txs.get k = some t' → Blank s0 k t'
  later : ∀ k, r < k → s.txs.get k = s0.txs.get k ∨ s.txs.get k = none
  index : s.txs.request = s0.txs.request ∨ ∃ k, s0.txs.response ≤ k ∧ k ≤ r ∧
    ∀ t, s0.txs.get k = some t → t.requestProgress = .notStarted ∨ t.isComplete = true

/-- What is known of the current response transaction. -/
structure QuestionKept (s0 : Conn) (r : Nat) (t : Tx) : Prop where
  kept : ∀ t0, s0.txs.get r = some t0 → Counts s0 r t0 → t.asked = t0.asked
  fresh : NoRequest s0 r → Blank s0 r t

theorem AskedKept.onTxs (e : Env) (s0 : Conn) (r : Nat) : OnTxs (AskedKept e s0 r) := fun {s s'} h hs => by
  refine ⟨by rw [hs]; exact h.response, h.start, ?_, ?_, ?_, ?_⟩
  · rw [hs]; exact h.kept
  · rw [hs]; exact h.fresh
  · rw [hs]; exact h.later
  · rw [hs]; exact h.index

theorem AskedKept.localResp (e : Env) (s0 : Conn) (r : Nat) : RespLocal (AskedKept e s0 r) (QuestionKept s0 r) where
  stable :=
    { get := fun {s t} h ht => by
        rw [h.response] at ht
        refine ⟨fun t0 h0 hc => ?_, fun h0 => h.fresh r t h0 ht⟩
        rcases h.kept r t0 h0 hc with ⟨t', h1, h2⟩ | h1
        · rw [ht] at h1; cases h1; exact h2
        · exact absurd h1.1 (Nat.lt_irrefl r)
      new := fun {s} h ht => by
        rw [h.response] at ht ⊢
        refine ⟨fun t0 h0 hc => ?_, fun _ => ⟨_, .inl rfl, .inl rfl⟩⟩
        rcases h.kept r t0 h0 hc with ⟨t', h1, h2⟩ | h1
        · rw [ht] at h1; cases h1
        · exact absurd h1.1 (Nat.lt_irrefl r)
      put := fun {s t} h ht => by
        have hs : ∀ k, k ≠ r → (s.txs.set s.txs.response t).get k = s.txs.get k := fun k hk => by
          rw [Txs.get_set, h.response, if_neg hk]
        have hr : (s.txs.set s.txs.response t).get r = some t := by
          rw [Txs.get_set, h.response, if_pos rfl]
        refine ⟨h.response, h.start, fun k t0 h0 hc => ?_, fun k t' h0 h1 => ?_, fun k hk => ?_, h.index⟩
        · show (∃ t', (s.txs.set s.txs.response t).get k = some t' ∧ _) ∨ _ ∧ (s.txs.set s.txs.response t).get k = none ∧ _
          by_cases hk : k = r
          · subst hk
            exact .inl ⟨t, hr, ht.kept t0 h0 hc⟩
          · rw [hs k hk]
            exact h.kept k t0 h0 hc
        · have h1 : (s.txs.set s.txs.response t).get k = some t' := h1
          by_cases hk : k = r
          · subst hk
            rw [hr] at h1
            cases h1
            exact ht.fresh h0
          · rw [hs k hk] at h1
            exact h.fresh k t' h0 h1
        · show (s.txs.set s.txs.response t).get k = _ ∨ (s.txs.set s.txs.response t).get k = none
          rw [hs k (by omega)]
          exact h.later k hk }
  other := fun h hs _ => AskedKept.onTxs e s0 r h hs
  refuse := fun _ h _ _ _ => AskedKept.onTxs e s0 r h rfl
  same := fun {t t'} h hs => by
    refine ⟨fun t0 h0 hc => hs.asked.trans (h.kept t0 h0 hc), fun h0 => ?_⟩
    obtain ⟨u, h1, h2⟩ := h.fresh h0
    refine ⟨u, h1, ?_⟩
    rw [hs.asked]
    exact h2

/-- Since `s0` nothing has changed that belongs to the requests. -/
def Undisturbed (e : Env) (s0 s : Conn) : Prop := AskedKept e s0 s.txs.response s

theorem asked_progress {t t' : Tx} (h : t'.asked = t.asked) : t'.requestProgress = t.requestProgress := by
  have := congrArg Tx.requestProgress h
  exact this

theorem complete_request {t : Tx} (h : t.isComplete = true) : t.requestProgress = .complete := by
  unfold Tx.isComplete at h
  simp only [Bool.and_eq_true, beq_iff_eq] at h
  exact h.1

theorem responseNext_undisturbed (e : Env) (s0 : Conn) (r : Nat) : Leads (AskedKept e s0 r) (Undisturbed e s0) (responseNext e) := by
  intro s h
  have hresp : (responseNext e s).2.txs.response = r + 1 := by
    show (Txs.checkFree e.cfg.txAutoDestroy s.txs s.txs.response).response + 1 = _
    rw [(checkFree_response ..).1, h.response]
  have hget : ∀ k, (responseNext e s).2.txs.get k = (Txs.checkFree e.cfg.txAutoDestroy s.txs r).get k := by
    intro k
    rw [← h.response]
    rfl
  have hreq : (responseNext e s).2.txs.request = s.txs.request := by
    show (Txs.checkFree e.cfg.txAutoDestroy s.txs s.txs.response).request = _
    rw [(checkFree_response ..).2]
  refine ⟨rfl, by rw [hresp]; exact Nat.le_succ_of_le h.start, fun k t0 h0 hcount => ?_, fun k t' h0 h1 => ?_, fun k hk => ?_, ?_⟩
  · rw [hresp, hget]
    rcases get_checkFree_cases e.cfg.txAutoDestroy s.txs r k with hc | ⟨hk, h1, h2, h3⟩
    · rw [hc]
      rcases h.kept k t0 h0 hcount with hl | hr
      · exact .inl hl
      · exact .inr ⟨by omega, hr.2⟩
    · rw [h1]
      subst hk
      rcases h.kept k t0 h0 hcount with ⟨t', h4, h5⟩ | hr
      · right
        exact ⟨by omega, rfl, (asked_progress h5).symm.trans (complete_request (h3 t' h4)), h2⟩
      · exact absurd hr.1 (Nat.lt_irrefl k)
  · rw [hget] at h1
    rcases get_checkFree_cases e.cfg.txAutoDestroy s.txs r k with hc | ⟨hk, h2, -⟩
    · rw [hc] at h1
      exact h.fresh k t' h0 h1
    · rw [h2] at h1; cases h1
  · rw [hresp] at hk
    rw [hget]
    rcases get_checkFree_cases e.cfg.txAutoDestroy s.txs r k with hc | ⟨hk2, h2, -⟩
    · rw [hc]
      exact h.later k (by omega)
    · exact .inr h2
  · rw [hreq, hresp]
    rcases h.index with h1 | ⟨k, h1, h2, h3⟩
    · exact .inl h1
    · exact .inr ⟨k, h1, Nat.le_succ_of_le h2, h3⟩

theorem responseWithoutRequest_undisturbed (e : Env) (s0 : Conn) (r : Nat) (t : Tx) (ht : QuestionKept s0 r t)
    (hn : t.requestProgress = .notStarted) : Keeps (AskedKept e s0 r) Any (responseWithoutRequest e t) := by
  unfold responseWithoutRequest
  refine Keeps.bind (F := Any) (Keeps.putResponse (AskedKept.localResp e s0 r).stable ?_) fun _ _ => ?_
  · refine ⟨fun t0 h0 hc => ?_, fun h0 => ?_⟩
    · exact absurd ((asked_progress (ht.kept t0 h0 hc)).symm.trans hn) hc.1
    · obtain ⟨u, h1, h2⟩ := ht.fresh h0
      refine ⟨u, h1, .inr ?_⟩
      rcases h2 with h2 | h2
      · exact congrArg madeUp h2
      · have := (asked_progress h2).symm.trans hn
        cases this
  · refine Keeps.modify fun s h => ?_
    have hresp : (s.txs.requestNext e.cfg.txAutoDestroy).response = r := by
      show (Txs.checkFree e.cfg.txAutoDestroy s.txs s.txs.request).response = _
      rw [(checkFree_response ..).1, h.response]
    have hget : ∀ k, (s.txs.requestNext e.cfg.txAutoDestroy).get k =
        (Txs.checkFree e.cfg.txAutoDestroy s.txs s.txs.request).get k := fun k => rfl
    generalize s.txs.requestNext e.cfg.txAutoDestroy = x at hresp hget
    refine ⟨hresp, h.start, fun k t0 h0 hcount => ?_, fun k t' h0 h1 => ?_, fun k hk => ?_,
      .inr ⟨r, h.start, Nat.le_refl r, fun t0 h0 => ?_⟩⟩
    · show (∃ t', x.get k = some t' ∧ _) ∨ _ ∧ x.get k = none ∧ _
      rw [hget]
      rcases get_checkFree_cases e.cfg.txAutoDestroy s.txs s.txs.request k with hc | ⟨hk, h1, h2, h3⟩
      · rw [hc]
        exact h.kept k t0 h0 hcount
      · rw [h1]
        rcases h.kept k t0 h0 hcount with ⟨t', h4, h5⟩ | hr
        · have h6 := h3 t' (by rw [← hk]; exact h4)
          rcases Nat.lt_trichotomy k r with hl | he | hg
          · exact .inr ⟨hl, rfl, (asked_progress h5).symm.trans (complete_request h6), h2⟩
          · subst he
            exact absurd ((asked_progress (ht.kept t0 h0 hcount)).symm.trans hn) hcount.1
          · rcases h.later k hg with hs | hs
            · rw [hs, h0] at h4
              cases h4
              have h7 := hcount.2
              rw [h6] at h7
              have h8 := h.start
              rcases h7 with h7 | h7
              · cases h7
              · omega
            · rw [hs] at h4; cases h4
        · exact .inr ⟨hr.1, rfl, hr.2.2⟩
    · have h1 : x.get k = some t' := h1
      rw [hget] at h1
      rcases get_checkFree_cases e.cfg.txAutoDestroy s.txs s.txs.request k with hc | ⟨hk, h2, -⟩
      · rw [hc] at h1
        exact h.fresh k t' h0 h1
      · rw [h2] at h1; cases h1
    · show x.get k = _ ∨ x.get k = none
      rw [hget]
      rcases get_checkFree_cases e.cfg.txAutoDestroy s.txs s.txs.request k with hc | ⟨hk2, h2, -⟩
      · rw [hc]
        exact h.later k hk
      · exact .inr h2
    · by_cases hb : t0.requestProgress = .notStarted
      · exact .inl hb
      · cases hc : t0.isComplete with
        | true => exact .inr rfl
        | false => exact absurd ((asked_progress (ht.kept t0 h0 ⟨hb, .inl hc⟩)).symm.trans hn) hb

theorem undisturbed_walk (e : Env) (s0 : Conn) : RespWalk e (Undisturbed e s0) := fun s hs =>
  ⟨_, _, AskedKept.localResp e s0 s.txs.response, hs, fun s' h' => by
    unfold Undisturbed
    have := h'
    rw [← h'.response] at this
    exact this, responseNext_undisturbed e s0 _, fun t ht hn => responseWithoutRequest_undisturbed e s0 _ t ht hn⟩

theorem undisturbed_onTxs (e : Env) (s0 : Conn) : OnTxs (Undisturbed e s0) := fun {s s'} h hs => by
  unfold Undisturbed
  rw [hs]
  exact AskedKept.onTxs e s0 _ h hs

theorem undisturbed_refl (e : Env) (s0 : Conn) : Undisturbed e s0 s0 :=
  ⟨rfl, Nat.le_refl _, fun _ t h _ => .inl ⟨t, h, rfl⟩, fun _ t _ h => ⟨t, .inr h, .inl rfl⟩, fun _ _ => .inl rfl,
    .inl rfl⟩

/-- The request parser is the same but for its status and its state. -/
def SameReq (s s' : Conn) : Prop :=
  { s'.req with status := .new, state := .none } = { s.req with status := .new, state := .none } ∧
    (s'.req.state = s.req.state ∨ s'.req.state = .finalize)

theorem SameReq.trans {a b c : Conn} (h : SameReq a b) (h' : SameReq b c) : SameReq a c :=
  ⟨h'.1.trans h.1, by
    rcases h'.2 with h2 | h2
    · rw [h2]; exact h.2
    · exact .inr h2⟩

theorem RespFrame.sameReq {s s' : Conn} (h : RespFrame s s') : SameReq s s' :=
  ⟨by rw [h.req.eq], h.req.state⟩

theorem responseData_sameReq (e : Env) (c : PData) (s : Conn) : SameReq s (responseData e c s).2 := by
  rw [responseData_eq]
  split
  · exact ⟨rfl, .inl rfl⟩
  · split
    · exact ⟨rfl, .inl rfl⟩
    · split
      · exact ⟨rfl, .inl rfl⟩
      · split
        · exact ⟨rfl, .inl rfl⟩
        · exact (responseProcess_frame e _).sameReq

/-! ### Sequences of calls -/

theorem requests_unharmed {e : Env} {s0 : Conn} {ops : List Op} (ho : ∀ op ∈ ops, RequestCall op) {s : Conn}
    (h : Unharmed e s0 s ∧ SameResp s0 s) :
    Unharmed e s0 (ops.foldl (Op.after e) s) ∧ SameResp s0 (ops.foldl (Op.after e) s) := by
  induction ops generalizing s with
  | nil => exact h
  | cons op ops ih =>
    refine ih (fun o h => ho o (.tail _ h)) ?_
    have h1 := ho op (.head _)
    cases op with
    | request c =>
      exact ⟨requestData_stays (unharmed_walk e s0) (unharmed_onTxs e s0) _ s h.1, h.2.trans (requestData_sameResp e _ s)⟩
    | requestClose =>
      unfold Op.after Op.run requestClose
      exact ⟨requestData_stays (unharmed_walk e s0) (unharmed_onTxs e s0) _ _ (unharmed_onTxs e s0 h.1 rfl),
        h.2.trans (SameResp.trans (b := (setReq Half.markClosed s).2) ⟨rfl, rfl, rfl, .inl rfl⟩ (requestData_sameResp e _ _))⟩
    | _ => exact h1.elim

theorem responses_undisturbed {e : Env} {s0 : Conn} {ops : List Op} (ho : ∀ op ∈ ops, ResponseCall op) {s : Conn}
    (h : Undisturbed e s0 s ∧ SameReq s0 s) :
    Undisturbed e s0 (ops.foldl (Op.after e) s) ∧ SameReq s0 (ops.foldl (Op.after e) s) := by
  induction ops generalizing s with
  | nil => exact h
  | cons op ops ih =>
    refine ih (fun o h => ho o (.tail _ h)) ?_
    have h1 := ho op (.head _)
    cases op with
    | response c =>
      exact ⟨responseData_stays (undisturbed_walk e s0) (OnTxs.onRequests (undisturbed_onTxs e s0)) _ s h.1, h.2.trans (responseData_sameReq e _ s)⟩
    | _ => exact h1.elim

theorem requests_apart (e : Env) (s : Conn) (ops : List Op) (ho : ∀ op ∈ ops, RequestCall op) :
    ResponsesUntouched e s (ops.foldl (Op.after e) s) := by
  obtain ⟨h1, h2⟩ := requests_unharmed ho (s0 := s) ⟨unharmed_refl e s, .refl s⟩
  refine ⟨fun k t h => ?_, h1.fresh, h2.1, h2.2, h2.3, h2.4⟩
  rcases h1.kept k t h with h3 | h3
  · exact .inl h3
  · exact .inr h3.2

theorem responses_apart (e : Env) (s : Conn) (ops : List Op) (ho : ∀ op ∈ ops, ResponseCall op) :
    RequestsUntouched e s (ops.foldl (Op.after e) s) := by
  obtain ⟨h1, h2⟩ := responses_undisturbed ho (s0 := s) ⟨undisturbed_refl e s, rfl, .inl rfl⟩
  refine ⟨fun k t h hb hc => ?_, h1.fresh, h1.index, h2⟩
  rcases h1.kept k t h ⟨hb, hc⟩ with h3 | h3
  · exact .inl h3
  · exact .inr h3.2

end Model
