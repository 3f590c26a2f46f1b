/-
What the response side does to the request parser.
-/
import Verif.Lemmas.Isolation
import Verif.Spec.Expect

namespace Model

open M Spec

/-- Some request that was not answered at `s0`, and is one of those up to the `r`-th, waits for permission. -/
def SomeoneWaits (s0 : Conn) (r : Nat) : Prop :=
  ∃ k t, s0.txs.response ≤ k ∧ k ≤ r ∧ s0.txs.get k = some t ∧ Expects t

theorem SomeoneWaits.mono {s0 : Conn} {r r' : Nat} (h : SomeoneWaits s0 r) (hr : r ≤ r') : SomeoneWaits s0 r' :=
  let ⟨k, t, h1, h2, h3⟩ := h
  ⟨k, t, h1, Nat.le_trans h2 hr, h3⟩

/-- Since `s0` the request parser has been left alone unless there was a reason; `r` is the current response. -/
structure LeftAlone (s0 : Conn) (r : Nat) (s : Conn) : Prop where
  response : s.txs.response = r
  start : s0.txs.response ≤ r
  parser : ParserKept s0.req s.req ∨ ParserEnded s0.req s.req ∧ WholeBodyAhead s0.req ∧ SomeoneWaits s0 r
  waits : ∀ k t, s0.txs.response ≤ k → s.txs.get k = some t → Expects t → ∃ t0, s0.txs.get k = some t0 ∧ Expects t0

theorem not_expects_new (i : Nat) : ¬ Expects { index := i } := by
  rintro ⟨h, h1, -⟩
  cases h1

theorem expects_of_same {t t' : Tx} (h : t'.asked = t.asked) (h' : Expects t') : Expects t := by
  have h1 := congrArg Tx.requestHeaders h
  have : t'.requestHeaders = t.requestHeaders := h1
  unfold Expects at *
  rwa [this] at h'

theorem parserKept_lengths {h h' : Half} (hp : ParserKept h h') : h'.contentLength = h.contentLength ∧ h'.bodyDataLeft = h.bodyDataLeft := by
  have h1 := congrArg Half.contentLength hp
  have h2 := congrArg Half.bodyDataLeft hp
  exact ⟨h1, h2⟩

theorem parserKept_state {h h' : Half} (hp : ParserKept h h') : h'.state = h.state := by
  have h1 := congrArg Half.state hp
  exact h1

theorem parserEnded_of_kept {h h' : Half} (hp : ParserKept h h') : ParserEnded h { h' with state := .finalize } :=
  ⟨congrArg (fun x : Half => { x with state := .none }) hp, rfl⟩

theorem parserEnded_kept {h h' h'' : Half} (hp : ParserEnded h h') (hk : ParserKept h' h'') : ParserEnded h h'' :=
  ⟨(congrArg (fun x : Half => { x with state := .none }) hk).trans hp.1, (congrArg Half.state hk).trans hp.2⟩

theorem LeftAlone.localResp (s0 : Conn) (r : Nat) :
    RespLocal (LeftAlone s0 r) (fun t => Expects t → ∃ t0, s0.txs.get r = some t0 ∧ Expects t0) where
  stable :=
    { get := fun {s t} h ht => by
        rw [h.response] at ht
        exact h.waits r t h.start ht
      new := fun _ _ h1 => absurd h1 (not_expects_new _)
      put := fun {s t} h ht => by
        refine ⟨h.response, h.start, h.parser, fun k t' hk hg => ?_⟩
        have hg : (s.txs.set s.txs.response t).get k = some t' := hg
        rw [Txs.get_set, h.response] at hg
        split at hg
        next hkr => cases hg; rw [hkr]; exact ht
        · exact h.waits k t' hk hg }
  other := fun {s s'} h hs hk => by
    refine ⟨by rw [hs]; exact h.response, h.start, ?_, by rw [hs]; exact h.waits⟩
    rcases h.parser with h1 | ⟨h1, h2⟩
    · exact .inl (Eq.trans hk h1)
    · exact .inr ⟨parserEnded_kept h1 hk, h2⟩
  refuse := fun {s s' t} h h' ht hw he => by
    refine ⟨h'.response, h'.start, .inr ⟨?_, ?_, ?_⟩, h'.waits⟩
    · rcases h'.parser with h1 | ⟨h1, -⟩
      · exact parserEnded_of_kept h1
      · exact ⟨h1.1, rfl⟩
    · rcases h.parser with h1 | ⟨-, h1, -⟩
      · have := parserKept_lengths h1
        unfold WholeBodyAhead at *
        rw [← this.1, ← this.2]
        exact hw
      · exact h1
    · obtain ⟨t0, h1, h2⟩ := ht he
      exact ⟨r, t0, h.start, Nat.le_refl r, h1, h2⟩
  same := fun h hs he => h (expects_of_same hs.asked he)

/-- Since `s0` the request parser has been left alone unless there was a reason. -/
def Alone (s0 s : Conn) : Prop := LeftAlone s0 s.txs.response s

theorem alone_checkFree {s0 s : Conn} {a : Bool} {k : Nat}
    (h : ∀ k t, s0.txs.response ≤ k → s.txs.get k = some t → Expects t → ∃ t0, s0.txs.get k = some t0 ∧ Expects t0) :
    ∀ j t, s0.txs.response ≤ j → (Txs.checkFree a s.txs k).get j = some t → Expects t → ∃ t0, s0.txs.get j = some t0 ∧ Expects t0 := by
  intro j t hj hg
  rcases get_checkFree_cases a s.txs k j with hc | ⟨-, h1, -⟩
  · rw [hc] at hg
    exact h j t hj hg
  · rw [h1] at hg
    cases hg

theorem alone_walk (e : Env) (s0 : Conn) : RespWalk e (Alone s0) := fun s hs =>
  ⟨_, _, LeftAlone.localResp s0 s.txs.response, hs, fun s' h' => by
    unfold Alone
    have := h'
    rw [← h'.response] at this
    exact this, fun s' h' => by
    refine ⟨rfl, ?_, ?_, alone_checkFree h'.waits⟩
    · show s0.txs.response ≤ (Txs.checkFree e.cfg.txAutoDestroy s'.txs s'.txs.response).response + 1
      rw [(checkFree_response ..).1, h'.response]
      exact Nat.le_succ_of_le h'.start
    · rcases h'.parser with h1 | ⟨h1, h2, h3⟩
      · exact .inl h1
      · refine .inr ⟨h1, h2, h3.mono ?_⟩
        show _ ≤ (Txs.checkFree e.cfg.txAutoDestroy s'.txs s'.txs.response).response + 1
        rw [(checkFree_response ..).1, h'.response]
        exact Nat.le_succ _, fun t ht hn => by
    unfold responseWithoutRequest
    refine Keeps.bind (F := Any) (Keeps.putResponse (LeftAlone.localResp s0 _).stable ht) fun _ _ => ?_
    refine Keeps.modify fun s' h' => ⟨?_, h'.start, h'.parser, alone_checkFree h'.waits⟩
    show (Txs.checkFree e.cfg.txAutoDestroy s'.txs s'.txs.request).response = _
    rw [(checkFree_response ..).1, h'.response]⟩

theorem alone_onRequests (s0 : Conn) : OnRequests (Alone s0) := fun {s s'} h hs hk => by
  unfold Alone
  rw [hs]
  exact (LeftAlone.localResp s0 _).other h hs hk

theorem alone_refl (s : Conn) : Alone s s := ⟨rfl, Nat.le_refl _, .inl rfl, fun _ t _ h h' => ⟨t, h, h'⟩⟩

theorem responses_alone {e : Env} {s0 : Conn} {ops : List Op} (ho : ∀ op ∈ ops, ResponseCall op) {s : Conn} (h : Alone s0 s) :
    Alone s0 (ops.foldl (Op.after e) s) := by
  induction ops generalizing s with
  | nil => exact h
  | cons op ops ih =>
    refine ih (fun o h => ho o (.tail _ h)) ?_
    have h1 := ho op (.head _)
    cases op with
    | response c => exact responseData_stays (alone_walk e s0) (alone_onRequests s0) _ s h
    | _ => exact h1.elim

end Model
