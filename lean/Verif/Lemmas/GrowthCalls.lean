/-
A transaction that is not removed is there after any calls, and nothing observed of it has been taken back.
-/
import Verif.Lemmas.Isolation

namespace Model

open M Spec

theorem _root_.Spec.Later.refl (t : Tx) : Later t t := ⟨rfl, Raised.refl _, id, id⟩

theorem _root_.Spec.Later.trans {a b c : Tx} (h : Later a b) (h' : Later b c) : Later a c :=
  ⟨h'.1.trans h.1, h.2.trans h'.2, fun x => h'.3 (h.3 x), fun x => h'.4 (h.4 x)⟩

theorem ReqWrite.later {t t' : Tx} (h : ReqWrite t t') : Later t t' := by
  have h1 : responseSide t' = responseSide t := congrArg Prod.snd h.answer
  refine ⟨congrArg Prod.fst h.answer, h.flags, fun h2 => ?_, fun h2 => ?_⟩
  · have : t'.seen100Continue = t.seen100Continue := by
      have := congrArg Tx.seen100Continue h1
      exact this
    rw [this]; exact h2
  · have : t'.isHttp2Upgrade = t.isHttp2Upgrade := by
      have := congrArg Tx.isHttp2Upgrade h1
      exact this
    rw [this]; exact h2

theorem RespWrite.later {t t' : Tx} (h : RespWrite t t') : Later t t' :=
  ⟨by have := congrArg Tx.index h.asked; exact this, h.flags, h.interim, h.upgrade⟩

section
variable {k : Nat} {t0 : Tx}

/-- What is known of the current transaction of one side, when its index is `r`. -/
def LaterAt (k r : Nat) (t0 t : Tx) : Prop := k = r → Later t0 t

theorem survives_onTxs (k : Nat) (t0 : Tx) : OnTxs (Survives k t0) := fun {s s'} h hs => by
  unfold Survives
  rw [hs]
  exact h

theorem Survives.put {s : Conn} {t : Tx} {r : Nat} (h : Survives k t0 s) (ht : LaterAt k r t0 t) :
    Survives k t0 { s with txs := s.txs.set r t } := by
  show ∃ t', (s.txs.set r t).get k = some t' ∧ _
  rw [Txs.get_set]
  by_cases hk : k = r
  · rw [if_pos hk]; exact ⟨t, rfl, ht hk⟩
  · rw [if_neg hk]; exact h

/-- The transaction survives while request `r` is the current one. -/
def ReqHas (k r : Nat) (t0 : Tx) (s : Conn) : Prop := s.txs.request = r ∧ Survives k t0 s

/-- The transaction survives while response `r` is the current one. -/
def RespHas (k r : Nat) (t0 : Tx) (s : Conn) : Prop := s.txs.response = r ∧ Survives k t0 s

theorem ReqHas.localReq (k r : Nat) (t0 : Tx) : ReqLocal (ReqHas k r t0) (LaterAt k r t0) where
  stable :=
    { get := fun {s t} h ht hk => by
        obtain ⟨h1, t', h2, h3⟩ := h
        rw [h1, ← hk, h2] at ht
        cases ht
        exact h3
      new := fun {s} h ht hk => by
        obtain ⟨h1, t', h2, h3⟩ := h
        rw [h1, ← hk, h2] at ht
        cases ht
      put := fun {s t} h ht => ⟨h.1, by rw [h.1]; exact Survives.put h.2 ht⟩ }
  other := fun {s s'} h hs => ⟨by rw [hs]; exact h.1, survives_onTxs k t0 h.2 hs⟩
  same := fun {t t'} h hs hk => (h hk).trans hs.later

theorem RespHas.localResp (k r : Nat) (t0 : Tx) : RespLocal (RespHas k r t0) (LaterAt k r t0) where
  stable :=
    { get := fun {s t} h ht hk => by
        obtain ⟨h1, t', h2, h3⟩ := h
        rw [h1, ← hk, h2] at ht
        cases ht
        exact h3
      new := fun {s} h ht hk => by
        obtain ⟨h1, t', h2, h3⟩ := h
        rw [h1, ← hk, h2] at ht
        cases ht
      put := fun {s t} h ht => ⟨h.1, by rw [h.1]; exact Survives.put h.2 ht⟩ }
  other := fun {s s'} h hs _ => ⟨by rw [hs]; exact h.1, survives_onTxs k t0 h.2 hs⟩
  refuse := fun _ h _ _ _ => ⟨h.1, survives_onTxs k t0 h.2 rfl⟩
  same := fun {t t'} h hs hk => (h hk).trans hs.later

theorem survives_reqWalk {e : Env} (he : e.cfg.txAutoDestroy = false) (k : Nat) (t0 : Tx) : ReqWalk e (Survives k t0) :=
  fun s hs => ⟨_, _, ReqHas.localReq k s.txs.request t0, ⟨rfl, hs⟩, fun _ h => h.2, fun s' h => by
    show ∃ t', (s'.txs.requestNext e.cfg.txAutoDestroy).get k = some t' ∧ _
    rw [he]
    exact h.2⟩

theorem survives_respWalk {e : Env} (he : e.cfg.txAutoDestroy = false) (k : Nat) (t0 : Tx) : RespWalk e (Survives k t0) :=
  fun s hs => ⟨_, _, RespHas.localResp k s.txs.response t0, ⟨rfl, hs⟩, fun _ h => h.2, fun s' h => by
    show ∃ t', (s'.txs.responseNext e.cfg.txAutoDestroy).get k = some t' ∧ _
    rw [he]
    exact h.2, fun t ht _ => by
    unfold responseWithoutRequest
    refine Keeps.bind (F := Any) (Keeps.putResponse (RespHas.localResp k s.txs.response t0).stable ?_) fun _ _ => ?_
    · exact fun hk => (ht hk).trans ⟨rfl, Raised.refl _, id, id⟩
    · refine Keeps.modify fun s' h => ?_
      refine ⟨?_, ?_⟩
      · show (s'.txs.requestNext e.cfg.txAutoDestroy).response = _
        rw [he]; exact h.1
      · show ∃ t', (s'.txs.requestNext e.cfg.txAutoDestroy).get k = some t' ∧ _
        rw [he]; exact h.2⟩

theorem survives_entry {s : Conn} (h : Survives k t0 s) (n r : Nat) : Survives k t0 { s with txs := (s.txs.entry n r).2 } := by
  unfold Txs.entry
  cases hg : s.txs.get r with
  | some t => exact h
  | none =>
    dsimp only
    split
    · exact h
    · refine Survives.put h fun hk => ?_
      obtain ⟨t', h1, -⟩ := h
      rw [hk, hg] at h1
      cases h1

theorem op_survives {e : Env} (he : e.cfg.txAutoDestroy = false) {s : Conn} (op : Op) (ho : op ≠ .removeTx k)
    (h : Survives k t0 s) : Survives k t0 (op.after e s) := by
  have hreq : ∀ c s, Survives k t0 s → Survives k t0 (requestData e c s).2 := fun c s h =>
    requestData_stays (survives_reqWalk he k t0) (survives_onTxs k t0) c s h
  have hresp : ∀ c s, Survives k t0 s → Survives k t0 (responseData e c s).2 := fun c s h =>
    responseData_stays (survives_respWalk he k t0) (OnTxs.onRequests (survives_onTxs k t0)) c s h
  have other : ∀ {s s' : Conn}, Survives k t0 s → s'.txs = s.txs → Survives k t0 s' := survives_onTxs k t0
  cases op with
  | «open» =>
    refine other h ?_
    show (if _ then s else _).txs = _
    split <;> rfl
  | request c => exact hreq _ _ h
  | response c => exact hresp _ _ h
  | requestClose => exact hreq _ _ (other h rfl)
  | close =>
    have hk : Rel (Stays (Survives k t0)) (closeConn e) := by
      unfold closeConn
      refine Rel.bind Stays.pre (fun s h => other h rfl) fun _ => ?_
      refine Rel.bind Stays.pre (fun s h => hreq _ s h) fun _ => ?_
      refine Rel.bind Stays.pre (fun s h => hresp _ s h) fun _ => ?_
      refine Rel.bind Stays.pre (Rel.state Stays.pre) fun s => ?_
      refine Rel.bind Stays.pre ?_ fun _ => Rel.pure Stays.pre
      refine Rel.when Stays.pre ?_
      generalize s.txs.incomplete = l
      induction l with
      | nil => exact Rel.pure Stays.pre
      | cons i l ih =>
        refine Rel.bind Stays.pre ?_ fun _ => ih
        unfold flushOne
        refine Rel.bind Stays.pre (Rel.attempt ?_) fun _ => ?_
        · unfold runTxHook
          refine Rel.bind Stays.pre (Rel.state Stays.pre) fun s => ?_
          refine Rel.when Stays.pre fun s h => ?_
          refine other h ?_
          unfold emit
          cases e.hook s.trace _ <;> rfl
        · rw [he]; exact Rel.pure Stays.pre
    have := (Rel.bind Stays.pre hk fun _ => Rel.pure Stays.pre (a := (none : Option StreamState))) s h
    exact this
  | removeTx i =>
    have hi : i ≠ k := fun hi => ho (by rw [hi])
    show ∃ t', (s.txs.remove i).get k = some t' ∧ _
    rw [Txs.get_remove, if_neg (Ne.symm hi)]
    exact h
  | askRequest => exact survives_entry h _ _
  | askResponse => exact survives_entry h _ _

theorem ops_survive {e : Env} (he : e.cfg.txAutoDestroy = false) (ops : List Op) : ∀ {s : Conn},
    .removeTx k ∉ ops → Survives k t0 s → Survives k t0 (ops.foldl (Op.after e) s) := by
  induction ops with
  | nil => exact fun _ h => h
  | cons op ops ih =>
    intro s ho h
    simp only [List.mem_cons, not_or] at ho
    exact ih ho.2 (op_survives he op (fun he => ho.1 he.symm) h)

end

end Model
