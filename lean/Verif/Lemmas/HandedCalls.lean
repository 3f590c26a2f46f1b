/-
The recorded lengths of the bodies and the data handed out agree after any calls.
-/
import Verif.Lemmas.HandedReqCalls
import Verif.Lemmas.HandedRespCalls
import Verif.Lemmas.OwnCalls
import Verif.Lemmas.OwnRespCalls
import Verif.Lemmas.GrowthCalls

namespace Model

open M Spec

/-- The length that `len` reads off transaction `k` is `n`. -/
def HasLen (len : Tx → Nat) (k n : Nat) (s : Conn) : Prop :=
  (∀ t, s.txs.get k = some t → len t = n) ∧ (s.txs.get k = none → n = 0)

section
variable {len : Tx → Nat} {k n r : Nat} {e : Env}

theorem HasLen.onTxs : OnTxs (HasLen len k n) := fun {s s'} h hs => by
  unfold HasLen
  rw [hs]
  exact h

theorem HasLen.put {s : Conn} {t : Tx} (h : HasLen len k n s) (ht : k = r → len t = n) :
    HasLen len k n { s with txs := s.txs.set r t } := by
  refine ⟨fun u hu => ?_, fun hu => ?_⟩
  · have hu' : (s.txs.set r t).get k = some u := hu
    rw [Txs.get_set] at hu'
    split at hu'
    · next hk => cases hu'; exact ht hk
    · exact h.1 u hu'
  · have hu' : (s.txs.set r t).get k = none := hu
    rw [Txs.get_set] at hu'
    split at hu'
    · cases hu'
    · exact h.2 hu'

theorem hasLen_reqLocal (h0 : ∀ i, len { index := i } = 0) (hw : ∀ {t t'}, ReqWrite t t' → len t' = len t) :
    ReqLocal (fun s => s.txs.request = r ∧ HasLen len k n s) (fun t => k = r → len t = n) where
  stable :=
    { get := fun {s t} h ht hk => h.2.1 t (by rw [hk, ← h.1]; exact ht)
      new := fun {s} h ht hk => (h0 _).trans (h.2.2 (by rw [hk, ← h.1]; exact ht)).symm
      put := fun {s t} h ht => ⟨h.1, by rw [h.1]; exact h.2.put ht⟩ }
  other := fun {s s'} h hs => ⟨by rw [hs]; exact h.1, HasLen.onTxs h.2 hs⟩
  same := fun {t t'} h hs hk => (hw hs).trans (h hk)

theorem hasLen_respLocal (h0 : ∀ i, len { index := i } = 0) (hw : ∀ {t t'}, RespWrite t t' → len t' = len t) :
    RespLocal (fun s => s.txs.response = r ∧ HasLen len k n s) (fun t => k = r → len t = n) where
  stable :=
    { get := fun {s t} h ht hk => h.2.1 t (by rw [hk, ← h.1]; exact ht)
      new := fun {s} h ht hk => (h0 _).trans (h.2.2 (by rw [hk, ← h.1]; exact ht)).symm
      put := fun {s t} h ht => ⟨h.1, by rw [h.1]; exact h.2.put ht⟩ }
  other := fun {s s'} h hs _ => ⟨by rw [hs]; exact h.1, HasLen.onTxs h.2 hs⟩
  refuse := fun _ h _ _ _ => ⟨h.1, HasLen.onTxs h.2 rfl⟩
  same := fun {t t'} h hs hk => (hw hs).trans (h hk)

theorem hasLen_requestNext (he : e.cfg.txAutoDestroy = false) {s : Conn} (h : HasLen len k n s) :
    HasLen len k n { s with txs := s.txs.requestNext e.cfg.txAutoDestroy } := by
  rw [he]; exact h

theorem hasLen_responseNext (he : e.cfg.txAutoDestroy = false) {s : Conn} (h : HasLen len k n s) :
    HasLen len k n { s with txs := s.txs.responseNext e.cfg.txAutoDestroy } := by
  rw [he]; exact h

theorem hasLen_reqWalk (he : e.cfg.txAutoDestroy = false) (h0 : ∀ i, len { index := i } = 0)
    (hw : ∀ {t t'}, ReqWrite t t' → len t' = len t) : ReqWalk e (HasLen len k n) :=
  fun s hs => ⟨_, _, hasLen_reqLocal h0 hw, ⟨rfl, hs⟩, fun _ h => h.2, fun _ h => hasLen_requestNext he h.2⟩

theorem hasLen_respWalk (he : e.cfg.txAutoDestroy = false) (h0 : ∀ i, len { index := i } = 0)
    (hw : ∀ {t t'}, RespWrite t t' → len t' = len t)
    (hm : ∀ {t t' : Tx}, t' = { t with
      requestUri := some (b! "/libhtp::request_uri_not_seen")
      parsedUri := some { path := some (b! "/libhtp::request_uri_not_seen") }
      requestProgress := .complete } → len t' = len t) : RespWalk e (HasLen len k n) :=
  fun s hs => ⟨_, _, hasLen_respLocal h0 hw, ⟨rfl, hs⟩, fun _ h => h.2, fun _ h => hasLen_responseNext he h.2, fun t ht _ => by
    unfold responseWithoutRequest
    refine Keeps.bind (F := Any) (Keeps.putResponse (hasLen_respLocal h0 hw).stable ?_) fun _ _ => ?_
    · exact fun hk => (hm rfl).trans (ht hk)
    · refine Keeps.modify fun s' h => ⟨?_, hasLen_requestNext he h.2⟩
      show (s'.txs.requestNext e.cfg.txAutoDestroy).response = _
      rw [he]; exact h.1⟩

end

/-! ### The other side -/

theorem handed_quiet {h : DataHook} {k : Nat} {evs : List Event} (hq : ∀ ev ∈ evs, handedBy h k ev = 0) : handed h k evs = 0 := by
  unfold handed
  induction evs with
  | nil => rfl
  | cons ev evs ih =>
    rw [List.map_cons, List.sum_cons, hq ev (by simp), ih fun x hx => hq x (by simp [hx])]

theorem handed_requestEvent {k i : Nat} {ev : Event} (h : requestCallback ev = some i) : handedBy .responseBodyDataTx k ev = 0 := by
  cases ev with
  | tx _ _ => rfl
  | data h' j d =>
    refine if_neg fun hc => ?_
    rw [hc.1] at h
    cases h

theorem handed_responseEvent {k i : Nat} {ev : Event} (h : responseCallback ev = some i) : handedBy .requestBodyDataTx k ev = 0 := by
  cases ev with
  | tx _ _ => rfl
  | data h' j d =>
    refine if_neg fun hc => ?_
    rw [hc.1] at h
    cases h

section
variable {k : Nat} {e : Env}

/-- What is known of transaction `k`. -/
structure LensTrue (k : Nat) (s : Conn) : Prop where
  base : Base s
  req : ReqTrue k s
  resp : RespTrue k s

theorem requestData_lensTrue (he : e.cfg.txAutoDestroy = false) (c : PData) : Rel (Stays (LensTrue k)) (requestData e c) := by
  intro s h
  have h0 : OwnReqs s.trace s.txs.request s := ⟨rfl, Nat.le_refl _, h.base, [], by simp, by simp⟩
  have h1 := requestData_owns e c s h0
  refine ⟨h1.base, requestData_counts he c s h.req, ?_⟩
  obtain ⟨r, n, h2⟩ := h.resp
  have h3 := requestData_sameResp e c s
  have h4 : HasLen Tx.responseEntityLen k n (requestData e c s).2 :=
    requestData_stays (hasLen_reqWalk he (fun _ => rfl) fun hw => by
      have := congrArg (fun x => x.2.responseEntityLen) hw.answer
      exact this) HasLen.onTxs c s ⟨h2.even.1, h2.even.2⟩
  refine ⟨r, n, h3.index.trans h2.index, ?_, h4.1, h4.2, ?_⟩
  · have := congrArg Half.receiver h3.machine
    rw [show (requestData e c s).2.resp.receiver = s.resp.receiver from this]
    exact h2.receiver
  · obtain ⟨evs, h5, h6⟩ := h1.events
    rw [h5, handed_append, handed_quiet (evs := evs) fun ev hev => by
      obtain ⟨i, hi, -⟩ := h6 ev hev
      exact handed_requestEvent hi]
    exact h2.even.3

theorem responseData_lensTrue (he : e.cfg.txAutoDestroy = false) (c : PData) : Rel (Stays (LensTrue k)) (responseData e c) := by
  intro s h
  have h0 : OwnResps s.trace s.txs.response s := ⟨rfl, Nat.le_refl _, h.base, [], by simp, by simp⟩
  have h1 := responseData_owns (e := e) c s h0
  refine ⟨h1.base, ?_, responseData_counts he c s h.resp⟩
  obtain ⟨r, n, h2⟩ := h.req
  have h3 := responseData_sameReq e c s
  have h4 : HasLen Tx.requestEntityLen k n (responseData e c s).2 :=
    responseData_stays (hasLen_respWalk he (fun _ => rfl) (fun hw => by
      have := congrArg Tx.requestEntityLen hw.asked
      exact this) fun h => by rw [h]) (OnTxs.onRequests HasLen.onTxs) c s ⟨h2.even.1, h2.even.2⟩
  refine ⟨(responseData e c s).2.txs.request, n, rfl, ?_, h4.1, h4.2, ?_⟩
  · have := congrArg Half.receiver h3.1
    rw [show (responseData e c s).2.req.receiver = s.req.receiver from this]
    exact h2.receiver
  · obtain ⟨evs, h5, h6⟩ := h1.events
    rw [h5, handed_append, handed_quiet (evs := evs) fun ev hev => by
      obtain ⟨i, hi, -⟩ := h6 ev hev
      exact handed_responseEvent hi]
    exact h2.even.3

theorem LensTrue.other {s s' : Conn} (h : LensTrue k s) (h1 : s'.txs = s.txs) (h2 : s'.trace = s.trace)
    (h3 : s'.resp.receiver = s.resp.receiver) (h4 : s'.req.receiver = s.req.receiver) : LensTrue k s' := by
  refine ⟨⟨?_, ?_, ?_⟩, h.req.other h1 h2 h4, h.resp.other h1 h2 h3⟩
  · rw [h1]; exact h.base.1
  · intro x hx; exact h.base.2 x (by rw [← h3]; exact hx)
  · intro x hx; exact h.base.3 x (by rw [← h4]; exact hx)

theorem LensTrue.emitTx {s : Conn} {hook : TxHook} {i : Nat} (h : LensTrue k s) :
    LensTrue k { s with trace := s.trace ++ [.tx hook i] } := by
  obtain ⟨hb, ⟨r, n, hq⟩, r', n', hp⟩ := h
  exact ⟨⟨hb.1, hb.2, hb.3⟩, ⟨r, n, hq.emit rfl⟩, r', n', hp.emit rfl⟩

theorem LensTrue.entry {s : Conn} (h : LensTrue k s) (m i : Nat) : LensTrue k { s with txs := (s.txs.entry m i).2 } := by
  unfold Txs.entry
  cases hg : s.txs.get i with
  | some t => exact h
  | none =>
    dsimp only
    split
    · exact h
    · obtain ⟨hb, ⟨r, n, hq⟩, r', n', hp⟩ := h
      refine ⟨⟨?_, hb.2, hb.3⟩, ⟨r, n, hq.1, hq.2, hq.3.put fun hk => ?_⟩, r', n', hp.1, hp.2, hp.3.put fun hk => ?_⟩
      · intro j u hu
        have hu' : (s.txs.set i _).get j = some u := hu
        rw [Txs.get_set] at hu'
        split at hu'
        · next hj => cases hu'; exact hj.symm
        · exact hb.1 j u hu'
      · exact (hq.3.2 (by rw [hk]; exact hg)).symm
      · exact (hp.3.2 (by rw [hk]; exact hg)).symm

theorem op_lensTrue (he : e.cfg.txAutoDestroy = false) {s : Conn} (op : Op) (ho : op ≠ .removeTx k) (h : LensTrue k s) :
    LensTrue k (op.after e s) := by
  have hreq : ∀ c s, LensTrue k s → LensTrue k (requestData e c s).2 := fun c s h => requestData_lensTrue he c s h
  have hresp : ∀ c s, LensTrue k s → LensTrue k (responseData e c s).2 := fun c s h => responseData_lensTrue he c s h
  cases op with
  | «open» =>
    show LensTrue k (if _ then s else _)
    split
    · exact h
    · exact h.other rfl rfl rfl rfl
  | request c => exact hreq _ _ h
  | response c => exact hresp _ _ h
  | requestClose => exact hreq _ _ (h.other rfl rfl rfl rfl)
  | close =>
    have hk : Rel (Stays (LensTrue k)) (closeConn e) := by
      unfold closeConn
      refine Rel.bind Stays.pre (fun s h => h.other rfl rfl rfl rfl) fun _ => ?_
      refine Rel.bind Stays.pre (fun s h => hreq _ s h) fun _ => ?_
      refine Rel.bind Stays.pre (fun s h => hresp _ s h) fun _ => ?_
      refine Rel.bind Stays.pre (Rel.state Stays.pre) fun s => ?_
      refine Rel.bind Stays.pre ?_ fun _ => Rel.pure Stays.pre
      refine Rel.when Stays.pre ?_
      generalize s.txs.incomplete = l
      induction l with
      | nil => exact Rel.pure Stays.pre
      | cons i l ih =>
        refine Rel.bind Stays.pre ?_ fun _ => ih
        unfold flushOne
        refine Rel.bind Stays.pre (Rel.attempt ?_) fun _ => ?_
        · unfold runTxHook
          refine Rel.bind Stays.pre (Rel.state Stays.pre) fun s => ?_
          refine Rel.when Stays.pre fun s h => ?_
          rw [emit_snd]
          exact h.emitTx
        · rw [he]; exact Rel.pure Stays.pre
    have := (Rel.bind Stays.pre hk fun _ => Rel.pure Stays.pre (a := (none : Option StreamState))) s h
    exact this
  | removeTx i =>
    have hi : i ≠ k := fun hi => ho (by rw [hi])
    have hg : (s.txs.remove i).get k = s.txs.get k := by rw [Txs.get_remove, if_neg (Ne.symm hi)]
    obtain ⟨hb, ⟨r, n, hq⟩, r', n', hp⟩ := h
    refine ⟨⟨?_, hb.2, hb.3⟩, ⟨r, n, hq.1, hq.2, ?_, ?_, hq.3.3⟩, r', n', hp.1, hp.2, ?_, ?_, hp.3.3⟩
    · intro j u hu
      have hu' : (s.txs.remove i).get j = some u := hu
      rw [Txs.get_remove] at hu'
      split at hu'
      · cases hu'
      · exact hb.1 j u hu'
    · intro t ht; exact hq.3.1 t (hg ▸ ht)
    · intro ht; exact hq.3.2 (hg ▸ ht)
    · intro t ht; exact hp.3.1 t (hg ▸ ht)
    · intro ht; exact hp.3.2 (hg ▸ ht)
  | askRequest => exact h.entry _ _
  | askResponse => exact h.entry _ _

theorem ops_lensTrue (he : e.cfg.txAutoDestroy = false) (ops : List Op) : ∀ {s : Conn},
    .removeTx k ∉ ops → LensTrue k s → LensTrue k (ops.foldl (Op.after e) s) := by
  induction ops with
  | nil => exact fun _ h => h
  | cons op ops ih =>
    intro s ho h
    simp only [List.mem_cons, not_or] at ho
    exact ih ho.2 (op_lensTrue he op (fun he => ho.1 he.symm) h)

theorem new_lensTrue (k : Nat) : LensTrue k {} :=
  ⟨new_side.base, ⟨0, 0, rfl, by simp, (by intro t h; cases h), fun _ => rfl, rfl⟩,
    0, 0, rfl, by simp, (by intro t h; cases h), fun _ => rfl, rfl⟩

end

end Model
