/-
The decision how a response body is framed.
-/
import Verif.Spec.Framing
import Verif.Lemmas.ConnIdentity
import Verif.Lemmas.Flags
import Verif.Props.RequestHeaders

namespace Model

open M Spec

/-- The response transaction is now `t`; the input and the callbacks are as before. -/
structure RespAt (s : Conn) (t : Tx) (s' : Conn) : Prop where
  response : s'.txs.response = s.txs.response
  here : s'.txs.get s'.txs.response = some t
  trace : s'.trace = s.trace
  input : s'.input = s.input

theorem TxStep.respAt {t : Tx} {s s' : Conn} (h : TxStep s.txs.response t [] s s') : RespAt s t s' :=
  ⟨h.response, by rw [h.response]; exact h.here, by rw [h.trace]; simp, h.input⟩

theorem RespAt.trans {t t' : Tx} {s s' s'' : Conn} (h : RespAt s t s') (h' : RespAt s' t' s'') : RespAt s t' s'' :=
  ⟨h'.1.trans h.1, h'.2, h'.3.trans h.3, h'.4.trans h.4⟩

theorem modifyResponse_at (e : Env) (f : Tx → Tx) {s : Conn} {t : Tx} (ht : s.txs.get s.txs.response = some t) :
    ∃ s', modifyResponse e f s = (.ok (), s') ∧ RespAt s (f t) s' ∧ s'.resp = s.resp ∧ s'.req = s.req := by
  unfold modifyResponse
  rw [M.bind_ok (responseTx_some ht)]
  obtain ⟨s1, h1, k1⟩ := putResponse_step (f t) s
  exact ⟨s1, h1, k1.respAt, k1.resp, k1.req⟩

theorem putResponse_at (t : Tx) (s : Conn) :
    ∃ s', putResponse t s = (.ok (), s') ∧ RespAt s t s' ∧ s'.resp = s.resp ∧ s'.req = s.req := by
  obtain ⟨s1, h1, k1⟩ := putResponse_step t s
  exact ⟨s1, h1, k1.respAt, k1.resp, k1.req⟩

theorem inRange_iff {t : Tx} {lo hi : Nat} : t.responseStatusNumber.inRange lo hi = true ↔ Code t lo hi := by
  unfold ResponseNumber.inRange Code
  cases t.responseStatusNumber <;> simp

theorem eqNum_iff {t : Tx} {n : Nat} : t.responseStatusNumber.eqNum n = true ↔ Code t n n := by
  unfold ResponseNumber.eqNum Code
  cases t.responseStatusNumber with
  | valid m => simp; omega
  | unknown => simp
  | invalid => simp

theorem code_of_eq {t t' : Tx} {lo hi : Nat} (h : t'.responseStatusNumber = t.responseStatusNumber) :
    Code t' lo hi ↔ Code t lo hi := by unfold Code; rw [h]

theorem isSome_mentions {v w : Bytes} (hw : w ≠ []) : (indexOfNocaseNozero v w).isSome = true ↔ Mentions v w := by
  have := Props.C03_index_of_nocase_nozero_isSome v w
  simp only [ne_eq, hw, not_false_eq_true, true_and] at this
  exact this

theorem occursAt_lower {v w : Bytes} {i : Nat} : OccursAt (lowerAll v) w i ↔ OccursAt v w i := by
  have hl : ∀ c d, SameNocase (lower c) d ↔ SameNocase c d := by
    intro c d
    rw [← lower_eq_iff, ← lower_eq_iff]
    have : lower (lower c) = lower c := by revert c; decide +kernel
    rw [this]
  unfold OccursAt lowerAll
  simp [hl]

theorem typeText (v : Bytes) :
    withoutParameters v = v.takeWhile fun c => c ∉ [0x3b, 0x20, 0x09, 0x0a, 0x0b, 0x0c, 0x0d] := by
  have hp : ∀ c : UInt8, (!(c == 59 || isSpace c)) = decide (c ∉ [0x3b, 0x20, 0x09, 0x0a, 0x0b, 0x0c, 0x0d]) := by
    decide +kernel
  unfold withoutParameters Nom.takeTillS Nom.takeWhileS
  simp only [hp]
  generalize (fun c : UInt8 => decide (c ∉ [0x3b, 0x20, 0x09, 0x0a, 0x0b, 0x0c, 0x0d])) = p
  by_cases h : v.dropWhile p = []
  · rw [if_pos h]
    dsimp only
    have := List.takeWhile_append_dropWhile (p := p) (l := v)
    rw [h, List.append_nil] at this
    exact this.symm
  · rw [if_neg h]

theorem byteRanges_iff (t : Tx) :
    (indexOfNocase (t.responseType.getD []) (b! "multipart/byteranges")).isSome = true ↔
      ∃ h, t.responseHeaders.getNocaseNozero (b! "content-type") = some h ∧ ByteRanges h.value := by
  unfold Tx.responseType
  cases t.responseHeaders.getNocaseNozero (b! "content-type") with
  | none =>
    simp only [Option.map_none, Option.getD_none, reduceCtorEq, false_and, exists_false, iff_false]
    decide +kernel
  | some h =>
    simp only [Option.map_some, Option.getD_some, Option.some.injEq, exists_eq_left']
    unfold ByteRanges
    rw [typeText]
    generalize (List.takeWhile _ h.value) = v
    have h2 := Props.C02_index_of_nocase_none (lowerAll v) (b! "multipart/byteranges")
    simp only [occursAt_lower] at h2
    cases hi : indexOfNocase (lowerAll v) (b! "multipart/byteranges") with
    | none =>
      rw [hi] at h2
      simp only [true_iff] at h2
      simp only [Option.isSome_none, Bool.false_eq_true, false_iff, not_exists]
      rcases h2 with h2 | h2
      · exact absurd h2 (by decide)
      · exact h2
    | some i =>
      rw [hi] at h2
      simp only [reduceCtorEq, false_iff, not_or, not_forall, Classical.not_not] at h2
      simp only [Option.isSome_some, true_iff]
      exact h2.2

/-- The answer to CONNECT. -/
theorem responseConnect_run {e : Env} {s : Conn} {t : Tx} (ht : s.txs.get s.txs.response = some t) :
    (t.requestMethodNumber = .connect ∧ Code t 200 299 ∧
      responseConnect e s = (.ok true, { s with resp := { s.resp with state := .finalize } })) ∨
    (¬ (t.requestMethodNumber = .connect ∧ Code t 200 299) ∧
      ∃ s', responseConnect e s = (.ok false, s') ∧ RespAt s t s' ∧ s'.resp = s.resp ∧
        s'.req = (if t.requestMethodNumber = .connect then
            { s.req with status := if s.req.status = .error then .error else .data } else s.req) ∧
        s'.responseDataOtherAtTxEnd =
          (s.responseDataOtherAtTxEnd || (decide (t.requestMethodNumber = .connect) &&
            !t.responseStatusNumber.eqNum 407))) := by
  unfold responseConnect
  rw [M.bind_ok (responseTx_some ht)]
  by_cases h1 : t.requestMethodNumber = .connect
  · rw [if_pos h1]
    by_cases h2 : t.responseStatusNumber.inRange 200 299 = true
    · rw [if_pos h2]
      exact .inl ⟨h1, inRange_iff.1 h2, rfl⟩
    · rw [if_neg h2]
      refine .inr ⟨fun h => h2 (inRange_iff.2 h.2), ?_⟩
      by_cases h3 : t.responseStatusNumber.eqNum 407 = true
      · rw [if_pos h3]
        exact ⟨_, rfl, ⟨rfl, ht, rfl, rfl⟩, rfl, by rw [if_pos h1], by simp [h3]⟩
      · rw [if_neg h3]
        exact ⟨_, rfl, ⟨rfl, ht, rfl, rfl⟩, rfl, by rw [if_pos h1], by simp [h1, h3]⟩
  · rw [if_neg h1]
    exact .inr ⟨fun h => h1 h.1, s, rfl, ⟨rfl, ht, rfl, rfl⟩, rfl, by rw [if_neg h1], by simp [h1]⟩

/-- Fields that decide nothing. -/
structure TxKept (t t' : Tx) : Prop where
  headers : t'.responseHeaders = t.responseHeaders
  decompressor : t'.responseDecompressor = t.responseDecompressor

theorem responseInterim_run {e : Env} {s : Conn} {t : Tx} (ht : s.txs.get s.txs.response = some t)
    (te cl : Option Header) :
    (Code t 101 101 ∧ te = none ∧ cl = none ∧ ∃ s' t', responseInterim e te cl s = (.ok .headersOnly, s') ∧
      RespAt s t' s' ∧ Outcome s s' t' .upgraded ∧ t'.flags = t.flags ∧ TxKept t t') ∨
    (¬ (Code t 101 101 ∧ te = none ∧ cl = none) ∧
      Code t 100 100 ∧ te = none ∧ (∀ h, cl = some h → (parseContentLength h.value).getD 0 = 0) ∧
      ∃ s' t', responseInterim e te cl s = (.ok .again, s') ∧
      RespAt s t' s' ∧ Outcome s s' t' .interim ∧ t'.flags = t.flags) ∨
    (¬ (Code t 101 101 ∧ te = none ∧ cl = none) ∧
      ¬ (Code t 100 100 ∧ te = none ∧ (∀ h, cl = some h → (parseContentLength h.value).getD 0 = 0)) ∧
      ∃ s' t', responseInterim e te cl s = (.ok .body, s') ∧ RespAt s t' s' ∧ s'.resp = s.resp ∧
        t'.flags = t.flags ∧ TxKept t t' ∧ t'.requestMethodNumber = t.requestMethodNumber ∧
        t'.responseStatusNumber = t.responseStatusNumber) := by
  unfold responseInterim
  rw [M.bind_ok (responseTx_some ht)]
  by_cases h1 : t.responseStatusNumber.eqNum 101 = true
  · rw [if_pos h1]
    have hup : ∃ s' t', (M.when t.upgradesToH2 (putResponse { t with isHttp2Upgrade := true })) s = (.ok (), s') ∧ RespAt s t' s' ∧
        s'.resp = s.resp ∧ s'.req = s.req ∧ t'.flags = t.flags ∧ TxKept t t' ∧
        t'.requestMethodNumber = t.requestMethodNumber ∧ t'.responseStatusNumber = t.responseStatusNumber := by
      generalize t.upgradesToH2 = b
      cases b
      · exact ⟨s, t, rfl, ⟨rfl, ht, rfl, rfl⟩, rfl, rfl, rfl, ⟨rfl, rfl⟩, rfl, rfl⟩
      · obtain ⟨s1, p1, p2, p3, p4⟩ := putResponse_at { t with isHttp2Upgrade := true } s
        exact ⟨s1, _, p1, p2, p3, p4, rfl, ⟨rfl, rfl⟩, rfl, rfl⟩
    obtain ⟨s1, t1, p1, p2, p3, p4, p5, p6, p7, p8⟩ := hup
    rw [M.bind_ok p1]
    by_cases h2 : (te.isNone && cl.isNone) = true
    · rw [if_pos h2]
      simp only [Bool.and_eq_true, Option.isNone_iff_eq_none] at h2
      refine .inl ⟨eqNum_iff.1 h1, h2.1, h2.2, _, t1, rfl, ⟨p2.1, p2.2, p2.3, p2.4⟩, ⟨rfl, rfl, ?_⟩, p5, p6⟩
      intro h
      show (if s1.req.status = .error then s1.req else { s1.req with status := .tunnel }).status = _
      rw [p4, if_neg h]
    · rw [if_neg h2]
      simp only [Bool.and_eq_true, Option.isNone_iff_eq_none] at h2
      refine .inr (.inr ⟨fun h => h2 h.2, ?_, s1, t1, rfl, p2, p3, p5, p6, p7, p8⟩)
      rintro ⟨⟨n, hn, ha, hb⟩, -, -⟩
      obtain ⟨m, hm, hc, hd⟩ := eqNum_iff.1 h1
      rw [hn] at hm
      cases hm
      omega
  · rw [if_neg h1]
    have hn1 : ¬ (Code t 101 101 ∧ te = none ∧ cl = none) := fun h => h1 (eqNum_iff.2 h.1)
    by_cases h2 : (t.responseStatusNumber.eqNum 100 && te.isNone) = true
    · rw [if_pos h2]
      simp only [Bool.and_eq_true, Option.isNone_iff_eq_none] at h2
      have hlen : (cl.bind (fun h => parseContentLength h.value)).getD 0 > 0 ↔
          ¬ ∀ h, cl = some h → (parseContentLength h.value).getD 0 = 0 := by
        cases cl with
        | none => simp
        | some h => simp; omega
      by_cases h3 : (cl.bind (fun h => parseContentLength h.value)).getD 0 > 0
      · rw [if_pos h3]
        exact .inr (.inr ⟨hn1, fun h => hlen.1 h3 h.2.2, s, t, rfl, ⟨rfl, ht, rfl, rfl⟩, rfl, rfl, ⟨rfl, rfl⟩, rfl, rfl⟩)
      · rw [if_neg h3]
        have h4 : ∀ h, cl = some h → (parseContentLength h.value).getD 0 = 0 := by
          refine Classical.byContradiction fun h => h3 (hlen.2 h)
        refine .inr (.inl ⟨hn1, eqNum_iff.1 h2.1, h2.2, h4, ?_⟩)
        have hc : ∃ s', responseContinue e s = (.ok (), s') ∧
            RespAt s { t with responseHeaders := [], responseProgress := .line, seen100Continue := true } s' ∧
            s'.resp = { s.resp with state := .line } := by
          unfold responseContinue
          obtain ⟨s1, p1, p2, p3, p4⟩ := modifyResponse_at e (fun t => { t with
            responseHeaders := [], responseProgress := .line, seen100Continue := true })
            (s := { s with resp := { s.resp with state := .line } }) (t := t) ht
          exact ⟨s1, p1, ⟨p2.1, p2.2, p2.3, p2.4⟩, p3⟩
        obtain ⟨s1, p1, p2, p3⟩ := hc
        rw [M.bind_ok p1]
        exact ⟨s1, _, rfl, p2, ⟨by rw [p3], by rw [p3], rfl, rfl, rfl, p2.trace⟩, rfl⟩
    · rw [if_neg h2]
      simp only [Bool.and_eq_true, Option.isNone_iff_eq_none] at h2
      have hexp : ∃ s', responseExpect e s = (.ok (), s') ∧ RespAt s t s' ∧ s'.resp = s.resp := by
        unfold responseExpect
        rw [M.bind_state, M.bind_ok (responseTx_some ht)]
        unfold M.when
        split
        · cases t.requestHeaders.getNocase (b! "expect")
          · exact ⟨s, rfl, ⟨rfl, ht, rfl, rfl⟩, rfl⟩
          · dsimp only
            split
            · exact ⟨_, rfl, ⟨rfl, ht, rfl, rfl⟩, rfl⟩
            · exact ⟨s, rfl, ⟨rfl, ht, rfl, rfl⟩, rfl⟩
        · exact ⟨s, rfl, ⟨rfl, ht, rfl, rfl⟩, rfl⟩
      obtain ⟨s1, p1, p2, p3⟩ := hexp
      rw [M.bind_ok p1]
      exact .inr (.inr ⟨hn1, fun h => h2 ⟨eqNum_iff.2 h.1, h.2.1⟩, s1, t, rfl, p2, p3, rfl, ⟨rfl, rfl⟩, rfl, rfl⟩)

/-- What the transaction's fields say about a body that is there. -/
theorem responseFraming_run {e : Env} {s : Conn} {t : Tx} (ht : s.txs.get s.txs.response = some t)
    (te cl : Option Header) (hcl : t.responseHeaders.getNocaseNozero (b! "content-length") = cl) :
    (∃ h, te = some h ∧ Mentions h.value (b! "chunked")) ∧
      (∃ s' t', responseFraming e te cl s = (.ok (), s') ∧ RespAt s t' s' ∧ TxKept t t' ∧
        Outcome s s' t' .chunked ∧ s'.resp.buf = s.resp.buf ∧ s'.resp.receiver = s.resp.receiver ∧
        (isSet t'.flags Flag.REQUEST_SMUGGLING = true ↔ isSet t.flags Flag.REQUEST_SMUGGLING = true ∨ cl.isSome = true)) ∨
    ¬ (∃ h, te = some h ∧ Mentions h.value (b! "chunked")) ∧
      ((∃ h n, cl = some h ∧ parseContentLength h.value = some n ∧
        ∃ s' t', responseFraming e te cl s = (.ok (), s') ∧ RespAt s t' s' ∧ TxKept t t' ∧
          Outcome s s' t' (.length n) ∧ s'.resp.buf = s.resp.buf ∧ s'.resp.receiver = s.resp.receiver ∧
          (isSet t'.flags Flag.REQUEST_SMUGGLING = true ↔
            isSet t.flags Flag.REQUEST_SMUGGLING = true ∨ isSet h.flags Flag.FIELD_REPEATED = true)) ∨
       (∃ h, cl = some h ∧ parseContentLength h.value = none ∧
        ∃ s' t', responseFraming e te cl s = (.error (.status .error), s') ∧ RespAt s t' s' ∧ TxKept t t' ∧
          Outcome s s' t' .refused ∧ s'.resp.buf = s.resp.buf ∧ s'.resp.receiver = s.resp.receiver ∧
          (isSet t'.flags Flag.REQUEST_SMUGGLING = true ↔
            isSet t.flags Flag.REQUEST_SMUGGLING = true ∨ isSet h.flags Flag.FIELD_REPEATED = true)) ∨
       (cl = none ∧ (∃ h, t.responseHeaders.getNocaseNozero (b! "content-type") = some h ∧ ByteRanges h.value) ∧
        ∃ s' t', responseFraming e te cl s = (.error (.status .error), s') ∧ RespAt s t' s' ∧ TxKept t t' ∧
          Outcome s s' t' .refused ∧ s'.resp.buf = s.resp.buf ∧ s'.resp.receiver = s.resp.receiver ∧
          (isSet t'.flags Flag.REQUEST_SMUGGLING = true ↔ isSet t.flags Flag.REQUEST_SMUGGLING = true)) ∨
       (cl = none ∧ ¬ (∃ h, t.responseHeaders.getNocaseNozero (b! "content-type") = some h ∧ ByteRanges h.value) ∧
        ∃ s' t', responseFraming e te cl s = (.ok (), s') ∧ RespAt s t' s' ∧ TxKept t t' ∧
          Outcome s s' t' .untilClose ∧ s'.resp.buf = s.resp.buf ∧ s'.resp.receiver = s.resp.receiver ∧
          (isSet t'.flags Flag.REQUEST_SMUGGLING = true ↔ isSet t.flags Flag.REQUEST_SMUGGLING = true))) := by
  have hb := byteRanges_iff t
  have hsm : isSet Flag.REQUEST_SMUGGLING Flag.REQUEST_SMUGGLING = true := by decide
  unfold responseFraming
  rw [M.bind_ok (responseTx_some ht)]
  generalize htype : t.responseType = ty at hb ⊢
  obtain ⟨s1, p1, p2, p3, p4⟩ := putResponse_at { t with responseContentType := ty.or t.responseContentType } s
  generalize ht1 : ({ t with responseContentType := ty.or t.responseContentType } : Tx) = t1 at p1 p2
  have kt : TxKept t t1 ∧ t1.flags = t.flags := by subst ht1; exact ⟨⟨rfl, rfl⟩, rfl⟩
  obtain ⟨⟨kt1, kt2⟩, kt3⟩ := kt
  rw [M.bind_ok p1]
  have hchunk : announcesChunked te = true ↔ ∃ h, te = some h ∧ Mentions h.value (b! "chunked") := by
    cases te with
    | none => simp [announcesChunked]
    | some h =>
      simp only [Option.some.injEq, exists_eq_left']
      exact isSome_mentions (by decide)
  by_cases hc : ∃ h, te = some h ∧ Mentions h.value (b! "chunked")
  · refine .inl ⟨hc, ?_⟩
    rw [if_pos (hchunk.2 hc)]
    unfold responseChunked
    obtain ⟨s2, q1, q2, q3, q4⟩ := modifyResponse_at e (fun t =>
      let t := { t with responseTransferCoding := .chunked }
      let t := if cl.isSome then t.setFlags Flag.REQUEST_SMUGGLING else t
      { t with responseProgress := .body }) p2.here
    rw [M.bind_ok q1]
    refine ⟨_, _, rfl, ⟨q2.1.trans p2.1, q2.2, q2.3.trans p2.3, q2.4.trans p2.4⟩, ?_, ⟨rfl, ?_, ?_, rfl⟩, ?_, ?_, ?_⟩
    · by_cases h : cl.isSome = true
      · exact ⟨by simp [h, Tx.setFlags, kt1], by simp [h, Tx.setFlags, kt2]⟩
      · exact ⟨by simp [h, kt1], by simp [h, kt2]⟩
    · show s2.resp.status = _
      rw [q3, p3]
    · by_cases h : cl.isSome = true
      · simp [h, Tx.setFlags]
      · simp [h]
    · show s2.resp.buf = _
      rw [q3, p3]
    · show s2.resp.receiver = _
      rw [q3, p3]
    · by_cases h : cl.isSome = true
      · simp [h, Tx.setFlags, isSet_set, hsm]
      · simp [h, kt3]
  · refine .inr ⟨hc, ?_⟩
    rw [if_neg fun h => hc (hchunk.1 h)]
    cases cl with
    | some h =>
      dsimp only
      have hlen : ∃ s' t', responseLength e h s1 = ((match parseContentLength h.value with
          | none => .error (.status .error)
          | some _ => .ok ()), s') ∧ RespAt s t' s' ∧ TxKept t t' ∧ s'.resp.status = s.resp.status ∧
          (∀ n, parseContentLength h.value = some n → Outcome s s' t' (.length n)) ∧
          s'.resp.buf = s.resp.buf ∧ s'.resp.receiver = s.resp.receiver ∧
          (isSet t'.flags Flag.REQUEST_SMUGGLING = true ↔
            isSet t.flags Flag.REQUEST_SMUGGLING = true ∨ isSet h.flags Flag.FIELD_REPEATED = true) := by
        unfold responseLength
        dsimp only
        generalize hpl : parseContentLength h.value = len
        obtain ⟨s2, q1, q2, q3, q4⟩ := modifyResponse_at e (fun t =>
          let t := { t with responseTransferCoding := .identity }
          let t := if isSet h.flags Flag.FIELD_REPEATED then t.setFlags Flag.REQUEST_SMUGGLING else t
          { t with responseContentLength := len }) p2.here
        generalize ht2 : (let t := { t1 with responseTransferCoding := .identity }
          let t := if isSet h.flags Flag.FIELD_REPEATED then t.setFlags Flag.REQUEST_SMUGGLING else t
          ({ t with responseContentLength := len } : Tx)) = t2 at q2
        have k2 : TxKept t t2 ∧ t2.responseTransferCoding = .identity ∧ t2.responseContentLength = len ∧
            (isSet t2.flags Flag.REQUEST_SMUGGLING = true ↔
              isSet t.flags Flag.REQUEST_SMUGGLING = true ∨ isSet h.flags Flag.FIELD_REPEATED = true) := by
          subst ht2
          by_cases hr : isSet h.flags Flag.FIELD_REPEATED = true
          · refine ⟨⟨by simp [hr, Tx.setFlags, kt1], by simp [hr, Tx.setFlags, kt2]⟩, by simp [hr, Tx.setFlags], rfl, ?_⟩
            simp [hr, Tx.setFlags, isSet_set, hsm]
          · exact ⟨⟨by simp [hr, kt1], by simp [hr, kt2]⟩, by simp [hr], rfl, by simp [hr, kt3]⟩
        obtain ⟨k2, k3, k4, k5⟩ := k2
        rw [M.bind_ok q1]
        obtain ⟨s3, hs3⟩ : ∃ s3 : Conn, s3 = { s2 with resp := { s2.resp with contentLength := len, bodyDataLeft := len } } :=
          ⟨_, rfl⟩
        have hset : (setResp fun h => { h with contentLength := len, bodyDataLeft := len }) s2 = (.ok (), s3) := by
          rw [hs3]; rfl
        have a3 : RespAt s t2 s3 := by
          subst hs3; exact ⟨q2.1.trans p2.1, q2.2, q2.3.trans p2.3, q2.4.trans p2.4⟩
        have r3 : s3.resp = { s.resp with contentLength := len, bodyDataLeft := len } := by
          subst hs3
          show ({ s2.resp with contentLength := len, bodyDataLeft := len } : Half) = _
          rw [q3, p3]
        rw [M.bind_ok hset]
        match len, k4, r3 with
        | none, k4, r3 =>
          refine ⟨s3, t2, rfl, a3, k2, by rw [r3], ?_, by rw [r3], by rw [r3], k5⟩
          intro n hn
          cases hn
        | some 0, k4, r3 =>
          refine ⟨_, t2, rfl, ⟨a3.1, a3.2, a3.3, a3.4⟩, k2, ?_, ?_, ?_, ?_, k5⟩
          · show s3.resp.status = _
            rw [r3]
          · intro n hn
            cases hn
            refine ⟨?_, k3, k4, fun _ => rfl, fun h => absurd rfl h⟩
            show s3.resp.status = _
            rw [r3]
          · show s3.resp.buf = _
            rw [r3]
          · show s3.resp.receiver = _
            rw [r3]
        | some (n + 1), k4, r3 =>
          obtain ⟨s4, hs4⟩ : ∃ s4 : Conn, s4 = { s3 with resp := { s3.resp with state := .bodyIdentityClKnown } } :=
            ⟨_, rfl⟩
          have hset : (setResp fun h => { h with state := .bodyIdentityClKnown }) s3 = (.ok (), s4) := by
            rw [hs4]; rfl
          have a4 : RespAt s t2 s4 := by
            subst hs4; exact ⟨a3.1, a3.2, a3.3, a3.4⟩
          have r4 : s4.resp = { s.resp with
              contentLength := some (n + 1), bodyDataLeft := some (n + 1), state := .bodyIdentityClKnown } := by
            subst hs4
            show ({ s3.resp with state := .bodyIdentityClKnown } : Half) = _
            rw [r3]
          obtain ⟨s5, u1, u2, u3, u4⟩ := modifyResponse_at e (fun t => { t with responseProgress := .body }) a4.here
          refine ⟨s5, _, ?_, a4.trans u2, ⟨k2.1, k2.2⟩, by rw [u3, r4], ?_, by rw [u3, r4], by rw [u3, r4], k5⟩
          · show ((setResp fun h => { h with state := .bodyIdentityClKnown }) >>= fun _ =>
              modifyResponse e fun t => { t with responseProgress := .body }) s3 = _
            rw [M.bind_ok hset, u1]
          · intro m hm
            cases hm
            refine ⟨by rw [u3, r4], k3, k4, fun h => absurd h (by omega), fun _ => ⟨by rw [u3, r4], by rw [u3, r4], rfl⟩⟩
      obtain ⟨s', t', w1, w2, w3, w4, w5, w6, w7, w8⟩ := hlen
      cases hpl : parseContentLength h.value with
      | some n =>
        rw [hpl] at w1
        exact .inl ⟨h, n, rfl, hpl, s', t', w1, w2, w3, w5 n hpl, w6, w7, w8⟩
      | none =>
        rw [hpl] at w1
        exact .inr (.inl ⟨h, rfl, hpl, s', t', w1, w2, w3, w4, w6, w7, w8⟩)
    | none =>
      dsimp only
      unfold responseUntilClose
      by_cases hby : ∃ h, t.responseHeaders.getNocaseNozero (b! "content-type") = some h ∧ ByteRanges h.value
      · rw [if_pos (hb.2 hby)]
        exact .inr (.inr (.inl ⟨rfl, hby, s1, t1, rfl, p2, ⟨kt1, kt2⟩,
          by show s1.resp.status = _; rw [p3], by rw [p3], by rw [p3], by rw [kt3]⟩))
      · rw [if_neg fun h => hby (hb.1 h)]
        refine .inr (.inr (.inr ⟨rfl, hby, ?_⟩))
        obtain ⟨s2, q1, q2, q3, q4⟩ := modifyResponse_at e (fun t => { t with
          responseTransferCoding := .identity, responseProgress := .body }) p2.here
        rw [M.bind_ok q1]
        refine ⟨_, _, rfl, ⟨q2.1.trans p2.1, q2.2, q2.3.trans p2.3, q2.4.trans p2.4⟩, ⟨kt1, kt2⟩, ⟨rfl, ?_, rfl, rfl⟩,
          ?_, ?_, by rw [← kt3]⟩
        · show s2.resp.status = _
          rw [q3, p3]
        · show s2.resp.buf = _
          rw [q3, p3]
        · show s2.resp.receiver = _
          rw [q3, p3]

/-- What the end of `response_body_determine` finds, when there is a body or none. -/
theorem responseBody_run {e : Env} {s : Conn} {t : Tx} (ht : s.txs.get s.txs.response = some t)
    (te cl ct : Option Header) (hcl : t.responseHeaders.getNocaseNozero (b! "content-length") = cl)
    (hct : t.responseHeaders.getNocaseNozero (b! "content-type") = ct) (hst : s.resp.state ≠ .finalize)
    (h0 : ¬ (t.requestMethodNumber = .connect ∧ Code t 200 299))
    (h1 : ¬ (Code t 101 101 ∧ te = none ∧ cl = none))
    (h2 : ¬ (Code t 100 100 ∧ te = none ∧ (∀ h, cl = some h → (parseContentLength h.value).getD 0 = 0))) :
    ∃ s' t', RespAt s t' s' ∧ TxKept t t' ∧ Outcome s s' t' (framing t te cl ct) ∧
      s'.resp.buf = s.resp.buf ∧ s'.resp.receiver = s.resp.receiver ∧
      (isSet t'.flags Flag.REQUEST_SMUGGLING = true ↔
        isSet t.flags Flag.REQUEST_SMUGGLING = true ∨ Ambiguous cl (framing t te cl ct)) ∧
      framing t te cl ct ≠ .connected ∧ framing t te cl ct ≠ .upgraded ∧ framing t te cl ct ≠ .interim ∧
      responseBody e te cl s = (if framing t te cl ct = .refused then (.error (.status .error), s')
        else stateResponseHeaders e s') := by
  classical
  unfold framing
  rw [if_neg h0, if_neg h1, if_neg h2]
  unfold responseBody
  have hno : (t.requestMethodNumber = .head ||
      ((t.responseStatusNumber.inRange 100 199 || t.responseStatusNumber.eqNum 204 ||
        t.responseStatusNumber.eqNum 304) && te.isNone && cl.isNone)) = true ↔
      t.requestMethodNumber = .head ∨
        (Code t 100 199 ∨ Code t 204 204 ∨ Code t 304 304) ∧ te = none ∧ cl = none := by
    simp only [Bool.or_eq_true, Bool.and_eq_true, decide_eq_true_eq, inRange_iff, eqNum_iff, Option.isNone_iff_eq_none,
      or_assoc, and_assoc]
  by_cases hn : t.requestMethodNumber = .head ∨
        (Code t 100 199 ∨ Code t 204 204 ∨ Code t 304 304) ∧ te = none ∧ cl = none
  · have hf : ∀ x : Framing, (if t.requestMethodNumber = .head then .empty
        else if (Code t 100 199 ∨ Code t 204 204 ∨ Code t 304 304) ∧ te = none ∧ cl = none then .empty else x) =
        Framing.empty := by
      intro x
      rcases hn with h | h
      · rw [if_pos h]
      · rw [if_pos h]; split <;> rfl
    rw [hf]
    have hrun : ∃ s', responseNoBody e te cl s = (.ok (), s') ∧
        RespAt s { t with responseTransferCoding := .noBody } s' ∧ s'.resp = { s.resp with state := .finalize } := by
      unfold responseNoBody
      rw [M.bind_ok (responseTx_some ht), if_pos (hno.2 hn)]
      obtain ⟨s1, p1, p2, p3, p4⟩ := putResponse_at { t with responseTransferCoding := .noBody } s
      rw [M.bind_ok p1]
      refine ⟨_, rfl, ⟨p2.1, p2.2, p2.3, p2.4⟩, ?_⟩
      show ({ s1.resp with state := .finalize } : Half) = _
      rw [p3]
    obtain ⟨s1, p1, p2, p3⟩ := hrun
    refine ⟨s1, _, p2, ⟨rfl, rfl⟩, ⟨by rw [p3], by rw [p3], rfl⟩, by rw [p3], by rw [p3], ?_, by decide, by decide,
      by decide, ?_⟩
    · show _ ↔ _ ∨ False
      simp
    · rw [if_neg (by decide), M.bind_ok p1, M.bind_state]
      have hw : M.when (decide (s1.resp.state ≠ .finalize)) (responseFraming e te cl) s1 = (.ok (), s1) := by
        rw [p3]; rfl
      rw [M.bind_ok hw]
  · rw [if_neg fun h => hn (.inl h), if_neg fun h => hn (.inr h)]
    have hrun : responseNoBody e te cl s = (.ok (), s) := by
      unfold responseNoBody
      rw [M.bind_ok (responseTx_some ht), if_neg fun h => hn (hno.1 h)]
      rfl
    rw [M.bind_ok hrun, M.bind_state]
    have hw : M.when (decide (s.resp.state ≠ .finalize)) (responseFraming e te cl) = responseFraming e te cl := by
      unfold M.when
      rw [if_pos (by simpa using hst)]
    rw [hw]
    have hcond := responseFraming_run (e := e) ht te cl hcl
    rw [hct] at hcond
    rcases hcond with ⟨hc, s', t', w1, w2, w3, w4, w5, w6, w7⟩ | ⟨hc, hrest⟩
    · rw [if_pos hc]
      refine ⟨s', t', w2, w3, w4, w5, w6, ?_, by decide, by decide, by decide, ?_⟩
      · rw [w7]
        show _ ↔ _ ∨ ∃ h, cl = some h
        rw [Option.isSome_iff_exists]
      · rw [if_neg (by decide), M.bind_ok w1]
    · rw [if_neg hc]
      rcases hrest with ⟨h, n, rfl, hpl, s', t', w1, w2, w3, w4, w5, w6, w7⟩ |
        ⟨h, rfl, hpl, s', t', w1, w2, w3, w4, w5, w6, w7⟩ | ⟨rfl, hby, s', t', w1, w2, w3, w4, w5, w6, w7⟩ |
        ⟨rfl, hby, s', t', w1, w2, w3, w4, w5, w6, w7⟩
      · simp only [hpl]
        refine ⟨s', t', w2, w3, w4, w5, w6, ?_, by simp, by simp, by simp, ?_⟩
        · rw [w7]
          show _ ↔ _ ∨ ∃ h', some h = some h' ∧ _
          simp
        · rw [if_neg (by simp), M.bind_ok w1]
      · simp only [hpl]
        refine ⟨s', t', w2, w3, w4, w5, w6, ?_, by simp, by simp, by simp, ?_⟩
        · rw [w7]
          show _ ↔ _ ∨ ∃ h', some h = some h' ∧ _
          simp
        · rw [if_pos trivial, M.bind_error w1]
      · dsimp only
        rw [if_pos hby]
        refine ⟨s', t', w2, w3, w4, w5, w6, ?_, by simp, by simp, by simp, ?_⟩
        · rw [w7]
          show _ ↔ _ ∨ ∃ h' : Header, none = some h' ∧ _
          simp
        · rw [if_pos rfl, M.bind_error w1]
      · dsimp only
        rw [if_neg hby]
        refine ⟨s', t', w2, w3, w4, w5, w6, ?_, by simp, by simp, by simp, ?_⟩
        · rw [w7]
          show _ ↔ _ ∨ False
          simp
        · rw [if_neg (by decide), M.bind_ok w1]

/-- From `s` to `s'` only the decompression of the current response was set up, and the raw header data sent. -/
structure HeadersSent (e : Env) (t : Tx) (s s' : Conn) : Prop where
  req : s'.req = s.req
  resp : s'.resp = { s.resp with receiver := none }
  response : s'.txs.response = s.txs.response
  here : s'.txs.get s'.txs.response = some t ∨
    s'.txs.get s'.txs.response = some (t.initResponseDecompressors e.cfg)
  data : s'.input.data = s.input.data ∧ s'.input.gapLen = s.input.gapLen ∧ s'.input.position = s.input.position

theorem emit_run (e : Env) (ev : Event) (s : Conn) :
    ∃ r, emit e ev s = (r, { s with trace := s.trace ++ [ev] }) ∧ (CallbacksOK e → r = .ok ()) ∧ r ≠ .error .panic := by
  unfold emit
  cases h : e.hook s.trace ev with
  | ok _ => exact ⟨_, rfl, fun _ => rfl, by simp⟩
  | error st => exact ⟨_, rfl, (fun hcb => by rw [hcb] at h; cases h), by simp⟩

theorem responseReceiverFinalizeClear_run {e : Env} {s : Conn} {t : Tx} (ht : s.txs.get s.txs.response = some t) :
    ∃ r inp tr, responseReceiverFinalizeClear e s = (r, { s with
        resp := { s.resp with receiver := none }, input := inp, trace := tr }) ∧
      inp.data = s.input.data ∧ inp.gapLen = s.input.gapLen ∧ inp.position = s.input.position ∧
      (CallbacksOK e → r = .ok ()) := by
  unfold responseReceiverFinalizeClear
  rw [M.bind_state]
  cases hr : s.resp.receiver with
  | none =>
    refine ⟨.ok (), s.input, s.trace, ?_, rfl, rfl, rfl, fun _ => rfl⟩
    show (Except.ok (), s) = _
    rw [← hr]
  | some hook =>
    have hsend : ∃ r tr, responseReceiverSendData e s = (r, { s with input := s.input.callbackData.2, trace := tr }) ∧
        (CallbacksOK e → r = .ok ()) ∧ r ≠ .error .panic := by
      unfold responseReceiverSendData
      rw [M.bind_state, M.bind_modify, M.bind_ok (responseTx_some (t := t) (by exact ht)), hr]
      obtain ⟨r, hr1, hr2, hr3⟩ := emit_run e (.data hook s.txs.response (.ofBytes s.input.callbackData.1))
        { s with input := s.input.callbackData.2 }
      exact ⟨r, _, hr1, hr2, hr3⟩
    obtain ⟨r, tr, hs1, hs2, hs3⟩ := hsend
    dsimp only
    cases r with
    | ok u =>
      rw [M.bind_ok (M.attempt_ok hs1)]
      exact ⟨.ok (), _, _, rfl, callbackData_data _, callbackData_gap _, callbackData_position _, fun _ => rfl⟩
    | error x =>
      cases x with
      | panic => exact absurd rfl hs3
      | status x =>
        rw [M.bind_ok (M.attempt_error hs1)]
        exact ⟨.error (.status x), _, _, rfl, callbackData_data _, callbackData_gap _, callbackData_position _,
          fun h => absurd (hs2 h) (by simp)⟩

theorem stateResponseHeaders_run {e : Env} {s : Conn} {t : Tx} (ht : s.txs.get s.txs.response = some t) :
    ∃ r s', stateResponseHeaders e s = (r, s') ∧ HeadersSent e t s s' ∧
      (CallbacksOK e → r = .ok () ∧
        s'.txs.get s'.txs.response = some (t.initResponseDecompressors e.cfg)) := by
  unfold stateResponseHeaders
  obtain ⟨r, inp, tr, h1, d1, d2, d3, h2⟩ := responseReceiverFinalizeClear_run (e := e) ht
  generalize hs1 : ({ s with resp := { s.resp with receiver := none }, input := inp, trace := tr } : Conn) = s1 at h1
  have k1 : HeadersSent e t s s1 := by
    subst hs1
    exact ⟨rfl, rfl, rfl, .inl ht, d1, d2, d3⟩
  have ht1 : s1.txs.get s1.txs.response = some t := by subst hs1; exact ht
  cases r with
  | error x =>
    rw [M.bind_error h1]
    exact ⟨_, _, rfl, k1, fun h => absurd (h2 h) (by simp)⟩
  | ok u =>
    rw [M.bind_ok h1, M.bind_state]
    have hrun : ∃ r, runTxHook e .responseHeaders s1.txs.response s1 =
        (r, { s1 with trace := s1.trace ++ [.tx .responseHeaders s1.txs.response] }) ∧ (CallbacksOK e → r = .ok ()) := by
      unfold runTxHook
      rw [M.bind_state, ht1]
      obtain ⟨r, hr1, hr2, -⟩ := emit_run e (.tx .responseHeaders s1.txs.response) s1
      exact ⟨r, hr1, hr2⟩
    obtain ⟨r, h3, h4⟩ := hrun
    generalize hs2 : ({ s1 with trace := s1.trace ++ [.tx .responseHeaders s1.txs.response] } : Conn) = s2 at h3
    have k2 : HeadersSent e t s s2 := by
      subst hs2
      exact ⟨k1.1, k1.2, k1.3, k1.4, k1.5⟩
    have ht2 : s2.txs.get s2.txs.response = some t := by subst hs2; exact ht1
    cases r with
    | error x =>
      rw [M.bind_error h3]
      exact ⟨_, _, rfl, k2, fun h => absurd (h4 h) (by simp)⟩
    | ok u =>
      rw [M.bind_ok h3, M.bind_ok (responseTx_some ht2)]
      obtain ⟨s3, p1, p2, p3, p4⟩ := putResponse_at (t.initResponseDecompressors e.cfg) s2
      exact ⟨_, s3, p1, ⟨p4.trans k2.1, p3.trans k2.2, p2.1.trans k2.3, .inr p2.2, by rw [p2.4]; exact k2.5⟩,
        fun _ => ⟨rfl, p2.2⟩⟩

/-- The fields that setting up decompression does not touch. -/
theorem foldl_prepend_fields (l : List Encoding) (t : Tx) :
    let t' := l.foldl Tx.prependResponseDecompressor t
    t'.responseTransferCoding = t.responseTransferCoding ∧ t'.responseProgress = t.responseProgress ∧
      t'.responseContentLength = t.responseContentLength ∧ t'.flags = t.flags ∧
      t'.responseHeaders = t.responseHeaders ∧ t'.seen100Continue = t.seen100Continue := by
  induction l generalizing t with
  | nil => exact ⟨rfl, rfl, rfl, rfl, rfl, rfl⟩
  | cons x l ih =>
    obtain ⟨h1, h2, h3, h4, h5, h6⟩ := ih (t.prependResponseDecompressor x)
    have : ∀ {α : Type} (f : Tx → α), (∀ d p, f { t with responseContentEncodingProcessing := p, responseDecompressor := d } = f t) →
        (∀ d, f { t with responseDecompressor := d } = f t) →
        f (t.prependResponseDecompressor x) = f t := by
      intro α f hf hg
      unfold Tx.prependResponseDecompressor
      dsimp only
      split
      · exact hf _ _
      · exact hg _
    exact ⟨h1.trans (this (·.responseTransferCoding) (fun _ _ => rfl) fun _ => rfl),
      h2.trans (this (·.responseProgress) (fun _ _ => rfl) fun _ => rfl),
      h3.trans (this (·.responseContentLength) (fun _ _ => rfl) fun _ => rfl),
      h4.trans (this (·.flags) (fun _ _ => rfl) fun _ => rfl),
      h5.trans (this (·.responseHeaders) (fun _ _ => rfl) fun _ => rfl),
      h6.trans (this (·.seen100Continue) (fun _ _ => rfl) fun _ => rfl)⟩

theorem initResponse_fields (cfg : Config) (t : Tx) :
    let t' := t.initResponseDecompressors cfg
    t'.responseTransferCoding = t.responseTransferCoding ∧ t'.responseProgress = t.responseProgress ∧
      t'.responseContentLength = t.responseContentLength ∧ t'.flags = t.flags ∧
      t'.responseHeaders = t.responseHeaders ∧ t'.seen100Continue = t.seen100Continue := by
  unfold Tx.initResponseDecompressors
  dsimp only
  split
  · split
    · exact ⟨rfl, rfl, rfl, rfl, rfl, rfl⟩
    · exact foldl_prepend_fields [_] _
    · exact foldl_prepend_fields _ _
  · exact ⟨rfl, rfl, rfl, rfl, rfl, rfl⟩

/-- An outcome is still there once the headers have been reported. -/
theorem Outcome.sent {e : Env} {s s1 s2 : Conn} {t t2 : Tx} {f : Framing} (hi : f ≠ .interim)
    (h : Outcome s s1 t f) (k : HeadersSent e t s1 s2) (ht : s2.txs.get s2.txs.response = some t2) :
    Outcome s s2 t2 f ∧ t2.flags = t.flags := by
  have hf : t2.responseTransferCoding = t.responseTransferCoding ∧ t2.responseProgress = t.responseProgress ∧
      t2.responseContentLength = t.responseContentLength ∧ t2.flags = t.flags := by
    rcases k.here with h' | h'
    · rw [ht] at h'
      cases h'
      exact ⟨rfl, rfl, rfl, rfl⟩
    · rw [ht] at h'
      cases h'
      obtain ⟨h1, h2, h3, h4, -⟩ := initResponse_fields e.cfg t
      exact ⟨h1, h2, h3, h4⟩
  obtain ⟨f1, f2, f3, f4⟩ := hf
  refine ⟨?_, f4⟩
  cases f with
  | interim => exact absurd rfl hi
  | connected => unfold Outcome at h ⊢; rw [k.resp, k.req]; exact h
  | upgraded => unfold Outcome at h ⊢; rw [k.resp, k.req]; exact h
  | empty => unfold Outcome at h ⊢; rw [k.resp, f1]; exact h
  | chunked => unfold Outcome at h ⊢; rw [k.resp, f1, f2]; exact h
  | length n => unfold Outcome at h ⊢; rw [k.resp, f1, f2, f3]; exact h
  | untilClose => unfold Outcome at h ⊢; rw [k.resp, f1, f2]; exact h
  | refused => unfold Outcome at h ⊢; rw [k.resp]; exact h

/-- The whole decision. -/
theorem responseBodyDetermine_run {e : Env} {s : Conn} {t : Tx} (hs : s.resp.state = .bodyDetermine)
    (ht : s.txs.get s.txs.response = some t) (te cl ct : Option Header)
    (hte : t.responseHeaders.getNocaseNozero (b! "transfer-encoding") = te)
    (hcl : t.responseHeaders.getNocaseNozero (b! "content-length") = cl)
    (hct : t.responseHeaders.getNocaseNozero (b! "content-type") = ct) :
    ∃ s' t', RespAt s t' s' ∧ Outcome s s' t' (framing t te cl ct) ∧
      (framing t te cl ct ≠ .interim → TxKept t t') ∧
      (framing t te cl ct ≠ .connected → framing t te cl ct ≠ .upgraded → framing t te cl ct ≠ .interim →
        s'.resp.buf = s.resp.buf ∧ s'.resp.receiver = s.resp.receiver) ∧
      (isSet t'.flags Flag.REQUEST_SMUGGLING = true ↔
        isSet t.flags Flag.REQUEST_SMUGGLING = true ∨ Ambiguous cl (framing t te cl ct)) ∧
      responseBodyDetermine e s = (if framing t te cl ct = .refused then (.error (.status .error), s')
        else if framing t te cl ct = .interim then (.ok (), s') else stateResponseHeaders e s') := by
  classical
  unfold responseBodyDetermine
  rcases responseConnect_run (e := e) ht with ⟨h1, h2, hrun⟩ | ⟨h0, s1, hrun, a1, r1, q1, -⟩
  · rw [M.bind_ok hrun]
    have hf : framing t te cl ct = .connected := by unfold framing; rw [if_pos ⟨h1, h2⟩]
    rw [hf]
    refine ⟨{ s with resp := { s.resp with state := .finalize } }, t, ⟨rfl, ht, rfl, rfl⟩, ⟨rfl, rfl, rfl⟩,
      fun _ => ⟨rfl, rfl⟩, fun h => absurd rfl h, ?_, ?_⟩
    · show _ ↔ _ ∨ False
      simp
    · rw [if_pos rfl, if_neg (by decide), if_neg (by decide)]
  · rw [M.bind_ok hrun, if_neg (by simp)]
    unfold responseDetermineRest
    rw [M.bind_ok (responseTx_some a1.here), hte, hcl]
    rcases responseInterim_run (e := e) a1.here te cl with ⟨h1, h2, h3, s2, t2, hrun2, a2, o2, f2, k2⟩ |
      ⟨h1, h2, h3, h4, s2, t2, hrun2, a2, o2, f2⟩ | ⟨h1, h2, s2, t2, hrun2, a2, r2, f2, k2, m2, n2⟩
    · rw [M.bind_ok hrun2]
      have hf : framing t te cl ct = .upgraded := by
        unfold framing; rw [if_neg h0, if_pos ⟨h1, h2, h3⟩]
      rw [hf]
      refine ⟨s2, t2, a1.trans a2, ⟨o2.1, o2.2.1, ?_⟩, fun _ => k2, fun _ h => absurd rfl h, ?_, ?_⟩
      · intro h
        refine o2.2.2 ?_
        rw [q1, if_neg h]
        split
        · intro h; cases h
        · exact h
      · rw [f2]
        show _ ↔ _ ∨ False
        simp
      · rw [if_neg (by decide), if_neg (by decide)]
    · rw [M.bind_ok hrun2]
      have hf : framing t te cl ct = .interim := by
        unfold framing; rw [if_neg h0, if_neg h1, if_pos ⟨h2, h3, h4⟩]
      rw [hf]
      obtain ⟨u1, u2, u3, u4, u5, u6⟩ := o2
      refine ⟨s2, t2, a1.trans a2, ⟨u1, by rw [u2, r1], u3, u4, u5, by rw [u6, a1.trace]⟩, fun h => absurd rfl h,
        fun _ _ h => absurd rfl h, ?_, ?_⟩
      · rw [f2]
        show _ ↔ _ ∨ False
        simp
      · rw [if_neg (by decide), if_pos rfl]
        rfl
    · rw [M.bind_ok hrun2]
      have hcode : ∀ lo hi, Code t2 lo hi = Code t lo hi := fun lo hi => propext (code_of_eq n2)
      have hfr : framing t2 te cl ct = framing t te cl ct := by
        unfold framing
        simp only [hcode, m2]
      obtain ⟨s3, t3, w1, w2, w3, w4, w5, w6, w7, w8, w9, w10⟩ := responseBody_run (e := e) a2.here te cl ct
        (by rw [k2.headers]; exact hcl) (by rw [k2.headers]; exact hct) (by rw [r2, r1, hs]; decide)
        (by rw [m2, hcode]; exact h0) (by rw [hcode]; exact h1) (by rw [hcode]; exact h2)
      rw [hfr] at w3 w6 w7 w8 w9 w10
      rw [r2, r1] at w4 w5
      rw [f2] at w6
      refine ⟨s3, t3, (a1.trans a2).trans w1, ?_, fun _ => ⟨w2.1.trans k2.1, w2.2.trans k2.2⟩,
        fun _ _ _ => ⟨w4, w5⟩, w6, ?_⟩
      · have hst : s2.resp.status = s.resp.status := by rw [r2, r1]
        generalize framing t te cl ct = f at w3 w7 w8 w9
        cases f with
        | connected => exact absurd rfl w7
        | upgraded => exact absurd rfl w8
        | interim => exact absurd rfl w9
        | empty => unfold Outcome at w3 ⊢; rw [← hst]; exact w3
        | chunked => unfold Outcome at w3 ⊢; rw [← hst]; exact w3
        | length n => unfold Outcome at w3 ⊢; rw [← hst]; exact w3
        | untilClose => unfold Outcome at w3 ⊢; rw [← hst]; exact w3
        | refused => unfold Outcome at w3 ⊢; rw [← hst]; exact w3
      · rw [if_neg w9]
        exact w10

/-- The status of the request stream does not change. -/
def ReqStatus (s s' : Conn) : Prop := s'.req.status = s.req.status

theorem ReqStatus.pre : Pre ReqStatus := ⟨fun _ => rfl, fun h h' => Eq.trans h' h⟩

theorem Rel.reqStatus {α : Type} {m : M α} (h : Rel Same m) : Rel ReqStatus m := fun s => by
  obtain ⟨_, _, h⟩ := h s
  show (m s).2.req.status = _
  rw [h]

macro_rules | `(tactic| rel_pre) => `(tactic| exact ReqStatus.pre)
macro_rules | `(tactic| rel_known) => `(tactic| (refine Rel.reqStatus ?_; rel_known))

theorem stateResponseHeaders_reqStatus (e : Env) : Rel ReqStatus (stateResponseHeaders e) := by
  unfold stateResponseHeaders responseReceiverFinalizeClear responseReceiverSendData
  rel_walk <;> rfl

macro_rules | `(tactic| rel_known) => `(tactic| exact stateResponseHeaders_reqStatus _)

theorem responseBody_reqStatus (e : Env) (te cl : Option Header) : Rel ReqStatus (responseBody e te cl) := by
  unfold responseBody responseNoBody responseFraming responseChunked responseLength responseUntilClose
  rel_walk <;> rfl

macro_rules | `(tactic| rel_known) => `(tactic| exact responseBody_reqStatus _ _ _)

theorem responseExpect_reqStatus (e : Env) : Rel ReqStatus (responseExpect e) := by
  unfold responseExpect
  rel_walk 
  rfl

theorem responseContinue_reqStatus (e : Env) : Rel ReqStatus (responseContinue e) := by
  unfold responseContinue
  rel_walk 
  rfl

macro_rules | `(tactic| rel_known) => `(tactic| exact responseExpect_reqStatus _)
macro_rules | `(tactic| rel_known) => `(tactic| exact responseContinue_reqStatus _)

theorem responseDetermineRest_reqStatus {e : Env} {s : Conn} {t : Tx} (ht : s.txs.get s.txs.response = some t)
    (hc : ¬ Code t 101 101) : (responseDetermineRest e s).2.req.status = s.req.status := by
  unfold responseDetermineRest
  rw [M.bind_ok (responseTx_some ht)]
  generalize t.responseHeaders.getNocaseNozero (b! "content-length") = cl
  generalize t.responseHeaders.getNocaseNozero (b! "transfer-encoding") = te
  have hI : (responseInterim e te cl s).2.req.status = s.req.status := by
    unfold responseInterim
    rw [M.bind_ok (responseTx_some ht), if_neg fun h => hc (eqNum_iff.1 h)]
    refine (?_ : Rel ReqStatus _) s
    rel_walk
  generalize hr : responseInterim e te cl s = rs at hI
  obtain ⟨r, s1⟩ := rs
  cases r with
  | error x => rw [M.bind_error hr]; exact hI
  | ok next =>
    rw [M.bind_ok hr]
    cases next
    · exact (stateResponseHeaders_reqStatus e s1).trans hI
    · exact hI
    · exact (responseBody_reqStatus e te cl s1).trans hI

/-- Without a Content-Encoding field nothing is decompressed. -/
theorem initResponse_plain {cfg : Config} {t : Tx} (h : cfg.responseDecompressionEnabled = false ∨
    t.responseHeaders.getNocaseNozero (b! "content-encoding") = none) :
    (t.initResponseDecompressors cfg).responseContentEncodingProcessing = .none := by
  unfold Tx.initResponseDecompressors
  dsimp only
  by_cases hd : cfg.responseDecompressionEnabled = true
  · rw [if_pos hd]
    rcases h with h | h
    · rw [hd] at h; cases h
    · rw [h]
      have : responseLayers cfg.compressionOptions 0 0 (encodingTokens []) = [] := by
        have : encodingTokens [] = [] := by decide +kernel
        rw [this]; rfl
      simp only [Option.map_none, Option.bind_none, Option.getD_none]
      rw [this]
      rfl
  · rw [if_neg hd]

end Model
