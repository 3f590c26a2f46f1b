/-
What decompressing body data does.
-/
import Verif.Lemmas.ConnFraming
import Verif.Lemmas.Decompressors
import Verif.Spec.Decompression

namespace Model

open M Spec

theorem bombAccepts_iff (o : CompressionOptions) (m n : Nat) : bombAccepts o m n = true ↔ SizeAllowed o m n := by
  unfold bombAccepts SizeAllowed
  by_cases h1 : n ≤ o.bombLimit
  · simp [h1]
  · by_cases h2 : m * o.bombRatio < 2 ^ 64
    · rw [if_pos h2]
      simp only [Bool.not_eq_true', Bool.and_eq_false_iff, decide_eq_false_iff_not]
      omega
    · rw [if_neg h2]
      simp only [Bool.and_true, Bool.not_eq_true', decide_eq_false_iff_not]
      omega

theorem toDecoding_stops {α : Type} {ok : α → Bool} {fails : α → Prop} (hf : ∀ a, fails a → ok a = false) {p : Prog α}
    (h : p.Honest fails) : StopsAtRefusal (p.toDecoding ok) := by
  induction p with
  | ret a => trivial
  | stuck => trivial
  | call out next ih =>
    obtain ⟨h1, a, h2, h3⟩ := h
    refine ⟨ih true h1, ?_⟩
    show (next false).toDecoding ok = _
    rw [h2]
    show Decoding.done (ok a) = _
    rw [hf a h3]

theorem chainDecoding_stops (C : Codecs) (lzma : Bool) (fuel : Nat) (d : Decompressor) (data : Option Bytes) :
    StopsAtRefusal (chainDecoding C lzma fuel d data) := by
  unfold chainDecoding
  split
  · trivial
  · refine toDecoding_stops ?_ (decompress_honest _ _ _)
    rintro a ⟨e, he⟩
    rw [he]; rfl
  · refine toDecoding_stops ?_ (finish_honest _ _)
    rintro a ⟨e, rfl⟩
    rfl

theorem wrapAdd_wrapAdd (a b c : Nat) : wrapAdd (wrapAdd a b) c = wrapAdd a (b + c) := by
  unfold wrapAdd
  rw [Nat.mod_add_mod, Nat.add_assoc]

/-- The callbacks for body data, whatever they answer. -/
theorem requestRunHookBodyData_run {e : Env} (d : PData) {s : Conn} {t : Tx} (ht : s.txs.get s.txs.request = some t) :
    ∃ r evs, requestRunHookBodyData e d s = (r, { s with trace := s.trace ++ evs }) ∧ r ≠ .error .panic ∧
      (CallbacksOK e → r = .ok () ∧ evs = requestBodyEvents s.txs.request d) := by
  unfold requestRunHookBodyData requestBodyEvents
  rw [M.bind_ok (requestTx_some ht)]
  split
  next h => exact ⟨.ok (), [], by simp; rfl, by simp, fun _ => ⟨rfl, rfl⟩⟩
  next h =>
    rw [M.bind_state]
    obtain ⟨r1, h1, ok1, np1⟩ := emit_run e (.data .requestBodyDataTx s.txs.request d) s
    cases r1 with
    | error x =>
      rw [M.bind_error h1]
      exact ⟨_, _, rfl, fun h => np1 (by cases h; rfl), fun hcb => nomatch ok1 hcb⟩
    | ok u =>
      rw [M.bind_ok h1]
      obtain ⟨r2, h2, ok2, np2⟩ := emit_run e (.data .requestBodyData s.txs.request d)
        { s with trace := s.trace ++ [.data .requestBodyDataTx s.txs.request d] }
      refine ⟨r2, [.data .requestBodyDataTx s.txs.request d, .data .requestBodyData s.txs.request d], ?_, np2,
        fun hcb => ⟨ok2 hcb, rfl⟩⟩
      rw [h2]
      simp

/-- The output callback of a decompressor: it counts the output, runs the callbacks and checks the size. -/
theorem requestDecompressorCallback_run {e : Env} (out : Option Bytes) {s : Conn} {t : Tx}
    (ht : s.txs.get s.txs.request = some t) :
    ∃ r evs s', requestDecompressorCallback e out s = (r, s') ∧ r ≠ .error .panic ∧
      TxStep s.txs.request { t with requestEntityLen := wrapAdd t.requestEntityLen (out.getD []).length } evs s s' ∧
      (r = .ok () → SizeAllowed e.cfg.compressionOptions t.requestMessageLen
        (wrapAdd t.requestEntityLen (out.getD []).length)) ∧
      (CallbacksOK e → evs = requestBodyEvents s.txs.request { data := out } ∧
        (SizeAllowed e.cfg.compressionOptions t.requestMessageLen
          (wrapAdd t.requestEntityLen (out.getD []).length) → r = .ok ())) := by
  generalize ht' : ({ t with requestEntityLen := wrapAdd t.requestEntityLen (out.getD []).length } : Tx) = t'
  have hm : t'.requestMessageLen = t.requestMessageLen := by rw [← ht']
  have hn : t'.requestEntityLen = wrapAdd t.requestEntityLen (out.getD []).length := by rw [← ht']
  unfold requestDecompressorCallback
  rw [M.bind_ok (requestTx_some ht), ht']
  obtain ⟨s1, h1, k1⟩ := putRequest_step t' s
  rw [M.bind_ok h1]
  have hrq := k1.request
  obtain ⟨r, evs, h2, np, hok⟩ := requestRunHookBodyData_run (e := e) { data := out } (s := s1) (t := t')
    (by rw [hrq]; exact k1.here)
  rw [hrq] at hok
  generalize hs2 : ({ s1 with trace := s1.trace ++ evs } : Conn) = s2 at h2
  have k2 : TxStep s.txs.request t' evs s1 s2 := by
    rw [← hs2]
    exact ⟨⟨s1.txs.map, rfl⟩, k1.here, fun _ _ => rfl⟩
  have k3 := k1.trans k2
  rw [List.nil_append] at k3
  cases r with
  | error x =>
    rw [M.bind_error h2]
    exact ⟨_, evs, s2, rfl, fun h => np (by cases h; rfl), k3, (fun h => by cases h), (fun hcb => by cases (hok hcb).1)⟩
  | ok u =>
    rw [M.bind_ok h2, M.bind_ok (requestTx_some (by rw [k3.request]; exact k3.here)), hm, hn]
    split
    next hb =>
      exact ⟨_, evs, s2, rfl, (fun h => by cases h), k3, fun _ => (bombAccepts_iff _ _ _).1 hb,
        fun hcb => ⟨(hok hcb).2, fun _ => rfl⟩⟩
    next hb =>
      exact ⟨_, evs, s2, rfl, (fun h => by cases h), k3, (fun h => by cases h),
        fun hcb => ⟨(hok hcb).2, fun h => absurd ((bombAccepts_iff _ _ _).2 h) hb⟩⟩

/-- A decompressor that stops when refused: all output before was allowed. -/
theorem requestDecoding_run {e : Env} (p : Decoding) (hp : StopsAtRefusal p) {s : Conn} {t : Tx}
    (ht : s.txs.get s.txs.request = some t) :
    ∃ ok outs evs s', runDecoding (requestDecompressorCallback e) p s = (.ok ok, s') ∧
      TxStep s.txs.request { t with requestEntityLen :=
        if outs = [] then t.requestEntityLen else wrapAdd t.requestEntityLen (outputSize outs) } evs s s' ∧
      (ok = true → outs ≠ [] → SizeAllowed e.cfg.compressionOptions t.requestMessageLen
        (wrapAdd t.requestEntityLen (outputSize outs))) ∧
      (∀ i, i ≠ [] → i <+: outs → i ≠ outs → SizeAllowed e.cfg.compressionOptions t.requestMessageLen
        (wrapAdd t.requestEntityLen (outputSize i))) ∧
      (CallbacksOK e → evs = outs.flatMap fun o => requestBodyEvents s.txs.request { data := o }) := by
  induction p generalizing s t with
  | done ok => exact ⟨ok, [], [], s, rfl, .refl ht, fun _ h => absurd rfl h,
      fun i h h' => absurd (List.prefix_nil.1 h') h, fun _ => rfl⟩
  | call out next ih =>
    obtain ⟨hp1, hp2⟩ := hp
    obtain ⟨r, evs, s1, h1, np, k1, hok, hcbk⟩ := requestDecompressorCallback_run (e := e) out ht
    unfold runDecoding
    cases r with
    | error x =>
      cases x with
      | panic => exact absurd rfl np
      | status st =>
        rw [M.bind_ok (M.attempt_error h1)]
        show ∃ ok outs evs s', runDecoding _ (next false) s1 = _ ∧ _
        rw [hp2]
        refine ⟨false, [out], evs, s1, rfl, ?_, (fun h => by cases h), ?_, fun hcb => ?_⟩
        · rw [if_neg (by simp)]
          simpa [outputSize] using k1
        · intro i hi hpre hne
          obtain ⟨j, hj⟩ := hpre
          cases i with
          | nil => exact absurd rfl hi
          | cons a as =>
            simp only [List.cons_append, List.cons.injEq, List.append_eq_nil_iff] at hj
            exact absurd (by rw [hj.1, hj.2.1]) hne
        · rw [(hcbk hcb).1]
          simp
    | ok u =>
      rw [M.bind_ok (M.attempt_ok h1)]
      show ∃ ok outs evs s', runDecoding _ (next true) s1 = _ ∧ _
      have hrq := k1.request
      obtain ⟨ok, outs, evs', s2, h2, k2, hok2, hpre2, hcb2⟩ := ih true hp1 (s := s1) (t := { t with
        requestEntityLen := wrapAdd t.requestEntityLen (out.getD []).length }) (by rw [hrq]; exact k1.here)
      rw [hrq] at k2 hcb2
      have hsum : ∀ os, outputSize (out :: os) = (out.getD []).length + outputSize os := fun os => by simp [outputSize]
      have hlen : wrapAdd t.requestEntityLen (outputSize (out :: outs)) =
          if outs = [] then wrapAdd t.requestEntityLen (out.getD []).length
          else wrapAdd (wrapAdd t.requestEntityLen (out.getD []).length) (outputSize outs) := by
        rw [hsum]
        split
        next h => subst h; simp [outputSize]
        next h => rw [wrapAdd_wrapAdd]
      refine ⟨ok, out :: outs, evs ++ evs', s2, h2, ?_, ?_, ?_, fun hcb => ?_⟩
      · rw [if_neg (by simp), hlen]
        exact k1.trans k2
      · intro ho _
        rw [hlen]
        by_cases hn : outs = []
        · rw [if_pos hn]
          exact hok rfl
        · rw [if_neg hn]
          exact hok2 ho hn
      · intro i hi hpre hne
        cases i with
        | nil => exact absurd rfl hi
        | cons a as =>
          obtain ⟨rfl, hpre'⟩ := List.cons_prefix_cons.1 hpre
          rw [hsum, ← wrapAdd_wrapAdd]
          by_cases has : as = []
          · subst has
            have : wrapAdd (wrapAdd t.requestEntityLen (a.getD []).length) (outputSize []) =
                wrapAdd t.requestEntityLen (a.getD []).length := by
              rw [wrapAdd_wrapAdd]; simp [outputSize]
            rw [this]
            exact hok rfl
          · exact hpre2 as has hpre' fun h => hne (by rw [h])
      · rw [(hcbk hcb).1, hcb2 hcb]
        rfl

theorem requestBodyEvents_outputs (k : Nat) (outs : List (Option Bytes)) :
    (outs.flatMap fun o => requestBodyEvents k { data := o }) = requestOutputs k outs := by
  unfold requestOutputs
  congr 1
  funext o
  cases o with
  | none => rfl
  | some b =>
    cases b with
    | nil => rfl
    | cons c cs => rfl

/-- Compressed body data. -/
theorem requestBodyData_decompress {e : Env} (hdec : ∀ tr k d o, StopsAtRefusal (e.decoder tr k d o)) (data : Bytes)
    {s : Conn} {t : Tx} {d : Decompressor} (ht : s.txs.get s.txs.request = some t)
    (henc : t.requestContentEncodingProcessing ≠ .none ∧ t.requestContentEncodingProcessing ≠ .error)
    (hd : t.requestDecompressor = some d) (hu : t.requestEntityLen < 2 ^ 64) :
    ∃ r outs evs t' s', requestBodyData e (some data) s = (r, s') ∧
      TxStep s.txs.request t' evs s s' ∧
      t'.requestMessageLen = wrapAdd t.requestMessageLen data.length ∧
      t'.requestEntityLen = wrapAdd t.requestEntityLen (outputSize outs) ∧
      (r = .ok () ∨ r = .error (.status .error)) ∧
      (r = .ok () → t'.requestDecompressor = some { d with fed := d.fed ++ [data] } ∧
        (outs ≠ [] → SizeAllowed e.cfg.compressionOptions t'.requestMessageLen t'.requestEntityLen)) ∧
      (∀ i, i ≠ [] → i <+: outs → i ≠ outs → SizeAllowed e.cfg.compressionOptions t'.requestMessageLen
        (wrapAdd t.requestEntityLen (outputSize i))) ∧
      (CallbacksOK e → evs = requestOutputs s.txs.request outs) := by
  have h0 : wrapAdd t.requestEntityLen 0 = t.requestEntityLen := Nat.mod_eq_of_lt hu
  generalize ht1 : ({ t with requestMessageLen := wrapAdd t.requestMessageLen data.length } : Tx) = t1
  have hd1 : t1.requestDecompressor = some d := by rw [← ht1]; exact hd
  have hm1 : t1.requestMessageLen = wrapAdd t.requestMessageLen data.length := by rw [← ht1]
  have hn1 : t1.requestEntityLen = t.requestEntityLen := by rw [← ht1]
  obtain ⟨s1, p1, k1⟩ := putRequest_step t1 s
  have e1 : requestBodyData e (some data) s = requestDecompress e (some data) s1 := by
    unfold requestBodyData
    rw [M.bind_ok (requestTx_some ht)]
    show (putRequest { t with requestMessageLen := wrapAdd t.requestMessageLen data.length } >>= _) s = _
    rw [ht1, M.bind_ok p1]
    cases h : t.requestContentEncodingProcessing with
    | none => exact absurd h henc.1
    | error => exact absurd h henc.2
    | _ => rfl
  rw [e1]
  generalize ht2 : ({ t1 with requestDecompressor := none } : Tx) = t2
  have hm2 : t2.requestMessageLen = t1.requestMessageLen := by rw [← ht2]
  have hn2 : t2.requestEntityLen = t1.requestEntityLen := by rw [← ht2]
  obtain ⟨s2, p2, k2⟩ := putRequest_step t2 s1
  rw [k1.request] at k2
  obtain ⟨ok, outs, evs, s3, p3, k3, a1, a2, a3⟩ := requestDecoding_run (e := e)
    (e.decoder s2.trace s2.txs.request d (some data)) (hdec _ _ _ _) (s := s2) (t := t2)
    (by rw [k2.request, k1.request]; exact k2.here)
  rw [k2.request, k1.request] at k3 a3
  generalize ht3 : ({ t2 with
    requestEntityLen :=
      (if outs = [] then t2.requestEntityLen else wrapAdd t2.requestEntityLen (outputSize outs)) } : Tx) = t3 at k3
  have hm3 : t3.requestMessageLen = wrapAdd t.requestMessageLen data.length := by rw [← ht3]; exact hm2.trans hm1
  have hn3 : t3.requestEntityLen = wrapAdd t.requestEntityLen (outputSize outs) := by
    rw [← ht3]
    show (if outs = [] then _ else _) = _
    rw [hn2, hn1]
    split
    next h => subst h; exact h0.symm
    next h => rfl
  have run : requestDecompress e (some data) s1 = (do
      if ok then modifyRequest e fun t => { t with requestDecompressor := some { d with fed := d.fed ++ [data] } }
      else fail .error : M Unit) s3 := by
    unfold requestDecompress
    rw [M.bind_ok (requestTx_some (by rw [k1.request]; exact k1.here)), hd1]
    show (putRequest { t1 with requestDecompressor := none } >>= _) s1 = _
    rw [ht2, M.bind_ok p2, M.bind_state, M.bind_ok p3]
  have k13 := (k1.trans k2).trans k3
  simp only [List.append_nil, List.nil_append] at k13
  rw [run]
  have hev : CallbacksOK e → evs = requestOutputs s.txs.request outs := fun hcb =>
    (a3 hcb).trans (requestBodyEvents_outputs _ _)
  rw [hm2, hm1, hn2, hn1] at a1 a2
  cases ok with
  | false =>
    refine ⟨_, outs, evs, t3, s3, rfl, k13, hm3, hn3, .inr rfl, (fun h => by cases h), ?_, hev⟩
    rw [hm3]
    exact a2
  | true =>
    generalize ht4 : ({ t3 with requestDecompressor := some { d with fed := d.fed ++ [data] } } : Tx) = t4
    have hm4 : t4.requestMessageLen = t3.requestMessageLen := by rw [← ht4]
    have hn4 : t4.requestEntityLen = t3.requestEntityLen := by rw [← ht4]
    have hd4 : t4.requestDecompressor = some { d with fed := d.fed ++ [data] } := by rw [← ht4]
    obtain ⟨s4, p4, k4⟩ := putRequest_step t4 s3
    rw [k13.request] at k4
    have k14 := k13.trans k4
    rw [List.append_nil] at k14
    refine ⟨.ok (), outs, evs, t4, s4, ?_, k14, hm4.trans hm3, hn4.trans hn3, .inl rfl, fun _ => ⟨hd4, fun h => ?_⟩, ?_,
      hev⟩
    · show modifyRequest e _ s3 = _
      unfold modifyRequest
      rw [M.bind_ok (requestTx_some (by rw [k13.request]; exact k13.here))]
      show putRequest { t3 with requestDecompressor := some { d with fed := d.fed ++ [data] } } s3 = _
      rw [ht4, p4]
    · rw [hm4, hm3, hn4, hn3]
      exact a1 rfl h
    · rw [hm4, hm3]
      exact a2

/-- The callbacks for body data, whatever they answer. -/
theorem responseRunHookBodyData_run {e : Env} (d : PData) {s : Conn} {t : Tx} (ht : s.txs.get s.txs.response = some t) :
    ∃ r evs, responseRunHookBodyData e d s = (r, { s with trace := s.trace ++ evs }) ∧ r ≠ .error .panic ∧
      (CallbacksOK e → r = .ok () ∧ evs = responseBodyEvents s.txs.response d) := by
  unfold responseRunHookBodyData responseBodyEvents
  split
  next h => exact ⟨.ok (), [], by simp; rfl, by simp, fun _ => ⟨rfl, rfl⟩⟩
  next h =>
    rw [M.bind_ok (responseTx_some ht), M.bind_state]
    obtain ⟨r1, h1, ok1, np1⟩ := emit_run e (.data .responseBodyDataTx s.txs.response d) s
    cases r1 with
    | error x =>
      rw [M.bind_error h1]
      exact ⟨_, _, rfl, fun h => np1 (by cases h; rfl), fun hcb => nomatch ok1 hcb⟩
    | ok u =>
      rw [M.bind_ok h1]
      obtain ⟨r2, h2, ok2, np2⟩ := emit_run e (.data .responseBodyData s.txs.response d)
        { s with trace := s.trace ++ [.data .responseBodyDataTx s.txs.response d] }
      refine ⟨r2, [.data .responseBodyDataTx s.txs.response d, .data .responseBodyData s.txs.response d], ?_, np2,
        fun hcb => ⟨ok2 hcb, rfl⟩⟩
      rw [h2]
      simp

/-- The output callback of a decompressor: it counts the output, runs the callbacks and checks the size. -/
theorem responseDecompressorCallback_run {e : Env} (out : Option Bytes) {s : Conn} {t : Tx}
    (ht : s.txs.get s.txs.response = some t) :
    ∃ r evs s', responseDecompressorCallback e out s = (r, s') ∧ r ≠ .error .panic ∧
      TxStep s.txs.response { t with responseEntityLen := wrapAdd t.responseEntityLen (out.getD []).length } evs s s' ∧
      (r = .ok () → SizeAllowed e.cfg.compressionOptions t.responseMessageLen
        (wrapAdd t.responseEntityLen (out.getD []).length)) ∧
      (CallbacksOK e → evs = responseBodyEvents s.txs.response { data := out } ∧
        (SizeAllowed e.cfg.compressionOptions t.responseMessageLen
          (wrapAdd t.responseEntityLen (out.getD []).length) → r = .ok ())) := by
  generalize ht' : ({ t with responseEntityLen := wrapAdd t.responseEntityLen (out.getD []).length } : Tx) = t'
  have hm : t'.responseMessageLen = t.responseMessageLen := by rw [← ht']
  have hn : t'.responseEntityLen = wrapAdd t.responseEntityLen (out.getD []).length := by rw [← ht']
  unfold responseDecompressorCallback
  rw [M.bind_ok (responseTx_some ht), ht']
  obtain ⟨s1, h1, k1⟩ := putResponse_step t' s
  rw [M.bind_ok h1]
  have hrq := k1.response
  obtain ⟨r, evs, h2, np, hok⟩ := responseRunHookBodyData_run (e := e) { data := out } (s := s1) (t := t')
    (by rw [hrq]; exact k1.here)
  rw [hrq] at hok
  generalize hs2 : ({ s1 with trace := s1.trace ++ evs } : Conn) = s2 at h2
  have k2 : TxStep s.txs.response t' evs s1 s2 := by
    rw [← hs2]
    exact ⟨⟨s1.txs.map, rfl⟩, k1.here, fun _ _ => rfl⟩
  have k3 := k1.trans k2
  rw [List.nil_append] at k3
  cases r with
  | error x =>
    rw [M.bind_error h2]
    exact ⟨_, evs, s2, rfl, fun h => np (by cases h; rfl), k3, (fun h => by cases h), (fun hcb => by cases (hok hcb).1)⟩
  | ok u =>
    rw [M.bind_ok h2, M.bind_ok (responseTx_some (by rw [k3.response]; exact k3.here)), hm, hn]
    split
    next hb =>
      exact ⟨_, evs, s2, rfl, (fun h => by cases h), k3, fun _ => (bombAccepts_iff _ _ _).1 hb,
        fun hcb => ⟨(hok hcb).2, fun _ => rfl⟩⟩
    next hb =>
      exact ⟨_, evs, s2, rfl, (fun h => by cases h), k3, (fun h => by cases h),
        fun hcb => ⟨(hok hcb).2, fun h => absurd ((bombAccepts_iff _ _ _).2 h) hb⟩⟩

/-- A decompressor that stops when refused: all output before was allowed. -/
theorem responseDecoding_run {e : Env} (p : Decoding) (hp : StopsAtRefusal p) {s : Conn} {t : Tx}
    (ht : s.txs.get s.txs.response = some t) :
    ∃ ok outs evs s', runDecoding (responseDecompressorCallback e) p s = (.ok ok, s') ∧
      TxStep s.txs.response { t with responseEntityLen :=
        if outs = [] then t.responseEntityLen else wrapAdd t.responseEntityLen (outputSize outs) } evs s s' ∧
      (ok = true → outs ≠ [] → SizeAllowed e.cfg.compressionOptions t.responseMessageLen
        (wrapAdd t.responseEntityLen (outputSize outs))) ∧
      (∀ i, i ≠ [] → i <+: outs → i ≠ outs → SizeAllowed e.cfg.compressionOptions t.responseMessageLen
        (wrapAdd t.responseEntityLen (outputSize i))) ∧
      (CallbacksOK e → evs = outs.flatMap fun o => responseBodyEvents s.txs.response { data := o }) := by
  induction p generalizing s t with
  | done ok => exact ⟨ok, [], [], s, rfl, .refl ht, fun _ h => absurd rfl h,
      fun i h h' => absurd (List.prefix_nil.1 h') h, fun _ => rfl⟩
  | call out next ih =>
    obtain ⟨hp1, hp2⟩ := hp
    obtain ⟨r, evs, s1, h1, np, k1, hok, hcbk⟩ := responseDecompressorCallback_run (e := e) out ht
    unfold runDecoding
    cases r with
    | error x =>
      cases x with
      | panic => exact absurd rfl np
      | status st =>
        rw [M.bind_ok (M.attempt_error h1)]
        show ∃ ok outs evs s', runDecoding _ (next false) s1 = _ ∧ _
        rw [hp2]
        refine ⟨false, [out], evs, s1, rfl, ?_, (fun h => by cases h), ?_, fun hcb => ?_⟩
        · rw [if_neg (by simp)]
          simpa [outputSize] using k1
        · intro i hi hpre hne
          obtain ⟨j, hj⟩ := hpre
          cases i with
          | nil => exact absurd rfl hi
          | cons a as =>
            simp only [List.cons_append, List.cons.injEq, List.append_eq_nil_iff] at hj
            exact absurd (by rw [hj.1, hj.2.1]) hne
        · rw [(hcbk hcb).1]
          simp
    | ok u =>
      rw [M.bind_ok (M.attempt_ok h1)]
      show ∃ ok outs evs s', runDecoding _ (next true) s1 = _ ∧ _
      have hrq := k1.response
      obtain ⟨ok, outs, evs', s2, h2, k2, hok2, hpre2, hcb2⟩ := ih true hp1 (s := s1) (t := { t with
        responseEntityLen := wrapAdd t.responseEntityLen (out.getD []).length }) (by rw [hrq]; exact k1.here)
      rw [hrq] at k2 hcb2
      have hsum : ∀ os, outputSize (out :: os) = (out.getD []).length + outputSize os := fun os => by simp [outputSize]
      have hlen : wrapAdd t.responseEntityLen (outputSize (out :: outs)) =
          if outs = [] then wrapAdd t.responseEntityLen (out.getD []).length
          else wrapAdd (wrapAdd t.responseEntityLen (out.getD []).length) (outputSize outs) := by
        rw [hsum]
        split
        next h => subst h; simp [outputSize]
        next h => rw [wrapAdd_wrapAdd]
      refine ⟨ok, out :: outs, evs ++ evs', s2, h2, ?_, ?_, ?_, fun hcb => ?_⟩
      · rw [if_neg (by simp), hlen]
        exact k1.trans k2
      · intro ho _
        rw [hlen]
        by_cases hn : outs = []
        · rw [if_pos hn]
          exact hok rfl
        · rw [if_neg hn]
          exact hok2 ho hn
      · intro i hi hpre hne
        cases i with
        | nil => exact absurd rfl hi
        | cons a as =>
          obtain ⟨rfl, hpre'⟩ := List.cons_prefix_cons.1 hpre
          rw [hsum, ← wrapAdd_wrapAdd]
          by_cases has : as = []
          · subst has
            have : wrapAdd (wrapAdd t.responseEntityLen (a.getD []).length) (outputSize []) =
                wrapAdd t.responseEntityLen (a.getD []).length := by
              rw [wrapAdd_wrapAdd]; simp [outputSize]
            rw [this]
            exact hok rfl
          · exact hpre2 as has hpre' fun h => hne (by rw [h])
      · rw [(hcbk hcb).1, hcb2 hcb]
        rfl

theorem responseBodyEvents_outputs (k : Nat) (outs : List (Option Bytes)) :
    (outs.flatMap fun o => responseBodyEvents k { data := o }) = responseOutputs k outs := by
  unfold responseOutputs
  congr 1
  funext o
  cases o with
  | none => rfl
  | some b =>
    cases b with
    | nil => rfl
    | cons c cs => rfl

/-- Compressed body data. -/
theorem responseBodyData_decompress {e : Env} (hdec : ∀ tr k d o, StopsAtRefusal (e.decoder tr k d o)) (data : Bytes)
    {s : Conn} {t : Tx} {d : Decompressor} (ht : s.txs.get s.txs.response = some t)
    (henc : t.responseContentEncodingProcessing ≠ .none ∧ t.responseContentEncodingProcessing ≠ .error)
    (hd : t.responseDecompressor = some d) (hu : t.responseEntityLen < 2 ^ 64) :
    ∃ r outs evs t' s', responseBodyData e (some data) s = (r, s') ∧
      TxStep s.txs.response t' evs s s' ∧
      t'.responseMessageLen = wrapAdd t.responseMessageLen data.length ∧
      t'.responseEntityLen = wrapAdd t.responseEntityLen (outputSize outs) ∧
      (r = .ok () ∨ r = .error (.status .error)) ∧
      (r = .ok () → t'.responseDecompressor = some { d with fed := d.fed ++ [data] } ∧
        (outs ≠ [] → SizeAllowed e.cfg.compressionOptions t'.responseMessageLen t'.responseEntityLen)) ∧
      (∀ i, i ≠ [] → i <+: outs → i ≠ outs → SizeAllowed e.cfg.compressionOptions t'.responseMessageLen
        (wrapAdd t.responseEntityLen (outputSize i))) ∧
      (CallbacksOK e → evs = responseOutputs s.txs.response outs) := by
  have h0 : wrapAdd t.responseEntityLen 0 = t.responseEntityLen := Nat.mod_eq_of_lt hu
  generalize ht1 : ({ t with responseMessageLen := wrapAdd t.responseMessageLen data.length } : Tx) = t1
  have hd1 : t1.responseDecompressor = some d := by rw [← ht1]; exact hd
  have hm1 : t1.responseMessageLen = wrapAdd t.responseMessageLen data.length := by rw [← ht1]
  have hn1 : t1.responseEntityLen = t.responseEntityLen := by rw [← ht1]
  obtain ⟨s1, p1, k1⟩ := putResponse_step t1 s
  have e1 : responseBodyData e (some data) s = responseDecompress e (some data) s1 := by
    unfold responseBodyData
    rw [M.bind_ok (responseTx_some ht)]
    show (putResponse { t with responseMessageLen := wrapAdd t.responseMessageLen data.length } >>= _) s = _
    rw [ht1, M.bind_ok p1]
    cases h : t.responseContentEncodingProcessing with
    | none => exact absurd h henc.1
    | error => exact absurd h henc.2
    | _ => rfl
  rw [e1]
  generalize ht2 : ({ t1 with responseDecompressor := none } : Tx) = t2
  have hm2 : t2.responseMessageLen = t1.responseMessageLen := by rw [← ht2]
  have hn2 : t2.responseEntityLen = t1.responseEntityLen := by rw [← ht2]
  obtain ⟨s2, p2, k2⟩ := putResponse_step t2 s1
  rw [k1.response] at k2
  obtain ⟨ok, outs, evs, s3, p3, k3, a1, a2, a3⟩ := responseDecoding_run (e := e)
    (e.decoder s2.trace s2.txs.response d (some data)) (hdec _ _ _ _) (s := s2) (t := t2)
    (by rw [k2.response, k1.response]; exact k2.here)
  rw [k2.response, k1.response] at k3 a3
  generalize ht3 : ({ t2 with
    responseEntityLen :=
      (if outs = [] then t2.responseEntityLen else wrapAdd t2.responseEntityLen (outputSize outs)) } : Tx) = t3 at k3
  have hm3 : t3.responseMessageLen = wrapAdd t.responseMessageLen data.length := by rw [← ht3]; exact hm2.trans hm1
  have hn3 : t3.responseEntityLen = wrapAdd t.responseEntityLen (outputSize outs) := by
    rw [← ht3]
    show (if outs = [] then _ else _) = _
    rw [hn2, hn1]
    split
    next h => subst h; exact h0.symm
    next h => rfl
  have run : responseDecompress e (some data) s1 = (do
      if ok then modifyResponse e fun t => { t with responseDecompressor := some { d with fed := d.fed ++ [data] } }
      else fail .error : M Unit) s3 := by
    unfold responseDecompress
    rw [M.bind_ok (responseTx_some (by rw [k1.response]; exact k1.here)), hd1]
    show (putResponse { t1 with responseDecompressor := none } >>= _) s1 = _
    rw [ht2, M.bind_ok p2, M.bind_state, M.bind_ok p3]
  have k13 := (k1.trans k2).trans k3
  simp only [List.append_nil, List.nil_append] at k13
  rw [run]
  have hev : CallbacksOK e → evs = responseOutputs s.txs.response outs := fun hcb =>
    (a3 hcb).trans (responseBodyEvents_outputs _ _)
  rw [hm2, hm1, hn2, hn1] at a1 a2
  cases ok with
  | false =>
    refine ⟨_, outs, evs, t3, s3, rfl, k13, hm3, hn3, .inr rfl, (fun h => by cases h), ?_, hev⟩
    rw [hm3]
    exact a2
  | true =>
    generalize ht4 : ({ t3 with responseDecompressor := some { d with fed := d.fed ++ [data] } } : Tx) = t4
    have hm4 : t4.responseMessageLen = t3.responseMessageLen := by rw [← ht4]
    have hn4 : t4.responseEntityLen = t3.responseEntityLen := by rw [← ht4]
    have hd4 : t4.responseDecompressor = some { d with fed := d.fed ++ [data] } := by rw [← ht4]
    obtain ⟨s4, p4, k4⟩ := putResponse_step t4 s3
    rw [k13.response] at k4
    have k14 := k13.trans k4
    rw [List.append_nil] at k14
    refine ⟨.ok (), outs, evs, t4, s4, ?_, k14, hm4.trans hm3, hn4.trans hn3, .inl rfl, fun _ => ⟨hd4, fun h => ?_⟩, ?_,
      hev⟩
    · show modifyResponse e _ s3 = _
      unfold modifyResponse
      rw [M.bind_ok (responseTx_some (by rw [k13.response]; exact k13.here))]
      show putResponse { t3 with responseDecompressor := some { d with fed := d.fed ++ [data] } } s3 = _
      rw [ht4, p4]
    · rw [hm4, hm3, hn4, hn3]
      exact a1 rfl h
    · rw [hm4, hm3]
      exact a2

end Model
