/-
Interim responses in pieces.
-/
import Verif.Lemmas.InterimCut
import Verif.Spec.InterimPieces

namespace Model

open M Spec Props

theorem pieceCallbacks_loose (k : Nat) (a : Bytes) : ∀ (acc : Bytes) (ts : List Token),
    interimPieceCallbacks k acc (loose a ++ ts) = interimPieceCallbacks k (acc ++ a) ts := by
  induction a with
  | nil => intro acc ts; rw [List.append_nil]; rfl
  | cons c a ih =>
    intro acc ts
    show interimPieceCallbacks k (acc ++ [c]) (loose a ++ ts) = _
    rw [ih, List.append_assoc]
    rfl

theorem bytesOf_interims (is : List Response) (hi : ∀ i ∈ is, i.Interim) : bytesOf (is.flatMap Response.interimTokens) = is.flatMap Response.render := by
  induction is with
  | nil => rfl
  | cons i is ih =>
    rw [List.flatMap_cons, List.flatMap_cons, bytesOf_append, ih (fun j hj => hi j (by simp [hj])), (hi i (by simp)).renders]
    congr 1
    show _ ++ bytesOf (loose _) = _
    rw [bytesOf_loose]
    rfl

namespace Ans

/-- Between two interim responses, at the end of a call. -/
structure Waits (t0 : Tx) (h : Half) (t : Tx) : Prop where
  state : h.state = .line ∧ h.statePrevious = .line
  buf : h.buf = []
  header : h.header = none
  status : h.status = .data
  same : requestSide t = requestSide t0
  seen : t.seen100Continue = true
  noHeaders : t.responseHeaders = []
  noRepetitions : t.responseHeaderRepetitions = 0
  noLength : t.responseContentLength = none
  noBody : t.responseEntityLen = 0
  progress : t.responseProgress = .line
  parser : t.responseHeaderParser = resP

/-- In the header block of an interim response, of which `b` is still to come. -/
structure InBlock (e : Env) (t0 : Tx) (i : Response) (b : Bytes) (h : Half) (t : Tx) : Prop where
  hat : At h .headers [] h.header (some .responseHeaderData)
  same : requestSide t = requestSide t0
  number : t.responseStatusNumber = .valid i.code
  noLength : t.responseContentLength = none
  noBody : t.responseEntityLen = 0
  progress : t.responseProgress = .headers
  parser : t.responseHeaderParser = resP
  left : b ≠ []
  limit : (h.header.getD []).length ≤ e.cfg.fieldLimit
  lines : ∃ js ls, i.headers = js ++ ls ∧ (ls = [] → js = []) ∧ h.header.getD [] ++ b = renderBlock ls ∧ Tabled t js

/-- Interim responses that can be read one after the other. -/
def Good (e : Env) (is : List Response) : Prop :=
  (∀ i ∈ is, i.Interim ∧ i.line.length + 2 ≤ e.cfg.fieldLimit ∧ ∀ h ∈ i.headers, h.render.length + 1 ≤ e.cfg.fieldLimit) ∧
  ∀ i ∈ is.dropLast, i.headers ≠ []

theorem Good.tail {e : Env} {i : Response} {rest : List Response} (h : Good e (i :: rest)) : Good e rest := by
  refine ⟨fun j hj => h.1 j (by simp [hj]), fun j hj => h.2 j ?_⟩
  cases rest with
  | nil => cases hj
  | cons a as => exact List.mem_cons_of_mem _ hj

/-- Where a call may end, and what is then to come. -/
inductive Point (e : Env) (t0 : Tx) : List Token → Half → Tx → Prop where
  | wait {rest : List Response} {h : Half} {t : Tx} (w : Waits t0 h t) (hg : Good e rest) : Point e t0 (rest.flatMap Response.interimTokens) h t
  | head {i : Response} {rest : List Response} {b : Bytes} {h : Half} {t : Tx} (w : InBlock e t0 i b h t) (hs : h.status = .data)
      (hg : Good e (i :: rest)) :
      Point e t0 (loose b ++ rest.flatMap Response.interimTokens) h t

/-- The call comes to its end. -/
def Ends (e : Env) (t0 : Tx) (s : Conn) (evs : List Event) (later : List Token) (s1 : Conn) : Prop :=
  ∃ n s2 h t inp, Rounds (responseStep e) n s1 s2 ∧ responseStep e s2 = (.ok (some .data), rp s h t evs inp) ∧ Point e t0 later h t

theorem Ends.now {e : Env} {t0 : Tx} {s : Conn} {evs : List Event} {later : List Token} {s1 : Conn} {h : Half} {t : Tx} {inp : PData}
    (h1 : responseStep e s1 = (.ok (some .data), rp s h t evs inp)) (hp : Point e t0 later h t) : Ends e t0 s evs later s1 :=
  ⟨0, s1, h, t, inp, .zero _, h1, hp⟩

theorem Ends.after {e : Env} {t0 : Tx} {s : Conn} {evs : List Event} {later : List Token} {s1 s1' : Conn}
    (h1 : responseStep e s1 = (.ok none, s1')) (h : Ends e t0 s evs later s1') : Ends e t0 s evs later s1 := by
  obtain ⟨n, s2, h', t, inp, r, h2, hp⟩ := h
  exact ⟨n + 1, s2, h', t, inp, .next h1 r, h2, hp⟩

/-- The interim responses that are read, for one transaction. -/
structure Fits (e : Env) (s : Conn) (t0 : Tx) (is : List Response) : Prop where
  callbacks : CallbacksOK e
  method : t0.requestMethodNumber ≠ .connect
  index : t0.index = s.txs.response
  alive : s.resp.status ≠ .tunnel ∧ s.resp.status ≠ .closed
  good : Good e is

/-- The status line of the next interim response is awaited, and there is data. -/
def Lines (e : Env) (s : Conn) (t0 : Tx) (rest : List Response) : Prop :=
  ∀ (c later : List Token) (h : Half) (t : Tx) (evs : List Event) (d blk : Bytes) (q : Nat), c ++ later = rest.flatMap Response.interimTokens →
    LineReady s t0 h t → (c = [] → q = d.length ∧ h.receiver = some .responseHeaderData ∧ t.seen100Continue = true ∧ t.responseProgress = .line) →
    Ends e t0 s (evs ++ interimPieceCallbacks s.txs.response blk c) later (rp s h t evs (win (d ++ blk) (bytesOf c) q))

theorem interim_block {e : Env} {s : Conn} {t0 : Tx} {i : Response} {rest : List Response} (F : Fits e s t0 (i :: rest))
    (ih : Lines e s t0 rest) (c later : List Token) (h : Half) (t : Tx) (evs : List Event) (done b : Bytes)
    (hc : loose b ++ rest.flatMap Response.interimTokens = c ++ later) (w : InBlock e t0 i b h t) (hst : h.status = s.resp.status) :
    Ends e t0 s (evs ++ interimPieceCallbacks s.txs.response [] c) later (rp s h t evs (win done (bytesOf c) done.length)) := by
  obtain ⟨hi, hl1, hlf⟩ := F.good.1 i (by simp)
  obtain ⟨js, ls, hjl, hls, hb, htab⟩ := w.lines
  have hwl : ∀ x ∈ ls, x.WellFormed := fun x hx => hi.head.headers x (by rw [hjl]; simp [hx])
  have hal : Alive h := by unfold Alive; rw [hst]; exact F.alive
  rcases loose_split hc with ⟨a, b', hab, hb', rfl, hlater⟩ | ⟨c', rfl, hT⟩
  · subst hab
    obtain ⟨js', ms, rest', h1, h2, h3, h4, h5⟩ := pause_headers F.callbacks s h t evs done a b' _ w.hat.state hal w.hat.receiver
      w.parser w.hat.buf ls hwl (fun x hx => hlf x (by rw [hjl]; simp [hx])) (by omega) (by rw [List.append_assoc]; exact hb) hb'
    rw [bytesOf_loose, show loose a = loose a ++ [] from (List.append_nil _).symm, pieceCallbacks_loose]
    refine .now h5 ?_
    rw [hlater]
    refine .head (i := i) ⟨⟨w.hat.state, w.hat.previous, w.hat.buf, rfl, w.hat.receiver⟩, w.same, w.number, w.noLength, w.noBody, w.progress,
      w.parser, hb', h4, js ++ js', ms, by rw [hjl, h1, List.append_assoc], ?_, h3, htab.add js'⟩ rfl F.good
    intro h0
    have := h2 h0
    rw [this] at h1
    rw [hls this, (List.append_eq_nil_iff.mp h1.symm).1]
    rfl
  · rw [bytesOf_append, bytesOf_loose, pieceCallbacks_loose, List.nil_append]
    have hfol : AnswerFollows ls (bytesOf c') := by
      refine ⟨fun h0 => ?_, ?_⟩
      · have : rest = [] := by
          cases rest with
          | nil => rfl
          | cons j js2 => exact absurd (by rw [hjl, h0, hls h0]; rfl) (F.good.2 i (by simp))
        subst this
        rw [(List.append_eq_nil_iff.mp hT.symm).1]
        rfl
      · intro x hx
        cases rest with
        | nil =>
          rw [(List.append_eq_nil_iff.mp hT.symm).1] at hx
          cases hx
        | cons j js2 =>
          rw [List.flatMap_cons] at hT
          rcases line_split hT with ⟨rfl, -⟩ | ⟨c'', rfl, -⟩
          · cases hx
          · obtain ⟨cs, hcs⟩ := response_cons (F.good.1 j (by simp)).1.head
            have : (bytesOf (Token.line (j.line ++ [13, 10]) :: c'')).head? = some 72 := by
              rw [bytesOf_cons_line, hcs]
              rfl
            rw [this] at hx
            cases hx
            decide
    have h1 := headers_from (e := e) s h t evs done b (bytesOf c') done.length w.hat.state ls hwl hb hal w.progress hfol
    have htab2 := htab.add ls
    rw [← hjl] at htab2
    have hstored := htab2.stored hi.head.headers
    have hrep : (extras (fieldsOf i.headers) (fieldsOf i.headers).length) = 0 :=
      extras_zero (fun j hj => hi.repeated j (by simpa [fieldsOf] using hj))
    refine .after h1 ?_
    have h2 := (fun {h t evs done q} (_ : responseStep e _ = (.ok none, rp s h t evs (win done (bytesOf c') q))) =>
      interim_determine (e := e) hi s h t evs done (bytesOf c') q) h1 rfl hal hstored
      (by
        show t.requestMethodNumber ≠ _
        have := congrArg Tx.requestMethodNumber w.same
        rw [show t.requestMethodNumber = t0.requestMethodNumber from this]
        exact F.method) w.number
    refine .after h2 ?_
    refine ih c' later _ _ evs done b done.length hT.symm ⟨⟨rfl, rfl⟩, w.hat.buf, rfl, hst, w.same, rfl, ?_, w.noLength, w.noBody, w.parser⟩
      (fun _ => ⟨rfl, w.hat.receiver, rfl, rfl⟩)
    have h3 := htab2
    unfold Tabled at h3
    rw [stored_lines _ hi.head.headers, hrep] at h3
    exact congrArg Prod.snd h3

theorem interim_lines {e : Env} {s : Conn} {t0 : Tx} (rest : List Response) : Fits e s t0 rest → Lines e s t0 rest := by
  induction rest with
  | nil =>
    intro F c later h t evs d blk q hc hl h0
    obtain ⟨rfl, rfl⟩ := List.append_eq_nil_iff.mp hc
    obtain ⟨rfl, hr, hseen, hpr⟩ := h0 rfl
    have hal : Alive h := by unfold Alive; rw [hl.status]; exact F.alive
    exact .now (pause_received F.callbacks s h t evs d blk hl.state.1 hal hl.buf hl.header hr)
      (.wait (rest := []) ⟨hl.state, rfl, hl.header, rfl, hl.same, hseen, hl.noHeaders, hl.noRepetitions, hl.noLength, hl.noBody, hpr, hl.parser⟩ F.good)
  | cons i rest ih =>
    intro F c later h t evs d blk q hc hl h0
    have hal : Alive h := by unfold Alive; rw [hl.status]; exact F.alive
    have hc' := hc
    rw [List.flatMap_cons] at hc
    rcases line_split hc.symm with ⟨rfl, hlater⟩ | ⟨c', rfl, hT⟩
    · obtain ⟨rfl, hr, hseen, hpr⟩ := h0 rfl
      rw [List.nil_append] at hc'
      rw [hc']
      exact .now (pause_received F.callbacks s h t evs d blk hl.state.1 hal hl.buf hl.header hr)
        (.wait ⟨hl.state, rfl, hl.header, rfl, hl.same, hseen, hl.noHeaders, hl.noRepetitions, hl.noLength, hl.noBody, hpr, hl.parser⟩ F.good)
    · obtain ⟨hi, hl1, hlf⟩ := F.good.1 i (by simp)
      have h1 := answer_line F.callbacks hi.head s h t evs (d ++ blk) (bytesOf c') q hl.state.1 hl.state.2 hl.buf hl.header hal hl1
        (hl.index.trans F.index)
      rw [bytesOf_cons_line]
      refine .after h1 ?_
      show Ends e t0 s (evs ++ (.tx .responseLine s.txs.response :: interimPieceCallbacks s.txs.response [] c')) later _
      rw [show ∀ (x : Event) xs, evs ++ x :: xs = evs ++ [x] ++ xs from by simp]
      refine interim_block F (ih ⟨F.callbacks, F.method, F.index, F.alive, F.good.tail⟩) c' later _ _ _ _
        (renderBlock i.headers) hT ⟨⟨rfl, rfl, rfl, rfl, rfl⟩, hl.same, rfl, hl.noLength, hl.noBody, rfl, hl.parser, ?_, ?_, [], i.headers, rfl,
          fun _ => rfl, ?_, ?_⟩ hl.status
      · rw [renderBlock_lines]
        simp
      · show (h.header.getD []).length ≤ _
        rw [hl.header]
        exact Nat.zero_le _
      · show h.header.getD [] ++ _ = _
        rw [hl.header]
        rfl
      · show (t.responseHeaders, t.responseHeaderRepetitions) = ([], 0)
        rw [hl.noHeaders, hl.noRepetitions]

/-- One call. -/
theorem call_ends {e : Env} {t0 : Tx} {s : Conn} {b : Bytes} {evs : List Event} {later : List Token} (hb : b ≠ [])
    (hst : s.resp.status ≠ .stop ∧ s.resp.status ≠ .error ∧ s.resp.status ≠ .tunnel ∧ s.resp.status ≠ .closed)
    (hbuf : s.resp.buffered ≤ e.cfg.fieldLimit) (h : Ends e t0 (responseFed b s) evs later (responseFed b s)) :
    ∃ h t inp, responseData e (.ofBytes b) s = (.ok (some .data), rp (responseFed b s) h t evs inp) ∧ Point e t0 later h t := by
  obtain ⟨k, s2, h, t, inp, r1, h2, hp⟩ := h
  refine ⟨h, t, inp, ?_, hp⟩
  rw [responseData_data hb hst.1 hst.2.1 hst.2.2.1]
  have hok : RespOK e (responseFed b s) := ⟨toPData_wf (.data b), rfl, Nat.zero_le _, fun h => absurd h hst.2.2.2, hbuf⟩
  have hk : k < 16 * (b.length + 2 * s.resp.buf.length + 2) := by
    have := (response_rounds e r1 hok).2
    have := respMeasure_lt_rounds (responseFed b s)
    have hx : responseRounds (responseFed b s) = 16 * (b.length + 2 * s.resp.buf.length + 2) := by
      unfold responseRounds
      rw [show (responseFed b s).input.len = b.length from toPData_len (.data b)]
      rfl
    omega
  obtain ⟨N, hN⟩ : ∃ N, 16 * (b.length + 2 * s.resp.buf.length + 2) = k + (N + 1) :=
    ⟨16 * (b.length + 2 * s.resp.buf.length + 2) - k - 1, by omega⟩
  rw [hN, responseLoop_rounds _ r1]
  exact responseLoop_some (by omega) h2

/-- Between two calls: what is still to come, and the callbacks to be run before those of the next piece. -/
structure Cutting (e : Env) (t0 : Tx) (T : List Token) (start : List Event) (s : Conn) : Prop where
  sorted : Txs.Sorted s.txs.map
  notBlocked : s.responseDataOtherAtTxEnd = false
  here : (∃ is t, T = is.flatMap Response.interimTokens ∧ Good e is ∧ s.txs.get s.txs.response = some t ∧ NextStatusLine s t start ∧
      requestSide t = requestSide t0) ∨
    start = [] ∧ s.resp.status = .data ∧ ∃ i rest b t, T = loose b ++ rest.flatMap Response.interimTokens ∧ Good e (i :: rest) ∧
      s.txs.get s.txs.response = some t ∧ InBlock e t0 i b s.resp t

theorem tokens_bytes {e : Env} {is : List Response} (h : Good e is) : ∀ x ∈ is.flatMap Response.interimTokens, x.bytes ≠ [] := by
  intro x hx
  obtain ⟨i, hi, hx⟩ := List.mem_flatMap.mp hx
  rcases List.mem_cons.mp hx with rfl | hx
  · show i.line ++ [13, 10] ≠ []
    simp
  · obtain ⟨c, -, rfl⟩ := List.mem_map.mp hx
    exact List.cons_ne_nil _ _

theorem piece_bytes {c : List Token} (hc : c ≠ []) (h : ∀ x ∈ c, x.bytes ≠ []) : bytesOf c ≠ [] := by
  cases c with
  | nil => exact absurd rfl hc
  | cons x xs =>
    have := h x (by simp)
    unfold bytesOf
    rw [List.flatMap_cons]
    simp [this]

theorem Cutting.call {e : Env} (hcb : CallbacksOK e) {t0 : Tx} (ha : Spec.Asked t0) {c later : List Token} {start : List Event} {s : Conn}
    (hx : t0.index = s.txs.response) (hc : c ≠ []) (h : Cutting e t0 (c ++ later) start s) :
    ∃ s', responseData e (.ofBytes (bytesOf c)) s = (.ok (some .data), s') ∧ Cutting e t0 later [] s' ∧
      s'.trace = s.trace ++ (start ++ interimPieceCallbacks s.txs.response [] c) ∧
      s'.txs.response = s.txs.response ∧ (∀ j, j ≠ s.txs.response → s'.txs.get j = s.txs.get j) ∧
      s'.txs.request = s.txs.request ∧ s'.req = s.req := by
  have key : bytesOf c ≠ [] ∧ (s.resp.status ≠ .stop ∧ s.resp.status ≠ .error ∧ s.resp.status ≠ .tunnel ∧ s.resp.status ≠ .closed) ∧
      s.resp.buffered ≤ e.cfg.fieldLimit ∧
      Ends e t0 (responseFed (bytesOf c) s) (start ++ interimPieceCallbacks s.txs.response [] c) later (responseFed (bytesOf c) s) := by
    rcases h.here with ⟨is, t, hT, hg, ht, hn, hsame⟩ | ⟨rfl, hst, i, rest, b, t, hT, hg, ht, w⟩
    · have hb : bytesOf c ≠ [] := piece_bytes hc (fun x hx => tokens_bytes hg x (by rw [← hT]; simp [hx]))
      have hst : s.resp.status ≠ .stop ∧ s.resp.status ≠ .error ∧ s.resp.status ≠ .tunnel ∧ s.resp.status ≠ .closed := by
        rcases hn.status with h | h | h <;> rw [h] <;> decide
      have ha1 : Spec.Asked t := by
        refine ⟨?_, ?_, ?_⟩
        · rw [show t.requestProgress = t0.requestProgress from by have := congrArg Tx.requestProgress hsame; exact this]; exact ha.started
        · rw [show t.requestMethodNumber = t0.requestMethodNumber from by
            have := congrArg Tx.requestMethodNumber hsame; exact this]
          exact ha.notConnect
        · rw [show t.isProtocol09 = t0.isProtocol09 from by have := congrArg Tx.isProtocol09 hsame; exact this]; exact ha.notProtocol09
      refine ⟨hb, hst, ?_, ?_⟩
      · unfold Half.buffered
        rw [hn.buf.1, hn.buf.2]
        exact Nat.zero_le _
      · obtain ⟨k, h', t', r1, hl⟩ := hn.start (e := e) hcb h.sorted ht ha1 hb
        have F : Fits e (responseFed (bytesOf c) s) t0 is := ⟨hcb, ha.notConnect, hx, ⟨hst.2.2.1, hst.2.2.2⟩, hg⟩
        obtain ⟨n, s2, h2, t2, inp, r2, e2, hp⟩ := interim_lines is F c later h' t' start [] [] 0 hT
          ⟨hl.state, hl.buf, hl.header, hl.status, hl.same.trans hsame, hl.noHeaders, hl.noRepetitions, hl.noLength, hl.noBody, hl.parser⟩
          (fun h0 => absurd h0 hc)
        exact ⟨k + n, s2, h2, t2, inp, r1.append r2, e2, hp⟩
    · have hb : bytesOf c ≠ [] := piece_bytes hc (fun x hx => by
        have hx' : x ∈ c ++ later := by simp [hx]
        rw [hT] at hx'
        rcases List.mem_append.mp hx' with hx' | hx'
        · obtain ⟨c, -, rfl⟩ := List.mem_map.mp hx'
          exact List.cons_ne_nil _ _
        · exact tokens_bytes hg.tail x hx')
      refine ⟨hb, by rw [hst]; decide, ?_, ?_⟩
      · unfold Half.buffered
        rw [w.hat.buf]
        simpa using w.limit
      · have F : Fits e (responseFed (bytesOf c) s) t0 (i :: rest) := ⟨hcb, ha.notConnect, hx, by show s.resp.status ≠ _ ∧ s.resp.status ≠ _; rw [hst]; decide, hg⟩
        have hself := rp_self (s := responseFed (bytesOf c) s) (t := t) h.sorted ht (win [] (bytesOf c) 0) rfl
        have := interim_block F (interim_lines rest ⟨hcb, ha.notConnect, hx, F.alive, hg.tail⟩) c later (responseFed (bytesOf c) s).resp t []
          [] b hT.symm ⟨⟨w.hat.state, w.hat.previous, w.hat.buf, rfl, w.hat.receiver⟩, w.same, w.number, w.noLength, w.noBody, w.progress,
            w.parser, w.left, w.limit, w.lines⟩ rfl
        rw [show ([] : Bytes).length = 0 from rfl, hself] at this
        exact this
  obtain ⟨hb, hst, hbuf, hends⟩ := key
  obtain ⟨h', t', inp, h1, hp⟩ := call_ends hb hst hbuf hends
  refine ⟨_, h1, ⟨Txs.sorted_put _ _ _ h.sorted, h.notBlocked, ?_⟩, rfl, rfl, fun j hj => (Txs.get_set _ _ _ _).trans (if_neg hj), rfl, rfl⟩
  cases hp with
  | wait w hg =>
    exact .inl ⟨_, t', rfl, hg, rp_get _ _ _ _ _, .waiting ⟨rp_get _ _ _ _ _, w.state, w.buf, w.header, w.status, h.notBlocked, w.seen, w.noHeaders,
      w.noRepetitions, w.noLength, w.noBody, w.progress, w.parser⟩, w.same⟩
  | head w hs hg => exact .inr ⟨rfl, hs, _, _, _, t', rfl, hg, rp_get _ _ _ _ _, w⟩

end Ans

end Model
