/-
C67: bodies in a content coding, in pieces, to the end announced by a length or to the end of the connection.
-/
import Verif.Lemmas.DownloadRun
import Verif.Props.Answer
import Verif.Props.Decoder

namespace Props
open Model Spec

/-- The calls with the pieces of a body, as far as they are not the end. -/
theorem download_pieces {C : Codecs} {e : Env} {lzma : Bool} {layers : List Encoding} {Ds : List (Decoder C)}
    {t0 : Tx} {r : ResponseHead} {len : Option Nat} (ps : List Bytes) :
    ∀ {fed rest : List Bytes}, Decodable e lzma layers Ds (fed ++ ps ++ rest).flatten → (∀ p ∈ ps, p ≠ []) →
      (layers ≠ [] → SizesAllowed e.cfg.compressionOptions Ds (fed ++ ps ++ rest)) →
      (∀ n, len = some n → fed.flatten.length + ps.flatten.length < n) →
      ∀ {h : Half} {t : Tx} {ds : List Bytes}, Reads Ds layers t0 r len fed h t ds → h.status = .data →
      ∀ (s : Conn) (inp : PData), ∃ c h' t' ds' inp',
        responseAnswers e (ps.map .data) (rp s h t (r.sofar s.txs.response ds) inp) = ps.map (fun _ => .ok (some .data)) ∧
        feedResponse e (ps.map .data) (rp s h t (r.sofar s.txs.response ds) inp) =
          rp { s with responseDataCounter := c } h' t' (r.sofar s.txs.response ds') inp' ∧
        Reads Ds layers t0 r len (fed ++ ps) h' t' ds' ∧ h'.status = .data := by
  induction ps with
  | nil =>
    intro fed rest _ _ _ _ h t ds hr hst s inp
    exact ⟨s.responseDataCounter, h, t, ds, inp, rfl, rfl, by rw [List.append_nil]; exact hr, hst⟩
  | cons p ps ih =>
    intro fed rest hd hne hsz hl h t ds hr hst s inp
    obtain ⟨c, h1, t1, ds1, inp1, e1, hr1, hst1⟩ := call_piece (rest := ps ++ rest)
      (by simpa [List.append_assoc] using hd) (hne p (by simp)) (by simpa [List.append_assoc] using hsz) (fun n hn => by
        have := hl n hn
        rw [List.flatten_cons, List.length_append] at this
        have hq : ps.flatten.length ≥ 0 := Nat.zero_le _
        omega) hr hst s inp
    obtain ⟨c', h2, t2, ds2, inp2, e2, e3, hr2, hst2⟩ := ih (fed := fed ++ [p]) (rest := rest)
      (by simpa [List.append_assoc] using hd) (fun q hq => hne q (by simp [hq])) (by simpa [List.append_assoc] using hsz)
      (fun n hn => by
        have := hl n hn
        rw [List.flatten_cons, List.length_append] at this
        rw [List.flatten_append, List.length_append, List.flatten_singleton]
        omega) hr1 hst1 { s with responseDataCounter := c } inp1
    refine ⟨c', h2, t2, ds2, inp2, ?_, ?_, by simpa [List.append_assoc] using hr2, hst2⟩
    · show (responseData e (.ofBytes p) _).1 :: responseAnswers e (ps.map .data) (responseData e (.ofBytes p) _).2 = _
      rw [e1]
      exact congrArg _ e2
    · show feedResponse e (ps.map .data) (responseData e (.ofBytes p) _).2 = _
      rw [e1]
      exact e3

theorem responseAnswers_append (e : Env) (xs ys : List Chunk) : ∀ s,
    responseAnswers e (xs ++ ys) s = responseAnswers e xs s ++ responseAnswers e ys (feedResponse e xs s) ∧
    feedResponse e (xs ++ ys) s = feedResponse e ys (feedResponse e xs s) := by
  induction xs with
  | nil => exact fun s => ⟨rfl, rfl⟩
  | cons x xs ih =>
    intro s
    refine ⟨?_, (ih _).2⟩
    show _ :: responseAnswers e (xs ++ ys) _ = _ :: _
    rw [(ih _).1]
    rfl

/-- C67, bodies whose length is announced: the head of a response in one call and then its body, in any content coding the
library is configured to undo, in pieces of any length. Every call is answered with "more data". The callbacks for the head
are run, the body is handed out decoded and complete, and the end of the response and of the transaction are reported;
the transaction records the response, and the lengths of the body on the wire and of the decoded body. -/
theorem C67_sized {e : Env} {s : Conn} (hs : Reachable e s) (hcb : CallbacksOK e) (hb : BetweenResponses s)
    {C : Codecs} {lzma : Bool} (hdec : Decompresses e C lzma)
    {t : Tx} (hg : s.txs.get s.txs.response = some t) (ha : AwaitsBody t)
    {r : ResponseHead} (hw : r.WellFormed) (hlim : r.line.length + 2 ≤ e.cfg.fieldLimit)
    {layers : List Encoding} (hc : r.Coded e.cfg layers) {Ds : List (Decoder C)} (hD : DecodersFor C lzma layers.reverse Ds)
    {pieces : List Bytes} (hne : ∀ p ∈ pieces, p ≠ []) (hsome : pieces ≠ []) (hlen : r.Sized pieces.flatten.length)
    (hv : ValidEnd Ds pieces.flatten) (hsz : layers ≠ [] → SizesAllowed e.cfg.compressionOptions Ds pieces)
    (hfit : (decodeEnd Ds pieces.flatten).length < 2 ^ 64) :
    let calls := .data r.render :: pieces.map .data
    responseAnswers e calls s = calls.map (fun _ => .ok (some .data)) ∧
    Downloaded e.cfg.txAutoDestroy s (feedResponse e calls s) r (some pieces.flatten.length) pieces.flatten
      (decodeEnd Ds pieces.flatten) := by
  intro calls
  have hd : Decodable e lzma layers Ds pieces.flatten := ⟨hcb, hdec, hD, hv, hlen.fits, hfit⟩
  obtain ⟨ps, p, rfl⟩ : ∃ ps p, pieces = ps ++ [p] := ⟨_, _, (List.dropLast_concat_getLast hsome).symm⟩
  have hp := hne p (by simp)
  have hp0 : p.length ≠ 0 := by rw [ne_eq, List.length_eq_zero_iff]; exact hp
  have hfl : (ps ++ [p]).flatten = ps.flatten ++ p := by simp
  rw [hfl] at hd hlen ⊢
  rw [List.length_append] at hlen ⊢
  obtain ⟨c, h, t1, inp, e1, hr1⟩ := call_head (Ds := Ds) hcb hw hc (len := some (ps.flatten.length + p.length))
    ⟨hlen, by omega⟩ hb hg ((reachable_store hs).index _ _ hg) ha hlim
  obtain ⟨c', h2, t2, ds2, inp2, e2, e3, hr2, hst2⟩ := download_pieces (rest := [p]) ps (fed := []) (by simpa using hd)
    (fun q hq => hne q (by simp [hq])) (by simpa using hsz) (fun n hn => by
      cases hn
      simp only [List.flatten_nil, List.length_nil]
      omega) (h := { h with status := .data })
    ⟨hr1.state, hr1.left, hr1.buf, hr1.header, hr1.receiver, hr1.line, hr1.headers, hr1.coding, hr1.length, hr1.receives,
      hr1.decoded, hr1.filled⟩ rfl { s with responseDataCounter := c } inp
  obtain ⟨s', e4, h4⟩ := call_last (fed := ps) hd hp hsz ha.complete hw rfl hr2 hst2 s { s with responseDataCounter := c' } inp2 hg rfl rfl
    hb.notBlocked
  have e5 : feedResponse e [.data p] (rp { s with responseDataCounter := c' } h2 t2 (r.sofar s.txs.response ds2) inp2) = s' := by
    show (responseData e (.ofBytes p) _).2 = _
    rw [show responseData e (.ofBytes p) _ = _ from e4]
  have e6 : responseAnswers e [.data p] (rp { s with responseDataCounter := c' } h2 t2 (r.sofar s.txs.response ds2) inp2) =
      [.ok (some .data)] := by
    show (responseData e (.ofBytes p) _).1 :: [] = _
    rw [show responseData e (.ofBytes p) _ = _ from e4]
  constructor
  · show (responseData e (.ofBytes r.render) s).1 :: responseAnswers e _ (responseData e (.ofBytes r.render) s).2 = _
    rw [e1, List.map_append, (responseAnswers_append e _ _ _).1, e2, e3]
    show Except.ok (some StreamState.data) :: (_ ++ responseAnswers e [.data p]
      (rp { s with responseDataCounter := c' } h2 t2 (r.sofar s.txs.response ds2) inp2)) = _
    rw [e6]
    simp [calls]
  · show Downloaded _ s (feedResponse e _ (responseData e (.ofBytes r.render) s).2) _ _ _ _
    rw [e1, List.map_append, (responseAnswers_append e _ _ _).2, e3]
    exact e5 ▸ h4

/-- C67, bodies that end with the connection. Closing the connection reports the rest of the body, the end of the response
and that of the transaction. (For simplicity, nothing else is reported then: no request is under way, and incomplete
transactions are not to be reported.) -/
theorem C67_until_close {e : Env} (hflush : e.cfg.flushIncomplete = false) {s : Conn} (hs : Reachable e s) (hcb : CallbacksOK e)
    (hq : BetweenRequests s) (hb : BetweenResponses s)
    {C : Codecs} {lzma : Bool} (hdec : Decompresses e C lzma)
    {t : Tx} (hg : s.txs.get s.txs.response = some t) (ha : AwaitsBody t)
    {r : ResponseHead} (hw : r.WellFormed) (hlim : r.line.length + 2 ≤ e.cfg.fieldLimit) (hlen : r.UntilClose)
    {layers : List Encoding} (hc : r.Coded e.cfg layers) {Ds : List (Decoder C)} (hD : DecodersFor C lzma layers.reverse Ds)
    {pieces : List Bytes} (hne : ∀ p ∈ pieces, p ≠ [])
    (hv : ValidEnd Ds pieces.flatten) (hsz : layers ≠ [] → SizesAllowed e.cfg.compressionOptions Ds pieces)
    (hmsg : pieces.flatten.length < 2 ^ 64) (hfit : (decodeEnd Ds pieces.flatten).length < 2 ^ 64) :
    let calls := .data r.render :: pieces.map .data
    responseAnswers e calls s = calls.map (fun _ => .ok (some .data)) ∧
    ∃ s', closeConn e (feedResponse e calls s) = (.ok (some .data, some .data), s') ∧
      Downloaded e.cfg.txAutoDestroy s s' r none pieces.flatten (decodeEnd Ds pieces.flatten) := by
  intro calls
  have hd : Decodable e lzma layers Ds pieces.flatten := ⟨hcb, hdec, hD, hv, hmsg, hfit⟩
  obtain ⟨c, h, t1, inp, e1, hr1⟩ := call_head (Ds := Ds) hcb hw hc (len := none) hlen hb hg
    ((reachable_store hs).index _ _ hg) ha hlim
  obtain ⟨c', h2, t2, ds2, inp2, e2, e3, hr2, hst2⟩ := download_pieces (rest := []) pieces (fed := []) (by simpa using hd)
    hne (by simpa using hsz) (fun n hn => by cases hn) (h := { h with status := .data })
    ⟨hr1.state, hr1.left, hr1.buf, hr1.header, hr1.receiver, hr1.line, hr1.headers, hr1.coding, hr1.length, hr1.receives,
      hr1.decoded, hr1.filled⟩ rfl { s with responseDataCounter := c } inp
  have hlt : s.txs.response < s.txs.request := by
    rcases Nat.lt_or_ge s.txs.response s.txs.request with h | h
    · exact h
    · exfalso
      rcases Nat.lt_or_ge s.txs.request s.txs.response with h' | h'
      · rw [hq.beyond _ h'] at hg
        cases hg
      · rw [Nat.le_antisymm h' h] at hg
        rcases hq.next with hn | hn
        · rw [hn] at hg
          cases hg
        · rw [hn] at hg
          cases hg
          exact absurd ha.complete (by simp)
  obtain ⟨s', e4, h4⟩ := close_download hflush (fed := pieces) hd hsz ha.complete hw hr2 hst2 s { s with responseDataCounter := c' } inp2
    hg rfl rfl hb.notBlocked ⟨hq.state, hq.buf, hq.header, hq.receiver, hq.status, hq.next, hq.beyond⟩ hlt (reachable_bounded hs).1
  constructor
  · show (responseData e (.ofBytes r.render) s).1 :: responseAnswers e _ (responseData e (.ofBytes r.render) s).2 = _
    rw [e1]
    show _ = Except.ok (some StreamState.data) :: _
    rw [e2]
    simp
  · refine ⟨s', ?_, h4⟩
    have : feedResponse e calls s = rp { s with responseDataCounter := c' } h2 t2 (r.sofar s.txs.response ds2) inp2 := by
      show feedResponse e _ (responseData e (.ofBytes r.render) s).2 = _
      rw [e1]
      exact e3
    rw [this]
    exact e4

/-! ### Examples -/

/-- A decoding with the given outputs. -/
def decodingOf (ok : Bool) : List (Option Bytes) → Decoding
  | [] => .done ok
  | out :: outs => .call out fun _ => decodingOf ok outs

theorem decodingOf_outputs (ok : Bool) (outs : List (Option Bytes)) : decodingOutputs (decodingOf ok outs) = (outs, ok) := by
  induction outs with
  | nil => rfl
  | cons o os ih =>
    show (o :: (decodingOutputs (decodingOf ok os)).1, (decodingOutputs (decodingOf ok os)).2) = _
    rw [ih]

open Classical in
/-- The given decoding libraries, without a limit to the number of steps. -/
noncomputable def unlimited (C : Codecs) (lzma : Bool) (d : Decompressor) (data : Option Bytes) : Decoding :=
  if h : ∃ outs, ∃ N, ∀ fuel, N ≤ fuel → decodingOutputs (chainDecoding C lzma fuel d data) = outs then
    decodingOf h.choose.2 h.choose.1
  else .done false

/-- For all decoding libraries, there is an environment in which the decompressors use them. -/
theorem decompresses_unlimited (e : Env) (C : Codecs) (lzma : Bool) :
    Decompresses { e with decoder := fun _ _ => unlimited C lzma } C lzma := by
  intro tr k d data outs h
  show decodingOutputs (unlimited C lzma d data) = outs
  have hex : ∃ outs, ∃ N, ∀ fuel, N ≤ fuel → decodingOutputs (chainDecoding C lzma fuel d data) = outs := ⟨outs, h⟩
  unfold unlimited
  rw [dif_pos hex, decodingOf_outputs]
  obtain ⟨N, h1⟩ := hex.choose_spec
  obtain ⟨M, h2⟩ := h
  exact (h1 (max N M) (Nat.le_max_left _ _)).symm.trans (h2 (max N M) (Nat.le_max_right _ _))

/-- The decoding libraries of the example in every decompressor. -/
noncomputable def doublingEnv : Env := { sampleEnv with decoder := fun _ _ => unlimited stutter true }

/-- A request has been seen, and no response. -/
noncomputable def oneAsked : Conn := Conn.history doublingEnv [.request (.data (b! "GET / HTTP/1.1\r\nHost: a\r\n\r\n"))]

/-- Heads of responses with a body in the coding "deflate": of three bytes, and until the end of the connection. -/
def deflateHead : ResponseHead :=
  ⟨b! "HTTP/1.1", 200, b! "OK", [⟨b! "content-length", b! " ", b! "3", []⟩, ⟨b! "Content-Encoding", b! " ", b! "Deflate", []⟩]⟩
def deflateUntilClose : ResponseHead :=
  ⟨b! "HTTP/1.1", 200, b! "OK", [⟨b! "Content-Encoding", b! " ", b! "Deflate", []⟩]⟩

theorem deflateHead_wellFormed : deflateHead.WellFormed :=
  ⟨⟨.v1_1, by decide +kernel⟩, by decide, by decide +kernel, by
    have : ∀ h ∈ deflateHead.headers, (h.name ≠ [] ∧ ∀ c ∈ h.name, Tchar c) ∧ (∀ c ∈ h.value, c ≠ 13 ∧ c ≠ 10) ∧
       (∀ c ∈ h.value.head?, ¬ Blank c) ∧ (∀ c ∈ h.value.getLast?, ¬ Blank c) ∧ (∀ c ∈ h.before, c = 32 ∨ c = 9) ∧
       (∀ c ∈ h.after, c = 32 ∨ c = 9) := by decide +kernel
    exact fun h hh => ⟨(this h hh).1.1, (this h hh).1.2, (this h hh).2.1, (this h hh).2.2.1, (this h hh).2.2.2.1, (this h hh).2.2.2.2.1, (this h hh).2.2.2.2.2⟩⟩

theorem deflateUntilClose_wellFormed : deflateUntilClose.WellFormed :=
  ⟨⟨.v1_1, by decide +kernel⟩, by decide, by decide +kernel, fun h hh => deflateHead_wellFormed.headers h (by
    revert h
    decide +kernel)⟩
theorem deflateHead_sized : deflateHead.Sized [b! "a", b! "bc"].flatten.length :=
  ⟨fun h hh => (by decide +kernel : ∀ h ∈ deflateHead.headers, ¬ EqNocase h.name _) h hh.1 hh.2,
    ⟨⟨b! "content-length", b! " ", b! "3", []⟩, by decide +kernel, by decide +kernel⟩,
    fun h hh => (by decide +kernel : ∀ h ∈ deflateHead.headers, EqNocase h.name _ → h.value = _) h hh.1 hh.2, by decide +kernel⟩
theorem deflateUntilClose_ends : deflateUntilClose.UntilClose :=
  ⟨fun h hh => (by decide +kernel : ∀ h ∈ deflateUntilClose.headers, ¬ EqNocase h.name _) h hh.1 hh.2,
    fun h hh => (by decide +kernel : ∀ h ∈ deflateUntilClose.headers, ¬ EqNocase h.name _) h hh.1 hh.2, by decide +kernel,
    .inl fun h hh => (by decide +kernel : ∀ h ∈ deflateUntilClose.headers, ¬ EqNocase h.name _) h hh.1 hh.2⟩

theorem deflateHead_coded : deflateHead.Coded doublingEnv.cfg [.deflate] :=
  .one (v := b! "Deflate") (enc := .deflate) rfl ⟨[_], _, [], rfl, by decide +kernel, rfl, by decide +kernel⟩ (.inl (by decide +kernel))
theorem deflateUntilClose_coded : deflateUntilClose.Coded doublingEnv.cfg [.deflate] :=
  .one (v := b! "Deflate") (enc := .deflate) rfl ⟨[], _, [], rfl, by decide +kernel, rfl, by decide +kernel⟩ (.inl (by decide +kernel))

theorem twice_length (x : Bytes) : (twice x).length = 2 * x.length := by
  induction x with
  | nil => rfl
  | cons c x ih =>
    show (c :: c :: twice x).length = _
    simp only [List.length_cons, ih]
    omega

theorem doubling_sizes (pieces : List Bytes) (h : pieces.flatten.length ≤ 500000) :
    SizesAllowed doublingEnv.cfg.compressionOptions [stutterDecoder] pieces := by
  refine ⟨fun done rest hp => .inl ?_, .inl ?_⟩
  · show (twice done.flatten).length ≤ 1048576
    rw [twice_length]
    rw [hp, List.flatten_append, List.length_append] at h
    omega
  · show (twice pieces.flatten ++ []).length ≤ 1048576
    rw [List.append_nil, twice_length]
    omega

set_option maxRecDepth 8000 in
theorem oneAsked_facts : Reachable doublingEnv oneAsked ∧ BetweenRequests oneAsked ∧ BetweenResponses oneAsked ∧
    oneAsked.txs.response = 0 ∧ ∃ t, oneAsked.txs.get oneAsked.txs.response = some t ∧ AwaitsBody t := by
  refine ⟨.history _ (by decide_cbv), ⟨by decide_cbv, by decide_cbv, by decide_cbv, by decide_cbv, .inr (.inr (.inl (by decide_cbv))),
    .inr (by decide_cbv), ?_⟩, ⟨by decide_cbv, by decide_cbv, by decide_cbv, by decide_cbv, .inl (by decide_cbv), by decide_cbv⟩,
    by decide_cbv, ?_⟩
  · have hkeys : oneAsked.txs.map.map (·.1) = [0, 1] ∧ oneAsked.txs.request = 1 := by decide_cbv
    intro j hj
    rcases hl : oneAsked.txs.get j with _ | t
    · rfl
    · have := (Txs.mem_keys_iff oneAsked.txs.map j).2 (by
        show (oneAsked.txs.get j).isSome = true
        rw [hl]
        rfl)
      rw [hkeys.1] at this
      rw [hkeys.2] at hj
      simp only [List.mem_cons, List.not_mem_nil, or_false] at this
      omega
  · have h : (oneAsked.txs.get oneAsked.txs.response).any (fun t => decide (t.requestProgress = .complete ∧
        responseSide t = { index := 0 } ∧ t.requestMethodNumber ≠ .connect ∧ t.requestMethodNumber ≠ .head ∧ t.isProtocol09 = false ∧
        t.requestHeaders.getNocase (b! "expect") = none)) = true := by decide_cbv
    rcases ht : oneAsked.txs.get oneAsked.txs.response with _ | t
    · rw [ht] at h; cases h
    · rw [ht] at h
      obtain ⟨h1, h2, h3, h4, h5, h6⟩ := of_decide_eq_true h
      exact ⟨t, rfl, h1, h2, h3, h4, h5, h6⟩

/-- Case for C67: a body of three bytes in two pieces, which is handed out as six bytes. -/
example :
    let calls := [.data deflateHead.render, .data (b! "a"), .data (b! "bc")]
    responseAnswers doublingEnv calls oneAsked = calls.map (fun _ => .ok (some .data)) ∧
    Downloaded false oneAsked (feedResponse doublingEnv calls oneAsked) deflateHead (some 3) (b! "abc") (b! "aabbcc") := by
  obtain ⟨h1, -, h3, -, t, h4, h5⟩ := oneAsked_facts
  exact C67_sized h1 (fun _ _ => rfl) h3 (decompresses_unlimited sampleEnv stutter true) h4 h5 deflateHead_wellFormed (by decide +kernel)
    deflateHead_coded (Ds := [stutterDecoder]) ⟨stutter_deflate, trivial⟩ (pieces := [b! "a", b! "bc"]) (by decide) (by decide)
    deflateHead_sized ⟨trivial, trivial⟩ (fun _ => doubling_sizes _ (by decide +kernel)) (by decide +kernel)

/-- Case for C67: the same body, until the end of the connection. -/
example :
    let calls := [.data deflateUntilClose.render, .data (b! "a"), .data (b! "bc")]
    responseAnswers doublingEnv calls oneAsked = calls.map (fun _ => .ok (some .data)) ∧
    ∃ s', closeConn doublingEnv (feedResponse doublingEnv calls oneAsked) = (.ok (some .data, some .data), s') ∧
      Downloaded false oneAsked s' deflateUntilClose none (b! "abc") (b! "aabbcc") := by
  obtain ⟨h1, h2, h3, -, t, h4, h5⟩ := oneAsked_facts
  exact C67_until_close rfl h1 (fun _ _ => rfl) h2 h3 (decompresses_unlimited sampleEnv stutter true) h4 h5
    deflateUntilClose_wellFormed (by decide +kernel) deflateUntilClose_ends
    deflateUntilClose_coded (Ds := [stutterDecoder]) ⟨stutter_deflate, trivial⟩ (pieces := [b! "a", b! "bc"]) (by decide)
    ⟨trivial, trivial⟩ (fun _ => doubling_sizes _ (by decide +kernel)) (by decide +kernel) (by decide +kernel)

set_option maxRecDepth 16000 in
/-- The callbacks with body data, computed with a limited number of steps. -/
example :
    let e : Env := { sampleEnv with decoder := fun _ _ => chainDecoding stutter true 30 }
    let s := feedResponse e [.data deflateHead.render, .data (b! "a"), .data (b! "bc")]
      (Conn.history e [.request (.data (b! "GET / HTTP/1.1\r\nHost: a\r\n\r\n"))])
    delivered .responseBodyData 0 s.trace = (b! "aabbcc").map some := by
  decide_cbv

end Props
