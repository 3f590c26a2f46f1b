/-
Responses cut into pieces: headers, bodies and trailers.
-/
import Verif.Lemmas.AnsGo

namespace Model.Ans

open M Spec Props

theorem _root_.Model.LineRead.moved {t0 : Tx} {r : Response} {t : Tx} (h : LineRead t0 r t) (p : Progress) (hp : p ≠ .complete)
    (ml el : Nat) (hd : Headers) (rep : Nat) :
    LineRead t0 r { t with
      responseProgress := p, responseMessageLen := ml, responseEntityLen := el, responseHeaders := hd
      responseHeaderRepetitions := rep } :=
  ⟨h.same, h.line, h.protocol, h.protocolNumber, h.status, h.statusNumber, h.message, hp⟩

theorem HeadDone.moved {r : Response} {t : Tx} (h : HeadDone r t) (p : Progress)
    (ml el : Nat) (hd : Headers) (rep : Nat) :
    HeadDone r { t with
      responseProgress := p, responseMessageLen := ml, responseEntityLen := el, responseHeaders := hd
      responseHeaderRepetitions := rep } :=
  ⟨h.encoding, h.coding, h.size⟩

section
variable {e : Env} {g : Log Event.ofResponse} {s0 : Conn} {all : List Response}

theorem Amid.moved {auto : Bool} {pre post : List Response} {r : Response} {s : Conn} {t0 t : Tx}
    (am : Amid auto s0 all pre r post s t0 t)
    {h : Half} (hst : h.status = .new ∨ h.status = .open ∨ h.status = .data) (p : Progress)
    (ml el : Nat) (hd : Headers) (rep : Nat) (evs : List Event) (inp : PData) :
    Amid auto s0 all pre r post
      (rp s h { t with
        responseProgress := p, responseMessageLen := ml, responseEntityLen := el, responseHeaders := hd
        responseHeaderRepetitions := rep } evs inp) t0
      { t with
        responseProgress := p, responseMessageLen := ml, responseEntityLen := el, responseHeaders := hd
        responseHeaderRepetitions := rep } :=
  ⟨am.split, am.upto.rp hst am.here _ _ _, am.old, am.ans, rp_get _ _ _ _ _, am.parser⟩

theorem sized_length {head : Bool} {r : Response} (hw : r.WellFormed head) {content : Bytes} (hb : r.body = .sized content) :
    content.length < 2 ^ 64 := by
  have := hw.length
  rw [hb] at this
  exact this

theorem chunked_facts {head : Bool} {r : Response} (hw : r.WellFormed head) {cs : List BodyChunk} {last : Bytes}
    {trailer : List HeaderLine} (hb : r.body = .chunked cs last trailer) :
    (∀ c ∈ cs, c.Valid) ∧ SizeLine last 0 ∧ (∀ h ∈ trailer, h.WellFormed) ∧ (carried cs).length < 2 ^ 64 := by
  have h1 := hw.framed
  have h2 := hw.length
  unfold Response.Framed at h1
  rw [hb] at h1 h2
  exact ⟨h1.2.2.2.1, h1.2.2.2.2.1, h1.2.2.2.2.2, h2⟩

/-- A body of announced length. -/
theorem run_sized (F : Fit e s0 all) {s : Conn} {pre : List Response} {r : Response} {post : List Response} {d b : Bytes}
    {t0 t : Tx} (am : Amid e.cfg.txAutoDestroy s0 all pre r post s t0 t) (ht : LineRead t0 r t) (hh : HeadDone r t)
    (hbody : r.body = .sized (d ++ b)) (hne : b ≠ [])
    (hat : At s.resp .bodyIdentityClKnown [] none none) (hl : s.resp.bodyDataLeft = some b.length)
    (hlen : t.responseEntityLen = d.length)
    (htab : Tabled t r.headers) (tr : TracedBody g (soFar s0 pre r s.txs.response) s.txs.response d s)
    {c later : List Token} (ih : Goes e g s0 all c.length) {done : Bytes} {q : Nat} (hi : s.input = win done (bytesOf c) q)
    (hc : loose b ++ post.flatMap Response.tokens = c ++ later) : Pauses e g s0 all later s := by
  have hw := am.ans.response
  have hsize := sized_length hw hbody
  rw [List.length_append] at hsize
  have hself := rp_self am.upto.sorted am.here _ hi
  rcases loose_split hc with ⟨a, b', hab, hb, rfl, hlater⟩ | ⟨c', rfl, hT⟩
  · rw [bytesOf_loose] at hself
    subst hab
    rw [List.length_append] at hl hsize
    obtain ⟨inp, n, ml, h1⟩ := pause_identity F.callbacks s s.resp t [] done a q b'.length hat.state am.upto.alive hat.receiver hl
      (by rw [ne_eq, List.length_eq_zero_iff]; exact hb) hh.encoding (by rw [hlen]; omega)
    rw [hself] at h1
    refine .now h1 ?_
    rw [hlater]
    refine .sized (d := d ++ a) (am.moved (.inr (.inr rfl)) _ ml _ _ _ _ _) (ht.moved _ ht.progress _ _ _ _) (hh.moved _ _ _ _ _)
      (by rw [hbody, List.append_assoc]) hb ⟨hat.state, hat.previous, hat.buf, hat.header, hat.receiver⟩ rfl ?_ htab (tr.add rfl)
    show t.responseEntityLen + _ = _
    rw [hlen, List.length_append]
  · rw [bytesOf_append, bytesOf_loose] at hself
    have h1 := answer_identity F.callbacks s s.resp t [] done b (bytesOf c') q hat.state am.upto.alive hl hne
      hh.encoding (by rw [hlen]; omega)
    rw [hself] at h1
    refine .after h1 ?_
    have hcl : c'.length ≤ (loose b ++ c').length := by rw [loose_len]; omega
    refine run_final F (p := []) (c := c') (done := done ++ b) (q := q)
      (am.moved (by exact am.upto.status) _ _ _ _ _ _ _) (ht.moved _ ht.progress _ _ _ _) (hh.moved _ _ _ _ _)
      ?_ ?_ ?_ ?_ (ih.mono hcl) rfl (.inl ⟨rfl, hT⟩)
    · exact ⟨rfl, rfl, hat.buf, hat.header, hat.receiver⟩
    · show t.responseEntityLen + _ = _
      rw [hlen, hbody]
      simp [Body.content]
    · have : Tabled t (r.headers ++ r.body.trailer) := by rw [hbody]; simpa [Body.trailer] using htab
      exact this
    · have h2 : r.body.answerCallbacks s.txs.response = answerBodyCallbacks s.txs.response (d ++ b) := by
        rw [hbody]
        exact if_neg (by simp [hne])
      show Traced _ (_ ++ r.body.answerCallbacks s.txs.response) _
      rw [h2]
      exact tr.close hne rfl

/-- A chunk-size line. -/
theorem run_size {s : Conn} {pre : List Response} {r : Response} {post : List Response} {cs ds : List BodyChunk}
    {last : Bytes} {trailer : List HeaderLine} {t0 t : Tx}
    (am : Amid e.cfg.txAutoDestroy s0 all pre r post s t0 t) (ht : LineRead t0 r t) (hh : HeadDone r t)
    (hbody : r.body = .chunked (cs ++ ds) last trailer) (hat : At s.resp .bodyChunkedLength [] none none)
    (hlen : t.responseEntityLen = (carried cs).length) (htab : Tabled t r.headers)
    (tr : Traced g (soFar s0 pre r s.txs.response ++ chunkEvents s.txs.response cs) s)
    {c later : List Token} (ih : Goes e g s0 all c.length) {done : Bytes} {q : Nat} (hi : s.input = win done (bytesOf c) q)
    (hc : chunksLeft ds last trailer post = c ++ later) :
    Pauses e g s0 all later s := by
  have hw := am.ans.response
  obtain ⟨hv, hlast, -, -⟩ := chunked_facts hw hbody
  have hself := rp_self am.upto.sorted am.here _ hi
  have hpause : c = [] → Pauses e g s0 all later s := by
    rintro rfl
    obtain ⟨inp, h1⟩ := pause_size (e := e) s s.resp t [] done q hat.state hat.receiver (by
      unfold Half.buffered
      rw [hat.buf, hat.header]
      exact Nat.zero_le _)
    rw [show win done [] q = win done (bytesOf []) q from rfl, hself] at h1
    refine .now h1 ?_
    rw [← (show _ = later from hc)]
    exact .size (am.moved (.inr (.inr rfl)) _ _ _ _ _ _ _) (ht.moved _ ht.progress _ _ _ _) (hh.moved _ _ _ _ _) hbody
      ⟨hat.state, hat.previous, hat.buf, hat.header, hat.receiver⟩ hlen htab (tr.same (List.append_nil _))
  cases ds with
  | nil =>
    rcases line_split hc with ⟨h, -⟩ | ⟨c', rfl, hT⟩
    · exact hpause h
    · rw [bytesOf_cons_line] at hself
      have h1 := answer_last (e := e) s s.resp t [] done last (bytesOf c') q hat.state hat.previous am.upto.alive hat.buf hlast
      rw [hself] at h1
      refine .after h1 ?_
      refine ih c' later _ _ _ (by simp) ?_ rfl (fun _ => rfl) (by simp [rp_resp])
      rw [← hT]
      rw [List.append_nil] at hbody
      have htab' : Tabled t (r.headers ++ []) := by simpa using htab
      refine .trailer (js := []) (ls := trailer) (d := []) (header := none)
        (am.moved (by exact am.upto.status) .trailer _ _ _ _ _ _) (ht.moved .trailer (by decide) _ _ _ _) (hh.moved _ _ _ _ _)
        hbody rfl (fun _ => rfl) rfl (by rw [renderBlock_lines]; simp) rfl (by simp) rfl
        ⟨rfl, rfl, hat.buf, hat.header, rfl⟩ hlen htab' (tr.raw (List.append_nil _) _ _)
  | cons ch ds =>
    obtain ⟨hs, hd0, hd1⟩ := hv ch (by simp)
    rcases line_split (l := ch.line) (T := loose ch.data ++ (loose [13, 10] ++ chunksLeft ds last trailer post)) (by
        rw [← hc]
        simp [chunksLeft, answerChunkTokens, loose]) with ⟨h, -⟩ | ⟨c', rfl, hT⟩
    · exact hpause h
    · rw [bytesOf_cons_line] at hself
      have h1 := answer_size (e := e) s s.resp t [] done ch.line (bytesOf c') q ch.data.length hat.state am.upto.alive hat.buf hs
        hd1 (by rw [ne_eq, List.length_eq_zero_iff]; exact hd0)
      rw [hself] at h1
      refine .after h1 ?_
      refine ih c' later _ _ _ (by simp) ?_ rfl ?_ (by simp [rp_resp])
      · rw [← hT]
        exact .data (d := []) (b := ch.data) (am.moved (by exact am.upto.status) _ _ _ _ _ _ _)
          (ht.moved _ ht.progress _ _ _ _) (hh.moved _ _ _ _ _) hbody rfl hd0
          ⟨rfl, rfl, hat.buf, hat.header, hat.receiver⟩ rfl hlen htab (traced_body tr (List.append_nil _) _)
      · intro h
        exact absurd hat.receiver h

/-- The data of a chunk. -/
theorem run_data (F : Fit e s0 all) {s : Conn} {pre : List Response} {r : Response} {post : List Response}
    {cs ds : List BodyChunk} {ch : BodyChunk} {last : Bytes} {trailer : List HeaderLine} {d b : Bytes} {t0 t : Tx}
    (am : Amid e.cfg.txAutoDestroy s0 all pre r post s t0 t) (ht : LineRead t0 r t) (hh : HeadDone r t)
    (hbody : r.body = .chunked (cs ++ ch :: ds) last trailer) (hch : ch.data = d ++ b) (hne : b ≠ [])
    (hat : At s.resp .bodyChunkedData [] none none) (hl : s.resp.chunkedLength = some b.length)
    (hlen : t.responseEntityLen = (carried cs).length + d.length) (htab : Tabled t r.headers)
    (tr : TracedBody g (soFar s0 pre r s.txs.response ++ chunkEvents s.txs.response cs) s.txs.response d s)
    {c later : List Token} (ih : Goes e g s0 all c.length) {done : Bytes} {q : Nat} (hi : s.input = win done (bytesOf c) q)
    (hc : loose b ++ (loose [13, 10] ++ chunksLeft ds last trailer post) = c ++ later) :
    Pauses e g s0 all later s := by
  have hw := am.ans.response
  obtain ⟨-, -, -, hsize⟩ := chunked_facts hw hbody
  have hcar : (carried (cs ++ ch :: ds)).length = (carried cs).length + (d.length + b.length) + (carried ds).length := by
    simp only [carried, List.flatMap_append, List.flatMap_cons, hch, List.length_append]
    omega
  rw [hcar] at hsize
  have hself := rp_self am.upto.sorted am.here _ hi
  rcases loose_split hc with ⟨a, b', hab, hb, rfl, hlater⟩ | ⟨c', rfl, hT⟩
  · rw [bytesOf_loose] at hself
    subst hab
    rw [List.length_append] at hl hsize
    obtain ⟨inp, n, ml, h1⟩ := pause_data F.callbacks s s.resp t [] done a q b'.length hat.state hat.receiver hl
      (by rw [ne_eq, List.length_eq_zero_iff]; exact hb) hh.encoding (by rw [hlen]; omega)
    rw [hself] at h1
    refine .now h1 ?_
    rw [hlater]
    refine .data (d := d ++ a) (am.moved (.inr (.inr rfl)) _ ml _ _ _ _ _) (ht.moved _ ht.progress _ _ _ _) (hh.moved _ _ _ _ _)
      hbody
      (by rw [hch, List.append_assoc]) hb ⟨hat.state, hat.previous, hat.buf, hat.header, hat.receiver⟩ rfl ?_ htab (tr.add rfl)
    show t.responseEntityLen + _ = _
    rw [hlen, List.length_append, Nat.add_assoc]
  · rw [bytesOf_append, bytesOf_loose] at hself
    have h1 := answer_data F.callbacks s s.resp t [] done b (bytesOf c') q hat.state am.upto.alive hl hne
      hh.encoding (by rw [hlen]; omega)
    rw [hself] at h1
    refine .after h1 ?_
    have hbl : b.length ≠ 0 := by rw [ne_eq, List.length_eq_zero_iff]; exact hne
    refine ih c' later _ _ _ (by rw [loose_len]; omega) ?_ rfl ?_ (by simp [rp_resp])
    · rw [← hT]
      refine .dataEnd (cs := cs ++ [ch]) (ds := ds) (x := [13]) (am.moved (by exact am.upto.status) _ _ _ _ _ _ _)
        (ht.moved _ ht.progress _ _ _ _) (hh.moved _ _ _ _ _)
        (by rw [hbody]; simp) (by decide) ⟨rfl, rfl, hat.buf, hat.header, hat.receiver⟩ ?_ htab ?_
      · show t.responseEntityLen + _ = _
        rw [hlen]
        simp only [carried, List.flatMap_append, List.flatMap_cons, hch, List.length_append, List.flatMap_nil, List.length_nil]
        omega
      · have h2 := tr.close hne (s' := rp s s.resp t (answerBodyCallbacks s.txs.response b) s.input) (by simp [rp])
        rw [← hch, List.append_assoc] at h2
        show Traced _ (_ ++ chunkEvents s.txs.response _) _
        have h3 : chunkEvents s.txs.response (cs ++ [ch]) =
            chunkEvents s.txs.response cs ++ answerBodyCallbacks s.txs.response ch.data := by
          simp [chunkEvents]
        rw [h3]
        exact h2.same rfl
    · intro h
      exact absurd hat.receiver h

/-- The line end after the data of a chunk. -/
theorem run_dataEnd {s : Conn} {pre : List Response} {r : Response} {post : List Response} {cs ds : List BodyChunk}
    {last : Bytes} {trailer : List HeaderLine} {x : Bytes} {t0 t : Tx}
    (am : Amid e.cfg.txAutoDestroy s0 all pre r post s t0 t) (ht : LineRead t0 r t) (hh : HeadDone r t)
    (hbody : r.body = .chunked (cs ++ ds) last trailer) (hx : (10 : UInt8) ∉ x ∧ x.length ≤ 1)
    (hat : At s.resp .bodyChunkedDataEnd [] none none)
    (hlen : t.responseEntityLen = (carried cs).length) (htab : Tabled t r.headers)
    (tr : Traced g (soFar s0 pre r s.txs.response ++ chunkEvents s.txs.response cs) s)
    {c later : List Token} (ih : Goes e g s0 all c.length) {done : Bytes} {q : Nat} (hi : s.input = win done (bytesOf c) q)
    (hc : loose (x ++ [10]) ++ chunksLeft ds last trailer post = c ++ later) : Pauses e g s0 all later s := by
  have hself := rp_self am.upto.sorted am.here _ hi
  rcases loose_split hc with ⟨a, b, hab, hb, rfl, hlater⟩ | ⟨c', rfl, hT⟩
  · have hb' := List.dropLast_concat_getLast hb
    obtain ⟨hxa, h10⟩ := List.append_inj' (s₁ := x) (t₁ := [10]) (s₂ := a ++ b.dropLast) (t₂ := [b.getLast hb])
      (by rw [List.append_assoc, hb']; exact hab) rfl
    have h10 : b = b.dropLast ++ [10] := by
      rw [h10]
      exact hb'.symm
    rw [bytesOf_loose] at hself
    obtain ⟨inp, ml, h1⟩ := pause_dataEnd (e := e) s s.resp t [] done a q hat.state hat.receiver
      (fun h => hx.1 (by rw [hxa]; simp [h]))
    rw [hself] at h1
    refine .now h1 ?_
    rw [hlater, h10]
    exact .dataEnd (am.moved (.inr (.inr rfl)) _ _ _ _ _ _ _) (ht.moved _ ht.progress _ _ _ _) (hh.moved _ _ _ _ _) hbody
      ⟨fun h => hx.1 (by rw [hxa]; simp [h]), by
        have := hx.2
        rw [hxa, List.length_append] at this
        omega⟩
      ⟨hat.state, hat.previous, hat.buf, hat.header, hat.receiver⟩ hlen htab (tr.same (List.append_nil _))
  · rw [bytesOf_append, bytesOf_loose] at hself
    have h1 := dataEnd_from (e := e) s s.resp t [] done x (bytesOf c') q hat.state am.upto.alive hx.1
    rw [hself] at h1
    refine .after h1 ?_
    refine ih c' later _ _ _ (by rw [loose_len]; simp) ?_ rfl ?_ (by simp [rp_resp])
    · rw [← hT]
      exact .size (am.moved (by exact am.upto.status) _ _ _ _ _ _ _) (ht.moved _ ht.progress _ _ _ _) (hh.moved _ _ _ _ _) hbody
        ⟨rfl, rfl, hat.buf, hat.header, hat.receiver⟩ hlen htab (tr.same (List.append_nil _))
    · intro h
      exact absurd hat.receiver h

/-- The trailer. -/
theorem run_trailer (F : Fit e s0 all) {s : Conn} {pre : List Response} {r : Response} {post : List Response}
    {cs : List BodyChunk} {last : Bytes} {trailer : List HeaderLine} {header : Option Bytes} {d b : Bytes}
    {js ls : List HeaderLine} {t0 t : Tx}
    (am : Amid e.cfg.txAutoDestroy s0 all pre r post s t0 t) (ht : LineRead t0 r t) (hh : HeadDone r t)
    (hbody : r.body = .chunked cs last trailer) (hjl : trailer = js ++ ls)
    (hls : ls = [] → js = []) (hb : header.getD [] ++ b = renderBlock ls) (hd : d ++ b = renderBlock trailer)
    (hp : t.responseProgress = .trailer)
    (hat : At s.resp .headers [] header (some .responseTrailerData))
    (hlen : t.responseEntityLen = (carried cs).length) (htab : Tabled t (r.headers ++ js))
    (tr : TracedRaw g (soFar s0 pre r s.txs.response ++ chunkEvents s.txs.response cs) .responseTrailerData
      s.txs.response d s)
    {c later : List Token} (ih : Goes e g s0 all c.length) {done : Bytes} (hi : s.input = win done (bytesOf c) done.length)
    (hc : loose b ++ post.flatMap Response.tokens = c ++ later) : Pauses e g s0 all later s := by
  have hmem : r ∈ all := by rw [am.split]; simp
  have hw := am.ans.response
  obtain ⟨-, -, htr, -⟩ := chunked_facts hw hbody
  have hlim := F.fields r hmem
  have hlim1 := F.line r hmem
  have hwl : ∀ x ∈ ls, x.WellFormed := fun x hx => htr x (by rw [hjl]; simp [hx])
  have hself := rp_self am.upto.sorted am.here _ hi
  rcases loose_split hc with ⟨a, b', hab, hb', rfl, hlater⟩ | ⟨c', rfl, hT⟩
  · rw [bytesOf_loose] at hself
    subst hab
    obtain ⟨js', ms, rest, h1, h2, h3, h4, h5⟩ := pause_headers F.callbacks s s.resp t [] done a b' _ hat.state
      am.upto.alive hat.receiver am.parser hat.buf ls hwl
      (fun x hx => hlim x (by rw [hbody, Body.trailer, hjl]; simp [hx])) (by omega)
      (by rw [hat.header, List.append_assoc]; exact hb) hb'
    rw [hself] at h5
    refine .now h5 ?_
    rw [hlater]
    refine .trailer (js := js ++ js') (ls := ms) (d := d ++ a) (header := some rest)
      (am.moved (.inr (.inr rfl)) _ _ _ _ _ _ _) (ht.moved _ ht.progress _ _ _ _) (hh.moved _ _ _ _ _)
      hbody (by rw [hjl, h1, List.append_assoc]) ?_ h3 hb'
      (by rw [List.append_assoc]; exact hd) h4 hp ⟨hat.state, hat.previous, hat.buf, rfl, hat.receiver⟩ hlen
      (by rw [← List.append_assoc]; exact htab.add js') (tr.add rfl)
    intro h
    have := h2 h
    rw [this] at h1
    rw [hls this, (List.append_eq_nil_iff.mp h1.symm).1]
    rfl
  · rw [bytesOf_append, bytesOf_loose] at hself
    have hfol : AnswerFollows ls (bytesOf c') := by
      have h0 := F.follows_trailer am.split hbody hT
      exact ⟨fun h => h0.1 (by rw [hjl, h, hls h]; rfl), h0.2⟩
    have h1 := trailer_from F.callbacks ls hwl s s.resp t [] done b (bytesOf c') hat.state
      (by rw [hat.header]; exact hb) hat.receiver am.upto.alive hp hfol
    rw [hself] at h1
    refine .after h1 ?_
    have hcl : c'.length ≤ (loose b ++ c').length := by rw [loose_len]; omega
    refine run_final F (p := []) (c := c') (done := done ++ b) (q := (done ++ b).length)
      (am.moved (by exact am.upto.status) _ _ _ _ _ _ _) (ht.moved _ ht.progress _ _ _ _) (hh.moved _ _ _ _ _)
      ?_ ?_ ?_ ?_ (ih.mono hcl) rfl (.inl ⟨rfl, hT⟩)
    · exact ⟨rfl, rfl, hat.buf, rfl, rfl⟩
    · rw [hbody]
      exact hlen
    · rw [hbody, Body.trailer, hjl, ← List.append_assoc]
      exact htab.add ls
    · have h2 : soFar s0 pre r s.txs.response ++ r.body.answerCallbacks s.txs.response =
          soFar s0 pre r s.txs.response ++ chunkEvents s.txs.response cs ++
            [.data .responseTrailerData s.txs.response (.ofBytes (d ++ b)), .tx .responseTrailer s.txs.response] := by
        rw [hbody, hd, List.append_assoc]
        rfl
      show Traced _ (soFar s0 pre r s.txs.response ++ r.body.answerCallbacks s.txs.response) _
      rw [h2]
      exact tr.close (by decide) rfl

/-- The header block. -/
theorem run_head (F : Fit e s0 all) {s : Conn} {pre : List Response} {r : Response} {post : List Response}
    {header : Option Bytes} {d b : Bytes} {js ls : List HeaderLine} {t0 t : Tx}
    (am : Amid e.cfg.txAutoDestroy s0 all pre r post s t0 t)
    (hjl : r.headers = js ++ ls) (hls : ls = [] → js = []) (hb : header.getD [] ++ b = renderBlock ls) (hne : b ≠ [])
    (hd : d ++ b = renderBlock r.headers)
    (hat : At s.resp .headers [] header (some .responseHeaderData)) (ht : LineRead t0 r t)
    (hp : t.responseProgress = .headers) (hlen : t.responseEntityLen = 0) (hcl : t.responseContentLength = none)
    (htab : Tabled t js)
    (tr : TracedRaw g (responseCallbacks s0.txs.response pre ++
        [.tx .responseStart s.txs.response, .tx .responseLine s.txs.response]) .responseHeaderData s.txs.response d s)
    {c later : List Token} (ih : Goes e g s0 all c.length) {done : Bytes} (hi : s.input = win done (bytesOf c) done.length)
    (hc : loose b ++ (r.body.answerTokens ++ post.flatMap Response.tokens) = c ++ later) :
    Pauses e g s0 all later s := by
  have hmem : r ∈ all := by rw [am.split]; simp
  have hw := am.ans.response
  have hlim := F.fields r hmem
  have hlim1 := F.line r hmem
  have hwl : ∀ x ∈ ls, x.WellFormed := fun x hx => hw.headers x (by rw [hjl]; simp [hx])
  have hself := rp_self am.upto.sorted am.here _ hi
  rcases loose_split hc with ⟨a, b', hab, hb', rfl, hlater⟩ | ⟨c', rfl, hT⟩
  · rw [bytesOf_loose] at hself
    subst hab
    obtain ⟨js', ms, rest, h1, h2, h3, h4, h5⟩ := pause_headers F.callbacks s s.resp t [] done a b' _ hat.state
      am.upto.alive hat.receiver am.parser hat.buf ls hwl
      (fun x hx => hlim x (by rw [hjl]; simp [hx])) (by omega)
      (by rw [hat.header, List.append_assoc]; exact hb) hb'
    rw [hself] at h5
    refine .now h5 ?_
    rw [hlater]
    refine .head (js := js ++ js') (ls := ms) (d := d ++ a) (header := some rest)
      (am.moved (.inr (.inr rfl)) _ _ _ _ _ _ _) (by rw [hjl, h1, List.append_assoc]) ?_ h3 hb'
      (by rw [List.append_assoc]; exact hd) h4 ⟨hat.state, hat.previous, hat.buf, rfl, hat.receiver⟩
      (ht.moved _ ht.progress _ _ _ _) hp hlen hcl (htab.add js') (tr.add rfl)
    intro h
    have := h2 h
    rw [this] at h1
    rw [hls this, (List.append_eq_nil_iff.mp h1.symm).1]
    rfl
  · rw [bytesOf_append, bytesOf_loose] at hself
    have hfol : AnswerFollows ls (bytesOf c') := by
      have h0 := F.follows_head am.split hT
      exact ⟨fun h => h0.1 (by rw [hjl, h, hls h]; rfl), h0.2⟩
    have h1 := headers_from (e := e) s s.resp t [] done b (bytesOf c') done.length hat.state ls hwl
      (by rw [hat.header]; exact hb) am.upto.alive hp hfol
    rw [hself] at h1
    have htab2 := htab.add ls
    rw [← hjl] at htab2
    have hst := htab2.stored hw.headers
    have hbl : b.length ≠ 0 := by rw [ne_eq, List.length_eq_zero_iff]; exact hne
    have hclen : c'.length < (loose b ++ c').length := by rw [loose_len]; omega
    have hr := hw
    rw [← ht.method] at hr
    have hm : t.requestMethodNumber ≠ .connect := by rw [ht.method]; exact am.ans.notConnect
    have he : t.requestHeaders.getNocase (b! "expect") = none ∨ ¬ (400 ≤ r.code ∧ r.code ≤ 499) := by
      rw [ht.requestHeaders]; exact am.ans.notRefused
    have hevs : soFar s0 pre r s.txs.response = responseCallbacks s0.txs.response pre ++
          [.tx .responseStart s.txs.response, .tx .responseLine s.txs.response] ++
          [.data .responseHeaderData s.txs.response (.ofBytes (d ++ b)), .tx .responseHeaders s.txs.response] := by
      rw [hd]
      simp [soFar, headEvents]
    have tr2 : ∀ (h : Half) (t' : Tx) (inp : PData), Traced g (soFar s0 pre r s.txs.response)
        (rp s h t' ([] ++ [.data .responseHeaderData s.txs.response (.ofBytes b), .tx .responseHeaders s.txs.response]) inp) := by
      intro h t' inp
      rw [hevs]
      exact tr.close (by decide) rfl
    have tr3 : ∀ (h : Half) (t' : Tx) (inp : PData), Traced g (soFar s0 pre r s.txs.response ++ [])
        (rp s h t' ([] ++ [.data .responseHeaderData s.txs.response (.ofBytes b), .tx .responseHeaders s.txs.response]) inp) := by
      intro h t' inp
      rw [List.append_nil]
      exact tr2 h t' inp
    have htab3 := htab2
    rw [show r.headers = r.headers ++ [] from (List.append_nil _).symm] at htab3
    refine .after h1 ?_
    cases hbd : r.body with
    | absent =>
      rw [hbd] at hT
      have h2 := (fun {h t evs} (_ : responseStep e _ = (.ok none, rp s h t evs (win (done ++ b) (bytesOf c') done.length))) =>
        answer_determine_absent (e := e) F.callbacks s h t evs done b (bytesOf c')) h1 hr hbd rfl am.upto.alive hat.receiver hst hm
        ht.statusNumber he
      clear h1 hself
      refine .after h2 ?_
      refine (fun {h t' evs inp} (_ : responseStep e _ = (.ok none, rp s h t' evs inp)) =>
        run_final F (s := rp s h t' evs inp) (pre := pre) (r := r) (post := post) (t0 := t0) (t := t') (p := [])
          (c := c') (later := later) (done := done ++ b) (q := (done ++ b).length)) h2
        ⟨am.split, am.upto.rp (by exact am.upto.status) am.here _ _ _, am.old, am.ans, rp_get _ _ _ _ _, am.parser⟩
        ⟨ht.same, ht.line, ht.protocol, ht.protocolNumber, ht.status, ht.statusNumber, ht.message, ht.progress⟩
        ⟨rfl, by rw [hbd]; rfl, by rw [hbd]; exact hcl⟩ ⟨rfl, rfl, hat.buf, rfl, rfl⟩ (by rw [hbd]; exact hlen)
        (by rw [hbd]; exact htab3) (by rw [hbd]; exact tr3 _ _ _) (ih.mono (Nat.le_of_lt hclen)) rfl (.inl ⟨rfl, hT⟩)
    | sized content =>
      rw [hbd] at hT
      obtain ⟨fl, ct, h2⟩ := (fun {h t evs} (_ : responseStep e _ = (.ok none, rp s h t evs (win (done ++ b) (bytesOf c') done.length))) =>
        answer_determine_sized (e := e) F.callbacks s h t evs done b (bytesOf c') content) h1 hr hbd rfl am.upto.alive hat.receiver hst hm
        ht.statusNumber he
      clear h1 hself
      refine .after h2 ?_
      by_cases h0 : content = []
      · subst h0
        simp only [if_true] at h2 ⊢
        refine (fun {h t' evs inp} (_ : responseStep e _ = (.ok none, rp s h t' evs inp)) =>
          run_final F (s := rp s h t' evs inp) (pre := pre) (r := r) (post := post) (t0 := t0) (t := t') (p := [])
            (c := c') (later := later) (done := done ++ b) (q := (done ++ b).length)) h2
          ⟨am.split, am.upto.rp (by exact am.upto.status) am.here _ _ _, am.old, am.ans, rp_get _ _ _ _ _, am.parser⟩
          ⟨ht.same, ht.line, ht.protocol, ht.protocolNumber, ht.status, ht.statusNumber, ht.message, ht.progress⟩
          ⟨rfl, by rw [hbd]; rfl, by rw [hbd]; rfl⟩ ⟨rfl, rfl, hat.buf, rfl, rfl⟩ (by rw [hbd]; exact hlen)
          (by rw [hbd]; exact htab3) (by rw [hbd]; exact tr3 _ _ _) (ih.mono (Nat.le_of_lt hclen)) rfl (.inl ⟨rfl, hT⟩)
      · simp only [if_neg h0] at h2 ⊢
        refine ih c' later _ _ _ hclen ?_ rfl ?_ (by simp [rp_resp])
        · rw [← hT]
          exact .sized (d := []) (b := content)
            ⟨am.split, am.upto.rp (by exact am.upto.status) am.here _ _ _, am.old, am.ans, rp_get _ _ _ _ _, am.parser⟩
            ⟨ht.same, ht.line, ht.protocol, ht.protocolNumber, ht.status, ht.statusNumber, ht.message,
              by show Progress.body ≠ .complete; decide⟩
            ⟨rfl, by rw [hbd]; rfl, by rw [hbd]; rfl⟩ hbd h0 ⟨rfl, rfl, hat.buf, rfl, rfl⟩ rfl hlen htab2
            (traced_body (tr2 _ _ _) rfl _)
        · intro h
          exact absurd rfl h
    | chunked cs last trailer =>
      rw [hbd] at hT
      obtain ⟨fl, ct, h2⟩ := (fun {h t evs} (_ : responseStep e _ = (.ok none, rp s h t evs (win (done ++ b) (bytesOf c') done.length))) =>
        answer_determine_chunked (e := e) F.callbacks s h t evs done b (bytesOf c')) h1 hr hbd rfl am.upto.alive hat.receiver hst hm
        ht.statusNumber he
      clear h1 hself
      refine .after h2 ?_
      refine ih c' later _ _ _ hclen ?_ rfl ?_ (by simp [rp_resp])
      · rw [← hT, Body.answerTokens, List.append_assoc, List.cons_append]
        exact .size (cs := []) (ds := cs)
          ⟨am.split, am.upto.rp (by exact am.upto.status) am.here _ _ _, am.old, am.ans, rp_get _ _ _ _ _, am.parser⟩
          ⟨ht.same, ht.line, ht.protocol, ht.protocolNumber, ht.status, ht.statusNumber, ht.message,
            by show Progress.body ≠ .complete; decide⟩
          ⟨rfl, by rw [hbd]; rfl, by rw [hbd]; exact hcl⟩ hbd ⟨rfl, rfl, hat.buf, rfl, rfl⟩ hlen htab2 (tr3 _ _ _)
      · intro h
        exact absurd rfl h

end

end Model.Ans
