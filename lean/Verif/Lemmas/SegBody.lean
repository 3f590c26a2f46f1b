/-
Requests cut into pieces: headers, bodies and trailers.
-/
import Verif.Lemmas.SegGo

namespace Model

open M Spec Props

theorem HeadRead.moved {r : Request} {k : Nat} {t : Tx} (h : HeadRead r k t) (p : Progress) (hp : p ≠ .complete)
    (ml el : Nat) (hd : Headers) (rep : Nat) :
    HeadRead r k { t with
      requestProgress := p, requestMessageLen := ml, requestEntityLen := el, requestHeaders := hd
      requestHeaderRepetitions := rep } :=
  ⟨h.index, h.line, h.method, h.methodNumber, h.uri, h.protocol, h.protocolNumber, h.notProtocol09, h.coding, h.contentLength,
    h.encoding, h.side, h.unanswered, hp⟩

section
variable {e : Env} {g : Log Event.ofRequest} {s0 : Conn} {m : Nat} {all : List Request}

theorem BodyAt.moved {pre post : List Request} {r : Request} {s : Conn} {t : Tx} (ib : BodyAt s0 m all pre r post s t)
    {h : Half} (hst : h.status = .new ∨ h.status = .open ∨ h.status = .data ∨ h.status = .dataOther)
    (p : Progress) (hp : p ≠ .complete) (ml el : Nat) (hd : Headers) (rep : Nat) (evs : List Event) (inp : PData) :
    BodyAt s0 m all pre r post
      (rq s h { t with
        requestProgress := p, requestMessageLen := ml, requestEntityLen := el, requestHeaders := hd
        requestHeaderRepetitions := rep } evs inp)
      { t with
        requestProgress := p, requestMessageLen := ml, requestEntityLen := el, requestHeaders := hd
        requestHeaderRepetitions := rep } :=
  ⟨ib.split, ib.upto.rq hst _ _ _, rq_get _ _ _ _ _, ib.head.moved p hp ml el hd rep, ib.parser⟩

theorem loose_len (x : Bytes) (c : List Token) : (loose x ++ c).length = x.length + c.length := by simp [loose]

theorem sized_length {r : Request} (hw : r.WellFormed) {content : Bytes} (hb : r.body = .sized content) :
    content.length < 2 ^ 64 := by
  have := hw.length
  rw [hb] at this
  exact this

theorem chunked_facts {r : Request} (hw : r.WellFormed) {cs : List BodyChunk} {last : Bytes} {trailer : List HeaderLine}
    (hb : r.body = .chunked cs last trailer) :
    (∀ c ∈ cs, c.Valid) ∧ SizeLine last 0 ∧ (∀ h ∈ trailer, h.WellFormed) ∧ (carried cs).length < 2 ^ 64 := by
  have h1 := hw.framed
  have h2 := hw.length
  unfold Request.Framed at h1
  rw [hb] at h1 h2
  exact ⟨h1.2.2.1, h1.2.2.2.1, h1.2.2.2.2, h2⟩

/-- A body of announced length. -/
theorem run_sized (F : Fit e m all) {s : Conn} {pre : List Request} {r : Request} {post : List Request} {d b : Bytes} {t : Tx}
    (ib : BodyAt s0 m all pre r post s t) (hbody : r.body = .sized (d ++ b)) (hne : b ≠ [])
    (hat : At s.req .bodyIdentity [] none none) (hl : s.req.bodyDataLeft = some b.length) (hlen : t.requestEntityLen = d.length)
    (htab : Tabled t r.headers) (tr : TracedBody g (soFar s0 pre r s.txs.request) s.txs.request d s)
    {c later : List Token} (ih : Goes e g s0 m all c.length) {done : Bytes} {q : Nat} (hi : s.input = win done (bytesOf c) q)
    (hc : loose b ++ post.flatMap Request.tokens = c ++ later) : Pauses e g s0 m all later s := by
  have hw := F.wf r (by rw [ib.split]; simp)
  have hsize := sized_length hw hbody
  rw [List.length_append] at hsize
  have hself := rq_self ib.upto.occupied.1 ib.here _ hi
  rcases loose_split hc with ⟨a, b', hab, hb, rfl, hlater⟩ | ⟨c', rfl, hT⟩
  · rw [bytesOf_loose] at hself
    subst hab
    rw [List.length_append] at hl hsize
    obtain ⟨inp, n, ml, h1⟩ := pause_identity F.willing.callbacks s s.req t [] done a q b'.length hat.state hat.receiver hl
      (by rw [ne_eq, List.length_eq_zero_iff]; exact hb) ib.head.encoding (by rw [hlen]; omega)
    rw [hself] at h1
    refine .now h1 ?_
    rw [hlater]
    refine .sized (d := d ++ a) (ib.moved (.inr (.inr (.inl rfl))) _ ib.head.progress ml _ _ _ _ _)
      (by rw [hbody, List.append_assoc]) hb ⟨hat.state, hat.previous, hat.buf, hat.header, hat.receiver⟩ rfl ?_ htab (tr.add rfl)
    show t.requestEntityLen + _ = _
    rw [hlen, List.length_append]
  · rw [bytesOf_append, bytesOf_loose] at hself
    have h1 := round_identity F.willing.callbacks s s.req t [] done b (bytesOf c') q hat.state ib.upto.alive hl hne
      ib.head.encoding (by rw [hlen]; omega)
    rw [hself] at h1
    refine .after h1 ?_
    have hcl : c'.length ≤ (loose b ++ c').length := by rw [loose_len]; omega
    refine run_final F (p := []) (c := c') (done := done ++ b) (q := q)
      (ib.moved (by exact ib.upto.status) _ ib.head.progress _ _ _ _ _ _) ?_ ?_ ?_ ?_ (ih.mono hcl) rfl (.inl ⟨rfl, hT⟩)
    · exact ⟨rfl, rfl, hat.buf, hat.header, hat.receiver⟩
    · show t.requestEntityLen + _ = _
      rw [hlen, hbody]
      simp [Body.content]
    · have : Tabled t (r.headers ++ r.body.trailer) := by rw [hbody]; simpa [Body.trailer] using htab
      exact this
    · have h2 : bodyRun s.txs.request r.body =
          bodyCallbacks s.txs.request (some (d ++ b)) ++ bodyCallbacks s.txs.request none := by
        rw [hbody]
        exact if_neg (by simp [hne])
      show Traced _ (_ ++ bodyRun s.txs.request _) _
      rw [h2]
      exact tr.close hne rfl

/-- A chunk-size line. -/
theorem run_size (F : Fit e m all) {s : Conn} {pre : List Request} {r : Request} {post : List Request} {cs ds : List BodyChunk}
    {last : Bytes} {trailer : List HeaderLine} {t : Tx} (ib : BodyAt s0 m all pre r post s t)
    (hbody : r.body = .chunked (cs ++ ds) last trailer) (hat : At s.req .bodyChunkedLength [] none none)
    (hlen : t.requestEntityLen = (carried cs).length) (htab : Tabled t r.headers)
    (tr : Traced g (soFar s0 pre r s.txs.request ++ chunkEvents s.txs.request cs) s)
    {c later : List Token} (ih : Goes e g s0 m all c.length) {done : Bytes} {q : Nat} (hi : s.input = win done (bytesOf c) q)
    (hc : ds.flatMap chunkTokens ++ .line last :: (blockTokens trailer ++ post.flatMap Request.tokens) = c ++ later) :
    Pauses e g s0 m all later s := by
  have hw := F.wf r (by rw [ib.split]; simp)
  obtain ⟨hv, hlast, -, -⟩ := chunked_facts hw hbody
  have hself := rq_self ib.upto.occupied.1 ib.here _ hi
  have hpause : c = [] → Pauses e g s0 m all later s := by
    rintro rfl
    obtain ⟨inp, h1⟩ := pause_size (e := e) s s.req t [] done q hat.state hat.receiver (by
      unfold Half.buffered
      rw [hat.buf, hat.header]
      exact Nat.zero_le _)
    rw [show win done [] q = win done (bytesOf []) q from rfl, hself] at h1
    refine .now h1 ?_
    rw [← (show _ = later from hc)]
    exact .size (ib.moved (.inr (.inr (.inl rfl))) _ ib.head.progress _ _ _ _ _ _) hbody
      ⟨hat.state, hat.previous, hat.buf, hat.header, hat.receiver⟩ hlen htab (tr.same (List.append_nil _))
  cases ds with
  | nil =>
    rcases line_split hc with ⟨h, -⟩ | ⟨c', rfl, hT⟩
    · exact hpause h
    · rw [bytesOf_cons_line] at hself
      have h1 := round_last (e := e) s s.req t [] done last (bytesOf c') q hat.state hat.previous ib.upto.alive hat.buf hlast
      rw [hself] at h1
      refine .after h1 ?_
      refine ih c' later _ _ _ (by simp) ?_ rfl (fun _ => rfl) (by simp [rq_req])
      rw [← hT, blockTokens_eq]
      rw [List.append_nil] at hbody
      have htab' : Tabled t (r.headers ++ []) := by simpa using htab
      refine .trailer (js := []) (ls := trailer) (d := []) (header := none)
        (ib.moved (by exact ib.upto.status) .trailer (by decide) _ _ _ _ _ _) hbody rfl (fun _ => rfl) rfl rfl (by simp) rfl
        ⟨rfl, rfl, hat.buf, hat.header, rfl⟩ hlen htab' (tr.raw (List.append_nil _) _ _)
  | cons ch ds =>
    obtain ⟨hs, hd0, hd1⟩ := hv ch (by simp)
    rw [List.flatMap_cons] at hc
    rcases line_split (l := ch.line) (T := loose ch.data ++ .line [13, 10] ::
        (ds.flatMap chunkTokens ++ .line last :: (blockTokens trailer ++ post.flatMap Request.tokens))) (by
        rw [← hc]
        simp [chunkTokens]) with ⟨h, -⟩ | ⟨c', rfl, hT⟩
    · exact hpause h
    · rw [bytesOf_cons_line] at hself
      have h1 := round_size (e := e) s s.req t [] done ch.line (bytesOf c') q ch.data.length hat.state ib.upto.alive hat.buf hs
        hd1 (by rw [ne_eq, List.length_eq_zero_iff]; exact hd0)
      rw [hself] at h1
      refine .after h1 ?_
      refine ih c' later _ _ _ (by simp) ?_ rfl ?_ (by simp [rq_req])
      · rw [← hT]
        exact .data (d := []) (b := ch.data) (ib.moved (by exact ib.upto.status) _ ib.head.progress _ _ _ _ _ _) hbody rfl hd0
          ⟨rfl, rfl, hat.buf, hat.header, hat.receiver⟩ rfl hlen htab (tr.body (List.append_nil _) _)
      · intro h
        exact absurd hat.receiver h

/-- The data of a chunk. -/
theorem run_data (F : Fit e m all) {s : Conn} {pre : List Request} {r : Request} {post : List Request} {cs ds : List BodyChunk}
    {ch : BodyChunk} {last : Bytes} {trailer : List HeaderLine} {d b : Bytes} {t : Tx} (ib : BodyAt s0 m all pre r post s t)
    (hbody : r.body = .chunked (cs ++ ch :: ds) last trailer) (hch : ch.data = d ++ b) (hne : b ≠ [])
    (hat : At s.req .bodyChunkedData [] none none) (hl : s.req.chunkedLength = some b.length)
    (hlen : t.requestEntityLen = (carried cs).length + d.length) (htab : Tabled t r.headers)
    (tr : TracedBody g (soFar s0 pre r s.txs.request ++ chunkEvents s.txs.request cs) s.txs.request d s)
    {c later : List Token} (ih : Goes e g s0 m all c.length) {done : Bytes} {q : Nat} (hi : s.input = win done (bytesOf c) q)
    (hc : loose b ++ .line [13, 10] ::
        (ds.flatMap chunkTokens ++ .line last :: (blockTokens trailer ++ post.flatMap Request.tokens)) = c ++ later) :
    Pauses e g s0 m all later s := by
  have hw := F.wf r (by rw [ib.split]; simp)
  obtain ⟨-, -, -, hsize⟩ := chunked_facts hw hbody
  have hcar : (carried (cs ++ ch :: ds)).length = (carried cs).length + (d.length + b.length) + (carried ds).length := by
    simp only [carried, List.flatMap_append, List.flatMap_cons, hch, List.length_append]
    omega
  rw [hcar] at hsize
  have hself := rq_self ib.upto.occupied.1 ib.here _ hi
  rcases loose_split hc with ⟨a, b', hab, hb, rfl, hlater⟩ | ⟨c', rfl, hT⟩
  · rw [bytesOf_loose] at hself
    subst hab
    rw [List.length_append] at hl hsize
    obtain ⟨inp, n, ml, h1⟩ := pause_data F.willing.callbacks s s.req t [] done a q b'.length hat.state hat.receiver hl
      (by rw [ne_eq, List.length_eq_zero_iff]; exact hb) ib.head.encoding (by rw [hlen]; omega)
    rw [hself] at h1
    refine .now h1 ?_
    rw [hlater]
    refine .data (d := d ++ a) (ib.moved (.inr (.inr (.inl rfl))) _ ib.head.progress ml _ _ _ _ _) hbody
      (by rw [hch, List.append_assoc]) hb ⟨hat.state, hat.previous, hat.buf, hat.header, hat.receiver⟩ rfl ?_ htab (tr.add rfl)
    show t.requestEntityLen + _ = _
    rw [hlen, List.length_append, Nat.add_assoc]
  · rw [bytesOf_append, bytesOf_loose] at hself
    have h1 := round_data F.willing.callbacks s s.req t [] done b (bytesOf c') q hat.state ib.upto.alive hl hne
      ib.head.encoding (by rw [hlen]; omega)
    rw [hself] at h1
    refine .after h1 ?_
    have hbl : b.length ≠ 0 := by rw [ne_eq, List.length_eq_zero_iff]; exact hne
    refine ih c' later _ _ _ (by rw [loose_len]; omega) ?_ rfl ?_ (by simp [rq_req])
    · rw [← hT]
      refine .dataEnd (cs := cs ++ [ch]) (ds := ds) (ib.moved (by exact ib.upto.status) _ ib.head.progress _ _ _ _ _ _)
        (by rw [hbody]; simp) ⟨rfl, rfl, hat.buf, hat.header, hat.receiver⟩ ?_ htab ?_
      · show t.requestEntityLen + _ = _
        rw [hlen]
        simp only [carried, List.flatMap_append, List.flatMap_cons, hch, List.length_append, List.flatMap_nil, List.length_nil]
        omega
      · have h2 := tr.close (evs := []) hne (s' := rq s s.req t (bodyCallbacks s.txs.request (some b)) s.input) (by simp [rq])
        rw [← hch, List.append_assoc, List.append_nil] at h2
        show Traced _ (_ ++ chunkEvents s.txs.request _) _
        have h3 : chunkEvents s.txs.request (cs ++ [ch]) =
            chunkEvents s.txs.request cs ++ bodyCallbacks s.txs.request (some ch.data) := by
          simp [chunkEvents]
        rw [h3]
        exact h2.same rfl
    · intro h
      exact absurd hat.receiver h

/-- The line end after the data of a chunk. -/
theorem run_dataEnd {s : Conn} {pre : List Request} {r : Request} {post : List Request} {cs ds : List BodyChunk}
    {last : Bytes} {trailer : List HeaderLine} {t : Tx} (ib : BodyAt s0 m all pre r post s t)
    (hbody : r.body = .chunked (cs ++ ds) last trailer) (hat : At s.req .bodyChunkedDataEnd [] none none)
    (hlen : t.requestEntityLen = (carried cs).length) (htab : Tabled t r.headers)
    (tr : Traced g (soFar s0 pre r s.txs.request ++ chunkEvents s.txs.request cs) s)
    {c later : List Token} (ih : Goes e g s0 m all c.length) {done : Bytes} {q : Nat} (hi : s.input = win done (bytesOf c) q)
    (hc : .line [13, 10] :: (ds.flatMap chunkTokens ++ .line last :: (blockTokens trailer ++ post.flatMap Request.tokens)) =
      c ++ later) : Pauses e g s0 m all later s := by
  have hself := rq_self ib.upto.occupied.1 ib.here _ hi
  rcases line_split hc with ⟨rfl, hlater⟩ | ⟨c', rfl, hT⟩
  · obtain ⟨inp, ml, h1⟩ := pause_dataEnd (e := e) s s.req t [] done q hat.state hat.receiver (by
      unfold Half.buffered
      rw [hat.buf, hat.header]
      exact Nat.zero_le _)
    rw [show win done [] q = win done (bytesOf []) q from rfl, hself] at h1
    refine .now h1 ?_
    rw [hlater]
    exact .dataEnd (ib.moved (.inr (.inr (.inl rfl))) _ ib.head.progress _ _ _ _ _ _) hbody
      ⟨hat.state, hat.previous, hat.buf, hat.header, hat.receiver⟩ hlen htab (tr.same (List.append_nil _))
  · rw [bytesOf_cons_line] at hself
    have h1 := round_dataEnd (e := e) s s.req t [] done (bytesOf c') q hat.state ib.upto.alive
    rw [hself] at h1
    refine .after h1 ?_
    refine ih c' later _ _ _ (by simp) ?_ rfl ?_ (by simp [rq_req])
    · rw [← hT]
      exact .size (ib.moved (by exact ib.upto.status) _ ib.head.progress _ _ _ _ _ _) hbody
        ⟨rfl, rfl, hat.buf, hat.header, hat.receiver⟩ hlen htab (tr.same (List.append_nil _))
    · intro h
      exact absurd hat.receiver h

/-- A block that is cut before the empty line at its end, or that is complete. -/
theorem block_cut {b : Bytes} {T c later : List Token} (h : loose b ++ .line [13, 10] :: T = c ++ later) :
    (∃ a b', b = a ++ b' ∧ c = loose a ∧ later = loose b' ++ .line [13, 10] :: T) ∨
      ∃ c', c = loose b ++ .line [13, 10] :: c' ∧ T = c' ++ later := by
  rcases loose_split h with ⟨a, b', hab, -, hc, hl⟩ | ⟨c', rfl, hT⟩
  · exact .inl ⟨a, b', hab, hc, hl⟩
  · rcases line_split hT with ⟨rfl, hl⟩ | ⟨c'', rfl, hT'⟩
    · exact .inl ⟨b, [], by simp, by simp, by rw [hl]; rfl⟩
    · exact .inr ⟨c'', rfl, hT'⟩

/-- The trailer. -/
theorem run_trailer (F : Fit e m all) {s : Conn} {pre : List Request} {r : Request} {post : List Request} {cs : List BodyChunk}
    {last : Bytes} {trailer : List HeaderLine} {header : Option Bytes} {d b : Bytes} {js ls : List HeaderLine} {t : Tx}
    (ib : BodyAt s0 m all pre r post s t) (hbody : r.body = .chunked cs last trailer) (hjl : trailer = js ++ ls)
    (hls : ls = [] → js = []) (hb : header.getD [] ++ b = linesOf ls) (hd : d ++ b = linesOf trailer)
    (hp : t.requestProgress = .trailer)
    (hat : At s.req .headers [] header (some .requestTrailerData))
    (hlen : t.requestEntityLen = (carried cs).length) (htab : Tabled t (r.headers ++ js))
    (tr : TracedRaw g (soFar s0 pre r s.txs.request ++ chunkEvents s.txs.request cs) .requestTrailerData s.txs.request d s)
    {c later : List Token} (ih : Goes e g s0 m all c.length) {done : Bytes} (hi : s.input = win done (bytesOf c) done.length)
    (hc : loose b ++ .line [13, 10] :: post.flatMap Request.tokens = c ++ later) : Pauses e g s0 m all later s := by
  have hmem : r ∈ all := by rw [ib.split]; simp
  have hw := F.wf r hmem
  obtain ⟨-, -, htr, -⟩ := chunked_facts hw hbody
  have hlim := F.fields r hmem
  have hwl : ∀ x ∈ ls, x.WellFormed := fun x hx => htr x (by rw [hjl]; simp [hx])
  have hself := rq_self ib.upto.occupied.1 ib.here _ hi
  rcases block_cut hc with ⟨a, b', hab, rfl, hlater⟩ | ⟨c', rfl, hT⟩
  · rw [bytesOf_loose] at hself
    subst hab
    obtain ⟨js', ms, rest, h1, h2, h3, h4, h5⟩ := pause_headers F.willing.callbacks s s.req t [] done a b' _ hat.state
      ib.upto.alive hat.receiver ib.parser ls hwl (by
        intro x hx
        rw [hat.buf]
        have := hlim x (by rw [hbody, Body.trailer, hjl]; simp [hx])
        simpa using this) (by rw [hat.header, List.append_assoc]; exact hb)
    rw [hself] at h5
    rw [hat.buf] at h4
    refine .now h5 ?_
    rw [hlater]
    refine .trailer (js := js ++ js') (ls := ms) (d := d ++ a) (header := some rest)
      (ib.moved (.inr (.inr (.inl rfl))) _ ib.head.progress _ _ _ _ _ _) hbody (by rw [hjl, h1, List.append_assoc]) ?_ h3
      (by rw [List.append_assoc]; exact hd) (by simpa using h4) hp ⟨hat.state, hat.previous, hat.buf, rfl, hat.receiver⟩ hlen
      (by rw [← List.append_assoc]; exact htab.add js') (tr.add rfl)
    intro h
    have := h2 h
    rw [this] at h1
    rw [hls this, (List.append_eq_nil_iff.mp h1.symm).1]
    rfl
  · rw [bytesOf_append, bytesOf_loose, bytesOf_cons_line, ← List.append_assoc] at hself
    have h1 := round_trailer F.willing.callbacks ls hwl s s.req t [] done (b ++ [13, 10]) (bytesOf c') hat.state
      (by rw [hat.header, ← List.append_assoc, hb, renderBlock_lines]) (by simp) (fun h => by
        rw [hat.header]
        rw [h] at hb
        exact (List.append_eq_nil_iff.mp hb).1) hat.receiver ib.upto.alive hp ib.head.side (F.follows_next ib.split ls hT)
    rw [hself] at h1
    refine .after h1 ?_
    have hcl : c'.length ≤ (loose b ++ .line [13, 10] :: c').length := by
      rw [loose_len, List.length_cons]; omega
    refine run_final F (p := []) (c := c') (done := done ++ (b ++ [13, 10])) (q := (done ++ (b ++ [13, 10])).length)
      (ib.moved (by exact ib.upto.status) _ ib.head.progress _ _ _ _ _ _) ?_ ?_ ?_ ?_ (ih.mono hcl) rfl (.inl ⟨rfl, hT⟩)
    · exact ⟨rfl, rfl, hat.buf, rfl, rfl⟩
    · rw [hbody]
      exact hlen
    · rw [hbody, Body.trailer, hjl, ← List.append_assoc]
      exact htab.add ls
    · have h2 : soFar s0 pre r s.txs.request ++ bodyRun s.txs.request r.body =
          soFar s0 pre r s.txs.request ++ chunkEvents s.txs.request cs ++
            [.data .requestTrailerData s.txs.request (.ofBytes (d ++ (b ++ [13, 10]))), .tx .requestTrailer s.txs.request] := by
        rw [hbody, bodyRun, ← List.append_assoc d, hd, ← renderBlock_lines, List.append_assoc]
        rfl
      show Traced _ (soFar s0 pre r s.txs.request ++ bodyRun s.txs.request _) _
      rw [h2]
      exact tr.close (by decide) rfl

/-- The body is determined. -/
theorem run_body (F : Fit e m all) {s : Conn} {pre : List Request} {r : Request} {post : List Request} {t : Tx}
    (ib : BodyAt s0 m all pre r post s t) (hat : At s.req .bodyDetermine [] none none) (hlen : t.requestEntityLen = 0)
    (htab : Tabled t r.headers) (tr : Traced g (soFar s0 pre r s.txs.request) s)
    {c later : List Token} (ih : Goes e g s0 m all (c.length + 1)) {done : Bytes} {q : Nat}
    (hi : s.input = win done (bytesOf c) q)
    (hc : r.body.tokens ++ post.flatMap Request.tokens = c ++ later) : Pauses e g s0 m all later s := by
  have hself := rq_self ib.upto.occupied.1 ib.here _ hi
  have hcod := ib.head.coding
  have hsiz := ib.head.contentLength
  have htab' : Tabled t (r.headers ++ []) := by simpa using htab
  have tr' : Traced g (soFar s0 pre r s.txs.request ++ []) s := by simpa using tr
  cases hb : r.body with
  | absent =>
    rw [hb] at hcod hc
    have h1 := round_determine_absent (e := e) s s.req t [] done (bytesOf c) q hat.state ib.upto.alive hcod
    rw [hself] at h1
    refine .after h1 ?_
    refine run_final F (p := []) (c := c) (done := done) (q := q)
      (ib.moved (by exact ib.upto.status) _ ib.head.progress _ _ _ _ _ _) ?_ ?_ ?_ ?_ (ih.mono (Nat.le_succ _)) rfl (.inl ⟨rfl, hc⟩)
    · exact ⟨rfl, rfl, hat.buf, hat.header, hat.receiver⟩
    · rw [hb]; exact hlen
    · rw [hb]; exact htab'
    · rw [hb]; exact tr'.same (List.append_nil _)
  | sized content =>
    rw [hb] at hcod hc hsiz
    by_cases h0 : content = []
    · subst h0
      have h1 := round_determine_empty (e := e) s s.req t [] done (bytesOf c) q hat.state ib.upto.alive hcod hsiz
      rw [hself] at h1
      refine .after h1 ?_
      refine run_final F (p := []) (c := c) (done := done) (q := q)
        (ib.moved (by exact ib.upto.status) _ ib.head.progress _ _ _ _ _ _) ?_ ?_ ?_ ?_ (ih.mono (Nat.le_succ _)) rfl (.inl ⟨rfl, hc⟩)
      · exact ⟨rfl, rfl, hat.buf, hat.header, hat.receiver⟩
      · rw [hb]; exact hlen
      · rw [hb]; exact htab'
      · rw [hb]; exact tr'.same (List.append_nil _)
    · have h1 := round_determine_sized (e := e) s s.req t [] done (bytesOf c) q content.length hat.state ib.upto.alive hcod hsiz
        (by rw [ne_eq, List.length_eq_zero_iff]; exact h0)
      rw [hself] at h1
      refine .after h1 ?_
      refine ih c later _ _ _ (Nat.lt_succ_self _) ?_ rfl ?_ (by simp [rq_req])
      · rw [← hc]
        exact .sized (d := []) (b := content) (ib.moved (by exact ib.upto.status) .body (by decide) _ _ _ _ _ _) hb h0
          ⟨rfl, rfl, hat.buf, hat.header, hat.receiver⟩ rfl hlen htab (tr.body (List.append_nil _) _)
      · intro h
        exact absurd hat.receiver h
  | chunked cs last trailer =>
    rw [hb] at hcod hc
    have h1 := round_determine_chunked (e := e) s s.req t [] done (bytesOf c) q hat.state ib.upto.alive hcod
    rw [hself] at h1
    refine .after h1 ?_
    refine ih c later _ _ _ (Nat.lt_succ_self _) ?_ rfl ?_ (by simp [rq_req])
    · rw [← hc, Body.tokens, List.append_assoc, List.cons_append]
      exact .size (cs := []) (ds := cs) (ib.moved (by exact ib.upto.status) .body (by decide) _ _ _ _ _ _) hb
        ⟨rfl, rfl, hat.buf, hat.header, hat.receiver⟩ hlen htab (tr'.same (List.append_nil _))
    · intro h
      exact absurd hat.receiver h

/-- The header block. -/
theorem run_head (F : Fit e m all) {s : Conn} {pre : List Request} {r : Request} {post : List Request} {header : Option Bytes}
    {d b : Bytes} {js ls : List HeaderLine} {t : Tx} (split : all = pre ++ r :: post) (up : Upto s0 m pre s)
    (hjl : r.headers = js ++ ls) (hls : ls = [] → js = []) (hb : header.getD [] ++ b = linesOf ls)
    (hd : d ++ b = linesOf r.headers)
    (hat : At s.req .headers [] header (some .requestHeaderData)) (here : s.txs.get s.txs.request = some t)
    (ht : Began r s.txs.request t) (htab : Tabled t js)
    (tr : TracedRaw g (requestCallbacks s0.txs.request pre ++
        [.tx .requestStart s.txs.request, .tx .requestUriNormalize s.txs.request, .tx .requestLine s.txs.request])
        .requestHeaderData s.txs.request d s)
    {c later : List Token} (ih : Goes e g s0 m all c.length) {done : Bytes} (hi : s.input = win done (bytesOf c) done.length)
    (hc : loose b ++ .line [13, 10] :: (r.body.tokens ++ post.flatMap Request.tokens) = c ++ later) :
    Pauses e g s0 m all later s := by
  have hmem : r ∈ all := by rw [split]; simp
  have hw := F.wf r hmem
  have hlim := F.fields r hmem
  have hwl : ∀ x ∈ ls, x.WellFormed := fun x hx => hw.headers x (by rw [hjl]; simp [hx])
  have hself := rq_self up.occupied.1 here _ hi
  rcases block_cut hc with ⟨a, b', hab, rfl, hlater⟩ | ⟨c', rfl, hT⟩
  · rw [bytesOf_loose] at hself
    subst hab
    obtain ⟨js', ms, rest, h1, h2, h3, h4, h5⟩ := pause_headers F.willing.callbacks s s.req t [] done a b' _ hat.state
      up.alive hat.receiver ht.parser ls hwl (by
        intro x hx
        rw [hat.buf]
        have := hlim x (by rw [hjl]; simp [hx])
        simpa using this) (by rw [hat.header, List.append_assoc]; exact hb)
    rw [hself] at h5
    rw [hat.buf] at h4
    refine .now h5 ?_
    rw [hlater]
    refine .head (js := js ++ js') (ls := ms) (d := d ++ a) (header := some rest) split
      (up.rq (.inr (.inr (.inl rfl))) _ _ _) (by rw [hjl, h1, List.append_assoc]) ?_ h3
      (by rw [List.append_assoc]; exact hd) (by simpa using h4) ⟨hat.state, hat.previous, hat.buf, rfl, hat.receiver⟩
      (rq_get _ _ _ _ _)
      ⟨ht.index, ht.line, ht.method, ht.methodNumber, ht.uri, ht.protocol, ht.protocolNumber, ht.notProtocol09, ht.parser,
        ht.unanswered, ht.contentLength, ht.progress, ht.length⟩ (htab.add js') (tr.add rfl)
    intro h
    have := h2 h
    rw [this] at h1
    rw [hls this, (List.append_eq_nil_iff.mp h1.symm).1]
    rfl
  · rw [bytesOf_append, bytesOf_loose, bytesOf_cons_line, ← List.append_assoc] at hself
    have hfol : Follows ls (bytesOf c') := fun h => F.follows_head split hT (by rw [hjl, h, hls h]; rfl)
    obtain ⟨fl, host, port, auth, ct, h1⟩ := round_headers F.willing hw s s.req t [] done (b ++ [13, 10]) (bytesOf c') js ls hjl
      hat.state (by rw [hat.header, ← List.append_assoc, hb, renderBlock_lines]) (by simp) (fun h => by
        rw [hat.header]
        rw [h] at hb
        exact (List.append_eq_nil_iff.mp hb).1) hat.receiver up.alive ht.progress (by rw [ht.parser]) htab
      ht.contentLength hfol
    obtain ⟨mm, hm⟩ := hw.method
    obtain ⟨m0, mc, -⟩ := method_facts _ hm
    dsimp only at m0 mc
    have h2 := (fun {h t evs done rest q} (_ : requestStep e _ = (.ok none, rq s h t evs (win done rest q))) =>
      round_connectCheck (e := e) s h t evs done rest q) h1 rfl up.alive (by
        show t.requestMethodNumber ≠ .connect
        rw [ht.methodNumber, m0]; exact mc)
    rw [hself] at h1
    refine .after h1 (.after h2 ?_)
    clear hself h1
    have hcl : c'.length < (loose b ++ .line [13, 10] :: c').length := by
      rw [loose_len, List.length_cons]; omega
    have hst := stored_lines r.headers hw.headers
    refine (fun {h t' evs inp} (_ : requestStep e _ = (.ok none, rq s h t' evs inp)) =>
      run_body F (s := rq s h t' evs inp) (pre := pre) (r := r) (post := post) (t := t') (c := c') (later := later)
        (done := done ++ (b ++ [13, 10])) (q := (done ++ (b ++ [13, 10])).length)) h2 ?_ ?_ ?_ ?_ ?_ (ih.mono hcl) rfl hT
    · refine ⟨split, ?_, rq_get _ _ _ _ _, ?_, ?_⟩
      · exact up.rq (by exact up.status) _ _ _
      · exact ⟨ht.index, ht.line, ht.method, ht.methodNumber, ht.uri, ht.protocol, ht.protocolNumber, ht.notProtocol09, rfl, rfl,
          rfl, congrArg HeaderParser.side ht.parser, ht.unanswered, fun h => by
            have h : t.requestProgress = .complete := h
            rw [ht.progress] at h
            cases h⟩
      · exact ht.parser
    · exact ⟨rfl, rfl, hat.buf, rfl, rfl⟩
    · exact ht.length
    · exact hst.symm
    · have h2 : soFar s0 pre r s.txs.request = requestCallbacks s0.txs.request pre ++
          [.tx .requestStart s.txs.request, .tx .requestUriNormalize s.txs.request, .tx .requestLine s.txs.request] ++
          [.data .requestHeaderData s.txs.request (.ofBytes (d ++ (b ++ [13, 10]))), .tx .requestHeaders s.txs.request] := by
        rw [← List.append_assoc d, hd, ← renderBlock_lines]
        simp [soFar, headEvents]
      show Traced _ (soFar s0 pre r s.txs.request) _
      rw [h2]
      exact tr.close (by decide) rfl

end

end Model
