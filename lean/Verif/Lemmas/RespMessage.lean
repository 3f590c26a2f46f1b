/-
What a well-formed response does to its transaction.
-/
import Verif.Spec.Answer
import Verif.Lemmas.ReqRounds

namespace Model

open Spec Props

theorem protocol_http : ∀ x ∈ protocols, ∃ w, x.1 = b! "HTTP" ++ w := by
  intro x hx
  refine ⟨x.1.drop 4, ?_⟩
  revert x
  decide +kernel

theorem protocol_number : ∀ x ∈ protocols, x.2 ≠ .invalid := by decide +kernel

theorem blank_crlf : ∀ c ∈ ([32, 13, 10] : Bytes), Blank c ∧ c ≠ 11 := by decide +kernel
theorem blank_space : ∀ c ∈ ([32] : Bytes), Blank c ∧ c ≠ 11 := by decide +kernel

section
variable {head : Bool} {r : Response}

theorem status_facts (h : r.HeadWellFormed) :
    parseStatus (Spec.render 10 r.code) = .valid r.code ∧ Spec.render 10 r.code ≠ [] ∧
    Word (Spec.render 10 r.code) ∧ ∀ c ∈ Spec.render 10 r.code, c ≠ 13 ∧ c ≠ 10 := by
  obtain ⟨h1, h2, -⟩ := render_props 10 (by omega) (by omega) r.code
  have hd := render_dec_digits r.code
  have hw : ∀ c : UInt8, IsDecDigit c → ¬ Blank c ∧ c ≠ 13 ∧ c ≠ 10 := by decide +kernel
  refine ⟨(C10_parse_status _ _).2 ⟨by have := h.code; omega, [], Spec.render 10 r.code, [], by simp, by simp, ?_, hd,
    by simp, ?_⟩, ?_, fun c hc => (hw c (hd c hc)).1, fun c hc => (hw c (hd c hc)).2⟩
  all_goals assumption

theorem response_noEol (h : r.HeadWellFormed) : ∀ c ∈ r.line, c ≠ 13 ∧ c ≠ 10 := by
  obtain ⟨p, hp⟩ := h.protocol
  have h1 := (protocol_facts _ hp).2.2.1
  have hw : ∀ c : UInt8, ¬ Blank c → c ≠ 13 ∧ c ≠ 10 := by decide +kernel
  intro c hc
  unfold Response.line at hc
  simp only [List.mem_append, List.mem_cons] at hc
  rcases hc with hc | rfl | hc | rfl | hc
  · exact hw c (h1 c hc)
  · decide
  · exact (status_facts h).2.2.2 c hc
  · decide
  · exact h.message.1 c hc

theorem response_cons (h : r.HeadWellFormed) : ∃ cs, r.line = b! "HTTP" ++ cs := by
  obtain ⟨p, hp⟩ := h.protocol
  obtain ⟨w, hw⟩ := protocol_http _ hp
  dsimp only at hw
  exact ⟨w ++ 32 :: (Spec.render 10 r.code ++ 32 :: r.message), by unfold Response.line; rw [hw]; simp⟩

theorem readResponseLine_wf (t : Tx) (h : r.HeadWellFormed) :
    t.readResponseLine (r.line ++ [13, 10]) =
      { t with
        responseLine := some (r.line ++ [13, 10])
        responseProtocol := some r.protocol
        responseProtocolNumber := parseProtocol r.protocol
        responseStatus := some (Spec.render 10 r.code)
        responseStatusNumber := .valid r.code
        responseMessage := some r.message } := by
  obtain ⟨p, hp⟩ := h.protocol
  obtain ⟨-, p1, p2, p3, -⟩ := protocol_facts _ hp
  dsimp only at p1 p2 p3
  obtain ⟨s0, s1, s2, s3⟩ := status_facts h
  have hb : Blanks [32] := by intro c hc; rw [List.mem_singleton.1 hc]; decide
  have h0 : ∀ c ∈ r.protocol.head?, c ≠ 0 := by
    rintro c hc rfl
    exact p3 (List.mem_of_mem_head? hc)
  by_cases hm : r.message = []
  · have := C57_response_line_no_message t [] r.protocol [32] (Spec.render 10 r.code) [32, 13, 10] (by simp) p1 p2 h0 hb
      (by simp) s1 s2 blank_crlf
    have e1 : ([] ++ r.protocol ++ [32] ++ Spec.render 10 r.code ++ [32, 13, 10] : Bytes) = r.line ++ [13, 10] := by
      simp [Response.line, hm]
    rw [e1] at this
    rw [this, s0, hm]
    simp
  · have := C57_response_line t [] r.protocol [32] (Spec.render 10 r.code) [32] r.message [13, 10] (by simp) p1 p2 h0 hb
      (by simp) s1 s2 blank_space (by simp) hm h.message.2 (fun c hc => h.message.1 c (List.mem_of_mem_getLast? hc)) (by simp)
    have e1 : ([] ++ r.protocol ++ [32] ++ Spec.render 10 r.code ++ [32] ++ (r.message ++ [13, 10]) : Bytes) =
        r.line ++ [13, 10] := by
      simp [Response.line]
    rw [e1] at this
    rw [this, s0]

theorem notAsBody (h : r.HeadWellFormed) (rest : Bytes) : treatResponseLineAsBody (r.line ++ rest) = false := by
  obtain ⟨cs, hc⟩ := response_cons h
  rw [hc]
  have h1 : Nom.agrees lower (72 :: 84 :: 84 :: 80 :: (cs ++ rest)) (b! "http") = true := by
    cases h : cs ++ rest <;> simp [Nom.agrees, lower]
  unfold treatResponseLineAsBody
  simp [Nom.bind, Nom.opt, takeIsSpaceOrNull, Nom.takeWhile, isSpace, Nom.tagNoCase]
  rw [if_pos (by simpa using h1)]
  rfl

theorem takeTillEol_crlf {x : Bytes} (hx : ∀ c ∈ x, c ≠ 13 ∧ c ≠ 10) (rest : Bytes) :
    takeTillEol (x ++ [13, 10] ++ rest) = .ok rest (x ++ [13, 10], .crlf) := by
  have hp : ∀ c ∈ x, (fun c : UInt8 => !(c == 10 || c == 13)) c = true := by
    intro c hc
    have := hx c hc
    simp [this.1, this.2]
  have h1 : Nom.takeTillS (fun c => c == 10 || c == 13) (x ++ [13, 10] ++ rest) = .ok (13 :: 10 :: rest) x := by
    unfold Nom.takeTillS Nom.takeWhileS
    rw [List.append_assoc, List.dropWhile_append_of_pos hp, List.takeWhile_append_of_pos hp]
    simp
  have h2 : eolAlt (13 :: 10 :: rest) = .ok rest [13, 10] := by
    unfold eolAlt Nom.alt Nom.tagS
    cases rest <;> simp [Nom.agrees]
  unfold takeTillEol Nom.pair Nom.bind
  rw [h1]
  dsimp only
  unfold Nom.map
  rw [h2]
  have h3 : (x ++ [13, 10] ++ rest).take (x.length + 2) = x ++ [13, 10] := List.take_left' (by simp)
  have h4 : (x ++ [13, 10] ++ rest).drop (x.length + 2) = rest := List.drop_left' (by simp)
  dsimp only
  rw [h3, h4]
  simp

theorem validateResponseLine_wf (t : Tx) {n : Nat} (hp : t.responseProtocolNumber ≠ .invalid)
    (hn : t.responseStatusNumber = .valid n) (h1 : 100 ≤ n) (h2 : n ≤ 999) : t.validateResponseLine = t := by
  unfold Tx.validateResponseLine
  rw [if_neg hp]
  dsimp only
  rw [if_pos (by rw [hn]; simp [ResponseNumber.inRange]; omega)]

/-! The header block. -/

theorem accept_response_lines (hs : List HeaderLine) : ∀ t : Tx, (hs.map parsedLine).foldl Tx.acceptResponseHeader t =
    { t with
      responseHeaders := ((fieldsOf hs).foldl (fun s h => s.1.store s.2 h) (t.responseHeaders, t.responseHeaderRepetitions)).1
      responseHeaderRepetitions :=
        ((fieldsOf hs).foldl (fun s h => s.1.store s.2 h) (t.responseHeaders, t.responseHeaderRepetitions)).2 } := by
  induction hs with
  | nil => intro t; rfl
  | cons h hs ih =>
    intro t
    have h1 : t.acceptResponseHeader (parsedLine h) =
        { t with
          responseHeaders := (t.responseHeaders.store t.responseHeaderRepetitions { name := h.name, value := h.value }).1
          responseHeaderRepetitions :=
            (t.responseHeaders.store t.responseHeaderRepetitions { name := h.name, value := h.value }).2 } := by
      have hz : requestFieldFlags (parsedLine h).name.flags = 0 := by
        show requestFieldFlags 0 = 0
        decide
      have hz' : responseExtraFlags (parsedLine h).name.flags = 0 := by
        show responseExtraFlags 0 = 0
        decide
      unfold Tx.acceptResponseHeader Tx.storeResponseHeader
      dsimp only
      rw [hz, hz']
      unfold Tx.setFlags
      rw [setFlag_zero]
      rfl
    show (hs.map parsedLine).foldl _ (t.acceptResponseHeader _) = _
    rw [ih, h1]
    rfl

/-- What the first bytes after a block of header fields may be. -/
def AnswerFollows (hs : List HeaderLine) (rest : Bytes) : Prop :=
  (hs = [] → rest = []) ∧ ∀ c ∈ rest.head?, c ≠ 32 ∧ c ≠ 9 ∧ c ≠ 13

/-- A header block: the fields are stored, and the block is what is consumed. -/
theorem parseResponseHeaders_block (t : Tx) (hs : List HeaderLine) (hw : ∀ h ∈ hs, h.WellFormed) (rest : Bytes)
    (hf : AnswerFollows hs rest) :
    ∃ rem eoh, t.parseResponseHeaders (renderBlock hs ++ rest) = ((rem, eoh),
      { t with
        responseHeaders := ((fieldsOf hs).foldl (fun s h => s.1.store s.2 h) (t.responseHeaders, t.responseHeaderRepetitions)).1
        responseHeaderRepetitions :=
          ((fieldsOf hs).foldl (fun s h => s.1.store s.2 h) (t.responseHeaders, t.responseHeaderRepetitions)).2 }) ∧
      (eoh || (rem.length == (renderBlock hs ++ rest).length && (rem == b! "\r\n" || rem == b! "\n"))) = true ∧
      (if (rem.length == (renderBlock hs ++ rest).length && (rem == b! "\r\n" || rem == b! "\n")) then
        (renderBlock hs ++ rest).length else (renderBlock hs ++ rest).length - rem.length) = (renderBlock hs).length := by
  cases hs with
  | nil =>
    obtain rfl := hf.1 rfl
    refine ⟨[13, 10], false, ?_, ?_, ?_⟩
    · unfold Tx.parseResponseHeaders
      rw [show renderBlock [] ++ [] = 13 :: 10 :: ([] : Bytes) from rfl, headers_crlf _ _ (by simp)]
      rfl
    · simp [renderBlock]
    · simp [renderBlock]
  | cons h hs =>
    have h1 := C21_block_recovered t.responseHeaderParser (h :: hs) (by simp) hw rest (fun _ => hf.2)
    have hlen : rest.length < (renderBlock (h :: hs) ++ rest).length := by
      rw [List.length_append]
      have : 0 < (renderBlock (h :: hs)).length := by simp [renderBlock, HeaderLine.render]; omega
      omega
    refine ⟨rest, true, ?_, rfl, ?_⟩
    · unfold Tx.parseResponseHeaders
      rw [h1]
      dsimp only
      rw [← accept_response_lines]
      rfl
    · rw [if_neg (by
        have : (rest.length == (renderBlock (h :: hs) ++ rest).length) = false := by
          rw [beq_eq_false_iff_ne]; omega
        rw [this]; simp), List.length_append]
      omega

/-! What the header fields decide. -/

theorem answer_lookup_absent (h : r.WellFormed head) (t : Tx) (m : Flags)
    (ht : t.responseHeaders = storedTable m (fieldsOf r.headers)) {name : Bytes} (hn : ∀ x, ¬ r.Has name x) :
    t.responseHeaders.getNocaseNozero name = none := by
  rw [ht]
  exact lookup_none h.headers (fun x hx he => hn x ⟨hx, he⟩) m

theorem answer_length {content : Bytes} (h : r.WellFormed head) (hb : r.body = .sized content) (t : Tx) (m : Flags)
    (ht : t.responseHeaders = storedTable m (fieldsOf r.headers)) :
    ∃ x, t.responseHeaders.getNocaseNozero (b! "content-length") = some x ∧
      parseContentLength x.value = some content.length := by
  have hf := h.framed
  have hlen := h.length
  unfold Response.Framed at hf
  rw [hb] at hf hlen
  obtain ⟨-, -, ⟨y, hy, he⟩, h3, -⟩ := hf
  obtain ⟨x, z, hx, hz, hze, -, hv⟩ := lookup_some h.headers hy he m
  refine ⟨x, by rw [ht]; exact hx, ?_⟩
  have hv' : x.value = Spec.render 10 content.length := by
    rw [hv ((eqNocase_map _ _).1 (by decide +kernel))]
    exact h3 z ⟨hz, hze⟩
  have := C08_content_length_render content.length hlen [] [] (by simp) (by simp)
  simpa [hv'] using this

theorem answer_chunked {chunks : List BodyChunk} {last : Bytes} {trailer : List HeaderLine} (h : r.WellFormed head)
    (hb : r.body = .chunked chunks last trailer) (t : Tx) (m : Flags)
    (ht : t.responseHeaders = storedTable m (fieldsOf r.headers)) :
    announcesChunked (t.responseHeaders.getNocaseNozero (b! "transfer-encoding")) = true := by
  have hf := h.framed
  unfold Response.Framed at hf
  rw [hb] at hf
  obtain ⟨-, ⟨y, hy, he⟩, h3, -⟩ := hf
  obtain ⟨x, z, hx, hz, hze, hp, -⟩ := lookup_some h.headers hy he m
  have hM := (mentions_iff x.value (b! "chunked") (by decide)).2 (mentions_prefix (h3 z ⟨hz, hze⟩) hp)
  rw [ht, hx]
  unfold announcesChunked
  dsimp only
  cases hi : indexOfNocaseNozero x.value (b! "chunked") with
  | none => rw [hi] at hM; simp at hM
  | some i => rfl

/-- Without a content coding no decompressor is installed. -/
theorem initResponseDecompressors_wf (cfg : Config) (h : r.WellFormed head) (t : Tx) (m : Flags)
    (ht : t.responseHeaders = storedTable m (fieldsOf r.headers)) :
    t.initResponseDecompressors cfg =
      { t with responseContentEncoding := .none, responseContentEncodingProcessing := .none } := by
  unfold Tx.initResponseDecompressors
  rw [ht, lookup_none h.headers (fun x hx he => h.noCoding x ⟨hx, he⟩)]
  dsimp only [Option.map, Option.bind, Option.getD]
  split
  · have : responseLayers cfg.compressionOptions 0 0 (encodingTokens []) = [] := by
      rw [show encodingTokens [] = [] from rfl]
      rfl
    rw [this]
    rfl
  · rfl

end

end Model
