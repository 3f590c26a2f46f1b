/-
C56, C57: the first line of a request and of a response is taken apart into the parts it was put together from.
-/
import Verif.Lemmas.StartLine
import Verif.Spec.Conn

namespace Props
open Model Spec

/-- The method as it is reported: the blanks before it belong to it when the configuration wants them reported. -/
def reportedMethod (e : TxEnv) (lead method : Bytes) : Bytes :=
  if lead ≠ [] ∧ e.cfg.requestlineLeadingWhitespaceUnwanted ≠ .ignore then lead ++ method else method

/-- The status expected of the server after a line with these leading blanks. -/
def leadStatus (e : TxEnv) (lead : Bytes) (before : Unwanted) : Unwanted :=
  if lead ≠ [] ∧ e.cfg.requestlineLeadingWhitespaceUnwanted ≠ .ignore then
    e.cfg.requestlineLeadingWhitespaceUnwanted else before

theorem requestLineData_of {e : TxEnv} {line : Bytes} (h : e.cfg.serverPersonality = .apache_2 → 0 ∉ line) :
    Tx.requestLineData e line = line := by
  unfold Tx.requestLineData
  split
  · rename_i hp
    have hd := span_of_append (p := (· != (0 : UInt8))) (a := line) (b := [])
      (fun c hc => by simp; rintro rfl; exact h hp hc) (by simp)
    rw [List.append_nil] at hd
    simp only [takeUntilNull, Nom.takeWhile, hd]
  · rfl

theorem readMethod_eq (e : TxEnv) (t : Tx) (lead method : Bytes) : t.readMethod e lead method =
    { t with requestMethod := some (reportedMethod e lead method),
             requestMethodNumber := Method.new (reportedMethod e lead method),
             responseStatusExpectedNumber := leadStatus e lead t.responseStatusExpectedNumber } := by
  unfold Tx.readMethod reportedMethod leadStatus
  dsimp only
  split <;> rfl

/-- C56. A line with a method, a URI and a protocol, with any blanks around them: these are what is reported. -/
theorem C56_request_line (e : TxEnv) (t : Tx) (lead method gap uri sep protocol trail : Bytes)
    (hlead : Blanks lead) (hm : method ≠ []) (hmw : Word method) (hgap : Blanks gap) (hg : gap ≠ [])
    (hu : Trim uri) (hp : Trim protocol) (hsep : Blanks sep) (htrail : Blanks trail)
    (hs : Separates e.cfg.decoderCfg.allowSpaceUri uri sep protocol)
    (hnul : e.cfg.serverPersonality = .apache_2 → 0 ∉ lead ++ method ++ gap ++ (uri ++ sep ++ protocol ++ trail)) :
    t.readRequestLine e (lead ++ method ++ gap ++ (uri ++ sep ++ protocol ++ trail)) =
      { t with
        requestLine := some (lead ++ method ++ gap ++ (uri ++ sep ++ protocol ++ trail))
        requestMethod := some (reportedMethod e lead method)
        requestMethodNumber := Method.new (reportedMethod e lead method)
        responseStatusExpectedNumber := leadStatus e lead t.responseStatusExpectedNumber
        requestUri := some uri
        requestProtocol := some protocol
        requestProtocolNumber := parseProtocol protocol } := by
  have hne : uri ++ sep ++ protocol ++ trail ≠ [] := by have := hu.nonempty; simp [this]
  have hw := requestLine_words (rest := uri ++ sep ++ protocol ++ trail) hlead hmw hm hgap (fun c hc => by
    rw [List.append_assoc, List.append_assoc, head?_append_ne hu.nonempty] at hc
    exact hu.first c hc) (fun h => absurd h hg)
  unfold Tx.readRequestLine
  dsimp only
  rw [requestLineData_of hnul, hw]
  dsimp only
  rw [if_neg hne, splitUriProtocol_parts hu hp hsep htrail hs, readMethod_eq]
  unfold Tx.readUriProtocol
  dsimp only
  rw [if_neg hp.nonempty]

/-- C56. A line with a method and a URI only is one of HTTP/0.9. -/
theorem C56_request_line_09 (e : TxEnv) (t : Tx) (lead method gap uri trail : Bytes)
    (hlead : Blanks lead) (hm : method ≠ []) (hmw : Word method) (hgap : Blanks gap) (hg : gap ≠ [])
    (hu : uri ≠ []) (huw : Word uri) (htrail : Blanks trail)
    (hnul : e.cfg.serverPersonality = .apache_2 → 0 ∉ lead ++ method ++ gap ++ (uri ++ trail)) :
    t.readRequestLine e (lead ++ method ++ gap ++ (uri ++ trail)) =
      { t with
        requestLine := some (lead ++ method ++ gap ++ (uri ++ trail))
        requestMethod := some (reportedMethod e lead method)
        requestMethodNumber := Method.new (reportedMethod e lead method)
        responseStatusExpectedNumber := leadStatus e lead t.responseStatusExpectedNumber
        requestUri := some uri
        isProtocol09 := true
        requestProtocolNumber := .v0_9 } := by
  have hne : uri ++ trail ≠ [] := by simp [hu]
  have hw := requestLine_words (rest := uri ++ trail) hlead hmw hm hgap (fun c hc => by
    rw [head?_append_ne hu] at hc
    exact huw c (List.mem_of_mem_head? hc)) (fun h => absurd h hg)
  unfold Tx.readRequestLine
  dsimp only
  rw [requestLineData_of hnul, hw]
  dsimp only
  rw [if_neg hne, splitUriProtocol_only hu huw htrail, readMethod_eq]
  unfold Tx.readUriProtocol
  dsimp only
  rw [if_pos rfl]

/-- C56. A line with nothing but a method is one of HTTP/0.9, without a URI. -/
theorem C56_request_line_method (e : TxEnv) (t : Tx) (lead method gap : Bytes)
    (hlead : Blanks lead) (hm : method ≠ []) (hmw : Word method) (hgap : Blanks gap)
    (hnul : e.cfg.serverPersonality = .apache_2 → 0 ∉ lead ++ method ++ gap) :
    t.readRequestLine e (lead ++ method ++ gap) =
      { t with
        requestLine := some (lead ++ method ++ gap)
        requestMethod := some (reportedMethod e lead method)
        requestMethodNumber := Method.new (reportedMethod e lead method)
        responseStatusExpectedNumber := leadStatus e lead t.responseStatusExpectedNumber
        isProtocol09 := true
        requestProtocolNumber := .v0_9 } := by
  have hw := requestLine_words (rest := []) hlead hmw hm hgap (by simp) (fun _ => rfl)
  rw [List.append_nil] at hw
  unfold Tx.readRequestLine
  dsimp only
  rw [requestLineData_of hnul, hw]
  dsimp only
  rw [if_pos rfl, readMethod_eq]

/-- C56. With the Apache personality nothing after a NUL byte is looked at. -/
theorem C56_apache_nul (e : TxEnv) (t : Tx) (line rest : Bytes) (he : e.cfg.serverPersonality = .apache_2)
    (hl : 0 ∉ line) :
    t.readRequestLine e (line ++ 0 :: rest) =
      { t.readRequestLine e line with requestLine := some (line ++ 0 :: rest) } := by
  have h1 : Tx.requestLineData e (line ++ 0 :: rest) = line := by
    have hd := span_of_append (p := (· != (0 : UInt8))) (a := line) (b := 0 :: rest)
      (fun c hc => by simp; rintro rfl; exact hl hc) (by simp)
    simp only [Tx.requestLineData, he, if_true, takeUntilNull, Nom.takeWhile, hd]
  have h2 : Tx.requestLineData e line = line := requestLineData_of fun _ => hl
  unfold Tx.readRequestLine
  dsimp only
  rw [h1, h2]
  generalize Nom.bind takeIsSpace _ line = r
  cases r with
  | ok rem v =>
    obtain ⟨ls, m⟩ := v
    dsimp only
    rw [readMethod_eq, readMethod_eq]
    split
    · rfl
    · unfold Tx.readUriProtocol
      dsimp only
      split <;> rfl
  | err => rfl
  | incomplete => rfl

/-- C57. A status line with a protocol, a code and a message, with any blanks around them: these are what is
reported. The blank after the code must not be a vertical tab (see `C57_response_line_no_message`). -/
theorem C57_response_line (t : Tx) (lead protocol gap code sep message eol : Bytes)
    (hlead : ∀ c ∈ lead, Blank c ∨ c = 0) (hp : protocol ≠ []) (hpw : Word protocol)
    (hp0 : ∀ c ∈ protocol.head?, c ≠ 0) (hgap : Blanks gap) (hg : gap ≠ []) (hc : code ≠ []) (hcw : Word code)
    (hsep : ∀ c ∈ sep, Blank c ∧ c ≠ 11) (hs : sep ≠ [])
    (hm : message ≠ []) (hm1 : ∀ c ∈ message.head?, ¬ Blank c) (hm2 : ∀ c ∈ message.getLast?, c ≠ 13 ∧ c ≠ 10)
    (heol : ∀ c ∈ eol, c = 13 ∨ c = 10) :
    t.readResponseLine (lead ++ protocol ++ gap ++ code ++ sep ++ (message ++ eol)) =
      { t with
        responseLine := some (lead ++ protocol ++ gap ++ code ++ sep ++ (message ++ eol))
        responseProtocol := some protocol
        responseProtocolNumber := parseProtocol protocol
        responseStatus := some code
        responseStatusNumber := parseStatus code
        responseMessage := some message } := by
  have hw := responseLine_words (rest := message ++ eol) hlead hp hpw hp0 hgap hcw hsep (fun c h => by
    rw [head?_append_ne hm] at h
    exact fun hb => hm1 c h hb.1) (fun h => absurd h hg) (fun h => absurd h hc) (fun h => absurd h hs)
  have hch : chomp (message ++ eol) = message :=
    dropLastWhile_append (fun c h => by simpa [And.comm] using hm2 c h) fun c h => by
      rcases heol c h with rfl | rfl <;> decide
  unfold Tx.readResponseLine
  dsimp only
  rw [hw]
  dsimp only
  rw [if_neg hp, if_neg (by simp [hg, hc]), if_neg hs, hch]

/-- C57. A status line that ends after the code has an empty message if the line ends with a blank or a line break,
and none otherwise. -/
theorem C57_response_line_no_message (t : Tx) (lead protocol gap code sep : Bytes)
    (hlead : ∀ c ∈ lead, Blank c ∨ c = 0) (hp : protocol ≠ []) (hpw : Word protocol)
    (hp0 : ∀ c ∈ protocol.head?, c ≠ 0) (hgap : Blanks gap) (hg : gap ≠ []) (hc : code ≠ []) (hcw : Word code)
    (hsep : ∀ c ∈ sep, Blank c ∧ c ≠ 11) :
    t.readResponseLine (lead ++ protocol ++ gap ++ code ++ sep) =
      { t with
        responseLine := some (lead ++ protocol ++ gap ++ code ++ sep)
        responseProtocol := some protocol
        responseProtocolNumber := parseProtocol protocol
        responseStatus := some code
        responseStatusNumber := parseStatus code
        responseMessage := if sep = [] then none else some [] } := by
  have hw := responseLine_words (rest := []) hlead hp hpw hp0 hgap hcw hsep (by simp) (fun h => absurd h hg)
    (fun h => absurd h hc) (by simp)
  rw [List.append_nil] at hw
  unfold Tx.readResponseLine
  dsimp only
  rw [hw]
  dsimp only
  rw [if_neg hp, if_neg (by simp [hg, hc])]
  split <;> rfl

/-- C57. A status line without a code has neither status nor message. -/
theorem C57_response_line_no_code (t : Tx) (lead protocol gap : Bytes)
    (hlead : ∀ c ∈ lead, Blank c ∨ c = 0) (hp : protocol ≠ []) (hpw : Word protocol)
    (hp0 : ∀ c ∈ protocol.head?, c ≠ 0) (hgap : Blanks gap) :
    t.readResponseLine (lead ++ protocol ++ gap) =
      { t with
        responseLine := some (lead ++ protocol ++ gap)
        responseProtocol := some protocol
        responseProtocolNumber := parseProtocol protocol
        responseStatus := none
        responseStatusNumber := .invalid
        responseMessage := none } := by
  have hw := responseLine_words (rest := []) (code := []) (ws := []) hlead hp hpw hp0 hgap (by simp [Word]) (by simp)
    (by simp) (fun _ => rfl) (fun _ => rfl) (by simp)
  simp only [List.append_nil] at hw
  unfold Tx.readResponseLine
  dsimp only
  rw [hw]
  dsimp only
  rw [if_neg hp, if_pos (Or.inr rfl)]

/-! The hypotheses are met by lines such as these. -/

example : ({ index := 0 } : Tx).readRequestLine sampleEnv.toTxEnv (b! "GET \t/a?b  HTTP/1.1 ") =
    { index := 0, requestLine := some (b! "GET \t/a?b  HTTP/1.1 "), requestMethod := some (b! "GET"),
      requestMethodNumber := .get, requestUri := some (b! "/a?b"), requestProtocol := some (b! "HTTP/1.1"),
      requestProtocolNumber := .v1_1 } :=
  C56_request_line sampleEnv.toTxEnv { index := 0 } [] (b! "GET") (b! " \t") (b! "/a?b") (b! "  ") (b! "HTTP/1.1")
    (b! " ") (by decide +kernel) (by decide +kernel) (by decide +kernel) (by decide +kernel) (by decide +kernel) ⟨by decide +kernel, by decide +kernel, by decide +kernel⟩
    ⟨by decide +kernel, by decide +kernel, by decide +kernel⟩ (by decide +kernel) (by decide +kernel) (by decide +kernel) (by decide +kernel)

/-- Without spaces in URIs a line is cut at the first space; with them at the last. -/
example : Separates false (b! "/a") (b! " ") (b! "b HTTP/1.1") ∧ Separates true (b! "/a b") (b! " ") (b! "HTTP/1.1") := by
  decide +kernel

/-- Where there is no space another blank is enough. -/
example : Separates false (b! "/a") (b! "\t") (b! "HTTP/1.1") ∧ ¬ Separates false (b! "/a\tb") (b! "\t") (b! "HTTP/1.1") := by
  decide +kernel

example : ({ index := 0 } : Tx).readResponseLine (b! "HTTP/1.1 404  Not Found\r\n") =
    { index := 0, responseLine := some (b! "HTTP/1.1 404  Not Found\r\n"), responseProtocol := some (b! "HTTP/1.1"),
      responseProtocolNumber := .v1_1, responseStatus := some (b! "404"), responseStatusNumber := .valid 404,
      responseMessage := some (b! "Not Found") } :=
  C57_response_line { index := 0 } [] (b! "HTTP/1.1") (b! " ") (b! "404") (b! "  ") (b! "Not Found") (b! "\r\n")
    (by decide +kernel) (by decide +kernel) (by decide +kernel) (by decide +kernel) (by decide +kernel) (by decide +kernel) (by decide +kernel) (by decide +kernel) (by decide +kernel)
    (by decide +kernel) (by decide +kernel) (by decide +kernel) (by decide +kernel) (by decide +kernel)

end Props
