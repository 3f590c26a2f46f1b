/-
What a well-formed request does to its transaction.
-/
import Verif.Spec.Message
import Verif.Lemmas.NoPanicDecode
import Verif.Props.StartLine
import Verif.Props.Header
import Verif.Props.RequestHeaders
import Verif.Props.Parsers

namespace Model

open Spec Props

/-! The request line. -/

/-- What all methods have in common, as they are written. -/
class KnownMethods (ms : List (Bytes × Method)) : Prop where
  facts : ∀ x ∈ ms, Method.new x.1 = x.2 ∧ x.2 ≠ .unknown ∧ x.1 ≠ [] ∧ Word x.1 ∧ (0 : UInt8) ∉ x.1 ∧ (10 : UInt8) ∉ x.1

theorem method_facts : ∀ x ∈ methods, Method.new x.1 = x.2 ∧ x.2 ≠ .connect ∧ x.2 ≠ .unknown ∧ x.1 ≠ [] ∧ Word x.1 ∧
    (0 : UInt8) ∉ x.1 ∧ (10 : UInt8) ∉ x.1 := by
  decide +kernel

instance : KnownMethods methods where
  facts x hx := by
    obtain ⟨h1, -, h2⟩ := method_facts x hx
    exact ⟨h1, h2⟩

theorem protocol_facts : ∀ x ∈ protocols, parseProtocol x.1 = x.2 ∧ x.1 ≠ [] ∧ Word x.1 ∧
    (0 : UInt8) ∉ x.1 ∧ (10 : UInt8) ∉ x.1 := by
  decide +kernel

theorem trim_of_word {l : Bytes} (h : l ≠ []) (hw : Word l) : Trim l :=
  ⟨h, fun c hc => hw c (List.mem_of_mem_head? hc), fun c hc => hw c (List.mem_of_mem_getLast? hc)⟩

theorem method_ne {ms : List (Bytes × Method)} [KnownMethods ms] {r : Request} (h : r.WellFormedIn ms) : r.method ≠ [] := by
  obtain ⟨m, hm⟩ := h.method
  exact (KnownMethods.facts _ hm).2.2.1

theorem line_noLf {ms : List (Bytes × Method)} [KnownMethods ms] {r : Request} (h : r.WellFormedIn ms) : (10 : UInt8) ∉ r.line := by
  obtain ⟨m, hm⟩ := h.method
  obtain ⟨p, hp⟩ := h.protocol
  have h1 := (KnownMethods.facts _ hm).2.2.2.2.2
  have h2 := (protocol_facts _ hp).2.2.2.2
  have h3 : (10 : UInt8) ∉ r.uri := fun hc => h.uri.2.1 _ hc (by decide)
  simp [Request.line, h1, h2, h3]

theorem readRequestLine_wf (e : TxEnv) (t : Tx) {ms : List (Bytes × Method)} [KnownMethods ms] {r : Request}
    (h : r.WellFormedIn ms) :
    t.readRequestLine e r.line =
      { t with
        requestLine := some r.line
        requestMethod := some r.method
        requestMethodNumber := Method.new r.method
        requestUri := some r.uri
        requestProtocol := some r.protocol
        requestProtocolNumber := parseProtocol r.protocol } := by
  obtain ⟨m, hm⟩ := h.method
  obtain ⟨p, hp⟩ := h.protocol
  obtain ⟨-, -, m1, m2, m3, -⟩ := KnownMethods.facts _ hm
  obtain ⟨-, p1, p2, p3, -⟩ := protocol_facts _ hp
  dsimp only at m1 m2 m3 p1 p2 p3
  have h32 : (32 : UInt8) ∉ r.uri := fun hc => h.uri.2.1 _ hc (by decide)
  have h32' : (32 : UInt8) ∉ r.protocol := fun hc => p2 _ hc (by decide)
  have hb : Blanks [32] := by intro c hc; rw [List.mem_singleton.1 hc]; decide
  have hn : Blanks [] := by intro c hc; cases hc
  have := C56_request_line e t [] r.method [32] r.uri [32] r.protocol [] hn m1 m2 hb (by simp)
    (trim_of_word h.uri.1 h.uri.2.1) (trim_of_word p1 p2) hb hn
    (.inl ⟨by simp, by split <;> assumption⟩) (fun _ => by simp [m3, p3, h.uri.2.2])
  have e1 : ([] ++ r.method ++ [32] ++ (r.uri ++ [32] ++ r.protocol ++ []) : Bytes) = r.line := by
    simp [Request.line]
  rw [e1] at this
  rw [this]
  simp [reportedMethod, leadStatus]

theorem queryParams_ok {e : Env} (h : Willing e) (t : Tx) : t.queryParams e.toTxEnv = .ok () := by
  have h1 := queryParams_calm (e := e.toTxEnv) h.decoding t
  unfold Tx.queryParams at h1 ⊢
  split
  next query h2 h3 =>
    rw [h2, h3] at h1
    dsimp only at h1
    split
    next hf => rw [hf] at h1; exact absurd rfl h1
    next form hf =>
      split
      · rfl
      next f hp =>
        split
        next st hst =>
          obtain ⟨p, -, hst⟩ := List.exists_of_findSome?_eq_some hst
          rw [h.parameters f hp] at hst
          cases hst
        · rfl
  · rfl

/-- The URI is split and normalized. -/
theorem parseRequestLine_wf {e : Env} (h : Willing e) (t : Tx) (uri : Bytes) (hu : t.requestUri = some uri)
    (hp : t.parsedUri = none) :
    ∃ raw u st fl, t.parseRequestLine e.toTxEnv = (.ok (),
      { t with parsedUriRaw := some raw, parsedUri := some u, responseStatusExpectedNumber := st, flags := fl }) := by
  have hsp : ∃ raw fl, t.splitRequestUri e.toTxEnv = (.ok (), { t with parsedUriRaw := some raw, flags := fl }) := by
    unfold Tx.splitRequestUri
    rw [hu]
    split
    · exact ⟨_, _, rfl⟩
    · exact ⟨_, t.flags, rfl⟩
  obtain ⟨raw, fl0, hsp⟩ := hsp
  refine ⟨raw, ?_⟩
  unfold Tx.parseRequestLine
  rw [hsp]
  dsimp only
  generalize ht1 : ({ t with parsedUriRaw := some raw, flags := fl0 } : Tx) = t1
  have hn : ∃ u st fl, t1.normalizeParsedUri e.toTxEnv =
      some { t1 with parsedUri := some u, responseStatusExpectedNumber := st, flags := fl } := by
    have hc := normalizeParsedUri_calm (e := e.toTxEnv) h.decoding t1
    unfold Tx.normalizeParsedUri at hc ⊢
    have hr : t1.parsedUriRaw = some raw := by rw [← ht1]
    rw [hr] at hc ⊢
    dsimp only at hc ⊢
    generalize Uri.normalizedDecoded e.ovf e.cfg.decoderCfg t1.flags _ = x1 at hc ⊢
    cases x1 with
    | none => exact absurd rfl hc
    | some x1 =>
      simp only [Option.bind_some] at hc ⊢
      generalize Uri.normalizedDecoded e.ovf e.cfg.decoderCfg _ _ = x2 at hc ⊢
      cases x2 with
      | none => exact absurd rfl hc
      | some x2 =>
        simp only [Option.bind_some] at hc ⊢
        generalize Uri.normalizedHostname e.ovf e.cfg.decoderCfg _ _ = x3 at hc ⊢
        cases x3 with
        | none => exact absurd rfl hc
        | some x3 =>
          simp only [Option.bind_some] at hc ⊢
          generalize Uri.normalizedDecoded e.ovf e.cfg.decoderCfg _ _ = x4 at hc ⊢
          cases x4 with
          | none => exact absurd rfl hc
          | some x4 =>
            simp only [Option.bind_some] at hc ⊢
            generalize Uri.normalizedPath e.ovf e.cfg.decoderCfg _ _ _ = x5 at hc ⊢
            cases x5 with
            | none => exact absurd rfl hc
            | some x5 => exact ⟨_, _, _, rfl⟩
  obtain ⟨u, st, fl, hn⟩ := hn
  unfold Tx.finishRequestUri
  have hp1 : t1.parsedUri.isNone = true := by rw [← ht1]; simp [hp]
  rw [if_pos hp1, hn]
  dsimp only
  rw [queryParams_ok h]
  dsimp only
  unfold Tx.checkUriHost
  subst ht1
  split
  · split
    · exact ⟨u, st, fl, rfl⟩
    · exact ⟨u, st, setFlag fl Flag.HOSTU_INVALID, rfl⟩
  · exact ⟨u, st, fl, rfl⟩

theorem storeNormalizedUri_wf {e : Env} (h : Willing e) (t : Tx) :
    ∃ a b, t.storeNormalizedUri e.toTxEnv = some { t with partialNormalizedUri := a, completeNormalizedUri := b } := by
  have hc := storeNormalizedUri_calm (e := e.toTxEnv) h.decoding t
  unfold Tx.storeNormalizedUri at hc ⊢
  split
  next hp => exact ⟨t.partialNormalizedUri, t.completeNormalizedUri, rfl⟩
  next u hu =>
    rw [hu] at hc
    dsimp only at hc
    generalize u.generateNormalizedUri e.ovf e.cfg.decoderCfg = x at hc ⊢
    cases x with
    | none => exact absurd rfl hc
    | some x => exact ⟨_, _, rfl⟩

/-! The header block. -/

/-- What the header parser finds in a line. -/
def parsedLine (h : HeaderLine) : ParsedHeader :=
  { name := { text := h.name, flags := 0 },
    value := { text := h.value, flags := if h.value = [] then HFlag.VALUE_EMPTY else 0 } }

theorem accept_lines (hs : List HeaderLine) : ∀ t : Tx, (hs.map parsedLine).foldl Tx.acceptRequestHeader t =
    { t with
      requestHeaders := ((fieldsOf hs).foldl (fun s h => s.1.store s.2 h) (t.requestHeaders, t.requestHeaderRepetitions)).1
      requestHeaderRepetitions :=
        ((fieldsOf hs).foldl (fun s h => s.1.store s.2 h) (t.requestHeaders, t.requestHeaderRepetitions)).2 } := by
  induction hs with
  | nil => intro t; rfl
  | cons h hs ih =>
    intro t
    have h1 : t.acceptRequestHeader (parsedLine h) =
        { t with
          requestHeaders := (t.requestHeaders.store t.requestHeaderRepetitions { name := h.name, value := h.value }).1
          requestHeaderRepetitions :=
            (t.requestHeaders.store t.requestHeaderRepetitions { name := h.name, value := h.value }).2 } := by
      have hz : requestFieldFlags (parsedLine h).name.flags = 0 := by
        show requestFieldFlags 0 = 0
        decide
      unfold Tx.acceptRequestHeader Tx.storeRequestHeader
      dsimp only
      rw [hz]
      unfold Tx.setFlags
      rw [setFlag_zero]
      rfl
    show (hs.map parsedLine).foldl _ (t.acceptRequestHeader _) = _
    rw [ih, h1]
    rfl

theorem fields_trimmed {hs : List HeaderLine} (hw : ∀ h ∈ hs, h.WellFormed) :
    ∀ x ∈ fieldsOf hs, AsciiTrimmed x.name x.name ∧ isSet x.flags HFlag.FIELD_REPEATED = false := by
  intro x hx
  obtain ⟨h, hm, rfl⟩ := List.mem_map.1 hx
  have hw' : ∀ c ∈ h.name, c ∉ asciiWhitespace := fun c hc => by
    have : ∀ c : UInt8, Tchar c → c ∉ asciiWhitespace := by decide +kernel
    exact this c ((hw h hm).token c hc)
  refine ⟨⟨[], [], by simp, by simp, by simp, fun c hc => hw' c (List.mem_of_mem_head? hc),
    fun c hc => hw' c (List.mem_of_mem_getLast? hc)⟩, ?_⟩
  show isSet 0 HFlag.FIELD_REPEATED = false
  decide

/-- The fields of a block, and of a trailer after it, are stored as specified. -/
theorem stored_lines (hs : List HeaderLine) (hw : ∀ h ∈ hs, h.WellFormed) :
    (fieldsOf hs).foldl (fun s h => s.1.store s.2 h) (([], 0) : Headers × Nat) =
      (storedTable HFlag.FIELD_REPEATED (fieldsOf hs), min 64 (extras (fieldsOf hs) (fieldsOf hs).length)) := by
  have := processed_all (fieldsOf hs) (fun x hx => (fields_trimmed hw x hx).1) (fun x hx => (fields_trimmed hw x hx).2)
  unfold Processed at this
  exact Prod.ext this.1 this.2

/-- An empty line is not a field. -/
theorem headers_crlf (p : HeaderParser) (rest : Bytes) (hr : ∀ c ∈ rest.head?, c ≠ 32) :
    p.headers (13 :: 10 :: rest) = .err := by
  have h1 : HeaderParser.nameScan false 0 (13 :: 10 :: rest) = 0 ∨ HeaderParser.nameScan false 0 (13 :: 10 :: rest) = 1 := by
    cases rest with
    | nil => left; rfl
    | cons c cs =>
      right
      have := hr c rfl
      simp [HeaderParser.nameScan, this]
  have h2 : p.header (13 :: 10 :: rest) = .err := by
    have h3 : p.headerWithColon (13 :: 10 :: rest) = .err := by
      unfold HeaderParser.headerWithColon HeaderParser.name
      rcases h1 with h1 | h1 <;> rw [Nom.bind, h1] <;> rfl
    unfold HeaderParser.header Nom.alt Nom.complete
    rw [h3]
    dsimp only
    unfold HeaderParser.headerSansColon Nom.bind Nom.not Nom.tag
    cases rest <;> simp [Nom.agrees]
  unfold HeaderParser.headers
  rw [h2]

/-- What the first bytes after a block of header fields may be. -/
def Follows (hs : List HeaderLine) (rest : Bytes) : Prop := hs = [] → ∀ c ∈ rest.head?, c ≠ 32

/-- A header block: the fields are stored, and the block is what is consumed. -/
theorem parseRequestHeaders_block (t : Tx) (hs : List HeaderLine) (hw : ∀ h ∈ hs, h.WellFormed) (rest : Bytes)
    (hf : Follows hs rest) (hp : t.requestHeaderParser.side = .request) :
    ∃ rem eoh, t.parseRequestHeaders (renderBlock hs ++ rest) = ((rem, eoh),
      { t with
        requestHeaders := ((fieldsOf hs).foldl (fun s h => s.1.store s.2 h) (t.requestHeaders, t.requestHeaderRepetitions)).1
        requestHeaderRepetitions :=
          ((fieldsOf hs).foldl (fun s h => s.1.store s.2 h) (t.requestHeaders, t.requestHeaderRepetitions)).2 }) ∧
      (eoh || (rem.length == (renderBlock hs ++ rest).length &&
        ((b! "\r\n").isPrefixOf rem || (b! "\n").isPrefixOf rem))) = true ∧
      ∀ x, x ≠ [] → (hs = [] → x = renderBlock hs) → requestHeadersConsumed (x ++ rest).length rem
        (rem.length == (renderBlock hs ++ rest).length &&
          ((b! "\r\n").isPrefixOf rem || (b! "\n").isPrefixOf rem)) = x.length := by
  cases hs with
  | nil =>
    refine ⟨[13, 10] ++ rest, false, ?_, ?_, ?_⟩
    · unfold Tx.parseRequestHeaders
      rw [show renderBlock [] ++ rest = 13 :: 10 :: rest from rfl, headers_crlf _ _ (hf rfl)]
      rfl
    · simp [renderBlock, List.isPrefixOf]
    · intro x _ hx
      rw [hx rfl]
      simp [renderBlock, requestHeadersConsumed, List.isPrefixOf]
  | cons h hs =>
    have h1 := C21_block_recovered t.requestHeaderParser (h :: hs) (by simp) hw rest (by rw [hp]; intro h; cases h)
    refine ⟨rest, true, ?_, ?_, ?_⟩
    · unfold Tx.parseRequestHeaders
      rw [h1]
      dsimp only
      rw [← accept_lines]
      rfl
    · rfl
    · intro x hx _
      have : x.length ≠ 0 := by rw [ne_eq, List.length_eq_zero_iff]; exact hx
      unfold requestHeadersConsumed
      rw [if_pos (by rw [List.length_append]; omega), List.length_append]
      omega

/-! Looking a field up. -/

theorem spaceChar_head {w : Bytes} (h : SpaceChar w) : ∃ c, w.head? = some c ∧ ¬ Tchar c ∧ w ≠ [] := by
  obtain ⟨cp, hc, rfl⟩ := h
  revert cp
  decide +kernel

/-- For a name that is a token there is nothing to trim. -/
theorem nameMatches_token {name key : Bytes} (h : ∀ c ∈ name, Tchar c) :
    NameMatchesNozero name key ↔ EqNocase name key := by
  have h0 : withoutNul name = name := by
    apply List.filter_eq_self.2
    intro c hc
    have : ∀ c : UInt8, Tchar c → c ≠ 0 := by decide +kernel
    simpa using this c (h c hc)
  have hnil : ∀ ws : List Bytes, (∀ w ∈ ws, SpaceChar w) → (∀ c ∈ ws.flatten, Tchar c) → ws = [] := by
    intro ws hs ht
    cases ws with
    | nil => rfl
    | cons w ws =>
      obtain ⟨c, hc, hn, -⟩ := spaceChar_head (hs w (by simp))
      exact absurd (ht c (by simp [List.mem_of_mem_head? hc])) hn
  have hself : UnicodeTrimmed name name := by
    refine ⟨[], [], by simp, by simp, by simp, fun w hw hp => ?_, fun w hw hp => ?_⟩ <;>
      obtain ⟨c, hc, hn, -⟩ := spaceChar_head hw
    · exact hn (h c (hp.subset (List.mem_of_mem_head? hc)))
    · exact hn (h c (hp.subset (List.mem_of_mem_head? hc)))
  constructor
  · rintro ⟨mid, ⟨pre, post, he, h1, h2, -, -⟩, hm⟩
    have hp : pre = [] := hnil pre h1 fun c hc => h c (by rw [he]; simp [hc])
    have hq : post = [] := hnil post h2 fun c hc => h c (by rw [he]; simp [hc])
    subst hp hq
    simp only [List.flatten_nil, List.nil_append, List.append_nil] at he
    subst he
    rwa [h0] at hm
  · intro hm
    exact ⟨name, hself, by rwa [h0]⟩

theorem field_mem {fs : List Header} {i : Nat} (h : i < fs.length) : field fs i ∈ fs := by
  unfold field List.getD
  rw [List.getElem?_eq_getElem h]
  exact List.getElem_mem h

/-- What is in the table comes from the fields. -/
theorem mem_storedTable {m : Flags} {fs : List Header} {x : Header} (h : x ∈ storedTable m fs) :
    ∃ i, i < fs.length ∧ before fs i = 0 ∧ x = stored m fs i := by
  unfold storedTable at h
  simp only [List.mem_map, List.mem_filter, List.mem_range, decide_eq_true_eq] at h
  obtain ⟨i, ⟨h1, h2⟩, rfl⟩ := h
  exact ⟨i, h1, h2, rfl⟩

/-- Looking up a name that no field has. -/
theorem lookup_none {hs : List HeaderLine} (hw : ∀ h ∈ hs, h.WellFormed) {key : Bytes}
    (hn : ∀ h ∈ hs, ¬ EqNocase h.name key) (m : Flags) :
    Headers.getNocaseNozero (storedTable m (fieldsOf hs)) key = none := by
  cases hr : Headers.getNocaseNozero (storedTable m (fieldsOf hs)) key with
  | none => rfl
  | some x =>
    have h1 := C04_headers_get_nocase_nozero (storedTable m (fieldsOf hs)) key
    rw [hr] at h1
    obtain ⟨a, b, h2, h3, -⟩ := h1
    obtain ⟨i, hi, -, rfl⟩ := mem_storedTable (x := x) (by rw [h2]; simp)
    obtain ⟨h, hm, he⟩ := List.mem_map.1 (field_mem hi)
    have hname : (stored m (fieldsOf hs) i).name = h.name := by
      show (field (fieldsOf hs) i).name = _
      exact (congrArg Header.name he).symm
    rw [hname, nameMatches_token (hw h hm).token] at h3
    exact absurd h3 (hn h hm)

theorem fieldsOf_field {hs : List HeaderLine} {i : Nat} (h : i < (fieldsOf hs).length) :
    ∃ x ∈ hs, (field (fieldsOf hs) i) = { name := x.name, value := x.value } := by
  obtain ⟨x, hm, he⟩ := List.mem_map.1 (field_mem h)
  exact ⟨x, hm, he.symm⟩

theorem prefix_joinComma {l : List Bytes} {v : Bytes} (h : l.head? = some v) : v <+: joinComma l := by
  match l, h with
  | [w], h => cases h; exact List.prefix_rfl
  | w :: x :: l, h =>
    cases h
    rw [joinComma.eq_3 _ _ (by simp), List.append_assoc]
    exact List.prefix_append _ _

theorem exists_first (p : Nat → Prop) {j : Nat} (h : p j) : ∃ i, i ≤ j ∧ p i ∧ ∀ k, k < i → ¬ p k := by
  induction j using Nat.strongRecOn with
  | ind j ih =>
    by_cases hk : ∃ k, k < j ∧ p k
    · obtain ⟨k, h1, h2⟩ := hk
      obtain ⟨i, h3, h4, h5⟩ := ih k h1 h2
      exact ⟨i, by omega, h4, h5⟩
    · exact ⟨j, Nat.le_refl _, h, fun k h1 h2 => hk ⟨k, h1, h2⟩⟩

open Classical in
/-- Looking up a name that a field has: the first such field decides. -/
theorem lookup_some {hs : List HeaderLine} (hw : ∀ h ∈ hs, h.WellFormed) {key : Bytes} {h : HeaderLine} (hm : h ∈ hs)
    (he : EqNocase h.name key) (m : Flags) :
    ∃ x y, Headers.getNocaseNozero (storedTable m (fieldsOf hs)) key = some x ∧ y ∈ hs ∧ EqNocase y.name key ∧
      y.value <+: x.value ∧ (EqNocase key (b! "Content-Length") → x.value = y.value) := by
  obtain ⟨j, hj, hj'⟩ : ∃ j, j < (fieldsOf hs).length ∧ (field (fieldsOf hs) j).name = h.name := by
    obtain ⟨j, hj, e1⟩ := List.getElem_of_mem hm
    refine ⟨j, by simpa [fieldsOf] using hj, ?_⟩
    unfold field fieldsOf List.getD
    simp [List.getElem?_eq_getElem hj, e1]
  have hname : ∀ i, i < (fieldsOf hs).length → (NameMatchesNozero (field (fieldsOf hs) i).name key ↔
      EqNocase (field (fieldsOf hs) i).name key) := by
    intro i hi
    obtain ⟨x, hx, e1⟩ := fieldsOf_field hi
    rw [e1]
    exact nameMatches_token (hw x hx).token
  obtain ⟨i, hij, hi, hfirst⟩ := exists_first (fun i => EqNocase (field (fieldsOf hs) i).name key) (j := j)
    (by rw [hj']; exact he)
  have hil : i < (fieldsOf hs).length := by omega
  have hb : before (fieldsOf hs) i = 0 := by
    unfold before
    rw [List.countP_eq_zero]
    intro k hk hs'
    simp only [decide_eq_true_eq] at hs'
    exact hfirst k (List.mem_range.1 hk) (eqNocase_trans hs' hi)
  have hmem : stored m (fieldsOf hs) i ∈ storedTable m (fieldsOf hs) := by
    unfold storedTable
    exact List.mem_map.2 ⟨i, by simp [hil, hb], rfl⟩
  have h1 := C04_headers_get_nocase_nozero (storedTable m (fieldsOf hs)) key
  cases hr : Headers.getNocaseNozero (storedTable m (fieldsOf hs)) key with
  | none =>
    rw [hr] at h1
    exact absurd ((hname i hil).2 hi) (h1 (stored m (fieldsOf hs) i) hmem)
  | some x =>
    rw [hr] at h1
    obtain ⟨a, b, h2, h3, -⟩ := h1
    obtain ⟨i', hi', hb', rfl⟩ := mem_storedTable (x := x) (by rw [h2]; simp)
    have h4 := (hname i' hi').1 h3
    obtain ⟨y, hy, e1⟩ := fieldsOf_field hi'
    rw [e1] at h4
    refine ⟨_, y, rfl, hy, h4, ?_, ?_⟩
    · show y.value <+: (if _ then _ else _)
      split
      · rw [e1]; exact List.prefix_rfl
      · apply prefix_joinComma
        rw [List.head?_map, List.head?_filter]
        have : (List.range (fieldsOf hs).length).find? (fun j => decide (Same (fieldsOf hs) j i' ∧ Recorded (fieldsOf hs) j)) =
            some i' := by
          rw [List.find?_range_eq_some]
          refine ⟨?_, List.mem_range.2 hi', fun k hk => ?_⟩
          · simp only [decide_eq_true_eq]
            refine ⟨?_, .inl (by omega)⟩
            exact (eqNocase_map _ _).1 rfl
          · simp only [Bool.not_eq_true', decide_eq_false_iff_not]
            rintro ⟨hs', -⟩
            unfold before at hb'
            rw [List.countP_eq_zero] at hb'
            exact hb' k (List.mem_range.2 hk) (by simpa using hs')
        rw [this, Option.map_some, e1]
    · intro hk
      show (if _ then _ else _) = _
      rw [if_pos (by rw [e1]; exact eqNocase_trans h4 hk), e1]

/-! What the header fields decide. -/

theorem hostFromHeader_shape (t : Tx) (h : Bytes) (p : Option (Bytes × Option Nat)) :
    ∃ fl host port, t.hostFromHeader h p =
      { t with flags := fl, requestHostname := host, requestPortNumber := port } := by
  unfold Tx.hostFromHeader
  split
  · split
    · exact ⟨_, _, _, rfl⟩
    · exact ⟨_, _, _, rfl⟩
  next host hh =>
    have hx : ∃ fl, (if cmpNocase host h != .eq then t.setFlags Flag.HOST_AMBIGUOUS else t) =
        { t with flags := fl } := by
      split
      · exact ⟨_, rfl⟩
      · exact ⟨_, rfl⟩
    obtain ⟨fl, hx⟩ := hx
    dsimp only
    rw [hx]
    split
    · split
      · exact ⟨_, _, _, rfl⟩
      · exact ⟨_, _, _, rfl⟩
    · exact ⟨_, _, _, rfl⟩

theorem examineHost_shape (ip : Bytes → Option Bool) (t : Tx) :
    ∃ fl host port, t.examineHost ip =
      { t with flags := fl, requestHostname := host, requestPortNumber := port } := by
  unfold Tx.examineHost Tx.setFlags
  split
  · split
    · split
      · exact hostFromHeader_shape _ _ _
      · obtain ⟨a, b, c, h⟩ := hostFromHeader_shape { t with flags := setFlag t.flags Flag.HOSTH_INVALID } _ _
        exact ⟨a, b, c, h⟩
    · split
      · exact ⟨_, _, _, rfl⟩
      · exact ⟨_, _, _, rfl⟩
  · split
    · exact ⟨_, _, _, rfl⟩
    · exact ⟨_, _, _, rfl⟩

theorem examineAuth_shape (e : TxEnv) (t : Tx) : ∃ fl auth, t.examineAuth e = { t with flags := fl, auth := auth } := by
  unfold Tx.examineAuth
  split
  · simp only
    split
    · exact ⟨_, _, rfl⟩
    · exact ⟨_, _, rfl⟩
  · exact ⟨_, _, rfl⟩

theorem examineRest_shape (e : TxEnv) (t : Tx)
    (hct : ∀ x, t.requestHeaders.getNocaseNozero (b! "content-type") = some x → parseContentType x.value ≠ none) :
    ∃ fl auth ct, t.examineRest e = (.ok (), { t with flags := fl, auth := auth, requestContentType := ct }) := by
  unfold Tx.examineRest
  split
  next x hx =>
    cases hp : parseContentType x.value with
    | none => exact absurd hp (hct x hx)
    | some ty =>
      obtain ⟨fl, auth, h⟩ := examineAuth_shape e { t with requestContentType := some ty }
      exact ⟨fl, auth, some ty, congrArg (Prod.mk _) h⟩
  next hx =>
    obtain ⟨fl, auth, h⟩ := examineAuth_shape e t
    exact ⟨fl, auth, t.requestContentType, congrArg (Prod.mk _) h⟩

theorem parseContentType_ok {v : Bytes} {c : UInt8} (h : v.head? = some c) (hc : c ∉ b! ";, ") (hb : ¬ Blank c)
    {w : Bytes} (hw : v <+: w) : parseContentType w ≠ none := by
  obtain ⟨u, rfl⟩ := hw
  cases v with
  | nil => simp at h
  | cons a v =>
    obtain rfl : a = c := by simpa using h
    have h1 : isAsciiWhitespace a = false := by
      have : ∀ c : UInt8, ¬ Blank c → isAsciiWhitespace c = false := by decide +kernel
      exact this a hb
    have h2 : (b! ";, ").contains a = false := by simpa using hc
    unfold parseContentType contentType takeAsciiWhitespace Nom.takeWhile Nom.bind Nom.isNot Nom.takeWhile1
    simp [h1]
    simp at hc
    simp [hc]

theorem mentions_prefix {v w : Bytes} (hv : EqNocase v (b! "chunked")) (hw : v <+: w) :
    Mentions w (b! "chunked") := by
  obtain ⟨u, rfl⟩ := hw
  have hn : ∀ c ∈ v, c ≠ 0 := by
    rintro c hc rfl
    obtain ⟨i, hi, e⟩ := List.getElem_of_mem hc
    obtain ⟨hl, hs⟩ := hv
    have := hs i hi (hl ▸ hi)
    rw [e] at this
    have h0 : ∀ d ∈ b! "chunked", ¬ SameNocase 0 d := by decide +kernel
    exact h0 _ (List.getElem_mem _) this
  have hf : withoutNul (v ++ u) = v ++ withoutNul u := by
    unfold withoutNul
    rw [List.filter_append, List.filter_eq_self.2 (by simpa using hn)]
  rw [← eqNocase_map] at hv
  refine ⟨0, ?_⟩
  rw [hf, occursAt_iff _ _ _ (by simp), List.drop_zero, List.map_append, hv]
  simp

theorem framingCl_shape (t : Tx) (x : Header) {n : Nat} (hp : parseContentLength x.value = some n) :
    ∃ fl, t.framingCl x = { t with
      flags := fl, requestTransferCoding := .identity, requestContentLength := some n } := by
  unfold Tx.framingCl Tx.setFlags
  by_cases h1 : isSet x.flags Flag.FIELD_FOLDED = true
  · by_cases h2 : isSet x.flags Flag.FIELD_REPEATED = true
    · simp [h1, h2, hp]
    · simp [h1, h2, hp]
  · by_cases h2 : isSet x.flags Flag.FIELD_REPEATED = true
    · simp [h1, h2, hp]
    · simp [h1, h2, hp]

theorem framingTe_shape (t : Tx) (x : Header) (cl : Option Header)
    (hM : (indexOfNocaseNozero x.value (b! "chunked")).isNone = false) :
    ∃ fl, t.framingTe x cl = { t with flags := fl, requestTransferCoding := .chunked } := by
  unfold Tx.framingTe Tx.setFlags
  simp only [hM]
  by_cases h1 : t.requestProtocolNumber.rank < Protocol.v1_1.rank
  · cases cl <;> simp [h1]
  · cases cl <;> simp [h1]

theorem framing_eq (t u : Tx)
    (hu : (match t.requestHeaders.getNocaseNozero (b! "transfer-encoding") with
      | some te => t.framingTe te (t.requestHeaders.getNocaseNozero (b! "content-length"))
      | none =>
        match t.requestHeaders.getNocaseNozero (b! "content-length") with
        | some cl => t.framingCl cl
        | none => { t with requestTransferCoding := .noBody }) = u)
    (hne : u.requestTransferCoding ≠ .unknown) : t.framing = u := by
  subst hu
  exact if_neg hne

theorem framing_wf {ms : List (Bytes × Method)} {r : Request} (h : r.WellFormedIn ms) (t : Tx) (m : Flags)
    (ht : t.requestHeaders = storedTable m (fieldsOf r.headers)) (hl : t.requestContentLength = none) :
    ∃ fl, t.framing = { t with
      flags := fl, requestTransferCoding := r.body.coding, requestContentLength := r.body.size } := by
  have hf := h.framed
  have hlen := h.length
  unfold Request.Framed at hf
  cases hb : r.body with
  | absent =>
    rw [hb] at hf
    refine ⟨t.flags, framing_eq t _ ?_ (by simp [Body.coding])⟩
    have k1 := lookup_none h.headers (fun x hx he => hf.1 x ⟨hx, he⟩) m
    have k2 := lookup_none h.headers (fun x hx he => hf.2 x ⟨hx, he⟩) m
    rw [← ht] at k1 k2
    rw [k1, k2]
    simp [Body.coding, Body.size, hl]
  | sized content =>
    rw [hb] at hf hlen
    obtain ⟨h1, ⟨y, hy, he⟩, h3⟩ := hf
    obtain ⟨x, z, hx, hz, hze, -, hv⟩ := lookup_some h.headers hy he m
    have hv' : x.value = Spec.render 10 content.length := by
      rw [hv ((eqNocase_map _ _).1 (by decide +kernel))]
      exact h3 z ⟨hz, hze⟩
    have hp : parseContentLength x.value = some content.length := by
      have := C08_content_length_render content.length hlen [] [] (by simp) (by simp)
      simpa [hv'] using this
    obtain ⟨fl, hs⟩ := framingCl_shape t x hp
    refine ⟨fl, framing_eq t _ ?_ (by simp [Body.coding])⟩
    have k1 := lookup_none h.headers (fun x hx he => h1 x ⟨hx, he⟩) m
    rw [← ht] at k1 hx
    rw [k1, hx]
    exact hs
  | chunked chunks last trailer =>
    rw [hb] at hf
    obtain ⟨⟨y, hy, he⟩, h3, -⟩ := hf
    obtain ⟨x, z, hx, hz, hze, hp, -⟩ := lookup_some h.headers hy he m
    have hM := (mentions_iff x.value (b! "chunked") (by decide)).2 (mentions_prefix (h3 z ⟨hz, hze⟩) hp)
    obtain ⟨fl, hs⟩ := framingTe_shape t x (Headers.getNocaseNozero t.requestHeaders (b! "content-length")) hM
    refine ⟨fl, framing_eq t _ ?_ (by simp [Body.coding])⟩
    rw [← ht] at hx
    rw [hx]
    dsimp only
    rw [hs]
    simp [Body.coding, Body.size, hl]

theorem processRequestHeaders_wf (e : TxEnv) {ms : List (Bytes × Method)} {r : Request} (h : r.WellFormedIn ms) (t : Tx) (m : Flags)
    (ht : t.requestHeaders = storedTable m (fieldsOf r.headers)) (hl : t.requestContentLength = none) :
    ∃ fl host port auth ct, t.processRequestHeaders e = (.ok (), { t with
      flags := fl, requestTransferCoding := r.body.coding, requestContentLength := r.body.size,
      requestHostname := host, requestPortNumber := port, auth := auth, requestContentType := ct }) := by
  unfold Tx.processRequestHeaders
  obtain ⟨fl, hf⟩ := framing_wf h t m ht hl
  rw [hf]
  generalize hu : Tx.hostFromUri _ = u
  have hu' : u = { t with
      flags := fl, requestTransferCoding := r.body.coding, requestContentLength := r.body.size,
      requestHostname := u.requestHostname, requestPortNumber := u.requestPortNumber } := by
    rw [← hu]
    rfl
  obtain ⟨fl2, host, port, hh⟩ := examineHost_shape e.ip u
  rw [hh]
  generalize hw : ({ u with flags := fl2, requestHostname := host, requestPortNumber := port } : Tx) = w
  have hwh : w.requestHeaders = storedTable m (fieldsOf r.headers) := by rw [← hw, ← ht, hu']
  obtain ⟨fl3, auth, ct, hr⟩ := examineRest_shape e w (by
    intro x hx
    rw [hwh] at hx
    by_cases hc : ∃ y ∈ r.headers, EqNocase y.name (b! "content-type")
    · obtain ⟨y, hy, he⟩ := hc
      obtain ⟨x', z, hx', hz, hze, hp, -⟩ := lookup_some h.headers hy he m
      rw [hx'] at hx
      cases hx
      obtain ⟨c, h1, h2⟩ := h.contentType z ⟨hz, hze⟩
      exact parseContentType_ok h1 h2 ((h.headers z hz).first c h1) hp
    · rw [lookup_none h.headers (fun y hy he => hc ⟨y, hy, he⟩)] at hx
      cases hx)
  rw [hr, ← hw, hu']
  exact ⟨_, _, _, _, _, rfl⟩

/-- Without a content coding no decompressor is installed. -/
theorem initRequestDecompressors_wf (cfg : Config) {ms : List (Bytes × Method)} {r : Request} (h : r.WellFormedIn ms) (t : Tx) (m : Flags)
    (ht : t.requestHeaders = storedTable m (fieldsOf r.headers)) :
    t.initRequestDecompressors cfg =
      { t with requestContentEncoding := .none, requestContentEncodingProcessing := .none } := by
  unfold Tx.initRequestDecompressors
  rw [ht, lookup_none h.headers (fun x hx he => h.noCoding x ⟨hx, he⟩)]
  dsimp only [Option.map, Option.bind, Option.getD]
  split
  · have : requestLayers cfg.compressionOptions 0 (encodingTokens []) = [] := by
      rw [show encodingTokens [] = [] from rfl]
      rfl
    rw [this]
    rfl
  · rfl

end Model
