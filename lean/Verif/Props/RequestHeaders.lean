/- C40, C44: decisions taken from the request headers. -/
import Verif.Model.TxParse
import Verif.Spec.RequestHeaders
import Verif.Spec.Host
import Verif.Lemmas.Flags
import Verif.Lemmas.UriSplit
import Verif.Props.Lookup
import Verif.Props.Repeated
import Verif.Props.Hostname
import Verif.Props.Util
import Mathlib.Tactic.Tauto

open Model Spec

namespace Props

theorem named_eq {hs : Headers} {name : Bytes} {r : Option Header} (h : Named hs name r) :
    hs.getNocaseNozero name = r :=
  C04_first_match_unique _ _ _ _ (C04_headers_get_nocase_nozero hs name) h

theorem mentions_iff (v w : Bytes) (hw : w ≠ []) : (indexOfNocaseNozero v w).isNone = false ↔ Mentions v w := by
  have := C03_index_of_nocase_nozero_isSome v w
  simp only [ne_eq, hw, not_false_eq_true, true_and] at this
  unfold Mentions
  rw [← this]
  cases indexOfNocaseNozero v w <;> simp

theorem examineAuth_keeps (e : TxEnv) (t : Tx) :
    (t.examineAuth e).requestTransferCoding = t.requestTransferCoding ∧
    (t.examineAuth e).requestContentLength = t.requestContentLength ∧
    (t.examineAuth e).requestHostname = t.requestHostname ∧
    (t.examineAuth e).requestPortNumber = t.requestPortNumber ∧
    ((t.examineAuth e).flags = t.flags ∨ (t.examineAuth e).flags = t.flags ||| Flag.AUTH_INVALID) := by
  unfold Tx.examineAuth
  split
  · simp only
    split <;> simp [Tx.setFlags, setFlag]
  · simp

theorem examineRest_keeps (e : TxEnv) (t : Tx) :
    (t.examineRest e).2.requestTransferCoding = t.requestTransferCoding ∧
    (t.examineRest e).2.requestContentLength = t.requestContentLength ∧
    (t.examineRest e).2.requestHostname = t.requestHostname ∧
    (t.examineRest e).2.requestPortNumber = t.requestPortNumber ∧
    ((t.examineRest e).2.flags = t.flags ∨ (t.examineRest e).2.flags = t.flags ||| Flag.AUTH_INVALID) := by
  unfold Tx.examineRest
  split
  · split
    · exact examineAuth_keeps e _
    · simp
  · exact examineAuth_keeps e t

theorem hostFromHeader_keeps (t : Tx) (h : Bytes) (p : Option (Bytes × Option Nat)) (m : Flags)
    (hm : isSet Flag.HOST_AMBIGUOUS m = false) :
    (t.hostFromHeader h p).requestTransferCoding = t.requestTransferCoding ∧
    (t.hostFromHeader h p).requestContentLength = t.requestContentLength ∧
    isSet (t.hostFromHeader h p).flags m = isSet t.flags m := by
  unfold Tx.hostFromHeader
  split
  · split <;> simp
  · simp only [Tx.setFlags]
    repeat' split
    all_goals simp [isSet_set, hm]

theorem examineHost_keeps (ip : Bytes → Option Bool) (t : Tx) (m : Flags)
    (h1 : isSet Flag.HOST_AMBIGUOUS m = false) (h2 : isSet Flag.HOSTH_INVALID m = false)
    (h3 : isSet Flag.HOST_MISSING m = false) :
    (t.examineHost ip).requestTransferCoding = t.requestTransferCoding ∧
    (t.examineHost ip).requestContentLength = t.requestContentLength ∧
    isSet (t.examineHost ip).flags m = isSet t.flags m := by
  unfold Tx.examineHost
  split
  · split
    · rename_i a h p v _
      obtain ⟨k1, k2, k3⟩ := hostFromHeader_keeps (if v then t else t.setFlags Flag.HOSTH_INVALID) h p m h1
      simp only
      rw [k1, k2, k3]
      split <;> simp [Tx.setFlags, isSet_set, h2]
    · split <;> simp [Tx.setFlags, isSet_set, h1]
  · split <;> simp [Tx.setFlags, isSet_set, h3]

/-- The framing part of a processed transaction. -/
theorem process_framing (e : TxEnv) (t : Tx) (m : Flags)
    (h1 : isSet Flag.HOST_AMBIGUOUS m = false) (h2 : isSet Flag.HOSTH_INVALID m = false)
    (h3 : isSet Flag.HOST_MISSING m = false) (h4 : isSet Flag.AUTH_INVALID m = false) :
    (t.processRequestHeaders e).2.requestTransferCoding = t.framing.requestTransferCoding ∧
    (t.processRequestHeaders e).2.requestContentLength = t.framing.requestContentLength ∧
    isSet (t.processRequestHeaders e).2.flags m = isSet t.framing.flags m := by
  unfold Tx.processRequestHeaders
  obtain ⟨a1, a2, _, _, a5⟩ := examineRest_keeps e ((t.framing.hostFromUri).examineHost e.ip)
  obtain ⟨b1, b2, b3⟩ := examineHost_keeps e.ip t.framing.hostFromUri m h1 h2 h3
  refine ⟨a1.trans b1, a2.trans b2, ?_⟩
  rcases a5 with a5 | a5
  · rw [a5, b3]; rfl
  · rw [a5, isSet_or, b3, h4, Bool.or_false]; rfl

/-- C40: the transfer coding decided from the headers, in every case. `te` and `cl` are the
Transfer-Encoding and Content-Length fields of the table, if any. -/
theorem C40_coding (e : TxEnv) (t : Tx) (te cl : Option Header)
    (hte : Named t.requestHeaders (b! "transfer-encoding") te)
    (hcl : Named t.requestHeaders (b! "content-length") cl) :
    let t' := (t.processRequestHeaders e).2
    (t'.requestTransferCoding = .chunked ↔ ∃ h, te = some h ∧ Mentions h.value (b! "chunked")) ∧
    (t'.requestTransferCoding = .identity ↔
      te = none ∧ ∃ h n, cl = some h ∧ parseContentLength h.value = some n ∧
        t'.requestContentLength = some n) ∧
    (t'.requestTransferCoding = .noBody ↔ te = none ∧ cl = none) ∧
    (t'.requestTransferCoding = .invalid ↔
      (∃ h, te = some h ∧ ¬ Mentions h.value (b! "chunked")) ∨
      (te = none ∧ ∃ h, cl = some h ∧ parseContentLength h.value = none)) ∧
    (t'.requestTransferCoding = .invalid → isSet t'.flags Flag.REQUEST_INVALID = true) := by
  intro t'
  obtain ⟨p1, p2, p3⟩ := process_framing e t Flag.REQUEST_INVALID (by decide) (by decide) (by decide) (by decide)
  simp only [t', p1, p2, p3]
  have e1 := named_eq hte
  have e2 := named_eq hcl
  have hm := fun v => mentions_iff v (b! "chunked") (by decide)
  unfold Tx.framing
  rw [e1, e2]
  cases te with
  | some h =>
    simp only [Tx.framingTe]
    cases hi : (indexOfNocaseNozero h.value (b! "chunked")).isNone
    · have hM := (hm h.value).1 hi
      by_cases hp : t.requestProtocolNumber.rank < Protocol.v1_1.rank <;> cases cl <;>
        simp [hp, Tx.setFlags, hM]
    · have hM : ¬ Mentions h.value (b! "chunked") := fun h' => by
        rw [(hm h.value).2 h'] at hi; exact absurd hi (by decide)
      have h9 : isSet Flag.REQUEST_INVALID Flag.REQUEST_INVALID = true := by decide
      simp [Tx.setFlags, hM, isSet_set, h9]
  | none =>
    cases cl with
    | none => simp
    | some h =>
      simp only [Tx.framingCl]
      cases hpl : parseContentLength h.value with
      | some n =>
        by_cases h1 : isSet h.flags Flag.FIELD_FOLDED = true <;>
          by_cases h2 : isSet h.flags Flag.FIELD_REPEATED = true <;> simp [h1, h2, Tx.setFlags, hpl]
      | none =>
        have h9 : isSet Flag.REQUEST_INVALID Flag.REQUEST_INVALID = true := by decide
        by_cases h1 : isSet h.flags Flag.FIELD_FOLDED = true <;>
          by_cases h2 : isSet h.flags Flag.FIELD_REPEATED = true <;>
          simp [h1, h2, Tx.setFlags, hpl, isSet_set, h9]

/-- C40: exactly when the smuggling flag is raised: chunked with a Content-Length or with a protocol
below HTTP/1.1, or (without Transfer-Encoding) a Content-Length marked as folded or repeated. -/
theorem C40_smuggling (e : TxEnv) (t : Tx) (te cl : Option Header)
    (hte : Named t.requestHeaders (b! "transfer-encoding") te)
    (hcl : Named t.requestHeaders (b! "content-length") cl) :
    isSet (t.processRequestHeaders e).2.flags Flag.REQUEST_SMUGGLING = true ↔
      isSet t.flags Flag.REQUEST_SMUGGLING = true ∨
      (∃ h, te = some h ∧ Mentions h.value (b! "chunked") ∧
        (cl.isSome ∨ t.requestProtocolNumber ≠ .v1_1)) ∨
      (te = none ∧ ∃ h, cl = some h ∧
        (isSet h.flags Flag.FIELD_FOLDED = true ∨ isSet h.flags Flag.FIELD_REPEATED = true)) := by
  obtain ⟨_, _, p3⟩ := process_framing e t Flag.REQUEST_SMUGGLING (by decide) (by decide) (by decide) (by decide)
  rw [p3]
  have e1 := named_eq hte
  have e2 := named_eq hcl
  have hm := fun v => mentions_iff v (b! "chunked") (by decide)
  have f1 : isSet Flag.REQUEST_INVALID_T_E Flag.REQUEST_SMUGGLING = false := by decide
  have f2 : isSet Flag.REQUEST_INVALID Flag.REQUEST_SMUGGLING = false := by decide
  have f3 : isSet Flag.REQUEST_INVALID_C_L Flag.REQUEST_SMUGGLING = false := by decide
  have f4 : isSet Flag.REQUEST_SMUGGLING Flag.REQUEST_SMUGGLING = true := by decide
  have hprot : t.requestProtocolNumber ≠ .v1_1 ↔ t.requestProtocolNumber.rank < Protocol.v1_1.rank := by
    cases t.requestProtocolNumber <;> decide
  rw [hprot]
  unfold Tx.framing
  rw [e1, e2]
  cases te with
  | some h =>
    simp only [Tx.framingTe]
    cases hi : (indexOfNocaseNozero h.value (b! "chunked")).isNone
    · have hM := (hm h.value).1 hi
      by_cases hp : t.requestProtocolNumber.rank < Protocol.v1_1.rank <;> cases cl <;>
        simp [hp, Tx.setFlags, hM, isSet_set, f1, f4]
    · have hM : ¬ Mentions h.value (b! "chunked") := fun h' => by
        rw [(hm h.value).2 h'] at hi; exact absurd hi (by decide)
      simp [Tx.setFlags, hM, isSet_set, f1, f2]
  | none =>
    cases cl with
    | none => simp
    | some h =>
      simp only [Tx.framingCl]
      cases hpl : parseContentLength h.value with
      | some n =>
        by_cases h1 : isSet h.flags Flag.FIELD_FOLDED = true <;>
          by_cases h2 : isSet h.flags Flag.FIELD_REPEATED = true <;>
          simp [h1, h2, Tx.setFlags, hpl, isSet_set, f4]
      | none =>
        by_cases h1 : isSet h.flags Flag.FIELD_FOLDED = true <;>
          by_cases h2 : isSet h.flags Flag.FIELD_REPEATED = true <;>
          simp [h1, h2, Tx.setFlags, hpl, isSet_set, f2, f3, f4]

theorem eqNocase_trans {a b c : Bytes} (h1 : EqNocase a b) (h2 : EqNocase b c) : EqNocase a c := by
  rw [← eqNocase_map] at *; exact h1.trans h2

theorem eqNocase_symm {a b : Bytes} (h1 : EqNocase a b) : EqNocase b a := by
  rw [← eqNocase_map] at *; exact h1.symm

/-- A name equal to "content-length" up to case answers to it. -/
theorem nozero_of_eqNocase {name : Bytes} (h : EqNocase name (b! "content-length")) :
    NameMatchesNozero name (b! "content-length") := by
  have hch : ∀ c ∈ name, ∃ d ∈ b! "content-length", SameNocase c d := by
    intro c hc
    obtain ⟨i, hi, rfl⟩ := List.mem_iff_getElem.mp hc
    exact ⟨_, List.getElem_mem (by rw [← h.1]; exact hi), h.2 i hi (by rw [← h.1]; exact hi)⟩
  have hgood : ∀ c : UInt8, (∃ d ∈ b! "content-length", SameNocase c d) →
      c ≠ 0 ∧ c.toNat < 0x80 ∧ c.toNat ∉ unicodeWhitespace := by decide +kernel
  have hne : name ≠ [] := by intro hn; rw [hn] at h; exact absurd h.1 (by decide)
  have hsp : ∀ w, SpaceChar w → ∀ c, (c ∈ w.head? ∨ c ∈ w.getLast?) → ¬ c ∈ name := by
    rintro w ⟨cp, hcp, rfl⟩ c hc hm
    obtain ⟨_, h2, h3⟩ := hgood c (hch c hm)
    revert cp
    have : ∀ cp ∈ unicodeWhitespace, ∀ c, (c ∈ (utf8Encode cp).head? ∨ c ∈ (utf8Encode cp).getLast?) →
        0x80 ≤ c.toNat ∨ c.toNat ∈ unicodeWhitespace := by
      have hb : ∀ cp ∈ unicodeWhitespace, (∀ c ∈ (utf8Encode cp).head?, 0x80 ≤ c.toNat ∨ c.toNat ∈ unicodeWhitespace) ∧
        (∀ c ∈ (utf8Encode cp).getLast?, 0x80 ≤ c.toNat ∨ c.toNat ∈ unicodeWhitespace) := by decide +kernel
      intro cp hcp c hc
      rcases hc with hc | hc
      · exact (hb cp hcp).1 c hc
      · exact (hb cp hcp).2 c hc
    intro cp hcp hc
    rcases this cp hcp c hc with h' | h'
    · omega
    · exact h3 h'
  have hwne : ∀ w, SpaceChar w → w ≠ [] := by
    rintro w ⟨cp, hcp, rfl⟩
    unfold utf8Encode
    split
    · simp
    · split <;> simp
  refine ⟨name, ⟨[], [], by simp, by simp, by simp, ?_, ?_⟩, ?_⟩
  · rintro w hw ⟨r, rfl⟩
    cases w with
    | nil => exact hwne _ hw rfl
    | cons c w => exact hsp _ hw c (.inl rfl) (by simp)
  · rintro w hw ⟨r, rfl⟩
    rcases List.eq_nil_or_concat w with rfl | ⟨w', c, rfl⟩
    · exact hwne _ hw rfl
    · exact hsp _ hw c (.inr (by simp)) (by simp)
  · have : withoutNul name = name := by
      unfold withoutNul
      rw [List.filter_eq_self]
      intro c hc
      simpa using (hgood c (hch c hc)).1
    rw [this]; exact h

/-- C40 on the wire: when a fresh transaction is fed a header block, in any pieces, with two fields
named Content-Length, and no Transfer-Encoding, the smuggling flag is raised. Missing from the full
claim: field names that only answer to "content-length" because NUL bytes or Unicode blanks in them are
ignored (see `C40_nul_duplicate_unflagged`), and folded fields (see `C40_folded_unflagged`). -/
theorem C40_repeated_partial (e : TxEnv) (t : Tx) (pieces : List Bytes) (h0 : t.requestHeaders = [])
    (h1 : t.requestHeaderRepetitions = 0) (i j : Nat) (hij : i ≠ j) :
    let fields := (pieces.flatMap (found t.requestHeaderParser)).map requestField
    let t' := feedRequestHeaders t pieces
    i < fields.length → j < fields.length →
    EqNocase (field fields i).name (b! "content-length") →
    EqNocase (field fields j).name (b! "content-length") →
    (∀ f ∈ fields, NameMatchesNozero f.name (b! "content-length") → EqNocase f.name (b! "content-length")) →
    Named t'.requestHeaders (b! "transfer-encoding") none →
    isSet (t'.processRequestHeaders e).2.flags Flag.REQUEST_SMUGGLING = true := by
  intro fields t' hi hj hni hnj hall hte
  have htab := (C39_request t pieces h0 h1).1
  have hsome := C04_headers_get_nocase_nozero t'.requestHeaders (b! "content-length")
  have htr : ∀ x ∈ fields, AsciiTrimmed x.name x.name := by
    intro x hx
    obtain ⟨p, hp, rfl⟩ := List.mem_map.mp hx
    obtain ⟨d, _, hd⟩ := List.mem_flatMap.mp hp
    exact found_trimmed _ d p hd
  cases hcl : t'.requestHeaders.getNocaseNozero (b! "content-length") with
  | none =>
    exfalso
    rw [hcl] at hsome
    obtain ⟨k, hk, hsame, hfirst⟩ := exists_first fields i
    have hmem : stored HFlag.FIELD_REPEATED fields k ∈ t'.requestHeaders := by
      rw [htab]
      unfold storedTable
      refine List.mem_map.mpr ⟨k, ?_, rfl⟩
      rw [List.mem_filter]
      exact ⟨List.mem_range.mpr (Nat.lt_of_le_of_lt hk hi), by simpa using hfirst⟩
    apply hsome _ hmem
    show NameMatchesNozero (field fields k).name _
    exact nozero_of_eqNocase (eqNocase_trans hsame hni)
  | some h =>
    rw [hcl] at hsome
    rw [C40_smuggling e t' none (some h) hte hsome]
    refine .inr (.inr ⟨rfl, h, rfl, .inr ?_⟩)
    obtain ⟨pre, post, hl, hm, _⟩ := hsome
    have hmem : h ∈ t'.requestHeaders := by rw [hl]; simp
    rw [htab] at hmem
    obtain ⟨k, hk, rfl⟩ := List.mem_map.mp hmem
    rw [List.mem_filter] at hk
    have hk' := List.mem_range.mp hk.1
    have hnk : EqNocase (field fields k).name (b! "content-length") := by
      refine hall (field fields k) ?_ hm
      have hk2 : k < fields.length := hk'
      simp [field, hk2]
    have hex : ∃ j, j < fields.length ∧ j ≠ k ∧ Same fields j k := by
      by_cases hik : i = k
      · exact ⟨j, hj, by omega, eqNocase_trans hnj (eqNocase_symm hnk)⟩
      · exact ⟨i, hi, hik, eqNocase_trans hni (eqNocase_symm hnk)⟩
    show isSet (stored HFlag.FIELD_REPEATED fields k).flags HFlag.FIELD_REPEATED = true
    unfold stored
    simp only [if_pos hex]
    exact isSet_or_repeated _

/-- C40, folding: the claim fails on the wire. A Content-Length folded over two lines is accepted as an
identity body length and no smuggling flag is raised (the stored field keeps the flags of its name
only, and folding is recorded on its value). -/
theorem C40_folded_unflagged : ∀ e : TxEnv,
    let t := feedRequestHeaders { index := 0, requestProtocolNumber := .v1_1 }
      [b! "Content-Length:\r\n 5\r\nHost: a\r\n\r\n"]
    let t' := (t.processRequestHeaders e).2
    t'.requestTransferCoding = .identity ∧ t'.requestContentLength = some 5 ∧
      isSet t'.flags Flag.REQUEST_SMUGGLING = false := by
  intro e t t'
  have ht : t.framing.requestTransferCoding = .identity ∧ t.framing.requestContentLength = some 5 ∧
      isSet t.framing.flags Flag.REQUEST_SMUGGLING = false := by decide +kernel
  obtain ⟨p1, p2, p3⟩ := process_framing e t Flag.REQUEST_SMUGGLING (by decide) (by decide) (by decide) (by decide)
  simp only [t', p1, p2, p3]
  exact ht

/-- C40, repetition: with a NUL byte in the name of the second field, lookups answer it under the same
name, but it is not counted as a repetition, and no smuggling flag is raised. -/
theorem C40_nul_duplicate_unflagged : ∀ e : TxEnv,
    let t := feedRequestHeaders { index := 0, requestProtocolNumber := .v1_1 }
      [b! "Content-Length: 5\r\nContent" ++ [0] ++ b! "-Length: 6\r\nHost: a\r\n\r\n"]
    let t' := (t.processRequestHeaders e).2
    (t.requestHeaders.filter (fun h => (Headers.getNocaseNozero [h] (b! "content-length")).isSome)).length = 2 ∧
    t'.requestTransferCoding = .identity ∧ t'.requestContentLength = some 5 ∧
      isSet t'.flags Flag.REQUEST_SMUGGLING = false := by
  intro e t t'
  have ht : (t.requestHeaders.filter (fun h => (Headers.getNocaseNozero [h] (b! "content-length")).isSome)).length = 2 ∧
      t.framing.requestTransferCoding = .identity ∧ t.framing.requestContentLength = some 5 ∧
      isSet t.framing.flags Flag.REQUEST_SMUGGLING = false := by decide +kernel
  obtain ⟨p1, p2, p3⟩ := process_framing e t Flag.REQUEST_SMUGGLING (by decide) (by decide) (by decide) (by decide)
  simp only [t', p1, p2, p3]
  exact ht

/-- Case for C40: chunked together with a Content-Length. -/
example : ∀ e : TxEnv,
    let t := feedRequestHeaders { index := 0, requestProtocolNumber := .v1_1 }
      [b! "Content-Length: 5\r\nTransfer-Encoding: gzip, Chunked\r\n\r\n"]
    let t' := (t.processRequestHeaders e).2
    t'.requestTransferCoding = .chunked ∧ isSet t'.flags Flag.REQUEST_SMUGGLING = true := by
  intro e t t'
  have ht : t.framing.requestTransferCoding = .chunked ∧
      isSet t.framing.flags Flag.REQUEST_SMUGGLING = true := by decide +kernel
  obtain ⟨p1, _, p3⟩ := process_framing e t Flag.REQUEST_SMUGGLING (by decide) (by decide) (by decide) (by decide)
  simp only [t', p1, p3]
  exact ht

/-! ### C44 -/

theorem framing_host (t : Tx) (m : Flags) (h1 : isSet Flag.REQUEST_INVALID_T_E m = false)
    (h2 : isSet Flag.REQUEST_INVALID m = false) (h3 : isSet Flag.REQUEST_SMUGGLING m = false)
    (h4 : isSet Flag.REQUEST_INVALID_C_L m = false) :
    t.framing.requestHostname = t.requestHostname ∧ t.framing.requestPortNumber = t.requestPortNumber ∧
    t.framing.requestHeaders = t.requestHeaders ∧ t.framing.parsedUri = t.parsedUri ∧
    t.framing.requestProtocolNumber = t.requestProtocolNumber ∧
    isSet t.framing.flags m = isSet t.flags m := by
  unfold Tx.framing Tx.framingTe Tx.framingCl Tx.setFlags
  simp only
  repeat' split
  all_goals simp [isSet_set, h1, h2, h3, h4]

theorem examineRest_flag (e : TxEnv) (t : Tx) (m : Flags) (h : isSet Flag.AUTH_INVALID m = false) :
    isSet (t.examineRest e).2.flags m = isSet t.flags m := by
  obtain ⟨_, _, _, _, h5⟩ := examineRest_keeps e t
  rcases h5 with h5 | h5 <;> rw [h5]
  rw [isSet_or, h, Bool.or_false]

theorem hostFromHeader_none (w : Tx) (host : Bytes) (port : Option (Bytes × Option Nat))
    (hw : w.requestHostname = none) :
    (w.hostFromHeader host port).requestHostname = some (lowerAll host) ∧
    (w.hostFromHeader host port).requestPortNumber = match port with
      | some (_, p) => p
      | none => w.requestPortNumber := by
  unfold Tx.hostFromHeader
  rw [hw]
  rcases port with _ | ⟨pt, pn⟩ <;> simp

theorem hostFromHeader_some (w : Tx) (host uhost : Bytes) (port : Option (Bytes × Option Nat))
    (hw : w.requestHostname = some uhost) :
    (w.hostFromHeader host port).requestHostname = some uhost ∧
    (w.hostFromHeader host port).requestPortNumber = w.requestPortNumber := by
  unfold Tx.hostFromHeader
  rw [hw]
  simp only [Tx.setFlags]
  repeat' split
  all_goals simp_all

theorem hostFromHeader_ambiguous (w : Tx) (host uhost : Bytes) (port : Option (Bytes × Option Nat))
    (hw : w.requestHostname = some uhost) :
    isSet (w.hostFromHeader host port).flags Flag.HOST_AMBIGUOUS = true ↔
      isSet w.flags Flag.HOST_AMBIGUOUS = true ∨ ¬ EqNocase uhost host ∨
      ∃ text p q, port = some (text, p) ∧ w.requestPortNumber = some q ∧ p ≠ some q := by
  have hc : (cmpNocase uhost host != .eq) = true ↔ ¬ EqNocase uhost host := by
    rw [← C01_cmp_nocase_eq_iff]; simp
  have c33 : isSet Flag.HOST_AMBIGUOUS Flag.HOST_AMBIGUOUS = true := by decide
  unfold Tx.hostFromHeader
  rw [hw, ← hc]
  have x1 : isSet (if cmpNocase uhost host != .eq then w.setFlags Flag.HOST_AMBIGUOUS else w).flags Flag.HOST_AMBIGUOUS = true ↔
      isSet w.flags Flag.HOST_AMBIGUOUS = true ∨ (cmpNocase uhost host != .eq) = true := by
    by_cases hq : (cmpNocase uhost host != .eq) = true
    · rw [if_pos hq]; simp [Tx.setFlags, isSet_set, c33, hq]
    · rw [if_neg hq]; simp [hq]
  have x2 : (if cmpNocase uhost host != .eq then w.setFlags Flag.HOST_AMBIGUOUS else w).requestPortNumber = w.requestPortNumber := by
    split <;> rfl
  simp only
  generalize (if cmpNocase uhost host != .eq then w.setFlags Flag.HOST_AMBIGUOUS else w) = w' at x1 x2 ⊢
  rw [← x2]
  rcases port with _ | ⟨pt, pn⟩
  · simpa using x1
  · simp only
    cases hpn : w'.requestPortNumber with
    | none => simpa using x1
    | some v =>
      by_cases hv : some v = pn
      · subst hv; simpa using x1
      · have h2 : ¬ pn = some v := fun h => hv h.symm
        have h3 : isSet (w'.setFlags Flag.HOST_AMBIGUOUS).flags Flag.HOST_AMBIGUOUS = true := by
          simp [Tx.setFlags, isSet_set, c33]
        simp [hv, h2, h3]

theorem examineHost_host (ip : Bytes → Option Bool) (u : Tx) (hh : Option Header)
    (hn : u.requestHeaders.getNocaseNozero (b! "host") = hh) :
    let t' := u.examineHost ip
    (∀ host, u.requestHostname = some host →
      t'.requestHostname = some host ∧ t'.requestPortNumber = u.requestPortNumber) ∧
    (u.requestHostname = none →
      ∀ h, hh = some h → ∀ rest host port valid, parseHostport ip h.value = .ok rest (host, port, valid) →
        t'.requestHostname = some (lowerAll host) ∧
        t'.requestPortNumber = match port with
          | some (_, p) => p
          | none => u.requestPortNumber) ∧
    (u.requestHostname = none →
      (hh = none ∨ ∃ h, hh = some h ∧ ∀ rest r, parseHostport ip h.value ≠ .ok rest r) →
      t'.requestHostname = none ∧ t'.requestPortNumber = u.requestPortNumber) := by
  intro t'
  simp only [t']
  unfold Tx.examineHost
  rw [hn]
  cases hh with
  | none =>
    simp only
    split <;> simp +contextual [Tx.setFlags]
  | some h =>
    simp only
    cases hp : parseHostport ip h.value with
    | ok rest x =>
      obtain ⟨host, port, valid⟩ := x
      simp only
      have v1 : (if valid then u else u.setFlags Flag.HOSTH_INVALID).requestHostname = u.requestHostname := by
        split <;> rfl
      have v2 : (if valid then u else u.setFlags Flag.HOSTH_INVALID).requestPortNumber = u.requestPortNumber := by
        split <;> rfl
      generalize (if valid then u else u.setFlags Flag.HOSTH_INVALID) = w at v1 v2 ⊢
      rw [← v1, ← v2]
      refine ⟨fun host' hw => hostFromHeader_some w _ _ _ hw, ?_, ?_⟩
      · intro hw h' hh' rest' host' port' valid' he
        cases hh'
        rw [hp] at he
        cases he
        exact hostFromHeader_none w _ _ hw
      · intro hw he
        rcases he with he | ⟨h', hh', he⟩
        · cases he
        · cases hh'; exact absurd hp (he _ _)
    | err =>
      simp only
      cases hu : u.requestHostname <;> simp [Tx.setFlags, hu]
      simp [hp]
    | incomplete =>
      simp only
      cases hu : u.requestHostname <;> simp [Tx.setFlags, hu]
      simp [hp]

/-- C44: the host name and port of the request. `hh` is the Host field; `HostPart` is what it holds
(see `C44_plain_host` and `C44_plain_host_port` for its meaning on plain values). -/
theorem C44_hostname (e : TxEnv) (t : Tx) (hh : Option Header)
    (hn : Named t.requestHeaders (b! "host") hh)
    (h0 : t.requestHostname = none) (h1 : t.requestPortNumber = none) :
    let t' := (t.processRequestHeaders e).2
    (∀ host, t.parsedUriHostname = some host →
      t'.requestHostname = some host ∧ t'.requestPortNumber = t.parsedUriPortNumber) ∧
    (t.parsedUriHostname = none →
      ∀ h, hh = some h → ∀ rest host port valid, parseHostport e.ip h.value = .ok rest (host, port, valid) →
        t'.requestHostname = some (lowerAll host) ∧
        t'.requestPortNumber = match port with
          | some (_, p) => p
          | none => t.parsedUriPortNumber) ∧
    (t.parsedUriHostname = none →
      (hh = none ∨ ∃ h, hh = some h ∧ ∀ rest r, parseHostport e.ip h.value ≠ .ok rest r) →
      t'.requestHostname = none ∧ t'.requestPortNumber = t.parsedUriPortNumber) := by
  intro t'
  have e1 := named_eq hn
  obtain ⟨f1, f2, f3, f4, f5, _⟩ := framing_host t 0 (by decide) (by decide) (by decide) (by decide)
  obtain ⟨_, _, g1, g2, _⟩ := examineRest_keeps e ((t.framing.hostFromUri).examineHost e.ip)
  have p1 : t'.requestHostname = ((t.framing.hostFromUri).examineHost e.ip).requestHostname := g1
  have p2 : t'.requestPortNumber = ((t.framing.hostFromUri).examineHost e.ip).requestPortNumber := g2
  rw [p1, p2]
  have q : t.framing.hostFromUri.requestHeaders = t.requestHeaders := f3
  have q1 : t.framing.hostFromUri.requestHostname = t.parsedUriHostname := by
    simp [Tx.hostFromUri, Tx.parsedUriHostname, f1, f4, h0]
  have q2 : t.framing.hostFromUri.requestPortNumber = t.parsedUriPortNumber := by
    simp [Tx.hostFromUri, Tx.parsedUriPortNumber, f2, f4, h1]
  rw [← q1, ← q2]
  exact examineHost_host e.ip _ hh (by rw [q, e1])

/-- C44: exactly when the three Host flags are raised. -/
theorem C44_flags (e : TxEnv) (t : Tx) (hh : Option Header)
    (hn : Named t.requestHeaders (b! "host") hh)
    (h0 : t.requestHostname = none) (h1 : t.requestPortNumber = none) :
    let t' := (t.processRequestHeaders e).2
    (isSet t'.flags Flag.HOST_MISSING = true ↔
      isSet t.flags Flag.HOST_MISSING = true ∨ (hh = none ∧ t.requestProtocolNumber = .v1_1)) ∧
    (isSet t'.flags Flag.HOSTH_INVALID = true ↔
      isSet t.flags Flag.HOSTH_INVALID = true ∨
      ∃ h rest host port, hh = some h ∧ parseHostport e.ip h.value = .ok rest (host, port, false)) ∧
    (isSet t'.flags Flag.HOST_AMBIGUOUS = true ↔
      isSet t.flags Flag.HOST_AMBIGUOUS = true ∨
      ∃ uhost h, t.parsedUriHostname = some uhost ∧ hh = some h ∧
        ((∀ rest r, parseHostport e.ip h.value ≠ .ok rest r) ∨
         ∃ rest host port valid, parseHostport e.ip h.value = .ok rest (host, port, valid) ∧
          (¬ EqNocase uhost host ∨
           ∃ text p q, port = some (text, p) ∧ t.parsedUriPortNumber = some q ∧ p ≠ some q))) := by
  intro t'
  have e1 := named_eq hn
  have a1 : isSet t'.flags Flag.HOST_MISSING = isSet ((t.framing.hostFromUri).examineHost e.ip).flags Flag.HOST_MISSING :=
    examineRest_flag e _ _ (by decide)
  have a2 : isSet t'.flags Flag.HOSTH_INVALID = isSet ((t.framing.hostFromUri).examineHost e.ip).flags Flag.HOSTH_INVALID :=
    examineRest_flag e _ _ (by decide)
  have a3 : isSet t'.flags Flag.HOST_AMBIGUOUS = isSet ((t.framing.hostFromUri).examineHost e.ip).flags Flag.HOST_AMBIGUOUS :=
    examineRest_flag e _ _ (by decide)
  obtain ⟨f1, f2, f3, f4, f5, b1⟩ := framing_host t Flag.HOST_MISSING (by decide) (by decide) (by decide) (by decide)
  obtain ⟨_, _, _, _, _, b2⟩ := framing_host t Flag.HOSTH_INVALID (by decide) (by decide) (by decide) (by decide)
  obtain ⟨_, _, _, _, _, b3⟩ := framing_host t Flag.HOST_AMBIGUOUS (by decide) (by decide) (by decide) (by decide)
  rw [a1, a2, a3, ← b1, ← b2, ← b3]
  have q : t.framing.hostFromUri.requestHeaders = t.requestHeaders := f3
  have q1 : t.framing.hostFromUri.requestHostname = t.parsedUriHostname := by
    simp [Tx.hostFromUri, Tx.parsedUriHostname, f1, f4, h0]
  have q2 : t.framing.hostFromUri.requestPortNumber = t.parsedUriPortNumber := by
    simp [Tx.hostFromUri, Tx.parsedUriPortNumber, f2, f4, h1]
  have q3 : t.framing.flags = t.framing.hostFromUri.flags := rfl
  have q4 : t.framing.hostFromUri.requestProtocolNumber = t.requestProtocolNumber := f5
  rw [q3]
  generalize t.framing.hostFromUri = u at q q1 q2 q4 ⊢
  have hprot : t.requestProtocolNumber = .v1_1 ↔ u.requestProtocolNumber.rank ≥ Protocol.v1_1.rank := by
    rw [q4]; cases t.requestProtocolNumber <;> decide
  rw [hprot, ← q1, ← q2]
  have c11 : isSet Flag.HOST_MISSING Flag.HOST_MISSING = true := by decide
  have c12 : isSet Flag.HOST_MISSING Flag.HOSTH_INVALID = false := by decide
  have c13 : isSet Flag.HOST_MISSING Flag.HOST_AMBIGUOUS = false := by decide
  have c21 : isSet Flag.HOSTH_INVALID Flag.HOST_MISSING = false := by decide
  have c22 : isSet Flag.HOSTH_INVALID Flag.HOSTH_INVALID = true := by decide
  have c23 : isSet Flag.HOSTH_INVALID Flag.HOST_AMBIGUOUS = false := by decide
  have c31 : isSet Flag.HOST_AMBIGUOUS Flag.HOST_MISSING = false := by decide
  have c32 : isSet Flag.HOST_AMBIGUOUS Flag.HOSTH_INVALID = false := by decide
  have c33 : isSet Flag.HOST_AMBIGUOUS Flag.HOST_AMBIGUOUS = true := by decide
  unfold Tx.examineHost
  rw [q, e1]
  cases hh with
  | none =>
    simp only
    by_cases hr : u.requestProtocolNumber.rank ≥ Protocol.v1_1.rank
    · simp [hr, Tx.setFlags, isSet_set, c11, c12, c13]
    · simp [hr]
  | some h =>
    simp only
    cases hp : parseHostport e.ip h.value with
    | ok rest x =>
      obtain ⟨host, port, valid⟩ := x
      simp only
      have v1 : (if valid then u else u.setFlags Flag.HOSTH_INVALID).requestHostname = u.requestHostname := by
        split <;> rfl
      have v2 : (if valid then u else u.setFlags Flag.HOSTH_INVALID).requestPortNumber = u.requestPortNumber := by
        split <;> rfl
      have v3 : isSet (if valid then u else u.setFlags Flag.HOSTH_INVALID).flags Flag.HOST_MISSING = isSet u.flags Flag.HOST_MISSING := by
        split <;> simp [Tx.setFlags, isSet_set, c21]
      have v4 : isSet (if valid then u else u.setFlags Flag.HOSTH_INVALID).flags Flag.HOSTH_INVALID = (isSet u.flags Flag.HOSTH_INVALID || !valid) := by
        cases valid <;> simp [Tx.setFlags, isSet_set, c22]
      have v5 : isSet (if valid then u else u.setFlags Flag.HOSTH_INVALID).flags Flag.HOST_AMBIGUOUS = isSet u.flags Flag.HOST_AMBIGUOUS := by
        split <;> simp [Tx.setFlags, isSet_set, c23]
      generalize (if valid then u else u.setFlags Flag.HOSTH_INVALID) = w at v1 v2 v3 v4 v5 ⊢
      rw [← v1, ← v2, ← v3, ← v5]
      have w1 := hostFromHeader_keeps w host port Flag.HOST_MISSING c31
      have w2 := hostFromHeader_keeps w host port Flag.HOSTH_INVALID c32
      rw [w1.2.2, w2.2.2, v4]
      refine ⟨by simp, by cases valid <;> simp [hp], ?_⟩
      cases hw : w.requestHostname with
      | none =>
        have : isSet (w.hostFromHeader host port).flags Flag.HOST_AMBIGUOUS = isSet w.flags Flag.HOST_AMBIGUOUS := by
          unfold Tx.hostFromHeader
          rw [hw]
          rcases port with _ | ⟨pt, pn⟩ <;> simp
        rw [this]
        simp
      | some uhost =>
        rw [hostFromHeader_ambiguous w host uhost port hw]
        constructor
        · rintro (h1 | h1)
          · exact .inl h1
          · exact .inr ⟨uhost, h, rfl, rfl, .inr ⟨rest, host, port, valid, hp, h1⟩⟩
        · rintro (h1 | ⟨uh, h', hu, hh', h1⟩)
          · exact .inl h1
          · cases hu; cases hh'
            rcases h1 with h1 | ⟨r', ho, po, va, he, h1⟩
            · exact absurd hp (h1 _ _)
            · rw [hp] at he; cases he; exact .inr h1
    | err =>
      simp only
      cases hu : u.requestHostname <;> simp [Tx.setFlags, isSet_set, c31, c32, c33, hp]
    | incomplete =>
      simp only
      cases hu : u.requestHostname <;> simp [Tx.setFlags, isSet_set, c31, c32, c33, hp]

theorem plain_hostname (host rest : Bytes) (hne : host ≠ []) (hc : ∀ c ∈ host, c ∉ b! "/?#: [")
    (hr : ∀ c ∈ rest.head?, c = 58) : hostname (host ++ rest) = .ok rest host := by
  obtain ⟨c, h', rfl⟩ := List.exists_cons_of_ne_nil hne
  have hcc := hc c (by simp)
  simp only [List.mem_cons, not_or, List.not_mem_nil, not_false_eq_true, and_true] at hcc
  have a1 : Nom.opt (Nom.tag (b! "//")) (c :: h' ++ rest) = .ok (c :: h' ++ rest) none := by
    rcases tag_cases (b! "//") (c :: h' ++ rest) with ⟨h, _⟩ | ⟨r, hr, _⟩
    · simp only [Nom.opt, h]
    · simp at hr; exact absurd hr.1 hcc.1
  have a2 : Nom.peek (Nom.not (Nom.tag (b! "/"))) (c :: h' ++ rest) = .ok (c :: h' ++ rest) () := by
    rw [peekNotSlash, if_neg]
    simp; exact hcc.1
  have a3 : Nom.many0Space (c :: h' ++ rest) = .ok (c :: h' ++ rest) [] := by
    obtain ⟨sp, r, e1, e2, e3, e4⟩ := many0Space_eq (c :: h' ++ rest)
    cases sp with
    | nil => rw [e1, e2]; rfl
    | cons d sp =>
      exfalso
      have := e3 d (by simp)
      simp at e2
      rw [this] at e2
      exact hcc.2.2.2.2.1 e2.1
  have a4 : ipv6 (c :: h' ++ rest) = .err := by
    rcases tag_cases (b! "[") (c :: h' ++ rest) with ⟨h, _⟩ | ⟨r, hr, _⟩
    · simp only [ipv6, Nom.bind, h]
    · simp at hr; exact absurd hr.1 hcc.2.2.2.2.2
  have a5 : Nom.isNot (b! "/?#:") (c :: h' ++ rest) = .ok rest (c :: h') := by
    refine isNot_mk (by simp) (fun d hd h => hc d hd (by simp at h ⊢; tauto)) ?_
    intro d hd
    rw [hr d hd]; decide
  have a6 : dropLastWhile (· == 32) (c :: h') = c :: h' := by
    obtain ⟨post, hp1, hp2, _⟩ := dropLastWhile_split (· == 32) (c :: h')
    cases post with
    | nil => rw [List.append_nil] at hp1; exact hp1.symm
    | cons d post =>
      exfalso
      have h1 := hp2 d (by simp)
      have h2 := hc d (by rw [hp1]; simp)
      simp at h1 h2
      exact h2.2.2.2.2.1 h1
  simp only [hostname, Nom.map, Nom.bind, a1, a2, a3, Nom.alt, a4, a5, a6]

/-- C44, what a plain Host value means: a host name alone. -/
theorem C44_plain_host (ip : Bytes → Option Bool) (host : Bytes) (h : PlainHost host) :
    parseHostport ip host = .ok [] (host, none, validateHostname ip host) := by
  obtain ⟨hne, hc⟩ := h
  have hp := plain_hostname host [] hne hc (by simp)
  rw [List.append_nil] at hp
  have h1 : port [] = .err := rfl
  simp [parseHostport, hp, h1]

/-- C44, what a plain Host value means: a host name, a colon and a port. -/
theorem C44_plain_host_port (ip : Bytes → Option Bool) (host p : Bytes) (h : PlainHost host)
    (hp : p ≠ []) (hpc : ∀ c ∈ p, c ∉ b! "/?# ") :
    parseHostport ip (host ++ b! ":" ++ p) =
      .ok (b! ":" ++ p) (host, some (p, convertPort p), (convertPort p).isSome && validateHostname ip host) := by
  obtain ⟨hne, hc⟩ := h
  have h1 := plain_hostname host (b! ":" ++ p) hne hc (by simp)
  have h2 : port (b! ":" ++ p) = .ok [] p := by
    have a1 : Nom.tag (b! ":") (b! ":" ++ p) = .ok p (b! ":") := by
      rcases tag_cases (b! ":") (b! ":" ++ p) with ⟨_, h⟩ | ⟨r, hr, h⟩
      · exact absurd (List.prefix_append _ _) h
      · rw [h, List.append_cancel_left hr]
    have a2 : Nom.many0Space p = .ok p [] := by
      obtain ⟨sp, r, e1, e2, e3, e4⟩ := many0Space_eq p
      cases sp with
      | nil => rw [e1, e2]; rfl
      | cons c sp =>
        exfalso
        have := e3 c (by simp)
        subst this
        exact hpc 32 (by rw [e2]; simp) (by decide)
    have a3 : Nom.isNot (b! "/?#") p = .ok [] p := by
      have := isNot_mk (set := b! "/?#") (r := []) hp (fun c hc h => hpc c hc (by simp at h ⊢; tauto)) (by simp)
      rwa [List.append_nil] at this
    have a4 : Nom.isNot (b! " ") p = .ok [] p := by
      have := isNot_mk (set := b! " ") (r := []) hp (fun c hc h => hpc c hc (by simp at h ⊢; tauto)) (by simp)
      rwa [List.append_nil] at this
    unfold port
    have a5 : Nom.many0Space [] = .ok [] [] := rfl
    simp only [Nom.bind, a1, a2, a3, Nom.map, a5, a4]
  unfold parseHostport
  rw [List.append_assoc, h1]
  simp only [h2]
  cases convertPort p <;> simp

/-- Case for C44: an absolute URI and a Host header that names another port. -/
example : (b! "example.com" ++ b! ":" ++ b! "8080") = b! "example.com:8080" ∧ PlainHost (b! "example.com") ∧
    convertPort (b! "8080") = some 8080 := by
  unfold PlainHost; decide +kernel

/-- Case for C44: the flags of a request whose URI names a host, with each kind of Host header. -/
example :
    let t : Tx := { index := 0, requestProtocolNumber := .v1_1, parsedUri := some { hostname := some (b! "a.com"), portNumber := some 80 } }
    let e : TxEnv := ⟨{}, false, fun _ => none, fun _ => none, none⟩
    let amb (v : Bytes) := isSet (({ t with requestHeaders := [⟨b! "Host", v, 0⟩] } : Tx).processRequestHeaders e).2.flags Flag.HOST_AMBIGUOUS
    amb (b! "A.com") = false ∧ amb (b! "b.com") = true ∧ amb (b! "a.com:80") = false ∧
      amb (b! "a.com:81") = true ∧ amb (b! "/") = true ∧
      isSet (t.processRequestHeaders e).2.flags Flag.HOST_MISSING = true := by decide +kernel

end Props
