/-
C12, C49: splitting a request URI.
-/
import Verif.Lemmas.UriSplit
import Mathlib.Tactic.Tauto

namespace Props
open Model Nom Spec Spec.UriText

/-- What is true of the three last parts of a URI whose remaining text is `t`: either nothing is lost,
or a "?" is followed by "#" or nothing, and then everything from that "?" on is dropped. -/
def TailOutcome (u : Uri) (t : Bytes) : Prop :=
  TailParts u.path u.query ∧
  (t = tailText u.path u.query u.fragment ∨
   ∃ lost, t = part [] u.path ++ b! "?" ++ lost ∧ (∀ c ∈ lost.head?, c = 35) ∧ u.query = none ∧ u.fragment = none)

/-- C12 for every URI without a scheme (one that starts with "/" or has no ":"). -/
theorem C12_no_scheme_split_partial (s : Bytes) (hs : s.head? = some 47 ∨ 58 ∉ s) :
    ∃ u, Uri.parseUri {} s = u ∧ u.scheme = none ∧ u.username = none ∧ u.password = none ∧
      u.hostname = none ∧ u.port = none ∧ TailOutcome u s := by
  have h0 : scheme s = .err := by
    rcases scheme_cases s with ⟨h, _⟩ | ⟨sc, r, _, h2, _, h4⟩
    · exact h
    · rcases hs with hs | hs
      · exact absurd hs h4
      · exact absurd (by rw [h2]; simp) hs
  obtain ⟨rest, p, q, f, h1, h2, h3⟩ := tail_parse s
  have h4 : uriParser s = .ok rest (none, p, q, f) := by
    unfold uriParser
    rw [Nom.pair, Nom.bind]
    simp only [opt, Nom.pair, Nom.bind, Nom.map, h0] at h1 ⊢
    rw [h1]
  refine ⟨_, rfl, ?_⟩
  simp only [Uri.parseUri, h4, Option.or_none, true_and]
  refine ⟨h2, ?_⟩
  rcases h3 with ⟨_, h3⟩ | ⟨r, h3, h5, h6, h7⟩
  · exact Or.inl h3
  · exact Or.inr ⟨r, by rw [h3]; simp, h5, h6, h7⟩

/-- C12 for every URI with a scheme: the scheme ends at the first ":", then come credentials, host and
port, then the tail. -/
theorem C12_scheme_split_partial (s : Bytes) (hs : s.head? ≠ some 47) (hc : 58 ∈ s) :
    ∃ u sc tc th tp tt, Uri.parseUri {} s = u ∧ s = sc ++ b! ":" ++ tc ++ th ++ tp ++ tt ∧
      u.scheme = some sc ∧ 58 ∉ sc ∧ CredText u.username u.password tc ∧ HostText u.hostname th ∧
      PortText u.port tp ∧ TailOutcome u tt := by
  rcases scheme_cases s with ⟨_, h⟩ | ⟨sc, r, h1, h2, h3, h4⟩
  · rcases h with h | h
    · exact absurd h hs
    · exact absurd hc h
  obtain ⟨cr, tc, r1, hcr, hr, hct⟩ : ∃ cr tc r1, opt credentials r = .ok r1 cr ∧ r = tc ++ r1 ∧
      CredText (cr.map (·.1)) (cr.bind (·.2)) tc := by
    rcases credentials_cases r with ⟨r1, u, p, t, a1, a2, a3⟩ | a1
    · exact ⟨some (u, p), t, r1, a1, a2, a3⟩
    · exact ⟨none, [], r, a1, rfl, rfl, rfl⟩
  obtain ⟨hp, th, tp, r2, hhp, hr1, hth, htp⟩ : ∃ hp th tp r2, opt (Nom.pair hostname (opt port)) r1 = .ok r2 hp ∧
      r1 = th ++ tp ++ r2 ∧ HostText (hp.map (·.1)) th ∧ PortText (hp.bind (·.2)) tp := by
    rcases hostport_cases r1 with ⟨r2, h, p, th, tp, a1, a2, a3, a4⟩ | a1
    · exact ⟨some (h, p), th, tp, r2, a1, a2, a3, a4⟩
    · exact ⟨none, [], [], r1, a1, rfl, rfl, rfl⟩
  obtain ⟨rest, p, q, f, t1, t2, t3⟩ := tail_parse r2
  have hsa : opt (Nom.pair scheme (Nom.pair (opt credentials) (opt (Nom.pair hostname (opt port))))) s =
      .ok r2 (some (sc, cr, hp)) := by
    have : Nom.pair scheme (Nom.pair (opt credentials) (opt (Nom.pair hostname (opt port)))) s =
        .ok r2 (sc, cr, hp) := by
      rw [Nom.pair, Nom.bind, h1]
      simp only [Nom.map]
      rw [show Nom.pair (opt credentials) (opt (Nom.pair hostname (opt port))) r = .ok r2 (cr, hp) by
        rw [Nom.pair, Nom.bind, hcr]; simp only [Nom.map, hhp]]
    rw [opt, this]
  have h5 : uriParser s = .ok rest (some (sc, cr, hp), p, q, f) := by
    unfold uriParser
    rw [Nom.pair, Nom.bind, hsa]
    simp only [Nom.map, t1]
  have hu : Uri.parseUri {} s =
    { scheme := some sc, username := cr.map (·.1), password := cr.bind (·.2), hostname := hp.map (·.1),
      port := hp.bind (·.2), path := p, query := q, fragment := f } := by
    rw [Uri.parseUri, h5]
    cases cr <;> cases hp <;> simp
  refine ⟨_, sc, tc, th, tp, r2, hu, ?_, rfl, h3, hct, hth, htp, t2, ?_⟩
  · rw [h2, hr, hr1]; simp
  · rcases t3 with ⟨_, t3⟩ | ⟨r, t3, t5, t6, t7⟩
    · exact Or.inl t3
    · exact Or.inr ⟨r, by rw [t3]; simp, t5, t6, t7⟩

/-- Finding: C12's lossless splitting is false as it stands. -/
theorem C12_loses_fragment : Uri.parseUri {} (b! "/p?#frag") = { path := some (b! "/p") } := by decide

example : Uri.parseUri {} (b! "/p/x?q=1#f") =
    { path := some (b! "/p/x"), query := some (b! "q=1"), fragment := some (b! "f") } := by decide

/-! ### C49: a URI put together from its parts is taken apart again -/

/-- A host as it is written in a URI: a name or an address in brackets. -/
def PlainHost (h : Bytes) : Prop :=
  (h ≠ [] ∧ (∀ c ∈ h, c ≠ 47 ∧ c ≠ 63 ∧ c ≠ 35 ∧ c ≠ 58 ∧ c ≠ 32) ∧ h.head? ≠ some 91) ∨
  ∃ a, h = b! "[" ++ a ++ b! "]" ∧ a ≠ [] ∧ ∀ c ∈ a, c ≠ 47 ∧ c ≠ 63 ∧ c ≠ 35 ∧ c ≠ 93

/-- The parts of a URI, restricted to what can be written unambiguously. -/
structure PlainParts (u : Uri) (sc host : Bytes) : Prop where
  scheme : u.scheme = some sc ∧ 58 ∉ sc ∧ sc.head? ≠ some 47
  user : ∀ x, u.username = some x → 58 ∉ x ∧ 64 ∉ x ∧ x.head? ≠ some 47
  password : ∀ x, u.password = some x → 64 ∉ x ∧ u.username ≠ none
  host : u.hostname = some host ∧ PlainHost host
  port : ∀ x, u.port = some x → x ≠ [] ∧ ∀ c ∈ x, c ≠ 47 ∧ c ≠ 63 ∧ c ≠ 35 ∧ c ≠ 32
  portNumber : u.portNumber = none
  path : ∀ x, u.path = some x → x.head? = some 47 ∧ 63 ∉ x ∧ 35 ∉ x
  query : ∀ x, u.query = some x → x ≠ [] ∧ 35 ∉ x

/-- scheme "://" user ":" password "@" host ":" port path "?" query "#" fragment -/
def uriText (u : Uri) (sc host : Bytes) : Bytes :=
  sc ++ b! ":" ++ b! "//" ++
  (match u.username with
   | none => []
   | some x => x ++ part (b! ":") u.password ++ b! "@") ++
  host ++ part (b! ":") u.port ++ tailText u.path u.query u.fragment

theorem tail_parse_text {p q f : Option Bytes} (h : TailParts p q) :
    ∃ rest, Nom.pair (opt path) (Nom.pair (opt query) (opt fragment)) (tailText p q f) = .ok rest (p, q, f) := by
  have qf : ∀ f : Option Bytes, ∀ c ∈ (part (b! "#") f).head?, c = 35 := by
    intro f; cases f <;> simp [part]
  have hp : opt path (tailText p q f) = .ok (part (b! "?") q ++ part (b! "#") f) p := by
    have hh : ∀ c ∈ (part (b! "?") q ++ part (b! "#") f).head?, c ∈ (b! "#?") := by
      intro c hc
      cases q with
      | none => have := qf f c (by simpa [part] using hc); subst this; decide
      | some q => simp [part] at hc; subst hc; decide
    cases p with
    | none =>
      have e : tailText none q f = part (b! "?") q ++ part (b! "#") f := by simp [tailText, part]
      rw [e]
      simp only [opt, path]
      rw [isNot_err hh]
    | some p =>
      have h1 := h.path_pure p rfl
      have e : tailText (some p) q f = p ++ (part (b! "?") q ++ part (b! "#") f) := by simp [tailText, part]
      have := isNot_mk (set := b! "#?") (r := part (b! "?") q ++ part (b! "#") f) (v := p)
        (by intro hn; exact h.path_ne (by rw [hn])) (by
          intro c hc hm
          simp at hm
          rcases hm with rfl | rfl
          · exact h1.2 hc
          · exact h1.1 hc) hh
      rw [e]
      simp only [opt, path, this]
  have hq : opt query (part (b! "?") q ++ part (b! "#") f) = .ok (part (b! "#") f) q := by
    cases q with
    | none =>
      rcases tag_cases (b! "?") (part (b! "?") none ++ part (b! "#") f) with ⟨h1, _⟩ | ⟨r, h1, _⟩
      · simp only [opt, query, Nom.bind, h1]; simp [part]
      · cases f <;> simp [part] at h1
    | some q =>
      have h1 := tag_append (b! "?") (q ++ part (b! "#") f)
      have h2 := isNot_mk (set := b! "#") (r := part (b! "#") f) (v := q)
        (by intro hn; exact h.query_ne (by rw [hn])) (by
          intro c hc hm; simp at hm; subst hm; exact h.query_pure q rfl hc) (by intro c hc; simp [qf f c hc])
      have h3 : part (b! "?") (some q) ++ part (b! "#") f = b! "?" ++ (q ++ part (b! "#") f) := by simp [part]
      rw [h3]
      simp only [opt, query, Nom.bind, h1, h2]
  have hf : ∃ rest, opt fragment (part (b! "#") f) = .ok rest f := by
    cases f with
    | none => exact ⟨[], by decide⟩
    | some f =>
      have := tag_append (b! "#") f
      exact ⟨[], by simp only [opt, fragment, part, this]⟩
  obtain ⟨rest, hf⟩ := hf
  exact ⟨rest, by simp only [Nom.pair, Nom.bind, Nom.map, hp, hq, hf]⟩

theorem tail_head {u : Uri} (hpath : ∀ x, u.path = some x → x.head? = some 47) :
    ∀ c ∈ (tailText u.path u.query u.fragment).head?, c = 47 ∨ c = 63 ∨ c = 35 := by
  intro c hc
  cases hp : u.path with
  | some p =>
    have := hpath p hp
    cases p with
    | nil => simp at this
    | cons d p => simp at this; subst this; simp [tailText, part, hp] at hc; simp [← hc]
  | none =>
    cases hq : u.query with
    | some q => simp [tailText, part, hp, hq] at hc; simp [← hc]
    | none =>
      cases hf : u.fragment with
      | some f => simp [tailText, part, hp, hq, hf] at hc; simp [← hc]
      | none => simp [tailText, part, hp, hq, hf] at hc

theorem hostname_plain {h r : Bytes} (hp : PlainHost h) (hr : ∀ c ∈ r.head?, c = 47 ∨ c = 63 ∨ c = 35 ∨ c = 58)
    (lead : Bytes) (hl : lead = [] ∨ lead = b! "//") : hostname (lead ++ (h ++ r)) = .ok r h := by
  have hhead : ∀ x, (h ++ r).head? = some x → x ≠ 47 ∧ x ≠ 32 := by
    intro x hx
    rcases hp with ⟨h1, h2, _⟩ | ⟨a, rfl, _⟩
    · cases h with
      | nil => exact absurd rfl h1
      | cons c h => simp at hx; subst hx; have := h2 c (by simp); exact ⟨this.1, this.2.2.2.2⟩
    · simp at hx; subst hx; decide
  have h1 : ∃ o, opt (tag (b! "//")) (lead ++ (h ++ r)) = .ok (h ++ r) o := by
    rcases hl with rfl | rfl
    · rcases tag_cases (b! "//") ([] ++ (h ++ r)) with ⟨h1, _⟩ | ⟨r', h1, _⟩
      · exact ⟨none, by simp only [opt, h1]; simp⟩
      · have := hhead 47 (by simp at h1; rw [h1]; rfl)
        exact absurd rfl this.1
    · exact ⟨some (b! "//"), by simp only [opt, tag_append]⟩
  obtain ⟨o, h1⟩ := h1
  have h2 : ¬ (h ++ r).head? = some 47 := fun hx => (hhead 47 hx).1 rfl
  have h3 : many0Space (h ++ r) = .ok (h ++ r) [] := by
    have := takeWhile_eq_nil_of_head (p := (· == (32 : UInt8))) (l := h ++ r)
      (by intro c hc; simpa using (hhead c hc).2)
    simp only [many0Space, Nom.takeWhile, this.1, this.2]
  have h4 : alt ipv6 (isNot (b! "/?#:")) (h ++ r) = .ok r h := by
    rcases hp with ⟨h5, h6, h7⟩ | ⟨a, rfl, h5, h6⟩
    · have e1 : ipv6 (h ++ r) = .err := by
        rcases tag_cases (b! "[") (h ++ r) with ⟨h8, _⟩ | ⟨r', h8, _⟩
        · simp only [ipv6, Nom.bind, h8]
        · cases h with
          | nil => exact absurd rfl h5
          | cons c h => simp at h8; rw [h8.1] at h7; simp at h7
      have e2 := isNot_mk (set := b! "/?#:") (r := r) (v := h) h5 (by
        intro c hc hm
        have := h6 c hc
        simp at hm
        rcases hm with rfl | rfl | rfl | rfl <;> simp at this) (by
        intro c hc
        rcases hr c hc with rfl | rfl | rfl | rfl <;> decide)
      simp only [alt, e1, e2]
    · have e1 := tag_append (b! "[") (a ++ (b! "]" ++ r))
      have e2 := isNot_mk (set := b! "/?#]") (r := b! "]" ++ r) (v := a) h5 (by
        intro c hc hm
        have := h6 c hc
        simp at hm
        rcases hm with rfl | rfl | rfl | rfl <;> simp at this) (by simp)
      have e3 := tag_append (b! "]") r
      have e4 : b! "[" ++ a ++ b! "]" ++ r = b! "[" ++ (a ++ (b! "]" ++ r)) := by simp
      have e5 : ipv6 (b! "[" ++ a ++ b! "]" ++ r) = .ok r (b! "[" ++ a ++ b! "]") := by
        rw [e4]
        simp only [ipv6, Nom.bind, e1, e2, opt, e3]
        rw [← e4]
        congr 1
        rw [List.length_append, Nat.add_sub_cancel, List.take_left']
        rfl
      simp only [alt, e5]
  have h5 : dropLastWhile (· == 32) h = h := by
    apply dropLastWhile_of_last
    intro c hc
    rcases hp with ⟨_, h6, _⟩ | ⟨a, rfl, _⟩
    · have := (h6 c (List.mem_of_getLast? hc)).2.2.2.2; simpa using this
    · rw [List.getLast?_append] at hc; simp at hc; subst hc; rfl
  simp only [hostname, Nom.map, Nom.bind, h1, peekNotSlash, if_neg h2, h3, h4, h5]

theorem port_plain {p r : Bytes} (hp : p ≠ []) (hc : ∀ c ∈ p, c ≠ 47 ∧ c ≠ 63 ∧ c ≠ 35 ∧ c ≠ 32)
    (hr : ∀ c ∈ r.head?, c = 47 ∨ c = 63 ∨ c = 35) : port (b! ":" ++ (p ++ r)) = .ok r p := by
  have h1 := tag_append (b! ":") (p ++ r)
  have h2 : many0Space (p ++ r) = .ok (p ++ r) [] := by
    have := takeWhile_eq_nil_of_head (p := (· == (32 : UInt8))) (l := p ++ r) (by
      intro c h
      cases p with
      | nil => exact absurd rfl hp
      | cons d p => simp at h; subst h; simpa using (hc d (by simp)).2.2.2)
    simp only [many0Space, Nom.takeWhile, this.1, this.2]
  have h3 := isNot_mk (set := b! "/?#") (r := r) (v := p) hp (by
    intro c h hm
    have := hc c h
    simp at hm
    rcases hm with rfl | rfl | rfl <;> simp at this) (by
    intro c h; rcases hr c h with rfl | rfl | rfl <;> decide)
  have h4 : many0Space r = .ok r [] := by
    have := takeWhile_eq_nil_of_head (p := (· == (32 : UInt8))) (l := r) (by
      intro c h; rcases hr c h with rfl | rfl | rfl <;> decide)
    simp only [many0Space, Nom.takeWhile, this.1, this.2]
  have h5 := isNot_mk (set := b! " ") (r := []) (v := p) hp (by
    intro c h hm; simp at hm; subst hm; exact (hc _ h).2.2.2 rfl) (by simp)
  rw [List.append_nil] at h5
  simp only [port, Nom.bind, Nom.map, h1, h2, h3, h4, h5]

/-- C49: for a URI put together from such parts, `parse_uri` returns exactly the parts. When there are
no credentials, no "@" may occur anywhere (see the finding below). -/
theorem C49_uri_round_trip (u : Uri) (sc host : Bytes) (h : PlainParts u sc host)
    (hat : u.username = none → 64 ∉ host ++ part (b! ":") u.port ++ tailText u.path u.query u.fragment) :
    Uri.parseUri {} (uriText u sc host) = u := by
  obtain ⟨⟨hs1, hs2, hs3⟩, hu, hpw, ⟨hh1, hh2⟩, hport, hpn, hpath, hquery⟩ := h
  have htp : TailParts u.path u.query :=
    ⟨fun e => by have := (hpath _ e).1; simp at this, fun p e => (hpath p e).2,
     fun e => (hquery _ e).1 rfl, fun q e => (hquery q e).2⟩
  obtain ⟨rest, ht⟩ := tail_parse_text (f := u.fragment) htp
  have hth := tail_head (u := u) fun x e => (hpath x e).1
  generalize htt : tailText u.path u.query u.fragment = tt at *
  -- host and port
  have hport2 : opt port (part (b! ":") u.port ++ tt) = .ok tt u.port := by
    cases hp : u.port with
    | none =>
      rcases tag_cases (b! ":") (part (b! ":") none ++ tt) with ⟨h1, _⟩ | ⟨r, h1, _⟩
      · simp only [opt, port, Nom.bind, h1]; simp [part]
      · have := hth 58 (by simp [part] at h1; rw [h1]; rfl)
        simp at this
    | some p =>
      have := hport p hp
      have := port_plain this.1 this.2 hth
      simp only [part, List.append_assoc]
      simp only [opt, this]
  have hph : ∀ c ∈ (part (b! ":") u.port ++ tt).head?, c = 47 ∨ c = 63 ∨ c = 35 ∨ c = 58 := by
    intro c hc
    cases hp : u.port with
    | none => have := hth c (by simpa [hp, part] using hc); tauto
    | some p => simp [hp, part] at hc; simp [← hc]
  have hhp : ∀ lead, (lead = [] ∨ lead = b! "//") →
      opt (Nom.pair hostname (opt port)) (lead ++ (host ++ (part (b! ":") u.port ++ tt))) =
        .ok tt (some (host, u.port)) := by
    intro lead hl
    have h1 := hostname_plain hh2 hph lead hl
    have : Nom.pair hostname (opt port) (lead ++ (host ++ (part (b! ":") u.port ++ tt))) = .ok tt (host, u.port) := by
      simp only [Nom.pair, Nom.bind, Nom.map, h1, hport2]
    rw [opt, this]
  -- credentials
  have hcr : ∃ lead r, (lead = [] ∨ lead = b! "//") ∧ r = lead ++ (host ++ (part (b! ":") u.port ++ tt)) ∧
      opt credentials (b! "//" ++ ((match u.username with
        | none => []
        | some x => x ++ part (b! ":") u.password ++ b! "@") ++ (host ++ (part (b! ":") u.port ++ tt)))) =
      .ok r (u.username.map fun x => (x, u.password)) := by
    cases hun : u.username with
    | none =>
      refine ⟨b! "//", _, Or.inr rfl, rfl, ?_⟩
      have hat' := hat hun
      have h1 := tag_append (b! "//") (host ++ (part (b! ":") u.port ++ tt))
      have h2 : ¬ (host ++ (part (b! ":") u.port ++ tt)).head? = some 47 := by
        rcases hh2 with ⟨a1, a2, _⟩ | ⟨a, rfl, _⟩
        · cases host with
          | nil => exact absurd rfl a1
          | cons c t => simp; intro hc; exact (a2 c (by simp)).1 hc
        · simp
      have h3 := takeUntil_single 64 (host ++ (part (b! ":") u.port ++ tt))
      rw [if_neg (by rw [List.append_assoc] at hat'; exact hat')] at h3
      simp only [List.nil_append]
      simp only [opt, credentials, Nom.bind, h1, peekNotSlash, if_neg h2, h3, Option.map_none]
    | some x =>
      refine ⟨[], _, Or.inl rfl, rfl, ?_⟩
      obtain ⟨x1, x2, x3⟩ := hu x hun
      generalize hrr : host ++ (part (b! ":") u.port ++ tt) = rr
      have hc64 : 64 ∉ x ++ part (b! ":") u.password := by
        cases hpp : u.password with
        | none => simpa [part] using x2
        | some p => have := (hpw p hpp).1; simp [part, x2, this]
      have h1 := tag_append (b! "//") (x ++ part (b! ":") u.password ++ b! "@" ++ rr)
      have h2 : ¬ (x ++ part (b! ":") u.password ++ b! "@" ++ rr).head? = some 47 := by
        cases x with
        | nil => cases u.password <;> simp [part]
        | cons c t => simpa using x3
      have h3 := takeUntil_single 64 (x ++ part (b! ":") u.password ++ b! "@" ++ rr)
      have hsp := span_of_append (p := fun c => c != (64 : UInt8)) (a := x ++ part (b! ":") u.password)
        (b := b! "@" ++ rr) (by intro c hc; simp; rintro rfl; exact hc64 hc) (by simp)
      rw [← List.append_assoc] at hsp
      rw [if_pos (by simp), hsp.1, hsp.2] at h3
      have h4 := tag_append (b! "@") rr
      have h5 : ∀ pw, (u.password = some pw → Nom.bind (takeUntil (b! ":")) (fun u => Nom.map (tag (b! ":")) fun _ => u)
          (x ++ part (b! ":") (some pw)) = .ok pw x) := by
        intro pw _
        have e := takeUntil_single 58 (x ++ part (b! ":") (some pw))
        have hsp := span_of_append (p := fun c => c != (58 : UInt8)) (a := x)
          (b := b! ":" ++ pw) (by intro c hc; simp; rintro rfl; exact x1 hc) (by simp)
        rw [if_pos (by simp [part])] at e
        rw [show part (b! ":") (some pw) = b! ":" ++ pw from rfl] at e ⊢
        rw [hsp.1, hsp.2] at e
        simp only [Nom.bind, Nom.map, e, tag_append]
      have h6 : u.password = none → Nom.bind (takeUntil (b! ":")) (fun u => Nom.map (tag (b! ":")) fun _ => u)
          (x ++ part (b! ":") none) = .err := by
        intro _
        have e := takeUntil_single 58 (x ++ part (b! ":") none)
        rw [if_neg (by simpa [part] using x1)] at e
        simp only [Nom.bind, e]
      have h7 : credentials (b! "//" ++ (x ++ part (b! ":") u.password ++ b! "@" ++ rr)) = .ok rr (x, u.password) := by
        cases hpp : u.password with
        | none =>
          have h6' := h6 hpp
          rw [hpp] at h1 h2 h3
          simp only [credentials]
          rw [Nom.bind, h1]; simp only
          rw [Nom.bind, peekNotSlash, if_neg h2]; simp only
          rw [Nom.bind, h3]; simp only
          rw [Nom.map, h4]; simp only
          rw [h6']
          simp [part]
        | some pw =>
          have h5' := h5 pw hpp
          rw [hpp] at h1 h2 h3
          simp only [credentials]
          rw [Nom.bind, h1]; simp only
          rw [Nom.bind, peekNotSlash, if_neg h2]; simp only
          rw [Nom.bind, h3]; simp only
          rw [Nom.map, h4]; simp only
          rw [h5']
      simp only [List.append_assoc] at h7 ⊢
      rw [opt, h7]
      simp
  obtain ⟨lead, r, hl, hr, hcr⟩ := hcr
  generalize hauth : b! "//" ++ ((match u.username with
        | none => []
        | some x => x ++ part (b! ":") u.password ++ b! "@") ++ (host ++ (part (b! ":") u.port ++ tt))) = auth at hcr
  have htext : uriText u sc host = sc ++ 58 :: auth := by
    rw [← hauth, uriText, htt]; simp
  have hsch : scheme (sc ++ 58 :: auth) = .ok auth sc := by
    rcases scheme_cases (sc ++ 58 :: auth) with ⟨_, h⟩ | ⟨sc', r', h1, h2, h3, _⟩
    · exfalso
      rcases h with h | h
      · cases sc with
        | nil => simp at h
        | cons c t => simp at h; subst h; simp at hs3
      · simp at h
    · have e1 := span_of_append (p := fun c => c != (58 : UInt8)) (a := sc) (b := 58 :: auth)
        (by intro c hc; simp; rintro rfl; exact hs2 hc) (by simp)
      have e2 := span_of_append (p := fun c => c != (58 : UInt8)) (a := sc') (b := 58 :: r')
        (by intro c hc; simp; rintro rfl; exact h3 hc) (by simp)
      rw [h2] at e1
      rw [h1, ← e2.1, e1.1]
      have := e2.2.symm.trans e1.2
      simp at this
      rw [this]
  have hsa : opt (Nom.pair scheme (Nom.pair (opt credentials) (opt (Nom.pair hostname (opt port))))) (sc ++ 58 :: auth) =
      .ok tt (some (sc, u.username.map fun x => (x, u.password), some (host, u.port))) := by
    have : Nom.pair scheme (Nom.pair (opt credentials) (opt (Nom.pair hostname (opt port)))) (sc ++ 58 :: auth) =
        .ok tt (sc, u.username.map fun x => (x, u.password), some (host, u.port)) := by
      rw [Nom.pair, Nom.bind, hsch]
      simp only [Nom.map]
      rw [show Nom.pair (opt credentials) (opt (Nom.pair hostname (opt port))) auth =
        .ok tt (u.username.map fun x => (x, u.password), some (host, u.port)) by
          rw [Nom.pair, Nom.bind, hcr]; simp only [Nom.map, hr, hhp lead hl]]
    rw [opt, this]
  have h5 : uriParser (sc ++ 58 :: auth) = .ok rest
      (some (sc, u.username.map fun x => (x, u.password), some (host, u.port)), u.path, u.query, u.fragment) := by
    unfold uriParser
    rw [Nom.pair, Nom.bind, hsa]
    simp only [Nom.map, ht]
  rw [htext, Uri.parseUri, h5]
  obtain ⟨a1, a2, a3, a4, a5, a6, a7, a8, a9⟩ := u
  simp only at hs1 hh1 hpn hpw
  subst hs1 hh1 hpn
  cases a2 with
  | some x => simp
  | none =>
    cases a3 with
    | some p => exact absurd rfl (hpw p rfl).2
    | none => simp

/-- Finding: without credentials, an "@" later in the URI moves the host: everything before the "@" is
taken for a user name. -/
theorem C49_at_sign_moves_host : Uri.parseUri {} (b! "http://good.example/p?mail=x@evil.example") =
    { scheme := some (b! "http"), username := some (b! "good.example/p?mail=x"),
      hostname := some (b! "evil.example") } := by decide +kernel

/-- A concrete case: all parts present, an IPv6 host. -/
def c49example : Uri :=
  { scheme := some (b! "http"), username := some (b! "u"), password := some (b! "p:w"),
    hostname := some (b! "[::1]"), port := some (b! "80"), path := some (b! "/a/b"),
    query := some (b! "x=1?"), fragment := some (b! "") }

example : PlainParts c49example (b! "http") (b! "[::1]") where
  scheme := by decide
  user := by intro x hx; cases hx; decide +kernel
  password := by intro x hx; cases hx; decide +kernel
  host := ⟨rfl, Or.inr ⟨b! "::1", rfl, by decide +kernel, by decide +kernel⟩⟩
  port := by intro x hx; cases hx; decide +kernel
  portNumber := rfl
  path := by intro x hx; cases hx; decide +kernel
  query := by intro x hx; cases hx; decide +kernel

example : uriText c49example (b! "http") (b! "[::1]") = b! "http://u:p:w@[::1]:80/a/b?x=1?#" := by
  decide +kernel

end Props
