/-
C52, C53: normalized URIs, end to end.
-/
import Verif.Model.UriNorm
import Verif.Props.Percent
import Verif.Props.DotSegments
import Verif.Props.Utf8
import Verif.Props.Util
import Verif.Lemmas.Flags
import Verif.Spec.UriText
import Mathlib.Data.List.Induction

namespace Props
open Model Nom Spec Spec.UriText Spec.Percent Spec.DotSegments

/-! ### the path -/

/-- No empty element except at the ends. -/
def InnerFull (l : List Bytes) : Prop := ∀ pre post, l = pre ++ [] :: post → pre = [] ∨ post = []

theorem join_append (a b : List Bytes) (ha : a ≠ []) (hb : b ≠ []) : join 47 (a ++ b) = join 47 a ++ 47 :: join 47 b := by
  induction a with
  | nil => exact absurd rfl ha
  | cons x a ih =>
    cases a with
    | nil =>
      cases b with
      | nil => exact absurd rfl hb
      | cons y b => rfl
    | cons y a =>
      have := ih (by simp)
      simp only [List.cons_append, join] at this ⊢
      rw [this]; simp

/-- Two slashes in a row are the same as an empty inner segment. -/
theorem double_slash_iff (s : Bytes) : b! "//" <:+: s ↔ ¬ InnerFull (splitOn 47 s) := by
  constructor
  · rintro ⟨a, b, h⟩ hf
    have e : splitOn 47 s = splitOn 47 a ++ [] :: splitOn 47 b := by
      have h1 : join 47 (splitOn 47 a ++ [] :: splitOn 47 b) = s := by
        rw [join_append _ _ (splitOn_ne_nil _ _) (by simp)]
        have : ([] : Bytes) :: splitOn 47 b = [[]] ++ splitOn 47 b := rfl
        rw [this, join_append _ _ (by simp) (splitOn_ne_nil _ _), join_splitOn, join_splitOn, ← h]
        simp [join]
      rw [← h1]
      refine splitOn_join 47 _ (by simp) ?_
      intro p hp
      simp only [List.mem_append, List.mem_cons] at hp
      rcases hp with hp | rfl | hp
      · exact splitOn_no_sep 47 _ _ hp
      · simp
      · exact splitOn_no_sep 47 _ _ hp
    rcases hf _ _ e with h | h <;> exact splitOn_ne_nil _ _ h
  · intro h
    have ⟨pre, post, h1, h2, h3⟩ : ∃ pre post, splitOn 47 s = pre ++ [] :: post ∧ pre ≠ [] ∧ post ≠ [] := by
      by_cases hx : ∃ pre post, splitOn 47 s = pre ++ [] :: post ∧ pre ≠ [] ∧ post ≠ []
      · exact hx
      · exfalso
        apply h
        intro pre post e
        by_cases hp : pre = []
        · exact Or.inl hp
        · right
          by_cases hq : post = []
          · exact hq
          · exact absurd ⟨pre, post, e, hp, hq⟩ hx
    have h4 := join_splitOn 47 s
    rw [h1, join_append _ _ h2 (by simp), show ([] : Bytes) :: post = [[]] ++ post from rfl,
      join_append _ _ (by simp) h3] at h4
    exact ⟨join 47 pre, join 47 post, by rw [← h4]; simp [join]⟩

/-- Removing dot segments introduces no double slash. -/
theorem normalize_no_double {s : Bytes} (h : ¬ b! "//" <:+: s) : ¬ b! "//" <:+: normalizeUriPath s := by
  rw [double_slash_iff, not_not] at h ⊢
  -- the stack after all but the last segment
  let Good (out : List Bytes) : Prop := ∀ pre post, out = pre ++ [] :: post → pre = []
  have gdrop : ∀ out, Good out → Good out.dropLast := by
    intro out hg pre post e
    cases out using List.reverseRecOn with
    | nil => simp at e
    | append_singleton out x =>
      rw [List.dropLast_concat] at e
      exact hg pre (post ++ [x]) (by rw [e]; simp)
  have gpush : ∀ out x, Good out → x ≠ [] → Good (out ++ [x]) := by
    intro out x hg hx pre post e
    cases post using List.reverseRecOn with
    | nil =>
      have := List.append_inj' e rfl
      simp at this; exact absurd this.2 hx
    | append_singleton post y =>
      have : out ++ [x] = (pre ++ [] :: post) ++ [y] := by rw [e]; simp
      exact hg pre post (List.append_inj' this rfl).1
  have gstep : ∀ out x, Good out → (x ≠ [] ∨ out = []) → Good (dotStep out x) := by
    intro out x hg hx
    unfold dotStep
    split
    · exact hg
    split
    · split
      · exact gdrop out hg
      · exact hg
    · rcases hx with hx | hx
      · exact gpush out x hg hx
      · subst hx
        intro pre post e
        have := congrArg List.length e
        simp at this
        exact List.length_eq_zero_iff.mp (by omega)
  have gfold : ∀ (segs out : List Bytes), Good out → (∀ x ∈ segs, x ≠ []) → Good (segs.foldl dotStep out) := by
    intro segs
    induction segs with
    | nil => intro out h _; exact h
    | cons x segs ih => intro out h hx; exact ih _ (gstep _ _ h (Or.inl (hx x (by simp)))) fun y hy => hx y (by simp [hy])
  have glast : ∀ out x, Good out → InnerFull (dotStep out x) := by
    intro out x hg
    have good_inner : ∀ out, Good out → InnerFull out := fun out h pre post e => Or.inl (h pre post e)
    unfold dotStep
    split
    · exact good_inner _ hg
    split
    · split
      · exact good_inner _ (gdrop out hg)
      · exact good_inner _ hg
    · intro pre post e
      cases post using List.reverseRecOn with
      | nil => exact Or.inr rfl
      | append_singleton post y =>
        have : out ++ [x] = (pre ++ [] :: post) ++ [y] := by rw [e]; simp
        exact Or.inl (hg pre post (List.append_inj' this rfl).1)
  have hfin : InnerFull ((splitOn 47 s).foldl dotStep []) := by
    obtain ⟨i, l, e, _⟩ := splitOn_getLast 47 s
    rw [e] at h ⊢
    rw [List.foldl_append]
    refine glast _ _ ?_
    cases i with
    | nil => intro pre post e; simp at e
    | cons x i =>
      refine gfold i _ (gstep [] x (by intro pre post e; simp at e) (Or.inr rfl)) ?_
      intro y hy hy0
      subst hy0
      obtain ⟨a, b, e2⟩ := List.append_of_mem hy
      have := h (x :: a) (b ++ [l]) (by rw [e2]; simp)
      simp at this
  rcases normalize_segments s (splitOn_ne_nil _ _) (splitOn_no_sep 47 _) (join_splitOn 47 (normalizeUriPath s)) with e | e
  · rw [e]; exact hfin
  · rw [e]; intro pre post e
    have := congrArg List.length e
    simp at this
    exact Or.inl (List.length_eq_zero_iff.mp (by omega))

theorem normalize_subset (s : Bytes) : ∀ c ∈ normalizeUriPath s, c ∈ s := by
  have hj : ∀ (l : List Bytes) (c : UInt8), c ∈ join 47 l → (c = 47 ∧ 2 ≤ l.length) ∨ ∃ p ∈ l, c ∈ p := by
    intro l
    induction l with
    | nil => intro c h; simp [join] at h
    | cons x l ih =>
      intro c h
      cases l with
      | nil => exact Or.inr ⟨x, by simp, h⟩
      | cons y l =>
        simp only [join, List.mem_append, List.mem_cons] at h
        rcases h with h | h | h
        · exact Or.inr ⟨x, by simp, h⟩
        · exact Or.inl ⟨h, by simp⟩
        · rcases ih c h with ⟨h, _⟩ | ⟨p, hp, hc⟩
          · exact Or.inl ⟨h, by simp⟩
          · exact Or.inr ⟨p, by simp [hp], hc⟩
  have hmem : ∀ (segs out : List Bytes), ∀ p ∈ segs.foldl dotStep out, p ∈ out ∨ p ∈ segs := by
    intro segs
    induction segs with
    | nil => intro out p h; exact Or.inl h
    | cons x segs ih =>
      intro out p h
      rcases ih _ p h with h | h
      · unfold dotStep at h
        split at h
        · exact Or.inl h
        split at h
        · split at h
          · exact Or.inl (List.dropLast_subset _ h)
          · exact Or.inl h
        · rcases List.mem_append.mp h with h | h
          · exact Or.inl h
          · simp at h; exact Or.inr (by simp [h])
      · exact Or.inr (by simp [h])
  have hlen : ∀ (segs out : List Bytes), (segs.foldl dotStep out).length ≤ out.length + segs.length := by
    intro segs
    induction segs with
    | nil => intro out; simp
    | cons x segs ih =>
      intro out
      have := ih (dotStep out x)
      have : (dotStep out x).length ≤ out.length + 1 := by
        unfold dotStep; split <;> (try split) <;> (try split) <;> simp <;> omega
      simp only [List.foldl_cons, List.length_cons]; omega
  have hsub : ∀ p ∈ splitOn 47 s, ∀ c ∈ p, c ∈ s := by
    intro p hp c hc
    obtain ⟨a, b, e⟩ := List.append_of_mem hp
    rw [← join_splitOn 47 s, e]
    have : ∀ (l : List Bytes) p, p ∈ l → ∀ c ∈ p, c ∈ join 47 l := by
      intro l
      induction l with
      | nil => intro p hp; simp at hp
      | cons x l ih =>
        intro p hp c hc
        cases l with
        | nil => simp at hp; subst hp; exact hc
        | cons y l =>
          simp only [join, List.mem_append, List.mem_cons]
          rcases List.mem_cons.mp hp with rfl | hp
          · exact Or.inl hc
          · exact Or.inr (Or.inr (ih p hp c hc))
    exact this _ p (by simp) c hc
  intro c hc
  rw [normalizeUriPath, joinSlash_eq] at hc
  rcases hj _ c hc with ⟨rfl, h2⟩ | ⟨p, hp, hcp⟩
  · have h3 := hlen (splitOn 47 s) []
    by_cases hm : (47 : UInt8) ∈ s
    · exact hm
    · have : splitOn 47 s = [s] := splitOn_join 47 [s] (by simp) (by simpa using hm)
      rw [this] at h3 h2; simp at h3 h2; omega
  · rcases hmem _ _ p hp with h | h
    · simp at h
    · exact hsub p h c hcp

/-- C52: the normalized path, whatever the path and whatever the configuration (except the handling of
invalid escapes that can panic, see C15). There is one, it is no longer than the path, and it has no
dot segment. If the UTF-8 conversion is off: with separator compression it has no two slashes in a row,
with backslash conversion no backslash, with lower-casing no upper-case letter. -/
theorem C52_normalized_path (ovf : Bool) (cfg : DecoderConfig) (flags : Flags) (status : Unwanted) (u : Uri) (p : Bytes)
    (hu : u.path = some p) (hp : cfg.urlEncodingInvalidHandling ≠ .processInvalid) :
    ∃ f st t, u.normalizedPath ovf cfg flags status = some (f, st, some t) ∧
      (∀ segs : List Bytes, segs ≠ [] → (∀ x ∈ segs, 47 ∉ x) → join 47 segs = t → b! "." ∉ segs ∧ b! ".." ∉ segs) ∧
      (cfg.utf8ConvertBestfit = false → t.length ≤ p.length ∧
        (cfg.pathSeparatorsCompress = true → ¬ b! "//" <:+: t) ∧
        (cfg.backslashConvertSlashes = true → 92 ∉ t) ∧
        (cfg.convertLowercase = true → ∀ c ∈ t, ¬ (65 ≤ c.toNat ∧ c.toNat ≤ 90))) := by
  obtain ⟨d, h1, hlen⟩ := C17_path_never_grows (ovf := ovf) hp p
  simp only [Uri.normalizedPath, hu, pathDecodeUriInplace, h1, Option.map_some, decodeAndValidateInplace]
  refine ⟨_, _, _, rfl, ?_, ?_⟩
  · intro segs h2 h3 h4
    exact C13_no_dot_segments _ segs h2 h3 h4
  · intro hb
    simp only [hb, Bool.false_eq_true, if_false]
    refine ⟨Nat.le_trans (C13_never_grows _) hlen, ?_, ?_, ?_⟩
    · intro hc
      obtain ⟨d', h2, h3⟩ := C17_no_double_slash (ovf := ovf) hp hc p
      rw [h1] at h2; cases h2
      exact normalize_no_double h3
    · intro hc hm
      obtain ⟨d', h2, h3⟩ := C17_no_backslash (ovf := ovf) hp hc p
      rw [h1] at h2; cases h2
      exact h3 (normalize_subset _ _ hm)
    · intro hc c hm
      obtain ⟨d', h2, h3⟩ := C17_no_upper (ovf := ovf) hp hc p
      rw [h1] at h2; cases h2
      exact h3 c (normalize_subset _ _ hm)

/-- Finding: with the UTF-8 conversion on, the three last guarantees are lost, since the conversion runs
after the decoding. -/
theorem C52_conversion_reintroduces :
    (Uri.normalizedPath true
      {
        utf8ConvertBestfit := true, backslashConvertSlashes := true,
        pathSeparatorsCompress := true, convertLowercase := true } 0 .ignore
      { path := some [47, 0xC1, 0x9C, 0xC0, 0xAF, 0xC0, 0xAF, 0xC1, 0x81] }).map (·.2.2) =
        some (some (b! "/\\//A")) := by
  decide +kernel

example : (Uri.normalizedPath true
    {
    backslashConvertSlashes := true, pathSeparatorsDecode := true,
    pathSeparatorsCompress := true, convertLowercase := true } 0 .ignore
    { path := some (b! "/A\\%2e.//%2f./B%5C../c") }).map (·.2.2) = some (some (b! "/c")) := by decide +kernel

/-! ### the other parts -/

/-- C52: the normalized port is the number the port text writes, if it writes a number from 1 to 65535 (see
`C06_convert_port` for the numerals accepted); otherwise there is none and the host is flagged as invalid. Without a
port nothing is flagged. -/
theorem C52_normalized_port (flags : Flags) (u : Uri) :
    (u.port = none → u.normalizedPort flags = (flags, none)) ∧
    ∀ p, u.port = some p → ∃ f r, u.normalizedPort flags = (f, r) ∧
      (∀ n, r = some n ↔
        (∃ ds, (p = ds ∨ p = 43 :: ds) ∧ ds ≠ [] ∧ (∀ c ∈ ds, IsDecDigit c) ∧ value 10 ds = n) ∧ 1 ≤ n ∧ n ≤ 65535) ∧
      (r ≠ none → f = flags) ∧ (r = none → isSet f Flag.HOSTU_INVALID = true) ∧
      (∀ b, flags.testBit b = true → f.testBit b = true) := by
  refine ⟨fun h => by simp [Uri.normalizedPort, h], fun p h => ?_⟩
  refine ⟨(u.normalizedPort flags).1, convertPort p, ?_, fun n => C06_convert_port p n, ?_, ?_, ?_⟩
  · simp only [Uri.normalizedPort, h]
    cases convertPort p <;> rfl
  · intro hr
    simp only [Uri.normalizedPort, h]
    cases hc : convertPort p with
    | none => exact absurd hc hr
    | some n => rfl
  · intro hr
    simp only [Uri.normalizedPort, h, hr]
    rw [isSet_set, show isSet Flag.HOSTU_INVALID Flag.HOSTU_INVALID = true by decide, Bool.or_true]
  · intro b hb
    simp only [Uri.normalizedPort, h]
    cases convertPort p with
    | none => simp [setFlag, hb]
    | some n => exact hb

example : Uri.normalizedPort 4 { port := some (b! "0080") } = (4, some 80) ∧
    isSet (Uri.normalizedPort 4 { port := some (b! "8a") }).1 Flag.HOSTU_INVALID = true := by decide +kernel

/-- C52: the normalized host has no trailing dot and no upper-case letter. -/
theorem C52_normalized_hostname (ovf : Bool) (cfg : DecoderConfig) (flags : Flags) (u : Uri) (h : Bytes)
    (hu : u.hostname = some h) (hp : cfg.urlEncodingInvalidHandling ≠ .processInvalid) :
    ∃ f t, u.normalizedHostname ovf cfg flags = some (f, some t) ∧ t.getLast? ≠ some 46 ∧
      (∀ c ∈ t, ¬ (65 ≤ c.toNat ∧ c.toNat ≤ 90)) ∧ t.length ≤ h.length := by
  obtain ⟨d, h1, hlen⟩ := C15_decode_never_grows (ovf := ovf) hp h
  have hl : ∀ c, ¬ (65 ≤ (lower c).toNat ∧ (lower c).toNat ≤ 90) := by decide +kernel
  simp only [Uri.normalizedHostname, Uri.normalizedDecoded, hu, decodeUriWithFlags, h1, PRes.bind, Option.map_some]
  refine ⟨_, _, rfl, ?_, ?_, ?_⟩
  · rw [dropLastWhile, List.getLast?_reverse]
    intro hc
    have := dropWhile_head (· == (46 : UInt8)) _ _ hc
    simp at this
  · intro c hc
    rw [dropLastWhile, List.mem_reverse] at hc
    have := (List.dropWhile_sublist _).subset hc
    rw [List.mem_reverse, lowerAll, List.mem_map] at this
    obtain ⟨c', _, rfl⟩ := this
    exact hl c'
  · have := (List.dropWhile_sublist (· == (46 : UInt8)) (l := (lowerAll d.bytes).reverse)).length_le
    simp only [dropLastWhile, List.length_reverse, lowerAll, List.length_map] at this ⊢
    omega

example : (Uri.normalizedHostname true {} 0 { hostname := some (b! "WWW.Ex%41mple..") }).map (·.2) =
    some (some (b! "www.example")) := by decide +kernel

/-! ### the normalized URI -/

/-- C53: the normalized URI is the parts in order with their delimiters, the query decoded (again if
configured) and the path decoded once more if configured. The first component is the part from the path on. -/
theorem C53_normalized_uri (ovf : Bool) (cfg : DecoderConfig) (u : Uri)
    (hp : cfg.urlEncodingInvalidHandling ≠ .processInvalid) :
    ∃ path query : Option Bytes, ∃ part full,
      u.generateNormalizedUri ovf cfg = some (if part = [] then none else some part, if full = [] then none else some full) ∧
      part = tailText path query u.fragment ∧
      full = Spec.UriText.part [] (u.scheme.map (· ++ b! "://")) ++
        (if u.username = none ∧ u.password = none then []
         else u.username.getD [] ++ b! ":" ++ u.password.getD [] ++ b! "@") ++
        Spec.UriText.part [] u.hostname ++ Spec.UriText.part (b! ":") u.port ++ part ∧
      (match u.path, path with
       | none, none => True
       | some p, some p' =>
         if cfg.doubleDecodeNormalizedPath then ∃ n, Decodes (optsOf cfg) p p' n else p' = p
       | _, _ => False) ∧
      (match u.query, query with
       | none, none => True
       | some q, some q' =>
         if cfg.doubleDecodeNormalizedQuery then ∃ m n n', Decodes (optsOf cfg) q m n ∧ Decodes (optsOf cfg) m q' n'
         else ∃ n, Decodes (optsOf cfg) q q' n
       | _, _ => False) := by
  have dec : ∀ s, ∃ t n, decodeUriInplace ovf cfg s = some t ∧ Decodes (optsOf cfg) s t n := by
    intro s
    obtain ⟨t, n, f, c, h1, h2, _⟩ := C15_decode_total (ovf := ovf) hp s
    exact ⟨t, n, by simp only [decodeUriInplace, h2], h1⟩
  have hpath : ∃ path : Option Bytes, u.pathOut ovf cfg = some (Spec.UriText.part [] path) ∧
      (match u.path, path with
       | none, none => True
       | some p, some p' =>
         if cfg.doubleDecodeNormalizedPath then ∃ n, Decodes (optsOf cfg) p p' n else p' = p
       | _, _ => False) := by
    rw [Uri.pathOut]
    cases u.path with
    | none => exact ⟨none, rfl, trivial⟩
    | some p =>
      obtain ⟨t, n, h1, h2⟩ := dec p
      by_cases hd : cfg.doubleDecodeNormalizedPath = true
      · exact ⟨some t, by simp [hd, h1, Spec.UriText.part], by simp only [hd, if_true]; exact ⟨n, h2⟩⟩
      · exact ⟨some p, by simp [hd, Spec.UriText.part], by simp only [hd]; simp⟩
  obtain ⟨path, hpath1, hpath2⟩ := hpath
  have hquery : ∃ query : Option Bytes, u.queryOut ovf cfg = some (Spec.UriText.part (b! "?") query) ∧
      (match u.query, query with
       | none, none => True
       | some q, some q' =>
         if cfg.doubleDecodeNormalizedQuery then ∃ m n n', Decodes (optsOf cfg) q m n ∧ Decodes (optsOf cfg) m q' n'
         else ∃ n, Decodes (optsOf cfg) q q' n
       | _, _ => False) := by
    rw [Uri.queryOut]
    cases u.query with
    | none => exact ⟨none, rfl, trivial⟩
    | some q =>
      obtain ⟨t, n, h1, h2⟩ := dec q
      by_cases hd : cfg.doubleDecodeNormalizedQuery = true
      · obtain ⟨t', n', h1', h2'⟩ := dec t
        exact ⟨some t', by simp [hd, h1, h1', Spec.UriText.part],
          by simp only [hd, if_true]; exact ⟨t, n, n', h2, h2'⟩⟩
      · exact ⟨some t, by simp [hd, h1, Spec.UriText.part], by simp only [hd]; exact ⟨n, h2⟩⟩
  obtain ⟨query, hquery1, hquery2⟩ := hquery
  refine ⟨path, query, _, _, ?_, rfl, rfl, hpath2, hquery2⟩
  simp only [Uri.generateNormalizedUri]
  rw [hpath1, hquery1]
  simp only [Option.bind_some, Option.some.injEq]
  have e1 : Spec.UriText.part [] path ++ Spec.UriText.part (b! "?") query ++ u.fragmentOut = tailText path query u.fragment := by
    rw [Uri.fragmentOut]
    cases u.fragment <;> simp [tailText, Spec.UriText.part]
  have e2 : u.front = Spec.UriText.part [] (u.scheme.map (· ++ b! "://")) ++
        (if u.username = none ∧ u.password = none then []
         else u.username.getD [] ++ b! ":" ++ u.password.getD [] ++ b! "@") ++
        Spec.UriText.part [] u.hostname ++ Spec.UriText.part (b! ":") u.port := by
    rw [Uri.front]
    cases u.scheme <;> cases u.username <;> cases u.password <;> cases u.hostname <;> cases u.port <;>
      simp [Spec.UriText.part]
  rw [e1, e2]
  generalize Spec.UriText.part [] (u.scheme.map (· ++ b! "://")) ++
        (if u.username = none ∧ u.password = none then []
         else u.username.getD [] ++ b! ":" ++ u.password.getD [] ++ b! "@") ++
        Spec.UriText.part [] u.hostname ++ Spec.UriText.part (b! ":") u.port = front
  generalize tailText path query u.fragment = part
  by_cases h1 : front ++ part = []
  · have := List.append_eq_nil_iff.mp h1
    simp [this.1, this.2]
  · by_cases h2 : part = []
    · have h3 : front ≠ [] := by simpa [h2] using h1
      simp [h2, h3]
    · simp [h2]

example : Uri.generateNormalizedUri true {}
    {
    scheme := some (b! "http"), username := some (b! "u"),
    hostname := some (b! "h"), port := some (b! "80"), path := some (b! "/%41"), query := some (b! "%41"),
    fragment := some (b! "f") } = some (some (b! "/%41?A#f"), some (b! "http://u:@h:80/%41?A#f")) := by decide +kernel

end Props
