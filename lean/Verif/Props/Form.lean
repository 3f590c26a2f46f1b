/-
C18, C19: the streaming form parser.
-/
import Verif.Lemmas.Form
import Verif.Props.Percent
import Verif.Spec.Form

namespace Props
open Model Spec Spec.Percent Spec.Form

variable {ovf : Bool}

/-- C18: a new parser fed any pieces and finalized ends in exactly the state (parameters, flags,
expected status; or panic) of one that parsed the concatenation in one call. -/
theorem C18_chunking_independent (f : Form) (hc : f.complete = false) (hf : f.field = [])
    (pieces : List Bytes) :
    (pieces.foldlM (fun (f : Form) p => f.parsePartial ovf p) f).bind (fun f => f.finalize ovf) =
      f.parseComplete ovf pieces.flatten := by
  rw [feed_eq ovf pieces f hc hf]; rfl

example : (([b! "a=1&", b! "b", b! "=%3", b! "0&&c"].foldlM
    (fun (f : Form) p => f.parsePartial true p) { cfg := {} }).bind (fun f => f.finalize true)).map (·.params) =
    some [(b! "a", b! "1"), (b! "b", b! "0"), (b! "c", b! "")] := by decide +kernel

theorem nameValue_splits {seg n v : Bytes} (h : nameValue seg = some (n, v)) : SplitsAtEq seg n v := by
  have hsplit := List.takeWhile_append_dropWhile (p := (· != (61 : UInt8))) (l := seg)
  have hn : ∀ l : Bytes, 61 ∉ l.takeWhile (· != 61) := by
    intro l
    induction l with
    | nil => simp
    | cons c l ih =>
      by_cases hc : c = 61
      · simp [hc]
      · simp [hc, ih, Ne.symm hc]
  cases seg with
  | nil => simp [nameValue] at h
  | cons c s =>
    simp only [nameValue, Option.some.injEq, Prod.mk.injEq] at h
    obtain ⟨rfl, rfl⟩ := h
    refine ⟨hn _, ?_⟩
    generalize hd : (c :: s).dropWhile (· != 61) = d at hsplit
    cases d with
    | nil => right; simp at hsplit; exact ⟨hsplit.symm, rfl⟩
    | cons x d =>
      left
      have : x = 61 := by
        have h1 := List.head?_dropWhile_not (p := (· != (61 : UInt8))) (c :: s)
        rw [hd] at h1; simpa using h1
      subst this
      simpa using hsplit.symm

theorem nameValue_nonempty {seg : Bytes} (h : seg ≠ []) : ∃ n v, nameValue seg = some (n, v) := by
  cases seg with
  | nil => exact absurd rfl h
  | cons c s => exact ⟨_, _, rfl⟩

theorem decodeHalf_spec {f : Form} (hp : f.cfg.urlEncodingInvalidHandling ≠ .processInvalid)
    (hu : f.decodeUrl = true) (s : Bytes) : ∃ g t n, f.decodeHalf ovf s = some (g, t) ∧
      Decodes (optsOf f.cfg) s t n ∧ g.params = f.params ∧ g.cfg = f.cfg ∧ g.decodeUrl = true := by
  obtain ⟨t, n, flags, code, h1, h2, _⟩ := C15_decode_total (ovf := ovf) hp s
  exact ⟨{ f with flags := setFlag f.flags flags, code := code }, t, n,
    by rw [Form.decodeHalf, if_pos hu, h2], h1, rfl, rfl, hu⟩

theorem segments_spec : ∀ (segs : List Bytes) (f : Form),
    f.cfg.urlEncodingInvalidHandling ≠ .processInvalid → f.decodeUrl = true →
    ∃ g ps, f.segments ovf segs = some g ∧ g.params = f.params ++ ps ∧ g.cfg = f.cfg ∧
      g.decodeUrl = true ∧ List.Forall₂ (FieldMeans (optsOf f.cfg)) (segs.filter (· ≠ [])) ps := by
  intro segs
  induction segs with
  | nil => intro f _ hu; exact ⟨f, [], rfl, by simp, rfl, hu, .nil⟩
  | cons s segs ih =>
    intro f hp hu
    by_cases hs : s = []
    · subst hs
      obtain ⟨g, ps, h1, h2, h3, h4, h5⟩ := ih f hp hu
      refine ⟨g, ps, ?_, h2, h3, h4, by simpa using h5⟩
      simp only [Form.segments, List.foldlM_cons] at h1 ⊢
      exact h1
    · obtain ⟨n, v, hnv⟩ := nameValue_nonempty hs
      obtain ⟨f1, t1, n1, a1, a2, a3, a4, a5⟩ := decodeHalf_spec (ovf := ovf) hp hu n
      obtain ⟨f2, t2, n2, b1, b2, b3, b4, b5⟩ := decodeHalf_spec (ovf := ovf) (f := f1) (by rw [a4]; exact hp) a5 v
      have hseg : f.segment ovf s = some { f2 with params := f2.params ++ [(t1, t2)] } := by
        simp only [Form.segment, hnv, a1, b1]
      obtain ⟨g, ps, h1, h2, h3, h4, h5⟩ := ih { f2 with params := f2.params ++ [(t1, t2)] }
        (by show f2.cfg.urlEncodingInvalidHandling ≠ _; rw [b4, a4]; exact hp) b5
      refine ⟨g, (t1, t2) :: ps, ?_, ?_, ?_, h4, ?_⟩
      · simp only [Form.segments, List.foldlM_cons, hseg] at h1 ⊢; exact h1
      · rw [h2, b3, a3]; simp
      · rw [h3, b4, a4]
      · have : (s :: segs).filter (fun x => decide (x ≠ [])) = s :: segs.filter (fun x => decide (x ≠ [])) := by
          simp [hs]
        rw [this]
        simp only [b4, a4] at h5 b2
        exact .cons ⟨n, v, nameValue_splits hnv, ⟨n1, a2⟩, ⟨n2, b2⟩⟩ h5

/-- C19: a complete parse by a new parser succeeds and its parameters are those the specification
gives. -/
theorem C19_form_spec (cfg : DecoderConfig) (sep : UInt8)
    (hp : cfg.urlEncodingInvalidHandling ≠ .processInvalid) (body : Bytes) :
    ∃ f, Form.parseComplete ovf { cfg := cfg, sep := sep } body = some f ∧
      Parses (optsOf cfg) sep body f.params := by
  by_cases hb : body = []
  · subst hb
    exact ⟨_, rfl, [[]], by simp, by simp, rfl, by simp⟩
  · obtain ⟨i, l, hs, hl⟩ := splitOn_getLast sep body
    obtain ⟨g, ps, h1, h2, h3, h4, h5⟩ := segments_spec (ovf := ovf) i { cfg := cfg, sep := sep } hp rfl
    have hpp := parsePartial_eq ovf { cfg := cfg, sep := sep } body rfl (i := i) (l := l) (by simpa using hb)
      (by simpa using hs)
    rw [h1] at hpp
    simp only [List.nil_append] at h2
    obtain ⟨k1, -⟩ := segments_keep ovf _ _ _ h1
    rw [Form.parseComplete, hpp]
    simp only [Option.map_some, Option.bind_some, Form.finalize]
    by_cases hle : l = []
    · subst hle
      have hfil : (i ++ [[]]).filter (fun x => decide (x ≠ ([] : Bytes))) = i.filter (fun x => decide (x ≠ [])) := by
        simp
      by_cases hg : g.params = []
      · refine ⟨_, by simp only [Form.parsePartial, Form.withBuf, List.append_nil, if_true, hg]; rfl, ?_⟩
        have : i.filter (fun x => decide (x ≠ ([] : Bytes))) = [] := by
          rw [← h2, hg] at h5; cases hh : i.filter (fun x => decide (x ≠ ([] : Bytes)))
          · rfl
          · rw [hh] at h5; cases h5
        refine ⟨i ++ [[]], by simp, hs ▸ splitOn_no_sep sep body, hs ▸ join_splitOn sep body, ?_⟩
        rw [hfil, this]
        simp [hb]
      · refine ⟨g.withBuf [] true true, by simp [Form.parsePartial, Form.withBuf, hg], ?_⟩
        refine ⟨i ++ [[]], by simp, hs ▸ splitOn_no_sep sep body, hs ▸ join_splitOn sep body, ?_⟩
        rw [hfil, if_neg]
        · show List.Forall₂ _ _ g.params
          rw [h2]; exact h5
        · rintro ⟨_, h⟩
          rw [h] at h5; cases h5
          exact hg h2
    · have hspl : splitOn g.sep l = [l] := splitOn_of_no_sep _ _ (by rw [k1]; exact hl)
      obtain ⟨g', ps', a1, a2, a3, a4, a5⟩ := segments_spec (ovf := ovf) [l] (g.withBuf l true true)
        (by show g.cfg.urlEncodingInvalidHandling ≠ _; rw [h3]; exact hp) h4
      refine ⟨g'.withBuf [] g'.sawData g'.complete, ?_, ?_⟩
      · simp only [Form.parsePartial, Form.withBuf, List.append_nil, if_neg hle, if_true, hspl]
        simp only [Form.withBuf] at a1
        rw [a1]; rfl
      · refine ⟨i ++ [l], by simp, hs ▸ splitOn_no_sep sep body, hs ▸ join_splitOn sep body, ?_⟩
        have hfl : (i ++ [l]).filter (fun x => decide (x ≠ ([] : Bytes))) =
            i.filter (fun x => decide (x ≠ [])) ++ [l].filter (fun x => decide (x ≠ [])) := by
          simp
        rw [if_neg (by rintro ⟨_, h⟩; simp [hle] at h), hfl]
        show List.Forall₂ _ _ g'.params
        rw [a2]
        show List.Forall₂ _ _ (g.params ++ ps')
        rw [h2]
        refine List.rel_append h5 ?_
        simpa [Form.withBuf, h3] using a5

theorem decodes_unique {cfg : DecoderConfig} (hp : cfg.urlEncodingInvalidHandling ≠ .processInvalid)
    {s t t' : Bytes} {n n' : List Note} (h : Decodes (optsOf cfg) s t n) (h' : Decodes (optsOf cfg) s t' n') :
    t = t' := by
  obtain ⟨_, _, h1, _⟩ := C15_decode_spec (ovf := true) h hp
  obtain ⟨_, _, h2, _⟩ := C15_decode_spec (ovf := true) h' hp
  rw [h1] at h2
  simp at h2
  exact h2.1

theorem splitsAtEq_unique {s n v n' v' : Bytes} (h : SplitsAtEq s n v) (h' : SplitsAtEq s n' v') :
    n = n' ∧ v = v' := by
  obtain ⟨h1, h2⟩ := h
  obtain ⟨h3, h4⟩ := h'
  have key : ∀ n n' v v' : Bytes, 61 ∉ n → 61 ∉ n' → n ++ 61 :: v = n' ++ 61 :: v' → n = n' ∧ v = v' := by
    intro n
    induction n with
    | nil =>
      intro n' v v' _ h' h
      cases n' with
      | nil => simpa using h
      | cons c n' => simp at h h'; exact absurd h.1 h'.1
    | cons c n ih =>
      intro n' v v' h1 h2 h
      cases n' with
      | nil => simp at h h1; exact absurd h.1.symm h1.1
      | cons d n' =>
        simp only [List.mem_cons, not_or, List.cons_append, List.cons.injEq] at h1 h2 h
        obtain ⟨rfl, rfl⟩ := ih n' v v' h1.2 h2.2 h.2
        exact ⟨by rw [h.1], rfl⟩
  rcases h2 with h2 | ⟨h2, h5⟩ <;> rcases h4 with h4 | ⟨h4, h6⟩
  · exact key n n' v v' h1 h3 (h2.symm.trans h4)
  · rw [h2] at h4; exact absurd (h4 ▸ (by simp : (61 : UInt8) ∈ n ++ 61 :: v)) h3
  · rw [h4] at h2; exact absurd (h2 ▸ (by simp : (61 : UInt8) ∈ n' ++ 61 :: v')) h1
  · exact ⟨h2.symm.trans h4, by rw [h5, h6]⟩

/-- C19, round trip: any list of parameters, encoded field by field in any way that leaves no
separator (and no '=' in names) bare and joined with the separator, is read back exactly. -/
theorem C19_form_round_trip (cfg : DecoderConfig) (sep : UInt8)
    (hp : cfg.urlEncodingInvalidHandling ≠ .processInvalid) (hn : cfg.nulEncodedTerminates = false)
    (params : List (Bytes × Bytes)) (encoded : List (Bytes × Bytes)) (hne : params ≠ [])
    (he : List.Forall₂ (fun p e => Encodes p.1 e.1 ∧ Encodes p.2 e.2 ∧ 61 ∉ e.1 ∧ sep ∉ e.1 ++ 61 :: e.2)
      params encoded) :
    ∃ f, Form.parseComplete ovf { cfg := cfg, sep := sep }
        (join sep (encoded.map fun e => e.1 ++ 61 :: e.2)) = some f ∧ f.params = params := by
  obtain ⟨f, hf, fields, h1, h2, h3, h4⟩ := C19_form_spec (ovf := ovf) cfg sep hp
    (join sep (encoded.map fun e => e.1 ++ 61 :: e.2))
  refine ⟨f, hf, ?_⟩
  have hene : encoded ≠ [] := by rintro rfl; cases he; exact hne rfl
  have hsep : ∀ l : List (Bytes × Bytes), ∀ ps, List.Forall₂ (fun (p e : Bytes × Bytes) => Encodes p.1 e.1 ∧ Encodes p.2 e.2 ∧ 61 ∉ e.1 ∧
      sep ∉ e.1 ++ 61 :: e.2) ps l → ∀ p ∈ l.map fun e => e.1 ++ 61 :: e.2, sep ∉ p := by
    intro l ps h
    induction h with
    | nil => simp
    | cons h _ ih =>
      intro p hp
      rw [List.map_cons] at hp
      rcases List.mem_cons.mp hp with hp | hp
      · rw [hp]; exact h.2.2.2
      · exact ih p hp
  have hfe : fields = encoded.map fun e => e.1 ++ 61 :: e.2 := by
    rw [← splitOn_join sep fields h1 h2, h3, splitOn_join sep _ (by simpa using hene) (hsep _ _ he)]
  subst hfe
  have hfil : (encoded.map fun e => e.1 ++ 61 :: e.2).filter (fun x => decide (x ≠ ([] : Bytes))) =
      encoded.map fun e => e.1 ++ 61 :: e.2 := by
    rw [List.filter_eq_self]
    intro a ha
    obtain ⟨e, _, rfl⟩ := List.mem_map.mp ha
    simp
  rw [hfil, if_neg (by rintro ⟨_, h⟩; simp at h; exact hene h)] at h4
  clear hfil h3 h2 h1 hsep hne hene hf
  generalize f.params = got at h4
  induction he generalizing got with
  | nil => cases h4; rfl
  | @cons p e ps es h _ ih =>
    rw [List.map_cons] at h4
    cases h4 with
    | @cons _ q _ qs hq hqs =>
      rw [ih qs hqs]
      obtain ⟨n, v, hnv, ⟨m1, hd1⟩, ⟨m2, hd2⟩⟩ := hq
      obtain ⟨rfl, rfl⟩ := splitsAtEq_unique hnv ⟨h.2.2.1, Or.inl rfl⟩
      obtain ⟨_, e1, _⟩ := decodes_of_encodes (o := optsOf cfg) h.1 (Or.inl hn)
      obtain ⟨_, e2, _⟩ := decodes_of_encodes (o := optsOf cfg) h.2.1 (Or.inl hn)
      rw [Prod.ext (decodes_unique hp hd1 e1) (decodes_unique hp hd2 e2)]

example : ([(b! "a b", b! "1&2"), (b! "", b! "=")].Forall₂
    (fun p e => Encodes p.1 e.1 ∧ Encodes p.2 e.2 ∧ 61 ∉ e.1 ∧ 38 ∉ e.1 ++ 61 :: e.2)
    [(b! "a%20b", b! "1%262"), (b! "", b! "=")]) := by
  refine .cons ⟨?_, ?_, by decide, by decide⟩ (.cons ⟨.nil, ?_, by decide, by decide⟩ .nil)
  · exact .lit (by decide) (by decide) (by decide) (.cons (by decide) (by decide) (by decide)
      (.lit (by decide) (by decide) (by decide) .nil))
  · exact .lit (by decide) (by decide) (by decide) (.cons (by decide) (by decide) (by decide)
      (.lit (by decide) (by decide) (by decide) .nil))
  · exact .lit (by decide) (by decide) (by decide) .nil

example : (Form.parseComplete true { cfg := {} } (b! "&&")).map (·.params) = some [([], [])] := by
  decide +kernel

end Props
