/-
C04: lookups in parameter and header tables.
-/
import Verif.Model.Table
import Verif.Spec.Lookup
import Verif.Props.Bstr
import Verif.Lemmas.Span

open Model Spec

namespace Props

/-- Trimming is determined: two trimmed forms of the same string are equal (used to turn the
existence statement of C01 into an equivalence). -/
theorem asciiTrimmed_unique {s a b : Bytes} (ha : AsciiTrimmed s a) (hb : AsciiTrimmed s b) : a = b := by
  have ws : ∀ c : UInt8, c ∈ asciiWhitespace ↔ isAsciiWhitespace c = true := by decide +kernel
  suffices H : ∀ m, AsciiTrimmed s m → m = trimAscii s by rw [H a ha, H b hb]
  rintro m ⟨pre, post, hs, h1, h2, h3, h4⟩
  simp only [ws] at h1 h2 h3 h4
  subst hs
  rw [trimAscii]
  by_cases hm : m = []
  · subst hm
    have : ∀ c ∈ pre ++ [] ++ post, isAsciiWhitespace c = true := by
      intro c hc
      rcases List.mem_append.mp hc with h | h
      · exact h1 c (by simpa using h)
      · exact h2 c h
    have h0 := (span_of_append (b := []) this (by simp)).2
    rw [List.append_nil] at h0
    rw [h0]; rfl
  · have e1 : (pre ++ m ++ post).dropWhile isAsciiWhitespace = m ++ post := by
      rw [List.append_assoc]
      refine (span_of_append h1 ?_).2
      cases m with
      | nil => exact absurd rfl hm
      | cons c cs => intro d hd; simpa using h3 d (by simpa using hd)
    rw [e1, List.reverse_append]
    have e2 : (post.reverse ++ m.reverse).dropWhile isAsciiWhitespace = m.reverse := by
      refine (span_of_append (by simpa using h2) ?_).2
      intro d hd
      simpa using h4 d (by simpa using hd)
    rw [e2, List.reverse_reverse]

theorem cmpNocaseTrimmed_iff (s t : Bytes) : (cmpNocaseTrimmed s t == .eq) = true ↔ NameMatches s t := by
  obtain ⟨pre, mid, post, h1, h2, h3, h4, h5, h6⟩ := C01_cmp_nocase_trimmed s t
  have hT : AsciiTrimmed s mid := ⟨pre, post, h1, h2, h3, h4, h5⟩
  rw [h6, beq_iff_eq, C01_cmp_nocase_eq_iff]
  constructor
  · intro h; exact ⟨mid, hT, h⟩
  · rintro ⟨m, hm, he⟩; rw [asciiTrimmed_unique hT hm]; exact he

theorem spaceChar_iff (w : Bytes) : SpaceChar w ↔ w ∈ unicodeSpaces := by
  have : unicodeSpaces = unicodeWhitespace.map utf8Encode := by decide +kernel
  rw [this, List.mem_map, SpaceChar]
  constructor
  · rintro ⟨cp, h, e⟩; exact ⟨cp, h, e.symm⟩
  · rintro ⟨cp, h, e⟩; exact ⟨cp, h, e.symm⟩

theorem stripFront_spec (ws : List Bytes) (hne : ∀ w ∈ ws, w ≠ []) : ∀ (fuel : Nat) (s : Bytes),
    s.length ≤ fuel → ∃ pre : List Bytes, s = pre.flatten ++ stripFront ws fuel s ∧
      (∀ w ∈ pre, w ∈ ws) ∧ ∀ w ∈ ws, ¬ w <+: stripFront ws fuel s
  | 0, s, h => by
    have : s = [] := List.length_eq_zero_iff.mp (Nat.le_zero.mp h)
    subst this
    exact ⟨[], by simp [stripFront], by simp, fun w hw hp => hne w hw (List.prefix_nil.mp hp)⟩
  | fuel + 1, s, h => by
    rw [stripFront]
    cases hf : ws.find? (·.isPrefixOf s) with
    | none =>
      refine ⟨[], by simp, by simp, fun w hw hp => ?_⟩
      have := List.find?_eq_none.mp hf w hw
      exact this (List.isPrefixOf_iff_prefix.mpr hp)
    | some w =>
      have hw := List.mem_of_find?_eq_some hf
      have hp : w <+: s := List.isPrefixOf_iff_prefix.mp (by simpa using List.find?_some hf)
      obtain ⟨r, hr⟩ := hp
      have hwl : 0 < w.length := List.length_pos_iff.mpr (hne w hw)
      have hd : s.drop w.length = r := by rw [← hr]; simp
      have hl : r.length ≤ fuel := by rw [← hr] at h; simp at h; omega
      obtain ⟨pre, h1, h2, h3⟩ := stripFront_spec ws hne fuel r hl
      refine ⟨w :: pre, ?_, ?_, ?_⟩
      · show s = _
        simp only [hd, List.flatten_cons, List.append_assoc]
        rw [← h1]; exact hr.symm
      · intro v hv
        rcases List.mem_cons.mp hv with e | e
        · exact e ▸ hw
        · exact h2 v e
      · simpa only [hd] using h3

theorem trimUnicode_spec (s : Bytes) : UnicodeTrimmed s (trimUnicode s) := by
  have hne : ∀ w ∈ unicodeSpaces, w ≠ [] := by decide +kernel
  obtain ⟨pre, h1, h2, h3⟩ := stripFront_spec unicodeSpaces hne s.length s (Nat.le_refl _)
  rw [trimUnicode]
  generalize stripFront unicodeSpaces s.length s = m at h1 h3 ⊢
  obtain ⟨post, g1, g2, g3⟩ := stripFront_spec (unicodeSpaces.map List.reverse) (by decide +kernel)
    m.length m.reverse (by simp)
  show UnicodeTrimmed s (stripFront (unicodeSpaces.map List.reverse) m.length m.reverse).reverse
  generalize stripFront (unicodeSpaces.map List.reverse) m.length m.reverse = r at g1 g3 ⊢
  have hm : m = r.reverse ++ (post.map List.reverse).reverse.flatten := by
    have := congrArg List.reverse g1
    rw [List.reverse_reverse, List.reverse_append, List.reverse_flatten] at this
    exact this
  refine ⟨pre, (post.map List.reverse).reverse, ?_, ?_, ?_, ?_, ?_⟩
  · rw [List.append_assoc, ← hm]; exact h1
  · intro w hw; exact (spaceChar_iff w).mpr (h2 w hw)
  · intro w hw
    rw [List.mem_reverse, List.mem_map] at hw
    obtain ⟨v, hv, e⟩ := hw
    obtain ⟨u, hu, e'⟩ := List.mem_map.mp (g2 v hv)
    rw [spaceChar_iff, ← e, ← e', List.reverse_reverse]; exact hu
  · intro w hw hp
    refine h3 w ((spaceChar_iff w).mp hw) ?_
    rw [hm]
    exact hp.trans (List.prefix_append _ _)
  · intro w hw hp
    refine g3 w.reverse (List.mem_map.mpr ⟨w, (spaceChar_iff w).mp hw, rfl⟩) ?_
    have := List.reverse_prefix.mpr hp
    simpa using this

/-- In a prefix code there is only one way to strip code words from the front. -/
theorem stripFront_eq (ws : List Bytes) (hcode : ∀ v ∈ ws, ∀ w ∈ ws, v <+: w → v = w)
    (hne : ∀ w ∈ ws, w ≠ []) (x : Bytes) (hx : ∀ w ∈ ws, ¬ w <+: x) :
    ∀ (fuel : Nat) (pre : List Bytes), (∀ w ∈ pre, w ∈ ws) → (pre.flatten ++ x).length ≤ fuel →
      stripFront ws fuel (pre.flatten ++ x) = x
  | 0, pre, _, hl => by
    have : pre.flatten ++ x = [] := List.length_eq_zero_iff.mp (Nat.le_zero.mp hl)
    rw [stripFront, this, (List.append_eq_nil_iff.mp this).2]
  | fuel + 1, [], _, _ => by
    have : ws.find? (·.isPrefixOf x) = none := by
      rw [List.find?_eq_none]
      intro w hw h
      exact hx w hw (List.isPrefixOf_iff_prefix.mp h)
    simp [stripFront, this]
  | fuel + 1, w :: pre, hp, hl => by
    have hw : w ∈ ws := hp w (by simp)
    have hpre : w <+: (w :: pre).flatten ++ x := ⟨pre.flatten ++ x, by simp⟩
    cases hf : ws.find? (·.isPrefixOf ((w :: pre).flatten ++ x)) with
    | none =>
      exact absurd (List.isPrefixOf_iff_prefix.mpr hpre) (List.find?_eq_none.mp hf w hw)
    | some v =>
      have hv := List.mem_of_find?_eq_some hf
      have hvp : v <+: (w :: pre).flatten ++ x :=
        List.isPrefixOf_iff_prefix.mp (by simpa using List.find?_some hf)
      have e : v = w := by
        rcases List.prefix_or_prefix_of_prefix hvp hpre with h | h
        · exact hcode v hv w hw h
        · exact (hcode w hw v hv h).symm
      have hwl : 0 < w.length := List.length_pos_iff.mpr (hne w hw)
      rw [stripFront, hf]
      subst e
      have hd : ((v :: pre).flatten ++ x).drop v.length = pre.flatten ++ x := by simp
      simp only [hd]
      refine stripFront_eq ws hcode hne x hx fuel pre (fun u hu => hp u (by simp [hu])) ?_
      simp at hl ⊢; omega

theorem unicodeTrimmed_eq {s m : Bytes} (h : UnicodeTrimmed s m) : m = trimUnicode s := by
  obtain ⟨pre, post, hs, h1, h2, h3, h4⟩ := h
  simp only [spaceChar_iff] at h1 h2 h3 h4
  have hne : ∀ w ∈ unicodeSpaces, w ≠ [] := by decide +kernel
  have hcode : ∀ v ∈ unicodeSpaces, ∀ w ∈ unicodeSpaces, v <+: w → v = w := by decide +kernel
  have hcode' : ∀ v ∈ unicodeSpaces.map List.reverse, ∀ w ∈ unicodeSpaces.map List.reverse,
    v <+: w → v = w := by decide +kernel
  by_cases hm : m = []
  · subst hm
    have e := stripFront_eq unicodeSpaces hcode hne [] h3 s.length (pre ++ post)
      (fun w hw => (List.mem_append.mp hw).elim (h1 w) (h2 w))
      (by rw [hs]; simp)
    have hs' : s = (pre ++ post).flatten ++ [] := by rw [hs]; simp
    rw [← hs'] at e
    rw [trimUnicode, e]; rfl
  · have hstart : ∀ w ∈ unicodeSpaces, ∀ c ∈ w.head?, ¬ (0x80 ≤ c ∧ c ≤ 0xBF) := by decide +kernel
    have htail : ∀ w ∈ unicodeSpaces, ∀ c ∈ w.tail, 0x80 ≤ c ∧ c ≤ 0xBF := by decide +kernel
    have hmid : ∀ w ∈ unicodeSpaces, ¬ w <+: m ++ post.flatten := by
      intro w hw hp
      rcases List.prefix_or_prefix_of_prefix hp (List.prefix_append m post.flatten) with h | h
      · exact h3 w hw h
      · obtain ⟨y, hy⟩ := h
        cases y with
        | nil => exact h3 w hw ⟨[], by rw [List.append_nil, ← hy, List.append_nil]⟩
        | cons c y =>
          have hc : c ∈ w.tail := by
            rw [← hy]
            cases m with
            | nil => exact absurd rfl hm
            | cons a m => simp
          have hc2 : c ∈ post.flatten.head? := by
            rw [← hy] at hp
            have := List.prefix_append_right_inj m |>.mp hp
            obtain ⟨z, hz⟩ := this
            rw [← hz]; simp
          cases post with
          | nil => simp at hc2
          | cons v post =>
            have hv := h2 v (by simp)
            have : c ∈ v.head? := by
              cases v with
              | nil => exact absurd rfl (hne _ hv)
              | cons a v => simpa using hc2
            exact hstart v hv c this (htail w hw c hc)
    have e1 := stripFront_eq unicodeSpaces hcode hne _ hmid s.length pre h1
      (by rw [hs]; simp)
    rw [← List.append_assoc, ← hs] at e1
    have e2 := stripFront_eq (unicodeSpaces.map List.reverse) hcode' (by decide +kernel) m.reverse
      (by
        intro w hw hp
        obtain ⟨v, hv, e⟩ := List.mem_map.mp hw
        subst e
        exact h4 v hv (List.reverse_prefix.mp hp))
      (m ++ post.flatten).length (post.map List.reverse).reverse
      (by
        intro w hw
        rw [List.mem_reverse, List.mem_map] at hw
        obtain ⟨v, hv, e⟩ := hw
        exact List.mem_map.mpr ⟨v, h2 v hv, e⟩)
      (by
        rw [← List.reverse_flatten, ← List.reverse_append, List.length_reverse]
        exact Nat.le_refl _)
    rw [← List.reverse_flatten, ← List.reverse_append] at e2
    rw [trimUnicode, e1]
    show m = (stripFront _ _ _).reverse
    rw [e2, List.reverse_reverse]

theorem cmpNocaseNozeroTrimmed_iff (s t : Bytes) :
    (cmpNocaseNozeroTrimmed s t == .eq) = true ↔ NameMatchesNozero s t := by
  have : cmpNocaseNozeroTrimmed s t = cmpNocaseNozero (trimUnicode s) t := rfl
  rw [this, beq_iff_eq, C01_cmp_nocase_nozero, C01_cmp_nocase_eq_iff]
  constructor
  · intro h; exact ⟨_, trimUnicode_spec s, h⟩
  · rintro ⟨m, hm, he⟩; rw [← unicodeTrimmed_eq hm]; exact he

theorem find_firstMatch {α : Type} (p : α → Bool) (q : α → Prop) (hpq : ∀ x, p x = true ↔ q x)
    (l : List α) : FirstMatch q l (l.find? p) := by
  cases h : l.find? p with
  | none =>
    intro x hx hq
    exact List.find?_eq_none.mp h x hx ((hpq x).mpr hq)
  | some x =>
    obtain ⟨hp, before, after, e, hb⟩ := List.find?_eq_some_iff_append.mp h
    refine ⟨before, after, e, (hpq x).mp hp, fun y hy hq => ?_⟩
    have := hb y hy
    rw [(hpq y).mpr hq] at this
    exact absurd this (by simp)

/-- C04: `Table::get_nocase` returns the first element, in insertion order, whose key matches, and
`None` exactly when there is none. -/
theorem C04_table_get_nocase {α : Type} (t : Table α) (key : Bytes) :
    FirstMatch (fun x => NameMatches x.1 key) t (Table.getNocase t key) := by
  unfold Table.getNocase
  refine find_firstMatch _ _ ?_ t
  intro x
  exact cmpNocaseTrimmed_iff x.1 key

/-- C04: the same for `Headers::get_nocase`. -/
theorem C04_headers_get_nocase (hs : Headers) (key : Bytes) :
    FirstMatch (fun h => NameMatches h.name key) hs (Headers.getNocase hs key) := by
  unfold Headers.getNocase
  refine find_firstMatch _ _ ?_ hs
  intro h
  exact cmpNocaseTrimmed_iff h.name key

/-- C04: the same for `Headers::get_nocase_nozero`, which ignores NUL bytes in stored names. -/
theorem C04_headers_get_nocase_nozero (hs : Headers) (key : Bytes) :
    FirstMatch (fun h => NameMatchesNozero h.name key) hs (Headers.getNocaseNozero hs key) := by
  unfold Headers.getNocaseNozero
  refine find_firstMatch _ _ ?_ hs
  intro h
  exact cmpNocaseNozeroTrimmed_iff h.name key

/-- C04: a first match is unique, so the three theorems above determine the results. -/
theorem C04_first_match_unique {α : Type} (p : α → Prop) (l : List α) (r r' : Option α)
    (h : FirstMatch p l r) (h' : FirstMatch p l r') : r = r' := by
  have key : ∀ (x : α) (r' : Option α), FirstMatch p l (some x) → FirstMatch p l r' → r' = some x := by
    rintro x r' ⟨b, a, e, hx, hb⟩ h'
    cases r' with
    | none => exact absurd hx (h' x (by rw [e]; simp))
    | some y =>
      obtain ⟨b', a', e', hy, hb'⟩ := h'
      rw [e] at e'
      rcases List.append_eq_append_iff.mp e' with ⟨c, h1, h2⟩ | ⟨c, h1, h2⟩
      · cases c with
        | nil => simp at h2; rw [h2.1]
        | cons z c =>
          simp at h2
          exact absurd hx (hb' x (by rw [h1, h2.1]; simp))
      · cases c with
        | nil => simp at h2; rw [h2.1]
        | cons z c =>
          simp at h2
          exact absurd hy (hb y (by rw [h1, h2.1]; simp))
  cases r with
  | none =>
    cases r' with
    | none => rfl
    | some y => exact absurd (key y none h' h) (by simp)
  | some x => exact (key x r' h h').symm

/-- C04: adding an element does not change a lookup that succeeded, and makes a failed one succeed
exactly when the new key matches. -/
theorem C04_table_add {α : Type} (t : Table α) (k key : Bytes) (v : α) :
    (∀ r, t.getNocase key = some r → (t.add k v).getNocase key = some r) ∧
    (t.getNocase key = none →
      (NameMatches k key → (t.add k v).getNocase key = some (k, v)) ∧
      (¬ NameMatches k key → (t.add k v).getNocase key = none)) := by
  rw [Table.getNocase, Table.getNocase, Table.add, List.find?_append]
  constructor
  · intro r h; rw [h]; rfl
  · intro h
    rw [h]
    constructor
    · intro hm
      have := (cmpNocaseTrimmed_iff k key).mpr hm
      simp [this]
    · intro hm
      have : (cmpNocaseTrimmed k key == .eq) = false := by
        rw [← Bool.not_eq_true, cmpNocaseTrimmed_iff]; exact hm
      simp [this]

/-- C04: pushing a header does not change a header lookup that succeeded. -/
theorem C04_headers_push (hs : Headers) (h : Header) (key : Bytes) :
    (∀ r, hs.getNocase key = some r → Headers.getNocase (hs ++ [h]) key = some r) ∧
    (∀ r, hs.getNocaseNozero key = some r → Headers.getNocaseNozero (hs ++ [h]) key = some r) := by
  constructor <;> intro r hr
  · rw [Headers.getNocase, List.find?_append]
    rw [Headers.getNocase] at hr
    rw [hr]; rfl
  · rw [Headers.getNocaseNozero, List.find?_append]
    rw [Headers.getNocaseNozero] at hr
    rw [hr]; rfl

/-! A table where two keys match up to case and blanks: the first one is returned; a header name with a
NUL byte is found only by the NUL-ignoring lookup. -/
example : Table.getNocase [(b! "a", 1), (b! " Key\t", 2), (b! "KEY", 3)] (b! "kEy") = some (b! " Key\t", 2) := by
  decide +kernel
example : Headers.getNocaseNozero [⟨b! "X", b! "1", 0⟩, ⟨b! "Ho\x00st", b! "2", 0⟩] (b! "host") =
    some ⟨b! "Ho\x00st", b! "2", 0⟩ := by decide +kernel
example : Headers.getNocase [⟨b! "X", b! "1", 0⟩, ⟨b! "Ho\x00st", b! "2", 0⟩] (b! "host") = none := by
  decide +kernel

end Props
