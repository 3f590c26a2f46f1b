/-
C22: cutting the header block in two (request side), and where it goes wrong.
-/
import Verif.Props.Header

namespace Props
open Model Spec Nom

/-- The request-side parser on a stream that is still open. -/
abbrev reqP : HeaderParser := { side := .request }

/-- The text contains no LF CR CR LF. -/
abbrev NoDeformed (i : Bytes) : Prop := ¬ [10, 13, 13, 10] <:+: i

theorem NoDeformed.suffix {i j : Bytes} (h : NoDeformed i) (hj : j <:+ i) : NoDeformed j :=
  fun hc => h (hc.trans hj.isInfix)

theorem NoDeformed.left {i m : Bytes} (h : NoDeformed (i ++ m)) : NoDeformed i :=
  fun hc => h (hc.trans (List.prefix_append _ _).isInfix)

theorem tag_ne_incomplete (t i : Bytes) : tag t i ≠ .incomplete := by
  unfold tag; split <;> simp

theorem deformed_err {i : Bytes} (h : NoDeformed i) : reqP.completeEolDeformed i = .err := by
  have key : ∀ r v, tag [10, 13] i = .ok r v → tag [13, 10] r = .err := by
    intro r v hr
    obtain ⟨rfl, -⟩ := (tag_ok_iff _ _ _ _).mp hr
    rw [tag_err_iff]
    rintro ⟨x, rfl⟩
    exact h ⟨[], x, by simp⟩
  have h1 : HeaderParser.eolDeformed1 i = .err := by
    have : tag [10, 13, 13, 10] i = .err := by
      rw [tag_err_iff]; exact fun hc => h hc.isInfix
    simp [HeaderParser.eolDeformed1, Nom.bind, this]
  have h2 : HeaderParser.eolDeformed2 i = .err := by
    unfold HeaderParser.eolDeformed2 Nom.bind
    cases ht : tag [10, 13] i with
    | ok r v => simp [Nom.map, peek, key r v ht]
    | err => rfl
    | incomplete => exact absurd ht (tag_ne_incomplete _ _)
  simp [HeaderParser.completeEolDeformed, alt, h1, h2]

theorem completeEol_lf {r : Bytes} (h : NoDeformed (10 :: r)) : reqP.completeEol (10 :: r) = .ok r ([10], 0) := by
  have h1 : tag [13, 10] (10 :: r) = .err := tag_cons_ne (by decide)
  have h2 : tag [10] (10 :: r) = .ok r [10] := tag_append [10] r
  simp [HeaderParser.completeEol, alt, deformed_err h, HeaderParser.completeEolRegular, Nom.map, h1, h2]

theorem completeEol_other {c : UInt8} {r : Bytes} (h : NoDeformed (c :: r)) (h1 : c ≠ 10)
    (h2 : c = 13 → r.head? ≠ some 10) : reqP.completeEol (c :: r) = .err := by
  have a1 : tag [13, 10] (c :: r) = .err := by
    rw [tag_err_iff]
    rintro ⟨x, hx⟩
    simp only [List.cons_append, List.nil_append, List.cons.injEq] at hx
    exact h2 hx.1.symm (by rw [← hx.2]; simp)
  have a2 : tag [10] (c :: r) = .err := tag_cons_ne h1
  simp [HeaderParser.completeEol, alt, deformed_err h, HeaderParser.completeEolRegular, Nom.map, a1, a2]

/-- A byte that continues a header line. -/
def IsFold (c : UInt8) : Prop := c = 32 ∨ c = 9 ∨ c = 0

instance (c : UInt8) : Decidable (IsFold c) := by unfold IsFold; infer_instance

theorem foldingLws_fold {c : UInt8} (r : Bytes) (h : IsFold c) : foldingLws (c :: r) = .ok r ([c], HFlag.FOLDING) := by
  have ha : agrees id r [] = true := by cases r <;> rfl
  rcases h with rfl | rfl | rfl <;> simp [foldingLws, Nom.map, alt, tagS, agrees, ha]

theorem foldingLws_nil : foldingLws [] = .incomplete := by decide

theorem foldingLws_not {c : UInt8} (r : Bytes) (h : ¬ IsFold c) : foldingLws (c :: r) = .err :=
  foldingLws_err r (by simpa [IsFold] using h)

/-- The text of a line without its optional CR, and its line end. -/
def stripCr (a : Bytes) : Bytes × Bytes :=
  if a.getLast? = some 13 then (a.dropLast, [13, 10]) else (a, [10])

theorem fot_lf {r e : Bytes} (hn : NoDeformed (e ++ r)) (he : e = [10] ∨ e = [13, 10]) :
    reqP.foldingOrTerminator (e ++ r) =
      match r with
      | [] => .incomplete
      | c :: b => if IsFold c then .ok b ((e, HFlag.FOLDING), some [c]) else .ok (c :: b) ((e, 0), none) := by
  have h0 : reqP.completeEol (e ++ r) = .ok r (e, 0) := by
    rcases he with rfl | rfl
    · exact completeEol_lf hn
    · exact completeEol_crlf reqP r (fun h => by simp at h)
  have h3 : hpNull (e ++ r) = .err := by
    rcases he with rfl | rfl <;> simp [hpNull, Nom.map, tag_cons_ne]
  cases r with
  | nil =>
    simp [HeaderParser.foldingOrTerminator, HeaderParser.streamingFoldingOrTerminator, alt, HeaderParser.folding,
      Nom.bind, h0, Nom.map, foldingLws_nil] at h0 ⊢
    simp [h0, foldingLws_nil]
  | cons c b =>
    by_cases hc : IsFold c
    · simp [HeaderParser.foldingOrTerminator, HeaderParser.streamingFoldingOrTerminator, alt, HeaderParser.folding,
        Nom.bind, h0, Nom.map, foldingLws_fold b hc, hc]
    · simp [HeaderParser.foldingOrTerminator, HeaderParser.streamingFoldingOrTerminator, alt, HeaderParser.folding,
        Nom.bind, h0, Nom.map, foldingLws_not b hc, hc, HeaderParser.nullOrEol, h3, HeaderParser.eol, Nom.not]

/-- `valueBytes` in closed form: find the first LF. -/
theorem valueBytes_lf {a r : Bytes} (ha : ∀ c ∈ a, c ≠ 10) (hn : NoDeformed (a ++ 10 :: r)) :
    reqP.valueBytes (a ++ 10 :: r) =
      match r with
      | [] => .incomplete
      | c :: b =>
        if IsFold c then .ok b ((stripCr a).1, ((stripCr a).2, HFlag.FOLDING), some [c])
        else .ok (c :: b) ((stripCr a).1, ((stripCr a).2, 0), none) := by
  have h1 := span_of_append (p := fun c => !reqP.isEol c) (a := a) (b := 10 :: r)
      (by intro d hd; simp [HeaderParser.isEol, ha d hd]) (by simp [HeaderParser.isEol])
  unfold HeaderParser.valueBytes
  simp only [takeTillS, takeWhileS, h1.1, h1.2, List.cons_ne_nil, reduceCtorEq, if_false]
  by_cases hl : a.getLast? = some 13
  · have hne : a ≠ [] := by rintro rfl; simp at hl
    have hdl : a = a.dropLast ++ [13] := by
      rw [List.getLast?_eq_some_getLast hne, Option.some.injEq] at hl
      conv => lhs; rw [← List.dropLast_concat_getLast hne, hl]
    have hd : (a ++ 10 :: r).drop a.dropLast.length = [13, 10] ++ r := by
      conv => lhs; arg 2; rw [hdl]
      simp
    have hnd : NoDeformed ([13, 10] ++ r) := by
      rw [← hd]; exact hn.suffix (List.drop_suffix _ _)
    simp only [hl, if_true, hd, Nom.map, fot_lf hnd (Or.inr rfl), stripCr]
    cases r with
    | nil => rfl
    | cons c b => by_cases hc : IsFold c <;> simp [hc]
  · have hnd : NoDeformed ([10] ++ r) := hn.suffix (List.suffix_append _ _)
    have := fot_lf hnd (Or.inl rfl)
    simp only [List.cons_append, List.nil_append] at this
    simp only [hl, if_false, Nom.map, this, stripCr]
    cases r with
    | nil => rfl
    | cons c b => by_cases hc : IsFold c <;> simp [hc]

theorem valueBytes_no_lf {a : Bytes} (ha : ∀ c ∈ a, c ≠ 10) : reqP.valueBytes a = .incomplete := by
  have h1 := span_of_append (p := fun c => !reqP.isEol c) (a := a) (b := [])
      (by intro d hd; simp [HeaderParser.isEol, ha d hd]) (by simp)
  rw [List.append_nil] at h1
  simp [HeaderParser.valueBytes, takeTillS, takeWhileS, h1.2]

/-- Any text is free of LF or splits at its first LF. -/
theorem first_lf (i : Bytes) : (∀ c ∈ i, c ≠ 10) ∨ ∃ a r, i = a ++ 10 :: r ∧ ∀ c ∈ a, c ≠ 10 := by
  induction i with
  | nil => left; simp
  | cons c i ih =>
    by_cases hc : c = 10
    · right; exact ⟨[], i, by simp [hc], by simp⟩
    · rcases ih with h | ⟨a, r, rfl, h⟩
      · left; intro d hd; rcases List.mem_cons.mp hd with rfl | hd
        · exact hc
        · exact h d hd
      · right; refine ⟨c :: a, r, rfl, ?_⟩
        intro d hd; rcases List.mem_cons.mp hd with rfl | hd
        · exact hc
        · exact h d hd

/-- The text contains a line end that is not followed by a folded line. -/
def HasEnd (i : Bytes) : Prop := ∃ a c b, i = a ++ 10 :: c :: b ∧ ¬ IsFold c

/-- A successful `valueBytes` is stable under appending data. -/
theorem valueBytes_ext {i r m : Bytes} {x} (hn : NoDeformed (i ++ m)) (h : reqP.valueBytes i = .ok r x) :
    reqP.valueBytes (i ++ m) = .ok (r ++ m) x ∧ (x.2.2 = none → r ≠ []) := by
  rcases first_lf i with hi | ⟨a, s, rfl, ha⟩
  · rw [valueBytes_no_lf hi] at h; simp at h
  · rw [valueBytes_lf ha hn.left] at h
    rw [List.append_assoc, List.cons_append] at hn ⊢
    rw [valueBytes_lf ha hn]
    cases s with
    | nil => simp at h
    | cons c b =>
      simp only [List.cons_append] at h ⊢
      by_cases hc : IsFold c
      · simp only [hc, if_true] at h ⊢
        injection h with h1 h2; subst h1; subst h2; simp
      · simp only [hc, if_false] at h ⊢
        injection h with h1 h2; subst h1; subst h2; simp

theorem valueBytes_hasEnd {i : Bytes} (hn : NoDeformed i) (h : HasEnd i) :
    ∃ r x, reqP.valueBytes i = .ok r x ∧ (x.2.2 ≠ none → HasEnd r) := by
  obtain ⟨a, c, b, rfl, hc⟩ := h
  rcases first_lf (a ++ 10 :: c :: b) with hi | ⟨a', s, he, ha'⟩
  · exact absurd rfl (hi 10 (by simp))
  · rw [he] at hn ⊢
    rw [valueBytes_lf ha' hn]
    cases s with
    | nil =>
      exfalso
      rw [List.append_eq_append_iff] at he
      rcases he with ⟨k, hk1, hk2⟩ | ⟨k, hk1, hk2⟩
      · cases k with
        | nil => simp at hk2
        | cons d k =>
          simp only [List.cons_append, List.cons.injEq] at hk2
          exact ha' 10 (by rw [hk1, ← hk2.1]; simp) rfl
      · cases k with
        | nil => simp at hk2
        | cons d k =>
          simp only [List.cons_append, List.cons.injEq] at hk2
          have := congrArg List.length hk2.2
          simp at this
    | cons d s =>
      by_cases hd : IsFold d
      · refine ⟨_, _, by simp only [hd, if_true]; rfl, fun _ => ?_⟩
        -- the LF at the end of `a` comes after the folded one
        rw [List.append_eq_append_iff] at he
        rcases he with ⟨k, hk1, hk2⟩ | ⟨k, hk1, hk2⟩
        · cases k with
          | nil =>
            simp only [List.nil_append, List.cons.injEq] at hk2
            exact absurd hd (hk2.2.1 ▸ hc)
          | cons e k =>
            simp only [List.cons_append, List.cons.injEq] at hk2
            exact absurd rfl (ha' 10 (by rw [hk1, ← hk2.1]; simp))
        · cases k with
          | nil =>
            simp only [List.nil_append, List.cons.injEq] at hk2
            exact absurd hd (hk2.2.1 ▸ hc)
          | cons e k =>
            simp only [List.cons_append, List.cons.injEq] at hk2
            cases k with
            | nil =>
              simp only [List.nil_append, List.cons.injEq] at hk2
              rw [hk2.2.1] at hd
              exact absurd hd (by decide)
            | cons e' k =>
              simp only [List.cons_append, List.cons.injEq] at hk2
              exact ⟨k, c, b, hk2.2.2, hc⟩
      · exact ⟨_, _, by simp only [hd, if_false]; rfl, fun h => absurd rfl h⟩

theorem valueBytes_ne_err {i : Bytes} (hn : NoDeformed i) : reqP.valueBytes i ≠ .err := by
  rcases first_lf i with hi | ⟨a, s, rfl, ha⟩
  · rw [valueBytes_no_lf hi]; simp
  · rw [valueBytes_lf ha hn]
    cases s with
    | nil => simp
    | cons c b => by_cases hc : IsFold c <;> simp [hc]

theorem valueBytes_end {i r : Bytes} {x} (hn : NoDeformed i) (h : reqP.valueBytes i = .ok r x) :
    (x.2.2 = none → HasEnd i) ∧ (HasEnd r → HasEnd i) := by
  refine ⟨fun hx => ?_, ?_⟩
  · rcases first_lf i with hi | ⟨a, s, rfl, ha⟩
    · rw [valueBytes_no_lf hi] at h; simp at h
    · rw [valueBytes_lf ha hn] at h
      cases s with
      | nil => simp at h
      | cons c b =>
        by_cases hc : IsFold c
        · simp only [hc, if_true] at h
          injection h with h1 h2; subst h2; simp at hx
        · exact ⟨a, c, b, rfl, hc⟩
  · rintro ⟨a, c, b, rfl, hc⟩
    obtain ⟨p, hp⟩ := (reqP.eats_valueBytes _ _ _ h).1
    exact ⟨p ++ a, c, b, by rw [← hp]; simp, hc⟩

/-- A successful folded-line loop is stable under appending data. -/
theorem valueLoop_ext (m : Bytes) : ∀ (f g : Nat) (rest i v o : Bytes) (fl : Flags) (r : Bytes) (t : FlaggedText),
    NoDeformed (i ++ m) → rest ≠ [] → (i ++ m).length < g →
    reqP.valueLoop f rest i v o fl = .ok r t →
    reqP.valueLoop g (rest ++ m) (i ++ m) v o fl = .ok (r ++ m) t ∧ r ≠ [] := by
  intro f
  induction f with
  | zero => intro g rest i v o fl r t _ _ _ h; simp [HeaderParser.valueLoop] at h
  | succ f ih =>
    intro g rest i v o fl r t hn hr hg h
    cases g with
    | zero => omega
    | succ g =>
      unfold HeaderParser.valueLoop at h ⊢
      simp only [HeaderParser.peekName] at h ⊢
      cases hv : reqP.valueBytes i with
      | err => simp [hv] at h
      | incomplete => simp [hv] at h
      | ok rest2 x =>
        have hx := valueBytes_ext hn hv
        rw [hx.1]
        simp only [hv] at h
        obtain ⟨vb, ⟨eol, ofl⟩, fold⟩ := x
        have hlen := (reqP.eats_valueBytes _ _ _ hv).2
        have hn2 : NoDeformed (rest2 ++ m) := by
          obtain ⟨p, hp⟩ := (reqP.eats_valueBytes _ _ _ hv).1
          exact hn.suffix ⟨p, by rw [← List.append_assoc, hp]⟩
        simp only at h ⊢
        cases fold with
        | none =>
          have hne : rest2 ≠ [] := hx.2 rfl
          have hhd : (rest2 ++ m).head? = rest2.head? := by
            cases rest2 with
            | nil => exact absurd rfl hne
            | cons a b => rfl
          simp only at h ⊢
          injection h with h1 h2
          subst h1; subst h2
          rw [hhd]
          constructor
          · congr 1
            split
            · rfl
            · split <;> rfl
          · split
            · exact hne
            · split
              · exact hne
              · exact hr
        | some fold =>
          simp only at h ⊢
          by_cases hne : rest2 = []
          · -- nothing follows the fold: the next round cannot succeed
            exfalso
            subst hne
            cases f with
            | zero => simp [HeaderParser.valueLoop] at h
            | succ f =>
              have h0 : reqP.valueBytes [] = .incomplete := valueBytes_no_lf (by simp)
              simp [HeaderParser.valueLoop, HeaderParser.peekName, h0] at h
          · have hhd : (rest2 ++ m).head? = rest2.head? := by
              cases rest2 with
              | nil => exact absurd rfl hne
              | cons a b => rfl
            have hrest : ∀ (c1 c2 : Prop) [Decidable c1] [Decidable c2],
                (if c1 then rest2 ++ m else if c2 then rest2 ++ m else rest ++ m) =
                (if c1 then rest2 else if c2 then rest2 else rest) ++ m := by
              intro c1 c2 _ _; split
              · rfl
              · split <;> rfl
            rw [hhd, hrest]
            refine ih g _ _ _ _ _ _ _ hn2 ?_ (by simp only [List.length_append] at hg ⊢; omega) h
            split
            · exact hne
            · split
              · exact hne
              · exact hr

theorem valueLoop_hasEnd : ∀ (f : Nat) (rest i v o : Bytes) (fl : Flags),
    NoDeformed i → HasEnd i → i.length < f → ∃ r t, reqP.valueLoop f rest i v o fl = .ok r t := by
  intro f
  induction f with
  | zero => intro rest i v o fl _ _ h; omega
  | succ f ih =>
    intro rest i v o fl hn he hf
    obtain ⟨r2, ⟨vb, ⟨eol, ofl⟩, fold⟩, h1, h2⟩ := valueBytes_hasEnd hn he
    have hlen := (reqP.eats_valueBytes _ _ _ h1).2
    unfold HeaderParser.valueLoop
    simp only [HeaderParser.peekName, h1]
    cases fold with
    | none => exact ⟨_, _, rfl⟩
    | some fold =>
      exact ih _ _ _ _ _ (hn.suffix (reqP.eats_valueBytes _ _ _ h1).1) (h2 (by simp)) (by omega)

theorem valueLoop_end : ∀ (f : Nat) (rest i v o : Bytes) (fl : Flags) (r : Bytes) (t : FlaggedText),
    NoDeformed i → reqP.valueLoop f rest i v o fl = .ok r t → HasEnd i := by
  intro f
  induction f with
  | zero => intro rest i v o fl r t _ h; simp [HeaderParser.valueLoop] at h
  | succ f ih =>
    intro rest i v o fl r t hn h
    unfold HeaderParser.valueLoop at h
    simp only [HeaderParser.peekName] at h
    cases hv : reqP.valueBytes i with
    | err => simp [hv] at h
    | incomplete => simp [hv] at h
    | ok rest2 x =>
      obtain ⟨vb, ⟨eol, ofl⟩, fold⟩ := x
      have he := valueBytes_end hn hv
      simp only [hv] at h
      cases fold with
      | none => exact he.1 rfl
      | some fold => exact he.2 (ih _ _ _ _ _ _ _ (hn.suffix (reqP.eats_valueBytes _ _ _ hv).1) h)

theorem value_ext {i m r : Bytes} {t : FlaggedText} (hn : NoDeformed (i ++ m)) (h : reqP.value i = .ok r t) :
    reqP.value (i ++ m) = .ok (r ++ m) t ∧ r ≠ [] := by
  unfold HeaderParser.value at h ⊢
  cases hv : reqP.valueBytes i with
  | err => simp [hv] at h
  | incomplete => simp [hv] at h
  | ok rest x =>
    obtain ⟨vb, ⟨eol, fl⟩, fold⟩ := x
    have hx := valueBytes_ext hn hv
    rw [hx.1]
    simp only [hv] at h ⊢
    cases fold with
    | none =>
      simp only at h ⊢
      injection h with h1 h2
      subst h1; subst h2
      exact ⟨rfl, hx.2 rfl⟩
    | some fold =>
      simp only at h ⊢
      have hn2 : NoDeformed (rest ++ m) := by
        obtain ⟨p, hp⟩ := (reqP.eats_valueBytes _ _ _ hv).1
        exact hn.suffix ⟨p, by rw [← List.append_assoc, hp]⟩
      by_cases hne : rest = []
      · exfalso
        subst hne
        have h0 : reqP.valueBytes [] = .incomplete := valueBytes_no_lf (by simp)
        simp [HeaderParser.valueLoop, HeaderParser.peekName, h0] at h
      · exact valueLoop_ext m _ _ _ _ _ _ _ _ _ hn2 hne (by omega) h

theorem value_hasEnd {i : Bytes} (hn : NoDeformed i) (h : HasEnd i) : ∃ r t, reqP.value i = .ok r t := by
  obtain ⟨r2, ⟨vb, ⟨eol, ofl⟩, fold⟩, h1, h2⟩ := valueBytes_hasEnd hn h
  unfold HeaderParser.value
  simp only [h1]
  cases fold with
  | none => exact ⟨_, _, rfl⟩
  | some fold =>
    exact valueLoop_hasEnd _ _ _ _ _ _ (hn.suffix (reqP.eats_valueBytes _ _ _ h1).1) (h2 (by simp)) (by omega)

theorem value_end {i r : Bytes} {t : FlaggedText} (hn : NoDeformed i) (h : reqP.value i = .ok r t) : HasEnd i := by
  unfold HeaderParser.value at h
  cases hv : reqP.valueBytes i with
  | err => simp [hv] at h
  | incomplete => simp [hv] at h
  | ok rest x =>
    obtain ⟨vb, ⟨eol, fl⟩, fold⟩ := x
    have he := valueBytes_end hn hv
    simp only [hv] at h
    cases fold with
    | none => exact he.1 rfl
    | some fold => exact he.2 (valueLoop_end _ _ _ _ _ _ _ _ (hn.suffix (reqP.eats_valueBytes _ _ _ hv).1) h)

theorem valueLoop_ne_err : ∀ (f : Nat) (rest i v o : Bytes) (fl : Flags),
    NoDeformed i → i.length < f → reqP.valueLoop f rest i v o fl ≠ .err := by
  intro f
  induction f with
  | zero => intro rest i v o fl _ h; omega
  | succ f ih =>
    intro rest i v o fl hn hf
    unfold HeaderParser.valueLoop
    simp only [HeaderParser.peekName]
    cases hv : reqP.valueBytes i with
    | err => exact absurd hv (valueBytes_ne_err hn)
    | incomplete => simp
    | ok r2 x =>
      obtain ⟨vb, ⟨eol, ofl⟩, fold⟩ := x
      have hlen := (reqP.eats_valueBytes _ _ _ hv).2
      cases fold with
      | none => simp
      | some fold => exact ih _ _ _ _ _ (hn.suffix (reqP.eats_valueBytes _ _ _ hv).1) (by omega)

theorem value_ne_err {i : Bytes} (hn : NoDeformed i) : reqP.value i ≠ .err := by
  unfold HeaderParser.value
  cases hv : reqP.valueBytes i with
  | err => exact absurd hv (valueBytes_ne_err hn)
  | incomplete => simp
  | ok r2 x =>
    obtain ⟨vb, ⟨eol, ofl⟩, fold⟩ := x
    cases fold with
    | none => simp
    | some fold => exact valueLoop_ne_err _ _ _ _ _ _ (hn.suffix (reqP.eats_valueBytes _ _ _ hv).1) (by omega)

/-! ### The name scan -/

/-- The scan for the end of the name stops before the end of the text. -/
def scanStops : Bool → Bytes → Bool
  | _, [] => false
  | false, c :: cs => if c = 58 then true else if c = 10 then scanStops true cs else scanStops false cs
  | true, c :: cs => if c = 32 then scanStops false cs else true

theorem nameScan_ext (m : Bytes) : ∀ (i : Bytes) (t : Bool) (k : Nat), scanStops t i = true →
    HeaderParser.nameScan t k (i ++ m) = HeaderParser.nameScan t k i := by
  intro i
  induction i with
  | nil => intro t k h; cases t <;> simp [scanStops] at h
  | cons c i ih =>
    intro t k h
    cases t
    · simp only [scanStops] at h
      simp only [List.cons_append, HeaderParser.nameScan]
      by_cases h1 : c = 58
      · simp [h1]
      · by_cases h2 : c = 10
        · simp only [h1, h2, if_true, if_false] at h ⊢; simp [ih _ _ h]
        · simp only [h1, h2, if_false] at h ⊢; simp [ih _ _ h]
    · simp only [scanStops] at h
      simp only [List.cons_append, HeaderParser.nameScan]
      by_cases h1 : c = 32
      · simp only [h1, if_true] at h ⊢; simp [ih _ _ h]
      · simp [h1]

theorem nameScan_zero : ∀ (i : Bytes) (t : Bool) (k : Nat), scanStops t i = false →
    HeaderParser.nameScan t k i = 0 := by
  intro i
  induction i with
  | nil => intro t k _; cases t <;> simp [HeaderParser.nameScan]
  | cons c i ih =>
    intro t k h
    cases t
    · simp only [scanStops] at h
      simp only [HeaderParser.nameScan]
      by_cases h1 : c = 58
      · simp [h1] at h
      · by_cases h2 : c = 10
        · simp only [h1, h2, if_true, if_false] at h ⊢; simp [ih _ _ h]
        · simp only [h1, h2, if_false] at h ⊢; simp [ih _ _ h]
    · simp only [scanStops] at h
      simp only [HeaderParser.nameScan]
      by_cases h1 : c = 32
      · simp only [h1, if_true] at h ⊢; simp [ih _ _ h]
      · simp [h1] at h

theorem scanStops_colon {i r : Bytes} (h : i.drop (HeaderParser.nameScan false 0 i) = 58 :: r) :
    scanStops false i = true := by
  cases hs : scanStops false i with
  | true => rfl
  | false =>
    rw [nameScan_zero i false 0 hs, List.drop_zero] at h
    subst h
    simp [scanStops] at hs

theorem scan_end (c : UInt8) (b : Bytes) (hc : ¬ IsFold c) : ∀ (a : Bytes) (t : Bool) (k : Nat),
    scanStops t (a ++ 10 :: c :: b) = true ∧ HeaderParser.nameScan t k (a ++ 10 :: c :: b) ≤ k + a.length := by
  have hc32 : c ≠ 32 := fun e => hc (Or.inl e)
  intro a
  induction a with
  | nil => intro t k; cases t <;> simp [scanStops, HeaderParser.nameScan, hc32]
  | cons d a ih =>
    intro t k
    cases t
    · simp only [List.cons_append, scanStops, HeaderParser.nameScan, List.length_cons]
      by_cases h1 : d = 58
      · simp [h1]
      · by_cases h2 : d = 10
        · simp only [h1, h2, if_true, if_false]
          have := ih true (k + 1)
          simp [this.1]; omega
        · simp only [h1, h2, if_false]
          have := ih false (k + 1)
          simp [this.1]; omega
    · simp only [List.cons_append, scanStops, HeaderParser.nameScan, List.length_cons]
      by_cases h1 : d = 32
      · simp only [h1, if_true]
        have := ih false (k + 1)
        simp [this.1]; omega
      · simp [h1]; omega

theorem HasEnd.dropBlanks {i : Bytes} (h : HasEnd i) : HasEnd (i.dropWhile nomIsSpace) := by
  obtain ⟨a, c, b, rfl, hc⟩ := h
  induction a with
  | nil => exact ⟨[], c, b, by simp [nomIsSpace], hc⟩
  | cons d a ih =>
    simp only [List.cons_append, List.dropWhile_cons]
    split
    · exact ih
    · exact ⟨d :: a, c, b, rfl, hc⟩

theorem HasEnd.ne_nil {i : Bytes} (h : HasEnd i) : i ≠ [] := by
  obtain ⟨a, c, b, rfl, -⟩ := h; simp

/-- `separator` in closed form. -/
theorem separator_ok_iff {i r : Bytes} {fl : Flags} : HeaderParser.separator i = .ok r fl ↔
    fl = 0 ∧ r ≠ [] ∧ ∃ s, i = 58 :: s ∧ r = s.dropWhile nomIsSpace := by
  constructor
  · intro h
    unfold HeaderParser.separator separatorRegular pair Nom.map Nom.bind at h
    cases ht : tag [58] i with
    | err => simp [ht] at h
    | incomplete => simp [ht] at h
    | ok s v =>
      obtain ⟨rfl, -⟩ := (tag_ok_iff _ _ _ _).mp ht
      simp only [ht, space0, takeWhileS] at h
      by_cases hd : s.dropWhile nomIsSpace = []
      · simp [hd] at h
      · simp only [hd, if_false] at h
        injection h with h1 h2
        exact ⟨h2.symm, h1 ▸ hd, s, rfl, h1.symm⟩
  · rintro ⟨rfl, hr, s, rfl, rfl⟩
    have ht : tag [58] (58 :: s) = .ok s [58] := tag_append [58] s
    simp [HeaderParser.separator, separatorRegular, pair, Nom.map, Nom.bind, ht, space0, takeWhileS, hr]

theorem dropWhile_append_ne {p : UInt8 → Bool} {s m : Bytes} (h : s.dropWhile p ≠ []) :
    (s ++ m).dropWhile p = s.dropWhile p ++ m := by
  rw [List.dropWhile_append]
  simp [h]

/-- `headerWithColon` succeeds exactly when the scan finds a colon, something follows the blanks after it, and
the value is complete. -/
theorem withColon_ok_iff {i r : Bytes} {h : ParsedHeader} : reqP.headerWithColon i = .ok r h ↔
    ∃ s v, i.drop (HeaderParser.nameScan false 0 i) = 58 :: s ∧ s.dropWhile nomIsSpace ≠ [] ∧
      reqP.value (s.dropWhile nomIsSpace) = .ok r v ∧
      h = { name := FlaggedText.new (i.take (HeaderParser.nameScan false 0 i))
              (HeaderParser.nameFlags (i.take (HeaderParser.nameScan false 0 i))), value := v } := by
  constructor
  · intro hh
    unfold HeaderParser.headerWithColon Nom.bind HeaderParser.name at hh
    simp only at hh
    cases hs : HeaderParser.separator (i.drop (HeaderParser.nameScan false 0 i)) with
    | err => simp [hs] at hh
    | incomplete => simp [hs] at hh
    | ok r1 fl =>
      obtain ⟨rfl, h1, s, h2, rfl⟩ := separator_ok_iff.mp hs
      simp only [hs, Nom.map] at hh
      cases hv : reqP.value (s.dropWhile nomIsSpace) with
      | err => simp [hv] at hh
      | incomplete => simp [hv] at hh
      | ok r2 v =>
        simp only [hv] at hh
        injection hh with e1 e2
        subst e1
        refine ⟨s, v, h2, h1, hv, ?_⟩
        rw [← e2]; simp [FlaggedText.new]
  · rintro ⟨s, v, h1, h2, h3, rfl⟩
    have hs := separator_ok_iff.mpr ⟨rfl, h2, s, h1, rfl⟩
    simp [HeaderParser.headerWithColon, Nom.bind, HeaderParser.name, hs, Nom.map, h3, FlaggedText.new]

theorem withColon_ext {i m r : Bytes} {h : ParsedHeader} (hn : NoDeformed (i ++ m))
    (hh : reqP.headerWithColon i = .ok r h) : reqP.headerWithColon (i ++ m) = .ok (r ++ m) h ∧ r ≠ [] := by
  obtain ⟨s, v, h1, h2, h3, rfl⟩ := withColon_ok_iff.mp hh
  have hst := scanStops_colon h1
  have hsc := nameScan_ext m i false 0 hst
  have hle : HeaderParser.nameScan false 0 i ≤ i.length := by
    by_cases hx : HeaderParser.nameScan false 0 i ≤ i.length
    · exact hx
    · rw [List.drop_eq_nil_of_le (by omega)] at h1; simp at h1
  have hn2 : NoDeformed (s.dropWhile nomIsSpace ++ m) := by
    refine hn.suffix ?_
    have e1 : s.dropWhile nomIsSpace <:+ i :=
      (List.dropWhile_suffix _).trans ((List.suffix_cons 58 s).trans (h1 ▸ List.drop_suffix _ _))
    obtain ⟨q, hq⟩ := e1
    exact ⟨q, by rw [← List.append_assoc, hq]⟩
  obtain ⟨hv, hr⟩ := value_ext hn2 h3
  refine ⟨withColon_ok_iff.mpr ⟨s ++ m, v, ?_, ?_, ?_, ?_⟩, hr⟩
  · rw [hsc, List.drop_append_of_le_length hle, h1]; rfl
  · rw [dropWhile_append_ne h2]; simp [h2]
  · rw [dropWhile_append_ne h2]; exact hv
  · rw [hsc, List.take_append_of_le_length hle]

/-- When the text contains the end of a header line, more data cannot turn a line without colon into one
with a colon. -/
theorem withColon_back {i m r : Bytes} {h : ParsedHeader} (hn : NoDeformed (i ++ m)) (he : HasEnd i)
    (hh : reqP.headerWithColon (i ++ m) = .ok r h) : ∃ r' h', reqP.headerWithColon i = .ok r' h' := by
  obtain ⟨s, v, h1, h2, h3, rfl⟩ := withColon_ok_iff.mp hh
  obtain ⟨a, c, b, rfl, hc⟩ := he
  obtain ⟨hst, hle⟩ := scan_end c b hc a false 0
  have hsc := nameScan_ext m _ false 0 hst
  rw [hsc] at h1
  generalize hk : HeaderParser.nameScan false 0 (a ++ 10 :: c :: b) = k at *
  simp only [Nat.zero_add] at hle
  have hdrop : (a ++ 10 :: c :: b).drop k = a.drop k ++ 10 :: c :: b := List.drop_append_of_le_length hle
  rw [List.drop_append_of_le_length (by simp; omega), hdrop] at h1
  obtain ⟨a2, ha2⟩ : ∃ a2, a.drop k = 58 :: a2 := by
    cases hd : a.drop k with
    | nil => rw [hd] at h1; simp at h1
    | cons x y => rw [hd] at h1; simp only [List.cons_append, List.cons.injEq] at h1; exact ⟨y, by rw [h1.1]⟩
  have hend : HasEnd (a2 ++ 10 :: c :: b) := ⟨a2, c, b, rfl, hc⟩
  have hi : (a ++ 10 :: c :: b).drop k = 58 :: (a2 ++ 10 :: c :: b) := by rw [hdrop, ha2]; rfl
  have hsuf : (a2 ++ 10 :: c :: b).dropWhile nomIsSpace <:+ a ++ 10 :: c :: b :=
    (List.dropWhile_suffix _).trans ((List.suffix_cons 58 _).trans (hi ▸ List.drop_suffix _ _))
  obtain ⟨r', v', hv⟩ := value_hasEnd (hn.left.suffix hsuf) hend.dropBlanks
  exact ⟨r', _, withColon_ok_iff.mpr ⟨_, v', by rw [hk]; exact hi, hend.dropBlanks.ne_nil, hv, rfl⟩⟩

theorem sansColon_ok_iff {i r : Bytes} {h : ParsedHeader} : reqP.headerSansColon i = .ok r h ↔
    ¬ [13, 10] <+: i ∧ ∃ v, reqP.value i = .ok r v ∧
      h = { name := FlaggedText.new [] (v.flags ||| HFlag.MISSING_COLON),
            value := FlaggedText.new v.text (v.flags ||| HFlag.MISSING_COLON) } := by
  unfold HeaderParser.headerSansColon Nom.bind Nom.not Nom.map
  cases ht : tag [13, 10] i with
  | incomplete => exact absurd ht (tag_ne_incomplete _ _)
  | ok s v =>
    obtain ⟨rfl, -⟩ := (tag_ok_iff _ _ _ _).mp ht
    simp
  | err =>
    rw [tag_err_iff] at ht
    simp only
    cases hv : reqP.value i with
    | err => simp [ht]
    | incomplete => simp [ht]
    | ok r' v' =>
      simp only [IRes.ok.injEq]
      constructor
      · rintro ⟨rfl, rfl⟩; exact ⟨ht, v', ⟨rfl, rfl⟩, rfl⟩
      · rintro ⟨-, v, ⟨rfl, rfl⟩, rfl⟩; exact ⟨rfl, rfl⟩

theorem header_ok_iff {i r : Bytes} {h : ParsedHeader} : reqP.header i = .ok r h ↔
    reqP.headerWithColon i = .ok r h ∨
      ((∀ r' h', reqP.headerWithColon i ≠ .ok r' h') ∧ reqP.headerSansColon i = .ok r h) := by
  unfold HeaderParser.header alt complete
  cases hw : reqP.headerWithColon i <;> simp

/-- A recognised header is recognised again, unchanged, when more data follows. -/
theorem header_ext {i m r : Bytes} {h : ParsedHeader} (hn : NoDeformed (i ++ m)) (hh : reqP.header i = .ok r h) :
    reqP.header (i ++ m) = .ok (r ++ m) h ∧ r ≠ [] := by
  rcases header_ok_iff.mp hh with hw | ⟨hno, hs⟩
  · obtain ⟨h1, h2⟩ := withColon_ext hn hw
    exact ⟨header_ok_iff.mpr (Or.inl h1), h2⟩
  · obtain ⟨h1, v, h2, h3⟩ := sansColon_ok_iff.mp hs
    have he := value_end hn.left h2
    obtain ⟨h4, h5⟩ := value_ext hn h2
    refine ⟨header_ok_iff.mpr (Or.inr ⟨?_, sansColon_ok_iff.mpr ⟨?_, v, h4, h3⟩⟩), h5⟩
    · intro r' h' hc
      obtain ⟨r'', h'', hc'⟩ := withColon_back hn he hc
      exact hno _ _ hc'
    · rintro ⟨x, hx⟩
      apply h1
      have hlen : 2 ≤ i.length := by obtain ⟨a, c, b, rfl, -⟩ := he; simp; omega
      refine ⟨i.drop 2, ?_⟩
      have := congrArg (List.take 2) hx
      rw [List.take_append_of_le_length hlen] at this
      simp only [List.cons_append, List.nil_append, List.take_succ_cons, List.take_zero] at this
      rw [this, List.take_append_drop]

/-- No value carries the NUL mark on the request side (so headers are never cut at a NUL). -/
theorem completeEol_ext {i m : Bytes} (hn : NoDeformed (i ++ m)) (hi : i ≠ []) (hx : ¬ (i = [13] ∧ m.head? = some 10)) :
    (∀ r x, reqP.completeEol i = .ok r x → reqP.completeEol (i ++ m) = .ok (r ++ m) x) ∧
    ((∀ r x, reqP.completeEol i ≠ .ok r x) → ∀ r x, reqP.completeEol (i ++ m) ≠ .ok r x) := by
  cases i with
  | nil => exact absurd rfl hi
  | cons c s =>
    by_cases h1 : c = 10
    · subst h1
      rw [List.cons_append] at hn ⊢
      rw [completeEol_lf hn, completeEol_lf (hn.left (m := m))]
      simp
    · by_cases h2 : c = 13 ∧ s.head? = some 10
      · obtain ⟨rfl, h2⟩ := h2
        cases s with
        | nil => simp at h2
        | cons d s =>
          simp only [List.head?_cons, Option.some.injEq] at h2
          subst h2
          have e1 := completeEol_crlf reqP s (fun h => by simp at h)
          have e2 := completeEol_crlf reqP (s ++ m) (fun h => by simp at h)
          simp only [List.cons_append, e1, e2]
          simp
      · have e1 := completeEol_other hn.left h1 (fun e => fun e' => h2 ⟨e, e'⟩)
        have e2 : reqP.completeEol (c :: s ++ m) = .err := by
          rw [List.cons_append] at hn ⊢
          refine completeEol_other hn h1 (fun e e' => ?_)
          cases s with
          | nil => exact hx ⟨by rw [e], by simpa using e'⟩
          | cons d s => exact h2 ⟨e, by simpa using e'⟩
        rw [e1, e2]; simp

theorem afterHeader_ext {i m : Bytes} {h : ParsedHeader} (hn : NoDeformed (i ++ m)) (hi : i ≠ []) :
    (∀ r, reqP.afterHeader i h = some r → reqP.afterHeader (i ++ m) h = some (r ++ m)) ∧
    (¬ (i = [13] ∧ m.head? = some 10) → reqP.afterHeader i h = none → reqP.afterHeader (i ++ m) h = none) := by
  unfold HeaderParser.afterHeader
  split
  · simp
  · by_cases hx : i = [13] ∧ m.head? = some 10
    · obtain ⟨rfl, hm⟩ := hx
      have : reqP.completeEol [13] = .err := by decide
      simp [this, hm]
    · obtain ⟨e1, e2⟩ := completeEol_ext hn hi hx
      cases hc : reqP.completeEol i with
      | ok r x => rw [e1 r x hc]; simp
      | err =>
        have := e2 (by simp [hc])
        cases hc2 : reqP.completeEol (i ++ m) with
        | ok r x => exact absurd hc2 (this r x)
        | err => simp
        | incomplete => simp
      | incomplete =>
        have := e2 (by simp [hc])
        cases hc2 : reqP.completeEol (i ++ m) with
        | ok r x => exact absurd hc2 (this r x)
        | err => simp
        | incomplete => simp

theorem NoDeformed.append_suffix {i m r : Bytes} (h : NoDeformed (i ++ m)) (hr : r <:+ i) : NoDeformed (r ++ m) := by
  obtain ⟨q, rfl⟩ := hr
  exact h.suffix ⟨q, by simp⟩

/-- The loop on the longer text continues where the loop on the shorter one stopped. -/
theorem headersLoop_ext (m : Bytes) : ∀ (f g : Nat) (i : Bytes) (out : List ParsedHeader) (r : Bytes)
    (hs : List ParsedHeader) (e : Bool), NoDeformed (i ++ m) → i ≠ [] → (i ++ m).length < g →
    reqP.headersLoop f i out = .ok r (hs, e) →
    (e = true → reqP.headersLoop g (i ++ m) out = .ok (r ++ m) (hs, true)) ∧
    (e = false → ¬ (r = [13] ∧ m.head? = some 10) → r ≠ [] ∧
      reqP.headersLoop g (i ++ m) out = reqP.headersLoop ((r ++ m).length + 1) (r ++ m) hs) ∧
    (e = false → i ≠ [13] → r = [13] → m.head? = some 10 →
      reqP.headersLoop g (i ++ m) out = .ok m.tail (hs, true)) := by
  intro f
  induction f with
  | zero => intro g i out r hs e _ _ _ h; simp [HeaderParser.headersLoop] at h
  | succ f ih =>
    intro g i out r hs e hn hi hg h
    cases hh : reqP.header i with
    | err => simp [HeaderParser.headersLoop, hh] at h
    | incomplete =>
      simp only [HeaderParser.headersLoop, hh] at h
      injection h with h1 h2
      injection h2 with h2 h3
      subst h1; subst h2; subst h3
      refine ⟨by simp, fun _ _ => ⟨hi, reqP.headersLoop_fuel _ _ _ _ hg (by omega)⟩, fun _ h1 h2 => absurd h2 h1⟩
    | ok rest head =>
      obtain ⟨he, hr⟩ := header_ext hn hh
      have hsuf := reqP.eats_header _ _ _ hh
      have hn2 := hn.append_suffix hsuf.1
      have ha := afterHeader_ext (h := head) hn2 hr
      cases g with
      | zero => omega
      | succ g =>
        have hlen : (rest ++ m).length < g := by simp only [List.length_append] at hg ⊢; omega
        simp only [HeaderParser.headersLoop, hh] at h
        simp only [HeaderParser.headersLoop, he]
        cases hd : reqP.afterHeader rest head with
        | some r' =>
          simp only [hd] at h
          injection h with h1 h2
          injection h2 with h2 h3
          subst h1; subst h2; subst h3
          rw [ha.1 _ hd]
          simp
        | none =>
          simp only [hd] at h
          by_cases hx : rest = [13] ∧ m.head? = some 10
          · -- the text ended between the CR and the LF of the empty line
            obtain ⟨rfl, hm⟩ := hx
            cases f with
            | zero => simp [HeaderParser.headersLoop] at h
            | succ f =>
              have : reqP.header [13] = .incomplete := by decide +kernel
              simp only [HeaderParser.headersLoop, this] at h
              injection h with h1 h2
              injection h2 with h2 h3
              subst h1; subst h2; subst h3
              obtain ⟨m', rfl⟩ : ∃ m', m = 10 :: m' := by
                cases m with
                | nil => simp at hm
                | cons a m' => simp only [List.head?_cons, Option.some.injEq] at hm; exact ⟨m', by rw [hm]⟩
              have hnull : isSet head.value.flags HFlag.NULL_TERMINATED = false := by
                unfold HeaderParser.afterHeader at hd
                split at hd
                · simp at hd
                · rename_i hf; exact Bool.eq_false_iff.mpr hf
              have hend := completeEol_crlf reqP m' (fun h => by simp at h)
              simp [HeaderParser.afterHeader, hnull, hend]
          · rw [ha.2 hx hd]
            obtain ⟨h1, h2, h3⟩ := ih g rest _ r hs e hn2 hr hlen h
            refine ⟨h1, h2, fun e1 e2 e3 e4 => ?_⟩
            by_cases hr13 : rest = [13]
            · exact absurd ⟨hr13, e4⟩ hx
            · exact h3 e1 hr13 e3 e4

theorem header_ne_incomplete_of_ok {i r : Bytes} {x} (h : reqP.headers i = .ok r x) : reqP.header i ≠ .incomplete := by
  intro hc; simp [HeaderParser.headers, hc] at h

/-- The end of the headers, once found, does not move when more data follows (request side, stream open). -/
theorem C22_end_is_final_partial (i more rest : Bytes) (hs : List ParsedHeader)
    (hn : ¬ [10, 13, 13, 10] <:+: i ++ more)
    (h : ({ side := .request } : HeaderParser).headers i = .ok rest (hs, true)) :
    ({ side := .request } : HeaderParser).headers (i ++ more) = .ok (rest ++ more) (hs, true) := by
  have hne : i ≠ [] := by 
    rintro rfl
    have : reqP.headers [] = .incomplete := by decide +kernel
    rw [this] at h; simp at h
  have h0 := header_ne_incomplete_of_ok h
  rw [headers_eq_loop _ _ h0] at h
  have h1 := (headersLoop_ext more _ ((i ++ more).length + 1) i [] rest hs true hn hne (by omega) h).1 rfl
  rw [headers_eq_loop, h1]
  cases hh : reqP.header i with
  | incomplete => exact absurd hh h0
  | err => simp [HeaderParser.headersLoop, hh] at h
  | ok r x => rw [(header_ext hn hh).1]; simp

theorem headersLoop_acc : ∀ (f : Nat) (i : Bytes) (out : List ParsedHeader),
    reqP.headersLoop f i out =
      match reqP.headersLoop f i [] with
      | .ok r (hs, e) => .ok r (out ++ hs, e)
      | .err => .err
      | .incomplete => .incomplete := by
  intro f
  induction f with
  | zero => intro i out; simp [HeaderParser.headersLoop]
  | succ f ih =>
    intro i out
    unfold HeaderParser.headersLoop
    cases hh : reqP.header i with
    | err => simp
    | incomplete => simp
    | ok rest head =>
      simp only
      cases ha : reqP.afterHeader rest head with
      | some r => simp
      | none =>
        simp only [List.nil_append]
        rw [ih rest (out ++ [head]), ih rest [head]]
        cases reqP.headersLoop f rest [] with
        | ok r x => obtain ⟨hs, e⟩ := x; simp
        | err => rfl
        | incomplete => rfl

theorem headersLoop_stop : ∀ (f : Nat) (i : Bytes) (out : List ParsedHeader) (r : Bytes) (hs : List ParsedHeader),
    reqP.headersLoop f i out = .ok r (hs, false) → reqP.header r = .incomplete := by
  intro f
  induction f with
  | zero => intro i out r hs h; simp [HeaderParser.headersLoop] at h
  | succ f ih =>
    intro i out r hs h
    unfold HeaderParser.headersLoop at h
    cases hh : reqP.header i with
    | err => simp [hh] at h
    | incomplete =>
      simp only [hh] at h
      injection h with h1 h2; subst h1; exact hh
    | ok rest head =>
      simp only [hh] at h
      cases ha : reqP.afterHeader rest head with
      | some r => simp [ha] at h
      | none => simp only [ha] at h; exact ih _ _ _ _ h

theorem header_ne_err {i : Bytes} (hn : NoDeformed i) (hc : ¬ [13, 10] <+: i) : reqP.header i ≠ .err := by
  unfold HeaderParser.header alt
  cases complete reqP.headerWithColon i with
  | ok r h => simp
  | incomplete => simp
  | err =>
    have h1 : tag [13, 10] i = .err := (tag_err_iff _ _).mpr hc
    have h2 := value_ne_err hn
    simp only [HeaderParser.headerSansColon, Nom.bind, Nom.not, h1, Nom.map]
    cases hv : reqP.value i with
    | err => exact absurd hv h2
    | ok r v => simp
    | incomplete => simp

theorem header_incomplete_crlf {i : Bytes} (h : reqP.header i = .incomplete) : ¬ [13, 10] <+: i := by
  rintro ⟨x, rfl⟩
  have h1 : tag [13, 10] ([13, 10] ++ x) = .ok x [13, 10] := tag_append _ _
  generalize [13, 10] ++ x = j at *
  unfold HeaderParser.header alt at h
  cases hw : complete reqP.headerWithColon j with
  | ok r h' => simp [hw] at h
  | incomplete =>
    unfold complete at hw
    split at hw <;> simp at hw
  | err =>
    rw [hw] at h
    simp [HeaderParser.headerSansColon, Nom.bind, Nom.not, h1] at h

theorem headersLoop_ne_err : ∀ (f : Nat) (i : Bytes) (out : List ParsedHeader),
    NoDeformed i → ¬ [13, 10] <+: i → i.length < f → ∃ r hs e, reqP.headersLoop f i out = .ok r (hs, e) := by
  intro f
  induction f with
  | zero => intro i out _ _ h; omega
  | succ f ih =>
    intro i out hn hc hf
    unfold HeaderParser.headersLoop
    cases hh : reqP.header i with
    | err => exact absurd hh (header_ne_err hn hc)
    | incomplete => exact ⟨_, _, _, rfl⟩
    | ok rest head =>
      obtain ⟨hs, hl⟩ := reqP.eats_header _ _ _ hh
      simp only
      cases ha : reqP.afterHeader rest head with
      | some r => exact ⟨_, _, _, rfl⟩
      | none =>
        refine ih _ _ (hn.suffix hs) ?_ (by omega)
        rintro ⟨x, rfl⟩
        have := completeEol_crlf reqP x (fun h => by simp at h)
        simp only [HeaderParser.afterHeader, List.cons_append, List.nil_append, this] at ha
        split at ha <;> simp at ha

/-- Cutting the text (request side, stream open): the headers reported for the first part, followed by those
reported for its unparsed rest plus the second part, are those of the whole text; the end of the headers and the
data left over are the same too. The text must be free of LF CR CR LF, and the cut must not fall between the
CR and the LF of the empty line that ends the headers (see `C22_split_deformed` and `C22_split_in_crlf`). -/
theorem C22_two_parts_partial (i more rest : Bytes) (hs : List ParsedHeader)
    (hn : ¬ [10, 13, 13, 10] <:+: i ++ more) (hx : ¬ (rest = [13] ∧ more.head? = some 10))
    (h : ({ side := .request } : HeaderParser).headers i = .ok rest (hs, false)) :
    (∃ r hs' e, ({ side := .request } : HeaderParser).headers (rest ++ more) = .ok r (hs', e) ∧
      ({ side := .request } : HeaderParser).headers (i ++ more) = .ok r (hs ++ hs', e)) ∨
    (({ side := .request } : HeaderParser).headers (rest ++ more) = .incomplete ∧
      ({ side := .request } : HeaderParser).headers (i ++ more) = .ok (rest ++ more) (hs, false)) := by
  have hne : i ≠ [] := by
    rintro rfl
    have : reqP.headers [] = .incomplete := by decide +kernel
    rw [this] at h; simp at h
  have h0 := header_ne_incomplete_of_ok h
  have hsuf := (reqP.eats_headers _ _ _ h).1
  rw [headers_eq_loop _ _ h0] at h
  obtain ⟨hr, h1⟩ := (headersLoop_ext more _ ((i ++ more).length + 1) i [] rest hs false hn hne (by omega) h).2.1 rfl hx
  have hst := headersLoop_stop _ _ _ _ _ h
  have hwhole : reqP.headers (i ++ more) = reqP.headersLoop ((rest ++ more).length + 1) (rest ++ more) hs := by
    rw [headers_eq_loop, h1]
    cases hh : reqP.header i with
    | incomplete => exact absurd hh h0
    | err => simp [HeaderParser.headersLoop, hh] at h
    | ok r x => rw [(header_ext hn hh).1]; simp
  have hn2 : NoDeformed (rest ++ more) := NoDeformed.append_suffix hn hsuf
  rw [hwhole]
  by_cases hi : reqP.header (rest ++ more) = .incomplete
  · right
    refine ⟨by simp [HeaderParser.headers, hi], by simp [HeaderParser.headersLoop, hi]⟩
  · left
    have hcr : ¬ [13, 10] <+: rest ++ more := by
      rintro ⟨x, hx'⟩
      have hni := header_incomplete_crlf hst
      cases rest with
      | nil => exact hr rfl
      | cons c s =>
        simp only [List.cons_append, List.nil_append, List.cons.injEq] at hx'
        cases s with
        | nil =>
          apply hx
          refine ⟨by rw [← hx'.1], ?_⟩
          rw [List.nil_append] at hx'
          rw [← hx'.2]; rfl
        | cons d s =>
          simp only [List.cons_append, List.cons.injEq] at hx'
          exact hni ⟨s, by rw [← hx'.1, ← hx'.2.1]; rfl⟩
    obtain ⟨r, hs', e, hl⟩ := headersLoop_ne_err ((rest ++ more).length + 1) (rest ++ more) [] hn2 hcr (by omega)
    refine ⟨r, hs', e, by rw [headers_eq_loop _ _ hi, hl], ?_⟩
    rw [headersLoop_acc, hl]

/-- The cut excluded above: it falls between the CR and the LF of the empty line. Parsed in one go the headers
end there, with the same headers; only the report of their end is left to the second part. -/
theorem C22_cut_in_crlf_partial (i more : Bytes) (hs : List ParsedHeader)
    (hn : ¬ [10, 13, 13, 10] <:+: i ++ 10 :: more)
    (h : ({ side := .request } : HeaderParser).headers i = .ok [13] (hs, false)) :
    ({ side := .request } : HeaderParser).headers (i ++ 10 :: more) = .ok more (hs, true) := by
  have hne : i ≠ [] := by
    rintro rfl
    have : reqP.headers [] = .incomplete := by decide +kernel
    rw [this] at h; simp at h
  have hne13 : i ≠ [13] := by
    rintro rfl
    have : reqP.headers [13] = .incomplete := by decide +kernel
    rw [this] at h; simp at h
  have h0 := header_ne_incomplete_of_ok h
  rw [headers_eq_loop _ _ h0] at h
  have h1 := (headersLoop_ext (10 :: more) _ ((i ++ 10 :: more).length + 1) i [] [13] hs false hn hne (by omega) h).2.2
    rfl hne13 rfl rfl
  rw [headers_eq_loop, h1]
  · rfl
  · cases hh : reqP.header i with
    | incomplete => exact absurd hh h0
    | err => simp [HeaderParser.headersLoop, hh] at h
    | ok r x => rw [(header_ext hn hh).1]; simp

/-- The hypotheses are met by an ordinary block cut inside its second header. -/
example : ({ side := .request } : HeaderParser).headers (b! "Host: a\r\nCont") =
      .ok (b! "Cont") ([⟨⟨b! "Host", 0⟩, ⟨b! "a", 0⟩⟩], false) ∧
    ({ side := .request } : HeaderParser).headers (b! "Cont" ++ b! "ent-Length: 5\r\n\r\nhello") =
      .ok (b! "hello") ([⟨⟨b! "Content-Length", 0⟩, ⟨b! "5", 0⟩⟩], true) ∧
    ¬ ([10, 13, 13, 10] <:+: b! "Host: a\r\nCont" ++ b! "ent-Length: 5\r\n\r\nhello") := by
  refine ⟨by decide +kernel, by decide +kernel, by decide +kernel⟩

/-- C22 as stated is false. A cut inside LF CR CR LF changes the result: in one go the headers end there and "foo"
is left; in two parts a header with an empty name appears and the end of the headers is missed. -/
theorem C22_split_deformed :
    ({ side := .request } : HeaderParser).headers (b! "k:v\n\r" ++ b! "\r\nfoo") =
      .ok (b! "foo") ([⟨⟨b! "k", 0⟩, ⟨b! "v", HFlag.DEFORMED_EOL⟩⟩], true) ∧
    ({ side := .request } : HeaderParser).headers (b! "k:v\n\r") = .ok [13] ([⟨⟨b! "k", 0⟩, ⟨b! "v", 0⟩⟩], false) ∧
    ({ side := .request } : HeaderParser).headers ([13] ++ b! "\r\nfoo") =
      .ok (b! "foo") ([⟨⟨[], HFlag.MISSING_COLON⟩, ⟨[], HFlag.MISSING_COLON⟩⟩], false) := by
  refine ⟨by decide +kernel, by decide +kernel, by decide +kernel⟩

/-- A cut between the CR and the LF of the empty line lets the body be read as a header: in one go " :x CR LF y" is
body data; in two parts it is a header with an empty name and the value "x". -/
theorem C22_split_in_crlf :
    ({ side := .request } : HeaderParser).headers (b! "k:v\r\n\r" ++ b! "\n :x\r\ny") =
      .ok (b! " :x\r\ny") ([⟨⟨b! "k", 0⟩, ⟨b! "v", 0⟩⟩], true) ∧
    ({ side := .request } : HeaderParser).headers (b! "k:v\r\n\r") = .ok [13] ([⟨⟨b! "k", 0⟩, ⟨b! "v", 0⟩⟩], false) ∧
    ({ side := .request } : HeaderParser).headers ([13] ++ b! "\n :x\r\ny") =
      .ok (b! "y") ([⟨⟨[], HFlag.NAME_NON_TOKEN_CHARS ||| HFlag.NAME_TRAILING_WHITESPACE⟩, ⟨b! "x", 0⟩⟩], false) := by
  refine ⟨by decide +kernel, by decide +kernel, by decide +kernel⟩

/-- On the response side, how much of the body belongs to the empty line depends on how much of it has arrived. -/
theorem C22_response_split :
    ({ side := .response } : HeaderParser).headers (b! "k:v\r\n\r\n") = .ok [] ([⟨⟨b! "k", 0⟩, ⟨b! "v", 0⟩⟩], true) ∧
    ({ side := .response } : HeaderParser).headers (b! "k:v\r\n\r\n" ++ b! " \r\nbody") =
      .ok (b! "body") ([⟨⟨b! "k", 0⟩, ⟨b! "v", 0⟩⟩], true) := by
  refine ⟨by decide +kernel, by decide +kernel⟩

end Props
