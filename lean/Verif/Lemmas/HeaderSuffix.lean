/-
Helper lemmas: every parser of src/headers.rs returns a suffix of its input, and the ones that loop
consume something, so the fuel of the model's loops never runs out.
-/
import Verif.Lemmas.Nom
import Verif.Model.HeaderParser

namespace Model
open Nom

/-- The parser returns a suffix of its input. -/
def Suf {α} (p : Parser α) : Prop := ∀ i r a, p i = .ok r a → r <:+ i

/-- The parser returns a proper suffix of its input. -/
def Eats {α} (p : Parser α) : Prop := ∀ i r a, p i = .ok r a → r <:+ i ∧ r.length < i.length

theorem Eats.suf {α} {p : Parser α} (h : Eats p) : Suf p := fun i r a e => (h i r a e).1

theorem suf_map {α β} {p : Parser α} (f : α → β) (h : Suf p) : Suf (map p f) := by
  intro i r b e
  unfold Nom.map at e
  split at e <;> try (simp only [reduceCtorEq] at e)
  rename_i r' a he
  injection e with e1 e2
  subst e1; exact h _ _ _ he

theorem eats_map {α β} {p : Parser α} (f : α → β) (h : Eats p) : Eats (map p f) := by
  intro i r b e
  unfold Nom.map at e
  split at e <;> try (simp only [reduceCtorEq] at e)
  rename_i r' a he
  injection e with e1 e2
  subst e1; exact h _ _ _ he

theorem suf_bind {α β} {p : Parser α} {f : α → Parser β} (h : Suf p) (hf : ∀ a, Suf (f a)) :
    Suf (bind p f) := by
  intro i r b e
  unfold Nom.bind at e
  split at e <;> try (simp only [reduceCtorEq] at e)
  rename_i r' a he
  exact (hf a _ _ _ e).trans (h _ _ _ he)

theorem eats_bind_left {α β} {p : Parser α} {f : α → Parser β} (h : Eats p) (hf : ∀ a, Suf (f a)) :
    Eats (bind p f) := by
  intro i r b e
  unfold Nom.bind at e
  split at e <;> try (simp only [reduceCtorEq] at e)
  rename_i r' a he
  have h1 := hf a _ _ _ e
  have h2 := h _ _ _ he
  exact ⟨h1.trans h2.1, by have := h1.length_le; omega⟩

theorem eats_bind_right {α β} {p : Parser α} {f : α → Parser β} (h : Suf p) (hf : ∀ a, Eats (f a)) :
    Eats (bind p f) := by
  intro i r b e
  unfold Nom.bind at e
  split at e <;> try (simp only [reduceCtorEq] at e)
  rename_i r' a he
  have h1 := hf a _ _ _ e
  have h2 := h _ _ _ he
  exact ⟨h1.1.trans h2, by have := h2.length_le; omega⟩

theorem suf_alt {α} {p q : Parser α} (hp : Suf p) (hq : Suf q) : Suf (alt p q) := by
  intro i r a e
  unfold alt at e
  split at e
  · rename_i r' a' he; injection e with e1 e2; subst e1; exact hp _ _ _ he
  · exact hq _ _ _ e
  · simp at e

theorem eats_alt {α} {p q : Parser α} (hp : Eats p) (hq : Eats q) : Eats (alt p q) := by
  intro i r a e
  unfold alt at e
  split at e
  · rename_i r' a' he; injection e with e1 e2; subst e1; exact hp _ _ _ he
  · exact hq _ _ _ e
  · simp at e

theorem suf_opt {α} {p : Parser α} (hp : Suf p) : Suf (opt p) := by
  intro i r a e
  unfold opt at e
  split at e
  · rename_i r' a' he; injection e with e1 e2; subst e1; exact hp _ _ _ he
  · injection e with e1 e2; subst e1; exact List.suffix_refl _
  · simp at e

theorem suf_not {α} (p : Parser α) : Suf (Nom.not p) := by
  intro i r a e
  unfold Nom.not at e
  split at e <;> try (simp only [reduceCtorEq] at e)
  injection e with e1 e2; subst e1; exact List.suffix_refl _

theorem suf_peek {α} (p : Parser α) : Suf (peek p) := by
  intro i r a e
  unfold peek at e
  split at e <;> try (simp only [reduceCtorEq] at e)
  injection e with e1 e2; subst e1; exact List.suffix_refl _

theorem suf_complete {α} {p : Parser α} (hp : Suf p) : Suf (complete p) := by
  intro i r a e
  unfold complete at e
  split at e <;> try (simp only [reduceCtorEq] at e)
  rename_i r' a' he; injection e with e1 e2; subst e1; exact hp _ _ _ he

theorem eats_complete {α} {p : Parser α} (hp : Eats p) : Eats (complete p) := by
  intro i r a e
  unfold complete at e
  split at e <;> try (simp only [reduceCtorEq] at e)
  rename_i r' a' he; injection e with e1 e2; subst e1; exact hp _ _ _ he

theorem eats_tag {t : Bytes} (ht : 0 < t.length) : Eats (tag t) := by
  intro i r v e
  obtain ⟨rfl, -⟩ := (tag_ok_iff _ _ _ _).mp e
  exact ⟨List.suffix_append _ _, by simp; omega⟩

theorem eats_tagS {t : Bytes} (ht : 0 < t.length) : Eats (tagS t) := by
  intro i r v e
  unfold tagS at e
  split at e <;> try (simp only [reduceCtorEq] at e)
  split at e <;> try (simp only [reduceCtorEq] at e)
  injection e with e1 e2
  subst e1
  exact ⟨List.drop_suffix _ _, by simp; omega⟩

theorem eats_oneOf (s : Bytes) : Eats (oneOf s) := by
  intro i r v e
  cases i with
  | nil => simp [oneOf] at e
  | cons c cs =>
    simp only [oneOf] at e
    split at e <;> try (simp only [reduceCtorEq] at e)
    injection e with e1 e2; subst e1
    exact ⟨List.suffix_cons _ _, by simp⟩

theorem suf_takeWhileS (f : UInt8 → Bool) : Suf (takeWhileS f) := by
  intro i r v e
  unfold takeWhileS at e
  split at e <;> try (simp only [reduceCtorEq] at e)
  injection e with e1 e2; subst e1; exact List.dropWhile_suffix _

theorem suf_takeWhile1S (f : UInt8 → Bool) : Suf (takeWhile1S f) := by
  intro i r v e
  unfold takeWhile1S at e
  split at e <;> try (simp only [reduceCtorEq] at e)
  split at e <;> try (simp only [reduceCtorEq] at e)
  injection e with e1 e2; subst e1; exact List.dropWhile_suffix _

theorem eats_hpNull : Eats hpNull := eats_map _ (eats_tag (by simp))

theorem eats_foldingLws : Eats foldingLws :=
  eats_map _ (eats_alt (eats_tagS (by simp)) (eats_alt (eats_tagS (by simp)) (eats_tagS (by simp))))

theorem eats_separatorRegular : Eats separatorRegular :=
  eats_bind_left (eats_tag (by simp)) fun _ => suf_map _ (suf_takeWhileS _)

theorem suf_tokenChars : Suf tokenChars :=
  suf_bind (suf_takeWhileS _) fun _ => suf_bind (suf_takeWhileS _) fun _ => suf_map _ (suf_takeWhileS _)

namespace HeaderParser

theorem eats_completeEolRegular (p : HeaderParser) : Eats p.completeEolRegular := by
  unfold completeEolRegular
  split
  · exact eats_alt (eats_tag (by simp)) (eats_alt (eats_tag (by simp)) (eats_alt (eats_tag (by simp)) (eats_tag (by simp))))
  · exact eats_alt (eats_tag (by simp)) (eats_tag (by simp))

theorem eats_foldingEmpty (p : HeaderParser) : Eats p.foldingEmpty :=
  eats_bind_left p.eats_completeEolRegular fun _ => suf_bind (eats_oneOf _).suf fun _ =>
    suf_map _ p.eats_completeEolRegular.suf

theorem eats_eolDeformed1 : Eats eolDeformed1 :=
  eats_bind_left (eats_tag (by simp)) fun _ => suf_map _ (suf_peek _)

theorem eats_eolDeformed2 : Eats eolDeformed2 :=
  eats_bind_left (eats_tag (by simp)) fun _ => suf_map _ (suf_peek _)

theorem eats_eolDeformed3 : Eats eolDeformed3 :=
  eats_bind_left (eats_tag (by simp)) fun _ => suf_bind (suf_takeWhile1S _) fun _ =>
    suf_bind (suf_opt (eats_tag (by simp)).suf) fun _ => suf_map _ (suf_not _)

theorem eats_completeEolDeformed (p : HeaderParser) : Eats p.completeEolDeformed := by
  unfold completeEolDeformed
  split
  · exact eats_alt eats_eolDeformed1 (eats_alt p.eats_foldingEmpty eats_eolDeformed3)
  · exact eats_alt eats_eolDeformed1 eats_eolDeformed2

theorem eats_completeEol (p : HeaderParser) : Eats p.completeEol :=
  eats_alt p.eats_completeEolDeformed (eats_map _ p.eats_completeEolRegular)

theorem eats_eol (p : HeaderParser) : Eats p.eol :=
  eats_bind_left p.eats_completeEol fun _ => suf_map _ (suf_not _)

theorem eats_folding (p : HeaderParser) : Eats p.folding := by
  unfold folding
  split
  · exact eats_bind_left p.eats_completeEolRegular fun _ => suf_map _ eats_foldingLws.suf
  · exact eats_bind_left p.eats_completeEol fun _ => suf_map _ eats_foldingLws.suf

theorem eats_foldingOrTerminator (p : HeaderParser) : Eats p.foldingOrTerminator := by
  unfold foldingOrTerminator
  split
  · exact eats_alt (eats_complete p.eats_folding) (eats_map _ (eats_alt eats_hpNull p.eats_completeEol))
  · exact eats_alt p.eats_folding (eats_map _ (eats_alt eats_hpNull p.eats_eol))

theorem eats_valueBytes (p : HeaderParser) : Eats p.valueBytes := by
  intro i r a e
  unfold valueBytes at e
  split at e <;> try (simp only [reduceCtorEq] at e)
  rename_i rem v hv
  split at e
  · obtain ⟨h1, h2⟩ := eats_map _ p.eats_foldingOrTerminator _ _ _ e
    refine ⟨h1.trans (List.drop_suffix _ _), ?_⟩
    simp only [List.length_drop] at h2
    omega
  · obtain ⟨h1, h2⟩ := eats_map _ p.eats_foldingOrTerminator _ _ _ e
    have h3 := suf_takeWhileS _ _ _ _ hv
    exact ⟨h1.trans h3, by have := h3.length_le; omega⟩

theorem valueLoop_suf (p : HeaderParser) : ∀ (fuel : Nat) (rest i value ofold : Bytes) (flags : Flags)
    (base r : Bytes) (a : FlaggedText), rest <:+ base → i <:+ base →
    p.valueLoop fuel rest i value ofold flags = .ok r a → r <:+ base := by
  intro fuel
  induction fuel with
  | zero => intro _ _ _ _ _ _ _ _ _ _ e; simp [valueLoop] at e
  | succ fuel ih =>
    intro rest i value ofold flags base r a hr hi e
    unfold valueLoop at e
    split at e
    · injection e with e1 e2; subst e1; exact hi
    · simp at e
    · split at e <;> try (simp only [reduceCtorEq] at e)
      rename_i rest2 vb eol fl fold hv
      have h2 : rest2 <:+ base := (p.eats_valueBytes.suf _ _ _ hv).trans hi
      have h3 : (if vb ≠ [] ∨ eol.length > 1 then rest2
          else if eol.length = 1 ∧ rest2.head? = some 10 then rest2 else rest) <:+ base := by
        split
        · exact h2
        · split
          · exact h2
          · exact hr
      split at e
      · exact ih _ _ _ _ _ _ _ _ h3 h2 e
      · injection e with e1 e2; subst e1; exact h3

/-- The fuel of the folded-line loop never runs out: more fuel than input bytes changes nothing. -/
theorem valueLoop_fuel (p : HeaderParser) : ∀ (f g : Nat) (rest i value ofold : Bytes) (flags : Flags),
    i.length < f → i.length < g →
    p.valueLoop f rest i value ofold flags = p.valueLoop g rest i value ofold flags := by
  intro f
  induction f with
  | zero => intro g rest i value ofold flags h; omega
  | succ f ih =>
    intro g rest i value ofold flags hf hg
    cases g with
    | zero => omega
    | succ g =>
      unfold valueLoop
      split
      · rfl
      · rfl
      · cases hv : p.valueBytes i with
        | err => rfl
        | incomplete => rfl
        | ok rest2 a =>
          obtain ⟨vb, ⟨eol, fl⟩, fold⟩ := a
          have := (p.eats_valueBytes _ _ _ hv).2
          cases fold with
          | none => rfl
          | some fold => exact ih _ _ _ _ _ _ (by omega) (by omega)

theorem eats_value (p : HeaderParser) : Eats p.value := by
  intro i r a e
  unfold value at e
  split at e <;> try (simp only [reduceCtorEq] at e)
  rename_i rest vb fl eol fold hv
  obtain ⟨h1, h2⟩ := p.eats_valueBytes _ _ _ hv
  split at e
  · have h3 := p.valueLoop_suf _ _ _ _ _ _ rest r a (List.suffix_refl _) (List.suffix_refl _) e
    exact ⟨h3.trans h1, by have := h3.length_le; omega⟩
  · injection e with e1 e2; subst e1; exact ⟨h1, h2⟩

theorem suf_name : Suf name := by
  intro i r a e
  unfold name at e
  injection e with e1 e2; subst e1; exact List.drop_suffix _ _

theorem eats_header (p : HeaderParser) : Eats p.header :=
  eats_alt
    (eats_complete (eats_bind_right suf_name fun _ =>
      eats_bind_left (eats_map _ eats_separatorRegular) fun _ => suf_map _ p.eats_value.suf))
    (eats_bind_right (suf_not _) fun _ => eats_map _ p.eats_value)

theorem suf_afterHeader (p : HeaderParser) {rest : Bytes} {head : ParsedHeader} {r : Bytes}
    (h : p.afterHeader rest head = some r) : r <:+ rest := by
  unfold afterHeader at h
  split at h
  · simp only [Option.some.injEq] at h; subst h; exact List.suffix_refl _
  · split at h
    · rename_i r' a he
      simp only [Option.some.injEq] at h; subst h
      exact p.eats_completeEol.suf _ _ _ he
    · simp at h

/-- The fuel of the header loop never runs out. -/
theorem headersLoop_fuel (p : HeaderParser) : ∀ (f g : Nat) (i : Bytes) (out : List ParsedHeader),
    i.length < f → i.length < g → p.headersLoop f i out = p.headersLoop g i out := by
  intro f
  induction f with
  | zero => intro g i out h; omega
  | succ f ih =>
    intro g i out hf hg
    cases g with
    | zero => omega
    | succ g =>
      unfold headersLoop
      cases hh : p.header i with
      | err => rfl
      | incomplete => rfl
      | ok rest head =>
        have := (p.eats_header _ _ _ hh).2
        cases ha : p.afterHeader rest head with
        | some r => simp [ha]
        | none => simp only [ha]; exact ih _ _ _ (by omega) (by omega)

theorem headersLoop_suf (p : HeaderParser) : ∀ (f : Nat) (i : Bytes) (out : List ParsedHeader) (r : Bytes)
    (a : List ParsedHeader × Bool), p.headersLoop f i out = .ok r a → r <:+ i := by
  intro f
  induction f with
  | zero => intro i out r a e; simp [headersLoop] at e
  | succ f ih =>
    intro i out r a e
    unfold headersLoop at e
    split at e <;> try (simp only [reduceCtorEq] at e)
    · rename_i rest head hh
      have h1 := (p.eats_header _ _ _ hh).1
      split at e
      · rename_i r' ha
        injection e with e1 e2; subst e1
        exact (p.suf_afterHeader ha).trans h1
      · exact (ih _ _ _ _ e).trans h1
    · injection e with e1 e2; subst e1; exact List.suffix_refl _

theorem eats_headers (p : HeaderParser) : Eats p.headers := by
  intro i r a e
  unfold headers at e
  split at e <;> try (simp only [reduceCtorEq] at e)
  rename_i rest head hh
  obtain ⟨h1, h2⟩ := p.eats_header _ _ _ hh
  split at e
  · rename_i r' ha
    injection e with e1 e2; subst e1
    have h3 := p.suf_afterHeader ha
    exact ⟨h3.trans h1, by have := h3.length_le; omega⟩
  · have h3 := p.headersLoop_suf _ _ _ _ _ e
    exact ⟨h3.trans h1, by have := h3.length_le; omega⟩

end HeaderParser
end Model
