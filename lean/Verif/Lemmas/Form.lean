/-
Lemmas about the streaming form parser.
-/
import Verif.Lemmas.Percent
import Verif.Lemmas.Nom
import Verif.Lemmas.Span

namespace Model
open Spec

/-- Splitting a concatenation: the last segment of the first part is continued by the second. -/
theorem splitOn_append (sep : UInt8) (b : Bytes) : ∀ a i l, splitOn sep a = i ++ [l] →
    splitOn sep (a ++ b) = i ++ splitOn sep (l ++ b) := by
  intro a
  induction a with
  | nil =>
    intro i l h
    cases i with
    | nil => simp [splitOn] at h; subst h; rfl
    | cons x i => simp [splitOn] at h
  | cons c a ih =>
    intro i l h
    by_cases hc : c = sep
    · subst hc
      simp only [splitOn, if_true] at h
      cases i with
      | nil =>
        simp only [List.nil_append, List.cons.injEq] at h
        exact absurd h.2 (splitOn_ne_nil _ _)
      | cons x i =>
        simp only [List.cons_append, List.cons.injEq] at h
        simp only [List.cons_append, splitOn, if_true, ih i l h.2, h.1]
    · obtain ⟨seg, rest, h1, h2⟩ := splitOn_cons_ne a hc
      rw [h2] at h
      cases i with
      | nil =>
        simp only [List.nil_append, List.cons.injEq] at h
        have h3 := ih [] seg (by rw [h1, h.2]; rfl)
        simp only [List.nil_append] at h3
        rw [← h.1]
        simp only [List.cons_append, List.nil_append, splitOn, hc, if_false, h3]
      | cons x i =>
        simp only [List.cons_append, List.cons.injEq] at h
        have h3 := ih (seg :: i) l (by rw [h1, h.2]; rfl)
        rw [← h.1]
        simp only [List.cons_append, splitOn, hc, if_false] at h3 ⊢
        rw [h3]

theorem splitOn_getLast (sep : UInt8) (s : Bytes) : ∃ i l, splitOn sep s = i ++ [l] ∧ sep ∉ l := by
  have h := splitOn_ne_nil sep s
  refine ⟨(splitOn sep s).dropLast, (splitOn sep s).getLast h, (List.dropLast_concat_getLast h).symm, ?_⟩
  exact splitOn_no_sep sep s _ (List.getLast_mem h)

/-- `splitLast` takes off the last segment. -/
theorem splitLast_eq (sep : UInt8) (s : Bytes) :
    (splitLast sep s = none ∧ splitOn sep s = [s]) ∨
    ∃ a l, splitLast sep s = some (a, l) ∧ splitOn sep s = splitOn sep a ++ [l] := by
  by_cases hs : sep ∈ s
  · right
    obtain ⟨l, r, h1, h2⟩ : ∃ l r, s.reverse = l ++ sep :: r ∧ sep ∉ l := by
      have : sep ∈ s.reverse := by simpa using hs
      generalize s.reverse = t at this
      induction t with
      | nil => simp at this
      | cons c t ih =>
        by_cases hc : c = sep
        · exact ⟨[], t, by simp [hc], by simp⟩
        · obtain ⟨l, r, h1, h2⟩ := ih (by simpa [Ne.symm hc] using this)
          exact ⟨c :: l, r, by simp [h1], by simp [h2, Ne.symm hc]⟩
    have hsp := span_of_append (p := fun c => !(c == sep)) (a := l) (b := sep :: r)
      (by intro c hc; simp; rintro rfl; exact h2 hc) (by simp)
    refine ⟨r.reverse, l.reverse, ?_, ?_⟩
    · rw [splitLast, splitFirst, h1, hsp.1, hsp.2]
    · have : s = r.reverse ++ sep :: l.reverse := by
        rw [← List.reverse_reverse s, h1]; simp
      rw [this]
      obtain ⟨i, l', h3, h4⟩ := splitOn_getLast sep r.reverse
      rw [splitOn_append sep _ _ _ _ h3, splitOn_append_sep _ _ _ h4, splitOn_of_no_sep sep l.reverse (by simpa using h2), h3]
      simp
  · left
    refine ⟨?_, splitOn_of_no_sep _ _ hs⟩
    have : s.reverse.dropWhile (fun c => !(c == sep)) = [] := by
      have := span_of_append (p := fun c => !(c == sep)) (a := s.reverse) (b := [])
        (by intro c hc; simp; rintro rfl; exact hs (by simpa using hc)) (by simp)
      simpa using this.2
    rw [splitLast, splitFirst, this]

/-- Overwrite the buffer and the data mark. -/
def Form.withBuf (f : Form) (x : Bytes) (b c : Bool) : Form := { f with field := x, sawData := b, complete := c }

theorem decodeHalf_withBuf (ovf : Bool) (f : Form) (x : Bytes) (b c : Bool) (s : Bytes) :
    (f.withBuf x b c).decodeHalf ovf s = (f.decodeHalf ovf s).map fun p => (p.1.withBuf x b c, p.2) := by
  by_cases h : f.decodeUrl = true
  · simp only [Form.decodeHalf, Form.withBuf, h, if_true]
    cases decodeUri ovf f.cfg s <;> simp [h]
  · simp [Form.decodeHalf, Form.withBuf, h]

theorem segment_withBuf (ovf : Bool) (f : Form) (x : Bytes) (b c : Bool) (s : Bytes) :
    (f.withBuf x b c).segment ovf s = (f.segment ovf s).map fun p => p.withBuf x b c := by
  simp only [Form.segment]
  cases nameValue s with
  | none => rfl
  | some nv =>
    obtain ⟨n, v⟩ := nv
    simp only [decodeHalf_withBuf]
    cases f.decodeHalf ovf n with
    | none => rfl
    | some p =>
      obtain ⟨f1, n1⟩ := p
      simp only [Option.map_some, decodeHalf_withBuf]
      cases f1.decodeHalf ovf v with
      | none => rfl
      | some p => rfl

theorem segments_withBuf (ovf : Bool) (x : Bytes) (b c : Bool) : ∀ (l : List Bytes) (f : Form),
    (f.withBuf x b c).segments ovf l = (f.segments ovf l).map fun p => p.withBuf x b c := by
  intro l
  induction l with
  | nil => intro f; rfl
  | cons s l ih =>
    intro f
    simp only [Form.segments, List.foldlM_cons, segment_withBuf] at ih ⊢
    cases h : f.segment ovf s with
    | none => rfl
    | some g => exact ih g

theorem segments_append (ovf : Bool) (a b : List Bytes) (f : Form) :
    f.segments ovf (a ++ b) = (f.segments ovf a).bind fun f => f.segments ovf b := by
  simp only [Form.segments, List.foldlM_append]
  rfl

theorem segments_keep (ovf : Bool) : ∀ (l : List Bytes) (f g : Form), f.segments ovf l = some g →
    g.sep = f.sep ∧ g.field = f.field ∧ g.complete = f.complete ∧ g.sawData = f.sawData ∧ g.cfg = f.cfg ∧
      g.decodeUrl = f.decodeUrl := by
  have hd : ∀ (f g : Form) s t, f.decodeHalf ovf s = some (g, t) → g.sep = f.sep ∧ g.field = f.field ∧
      g.complete = f.complete ∧ g.sawData = f.sawData ∧ g.cfg = f.cfg ∧ g.decodeUrl = f.decodeUrl := by
    intro f g s t h
    simp only [Form.decodeHalf] at h
    split at h
    · split at h <;> simp at h <;> (obtain ⟨rfl, _⟩ := h; simp)
    · simp at h; obtain ⟨rfl, _⟩ := h; simp
  have hs : ∀ (f g : Form) s, f.segment ovf s = some g → g.sep = f.sep ∧ g.field = f.field ∧
      g.complete = f.complete ∧ g.sawData = f.sawData ∧ g.cfg = f.cfg ∧ g.decodeUrl = f.decodeUrl := by
    intro f g s h
    simp only [Form.segment] at h
    split at h
    · simp at h; subst h; simp
    · split at h
      · simp at h
      · rename_i h1
        split at h
        · simp at h
        · rename_i h2
          simp at h; subst h
          obtain ⟨a1, a2, a3, a4, a5, a6⟩ := hd _ _ _ _ h1
          obtain ⟨b1, b2, b3, b4, b5, b6⟩ := hd _ _ _ _ h2
          simp_all
  intro l
  induction l with
  | nil => intro f g h; simp [Form.segments] at h; subst h; simp
  | cons s l ih =>
    intro f g h
    simp only [Form.segments, List.foldlM_cons] at h ih
    cases h1 : f.segment ovf s with
    | none => rw [h1] at h; simp at h
    | some f1 =>
      rw [h1] at h
      obtain ⟨a1, a2, a3, a4, a5, a6⟩ := hs _ _ _ h1
      obtain ⟨b1, b2, b3, b4, b5, b6⟩ := ih f1 g h
      simp_all

/-- What one partial feed does: all finished segments are processed, the unfinished one is kept. -/
theorem parsePartial_eq (ovf : Bool) (f : Form) (data : Bytes) (hc : f.complete = false) {i : List Bytes}
    {l : Bytes} (hne : f.field ++ data ≠ []) (hs : splitOn f.sep (f.field ++ data) = i ++ [l]) :
    f.parsePartial ovf data = (f.segments ovf i).map fun g => g.withBuf l true false := by
  simp only [Form.parsePartial, if_neg hne, hc, Bool.false_eq_true, if_false]
  rcases splitLast_eq f.sep (f.field ++ data) with ⟨h1, h2⟩ | ⟨a, l', h1, h2⟩
  · rw [h1]
    rw [h2] at hs
    cases i with
    | nil =>
      simp at hs
      rw [← hs]
      simp [Form.segments, Form.withBuf, hc]
    | cons x i => cases i <;> simp at hs
  · rw [h1]
    rw [h2] at hs
    obtain ⟨rfl, h3⟩ := List.append_inj' hs rfl
    simp at h3
    subst h3
    have := segments_withBuf ovf (f.field ++ data) true false (splitOn f.sep a) f
    simp only [Form.withBuf] at this ⊢
    rw [this, Option.map_map]
    rfl

/-- Feeding two pieces one after the other is feeding their concatenation. -/
theorem parsePartial_append (ovf : Bool) (f : Form) (hc : f.complete = false) (a b : Bytes) :
    (f.parsePartial ovf a).bind (fun g => g.parsePartial ovf b) = f.parsePartial ovf (a ++ b) := by
  by_cases hne : f.field ++ a = []
  · obtain ⟨h1, h2⟩ := List.append_eq_nil_iff.mp hne
    subst h2
    have : f.parsePartial ovf [] = some f := by
      simp [Form.parsePartial, h1, hc]
      cases f; simp_all
    rw [this]; rfl
  · obtain ⟨i, l, h1, h2⟩ := splitOn_getLast f.sep (f.field ++ a)
    rw [parsePartial_eq ovf f a hc hne h1]
    have hne' : f.field ++ (a ++ b) ≠ [] := by
      intro h; apply hne; simp at h ⊢; exact ⟨h.1, h.2.1⟩
    obtain ⟨i2, l2, h3, _⟩ := splitOn_getLast f.sep (l ++ b)
    have h4 : splitOn f.sep (f.field ++ (a ++ b)) = (i ++ i2) ++ [l2] := by
      rw [← List.append_assoc, splitOn_append _ _ _ _ _ h1, h3, List.append_assoc]
    rw [parsePartial_eq ovf f (a ++ b) hc hne' h4, segments_append]
    cases hg : f.segments ovf i with
    | none => rfl
    | some g =>
      obtain ⟨k1, -, -, -, -⟩ := segments_keep ovf _ _ _ hg
      simp only [Option.map_some, Option.bind_some]
      by_cases hlb : l ++ b = []
      · obtain ⟨rfl, rfl⟩ := List.append_eq_nil_iff.mp hlb
        simp [splitOn] at h3
        cases i2 with
        | nil =>
          simp at h3; subst h3
          simp [Form.parsePartial, Form.withBuf, Form.segments]
        | cons x i2 => cases i2 <;> simp at h3
      · rw [parsePartial_eq ovf (g.withBuf l true false) b rfl (by exact hlb)
          (by show splitOn g.sep (l ++ b) = _; rw [k1]; exact h3), segments_withBuf, Option.map_map]
        rfl

theorem feed_eq (ovf : Bool) : ∀ (ps : List Bytes) (f : Form), f.complete = false → f.field = [] →
    ps.foldlM (fun f p => f.parsePartial ovf p) f = f.parsePartial ovf ps.flatten := by
  intro ps f hc hf
  have h0 : f.parsePartial ovf [] = some f := by
    simp [Form.parsePartial, hf, hc]
    cases f; simp_all
  have key : ∀ (ps : List Bytes) (q : Bytes),
      (f.parsePartial ovf q).bind (fun g => ps.foldlM (fun f p => f.parsePartial ovf p) g) =
        f.parsePartial ovf (q ++ ps.flatten) := by
    intro ps
    induction ps with
    | nil => intro q; simp
    | cons p ps ih =>
      intro q
      have h1 := ih (q ++ p)
      rw [List.flatten_cons, ← List.append_assoc, ← h1, ← parsePartial_append ovf f hc,
        Option.bind_assoc]
      rfl
  have := key ps []
  rw [h0] at this
  simpa using this

end Model
