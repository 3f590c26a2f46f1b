/-
Helper lemmas about maximal prefixes and suffixes.
-/
import Verif.Model.Util

namespace Model

theorem span_of_append {p : UInt8 → Bool} {a b : Bytes} (ha : ∀ c ∈ a, p c = true)
    (hb : ∀ c ∈ b.head?, p c = false) :
    (a ++ b).takeWhile p = a ∧ (a ++ b).dropWhile p = b := by
  have hb1 : b.takeWhile p = [] ∧ b.dropWhile p = b := by
    cases b with
    | nil => simp
    | cons c cs =>
      have := hb c (by simp)
      simp [this]
  rw [List.takeWhile_append_of_pos ha, List.dropWhile_append_of_pos ha, hb1.1, hb1.2]
  simp

theorem takeWhile_all (p : UInt8 → Bool) (l : Bytes) : ∀ c ∈ l.takeWhile p, p c = true :=
  fun c hc => List.all_eq_true.mp List.all_takeWhile c hc

theorem dropWhile_head (p : UInt8 → Bool) (l : Bytes) : ∀ c ∈ (l.dropWhile p).head?, p c = false := by
  intro c hc
  have := List.head?_dropWhile_not p l
  rw [Option.mem_def.mp hc] at this
  simpa using this

theorem takeWhile_eq_nil_of_head {p : UInt8 → Bool} {l : Bytes} (h : ∀ c ∈ l.head?, p c = false) :
    l.takeWhile p = [] ∧ l.dropWhile p = l := by
  have := span_of_append (p := p) (a := []) (b := l) (by simp) h
  simpa using this

theorem dropLastWhile_split (p : UInt8 → Bool) (l : Bytes) :
    ∃ post, l = dropLastWhile p l ++ post ∧ (∀ c ∈ post, p c = true) ∧
      (∀ c ∈ (dropLastWhile p l).getLast?, p c = false) := by
  refine ⟨(l.reverse.takeWhile p).reverse, ?_, ?_, ?_⟩
  · rw [dropLastWhile, ← List.reverse_append, List.takeWhile_append_dropWhile, List.reverse_reverse]
  · intro c hc; exact takeWhile_all p _ c (by simpa using hc)
  · intro c hc
    rw [dropLastWhile, List.getLast?_reverse] at hc
    exact dropWhile_head p _ c hc

theorem dropLastWhile_of_last {p : UInt8 → Bool} {l : Bytes} (h : ∀ c ∈ l.getLast?, p c = false) :
    dropLastWhile p l = l := by
  rw [dropLastWhile, (takeWhile_eq_nil_of_head (l := l.reverse) (by simpa using h)).2, List.reverse_reverse]

theorem dropLastWhile_append {p : UInt8 → Bool} {l post : Bytes}
    (h : ∀ c ∈ l.getLast?, p c = false) (hp : ∀ c ∈ post, p c = true) :
    dropLastWhile p (l ++ post) = l := by
  rw [dropLastWhile, List.reverse_append,
    (span_of_append (p := p) (a := post.reverse) (b := l.reverse) (by simpa using hp) (by simpa using h)).2,
    List.reverse_reverse]

theorem trimStart_eq : ∀ l : Bytes, trimStart l = l.dropWhile isSpace := by
  intro l
  induction l with
  | nil => rfl
  | cons c l ih => simp only [trimStart, List.dropWhile_cons]; split <;> simp_all

end Model
