/-
C26: callbacks run in registration order and stop at the first failure.
-/
import Verif.Spec.Hook

open Model Spec

namespace Props

variable {σ : Type}

theorem runAll_accept {cb : Callback σ} {s s' : σ} (h : Accepts cb s s') (cbs : Hook σ) :
    Hook.runAll (cb :: cbs) s = Hook.runAll cbs s' := by
  cases h <;> rename_i h <;> simp [Hook.runAll, h]

theorem runAll_fail {cb : Callback σ} {s s' : σ} {e : Status} (h : Fails cb s e s') (cbs : Hook σ) :
    Hook.runAll (cb :: cbs) s = (.error e, s') := by
  cases h with
  | ext h h1 h2 => simp [Hook.runAll, h, h1, h2]
  | nat h h1 => simp [Hook.runAll, h, h1]

theorem accepts_or_fails (cb : Callback σ) (s : σ) :
    (∃ s', Accepts cb s s') ∨ (∃ e s', Fails cb s e s') := by
  cases cb with
  | external f =>
    rcases hf : f s with ⟨r, s'⟩
    by_cases h1 : r = .ok
    · subst h1; exact .inl ⟨s', .extOk hf⟩
    · by_cases h2 : r = .declined
      · subst h2; exact .inl ⟨s', .extDeclined hf⟩
      · exact .inr ⟨r, s', .ext hf h1 h2⟩
  | native f =>
    rcases hf : f s with ⟨r, s'⟩
    cases r with
    | ok u => exact .inl ⟨s', .natOk hf⟩
    | error e =>
      by_cases h2 : e = .declined
      · subst h2; exact .inl ⟨s', .natDeclined hf⟩
      · exact .inr ⟨e, s', .nat hf h2⟩

/-- C26: if every callback, called in turn, answers OK or DECLINED, all of them are called, in
order, and the result is OK. -/
theorem C26_all_accepted (h : Hook σ) (s s' : σ) (ha : AcceptsAll h s s') :
    h.runAll s = (.ok (), s') := by
  induction ha with
  | nil => rfl
  | cons h1 _ ih => rw [runAll_accept h1, ih]

/-- C26: if the callbacks before `cb` accept and `cb` fails with `e`, the run stops right there with
`e`, whatever comes after. -/
theorem C26_stops_at_first_failure (before : Hook σ) (cb : Callback σ) (after : Hook σ)
    (s s1 s2 : σ) (e : Status) (ha : AcceptsAll before s s1) (hf : Fails cb s1 e s2) :
    Hook.runAll (before ++ cb :: after) s = (.error e, s2) := by
  induction ha with
  | nil => exact runAll_fail hf after
  | cons h1 _ ih => rw [List.cons_append, runAll_accept h1, ih hf]

/-- C26: one of the two cases above always applies. -/
theorem C26_cases (h : Hook σ) (s : σ) :
    (∃ s', AcceptsAll h s s') ∨
    (∃ before cb after s1 e s2, h = before ++ cb :: after ∧ AcceptsAll before s s1 ∧ Fails cb s1 e s2) := by
  induction h generalizing s with
  | nil => exact .inl ⟨s, .nil⟩
  | cons cb cbs ih =>
    rcases accepts_or_fails cb s with ⟨s', ha⟩ | ⟨e, s', hf⟩
    · rcases ih s' with ⟨s'', h2⟩ | ⟨b, c, a, s1, e, s2, h1, h2, h3⟩
      · exact .inl ⟨s'', .cons ha h2⟩
      · exact .inr ⟨cb :: b, c, a, s1, e, s2, by rw [h1]; rfl, .cons ha h2, h3⟩
    · exact .inr ⟨[], cb, cbs, s, e, s', rfl, .nil, hf⟩

/-- C26: the result is OK exactly when every callback called in turn answers OK or DECLINED. -/
theorem C26_ok_iff (h : Hook σ) (s s' : σ) : h.runAll s = (.ok (), s') ↔ AcceptsAll h s s' := by
  constructor
  · intro hr
    rcases C26_cases h s with ⟨s'', ha⟩ | ⟨b, c, a, s1, e, s2, h1, h2, h3⟩
    · have := C26_all_accepted h s s'' ha
      rw [hr] at this
      cases this; exact ha
    · subst h1
      have := C26_stops_at_first_failure b c a s s1 s2 e h2 h3
      rw [hr] at this
      cases this
  · exact C26_all_accepted h s s'

/-- C26: callbacks are called in the order of registration: after registering, the new callback is
called last, in the state the earlier ones left. -/
theorem C26_register (h : Hook σ) (f : σ → Except Status Unit × σ) (g : σ → Status × σ) (s s' : σ)
    (ha : AcceptsAll h s s') :
    ((f s').1 = .ok () → (h.register f).runAll s = (.ok (), (f s').2)) ∧
    ((g s').1 = .stop → (h.registerExtern g).runAll s = (.error .stop, (g s').2)) := by
  constructor
  · intro hf
    have h1 : AcceptsAll (h.register f) s (f s').2 := by
      have := Accepts.natOk (f := f) (s := s') (s' := (f s').2) (Prod.ext hf rfl)
      clear hf
      rw [Hook.register]
      induction ha with
      | nil => exact .cons this .nil
      | cons h1 _ ih => exact .cons h1 (ih this)
    exact C26_all_accepted _ _ _ h1
  · intro hg
    exact C26_stops_at_first_failure h _ [] s s' _ .stop ha (.ext (Prod.ext hg rfl) (by simp) (by simp))

/-- C26: a transaction hook runs its callbacks exactly when the transaction exists. -/
theorem C26_tx_hook (h : Hook σ) (ex : σ → Bool) (s : σ) :
    (ex s = true → h.runAllTx ex s = h.runAll s) ∧ (ex s = false → h.runAllTx ex s = (.ok (), s)) := by
  constructor <;> intro hx <;> simp [Hook.runAllTx, hx]

/-! A hook of three recording callbacks: the second declines, the third stops, the fourth is not called. -/
example : Hook.runAll (σ := List Nat)
    [.native fun l => (.ok (), l ++ [1]), .native fun l => (.error .declined, l ++ [2]),
     .external fun l => (.stop, l ++ [3]), .native fun l => (.ok (), l ++ [4])] [] =
    (.error .stop, [1, 2, 3]) := rfl
example : AcceptsAll (σ := List Nat)
    [.native fun l => (.ok (), l ++ [1]), .external fun l => (.declined, l ++ [2])] [] [1, 2] :=
  .cons (.natOk rfl) (.cons (.extDeclined rfl) .nil)

end Props
