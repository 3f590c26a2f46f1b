/-
The order of request callbacks as an invariant of the trace.
-/
import Verif.Spec.Order
import Verif.Lemmas.ConnOps

namespace Model

open M Spec

/-- What holds of a trace when request `r` is the current one and has not passed the stages of rank `lvl`
or more. -/
structure Core (tr : List Event) (r lvl : Nat) : Prop where
  ordered : (tr.filterMap requestStage).Pairwise Before
  below : ∀ p ∈ tr.filterMap requestStage, p.1 < r ∨ p.1 = r ∧ p.2.rank < lvl
  completed : hookRuns .requestComplete tr = List.range r
  numbered : ∀ pre ev post i k, tr = pre ++ ev :: post → requestStage ev = some (i, k) →
    hookRuns .requestComplete pre = List.range i

theorem Core.new : Core [] 0 0 := by
  refine ⟨by simp, by simp, rfl, fun pre ev post i k h => ?_⟩
  simp at h

theorem Core.mono {tr : List Event} {r a b : Nat} (h : Core tr r a) (hab : a ≤ b) : Core tr r b :=
  ⟨h.1, fun p hp => (h.2 p hp).imp id fun q => ⟨q.1, by omega⟩, h.3, h.4⟩

theorem hookRuns_append (h : TxHook) (a b : List Event) : hookRuns h (a ++ b) = hookRuns h a ++ hookRuns h b := by
  simp [hookRuns]

/-- The last event of a trace with one more event. -/
theorem snoc_split {tr pre post : List Event} {ev ev' : Event} (h : tr ++ [ev'] = pre ++ ev :: post) :
    (post = [] ∧ pre = tr ∧ ev = ev') ∨ ∃ post', post = post' ++ [ev'] ∧ tr = pre ++ ev :: post' := by
  rcases List.eq_nil_or_concat post with rfl | ⟨l, a, rfl⟩
  · have h' : tr ++ [ev'] = pre ++ [ev] := h
    have := List.append_inj' h' rfl
    simp only [List.cons.injEq, and_true] at this
    exact .inl ⟨rfl, this.1.symm, this.2.symm⟩
  · have h' : tr ++ [ev'] = (pre ++ ev :: l) ++ [a] := by simpa using h
    have := List.append_inj' h' rfl
    simp only [List.cons.injEq, and_true] at this
    exact .inr ⟨l, by simp [this.2], this.1⟩

theorem not_complete_of {ev : Event} (h : ∀ i, requestStage ev ≠ some (i, .complete)) :
    hookRuns .requestComplete [ev] = [] := by
  cases ev with
  | data => rfl
  | tx hk i =>
    cases hk <;> simp [hookRuns]
    exact absurd rfl (h i)

theorem Core.other {tr : List Event} {r lvl : Nat} {ev : Event} (h : Core tr r lvl)
    (hev : requestStage ev = none) : Core (tr ++ [ev]) r lvl := by
  have h1 : (tr ++ [ev]).filterMap requestStage = tr.filterMap requestStage := by simp [hev]
  refine ⟨by rw [h1]; exact h.1, by rw [h1]; exact h.2, ?_, ?_⟩
  · rw [hookRuns_append, not_complete_of (by simp [hev]), List.append_nil, h.3]
  · intro pre ev' post i k he hk
    rcases snoc_split he with ⟨-, rfl, rfl⟩ | ⟨post', -, he'⟩
    · rw [hev] at hk; cases hk
    · exact h.4 pre ev' post' i k he' hk

theorem Core.others {r lvl : Nat} {evs : List Event} : ∀ {tr : List Event}, Core tr r lvl →
    (∀ ev ∈ evs, requestStage ev = none) → Core (tr ++ evs) r lvl := by
  induction evs with
  | nil => intro tr h _; simpa using h
  | cons ev evs ih =>
    intro tr h hev
    have := ih (h.other (hev ev (by simp))) fun x hx => hev x (by simp [hx])
    simpa using this

theorem Core.step {tr : List Event} {r lvl : Nat} {ev : Event} {k : Stage} (h : Core tr r lvl)
    (hev : requestStage ev = some (r, k)) (hl : lvl ≤ k.rank ∨ lvl = k.rank + 1 ∧ k ≠ .start ∧ k ≠ .complete)
    (hk : k ≠ .complete) : Core (tr ++ [ev]) r (k.rank + 1) := by
  have h1 : (tr ++ [ev]).filterMap requestStage = tr.filterMap requestStage ++ [(r, k)] := by simp [hev]
  refine ⟨?_, ?_, ?_, ?_⟩
  · rw [h1, List.pairwise_append]
    refine ⟨h.1, by simp, fun a ha b hb => ?_⟩
    simp only [List.mem_singleton] at hb
    subst hb
    rcases h.2 a ha with h2 | ⟨h2, h3⟩
    · exact .inl h2
    · refine .inr ⟨h2, ?_⟩
      rcases hl with hl | ⟨hl, hs, hc⟩
      · exact .inl (show a.2.rank < k.rank by omega)
      · rcases Nat.lt_or_ge a.2.rank k.rank with h4 | h4
        · exact .inl h4
        · have : a.2 = k := by
            have h5 : a.2.rank = k.rank := by omega
            cases a with
            | mk i j => cases j <;> cases k <;> simp_all [Stage.rank]
          exact .inr ⟨this, this ▸ hs, this ▸ hc⟩
  · intro p hp
    rw [h1, List.mem_append, List.mem_singleton] at hp
    rcases hp with hp | rfl
    · rcases h.2 p hp with h2 | ⟨h2, h3⟩
      · exact .inl h2
      · exact .inr ⟨h2, by omega⟩
    · exact .inr ⟨rfl, by simp⟩
  · rw [hookRuns_append, not_complete_of (by simp [hev, hk]), List.append_nil, h.3]
  · intro pre ev' post i k' he hk'
    rcases snoc_split he with ⟨-, rfl, rfl⟩ | ⟨post', -, he'⟩
    · rw [hev] at hk'
      simp only [Option.some.injEq, Prod.mk.injEq] at hk'
      rw [h.3, hk'.1]
    · exact h.4 pre ev' post' i k' he' hk'

theorem Core.finish {tr : List Event} {r lvl : Nat} (h : Core tr r lvl) (hl : lvl ≤ 4) :
    Core (tr ++ [.tx .requestComplete r]) (r + 1) 0 := by
  have h1 : (tr ++ [Event.tx .requestComplete r]).filterMap requestStage
      = tr.filterMap requestStage ++ [(r, .complete)] := by simp [requestStage]
  refine ⟨?_, ?_, ?_, ?_⟩
  · rw [h1, List.pairwise_append]
    refine ⟨h.1, by simp, fun a ha b hb => ?_⟩
    simp only [List.mem_singleton] at hb
    subst hb
    rcases h.2 a ha with h2 | ⟨h2, h3⟩
    · exact .inl h2
    · exact .inr ⟨h2, .inl (show a.2.rank < 4 by omega)⟩
  · intro p hp
    rw [h1, List.mem_append, List.mem_singleton] at hp
    rcases hp with hp | rfl
    · rcases h.2 p hp with h2 | ⟨h2, h3⟩
      · exact .inl (by omega)
      · exact .inl (by omega)
    · exact .inl (by simp)
  · rw [hookRuns_append, h.3, List.range_succ]; rfl
  · intro pre ev' post i k' he hk'
    rcases snoc_split he with ⟨-, rfl, rfl⟩ | ⟨post', -, he'⟩
    · simp only [requestStage, Option.some.injEq, Prod.mk.injEq] at hk'
      rw [h.3, hk'.1]
    · exact h.4 pre ev' post' i k' he' hk'

end Model
