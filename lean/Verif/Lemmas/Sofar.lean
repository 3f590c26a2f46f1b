/-
Messages in pieces: which of them a call finishes.
-/
import Verif.Lemmas.SegJoin
import Verif.Spec.Interleaved

namespace Model

open Spec

variable {α : Type} {tokens line : α → List Token}

/-- Where a sequence of pieces is in a sequence of messages: `done` are over, `cur` have begun (see `Unfinished`), `T` is
to come of them. -/
structure Sofar (tokens line : α → List Token) (msgs : List α) (calls : List (List Token)) (done cur fut : List α)
    (T : List Token) : Prop where
  split : msgs = done ++ (cur ++ fut)
  flat : calls.flatten ++ T = (done ++ cur).flatMap tokens
  unfinished : Unfinished tokens line cur T
  settled : ∀ n, Settled tokens line msgs n calls → n ≤ done.length

/-- The messages a call reaches. -/
theorem split_call (T : List Token) : ∀ (fut : List α) (c rest : List Token), c ++ rest = T ++ fut.flatMap tokens →
    ∃ more fut' later, fut = more ++ fut' ∧ c ++ later = T ++ more.flatMap tokens ∧ rest = later ++ fut'.flatMap tokens ∧
      (more = [] ∨ ∃ init x, more = init ++ [x] ∧ (T ++ init.flatMap tokens).length < c.length) := by
  intro fut
  induction fut generalizing T with
  | nil => exact fun c rest h => ⟨[], [], rest, rfl, h, by simp, .inl rfl⟩
  | cons y ys ih =>
    intro c rest h
    rcases Nat.lt_or_ge T.length c.length with hlt | hge
    · obtain ⟨more, fut', later, h1, h2, h3, h4⟩ := ih (T ++ tokens y) c rest (by simpa using h)
      refine ⟨y :: more, fut', later, by rw [h1]; rfl, by simpa using h2, h3, .inr ?_⟩
      rcases h4 with rfl | ⟨init, x, rfl, h4⟩
      · exact ⟨[], y, rfl, by simpa using hlt⟩
      · exact ⟨y :: init, x, rfl, by simpa [Nat.add_assoc] using h4⟩
    · obtain ⟨u, rfl⟩ : c <+: T := List.prefix_of_prefix_length_le ⟨rest, h⟩ ⟨(y :: ys).flatMap tokens, rfl⟩ hge
      refine ⟨[], y :: ys, u, rfl, by simp, ?_, .inl rfl⟩
      rw [List.append_assoc] at h
      exact List.append_cancel_left h

theorem Unfinished.last {cur : List α} {T : List Token} (h : Unfinished tokens line cur T) (hl : ∀ x, (line x).length ≤ (tokens x).length) :
    (cur = [] ∧ T = []) ∨ ∃ init x, cur = init ++ [x] ∧ T.length ≤ (tokens x).length ∧ T ≠ [] := by
  cases h with
  | none => exact .inl ⟨rfl, rfl⟩
  | one x ne le => exact .inr ⟨[], x, rfl, le, ne⟩
  | two x y p hp hq hr =>
    refine .inr ⟨[x], y, rfl, by omega, ?_⟩
    rintro rfl
    have := hl y
    simp at hr
    omega

/-- What a call does to the messages: it reaches `more`, and ends behind the beginning of the last one. -/
structure Reaches (tokens : α → List Token) (msgs : List α) (calls : List (List Token)) (done cur fut : List α) (T c : List Token)
    (more fut' : List α) (later : List Token) : Prop where
  fut : fut = more ++ fut'
  here : c ++ later = T ++ more.flatMap tokens
  some : cur ++ more ≠ []
  beyond : ((done ++ (cur ++ more).dropLast).flatMap tokens).length < calls.flatten.length + c.length

section
variable {msgs : List α} {calls : List (List Token)} {done cur fut : List α} {T c : List Token}

theorem Sofar.reaches (h : Sofar tokens line msgs calls done cur fut T) (hl : ∀ x, (line x).length ≤ (tokens x).length)
    (hc : c ≠ []) {n : Nat} (hn : (calls ++ [c]).flatten <+: (msgs.take n).flatMap tokens) :
    ∃ more fut' later, Reaches tokens msgs calls done cur fut T c more fut' later ∧ done.length + (cur ++ more).length ≤ n := by
  obtain ⟨x, hx⟩ := hn
  have hflat : calls.flatten ++ (c ++ (x ++ (msgs.drop n).flatMap tokens)) = calls.flatten ++ (T ++ fut.flatMap tokens) := by
    have h1 : calls.flatten ++ (T ++ fut.flatMap tokens) = msgs.flatMap tokens := by
      rw [← List.append_assoc, h.flat, h.split]
      simp
    rw [h1]
    conv => rhs; rw [← List.take_append_drop n msgs, List.flatMap_append, ← hx]
    simp
  obtain ⟨more, fut', later, h1, h2, -, h4⟩ := split_call T fut c _ (List.append_cancel_left hflat)
  have hfl := congrArg List.length h.flat
  have hcl : c.length ≠ 0 := by simpa using hc
  have hsome : cur ++ more ≠ [] := by
    intro h0
    obtain ⟨hc0, hm0⟩ := List.append_eq_nil_iff.1 h0
    have hT : T = [] := by
      rcases h.unfinished.last hl with ⟨-, h⟩ | ⟨i, x, h, -⟩
      · exact h
      · simp [hc0] at h
    rw [hm0, hT] at h2
    simp at h2
    exact hc h2.1
  have hbey : ((done ++ (cur ++ more).dropLast).flatMap tokens).length < calls.flatten.length + c.length := by
    rcases h4 with rfl | ⟨init, x, rfl, h4⟩
    · rcases h.unfinished.last hl with ⟨rfl, -⟩ | ⟨i, x, rfl, hle, -⟩
      · exact absurd rfl hsome
      · rw [List.append_nil, List.dropLast_concat]
        simp only [List.flatMap_append, List.length_append, List.flatMap_cons, List.flatMap_nil, List.append_nil] at hfl ⊢
        omega
    · rw [← List.append_assoc, List.dropLast_concat]
      simp only [List.flatMap_append, List.length_append] at hfl h4 ⊢
      omega
  refine ⟨more, fut', later, ⟨h1, h2, hsome, hbey⟩, ?_⟩
  refine Decidable.byContradiction fun hlt => ?_
  have hlt : n ≤ (done ++ (cur ++ more).dropLast).length := by
    simp only [List.length_append, List.length_dropLast] at hlt ⊢
    omega
  have htake : msgs.take n = (done ++ (cur ++ more).dropLast).take n := by
    have : msgs = done ++ (cur ++ more).dropLast ++ ((cur ++ more).getLast hsome :: fut') := by
      rw [h.split, h1, List.append_assoc done]
      congr 1
      rw [← List.append_assoc]
      conv => lhs; rw [← List.dropLast_concat_getLast hsome]
      simp
    conv => lhs; rw [this]
    exact List.take_append_of_le_length hlt
  have hle : ((msgs.take n).flatMap tokens).length ≤ ((done ++ (cur ++ more).dropLast).flatMap tokens).length := by
    rw [htake]
    conv => rhs; rw [← List.take_append_drop n (done ++ (cur ++ more).dropLast), List.flatMap_append, List.length_append]
    omega
  rw [← hx] at hle
  simp at hle hbey
  omega

theorem length_tokens_take_le (ms : List α) {i j : Nat} (h : i ≤ j) :
    ((ms.take i).flatMap tokens).length ≤ ((ms.take j).flatMap tokens).length := by
  have : ms.take i = (ms.take j).take i := by rw [List.take_take, Nat.min_eq_left h]
  rw [this]
  conv => rhs; rw [← List.take_append_drop i (ms.take j), List.flatMap_append, List.length_append]
  omega

theorem length_tokens_take_lt (hne : ∀ x, tokens x ≠ []) (ms : List α) {i j : Nat} (h : i < j) (hj : i < ms.length) :
    ((ms.take i).flatMap tokens).length < ((ms.take j).flatMap tokens).length := by
  refine Nat.lt_of_lt_of_le ?_ (length_tokens_take_le ms h)
  rw [List.take_succ_eq_append_getElem hj, List.flatMap_append, List.length_append]
  have := List.length_pos_iff.2 (hne ms[i])
  simp only [List.flatMap_cons, List.flatMap_nil, List.append_nil]
  omega

/-- Nothing but the last message a call reaches ends where a piece ends. -/
theorem Sofar.noCut (h : Sofar tokens line msgs calls done cur fut T) {more fut' : List α} {later : List Token}
    (hr : Reaches tokens msgs calls done cur fut T c more fut' later) {i : Nat} (hi : i < (cur ++ more).dropLast.length)
    (after early late : List (List Token)) (hsplit : calls ++ c :: after = early ++ late)
    (hearly : early.flatten = (msgs.take (done.length + i + 1)).flatMap tokens) : False := by
  have hlen : msgs.length = done.length + (cur ++ more).length + fut'.length := by
    rw [h.split, hr.fut]
    simp
    omega
  have hi2 : i + 1 < (cur ++ more).length := by
    rw [List.length_dropLast] at hi
    omega
  rcases List.append_eq_append_iff.1 hsplit with ⟨x, hx, hx2⟩ | ⟨x, hx, hx2⟩
  · cases x with
    | nil =>
      rw [List.append_nil] at hx
      have := h.settled (done.length + i + 1) ⟨by omega, .inl ⟨early, [], by rw [hx]; simp, hearly⟩⟩
      omega
    | cons y ys =>
      obtain ⟨rfl, -⟩ : c = y ∧ after = ys ++ late := by simpa using hx2
      have hb := hr.beyond
      have hsome := hr.some
      have hle : ((msgs.take (done.length + i + 1)).flatMap tokens).length ≤ ((done ++ (cur ++ more).dropLast).flatMap tokens).length := by
        have : msgs.take (done.length + i + 1) = (done ++ (cur ++ more).dropLast).take (done.length + i + 1) := by
          have : msgs = done ++ (cur ++ more).dropLast ++ ((cur ++ more).getLast hsome :: fut') := by
            rw [h.split, hr.fut, List.append_assoc done]
            congr 1
            rw [← List.append_assoc]
            conv => lhs; rw [← List.dropLast_concat_getLast hsome]
            simp
          conv => lhs; rw [this]
          exact List.take_append_of_le_length (by simp at hi ⊢; omega)
        rw [this]
        conv => rhs; rw [← List.take_append_drop (done.length + i + 1) (done ++ (cur ++ more).dropLast), List.flatMap_append, List.length_append]
        omega
      rw [← hearly, hx] at hle
      simp at hle hb
      omega
  · have := h.settled (done.length + i + 1) ⟨by omega, .inl ⟨early, x, hx, hearly⟩⟩
    omega

/-- After the call. -/
theorem Sofar.next (h : Sofar tokens line msgs calls done cur fut T) (hl : ∀ x, line x <+: tokens x) (hne : ∀ x, line x ≠ [])
    {more fut' pre cur' post : List α} {later T' : List Token} (hr : Reaches tokens msgs calls done cur fut T c more fut' later)
    (hall : cur ++ more = pre ++ (cur' ++ post)) (hlater : later = T' ++ post.flatMap tokens)
    (hu : Unfinished tokens line cur' T') :
    Sofar tokens line msgs (calls ++ [c]) (done ++ pre) cur' (post ++ fut') T' := by
  have htn : ∀ x, tokens x ≠ [] := fun x h0 => hne x (List.prefix_nil.1 (h0 ▸ hl x))
  have hsplit : msgs = done ++ pre ++ (cur' ++ (post ++ fut')) := by
    rw [h.split, hr.fut, ← List.append_assoc cur, hall]
    simp
  have hflat : (calls ++ [c]).flatten ++ T' = (done ++ pre ++ cur').flatMap tokens := by
    have h1 : (calls ++ [c]).flatten ++ T' ++ post.flatMap tokens = (done ++ pre ++ cur').flatMap tokens ++ post.flatMap tokens := by
      have h2 : (calls ++ [c]).flatten ++ T' ++ post.flatMap tokens = calls.flatten ++ (c ++ later) := by rw [hlater]; simp
      rw [h2, hr.here, ← List.append_assoc, h.flat, ← List.flatMap_append, List.append_assoc, hall, ← List.flatMap_append]
      simp
    exact List.append_cancel_right h1
  refine ⟨hsplit, hflat, hu, ?_⟩
  rintro n ⟨hn, hn2⟩
  refine Decidable.byContradiction fun hlt => ?_
  have hlt : (done ++ pre).length < n := by omega
  have hfl := congrArg List.length hflat
  simp only [List.flatMap_append, List.length_append] at hfl
  have htake : ∀ k, k ≤ cur'.length → msgs.take ((done ++ pre).length + k) = done ++ pre ++ cur'.take k := by
    intro k hk
    rw [hsplit, List.take_length_add_append, List.take_append_of_le_length hk]
  have hlt2 := length_tokens_take_lt htn msgs hlt (by omega)
  have h0 := htake 0 (Nat.zero_le _)
  rw [Nat.add_zero] at h0
  have hlong : ∀ k, k ≤ cur'.length → (done ++ pre).length + k ≤ n →
      ((done ++ pre ++ cur'.take k).flatMap tokens).length ≤ ((msgs.take n).flatMap tokens).length := by
    intro k hk hkn
    rw [← htake k hk]
    exact length_tokens_take_le msgs hkn
  rw [h0] at hlt2
  -- either way, at least so much has come
  have hbound : ((msgs.take n).flatMap tokens).length = (calls ++ [c]).flatten.length ∨
      ∃ m, msgs[n]? = some m ∧ ((msgs.take n).flatMap tokens).length + (line m).length ≤ (calls ++ [c]).flatten.length := by
    rcases hn2 with ⟨early, late, he, hef⟩ | ⟨m, rest, hm, hmf⟩
    · rcases List.eq_nil_or_concat late with rfl | ⟨late', d, rfl⟩
      · rw [List.append_nil] at he
        exact .inl (by rw [he, hef])
      · rw [List.concat_eq_append, ← List.append_assoc] at he
        have := h.settled n ⟨hn, .inl ⟨early, late', (List.append_inj' he rfl).1, hef⟩⟩
        simp at hlt
        omega
    · exact .inr ⟨m, hm, by rw [hmf]; simp⟩
  cases hu with
  | none =>
    simp only [List.take_nil, List.append_nil, List.flatMap_append, List.length_append, List.flatMap_nil, List.length_nil] at hlt2 hfl
    rcases hbound with hb | ⟨m, -, hb⟩ <;> omega
  | one x ne le =>
    have h1 := hlong 1 (by simp) hlt
    have hT : T'.length ≠ 0 := by simpa using ne
    simp only [List.take_succ_cons, List.take_zero, List.flatMap_append, List.length_append] at h1 hfl
    rcases hbound with hb | ⟨m, -, hb⟩ <;> omega
  | two x y p hp hpl hrest =>
    have hly := (hl y).length_le
    have hT : T'.length ≠ 0 := by omega
    rcases Nat.lt_or_ge ((done ++ pre).length + 1) n with hn1 | hn1
    · have h1 := hlong 2 (by simp) hn1
      simp only [List.take_succ_cons, List.take_zero, List.flatMap_append, List.length_append] at h1 hfl
      rcases hbound with hb | ⟨m, -, hb⟩ <;> omega
    · obtain rfl : n = (done ++ pre).length + 1 := by omega
      rw [htake 1 (by simp)] at hbound
      simp only [List.take_succ_cons, List.take_zero, List.flatMap_append, List.length_append, List.flatMap_cons, List.flatMap_nil,
        List.length_nil] at hbound hfl
      rcases hbound with hb | ⟨m, hm, hb⟩
      · omega
      · have : m = y := by
          have hy : msgs[(done ++ pre).length + 1]? = some y := by
            rw [hsplit, List.getElem?_append_right (by omega)]
            simp
          rw [List.length_append, hm] at hy
          exact Option.some.inj hy
        subst this
        omega

/-- When everything has come. -/
theorem Sofar.over (h : Sofar tokens line msgs calls done cur fut T) (hl : ∀ x, line x <+: tokens x) (hne : ∀ x, line x ≠ [])
    (hall : calls.flatten = msgs.flatMap tokens) : done = msgs ∧ cur = [] ∧ T = [] := by
  have hfl := congrArg List.length h.flat
  have hal := congrArg List.length hall
  rw [h.split] at hal
  simp only [List.flatMap_append, List.length_append] at hfl hal
  have hfut : fut = [] := by
    cases fut with
    | nil => rfl
    | cons x xs =>
      have : 0 < (tokens x).length := List.length_pos_iff.2 fun h0 => hne x (List.prefix_nil.1 (h0 ▸ hl x))
      simp only [List.flatMap_cons, List.length_append] at hal
      omega
  have hcur : cur = [] ∧ T = [] := by
    rcases h.unfinished.last (fun x => (hl x).length_le) with h | ⟨init, x, rfl, -, hT⟩
    · exact h
    · have := List.length_pos_iff.2 hT
      omega
  refine ⟨?_, hcur⟩
  rw [h.split, hfut, hcur.1]
  simp

end

end Model
