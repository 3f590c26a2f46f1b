/-
Lemmas about the chain of decompressors.
-/
import Verif.Model.Decompressors

namespace Model

/-- After a refusal of the callback the computation ends at once, with a result that satisfies `fails`. -/
def Prog.Honest {α : Type} (fails : α → Prop) : Prog α → Prop
  | .ret _ => True
  | .stuck => True
  | .call _ next => (next true).Honest fails ∧ ∃ a, next false = .ret a ∧ fails a

theorem Prog.Honest.bind {α β : Type} {fa : α → Prop} {fb : β → Prop} {p : Prog α} {f : α → Prog β}
    (h : p.Honest fa) (hf : ∀ a, fa a → ∃ b, f a = .ret b ∧ fb b) (hh : ∀ a, (f a).Honest fb) : (p.bind f).Honest fb := by
  induction p with
  | ret a => exact hh a
  | stuck => trivial
  | call out next ih =>
    obtain ⟨h1, a, h2, h3⟩ := h
    refine ⟨ih true h1, ?_⟩
    obtain ⟨b, hb, hfb⟩ := hf a h3
    exact ⟨b, by show (next false).bind f = _; rw [h2]; exact hb, hfb⟩

variable {C : Codecs}

/-- The result is an error. -/
def Failed {ε α β : Type} (r : Except ε α × β) : Prop := ∃ e, r.1 = .error e

theorem chain_honest (fuel : Nat) :
    (∀ (c : Chain C) (d : Bytes), (c.write fuel d).Honest Failed) ∧
    (∀ (c : Chain C) (d : Bytes), (c.writeAll fuel d).Honest Failed) ∧
    (∀ (l : Layer C) (w : Writer C) (c : Chain C), (Chain.flushWriter fuel l w c).Honest Failed) := by
  induction fuel with
  | zero => exact ⟨fun c d => by unfold Chain.write; trivial, fun c d => by unfold Chain.writeAll; trivial,
      fun l w c => by unfold Chain.flushWriter; trivial⟩
  | succ fuel ih =>
    obtain ⟨ih1, ih2, ih3⟩ := ih
    refine ⟨fun c d => ?_, fun c d => ?_, fun l w c => ?_⟩
    · cases c with
      | callback =>
        unfold Chain.write
        exact ⟨trivial, _, rfl, _, rfl⟩
      | lost => unfold Chain.write; trivial
      | layer l inner =>
        unfold Chain.write
        split
        · exact (ih1 inner d).bind (fun a ⟨e, he⟩ => ⟨_, rfl, e, he⟩) fun a => trivial
        · split
          · trivial
          · split
            · trivial
            · refine (ih3 _ _ _).bind ?_ ?_
              · rintro ⟨r, l, w, c⟩ ⟨e, he⟩
                simp only at he
                subst he
                exact ⟨_, rfl, _, rfl⟩
              · rintro ⟨r, l, w, c⟩
                cases r with
                | error e => trivial
                | ok u => exact ih1 _ _
            · split
              · exact ih1 _ _
              · refine (ih1 _ _).bind ?_ ?_
                · rintro ⟨r, c⟩ ⟨e, he⟩
                  simp only at he
                  subst he
                  exact ⟨_, rfl, _, rfl⟩
                · rintro ⟨r, c⟩
                  cases r <;> trivial
    · unfold Chain.writeAll
      split
      · trivial
      · refine (ih1 _ _).bind ?_ ?_
        · rintro ⟨r, c⟩ ⟨e, he⟩
          simp only at he
          subst he
          exact ⟨_, rfl, _, rfl⟩
        · rintro ⟨r, c⟩
          cases r with
          | error e => trivial
          | ok n =>
            dsimp only
            split
            · trivial
            · exact ih2 _ _
    · unfold Chain.flushWriter
      split
      · trivial
      · split
        refine Prog.Honest.bind (fa := Failed) ?_ ?_ ?_
        · split
          · exact ih2 _ _
          · trivial
        · rintro ⟨r, c⟩ ⟨e, he⟩
          simp only at he
          subst he
          exact ⟨_, rfl, _, rfl⟩
        · rintro ⟨r, c⟩
          cases r with
          | error e => trivial
          | ok u =>
            dsimp only
            split
            · trivial
            · exact ih3 _ _ _
            · split <;> trivial

theorem flush_honest (fuel : Nat) (c : Chain C) : (c.flush fuel).Honest Failed := by
  induction fuel generalizing c with
  | zero => unfold Chain.flush; trivial
  | succ fuel ih =>
    cases c with
    | callback => unfold Chain.flush; trivial
    | lost => unfold Chain.flush; trivial
    | layer l inner =>
      unfold Chain.flush
      split
      · exact (ih inner).bind (fun a ⟨e, he⟩ => ⟨_, rfl, e, he⟩) fun a => trivial
      · refine ((chain_honest fuel).2.2 _ _ _).bind ?_ ?_
        · rintro ⟨r, l, w, c⟩ ⟨e, he⟩
          simp only at he
          subst he
          exact ⟨_, rfl, _, rfl⟩
        · rintro ⟨r, l, w, c⟩
          cases r with
          | error e => trivial
          | ok u => exact (ih c).bind (fun a ⟨e, he⟩ => ⟨_, rfl, e, he⟩) fun a => trivial

theorem decompress_honest (fuel : Nat) (c : Chain C) (d : Bytes) : (c.decompress fuel d).Honest Failed := by
  unfold Chain.decompress
  refine ((chain_honest fuel).2.1 _ _).bind ?_ ?_
  · rintro ⟨r, c⟩ ⟨e, he⟩
    simp only at he
    subst he
    exact ⟨_, rfl, _, rfl⟩
  · rintro ⟨r, c⟩
    cases r with
    | error e => trivial
    | ok u => exact flush_honest _ _

theorem finish_honest (fuel : Nat) (c : Chain C) : (c.finish fuel).Honest fun r => ∃ e, r = .error e := by
  induction fuel generalizing c with
  | zero => unfold Chain.finish; trivial
  | succ fuel ih =>
    cases c with
    | callback => unfold Chain.finish; exact ⟨trivial, _, rfl, _, rfl⟩
    | lost => unfold Chain.finish; trivial
    | layer l inner =>
      unfold Chain.finish
      split
      · exact ih inner
      · refine ((chain_honest fuel).2.2 _ _ _).bind ?_ ?_
        · rintro ⟨r, l, w, c⟩ ⟨e, he⟩
          simp only at he
          subst he
          exact ⟨_, rfl, _, rfl⟩
        · rintro ⟨r, l, w, c⟩
          cases r with
          | error e => trivial
          | ok u =>
            dsimp only
            split
            · trivial
            · refine ((chain_honest fuel).2.1 _ _).bind ?_ ?_
              · rintro ⟨r, c⟩ ⟨e, he⟩
                simp only at he
                subst he
                exact ⟨_, rfl, _, rfl⟩
              · rintro ⟨r, c⟩
                cases r with
                | error e => trivial
                | ok u => exact ih c

end Model
