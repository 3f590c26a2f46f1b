/-
C47: the window on a chunk of connection data.
-/
import Verif.Model.ParserData

open Model

namespace Props

/-- A call never changes the data. -/
theorem call_data (d : PData) (c : DataCall) : (d.call c).2.data = d.data ∧ (d.call c).2.gapLen = d.gapLen := by
  cases c with
  | consume n => exact ⟨rfl, rfl⟩
  | unconsume n => simp only [PData.call, PData.unconsume]; split <;> exact ⟨rfl, rfl⟩
  | callbackData =>
    simp only [PData.call, PData.callbackData]
    split
    · exact ⟨rfl, rfl⟩
    · split <;> exact ⟨rfl, rfl⟩
  | resetCallbackStart => exact ⟨rfl, rfl⟩

theorem calls_data (d : PData) (cs : List DataCall) : (d.calls cs).2.data = d.data ∧ (d.calls cs).2.gapLen = d.gapLen := by
  induction cs generalizing d with
  | nil => exact ⟨rfl, rfl⟩
  | cons c cs ih =>
    have h1 := ih (d.call c).2
    have h2 := call_data d c
    exact ⟨h1.1.trans h2.1, h1.2.trans h2.2⟩

/-- C47: after any calls, the consumed part followed by the remaining part is the chunk, and the
reported length is the length of the remaining part. -/
theorem C47_window (chunk : Bytes) (cs : List DataCall)
    (h : ((PData.ofBytes chunk).calls cs).2.position ≤ chunk.length) :
    chunk.take ((PData.ofBytes chunk).calls cs).2.position ++ ((PData.ofBytes chunk).calls cs).2.asSlice = chunk ∧
    ((PData.ofBytes chunk).calls cs).2.unconsumed = some ((PData.ofBytes chunk).calls cs).2.asSlice ∧
    ((PData.ofBytes chunk).calls cs).2.len = chunk.length - ((PData.ofBytes chunk).calls cs).2.position := by
  have hd := (calls_data (PData.ofBytes chunk) cs)
  generalize ((PData.ofBytes chunk).calls cs).2 = d at *
  have h1 : d.data = some chunk := hd.1
  have h2 : d.gapLen = none := hd.2
  simp [PData.asSlice, PData.unconsumed, PData.len, h1, h2, h]

/-- C47: for a gap, the reported length is what is left of it. -/
theorem C47_gap_window (n : Nat) (cs : List DataCall) :
    ((PData.ofGap n).calls cs).2.len = n - ((PData.ofGap n).calls cs).2.position ∧
    ((PData.ofGap n).calls cs).2.asSlice = [] ∧ ((PData.ofGap n).calls cs).1 = [] := by
  have hd := (calls_data (PData.ofGap n) cs)
  refine ⟨?_, ?_, ?_⟩
  · have h2 : ((PData.ofGap n).calls cs).2.gapLen = some n := hd.2
    simp only [PData.len, h2]
    split <;> omega
  · have h1 : ((PData.ofGap n).calls cs).2.data = none := hd.1
    simp [PData.asSlice, h1]
  · have : ∀ (d : PData), d.data = none → (d.calls cs).1 = [] := by
      induction cs with
      | nil => intro d _; rfl
      | cons c cs ih =>
        intro d h
        simp only [PData.calls]
        rw [ih (calls_data (PData.ofGap n) cs) _ ((call_data d c).1.trans h)]
        cases c <;> simp [PData.call, PData.callbackData, h]
    exact this _ rfl

/-- Calls that stay within the chunk: never consume more than is left. -/
def WithinChunk (d : PData) : List DataCall → Prop
  | [] => True
  | .consume n :: cs => n ≤ d.len ∧ WithinChunk (d.call (.consume n)).2 cs
  | c :: cs => WithinChunk (d.call c).2 cs

/-- C47: as long as no call consumes more than is left, no more than the chunk is consumed. -/
theorem C47_within (chunk : Bytes) (cs : List DataCall) (h : WithinChunk (PData.ofBytes chunk) cs) :
    ((PData.ofBytes chunk).calls cs).2.position ≤ chunk.length := by
  have : ∀ (d : PData), d.data = some chunk → d.gapLen = none → d.position ≤ chunk.length →
      WithinChunk d cs → (d.calls cs).2.position ≤ chunk.length := by
    clear h
    induction cs with
    | nil => intro d _ _ h _; exact h
    | cons c cs ih =>
      intro d h1 h2 h3 h4
      have hc := call_data d c
      have hp : (d.call c).2.position ≤ chunk.length ∧ WithinChunk (d.call c).2 cs := by
        cases c with
        | consume n =>
          obtain ⟨ha, hb⟩ := h4
          refine ⟨?_, hb⟩
          simp only [PData.len, h2, PData.asSlice, h1, if_pos h3, List.length_drop] at ha
          simp only [PData.call, PData.consume]; omega
        | unconsume n =>
          refine ⟨?_, h4⟩
          simp only [PData.call, PData.unconsume]; split
          · simp only []; omega
          · exact Nat.zero_le _
        | callbackData =>
          refine ⟨?_, h4⟩
          simp only [PData.call, PData.callbackData, h1]; split <;> exact h3
        | resetCallbackStart => exact ⟨h3, h4⟩
      exact ih _ (hc.1.trans h1) (hc.2.trans h2) hp.1 hp.2
  exact this _ rfl rfl (Nat.zero_le _) h

/-- C47: the data handed out over any calls between two resets is one contiguous stretch of the
chunk, from where the first hand-out was due to where the next one is: in order, no byte twice, no byte
skipped. -/
theorem C47_contiguous (d : PData) (chunk : Bytes) (cs : List DataCall) (hd : d.data = some chunk)
    (hc : d.callbackPosition ≤ chunk.length) (hr : DataCall.resetCallbackStart ∉ cs) :
    d.callbackPosition ≤ (d.calls cs).2.callbackPosition ∧ (d.calls cs).2.callbackPosition ≤ chunk.length ∧
    chunk.take d.callbackPosition ++ (d.calls cs).1 = chunk.take (d.calls cs).2.callbackPosition := by
  induction cs generalizing d with
  | nil => simp [PData.calls, hc]
  | cons c cs ih =>
    have hcd := call_data d c
    simp only [List.mem_cons, not_or] at hr
    have step : d.callbackPosition ≤ (d.call c).2.callbackPosition ∧ (d.call c).2.callbackPosition ≤ chunk.length ∧
        chunk.take d.callbackPosition ++ (d.call c).1 = chunk.take (d.call c).2.callbackPosition := by
      cases c with
      | consume n => simp [PData.call, PData.consume, hc]
      | unconsume n =>
        simp only [PData.call, PData.unconsume]
        split <;> simp [hc]
      | callbackData =>
        simp only [PData.call, PData.callbackData, hd]
        split
        · rename_i h
          refine ⟨h.2, h.1, ?_⟩
          simp only []
          have e := List.take_append_drop d.callbackPosition (chunk.take d.position)
          rw [List.take_take, Nat.min_eq_left h.2] at e
          exact e
        · simp [hc]
      | resetCallbackStart => exact absurd rfl hr.1
    have h2 := ih (d.call c).2 (hcd.1.trans hd) step.2.1 hr.2
    refine ⟨Nat.le_trans step.1 h2.1, h2.2.1, ?_⟩
    simp only [PData.calls]
    rw [← List.append_assoc, step.2.2, h2.2.2]

/-- C47: consuming and handing out in any interleaving, then handing out once more, has handed out
exactly the consumed bytes: what was handed out followed by what remains is the chunk. -/
theorem C47_partition (chunk : Bytes) (cs : List DataCall) (hw : WithinChunk (PData.ofBytes chunk) cs)
    (hr : DataCall.resetCallbackStart ∉ cs) (hu : ∀ n, DataCall.unconsume n ∉ cs) :
    ((PData.ofBytes chunk).calls (cs ++ [.callbackData])).1 ++
      ((PData.ofBytes chunk).calls (cs ++ [.callbackData])).2.asSlice = chunk := by
  have mono : ∀ (cs : List DataCall) (d : PData), DataCall.resetCallbackStart ∉ cs → (∀ n, DataCall.unconsume n ∉ cs) →
      d.callbackPosition ≤ d.position → (d.calls cs).2.callbackPosition ≤ (d.calls cs).2.position := by
    intro cs
    induction cs with
    | nil => intro d _ _ h; exact h
    | cons c cs ih =>
      intro d hr hu h
      simp only [List.mem_cons, not_or] at hr
      refine ih _ hr.2 (fun n hn => hu n (List.mem_cons_of_mem _ hn)) ?_
      cases c with
      | consume n => simp only [PData.call, PData.consume]; omega
      | unconsume n => exact absurd List.mem_cons_self (hu n)
      | callbackData =>
        simp only [PData.call, PData.callbackData]
        split
        · exact h
        · split
          · exact Nat.le_refl _
          · exact h
      | resetCallbackStart => exact absurd rfl hr.1
  have app : ∀ (cs es : List DataCall) (d : PData), d.calls (cs ++ es) =
      ((d.calls cs).1 ++ ((d.calls cs).2.calls es).1, ((d.calls cs).2.calls es).2) := by
    intro cs es
    induction cs with
    | nil => intro d; simp [PData.calls]
    | cons c cs ih => intro d; simp [PData.calls, ih, List.append_assoc]
  have hp := C47_within chunk cs hw
  have hm := mono cs (PData.ofBytes chunk) hr hu (Nat.le_refl _)
  have hdat := (calls_data (PData.ofBytes chunk) cs)
  have hcon := C47_contiguous (PData.ofBytes chunk) chunk cs rfl (Nat.zero_le _) hr
  rw [app]
  generalize (PData.ofBytes chunk).calls cs = r at *
  obtain ⟨o, d⟩ := r
  have h1 : d.data = some chunk := hdat.1
  simp only [PData.ofBytes, List.take_zero, List.nil_append] at hcon
  simp only [PData.calls, PData.call, PData.callbackData, h1, hp, hm, and_self, if_true, PData.asSlice,
    List.append_nil]
  rw [hcon.2.2]
  have e := List.take_append_drop d.callbackPosition (chunk.take d.position)
  rw [List.take_take, Nat.min_eq_left hm] at e
  rw [e, List.take_append_drop]

/-! Concrete windows. -/
example : (PData.ofBytes (b! "abcdef")).calls [.consume 2, .callbackData, .consume 3, .unconsume 4, .callbackData,
    .consume 4, .callbackData] = (b! "abcde", ⟨some (b! "abcdef"), none, 5, 5⟩) := by decide +kernel
example : WithinChunk (PData.ofBytes (b! "abcdef")) [.consume 2, .callbackData, .consume 4] := by
  refine ⟨by decide +kernel, by decide +kernel, trivial⟩

end Props
