/-
C22 for responses: blocks of well-formed header lines that come in pieces.
-/
import Verif.Spec.BlockPieces
import Verif.Lemmas.AnsBlock
import Verif.Props.Message

namespace Props

open Model Spec

theorem pieces_aux {tail : Bytes} (ht : ∀ c ∈ tail.head?, c ≠ 32 ∧ c ≠ 9 ∧ c ≠ 13) (pieces : List Bytes) :
    ∀ (left : Bytes) (hs : List HeaderLine), hs ≠ [] → (∀ h ∈ hs, h.WellFormed) →
      (∃ w, w ≠ [] ∧ left ++ w = renderBlock hs) → left ++ pieces.flatten = renderBlock hs ++ tail →
      blockInPieces { side := .response } left pieces = some (hs.map parsedLine, tail) := by
  induction pieces with
  | nil =>
    rintro left hs - - ⟨w, hw, h1⟩ h2
    rw [← h1, List.flatten_nil, List.append_nil, List.append_assoc] at h2
    have h3 := congrArg List.length h2
    simp only [List.length_append] at h3
    have : w.length ≠ 0 := by rw [ne_eq, List.length_eq_zero_iff]; exact hw
    omega
  | cons x xs ih =>
    rintro left hs hne hw - h2
    rw [List.flatten_cons, ← List.append_assoc] at h2
    show (match (Ans.resP.headers (left ++ x)) with
      | .ok rest (hs, true) => some (hs, rest ++ xs.flatten)
      | .ok rest (hs, false) => (blockInPieces Ans.resP rest xs).map fun y : List ParsedHeader × Bytes => (hs ++ y.1, y.2)
      | .incomplete => blockInPieces Ans.resP (left ++ x) xs
      | .err => none) = _
    have hcase : (∃ more, more ≠ [] ∧ (left ++ x) ++ more = renderBlock hs ∧ xs.flatten = more ++ tail) ∨
        (∃ t1, left ++ x = renderBlock hs ++ t1 ∧ tail = t1 ++ xs.flatten) := by
      rcases List.append_eq_append_iff.mp h2 with ⟨a, e1, e2⟩ | ⟨a, e1, e2⟩
      · by_cases h0 : a = []
        · subst h0
          exact .inr ⟨[], by rw [e1]; simp, by simpa using e2.symm⟩
        · exact .inl ⟨a, h0, e1.symm, e2⟩
      · exact .inr ⟨a, e1, e2⟩
    rcases hcase with ⟨more, hm, e1, e2⟩ | ⟨t1, e1, e2⟩
    · obtain ⟨js, ms, rest, f1, f2, f3, f4, -⟩ :=
        Ans.headersLoop_part hs (left ++ x) more [] ((left ++ x).length + 1) hne hw e1 hm (by omega)
      by_cases h0 : Ans.resP.header (left ++ x) = .incomplete
      · have h1 : Ans.resP.headers (left ++ x) = .incomplete := by simp [HeaderParser.headers, h0]
        rw [h1]
        exact ih _ hs hne hw ⟨more, hm, e1⟩ (by rw [e2, ← e1]; simp)
      · have h1 : Ans.resP.headers (left ++ x) = .ok rest (js.map parsedLine, false) := by
          rw [headers_eq_loop _ _ h0, f3, List.nil_append]
        rw [h1]
        have h3 := ih rest ms f2 (fun h hh => hw h (by rw [f1]; simp [hh])) ⟨more, hm, f4⟩ (by rw [e2, ← f4]; simp)
        show (blockInPieces { side := .response } rest xs).map _ = _
        rw [h3, f1, List.map_append]
        rfl
    · have h1 := C21_block_recovered Ans.resP hs hne hw t1 (by
        intro _ c hc
        apply ht
        rw [e2]
        cases t1 with
        | nil => cases hc
        | cons => exact hc)
      rw [e1, h1, e2]
      rfl

/-- C22 for responses (full statement: two parts as in C22_two_parts_partial, for all data; false, C22_response_split). A
block of well-formed header lines followed by anything that does not begin with a blank or CR, cut into any number of
pieces at any places, the empty line included: the fields are those of the block, in order, and what follows is left. -/
theorem C22_response_pieces_partial (hs : List HeaderLine) (hne : hs ≠ []) (hw : ∀ h ∈ hs, h.WellFormed) (tail : Bytes)
    (ht : ∀ c ∈ tail.head?, c ≠ 32 ∧ c ≠ 9 ∧ c ≠ 13) (pieces : List Bytes) (hp : pieces.flatten = renderBlock hs ++ tail) :
    blockInPieces { side := .response } [] pieces =
      some (hs.map fun h =>
        { name := { text := h.name, flags := 0 },
          value := { text := h.value, flags := if h.value = [] then HFlag.VALUE_EMPTY else 0 } }, tail) :=
  pieces_aux ht pieces [] hs hne hw ⟨renderBlock hs, by
    cases hs with
    | nil => exact absurd rfl hne
    | cons h hs => simp [renderBlock, HeaderLine.render], rfl⟩ hp

/-- Case for C22_response_pieces_partial: every byte on its own. -/
example : let hs : List HeaderLine := [⟨b! "Host", b! " ", b! "a", []⟩, ⟨b! "X", [], b! "1 2", b! "\t"⟩]
    hs ≠ [] ∧ (∀ h ∈ hs, h.WellFormed) ∧ (∀ c ∈ (b! "body").head?, c ≠ 32 ∧ c ≠ 9 ∧ c ≠ 13) ∧
    ((renderBlock hs ++ b! "body").map fun c => [c]).flatten = renderBlock hs ++ b! "body" ∧
    blockInPieces { side := .response } [] ((renderBlock hs ++ b! "body").map fun c => [c]) =
      some ([⟨⟨b! "Host", 0⟩, ⟨b! "a", 0⟩⟩, ⟨⟨b! "X", 0⟩, ⟨b! "1 2", 0⟩⟩], b! "body") := by
  refine ⟨by simp, ?_, by decide +kernel, by decide +kernel, by decide +kernel⟩
  decide +kernel

/-- On the request side the end of the block is not found if the cut is within the empty line (as in C22_split_in_crlf). -/
theorem C22_request_pieces_false : ¬ ∀ (hs : List HeaderLine) (pieces : List Bytes), hs ≠ [] → (∀ h ∈ hs, h.WellFormed) →
    pieces.flatten = renderBlock hs → ∃ fs, blockInPieces { side := .request } [] pieces = some (fs, []) ∧ fs.length = hs.length := by
  intro h
  obtain ⟨fs, h1, h2⟩ := h [⟨b! "k", [], b! "v", []⟩] [b! "k:v\r\n\r", [10]] (by decide) (by decide +kernel) (by decide)
  have h3 : blockInPieces { side := .request } [] [b! "k:v\r\n\r", [10]] = none := by decide +kernel
  rw [h3] at h1
  cases h1

end Props
