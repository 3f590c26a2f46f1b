/-
What is still to come of a chunked body.
-/
import Verif.Lemmas.ConnIdentity
import Verif.Spec.Chunked
import Verif.Props.Parsers

namespace Model

open M Spec

/-- Where the parser is inside a chunked body: what it expects, and the chunks after that. -/
inductive Want where
  | size (cs : List BodyChunk)
  | data (d : Bytes) (cs : List BodyChunk)
  | crlf (cs : List BodyChunk)
  | lf (cs : List BodyChunk)

namespace Want

def chunks : Want → List BodyChunk
  | size cs => cs
  | data _ cs => cs
  | crlf cs => cs
  | lf cs => cs

def tokens : Want → List Token
  | size cs => encoded cs
  | data d cs => (d ++ [13, 10]).map .byte ++ encoded cs
  | crlf cs => .byte 13 :: .byte 10 :: encoded cs
  | lf cs => .byte 10 :: encoded cs

def body : Want → Bytes
  | size cs => carried cs
  | data d cs => d ++ carried cs
  | crlf cs => carried cs
  | lf cs => carried cs

/-- The number of CR LF pairs to come. -/
def pairs : Want → Nat
  | size cs => cs.length
  | data _ cs => cs.length + 1
  | crlf cs => cs.length + 1
  | lf cs => cs.length

/-- The state of the parser there. -/
def Fits (h : Half) : Want → Prop
  | size _ => h.state = .bodyChunkedLength
  | data d _ => h.state = .bodyChunkedData ∧ h.chunkedLength = some d.length ∧ d ≠ []
  | crlf _ => h.state = .bodyChunkedDataEnd
  | lf _ => h.state = .bodyChunkedDataEnd

end Want

theorem bytesOf_append (a b : List Token) : bytesOf (a ++ b) = bytesOf a ++ bytesOf b := by
  simp [bytesOf]

theorem bytesOf_byte (d : Bytes) : bytesOf (d.map .byte) = d := by
  unfold bytesOf
  induction d with
  | nil => rfl
  | cons c d ih => simp [Token.bytes, ih]

theorem bytesOf_cons_byte (c : UInt8) (ts : List Token) : bytesOf (.byte c :: ts) = c :: bytesOf ts := rfl
theorem bytesOf_cons_line (l : Bytes) (ts : List Token) : bytesOf (.line l :: ts) = l ++ bytesOf ts := by
  simp [bytesOf, Token.bytes]

theorem encoded_cons (c : BodyChunk) (cs : List BodyChunk) :
    encoded (c :: cs) = .line c.line :: ((c.data ++ [13, 10]).map .byte ++ encoded cs) := by
  simp [encoded, BodyChunk.tokens]

theorem takeTillLf_line {x rest : Bytes} (hx : (10 : UInt8) ∉ x) :
    takeTillLf (x ++ 10 :: rest) = .ok rest (x ++ [10]) := by
  have h1 : (x ++ 10 :: rest).takeWhile (fun c => !(c == 10)) = x ∧
      (x ++ 10 :: rest).dropWhile (fun c => !(c == 10)) = 10 :: rest := by
    refine span_of_append ?_ ?_
    · intro c hc
      have : c ≠ 10 := by rintro rfl; exact hx hc
      simpa using this
    · simp
  unfold takeTillLf takeTillIncl Nom.takeTillS Nom.takeWhileS
  rw [h1.1, h1.2, if_neg (by simp)]
  dsimp only
  have h2 : x.length + 1 = (x ++ [10]).length := by simp
  have h3 : x ++ 10 :: rest = (x ++ [10]) ++ rest := by simp
  rw [h2, h3, List.drop_left, List.take_left]

theorem takeTillLf_none {x : Bytes} (hx : (10 : UInt8) ∉ x) : takeTillLf x = .incomplete := by
  have : x.dropWhile (fun c => !(c == 10)) = [] := by
    induction x with
    | nil => rfl
    | cons c x ih =>
      have : c ≠ 10 := by rintro rfl; exact hx (by simp)
      rw [List.dropWhile_cons]
      rw [if_pos (by simpa using this)]
      exact ih (by intro h; exact hx (by simp [h]))
  unfold takeTillLf takeTillIncl Nom.takeTillS Nom.takeWhileS
  rw [if_pos this]

/-- A size line, with white space before it. -/
theorem sizeLine_parse {line buf : Bytes} {n : Nat} (h : SizeLine line n) (hn : n ≤ 2147483647)
    (hbuf : ∀ c ∈ buf, c ∈ [(0x0d : UInt8), 0x0a, 0x20, 0x09, 0x0b, 0x0c]) :
    ∃ ext, parseChunkedLength (buf ++ line) = .ok (some n) ext := by
  obtain ⟨ds, ext, rfl, hne, hds, rfl, hext, -⟩ := h
  refine ⟨decide (59 ∈ ext ++ [10]), ?_⟩
  have := Props.C09_parse_chunked_length buf ds (ext ++ [10]) hbuf hne hds ?_
  · rw [if_pos hn] at this
    rw [List.append_assoc ds, ← List.append_assoc]
    exact this
  · intro c hc
    cases ext with
    | nil =>
      simp only [List.nil_append, List.head?_cons, Option.mem_def, Option.some.injEq] at hc
      subst hc
      decide
    | cons a ext => exact hext c (by simpa using hc)

theorem sizeLine_line {line : Bytes} {n : Nat} (h : SizeLine line n) (rest : Bytes) :
    takeTillLf (line ++ rest) = .ok rest line := by
  obtain ⟨ds, ext, rfl, hne, hds, -, -, hext⟩ := h
  have := takeTillLf_line (x := ds ++ ext) (rest := rest) ?_
  · simpa using this
  · intro h
    rcases List.mem_append.1 h with h | h
    · exact absurd (hds _ h) (by decide)
    · exact hext h

theorem sizeLine_head {line : Bytes} {n : Nat} (h : SizeLine line n) : ∃ c r, line = c :: r ∧ IsHexDigit c := by
  obtain ⟨ds, ext, rfl, hne, hds, -, -, hext⟩ := h
  obtain ⟨c, r, rfl⟩ := List.exists_cons_of_ne_nil hne
  exact ⟨c, r ++ ext ++ [10], by simp, hds c (by simp)⟩

theorem sizeLine_ne {line : Bytes} {n : Nat} (h : SizeLine line n) : line ≠ [10] := by
  obtain ⟨c, r, rfl, hc⟩ := sizeLine_head h
  rintro ⟨⟩
  exact absurd hc (by decide)

theorem sizeLine_not_ctl {line : Bytes} {n : Nat} (h : SizeLine line n) : isChunkedCtlLine line = false := by
  obtain ⟨c, r, rfl, hc⟩ := sizeLine_head h
  have hd : ∀ c, IsHexDigit c → isChunkedCtlChar c = false := by decide +kernel
  have := hd c hc
  simp [isChunkedCtlLine, this]

/-- What the beginning of the remaining tokens can be. -/
inductive Ahead (ts' : List Token) : Want → List Token → Prop where
  | sizeNone (cs) (h : ts' = encoded cs) : Ahead ts' (.size cs) []
  | size (c cs ts) (h : ts ++ ts' = (Want.data c.data cs).tokens) : Ahead ts' (.size (c :: cs)) (.line c.line :: ts)
  | dataSome (d d' cs) (hd : d' ≠ []) (h : ts' = (Want.data d' cs).tokens) :
      Ahead ts' (.data (d ++ d') cs) (d.map .byte)
  | data (d cs ts) (h : ts ++ ts' = (Want.crlf cs).tokens) : Ahead ts' (.data d cs) (d.map .byte ++ ts)
  | crlfNone (cs) (h : ts' = (Want.crlf cs).tokens) : Ahead ts' (.crlf cs) []
  | crlfOne (cs) (h : ts' = (Want.lf cs).tokens) : Ahead ts' (.crlf cs) [.byte 13]
  | crlf (cs ts) (h : ts ++ ts' = (Want.size cs).tokens) : Ahead ts' (.crlf cs) (.byte 13 :: .byte 10 :: ts)
  | lfNone (cs) (h : ts' = (Want.lf cs).tokens) : Ahead ts' (.lf cs) []
  | lf (cs ts) (h : ts ++ ts' = (Want.size cs).tokens) : Ahead ts' (.lf cs) (.byte 10 :: ts)

theorem ahead {w : Want} {ts ts' : List Token} (h : ts ++ ts' = w.tokens) : Ahead ts' w ts := by
  cases w with
  | size cs =>
    cases ts with
    | nil => exact .sizeNone cs h
    | cons a ts =>
      cases cs with
      | nil => exact absurd h (by simp [Want.tokens, encoded])
      | cons c cs =>
        have h2 := h.trans (encoded_cons c cs)
        obtain ⟨rfl, h3⟩ := List.cons.inj h2
        exact .size c cs ts h3
  | data d cs =>
    have h' : ts ++ ts' = d.map .byte ++ (Want.crlf cs).tokens := by rw [h]; simp [Want.tokens]
    by_cases hlt : ts.length < d.length
    · have h1 : ts = (d.take ts.length).map .byte := by
        have := congrArg (List.take ts.length) h'
        rw [List.take_left, List.take_append_of_le_length (by simp; omega), ← List.map_take] at this
        exact this
      have h2 : ts' = (d.drop ts.length).map .byte ++ (Want.crlf cs).tokens := by
        have := congrArg (List.drop ts.length) h'
        rw [List.drop_left, List.drop_append_of_le_length (by simp; omega), ← List.map_drop] at this
        exact this
      have := Ahead.dataSome (ts' := ts') (d.take ts.length) (d.drop ts.length) cs
        (by rw [ne_eq, List.drop_eq_nil_iff]; omega) (by rw [h2]; simp [Want.tokens])
      rw [List.take_append_drop, ← h1] at this
      exact this
    · have h1 : ts = d.map .byte ++ ts.drop d.length := by
        have := congrArg (List.take d.length) h'
        rw [List.take_append_of_le_length (by omega), List.take_append_of_le_length (by simp),
          List.take_of_length_le (l := d.map Token.byte) (by simp)] at this
        rw [← this, List.take_append_drop]
      have h2 : ts.drop d.length ++ ts' = (Want.crlf cs).tokens := by
        rw [h1, List.append_assoc] at h'
        exact List.append_cancel_left h'
      rw [h1]
      exact .data d cs _ h2
  | crlf cs =>
    cases ts with
    | nil => exact .crlfNone cs h
    | cons a ts =>
      obtain ⟨rfl, h2⟩ := List.cons.inj h
      cases ts with
      | nil => exact .crlfOne cs h2
      | cons a ts =>
        obtain ⟨rfl, h3⟩ := List.cons.inj h2
        exact .crlf cs ts h3
  | lf cs =>
    cases ts with
    | nil => exact .lfNone cs h
    | cons a ts =>
      obtain ⟨rfl, h2⟩ := List.cons.inj h
      exact .lf cs ts h2

theorem bytesOf_length {ts : List Token} (h : ∀ t ∈ ts, t.bytes ≠ []) : ts.length ≤ (bytesOf ts).length := by
  induction ts with
  | nil => simp
  | cons t ts ih =>
    have h1 := ih fun t ht => h t (by simp [ht])
    have h2 : t.bytes.length ≠ 0 := by
      rw [ne_eq, List.length_eq_zero_iff]
      exact h t (by simp)
    have h3 : (bytesOf (t :: ts)).length = t.bytes.length + (bytesOf ts).length := by simp [bytesOf]
    rw [h3, List.length_cons]
    omega

theorem token_bytes {w : Want} (h : ∀ c ∈ w.chunks, c.Valid) (t : Token) (ht : t ∈ w.tokens) : t.bytes ≠ [] := by
  have henc : ∀ cs : List BodyChunk, (∀ c ∈ cs, c.Valid) → t ∈ encoded cs → t.bytes ≠ [] := by
    intro cs hv ht
    obtain ⟨c, hc, ht⟩ := List.mem_flatMap.1 ht
    rcases List.mem_cons.1 ht with rfl | ht
    · obtain ⟨x, r, hx, -⟩ := sizeLine_head (hv c hc).1
      show c.line ≠ []
      rw [hx]
      simp
    · obtain ⟨x, -, rfl⟩ := List.mem_map.1 ht
      simp [Token.bytes]
  cases w with
  | size cs => exact henc cs h ht
  | data d cs =>
    rcases List.mem_append.1 ht with ht | ht
    · obtain ⟨x, -, rfl⟩ := List.mem_map.1 ht
      simp [Token.bytes]
    · exact henc cs h ht
  | crlf cs =>
    rcases List.mem_cons.1 ht with rfl | ht
    · simp [Token.bytes]
    · rcases List.mem_cons.1 ht with rfl | ht
      · simp [Token.bytes]
      · exact henc cs h ht
  | lf cs =>
    rcases List.mem_cons.1 ht with rfl | ht
    · simp [Token.bytes]
    · exact henc cs h ht

end Model
