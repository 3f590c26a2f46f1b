/-
Properties of the status reported for unwanted escapes: C51.
-/
import Verif.Lemmas.Status

namespace Props

open Model Spec Spec.Percent

variable {ovf : Bool} {cfg : DecoderConfig}

/-- C51. The status reported for a URI component or form field: the last of the statuses that are asked for what the
decoder meets in the text. -/
theorem C51_component {s : Bytes} {m : List Unwelcome} (h : Meets (optsOf cfg) s m)
    (hp : cfg.urlEncodingInvalidHandling ≠ .processInvalid) :
    ∃ d, decodeUri ovf cfg s = .ok [] d ∧
      d.code = (((m.map (asked cfg)).filter (· ≠ .ignore)).getLast?).getD .ignore := by
  obtain ⟨d, h1, h2⟩ := foldMany0_of_meets (ovf := ovf) h hp (s.length + 1) ⟨[], 0, .ignore⟩ (by omega)
  exact ⟨d, h1, h2.trans (foldCodes_eq m _)⟩

/-- C51. If the text contains an escape for which a status is asked, some status is reported, and it is one that is asked
for something in the text; it is exactly the status asked if nothing else in the text asks for another one. And a
status is reported only for such a text. -/
theorem C51_component_reports (s : Bytes) (hp : cfg.urlEncodingInvalidHandling ≠ .processInvalid) :
    ∃ m d, Meets (optsOf cfg) s m ∧ decodeUri ovf cfg s = .ok [] d ∧
      (∀ a ∈ m, asked cfg a ≠ .ignore → d.code ≠ .ignore ∧ ∃ b ∈ m, d.code = asked cfg b) ∧
      (∀ a ∈ m, asked cfg a ≠ .ignore → (∀ b ∈ m, asked cfg b = asked cfg a ∨ asked cfg b = .ignore) →
        d.code = asked cfg a) ∧
      (d.code ≠ .ignore → ∃ a ∈ m, d.code = asked cfg a) := by
  obtain ⟨m, hm⟩ := meets_total (optsOf cfg) s
  obtain ⟨d, h1, h2⟩ := C51_component (ovf := ovf) hm hp
  have key : ∀ a ∈ m, asked cfg a ≠ .ignore → d.code ≠ .ignore ∧ ∃ b ∈ m, d.code = asked cfg b := by
    intro a ha hne
    have hmem : asked cfg a ∈ (m.map (asked cfg)).filter (· ≠ .ignore) :=
      List.mem_filter.2 ⟨List.mem_map_of_mem ha, by simpa using hne⟩
    cases hl : ((m.map (asked cfg)).filter (· ≠ .ignore)).getLast? with
    | none =>
      rw [List.getLast?_eq_none_iff.1 hl] at hmem
      cases hmem
    | some c =>
      rw [hl, Option.getD_some] at h2
      have := List.mem_filter.1 (List.mem_of_getLast? hl)
      obtain ⟨b, hb, he⟩ := List.mem_map.1 this.1
      exact ⟨by simpa [h2] using this.2, b, hb, h2.trans he.symm⟩
  refine ⟨m, d, hm, h1, key, fun a ha hne hall => ?_, fun hc => ?_⟩
  · obtain ⟨k1, b, hb, k2⟩ := key a ha hne
    rcases hall b hb with h | h
    · rw [k2, h]
    · exact absurd (k2.trans h) k1
  · cases hl : ((m.map (asked cfg)).filter (· ≠ .ignore)).getLast? with
    | none =>
      rw [hl] at h2
      exact absurd h2 hc
    | some c =>
      rw [hl, Option.getD_some] at h2
      have := List.mem_filter.1 (List.mem_of_getLast? hl)
      obtain ⟨b, hb, he⟩ := List.mem_map.1 this.1
      exact ⟨b, hb, h2.trans he.symm⟩

/-- C51 for paths, proved for escaped NULs that end the path: the status asked for them is reported, whatever precedes
(if raw NULs end the path, there must be none in front). Missing: everything else, see `C51_path_overwritten`. -/
theorem C51_path_partial (a b : Bytes) (flags : Flags) (status : Unwanted)
    (hp : cfg.urlEncodingInvalidHandling ≠ .processInvalid)
    (hz : cfg.nulEncodedTerminates = true) (hn : cfg.nulEncodedUnwanted ≠ .ignore)
    (h0 : cfg.nulRawTerminates = true → 0 ∉ a) :
    ∃ f p, pathDecodeUriInplace ovf cfg flags status (a ++ b! "%00" ++ b) = some (f, cfg.nulEncodedUnwanted, p) := by
  obtain ⟨raw, n, h⟩ := Path.unescapes_total (Path.optsOf cfg) a
  have hs : a ++ b! "%00" ++ b = a ++ 37 :: 48 :: 48 :: b := by simp
  rw [hs]
  obtain ⟨d, h1, h2⟩ := Path.foldMany0_nulStop (ovf := ovf) (b := b) h hp hz hn h0 _ ⟨[], 0, .ignore⟩ (Nat.lt_succ_self _)
  rw [pathDecodeUriInplace, pathDecodeUri, h1]
  exact ⟨_, _, by rw [← h2]⟩

/-- C51 is false for paths: the status is the one of the last byte or escape of the path, so an invalid escape goes
unreported when anything follows it; … -/
theorem C51_path_overwritten :
    pathDecodeUriInplace true { urlEncodingInvalidUnwanted := .code400, urlEncodingInvalidHandling := .removePercent } 0
      .ignore (b! "/%zz") = some (Flag.PATH_INVALID_ENCODING, .ignore, b! "/zz") ∧
    pathDecodeUriInplace true { uEncodingUnwanted := .code400, uEncodingDecode := true } 0
      .ignore (b! "/%u0041b") = some (Flag.PATH_OVERLONG_U, .ignore, b! "/Ab") := by
  decide +kernel

/-- … an escaped NUL that does not end the path is never reported, … -/
theorem C51_path_nul_unreported :
    pathDecodeUriInplace true { nulEncodedUnwanted := .code400 } 0 .ignore (b! "/%00") =
      some (Flag.PATH_ENCODED_NUL, .ignore, b! "/" ++ [0]) := by
  decide +kernel

/-- … and a later form field overwrites the status of an earlier one. -/
theorem C51_form_overwritten :
    ((Form.parseComplete true { cfg := { urlEncodingInvalidUnwanted := .code400 } } (b! "a=%zz")).map (·.code)) =
      some .code400 ∧
    ((Form.parseComplete true { cfg := { urlEncodingInvalidUnwanted := .code400 } } (b! "a=%zz&b=1")).map (·.code)) =
      some .ignore := by
  decide +kernel

/- The hypotheses of `C51_component_reports` are met: two escapes with different statuses. -/
example : Meets (optsOf { nulEncodedUnwanted := .code404, urlEncodingInvalidUnwanted := .code400 }) (b! "a%zz%00b")
    [.invalidEscape, .escapedNul] :=
  .plain (by decide) (by decide) <| .bad (by rintro ⟨x, y, r, h, hx, _⟩; cases h; revert hx; decide)
    (by rintro ⟨u, r, h, hu⟩; cases h; revert hu; decide) <| .plain (by decide) (by decide) <|
    .plain (by decide) (by decide) <| .hexNul (by decide) (by decide) (by decide) rfl <|
    .plain (by decide) (by decide) .nil
example : decodeUri true { nulEncodedUnwanted := .code404, urlEncodingInvalidUnwanted := .code400 } (b! "a%zz%00b") =
    .ok [] ⟨b! "a%zz" ++ [0, 98], setFlag Flag.URLEN_INVALID_ENCODING Flag.URLEN_ENCODED_NUL, .code404⟩ := by
  decide +kernel
/- And those of `C51_path_partial`. -/
example : pathDecodeUriInplace true { nulEncodedUnwanted := .code404, nulEncodedTerminates := true } 0 .ignore
    (b! "/x%00y") = some (Flag.PATH_ENCODED_NUL, .code404, b! "/x") := by decide +kernel

end Props
