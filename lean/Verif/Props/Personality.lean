/-
C45: server personalities.
-/
import Verif.Spec.Personality
import Verif.Props.UriNorm

open Model Spec

namespace Props

/-- C45: a supported personality is accepted and remembered; afterwards each setting has the value of
the table if the table mentions it and its previous value otherwise; nothing else changes. -/
theorem C45_supported (c : Config) (p : Personality) (t : List (Switch × Value))
    (h : personalityTable p = some t) :
    ∃ c', c.setServerPersonality p = (.ok (), c') ∧ c'.serverPersonality = p ∧
      (∀ sw, setting c' sw = (t.lookup sw).getD (setting c sw)) ∧ SameRest c c' := by
  rcases c with ⟨_, _, _, _, ⟨_, _, _, _, _, _, _, _, _, _, _, _, _, _, _, _, _, _, _, _, _, _⟩, _, _, _, _, _, _, _, _⟩
  cases p <;> simp only [personalityTable, reduceCtorEq, Option.some.injEq] at h <;> subst h <;>
    simp only [Config.setServerPersonality, Config.setServerPersonality.remember,
      Config.setBackslashConvertSlashes, Config.setPathSeparatorsDecode,
      Config.setPathSeparatorsCompress, Config.setUEncodingDecode, Config.setUrlEncodingInvalidHandling,
      Config.setUrlEncodingInvalidUnwanted, Config.setControlCharsUnwanted, Config.setConvertLowercase,
      Config.setUtf8ConvertBestfit,
      Config.setRequestlineLeadingWhitespaceUnwanted, Config.setUEncodingUnwanted] <;>
    refine ⟨_, rfl, rfl, ?_, rfl⟩ <;> intro sw <;> cases sw <;> rfl

/-- C45: an unsupported personality is refused and changes nothing. -/
theorem C45_unsupported (c : Config) (p : Personality) (h : personalityTable p = none) :
    c.setServerPersonality p = (.error .error, c) := by
  cases p <;> simp [personalityTable] at h <;> rfl

/-- C45 with C52: under every supported personality except MINIMAL (which compresses nothing) and IDS
(which converts UTF-8 afterwards), starting from the default configuration, a normalized path has no
two slashes in a row; except for APACHE_2 it has no backslash either. -/
theorem C45_normalized_paths (p : Personality) (c' : Config)
    (h : ({} : Config).setServerPersonality p = (.ok (), c')) (hm : p ≠ .minimal) (hi : p ≠ .ids)
    (ovf : Bool) (flags : Flags) (status : Unwanted) (u : Uri) (raw : Bytes) (hu : u.path = some raw) :
    ∃ f st t, u.normalizedPath ovf c'.decoderCfg flags status = some (f, st, some t) ∧
      t.length ≤ raw.length ∧ ¬ b! "//" <:+: t ∧ (p ≠ .apache_2 → 92 ∉ t) := by
  have hc : c'.decoderCfg.urlEncodingInvalidHandling ≠ .processInvalid ∧
      c'.decoderCfg.utf8ConvertBestfit = false ∧ c'.decoderCfg.pathSeparatorsCompress = true ∧
      (p ≠ .apache_2 → c'.decoderCfg.backslashConvertSlashes = true) := by
    cases p <;>
      simp only [ne_eq, not_true_eq_false, reduceCtorEq, not_false_eq_true] at hm hi <;>
      (cases h; try simp [Config.setBackslashConvertSlashes, Config.setPathSeparatorsDecode,
        Config.setPathSeparatorsCompress, Config.setUEncodingDecode, Config.setUrlEncodingInvalidHandling,
        Config.setUrlEncodingInvalidUnwanted, Config.setControlCharsUnwanted,
        Config.setRequestlineLeadingWhitespaceUnwanted, Config.setUEncodingUnwanted])
  obtain ⟨f, st, t, h1, _, h3⟩ := C52_normalized_path ovf c'.decoderCfg flags status u raw hu hc.1
  obtain ⟨h4, h5, h6, _⟩ := h3 hc.2.1
  exact ⟨f, st, t, h1, h4, h5 hc.2.2.1, fun ha => h6 (hc.2.2.2 ha)⟩

/-! Switching from APACHE_2 to IIS 6 keeps a setting that only APACHE_2 touches. -/
example : ((({} : Config).setServerPersonality .apache_2).2.setServerPersonality .iis_6_0).2.decoderCfg.urlEncodingInvalidUnwanted
    = .code400 := rfl
example : (({} : Config).setServerPersonality .iis_7_5).2.decoderCfg.controlCharsUnwanted = .code400 := rfl

end Props
