/-
What each server personality switches, as a table (from the documentation in src/config.rs and in the
C header: which reactions of the named server are mimicked).
-/
import Verif.Model.Config

namespace Spec
open Model

/-- The settings a personality may touch. -/
inductive Switch where
  | backslashConvertSlashes | pathSeparatorsDecode | pathSeparatorsCompress | convertLowercase
  | utf8ConvertBestfit | uEncodingDecode | uEncodingUnwanted | urlEncodingInvalidHandling
  | urlEncodingInvalidUnwanted | controlCharsUnwanted | requestlineLeadingWhitespaceUnwanted
  deriving DecidableEq

inductive Value where
  | flag (b : Bool) | reaction (u : Unwanted) | handling (h : Handling)
  deriving DecidableEq

/-- The current value of a setting. -/
def setting (c : Config) : Switch → Value
  | .backslashConvertSlashes => .flag c.decoderCfg.backslashConvertSlashes
  | .pathSeparatorsDecode => .flag c.decoderCfg.pathSeparatorsDecode
  | .pathSeparatorsCompress => .flag c.decoderCfg.pathSeparatorsCompress
  | .convertLowercase => .flag c.decoderCfg.convertLowercase
  | .utf8ConvertBestfit => .flag c.decoderCfg.utf8ConvertBestfit
  | .uEncodingDecode => .flag c.decoderCfg.uEncodingDecode
  | .uEncodingUnwanted => .reaction c.decoderCfg.uEncodingUnwanted
  | .urlEncodingInvalidHandling => .handling c.decoderCfg.urlEncodingInvalidHandling
  | .urlEncodingInvalidUnwanted => .reaction c.decoderCfg.urlEncodingInvalidUnwanted
  | .controlCharsUnwanted => .reaction c.decoderCfg.controlCharsUnwanted
  | .requestlineLeadingWhitespaceUnwanted => .reaction c.requestlineLeadingWhitespaceUnwanted

/-- Servers of the Windows family: backslash is a separator, encoded separators are decoded. -/
def windowsPaths : List (Switch × Value) :=
  [(.backslashConvertSlashes, .flag true), (.pathSeparatorsDecode, .flag true),
   (.pathSeparatorsCompress, .flag true)]

/-- The settings of each personality; `none`: not supported. -/
def personalityTable : Personality → Option (List (Switch × Value))
  | .minimal => some []
  | .generic => some windowsPaths
  | .ids => some (windowsPaths ++
      [(.convertLowercase, .flag true), (.utf8ConvertBestfit, .flag true),
       (.uEncodingDecode, .flag true), (.requestlineLeadingWhitespaceUnwanted, .reaction .ignore)])
  | .iis_4_0 => none
  | .iis_5_0 => none
  | .iis_5_1 => some (windowsPaths ++
      [(.uEncodingDecode, .flag false), (.urlEncodingInvalidHandling, .handling .preservePercent),
       (.controlCharsUnwanted, .reaction .ignore),
       (.requestlineLeadingWhitespaceUnwanted, .reaction .ignore)])
  | .iis_6_0 => some (windowsPaths ++
      [(.uEncodingDecode, .flag true), (.urlEncodingInvalidHandling, .handling .preservePercent),
       (.uEncodingUnwanted, .reaction .code400), (.controlCharsUnwanted, .reaction .code400),
       (.requestlineLeadingWhitespaceUnwanted, .reaction .ignore)])
  | .iis_7_0 | .iis_7_5 => some (windowsPaths ++
      [(.uEncodingDecode, .flag true), (.urlEncodingInvalidHandling, .handling .preservePercent),
       (.urlEncodingInvalidUnwanted, .reaction .code400), (.controlCharsUnwanted, .reaction .code400),
       (.requestlineLeadingWhitespaceUnwanted, .reaction .ignore)])
  | .apache_2 => some
      [(.backslashConvertSlashes, .flag false), (.pathSeparatorsDecode, .flag false),
       (.pathSeparatorsCompress, .flag true), (.uEncodingDecode, .flag false),
       (.urlEncodingInvalidHandling, .handling .preservePercent),
       (.urlEncodingInvalidUnwanted, .reaction .code400), (.controlCharsUnwanted, .reaction .ignore),
       (.requestlineLeadingWhitespaceUnwanted, .reaction .code400)]

/-- `c'` with the personality and the settings above put back to their values in `c`. -/
def putBack (c c' : Config) : Config :=
  { c' with
    serverPersonality := c.serverPersonality
    requestlineLeadingWhitespaceUnwanted := c.requestlineLeadingWhitespaceUnwanted
    decoderCfg := { c'.decoderCfg with
      backslashConvertSlashes := c.decoderCfg.backslashConvertSlashes
      pathSeparatorsDecode := c.decoderCfg.pathSeparatorsDecode
      pathSeparatorsCompress := c.decoderCfg.pathSeparatorsCompress
      convertLowercase := c.decoderCfg.convertLowercase
      utf8ConvertBestfit := c.decoderCfg.utf8ConvertBestfit
      uEncodingDecode := c.decoderCfg.uEncodingDecode
      uEncodingUnwanted := c.decoderCfg.uEncodingUnwanted
      urlEncodingInvalidUnwanted := c.decoderCfg.urlEncodingInvalidUnwanted
      controlCharsUnwanted := c.decoderCfg.controlCharsUnwanted
      urlEncodingInvalidHandling := c.decoderCfg.urlEncodingInvalidHandling } }

/-- `c'` differs from `c` at most in the personality and the settings above. -/
def SameRest (c c' : Config) : Prop := putBack c c' = c

end Spec
