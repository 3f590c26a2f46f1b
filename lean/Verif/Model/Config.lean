/-
Model of src/config.rs. Hooks and the parameter processor are not part of this record (they are
modelled where they are called).
-/
import Verif.Model.Util
import Verif.Model.Flags
import Verif.Model.Log
import Verif.Model.Hook

namespace Model

/-- src/decompressors.rs:26-41 `struct Options` with the defaults of lines 130-145. `lzma` is only
whether LZMA is enabled, with its memory limit. -/
structure CompressionOptions where
  lzma : Option Nat := some 1048576
  lzmaLayers : Option Nat := some 1
  bombLimit : Nat := 1048576
  bombRatio : Nat := 2048
  timeLimit : Nat := 100000
  timeTestFreq : Nat := 256
  layerLimit : Option Nat := some 2
  deriving Repr, DecidableEq

/-- src/config.rs:15-114 `struct Config` with the defaults of lines 116-154 (without hooks and
`parameter_processor`). -/
structure Config where
  fieldLimit : Nat := 18000
  logLevel : LogLevel := .notice
  txAutoDestroy : Bool := false
  serverPersonality : Personality := .minimal
  decoderCfg : DecoderConfig := {}
  responseDecompressionEnabled : Bool := true
  parseUrlencoded : Bool := false
  parseRequestAuth : Bool := true
  requestlineLeadingWhitespaceUnwanted : Unwanted := .ignore
  requestDecompressionEnabled : Bool := false
  compressionOptions : CompressionOptions := {}
  flushIncomplete : Bool := false
  maxTx : Nat := 512

namespace Config

/-- src/config.rs:560-562 `set_backslash_convert_slashes`. -/
def setBackslashConvertSlashes (c : Config) (b : Bool) : Config :=
  { c with decoderCfg := { c.decoderCfg with backslashConvertSlashes := b } }
/-- src/config.rs:568-570 `set_path_separators_decode`. -/
def setPathSeparatorsDecode (c : Config) (b : Bool) : Config :=
  { c with decoderCfg := { c.decoderCfg with pathSeparatorsDecode := b } }
/-- src/config.rs:576-578 `set_path_separators_compress`. -/
def setPathSeparatorsCompress (c : Config) (b : Bool) : Config :=
  { c with decoderCfg := { c.decoderCfg with pathSeparatorsCompress := b } }
/-- src/config.rs:589-591 `set_convert_lowercase`. -/
def setConvertLowercase (c : Config) (b : Bool) : Config :=
  { c with decoderCfg := { c.decoderCfg with convertLowercase := b } }
/-- src/config.rs:595-597 `set_utf8_convert_bestfit`. -/
def setUtf8ConvertBestfit (c : Config) (b : Bool) : Config :=
  { c with decoderCfg := { c.decoderCfg with utf8ConvertBestfit := b } }
/-- src/config.rs:553-555 `set_u_encoding_decode`. -/
def setUEncodingDecode (c : Config) (b : Bool) : Config :=
  { c with decoderCfg := { c.decoderCfg with uEncodingDecode := b } }
/-- src/config.rs:600-602 `set_u_encoding_unwanted`. -/
def setUEncodingUnwanted (c : Config) (u : Unwanted) : Config :=
  { c with decoderCfg := { c.decoderCfg with uEncodingUnwanted := u } }
/-- src/config.rs:605-607 `set_control_chars_unwanted`. -/
def setControlCharsUnwanted (c : Config) (u : Unwanted) : Config :=
  { c with decoderCfg := { c.decoderCfg with controlCharsUnwanted := u } }
/-- src/config.rs:615-617 `set_url_encoding_invalid_unwanted`. -/
def setUrlEncodingInvalidUnwanted (c : Config) (u : Unwanted) : Config :=
  { c with decoderCfg := { c.decoderCfg with urlEncodingInvalidUnwanted := u } }
/-- src/config.rs:535-537 `set_url_encoding_invalid_handling`. -/
def setUrlEncodingInvalidHandling (c : Config) (h : Handling) : Config :=
  { c with decoderCfg := { c.decoderCfg with urlEncodingInvalidHandling := h } }
/-- src/config.rs:620-622 `set_requestline_leading_whitespace_unwanted`. -/
def setRequestlineLeadingWhitespaceUnwanted (c : Config) (u : Unwanted) : Config :=
  { c with requestlineLeadingWhitespaceUnwanted := u }

/-- src/config.rs:435-496 `set_server_personality`; the configuration is returned also on error. -/
def setServerPersonality (c : Config) (p : Personality) : Except Status Unit × Config :=
  match p with
  | .minimal => remember c p
  | .generic =>
    let c := c.setBackslashConvertSlashes true
    let c := c.setPathSeparatorsDecode true
    let c := c.setPathSeparatorsCompress true
    remember c p
  | .ids =>
    let c := c.setBackslashConvertSlashes true
    let c := c.setPathSeparatorsDecode true
    let c := c.setPathSeparatorsCompress true
    let c := c.setConvertLowercase true
    let c := c.setUtf8ConvertBestfit true
    let c := c.setUEncodingDecode true
    let c := c.setRequestlineLeadingWhitespaceUnwanted .ignore
    remember c p
  | .apache_2 =>
    let c := c.setBackslashConvertSlashes false
    let c := c.setPathSeparatorsDecode false
    let c := c.setPathSeparatorsCompress true
    let c := c.setUEncodingDecode false
    let c := c.setUrlEncodingInvalidHandling .preservePercent
    let c := c.setUrlEncodingInvalidUnwanted .code400
    let c := c.setControlCharsUnwanted .ignore
    let c := c.setRequestlineLeadingWhitespaceUnwanted .code400
    remember c p
  | .iis_5_1 =>
    let c := c.setBackslashConvertSlashes true
    let c := c.setPathSeparatorsDecode true
    let c := c.setPathSeparatorsCompress true
    let c := c.setUEncodingDecode false
    let c := c.setUrlEncodingInvalidHandling .preservePercent
    let c := c.setControlCharsUnwanted .ignore
    let c := c.setRequestlineLeadingWhitespaceUnwanted .ignore
    remember c p
  | .iis_6_0 =>
    let c := c.setBackslashConvertSlashes true
    let c := c.setPathSeparatorsDecode true
    let c := c.setPathSeparatorsCompress true
    let c := c.setUEncodingDecode true
    let c := c.setUrlEncodingInvalidHandling .preservePercent
    let c := c.setUEncodingUnwanted .code400
    let c := c.setControlCharsUnwanted .code400
    let c := c.setRequestlineLeadingWhitespaceUnwanted .ignore
    remember c p
  | .iis_7_0 | .iis_7_5 =>
    let c := c.setBackslashConvertSlashes true
    let c := c.setPathSeparatorsDecode true
    let c := c.setPathSeparatorsCompress true
    let c := c.setUEncodingDecode true
    let c := c.setUrlEncodingInvalidHandling .preservePercent
    let c := c.setUrlEncodingInvalidUnwanted .code400
    let c := c.setControlCharsUnwanted .code400
    let c := c.setRequestlineLeadingWhitespaceUnwanted .ignore
    remember c p
  | .iis_4_0 | .iis_5_0 => (.error .error, c)
where
  /-- src/config.rs:493-495: remember the personality and return. -/
  remember (c : Config) (p : Personality) : Except Status Unit × Config :=
    (.ok (), { c with serverPersonality := p })

end Config
end Model
