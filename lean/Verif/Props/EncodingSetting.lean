/-
C83: switching off the decompression of a single message from a callback.
-/
import Verif.Props.Decompression

namespace Props

open Model Spec

/-- src/transaction.rs:540-545 and 431-436: "setting this field to NONE in a RESPONSE_HEADERS callback will prevent
decompression". The decompressors are set up right after that callback (src/connection_parser.rs:859-868, 694-705), from
the transaction `t` as the callback leaves it. -/
def PreventsDecompression : Prop := ∀ (cfg : Config) (t : Tx),
  (t.responseContentEncodingProcessing = .none → t.responseDecompressor = none →
    installed (t.initResponseDecompressors cfg).responseDecompressor = []) ∧
  (t.requestContentEncodingProcessing = .none → t.requestDecompressor = none →
    installed (t.initRequestDecompressors cfg).requestDecompressor = [])

/-- C83: what a headers callback writes into the field has no effect at all. -/
theorem C83_setting_ignored (cfg : Config) (t : Tx) (x : Encoding) :
    ({ t with responseContentEncodingProcessing := x }).initResponseDecompressors cfg = t.initResponseDecompressors cfg ∧
    ({ t with requestContentEncodingProcessing := x }).initRequestDecompressors cfg = t.initRequestDecompressors cfg :=
  ⟨rfl, rfl⟩

/-- C83 does not hold: with the field set to NONE, a gzip body is decompressed. -/
theorem C83_full_false : ¬ PreventsDecompression := by
  intro h
  exact absurd ((h {} { encodedTx (b! "gzip") with responseContentEncodingProcessing := .none }).1 rfl rfl) (by decide +kernel)

/-- What works: a callback that removes the Content-Encoding field from the header table (full statement:
`PreventsDecompression`). No decompressor is installed and the body is handed out as it comes, whatever the configuration. -/
theorem C83_field_removed_partial (cfg : Config) (t : Tx) :
    (t.responseHeaders.getNocaseNozero (b! "content-encoding") = none → t.responseDecompressor = none →
      (t.initResponseDecompressors cfg).responseDecompressor = none ∧
      (t.initResponseDecompressors cfg).responseContentEncodingProcessing = .none) ∧
    (t.requestHeaders.getNocaseNozero (b! "content-encoding") = none → t.requestDecompressor = none →
      (t.initRequestDecompressors cfg).requestDecompressor = none ∧
      (t.initRequestDecompressors cfg).requestContentEncodingProcessing = .none) := by
  have h0 : encodingTokens [] = [] := by decide
  refine ⟨fun h hd => ?_, fun h hd => ?_⟩
  · unfold Tx.initResponseDecompressors
    simp only [h, Option.map_none, Option.bind_none, Option.getD_none, h0, responseLayers, List.foldl_nil]
    split <;> exact ⟨hd, rfl⟩
  · unfold Tx.initRequestDecompressors
    simp only [h, Option.map_none, Option.bind_none, Option.getD_none, h0, requestLayers, List.foldl_nil]
    split <;> exact ⟨hd, rfl⟩

/-- Case for C83_field_removed_partial: a transaction with a gzip body, before and after its fields are removed. -/
example : installed ((encodedTx (b! "gzip")).initResponseDecompressors {}).responseDecompressor = [.gzip] ∧
    ({ encodedTx (b! "gzip") with responseHeaders := [] }).responseHeaders.getNocaseNozero (b! "content-encoding") = none ∧
    ({ encodedTx (b! "gzip") with responseHeaders := [] }).responseDecompressor = none := by decide +kernel

end Props
