/-
Model of the selection of decompressors: src/request.rs:1094-1269 and src/response.rs:1107-1250,
1316-1350. Only the transaction changes, so these are functions on transactions.
-/
import Verif.Model.ConnBase

namespace Model

/-- src/request.rs:1161-1228: the encodings for which decompressors are installed, given the pieces of
the header value and the number of pieces seen before. A piece that names no encoding counts as a layer
but installs nothing. The LZMA check compares the number of all layers with the LZMA limit. -/
def requestLayers (o : CompressionOptions) : Nat → List Bytes → List Encoding
  | _, [] => []
  | seen, tok :: toks =>
    let layers := seen + 1
    if overLimit o.layerLimit layers then []
    else
      match tokenEncoding tok with
      | .lzma => if overLimit o.lzmaLayers layers then [] else .lzma :: requestLayers o layers toks
      | .none => requestLayers o layers toks
      | enc => enc :: requestLayers o layers toks

/-- src/response.rs:1173-1245: as above, but LZMA layers are counted separately. -/
def responseLayers (o : CompressionOptions) : Nat → Nat → List Bytes → List Encoding
  | _, _, [] => []
  | seen, lzmaSeen, tok :: toks =>
    let layers := seen + 1
    if overLimit o.layerLimit layers then []
    else
      match tokenEncoding tok with
      | .lzma =>
        let lzmaLayers := lzmaSeen + 1
        if overLimit o.lzmaLayers lzmaLayers then [] else .lzma :: responseLayers o layers lzmaLayers toks
      | .none => responseLayers o layers lzmaSeen toks
      | enc => enc :: responseLayers o layers lzmaSeen toks

namespace Tx

/-- src/request.rs:1239-1269 `request_prepend_decompressor` for an encoding other than NONE (building a
decompressor fails only for NONE and ERROR, src/decompressors.rs:703-741). -/
def prependRequestDecompressor (t : Tx) (enc : Encoding) : Tx :=
  let d := prependLayer t.requestDecompressor enc
  if t.requestDecompressor.isNone then
    { t with requestContentEncodingProcessing := enc, requestDecompressor := some d }
  else { t with requestDecompressor := some d }

/-- src/response.rs:1316-1349 `response_prepend_decompressor` for an encoding other than NONE. -/
def prependResponseDecompressor (t : Tx) (enc : Encoding) : Tx :=
  let d := prependLayer t.responseDecompressor enc
  if t.responseDecompressor.isNone then
    { t with responseContentEncodingProcessing := enc, responseDecompressor := some d }
  else { t with responseDecompressor := some d }

/-- src/request.rs:1094-1236 `request_initialize_decompressors`, given the transaction. The encoding is
never ERROR here (lines 1229-1236 are not reached). -/
def initRequestDecompressors (cfg : Config) (t : Tx) : Tx :=
  let ce := (t.requestHeaders.getNocaseNozero (b! "content-encoding")).map (·.value)
  let direct := ce.bind directEncoding
  let t := { t with requestContentEncoding := direct.getD .none }
  if cfg.requestDecompressionEnabled then
    let t := { t with requestContentEncodingProcessing := direct.getD .none }
    match direct with
    | some .none => t
    | some enc => t.prependRequestDecompressor enc
    | none => (requestLayers cfg.compressionOptions 0 (encodingTokens (ce.getD []))).foldl
        prependRequestDecompressor t
  else { t with requestContentEncodingProcessing := .none }

/-- src/response.rs:1107-1250 `response_initialize_decompressors`, given the transaction. -/
def initResponseDecompressors (cfg : Config) (t : Tx) : Tx :=
  let ce := (t.responseHeaders.getNocaseNozero (b! "content-encoding")).map (·.value)
  let direct := ce.bind directEncoding
  let t := { t with responseContentEncoding := direct.getD .none }
  if cfg.responseDecompressionEnabled then
    let t := { t with responseContentEncodingProcessing := direct.getD .none }
    match direct with
    | some .none => t
    | some enc => t.prependResponseDecompressor enc
    | none => (responseLayers cfg.compressionOptions 0 0 (encodingTokens (ce.getD []))).foldl
        prependResponseDecompressor t
  else { t with responseContentEncodingProcessing := .none }

end Tx

end Model
