import Verif.Basic
import Verif.Props.Bstr
import Verif.Props.Util
import Verif.Props.Hostname
import Verif.Props.Parsers
import Verif.Props.Percent
import Verif.Props.Form
import Verif.Props.DotSegments
import Verif.Props.UriSplit
import Verif.Props.Utf8
import Verif.Props.UriNorm
import Verif.Props.Lookup
import Verif.Props.Hook
import Verif.Props.Log
import Verif.Props.Personality
import Verif.Props.Auth
import Verif.Props.ParserData
import Verif.Props.HeaderTests
import Verif.Props.Header
import Verif.Props.HeaderSplit
import Verif.Props.Txs
import Verif.Props.Repeated
import Verif.Props.RequestHeaders
import Verif.Props.Stream
import Verif.Props.Body
import Verif.Props.Chunked
import Verif.Props.Framing
import Verif.Props.Decompression
import Verif.Props.Gzip
import Verif.Props.Status
import Verif.Props.Order
import Verif.Props.Fold
import Verif.Props.NoPanic
import Verif.Props.StartLine
import Verif.Props.Message
import Verif.Props.Answer
import Verif.Props.Dialogue
import Verif.Props.Segmented
import Verif.Props.SegmentedAnswer
import Verif.Props.Close
import Verif.Props.Decoder
import Verif.Props.Mislabelled
import Verif.Props.Interleaved
import Verif.Props.Download
import Verif.Model.CApi
import Verif.Spec.CApi
import Verif.Props.CApi
import Verif.Props.CText
import Verif.Props.COptions
import Verif.Spec.Interim
import Verif.Lemmas.Interim
import Verif.Props.Interim
import Verif.Spec.InterimPieces
import Verif.Lemmas.InterimPieces
import Verif.Props.InterimPieces
import Verif.Lemmas.OtherMessage
import Verif.Lemmas.Apart
import Verif.Lemmas.ApartResp
import Verif.Lemmas.ApartCalls
import Verif.Spec.Apart
import Verif.Lemmas.Isolation
import Verif.Props.Isolation
import Verif.Spec.Callbacks
import Verif.Lemmas.Own
import Verif.Lemmas.OwnCalls
import Verif.Lemmas.OwnResp
import Verif.Lemmas.OwnRespCalls
import Verif.Props.Callbacks
import Verif.Spec.Connect
import Verif.Lemmas.Connect
import Verif.Lemmas.ConnectResp
import Verif.Lemmas.ConnectAfter
import Verif.Props.Connect
import Verif.Lemmas.ConnectPieces
import Verif.Props.ConnectPieces
import Verif.Spec.Refusal
import Verif.Lemmas.TxCoding
import Verif.Lemmas.Obeys
import Verif.Lemmas.ObeysReq
import Verif.Lemmas.ObeysResp
import Verif.Lemmas.ObeysCalls
import Verif.Props.Refusal
import Verif.Spec.Consumed
import Verif.Lemmas.Consumed
import Verif.Lemmas.ConsumedReq
import Verif.Lemmas.ConsumedLive
import Verif.Lemmas.ConsumedResp
import Verif.Lemmas.ConsumedRespLive
import Verif.Lemmas.ConsumedCalls
import Verif.Props.Consumed
import Verif.Spec.Growth
import Verif.Lemmas.Growth
import Verif.Lemmas.GrowthCalls
import Verif.Props.Growth
import Verif.Spec.Handed
import Verif.Lemmas.Lens
import Verif.Lemmas.Handed
import Verif.Lemmas.HandedResp
import Verif.Lemmas.HandedRespBody
import Verif.Lemmas.HandedRespCalls
import Verif.Lemmas.HandedReq
import Verif.Lemmas.HandedReqCalls
import Verif.Lemmas.HandedCalls
import Verif.Props.Handed
import Verif.Spec.Simple
import Verif.Lemmas.Simple
import Verif.Props.Simple
import Verif.Spec.Expect
import Verif.Lemmas.Expect
import Verif.Props.Expect
import Verif.Model.CRead
import Verif.Spec.CRead
import Verif.Props.CRead
import Verif.Spec.Permission
import Verif.Lemmas.Permission
import Verif.Props.Permission
import Verif.Props.EncodingSetting
import Verif.Spec.BlockPieces
import Verif.Props.HeaderPieces
import Verif.Model.CLog
import Verif.Spec.CLog
import Verif.Props.CLog
import Verif.Spec.Counters
import Verif.Props.Counters
