/-
C78: the recorded length of a body is the amount of data its callbacks were given.
-/
import Verif.Lemmas.HandedCalls
import Verif.Props.Interim

namespace Props

open Model Spec

/-- C78, responses. After any calls (data, gaps, closing, in any order, on both sides), with any callbacks and any
decoders, the recorded length of the response body of a transaction is the number of bytes that its body callbacks
were given, in 64 bits: after decompression, if there is any, and without what was lost in gaps. -/
theorem C78_response_length {e : Env} (he : e.cfg.txAutoDestroy = false) (ops : List Op) {k : Nat} (hk : .removeTx k ∉ ops)
    {t : Tx} (ht : (Conn.history e ops).txs.get k = some t) :
    Counts t.responseEntityLen (handed .responseBodyDataTx k (Conn.history e ops).trace) := by
  obtain ⟨-, -, r, n, h⟩ := ops_lensTrue he ops hk (new_lensTrue k)
  rw [h.even.1 t ht]
  exact h.even.3

/-- C78, requests. -/
theorem C78_request_length {e : Env} (he : e.cfg.txAutoDestroy = false) (ops : List Op) {k : Nat} (hk : .removeTx k ∉ ops)
    {t : Tx} (ht : (Conn.history e ops).txs.get k = some t) :
    Counts t.requestEntityLen (handed .requestBodyDataTx k (Conn.history e ops).trace) := by
  obtain ⟨-, ⟨r, n, h⟩, -⟩ := ops_lensTrue he ops hk (new_lensTrue k)
  rw [h.even.1 t ht]
  exact h.even.3

/-- C78, what is not there: callbacks for bodies are only run for transactions that exist. -/
theorem C78_no_transaction {e : Env} (he : e.cfg.txAutoDestroy = false) (ops : List Op) {k : Nat} (hk : .removeTx k ∉ ops)
    (ht : (Conn.history e ops).txs.get k = none) :
    handed .responseBodyDataTx k (Conn.history e ops).trace % 2 ^ 64 = 0 ∧
    handed .requestBodyDataTx k (Conn.history e ops).trace % 2 ^ 64 = 0 := by
  obtain ⟨-, ⟨r, n, h⟩, r', n', h'⟩ := ops_lensTrue he ops hk (new_lensTrue k)
  exact ⟨Eq.trans (Eq.symm h'.even.3) (h'.even.2 ht), Eq.trans (Eq.symm h.even.3) (h.even.2 ht)⟩

/-- A chunked request and a response of which three bytes are lost. -/
def bothBodies : List Op :=
  [.request (.data (b! "POST / HTTP/1.1\r\nHost: a\r\nTransfer-Encoding: chunked\r\n\r\n3\r\nabc\r\n2\r\nde\r\n0\r\n\r\n")),
    .response (.data (b! "HTTP/1.1 200 OK\r\nContent-Length: 9\r\n\r\nabcd")), .response (.gap 3),
    .response (.data (b! "hi"))]

set_option maxRecDepth 8000 in
/-- Case for C78: the hypotheses hold, and the lengths are 5 and 6. -/
example : sampleEnv.cfg.txAutoDestroy = false ∧ .removeTx 0 ∉ bothBodies ∧
    ((Conn.history sampleEnv bothBodies).txs.get 0).map (fun t => (t.requestEntityLen, t.responseEntityLen)) = some (5, 6) :=
  ⟨rfl, by simp [bothBodies], by decide_cbv⟩

set_option maxRecDepth 8000 in
example : handed .requestBodyDataTx 0 (Conn.history sampleEnv bothBodies).trace = 5 ∧
    handed .responseBodyDataTx 0 (Conn.history sampleEnv bothBodies).trace = 6 := by
  constructor <;> decide_cbv

/-- Case for C78_no_transaction: there is no second transaction. -/
example : (Conn.history sampleEnv []).txs.get 1 = none := rfl

end Props
