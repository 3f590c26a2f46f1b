/- C58: a sequence of well-formed requests is recovered exactly. C24 for the store of a connection parser. -/
import Verif.Lemmas.ReqSequence
import Verif.Lemmas.StoreOps
import Verif.Props.Txs

namespace Props
open Model Spec

theorem reachable_store {e : Env} {s : Conn} (h : Reachable e s) : StoreInv e.cfg.maxTx s.txs :=
  ⟨(reachable_bounded h).1, (reachable_bounded h).2, (reachable_side h).base.index⟩

/-- C24: whatever calls a connection parser was given, it holds at most `maxTx` transactions, and each knows its own
index. -/
theorem C24_connection {e : Env} {s : Conn} (h : Reachable e s) :
    (∀ ks, Live s.txs ks → ks.length ≤ e.cfg.maxTx) ∧ ∀ k t, s.txs.get k = some t → t.index = k :=
  ⟨fun ks hk => Nat.le_trans ((reachable_store h).live_le ks hk) (reachable_store h).bound,
    (reachable_store h).index⟩

/-- The requests of one call, as the call gets them. -/
def requestChunk (g : List Request) : Chunk := .data (g.flatMap Request.render)

theorem _root_.Model.Done.trans {s s1 s2 : Conn} {rs rs' : List Request} (h1 : Done s s1 rs) (h2 : Done s1 s2 rs') :
    Done s s2 (rs ++ rs') := by
  refine ⟨h2.between, ?_, ?_, ?_, ?_, h2.response.trans h1.response, ?_, h2.blocked.trans h1.blocked⟩
  · rw [h2.trace, h1.trace, h1.request, requestCallbacks_append, List.append_assoc]
  · intro i r hi
    rcases Nat.lt_or_ge i rs.length with hl | hl
    · rw [List.getElem?_append_left hl] at hi
      rw [h2.others _ (by rw [h1.request]; omega)]
      exact h1.records i r hi
    · rw [List.getElem?_append_right hl] at hi
      obtain ⟨t, ht⟩ := h2.records _ r hi
      rw [h1.request, show s.txs.request + rs.length + (i - rs.length) = s.txs.request + i by omega] at ht
      exact ⟨t, ht⟩
  · intro j hj
    rw [h2.others j (by rw [h1.request]; omega), h1.others j hj]
  · rw [h2.request, h1.request, List.length_append, Nat.add_assoc]
  · rw [h2.resp, h1.resp]
    by_cases hr : rs = []
    · subst hr; simp
    · by_cases hs : s.resp.status = .dataOther
      · simp [hr, hs]
      · simp [hs]

theorem calls_requests {e : Env} (hw : Willing e) (groups : List (List Request)) :
    ∀ {s : Conn} {m : Nat}, (∀ g ∈ groups, g ≠ []) →
    (∀ g ∈ groups, ∀ r ∈ g, r.WellFormed ∧ r.line.length + 2 ≤ e.cfg.fieldLimit) → BetweenRequests s →
    Occupied s m → m + groups.flatten.length ≤ e.cfg.maxTx →
    requestAnswers e (groups.map requestChunk) s = groups.map (fun _ => .ok (some .data)) ∧
    Done s (feedRequest e (groups.map requestChunk) s) groups.flatten := by
  induction groups with
  | nil =>
    intro s m _ _ hb _ _
    exact ⟨rfl, hb, by simp [feedRequest, requestCallbacks], by simp, fun _ _ => rfl, rfl, rfl, by simp [feedRequest], rfl⟩
  | cons g gs ih =>
    intro s m hne hr hb ho hm
    have hl : (g :: gs).flatten.length = g.length + gs.flatten.length := by simp
    obtain ⟨s1, h1, hd, ho1⟩ := call_requests hw g (hne g (by simp)) (hr g (by simp)) hb ho (by omega)
    have hrun : (Op.request (requestChunk g)).run e s = (.ok (some .data), s1) := h1
    have hafter : (Op.request (requestChunk g)).after e s = s1 := by
      show ((Op.request (requestChunk g)).run e s).2 = s1
      rw [hrun]
    obtain ⟨ha, hd2⟩ := ih (fun x hx => hne x (by simp [hx])) (fun x hx => hr x (by simp [hx])) hd.between ho1 (by omega)
    constructor
    · show ((Op.request (requestChunk g)).run e s).1 ::
        requestAnswers e (gs.map requestChunk) ((Op.request (requestChunk g)).after e s) = _
      rw [hafter, ha, hrun]
      rfl
    · show Done s (feedRequest e (gs.map requestChunk) ((Op.request (requestChunk g)).after e s)) (g :: gs).flatten
      rw [hafter, List.flatten_cons]
      exact hd.trans hd2

/-- C58: well-formed requests, delivered by any number of calls with any number of requests each, to a parser that is
between two requests and has room for them. Every call answers that it took everything in. For each request, in their
order, the callbacks are run that belong to it, with its header block and its body and nothing else; each request is
recorded in a transaction of its own, with the next index, that holds its parts; earlier transactions are untouched,
and the parser is between two requests again. -/
theorem C58_requests {e : Env} {s : Conn} (hs : Reachable e s) (hw : Willing e) (hb : BetweenRequests s)
    (groups : List (List Request)) (hne : ∀ g ∈ groups, g ≠ []) (hr : ∀ g ∈ groups, ∀ r ∈ g, r.WellFormed)
    (hlimit : ∀ g ∈ groups, ∀ r ∈ g, r.line.length + 2 ≤ e.cfg.fieldLimit)
    (hroom : s.txs.map.length + groups.flatten.length ≤ e.cfg.maxTx) :
    let calls := groups.map fun g => Chunk.data (g.flatMap Request.render)
    let final := feedRequest e calls s
    requestAnswers e calls s = groups.map (fun _ => .ok (some .data)) ∧
    final.trace = s.trace ++ requestCallbacks s.txs.request groups.flatten ∧
    (∀ i r, groups.flatten[i]? = some r →
      ∃ t, final.txs.get (s.txs.request + i) = some t ∧ Records t (s.txs.request + i) r ∧ Unanswered t) ∧
    final.txs.request = s.txs.request + groups.flatten.length ∧
    (∀ j, j < s.txs.request → final.txs.get j = s.txs.get j) ∧
    BetweenRequests final := by
  have ho : Occupied s s.txs.map.length := by
    refine ⟨(reachable_bounded hs).1, ?_⟩
    rcases hb.next with h | h
    · exact .inl ⟨h, Nat.le_refl _⟩
    · exact .inr ⟨by rw [h]; rfl, Nat.le_succ _⟩
  obtain ⟨h1, h2⟩ := calls_requests hw groups hne (fun g hg r hx => ⟨hr g hg r hx, hlimit g hg r hx⟩) hb ho hroom
  exact ⟨h1, h2.trace, h2.records, h2.request, h2.others, h2.between⟩

/-- Three requests: without a body, with a body of announced length, with a chunked body and a trailer. -/
def threeRequests : List Request :=
  [{ method := b! "GET", uri := b! "/a?b=c", protocol := b! "HTTP/1.1"
     headers := [⟨b! "Host", b! " ", b! "h", []⟩], body := .absent },
   { method := b! "POST", uri := b! "/p", protocol := b! "HTTP/1.0"
     headers := [⟨b! "Content-Length", b! " ", b! "5", []⟩, ⟨b! "Content-Type", b! " ", b! "text/plain", []⟩]
     body := .sized (b! "hello") },
   { method := b! "PUT", uri := b! "/q", protocol := b! "HTTP/1.1"
     headers := [⟨b! "Transfer-Encoding", b! " ", b! "Chunked", []⟩]
     body := .chunked [⟨b! "3;x\r\n", b! "abc"⟩, ⟨b! "1\r\n", b! "d"⟩] (b! "0\r\n") [⟨b! "X", b! " ", b! "y", []⟩] }]

instance (s t : Bytes) : Decidable (EqNocase s t) := decidable_of_iff _ (eqNocase_map s t)

instance (h : HeaderLine) : Decidable h.WellFormed :=
  decidable_of_iff (h.name ≠ [] ∧ (∀ c ∈ h.name, Tchar c) ∧ (∀ c ∈ h.value, c ≠ 13 ∧ c ≠ 10) ∧
      (∀ c ∈ h.value.head?, ¬ Blank c) ∧ (∀ c ∈ h.value.getLast?, ¬ Blank c) ∧
      (∀ c ∈ h.before, c = 32 ∨ c = 9) ∧ ∀ c ∈ h.after, c = 32 ∨ c = 9)
    ⟨fun ⟨a, b, c, d, e, f, g⟩ => ⟨a, b, c, d, e, f, g⟩, fun ⟨a, b, c, d, e, f, g⟩ => ⟨a, b, c, d, e, f, g⟩⟩

theorem threeRequests_wellFormed : ∀ r ∈ threeRequests, r.WellFormed := by
  intro r hr
  simp only [threeRequests, List.mem_cons, List.not_mem_nil, or_false] at hr
  rcases hr with rfl | rfl | rfl
  · refine ⟨⟨.get, by decide +kernel⟩, by decide +kernel, ⟨.v1_1, by decide +kernel⟩, by decide +kernel, ⟨?_, ?_⟩,
      by decide +kernel, ?_, ?_⟩
    · exact fun h hh => absurd hh.2 ((by decide +kernel : ∀ h ∈ _, ¬ EqNocase h.name _) h hh.1)
    · exact fun h hh => absurd hh.2 ((by decide +kernel : ∀ h ∈ _, ¬ EqNocase h.name _) h hh.1)
    · exact fun h hh => absurd hh.2 ((by decide +kernel : ∀ h ∈ _, ¬ EqNocase h.name _) h hh.1)
    · exact fun h hh => absurd hh.2 ((by decide +kernel : ∀ h ∈ _, ¬ EqNocase h.name _) h hh.1)
  · refine ⟨⟨.post, by decide +kernel⟩, by decide +kernel, ⟨.v1_0, by decide +kernel⟩, by decide +kernel, ⟨?_, ?_, ?_⟩,
      by decide +kernel, ?_, ?_⟩
    · exact fun h hh => absurd hh.2 ((by decide +kernel : ∀ h ∈ _, ¬ EqNocase h.name _) h hh.1)
    · exact ⟨⟨b! "Content-Length", b! " ", b! "5", []⟩, by decide +kernel, by decide +kernel⟩
    · exact fun h hh => (by decide +kernel : ∀ h ∈ _, EqNocase h.name _ → h.value = _) h hh.1 hh.2
    · exact fun h hh => absurd hh.2 ((by decide +kernel : ∀ h ∈ _, ¬ EqNocase h.name _) h hh.1)
    · intro h hh
      have := (by decide +kernel : ∀ h ∈ _, EqNocase h.name _ → h.value = b! "text/plain") h hh.1 hh.2
      rw [this]
      exact ⟨116, by decide +kernel, by decide +kernel⟩
  · refine ⟨⟨.put, by decide +kernel⟩, by decide +kernel, ⟨.v1_1, by decide +kernel⟩, by decide +kernel,
      ⟨?_, ?_, ?_, ?_, ?_⟩, by decide +kernel, ?_, ?_⟩
    · exact ⟨⟨b! "Transfer-Encoding", b! " ", b! "Chunked", []⟩, by decide +kernel, by decide +kernel⟩
    · exact fun h hh => (by decide +kernel : ∀ h ∈ _, EqNocase h.name _ → EqNocase h.value _) h hh.1 hh.2
    · intro c hc
      simp only [List.mem_cons, List.not_mem_nil, or_false] at hc
      rcases hc with rfl | rfl
      · exact ⟨⟨b! "3", b! ";x\r", by decide +kernel, by decide +kernel, by decide +kernel, by decide +kernel, by decide +kernel, by decide +kernel⟩, by decide +kernel, by decide +kernel⟩
      · exact ⟨⟨b! "1", b! "\r", by decide +kernel, by decide +kernel, by decide +kernel, by decide +kernel, by decide +kernel, by decide +kernel⟩, by decide +kernel, by decide +kernel⟩
    · exact ⟨b! "0", b! "\r", by decide +kernel, by decide +kernel, by decide +kernel, by decide +kernel, by decide +kernel, by decide +kernel⟩
    · decide +kernel
    · exact fun h hh => absurd hh.2 ((by decide +kernel : ∀ h ∈ _, ¬ EqNocase h.name _) h hh.1)
    · exact fun h hh => absurd hh.2 ((by decide +kernel : ∀ h ∈ _, ¬ EqNocase h.name _) h hh.1)

/-- Case for C58: a new parser is given the first of these requests in one call, the others in another. -/
example : Willing sampleEnv ∧ BetweenRequests {} ∧ Reachable sampleEnv {} ∧
    (∀ r ∈ threeRequests, r.WellFormed ∧ r.line.length + 2 ≤ sampleEnv.cfg.fieldLimit) ∧
    [threeRequests.take 1, threeRequests.drop 1].flatten = threeRequests ∧
    ({} : Conn).txs.map.length + threeRequests.length ≤ sampleEnv.cfg.maxTx := by
  refine ⟨⟨fun _ _ => rfl, .inr (by decide), fun f h => by cases h⟩,
    ⟨rfl, rfl, rfl, rfl, .inl rfl, .inl rfl, fun _ _ => rfl⟩, .new,
    fun r hr => ⟨threeRequests_wellFormed r hr, ?_⟩, rfl, by decide⟩
  revert r
  decide +kernel

end Props
