/-
Requests cut into pieces: what is left to come when a call returns, and that this does not depend on the response side.
-/
import Verif.Lemmas.SegMain

namespace Model

open M Spec Props

/-- The callbacks of the other side are those of this connection. -/
def Log.at {own : Event → Bool} (g : Log own) (s : Conn) : Log own := { g with foreign := s.trace.filter fun ev => !own ev }

theorem Traced.say {own : Event → Bool} {g : Log own} {X Y : List Event} {s s' : Conn} (h : Traced g (X ++ Y) s)
    (hl : s'.trace.filter g.keep = s.trace.filter g.keep) : Traced ((g.say X).at s') Y s' := by
  obtain ⟨-, evs, h1, h2⟩ := h
  refine ⟨rfl, evs, hl.trans h1, ?_⟩
  show Pieces (g.said ++ X ++ Y) (g.assumed ++ evs)
  rw [List.append_assoc]
  exact h2

theorem TracedRaw.say {own : Event → Bool} {g : Log own} {X Y : List Event} {hk : DataHook} {k : Nat} {d : Bytes} {s s' : Conn}
    (h : TracedRaw g (X ++ Y) hk k d s) (hl : s'.trace.filter g.keep = s.trace.filter g.keep) :
    TracedRaw ((g.say X).at s') Y hk k d s' := by
  obtain ⟨-, evs, ds, h1, h2, h3⟩ := h
  refine ⟨rfl, evs, ds, hl.trans h1, ?_, h3⟩
  show Pieces (g.said ++ X ++ Y) (g.assumed ++ evs)
  rw [List.append_assoc]
  exact h2

theorem TracedBody.say {own : Event → Bool} {g : Log own} {X Y : List Event} {k : Nat} {d : Bytes} {s s' : Conn}
    (h : TracedBody g (X ++ Y) k d s) (hl : s'.trace.filter g.keep = s.trace.filter g.keep) :
    TracedBody ((g.say X).at s') Y k d s' := by
  obtain ⟨-, evs, ds, h1, h2, h3⟩ := h
  refine ⟨rfl, evs, ds, hl.trans h1, ?_, h3⟩
  show Pieces (g.said ++ X ++ Y) (g.assumed ++ evs)
  rw [List.append_assoc]
  exact h2

/-- The messages the parser has begun with but not finished, and what is to come of them: none, one, or one whose end
has not been noticed and the next, of whose first line only a part has come. -/
inductive Unfinished {α : Type} (tokens line : α → List Token) : List α → List Token → Prop where
  | none : Unfinished tokens line [] []
  | one (x : α) {T : List Token} (ne : T ≠ []) (le : T.length ≤ (tokens x).length) : Unfinished tokens line [x] T
  | two (x y : α) {T : List Token} (p : Nat) (some : p ≠ 0) (part : p < (line y).length)
      (rest : p + T.length = (tokens y).length) : Unfinished tokens line [x, y] T

/-- The second connection is the same as far as requests are concerned. -/
structure SameRequests (keep : Event → Bool) (s s' : Conn) : Prop where
  req : s'.req = s.req
  request : s.txs.request = s'.txs.request
  here : ∀ t, s.txs.get s'.txs.request = some t → s'.txs.get s'.txs.request = some t
  free : s.txs.get s'.txs.request = none →
    s'.txs.get s'.txs.request = none ∨ s'.txs.get s'.txs.request = some { index := s'.txs.request }
  beyond : ∀ j, s'.txs.request < j → s'.txs.get j = s.txs.get j
  log : s'.trace.filter keep = s.trace.filter keep

section
variable {e : Env} {g : Log Event.ofRequest} {s0 : Conn} {m : Nat} {all : List Request}

theorem Upto.again {pre : List Request} {s s' : Conn} {m' : Nat} {keep : Event → Bool} (up : Upto s0 m pre s)
    (hf : SameRequests keep s s') (ho : Occupied s' m') : Upto s' m' [] s' := by
  refine ⟨(fun i r h => by cases h), fun _ _ => rfl, rfl, rfl, .inl rfl, rfl, ?_, ?_, ho⟩
  · intro j hj
    rw [hf.beyond j hj]
    exact up.beyond j (by rw [hf.request]; exact hj)
  · rw [hf.req]
    exact up.status

theorem At.again {s s' : Conn} {st : State} {buf : Bytes} {header : Option Bytes} {rcv : Option DataHook}
    (h : At s.req st buf header rcv) (hr : s'.req = s.req) : At s'.req st buf header rcv := by rw [hr]; exact h

/-- Where the parser is can be said without the requests before, and without the response side. -/
theorem Midway.rebase {T : List Token} {s : Conn} (h : Midway e g s0 m all T s) :
    ∃ pre cur post T', all = pre ++ (cur ++ post) ∧ T = T' ++ post.flatMap Request.tokens ∧ Unfinished Request.tokens Request.lineTokens cur T' ∧ Upto s0 m pre s ∧
      ∀ s' m', SameRequests g.keep s s' → Occupied s' m' →
        Midway e ((g.say (requestCallbacks s0.txs.request pre)).at s') s' m' cur T' s' := by
  cases h with
  | @idle _ pre post split up hb tr =>
    refine ⟨pre, [], post, [], split, rfl, .none, up, ?_⟩
    intro s' m' hf ho
    refine .idle (pre := []) (post := []) rfl (up.again hf ho) ⟨?_, ?_, ?_, ?_, ?_, ?_, (up.again hf ho).beyond⟩ ?_
    · rw [hf.req]; exact hb.state
    · rw [hf.req]; exact hb.buf
    · rw [hf.req]; exact hb.header
    · rw [hf.req]; exact hb.receiver
    · rw [hf.req]; exact hb.status
    · rcases hb.next with h | h
      · rw [hf.request] at h
        exact hf.free h
      · rw [hf.request] at h
        exact .inr (hf.here _ h)
    · rw [← List.append_nil (requestCallbacks _ _)] at tr
      exact tr.say hf.log
  | @line _ pre r post p rem split up hp hrem hat here tr =>
    refine ⟨pre, [r], post, loose rem ++ (blockTokens r.headers ++ (r.body.tokens ++ [].flatMap Request.tokens)), split, ?_,
      .one r (by simp [loose, hrem]) ?_, up, ?_⟩
    · simp
    · have := congrArg List.length hp
      simp [Request.tokens, loose] at this ⊢
      omega
    · intro s' m' hf ho
      rw [hf.request] at here tr
      exact .line (pre := []) (post := []) rfl (up.again hf ho) hp hrem (hat.again hf.req) (hf.here _ here) (tr.say hf.log)
  | @head _ pre r post header d b js ls t split up hjl hls hb hd hlim hat here ht htab tr =>
    refine ⟨pre, [r], post, loose b ++ .line [13, 10] :: (r.body.tokens ++ [].flatMap Request.tokens), split, ?_,
      .one r (by simp) ?_, up, ?_⟩
    · simp
    · have := congrArg List.length hd
      simp only [List.length_append] at this
      simp [Request.tokens, blockTokens_eq, loose] at this ⊢
      omega
    · intro s' m' hf ho
      rw [hf.request] at here tr ht
      exact .head (pre := []) (post := []) rfl (up.again hf ho) hjl hls hb hd hlim (hat.again hf.req) (hf.here _ here) ht htab
        (tr.say hf.log)
  | @sized _ pre r post d b t ib hbody hne hat hl hlen htab tr =>
    refine ⟨pre, [r], post, loose b ++ [].flatMap Request.tokens, ib.split, ?_, .one r (by simp [loose, hne]) ?_, ib.upto, ?_⟩
    · simp
    · simp [Request.tokens, hbody, Body.tokens, loose]
      omega
    · intro s' m' hf ho
      obtain ⟨split, up, here, hr, hpar⟩ := ib
      rw [hf.request] at here tr hr
      exact .sized (pre := []) (post := []) ⟨rfl, up.again hf ho, hf.here _ here, hr, hpar⟩ hbody hne (hat.again hf.req)
        (by rw [hf.req]; exact hl) hlen htab (tr.say hf.log)
  | @size _ pre r post cs ds last trailer t ib hbody hat hlen htab tr =>
    refine ⟨pre, [r], post, ds.flatMap chunkTokens ++ .line last :: (blockTokens trailer ++ [].flatMap Request.tokens), ib.split, ?_,
      .one r (by simp) ?_, ib.upto, ?_⟩
    · simp
    · simp [Request.tokens, hbody, Body.tokens, loose]
      omega
    · intro s' m' hf ho
      obtain ⟨split, up, here, hr, hpar⟩ := ib
      rw [hf.request] at here tr hr
      rw [soFar, List.append_assoc] at tr
      exact .size (pre := []) (post := []) ⟨rfl, up.again hf ho, hf.here _ here, hr, hpar⟩ hbody (hat.again hf.req) hlen htab
        (tr.say hf.log)
  | @data _ pre r post cs ds c last trailer d b t ib hbody hc hne hat hl hlen htab tr =>
    refine ⟨pre, [r], post, loose b ++ .line [13, 10] :: (ds.flatMap chunkTokens ++ .line last ::
      (blockTokens trailer ++ [].flatMap Request.tokens)), ib.split, ?_, .one r (by simp) ?_, ib.upto, ?_⟩
    · simp
    · have hk : (chunkTokens c).length = 2 + (d.length + b.length) := by
        rw [← List.length_append, ← hc]
        simp [chunkTokens, loose]
        omega
      simp [Request.tokens, hbody, Body.tokens, loose]
      omega
    · intro s' m' hf ho
      obtain ⟨split, up, here, hr, hpar⟩ := ib
      rw [hf.request] at here tr hr
      rw [soFar, List.append_assoc] at tr
      exact .data (pre := []) (post := []) ⟨rfl, up.again hf ho, hf.here _ here, hr, hpar⟩ hbody hc hne (hat.again hf.req)
        (by rw [hf.req]; exact hl) hlen htab (tr.say hf.log)
  | @dataEnd _ pre r post cs ds last trailer t ib hbody hat hlen htab tr =>
    refine ⟨pre, [r], post, .line [13, 10] :: (ds.flatMap chunkTokens ++ .line last ::
      (blockTokens trailer ++ [].flatMap Request.tokens)), ib.split, ?_, .one r (by simp) ?_, ib.upto, ?_⟩
    · simp
    · simp [Request.tokens, hbody, Body.tokens, loose]
      omega
    · intro s' m' hf ho
      obtain ⟨split, up, here, hr, hpar⟩ := ib
      rw [hf.request] at here tr hr
      rw [soFar, List.append_assoc] at tr
      exact .dataEnd (pre := []) (post := []) ⟨rfl, up.again hf ho, hf.here _ here, hr, hpar⟩ hbody (hat.again hf.req) hlen htab
        (tr.say hf.log)
  | @trailer _ pre r post cs last trailer header d b js ls t ib hbody hjl hls hb hd hlim hp hat hlen htab tr =>
    refine ⟨pre, [r], post, loose b ++ .line [13, 10] :: [].flatMap Request.tokens, ib.split, ?_, .one r (by simp) ?_, ib.upto, ?_⟩
    · simp
    · have := congrArg List.length hd
      simp only [List.length_append] at this
      have hk : (blockTokens trailer).length = (linesOf trailer).length + 1 := by simp [blockTokens, linesOf, loose]
      simp [Request.tokens, hbody, Body.tokens, loose]
      omega
    · intro s' m' hf ho
      obtain ⟨split, up, here, hr, hpar⟩ := ib
      rw [hf.request] at here tr hr
      rw [soFar, List.append_assoc] at tr
      exact .trailer (pre := []) (post := []) ⟨rfl, up.again hf ho, hf.here _ here, hr, hpar⟩ hbody hjl hls hb hd hlim hp
        (hat.again hf.req) hlen htab (tr.say hf.log)
  | @final _ pre r r' post p rem t ib hp hrem hp0 hat hlen htab tr =>
    refine ⟨pre, [r, r'], post, loose rem ++ (blockTokens r'.headers ++ (r'.body.tokens ++ [].flatMap Request.tokens)), ib.split, ?_,
      .two r r' p.length (by simpa using hp0) ?_ ?_, ib.upto, ?_⟩
    · simp
    · rw [Request.lineTokens, loose, List.length_map, ← hp, List.length_append]
      have : rem.length ≠ 0 := by simpa using hrem
      omega
    · have := congrArg List.length hp
      simp [Request.tokens, loose] at this ⊢
      omega
    · intro s' m' hf ho
      obtain ⟨split, up, here, hr, hpar⟩ := ib
      rw [hf.request] at here tr hr
      rw [soFar, List.append_assoc] at tr
      exact .final (pre := []) (post := []) ⟨rfl, up.again hf ho, hf.here _ here, hr, hpar⟩ hp hrem hp0
        (hat.again hf.req) hlen htab (tr.say hf.log)

/-- More requests are to come. -/
theorem Midway.extend {T : List Token} {s : Conn} (h : Midway e g s0 m all T s) (more : List Request) :
    Midway e g s0 m (all ++ more) (T ++ more.flatMap Request.tokens) s := by
  have hs : ∀ {pre post : List Request}, all = pre ++ post → all ++ more = pre ++ (post ++ more) := by
    rintro pre post rfl
    rw [List.append_assoc]
  have hs' : ∀ {pre post : List Request} {r : Request}, all = pre ++ r :: post → all ++ more = pre ++ r :: (post ++ more) := by
    rintro pre post r rfl
    simp
  have hib : ∀ {pre post : List Request} {r : Request} {s : Conn} {t : Tx}, BodyAt s0 m all pre r post s t →
      BodyAt s0 m (all ++ more) pre r (post ++ more) s t := fun ib => ⟨hs' ib.split, ib.upto, ib.here, ib.head, ib.parser⟩
  cases h with
  | idle split up hb tr => 
    rw [← List.flatMap_append]
    exact .idle (hs split) up hb tr
  | line split up hp hrem hat here tr =>
    simp only [List.append_assoc, ← List.flatMap_append]
    exact .line (hs' split) up hp hrem hat here tr
  | head split up hjl hls hb hd hlim hat here ht htab tr =>
    simp only [List.append_assoc, List.cons_append, ← List.flatMap_append]
    exact .head (hs' split) up hjl hls hb hd hlim hat here ht htab tr
  | sized ib hbody hne hat hl hlen htab tr =>
    simp only [List.append_assoc, List.cons_append, ← List.flatMap_append]
    exact .sized (hib ib) hbody hne hat hl hlen htab tr
  | size ib hbody hat hlen htab tr =>
    simp only [List.append_assoc, List.cons_append, ← List.flatMap_append]
    exact .size (hib ib) hbody hat hlen htab tr
  | data ib hbody hch hne hat hl hlen htab tr =>
    simp only [List.append_assoc, List.cons_append, ← List.flatMap_append]
    exact .data (hib ib) hbody hch hne hat hl hlen htab tr
  | dataEnd ib hbody hat hlen htab tr =>
    simp only [List.append_assoc, List.cons_append, ← List.flatMap_append]
    exact .dataEnd (hib ib) hbody hat hlen htab tr
  | trailer ib hbody hjl hls hb hd hlim hp hat hlen htab tr =>
    simp only [List.append_assoc, List.cons_append, ← List.flatMap_append]
    exact .trailer (hib ib) hbody hjl hls hb hd hlim hp hat hlen htab tr
  | final ib hp hrem hp0 hat hlen htab tr =>
    simp only [List.append_assoc, ← List.flatMap_append]
    exact .final (hib ib) hp hrem hp0 hat hlen htab tr

end

end Model
