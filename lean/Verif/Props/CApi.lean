/-
C68: programs that use the C interface.
-/
import Verif.Props.NoPanic
import Verif.Spec.CApi

namespace Props

open Model Spec

/-! One call -/

theorem update_self {α : Type} (f : Nat → Option α) (k : Nat) (v : Option α) : update f k v k = v := if_pos rfl

theorem update_other {α : Type} (f : Nat → Option α) {j k : Nat} (v : Option α) (h : j ≠ k) :
    update f k v j = f j := if_neg h

/-- What a call does to the parser `p`, if it does not destroy it. -/
theorem call_parser {base : Env} {w w' : World} {c : Call} {a : Answer} {p : Nat} {P : CParser}
    (hr : c.run base w = .ok (a, w')) (hp : w.parsers p = some P) (hn : p < w.next)
    (hd : c ≠ .connpDestroyAll (some p)) :
    p < w'.next ∧ ((∃ k, c = .conn (some p) k ∧ ∃ s, k.run P.env P.conn = .ok (a, s) ∧
        w'.parsers p = some { P with conn := s }) ∨
      (∀ k, c ≠ .conn (some p) k) ∧ w'.parsers p = some P) := by
  have hne : p ≠ w.next := by omega
  cases c with
  | configCreate => cases hr; exact ⟨by dsimp only; omega, .inr ⟨by simp, hp⟩⟩
  | configDestroy h =>
    cases h with
    | none => cases hr; exact ⟨hn, .inr ⟨by simp, hp⟩⟩
    | some h =>
      simp only [Call.run] at hr
      cases hc : w.configs h with
      | none => simp [hc] at hr
      | some st => rw [hc] at hr; cases hr; exact ⟨hn, .inr ⟨by simp, hp⟩⟩
  | configSet h s =>
    cases h with
    | none => cases hr; exact ⟨hn, .inr ⟨by simp, hp⟩⟩
    | some h =>
      simp only [Call.run] at hr
      cases hc : w.configs h with
      | none => simp [hc] at hr
      | some st => rw [hc] at hr; cases hr; exact ⟨hn, .inr ⟨by simp, hp⟩⟩
  | configRegister h k f =>
    cases h with
    | none => cases hr; exact ⟨hn, .inr ⟨by simp, hp⟩⟩
    | some h =>
      simp only [Call.run] at hr
      cases hc : w.configs h with
      | none => simp [hc] at hr
      | some st => rw [hc] at hr; cases hr; exact ⟨hn, .inr ⟨by simp, hp⟩⟩
  | connpCreate h =>
    cases h with
    | none =>
      cases hr
      exact ⟨by dsimp only; omega, .inr ⟨by simp, (update_other _ _ hne).trans hp⟩⟩
    | some h =>
      simp only [Call.run] at hr
      cases hc : w.configs h with
      | none => simp [hc] at hr
      | some st =>
        rw [hc] at hr
        cases hr
        exact ⟨by dsimp only; omega, .inr ⟨by simp, (update_other _ _ hne).trans hp⟩⟩
  | connpDestroyAll h =>
    cases h with
    | none => cases hr
    | some h =>
      have hh : p ≠ h := by rintro rfl; exact hd rfl
      simp only [Call.run] at hr
      cases hc : w.parsers h with
      | none => simp [hc] at hr
      | some st => rw [hc] at hr; cases hr; exact ⟨hn, .inr ⟨by simp, (update_other _ _ hh).trans hp⟩⟩
  | conn h k =>
    cases h with
    | none => cases hr; exact ⟨hn, .inr ⟨by simp, hp⟩⟩
    | some h =>
      simp only [Call.run] at hr
      cases hc : w.parsers h with
      | none => simp [hc] at hr
      | some Q =>
        rw [hc] at hr
        dsimp only at hr
        cases hk : k.run Q.env Q.conn with
        | error f => rw [hk] at hr; cases hr
        | ok x =>
          obtain ⟨a', s⟩ := x
          rw [hk] at hr
          cases hr
          by_cases hh : p = h
          · subst hh
            rw [hp] at hc
            cases hc
            exact ⟨hn, .inl ⟨k, rfl, s, hk, update_self ..⟩⟩
          · refine ⟨hn, .inr ⟨fun j hj => hh ?_, (update_other _ _ hh).trans hp⟩⟩
            cases hj
            rfl

/-- What a call does to the configuration `h`, if it does not destroy it. -/
theorem call_config {base : Env} {w w' : World} {c : Call} {a : Answer} {h : Nat} {st : Settings}
    (hr : c.run base w = .ok (a, w')) (hp : w.configs h = some st) (hn : h < w.next)
    (hd : c ≠ .configDestroy (some h)) :
    h < w'.next ∧ w'.configs h = some (ownSettings h [c] st) := by
  have hne : h ≠ w.next := by omega
  cases c with
  | configCreate => cases hr; exact ⟨by dsimp only; omega, (update_other _ _ hne).trans hp⟩
  | configDestroy j =>
    cases j with
    | none => cases hr; exact ⟨hn, hp⟩
    | some j =>
      have hh : h ≠ j := by rintro rfl; exact hd rfl
      simp only [Call.run] at hr
      cases hc : w.configs j with
      | none => simp [hc] at hr
      | some u => rw [hc] at hr; cases hr; exact ⟨hn, (update_other _ _ hh).trans hp⟩
  | configSet j s =>
    cases j with
    | none => cases hr; exact ⟨hn, hp⟩
    | some j =>
      simp only [Call.run] at hr
      cases hc : w.configs j with
      | none => simp [hc] at hr
      | some u =>
        rw [hc] at hr
        cases hr
        refine ⟨hn, ?_⟩
        show update w.configs j _ h = some (if j = h then _ else _)
        by_cases hh : j = h
        · subst hh
          rw [hp] at hc
          cases hc
          rw [update_self, if_pos rfl]
        · rw [update_other _ _ (Ne.symm hh), if_neg hh, hp]
  | configRegister j k f =>
    cases j with
    | none => cases hr; exact ⟨hn, hp⟩
    | some j =>
      simp only [Call.run] at hr
      cases hc : w.configs j with
      | none => simp [hc] at hr
      | some u =>
        rw [hc] at hr
        cases hr
        refine ⟨hn, ?_⟩
        show update w.configs j _ h = some (if j = h then _ else _)
        by_cases hh : j = h
        · subst hh
          rw [hp] at hc
          cases hc
          rw [update_self, if_pos rfl]
        · rw [update_other _ _ (Ne.symm hh), if_neg hh, hp]
  | connpCreate j =>
    cases j with
    | none => cases hr; exact ⟨by dsimp only; omega, hp⟩
    | some j =>
      simp only [Call.run] at hr
      cases hc : w.configs j with
      | none => simp [hc] at hr
      | some u => rw [hc] at hr; cases hr; exact ⟨by dsimp only; omega, hp⟩
  | connpDestroyAll j =>
    cases j with
    | none => cases hr
    | some j =>
      simp only [Call.run] at hr
      cases hc : w.parsers j with
      | none => simp [hc] at hr
      | some u => rw [hc] at hr; cases hr; exact ⟨hn, hp⟩
  | conn j k =>
    cases j with
    | none => cases hr; exact ⟨hn, hp⟩
    | some j =>
      simp only [Call.run] at hr
      cases hc : w.parsers j with
      | none => simp [hc] at hr
      | some Q =>
        rw [hc] at hr
        dsimp only at hr
        cases hk : k.run Q.env Q.conn with
        | error f => rw [hk] at hr; cases hr
        | ok x => obtain ⟨a', s⟩ := x; rw [hk] at hr; cases hr; exact ⟨hn, hp⟩

theorem runCalls_cons {base : Env} {c : Call} {cs : List Call} {w w2 : World} {as : List Answer}
    (h : runCalls base (c :: cs) w = .ok (as, w2)) : ∃ a as' w1, c.run base w = .ok (a, w1) ∧
      runCalls base cs w1 = .ok (as', w2) ∧ as = a :: as' := by
  unfold runCalls at h
  cases hc : c.run base w with
  | error f => rw [hc] at h; cases h
  | ok x =>
    obtain ⟨a, w1⟩ := x
    rw [hc] at h
    dsimp only at h
    cases hcs : runCalls base cs w1 with
    | error f => rw [hcs] at h; cases h
    | ok y =>
      obtain ⟨as', w2'⟩ := y
      rw [hcs] at h
      cases h
      exact ⟨a, as', w1, rfl, hcs, rfl⟩

/-! Several calls -/

/-- The calls on one parser, whatever else the program does, are those on a parser that is alone. -/
theorem calls_parser {base : Env} {p : Nat} : ∀ {cs : List Call} {w w' : World} {as : List Answer}
    {P : CParser}, runCalls base cs w = .ok (as, w') → w.parsers p = some P → p < w.next →
    .connpDestroyAll (some p) ∉ cs →
    ∃ s, aloneCalls P.env (ownCalls p cs) P.conn = .ok (ownAnswers p cs as, s) ∧
      w'.parsers p = some { P with conn := s } := by
  intro cs
  induction cs with
  | nil =>
    intro w w' as P hr hp _ _
    cases hr
    exact ⟨P.conn, rfl, hp⟩
  | cons c cs ih =>
    intro w w' as P hr hp hn hd
    obtain ⟨a, as', w1, h1, h2, rfl⟩ := runCalls_cons hr
    obtain ⟨hn1, h3⟩ := call_parser h1 hp hn fun h => hd (by simp [h])
    have hd' : .connpDestroyAll (some p) ∉ cs := fun h => hd (by simp [h])
    rcases h3 with ⟨k, rfl, s, hk, hp1⟩ | ⟨ho, hp1⟩
    · obtain ⟨s', hs, hp2⟩ := ih h2 hp1 hn1 hd'
      refine ⟨s', ?_, hp2⟩
      show aloneCalls P.env (ownCalls p (.conn (some p) k :: cs)) P.conn = _
      have e1 : ownCalls p (.conn (some p) k :: cs) = k :: ownCalls p cs := by simp [ownCalls]
      have e2 : ownAnswers p (.conn (some p) k :: cs) (a :: as') = a :: ownAnswers p cs as' := by
        simp [ownAnswers]
      rw [e1, e2]
      unfold aloneCalls
      rw [hk]
      dsimp only at hs ⊢
      rw [hs]
    · obtain ⟨s', hs, hp2⟩ := ih h2 hp1 hn1 hd'
      refine ⟨s', ?_, hp2⟩
      have e1 : ownCalls p (c :: cs) = ownCalls p cs := by
        unfold ownCalls
        rw [List.filterMap_cons]
        cases c with
        | conn j k =>
          cases j with
          | none => rfl
          | some j =>
            have : j ≠ p := by rintro rfl; exact ho k rfl
            simp [this]
        | _ => rfl
      have e2 : ownAnswers p (c :: cs) (a :: as') = ownAnswers p cs as' := by
        unfold ownAnswers
        rw [List.zip_cons_cons, List.filterMap_cons]
        cases c with
        | conn j k =>
          cases j with
          | none => rfl
          | some j =>
            have : j ≠ p := by rintro rfl; exact ho k rfl
            simp [this]
        | _ => rfl
      rw [e1, e2]
      exact hs

theorem ownSettings_cons (h : Nat) (c : Call) (cs : List Call) (st : Settings) :
    ownSettings h (c :: cs) st = ownSettings h cs (ownSettings h [c] st) := by
  cases c with
  | configSet j s => cases j <;> rfl
  | configRegister j k f => cases j <;> rfl
  | _ => rfl

theorem calls_config {base : Env} {h : Nat} : ∀ {cs : List Call} {w w' : World} {as : List Answer}
    {st : Settings}, runCalls base cs w = .ok (as, w') → w.configs h = some st → h < w.next →
    .configDestroy (some h) ∉ cs → w'.configs h = some (ownSettings h cs st) ∧ h < w'.next := by
  intro cs
  induction cs with
  | nil => intro w w' as st hr hp hn _; cases hr; exact ⟨hp, hn⟩
  | cons c cs ih =>
    intro w w' as st hr hp hn hd
    obtain ⟨a, as', w1, h1, h2, rfl⟩ := runCalls_cons hr
    obtain ⟨hn1, hp1⟩ := call_config h1 hp hn fun h => hd (by simp [h])
    rw [ownSettings_cons]
    exact ih h2 hp1 hn1 fun h => hd (by simp [h])

/-! The properties -/

/-- C68. A program creates a configuration (it gets `h`), goes on in any way without destroying it
(`setup`), creates a parser with it (it gets `p`), and goes on in any way without destroying the parser
(`rest`). Then the calls on the parser were answered, and the parser is, as if it had been alone from the
beginning, with a configuration on which just the setters and registrations of `setup` for `h` had been
called. What the program does with other parsers and configurations, or with `h` after the parser was
created, plays no part. -/
theorem C68_alone (base : Env) (w w0 w1 w2 w3 : World) (setup rest : List Call) (h p : Nat)
    (as bs : List Answer)
    (h1 : Call.configCreate.run base w = .ok (.handle h, w0))
    (h2 : runCalls base setup w0 = .ok (as, w1)) (hs : .configDestroy (some h) ∉ setup)
    (h3 : (Call.connpCreate (some h)).run base w1 = .ok (.handle p, w2))
    (h4 : runCalls base rest w2 = .ok (bs, w3)) (hd : .connpDestroyAll (some p) ∉ rest) :
    ∃ s, aloneCalls ((ownSettings h setup {}).env base) (ownCalls p rest) {} =
        .ok (ownAnswers p rest bs, s) ∧
      w3.parsers p = some ⟨(ownSettings h setup {}).env base, s⟩ := by
  cases h1
  obtain ⟨hc, hn⟩ := calls_config h2 (update_self ..) (Nat.lt_succ_self _) hs
  simp only [Call.run] at h3
  rw [hc] at h3
  cases h3
  exact calls_parser h4 (update_self ..) (Nat.lt_succ_self _) hd

/-- C68. The same for a parser created with NULL: it has the default configuration and no callbacks. -/
theorem C68_alone_default (base : Env) (w w2 w3 : World) (rest : List Call) (p : Nat) (bs : List Answer)
    (h3 : (Call.connpCreate none).run base w = .ok (.handle p, w2))
    (h4 : runCalls base rest w2 = .ok (bs, w3)) (hd : .connpDestroyAll (some p) ∉ rest) :
    ∃ s, aloneCalls (({} : Settings).env base) (ownCalls p rest) {} = .ok (ownAnswers p rest bs, s) ∧
      w3.parsers p = some ⟨({} : Settings).env base, s⟩ := by
  cases h3
  exact calls_parser h4 (update_self ..) (Nat.lt_succ_self _) hd

/-- One call is the operation of the Rust interface it stands for. -/
theorem call_op {e : Env} {s s' : Conn} {c : ConnCall} {a : Answer} (h : c.run e s = .ok (a, s')) :
    match rustOp c with
    | some op => ∃ r, op.run e s = (.ok r, s') ∧
        ((∃ ch, op = .request ch ∨ op = .response ch) → a = .stream r)
    | none => s' = s := by
  have key : ∀ (op : Op), (match op.run e s with
      | (.ok _, s) => (.ok (.void, s) : Except Fault (Answer × Conn))
      | (.error _, _) => .error .abort) = .ok (a, s') → ∃ r, op.run e s = (.ok r, s') := by
    intro op hop
    cases hx : op.run e s with
    | mk r s1 =>
      rw [hx] at hop
      cases r with
      | error x => cases hop
      | ok r => cases hop; exact ⟨r, rfl⟩
  have keyS : ∀ (op : Op), (match op.run e s with
      | (.ok r, s) => (.ok (.stream r, s) : Except Fault (Answer × Conn))
      | (.error _, _) => .error .abort) = .ok (a, s') → ∃ r, op.run e s = (.ok r, s') ∧ a = .stream r := by
    intro op hop
    cases hx : op.run e s with
    | mk r s1 =>
      rw [hx] at hop
      cases r with
      | error x => cases hop
      | ok r => cases hop; exact ⟨r, rfl, rfl⟩
  cases c with
  | «open» =>
    obtain ⟨r, hr⟩ := key .open h
    exact ⟨r, hr, by simp⟩
  | requestData d n =>
    cases d with
    | none =>
      cases n with
      | zero => obtain ⟨r, hr, ha⟩ := keyS (.request (.data [])) h; exact ⟨r, hr, fun _ => ha⟩
      | succ n => obtain ⟨r, hr, ha⟩ := keyS (.request (.gap (n + 1))) h; exact ⟨r, hr, fun _ => ha⟩
    | some m =>
      unfold ConnCall.run chunkOfC at h
      dsimp only at h
      by_cases hl : n ≤ m.length
      · rw [if_pos hl] at h
        obtain ⟨r, hr, ha⟩ := keyS (.request (.data (m.take n))) h
        exact ⟨r, hr, fun _ => ha⟩
      · rw [if_neg hl] at h; cases h
  | responseData d n =>
    cases d with
    | none =>
      cases n with
      | zero => obtain ⟨r, hr, ha⟩ := keyS (.response (.data [])) h; exact ⟨r, hr, fun _ => ha⟩
      | succ n => obtain ⟨r, hr, ha⟩ := keyS (.response (.gap (n + 1))) h; exact ⟨r, hr, fun _ => ha⟩
    | some m =>
      unfold ConnCall.run chunkOfC at h
      dsimp only at h
      by_cases hl : n ≤ m.length
      · rw [if_pos hl] at h
        obtain ⟨r, hr, ha⟩ := keyS (.response (.data (m.take n))) h
        exact ⟨r, hr, fun _ => ha⟩
      · rw [if_neg hl] at h; cases h
  | requestClose =>
    obtain ⟨r, hr⟩ := key .requestClose h
    exact ⟨r, hr, by simp⟩
  | close =>
    obtain ⟨r, hr⟩ := key .close h
    exact ⟨r, hr, by simp⟩
  | txDestroy t =>
    cases t with
    | none => cases h; rfl
    | some t =>
      obtain ⟨r, hr⟩ := key (.removeTx t.index) h
      exact ⟨r, hr, by simp⟩
  | getRequestTx => cases h; exact ⟨none, rfl, by simp⟩
  | getResponseTx => cases h; exact ⟨none, rfl, by simp⟩
  | tx id => cases h; rfl
  | txSize => cases h; rfl
  | requestDataConsumed => cases h; rfl
  | responseDataConsumed => cases h; rfl

/-- C68. The calls on a parser that is alone are the operations of the Rust interface they stand for: the
parser is what those operations make of it (so everything proved about histories of operations holds for
C programs). -/
theorem C68_rust (e : Env) (cs : List ConnCall) (as : List Answer) (s : Conn)
    (h : aloneCalls e cs {} = .ok (as, s)) :
    s = Conn.history e (cs.filterMap rustOp) ∧ Reachable e s := by
  have key : ∀ (cs : List ConnCall) (as : List Answer) (s0 s : Conn), Reachable e s0 →
      aloneCalls e cs s0 = .ok (as, s) →
      s = (cs.filterMap rustOp).foldl (Op.after e) s0 ∧ Reachable e s := by
    intro cs
    induction cs with
    | nil => intro as s0 s hs0 h; cases h; exact ⟨rfl, hs0⟩
    | cons c cs ih =>
      intro as s0 s hs0 h
      unfold aloneCalls at h
      cases hc : c.run e s0 with
      | error f => rw [hc] at h; cases h
      | ok x =>
        obtain ⟨a, s1⟩ := x
        rw [hc] at h
        dsimp only at h
        cases hcs : aloneCalls e cs s1 with
        | error f => rw [hcs] at h; cases h
        | ok y =>
          obtain ⟨as', s2⟩ := y
          rw [hcs] at h
          cases h
          have ho := call_op hc
          cases hop : rustOp c with
          | none =>
            rw [hop] at ho
            have ho : s1 = s0 := ho
            subst ho
            rw [List.filterMap_cons_none hop]
            exact ih _ _ _ hs0 hcs
          | some op =>
            rw [hop] at ho
            obtain ⟨r, hr, _⟩ := ho
            rw [List.filterMap_cons_some hop, List.foldl_cons]
            have hs1 : Op.after e s0 op = s1 := congrArg Prod.snd hr
            rw [hs1]
            exact ih _ _ _ (.call op r hs0 hr) hcs
  exact key cs as {} s .new h

/-- C68. Data is answered as the Rust interface answers it. -/
theorem C68_data (e : Env) (s s' : Conn) (a : Answer) (m : Bytes) (n : Nat) :
    ((ConnCall.requestData (some m) n).run e s = .ok (a, s') →
      ∃ r, Op.run e (.request (.data (m.take n))) s = (.ok r, s') ∧ a = .stream r) ∧
    ((ConnCall.responseData (some m) n).run e s = .ok (a, s') →
      ∃ r, Op.run e (.response (.data (m.take n))) s = (.ok r, s') ∧ a = .stream r) := by
  constructor
  · intro h
    obtain ⟨r, hr, ha⟩ := call_op h
    exact ⟨r, hr, ha ⟨_, .inl rfl⟩⟩
  · intro h
    obtain ⟨r, hr, ha⟩ := call_op h
    exact ⟨r, hr, ha ⟨_, .inr rfl⟩⟩

/-- A call on a parser returns. -/
theorem call_returns {e : Env} (he : e.ovf = false) {s : Conn} (hs : Reachable e s) (c : ConnCall)
    (hc : inBounds c) : ∃ a s', c.run e s = .ok (a, s') ∧ Reachable e s' := by
  have key : ∀ op : Op, ∃ r s', op.run e s = (.ok r, s') ∧ Reachable e s' := by
    intro op
    obtain ⟨r, hr⟩ := C55_returns e he s hs op
    exact ⟨r, (op.run e s).2, Prod.ext hr rfl, .call op r hs (Prod.ext hr rfl)⟩
  cases c with
  | «open» => obtain ⟨r, s', h, h'⟩ := key .open; exact ⟨.void, s', by simp only [ConnCall.run, h], h'⟩
  | requestData d n =>
    have : ∃ ch, chunkOfC d n = .ok ch := by
      cases d with
      | none => exact ⟨_, rfl⟩
      | some m => exact ⟨.data (m.take n), if_pos hc⟩
    obtain ⟨ch, hch⟩ := this
    obtain ⟨r, s', h, h'⟩ := key (.request ch)
    exact ⟨.stream r, s', by simp only [ConnCall.run, hch, h], h'⟩
  | responseData d n =>
    have : ∃ ch, chunkOfC d n = .ok ch := by
      cases d with
      | none => exact ⟨_, rfl⟩
      | some m => exact ⟨.data (m.take n), if_pos hc⟩
    obtain ⟨ch, hch⟩ := this
    obtain ⟨r, s', h, h'⟩ := key (.response ch)
    exact ⟨.stream r, s', by simp only [ConnCall.run, hch, h], h'⟩
  | requestClose => obtain ⟨r, s', h, h'⟩ := key .requestClose; exact ⟨.void, s', by simp only [ConnCall.run, h], h'⟩
  | close => obtain ⟨r, s', h, h'⟩ := key .close; exact ⟨.void, s', by simp only [ConnCall.run, h], h'⟩
  | txDestroy t =>
    cases t with
    | none => exact ⟨.void, s, rfl, hs⟩
    | some t =>
      obtain ⟨r, s', h, h'⟩ := key (.removeTx t.index)
      exact ⟨.void, s', by simp only [ConnCall.run, h], h'⟩
  | getRequestTx => exact ⟨_, _, rfl, .call .askRequest none hs rfl⟩
  | getResponseTx => exact ⟨_, _, rfl, .call .askResponse none hs rfl⟩
  | tx id => exact ⟨_, _, rfl, hs⟩
  | txSize => exact ⟨_, _, rfl, hs⟩
  | requestDataConsumed => exact ⟨_, _, rfl, hs⟩
  | responseDataConsumed => exact ⟨_, _, rfl, hs⟩

/-- The objects a program has exist. -/
structure Has (w : World) (cs ps : List Nat) (n : Nat) : Prop where
  next : w.next = n
  configs : ∀ h ∈ cs, ∃ st, w.configs h = some st
  parsers : ∀ p ∈ ps, ∃ P : CParser, w.parsers p = some P ∧ P.env.ovf = false ∧ Reachable P.env P.conn

theorem update_some {α : Type} {f : Nat → Option α} {P : α → Prop} {k j : Nat} {v : α} (hv : P v)
    (h : j ≠ k → ∃ a, f j = some a ∧ P a) : ∃ a, update f k (some v) j = some a ∧ P a := by
  by_cases hj : j = k
  · exact ⟨v, by rw [hj, update_self], hv⟩
  · obtain ⟨a, ha, hp⟩ := h hj
    exact ⟨a, by rw [update_other _ _ hj, ha], hp⟩

/-- C68. In a build without overflow checks, a program that uses its pointers properly (objects it has
created and not destroyed, or NULL but for `htp_connp_destroy_all`; and as much memory as it says) never
fails: no call dereferences NULL or freed memory, reads past the end of the data, or aborts the process. -/
theorem C68_no_fault (base : Env) (he : base.ovf = false) (calls : List Call) (h : Proper calls [] [] 1) :
    ∃ as w, runCalls base calls {} = .ok (as, w) := by
  have key : ∀ (calls : List Call) (cs ps : List Nat) (n : Nat) (w : World), Has w cs ps n →
      Proper calls cs ps n → ∃ as w', runCalls base calls w = .ok (as, w') := by
    intro calls
    induction calls with
    | nil => exact fun cs ps n w _ _ => ⟨_, _, rfl⟩
    | cons c calls ih =>
      intro cs ps n w hw hp
      have step : ∀ (a : Answer) (w1 : World) (cs' ps' : List Nat) (n' : Nat), c.run base w = .ok (a, w1) →
          Has w1 cs' ps' n' → Proper calls cs' ps' n' → ∃ as w', runCalls base (c :: calls) w = .ok (as, w') := by
        intro a w1 cs' ps' n' hr hw1 hp1
        obtain ⟨as, w', h'⟩ := ih cs' ps' n' w1 hw1 hp1
        exact ⟨a :: as, w', by unfold runCalls; rw [hr]; dsimp only; rw [h']⟩
      have sets : ∀ (f : Nat → Option Settings), (∀ h ∈ cs, ∃ st, f h = some st) →
          Has { w with configs := f } cs ps n := fun f hf => ⟨hw.next, hf, hw.parsers⟩
      have upd : ∀ (f : Nat → Option Settings) (P : Nat → Prop) (k : Nat) (v : Settings),
          (∀ h, P h → h ≠ k → ∃ st, f h = some st) → ∀ h, P h → ∃ st, update f k (some v) h = some st := by
        intro f P k v hf h hP
        obtain ⟨a, ha, _⟩ := update_some (P := fun _ => True) (f := f) (k := k) (j := h) (v := v) trivial
          fun hne => by obtain ⟨st, hst⟩ := hf h hP hne; exact ⟨st, hst, trivial⟩
        exact ⟨a, ha⟩
      have create : ∀ st : Settings, Has { w with
          parsers := update w.parsers w.next (some ⟨st.env base, {}⟩), next := w.next + 1 } cs (n :: ps) (n + 1) := by
        intro st
        refine ⟨by rw [← hw.next], hw.configs, fun p hp => ?_⟩
        refine update_some (P := fun P : CParser => P.env.ovf = false ∧ Reachable P.env P.conn)
          ⟨he, .new⟩ fun hne => ?_
        rcases List.mem_cons.1 hp with rfl | hp
        · exact absurd hw.next.symm hne
        · exact hw.parsers p hp
      cases c with
      | configCreate =>
        refine step _ _ (n :: cs) ps (n + 1) rfl ⟨by rw [← hw.next], ?_, hw.parsers⟩ hp
        refine upd w.configs (· ∈ n :: cs) w.next {} fun h hh hne => ?_
        rcases List.mem_cons.1 hh with rfl | hh
        · exact absurd hw.next.symm hne
        · exact hw.configs h hh
      | configDestroy h =>
        cases h with
        | none => exact step _ _ cs ps n rfl hw hp
        | some h =>
          obtain ⟨st, hst⟩ := hw.configs h hp.1
          refine step .void { w with configs := update w.configs h none } _ ps n
            (by simp only [Call.run, hst]) ⟨hw.next, fun j hj => ?_, hw.parsers⟩ hp.2
          have := List.mem_filter.1 hj
          have hne : j ≠ h := by simpa using this.2
          obtain ⟨u, hu⟩ := hw.configs j this.1
          exact ⟨u, (update_other _ _ hne).trans hu⟩
      | configSet h s =>
        cases h with
        | none => exact step _ _ cs ps n rfl hw hp
        | some h =>
          obtain ⟨st, hst⟩ := hw.configs h hp.1
          exact step (s.answer st.cfg) { w with configs := update w.configs h (some { st with cfg := s.apply st.cfg }) }
            cs ps n (by simp only [Call.run, hst])
            (sets _ (upd w.configs (· ∈ cs) h _ fun j hj _ => hw.configs j hj)) hp.2
      | configRegister h k f =>
        cases h with
        | none => exact step _ _ cs ps n rfl hw hp
        | some h =>
          obtain ⟨st, hst⟩ := hw.configs h hp.1
          exact step .void { w with configs := update w.configs h (some (st.register k f)) }
            cs ps n (by simp only [Call.run, hst])
            (sets _ (upd w.configs (· ∈ cs) h _ fun j hj _ => hw.configs j hj)) hp.2
      | connpCreate h =>
        cases h with
        | none => exact step _ _ cs (n :: ps) (n + 1) rfl (create {}) hp
        | some h =>
          obtain ⟨st, hst⟩ := hw.configs h hp.1
          exact step (.handle w.next) _ cs (n :: ps) (n + 1) (by simp only [Call.run, hst]) (create st) hp.2
      | connpDestroyAll h =>
        cases h with
        | none => exact absurd hp id
        | some h =>
          obtain ⟨P, hP, _⟩ := hw.parsers h hp.1
          refine step .void { w with parsers := update w.parsers h none } cs _ n
            (by simp only [Call.run, hP]) ⟨hw.next, hw.configs, fun j hj => ?_⟩ hp.2
          have := List.mem_filter.1 hj
          have hne : j ≠ h := by simpa using this.2
          obtain ⟨u, hu, hu'⟩ := hw.parsers j this.1
          exact ⟨u, (update_other _ _ hne).trans hu, hu'⟩
      | conn h k =>
        cases h with
        | none => exact step _ _ cs ps n rfl hw hp
        | some h =>
          obtain ⟨P, hP, hov, hreach⟩ := hw.parsers h hp.1
          obtain ⟨a, s', hr, hs'⟩ := call_returns hov hreach k hp.2.1
          refine step a { w with parsers := update w.parsers h (some { P with conn := s' }) } cs ps n
            (by simp only [Call.run, hP, hr]) ⟨hw.next, hw.configs, fun j hj => ?_⟩ hp.2.2
          exact update_some (P := fun P : CParser => P.env.ovf = false ∧ Reachable P.env P.conn)
            ⟨hov, hs'⟩ fun _ => hw.parsers j hj
  exact key calls [] [] 1 {} ⟨rfl, by simp, by simp⟩ h

/-- A program with one configuration and two parsers: it stops at the request headers of the one it creates
after it has registered a callback that asks for this, and goes on with the other, which it created before.
It destroys the configuration while both parsers are in use. -/
def twoParsers : List Call :=
  [.configCreate, .connpCreate (some 1), .configRegister (some 1) .requestHeaders fun _ _ => .stop,
    .configSet (some 1) (.txAutoDestroy 1), .connpCreate (some 1), .configDestroy (some 1),
    .conn (some 2) .open, .conn (some 3) .open,
    .conn (some 2) (.requestData (some (b! "GET / HTTP/1.1\r\n")) 16),
    .conn (some 3) (.requestData (some (b! "GET / HTTP/1.1\r\n\r\n")) 18),
    .conn (some 2) (.requestData (some (b! "\r\n\r\n")) 2),
    .conn (some 3) .close, .connpDestroyAll (some 3), .conn none .close, .conn (some 2) .txSize]

set_option maxRecDepth 8000 in
/-- Case for C68: the program uses its pointers properly, and these are its answers. -/
example : Proper twoParsers [] [] 1 ∧ (runCalls sampleEnv twoParsers {}).toOption.map (·.1) =
    some [.handle 1, .handle 2, .void, .void, .handle 3, .void, .void, .void, .stream (some .data),
      .stream (some .stop), .stream (some .data), .void, .void, .void, .int 1] ∧
    ownCalls 2 twoParsers = [.open, .requestData (some (b! "GET / HTTP/1.1\r\n")) 16,
      .requestData (some (b! "\r\n\r\n")) 2, .txSize] := by
  refine ⟨?_, ?_, rfl⟩
  · simp only [twoParsers, Proper, inBounds]
    decide
  · decide_cbv

end Props
