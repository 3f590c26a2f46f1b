/-
Chains of decompressors whose layers decode, skip or give up.
-/
import Verif.Lemmas.Decoder
import Verif.Spec.Roles

namespace Model
open Spec

variable {C : Codecs}

/-! ### Decoders that were given nothing. -/

/-- A writer that was given nothing. -/
def Idle (w : Writer C) : Prop := ∃ w0, Flushed w0 w ∧ Quiet w0

theorem Idle.buf {w : Writer C} (h : Idle w) : w.buf = [] := by
  obtain ⟨w0, hf, hq⟩ := h
  exact (hq w hf).1

theorem Idle.flush {w : Writer C} (h : Idle w) : Idle w.flush.2 := by
  obtain ⟨w0, hf, hq⟩ := h
  exact ⟨w0, .more hf, hq⟩

theorem Idle.flush_ok {w : Writer C} (h : Idle w) : w.flush.1 = .ok () := by
  obtain ⟨w0, hf, hq⟩ := h
  exact (hq w hf).2.1

theorem Idle.finish {w : Writer C} (h : Idle w) : w.finish = .ok [] := by
  obtain ⟨w0, hf, hq⟩ := h
  exact (hq w hf).2.2

theorem writeAll_nothing (fuel : Nat) (c : Chain C) : Chain.writeAll (fuel + 1) c [] = .ret (.ok (), c) := by
  unfold Chain.writeAll
  rw [if_pos rfl]

theorem Idle.flushWriter {w : Writer C} (h : Idle w) (fuel : Nat) (l : Layer C) {inner : Chain C} (hi : inner ≠ .lost) :
    Chain.flushWriter (fuel + 2) l w inner = .ret (.ok (), l, w.flush.2, inner) := by
  have hw : ({ w.flush.2 with buf := [] } : Writer C) = w.flush.2 := by
    have := h.flush.buf
    revert this
    generalize w.flush.2 = w'
    obtain ⟨_, _, _⟩ := w'
    rintro rfl
    rfl
  rw [flushWriter_succ _ _ _ hi, h.flush_ok, h.flush.buf, writeAll_nothing, hw]
  split <;> rfl

/-- A decoder that works and was given nothing. -/
theorem idle_of_at {D : Decoder C} {w : Writer C} (h : D.At [] [] w) : Idle w := by
  have key : ∀ {w'}, D.At [] [] w' → w'.buf = [] ∧ w'.flush.1 = .ok () ∧ D.At [] [] w'.flush.2 := by
    intro w' h'
    have buf : ∀ {w'}, D.At [] [] w' → w'.buf = [] := by
      intro w' h'
      have := D.sofar h'
      rw [D.decode_nil] at this
      simpa using this
    rcases D.flush h' D.valid_nil with ⟨w1, h1, h2, _⟩ | ⟨w1, h1, h2, h3⟩
    · rw [h1]; exact ⟨buf h', rfl, h2⟩
    · exact absurd (buf h2) h3
  have hall : ∀ w', Flushed w w' → D.At [] [] w' := by
    intro w' hf
    induction hf with
    | none => exact h
    | more _ ih => exact (key ih).2.2
  refine ⟨w, .none, fun w' hf => ⟨(key (hall w' hf)).1, (key (hall w' hf)).2.1, ?_⟩⟩
  rw [← D.last_nil]
  refine D.finish ?_ D.valid_nil
  rw [D.decode_nil]
  exact hall w' hf

/-! ### Chains that pass everything on. -/

/-- All layers pass everything on. -/
def Passing : Chain C → Prop
  | .callback => True
  | .lost => False
  | .layer l inner => l.passthrough = true ∧ (∀ w, l.writer = some w → Idle w) ∧ Passing inner

theorem Passing.ne_lost {c : Chain C} (h : Passing c) : c ≠ .lost := by rintro rfl; exact h

theorem Passing.write : ∀ {c : Chain C}, Passing c → ∀ data, ∃ N, ∀ fuel, N ≤ fuel →
    Gives (c.write fuel data) [data] (.ok data.length, c) := by
  intro c
  induction c with
  | callback =>
    refine fun _ data => ⟨1, fun fuel hf => ?_⟩
    obtain ⟨fuel, rfl⟩ : ∃ m, fuel = m + 1 := ⟨fuel - 1, by omega⟩
    unfold Chain.write
    rfl
  | lost => exact fun h => h.elim
  | layer l inner ih =>
    intro h data
    obtain ⟨N, hN⟩ := ih h.2.2 data
    refine ⟨N + 1, fun fuel hf => ?_⟩
    obtain ⟨fuel, rfl⟩ : ∃ m, fuel = m + 1 := ⟨fuel - 1, by omega⟩
    unfold Chain.write
    rw [if_pos h.1]
    exact (hN fuel (by omega)).bind_ret rfl

theorem Passing.flush : ∀ {c : Chain C}, Passing c → ∃ N c', Passing c' ∧ ∀ fuel, N ≤ fuel →
    Gives (c.flush fuel) [] (.ok (), c') := by
  intro c
  induction c with
  | callback =>
    refine fun _ => ⟨1, .callback, trivial, fun fuel hf => ?_⟩
    obtain ⟨fuel, rfl⟩ : ∃ m, fuel = m + 1 := ⟨fuel - 1, by omega⟩
    unfold Chain.flush
    exact .ret _
  | lost => exact fun h => h.elim
  | layer l inner ih =>
    intro h
    obtain ⟨N, c', hc', hN⟩ := ih h.2.2
    cases hw : l.writer with
    | none =>
      refine ⟨N + 1, .layer l c', ⟨h.1, h.2.1, hc'⟩, fun fuel hf => ?_⟩
      obtain ⟨fuel, rfl⟩ : ∃ m, fuel = m + 1 := ⟨fuel - 1, by omega⟩
      unfold Chain.flush
      rw [hw]
      exact (hN fuel (by omega)).bind_ret rfl
    | some w =>
      have hi := h.2.1 w hw
      refine ⟨N + 3, .layer { l with writer := some w.flush.2 } c', ⟨h.1, ?_, hc'⟩, fun fuel hf => ?_⟩
      · rintro w' ⟨⟩; exact hi.flush
      · obtain ⟨fuel, rfl⟩ : ∃ m, fuel = m + 3 := ⟨fuel - 3, by omega⟩
        unfold Chain.flush
        rw [hw]
        dsimp only
        rw [hi.flushWriter _ _ h.2.2.ne_lost]
        exact (hN (fuel + 2) (by omega)).bind_ret rfl

theorem Passing.finish : ∀ {c : Chain C}, Passing c → ∃ N, ∀ fuel, N ≤ fuel →
    outputs (c.finish fuel) = ([none], some (.ok ())) := by
  intro c
  induction c with
  | callback =>
    refine fun _ => ⟨1, fun fuel hf => ?_⟩
    obtain ⟨fuel, rfl⟩ : ∃ m, fuel = m + 1 := ⟨fuel - 1, by omega⟩
    unfold Chain.finish
    rfl
  | lost => exact fun h => h.elim
  | layer l inner ih =>
    intro h
    obtain ⟨N, hN⟩ := ih h.2.2
    cases hw : l.writer with
    | none =>
      refine ⟨N + 1, fun fuel hf => ?_⟩
      obtain ⟨fuel, rfl⟩ : ∃ m, fuel = m + 1 := ⟨fuel - 1, by omega⟩
      unfold Chain.finish
      rw [hw]
      exact hN fuel (by omega)
    | some w =>
      have hi := h.2.1 w hw
      refine ⟨N + 3, fun fuel hf => ?_⟩
      obtain ⟨fuel, rfl⟩ : ∃ m, fuel = m + 3 := ⟨fuel - 3, by omega⟩
      unfold Chain.finish
      rw [hw]
      dsimp only
      rw [hi.flushWriter _ _ h.2.2.ne_lost]
      simp only [Prog.bind, hi.flush.finish, writeAll_nothing]
      exact hN (fuel + 2) (by omega)

/-! ### Layers that try other encodings. -/

/-- The layer was given nothing, and refuses such input. -/
def Wrong (V : Bytes → Prop) (l : Layer C) : Prop :=
  l.passthrough = false ∧ ∃ w0 w, l.writer = some w ∧ Flushed w0 w ∧ Quiet w0 ∧
    ∀ x, V x → ∀ w', Flushed w0 w' → ∀ p, p ≠ [] → p <+: x → (w'.write p).1 = .error .other

/-- The layer refuses such input, and so does the layer after each of `k` restarts but the last, which is as said. -/
def Tries (V : Bytes → Prop) (P : Layer C → Prop) : Nat → Layer C → Prop
  | 0, l => P l
  | k + 1, l => Wrong V l ∧ ∃ l', ({ l with writer := none } : Layer C).restart = some l' ∧ Tries V P k l'

theorem Wrong.idle {V : Bytes → Prop} {l : Layer C} (h : Wrong V l) : ∃ w, l.writer = some w ∧ Idle w := by
  obtain ⟨_, w0, w, h1, h2, h3, _⟩ := h
  exact ⟨w, h1, w0, h2, h3⟩

theorem Wrong.flush {V : Bytes → Prop} {l : Layer C} (h : Wrong V l) {w : Writer C} (hw : l.writer = some w) :
    Wrong V { l with writer := some w.flush.2 } := by
  obtain ⟨hp, w0, w1, h1, h2, h3, h4⟩ := h
  cases hw.symm.trans h1
  exact ⟨hp, w0, w.flush.2, rfl, .more h2, h3, h4⟩

theorem Wrong.write {V : Bytes → Prop} {l : Layer C} (h : Wrong V l) {p x : Bytes} (hp : p ≠ []) (hx : V x) (hpx : p <+: x)
    (fuel : Nat) (inner : Chain C) : Chain.write (fuel + 1) (.layer l inner) p =
      match ({ l with writer := none } : Layer C).restart with
      | some l => Chain.write fuel (.layer l inner) p
      | none =>
        (Chain.write fuel (inner.setPassthrough true) p).bind fun
          | (.ok n, inner) => .ret (.ok n, .layer { l with writer := none, passthrough := true } inner)
          | (.error e, inner) => .ret (.error e,
              (Chain.layer { l with writer := none, passthrough := true } inner).setPassthrough false) := by
  obtain ⟨hps, w0, w, h1, h2, h3, h4⟩ := h
  rw [write_layer fuel hps h1]
  have := h4 x hx w h2 p hp hpx
  generalize w.write p = r at this ⊢
  obtain ⟨r, w'⟩ := r
  dsimp only at this
  subst this
  rfl

theorem Tries.write {V : Bytes → Prop} {P : Layer C → Prop} {p x : Bytes} (hp : p ≠ []) (hx : V x) (hpx : p <+: x)
    (inner : Chain C) : ∀ {k : Nat} {l : Layer C}, Tries V P k l →
    ∃ l', P l' ∧ ∀ fuel, Chain.write (fuel + k) (.layer l inner) p = Chain.write fuel (.layer l' inner) p := by
  intro k
  induction k with
  | zero => exact fun {l} h => ⟨l, h, fun _ => rfl⟩
  | succ k ih =>
    intro l h
    obtain ⟨hw, l', hr, ht⟩ := h
    obtain ⟨l'', h1, h2⟩ := ih ht
    refine ⟨l'', h1, fun fuel => ?_⟩
    rw [← Nat.add_assoc, hw.write hp hx hpx, hr]
    exact h2 fuel

theorem Tries.flush {V : Bytes → Prop} {P : Layer C → Prop} {k : Nat} {l : Layer C} (h : Tries V P (k + 1) l) {w : Writer C}
    (hw : l.writer = some w) : Tries V P (k + 1) { l with writer := some w.flush.2 } := ⟨h.1.flush hw, h.2⟩

/-! ### Roles. -/

/-- A layer that works and was given nothing. -/
def Works (D : Decoder C) (l : Layer C) : Prop := l.passthrough = false ∧ ∃ w, l.writer = some w ∧ D.At [] [] w

/-- A layer that refuses such input, without other encodings to try. -/
def Last (V : Bytes → Prop) (l : Layer C) : Prop := Wrong V l ∧ ({ l with writer := none } : Layer C).restart = none

/-- The chain has been fed `fed`, and has given out `out`. -/
def Plays : List (Role C) → Chain C → Bytes → Bytes → Prop
  | [], .callback, fed, out => out = fed
  | .decodes D :: Rs, .layer l inner, fed, out =>
    (l.passthrough = false ∧ ∃ w mid, l.writer = some w ∧ D.At fed mid w ∧ Plays Rs inner mid out) ∨
    (fed = [] ∧ Plays Rs inner [] out ∧ ∃ k, Tries D.Valid (Works D) (k + 1) l)
  | .skips :: Rs, .layer l inner, fed, out =>
    l.passthrough = true ∧ (∃ w, l.writer = some w ∧ Idle w) ∧ Plays Rs inner fed out
  | .givesUp V :: Rs, .layer l inner, fed, out =>
    (fed = [] ∧ Plays Rs inner [] out ∧ ∃ k, Tries V (Last V) k l) ∨
    (l.passthrough = true ∧ l.writer = none ∧ Passing inner ∧ out = fed)
  | _, _, _, _ => False

theorem plays_lost {Rs : List (Role C)} {fed out : Bytes} : ¬ Plays Rs .lost fed out := by
  cases Rs with
  | nil => exact fun h => h
  | cons R Rs => cases R <;> exact fun h => h

theorem Plays.ne_lost {Rs : List (Role C)} {c : Chain C} {fed out : Bytes} (h : Plays Rs c fed out) : c ≠ .lost := by
  rintro rfl; exact plays_lost h

theorem plays_callback {R : Role C} {Rs : List (Role C)} {fed out : Bytes} : ¬ Plays (R :: Rs) .callback fed out := by
  cases R <;> exact fun h => h

/-- Out of nothing comes nothing. -/
theorem Plays.nil : ∀ {Rs : List (Role C)} {c : Chain C} {out : Bytes}, Plays Rs c [] out → out = [] := by
  intro Rs
  induction Rs with
  | nil =>
    intro c out h
    cases c with
    | callback => exact h
    | lost => exact h.elim
    | layer _ _ => exact h.elim
  | cons R Rs ih =>
    intro c out h
    cases c with
    | callback => exact (plays_callback h).elim
    | lost => exact (plays_lost h).elim
    | layer l inner =>
      cases R with
      | decodes D =>
        rcases h with ⟨_, w, mid, _, ha, h⟩ | ⟨_, h, _⟩
        · have hs := D.sofar ha
          rw [D.decode_nil] at hs
          have : mid = [] := by
            have := List.prefix_nil.1 hs
            exact (List.append_eq_nil_iff.1 this).1
          subst this
          exact ih h
        · exact ih h
      | skips => exact ih h.2.2
      | givesUp V =>
        rcases h with ⟨_, h, _⟩ | ⟨_, _, _, h⟩
        · exact ih h
        · exact h

theorem Passing.set : ∀ {c : Chain C}, Passing c → Passing (c.setPassthrough true) := by
  intro c
  induction c with
  | callback => exact fun h => h
  | lost => exact fun h => h
  | layer l inner ih => exact fun h => ⟨rfl, h.2.1, ih h.2.2⟩

theorem Tries.idle {V : Bytes → Prop} {P : Layer C → Prop} (hP : ∀ l, P l → ∃ w, l.writer = some w ∧ Idle w) {k : Nat}
    {l : Layer C} (h : Tries V P k l) : ∃ w, l.writer = some w ∧ Idle w := by
  cases k with
  | zero => exact hP l h
  | succ k => exact h.1.idle

/-- A chain that was given nothing passes everything on once it is told to. -/
theorem Plays.passing : ∀ {Rs : List (Role C)} {c : Chain C} {out : Bytes}, Plays Rs c [] out → Passing (c.setPassthrough true) := by
  intro Rs
  induction Rs with
  | nil =>
    intro c out h
    cases c with
    | callback => trivial
    | lost => exact h.elim
    | layer _ _ => exact h.elim
  | cons R Rs ih =>
    intro c out h
    cases c with
    | callback => exact (plays_callback h).elim
    | lost => exact (plays_lost h).elim
    | layer l inner =>
      cases R with
      | decodes D =>
        rcases h with ⟨_, w, mid, hw, ha, h⟩ | ⟨_, h, k, ht⟩
        · have hs := D.sofar ha
          rw [D.decode_nil] at hs
          have : mid = [] := (List.append_eq_nil_iff.1 (List.prefix_nil.1 hs)).1
          subst this
          refine ⟨rfl, fun w' hw' => ?_, ih h⟩
          cases hw.symm.trans hw'
          exact idle_of_at ha
        · obtain ⟨w, hw, hi⟩ := ht.1.idle
          refine ⟨rfl, fun w' hw' => ?_, ih h⟩
          cases hw.symm.trans hw'
          exact hi
      | skips =>
        obtain ⟨_, ⟨w, hw, hi⟩, h⟩ := h
        refine ⟨rfl, fun w' hw' => ?_, ih h⟩
        cases hw.symm.trans hw'
        exact hi
      | givesUp V =>
        rcases h with ⟨_, h, k, ht⟩ | ⟨_, hw, h, _⟩
        · obtain ⟨w, hw, hi⟩ := ht.idle fun l h => h.1.idle
          refine ⟨rfl, fun w' hw' => ?_, ih h⟩
          cases hw.symm.trans hw'
          exact hi
        · refine ⟨rfl, fun w' hw' => ?_, h.set⟩
          cases hw.symm.trans hw'

theorem validRoles_nil (Rs : List (Role C)) : ValidRoles Rs [] := by
  induction Rs with
  | nil => trivial
  | cons R Rs ih =>
    cases R with
    | decodes D => exact ⟨D.valid_nil, by rw [D.decode_nil]; exact ih⟩
    | skips => exact ih
    | givesUp V => exact fun h => absurd rfl h

theorem validRolesEnd_nil (Rs : List (Role C)) : ValidRolesEnd Rs [] := by
  induction Rs with
  | nil => trivial
  | cons R Rs ih =>
    cases R with
    | decodes D => exact ⟨D.valid_nil, by rw [D.decode_nil, D.last_nil]; exact ih⟩
    | skips => exact ih
    | givesUp V => exact fun h => absurd rfl h

theorem decodeRoles_nil (Rs : List (Role C)) : decodeRoles Rs [] = [] := by
  induction Rs with
  | nil => rfl
  | cons R Rs ih =>
    cases R with
    | decodes D => show decodeRoles Rs (D.decode []) = []; rw [D.decode_nil, ih]
    | skips => exact ih
    | givesUp V => rfl

theorem decodeRolesEnd_nil (Rs : List (Role C)) : decodeRolesEnd Rs [] = [] := by
  induction Rs with
  | nil => rfl
  | cons R Rs ih =>
    cases R with
    | decodes D => show decodeRolesEnd Rs (D.decode [] ++ D.last []) = []; rw [D.decode_nil, D.last_nil]; exact ih
    | skips => exact ih
    | givesUp V => rfl

theorem _root_.Spec.ValidRoles.start {Rs : List (Role C)} : ∀ {x y : Bytes}, ValidRoles Rs (x ++ y) → ValidRoles Rs x := by
  induction Rs with
  | nil => exact fun _ => trivial
  | cons R Rs ih =>
    intro x y h
    cases R with
    | decodes D =>
      obtain ⟨z, hz⟩ := D.decode_prefix h.1
      refine ⟨D.valid_prefix h.1, ih (y := z) ?_⟩
      rw [hz]
      exact h.2
    | skips => exact ih (y := y) h
    | givesUp V =>
      intro hx
      obtain ⟨z, hz⟩ := h (by simp [hx])
      exact ⟨y ++ z, by rwa [← List.append_assoc]⟩

theorem _root_.Spec.ValidRoles.prefix {Rs : List (Role C)} {x y : Bytes} (h : ValidRoles Rs y) (hp : x <+: y) : ValidRoles Rs x := by
  obtain ⟨z, rfl⟩ := hp
  exact h.start

theorem _root_.Spec.ValidRolesEnd.all {Rs : List (Role C)} : ∀ {x : Bytes}, ValidRolesEnd Rs x → ValidRoles Rs x := by
  induction Rs with
  | nil => intro x _; trivial
  | cons R Rs ih =>
    intro x h
    cases R with
    | decodes D => exact ⟨h.1, (ih h.2).start⟩
    | skips => exact ih (x := x) h
    | givesUp V => exact h

/-- A write to a layer that decodes. -/
theorem write_decodes {D : Decoder C} {Rs : List (Role C)} (ih : WritesFor (Plays Rs) (ValidRoles Rs)) {l : Layer C}
    {inner : Chain C} {w : Writer C} {fed mid out data : Bytes} (hp : l.passthrough = false) (hw : l.writer = some w)
    (ha : D.At fed mid w) (hr : Plays Rs inner mid out) (hd : data ≠ []) (hv : ValidRoles (.decodes D :: Rs) (fed ++ data)) :
    ∃ N n chunks c', 0 < n ∧ n ≤ data.length ∧
      (∀ fuel, N ≤ fuel → Gives (Chain.write fuel (.layer l inner) data) chunks (.ok n, c')) ∧
      Plays (.decodes D :: Rs) c' (fed ++ data.take n) (out ++ chunks.flatten) := by
  have hpos : 0 < data.length := List.length_pos_iff.2 hd
  have htake : ∀ n, n ≤ data.length → 0 < (if n = 0 then data.length else n) ∧ (if n = 0 then data.length else n) ≤ data.length := by
    intro n hn; split <;> omega
  rcases D.write ha hv.1 hd with ⟨n, w', h1, h2, h3⟩ | ⟨w', h1, h2, h3⟩
  · refine ⟨1, _, [], .layer { l with writer := some w' } inner, (htake n h2).1, (htake n h2).2, fun fuel hf => ?_,
      .inl ⟨hp, w', mid, rfl, h3, by simpa using hr⟩⟩
    obtain ⟨fuel, rfl⟩ : ∃ m, fuel = m + 1 := ⟨fuel - 1, by omega⟩
    rw [write_layer fuel hp hw, h1]
    exact .ret _
  · obtain ⟨N, chunks, w2, inner2, hg, ha2, hr2⟩ := flushWriter_gives ih plays_lost (·.start) { l with writer := none } _ rfl h2 hr
      (D.valid_prefix hv.1) (hv.2.prefix (D.decode_prefix hv.1))
    rcases D.write ha2 hv.1 hd with ⟨n, w3, h4, h5, h6⟩ | ⟨w3, h4, h5, h6⟩
    · refine ⟨N + 2, _, chunks, .layer { l with writer := some w3 } inner2, (htake n h5).1, (htake n h5).2, fun fuel hf => ?_,
        .inl ⟨hp, w3, _, rfl, h6, hr2⟩⟩
      obtain ⟨fuel, rfl⟩ : ∃ m, fuel = m + 2 := ⟨fuel - 2, by omega⟩
      rw [write_layer (fuel + 1) hp hw, h1]
      refine (hg (fuel + 1) (by omega)).bind_ret ?_
      dsimp only
      rw [write_layer fuel (l := { l with writer := some w2 }) hp rfl, h4]
    · exact absurd rfl h6

theorem writes_roles (Rs : List (Role C)) : WritesFor (Plays Rs) (ValidRoles Rs) := by
  induction Rs with
  | nil =>
    intro c fed out data hr hd _
    cases c with
    | callback =>
      have hpos : 0 < data.length := List.length_pos_iff.2 hd
      refine ⟨1, data.length, [data], .callback, hpos, Nat.le_refl _, fun fuel hf => ?_, ?_⟩
      · obtain ⟨fuel, rfl⟩ : ∃ m, fuel = m + 1 := ⟨fuel - 1, by omega⟩
        unfold Chain.write
        rfl
      · have hr : out = fed := hr
        show out ++ [data].flatten = fed ++ data.take data.length
        rw [hr]; simp
    | lost => exact hr.elim
    | layer _ _ => exact hr.elim
  | cons R Rs ih =>
    intro c fed out data hr hd hv
    have hpos : 0 < data.length := List.length_pos_iff.2 hd
    cases c with
    | callback => exact (plays_callback hr).elim
    | lost => exact (plays_lost hr).elim
    | layer l inner =>
      cases R with
      | decodes D =>
        rcases hr with ⟨hp, w, mid, hw, ha, hr⟩ | ⟨rfl, hr, k, ht⟩
        · exact write_decodes ih hp hw ha hr hd hv
        · have hv1 : D.Valid data := hv.1
          obtain ⟨l', ⟨hp, w, hw, ha⟩, hl⟩ := ht.write hd hv1 (List.prefix_refl _) inner
          obtain ⟨N, n, chunks, c', h1, h2, h3, h4⟩ := write_decodes ih hp hw ha hr hd hv
          refine ⟨N + (k + 1), n, chunks, c', h1, h2, fun fuel hf => ?_, h4⟩
          obtain ⟨fuel, rfl⟩ : ∃ m, fuel = m + (k + 1) := ⟨fuel - (k + 1), by omega⟩
          rw [hl]
          exact h3 fuel (by omega)
      | skips =>
        obtain ⟨hp, hw, hr⟩ := hr
        obtain ⟨N, n, chunks, c', h1, h2, h3, h4⟩ := ih hr hd hv
        refine ⟨N + 1, n, chunks, .layer l c', h1, h2, fun fuel hf => ?_, hp, hw, h4⟩
        obtain ⟨fuel, rfl⟩ : ∃ m, fuel = m + 1 := ⟨fuel - 1, by omega⟩
        unfold Chain.write
        rw [if_pos hp]
        exact (h3 fuel (by omega)).bind_ret rfl
      | givesUp V =>
        rcases hr with ⟨rfl, hr, k, ht⟩ | ⟨hp, hw, hr, rfl⟩
        · obtain ⟨y, hy⟩ := hv hd
          rw [List.nil_append] at hy
          obtain ⟨l', ⟨hwr, hrs⟩, hl⟩ := ht.write hd hy (List.prefix_append ..) inner
          have hout := hr.nil
          subst hout
          obtain ⟨N, hN⟩ := hr.passing.write data
          refine ⟨N + 1 + k, data.length, [data], .layer { l' with writer := none, passthrough := true } (inner.setPassthrough true),
            hpos, Nat.le_refl _, fun fuel hf => ?_, .inr ⟨rfl, rfl, hr.passing, by simp⟩⟩
          obtain ⟨fuel, rfl⟩ : ∃ m, fuel = m + 1 + k := ⟨fuel - 1 - k, by omega⟩
          rw [hl, hwr.write hd hy (List.prefix_append ..), hrs]
          exact (hN fuel (by omega)).bind_ret rfl
        · obtain ⟨N, hN⟩ := hr.write data
          refine ⟨N + 1, data.length, [data], .layer l inner, hpos, Nat.le_refl _, fun fuel hf => ?_, .inr ⟨hp, hw, hr, by simp⟩⟩
          obtain ⟨fuel, rfl⟩ : ∃ m, fuel = m + 1 := ⟨fuel - 1, by omega⟩
          unfold Chain.write
          rw [if_pos hp]
          exact (hN fuel (by omega)).bind_ret rfl

/-- Flushing a layer that was given nothing. -/
theorem flush_idle {l : Layer C} {w : Writer C} {inner : Chain C} (hw : l.writer = some w) (hi : Idle w) (hl : inner ≠ .lost)
    {M : Nat} {chunks : List Bytes} {inner' : Chain C} (hg : ∀ fuel, M ≤ fuel → Gives (inner.flush fuel) chunks (.ok (), inner'))
    (fuel : Nat) (hf : M + 3 ≤ fuel) :
    Gives (Chain.flush fuel (.layer l inner)) chunks (.ok (), .layer { l with writer := some w.flush.2 } inner') := by
  obtain ⟨fuel, rfl⟩ : ∃ m, fuel = m + 3 := ⟨fuel - 3, by omega⟩
  unfold Chain.flush
  rw [hw]
  dsimp only
  rw [hi.flushWriter _ _ hl]
  exact (hg (fuel + 2) (by omega)).bind_ret rfl

theorem flush_roles (Rs : List (Role C)) : ∀ {c : Chain C} {fed out : Bytes}, Plays Rs c fed out → ValidRoles Rs fed →
    ∃ N chunks c', (∀ fuel, N ≤ fuel → Gives (c.flush fuel) chunks (.ok (), c')) ∧
      Plays Rs c' fed (out ++ chunks.flatten) ∧ out ++ chunks.flatten = decodeRoles Rs fed := by
  induction Rs with
  | nil =>
    intro c fed out hr _
    cases c with
    | callback =>
      refine ⟨1, [], .callback, fun fuel hf => ?_, by simpa using hr, ?_⟩
      · obtain ⟨fuel, rfl⟩ : ∃ m, fuel = m + 1 := ⟨fuel - 1, by omega⟩
        unfold Chain.flush
        exact .ret _
      · have hr : out = fed := hr
        simp [decodeRoles, hr]
    | lost => exact hr.elim
    | layer _ _ => exact hr.elim
  | cons R Rs ih =>
    intro c fed out hr hv
    cases c with
    | callback => exact (plays_callback hr).elim
    | lost => exact (plays_lost hr).elim
    | layer l inner =>
      cases R with
      | decodes D =>
        rcases hr with ⟨hp, w, mid, hw, ha, hr⟩ | ⟨rfl, hr, k, ht⟩
        · obtain ⟨N, chunks, w2, inner2, hg, ha2, hr2⟩ := flushWriter_gives (writes_roles Rs) plays_lost (·.start)
            { l with writer := none } _ rfl ha hr hv.1 hv.2
          obtain ⟨M, chunks', inner3, hg', hr3, he⟩ := ih hr2 hv.2
          refine ⟨max N M + 1, chunks ++ chunks', .layer { l with writer := some w2 } inner3, fun fuel hf => ?_, ?_, ?_⟩
          · obtain ⟨fuel, rfl⟩ : ∃ m, fuel = m + 1 := ⟨fuel - 1, by omega⟩
            unfold Chain.flush
            rw [hw]
            refine (hg fuel (by omega)).bind ?_
            exact (hg' fuel (by omega)).bind_ret rfl
          · exact .inl ⟨hp, w2, _, rfl, ha2, by simpa using hr3⟩
          · show _ = decodeRoles Rs (D.decode fed)
            rw [← he]; simp
        · obtain ⟨w, hw, hi⟩ := ht.1.idle
          obtain ⟨M, chunks, inner', hg, hr', he⟩ := ih hr (validRoles_nil Rs)
          refine ⟨M + 3, chunks, _, flush_idle hw hi hr.ne_lost hg, .inr ⟨rfl, hr', k, ht.flush hw⟩, ?_⟩
          show _ = decodeRoles Rs (D.decode [])
          rw [D.decode_nil, he]
      | skips =>
        obtain ⟨hp, ⟨w, hw, hi⟩, hr⟩ := hr
        obtain ⟨M, chunks, inner', hg, hr', he⟩ := ih hr hv
        exact ⟨M + 3, chunks, _, flush_idle hw hi hr.ne_lost hg, ⟨hp, ⟨_, rfl, hi.flush⟩, hr'⟩, he⟩
      | givesUp V =>
        rcases hr with ⟨rfl, hr, k, ht⟩ | ⟨hp, hw, hr, rfl⟩
        · obtain ⟨w, hw, hi⟩ := ht.idle fun l h => h.1.idle
          obtain ⟨M, chunks, inner', hg, hr', he⟩ := ih hr (validRoles_nil Rs)
          refine ⟨M + 3, chunks, _, flush_idle hw hi hr.ne_lost hg, .inl ⟨rfl, hr', k, ?_⟩, ?_⟩
          · cases k with
            | zero => exact ⟨ht.1.flush hw, ht.2⟩
            | succ k => exact ht.flush hw
          · rw [he, decodeRoles_nil]; rfl
        · obtain ⟨N, c', hc', hN⟩ := hr.flush
          refine ⟨N + 1, [], .layer l c', fun fuel hf => ?_, .inr ⟨hp, hw, hc', by simp⟩, by simp [decodeRoles]⟩
          obtain ⟨fuel, rfl⟩ : ∃ m, fuel = m + 1 := ⟨fuel - 1, by omega⟩
          unfold Chain.flush
          rw [hw]
          exact (hN fuel (by omega)).bind_ret rfl

/-- The end of a layer that was given nothing. -/
theorem finish_idle {l : Layer C} {w : Writer C} {inner : Chain C} (hw : l.writer = some w) (hi : Idle w) (hl : inner ≠ .lost)
    {M : Nat} {o : List (Option Bytes)} (hg : ∀ fuel, M ≤ fuel → outputs (inner.finish fuel) = (o, some (.ok ())))
    (fuel : Nat) (hf : M + 3 ≤ fuel) : outputs (Chain.finish fuel (.layer l inner)) = (o, some (.ok ())) := by
  obtain ⟨fuel, rfl⟩ : ∃ m, fuel = m + 3 := ⟨fuel - 3, by omega⟩
  unfold Chain.finish
  rw [hw]
  dsimp only
  rw [hi.flushWriter _ _ hl]
  simp only [Prog.bind, hi.flush.finish, writeAll_nothing]
  exact hg (fuel + 2) (by omega)

theorem finish_roles (Rs : List (Role C)) : ∀ {c : Chain C} {fed out : Bytes}, Plays Rs c fed out → ValidRolesEnd Rs fed →
    ∃ (N : Nat) (chunks : List Bytes), (∀ fuel, N ≤ fuel → outputs (c.finish fuel) = (chunks.map some ++ [none], some (.ok ()))) ∧
      out ++ chunks.flatten = decodeRolesEnd Rs fed := by
  induction Rs with
  | nil =>
    intro c fed out hr _
    cases c with
    | callback =>
      refine ⟨1, [], fun fuel hf => ?_, ?_⟩
      · obtain ⟨fuel, rfl⟩ : ∃ m, fuel = m + 1 := ⟨fuel - 1, by omega⟩
        unfold Chain.finish
        rfl
      · have hr : out = fed := hr
        simp [decodeRolesEnd, hr]
    | lost => exact hr.elim
    | layer _ _ => exact hr.elim
  | cons R Rs ih =>
    intro c fed out hr hv
    cases c with
    | callback => exact (plays_callback hr).elim
    | lost => exact (plays_lost hr).elim
    | layer l inner =>
      cases R with
      | decodes D =>
        rcases hr with ⟨hp, w, mid, hw, ha, hr⟩ | ⟨rfl, hr, k, ht⟩
        · obtain ⟨N, chunks, w2, inner2, hg, ha2, hr2⟩ := flushWriter_gives (writes_roles Rs) plays_lost (·.start)
            { l with writer := none } _ rfl ha hr hv.1 hv.2.all.start
          obtain ⟨K, mids, inner3, hg3, hr3⟩ := writeAll_gives (writes_roles Rs) _ rfl (data := D.last fed) hr2 hv.2.all
          obtain ⟨M, chunks', hg', he⟩ := ih hr3 hv.2
          refine ⟨max N (max M K) + 2, chunks ++ mids ++ chunks', fun fuel hf => ?_, ?_⟩
          · obtain ⟨fuel, rfl⟩ : ∃ m, fuel = m + 2 := ⟨fuel - 2, by omega⟩
            unfold Chain.finish
            rw [hw]
            dsimp only
            rw [outputs_bind (hg (fuel + 1) (by omega))]
            dsimp only
            rw [D.finish ha2 hv.1]
            dsimp only
            rw [outputs_bind (hg3 (fuel + 1) (by omega))]
            dsimp only
            rw [hg' (fuel + 1) (by omega)]
            simp
          · show _ = decodeRolesEnd Rs (D.decode fed ++ D.last fed)
            rw [← he]; simp
        · obtain ⟨w, hw, hi⟩ := ht.1.idle
          obtain ⟨M, chunks, hg, he⟩ := ih hr (validRolesEnd_nil Rs)
          refine ⟨M + 3, chunks, finish_idle hw hi hr.ne_lost hg, ?_⟩
          show _ = decodeRolesEnd Rs (D.decode [] ++ D.last [])
          rw [D.decode_nil, D.last_nil]
          exact he
      | skips =>
        obtain ⟨hp, ⟨w, hw, hi⟩, hr⟩ := hr
        obtain ⟨M, chunks, hg, he⟩ := ih hr hv
        exact ⟨M + 3, chunks, finish_idle hw hi hr.ne_lost hg, he⟩
      | givesUp V =>
        rcases hr with ⟨rfl, hr, k, ht⟩ | ⟨hp, hw, hr, rfl⟩
        · obtain ⟨w, hw, hi⟩ := ht.idle fun l h => h.1.idle
          obtain ⟨M, chunks, hg, he⟩ := ih hr (validRolesEnd_nil Rs)
          refine ⟨M + 3, chunks, finish_idle hw hi hr.ne_lost hg, ?_⟩
          rw [he, decodeRolesEnd_nil]; rfl
        · obtain ⟨N, hN⟩ := hr.finish
          refine ⟨N + 1, [], fun fuel hf => ?_, by simp [decodeRolesEnd]⟩
          obtain ⟨fuel, rfl⟩ : ∃ m, fuel = m + 1 := ⟨fuel - 1, by omega⟩
          unfold Chain.finish
          rw [hw]
          exact hN fuel (by omega)

theorem decompress_roles (Rs : List (Role C)) {c : Chain C} {fed out data : Bytes} (hr : Plays Rs c fed out)
    (hv : ValidRoles Rs (fed ++ data)) : ∃ N chunks c', (∀ fuel, N ≤ fuel → Gives (c.decompress fuel data) chunks (.ok (), c')) ∧
      Plays Rs c' (fed ++ data) (out ++ chunks.flatten) ∧ out ++ chunks.flatten = decodeRoles Rs (fed ++ data) := by
  obtain ⟨N, x, c1, hg, hr1⟩ := writeAll_gives (writes_roles Rs) _ rfl hr hv
  obtain ⟨M, y, c2, hg2, hr2, he⟩ := flush_roles Rs hr1 hv
  refine ⟨max N M, x ++ y, c2, fun fuel hf => ?_, by simpa using hr2, by rw [← he]; simp⟩
  unfold Chain.decompress
  exact (hg fuel (by omega)).bind (hg2 fuel (by omega))

/-- The chain after more data. -/
theorem after_roles (Rs : List (Role C)) : ∀ (ps : List Bytes) {c : Chain C} {fed : Bytes},
    Plays Rs c fed (decodeRoles Rs fed) → ValidRoles Rs (fed ++ ps.flatten) →
    ∃ N c', (∀ fuel, N ≤ fuel → c.after fuel ps = some c') ∧
      Plays Rs c' (fed ++ ps.flatten) (decodeRoles Rs (fed ++ ps.flatten)) := by
  intro ps
  induction ps with
  | nil => intro c fed hr _; exact ⟨0, c, fun _ _ => rfl, by simpa using hr⟩
  | cons p ps ih =>
    intro c fed hr hv
    rw [List.flatten_cons, ← List.append_assoc] at hv ⊢
    obtain ⟨N, chunks, c1, hg, hr1, he⟩ := decompress_roles Rs hr (hv.start)
    rw [he] at hr1
    obtain ⟨M, c2, ha, hr2⟩ := ih hr1 hv
    refine ⟨max N M, c2, fun fuel hf => ?_, hr2⟩
    unfold Chain.after
    rw [accepted_eq, hg fuel (by omega)]
    exact ha fuel (by omega)

/-! ### New chains. -/

/-- The encodings tried after `n` more restarts at most. -/
def rotations : Nat → Encoding → List Encoding
  | 0, e => [e]
  | n + 1, e => e :: rotations n (Layer.nextEncoding e)

theorem attempts_eq {enc : Encoding} (h : attempts enc ≠ []) : attempts enc = rotations 3 enc := by
  cases enc <;> first | rfl | exact absurd rfl h

/-- A layer that was just made. -/
def NewLayer (lzma : Bool) (l : Layer C) : Prop :=
  l.lzma = lzma ∧ l.passthrough = false ∧ ∃ w, Writer.new C lzma l.encoding = some (w, false) ∧ l.writer = some w

theorem NewLayer.restart {lzma : Bool} {l : Layer C} (h : NewLayer lzma l) (hr : l.restarts < 3) {w : Writer C}
    (hw : Writer.new C lzma (Layer.nextEncoding l.encoding) = some (w, false)) :
    ∃ l', ({ l with writer := none } : Layer C).restart = some l' ∧ NewLayer lzma l' ∧ l'.restarts = l.restarts + 1 ∧
      l'.encoding = Layer.nextEncoding l.encoding := by
  refine ⟨{ l with encoding := Layer.nextEncoding l.encoding, writer := some w, restarts := l.restarts + 1 }, ?_,
    ⟨h.1, h.2.1, w, hw, rfl⟩, rfl, rfl⟩
  unfold Layer.restart
  rw [if_pos hr]
  simp only [h.1, hw]
  rfl

theorem NewLayer.wrong {lzma : Bool} {l : Layer C} (h : NewLayer lzma l) {V : Bytes → Prop}
    (hw : WrongFor C lzma l.encoding V) : Wrong V l := by
  obtain ⟨w, h1, h2, h3⟩ := hw
  obtain ⟨_, hp, w', h4, h5⟩ := h
  cases h1.symm.trans h4
  exact ⟨hp, w, w, h5, .none, h2, h3⟩

theorem head_rotations (n : Nat) (e : Encoding) : ∃ t, rotations n e = e :: t := by
  cases n
  · exact ⟨[], rfl⟩
  · exact ⟨_, rfl⟩

theorem tries_decodes {lzma : Bool} {D : Decoder C} {right : Encoding} (hD : DecoderFor C lzma right D) (rest : List Encoding) :
    ∀ (wrong : List Encoding) (n : Nat) (l : Layer C), (∀ e ∈ wrong, WrongFor C lzma e D.Valid) → NewLayer lzma l →
      l.restarts + n = 3 → rotations n l.encoding = wrong ++ right :: rest → Tries D.Valid (Works D) wrong.length l := by
  intro wrong
  induction wrong with
  | nil =>
    intro n l _ hl _ he
    obtain ⟨t, ht⟩ := head_rotations n l.encoding
    rw [ht] at he
    injection he with he _
    obtain ⟨w, hw, ha⟩ := hD
    obtain ⟨_, hp, w', hw', hlw⟩ := hl
    rw [he, hw] at hw'
    cases hw'
    exact ⟨hp, w, hlw, ha⟩
  | cons e ws ih =>
    intro n l hws hl hn he
    cases n with
    | zero => simp [rotations] at he
    | succ n =>
      simp only [rotations, List.cons_append, List.cons.injEq] at he
      obtain ⟨rfl, he⟩ := he
      refine ⟨hl.wrong (hws _ List.mem_cons_self), ?_⟩
      obtain ⟨w, hw⟩ : ∃ w, Writer.new C lzma (Layer.nextEncoding l.encoding) = some (w, false) := by
        obtain ⟨t, ht⟩ := head_rotations n (Layer.nextEncoding l.encoding)
        rw [ht] at he
        cases ws with
        | nil =>
          injection he with he _
          obtain ⟨w, hw, _⟩ := hD
          exact ⟨w, by rw [he]; exact hw⟩
        | cons e' ws =>
          injection he with he _
          obtain ⟨w, hw, _⟩ := hws e' (by simp)
          exact ⟨w, by rw [he]; exact hw⟩
      obtain ⟨l', h1, h2, h3, h4⟩ := hl.restart (by omega) hw
      exact ⟨l', h1, ih n l' (fun e he => hws e (List.mem_cons_of_mem _ he)) h2 (by omega) (by rw [h4]; exact he)⟩

theorem tries_givesUp {lzma : Bool} {V : Bytes → Prop} : ∀ (n : Nat) (l : Layer C),
    (∀ e ∈ rotations n l.encoding, WrongFor C lzma e V) → NewLayer lzma l → l.restarts + n = 3 → Tries V (Last V) n l := by
  intro n
  induction n with
  | zero =>
    intro l hw hl hn
    refine ⟨hl.wrong (hw _ (by simp [rotations])), ?_⟩
    unfold Layer.restart
    rw [if_neg (by show ¬ l.restarts < 3; omega)]
  | succ n ih =>
    intro l hw hl hn
    refine ⟨hl.wrong (hw _ (by simp [rotations])), ?_⟩
    obtain ⟨t, ht⟩ := head_rotations n (Layer.nextEncoding l.encoding)
    obtain ⟨w, hwr, _⟩ := hw (Layer.nextEncoding l.encoding) (by simp [rotations, ht])
    obtain ⟨l', h1, h2, h3, h4⟩ := hl.restart (by omega) hwr
    exact ⟨l', h1, ih l' (fun e he => hw e (by rw [h4] at he; simp [rotations, he])) h2 (by omega)⟩

theorem idle_null (w : Writer C) (hf : w.front = .null) (hb : w.buf = []) : Idle w := by
  have hfl : w.flush = (.ok (), w) := by unfold Writer.flush; rw [hf]
  have hall : ∀ w', Flushed w w' → w' = w := by
    intro w' h
    induction h with
    | none => rfl
    | more _ ih => rw [ih, hfl]
  refine ⟨w, .none, fun w' h => ?_⟩
  rw [hall w' h]
  refine ⟨hb, by rw [hfl], ?_⟩
  unfold Writer.finish
  rw [hf]
  show Except.ok w.buf = _
  rw [hb]

/-- One more layer. -/
theorem prepend_plays {lzma : Bool} {enc : Encoding} {R : Role C} {Rs : List (Role C)} {c : Chain C}
    (h : RoleFor C lzma enc R) (hc : Plays Rs c [] []) : Plays (R :: Rs) (c.prepend lzma enc) [] [] := by
  cases R with
  | decodes D =>
    obtain ⟨wrong, right, rest, he, hws, hD⟩ := h
    have hne : attempts enc ≠ [] := by rw [he]; simp
    rw [attempts_eq hne] at he
    obtain ⟨w, hw⟩ : ∃ w, Writer.new C lzma enc = some (w, false) := by
      obtain ⟨t, ht⟩ := head_rotations 3 enc
      rw [ht] at he
      cases wrong with
      | nil =>
        injection he with he _
        obtain ⟨w, hw, _⟩ := hD
        exact ⟨w, by rw [he]; exact hw⟩
      | cons e' ws =>
        injection he with he _
        obtain ⟨w, hw, _⟩ := hws e' (by simp)
        exact ⟨w, by rw [he]; exact hw⟩
    rw [Chain.prepend, hw]
    have ht := tries_decodes hD rest wrong 3 { writer := some w, encoding := enc, passthrough := false, lzma } hws
      ⟨rfl, rfl, w, hw, rfl⟩ rfl he
    cases wrong with
    | nil =>
      obtain ⟨hp, w', hw', ha⟩ := ht
      exact .inl ⟨hp, w', [], hw', ha, hc⟩
    | cons e ws => exact .inr ⟨rfl, hc, ws.length, ht⟩
  | skips =>
    obtain ⟨rfl, rfl⟩ := h
    exact ⟨rfl, ⟨_, rfl, idle_null _ rfl rfl⟩, hc⟩
  | givesUp V =>
    obtain ⟨hne, h⟩ := h
    rw [attempts_eq hne] at h
    obtain ⟨w, hw, _⟩ := h enc (by simp [rotations])
    rw [Chain.prepend, hw]
    exact .inl ⟨rfl, hc, 3, tries_givesUp 3 { writer := some w, encoding := enc, passthrough := false, lzma } h
      ⟨rfl, rfl, w, hw, rfl⟩ rfl⟩

/-- A new chain. -/
theorem build_plays {lzma : Bool} : ∀ {layers : List Encoding} {Rs : List (Role C)},
    RolesFor C lzma layers.reverse Rs → Plays Rs (Chain.build C lzma layers) [] [] := by
  intro layers
  induction h : layers.reverse generalizing layers with
  | nil =>
    intro Rs hd
    cases Rs with
    | cons _ _ => exact hd.elim
    | nil =>
      have : layers = [] := by simpa using h
      subst this
      rfl
  | cons enc ls ih =>
    intro Rs hd
    cases Rs with
    | nil => exact hd.elim
    | cons R Rs =>
      obtain ⟨h1, h2⟩ := hd
      have : layers = ls.reverse ++ [enc] := by
        rw [← List.reverse_reverse layers, h]; simp
      subst this
      rw [build_append]
      exact prepend_plays h1 (ih (by simp) h2)

end Model
