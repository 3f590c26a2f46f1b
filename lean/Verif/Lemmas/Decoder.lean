/-
A chain of decoders that work computes the composition of what they compute.
-/
import Verif.Spec.Decoder

namespace Model
open Spec

variable {C : Codecs}

theorem outputs_bind {α β : Type} {p : Prog α} {f : α → Prog β} {o : List (Option Bytes)} {a : α}
    (h : outputs p = (o, some a)) : outputs (p.bind f) = (o ++ (outputs (f a)).1, (outputs (f a)).2) := by
  induction p generalizing o with
  | ret b => simp only [outputs, Prod.mk.injEq, Option.some.injEq] at h; obtain ⟨rfl, rfl⟩ := h; rfl
  | stuck => simp [outputs] at h
  | call out next ih =>
    simp only [outputs, Prod.mk.injEq] at h
    obtain ⟨h1, h2⟩ := h
    subst h1
    have := ih true (o := (outputs (next true)).1) (by rw [← h2])
    show (out :: (outputs ((next true).bind f)).1, (outputs ((next true).bind f)).2) = _
    rw [this]
    rfl

/-- A computation that gives out these pieces and ends with this result. -/
def Gives {α : Type} (p : Prog α) (chunks : List Bytes) (a : α) : Prop := outputs p = (chunks.map some, some a)

theorem Gives.bind {α β : Type} {p : Prog α} {f : α → Prog β} {x y : List Bytes} {a : α} {b : β}
    (h : Gives p x a) (hf : Gives (f a) y b) : Gives (p.bind f) (x ++ y) b := by
  unfold Gives at *
  rw [outputs_bind h, hf]
  simp

theorem Gives.ret {α : Type} (a : α) : Gives (.ret a) [] a := rfl

theorem Gives.bind_ret {α β : Type} {p : Prog α} {f : α → Prog β} {x : List Bytes} {a : α} {b : β}
    (h : Gives p x a) (hf : f a = .ret b) : Gives (p.bind f) x b := by
  have := h.bind (f := f) (y := []) (b := b) (by rw [hf]; exact .ret b)
  rwa [List.append_nil] at this

/-- The chain has been fed `fed`, and has given out `out`. -/
def Ready : List (Decoder C) → Chain C → Bytes → Bytes → Prop
  | [], .callback, fed, out => out = fed
  | D :: Ds, .layer l inner, fed, out =>
    l.passthrough = false ∧ ∃ w mid, l.writer = some w ∧ D.At fed mid w ∧ Ready Ds inner mid out
  | _, _, _, _ => False

theorem _root_.Spec.ValidAll.start {Ds : List (Decoder C)} : ∀ {x y : Bytes}, ValidAll Ds (x ++ y) → ValidAll Ds x := by
  induction Ds with
  | nil => exact fun _ => trivial
  | cons D Ds ih =>
    intro x y h
    obtain ⟨z, hz⟩ := D.decode_prefix h.1
    refine ⟨D.valid_prefix h.1, ih (y := z) ?_⟩
    rw [hz]
    exact h.2

theorem _root_.Spec.ValidAll.prefix {Ds : List (Decoder C)} {x y : Bytes} (h : ValidAll Ds y) (hp : x <+: y) : ValidAll Ds x := by
  obtain ⟨z, rfl⟩ := hp
  exact h.start

/-- What holds of `write` if `R` says what has been fed and given out, for valid inputs. -/
def WritesFor (R : Chain C → Bytes → Bytes → Prop) (V : Bytes → Prop) : Prop := ∀ {c : Chain C} {fed out data : Bytes},
  R c fed out → data ≠ [] → V (fed ++ data) → ∃ N n chunks c', 0 < n ∧ n ≤ data.length ∧
    (∀ fuel, N ≤ fuel → Gives (c.write fuel data) chunks (.ok n, c')) ∧
    R c' (fed ++ data.take n) (out ++ chunks.flatten)

theorem writeAll_gives {R : Chain C → Bytes → Bytes → Prop} {V : Bytes → Prop} (hw : WritesFor R V) :
    ∀ (k : Nat) {c : Chain C} {fed out data : Bytes}, data.length = k → R c fed out → V (fed ++ data) → ∃ N chunks c',
    (∀ fuel, N ≤ fuel → Gives (c.writeAll fuel data) chunks (.ok (), c')) ∧
    R c' (fed ++ data) (out ++ chunks.flatten) := by
  intro k
  induction k using Nat.strongRecOn with
  | _ k ih =>
    intro c fed out data hk hr hv
    by_cases hd : data = []
    · subst hd
      refine ⟨1, [], c, fun fuel hf => ?_, by simpa using hr⟩
      obtain ⟨fuel, rfl⟩ : ∃ m, fuel = m + 1 := ⟨fuel - 1, by omega⟩
      unfold Chain.writeAll
      rw [if_pos rfl]
      exact .ret _
    · obtain ⟨N, n, chunks, c', hn, hn', hg, hr'⟩ := hw hr hd hv
      have happ : fed ++ data.take n ++ data.drop n = fed ++ data := by
        rw [List.append_assoc, List.take_append_drop]
      obtain ⟨M, chunks', c'', hg', hr''⟩ := ih (data.length - n) (by omega) (data := data.drop n) (by simp) hr'
        (by rw [happ]; exact hv)
      refine ⟨max N M + 1, chunks ++ chunks', c'', fun fuel hf => ?_, ?_⟩
      · obtain ⟨fuel, rfl⟩ : ∃ m, fuel = m + 1 := ⟨fuel - 1, by omega⟩
        unfold Chain.writeAll
        rw [if_neg hd]
        refine (hg fuel (by omega)).bind ?_
        dsimp only
        rw [if_neg (by omega)]
        exact hg' fuel (by omega)
      · rw [happ] at hr''
        simpa using hr''

theorem ready_ne_lost {Ds : List (Decoder C)} {fed out : Bytes} : ¬ Ready Ds (.lost : Chain C) fed out := by
  cases Ds <;> exact fun h => h

/-- One round of `flush_writer`. -/
theorem flushWriter_succ (fuel : Nat) (l : Layer C) (w : Writer C) {inner : Chain C} (h : inner ≠ .lost) :
    Chain.flushWriter (fuel + 1) l w inner =
      (if w.flush.2.hasBuffer then Chain.writeAll fuel inner w.flush.2.buf else .ret (.ok (), inner)).bind fun
        | (.error e, _) => .ret (.error e, l, w.flush.2, .lost)
        | (.ok _, inner) =>
          let w' := if w.flush.2.hasBuffer then { w.flush.2 with buf := [] } else w.flush.2
          match w.flush.1 with
          | .ok _ => .ret (.ok (), l, w', inner)
          | .error .writeZero => Chain.flushWriter fuel l w' inner
          | .error .other =>
            match l.restart with
            | some l => .ret (.ok (), l, w', inner)
            | none => .ret (.error .other, l, w', .lost) := by
  cases inner with
  | lost => exact absurd rfl h
  | callback => rw [Chain.flushWriter]; · rfl
                · intro h; cases h
  | layer _ _ => rw [Chain.flushWriter]; · rfl
                 · intro h; cases h

theorem flushWriter_gives {D : Decoder C} {R : Chain C → Bytes → Bytes → Prop} {V : Bytes → Prop} (hw : WritesFor R V)
    (hl : ∀ {fed out}, ¬ R .lost fed out) (hV : ∀ {x y}, V (x ++ y) → V x) (l : Layer C) : ∀ (k : Nat)
    {inner : Chain C} {w : Writer C} {fed mid out : Bytes}, (D.decode fed).length - mid.length = k →
    D.At fed mid w → R inner mid out → D.Valid fed → V (D.decode fed) →
    ∃ N chunks w' inner',
      (∀ fuel, N ≤ fuel → Gives (Chain.flushWriter fuel l w inner) chunks (.ok (), l, w', inner')) ∧
      D.At fed (D.decode fed) w' ∧ R inner' (D.decode fed) (out ++ chunks.flatten) := by
  intro k
  induction k using Nat.strongRecOn with
  | _ k ih =>
    intro inner w fed mid out hk ha hr hv hva
    have hne : inner ≠ .lost := fun h => hl (h ▸ hr)
    rcases D.flush ha hv with ⟨w1, hf, ha1, hall⟩ | ⟨w1, hf, ha1, hbuf⟩
    · obtain ⟨N, chunks, inner', hg, hr'⟩ := writeAll_gives hw _ (data := w1.buf) rfl hr (by rw [hall]; exact hva)
      refine ⟨N + 1, chunks, { w1 with buf := [] }, inner', fun fuel hfu => ?_, ?_, ?_⟩
      · obtain ⟨fuel, rfl⟩ : ∃ m, fuel = m + 1 := ⟨fuel - 1, by omega⟩
        rw [flushWriter_succ _ _ _ hne, hf]
        dsimp only
        rw [if_pos (D.hasBuffer ha1)]
        refine (hg fuel (by omega)).bind_ret ?_
        dsimp only
        rw [if_pos (D.hasBuffer ha1)]
      · have := D.emptied ha1
        rwa [hall] at this
      · rwa [hall] at hr'
    · have hs := D.sofar ha1
      obtain ⟨N, chunks, inner', hg, hr'⟩ := writeAll_gives hw _ (data := w1.buf) rfl hr (by obtain ⟨z, hz⟩ := hs; rw [← hz] at hva; exact hV hva)
      have hlen := hs.length_le
      have hpos : 0 < w1.buf.length := by
        cases hb : w1.buf with
        | nil => exact absurd hb hbuf
        | cons _ _ => simp
      rw [List.length_append] at hlen
      obtain ⟨M, chunks', w2, inner2, hg2, ha2, hr2⟩ := ih ((D.decode fed).length - (mid ++ w1.buf).length)
        (by rw [List.length_append]; omega) rfl (D.emptied ha1) hr' hv hva
      refine ⟨max N M + 1, chunks ++ chunks', w2, inner2, fun fuel hfu => ?_, ha2, by simpa using hr2⟩
      obtain ⟨fuel, rfl⟩ : ∃ m, fuel = m + 1 := ⟨fuel - 1, by omega⟩
      rw [flushWriter_succ _ _ _ hne, hf]
      dsimp only
      rw [if_pos (D.hasBuffer ha1)]
      refine (hg fuel (by omega)).bind ?_
      dsimp only
      rw [if_pos (D.hasBuffer ha1)]
      exact hg2 fuel (by omega)

/-- The data given to a layer that works. -/
theorem write_layer (fuel : Nat) {l : Layer C} {w : Writer C} {inner : Chain C} {data : Bytes} (hp : l.passthrough = false)
    (hw : l.writer = some w) : Chain.write (fuel + 1) (.layer l inner) data =
    match w.write data with
    | (.ok n, w) => .ret (.ok (if n = 0 then data.length else n), .layer { l with writer := some w } inner)
    | (.error .writeZero, w) =>
      (Chain.flushWriter fuel { l with writer := none } w inner).bind fun
        | (.error e, l, _, inner) => .ret (.error e, .layer l inner)
        | (.ok _, l, w, inner) => Chain.write fuel (.layer { l with writer := some w } inner) data
    | (.error .other, _) =>
      match ({ l with writer := none } : Layer C).restart with
      | some l => Chain.write fuel (.layer l inner) data
      | none =>
        (Chain.write fuel (inner.setPassthrough true) data).bind fun
          | (.ok n, inner) => .ret (.ok n, .layer { l with writer := none, passthrough := true } inner)
          | (.error e, inner) => .ret (.error e,
              (Chain.layer { l with writer := none, passthrough := true } inner).setPassthrough false) := by
  rw [Chain.write]
  rw [hp, hw]
  rfl

theorem writes_all (Ds : List (Decoder C)) : WritesFor (Ready Ds) (ValidAll Ds) := by
  induction Ds with
  | nil =>
    intro c fed out data hr hd _
    cases c with
    | callback =>
      have hpos : 0 < data.length := List.length_pos_iff.2 hd
      refine ⟨1, data.length, [data], .callback, hpos, Nat.le_refl _, fun fuel hf => ?_, ?_⟩
      · obtain ⟨fuel, rfl⟩ : ∃ m, fuel = m + 1 := ⟨fuel - 1, by omega⟩
        unfold Chain.write
        rfl
      · have hr : out = fed := hr
        show out ++ [data].flatten = fed ++ data.take data.length
        rw [hr]; simp
    | lost => exact hr.elim
    | layer _ _ => exact hr.elim
  | cons D Ds ih =>
    intro c fed out data hr hd hv
    cases c with
    | callback => exact hr.elim
    | lost => exact hr.elim
    | layer l inner =>
      obtain ⟨hp, w, mid, hw, ha, hr⟩ := hr
      have hpos : 0 < data.length := List.length_pos_iff.2 hd
      have htake : ∀ n, n ≤ data.length → 0 < (if n = 0 then data.length else n) ∧ (if n = 0 then data.length else n) ≤ data.length := by
        intro n hn; split <;> omega
      rcases D.write ha hv.1 hd with ⟨n, w', h1, h2, h3⟩ | ⟨w', h1, h2, h3⟩
      · refine ⟨1, _, [], .layer { l with writer := some w' } inner, (htake n h2).1, (htake n h2).2, fun fuel hf => ?_, hp, w', mid, rfl, h3,
          by simpa using hr⟩
        obtain ⟨fuel, rfl⟩ : ∃ m, fuel = m + 1 := ⟨fuel - 1, by omega⟩
        rw [write_layer fuel hp hw, h1]
        exact .ret _
      · obtain ⟨N, chunks, w2, inner2, hg, ha2, hr2⟩ := flushWriter_gives ih ready_ne_lost (·.start) { l with writer := none } _ rfl h2 hr
          (D.valid_prefix hv.1) (hv.2.prefix (D.decode_prefix hv.1))
        rcases D.write ha2 hv.1 hd with ⟨n, w3, h4, h5, h6⟩ | ⟨w3, h4, h5, h6⟩
        · refine ⟨N + 2, _, chunks, .layer { l with writer := some w3 } inner2, (htake n h5).1, (htake n h5).2, fun fuel hf => ?_, hp, w3, _,
            rfl, h6, hr2⟩
          obtain ⟨fuel, rfl⟩ : ∃ m, fuel = m + 2 := ⟨fuel - 2, by omega⟩
          rw [write_layer (fuel + 1) hp hw, h1]
          refine (hg (fuel + 1) (by omega)).bind_ret ?_
          dsimp only
          rw [write_layer fuel (l := { l with writer := some w2 }) hp rfl, h4]
        · exact absurd rfl h6

theorem flush_gives (Ds : List (Decoder C)) : ∀ {c : Chain C} {fed out : Bytes}, Ready Ds c fed out → ValidAll Ds fed →
    ∃ N chunks c', (∀ fuel, N ≤ fuel → Gives (c.flush fuel) chunks (.ok (), c')) ∧
      Ready Ds c' fed (out ++ chunks.flatten) ∧ out ++ chunks.flatten = decodeAll Ds fed := by
  induction Ds with
  | nil =>
    intro c fed out hr _
    cases c with
    | callback =>
      refine ⟨1, [], .callback, fun fuel hf => ?_, by simpa using hr, ?_⟩
      · obtain ⟨fuel, rfl⟩ : ∃ m, fuel = m + 1 := ⟨fuel - 1, by omega⟩
        unfold Chain.flush
        exact .ret _
      · have hr : out = fed := hr
        simp [decodeAll, hr]
    | lost => exact hr.elim
    | layer _ _ => exact hr.elim
  | cons D Ds ih =>
    intro c fed out hr hv
    cases c with
    | callback => exact hr.elim
    | lost => exact hr.elim
    | layer l inner =>
      obtain ⟨hp, w, mid, hw, ha, hr⟩ := hr
      obtain ⟨N, chunks, w2, inner2, hg, ha2, hr2⟩ := flushWriter_gives (writes_all Ds) ready_ne_lost (·.start) { l with writer := none } _ rfl ha hr hv.1 hv.2
      obtain ⟨M, chunks', inner3, hg', hr3, he⟩ := ih hr2 hv.2
      refine ⟨max N M + 1, chunks ++ chunks', .layer { l with writer := some w2 } inner3, fun fuel hf => ?_, ?_, ?_⟩
      · obtain ⟨fuel, rfl⟩ : ∃ m, fuel = m + 1 := ⟨fuel - 1, by omega⟩
        unfold Chain.flush
        rw [hw]
        refine (hg fuel (by omega)).bind ?_
        exact (hg' fuel (by omega)).bind_ret rfl
      · exact ⟨hp, w2, _, rfl, ha2, by simpa using hr3⟩
      · show _ = decodeAll Ds (D.decode fed)
        rw [← he]; simp

theorem _root_.Spec.ValidEnd.all {Ds : List (Decoder C)} : ∀ {x : Bytes}, ValidEnd Ds x → ValidAll Ds x := by
  induction Ds with
  | nil => intro x _; trivial
  | cons D Ds ih =>
    intro x h
    exact ⟨h.1, (ih h.2).start⟩

theorem finish_gives (Ds : List (Decoder C)) : ∀ {c : Chain C} {fed out : Bytes}, Ready Ds c fed out → ValidEnd Ds fed →
    ∃ (N : Nat) (chunks : List Bytes), (∀ fuel, N ≤ fuel → outputs (c.finish fuel) = (chunks.map some ++ [none], some (.ok ()))) ∧
      out ++ chunks.flatten = decodeEnd Ds fed := by
  induction Ds with
  | nil =>
    intro c fed out hr _
    cases c with
    | callback =>
      refine ⟨1, [], fun fuel hf => ?_, ?_⟩
      · obtain ⟨fuel, rfl⟩ : ∃ m, fuel = m + 1 := ⟨fuel - 1, by omega⟩
        unfold Chain.finish
        rfl
      · have hr : out = fed := hr
        simp [decodeEnd, hr]
    | lost => exact hr.elim
    | layer _ _ => exact hr.elim
  | cons D Ds ih =>
    intro c fed out hr hv
    cases c with
    | callback => exact hr.elim
    | lost => exact hr.elim
    | layer l inner =>
      obtain ⟨hp, w, mid, hw, ha, hr⟩ := hr
      obtain ⟨N, chunks, w2, inner2, hg, ha2, hr2⟩ := flushWriter_gives (writes_all Ds) ready_ne_lost (·.start) { l with writer := none } _ rfl ha hr hv.1 hv.2.all.start
      obtain ⟨K, mids, inner3, hg3, hr3⟩ := writeAll_gives (writes_all Ds) _ rfl (data := D.last fed) hr2 hv.2.all
      obtain ⟨M, chunks', hg', he⟩ := ih hr3 hv.2
      refine ⟨max N (max M K) + 2, chunks ++ mids ++ chunks', fun fuel hf => ?_, ?_⟩
      · obtain ⟨fuel, rfl⟩ : ∃ m, fuel = m + 2 := ⟨fuel - 2, by omega⟩
        unfold Chain.finish
        rw [hw]
        dsimp only
        rw [outputs_bind (hg (fuel + 1) (by omega))]
        dsimp only
        rw [D.finish ha2 hv.1]
        dsimp only
        rw [outputs_bind (hg3 (fuel + 1) (by omega))]
        dsimp only
        rw [hg' (fuel + 1) (by omega)]
        simp
      · show _ = decodeEnd Ds (D.decode fed ++ D.last fed)
        rw [← he]; simp

theorem decompress_gives (Ds : List (Decoder C)) {c : Chain C} {fed out data : Bytes} (hr : Ready Ds c fed out)
    (hv : ValidAll Ds (fed ++ data)) : ∃ N chunks c', (∀ fuel, N ≤ fuel → Gives (c.decompress fuel data) chunks (.ok (), c')) ∧
      Ready Ds c' (fed ++ data) (out ++ chunks.flatten) ∧ out ++ chunks.flatten = decodeAll Ds (fed ++ data) := by
  obtain ⟨N, x, c1, hg, hr1⟩ := writeAll_gives (writes_all Ds) _ rfl hr hv
  obtain ⟨M, y, c2, hg2, hr2, he⟩ := flush_gives Ds hr1 hv
  refine ⟨max N M, x ++ y, c2, fun fuel hf => ?_, by simpa using hr2, by rw [← he]; simp⟩
  unfold Chain.decompress
  exact (hg fuel (by omega)).bind (hg2 fuel (by omega))

theorem accepted_eq {α : Type} (p : Prog α) : p.accepted = (outputs p).2 := by
  induction p with
  | ret _ => rfl
  | stuck => rfl
  | call _ next ih => exact ih true

theorem toDecoding_outputs {α : Type} (ok : α → Bool) {p : Prog α} {o : List (Option Bytes)} {a : α}
    (h : outputs p = (o, some a)) : decodingOutputs (p.toDecoding ok) = (o, ok a) := by
  induction p generalizing o with
  | ret b => simp only [outputs, Prod.mk.injEq, Option.some.injEq] at h; obtain ⟨rfl, rfl⟩ := h; rfl
  | stuck => simp [outputs] at h
  | call out next ih =>
    simp only [outputs, Prod.mk.injEq] at h
    obtain ⟨h1, h2⟩ := h
    subst h1
    show (out :: (decodingOutputs ((next true).toDecoding ok)).1, (decodingOutputs ((next true).toDecoding ok)).2) = _
    rw [ih true (o := (outputs (next true)).1) (by rw [← h2])]

/-- The chain after more data. -/
theorem after_ready (Ds : List (Decoder C)) : ∀ (ps : List Bytes) {c : Chain C} {fed : Bytes},
    Ready Ds c fed (decodeAll Ds fed) → ValidAll Ds (fed ++ ps.flatten) →
    ∃ N c', (∀ fuel, N ≤ fuel → c.after fuel ps = some c') ∧
      Ready Ds c' (fed ++ ps.flatten) (decodeAll Ds (fed ++ ps.flatten)) := by
  intro ps
  induction ps with
  | nil => intro c fed hr _; exact ⟨0, c, fun _ _ => rfl, by simpa using hr⟩
  | cons p ps ih =>
    intro c fed hr hv
    rw [List.flatten_cons, ← List.append_assoc] at hv ⊢
    obtain ⟨N, chunks, c1, hg, hr1, he⟩ := decompress_gives Ds hr (hv.start)
    rw [he] at hr1
    obtain ⟨M, c2, ha, hr2⟩ := ih hr1 hv
    refine ⟨max N M, c2, fun fuel hf => ?_, hr2⟩
    unfold Chain.after
    rw [accepted_eq, hg fuel (by omega)]
    exact ha fuel (by omega)

theorem build_append (C : Codecs) (lzma : Bool) (ls : List Encoding) (enc : Encoding) :
    Chain.build C lzma (ls ++ [enc]) = (Chain.build C lzma ls).prepend lzma enc := by
  simp [Chain.build]

/-- A new chain. -/
theorem build_ready {lzma : Bool} : ∀ {layers : List Encoding} {Ds : List (Decoder C)},
    DecodersFor C lzma layers.reverse Ds → Ready Ds (Chain.build C lzma layers) [] [] := by
  intro layers
  induction h : layers.reverse generalizing layers with
  | nil =>
    intro Ds hd
    cases Ds with
    | cons _ _ => exact hd.elim
    | nil =>
      have : layers = [] := by simpa using h
      subst this
      rfl
  | cons enc ls ih =>
    intro Ds hd
    cases Ds with
    | nil => exact hd.elim
    | cons D Ds =>
      obtain ⟨h1, h2⟩ := hd
      have : layers = ls.reverse ++ [enc] := by
        rw [← List.reverse_reverse layers, h]; simp
      subst this
      obtain ⟨w, hw, ha⟩ := h1
      rw [build_append, Chain.prepend, hw]
      exact ⟨rfl, w, [], rfl, ha, ih (by simp) h2⟩

theorem decodeAll_nil (Ds : List (Decoder C)) : decodeAll Ds [] = [] := by
  induction Ds with
  | nil => rfl
  | cons D Ds ih => show decodeAll Ds (D.decode []) = []; rw [D.decode_nil, ih]

end Model
