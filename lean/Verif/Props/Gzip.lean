/-
Properties of the gzip header parser: C43.
-/
import Verif.Lemmas.GzipChain

namespace Props

open Model Spec

/-- C43. A gzip header and what follows it, fed to a gzip decompressor in any pieces: the decoder is given exactly what
follows the header. The decoder here hands on what it is given (`handOn`), so the output shows it. Missing: a boundary
between the two bytes of the length of the extra data or of the checksum, for which it is false (`C43_extra_length_cut`,
`C43_checksum_cut`). Five steps are enough: the number of steps does not depend on the data. -/
theorem C43_partial (flags : UInt8) (h body : Bytes) (pieces : List Bytes) (hh : IsGzipHeader flags h)
    (hp : pieces.flatten = h ++ body) (hu : FieldsUncut flags h pieces) (lzma : Bool) (fuel : Nat) (hf : 5 ≤ fuel) :
    decompressAll fuel (Chain.build handOn lzma [.gzip]) pieces = some body := by
  obtain ⟨k, rfl⟩ : ∃ k, fuel = k + 5 := ⟨fuel - 5, by omega⟩
  obtain ⟨h1, h2⟩ := Gz.expects_start hh
  refine decompressAll_gz (fuel := k) pieces h1 h2 hp fun i => ?_
  have := hu i
  rw [Nat.zero_add]
  exact this

/-- C43. In particular the output is the same for any two ways to cut the data. -/
theorem C43_same_partial (flags : UInt8) (h body : Bytes) (ps qs : List Bytes) (hh : IsGzipHeader flags h)
    (hp : ps.flatten = h ++ body) (hq : qs.flatten = ps.flatten) (hup : FieldsUncut flags h ps)
    (huq : FieldsUncut flags h qs) (lzma : Bool) (fuel : Nat) (hf : 5 ≤ fuel) :
    decompressAll fuel (Chain.build handOn lzma [.gzip]) ps = decompressAll fuel (Chain.build handOn lzma [.gzip]) qs := by
  rw [C43_partial flags h body ps hh hp hup lzma fuel hf, C43_partial flags h body qs hh (hq.trans hp) huq lzma fuel hf]

/-- C43. For a header without extra data and without a checksum, every way to cut it. -/
theorem C43_plain (flags : UInt8) (h body : Bytes) (pieces : List Bytes) (hh : IsGzipHeader flags h)
    (hx : ¬ HasFlag flags 2) (hc : ¬ HasFlag flags 1)
    (hp : pieces.flatten = h ++ body) (lzma : Bool) (fuel : Nat) (hf : 5 ≤ fuel) :
    decompressAll fuel (Chain.build handOn lzma [.gzip]) pieces = some body :=
  C43_partial flags h body pieces hh hp (fun _ => ⟨fun h => absurd h hx, fun h => absurd h hc⟩) lzma fuel hf

/-- C43. No data, in any pieces, makes the header parser panic. -/
theorem C43_no_panic (ds : List Bytes) (d : Bytes) :
    ((ds.foldl (fun (g : Gz) d => (g.write d).2) {}).write d).1 ≠ .panic := by
  suffices h : ∀ (ds : List Bytes) (g : Gz), g.Safe → (ds.foldl (fun (g : Gz) d => (g.write d).2) g).Safe from
    (Gz.write_safe (h ds {} fun _ => .inl (by simp)) d).1
  intro ds
  induction ds with
  | nil => exact fun _ h => h
  | cons d ds ih => exact fun g h => ih _ (Gz.write_safe h d).2

/-- A header with extra data of one byte 'x'. -/
def extraHeader : Bytes := [0x1f, 0x8b, 8, 4, 0, 0, 0, 0, 0, 0, 1, 0, 0x78]

/-- A header with a checksum. -/
def checksumHeader : Bytes := [0x1f, 0x8b, 8, 2, 0, 0, 0, 0, 0, 0, 7, 9]

/-- A header with everything: extra data "x", name "n", comment "", checksum. -/
def fullHeader : Bytes := [0x1f, 0x8b, 8, 0x1e, 0, 0, 0, 0, 0, 0, 1, 0, 0x78, 0x6e, 0, 0, 7, 9]

theorem extraHeader_ok : IsGzipHeader 4 extraHeader := by
  refine ⟨[0, 0, 0, 0, 0, 0], [1, 0, 0x78], rfl, rfl, fun _ => ⟨1, 0, [0x78], [], rfl, rfl, ?_⟩, fun h => ?_⟩
  · simp [IsName, IsComment, IsCrc, HasFlag, Nat.testBit]
  · exact absurd rfl h

theorem checksumHeader_ok : IsGzipHeader 2 checksumHeader := by
  refine ⟨[0, 0, 0, 0, 0, 0], [7, 9], rfl, rfl, ?_⟩
  simp [IsExtra, IsName, IsComment, IsCrc, HasFlag, Nat.testBit]

/-- C43 is false when the length of the extra data is cut in the middle: its first byte is dropped, and what follows is
taken for another length. -/
theorem C43_extra_length_cut : ∃ (flags : UInt8) (h body : Bytes) (pieces : List Bytes), IsGzipHeader flags h ∧
    pieces.flatten = h ++ body ∧
    decompressAll 9 (Chain.build handOn false [.gzip]) [h ++ body] = some body ∧
    decompressAll 9 (Chain.build handOn false [.gzip]) pieces ≠ some body :=
  ⟨4, extraHeader, b! "abc", [extraHeader.take 11, extraHeader.drop 11 ++ b! "abc"], extraHeader_ok, by decide +kernel,
    by decide +kernel, by decide +kernel⟩

/-- C43 is false when the checksum is cut in the middle: its first byte is dropped, and the first byte of the body is
taken for the second byte of the checksum. -/
theorem C43_checksum_cut : ∃ (flags : UInt8) (h body : Bytes) (pieces : List Bytes), IsGzipHeader flags h ∧
    pieces.flatten = h ++ body ∧
    decompressAll 9 (Chain.build handOn false [.gzip]) [h ++ body] = some body ∧
    decompressAll 9 (Chain.build handOn false [.gzip]) pieces = some (body.drop 1) ∧ body ≠ [] :=
  ⟨2, checksumHeader, b! "abc", [checksumHeader.take 11, checksumHeader.drop 11 ++ b! "abc"], checksumHeader_ok,
    by decide +kernel, by decide +kernel, by decide +kernel, by decide +kernel⟩

/- The hypotheses of `C43_partial` are met: every optional part, cut in several places. -/
example : IsGzipHeader 0x1e fullHeader := by
  refine ⟨[0, 0, 0, 0, 0, 0], [1, 0, 0x78, 0x6e, 0, 0, 7, 9], rfl, rfl, fun _ => ⟨1, 0, [0x78], [0x6e, 0, 0, 7, 9], rfl,
    rfl, fun _ => ⟨[0x6e], [0, 7, 9], rfl, by decide, fun _ => ⟨[], [7, 9], rfl, by decide, ?_⟩, fun h => absurd rfl h⟩,
    fun h => absurd rfl h⟩, fun h => absurd rfl h⟩
  exact ⟨fun _ => rfl, fun h => absurd rfl h⟩
example : FieldsUncut 0x1e fullHeader [fullHeader.take 2, (fullHeader.drop 2).take 8,
    (fullHeader.drop 10).take 4, fullHeader.drop 14 ++ b! "a", b! "bc"] := by
  intro i
  match i with
  | 0 | 1 | 2 | 3 | 4 | _ + 5 => exact ⟨fun _ => by simp [fullHeader], fun _ => by simp [fullHeader]⟩
example : decompressAll 5 (Chain.build handOn false [.gzip]) [fullHeader.take 2, (fullHeader.drop 2).take 8,
    (fullHeader.drop 10).take 4, fullHeader.drop 14 ++ b! "a", b! "bc"] = some (b! "abc") := by decide +kernel

end Props
