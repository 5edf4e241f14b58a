import Verif.Lemmas.F32Octa

/-!
# C110  The octahedral encoding in IEEE arithmetic

For every finite vector whose components do not all (nearly) vanish or overflow:

* both encoded components are finite numbers of `[-1, 1]`;
* the point of the octahedron at the encoded position, in the sense of the published map, is within 12 units of
  `2^-24` of the exact projection `v / (|x| + |y| + |z|)`, in both hemispheres;
* decoding a position with `|x| + |y| ≤ 1` gives the exact direction of that position within `2^-20`;
* encoding and decoding gives the direction of `v` within `2^-19` if `z ≥ 5/2^24 · (|x| + |y| + |z|)`.

The last condition is needed: nearer to the equator (in particular for `z = 0`) the rounding of the encoding can leave
the upper half of the square, and the decoder, which unfolds the lower half wrongly, returns a wrong direction.
-/

namespace Zcm

open F32 WithLp NormedSpace

/-- C110, range of the encoding. -/
theorem C110_encode_range (v : V3 F32) (hf : ∀ i, (coord v i).IsFin = true) (l1 : 1 / 2 ^ 100 ≤ taxicab v)
    (l2 : taxicab v ≤ 2 ^ 100) (i : Fin 2) :
    (coord (V3.encode_octahedral v) i).IsFin = true ∧ -1 ≤ (coord (V3.encode_octahedral v) i).val ∧
      (coord (V3.encode_octahedral v) i).val ≤ 1 := by
  obtain ⟨f, b⟩ := encode_range hf l1 l2 i
  exact ⟨f, abs_le.1 b⟩

/-- C110, accuracy of the encoding, in both hemispheres. -/
theorem C110_encode (v : V3 F32) (hf : ∀ i, (coord v i).IsFin = true) (l1 : 1 / 2 ^ 100 ≤ taxicab v)
    (l2 : taxicab v ≤ 2 ^ 100) (i : Fin 3) :
    |coord (octSurface (exactPair (V3.encode_octahedral v))) i - (coord v i).val / taxicab v| ≤ 12 / 2 ^ 24 :=
  encode_near hf l1 l2 i

/-- C110, accuracy of the decoder on the upper half of the square. -/
theorem C110_decode_partial (e : V2 F32) (hf : ∀ i, (coord e i).IsFin = true) (h : |e.x.val| + |e.y.val| ≤ 1) :
    (∀ i, (coord (V2.decode_octahedral e) i).IsFin = true) ∧
    ‖exactly (V2.decode_octahedral e) - normalize (toLp 2 (coord (octSurface (exactPair e))))‖ ≤ 1 / 2 ^ 20 :=
  decode_near (hf 0) (hf 1) h

/-- C110, the round trip, away from the equator.  Missing: vectors nearer to the equator and the lower hemisphere
(`C110_equator_false`, `C39_lower_false`). -/
theorem C110_roundtrip_partial (v : V3 F32) (hf : ∀ i, (coord v i).IsFin = true) (l1 : 1 / 2 ^ 100 ≤ taxicab v)
    (l2 : taxicab v ≤ 2 ^ 100) (hz : 5 / 2 ^ 24 * taxicab v ≤ v.z.val) :
    (∀ i, (coord (V2.decode_octahedral (V3.encode_octahedral v)) i).IsFin = true) ∧
    ‖exactly (V2.decode_octahedral (V3.encode_octahedral v)) - normalize (exactly v)‖ ≤ 1 / 2 ^ 19 :=
  roundtrip_near hf l1 l2 hz

/-- C110, near the equator the round trip can fail, also for `z ≥ 0`: (-1, 30, 0) and (-1, 2, 2^-30) come back with a
positive first component, further than 1/4 from where they were. -/
theorem C110_equator_false :
    (1 / 4 < (V2.decode_octahedral (V3.encode_octahedral (⟨-lit 1, lit 30, lit 0⟩ : V3 F32))).x.val) ∧
    (1 / 4 < (V2.decode_octahedral (V3.encode_octahedral (⟨-lit 1, lit 2, lit (1 / 2 ^ 30)⟩ : V3 F32))).x.val) := by
  decide +kernel

/-- Non-vacuity: (-3, 4, 12), `taxicab` 19. -/
example : (∀ i, (coord (⟨-lit 3, lit 4, lit 12⟩ : V3 F32) i).IsFin = true) ∧ taxicab ⟨-lit 3, lit 4, lit 12⟩ = 19 ∧
    5 / 2 ^ 24 * taxicab ⟨-lit 3, lit 4, lit 12⟩ ≤ (⟨-lit 3, lit 4, lit 12⟩ : V3 F32).z.val := by
  decide +kernel

/-- Non-vacuity: a vector of the lower hemisphere, and a position of the upper half of the square. -/
example : (∀ i, (coord (⟨-lit 3, lit 4, -lit 12⟩ : V3 F32) i).IsFin = true) ∧ taxicab ⟨-lit 3, lit 4, -lit 12⟩ = 19 ∧
    |(lit 0.25 : F32).val| + |(-lit 0.5 : F32).val| ≤ 1 := by
  decide +kernel

end Zcm
