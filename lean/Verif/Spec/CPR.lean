import Mathlib.Analysis.SpecialFunctions.Trigonometric.Bounds
import Mathlib.Data.Real.Archimedean
/-!
# Compact position reporting: the encoder of the standard

The specification the decoders are judged against (ICAO Doc 9871, C.2.6; RTCA DO-260B, A.1.7). `i` is 0 for an even and 1 for
an odd message. An airborne message carries 17 bits per coordinate; a surface message carries the low 17 bits of a 19-bit
coordinate. Angles are in degrees.
-/
noncomputable section
namespace Spec

/-- The number of longitude zones at a latitude: the greatest number `k` of zones, at most 59, such that a `k`-gon drawn on the
parallel has sides at least as long as the 60-gon drawn on the equator; 1 when even a 2-gon is too short (above 87 degrees). It
is defined by counting the `k ≥ 2` for which this holds. -/
def NL (lat : ℝ) : ℕ :=
  open Classical in
  ((Finset.Icc 2 59).filter fun k : ℕ =>
    Real.sin (Real.pi / 60) ≤ Real.cos (Real.pi / 180 * lat) * Real.sin (Real.pi / k)).card + 1

/-- The height of a latitude zone: 60 zones around the globe in even messages, 59 in odd ones. -/
def dLat (i : ℕ) : ℝ := 360 / (60 - i)

/-- The coordinate of a position `x` within its zone of size `d`, on `nb` bits, rounded to the nearest. -/
def zoneCode (nb : ℕ) (d x : ℝ) : ℤ := ⌊2 ^ nb * ((x - d * ⌊x / d⌋) / d) + 1 / 2⌋

/-- The position a code stands for, in the zone of `x`. -/
def zoneValue (nb : ℕ) (d x : ℝ) : ℝ := d * (zoneCode nb d x / 2 ^ nb + ⌊x / d⌋)

/-- The latitude a receiver will recover. -/
def rLat (nb i : ℕ) (lat : ℝ) : ℝ := zoneValue nb (dLat i) lat

/-- The width of a longitude zone in a message of a position of latitude `lat`. -/
def dLon (nb i : ℕ) (lat : ℝ) : ℝ := 360 / max ((NL (rLat nb i lat) : ℝ) - i) 1

/-- The 17-bit latitude of the message (`nb` is 17 for airborne, 19 for surface messages). -/
def encodeLat (nb i : ℕ) (lat : ℝ) : UInt32 := UInt32.ofNat ((zoneCode nb (dLat i) lat) % 2 ^ 17).toNat

/-- The 17-bit longitude of the message. -/
def encodeLon (nb i : ℕ) (lat lon : ℝ) : UInt32 := UInt32.ofNat ((zoneCode nb (dLon nb i lat) lon) % 2 ^ 17).toNat

end Spec
