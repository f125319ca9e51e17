import Verif.Props.ADSB
import Verif.Props.Velocity
import Verif.Props.VelocityFloat
import Verif.Props.Bounds

/-!
# Concrete cases for the theorems about extended squitters

Each example applies one theorem to concrete data and discharges all its hypotheses: they can be met.
-/

namespace Modes

open Spec

/-! ### C25 - C27: dispatch -/

example : readADSBMessage 2 true false [0xB8, 1, 2, 3, 4, 5, 6] = .returns .nil true :=
  adsb_unsupported 2 true false _ (.inr (by decide))
example : readADSBMessage 2 true false [0x58, 1, 2] = .returns .nil true := adsb_unsupported 2 true false _ (.inl (by decide))
example := adsb_version_partial 1 true false examplePosition _ false rfl
example := adsb_version_partial 0 true false [0xF8, 0x23, 0x00, 0x02, 0x00, 0x49, 0xB8] _ false rfl
example := adsb_version_refuted 0 true false [0xF9, 0x13, 0x71, 0x02, 0x41, 0x49, 0xB2] _ false rfl (by decide) (by decide) (by decide)
example := adsb_nil_on_error_partial 3 true false examplePosition _ rfl (.inr (.inr (by decide)))
example : readADSBMessage 2 true false [0x98, 0, 0, 0, 0, 0, 0] = .returns .typedNil true :=
  adsb_nil_refuted 2 true false [0x98, 0, 0, 0, 0, 0, 0] rfl (by decide) (by decide) (by
    intro h
    have := ((adsb_accepts 2 true false [0x98, 0, 0, 0, 0, 0, 0]).1).2 h
    obtain ⟨m, hm⟩ := this
    cases hm)

/-! ### C28, C30, C31: positions -/

example := airborne_position_content examplePosition _ rfl
example := nic_table_partial 1 true false examplePosition _ false rfl
example := nic_table_partial 2 true true exampleSurface _ false rfl
example := nic_range 2 true true exampleSurface _ false rfl
example := surface_position_content exampleSurface _ rfl
example : Succeeds (readBDS06 exampleSurface) := (surface_position_accepts _).1.2 (by decide)

/-! ### C32 - C35, C93: velocity -/

example := (ground_velocity_content exampleVelocity _).1 rfl
example := (airspeed_content [0x9B, 0x06, 0xB6, 0xAF, 0x18, 0x94, 0x00] _).1 rfl
example := vertical_content exampleVelocity _ rfl
example := vertical_range exampleVelocity _ rfl

/-- A westbound and northbound aircraft, 100 kt each. -/
def exampleNorthWest : GroundSpeedVelocity := ⟨19, 1, 0, 0, 0, 1, .regular, 100, 0, .regular, 100, 0, .regular, 0, .regular, 0⟩

example : ∃ t, exampleNorthWest.getTrack = some t ∧ (t = 0 ∨ (0.03 ≤ t ∧ t ≤ 359.97)) ∧
    (t = 0 ∨ (0.0006 ≤ t ∧ t ≤ 359.9994)) := by
  obtain ⟨t, ht, -⟩ := (ground_track exampleNorthWest).2 ⟨rfl, rfl⟩
  exact ⟨t, ht, ground_track_margin _ t ht (by decide) (by decide), ground_track_margin_all _ t ht⟩

example := ground_track_float _ accurateAtan2_rounded exampleNorthWest

/-! ### C36, C37: identification -/

example := callsign_roundtrip_bds08 0x20 (by decide) [0x4B, 0x4C, 0x4D, 0x31, 0x30, 0x32, 0x33, 0x20] rfl (by decide)
example := callsign_roundtrip_bds20 [0x4B, 0x4C, 0x4D, 0x31, 0x30, 0x32, 0x33, 0x20] rfl (by decide)
example := bds20_coherent_iff [0x20, 0x2C, 0xC3, 0x71, 0xC3, 0x2C, 0xE0] _ rfl
example := bds08_coherent_iff [0x20, 0x2C, 0xC3, 0x71, 0xC3, 0x2C, 0xE0] _ rfl
example := emitter_category [0x14, 0x2C, 0xC3, 0x71, 0xC3, 0x2C, 0xE0] _ rfl
example : Succeeds (readBDS08 [0x14, 0x2C, 0xC3, 0x71, 0xC3, 0x2C, 0xE0]) := (identification_accepts _).1.2 (by decide)

/-! ### C38 - C41, C87: status, target state, operational status -/

example := status_content [0xE1, 0x12, 0xB6, 0, 0, 0, 0] _ rfl
example := status_content [0xE2, 0xE0, 0x02, 0x24, 0x12, 0x34, 0x56] _ rfl
example := target_state_content [0xEA, 0x21, 0x48, 0x5C, 0xBF, 0x3F, 0x8C] _ rfl
example := target_state_content [0xE8, 0x20, 0x48, 0x5C, 0xB1, 0x3C, 0x09] _ rfl
example := target_heading_partial [0xE8, 0x20, 0x48, 0x5C, 0x41, 0x3C, 0x09] _ rfl (by decide)
example := selected_altitude_type_partial [0xEA, 0x21, 0x48, 0x5C, 0xBF, 0x3F, 0x8C] _ rfl (by decide)
example := selected_altitude_type_refuted [0xEB, 0x21, 0x48, 0x5F, 0xFF, 0x3F, 0x8C] _ rfl (by decide)
example := selected_heading_partial [0xEA, 0x21, 0x48, 0x5C, 0xBF, 0x3F, 0x8C] _ rfl (by decide)
example := operational_status_content [0xF8, 0x23, 0x00, 0x02, 0x00, 0x49, 0xB8] _ rfl
example := operational_status_content [0xF9, 0x13, 0x71, 0x02, 0x41, 0x49, 0xB2] _ rfl
example := adsb_level_partial [0xF8, 0x53, 0x71, 0x02, 0x41, 0, 0] _ rfl (by decide)

/-! ### C66, C71 -/

example := type0_altitude_source 1 true false [0x00, 0xC3, 0x82, 0xD6, 0x90, 0xC8, 0xAC] _ 0 1 false rfl
example := hpl_bounds 5

/-- Two surface positions of type code 6 allow a radius of 5 m, and carry the same radius code. -/
example := containment_disjoint false false true true [0x30, 0, 0, 0, 0, 0, 0] [0x31, 2, 3, 4, 5, 6, 7] _ _ _ 6 _ 6 false false rfl rfl 5
  ((containmentAdmits_iff 5).2.1.2 (by norm_num)) ((containmentAdmits_iff 5).2.1.2 (by norm_num))

end Modes
