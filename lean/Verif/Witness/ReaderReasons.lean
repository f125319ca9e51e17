import Verif.Props.ReaderReasons
/-!
# Cases that meet the hypotheses of Props/ReaderReasons.lean
-/
open Spec
namespace Modes

/-- A ground velocity given to the reader of airspeeds. -/
example : airSpeedNormalError [0x99, 0x44, 0x09, 0x94, 0x08, 0x38, 0x17] =
    some (t! "the data are given for subtype 1 - GroundSpeed / Normal format and can not be read by ReadAirborneVelocityAirSpeedNormal") := by
  decide +kernel

/-- A position given to the reader of velocities, and too short data. -/
example : velocityError [0x58, 0xC3, 0x82, 0xD6, 0x90, 0xC8, 0xAC] =
      some (t! "the data are given at format 11 and can not be read by ReadAirborneVelocityAirSpeedNormal") ∧
    groundSpeedNormalError [0x99, 0x44] = some (t! "the data must be 7 bytes long (2 given)") := by decide +kernel

/-- A velocity given to the readers of positions and of identifications. -/
example : surfaceError [0x99, 0x44, 0x09, 0x94, 0x08, 0x38, 0x17] =
      some (t! "the field FormatTypeCode must be comprised between 5 and 8 included, got 19") ∧
    identificationError [0x99, 0x44, 0x09, 0x94, 0x08, 0x38, 0x17] =
      some (t! "the field FormatTypeCode must be comprised between 1 and 4 included, got 19") ∧
    airborneError [0x99, 0x44, 0x09, 0x94, 0x08, 0x38, 0x17] =
      some (t! "the field FormatTypeCode must be comprised between 9 and 18 included or 20 and 22 included, got 19") := by decide +kernel

/-- `ra_broadcast_reason_partial`: the reader of advisories given the status of an emergency, and an advisory with a threat at an altitude
without meaning. -/
example : TrueIn (kindReasons [0xE1, 0x0A, 0xAA, 0, 0, 0, 0] 28 8 2 statusName (t! "ReadAircraftStatusACAS") ++
      raBroadcastReasons [0xE1, 0x0A, 0xAA, 0, 0, 0, 0])
    (t! "the data are given for subtype 1 - emergency/priority status format and can not be read by ReadAircraftStatusACAS") :=
  ra_broadcast_reason_partial _ (by decide +kernel) _ (by decide +kernel)

example : TrueIn (kindReasons [0xE2, 0x80, 0, 0x08, 0x01, 0, 0] 28 8 2 statusName (t! "ReadAircraftStatusACAS") ++
      raBroadcastReasons [0xE2, 0x80, 0, 0x08, 0x01, 0, 0])
    (t! "the Altitude field is malformed") :=
  ra_broadcast_reason_partial _ (by decide +kernel) _ (by decide +kernel)

/-- `status_register_reason_partial`. -/
example : TrueIn (statusReasons [0xE2, 0x80, 0, 0x08, 0x01, 0, 0]) (t! "the Altitude field is malformed") :=
  status_register_reason_partial _ (by decide +kernel) _ (by decide +kernel)

/-- `operational_kind_reason_partial`: a status of version 2 given to the reader of version 1. -/
example : TrueIn (kindReasons [0xF8, 0x21, 0, 0, 0, 0x49, 0xB8] 31 8 0 decimal (t! "ReadAircraftOperationalStatusADSB0") ++
      operational1Reasons [0xF8, 0x21, 0, 0, 0, 0x49, 0xB8] (t! "ReadAircraftOperationalStatusAirborneADSB1"))
    (t! "the data are given at 2 - ADSB V2: Conformant to Doc 9871, Appendix C format and can not be read by ReadAircraftOperationalStatusAirborneADSB1") :=
  (operational_kind_reason_partial _ (fun _ => by decide +kernel)).2 _ (by decide +kernel)

/-- `operational_kind_reason_refuted`: a velocity, and a message of type code 29, given to the reader of version 0. -/
example : operationalV0Error [0x99, 0x44, 0x09, 0x94, 0x08, 0x38, 0x17] = some (t! "the field FormatTypeCode must be 29, got 19") :=
  by
  have h := operational_kind_reason_refuted [0x99, 0x44, 0x09, 0x94, 0x08, 0x38, 0x17] rfl (by decide +kernel)
  rw [h.1]; decide +kernel

example : operationalV0Error [0xEA, 0x44, 0x09, 0x94, 0x08, 0x38, 0x17] = some (t! "the field FormatTypeCode must be 29, got 29") :=
  by
  have h := operational_kind_reason_refuted [0xEA, 0x44, 0x09, 0x94, 0x08, 0x38, 0x17] rfl (by decide +kernel)
  rw [h.1]; decide +kernel

/-- `operational_register_reason_partial`: a status of version 1 with a service level. -/
example : TrueIn (operationalReasons [0xF8, 0x44, 0, 0, 0, 0x20, 0]) (t! "the ServiceLevel (field Capability Class) must be 0 (5 given)") :=
  operational_register_reason_partial _ (fun _ _ => by decide +kernel) _ (by decide +kernel)

/-- `operational_register_reason_refuted`: version 5, subtype 1. -/
example : operationalError [0xF9, 0, 0, 0, 0, 0xA0, 0] =
    some (t! "the field VersionNumber must be comprised between 0 and 2 included, got 1") := by
  have h := operational_register_reason_refuted [0xF9, 0, 0, 0, 0, 0xA0, 0] rfl (by decide +kernel) (by decide +kernel)
  rw [h]; decide +kernel

/-- `airborne_reader_reason`: a position of type code 0 in nine bytes, with an altitude without meaning, and version 3. -/
example : TrueIn (airborneReasons [0, 0, 0, 1, 2, 3, 4, 5, 6] ++ [levelReason 1]) (t! "the field Altitude is malformed") :=
  (airborne_reader_reason 1 false _ ((direct_airborne 1 false _).1.not.2 (by decide))).2 _ (by decide +kernel)

example : TrueIn (airborneReasons [0x58, 0xC3, 0x82, 0xD6, 0x90, 0xC8, 0xAC] ++ [levelReason 3])
    (t! "the ADS-B version 3 does not allow to read AirbornePosition messages") :=
  (airborne_reader_reason 3 false _ ((direct_airborne 3 false _).1.not.2 (by decide))).2 _ (by decide +kernel)

/-- A short frame given to the parser of a long format. -/
example : parseDF17Error ⟨17, 5, [0x48, 0x40, 0xD6], [0, 0, 0]⟩ = some (t! "DF17 message must be 14 bytes long") ∧
    parseDF11Error ⟨17, 5, [0x48, 0x40, 0xD6], [0, 0, 0]⟩ = some (t! "DF11 message must have a DownLinkFormat of 11") := by decide +kernel

end Modes
