import Verif.Model.TranslationWords
/-!
# Without the words of errors, the translation with words is the translation

Written by `tools/go2lean/generate_erase.py`: one theorem for each function of Model/TranslationWords.
-/
set_option linter.unusedSimpArgs false
namespace Modes
/-- The result without the words of the error. -/
def Saying.erase {α : Type} : Saying α → Go α
  | .ok a => .ok a
  | .error (.err _) => .error .err
  | .error .panic => .error .panic
open Saying
theorem erase_bind {α β : Type} (x : Saying α) (f : α → Saying β) : erase (x >>= f) = (erase x >>= fun a => erase (f a)) := by
  rcases x with (_ | _) | _ <;> rfl
theorem erase_pure {α : Type} (a : α) : erase (pure a : Saying α) = pure a := rfl
theorem erase_ok {α : Type} (a : α) : erase (.ok a : Saying α) = .ok a := rfl
theorem erase_say {α : Type} (t : Txt) : erase (say t : Saying α) = fail := rfl
theorem erase_saying {α : Type} (t : Txt) (x : Saying α) : erase (saying t x) = erase x := by rcases x with (_ | _) | _ <;> rfl
theorem erase_lift {α : Type} (x : Go α) : erase (liftM x : Saying α) = x := by rcases x with (_ | _) | _ <;> rfl
theorem erase_ite {α : Type} (c : Prop) [Decidable c] (x y : Saying α) : erase (if c then x else y) = if c then erase x else erase y := by
  split <;> rfl
theorem erase_attempt {α : Type} (x : Saying α) : erase (attemptSaid x) = attempt (erase x) := by rcases x with (_ | _) | _ <;> rfl
theorem saysNothing_eq (x : Saying Unit) : saysNothing x = returnsNil (erase x) := by rcases x with (_ | _) | _ <;> rfl
theorem erase_foldlM {α β : Type} (f : β → α → Saying β) (l : List α) (b : β) :
    erase (l.foldlM f b) = l.foldlM (fun b a => erase (f b a)) b := by
  induction l generalizing b with
  | nil => rfl
  | cons a l ih =>
    simp only [List.foldlM_cons, erase_bind, ih]


theorem erase_bitutils.GillhamToAltitude (d1 : Bool) (d2 : Bool) (d4 : Bool) (a1 : Bool) (a2 : Bool) (a4 : Bool) (b1 : Bool) (b2 : Bool) (b4 : Bool) (c1 : Bool) (c2 : Bool) (c4 : Bool) : erase (Said.bitutils.GillhamToAltitude d1 d2 d4 a1 a2 a4 b1 b2 b4 c1 c2 c4) = Gen.bitutils.GillhamToAltitude d1 d2 d4 a1 a2 a4 b1 b2 b4 c1 c2 c4 := by
  simp only [Said.bitutils.GillhamToAltitude, Gen.bitutils.GillhamToAltitude, erase_bind, erase_pure, erase_ok, erase_say, erase_saying, erase_lift, erase_ite, erase_attempt, saysNothing_eq, erase_foldlM]

theorem erase_acas.ra.fields.ReadThreatIdentityAltitude (data : List UInt8) : erase (Said.acas.ra.fields.ReadThreatIdentityAltitude data) = Gen.acas.ra.fields.ReadThreatIdentityAltitude data := by
  simp only [Said.acas.ra.fields.ReadThreatIdentityAltitude, Gen.acas.ra.fields.ReadThreatIdentityAltitude, erase_bind, erase_pure, erase_ok, erase_say, erase_saying, erase_lift, erase_ite, erase_attempt, saysNothing_eq, erase_foldlM, erase_bitutils.GillhamToAltitude]

theorem erase_acas.ra.ReadResolutionAdvisory (data : List UInt8) : erase (Said.acas.ra.ReadResolutionAdvisory data) = Gen.acas.ra.ReadResolutionAdvisory data := by
  simp only [Said.acas.ra.ReadResolutionAdvisory, Gen.acas.ra.ReadResolutionAdvisory, erase_bind, erase_pure, erase_ok, erase_say, erase_saying, erase_lift, erase_ite, erase_attempt, saysNothing_eq, erase_foldlM, erase_acas.ra.fields.ReadThreatIdentityAltitude]

theorem erase_bds.bds05.fields.ReadAltitude (data : List UInt8) : erase (Said.bds.bds05.fields.ReadAltitude data) = Gen.bds.bds05.fields.ReadAltitude data := by
  simp only [Said.bds.bds05.fields.ReadAltitude, Gen.bds.bds05.fields.ReadAltitude, erase_bind, erase_pure, erase_ok, erase_say, erase_saying, erase_lift, erase_ite, erase_attempt, saysNothing_eq, erase_foldlM, erase_bitutils.GillhamToAltitude]

theorem erase_bds.bds05.ReadAirbornePosition (data : List UInt8) : erase (Said.bds.bds05.ReadAirbornePosition data) = Gen.bds.bds05.ReadAirbornePosition data := by
  simp only [Said.bds.bds05.ReadAirbornePosition, Gen.bds.bds05.ReadAirbornePosition, erase_bind, erase_pure, erase_ok, erase_say, erase_saying, erase_lift, erase_ite, erase_attempt, saysNothing_eq, erase_foldlM, erase_bds.bds05.fields.ReadAltitude]

theorem erase_adsb.airborne_position.ReadAirbornePositionType0 (adsbVersion : UInt8) (data : List UInt8) : erase (Said.adsb.airborne_position.ReadAirbornePositionType0 adsbVersion data) = Gen.adsb.airborne_position.ReadAirbornePositionType0 adsbVersion data := by
  simp only [Said.adsb.airborne_position.ReadAirbornePositionType0, Gen.adsb.airborne_position.ReadAirbornePositionType0, erase_bind, erase_pure, erase_ok, erase_say, erase_saying, erase_lift, erase_ite, erase_attempt, saysNothing_eq, erase_foldlM, erase_bds.bds05.ReadAirbornePosition]

theorem erase_adsb.airborne_position.ReadAirbornePositionV0 (data : List UInt8) : erase (Said.adsb.airborne_position.ReadAirbornePositionV0 data) = Gen.adsb.airborne_position.ReadAirbornePositionV0 data := by
  simp only [Said.adsb.airborne_position.ReadAirbornePositionV0, Gen.adsb.airborne_position.ReadAirbornePositionV0, erase_bind, erase_pure, erase_ok, erase_say, erase_saying, erase_lift, erase_ite, erase_attempt, saysNothing_eq, erase_foldlM, erase_bds.bds05.ReadAirbornePosition]

theorem erase_adsb.airborne_position.ReadAirbornePositionV1 (data : List UInt8) (nicSupplementA : Bool) : erase (Said.adsb.airborne_position.ReadAirbornePositionV1 data nicSupplementA) = Gen.adsb.airborne_position.ReadAirbornePositionV1 data nicSupplementA := by
  simp only [Said.adsb.airborne_position.ReadAirbornePositionV1, Gen.adsb.airborne_position.ReadAirbornePositionV1, erase_bind, erase_pure, erase_ok, erase_say, erase_saying, erase_lift, erase_ite, erase_attempt, saysNothing_eq, erase_foldlM, erase_bds.bds05.ReadAirbornePosition]

theorem erase_adsb.airborne_position.ReadAirbornePositionV2 (data : List UInt8) (nicSupplementA : Bool) : erase (Said.adsb.airborne_position.ReadAirbornePositionV2 data nicSupplementA) = Gen.adsb.airborne_position.ReadAirbornePositionV2 data nicSupplementA := by
  simp only [Said.adsb.airborne_position.ReadAirbornePositionV2, Gen.adsb.airborne_position.ReadAirbornePositionV2, erase_bind, erase_pure, erase_ok, erase_say, erase_saying, erase_lift, erase_ite, erase_attempt, saysNothing_eq, erase_foldlM, erase_bds.bds05.ReadAirbornePosition]

theorem erase_adsb.airborne_position.ReadAirbornePosition (adsbVersion : UInt8) (data : List UInt8) (nicSupplementA : Bool) : erase (Said.adsb.airborne_position.ReadAirbornePosition adsbVersion data nicSupplementA) = Gen.adsb.airborne_position.ReadAirbornePosition adsbVersion data nicSupplementA := by
  simp only [Said.adsb.airborne_position.ReadAirbornePosition, Gen.adsb.airborne_position.ReadAirbornePosition, erase_bind, erase_pure, erase_ok, erase_say, erase_saying, erase_lift, erase_ite, erase_attempt, saysNothing_eq, erase_foldlM, erase_adsb.airborne_position.ReadAirbornePositionType0, erase_adsb.airborne_position.ReadAirbornePositionV0, erase_adsb.airborne_position.ReadAirbornePositionV1, erase_adsb.airborne_position.ReadAirbornePositionV2]

theorem erase_bds.bds05.AirbornePosition.CheckCoherency (message : AirbornePosition) : erase (Said.bds.bds05.AirbornePosition.CheckCoherency message) = Gen.bds.bds05.AirbornePosition.CheckCoherency message := by
  simp only [Said.bds.bds05.AirbornePosition.CheckCoherency, Gen.bds.bds05.AirbornePosition.CheckCoherency, erase_bind, erase_pure, erase_ok, erase_say, erase_saying, erase_lift, erase_ite, erase_attempt, saysNothing_eq, erase_foldlM]

theorem erase_adsb.airborne_position.AirbornePositionType0.CheckCoherency (airbornePosition : AirbornePosition) (navigationIntegrityCategory : UInt8) (adsbVersion : UInt8) : erase (Said.adsb.airborne_position.AirbornePositionType0.CheckCoherency airbornePosition navigationIntegrityCategory adsbVersion) = Gen.adsb.airborne_position.AirbornePositionType0.CheckCoherency airbornePosition navigationIntegrityCategory adsbVersion := by
  simp only [Said.adsb.airborne_position.AirbornePositionType0.CheckCoherency, Gen.adsb.airborne_position.AirbornePositionType0.CheckCoherency, erase_bind, erase_pure, erase_ok, erase_say, erase_saying, erase_lift, erase_ite, erase_attempt, saysNothing_eq, erase_foldlM, erase_bds.bds05.AirbornePosition.CheckCoherency]

theorem erase_adsb.airborne_position.AirbornePositionV0.CheckCoherency (airbornePosition : AirbornePosition) (horizontalProtectionLimit : UInt8) (containmentRadius : UInt8) : erase (Said.adsb.airborne_position.AirbornePositionV0.CheckCoherency airbornePosition horizontalProtectionLimit containmentRadius) = Gen.adsb.airborne_position.AirbornePositionV0.CheckCoherency airbornePosition horizontalProtectionLimit containmentRadius := by
  simp only [Said.adsb.airborne_position.AirbornePositionV0.CheckCoherency, Gen.adsb.airborne_position.AirbornePositionV0.CheckCoherency, erase_bind, erase_pure, erase_ok, erase_say, erase_saying, erase_lift, erase_ite, erase_attempt, saysNothing_eq, erase_foldlM, erase_bds.bds05.AirbornePosition.CheckCoherency]

theorem erase_adsb.airborne_position.AirbornePositionV1.CheckCoherency (airbornePosition : AirbornePosition) (navigationIntegrityCodeSupplementA : Bool) (horizontalContainmentRadius : UInt8) (navigationIntegrityCategory : UInt8) : erase (Said.adsb.airborne_position.AirbornePositionV1.CheckCoherency airbornePosition navigationIntegrityCodeSupplementA horizontalContainmentRadius navigationIntegrityCategory) = Gen.adsb.airborne_position.AirbornePositionV1.CheckCoherency airbornePosition navigationIntegrityCodeSupplementA horizontalContainmentRadius navigationIntegrityCategory := by
  simp only [Said.adsb.airborne_position.AirbornePositionV1.CheckCoherency, Gen.adsb.airborne_position.AirbornePositionV1.CheckCoherency, erase_bind, erase_pure, erase_ok, erase_say, erase_saying, erase_lift, erase_ite, erase_attempt, saysNothing_eq, erase_foldlM, erase_bds.bds05.AirbornePosition.CheckCoherency]

theorem erase_adsb.airborne_position.AirbornePositionV2.CheckCoherency (airbornePosition : AirbornePosition) (navigationIntegrityCodeSupplementA : Bool) (navigationIntegrityCodeSupplementB : UInt8) (horizontalContainmentRadius : UInt8) (navigationIntegrityCategory : UInt8) : erase (Said.adsb.airborne_position.AirbornePositionV2.CheckCoherency airbornePosition navigationIntegrityCodeSupplementA navigationIntegrityCodeSupplementB horizontalContainmentRadius navigationIntegrityCategory) = Gen.adsb.airborne_position.AirbornePositionV2.CheckCoherency airbornePosition navigationIntegrityCodeSupplementA navigationIntegrityCodeSupplementB horizontalContainmentRadius navigationIntegrityCategory := by
  simp only [Said.adsb.airborne_position.AirbornePositionV2.CheckCoherency, Gen.adsb.airborne_position.AirbornePositionV2.CheckCoherency, erase_bind, erase_pure, erase_ok, erase_say, erase_saying, erase_lift, erase_ite, erase_attempt, saysNothing_eq, erase_foldlM, erase_bds.bds05.AirbornePosition.CheckCoherency]

theorem erase_bds.bds09.AirborneVelocityGroundSpeedNormal.CheckCoherency (message : GroundSpeedVelocity) : erase (Said.bds.bds09.AirborneVelocityGroundSpeedNormal.CheckCoherency message) = Gen.bds.bds09.AirborneVelocityGroundSpeedNormal.CheckCoherency message := by
  simp only [Said.bds.bds09.AirborneVelocityGroundSpeedNormal.CheckCoherency, Gen.bds.bds09.AirborneVelocityGroundSpeedNormal.CheckCoherency, erase_bind, erase_pure, erase_ok, erase_say, erase_saying, erase_lift, erase_ite, erase_attempt, saysNothing_eq, erase_foldlM]

theorem erase_bds.bds09.AirborneVelocityGroundSpeedSupersonic.CheckCoherency (message : GroundSpeedVelocity) : erase (Said.bds.bds09.AirborneVelocityGroundSpeedSupersonic.CheckCoherency message) = Gen.bds.bds09.AirborneVelocityGroundSpeedSupersonic.CheckCoherency message := by
  simp only [Said.bds.bds09.AirborneVelocityGroundSpeedSupersonic.CheckCoherency, Gen.bds.bds09.AirborneVelocityGroundSpeedSupersonic.CheckCoherency, erase_bind, erase_pure, erase_ok, erase_say, erase_saying, erase_lift, erase_ite, erase_attempt, saysNothing_eq, erase_foldlM]

theorem erase_bds.bds09.AirborneVelocityAirSpeedNormal.CheckCoherency (message : AirSpeedVelocity) : erase (Said.bds.bds09.AirborneVelocityAirSpeedNormal.CheckCoherency message) = Gen.bds.bds09.AirborneVelocityAirSpeedNormal.CheckCoherency message := by
  simp only [Said.bds.bds09.AirborneVelocityAirSpeedNormal.CheckCoherency, Gen.bds.bds09.AirborneVelocityAirSpeedNormal.CheckCoherency, erase_bind, erase_pure, erase_ok, erase_say, erase_saying, erase_lift, erase_ite, erase_attempt, saysNothing_eq, erase_foldlM]

theorem erase_bds.bds09.AirborneVelocityAirSpeedSupersonic.CheckCoherency (message : AirSpeedVelocity) : erase (Said.bds.bds09.AirborneVelocityAirSpeedSupersonic.CheckCoherency message) = Gen.bds.bds09.AirborneVelocityAirSpeedSupersonic.CheckCoherency message := by
  simp only [Said.bds.bds09.AirborneVelocityAirSpeedSupersonic.CheckCoherency, Gen.bds.bds09.AirborneVelocityAirSpeedSupersonic.CheckCoherency, erase_bind, erase_pure, erase_ok, erase_say, erase_saying, erase_lift, erase_ite, erase_attempt, saysNothing_eq, erase_foldlM]

theorem erase_bds.bds09.AirborneVelocity.CheckCoherency (m : AirborneVelocity) : erase (Said.bds.bds09.AirborneVelocity.CheckCoherency m) = Gen.bds.bds09.AirborneVelocity.CheckCoherency m := by
  cases m <;> simp only [Said.bds.bds09.AirborneVelocity.CheckCoherency, Gen.bds.bds09.AirborneVelocity.CheckCoherency, erase_bds.bds09.AirborneVelocityGroundSpeedNormal.CheckCoherency, erase_bds.bds09.AirborneVelocityGroundSpeedSupersonic.CheckCoherency, erase_bds.bds09.AirborneVelocityAirSpeedNormal.CheckCoherency, erase_bds.bds09.AirborneVelocityAirSpeedSupersonic.CheckCoherency]

theorem erase_adsb.airborne_velocity.AirborneVelocity.CheckCoherency (airborneVelocity : AirborneVelocity) (adsbVersion : UInt8) : erase (Said.adsb.airborne_velocity.AirborneVelocity.CheckCoherency airborneVelocity adsbVersion) = Gen.adsb.airborne_velocity.AirborneVelocity.CheckCoherency airborneVelocity adsbVersion := by
  simp only [Said.adsb.airborne_velocity.AirborneVelocity.CheckCoherency, Gen.adsb.airborne_velocity.AirborneVelocity.CheckCoherency, erase_bind, erase_pure, erase_ok, erase_say, erase_saying, erase_lift, erase_ite, erase_attempt, saysNothing_eq, erase_foldlM, erase_bds.bds09.AirborneVelocity.CheckCoherency]

theorem erase_bds.bds09.ReadAirborneVelocityGroundSpeedNormal (data : List UInt8) : erase (Said.bds.bds09.ReadAirborneVelocityGroundSpeedNormal data) = Gen.bds.bds09.ReadAirborneVelocityGroundSpeedNormal data := by
  simp only [Said.bds.bds09.ReadAirborneVelocityGroundSpeedNormal, Gen.bds.bds09.ReadAirborneVelocityGroundSpeedNormal, erase_bind, erase_pure, erase_ok, erase_say, erase_saying, erase_lift, erase_ite, erase_attempt, saysNothing_eq, erase_foldlM]

theorem erase_bds.bds09.ReadAirborneVelocityGroundSpeedSupersonic (data : List UInt8) : erase (Said.bds.bds09.ReadAirborneVelocityGroundSpeedSupersonic data) = Gen.bds.bds09.ReadAirborneVelocityGroundSpeedSupersonic data := by
  simp only [Said.bds.bds09.ReadAirborneVelocityGroundSpeedSupersonic, Gen.bds.bds09.ReadAirborneVelocityGroundSpeedSupersonic, erase_bind, erase_pure, erase_ok, erase_say, erase_saying, erase_lift, erase_ite, erase_attempt, saysNothing_eq, erase_foldlM]

theorem erase_bds.bds09.ReadAirborneVelocityAirSpeedNormal (data : List UInt8) : erase (Said.bds.bds09.ReadAirborneVelocityAirSpeedNormal data) = Gen.bds.bds09.ReadAirborneVelocityAirSpeedNormal data := by
  simp only [Said.bds.bds09.ReadAirborneVelocityAirSpeedNormal, Gen.bds.bds09.ReadAirborneVelocityAirSpeedNormal, erase_bind, erase_pure, erase_ok, erase_say, erase_saying, erase_lift, erase_ite, erase_attempt, saysNothing_eq, erase_foldlM]

theorem erase_bds.bds09.ReadAirborneVelocityAirSpeedSupersonic (data : List UInt8) : erase (Said.bds.bds09.ReadAirborneVelocityAirSpeedSupersonic data) = Gen.bds.bds09.ReadAirborneVelocityAirSpeedSupersonic data := by
  simp only [Said.bds.bds09.ReadAirborneVelocityAirSpeedSupersonic, Gen.bds.bds09.ReadAirborneVelocityAirSpeedSupersonic, erase_bind, erase_pure, erase_ok, erase_say, erase_saying, erase_lift, erase_ite, erase_attempt, saysNothing_eq, erase_foldlM]

theorem erase_bds.bds09.ReadAirborneVelocity (data : List UInt8) : erase (Said.bds.bds09.ReadAirborneVelocity data) = Gen.bds.bds09.ReadAirborneVelocity data := by
  simp only [Said.bds.bds09.ReadAirborneVelocity, Gen.bds.bds09.ReadAirborneVelocity, erase_bind, erase_pure, erase_ok, erase_say, erase_saying, erase_lift, erase_ite, erase_attempt, saysNothing_eq, erase_foldlM, erase_bds.bds09.ReadAirborneVelocityGroundSpeedNormal, erase_bds.bds09.ReadAirborneVelocityGroundSpeedSupersonic, erase_bds.bds09.ReadAirborneVelocityAirSpeedNormal, erase_bds.bds09.ReadAirborneVelocityAirSpeedSupersonic]

theorem erase_adsb.airborne_velocity.ReadAirborneVelocity (adsbVersion : UInt8) (data : List UInt8) : erase (Said.adsb.airborne_velocity.ReadAirborneVelocity adsbVersion data) = Gen.adsb.airborne_velocity.ReadAirborneVelocity adsbVersion data := by
  simp only [Said.adsb.airborne_velocity.ReadAirborneVelocity, Gen.adsb.airborne_velocity.ReadAirborneVelocity, erase_bind, erase_pure, erase_ok, erase_say, erase_saying, erase_lift, erase_ite, erase_attempt, saysNothing_eq, erase_foldlM, erase_bds.bds09.ReadAirborneVelocity]

theorem erase_bds.bds08.fields.AircraftCategorySetA.CheckCoherency (category : UInt8) : erase (Said.bds.bds08.fields.AircraftCategorySetA.CheckCoherency category) = Gen.bds.bds08.fields.AircraftCategorySetA.CheckCoherency category := by
  simp only [Said.bds.bds08.fields.AircraftCategorySetA.CheckCoherency, Gen.bds.bds08.fields.AircraftCategorySetA.CheckCoherency, erase_bind, erase_pure, erase_ok, erase_say, erase_saying, erase_lift, erase_ite, erase_attempt, saysNothing_eq, erase_foldlM]

theorem erase_bds.bds08.fields.AircraftCategorySetB.CheckCoherency (category : UInt8) : erase (Said.bds.bds08.fields.AircraftCategorySetB.CheckCoherency category) = Gen.bds.bds08.fields.AircraftCategorySetB.CheckCoherency category := by
  simp only [Said.bds.bds08.fields.AircraftCategorySetB.CheckCoherency, Gen.bds.bds08.fields.AircraftCategorySetB.CheckCoherency, erase_bind, erase_pure, erase_ok, erase_say, erase_saying, erase_lift, erase_ite, erase_attempt, saysNothing_eq, erase_foldlM]

theorem erase_bds.bds08.fields.AircraftCategorySetC.CheckCoherency (category : UInt8) : erase (Said.bds.bds08.fields.AircraftCategorySetC.CheckCoherency category) = Gen.bds.bds08.fields.AircraftCategorySetC.CheckCoherency category := by
  simp only [Said.bds.bds08.fields.AircraftCategorySetC.CheckCoherency, Gen.bds.bds08.fields.AircraftCategorySetC.CheckCoherency, erase_bind, erase_pure, erase_ok, erase_say, erase_saying, erase_lift, erase_ite, erase_attempt, saysNothing_eq, erase_foldlM]

theorem erase_bds.bds08.fields.AircraftCategorySetD.CheckCoherency (category : UInt8) : erase (Said.bds.bds08.fields.AircraftCategorySetD.CheckCoherency category) = Gen.bds.bds08.fields.AircraftCategorySetD.CheckCoherency category := by
  simp only [Said.bds.bds08.fields.AircraftCategorySetD.CheckCoherency, Gen.bds.bds08.fields.AircraftCategorySetD.CheckCoherency, erase_bind, erase_pure, erase_ok, erase_say, erase_saying, erase_lift, erase_ite, erase_attempt, saysNothing_eq, erase_foldlM]

theorem erase_bds.bds08.fields.AircraftCategory.CheckCoherency (m : AircraftCategory) : erase (Said.bds.bds08.fields.AircraftCategory.CheckCoherency m) = Gen.bds.bds08.fields.AircraftCategory.CheckCoherency m := by
  cases m <;> simp only [Said.bds.bds08.fields.AircraftCategory.CheckCoherency, Gen.bds.bds08.fields.AircraftCategory.CheckCoherency, erase_bds.bds08.fields.AircraftCategorySetA.CheckCoherency, erase_bds.bds08.fields.AircraftCategorySetB.CheckCoherency, erase_bds.bds08.fields.AircraftCategorySetC.CheckCoherency, erase_bds.bds08.fields.AircraftCategorySetD.CheckCoherency]

theorem erase_bds.bds08.AircraftIdentificationAndCategory.CheckCoherency (message : IdentificationAndCategory) : erase (Said.bds.bds08.AircraftIdentificationAndCategory.CheckCoherency message) = Gen.bds.bds08.AircraftIdentificationAndCategory.CheckCoherency message := by
  simp only [Said.bds.bds08.AircraftIdentificationAndCategory.CheckCoherency, Gen.bds.bds08.AircraftIdentificationAndCategory.CheckCoherency, erase_bind, erase_pure, erase_ok, erase_say, erase_saying, erase_lift, erase_ite, erase_attempt, saysNothing_eq, erase_foldlM, erase_bds.bds08.fields.AircraftCategory.CheckCoherency]

theorem erase_adsb.aircraft_identification_and_category.AircraftIdentificationAndCategory.CheckCoherency (aircraftIdentificationAndCategory : IdentificationAndCategory) (adsbVersion : UInt8) : erase (Said.adsb.aircraft_identification_and_category.AircraftIdentificationAndCategory.CheckCoherency aircraftIdentificationAndCategory adsbVersion) = Gen.adsb.aircraft_identification_and_category.AircraftIdentificationAndCategory.CheckCoherency aircraftIdentificationAndCategory adsbVersion := by
  simp only [Said.adsb.aircraft_identification_and_category.AircraftIdentificationAndCategory.CheckCoherency, Gen.adsb.aircraft_identification_and_category.AircraftIdentificationAndCategory.CheckCoherency, erase_bind, erase_pure, erase_ok, erase_say, erase_saying, erase_lift, erase_ite, erase_attempt, saysNothing_eq, erase_foldlM, erase_bds.bds08.AircraftIdentificationAndCategory.CheckCoherency]

theorem erase_bds.bds08.ReadAircraftIdentificationAndCategory (data : List UInt8) : erase (Said.bds.bds08.ReadAircraftIdentificationAndCategory data) = Gen.bds.bds08.ReadAircraftIdentificationAndCategory data := by
  simp only [Said.bds.bds08.ReadAircraftIdentificationAndCategory, Gen.bds.bds08.ReadAircraftIdentificationAndCategory, erase_bind, erase_pure, erase_ok, erase_say, erase_saying, erase_lift, erase_ite, erase_attempt, saysNothing_eq, erase_foldlM]

theorem erase_adsb.aircraft_identification_and_category.ReadAircraftIdentificationAndCategory (adsbVersion : UInt8) (data : List UInt8) : erase (Said.adsb.aircraft_identification_and_category.ReadAircraftIdentificationAndCategory adsbVersion data) = Gen.adsb.aircraft_identification_and_category.ReadAircraftIdentificationAndCategory adsbVersion data := by
  simp only [Said.adsb.aircraft_identification_and_category.ReadAircraftIdentificationAndCategory, Gen.adsb.aircraft_identification_and_category.ReadAircraftIdentificationAndCategory, erase_bind, erase_pure, erase_ok, erase_say, erase_saying, erase_lift, erase_ite, erase_attempt, saysNothing_eq, erase_foldlM, erase_bds.bds08.ReadAircraftIdentificationAndCategory]

theorem erase_bds.bds65.AircraftOperationalStatusADSB0.CheckCoherency (message : OpStatusV0) : erase (Said.bds.bds65.AircraftOperationalStatusADSB0.CheckCoherency message) = Gen.bds.bds65.AircraftOperationalStatusADSB0.CheckCoherency message := by
  simp only [Said.bds.bds65.AircraftOperationalStatusADSB0.CheckCoherency, Gen.bds.bds65.AircraftOperationalStatusADSB0.CheckCoherency, erase_bind, erase_pure, erase_ok, erase_say, erase_saying, erase_lift, erase_ite, erase_attempt, saysNothing_eq, erase_foldlM]

theorem erase_bds.bds65.AircraftOperationalStatusAirborneADSB1.CheckCoherency (message : OpStatusAirborneV1) : erase (Said.bds.bds65.AircraftOperationalStatusAirborneADSB1.CheckCoherency message) = Gen.bds.bds65.AircraftOperationalStatusAirborneADSB1.CheckCoherency message := by
  simp only [Said.bds.bds65.AircraftOperationalStatusAirborneADSB1.CheckCoherency, Gen.bds.bds65.AircraftOperationalStatusAirborneADSB1.CheckCoherency, erase_bind, erase_pure, erase_ok, erase_say, erase_saying, erase_lift, erase_ite, erase_attempt, saysNothing_eq, erase_foldlM]

theorem erase_bds.bds65.AircraftOperationalStatusAirborneADSB2.CheckCoherency (message : OpStatusAirborneV2) : erase (Said.bds.bds65.AircraftOperationalStatusAirborneADSB2.CheckCoherency message) = Gen.bds.bds65.AircraftOperationalStatusAirborneADSB2.CheckCoherency message := by
  simp only [Said.bds.bds65.AircraftOperationalStatusAirborneADSB2.CheckCoherency, Gen.bds.bds65.AircraftOperationalStatusAirborneADSB2.CheckCoherency, erase_bind, erase_pure, erase_ok, erase_say, erase_saying, erase_lift, erase_ite, erase_attempt, saysNothing_eq, erase_foldlM]

theorem erase_bds.bds65.AircraftOperationalStatusSurfaceADSB1.CheckCoherency (message : OpStatusSurfaceV1) : erase (Said.bds.bds65.AircraftOperationalStatusSurfaceADSB1.CheckCoherency message) = Gen.bds.bds65.AircraftOperationalStatusSurfaceADSB1.CheckCoherency message := by
  simp only [Said.bds.bds65.AircraftOperationalStatusSurfaceADSB1.CheckCoherency, Gen.bds.bds65.AircraftOperationalStatusSurfaceADSB1.CheckCoherency, erase_bind, erase_pure, erase_ok, erase_say, erase_saying, erase_lift, erase_ite, erase_attempt, saysNothing_eq, erase_foldlM]

theorem erase_bds.bds65.AircraftOperationalStatusSurfaceADSB2.CheckCoherency (message : OpStatusSurfaceV2) : erase (Said.bds.bds65.AircraftOperationalStatusSurfaceADSB2.CheckCoherency message) = Gen.bds.bds65.AircraftOperationalStatusSurfaceADSB2.CheckCoherency message := by
  simp only [Said.bds.bds65.AircraftOperationalStatusSurfaceADSB2.CheckCoherency, Gen.bds.bds65.AircraftOperationalStatusSurfaceADSB2.CheckCoherency, erase_bind, erase_pure, erase_ok, erase_say, erase_saying, erase_lift, erase_ite, erase_attempt, saysNothing_eq, erase_foldlM]

theorem erase_bds.bds65.AircraftOperationalStatus.CheckCoherency (m : OperationalStatus) : erase (Said.bds.bds65.AircraftOperationalStatus.CheckCoherency m) = Gen.bds.bds65.AircraftOperationalStatus.CheckCoherency m := by
  cases m <;> simp only [Said.bds.bds65.AircraftOperationalStatus.CheckCoherency, Gen.bds.bds65.AircraftOperationalStatus.CheckCoherency, erase_bds.bds65.AircraftOperationalStatusADSB0.CheckCoherency, erase_bds.bds65.AircraftOperationalStatusAirborneADSB1.CheckCoherency, erase_bds.bds65.AircraftOperationalStatusAirborneADSB2.CheckCoherency, erase_bds.bds65.AircraftOperationalStatusSurfaceADSB1.CheckCoherency, erase_bds.bds65.AircraftOperationalStatusSurfaceADSB2.CheckCoherency]

theorem erase_adsb.aircraft_operational_status.AircraftOperationalStatus.CheckCoherency (aircraftOperationalStatus : OperationalStatus) (adsbVersion : UInt8) : erase (Said.adsb.aircraft_operational_status.AircraftOperationalStatus.CheckCoherency aircraftOperationalStatus adsbVersion) = Gen.adsb.aircraft_operational_status.AircraftOperationalStatus.CheckCoherency aircraftOperationalStatus adsbVersion := by
  simp only [Said.adsb.aircraft_operational_status.AircraftOperationalStatus.CheckCoherency, Gen.adsb.aircraft_operational_status.AircraftOperationalStatus.CheckCoherency, erase_bind, erase_pure, erase_ok, erase_say, erase_saying, erase_lift, erase_ite, erase_attempt, saysNothing_eq, erase_foldlM, erase_bds.bds65.AircraftOperationalStatus.CheckCoherency]

theorem erase_bds.bds65.ReadAircraftOperationalStatusADSB0 (data : List UInt8) : erase (Said.bds.bds65.ReadAircraftOperationalStatusADSB0 data) = Gen.bds.bds65.ReadAircraftOperationalStatusADSB0 data := by
  simp only [Said.bds.bds65.ReadAircraftOperationalStatusADSB0, Gen.bds.bds65.ReadAircraftOperationalStatusADSB0, erase_bind, erase_pure, erase_ok, erase_say, erase_saying, erase_lift, erase_ite, erase_attempt, saysNothing_eq, erase_foldlM]

theorem erase_bds.bds65.ReadAircraftOperationalStatusAirborneADSB1 (data : List UInt8) : erase (Said.bds.bds65.ReadAircraftOperationalStatusAirborneADSB1 data) = Gen.bds.bds65.ReadAircraftOperationalStatusAirborneADSB1 data := by
  simp only [Said.bds.bds65.ReadAircraftOperationalStatusAirborneADSB1, Gen.bds.bds65.ReadAircraftOperationalStatusAirborneADSB1, erase_bind, erase_pure, erase_ok, erase_say, erase_saying, erase_lift, erase_ite, erase_attempt, saysNothing_eq, erase_foldlM]

theorem erase_bds.bds65.ReadAircraftOperationalStatusSurfaceADSB1 (data : List UInt8) : erase (Said.bds.bds65.ReadAircraftOperationalStatusSurfaceADSB1 data) = Gen.bds.bds65.ReadAircraftOperationalStatusSurfaceADSB1 data := by
  simp only [Said.bds.bds65.ReadAircraftOperationalStatusSurfaceADSB1, Gen.bds.bds65.ReadAircraftOperationalStatusSurfaceADSB1, erase_bind, erase_pure, erase_ok, erase_say, erase_saying, erase_lift, erase_ite, erase_attempt, saysNothing_eq, erase_foldlM]

theorem erase_bds.bds65.ReadAircraftOperationalStatusAirborneADSB2 (data : List UInt8) : erase (Said.bds.bds65.ReadAircraftOperationalStatusAirborneADSB2 data) = Gen.bds.bds65.ReadAircraftOperationalStatusAirborneADSB2 data := by
  simp only [Said.bds.bds65.ReadAircraftOperationalStatusAirborneADSB2, Gen.bds.bds65.ReadAircraftOperationalStatusAirborneADSB2, erase_bind, erase_pure, erase_ok, erase_say, erase_saying, erase_lift, erase_ite, erase_attempt, saysNothing_eq, erase_foldlM]

theorem erase_bds.bds65.ReadAircraftOperationalStatusSurfaceADSB2 (data : List UInt8) : erase (Said.bds.bds65.ReadAircraftOperationalStatusSurfaceADSB2 data) = Gen.bds.bds65.ReadAircraftOperationalStatusSurfaceADSB2 data := by
  simp only [Said.bds.bds65.ReadAircraftOperationalStatusSurfaceADSB2, Gen.bds.bds65.ReadAircraftOperationalStatusSurfaceADSB2, erase_bind, erase_pure, erase_ok, erase_say, erase_saying, erase_lift, erase_ite, erase_attempt, saysNothing_eq, erase_foldlM]

theorem erase_bds.bds65.ReadAircraftOperationalStatus (data : List UInt8) : erase (Said.bds.bds65.ReadAircraftOperationalStatus data) = Gen.bds.bds65.ReadAircraftOperationalStatus data := by
  simp only [Said.bds.bds65.ReadAircraftOperationalStatus, Gen.bds.bds65.ReadAircraftOperationalStatus, erase_bind, erase_pure, erase_ok, erase_say, erase_saying, erase_lift, erase_ite, erase_attempt, saysNothing_eq, erase_foldlM, erase_bds.bds65.ReadAircraftOperationalStatusADSB0, erase_bds.bds65.ReadAircraftOperationalStatusAirborneADSB1, erase_bds.bds65.ReadAircraftOperationalStatusSurfaceADSB1, erase_bds.bds65.ReadAircraftOperationalStatusAirborneADSB2, erase_bds.bds65.ReadAircraftOperationalStatusSurfaceADSB2]

theorem erase_adsb.aircraft_operational_status.ReadAircraftOperationalStatus (x : UInt8) (data : List UInt8) : erase (Said.adsb.aircraft_operational_status.ReadAircraftOperationalStatus x data) = Gen.adsb.aircraft_operational_status.ReadAircraftOperationalStatus x data := by
  simp only [Said.adsb.aircraft_operational_status.ReadAircraftOperationalStatus, Gen.adsb.aircraft_operational_status.ReadAircraftOperationalStatus, erase_bind, erase_pure, erase_ok, erase_say, erase_saying, erase_lift, erase_ite, erase_attempt, saysNothing_eq, erase_foldlM, erase_bds.bds65.ReadAircraftOperationalStatus]

theorem erase_bds.bds61.AircraftStatusNoInformation.CheckCoherency (message : StatusNoInformation) : erase (Said.bds.bds61.AircraftStatusNoInformation.CheckCoherency message) = Gen.bds.bds61.AircraftStatusNoInformation.CheckCoherency message := by
  simp only [Said.bds.bds61.AircraftStatusNoInformation.CheckCoherency, Gen.bds.bds61.AircraftStatusNoInformation.CheckCoherency, erase_bind, erase_pure, erase_ok, erase_say, erase_saying, erase_lift, erase_ite, erase_attempt, saysNothing_eq, erase_foldlM]

theorem erase_bds.bds61.AircraftStatusEmergency.CheckCoherency (message : StatusEmergency) : erase (Said.bds.bds61.AircraftStatusEmergency.CheckCoherency message) = Gen.bds.bds61.AircraftStatusEmergency.CheckCoherency message := by
  simp only [Said.bds.bds61.AircraftStatusEmergency.CheckCoherency, Gen.bds.bds61.AircraftStatusEmergency.CheckCoherency, erase_bind, erase_pure, erase_ok, erase_say, erase_saying, erase_lift, erase_ite, erase_attempt, saysNothing_eq, erase_foldlM]

theorem erase_bds.bds61.AircraftStatusACAS.CheckCoherency (message : StatusACAS) : erase (Said.bds.bds61.AircraftStatusACAS.CheckCoherency message) = Gen.bds.bds61.AircraftStatusACAS.CheckCoherency message := by
  simp only [Said.bds.bds61.AircraftStatusACAS.CheckCoherency, Gen.bds.bds61.AircraftStatusACAS.CheckCoherency, erase_bind, erase_pure, erase_ok, erase_say, erase_saying, erase_lift, erase_ite, erase_attempt, saysNothing_eq, erase_foldlM]

theorem erase_bds.bds61.AircraftStatus.CheckCoherency (m : AircraftStatus) : erase (Said.bds.bds61.AircraftStatus.CheckCoherency m) = Gen.bds.bds61.AircraftStatus.CheckCoherency m := by
  cases m <;> simp only [Said.bds.bds61.AircraftStatus.CheckCoherency, Gen.bds.bds61.AircraftStatus.CheckCoherency, erase_bds.bds61.AircraftStatusNoInformation.CheckCoherency, erase_bds.bds61.AircraftStatusEmergency.CheckCoherency, erase_bds.bds61.AircraftStatusACAS.CheckCoherency]

theorem erase_adsb.aircraft_status.AircraftStatus.CheckCoherency (aircraftStatus : AircraftStatus) (adsbVersion : UInt8) : erase (Said.adsb.aircraft_status.AircraftStatus.CheckCoherency aircraftStatus adsbVersion) = Gen.adsb.aircraft_status.AircraftStatus.CheckCoherency aircraftStatus adsbVersion := by
  simp only [Said.adsb.aircraft_status.AircraftStatus.CheckCoherency, Gen.adsb.aircraft_status.AircraftStatus.CheckCoherency, erase_bind, erase_pure, erase_ok, erase_say, erase_saying, erase_lift, erase_ite, erase_attempt, saysNothing_eq, erase_foldlM, erase_bds.bds61.AircraftStatus.CheckCoherency]

theorem erase_bds.bds61.ReadAircraftStatusNoInformation (data : List UInt8) : erase (Said.bds.bds61.ReadAircraftStatusNoInformation data) = Gen.bds.bds61.ReadAircraftStatusNoInformation data := by
  simp only [Said.bds.bds61.ReadAircraftStatusNoInformation, Gen.bds.bds61.ReadAircraftStatusNoInformation, erase_bind, erase_pure, erase_ok, erase_say, erase_saying, erase_lift, erase_ite, erase_attempt, saysNothing_eq, erase_foldlM]

theorem erase_bds.bds61.ReadAircraftStatusEmergency (data : List UInt8) : erase (Said.bds.bds61.ReadAircraftStatusEmergency data) = Gen.bds.bds61.ReadAircraftStatusEmergency data := by
  simp only [Said.bds.bds61.ReadAircraftStatusEmergency, Gen.bds.bds61.ReadAircraftStatusEmergency, erase_bind, erase_pure, erase_ok, erase_say, erase_saying, erase_lift, erase_ite, erase_attempt, saysNothing_eq, erase_foldlM]

theorem erase_bds.bds61.ReadAircraftStatusACAS (data : List UInt8) : erase (Said.bds.bds61.ReadAircraftStatusACAS data) = Gen.bds.bds61.ReadAircraftStatusACAS data := by
  simp only [Said.bds.bds61.ReadAircraftStatusACAS, Gen.bds.bds61.ReadAircraftStatusACAS, erase_bind, erase_pure, erase_ok, erase_say, erase_saying, erase_lift, erase_ite, erase_attempt, saysNothing_eq, erase_foldlM, erase_acas.ra.ReadResolutionAdvisory]

theorem erase_bds.bds61.ReadAircraftStatus (data : List UInt8) : erase (Said.bds.bds61.ReadAircraftStatus data) = Gen.bds.bds61.ReadAircraftStatus data := by
  simp only [Said.bds.bds61.ReadAircraftStatus, Gen.bds.bds61.ReadAircraftStatus, erase_bind, erase_pure, erase_ok, erase_say, erase_saying, erase_lift, erase_ite, erase_attempt, saysNothing_eq, erase_foldlM, erase_bds.bds61.ReadAircraftStatusNoInformation, erase_bds.bds61.ReadAircraftStatusEmergency, erase_bds.bds61.ReadAircraftStatusACAS]

theorem erase_adsb.aircraft_status.ReadAircraftStatus (adsbVersion : UInt8) (data : List UInt8) : erase (Said.adsb.aircraft_status.ReadAircraftStatus adsbVersion data) = Gen.adsb.aircraft_status.ReadAircraftStatus adsbVersion data := by
  simp only [Said.adsb.aircraft_status.ReadAircraftStatus, Gen.adsb.aircraft_status.ReadAircraftStatus, erase_bind, erase_pure, erase_ok, erase_say, erase_saying, erase_lift, erase_ite, erase_attempt, saysNothing_eq, erase_foldlM, erase_bds.bds61.ReadAircraftStatus]

theorem erase_adsb.no_position_information.NoPositionInformation.CheckCoherency (adsbVersion : UInt8) (formatTypeCode : UInt8) (altitudeBarometric : Int) (navigationIntegrityCategory : UInt8) : erase (Said.adsb.no_position_information.NoPositionInformation.CheckCoherency adsbVersion formatTypeCode altitudeBarometric navigationIntegrityCategory) = Gen.adsb.no_position_information.NoPositionInformation.CheckCoherency adsbVersion formatTypeCode altitudeBarometric navigationIntegrityCategory := by
  simp only [Said.adsb.no_position_information.NoPositionInformation.CheckCoherency, Gen.adsb.no_position_information.NoPositionInformation.CheckCoherency, erase_bind, erase_pure, erase_ok, erase_say, erase_saying, erase_lift, erase_ite, erase_attempt, saysNothing_eq, erase_foldlM]

theorem erase_adsb.no_position_information.ReadNoPositionInformation (adsbVersion : UInt8) (data : List UInt8) : erase (Said.adsb.no_position_information.ReadNoPositionInformation adsbVersion data) = Gen.adsb.no_position_information.ReadNoPositionInformation adsbVersion data := by
  simp only [Said.adsb.no_position_information.ReadNoPositionInformation, Gen.adsb.no_position_information.ReadNoPositionInformation, erase_bind, erase_pure, erase_ok, erase_say, erase_saying, erase_lift, erase_ite, erase_attempt, saysNothing_eq, erase_foldlM, erase_bds.bds05.ReadAirbornePosition]

theorem erase_bds.bds06.ReadSurfacePosition (data : List UInt8) : erase (Said.bds.bds06.ReadSurfacePosition data) = Gen.bds.bds06.ReadSurfacePosition data := by
  simp only [Said.bds.bds06.ReadSurfacePosition, Gen.bds.bds06.ReadSurfacePosition, erase_bind, erase_pure, erase_ok, erase_say, erase_saying, erase_lift, erase_ite, erase_attempt, saysNothing_eq, erase_foldlM]

theorem erase_adsb.surface_position.ReadSurfacePositionV0 (data : List UInt8) : erase (Said.adsb.surface_position.ReadSurfacePositionV0 data) = Gen.adsb.surface_position.ReadSurfacePositionV0 data := by
  simp only [Said.adsb.surface_position.ReadSurfacePositionV0, Gen.adsb.surface_position.ReadSurfacePositionV0, erase_bind, erase_pure, erase_ok, erase_say, erase_saying, erase_lift, erase_ite, erase_attempt, saysNothing_eq, erase_foldlM, erase_bds.bds06.ReadSurfacePosition]

theorem erase_adsb.surface_position.ReadSurfacePositionV1 (data : List UInt8) (nicSupplementA : Bool) : erase (Said.adsb.surface_position.ReadSurfacePositionV1 data nicSupplementA) = Gen.adsb.surface_position.ReadSurfacePositionV1 data nicSupplementA := by
  simp only [Said.adsb.surface_position.ReadSurfacePositionV1, Gen.adsb.surface_position.ReadSurfacePositionV1, erase_bind, erase_pure, erase_ok, erase_say, erase_saying, erase_lift, erase_ite, erase_attempt, saysNothing_eq, erase_foldlM, erase_bds.bds06.ReadSurfacePosition]

theorem erase_adsb.surface_position.ReadSurfacePositionV2 (data : List UInt8) (nicSupplementA : Bool) (nicSupplementC : Bool) : erase (Said.adsb.surface_position.ReadSurfacePositionV2 data nicSupplementA nicSupplementC) = Gen.adsb.surface_position.ReadSurfacePositionV2 data nicSupplementA nicSupplementC := by
  simp only [Said.adsb.surface_position.ReadSurfacePositionV2, Gen.adsb.surface_position.ReadSurfacePositionV2, erase_bind, erase_pure, erase_ok, erase_say, erase_saying, erase_lift, erase_ite, erase_attempt, saysNothing_eq, erase_foldlM, erase_bds.bds06.ReadSurfacePosition]

theorem erase_adsb.surface_position.ReadSurfacePosition (adsbVersion : UInt8) (data : List UInt8) (nicSupplementA : Bool) (nicSupplementC : Bool) : erase (Said.adsb.surface_position.ReadSurfacePosition adsbVersion data nicSupplementA nicSupplementC) = Gen.adsb.surface_position.ReadSurfacePosition adsbVersion data nicSupplementA nicSupplementC := by
  simp only [Said.adsb.surface_position.ReadSurfacePosition, Gen.adsb.surface_position.ReadSurfacePosition, erase_bind, erase_pure, erase_ok, erase_say, erase_saying, erase_lift, erase_ite, erase_attempt, saysNothing_eq, erase_foldlM, erase_adsb.surface_position.ReadSurfacePositionV0, erase_adsb.surface_position.ReadSurfacePositionV1, erase_adsb.surface_position.ReadSurfacePositionV2]

theorem erase_bds.bds62.ReadTargetStateAndStatus0 (data : List UInt8) : erase (Said.bds.bds62.ReadTargetStateAndStatus0 data) = Gen.bds.bds62.ReadTargetStateAndStatus0 data := by
  simp only [Said.bds.bds62.ReadTargetStateAndStatus0, Gen.bds.bds62.ReadTargetStateAndStatus0, erase_bind, erase_pure, erase_ok, erase_say, erase_saying, erase_lift, erase_ite, erase_attempt, saysNothing_eq, erase_foldlM]

theorem erase_bds.bds62.ReadTargetStateAndStatus1 (data : List UInt8) : erase (Said.bds.bds62.ReadTargetStateAndStatus1 data) = Gen.bds.bds62.ReadTargetStateAndStatus1 data := by
  simp only [Said.bds.bds62.ReadTargetStateAndStatus1, Gen.bds.bds62.ReadTargetStateAndStatus1, erase_bind, erase_pure, erase_ok, erase_say, erase_saying, erase_lift, erase_ite, erase_attempt, saysNothing_eq, erase_foldlM]

theorem erase_bds.bds62.ReadTargetStateAndStatus (data : List UInt8) : erase (Said.bds.bds62.ReadTargetStateAndStatus data) = Gen.bds.bds62.ReadTargetStateAndStatus data := by
  simp only [Said.bds.bds62.ReadTargetStateAndStatus, Gen.bds.bds62.ReadTargetStateAndStatus, erase_bind, erase_pure, erase_ok, erase_say, erase_saying, erase_lift, erase_ite, erase_attempt, saysNothing_eq, erase_foldlM, erase_bds.bds62.ReadTargetStateAndStatus0, erase_bds.bds62.ReadTargetStateAndStatus1]

theorem erase_adsb.target_state_and_status.ReadTargetStateAndStatus (adsbVersion : UInt8) (data : List UInt8) : erase (Said.adsb.target_state_and_status.ReadTargetStateAndStatus adsbVersion data) = Gen.adsb.target_state_and_status.ReadTargetStateAndStatus adsbVersion data := by
  simp only [Said.adsb.target_state_and_status.ReadTargetStateAndStatus, Gen.adsb.target_state_and_status.ReadTargetStateAndStatus, erase_bind, erase_pure, erase_ok, erase_say, erase_saying, erase_lift, erase_ite, erase_attempt, saysNothing_eq, erase_foldlM, erase_bds.bds62.ReadTargetStateAndStatus]

theorem erase_adsb.reader.ReadADSBMessage (adsbLevel : UInt8) (nicSupplementA : Bool) (nicSupplementC : Bool) (data : List UInt8) : erase (Said.adsb.reader.ReadADSBMessage adsbLevel nicSupplementA nicSupplementC data) = Gen.adsb.reader.ReadADSBMessage adsbLevel nicSupplementA nicSupplementC data := by
  simp only [Said.adsb.reader.ReadADSBMessage, Gen.adsb.reader.ReadADSBMessage, erase_bind, erase_pure, erase_ok, erase_say, erase_saying, erase_lift, erase_ite, erase_attempt, saysNothing_eq, erase_foldlM, erase_adsb.no_position_information.ReadNoPositionInformation, erase_adsb.airborne_position.ReadAirbornePositionType0, erase_adsb.aircraft_identification_and_category.ReadAircraftIdentificationAndCategory, erase_adsb.surface_position.ReadSurfacePosition, erase_adsb.airborne_position.ReadAirbornePosition, erase_adsb.airborne_velocity.ReadAirborneVelocity, erase_adsb.aircraft_status.ReadAircraftStatus, erase_adsb.target_state_and_status.ReadTargetStateAndStatus, erase_adsb.aircraft_operational_status.ReadAircraftOperationalStatus]

theorem erase_bds.bds06.SurfacePosition.CheckCoherency (message : SurfacePosition) : erase (Said.bds.bds06.SurfacePosition.CheckCoherency message) = Gen.bds.bds06.SurfacePosition.CheckCoherency message := by
  simp only [Said.bds.bds06.SurfacePosition.CheckCoherency, Gen.bds.bds06.SurfacePosition.CheckCoherency, erase_bind, erase_pure, erase_ok, erase_say, erase_saying, erase_lift, erase_ite, erase_attempt, saysNothing_eq, erase_foldlM]

theorem erase_adsb.surface_position.SurfacePositionV0.CheckCoherency (surfacePosition : SurfacePosition) (horizontalProtectionLimit : UInt8) (containmentRadius : UInt8) : erase (Said.adsb.surface_position.SurfacePositionV0.CheckCoherency surfacePosition horizontalProtectionLimit containmentRadius) = Gen.adsb.surface_position.SurfacePositionV0.CheckCoherency surfacePosition horizontalProtectionLimit containmentRadius := by
  simp only [Said.adsb.surface_position.SurfacePositionV0.CheckCoherency, Gen.adsb.surface_position.SurfacePositionV0.CheckCoherency, erase_bind, erase_pure, erase_ok, erase_say, erase_saying, erase_lift, erase_ite, erase_attempt, saysNothing_eq, erase_foldlM, erase_bds.bds06.SurfacePosition.CheckCoherency]

theorem erase_adsb.surface_position.SurfacePositionV1.CheckCoherency (surfacePosition : SurfacePosition) (nicSupplementA : Bool) (horizontalContainmentRadius : UInt8) (navigationIntegrityCategory : UInt8) : erase (Said.adsb.surface_position.SurfacePositionV1.CheckCoherency surfacePosition nicSupplementA horizontalContainmentRadius navigationIntegrityCategory) = Gen.adsb.surface_position.SurfacePositionV1.CheckCoherency surfacePosition nicSupplementA horizontalContainmentRadius navigationIntegrityCategory := by
  simp only [Said.adsb.surface_position.SurfacePositionV1.CheckCoherency, Gen.adsb.surface_position.SurfacePositionV1.CheckCoherency, erase_bind, erase_pure, erase_ok, erase_say, erase_saying, erase_lift, erase_ite, erase_attempt, saysNothing_eq, erase_foldlM, erase_bds.bds06.SurfacePosition.CheckCoherency]

theorem erase_adsb.surface_position.SurfacePositionV2.CheckCoherency (surfacePosition : SurfacePosition) (nicSupplementA : Bool) (nicSupplementC : Bool) (horizontalContainmentRadius : UInt8) (navigationIntegrityCategory : UInt8) : erase (Said.adsb.surface_position.SurfacePositionV2.CheckCoherency surfacePosition nicSupplementA nicSupplementC horizontalContainmentRadius navigationIntegrityCategory) = Gen.adsb.surface_position.SurfacePositionV2.CheckCoherency surfacePosition nicSupplementA nicSupplementC horizontalContainmentRadius navigationIntegrityCategory := by
  simp only [Said.adsb.surface_position.SurfacePositionV2.CheckCoherency, Gen.adsb.surface_position.SurfacePositionV2.CheckCoherency, erase_bind, erase_pure, erase_ok, erase_say, erase_saying, erase_lift, erase_ite, erase_attempt, saysNothing_eq, erase_foldlM, erase_bds.bds06.SurfacePosition.CheckCoherency]

theorem erase_bds.bds62.TargetStateAndStatus0.CheckCoherency (message : TargetStateAndStatus0) : erase (Said.bds.bds62.TargetStateAndStatus0.CheckCoherency message) = Gen.bds.bds62.TargetStateAndStatus0.CheckCoherency message := by
  simp only [Said.bds.bds62.TargetStateAndStatus0.CheckCoherency, Gen.bds.bds62.TargetStateAndStatus0.CheckCoherency, erase_bind, erase_pure, erase_ok, erase_say, erase_saying, erase_lift, erase_ite, erase_attempt, saysNothing_eq, erase_foldlM]

theorem erase_bds.bds62.TargetStateAndStatus1.CheckCoherency (message : TargetStateAndStatus1) : erase (Said.bds.bds62.TargetStateAndStatus1.CheckCoherency message) = Gen.bds.bds62.TargetStateAndStatus1.CheckCoherency message := by
  simp only [Said.bds.bds62.TargetStateAndStatus1.CheckCoherency, Gen.bds.bds62.TargetStateAndStatus1.CheckCoherency, erase_bind, erase_pure, erase_ok, erase_say, erase_saying, erase_lift, erase_ite, erase_attempt, saysNothing_eq, erase_foldlM]

theorem erase_bds.bds62.TargetStateAndStatus.CheckCoherency (m : TargetStateAndStatus) : erase (Said.bds.bds62.TargetStateAndStatus.CheckCoherency m) = Gen.bds.bds62.TargetStateAndStatus.CheckCoherency m := by
  cases m <;> simp only [Said.bds.bds62.TargetStateAndStatus.CheckCoherency, Gen.bds.bds62.TargetStateAndStatus.CheckCoherency, erase_bds.bds62.TargetStateAndStatus0.CheckCoherency, erase_bds.bds62.TargetStateAndStatus1.CheckCoherency]

theorem erase_adsb.target_state_and_status.TargetStateAndStatus.CheckCoherency (targetStateAndStatus : TargetStateAndStatus) (adsbVersion : UInt8) : erase (Said.adsb.target_state_and_status.TargetStateAndStatus.CheckCoherency targetStateAndStatus adsbVersion) = Gen.adsb.target_state_and_status.TargetStateAndStatus.CheckCoherency targetStateAndStatus adsbVersion := by
  simp only [Said.adsb.target_state_and_status.TargetStateAndStatus.CheckCoherency, Gen.adsb.target_state_and_status.TargetStateAndStatus.CheckCoherency, erase_bind, erase_pure, erase_ok, erase_say, erase_saying, erase_lift, erase_ite, erase_attempt, saysNothing_eq, erase_foldlM, erase_bds.bds62.TargetStateAndStatus.CheckCoherency]

theorem erase_bds.bds00.NoMessageAvailable.CheckCoherency (message : NoMessageAvailable) : erase (Said.bds.bds00.NoMessageAvailable.CheckCoherency message) = Gen.bds.bds00.NoMessageAvailable.CheckCoherency message := by
  simp only [Said.bds.bds00.NoMessageAvailable.CheckCoherency, Gen.bds.bds00.NoMessageAvailable.CheckCoherency, erase_bind, erase_pure, erase_ok, erase_say, erase_saying, erase_lift, erase_ite, erase_attempt, saysNothing_eq, erase_foldlM]

theorem erase_bds.bds00.ReadNoMessageAvailable (data : List UInt8) : erase (Said.bds.bds00.ReadNoMessageAvailable data) = Gen.bds.bds00.ReadNoMessageAvailable data := by
  simp only [Said.bds.bds00.ReadNoMessageAvailable, Gen.bds.bds00.ReadNoMessageAvailable, erase_bind, erase_pure, erase_ok, erase_say, erase_saying, erase_lift, erase_ite, erase_attempt, saysNothing_eq, erase_foldlM]

theorem erase_bds.bds07.Status.CheckCoherency (message : Status07) : erase (Said.bds.bds07.Status.CheckCoherency message) = Gen.bds.bds07.Status.CheckCoherency message := by
  simp only [Said.bds.bds07.Status.CheckCoherency, Gen.bds.bds07.Status.CheckCoherency, erase_bind, erase_pure, erase_ok, erase_say, erase_saying, erase_lift, erase_ite, erase_attempt, saysNothing_eq, erase_foldlM]

theorem erase_bds.bds07.ReadStatus (data : List UInt8) : erase (Said.bds.bds07.ReadStatus data) = Gen.bds.bds07.ReadStatus data := by
  simp only [Said.bds.bds07.ReadStatus, Gen.bds.bds07.ReadStatus, erase_bind, erase_pure, erase_ok, erase_say, erase_saying, erase_lift, erase_ite, erase_attempt, saysNothing_eq, erase_foldlM]

theorem erase_bds.bds10.DataLinkCapabilityReport.CheckCoherency (message : DataLinkCapabilityReport) : erase (Said.bds.bds10.DataLinkCapabilityReport.CheckCoherency message) = Gen.bds.bds10.DataLinkCapabilityReport.CheckCoherency message := by
  simp only [Said.bds.bds10.DataLinkCapabilityReport.CheckCoherency, Gen.bds.bds10.DataLinkCapabilityReport.CheckCoherency, erase_bind, erase_pure, erase_ok, erase_say, erase_saying, erase_lift, erase_ite, erase_attempt, saysNothing_eq, erase_foldlM]

theorem erase_bds.bds10.ReadDataLinkCapabilityReport (data : List UInt8) : erase (Said.bds.bds10.ReadDataLinkCapabilityReport data) = Gen.bds.bds10.ReadDataLinkCapabilityReport data := by
  simp only [Said.bds.bds10.ReadDataLinkCapabilityReport, Gen.bds.bds10.ReadDataLinkCapabilityReport, erase_bind, erase_pure, erase_ok, erase_say, erase_saying, erase_lift, erase_ite, erase_attempt, saysNothing_eq, erase_foldlM]

theorem erase_bds.bds17.CommonUsageGICBCapabilityReport.CheckCoherency (message : GICBCapabilityReport) : erase (Said.bds.bds17.CommonUsageGICBCapabilityReport.CheckCoherency message) = Gen.bds.bds17.CommonUsageGICBCapabilityReport.CheckCoherency message := by
  simp only [Said.bds.bds17.CommonUsageGICBCapabilityReport.CheckCoherency, Gen.bds.bds17.CommonUsageGICBCapabilityReport.CheckCoherency, erase_bind, erase_pure, erase_ok, erase_say, erase_saying, erase_lift, erase_ite, erase_attempt, saysNothing_eq, erase_foldlM]

theorem erase_bds.bds17.ReadCommonUsageGICBCapabilityReport (data : List UInt8) : erase (Said.bds.bds17.ReadCommonUsageGICBCapabilityReport data) = Gen.bds.bds17.ReadCommonUsageGICBCapabilityReport data := by
  simp only [Said.bds.bds17.ReadCommonUsageGICBCapabilityReport, Gen.bds.bds17.ReadCommonUsageGICBCapabilityReport, erase_bind, erase_pure, erase_ok, erase_say, erase_saying, erase_lift, erase_ite, erase_attempt, saysNothing_eq, erase_foldlM]

theorem erase_bds.bds20.AircraftIdentification.CheckCoherency (message : AircraftIdentification) : erase (Said.bds.bds20.AircraftIdentification.CheckCoherency message) = Gen.bds.bds20.AircraftIdentification.CheckCoherency message := by
  simp only [Said.bds.bds20.AircraftIdentification.CheckCoherency, Gen.bds.bds20.AircraftIdentification.CheckCoherency, erase_bind, erase_pure, erase_ok, erase_say, erase_saying, erase_lift, erase_ite, erase_attempt, saysNothing_eq, erase_foldlM]

theorem erase_bds.bds20.ReadAircraftIdentification (data : List UInt8) : erase (Said.bds.bds20.ReadAircraftIdentification data) = Gen.bds.bds20.ReadAircraftIdentification data := by
  simp only [Said.bds.bds20.ReadAircraftIdentification, Gen.bds.bds20.ReadAircraftIdentification, erase_bind, erase_pure, erase_ok, erase_say, erase_saying, erase_lift, erase_ite, erase_attempt, saysNothing_eq, erase_foldlM]

theorem erase_bds.bds30.ACASResolutionAdvisory.CheckCoherency (message : ACASResolutionAdvisory) : erase (Said.bds.bds30.ACASResolutionAdvisory.CheckCoherency message) = Gen.bds.bds30.ACASResolutionAdvisory.CheckCoherency message := by
  simp only [Said.bds.bds30.ACASResolutionAdvisory.CheckCoherency, Gen.bds.bds30.ACASResolutionAdvisory.CheckCoherency, erase_bind, erase_pure, erase_ok, erase_say, erase_saying, erase_lift, erase_ite, erase_attempt, saysNothing_eq, erase_foldlM]

theorem erase_bds.bds30.ReadACASResolutionAdvisory (data : List UInt8) : erase (Said.bds.bds30.ReadACASResolutionAdvisory data) = Gen.bds.bds30.ReadACASResolutionAdvisory data := by
  simp only [Said.bds.bds30.ReadACASResolutionAdvisory, Gen.bds.bds30.ReadACASResolutionAdvisory, erase_bind, erase_pure, erase_ok, erase_say, erase_saying, erase_lift, erase_ite, erase_attempt, saysNothing_eq, erase_foldlM, erase_acas.ra.ReadResolutionAdvisory]

theorem erase_bds.bds40.SelectedVerticalIntention.CheckCoherency (message : SelectedVerticalIntention) : erase (Said.bds.bds40.SelectedVerticalIntention.CheckCoherency message) = Gen.bds.bds40.SelectedVerticalIntention.CheckCoherency message := by
  simp only [Said.bds.bds40.SelectedVerticalIntention.CheckCoherency, Gen.bds.bds40.SelectedVerticalIntention.CheckCoherency, erase_bind, erase_pure, erase_ok, erase_say, erase_saying, erase_lift, erase_ite, erase_attempt, saysNothing_eq, erase_foldlM]

theorem erase_bds.bds40.ReadSelectedVerticalIntention (data : List UInt8) : erase (Said.bds.bds40.ReadSelectedVerticalIntention data) = Gen.bds.bds40.ReadSelectedVerticalIntention data := by
  simp only [Said.bds.bds40.ReadSelectedVerticalIntention, Gen.bds.bds40.ReadSelectedVerticalIntention, erase_bind, erase_pure, erase_ok, erase_say, erase_saying, erase_lift, erase_ite, erase_attempt, saysNothing_eq, erase_foldlM]

theorem erase_bds.bds44.ReadMeteorologicalRoutineAirReportV2 (data : List UInt8) : erase (Said.bds.bds44.ReadMeteorologicalRoutineAirReportV2 data) = Gen.bds.bds44.ReadMeteorologicalRoutineAirReportV2 data := by
  simp only [Said.bds.bds44.ReadMeteorologicalRoutineAirReportV2, Gen.bds.bds44.ReadMeteorologicalRoutineAirReportV2, erase_bind, erase_pure, erase_ok, erase_say, erase_saying, erase_lift, erase_ite, erase_attempt, saysNothing_eq, erase_foldlM]

theorem erase_bds.bds44.ReadMeteorologicalRoutineAirReportV0 (data : List UInt8) : erase (Said.bds.bds44.ReadMeteorologicalRoutineAirReportV0 data) = Gen.bds.bds44.ReadMeteorologicalRoutineAirReportV0 data := by
  simp only [Said.bds.bds44.ReadMeteorologicalRoutineAirReportV0, Gen.bds.bds44.ReadMeteorologicalRoutineAirReportV0, erase_bind, erase_pure, erase_ok, erase_say, erase_saying, erase_lift, erase_ite, erase_attempt, saysNothing_eq, erase_foldlM]

theorem erase_bds.bds44.ReadMeteorologicalRoutineAirReportV1 (data : List UInt8) : erase (Said.bds.bds44.ReadMeteorologicalRoutineAirReportV1 data) = Gen.bds.bds44.ReadMeteorologicalRoutineAirReportV1 data := by
  simp only [Said.bds.bds44.ReadMeteorologicalRoutineAirReportV1, Gen.bds.bds44.ReadMeteorologicalRoutineAirReportV1, erase_bind, erase_pure, erase_ok, erase_say, erase_saying, erase_lift, erase_ite, erase_attempt, saysNothing_eq, erase_foldlM]

theorem erase_bds.bds44.MeteorologicalRoutineAirReportV0.CheckCoherency (message : RoutineAirReportV0) : erase (Said.bds.bds44.MeteorologicalRoutineAirReportV0.CheckCoherency message) = Gen.bds.bds44.MeteorologicalRoutineAirReportV0.CheckCoherency message := by
  simp only [Said.bds.bds44.MeteorologicalRoutineAirReportV0.CheckCoherency, Gen.bds.bds44.MeteorologicalRoutineAirReportV0.CheckCoherency, erase_bind, erase_pure, erase_ok, erase_say, erase_saying, erase_lift, erase_ite, erase_attempt, saysNothing_eq, erase_foldlM]

theorem erase_bds.bds44.MeteorologicalRoutineAirReportV1.CheckCoherency (message : RoutineAirReportV1) : erase (Said.bds.bds44.MeteorologicalRoutineAirReportV1.CheckCoherency message) = Gen.bds.bds44.MeteorologicalRoutineAirReportV1.CheckCoherency message := by
  simp only [Said.bds.bds44.MeteorologicalRoutineAirReportV1.CheckCoherency, Gen.bds.bds44.MeteorologicalRoutineAirReportV1.CheckCoherency, erase_bind, erase_pure, erase_ok, erase_say, erase_saying, erase_lift, erase_ite, erase_attempt, saysNothing_eq, erase_foldlM]

theorem erase_bds.bds44.MeteorologicalRoutineAirReportV2.CheckCoherency (message : RoutineAirReportV2) : erase (Said.bds.bds44.MeteorologicalRoutineAirReportV2.CheckCoherency message) = Gen.bds.bds44.MeteorologicalRoutineAirReportV2.CheckCoherency message := by
  simp only [Said.bds.bds44.MeteorologicalRoutineAirReportV2.CheckCoherency, Gen.bds.bds44.MeteorologicalRoutineAirReportV2.CheckCoherency, erase_bind, erase_pure, erase_ok, erase_say, erase_saying, erase_lift, erase_ite, erase_attempt, saysNothing_eq, erase_foldlM]

theorem erase_bds.bds45.ReadMeteorologicalHazardReportV1 (data : List UInt8) : erase (Said.bds.bds45.ReadMeteorologicalHazardReportV1 data) = Gen.bds.bds45.ReadMeteorologicalHazardReportV1 data := by
  simp only [Said.bds.bds45.ReadMeteorologicalHazardReportV1, Gen.bds.bds45.ReadMeteorologicalHazardReportV1, erase_bind, erase_pure, erase_ok, erase_say, erase_saying, erase_lift, erase_ite, erase_attempt, saysNothing_eq, erase_foldlM]

theorem erase_bds.bds45.ReadMeteorologicalHazardReportV0 (data : List UInt8) : erase (Said.bds.bds45.ReadMeteorologicalHazardReportV0 data) = Gen.bds.bds45.ReadMeteorologicalHazardReportV0 data := by
  simp only [Said.bds.bds45.ReadMeteorologicalHazardReportV0, Gen.bds.bds45.ReadMeteorologicalHazardReportV0, erase_bind, erase_pure, erase_ok, erase_say, erase_saying, erase_lift, erase_ite, erase_attempt, saysNothing_eq, erase_foldlM]

theorem erase_bds.bds45.MeteorologicalHazardReportV0.CheckCoherency (message : HazardReportV0) : erase (Said.bds.bds45.MeteorologicalHazardReportV0.CheckCoherency message) = Gen.bds.bds45.MeteorologicalHazardReportV0.CheckCoherency message := by
  simp only [Said.bds.bds45.MeteorologicalHazardReportV0.CheckCoherency, Gen.bds.bds45.MeteorologicalHazardReportV0.CheckCoherency, erase_bind, erase_pure, erase_ok, erase_say, erase_saying, erase_lift, erase_ite, erase_attempt, saysNothing_eq, erase_foldlM]

theorem erase_bds.bds45.MeteorologicalHazardReportV1.CheckCoherency (message : HazardReportV1) : erase (Said.bds.bds45.MeteorologicalHazardReportV1.CheckCoherency message) = Gen.bds.bds45.MeteorologicalHazardReportV1.CheckCoherency message := by
  simp only [Said.bds.bds45.MeteorologicalHazardReportV1.CheckCoherency, Gen.bds.bds45.MeteorologicalHazardReportV1.CheckCoherency, erase_bind, erase_pure, erase_ok, erase_say, erase_saying, erase_lift, erase_ite, erase_attempt, saysNothing_eq, erase_foldlM]

theorem erase_bds.bds50.TrackAndTurnReport.CheckCoherency (message : TrackAndTurnReport) : erase (Said.bds.bds50.TrackAndTurnReport.CheckCoherency message) = Gen.bds.bds50.TrackAndTurnReport.CheckCoherency message := by
  simp only [Said.bds.bds50.TrackAndTurnReport.CheckCoherency, Gen.bds.bds50.TrackAndTurnReport.CheckCoherency, erase_bind, erase_pure, erase_ok, erase_say, erase_saying, erase_lift, erase_ite, erase_attempt, saysNothing_eq, erase_foldlM]

theorem erase_bds.bds50.ReadTrackAndTurnReport (data : List UInt8) : erase (Said.bds.bds50.ReadTrackAndTurnReport data) = Gen.bds.bds50.ReadTrackAndTurnReport data := by
  simp only [Said.bds.bds50.ReadTrackAndTurnReport, Gen.bds.bds50.ReadTrackAndTurnReport, erase_bind, erase_pure, erase_ok, erase_say, erase_saying, erase_lift, erase_ite, erase_attempt, saysNothing_eq, erase_foldlM]

theorem erase_bds.bds60.HeadingAndTrackReport.CheckCoherency (message : HeadingAndTrackReport) : erase (Said.bds.bds60.HeadingAndTrackReport.CheckCoherency message) = Gen.bds.bds60.HeadingAndTrackReport.CheckCoherency message := by
  simp only [Said.bds.bds60.HeadingAndTrackReport.CheckCoherency, Gen.bds.bds60.HeadingAndTrackReport.CheckCoherency, erase_bind, erase_pure, erase_ok, erase_say, erase_saying, erase_lift, erase_ite, erase_attempt, saysNothing_eq, erase_foldlM]

theorem erase_bds.bds60.ReadHeadingAndSpeedReport (data : List UInt8) : erase (Said.bds.bds60.ReadHeadingAndSpeedReport data) = Gen.bds.bds60.ReadHeadingAndSpeedReport data := by
  simp only [Said.bds.bds60.ReadHeadingAndSpeedReport, Gen.bds.bds60.ReadHeadingAndSpeedReport, erase_bind, erase_pure, erase_ok, erase_say, erase_saying, erase_lift, erase_ite, erase_attempt, saysNothing_eq, erase_foldlM]

theorem erase_bds.bds44.MeteorologicalRoutineAirReport.CheckCoherency (m : RoutineAirReport) : erase (Said.bds.bds44.MeteorologicalRoutineAirReport.CheckCoherency m) = Gen.bds.bds44.MeteorologicalRoutineAirReport.CheckCoherency m := by
  cases m <;> simp only [Said.bds.bds44.MeteorologicalRoutineAirReport.CheckCoherency, Gen.bds.bds44.MeteorologicalRoutineAirReport.CheckCoherency, erase_bds.bds44.MeteorologicalRoutineAirReportV0.CheckCoherency, erase_bds.bds44.MeteorologicalRoutineAirReportV1.CheckCoherency, erase_bds.bds44.MeteorologicalRoutineAirReportV2.CheckCoherency]

theorem erase_bds.bds45.MeteorologicalHazardReport.CheckCoherency (m : HazardReport) : erase (Said.bds.bds45.MeteorologicalHazardReport.CheckCoherency m) = Gen.bds.bds45.MeteorologicalHazardReport.CheckCoherency m := by
  cases m <;> simp only [Said.bds.bds45.MeteorologicalHazardReport.CheckCoherency, Gen.bds.bds45.MeteorologicalHazardReport.CheckCoherency, erase_bds.bds45.MeteorologicalHazardReportV0.CheckCoherency, erase_bds.bds45.MeteorologicalHazardReportV1.CheckCoherency]

theorem erase_bds.Message.CheckCoherency (m : CommBMessage) : erase (Said.bds.Message.CheckCoherency m) = Gen.bds.Message.CheckCoherency m := by
  cases m <;> simp only [Said.bds.Message.CheckCoherency, Gen.bds.Message.CheckCoherency, erase_bds.bds00.NoMessageAvailable.CheckCoherency, erase_bds.bds07.Status.CheckCoherency, erase_bds.bds20.AircraftIdentification.CheckCoherency, erase_bds.bds10.DataLinkCapabilityReport.CheckCoherency, erase_bds.bds17.CommonUsageGICBCapabilityReport.CheckCoherency, erase_bds.bds30.ACASResolutionAdvisory.CheckCoherency, erase_bds.bds40.SelectedVerticalIntention.CheckCoherency, erase_bds.bds44.MeteorologicalRoutineAirReport.CheckCoherency, erase_bds.bds45.MeteorologicalHazardReport.CheckCoherency, erase_bds.bds50.TrackAndTurnReport.CheckCoherency, erase_bds.bds60.HeadingAndTrackReport.CheckCoherency]

theorem erase_modes.fields.ReadAltitude (message : MessageData) : erase (Said.modes.fields.ReadAltitude message) = Gen.modes.fields.ReadAltitude message := by
  simp only [Said.modes.fields.ReadAltitude, Gen.modes.fields.ReadAltitude, erase_bind, erase_pure, erase_ok, erase_say, erase_saying, erase_lift, erase_ite, erase_attempt, saysNothing_eq, erase_foldlM, erase_bitutils.GillhamToAltitude]

theorem erase_modes.messages.ParseDF0 (message : MessageData) : erase (Said.modes.messages.ParseDF0 message) = Gen.modes.messages.ParseDF0 message := by
  simp only [Said.modes.messages.ParseDF0, Gen.modes.messages.ParseDF0, erase_bind, erase_pure, erase_ok, erase_say, erase_saying, erase_lift, erase_ite, erase_attempt, saysNothing_eq, erase_foldlM, erase_modes.fields.ReadAltitude]

theorem erase_modes.messages.ParseDF11 (message : MessageData) : erase (Said.modes.messages.ParseDF11 message) = Gen.modes.messages.ParseDF11 message := by
  simp only [Said.modes.messages.ParseDF11, Gen.modes.messages.ParseDF11, erase_bind, erase_pure, erase_ok, erase_say, erase_saying, erase_lift, erase_ite, erase_attempt, saysNothing_eq, erase_foldlM]

theorem erase_modes.messages.ParseDF16 (message : MessageData) : erase (Said.modes.messages.ParseDF16 message) = Gen.modes.messages.ParseDF16 message := by
  simp only [Said.modes.messages.ParseDF16, Gen.modes.messages.ParseDF16, erase_bind, erase_pure, erase_ok, erase_say, erase_saying, erase_lift, erase_ite, erase_attempt, saysNothing_eq, erase_foldlM, erase_modes.fields.ReadAltitude]

theorem erase_modes.messages.ParseDF17 (message : MessageData) : erase (Said.modes.messages.ParseDF17 message) = Gen.modes.messages.ParseDF17 message := by
  simp only [Said.modes.messages.ParseDF17, Gen.modes.messages.ParseDF17, erase_bind, erase_pure, erase_ok, erase_say, erase_saying, erase_lift, erase_ite, erase_attempt, saysNothing_eq, erase_foldlM]

theorem erase_modes.messages.ParseDF18 (message : MessageData) : erase (Said.modes.messages.ParseDF18 message) = Gen.modes.messages.ParseDF18 message := by
  simp only [Said.modes.messages.ParseDF18, Gen.modes.messages.ParseDF18, erase_bind, erase_pure, erase_ok, erase_say, erase_saying, erase_lift, erase_ite, erase_attempt, saysNothing_eq, erase_foldlM]

theorem erase_modes.messages.ParseDF19 (message : MessageData) : erase (Said.modes.messages.ParseDF19 message) = Gen.modes.messages.ParseDF19 message := by
  simp only [Said.modes.messages.ParseDF19, Gen.modes.messages.ParseDF19, erase_bind, erase_pure, erase_ok, erase_say, erase_saying, erase_lift, erase_ite, erase_attempt, saysNothing_eq, erase_foldlM]

theorem erase_modes.messages.ParseDF20 (message : MessageData) : erase (Said.modes.messages.ParseDF20 message) = Gen.modes.messages.ParseDF20 message := by
  simp only [Said.modes.messages.ParseDF20, Gen.modes.messages.ParseDF20, erase_bind, erase_pure, erase_ok, erase_say, erase_saying, erase_lift, erase_ite, erase_attempt, saysNothing_eq, erase_foldlM, erase_modes.fields.ReadAltitude]

theorem erase_modes.messages.ParseDF21 (message : MessageData) : erase (Said.modes.messages.ParseDF21 message) = Gen.modes.messages.ParseDF21 message := by
  simp only [Said.modes.messages.ParseDF21, Gen.modes.messages.ParseDF21, erase_bind, erase_pure, erase_ok, erase_say, erase_saying, erase_lift, erase_ite, erase_attempt, saysNothing_eq, erase_foldlM]

theorem erase_modes.messages.ParseDF24 (message : MessageData) : erase (Said.modes.messages.ParseDF24 message) = Gen.modes.messages.ParseDF24 message := by
  simp only [Said.modes.messages.ParseDF24, Gen.modes.messages.ParseDF24, erase_bind, erase_pure, erase_ok, erase_say, erase_saying, erase_lift, erase_ite, erase_attempt, saysNothing_eq, erase_foldlM]

theorem erase_modes.messages.ParseDF4 (message : MessageData) : erase (Said.modes.messages.ParseDF4 message) = Gen.modes.messages.ParseDF4 message := by
  simp only [Said.modes.messages.ParseDF4, Gen.modes.messages.ParseDF4, erase_bind, erase_pure, erase_ok, erase_say, erase_saying, erase_lift, erase_ite, erase_attempt, saysNothing_eq, erase_foldlM, erase_modes.fields.ReadAltitude]

theorem erase_modes.messages.ParseDF5 (message : MessageData) : erase (Said.modes.messages.ParseDF5 message) = Gen.modes.messages.ParseDF5 message := by
  simp only [Said.modes.messages.ParseDF5, Gen.modes.messages.ParseDF5, erase_bind, erase_pure, erase_ok, erase_say, erase_saying, erase_lift, erase_ite, erase_attempt, saysNothing_eq, erase_foldlM]

theorem erase_modes.reader.checkCRCDF11 (data : List UInt8) (allowedInterrogatorIdentifiers : AllowList) : erase (Said.modes.reader.checkCRCDF11 data allowedInterrogatorIdentifiers) = Gen.modes.reader.checkCRCDF11 data allowedInterrogatorIdentifiers := by
  simp only [Said.modes.reader.checkCRCDF11, Gen.modes.reader.checkCRCDF11, erase_bind, erase_pure, erase_ok, erase_say, erase_saying, erase_lift, erase_ite, erase_attempt, saysNothing_eq, erase_foldlM]

theorem erase_modes.reader.checkCRCDF17And18 (data : List UInt8) : erase (Said.modes.reader.checkCRCDF17And18 data) = Gen.modes.reader.checkCRCDF17And18 data := by
  simp only [Said.modes.reader.checkCRCDF17And18, Gen.modes.reader.checkCRCDF17And18, erase_bind, erase_pure, erase_ok, erase_say, erase_saying, erase_lift, erase_ite, erase_attempt, saysNothing_eq, erase_foldlM]

theorem erase_modes.reader.checkCRCOther (data : List UInt8) (allowedAddresses : AllowList) : erase (Said.modes.reader.checkCRCOther data allowedAddresses) = Gen.modes.reader.checkCRCOther data allowedAddresses := by
  simp only [Said.modes.reader.checkCRCOther, Gen.modes.reader.checkCRCOther, erase_bind, erase_pure, erase_ok, erase_say, erase_saying, erase_lift, erase_ite, erase_attempt, saysNothing_eq, erase_foldlM]

theorem erase_modes.reader.CheckCRC (message : ModeSMessage) (data : List UInt8) (allowedAddresses : AllowList) (allowedInterrogatorIdentifiers : AllowList) : erase (Said.modes.reader.CheckCRC message data allowedAddresses allowedInterrogatorIdentifiers) = Gen.modes.reader.CheckCRC message data allowedAddresses allowedInterrogatorIdentifiers := by
  simp only [Said.modes.reader.CheckCRC, Gen.modes.reader.CheckCRC, erase_bind, erase_pure, erase_ok, erase_say, erase_saying, erase_lift, erase_ite, erase_attempt, saysNothing_eq, erase_foldlM, erase_modes.reader.checkCRCDF11, erase_modes.reader.checkCRCDF17And18, erase_modes.reader.checkCRCOther]

theorem erase_modes.reader.ReadMessage (message : List UInt8) : erase (Said.modes.reader.ReadMessage message) = Gen.modes.reader.ReadMessage message := by
  simp only [Said.modes.reader.ReadMessage, Gen.modes.reader.ReadMessage, erase_bind, erase_pure, erase_ok, erase_say, erase_saying, erase_lift, erase_ite, erase_attempt, saysNothing_eq, erase_foldlM, erase_modes.messages.ParseDF0, erase_modes.messages.ParseDF4, erase_modes.messages.ParseDF5, erase_modes.messages.ParseDF11, erase_modes.messages.ParseDF16, erase_modes.messages.ParseDF17, erase_modes.messages.ParseDF18, erase_modes.messages.ParseDF19, erase_modes.messages.ParseDF20, erase_modes.messages.ParseDF21, erase_modes.messages.ParseDF24]

end Modes
