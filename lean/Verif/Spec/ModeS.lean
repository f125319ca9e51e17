import Verif.Spec.Altitude
import Verif.Model.ModeS
/-!
# Meaning of altitude codes (specification)

Only the *names* of the report methods come from the model; the rules are those of Annex 10.
-/
open Modes
namespace Spec

/-- What a 13-bit altitude code means, in terms of the standard's coding rules. -/
def AltitudeMeaning (c : Nat) (method : AltitudeReportMethod) (a : Int) : Prop :=
  match method with
  | .notAvailable => c = 0 ∧ a = 0
  | .metricUnits => mBit c = true ∧ a = 0
  | .feet25 => mBit c = false ∧ qBit c = true ∧ a = 25 * (n25AC13 c : Int) - 1000
  | .feet100 => mBit c = false ∧ qBit c = false ∧ 
      ∃ k : Nat, k < 1280 ∧ pulsesAC13 c = modeC k ∧ a = 100 * (k : Int) - 1200

/-- A 13-bit altitude code no rule gives a meaning to. -/
def AltitudeIllegal (c : Nat) : Prop :=
  c ≠ 0 ∧ mBit c = false ∧ qBit c = false ∧
    (c.testBit 12, c.testBit 10, c.testBit 8) ∈ [(false, false, false), (true, true, true), (true, false, true)]

instance (c : Nat) : Decidable (AltitudeIllegal c) := by unfold AltitudeIllegal; infer_instance

/-- Downlink formats sent as 56-bit frames. -/
def shortFormats : List Nat := [0, 4, 5, 11]
/-- Downlink formats sent as 112-bit frames. -/
def longFormats : List Nat := [16, 17, 18, 19, 20, 21, 24, 25, 26, 27, 28, 29, 30, 31]
/-- Downlink formats that carry an altitude code in bits 20-32. -/
def altitudeFormats : List Nat := [0, 4, 16, 20]

end Spec
