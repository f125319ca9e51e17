import Verif.Props.TranslationCommB
import Verif.Props.TranslationGeo
import Verif.Props.ACAS
import Verif.Props.Accessors
import Verif.Props.Alias
import Verif.Props.Altitude
import Verif.Props.BDS05
import Verif.Props.BDS06
import Verif.Props.BDS09
import Verif.Props.BDS40
import Verif.Props.BDS44
import Verif.Props.BDS45
import Verif.Props.BDS5060
import Verif.Props.BDS61
import Verif.Props.BDS65
import Verif.Props.CRC
import Verif.Props.CRCLimits
import Verif.Props.CRCReasons
import Verif.Props.CommB
import Verif.Props.CommBRegisters
import Verif.Props.CommBSmall
import Verif.Props.Concurrent
import Verif.Props.Direct
import Verif.Props.EndToEnd
import Verif.Props.EndToEndACAS
import Verif.Props.EndToEndCommB
import Verif.Props.EndToEndOperational
import Verif.Props.EndToEndSurveillance
import Verif.Props.EndToEndVelocity
import Verif.Props.Errors
import Verif.Props.Fields
import Verif.Props.Frame
import Verif.Props.GeoFloat
import Verif.Props.GeoFloatLocal
import Verif.Props.GeoFloatNL
import Verif.Props.GeoFloatSurface
import Verif.Props.Ident
import Verif.Props.Program
import Verif.Props.ProgramReplies
import Verif.Props.ReaderReasons
import Verif.Props.Reasons
import Verif.Props.TextModeS
import Verif.Props.Velocity
/-!
# The theorems, of the translated code

Written by `tools/gen_code.py`: each theorem is the theorem of the same name (without `code_`) with the functions of the hand-written
model replaced by those that `tools/go2lean` translated from the text of /repo.
-/
set_option linter.unusedSimpArgs false
set_option linter.unusedVariables false
namespace Modes
open Spec Polynomial Text Geo

/-- `readMessage_noPanic` (C01), of the translated code. -/
theorem code_readMessage_noPanic :
    ∀ (f : List UInt8),
    NoPanic (Gen.modes.reader.ReadMessage f) := by
  simp only [same_ReadMessage]; exact @readMessage_noPanic

/-- `readMessage_accepts_iff` (C02), of the translated code. -/
theorem code_readMessage_accepts_iff :
    ∀ (f : List UInt8),
    Succeeds (Gen.modes.reader.ReadMessage f) ↔
      ((f.length = 7 ∧ bits f 1 5 ∈ shortFormats) ∨ (f.length = 14 ∧ bits f 1 5 ∈ longFormats)) ∧
      (bits f 1 5 ∈ altitudeFormats → ¬ AltitudeIllegal (bits f 20 32)) := by
  simp only [same_ReadMessage]; exact @readMessage_accepts_iff

/-- `readMessage_type` (C03), of the translated code. -/
theorem code_readMessage_type :
    ∀ (f : List UInt8) (msg : ModeSMessage) (h : Gen.modes.reader.ReadMessage f = .ok msg),
    msg.getDownLinkFormat = (if 24 ≤ bits f 1 5 then 24 else bits f 1 5) := by
  simp only [same_ReadMessage]; exact @readMessage_type

/-- `df0_fields` (C04), of the translated code. -/
theorem code_df0_fields :
    ∀ (f : List UInt8) (m : MessageDF0) (h : Gen.modes.reader.ReadMessage f = .ok (.df0 m)),
    f.length = 7 ∧
    bits f 1 5 = 0 ∧
    m.verticalStatus.toNat = bits f 6 6 ∧
    m.crossLinkCapability.toNat = bits f 7 7 ∧
    m.sensitivityLevel.toNat = bits f 9 11 ∧
    m.replyInformation.toNat = bits f 14 17 ∧
    AltitudeMeaning (bits f 20 32) m.altitudeReportMethod m.altitude ∧
    beNat m.data.parity = bits f 33 56 := by
  simp only [same_ReadMessage]; exact @df0_fields

/-- `df4_fields` (C04), of the translated code. -/
theorem code_df4_fields :
    ∀ (f : List UInt8) (m : MessageDF4) (h : Gen.modes.reader.ReadMessage f = .ok (.df4 m)),
    f.length = 7 ∧
    bits f 1 5 = 4 ∧
    m.flightStatus.toNat = bits f 6 8 ∧
    m.downlinkRequest.toNat = bits f 9 13 ∧
    m.utilityMessage.interrogatorIdentifier.toNat = bits f 14 17 ∧
    m.utilityMessage.identifierDesignator.toNat = bits f 18 19 ∧
    AltitudeMeaning (bits f 20 32) m.altitudeReportMethod m.altitude ∧
    beNat m.data.parity = bits f 33 56 := by
  simp only [same_ReadMessage]; exact @df4_fields

/-- `df5_fields` (C04), of the translated code. -/
theorem code_df5_fields :
    ∀ (f : List UInt8) (m : MessageDF5) (h : Gen.modes.reader.ReadMessage f = .ok (.df5 m)),
    f.length = 7 ∧
    bits f 1 5 = 5 ∧
    m.flightStatus.toNat = bits f 6 8 ∧
    m.downlinkRequest.toNat = bits f 9 13 ∧
    m.utilityMessage.interrogatorIdentifier.toNat = bits f 14 17 ∧
    m.utilityMessage.identifierDesignator.toNat = bits f 18 19 ∧
    m.identity = digitsText (squawk (bits f 20 32)) ∧
    beNat m.data.parity = bits f 33 56 := by
  simp only [same_ReadMessage]; exact @df5_fields

/-- `df11_fields` (C04), of the translated code. -/
theorem code_df11_fields :
    ∀ (f : List UInt8) (m : MessageDF11) (h : Gen.modes.reader.ReadMessage f = .ok (.df11 m)),
    f.length = 7 ∧
    bits f 1 5 = 11 ∧
    m.capability.toNat = bits f 6 8 ∧
    m.addressAnnounced.toNat = bits f 9 32 ∧
    beNat m.data.parity = bits f 33 56 := by
  simp only [same_ReadMessage]; exact @df11_fields

/-- `df16_fields` (C05), of the translated code. -/
theorem code_df16_fields :
    ∀ (f : List UInt8) (m : MessageDF16) (h : Gen.modes.reader.ReadMessage f = .ok (.df16 m)),
    f.length = 14 ∧
    bits f 1 5 = 16 ∧
    m.verticalStatus.toNat = bits f 6 6 ∧
    m.sensitivityLevel.toNat = bits f 9 11 ∧
    m.replyInformation.toNat = bits f 14 17 ∧
    m.messageACAS = (f.drop 4).take 7 ∧
    AltitudeMeaning (bits f 20 32) m.altitudeReportMethod m.altitude ∧
    beNat m.data.parity = bits f 89 112 := by
  simp only [same_ReadMessage]; exact @df16_fields

/-- `df17_fields` (C05), of the translated code. -/
theorem code_df17_fields :
    ∀ (f : List UInt8) (m : MessageDF17) (h : Gen.modes.reader.ReadMessage f = .ok (.df17 m)),
    f.length = 14 ∧
    bits f 1 5 = 17 ∧
    m.capability.toNat = bits f 6 8 ∧
    m.addressAnnounced.toNat = bits f 9 32 ∧
    m.messageExtendedSquitter = (f.drop 4).take 7 ∧
    beNat m.data.parity = bits f 89 112 := by
  simp only [same_ReadMessage]; exact @df17_fields

/-- `df18_fields` (C05), of the translated code. -/
theorem code_df18_fields :
    ∀ (f : List UInt8) (m : MessageDF18) (h : Gen.modes.reader.ReadMessage f = .ok (.df18 m)),
    f.length = 14 ∧
    bits f 1 5 = 18 ∧
    m.controlField.toNat = bits f 6 8 ∧
    m.addressAnnounced.toNat = bits f 9 32 ∧
    m.messageExtendedSquitter = (f.drop 4).take 7 ∧
    beNat m.data.parity = bits f 89 112 := by
  simp only [same_ReadMessage]; exact @df18_fields

/-- `df19_fields` (C05), of the translated code. -/
theorem code_df19_fields :
    ∀ (f : List UInt8) (m : MessageDF19) (h : Gen.modes.reader.ReadMessage f = .ok (.df19 m)),
    f.length = 14 ∧
    bits f 1 5 = 19 ∧
    m.applicationField.toNat = bits f 6 8 ∧
    beNat m.data.parity = bits f 89 112 := by
  simp only [same_ReadMessage]; exact @df19_fields

/-- `df20_fields` (C05), of the translated code. -/
theorem code_df20_fields :
    ∀ (f : List UInt8) (m : MessageDF20) (h : Gen.modes.reader.ReadMessage f = .ok (.df20 m)),
    f.length = 14 ∧
    bits f 1 5 = 20 ∧
    m.flightStatus.toNat = bits f 6 8 ∧
    m.downlinkRequest.toNat = bits f 9 13 ∧
    m.utilityMessage.interrogatorIdentifier.toNat = bits f 14 17 ∧
    m.utilityMessage.identifierDesignator.toNat = bits f 18 19 ∧
    m.messageCommB = (f.drop 4).take 7 ∧
    AltitudeMeaning (bits f 20 32) m.altitudeReportMethod m.altitude ∧
    beNat m.data.parity = bits f 89 112 := by
  simp only [same_ReadMessage]; exact @df20_fields

/-- `df21_fields` (C05), of the translated code. -/
theorem code_df21_fields :
    ∀ (f : List UInt8) (m : MessageDF21) (h : Gen.modes.reader.ReadMessage f = .ok (.df21 m)),
    f.length = 14 ∧
    bits f 1 5 = 21 ∧
    m.flightStatus.toNat = bits f 6 8 ∧
    m.downlinkRequest.toNat = bits f 9 13 ∧
    m.utilityMessage.interrogatorIdentifier.toNat = bits f 14 17 ∧
    m.utilityMessage.identifierDesignator.toNat = bits f 18 19 ∧
    m.messageCommB = (f.drop 4).take 7 ∧
    m.identity = digitsText (squawk (bits f 20 32)) ∧
    beNat m.data.parity = bits f 89 112 := by
  simp only [same_ReadMessage]; exact @df21_fields

/-- `df24_fields` (C05), of the translated code. -/
theorem code_df24_fields :
    ∀ (f : List UInt8) (m : MessageDF24) (h : Gen.modes.reader.ReadMessage f = .ok (.df24 m)),
    f.length = 14 ∧
    24 ≤ bits f 1 5 ∧
    m.controlELM.toNat = bits f 4 4 ∧
    m.numberOfDSegment.toNat = bits f 5 8 ∧
    m.messageCommD = (f.drop 1).take 10 ∧
    beNat m.data.parity = bits f 89 112 := by
  simp only [same_ReadMessage]; exact @df24_fields

/-- `roundtrip_df11` (C06), of the translated code. -/
theorem code_roundtrip_df11 :
    ∀ (ca aa p : Nat) (hca : ca < 8) (haa : aa < 2 ^ 24) (hp : p < 2 ^ 24),
    ∃ m, Gen.modes.reader.ReadMessage (toBytes 7 (11 * 2 ^ 51 + ca * 2 ^ 48 + aa * 2 ^ 24 + p)) = .ok (.df11 m) ∧
      m.capability.toNat = ca ∧ m.addressAnnounced.toNat = aa ∧ beNat m.data.parity = p := by
  simp only [same_ReadMessage]; exact @roundtrip_df11

/-- `roundtrip_df17` (C06), of the translated code. -/
theorem code_roundtrip_df17 :
    ∀ (ca aa p : Nat) (me : List UInt8) (hca : ca < 8) (haa : aa < 2 ^ 24) (hp : p < 2 ^ 24)
    (hme : me.length = 7),
    ∃ m, Gen.modes.reader.ReadMessage (toBytes 4 (17 * 2 ^ 27 + ca * 2 ^ 24 + aa) ++ me ++ toBytes 3 p) = .ok (.df17 m) ∧
      m.capability.toNat = ca ∧ m.addressAnnounced.toNat = aa ∧ m.messageExtendedSquitter = me ∧
      beNat m.data.parity = p := by
  simp only [same_ReadMessage]; exact @roundtrip_df17

/-- `roundtrip_df4` (C06), of the translated code. -/
theorem code_roundtrip_df4 :
    ∀ (fs dr iis ids ac p : Nat) (hfs : fs < 8) (hdr : dr < 32) (hii : iis < 16) (hid : ids < 4)
    (hac : ac < 8192) (hp : p < 2 ^ 24) (hok : ¬ AltitudeIllegal ac),
    ∃ m, Gen.modes.reader.ReadMessage (toBytes 7 (4 * 2 ^ 51 + fs * 2 ^ 48 + dr * 2 ^ 43 + iis * 2 ^ 39 + ids * 2 ^ 37 + ac * 2 ^ 24 + p))
        = .ok (.df4 m) ∧
      m.flightStatus.toNat = fs ∧ m.downlinkRequest.toNat = dr ∧
      m.utilityMessage.interrogatorIdentifier.toNat = iis ∧ m.utilityMessage.identifierDesignator.toNat = ids ∧
      AltitudeMeaning ac m.altitudeReportMethod m.altitude ∧ beNat m.data.parity = p := by
  simp only [same_ReadMessage]; exact @roundtrip_df4

/-- `roundtrip_df4_altitude25` (C06), of the translated code. -/
theorem code_roundtrip_df4_altitude25 :
    ∀ (fs dr iis ids n p : Nat) (hfs : fs < 8) (hdr : dr < 32) (hii : iis < 16) (hid : ids < 4)
    (hn : n < 2048) (hp : p < 2 ^ 24),
    ∃ m, Gen.modes.reader.ReadMessage (toBytes 7 (4 * 2 ^ 51 + fs * 2 ^ 48 + dr * 2 ^ 43 + iis * 2 ^ 39 + ids * 2 ^ 37
        + encode25 n * 2 ^ 24 + p)) = .ok (.df4 m) ∧
      m.altitudeReportMethod = .feet25 ∧ m.altitude = 25 * (n : Int) - 1000 := by
  simp only [same_ReadMessage]; exact @roundtrip_df4_altitude25

/-- `roundtrip_df5` (C06), of the translated code. -/
theorem code_roundtrip_df5 :
    ∀ (fs dr iis ids a b c d p : Nat) (hfs : fs < 8) (hdr : dr < 32) (hii : iis < 16) (hid : ids < 4)
    (ha : a < 8) (hb : b < 8) (hc : c < 8) (hd : d < 8) (hp : p < 2 ^ 24),
    ∃ m, Gen.modes.reader.ReadMessage (toBytes 7 (5 * 2 ^ 51 + fs * 2 ^ 48 + dr * 2 ^ 43 + iis * 2 ^ 39 + ids * 2 ^ 37
        + squawkCode a b c d * 2 ^ 24 + p)) = .ok (.df5 m) ∧
      m.flightStatus.toNat = fs ∧ m.downlinkRequest.toNat = dr ∧
      m.utilityMessage.interrogatorIdentifier.toNat = iis ∧ m.utilityMessage.identifierDesignator.toNat = ids ∧
      m.identity = digitsText [a, b, c, d] ∧ beNat m.data.parity = p := by
  simp only [same_ReadMessage]; exact @roundtrip_df5

/-- `frame_altitude` (C10), of the translated code. -/
theorem code_frame_altitude :
    ∀ (f : List UInt8) (msg : ModeSMessage) (h : Gen.modes.reader.ReadMessage f = .ok msg)
    (method : AltitudeReportMethod) (a : Int) (ha : msg.altitudeReport = some (method, a)),
    AltitudeMeaning (bits f 20 32) method a ∧ -1200 ≤ a ∧ a ≤ 126700 := by
  simp only [same_ReadMessage]; exact @frame_altitude

/-- `frame_altitude_formats` (C10), of the translated code. -/
theorem code_frame_altitude_formats :
    ∀ (f : List UInt8) (msg : ModeSMessage) (h : Gen.modes.reader.ReadMessage f = .ok msg),
    msg.altitudeReport.isSome = true ↔ bits f 1 5 ∈ altitudeFormats := by
  simp only [same_ReadMessage]; exact @frame_altitude_formats

/-- `frame_identity` (C11), of the translated code. -/
theorem code_frame_identity :
    ∀ (f : List UInt8) (msg : ModeSMessage) (h : Gen.modes.reader.ReadMessage f = .ok msg) (i : List Char)
    (hi : msg.identityReport = some i),
    i = digitsText (squawk (bits f 20 32)) := by
  simp only [same_ReadMessage]; exact @frame_identity

/-- `frame_identity_injective` (C11), of the translated code. -/
theorem code_frame_identity_injective :
    ∀ (f g : List UInt8) (m m' : ModeSMessage) (hf : Gen.modes.reader.ReadMessage f = .ok m)
    (hg : Gen.modes.reader.ReadMessage g = .ok m') (i : List Char) (h1 : m.identityReport = some i) (h2 : m'.identityReport = some i),
    bits f 20 32 / 128 = bits g 20 32 / 128 ∧ bits f 20 32 % 64 = bits g 20 32 % 64 := by
  simp only [same_ReadMessage]; exact @frame_identity_injective

/-- `frame_identity_special` (C11), of the translated code. -/
theorem code_frame_identity_special :
    ∀ (f : List UInt8) (msg : ModeSMessage) (h : Gen.modes.reader.ReadMessage f = .ok msg) (i : List Char)
    (hi : msg.identityReport = some i),
    (isSpecialEmergency i = true ↔ squawk (bits f 20 32) = [7, 7, 0, 0]) ∧
    (isSpecialRadiocommunicationFailure i = true ↔ squawk (bits f 20 32) = [7, 6, 0, 0]) ∧
    (isSpecialUnlawfulInterference i = true ↔ squawk (bits f 20 32) = [7, 5, 0, 0]) ∧
    (isSpecialInstructionNotReceived i = true ↔ squawk (bits f 20 32) = [2, 0, 0, 0]) := by
  simp only [same_ReadMessage]; exact @frame_identity_special

/-- `readMessage_isolation` (C12), of the translated code. -/
theorem code_readMessage_isolation :
    ∀ (h : Heap) (s : Slice) (hs : s.Valid h),
    (∀ e, readMessageH h s = .error e ↔ Gen.modes.reader.ReadMessage (h.view s) = .error e) ∧
    ∀ h1 m ms, readMessageH h s = .ok (h1, m, ms) →
      Gen.modes.reader.ReadMessage (h.view s) = .ok m ∧ h1.view s = h.view s ∧
      ∀ ws h2, (∀ w ∈ ws, w.slice.arr = s.arr) → h1.writes ws = .ok h2 →
        m.byteField = ms.field.map h2.view ∧
        h2.view ms.payload = ((h2.view s).take (s.len - 3)).drop 1 ∧
        h2.view ms.parity = (h2.view s).drop (s.len - 3) := by
  simp only [same_ReadMessage]; exact @readMessage_isolation

/-- `computeParity_is_crc` (C13), of the translated code. -/
theorem code_computeParity_is_crc :
    ∀ (d : List UInt8) (h3 : 3 ≤ d.length),
    ∃ c : UInt32, Gen.modes.reader.computeParity d = .ok c ∧ c.toNat < 2 ^ 24 ∧ polyOf c.toNat = (messagePoly d * X ^ 24) %ₘ generator := by
  simp only [same_computeParity]; exact @computeParity_is_crc

/-- `checkCRC_squitter` (C14), of the translated code. -/
theorem code_checkCRC_squitter :
    ∀ (f : List UInt8) (m : ModeSMessage) (h : Gen.modes.reader.ReadMessage f = .ok m)
    (hdf : bits f 1 5 = 17 ∨ bits f 1 5 = 18) (al il : AllowList),
    NoPanic (Gen.modes.reader.CheckCRC m f al il) ∧
    (∀ a, Gen.modes.reader.CheckCRC m f al il = .ok a ↔ (generator ∣ messagePoly f ∧ a.toNat = bits f 9 32)) ∧
    (generator ∣ messagePoly f ↔ parityPoly (f.take 11) = messagePoly (f.drop 11)) := by
  simp only [same_ReadMessage, same_CheckCRC]; exact @checkCRC_squitter

/-- `squitter_corruption_detected` (C15), of the translated code. -/
theorem code_squitter_corruption_detected :
    ∀ (f g : List UInt8) (a : UInt32) (hf : bits f 1 5 = 17 ∨ bits f 1 5 = 18)
    (pf : Passes f a) (hlen : g.length = f.length) (hdf : bits g 1 5 = bits f 1 5) (hne : f ≠ g)
    (hc : (∃ p, AgreeOutside f g p) ∨ hamming f g ≤ 5) (al il : AllowList),
    ∃ m, Gen.modes.reader.ReadMessage g = .ok m ∧ Gen.modes.reader.CheckCRC m g al il = .error .err := by
  simp only [same_ReadMessage, same_CheckCRC]; exact @squitter_corruption_detected

/-- `checkCRC_recovers` (C16), of the translated code. -/
theorem code_checkCRC_recovers :
    ∀ (f : List UInt8) (m : ModeSMessage) (h : Gen.modes.reader.ReadMessage f = .ok m)
    (hdf : bits f 1 5 ≠ 17 ∧ bits f 1 5 ≠ 18) (a : Nat) (ha : Overlaid f a),
    Gen.modes.reader.CheckCRC m f [] [] = .ok (UInt32.ofNat a) := by
  simp only [same_ReadMessage, same_CheckCRC]; exact @checkCRC_recovers

/-- `checkCRC_overlaid` (C16), of the translated code. -/
theorem code_checkCRC_overlaid :
    ∀ (f : List UInt8) (m : ModeSMessage) (h : Gen.modes.reader.ReadMessage f = .ok m)
    (hdf : bits f 1 5 ≠ 11 ∧ bits f 1 5 ≠ 17 ∧ bits f 1 5 ≠ 18) (al il : AllowList),
    NoPanic (Gen.modes.reader.CheckCRC m f al il) ∧
    ∀ a, Gen.modes.reader.CheckCRC m f al il = .ok a ↔ (Overlaid f a.toNat ∧ Allowed al a) := by
  simp only [same_ReadMessage, same_CheckCRC]; exact @checkCRC_overlaid

/-- `checkCRC_df11` (C16), of the translated code. -/
theorem code_checkCRC_df11 :
    ∀ (f : List UInt8) (m : ModeSMessage) (h : Gen.modes.reader.ReadMessage f = .ok m) (hdf : bits f 1 5 = 11)
    (al il : AllowList),
    NoPanic (Gen.modes.reader.CheckCRC m f al il) ∧
    ∀ a, Gen.modes.reader.CheckCRC m f al il = .ok a ↔ (Overlaid f a.toNat ∧ Allowed il a) := by
  simp only [same_ReadMessage, same_CheckCRC]; exact @checkCRC_df11

/-- `checkCRC_noPanic` (C18), of the translated code. -/
theorem code_checkCRC_noPanic :
    ∀ (f : List UInt8) (m : ModeSMessage) (h : Gen.modes.reader.ReadMessage f = .ok m) (al il : AllowList),
    NoPanic (Gen.modes.reader.CheckCRC m f al il) := by
  simp only [same_ReadMessage, same_CheckCRC]; exact @checkCRC_noPanic

/-- `computeParity_linear` (C19), of the translated code. -/
theorem code_computeParity_linear :
    ∀ (d e : List UInt8) (h3 : 3 ≤ d.length) (h : d.length = e.length) (p q : UInt32)
    (hp : Gen.modes.reader.computeParity d = .ok p) (hq : Gen.modes.reader.computeParity e = .ok q),
    Gen.modes.reader.computeParity (xorBytes d e) = .ok (p ^^^ q) := by
  simp only [same_computeParity]; exact @computeParity_linear

/-- `ra_noPanic` (C20), of the translated code. -/
theorem code_ra_noPanic :
    ∀ (d : List UInt8),
    NoPanic (Gen.acas.ra.ReadResolutionAdvisory d) := by
  simp only [translated]; exact @ra_noPanic

/-- `ra_accepts` (C20), of the translated code. -/
theorem code_ra_accepts :
    ∀ (d : List UInt8),
    (d.length ≠ 6 → Gen.acas.ra.ReadResolutionAdvisory d = .error .err) ∧
    (d.length = 6 → bits d 21 22 ≠ 2 → Succeeds (Gen.acas.ra.ReadResolutionAdvisory d)) := by
  simp only [translated]; exact @ra_accepts

/-- `ra_fails_iff_partial` (C20), of the translated code. -/
theorem code_ra_fails_iff_partial :
    ∀ (d : List UInt8) (h0 : bits d 21 22 = 2 → bits d 23 24 = 0),
    Gen.acas.ra.ReadResolutionAdvisory d = .error .err ↔ d.length ≠ 6 ∨ (bits d 21 22 = 2 ∧ TIDIllegal (bits d 23 35)) := by
  simp only [translated]; exact @ra_fails_iff_partial

/-- `threat_altitude_refuted` (C20), of the translated code. -/
theorem code_threat_altitude_refuted :
    (∃ d : List UInt8, d.length = 6 ∧ bits d 21 22 = 2 ∧ ¬ TIDIllegal (bits d 23 35) ∧
      Gen.acas.ra.ReadResolutionAdvisory d = .error .err) ∧
    ∃ d : List UInt8, d.length = 6 ∧ bits d 21 22 = 2 ∧ ¬ ThreatAltitudeRight d := by
  simp only [translated]; exact @threat_altitude_refuted

/-- `ra_refused_iff` (C20), of the translated code. -/
theorem code_ra_refused_iff :
    ∀ (e : List UInt8) (h6 : e.length = 6),
    (Gen.acas.ra.ReadResolutionAdvisory e = .error .err ↔
      bits e 21 22 = 2 ∧ threatSum e ≠ 0 ∧ threatSum e / 512 % 2 = 0 ∧ threatSum e / 128 % 2 = 0) ∧
    (Succeeds (Gen.acas.ra.ReadResolutionAdvisory e) ↔
      (bits e 21 22 = 2 → threatSum e ≠ 0 → threatSum e / 512 % 2 = 1 ∨ threatSum e / 128 % 2 = 1)) := by
  simp only [translated]; exact @ra_refused_iff

/-- `ra_content` (C21), of the translated code. -/
theorem code_ra_content :
    ∀ (d : List UInt8) (m : ResolutionAdvisory) (h : Gen.acas.ra.ReadResolutionAdvisory d = .ok m),
    (bit d 1 = true → m.activeRA = .oneThreat
      { preventiveCorrective := bits d 2 2, sense := bits d 3 3, isIncreasedRate := bit d 4, isSenseReversal := bit d 5,
        isAltitudeCrossing := bit d 6, verticalSpeedLimitOrPositive := bits d 7 7 }) ∧
    (bit d 1 = false → bit d 20 = true → m.activeRA = .multiple
      { requiresCorrectionUpwardSense := bit d 2, requiresPositiveClimb := bit d 3,
        requiresCorrectionDownwardSense := bit d 4, requiresPositiveDescend := bit d 5, requiresCrossing := bit d 6,
        isSenseReversal := bit d 7 }) ∧
    (bit d 1 = false → bit d 20 = false → m.activeRA = .none) ∧
    m.raComplement = { doNotPassBelow := bit d 15, doNotPassAbove := bit d 16, doNotTurnLeft := bit d 17,
                       doNotTurnRight := bit d 18 } ∧
    m.raTerminatedIndicator = bits d 19 19 ∧
    m.multipleThreatEncounter = UInt8.ofNat (bits d 20 20) ∧
    m.threatTypeIndicator = bits d 21 22 := by
  simp only [translated]; exact @ra_content

/-- `ra_threat_identity` (C22), of the translated code. -/
theorem code_ra_threat_identity :
    ∀ (d : List UInt8) (m : ResolutionAdvisory) (h : Gen.acas.ra.ReadResolutionAdvisory d = .ok m),
    (∀ a, m.threatIdentityAddress = some a ↔ (m.threatTypeIndicator = 1 ∧ a.toNat = bits d 23 46)) ∧
    (m.threatIdentityAltitude.isSome ↔ m.threatTypeIndicator = 2) ∧
    (m.threatIdentityRange.isSome ↔ m.threatTypeIndicator = 2) ∧
    (m.threatIdentityBearing.isSome ↔ m.threatTypeIndicator = 2) ∧
    m.threatTypeIndicator = bits d 21 22 := by
  simp only [translated]; exact @ra_threat_identity

/-- `threat_altitude_exact` (C23), of the translated code. -/
theorem code_threat_altitude_exact :
    ∀ (d : List UInt8) (h6 : d.length = 6) (htti : bits d 21 22 = 2) (k : Nat) (hk : k < 2560)
    (hp : pulsesTID (bits d 23 35) = modeC k),
    (∃ m, Gen.acas.ra.ReadResolutionAdvisory d = .ok m ∧ m.threatIdentityAltitude = some ⟨1, 100 * (k : Int) - 1200⟩) ↔
      (modeC k).c1 = false ∧ (modeC k).a1 = false := by
  simp only [translated]; exact @threat_altitude_exact

/-- `threat_range_partial` (C23), of the translated code. -/
theorem code_threat_range_partial :
    ∀ (d : List UInt8) (m : ResolutionAdvisory) (h : Gen.acas.ra.ReadResolutionAdvisory d = .ok m)
    (ht : bits d 21 22 = 2),
    ∃ r b, m.threatIdentityRange = some r ∧ m.threatIdentityBearing = some b ∧ b.toNat = bits d 43 48 ∧
      r.toNat = 2 * bits d 36 41 ∧ (bit d 42 = false → r.toNat = bits d 36 42) := by
  simp only [translated]; exact @threat_range_partial

/-- `threat_range_refuted` (C23), of the translated code. -/
theorem code_threat_range_refuted :
    ∃ d m r, Gen.acas.ra.ReadResolutionAdvisory d = .ok m ∧ bits d 21 22 = 2 ∧
    m.threatIdentityRange = some r ∧ r.toNat ≠ bits d 36 42 := by
  simp only [translated]; exact @threat_range_refuted

/-- `airborne_position_content` (C28), of the translated code. -/
theorem code_airborne_position_content :
    ∀ (d : List UInt8) (m : AirbornePosition) (h : Gen.bds.bds05.ReadAirbornePosition d = .ok m),
    m.formatTypeCode.toNat = bits d 1 5 ∧
    m.surveillanceStatus.toNat = bits d 6 7 ∧
    m.singleAntennaFlag.toNat = bits d 8 8 ∧
    AC12Meaning (bits d 9 20) m.altitudeReportMethod m.altitudeInFeet ∧
    m.altitudeSource = (if 20 ≤ bits d 1 5 then 1 else 0) ∧
    m.time.toNat = bits d 21 21 ∧
    m.cprFormat.toNat = bits d 22 22 ∧
    m.encodedLatitude.toNat = bits d 23 39 ∧
    m.encodedLongitude.toNat = bits d 40 56 := by
  simp only [translated]; exact @airborne_position_content

/-- `airborne_position_accepts` (C28), of the translated code. -/
theorem code_airborne_position_accepts :
    ∀ (d : List UInt8),
    (Succeeds (Gen.bds.bds05.ReadAirbornePosition d) ↔ d.length = 7 ∧ 9 ≤ bits d 1 5 ∧ bits d 1 5 ≤ 22 ∧ bits d 1 5 ≠ 19 ∧
      ¬ AC12Illegal (bits d 9 20)) ∧ (¬ Succeeds (Gen.bds.bds05.ReadAirbornePosition d) → Gen.bds.bds05.ReadAirbornePosition d = .error .err) := by
  simp only [translated]; exact @airborne_position_accepts

/-- `altitude_available_partial` (C29), of the translated code. -/
theorem code_altitude_available_partial :
    ∀ (d : List UInt8) (h7 : d.length = 7) (h1 : 9 ≤ bits d 1 5) (h2 : bits d 1 5 ≤ 22)
    (h3 : bits d 1 5 ≠ 19) (ha : ∃ method a, AC12Meaning (bits d 9 20) method a),
    Succeeds (Gen.bds.bds05.ReadAirbornePosition d) := by
  simp only [translated]; exact @altitude_available_partial

/-- `zero_altitude_refuted` (C29), of the translated code. -/
theorem code_zero_altitude_refuted :
    ∀ (d : List UInt8) (h : bits d 9 20 = 0),
    Gen.bds.bds05.ReadAirbornePosition d = .error .err := by
  simp only [translated]; exact @zero_altitude_refuted

/-- `surface_position_content` (C31), of the translated code. -/
theorem code_surface_position_content :
    ∀ (d : List UInt8) (m : SurfacePosition) (h : Gen.bds.bds06.ReadSurfacePosition d = .ok m),
    m.formatTypeCode.toNat = bits d 1 5 ∧
    m.movementStatus = bits d 6 12 ∧
    m.movementSpeed = movementSpeed (bits d 6 12) ∧
    m.groundTrackStatus = bit d 13 ∧
    m.groundTrack = bits d 14 20 * (360 / 128) ∧
    m.time.toNat = bits d 21 21 ∧
    m.cprFormat.toNat = bits d 22 22 ∧
    m.encodedLatitude.toNat = bits d 23 39 ∧
    m.encodedLongitude.toNat = bits d 40 56 := by
  simp only [translated]; exact @surface_position_content

/-- `surface_position_accepts` (C31), of the translated code. -/
theorem code_surface_position_accepts :
    ∀ (d : List UInt8),
    (Succeeds (Gen.bds.bds06.ReadSurfacePosition d) ↔ d.length = 7 ∧ 5 ≤ bits d 1 5 ∧ bits d 1 5 ≤ 8) ∧
    (¬ Succeeds (Gen.bds.bds06.ReadSurfacePosition d) → Gen.bds.bds06.ReadSurfacePosition d = .error .err) := by
  simp only [translated]; exact @surface_position_accepts

/-- `surface_speed_monotone` (C31), of the translated code. -/
theorem code_surface_speed_monotone :
    ∀ (d d' : List UInt8) (m m' : SurfacePosition) (h : Gen.bds.bds06.ReadSurfacePosition d = .ok m)
    (h' : Gen.bds.bds06.ReadSurfacePosition d' = .ok m'),
    (1 ≤ m.movementStatus → m.movementStatus ≤ m'.movementStatus → m'.movementStatus ≤ 124 →
      m.movementSpeed ≤ m'.movementSpeed) ∧
    0 ≤ m.movementSpeed ∧ m.movementSpeed ≤ 175 ∧
    (m.movementStatus = 0 ∨ m.movementStatus = 1 ∨ 125 ≤ m.movementStatus → m.movementSpeed = 0) ∧
    (m.movementStatus = 124 → m.movementSpeed = 175) ∧
    0 ≤ m.groundTrack ∧ m.groundTrack < 360 := by
  simp only [translated]; exact @surface_speed_monotone

/-- `ground_velocity_content` (C32), of the translated code. -/
theorem code_ground_velocity_content :
    ∀ (d : List UInt8) (m : GroundSpeedVelocity),
    (Gen.bds.bds09.ReadAirborneVelocity d = .ok (.groundSpeedNormal m) →
      bits d 6 8 = 1 ∧ m.directionEastWest.toNat = bits d 14 14 ∧
      SpeedCoding (bits d 15 24) 1 1023 m.velocityEW.toNat m.velocityEWStatus ∧ m.directionNorthSouth.toNat = bits d 25 25 ∧
      SpeedCoding (bits d 26 35) 1 1023 m.velocityNS.toNat m.velocityNSStatus) ∧
    (Gen.bds.bds09.ReadAirborneVelocity d = .ok (.groundSpeedSupersonic m) →
      bits d 6 8 = 2 ∧ m.directionEastWest.toNat = bits d 14 14 ∧
      SpeedCoding (bits d 15 24) 4 4088 m.velocityEW.toNat m.velocityEWStatus ∧ m.directionNorthSouth.toNat = bits d 25 25 ∧
      SpeedCoding (bits d 26 35) 4 4088 m.velocityNS.toNat m.velocityNSStatus) := by
  simp only [translated]; exact @ground_velocity_content

/-- `velocity_kind` (C32), of the translated code. -/
theorem code_velocity_kind :
    ∀ (d : List UInt8) (h7 : d.length = 7) (h19 : bits d 1 5 = 19),
    (bits d 6 8 = 1 → ∃ m, Gen.bds.bds09.ReadAirborneVelocity d = .ok (.groundSpeedNormal m)) ∧
    (bits d 6 8 = 2 → ∃ m, Gen.bds.bds09.ReadAirborneVelocity d = .ok (.groundSpeedSupersonic m)) ∧
    (bits d 6 8 = 3 → ∃ m, Gen.bds.bds09.ReadAirborneVelocity d = .ok (.airSpeedNormal m)) ∧
    (bits d 6 8 = 4 → ∃ m, Gen.bds.bds09.ReadAirborneVelocity d = .ok (.airSpeedSupersonic m)) := by
  simp only [translated]; exact @velocity_kind

/-- `velocity_accepts` (C32), of the translated code. -/
theorem code_velocity_accepts :
    ∀ (d : List UInt8),
    ((∃ m, Gen.bds.bds09.ReadAirborneVelocity d = .ok m) ↔ d.length = 7 ∧ bits d 1 5 = 19 ∧ 1 ≤ bits d 6 8 ∧ bits d 6 8 ≤ 4) ∧
    Gen.bds.bds09.ReadAirborneVelocity d ≠ .error .panic := by
  simp only [translated]; exact @velocity_accepts

/-- `airspeed_content` (C33), of the translated code. -/
theorem code_airspeed_content :
    ∀ (d : List UInt8) (m : AirSpeedVelocity),
    (Gen.bds.bds09.ReadAirborneVelocity d = .ok (.airSpeedNormal m) →
      bits d 6 8 = 3 ∧ m.magneticHeadingStatus.toNat = bits d 14 14 ∧ m.magneticHeading = bits d 15 24 * (360 / 1024) ∧
      0 ≤ m.magneticHeading ∧ m.magneticHeading < 360 ∧
      SpeedCoding (bits d 26 35) 1 1023 m.airspeed.toNat m.airspeedStatus) ∧
    (Gen.bds.bds09.ReadAirborneVelocity d = .ok (.airSpeedSupersonic m) →
      bits d 6 8 = 4 ∧ m.magneticHeadingStatus.toNat = bits d 14 14 ∧ m.magneticHeading = bits d 15 24 * (360 / 1024) ∧
      0 ≤ m.magneticHeading ∧ m.magneticHeading < 360 ∧
      SpeedCoding (bits d 26 35) 4 4088 m.airspeed.toNat m.airspeedStatus) := by
  simp only [translated]; exact @airspeed_content

/-- `vertical_content` (C34), of the translated code. -/
theorem code_vertical_content :
    ∀ (d : List UInt8) (m : AirborneVelocity) (h : Gen.bds.bds09.ReadAirborneVelocity d = .ok m),
    SignedCoding (bit d 37) (bits d 38 46) 511 64 32640 m.verticalRate.1 m.verticalRate.2 ∧
    SignedCoding (bit d 49) (bits d 50 56) 127 25 3150 m.heightDifference.1 m.heightDifference.2 := by
  simp only [translated]; exact @vertical_content

/-- `vertical_range` (C34), of the translated code. -/
theorem code_vertical_range :
    ∀ (d : List UInt8) (m : AirborneVelocity) (h : Gen.bds.bds09.ReadAirborneVelocity d = .ok m),
    (-32640 ≤ m.verticalRate.1 ∧ m.verticalRate.1 ≤ 32640) ∧
    (-3150 ≤ m.heightDifference.1 ∧ m.heightDifference.1 ≤ 3150) := by
  simp only [translated]; exact @vertical_range

/-- `vertical_sign_flip` (C34), of the translated code. -/
theorem code_vertical_sign_flip :
    ∀ (d e : List UInt8) (m n : AirborneVelocity) (hd : Gen.bds.bds09.ReadAirborneVelocity d = .ok m) (he : Gen.bds.bds09.ReadAirborneVelocity e = .ok n)
    (h1 : bit e 37 = !bit d 37) (h2 : bits e 38 46 = bits d 38 46) (h3 : bit e 49 = !bit d 49)
    (h4 : bits e 50 56 = bits d 50 56),
    n.verticalRate = (-m.verticalRate.1, m.verticalRate.2) ∧ n.heightDifference = (-m.heightDifference.1, m.heightDifference.2) := by
  simp only [translated]; exact @vertical_sign_flip

/-- `ground_speed_of_bits` (C35), of the translated code. -/
theorem code_ground_speed_of_bits :
    ∀ (d : List UInt8) (h7 : d.length = 7) (h19 : bits d 1 5 = 19) (hs : bits d 6 8 = 1)
    (he : 1 ≤ bits d 15 24 ∧ bits d 15 24 ≤ 1022) (hn : 1 ≤ bits d 26 35 ∧ bits d 26 35 ≤ 1022),
    ∃ m, Gen.bds.bds09.ReadAirborneVelocity d = .ok (.groundSpeedNormal m) ∧
      m.getSpeed = some (Nat.sqrt ((bits d 15 24 - 1) ^ 2 + (bits d 26 35 - 1) ^ 2)) := by
  simp only [translated]; exact @ground_speed_of_bits

/-- `callsign_roundtrip_bds08` (C36), of the translated code. -/
theorem code_callsign_roundtrip_bds08 :
    ∀ (first : UInt8) (hf : 8 ≤ first.toNat ∧ first.toNat < 40) (cs : List UInt8)
    (h8 : cs.length = 8) (hc : ∀ c ∈ cs, IdentChar c),
    ∃ m, Gen.bds.bds08.ReadAircraftIdentificationAndCategory (first :: toBytes 6 (encodeIdent cs)) = .ok m ∧ m.identification = cs := by
  simp only [translated]; exact @callsign_roundtrip_bds08

/-- `callsign_roundtrip_bds20` (C36), of the translated code. -/
theorem code_callsign_roundtrip_bds20 :
    ∀ (cs : List UInt8) (h8 : cs.length = 8) (hc : ∀ c ∈ cs, IdentChar c),
    Gen.bds.bds20.ReadAircraftIdentification (0x20 :: toBytes 6 (encodeIdent cs)) = .ok ⟨cs⟩ ∧ AircraftIdentification.coherent ⟨cs⟩ = true := by
  simp only [translated]; exact @callsign_roundtrip_bds20

/-- `bds20_coherent_iff` (C36), of the translated code. -/
theorem code_bds20_coherent_iff :
    ∀ (d : List UInt8) (m : AircraftIdentification) (h : Gen.bds.bds20.ReadAircraftIdentification d = .ok m),
    m.coherent = true ↔ ∀ i < 8, ∃ c, identOf (identField d i) = some c ∧ IdentChar c := by
  simp only [translated]; exact @bds20_coherent_iff

/-- `bds08_coherent_iff` (C36), of the translated code. -/
theorem code_bds08_coherent_iff :
    ∀ (d : List UInt8) (m : IdentificationAndCategory) (h : Gen.bds.bds08.ReadAircraftIdentificationAndCategory d = .ok m),
    m.coherent = true ↔ (∀ i < 8, ∃ c, identOf (identField d i) = some c ∧ IdentChar c) ∧
      bits d 1 5 ≠ 1 ∧ (bits d 1 5 = 2 → bits d 6 8 ≤ 3) := by
  simp only [translated]; exact @bds08_coherent_iff

/-- `emitter_category` (C37), of the translated code. -/
theorem code_emitter_category :
    ∀ (d : List UInt8) (m : IdentificationAndCategory) (h : Gen.bds.bds08.ReadAircraftIdentificationAndCategory d = .ok m),
    m.formatTypeCode.toNat = bits d 1 5 ∧
    ((bits d 1 5 = 1 ∧ m.category = .setD (UInt8.ofNat (bits d 6 8))) ∨
     (bits d 1 5 = 2 ∧ m.category = .setC (UInt8.ofNat (bits d 6 8))) ∨
     (bits d 1 5 = 3 ∧ m.category = .setB (UInt8.ofNat (bits d 6 8))) ∨
     (bits d 1 5 = 4 ∧ m.category = .setA (UInt8.ofNat (bits d 6 8)))) ∧ bits d 6 8 < 8 := by
  simp only [translated]; exact @emitter_category

/-- `identification_accepts` (C37), of the translated code. -/
theorem code_identification_accepts :
    ∀ (d : List UInt8),
    (Succeeds (Gen.bds.bds08.ReadAircraftIdentificationAndCategory d) ↔ d.length = 7 ∧ 1 ≤ bits d 1 5 ∧ bits d 1 5 ≤ 4) ∧
    (¬ Succeeds (Gen.bds.bds08.ReadAircraftIdentificationAndCategory d) → Gen.bds.bds08.ReadAircraftIdentificationAndCategory d = .error .err) ∧
    (Succeeds (Gen.bds.bds20.ReadAircraftIdentification d) ↔ d.length = 7 ∧ bits d 1 8 = 0x20) ∧
    (¬ Succeeds (Gen.bds.bds20.ReadAircraftIdentification d) → Gen.bds.bds20.ReadAircraftIdentification d = .error .err) := by
  simp only [translated]; exact @identification_accepts

/-- `status_accepts_partial` (C38), of the translated code. -/
theorem code_status_accepts_partial :
    ∀ (d : List UInt8),
    (Succeeds (Gen.bds.bds61.ReadAircraftStatus d) ↔ d.length = 7 ∧ bits d 1 5 = 28 ∧
      (bits d 6 8 = 0 ∧ bits d 12 16 = 0 ∨ bits d 6 8 = 1 ∧ bits d 25 56 = 0 ∨
       bits d 6 8 = 2 ∧ Succeeds (Gen.acas.ra.ReadResolutionAdvisory (d.drop 1)))) ∧
    NoPanic (Gen.bds.bds61.ReadAircraftStatus d) := by
  simp only [translated]; exact @status_accepts_partial

/-- `status_content` (C38), of the translated code. -/
theorem code_status_content :
    ∀ (d : List UInt8) (m : AircraftStatus) (h : Gen.bds.bds61.ReadAircraftStatus d = .ok m),
    match m with
    | .noInformation m => bits d 6 8 = 0 ∧ m.formatTypeCode.toNat = bits d 1 5 ∧ m.subtype.toNat = 0 ∧
        m.emergencyPriorityStatus.toNat = bits d 9 11
    | .emergency m => bits d 6 8 = 1 ∧ m.formatTypeCode.toNat = bits d 1 5 ∧ m.subtype.toNat = 1 ∧
        m.emergencyPriorityStatus.toNat = bits d 9 11 ∧ m.modeACode.toNat = bits d 12 24
    | .acas m => bits d 6 8 = 2 ∧ m.formatTypeCode.toNat = bits d 1 5 ∧ m.subtype.toNat = 2 ∧
        Gen.acas.ra.ReadResolutionAdvisory (d.drop 1) = .ok m.resolutionAdvisory := by
  intro d m h
  have h' : readBDS61 d = .ok m := by simpa only [translated] using h
  have e := status_content d m h'
  cases m <;> simpa only [translated] using e

/-- `status_reserved_refuted` (C38), of the translated code. -/
theorem code_status_reserved_refuted :
    ∀ (d : List UInt8) (h7 : d.length = 7) (h28 : bits d 1 5 = 28) (hs : bits d 6 8 = 0)
    (hr : bits d 12 16 = 0),
    Succeeds (Gen.bds.bds61.ReadAircraftStatus d) := by
  simp only [translated]; exact @status_reserved_refuted

/-- `status_coherent_iff` (C38), of the translated code. -/
theorem code_status_coherent_iff :
    ∀ (d : List UInt8) (m : AircraftStatus) (h : Gen.bds.bds61.ReadAircraftStatus d = .ok m),
    m.coherent = true ↔ (bits d 6 8 = 0 → bits d 9 11 = 0) ∧ (bits d 6 8 = 1 → bits d 9 11 ≤ 5) := by
  simp only [translated]; exact @status_coherent_iff

/-- `operational_status_accepts` (C40), of the translated code. -/
theorem code_operational_status_accepts :
    ∀ (d : List UInt8),
    (Succeeds (Gen.bds.bds65.ReadAircraftOperationalStatus d) ↔ OpAccepted d) ∧ NoPanic (Gen.bds.bds65.ReadAircraftOperationalStatus d) := by
  simp only [translated]; exact @operational_status_accepts

/-- `operational_status_content` (C40), of the translated code. -/
theorem code_operational_status_content :
    ∀ (d : List UInt8) (m : OperationalStatus) (h : Gen.bds.bds65.ReadAircraftOperationalStatus d = .ok m),
    OpReserved d (bits d 41 43) ∧
    match m with
    | .v0 m => bits d 41 43 = 0 ∧ bits d 6 8 = 0 ∧ OpStatusV0.Layout d m
    | .airborneV1 m => bits d 41 43 = 1 ∧ bits d 6 8 = 0 ∧ OpStatusAirborneV1.Layout d m
    | .airborneV2 m => bits d 41 43 = 2 ∧ bits d 6 8 = 0 ∧ OpStatusAirborneV2.Layout d m
    | .surfaceV1 m => bits d 41 43 = 1 ∧ bits d 6 8 = 1 ∧ OpStatusSurfaceV1.Layout d m
    | .surfaceV2 m => bits d 41 43 = 2 ∧ bits d 6 8 = 1 ∧ OpStatusSurfaceV2.Layout d m := by
  intro d m h
  have h' : readBDS65 d = .ok m := by simpa only [translated] using h
  have e := operational_status_content d m h'
  cases m <;> simpa only [translated] using e

/-- `adsb_level_partial` (C40), of the translated code. -/
theorem code_adsb_level_partial :
    ∀ (d : List UInt8) (m : OperationalStatus) (h : Gen.bds.bds65.ReadAircraftOperationalStatus d = .ok m)
    (hne : ¬ (bits d 41 43 = 2 ∧ bits d 6 8 = 1)),
    m.getADSBLevel.toNat = bits d 41 43 := by
  simp only [translated]; exact @adsb_level_partial

/-- `adsb_level_refuted` (C40), of the translated code. -/
theorem code_adsb_level_refuted :
    ∀ (d : List UInt8) (m : OperationalStatus) (h : Gen.bds.bds65.ReadAircraftOperationalStatus d = .ok m)
    (h2 : bits d 41 43 = 2) (h1 : bits d 6 8 = 1),
    m.getADSBLevel.toNat = 1 := by
  simp only [translated]; exact @adsb_level_refuted

/-- `bds20_excludes` (C44), of the translated code. -/
theorem code_bds20_excludes :
    ∀ (d : List UInt8) (m : AircraftIdentification) (h : Gen.bds.bds20.ReadAircraftIdentification d = .ok m) (hc : m.coherent = true),
    d.length = 7 ∧ Gen.bds.bds00.ReadNoMessageAvailable d = .error .err ∧ Gen.bds.bds07.ReadStatus d = .error .err := by
  simp only [translated]; exact @bds20_excludes

/-- `bds00_accepts` (C44), of the translated code. -/
theorem code_bds00_accepts :
    ∀ (d : List UInt8),
    (Succeeds (Gen.bds.bds00.ReadNoMessageAvailable d) ↔ d.length = 7 ∧ bits d 1 56 = 0) ∧ NoPanic (Gen.bds.bds00.ReadNoMessageAvailable d) := by
  simp only [translated]; exact @bds00_accepts

/-- `bds40_coherent` (C46), of the translated code. -/
theorem code_bds40_coherent :
    ∀ (d : List UInt8) (m : SelectedVerticalIntention) (h : Gen.bds.bds40.ReadSelectedVerticalIntention d = .ok m),
    (m.coherent = true ↔
      (m.mcpfcuSelectedAltitudeAvailable ∨ m.fmsSelectedAltitudeAvailable ∨ m.barometricPressureSettingAvailable) ∧
      (m.mcpfcuSelectedAltitudeAvailable = false → m.mcpfcuSelectedAltitude = 0) ∧
      (m.fmsSelectedAltitudeAvailable = false → m.fmsSelectedAltitude = 0) ∧
      (m.barometricPressureSettingAvailable = false → m.barometricPressureSetting = 0)) ∧
    (m.coherent = true ↔ bit d 1 = true ∧ (bit d 14 = true ∨ bits d 2 13 = 0)) := by
  simp only [translated]; exact @bds40_coherent

/-- `bds50_coherent` (C46), of the translated code. -/
theorem code_bds50_coherent :
    ∀ (m : TrackAndTurnReport) (d : List UInt8) (h : Gen.bds.bds50.ReadTrackAndTurnReport d = .ok m),
    (m.coherent = true ↔
      (m.rollAngleStatus ∨ m.trueTrackAngleStatus ∨ m.groundSpeedStatus ∨ m.trackAngleRateStatus ∨ m.trueAirSpeedStatus) ∧
      (m.rollAngleStatus = false → m.rollAngle = 0) ∧ (m.trueTrackAngleStatus = false → m.trueTrackAngle = 0) ∧
      (m.groundSpeedStatus = false → m.groundSpeed = 0) ∧ (m.trackAngleRateStatus = false → m.trackAngleRate = 0) ∧
      (m.trueAirSpeedStatus = false → m.trueAirSpeed = 0) ∧ |m.rollAngle| ≤ 50 ∧ m.groundSpeed.toNat ≤ 600 ∧
      m.trueAirSpeed.toNat ≤ 500 ∧ |(m.groundSpeed.toNat : ℤ) - m.trueAirSpeed.toNat| ≤ 200) ∧
    (m.coherent = true ↔ Coherent50 d) := by
  simp only [translated]; exact @bds50_coherent

/-- `bds60_coherent` (C46), of the translated code. -/
theorem code_bds60_coherent :
    ∀ (m : HeadingAndTrackReport) (d : List UInt8) (h : Gen.bds.bds60.ReadHeadingAndSpeedReport d = .ok m),
    (m.coherent = true ↔
      (m.magneticHeadingStatus ∨ m.indicatedAirSpeedStatus ∨ m.machStatus ∨ m.barometricAltitudeRateStatus ∨
        m.initialVerticalVelocityStatus) ∧
      (m.magneticHeadingStatus = false → m.magneticHeading = 0) ∧
      (m.indicatedAirSpeedStatus = false → m.indicatedAirSpeed = 0) ∧ (m.machStatus = false → m.mach = 0) ∧
      (m.barometricAltitudeRateStatus = false → m.barometricAltitudeRate = 0) ∧
      (m.initialVerticalVelocityStatus = false → m.initialVerticalVelocity = 0) ∧
      m.indicatedAirSpeed.toNat ≤ 500 ∧ m.mach ≤ 1 ∧ |m.barometricAltitudeRate| ≤ 6000 ∧
      |m.initialVerticalVelocity| ≤ 6000) ∧
    (m.coherent = true ↔ Coherent60 d) := by
  simp only [translated]; exact @bds60_coherent

/-- `bds40_accepts` (C47), of the translated code. -/
theorem code_bds40_accepts :
    ∀ (d : List UInt8),
    (Succeeds (Gen.bds.bds40.ReadSelectedVerticalIntention d) ↔ Accepted40 d) ∧ NoPanic (Gen.bds.bds40.ReadSelectedVerticalIntention d) := by
  simp only [translated]; exact @bds40_accepts

/-- `bds40_actual` (C47), of the translated code. -/
theorem code_bds40_actual :
    ∀ (d : List UInt8) (m : SelectedVerticalIntention) (h : Gen.bds.bds40.ReadSelectedVerticalIntention d = .ok m),
    SelectedVerticalIntention.Actual d m := by
  simp only [translated]; exact @bds40_actual

/-- `bds40_content_partial` (C47), of the translated code. -/
theorem code_bds40_content_partial :
    ∀ (d : List UInt8) (m : SelectedVerticalIntention) (h : Gen.bds.bds40.ReadSelectedVerticalIntention d = .ok m)
    (ha : bits d 2 13 = bits d 15 26) (hb : bit d 27 = bit d 1),
    SelectedVerticalIntention.Layout d m := by
  simp only [translated]; exact @bds40_content_partial

/-- `bds40_content_refuted` (C47), of the translated code. -/
theorem code_bds40_content_refuted :
    ∀ (d : List UInt8) (m : SelectedVerticalIntention) (h : Gen.bds.bds40.ReadSelectedVerticalIntention d = .ok m),
    (bits d 2 13 ≠ bits d 15 26 → m.mcpfcuSelectedAltitude.toNat ≠ 16 * bits d 2 13 ∧
      m.fmsSelectedAltitude.toNat ≠ 16 * bits d 15 26) ∧
    (bit d 27 ≠ bit d 1 → m.barometricPressureSettingAvailable ≠ bit d 27) := by
  simp only [translated]; exact @bds40_content_refuted

/-- `bds50_60_accept` (C48), of the translated code. -/
theorem code_bds50_60_accept :
    ∀ (d : List UInt8),
    (Succeeds (Gen.bds.bds50.ReadTrackAndTurnReport d) ↔ d.length = 7) ∧ NoPanic (Gen.bds.bds50.ReadTrackAndTurnReport d) ∧
    (Succeeds (Gen.bds.bds60.ReadHeadingAndSpeedReport d) ↔ d.length = 7) ∧ NoPanic (Gen.bds.bds60.ReadHeadingAndSpeedReport d) := by
  simp only [translated]; exact @bds50_60_accept

/-- `bds50_content` (C48), of the translated code. -/
theorem code_bds50_content :
    ∀ (d : List UInt8) (m : TrackAndTurnReport) (h : Gen.bds.bds50.ReadTrackAndTurnReport d = .ok m),
    TrackAndTurnReport.Layout d m := by
  simp only [translated]; exact @bds50_content

/-- `bds60_content` (C48), of the translated code. -/
theorem code_bds60_content :
    ∀ (d : List UInt8) (m : HeadingAndTrackReport) (h : Gen.bds.bds60.ReadHeadingAndSpeedReport d = .ok m),
    HeadingAndTrackReport.Layout d m := by
  simp only [translated]; exact @bds60_content

/-- `bds50_range` (C48), of the translated code. -/
theorem code_bds50_range :
    ∀ (d : List UInt8) (m : TrackAndTurnReport) (h : Gen.bds.bds50.ReadTrackAndTurnReport d = .ok m),
    (-90 ≤ m.rollAngle ∧ m.rollAngle < 90) ∧ (-180 ≤ m.trueTrackAngle ∧ m.trueTrackAngle < 180) ∧
    m.groundSpeed.toNat ≤ 2046 ∧ (-16 ≤ m.trackAngleRate ∧ m.trackAngleRate < 16) ∧ m.trueAirSpeed.toNat ≤ 2046 := by
  simp only [translated]; exact @bds50_range

/-- `bds60_range` (C48), of the translated code. -/
theorem code_bds60_range :
    ∀ (d : List UInt8) (m : HeadingAndTrackReport) (h : Gen.bds.bds60.ReadHeadingAndSpeedReport d = .ok m),
    (-180 ≤ m.magneticHeading ∧ m.magneticHeading < 180) ∧ m.indicatedAirSpeed.toNat ≤ 1023 ∧
    (0 ≤ m.mach ∧ m.mach < 4.093) ∧ (-16384 ≤ m.barometricAltitudeRate ∧ m.barometricAltitudeRate ≤ 16352) ∧
    (-16384 ≤ m.initialVerticalVelocity ∧ m.initialVerticalVelocity ≤ 16352) := by
  simp only [translated]; exact @bds60_range

/-- `bds44_layout` (C49), of the translated code. -/
theorem code_bds44_layout :
    ∀ (d : List UInt8),
    match readBDS44 d with
    | .panics => False
    | .returns (.val (.v1 m)) err => err = false ∧ d.length = 7 ∧ bits d 1 4 = 0 ∧ Gen.bds.bds44.ReadMeteorologicalRoutineAirReportV1 d = .ok m
    | .returns (.val (.v2 m)) err => err = false ∧ d.length = 7 ∧ 1 ≤ bits d 1 4 ∧ bits d 1 4 ≤ 4 ∧ Gen.bds.bds44.ReadMeteorologicalRoutineAirReportV2 d = .ok m
    | .returns (.val (.v0 _)) _ => False
    | .returns .nil err => err = true ∧ (d.length ≠ 7 ∨ 5 ≤ bits d 1 4)
    | .returns .typedNil _ => False := by
  simp only [translated]; exact @bds44_layout

/-- `bds44_content_partial` (C49), of the translated code. -/
theorem code_bds44_content_partial :
    ∀ (d : List UInt8),
    (∀ m, Gen.bds.bds44.ReadMeteorologicalRoutineAirReportV0 d = .ok m → RoutineAirReportV0.Layout d m) ∧
    (∀ m, Gen.bds.bds44.ReadMeteorologicalRoutineAirReportV1 d = .ok m → RoutineAirReportV1.Layout d m) ∧
    (∀ m, Gen.bds.bds44.ReadMeteorologicalRoutineAirReportV2 d = .ok m → RoutineAirReportV2.Layout d m) := by
  simp only [translated]; exact @bds44_content_partial

/-- `bds44_wind_partial` (C49), of the translated code. -/
theorem code_bds44_wind_partial :
    ∀ (d : List UInt8) (m : RoutineAirReportV2) (h : Gen.bds.bds44.ReadMeteorologicalRoutineAirReportV2 d = .ok m) (h6 : bit d 6 = false),
    m.windSpeed.toNat = bits d 6 14 := by
  simp only [translated]; exact @bds44_wind_partial

/-- `bds44_wind_refuted` (C49), of the translated code. -/
theorem code_bds44_wind_refuted :
    ∀ (d : List UInt8) (h6 : bit d 6 = true),
    (∀ m, Gen.bds.bds44.ReadMeteorologicalRoutineAirReportV0 d = .ok m → m.windSpeed.toNat + 256 = bits d 6 14) ∧
    (∀ m, Gen.bds.bds44.ReadMeteorologicalRoutineAirReportV1 d = .ok m → m.windSpeed.toNat + 256 = bits d 6 14) ∧
    (∀ m, Gen.bds.bds44.ReadMeteorologicalRoutineAirReportV2 d = .ok m → m.windSpeed.toNat + 256 = bits d 6 14) := by
  simp only [translated]; exact @bds44_wind_refuted

/-- `bds44_temperature_refuted` (C49), of the translated code. -/
theorem code_bds44_temperature_refuted :
    ∃ d m, Gen.bds.bds44.ReadMeteorologicalRoutineAirReportV0 d = .ok m ∧ sbits d 24 34 = 4 ∧ m.staticAirTemperature = -127 := by
  simp only [translated]; exact @bds44_temperature_refuted

/-- `bds45_layout` (C50), of the translated code. -/
theorem code_bds45_layout :
    ∀ (d : List UInt8),
    match readBDS45 d with
    | .panics => False
    | .returns (.val (.v1 m)) err => err = false ∧ d.length = 7 ∧ bits d 55 56 = 0 ∧ Gen.bds.bds45.ReadMeteorologicalHazardReportV1 d = .ok m
    | .returns (.val (.v0 _)) _ => False
    | .returns .nil err => err = true ∧ (d.length ≠ 7 ∨ bits d 55 56 ≠ 0) ∧ ∀ m, Gen.bds.bds45.ReadMeteorologicalHazardReportV0 d ≠ .ok m
    | .returns .typedNil _ => False := by
  simp only [translated]; exact @bds45_layout

/-- `bds45_content` (C50), of the translated code. -/
theorem code_bds45_content :
    ∀ (d : List UInt8),
    (∀ m, Gen.bds.bds45.ReadMeteorologicalHazardReportV0 d = .ok m → HazardReportV0.Layout d m) ∧
    (∀ m, Gen.bds.bds45.ReadMeteorologicalHazardReportV1 d = .ok m → HazardReportV1.Layout d m) := by
  simp only [translated]; exact @bds45_content

/-- `bds10_accepts` (C51), of the translated code. -/
theorem code_bds10_accepts :
    ∀ (d : List UInt8),
    (Succeeds (Gen.bds.bds10.ReadDataLinkCapabilityReport d) ↔ Accepted10 d) ∧ NoPanic (Gen.bds.bds10.ReadDataLinkCapabilityReport d) := by
  simp only [translated]; exact @bds10_accepts

/-- `bds10_content_partial` (C51), of the translated code. -/
theorem code_bds10_content_partial :
    ∀ (d : List UInt8) (m : DataLinkCapabilityReport) (h : Gen.bds.bds10.ReadDataLinkCapabilityReport d = .ok m),
    DataLinkCapabilityReport.Layout d m := by
  simp only [translated]; exact @bds10_content_partial

/-- `bds10_surveillance_refuted` (C51), of the translated code. -/
theorem code_bds10_surveillance_refuted :
    (∃ d m, Gen.bds.bds10.ReadDataLinkCapabilityReport d = .ok m ∧ bits d 35 35 = 1 ∧ m.surveillanceIdentifierCode = 0) ∧
    (∃ d m, Gen.bds.bds10.ReadDataLinkCapabilityReport d = .ok m ∧ bits d 35 35 = 0 ∧ m.surveillanceIdentifierCode = 2) := by
  simp only [translated]; exact @bds10_surveillance_refuted

/-- `bds10_coherent` (C51), of the translated code. -/
theorem code_bds10_coherent :
    ∀ (d : List UInt8) (m : DataLinkCapabilityReport) (h : Gen.bds.bds10.ReadDataLinkCapabilityReport d = .ok m),
    m.coherent = true ↔ (bits d 16 16 = 0 → bits d 37 37 = 0 ∧ bits d 38 38 = 0 ∧ bits d 39 40 = 0) ∧
      (bits d 16 16 ≠ 0 → bits d 39 40 ≤ 2) ∧ bits d 17 23 ≤ 5 ∧ bits d 26 28 ≤ 6 ∧ bits d 29 32 ≤ 6 := by
  simp only [translated]; exact @bds10_coherent

/-- `bds17_accepts` (C52), of the translated code. -/
theorem code_bds17_accepts :
    ∀ (d : List UInt8),
    (Succeeds (Gen.bds.bds17.ReadCommonUsageGICBCapabilityReport d) ↔ Accepted17 d) ∧ NoPanic (Gen.bds.bds17.ReadCommonUsageGICBCapabilityReport d) := by
  simp only [translated]; exact @bds17_accepts

/-- `bds17_content` (C52), of the translated code. -/
theorem code_bds17_content :
    ∀ (d : List UInt8) (m : GICBCapabilityReport) (h : Gen.bds.bds17.ReadCommonUsageGICBCapabilityReport d = .ok m),
    GICBCapabilityReport.Layout d m := by
  simp only [translated]; exact @bds17_content

/-- `bds17_injective_partial` (C52), of the translated code. -/
theorem code_bds17_injective_partial :
    ∀ (d d' : List UInt8) (m : GICBCapabilityReport) (h : Gen.bds.bds17.ReadCommonUsageGICBCapabilityReport d = .ok m)
    (h' : Gen.bds.bds17.ReadCommonUsageGICBCapabilityReport d' = .ok m) (he : bits d 25 28 = bits d' 25 28),
    d = d' := by
  simp only [translated]; exact @bds17_injective_partial

/-- `bds17_injective_refuted` (C52), of the translated code. -/
theorem code_bds17_injective_refuted :
    ∃ d d' m, Gen.bds.bds17.ReadCommonUsageGICBCapabilityReport d = .ok m ∧ Gen.bds.bds17.ReadCommonUsageGICBCapabilityReport d' = .ok m ∧ d ≠ d' := by
  simp only [translated]; exact @bds17_injective_refuted

/-- `bds07_accepts` (C53), of the translated code. -/
theorem code_bds07_accepts :
    ∀ (d : List UInt8),
    (Succeeds (Gen.bds.bds07.ReadStatus d) ↔ d.length = 7 ∧ bits d 4 6 = 0 ∧ bits d 9 56 = 0) ∧ NoPanic (Gen.bds.bds07.ReadStatus d) := by
  simp only [translated]; exact @bds07_accepts

/-- `bds07_reserved_partial` (C53), of the translated code. -/
theorem code_bds07_reserved_partial :
    ∀ (d : List UInt8) (h78 : bits d 7 8 = 0),
    Succeeds (Gen.bds.bds07.ReadStatus d) ↔ d.length = 7 ∧ bits d 4 56 = 0 := by
  simp only [translated]; exact @bds07_reserved_partial

/-- `bds07_reserved_refuted` (C53), of the translated code. -/
theorem code_bds07_reserved_refuted :
    ∃ d, d.length = 7 ∧ Succeeds (Gen.bds.bds07.ReadStatus d) ∧ bits d 4 56 ≠ 0 := by
  simp only [translated]; exact @bds07_reserved_refuted

/-- `bds07_content` (C53), of the translated code. -/
theorem code_bds07_content :
    ∀ (d : List UInt8) (m : Status07) (h : Gen.bds.bds07.ReadStatus d = .ok m),
    m.transmissionRateSubfield.toNat = bits d 1 2 ∧ m.altitudeTypeSubfield.toNat = bits d 3 3 ∧
    (m.coherent = true ↔ bits d 1 2 ≠ 3) := by
  simp only [translated]; exact @bds07_content

/-- `readMessage_parity` (C63), of the translated code. -/
theorem code_readMessage_parity :
    ∀ (h p q : List UInt8) (hp : p.length = 3) (hq : q.length = 3),
    Gen.modes.reader.ReadMessage (h ++ q) = ModeSMessage.setParity q <$> Gen.modes.reader.ReadMessage (h ++ p) := by
  simp only [same_ReadMessage]; exact @readMessage_parity

/-- `readMessage_parity_eq` (C63), of the translated code. -/
theorem code_readMessage_parity_eq :
    ∀ (f : List UInt8) (msg : ModeSMessage) (h : Gen.modes.reader.ReadMessage f = .ok msg),
    msg.data.parity = f.drop (f.length - 3) := by
  simp only [same_ReadMessage]; exact @readMessage_parity_eq

/-- `airborneGlobal_float` (C68), of the translated code. -/
theorem code_airborneGlobal_float :
    ∀ (nl : ℝ → ℝ) (hnl : NLAgrees nl) (el en ol on : UInt32) (e : Bool) (h1 : el.toNat < 131072)
    (h2 : en.toNat < 131072) (h3 : ol.toNat < 131072) (h4 : on.toNat < 131072),
    (airborneGlobal el en ol on e = .error .err ∧ Gen.geo.GetCPRAirborneGlobalPosition f64R nl el en ol on e = .error .err) ∨
    ∃ lat lon lat' lon', airborneGlobal el en ol on e = .ok (lat, lon) ∧ Gen.geo.GetCPRAirborneGlobalPosition f64R nl el en ol on e = .ok (lat', lon') ∧
      |lat' - lat| ≤ 1 / 2 ^ 43 ∧ -180 < lon' ∧ lon' ≤ 180 ∧ ∃ t : ℤ, |lon' - lon - 360 * t| ≤ 1 / 2 ^ 43 := by
  simp only [same_geo_fn_airborneGlobal]; exact @airborneGlobal_float

/-- `nlF_agrees` (C68), of the translated code. -/
theorem code_nlF_agrees :
    ∀ (cosF acosF : ℝ → ℝ) (hF : Accurate cosF acosF),
    NLAgrees (Gen.geo.getNumberOfLongitude f64R cosF acosF) := by
  simp only [same_geo_fn_getNumberOfLongitude]; exact @nlF_agrees

/-- `airborne_global_float64` (C68), of the translated code. -/
theorem code_airborne_global_float64 :
    ∀ (cosF acosF : ℝ → ℝ) (hF : Accurate cosF acosF) (lat0 lon0 lat1 lon1 : ℝ) (e : Bool)
    (h0 : |lat0| ≤ 90) (h1 : |lat1| ≤ 90) (hlat : |lat0 - lat1| ≤ 1 / 20) (hband : NL (rLat 17 0 lat0) = NL (rLat 17 1 lat1)) (s : ℤ)
    (hlon : (NL (rLat 17 0 lat0) : ℝ) * (NL (rLat 17 0 lat0) - 1) * |lon0 - lon1 - 360 * s| ≤ 179),
    ∃ lat lon, Gen.geo.GetCPRAirborneGlobalPosition f64R (Gen.geo.getNumberOfLongitude f64R cosF acosF) (encodeLat 17 0 lat0) (encodeLon 17 0 lat0 lon0)
        (encodeLat 17 1 lat1) (encodeLon 17 1 lat1 lon1) e = .ok (lat, lon) ∧
      |lat - (if e then lat0 else lat1)| ≤ (if e then dLat 0 else dLat 1) / 2 ^ 18 + 1 / 2 ^ 43 ∧
      -180 < lon ∧ lon ≤ 180 ∧
      ∃ t : ℤ, |lon - (if e then lon0 else lon1) - 360 * t| ≤ (if e then dLon 17 0 lat0 else dLon 17 1 lat1) / 2 ^ 18 + 1 / 2 ^ 43 := by
  simp only [same_geo_fn_getNumberOfLongitude, same_geo_fn_airborneGlobal]; exact @airborne_global_float64

/-- `airborne_global_bands_float64` (C68), of the translated code. -/
theorem code_airborne_global_bands_float64 :
    ∀ (cosF acosF : ℝ → ℝ) (hF : Accurate cosF acosF) (lat0 lon0 lat1 lon1 : ℝ) (e : Bool)
    (h0 : |lat0| ≤ 90) (h1 : |lat1| ≤ 90) (hlat : |lat0 - lat1| ≤ 1 / 20) (hband : NL (rLat 17 0 lat0) ≠ NL (rLat 17 1 lat1)),
    Gen.geo.GetCPRAirborneGlobalPosition f64R (Gen.geo.getNumberOfLongitude f64R cosF acosF) (encodeLat 17 0 lat0) (encodeLon 17 0 lat0 lon0)
      (encodeLat 17 1 lat1) (encodeLon 17 1 lat1 lon1) e = .error .err := by
  simp only [same_geo_fn_getNumberOfLongitude, same_geo_fn_airborneGlobal]; exact @airborne_global_bands_float64

/-- `surfaceGlobal_float` (C68), of the translated code. -/
theorem code_surfaceGlobal_float :
    ∀ (nl : ℝ → ℝ) (hnl : NLAgrees nl) (el en ol on : UInt32) (e : Bool) (refLat refLon : ℝ)
    (h1 : el.toNat < 131072) (h2 : en.toNat < 131072) (h3 : ol.toNat < 131072) (h4 : on.toNat < 131072) (j : ℤ) (latE latO : ℝ)
    (hj : ⌊((60 : ℕ) - 1 : ℝ) * cpr el - (60 : ℕ) * cpr ol + 1 / 2⌋ = j)
    (hE : (if refLat < 0 then 90 / ((60 : ℕ) : ℝ) * (mod j (60 : ℕ) + cpr el) - 90
      else 90 / ((60 : ℕ) : ℝ) * (mod j (60 : ℕ) + cpr el)) = latE)
    (hO : (if refLat < 0 then 90 / ((59 : ℕ) : ℝ) * (mod j (59 : ℕ) + cpr ol) - 90
      else 90 / ((59 : ℕ) : ℝ) * (mod j (59 : ℕ) + cpr ol)) = latO)
    (sE : latE = 0 ∨ dLat 0 / 2 ^ 17 ≤ |latE|) (sO : latO = 0 ∨ dLat 1 / 2 ^ 17 ≤ |latO|),
    (getNumberOfLongitude latE ≠ getNumberOfLongitude latO → Gen.geo.GetCPRSurfaceGlobalPosition f64R nl el en ol on e refLat refLon = .error .err) ∧
    ∀ lat lon, surfaceGlobal el en ol on e refLat refLon = .ok (lat, lon) → |lon| ≤ 17999 / 100 → |refLon - lon| ≤ 4499 / 100 →
      ∃ lat' lon', Gen.geo.GetCPRSurfaceGlobalPosition f64R nl el en ol on e refLat refLon = .ok (lat', lon') ∧ |lat' - lat| ≤ 1 / 2 ^ 43 ∧
        |lon' - lon| ≤ 1 / 10 ^ 11 := by
  simp only [same_geo_fn_surfaceGlobal]; exact @surfaceGlobal_float

/-- `airborneGlobalF_exact` (C68), of the translated code. -/
theorem code_airborneGlobalF_exact :
    Gen.geo.GetCPRAirborneGlobalPosition id getNumberOfLongitude = airborneGlobal := by
  simp only [same_geo_fn_airborneGlobal]; exact @airborneGlobalF_exact

/-- `airborneLocalF_exact` (C68), of the translated code. -/
theorem code_airborneLocalF_exact :
    Gen.geo.GetCPRAirborneLocalPosition id getNumberOfLongitude = airborneLocal := by
  simp only [same_geo_fn_airborneLocal]; exact @airborneLocalF_exact

/-- `surfaceGlobalF_exact` (C68), of the translated code. -/
theorem code_surfaceGlobalF_exact :
    Gen.geo.GetCPRSurfaceGlobalPosition id getNumberOfLongitude = surfaceGlobal := by
  simp only [same_geo_fn_surfaceGlobal]; exact @surfaceGlobalF_exact

/-- `surfaceLocalF_exact` (C68), of the translated code. -/
theorem code_surfaceLocalF_exact :
    Gen.geo.GetCPRSurfaceLocalPosition id getNumberOfLongitude = surfaceLocal := by
  simp only [same_geo_fn_surfaceLocal]; exact @surfaceLocalF_exact

/-- `getNumberOfLongitudeF_exact` (C68), of the translated code. -/
theorem code_getNumberOfLongitudeF_exact :
    Gen.geo.getNumberOfLongitude id Real.cos Real.arccos = getNumberOfLongitude := by
  simp only [same_geo_fn_getNumberOfLongitude]; exact @getNumberOfLongitudeF_exact

/-- `modeS_text_total` (C74), of the translated code. -/
theorem code_modeS_text_total :
    ∀ (f : List UInt8) (m : ModeSMessage) (h : Gen.modes.reader.ReadMessage f = .ok m),
    ∃ spaces rest, m.text = .ok (t! "Downlink format:" ++ List.replicate spaces ' ' ++ dec m.getDownLinkFormat ++ t! " - " ++
      m.getName ++ '\n' :: rest) := by
  simp only [same_ReadMessage]; exact @modeS_text_total

/-- `modeS_text_identifies` (C74), of the translated code. -/
theorem code_modeS_text_identifies :
    ∀ (f g : List UInt8) (m n : ModeSMessage) (t : Txt) (hf : Gen.modes.reader.ReadMessage f = .ok m)
    (hg : Gen.modes.reader.ReadMessage g = .ok n) (hm : m.text = .ok t) (hn : n.text = .ok t),
    decodedFields m = decodedFields n := by
  simp only [same_ReadMessage]; exact @modeS_text_identifies

/-- `df11_text_frame` (C74), of the translated code. -/
theorem code_df11_text_frame :
    ∀ (f g : List UInt8) (m : MessageDF11) (n : ModeSMessage) (t : Txt) (hf : Gen.modes.reader.ReadMessage f = .ok (.df11 m))
    (hg : Gen.modes.reader.ReadMessage g = .ok n) (hm : (ModeSMessage.df11 m).text = .ok t) (hn : n.text = .ok t),
    f.take 4 = g.take 4 := by
  simp only [same_ReadMessage]; exact @df11_text_frame

/-- `df17_text_frame` (C74), of the translated code. -/
theorem code_df17_text_frame :
    ∀ (f g : List UInt8) (m : MessageDF17) (n : ModeSMessage) (t : Txt) (hf : Gen.modes.reader.ReadMessage f = .ok (.df17 m))
    (hg : Gen.modes.reader.ReadMessage g = .ok n) (hm : (ModeSMessage.df17 m).text = .ok t) (hn : n.text = .ok t),
    f.take 11 = g.take 11 := by
  simp only [same_ReadMessage]; exact @df17_text_frame

/-- `df18_text_frame` (C74), of the translated code. -/
theorem code_df18_text_frame :
    ∀ (f g : List UInt8) (m : MessageDF18) (n : ModeSMessage) (t : Txt) (hf : Gen.modes.reader.ReadMessage f = .ok (.df18 m))
    (hg : Gen.modes.reader.ReadMessage g = .ok n) (hm : (ModeSMessage.df18 m).text = .ok t) (hn : n.text = .ok t),
    f.take 11 = g.take 11 := by
  simp only [same_ReadMessage]; exact @df18_text_frame

/-- `squitter_received` (C78), of the translated code. -/
theorem code_squitter_received :
    ∀ (capability address : Nat) (me f : List UInt8) (hca : capability < 8) (haa : address < 2 ^ 24)
    (hme : me.length = 7) (h : IsSquitter capability address me f),
    ∃ m, Gen.modes.reader.ReadMessage f = .ok (.df17 m) ∧ m.messageExtendedSquitter = me ∧ m.capability.toNat = capability ∧
      m.addressAnnounced.toNat = address ∧
      ∀ al il, ∃ a, Gen.modes.reader.CheckCRC (.df17 m) f al il = .ok a ∧ a.toNat = address := by
  simp only [same_ReadMessage, same_CheckCRC]; exact @squitter_received

/-- `airborne_end_to_end` (C78), of the translated code. -/
theorem code_airborne_end_to_end :
    ∀ (cosF acosF : ℝ → ℝ) (hF : Accurate cosF acosF) (v : UInt8) (hv : v.toNat ≤ 2) (capability address : Nat)
    (hca : capability < 8) (haa : address < 2 ^ 24) (tc0 tc1 st0 st1 an0 an1 n0 n1 t0 t1 : Nat)
    (htc0 : AirborneTC tc0) (htc1 : AirborneTC tc1) (hst0 : st0 < 4) (hst1 : st1 < 4) (han0 : an0 < 2) (han1 : an1 < 2)
    (hn0 : n0 < 2048) (hn1 : n1 < 2048) (ht0 : t0 < 2) (ht1 : t1 < 2) (lat0 lon0 lat1 lon1 : ℝ) (e : Bool)
    (h0 : |lat0| ≤ 90) (h1 : |lat1| ≤ 90) (hlat : |lat0 - lat1| ≤ 1 / 20) (hband : NL (rLat 17 0 lat0) = NL (rLat 17 1 lat1)) (s : ℤ)
    (hlon : (NL (rLat 17 0 lat0) : ℝ) * (NL (rLat 17 0 lat0) - 1) * |lon0 - lon1 - 360 * s| ≤ 179) (f0 f1 : List UInt8)
    (hf0 : IsSquitter capability address (airborneField tc0 st0 an0 (altitudeField n0) t0 0 (encodeLat 17 0 lat0).toNat
      (encodeLon 17 0 lat0 lon0).toNat) f0)
    (hf1 : IsSquitter capability address (airborneField tc1 st1 an1 (altitudeField n1) t1 1 (encodeLat 17 1 lat1).toNat
      (encodeLon 17 1 lat1 lon1).toNat) f1),
    ∃ p0 p1 lat lon, ReceivesAirborne v f0 address p0 ∧ ReceivesAirborne v f1 address p1 ∧
      p0.cprFormat = 0 ∧ p1.cprFormat = 1 ∧
      p0.altitudeInFeet = 25 * (n0 : ℤ) - 1000 ∧ p1.altitudeInFeet = 25 * (n1 : ℤ) - 1000 ∧
      Gen.geo.GetCPRAirborneGlobalPosition f64R (Gen.geo.getNumberOfLongitude f64R cosF acosF) p0.encodedLatitude p0.encodedLongitude p1.encodedLatitude
        p1.encodedLongitude e = .ok (lat, lon) ∧
      |lat - (if e then lat0 else lat1)| ≤ (if e then dLat 0 else dLat 1) / 2 ^ 18 + 1 / 2 ^ 43 ∧
      -180 < lon ∧ lon ≤ 180 ∧
      ∃ t : ℤ, |lon - (if e then lon0 else lon1) - 360 * t| ≤ (if e then dLon 17 0 lat0 else dLon 17 1 lat1) / 2 ^ 18 + 1 / 2 ^ 43 := by
  simp only [same_geo_fn_getNumberOfLongitude, same_geo_fn_airborneGlobal]; exact @airborne_end_to_end

/-- `airborne_local_end_to_end` (C78), of the translated code. -/
theorem code_airborne_local_end_to_end :
    ∀ (cosF acosF : ℝ → ℝ) (hF : Accurate cosF acosF) (v : UInt8) (hv : v.toNat ≤ 2) (capability address : Nat)
    (hca : capability < 8) (haa : address < 2 ^ 24) (tc st an n time : Nat) (htc : AirborneTC tc) (hst : st < 4) (han : an < 2)
    (hn : n < 2048) (ht : time < 2) (lat lon refLat refLon : ℝ) (isOdd : Bool) (h : |lat| ≤ 90) (hlon : |lon| ≤ 359)
    (i : ℕ) (hi : i = if isOdd then 1 else 0) (hrl : |lat - refLat| ≤ dLat i / 2 - dLat i / 2 ^ 17)
    (hrn : |lon - refLon| ≤ dLon 17 i lat / 2 - dLon 17 i lat / 2 ^ 17) (f : List UInt8)
    (hf : IsSquitter capability address (airborneField tc st an (altitudeField n) time i (encodeLat 17 i lat).toNat
      (encodeLon 17 i lat lon).toNat) f),
    ∃ p lat' lon', ReceivesAirborne v f address p ∧ p.cprFormat.toNat = i ∧ p.altitudeInFeet = 25 * (n : ℤ) - 1000 ∧
      Gen.geo.GetCPRAirborneLocalPosition f64R (Gen.geo.getNumberOfLongitude f64R cosF acosF) p.encodedLatitude p.encodedLongitude refLat refLon (p.cprFormat == 1) =
        (lat', lon') ∧
      |lat' - lat| ≤ dLat i / 2 ^ 18 + 1 / 2 ^ 43 ∧ |lon' - lon| ≤ dLon 17 i lat / 2 ^ 18 + 1 / 2 ^ 43 := by
  simp only [same_geo_fn_getNumberOfLongitude, same_geo_fn_airborneLocal]; exact @airborne_local_end_to_end

/-- `surface_end_to_end` (C78), of the translated code. -/
theorem code_surface_end_to_end :
    ∀ (cosF acosF : ℝ → ℝ) (hF : Accurate cosF acosF) (v : UInt8) (hv : v.toNat ≤ 2) (capability address : Nat)
    (hca : capability < 8) (haa : address < 2 ^ 24) (tc0 tc1 mv0 mv1 st0 st1 tr0 tr1 t0 t1 : Nat)
    (htc0 : SurfaceTC tc0) (htc1 : SurfaceTC tc1) (hmv0 : mv0 < 128) (hmv1 : mv1 < 128) (hst0 : st0 < 2) (hst1 : st1 < 2)
    (htr0 : tr0 < 128) (htr1 : tr1 < 128) (ht0 : t0 < 2) (ht1 : t1 < 2) (lat0 lon0 lat1 lon1 refLat refLon : ℝ) (e : Bool)
    (h0 : SameHemisphere 0 refLat lat0) (h1 : SameHemisphere 1 refLat lat1)
    (s0 : rLat 19 0 lat0 = 0 ∨ dLat 0 / 2 ^ 17 ≤ |rLat 19 0 lat0|) (s1 : rLat 19 1 lat1 = 0 ∨ dLat 1 / 2 ^ 17 ≤ |rLat 19 1 lat1|)
    (hlat : |lat0 - lat1| ≤ 1 / 80) (hband : NL (rLat 19 0 lat0) = NL (rLat 19 1 lat1))
    (hlon : (NL (rLat 19 0 lat0) : ℝ) * (NL (rLat 19 0 lat0) - 1) * |lon0 - lon1| ≤ 44)
    (hl : |if e then lon0 else lon1| ≤ 17998 / 100) (hr : |(if e then lon0 else lon1) - refLon| ≤ 4498 / 100) (f0 f1 : List UInt8)
    (hf0 : IsSquitter capability address (surfaceField tc0 mv0 st0 tr0 t0 0 (encodeLat 19 0 lat0).toNat (encodeLon 19 0 lat0 lon0).toNat) f0)
    (hf1 : IsSquitter capability address (surfaceField tc1 mv1 st1 tr1 t1 1 (encodeLat 19 1 lat1).toNat (encodeLon 19 1 lat1 lon1).toNat) f1),
    ∃ p0 p1 lat lon, ReceivesSurface v f0 address p0 ∧ ReceivesSurface v f1 address p1 ∧
      p0.cprFormat = 0 ∧ p1.cprFormat = 1 ∧ p0.movementSpeed = movementSpeed mv0 ∧ p1.movementSpeed = movementSpeed mv1 ∧
      p0.groundTrack = tr0 * (360 / 128) ∧ p1.groundTrack = tr1 * (360 / 128) ∧
      Gen.geo.GetCPRSurfaceGlobalPosition f64R (Gen.geo.getNumberOfLongitude f64R cosF acosF) p0.encodedLatitude p0.encodedLongitude p1.encodedLatitude
        p1.encodedLongitude e refLat refLon = .ok (lat, lon) ∧
      |lat - (if e then lat0 else lat1)| ≤ (if e then dLat 0 else dLat 1) / 2 ^ 20 + 1 / 2 ^ 43 ∧
      |lon - (if e then lon0 else lon1)| ≤ (if e then dLon 19 0 lat0 else dLon 19 1 lat1) / 2 ^ 20 + 1 / 10 ^ 11 := by
  simp only [same_geo_fn_getNumberOfLongitude, same_geo_fn_surfaceGlobal]; exact @surface_end_to_end

/-- `reported_output` (C79), of the translated code. -/
theorem code_reported_output :
    ∀ (F : FloatTexts) (E : ErrorTexts) (s f : List UInt8) (level : UInt8) (hs : Spells s f) (hf : Reported f),
    ∃ a m t d, HeadNumber f a ∧ Gen.modes.reader.ReadMessage f = .ok m ∧ m.text = .ok t ∧
      printSingleLine F E s level = .ok (t! "Reading: " ++ asciiText s ++ '\n' :: (t! " -- Mode-S Information --" ++ '\n' ::
        ((if bits f 1 5 = 11 then t! "In reply to interrogator: " else t! "From: ") ++ addressText a ++ t! " " ++ '\n' ::
          (t ++ '\n' :: d)))) := by
  simp only [same_ReadMessage]; exact @reported_output

/-- `output_identifies` (C79), of the translated code. -/
theorem code_output_identifies :
    ∀ (F : FloatTexts) (E : ErrorTexts) (s s' f f' : List UInt8) (level level' : UInt8) (hs : Spells s f)
    (hs' : Spells s' f') (hf : Reported f) (hf' : Reported f') (t : Txt)
    (h : printSingleLine F E s level = .ok (t! "Reading: " ++ asciiText s ++ '\n' :: t))
    (h' : printSingleLine F E s' level' = .ok (t! "Reading: " ++ asciiText s' ++ '\n' :: t)),
    ∃ a m m', HeadNumber f a ∧ HeadNumber f' a ∧ Gen.modes.reader.ReadMessage f = .ok m ∧ Gen.modes.reader.ReadMessage f' = .ok m' ∧
      decodedFields m = decodedFields m' := by
  simp only [same_ReadMessage]; exact @output_identifies

/-- `subtype_accessor` (C81), of the translated code. -/
theorem code_subtype_accessor :
    ∀ (d : List UInt8),
    (∀ m, Gen.bds.bds09.ReadAirborneVelocity d = .ok m → m.getSubtype.toNat = bits d 6 8) ∧
    (∀ m, Gen.bds.bds61.ReadAircraftStatus d = .ok m → m.getSubtype.toNat = bits d 6 8) ∧
    (∀ m, readBDS62 d = .ok m → m.getSubtype.toNat = bits d 6 7) := by
  simp only [translated]; exact @subtype_accessor

/-- `category_set_name` (C81), of the translated code. -/
theorem code_category_set_name :
    ∀ (d : List UInt8) (m : IdentificationAndCategory) (h : Gen.bds.bds08.ReadAircraftIdentificationAndCategory d = .ok m),
    (m.category.setName = t! "Set A" ↔ bits d 1 5 = 4) ∧ (m.category.setName = t! "Set B" ↔ bits d 1 5 = 3) ∧
    (m.category.setName = t! "Set C" ↔ bits d 1 5 = 2) ∧ (m.category.setName = t! "Set D (Reserved)" ↔ bits d 1 5 = 1) := by
  simp only [translated]; exact @category_set_name

/-- `direct_readers` (C82), of the translated code. -/
theorem code_direct_readers :
    ∀ (d : List UInt8),
    SameAs (readGroundSpeedNormal d) (Gen.bds.bds09.ReadAirborneVelocity d) .groundSpeedNormal ∧
    SameAs (readGroundSpeedSupersonic d) (Gen.bds.bds09.ReadAirborneVelocity d) .groundSpeedSupersonic ∧
    SameAs (readAirSpeedNormal d) (Gen.bds.bds09.ReadAirborneVelocity d) .airSpeedNormal ∧
    SameAs (readAirSpeedSupersonic d) (Gen.bds.bds09.ReadAirborneVelocity d) .airSpeedSupersonic ∧
    SameAs (readStatusNoInformation d) (Gen.bds.bds61.ReadAircraftStatus d) .noInformation ∧
    SameAs (readStatusEmergency d) (Gen.bds.bds61.ReadAircraftStatus d) .emergency ∧
    SameAs (readStatusACAS d) (Gen.bds.bds61.ReadAircraftStatus d) .acas ∧
    SameAs (readTargetStateAndStatus0 d) (readBDS62 d) .type0 ∧
    SameAs (readTargetStateAndStatus1 d) (readBDS62 d) .type1 ∧
    SameAs (readOpStatusV0 d) (Gen.bds.bds65.ReadAircraftOperationalStatus d) .v0 ∧
    SameAs (readOpStatusAirborneV1 d) (Gen.bds.bds65.ReadAircraftOperationalStatus d) .airborneV1 ∧
    SameAs (readOpStatusSurfaceV1 d) (Gen.bds.bds65.ReadAircraftOperationalStatus d) .surfaceV1 ∧
    SameAs (readOpStatusAirborneV2 d) (Gen.bds.bds65.ReadAircraftOperationalStatus d) .airborneV2 ∧
    SameAs (readOpStatusSurfaceV2 d) (Gen.bds.bds65.ReadAircraftOperationalStatus d) .surfaceV2 := by
  simp only [translated]; exact @direct_readers

/-- `direct_meteo` (C82), of the translated code. -/
theorem code_direct_meteo :
    ∀ (d : List UInt8),
    ((∃ m, Gen.bds.bds44.ReadMeteorologicalRoutineAirReportV0 d = .ok m) ↔ d.length = 7) ∧ NoPanic (Gen.bds.bds44.ReadMeteorologicalRoutineAirReportV0 d) ∧
    ((∃ m, Gen.bds.bds44.ReadMeteorologicalRoutineAirReportV1 d = .ok m) ↔ d.length = 7 ∧ bits d 1 4 = 0) ∧ NoPanic (Gen.bds.bds44.ReadMeteorologicalRoutineAirReportV1 d) ∧
    ((∃ m, Gen.bds.bds44.ReadMeteorologicalRoutineAirReportV2 d = .ok m) ↔ d.length = 7) ∧ NoPanic (Gen.bds.bds44.ReadMeteorologicalRoutineAirReportV2 d) ∧
    ((∃ m, Gen.bds.bds45.ReadMeteorologicalHazardReportV0 d = .ok m) ↔ d.length = 7 ∧ bits d 52 56 = 0) ∧ NoPanic (Gen.bds.bds45.ReadMeteorologicalHazardReportV0 d) ∧
    ((∃ m, Gen.bds.bds45.ReadMeteorologicalHazardReportV1 d = .ok m) ↔ d.length = 7 ∧ bits d 55 56 = 0) ∧ NoPanic (Gen.bds.bds45.ReadMeteorologicalHazardReportV1 d) := by
  simp only [translated]; exact @direct_meteo

/-- `velocity_delivered` (C84), of the translated code. -/
theorem code_velocity_delivered :
    ∀ (v : UInt8) (capability address : Nat) (hca : capability < 8) (haa : address < 2 ^ 24) (d f : List UInt8)
    (h7 : d.length = 7) (h19 : bits d 1 5 = 19) (x : AirborneVelocity) (hx : Gen.bds.bds09.ReadAirborneVelocity d = .ok x) (hf : IsSquitter capability address d f),
    ReceivesVelocity v f address x := by
  simp only [translated]; exact @velocity_delivered

/-- `commB_reply_received` (C85), of the translated code. -/
theorem code_commB_reply_received :
    ∀ (format header address : Nat) (mb f : List UInt8) (hfo : format = 20 ∨ format = 21) (hh : header < 2 ^ 27)
    (halt : format = 20 → ¬ AltitudeIllegal (header % 2 ^ 13)) (hmb : mb.length = 7) (h : IsCommBReply format header address mb f),
    ∃ m, Gen.modes.reader.ReadMessage f = .ok m ∧
      ((format = 20 ∧ ∃ x, m = .df20 x ∧ x.messageCommB = mb) ∨ (format = 21 ∧ ∃ x, m = .df21 x ∧ x.messageCommB = mb)) ∧
      ∃ a, Gen.modes.reader.CheckCRC m f [] [] = .ok a ∧ a.toNat = address := by
  simp only [same_ReadMessage, same_CheckCRC]; exact @commB_reply_received

/-- `altitude_reply_end_to_end` (C86), of the translated code. -/
theorem code_altitude_reply_end_to_end :
    ∀ (fs dr iis ids address : Nat) (hfs : fs < 8) (hdr : dr < 32) (hiis : iis < 16) (hids : ids < 4) (h : ℝ) (c : Nat) (tol : ℝ)
    (hs : SendsAltitude h c tol) (f mb : List UInt8),
    (IsReply 4 (fs * 2 ^ 11 + dr * 2 ^ 6 + iis * 2 ^ 2 + ids) c [] address f →
      ∃ m, Gen.modes.reader.ReadMessage f = .ok (.df4 m) ∧ m.flightStatus.toNat = fs ∧ m.downlinkRequest.toNat = dr ∧ m.utilityMessage.interrogatorIdentifier.toNat = iis ∧
        m.utilityMessage.identifierDesignator.toNat = ids ∧ (m.altitudeReportMethod = .feet25 ∨ m.altitudeReportMethod = .feet100) ∧
        |(m.altitude : ℝ) - h| ≤ tol ∧ ∀ al il, IdentifiesSender al address (Gen.modes.reader.CheckCRC (.df4 m) f al il)) ∧
    (mb.length = 7 → IsReply 20 (fs * 2 ^ 11 + dr * 2 ^ 6 + iis * 2 ^ 2 + ids) c mb address f →
      ∃ m, Gen.modes.reader.ReadMessage f = .ok (.df20 m) ∧ m.flightStatus.toNat = fs ∧ m.downlinkRequest.toNat = dr ∧ m.utilityMessage.interrogatorIdentifier.toNat = iis ∧
        m.utilityMessage.identifierDesignator.toNat = ids ∧ m.messageCommB = mb ∧ (m.altitudeReportMethod = .feet25 ∨ m.altitudeReportMethod = .feet100) ∧
        |(m.altitude : ℝ) - h| ≤ tol ∧ ∀ al il, IdentifiesSender al address (Gen.modes.reader.CheckCRC (.df20 m) f al il)) := by
  simp only [same_ReadMessage, same_CheckCRC]; exact @altitude_reply_end_to_end

/-- `identity_reply_end_to_end` (C86), of the translated code. -/
theorem code_identity_reply_end_to_end :
    ∀ (fs dr iis ids address : Nat) (hfs : fs < 8) (hdr : dr < 32) (hiis : iis < 16) (hids : ids < 4) (a b c d : Nat) (ha : a < 8)
    (hb : b < 8) (hc : c < 8) (hd : d < 8) (f mb : List UInt8),
    (IsReply 5 (fs * 2 ^ 11 + dr * 2 ^ 6 + iis * 2 ^ 2 + ids) (squawkCode a b c d) [] address f →
      ∃ m, Gen.modes.reader.ReadMessage f = .ok (.df5 m) ∧ m.flightStatus.toNat = fs ∧ m.downlinkRequest.toNat = dr ∧ m.utilityMessage.interrogatorIdentifier.toNat = iis ∧
        m.utilityMessage.identifierDesignator.toNat = ids ∧ m.identity = digitsText [a, b, c, d] ∧ ∀ al il, IdentifiesSender al address (Gen.modes.reader.CheckCRC (.df5 m) f al il)) ∧
    (mb.length = 7 → IsReply 21 (fs * 2 ^ 11 + dr * 2 ^ 6 + iis * 2 ^ 2 + ids) (squawkCode a b c d) mb address f →
      ∃ m, Gen.modes.reader.ReadMessage f = .ok (.df21 m) ∧ m.flightStatus.toNat = fs ∧ m.downlinkRequest.toNat = dr ∧ m.utilityMessage.interrogatorIdentifier.toNat = iis ∧
        m.utilityMessage.identifierDesignator.toNat = ids ∧ m.messageCommB = mb ∧ m.identity = digitsText [a, b, c, d] ∧
        ∀ al il, IdentifiesSender al address (Gen.modes.reader.CheckCRC (.df21 m) f al il)) := by
  simp only [same_ReadMessage, same_CheckCRC]; exact @identity_reply_end_to_end

/-- `airAir_reply_end_to_end` (C86), of the translated code. -/
theorem code_airAir_reply_end_to_end :
    ∀ (vs cc sl ri address : Nat) (hvs : vs < 2) (hcc : cc < 2) (hsl : sl < 8) (hri : ri < 16) (h : ℝ) (c : Nat) (tol : ℝ)
    (hs : SendsAltitude h c tol) (f mv : List UInt8),
    (IsReply 0 (vs * 2 ^ 13 + cc * 2 ^ 12 + sl * 2 ^ 8 + ri * 2 ^ 2) c [] address f →
      ∃ m, Gen.modes.reader.ReadMessage f = .ok (.df0 m) ∧ m.verticalStatus.toNat = vs ∧ m.crossLinkCapability.toNat = cc ∧ m.sensitivityLevel.toNat = sl ∧
        m.replyInformation.toNat = ri ∧ (m.altitudeReportMethod = .feet25 ∨ m.altitudeReportMethod = .feet100) ∧
        |(m.altitude : ℝ) - h| ≤ tol ∧ ∀ al il, IdentifiesSender al address (Gen.modes.reader.CheckCRC (.df0 m) f al il)) ∧
    (mv.length = 7 → IsReply 16 (vs * 2 ^ 13 + sl * 2 ^ 8 + ri * 2 ^ 2) c mv address f →
      ∃ m, Gen.modes.reader.ReadMessage f = .ok (.df16 m) ∧ m.verticalStatus.toNat = vs ∧ m.sensitivityLevel.toNat = sl ∧
        m.replyInformation.toNat = ri ∧ m.messageACAS = mv ∧ (m.altitudeReportMethod = .feet25 ∨ m.altitudeReportMethod = .feet100) ∧
        |(m.altitude : ℝ) - h| ≤ tol ∧ ∀ al il, IdentifiesSender al address (Gen.modes.reader.CheckCRC (.df16 m) f al il)) := by
  simp only [same_ReadMessage, same_CheckCRC]; exact @airAir_reply_end_to_end

/-- `allCall_end_to_end` (C86), of the translated code. -/
theorem code_allCall_end_to_end :
    ∀ (ca address code : Nat) (hca : ca < 8) (haa : address < 2 ^ 24) (f p : List UInt8) (hp : p.length = 3)
    (hf : f = toBytes 4 (11 * 2 ^ 27 + ca * 2 ^ 24 + address) ++ p) (ho : Overlaid f code),
    ∃ m, Gen.modes.reader.ReadMessage f = .ok (.df11 m) ∧ m.capability.toNat = ca ∧ m.addressAnnounced.toNat = address ∧
      ∀ al il, IdentifiesSender il code (Gen.modes.reader.CheckCRC (.df11 m) f al il) := by
  simp only [same_ReadMessage, same_CheckCRC]; exact @allCall_end_to_end

/-- `reply_received` (C86), of the translated code. -/
theorem code_reply_received :
    ∀ {format header code : Nat} {field : List UInt8} {address : Nat} {f : List UInt8}
    (hfo : (format ∈ [0, 4, 5] ∧ field.length = 0) ∨ (format ∈ [16, 20, 21] ∧ field.length = 7)) (hh : header < 2 ^ 14) (hc : code < 2 ^ 13)
    (halt : format ∈ altitudeFormats → ¬ AltitudeIllegal code) (h : IsReply format header code field address f),
    ∃ m, Gen.modes.reader.ReadMessage f = .ok m ∧ m.getDownLinkFormat = format ∧ bits f 20 32 = code ∧
      ∀ al il, IdentifiesSender al address (Gen.modes.reader.CheckCRC m f al il) := by
  simp only [same_ReadMessage, same_CheckCRC]; exact @reply_received

/-- `advisory_read_partial` (C91), of the translated code. -/
theorem code_advisory_read_partial :
    ∀ (advice : Advice) (several below above left right terminated : Bool) (threat : Threat) (ht : threat.Fits),
    (∃ m, Gen.acas.ra.ReadResolutionAdvisory (advisoryField advice several below above left right terminated threat) = .ok m ∧
      ReceivedAdvisory advice several below above left right terminated threat m) ↔ ReadableThreat threat := by
  simp only [translated]; exact @advisory_read_partial

/-- `advisory_airAir_partial` (C91), of the translated code. -/
theorem code_advisory_airAir_partial :
    ∀ (vs sl ri address : Nat) (hvs : vs < 2) (hsl : sl < 8) (hri : ri < 16) (h : ℝ) (c : Nat) (tol : ℝ) (hs : SendsAltitude h c tol)
    (advice : Advice) (several below above left right terminated : Bool) (threat : Threat) (ht : threat.Fits) (f : List UInt8)
    (hf : IsReply 16 (vs * 2 ^ 13 + sl * 2 ^ 8 + ri * 2 ^ 2) c (0x30 :: advisoryField advice several below above left right terminated threat) address f),
    ∃ m, Gen.modes.reader.ReadMessage f = .ok (.df16 m) ∧ (∀ al il, IdentifiesSender al address (Gen.modes.reader.CheckCRC (.df16 m) f al il)) ∧
      ((∃ ra, Gen.acas.ra.ReadResolutionAdvisory (m.messageACAS.drop 1) = .ok ra ∧ ReceivedAdvisory advice several below above left right terminated threat ra) ↔
        ReadableThreat threat) := by
  simp only [same_ReadMessage, same_CheckCRC, translated]; exact @advisory_airAir_partial

/-- `operational_delivered` (C94), of the translated code. -/
theorem code_operational_delivered :
    ∀ (v : UInt8) (s t : Bool) (capability address : Nat) (hca : capability < 8) (haa : address < 2 ^ 24) (d f : List UInt8)
    (hacc : OpAccepted d) (hf : IsSquitter capability address d f),
    ∃ m, Gen.bds.bds65.ReadAircraftOperationalStatus d = .ok m ∧ ReceivesADSB v s t f address (.operationalStatus m m.getADSBLevel) := by
  simp only [translated]; exact @operational_delivered

/-- `overlaid_never_refused` (C97), of the translated code. -/
theorem code_overlaid_never_refused :
    ∀ (g : List UInt8) (m : ModeSMessage) (h : Gen.modes.reader.ReadMessage g = .ok m)
    (hg : bits g 1 5 ≠ 11 ∧ bits g 1 5 ≠ 17 ∧ bits g 1 5 ≠ 18),
    ∃ b, Passes g b := by
  simp only [same_ReadMessage]; exact @overlaid_never_refused

/-- `plain_output` (C98), of the translated code. -/
theorem code_plain_output :
    ∀ (F : FloatTexts) (E : ErrorTexts) (s f : List UInt8) (level : UInt8) (hs : Spells s f) (hf : FrameAccepted f)
    (hfmt : bits f 1 5 ∈ [0, 4, 5, 11, 19, 24]),
    ∃ a m l t, HeadNumber f a ∧ Gen.modes.reader.ReadMessage f = .ok m ∧ m.lines = .ok l ∧ printSingleLine F E s level = .ok t ∧
      t.splitOn '\n' = replyHead s (bits f 1 5) a ++ l.map cat ++ [[], [], []] := by
  simp only [same_ReadMessage]; exact @plain_output

/-- `commB_output` (C98), of the translated code. -/
theorem code_commB_output :
    ∀ (F : FloatTexts) (hF : F.Faithful) (E : ErrorTexts) (s f : List UInt8) (level : UInt8) (hs : Spells s f)
    (hf : FrameAccepted f) (hfmt : bits f 1 5 = 20 ∨ bits f 1 5 = 21),
    ∃ a m l c t, Overlaid f a ∧ Gen.modes.reader.ReadMessage f = .ok m ∧ m.lines = .ok l ∧ readCommBMessage (field56 f) = .ok (c.map Iface.val) ∧
      printSingleLine F E s level = .ok t ∧
      t.splitOn '\n' = replyHead s (bits f 1 5) a ++ l.map cat ++ (t! " -- Comm-B Information --" ::
        (if c = [] then [t! "Unknown message format"] else ruled (c.map fun m => (m.text F).splitOn '\n'))) ++ [[], []] := by
  simp only [same_ReadMessage]; exact @commB_output

/-- `acas_output` (C98), of the translated code. -/
theorem code_acas_output :
    ∀ (F : FloatTexts) (hF : F.Faithful) (E : ErrorTexts) (s f : List UInt8) (level : UInt8) (hs : Spells s f)
    (hf : FrameAccepted f) (hfmt : bits f 1 5 = 16) (h30 : bits f 33 40 = 0x30) (ra : ResolutionAdvisory)
    (hra : Gen.acas.ra.ReadResolutionAdvisory ((field56 f).drop 1) = .ok ra),
    ∃ a m l t, Overlaid f a ∧ Gen.modes.reader.ReadMessage f = .ok m ∧ m.lines = .ok l ∧ printSingleLine F E s level = .ok t ∧
      t.splitOn '\n' = replyHead s 16 a ++ l.map cat ++ (t! " -- ACAS Information --" :: (ra.lines F).map cat) ++ [[], []] := by
  simp only [same_ReadMessage, translated]; exact @acas_output

/-- `acas_unknown_output` (C98), of the translated code. -/
theorem code_acas_unknown_output :
    ∀ (F : FloatTexts) (E : ErrorTexts) (s f : List UInt8) (level : UInt8) (hs : Spells s f)
    (hf : FrameAccepted f) (hfmt : bits f 1 5 = 16) (h30 : bits f 33 40 ≠ 0x30),
    ∃ a m l t, Overlaid f a ∧ Gen.modes.reader.ReadMessage f = .ok m ∧ m.lines = .ok l ∧ printSingleLine F E s level = .ok t ∧
      t.splitOn '\n' = replyHead s 16 a ++ l.map cat ++ [t! " -- ACAS Information --",
        t! "Unknown message type: [" ++ [hexDigit (bits f 33 36)] ++ t! ":" ++ [hexDigit (bits f 37 40)] ++ t! "]"] ++ [[], []] := by
  simp only [same_ReadMessage]; exact @acas_unknown_output

/-- `squitter_content_output` (C98), of the translated code. -/
theorem code_squitter_content_output :
    ∀ (F : FloatTexts) (hF : F.Faithful) (E : ErrorTexts) (s f : List UInt8) (level : UInt8) (hs : Spells s f)
    (hf : Reported f) (hfmt : bits f 1 5 = 17 ∨ bits f 1 5 = 18 ∧ bits f 6 8 ≤ 1) (M : ADSBMessage)
    (hM : readADSBMessage level false false (field56 f) = .returns (.val M) false),
    ∃ m l t, Gen.modes.reader.ReadMessage f = .ok m ∧ m.lines = .ok l ∧ printSingleLine F E s level = .ok t ∧
      t.splitOn '\n' = replyHead s (bits f 1 5) (bits f 9 32) ++ l.map cat ++
        (t! " -- ADSB Information --" :: (M.text F).splitOn '\n') ++ [[], []] := by
  simp only [same_ReadMessage]; exact @squitter_content_output

/-- `squitter_not_adsb_output` (C98), of the translated code. -/
theorem code_squitter_not_adsb_output :
    ∀ (F : FloatTexts) (E : ErrorTexts) (s f : List UInt8) (level : UInt8) (hs : Spells s f)
    (hf : Reported f) (hfmt : bits f 1 5 = 18) (hcf : 2 ≤ bits f 6 8),
    ∃ m l t, Gen.modes.reader.ReadMessage f = .ok m ∧ m.lines = .ok l ∧ printSingleLine F E s level = .ok t ∧
      t.splitOn '\n' = replyHead s 18 (bits f 9 32) ++ l.map cat ++
        (if bits f 6 8 ≤ 5 then [t! " -- TISB Information --", t! "Not implemented"] else []) ++ [[], []] := by
  simp only [same_ReadMessage]; exact @squitter_not_adsb_output

/-- `frame_reason` (C100), of the translated code. -/
theorem code_frame_reason :
    ∀ (f : List UInt8),
    (∀ t, frameError f = some t → FrameReason f t) ∧ ((∃ t, frameError f = some t) ↔ ¬ Succeeds (Gen.modes.reader.ReadMessage f)) := by
  simp only [same_ReadMessage]; exact @frame_reason

/-- `advisory_refused` (C100), of the translated code. -/
theorem code_advisory_refused :
    ∀ (d : List UInt8),
    advisoryError d = none ↔ Succeeds (Gen.acas.ra.ReadResolutionAdvisory d) := by
  simp only [translated]; exact @advisory_refused

/-- `frame_refusal_printed` (C100), of the translated code. -/
theorem code_frame_refusal_printed :
    ∀ (F : FloatTexts) (s f : List UInt8) (level : UInt8) (hs : Spells s f) (h : ¬ Succeeds (Gen.modes.reader.ReadMessage f)),
    ∃ t, FrameReason f t ∧ printSingleLine F goErrors s level = .ok (t! "Reading: " ++ asciiText s ++ t! "\n" ++ t ++ t! "\n") := by
  simp only [same_ReadMessage]; exact @frame_refusal_printed

/-- `parity_refusal_printed` (C100), of the translated code. -/
theorem code_parity_refusal_printed :
    ∀ (F : FloatTexts) (s f : List UInt8) (level : UInt8) (hs : Spells s f) (ha : Succeeds (Gen.modes.reader.ReadMessage f))
    (hf : bits f 1 5 = 17 ∨ bits f 1 5 = 18) (hc : ¬ generator ∣ messagePoly f),
    printSingleLine F goErrors s level =
      .ok (t! "Reading: " ++ asciiText s ++ t! "\n" ++ t! "the message does not have a valid CRC\n") := by
  simp only [same_ReadMessage]; exact @parity_refusal_printed

/-- `adsb_refusal_printed_partial` (C100), of the translated code. -/
theorem code_adsb_refusal_printed_partial :
    ∀ (F : FloatTexts) (s f : List UInt8) (level : UInt8) (hl : level.toNat ≤ 2) (hs : Spells s f)
    (ha : Succeeds (Gen.modes.reader.ReadMessage f)) (hf : bits f 1 5 = 17 ∨ (bits f 1 5 = 18 ∧ bits f 6 8 ≤ 1)) (hc : generator ∣ messagePoly f)
    (hn : ¬ AdsbAccepted level.toNat (field56 f)),
    ∃ body t, adsbError (field56 f) = some t ∧
      printSingleLine F goErrors s level = .ok (t! "Reading: " ++ asciiText s ++ t! "\n" ++ t! " -- Mode-S Information --\n" ++
        t! "From: " ++ addressText (bits f 9 32) ++ t! " \n" ++ body ++ t! "\n" ++ t! " -- ADSB Information --\n" ++ t ++ t! "\n\n") ∧
      ((bits (field56 f) 1 5 = 31 → bits (field56 f) 41 43 ≤ 2) →
        (bits (field56 f) 1 5 = 28 → bits (field56 f) 6 8 = 2 → bits (field56 f) 29 30 = 2 → bits (field56 f) 31 32 = 0) →
        SquitterReason (field56 f) t) := by
  simp only [same_ReadMessage]; exact @adsb_refusal_printed_partial

/-- `acas_refusal_printed_partial` (C100), of the translated code. -/
theorem code_acas_refusal_printed_partial :
    ∀ (F : FloatTexts) (s f : List UInt8) (level : UInt8) (hs : Spells s f)
    (ha : Succeeds (Gen.modes.reader.ReadMessage f)) (hf : bits f 1 5 = 16) (h30 : bits f 33 40 = 0x30)
    (hn : ¬ Succeeds (Gen.acas.ra.ReadResolutionAdvisory ((field56 f).drop 1))),
    ∃ address body, Overlaid f address ∧
      printSingleLine F goErrors s level = .ok (t! "Reading: " ++ asciiText s ++ t! "\n" ++ t! " -- Mode-S Information --\n" ++
        t! "From: " ++ addressText address ++ t! " \n" ++ body ++ t! "\n" ++ t! " -- ACAS Information --\n" ++
        t! "the Altitude field is malformed\n\n") ∧
      bits f 61 62 = 2 ∧ (bits f 63 64 = 0 → TIDIllegal (bits f 63 75)) := by
  simp only [same_ReadMessage, translated]; exact @acas_refusal_printed_partial

/-- `bds00_reason` (C103), of the translated code. -/
theorem code_bds00_reason :
    ∀ (d : List UInt8),
    (bds00Error d = none ↔ Succeeds (Gen.bds.bds00.ReadNoMessageAvailable d)) ∧ ∀ t, bds00Error d = some t → TrueIn (readReasons00 d) t := by
  simp only [translated]; exact @bds00_reason

/-- `bds07_reason` (C103), of the translated code. -/
theorem code_bds07_reason :
    ∀ (d : List UInt8),
    (bds07Error d = none ↔ Succeeds (Gen.bds.bds07.ReadStatus d)) ∧ ∀ t, bds07Error d = some t → TrueIn (readReasons07 d) t := by
  simp only [translated]; exact @bds07_reason

/-- `bds10_reason` (C103), of the translated code. -/
theorem code_bds10_reason :
    ∀ (d : List UInt8),
    (bds10Error d = none ↔ Succeeds (Gen.bds.bds10.ReadDataLinkCapabilityReport d)) ∧ ∀ t, bds10Error d = some t → TrueIn (readReasons10 d) t := by
  simp only [translated]; exact @bds10_reason

/-- `bds17_reason` (C103), of the translated code. -/
theorem code_bds17_reason :
    ∀ (d : List UInt8),
    (bds17Error d = none ↔ Succeeds (Gen.bds.bds17.ReadCommonUsageGICBCapabilityReport d)) ∧ ∀ t, bds17Error d = some t → TrueIn (readReasons17 d) t := by
  simp only [translated]; exact @bds17_reason

/-- `bds20_reason` (C103), of the translated code. -/
theorem code_bds20_reason :
    ∀ (d : List UInt8),
    (bds20Error d = none ↔ Succeeds (Gen.bds.bds20.ReadAircraftIdentification d)) ∧ ∀ t, bds20Error d = some t → TrueIn (readReasons20 d) t := by
  simp only [translated]; exact @bds20_reason

/-- `bds30_reason_partial` (C103), of the translated code. -/
theorem code_bds30_reason_partial :
    ∀ (d : List UInt8),
    (bds30Error d = none ↔ Succeeds (Gen.bds.bds30.ReadACASResolutionAdvisory d)) ∧
    (bits d 1 8 ≠ 0x20 → (bits d 29 30 = 2 → bits d 31 32 = 0) → ∀ t, bds30Error d = some t → TrueIn (readReasons30 d) t) := by
  simp only [translated]; exact @bds30_reason_partial

/-- `bds40_reason` (C103), of the translated code. -/
theorem code_bds40_reason :
    ∀ (d : List UInt8),
    (bds40Error d = none ↔ Succeeds (Gen.bds.bds40.ReadSelectedVerticalIntention d)) ∧ ∀ t, bds40Error d = some t → TrueIn (readReasons40 d) t := by
  simp only [translated]; exact @bds40_reason

/-- `bds44V_reason` (C103), of the translated code. -/
theorem code_bds44V_reason :
    ∀ (d : List UInt8),
    ((bds44V0Error d = none ↔ Succeeds (Gen.bds.bds44.ReadMeteorologicalRoutineAirReportV0 d)) ∧ ∀ t, bds44V0Error d = some t → TrueIn (readReasons44V d) t) ∧
    ((bds44V1Error d = none ↔ Succeeds (Gen.bds.bds44.ReadMeteorologicalRoutineAirReportV1 d)) ∧ ∀ t, bds44V1Error d = some t → TrueIn (readReasons44V d) t) ∧
    ((bds44V2Error d = none ↔ Succeeds (Gen.bds.bds44.ReadMeteorologicalRoutineAirReportV2 d)) ∧ ∀ t, bds44V2Error d = some t → TrueIn (readReasons44V d) t) := by
  simp only [translated]; exact @bds44V_reason

/-- `bds45_reason` (C103), of the translated code. -/
theorem code_bds45_reason :
    ∀ (d : List UInt8),
    ((bds45V0Error d = none ↔ Succeeds (Gen.bds.bds45.ReadMeteorologicalHazardReportV0 d)) ∧ ∀ t, bds45V0Error d = some t → TrueIn (readReasons45V d) t) ∧
    ((bds45V1Error d = none ↔ Succeeds (Gen.bds.bds45.ReadMeteorologicalHazardReportV1 d)) ∧ ∀ t, bds45V1Error d = some t → TrueIn (readReasons45V d) t) ∧
    (bds45Error d = none ↔ ∃ m, readBDS45 d = .returns (.val m) false) ∧
    ∀ t, bds45Error d = some t → TrueIn (readReasonsLength d (decimal d.length) ++ readReasons45V d) t := by
  simp only [translated]; exact @bds45_reason

/-- `bds50_60_reason` (C103), of the translated code. -/
theorem code_bds50_60_reason :
    ∀ (d : List UInt8),
    (bds50Error d = none ↔ Succeeds (Gen.bds.bds50.ReadTrackAndTurnReport d)) ∧ (∀ t, bds50Error d = some t → TrueIn (readReasons50 d) t) ∧
    (bds60Error d = none ↔ Succeeds (Gen.bds.bds60.ReadHeadingAndSpeedReport d)) ∧ (∀ t, bds60Error d = some t → TrueIn (readReasons60 d) t) := by
  simp only [translated]; exact @bds50_60_reason

/-- `bds07_incoherence` (C103), of the translated code. -/
theorem code_bds07_incoherence :
    ∀ (d : List UInt8) (m : Status07) (h : Gen.bds.bds07.ReadStatus d = .ok m),
    ∀ t, m.incoherence = some t → TrueIn (reasons07 d) t := by
  simp only [translated]; exact @bds07_incoherence

/-- `bds08_incoherence` (C103), of the translated code. -/
theorem code_bds08_incoherence :
    ∀ (d : List UInt8) (m : IdentificationAndCategory) (h : Gen.bds.bds08.ReadAircraftIdentificationAndCategory d = .ok m),
    ∀ t, m.incoherence = some t → TrueIn (reasons08 d) t := by
  simp only [translated]; exact @bds08_incoherence

/-- `bds10_incoherence` (C103), of the translated code. -/
theorem code_bds10_incoherence :
    ∀ (d : List UInt8) (m : DataLinkCapabilityReport) (h : Gen.bds.bds10.ReadDataLinkCapabilityReport d = .ok m),
    ∀ t, m.incoherence = some t → TrueIn (reasons10 d) t := by
  simp only [translated]; exact @bds10_incoherence

/-- `bds20_incoherence` (C103), of the translated code. -/
theorem code_bds20_incoherence :
    ∀ (d : List UInt8) (m : AircraftIdentification) (h : Gen.bds.bds20.ReadAircraftIdentification d = .ok m),
    ∀ t, m.incoherence = some t → TrueIn (reasons20 d) t := by
  simp only [translated]; exact @bds20_incoherence

/-- `bds40_reason_actual` (C103), of the translated code. -/
theorem code_bds40_reason_actual :
    ∀ (d : List UInt8) (m : SelectedVerticalIntention) (h : Gen.bds.bds40.ReadSelectedVerticalIntention d = .ok m),
    m.incoherence =
      if bit d 1 = false ∧ bit d 14 = false then some (t! "the message does not convey any information")
      else if bit d 1 = false ∧ bits d 15 26 ≠ 0 then
        some (t! "the MCP/FCU SelectedAltitude status is set to false, but a MCP/FCU SelectedAltitude value is given")
      else if bit d 14 = false ∧ bits d 2 13 ≠ 0 then
        some (t! "the FMS SelectedAltitude status is set to false, but a FMS SelectedAltitude value is given")
      else if bit d 1 = false then
        some (t! "the BarometricPressureSetting status is set to false, but a BarometricPressureSetting value is given")
      else none := by
  simp only [translated]; exact @bds40_reason_actual

/-- `bds40_incoherence_partial` (C103), of the translated code. -/
theorem code_bds40_incoherence_partial :
    ∀ (d : List UInt8) (m : SelectedVerticalIntention) (h : Gen.bds.bds40.ReadSelectedVerticalIntention d = .ok m)
    (ha : bits d 2 13 = 0 ↔ bits d 15 26 = 0) (hp : bit d 27 = bit d 1) (hz : bits d 28 39 ≠ 0) (h48 : bit d 48 = false)
    (h54 : bit d 54 = false),
    ∀ t, m.incoherence = some t → TrueIn (reasons40 d) t := by
  simp only [translated]; exact @bds40_incoherence_partial

/-- `bds40_reasons_refuted` (C103), of the translated code. -/
theorem code_bds40_reasons_refuted :
    (∃ d m, Gen.bds.bds40.ReadSelectedVerticalIntention d = .ok m ∧ m.incoherence = some (t! "the message does not convey any information") ∧ bit d 27 = true) ∧
    (∃ d m, Gen.bds.bds40.ReadSelectedVerticalIntention d = .ok m ∧ m.incoherence = some (t! "the message does not convey any information") ∧ bit d 48 = true) ∧
    (∃ d m, Gen.bds.bds40.ReadSelectedVerticalIntention d = .ok m ∧
      m.incoherence = some (t! "the MCP/FCU SelectedAltitude status is set to false, but a MCP/FCU SelectedAltitude value is given") ∧
      bits d 2 13 = 0) ∧
    (∃ d m, Gen.bds.bds40.ReadSelectedVerticalIntention d = .ok m ∧
      m.incoherence = some (t! "the FMS SelectedAltitude status is set to false, but a FMS SelectedAltitude value is given") ∧
      bits d 15 26 = 0) ∧
    (∃ d m, Gen.bds.bds40.ReadSelectedVerticalIntention d = .ok m ∧
      m.incoherence = some (t! "the BarometricPressureSetting status is set to false, but a BarometricPressureSetting value is given") ∧
      bits d 27 39 = 0) := by
  simp only [translated]; exact @bds40_reasons_refuted

/-- `bds44V0_incoherence_partial` (C103), of the translated code. -/
theorem code_bds44V0_incoherence_partial :
    ∀ (d : List UInt8) (m : RoutineAirReportV0) (h : Gen.bds.bds44.ReadMeteorologicalRoutineAirReportV0 d = .ok m),
    ∀ t, m.incoherence = some t → t ≠ t! "the message does not convey any information" →
      t ≠ t! "the static air temperature is to high or to low (-80 <= temp <= 60)" → TrueIn (reasons44V0 d) t := by
  simp only [translated]; exact @bds44V0_incoherence_partial

/-- `bds44V0_reasons_refuted` (C103), of the translated code. -/
theorem code_bds44V0_reasons_refuted :
    (∃ d m, Gen.bds.bds44.ReadMeteorologicalRoutineAirReportV0 d = .ok m ∧ m.incoherence = some (t! "the message does not convey any information") ∧ sbits d 24 34 = 25 * 4) ∧
    (∃ d m, Gen.bds.bds44.ReadMeteorologicalRoutineAirReportV0 d = .ok m ∧
      m.incoherence = some (t! "the static air temperature is to high or to low (-80 <= temp <= 60)") ∧ sbits d 24 34 = 25 * 4) := by
  simp only [translated]; exact @bds44V0_reasons_refuted

/-- `bds44V1_incoherence_partial` (C103), of the translated code. -/
theorem code_bds44V1_incoherence_partial :
    ∀ (d : List UInt8) (m : RoutineAirReportV1) (h : Gen.bds.bds44.ReadMeteorologicalRoutineAirReportV1 d = .ok m) (h48 : bit d 48 = false),
    ∀ t, m.incoherence = some t → TrueIn (reasons44 d) t := by
  simp only [translated]; exact @bds44V1_incoherence_partial

/-- `bds44V2_incoherence_partial` (C103), of the translated code. -/
theorem code_bds44V2_incoherence_partial :
    ∀ (d : List UInt8) (m : RoutineAirReportV2) (h : Gen.bds.bds44.ReadMeteorologicalRoutineAirReportV2 d = .ok m) (h48 : bit d 48 = false),
    ∀ t, m.incoherence = some t → TrueIn (reasons44 d) t := by
  simp only [translated]; exact @bds44V2_incoherence_partial

/-- `bds44_reasons_refuted` (C103), of the translated code. -/
theorem code_bds44_reasons_refuted :
    (∃ d m, Gen.bds.bds44.ReadMeteorologicalRoutineAirReportV1 d = .ok m ∧ m.incoherence = some (t! "the message does not convey any information") ∧ bit d 48 = true) ∧
    (∃ d m, Gen.bds.bds44.ReadMeteorologicalRoutineAirReportV2 d = .ok m ∧ m.incoherence = some (t! "the message does not convey any information") ∧ bit d 48 = true) := by
  simp only [translated]; exact @bds44_reasons_refuted

/-- `bds45V0_incoherence` (C103), of the translated code. -/
theorem code_bds45V0_incoherence :
    ∀ (d : List UInt8) (m : HazardReportV0) (h : Gen.bds.bds45.ReadMeteorologicalHazardReportV0 d = .ok m),
    ∀ t, m.incoherence = some t → TrueIn (reasons45V0 d) t := by
  simp only [translated]; exact @bds45V0_incoherence

/-- `bds45V1_incoherence` (C103), of the translated code. -/
theorem code_bds45V1_incoherence :
    ∀ (d : List UInt8) (m : HazardReportV1) (h : Gen.bds.bds45.ReadMeteorologicalHazardReportV1 d = .ok m),
    ∀ t, m.incoherence = some t → TrueIn (reasons45V1 d) t := by
  simp only [translated]; exact @bds45V1_incoherence

/-- `bds50_incoherence` (C103), of the translated code. -/
theorem code_bds50_incoherence :
    ∀ (d : List UInt8) (m : TrackAndTurnReport) (h : Gen.bds.bds50.ReadTrackAndTurnReport d = .ok m),
    ∀ t, m.incoherence = some t → TrueIn (reasons50 d) t := by
  simp only [translated]; exact @bds50_incoherence

/-- `bds60_incoherence` (C103), of the translated code. -/
theorem code_bds60_incoherence :
    ∀ (d : List UInt8) (m : HeadingAndTrackReport) (h : Gen.bds.bds60.ReadHeadingAndSpeedReport d = .ok m),
    ∀ t, m.incoherence = some t → TrueIn (reasons60 d) t := by
  simp only [translated]; exact @bds60_incoherence

/-- `bds61_incoherence_partial` (C103), of the translated code. -/
theorem code_bds61_incoherence_partial :
    ∀ (d : List UInt8) (m : AircraftStatus) (h : Gen.bds.bds61.ReadAircraftStatus d = .ok m) (h6 : bits d 9 11 ≠ 6),
    ∀ t, m.incoherence = some t → TrueIn (reasons61 d) t := by
  simp only [translated]; exact @bds61_incoherence_partial

/-- `bds61_reasons_refuted` (C103), of the translated code. -/
theorem code_bds61_reasons_refuted :
    ∃ d m, Gen.bds.bds61.ReadAircraftStatus d = .ok (.emergency m) ∧
      (AircraftStatus.emergency m).incoherence = some (t! "field EmergencyPriorityStatus is a Reserved value") ∧
      Text.bds61EmergencyPriorityStatus m.emergencyPriorityStatus = t! "6 - downed aircraft" := by
  simp only [translated]; exact @bds61_reasons_refuted

/-- `airborne_register_reason` (C104), of the translated code. -/
theorem code_airborne_register_reason :
    ∀ (d : List UInt8),
    (airborneError d = none ↔ Succeeds (Gen.bds.bds05.ReadAirbornePosition d)) ∧ ∀ t, airborneError d = some t → TrueIn (airborneReasons d) t := by
  simp only [translated]; exact @airborne_register_reason

/-- `surface_register_reason` (C104), of the translated code. -/
theorem code_surface_register_reason :
    ∀ (d : List UInt8),
    (surfaceError d = none ↔ Succeeds (Gen.bds.bds06.ReadSurfacePosition d)) ∧ ∀ t, surfaceError d = some t → TrueIn (surfaceReasons d) t := by
  simp only [translated]; exact @surface_register_reason

/-- `identification_register_reason` (C104), of the translated code. -/
theorem code_identification_register_reason :
    ∀ (d : List UInt8),
    (identificationError d = none ↔ Succeeds (Gen.bds.bds08.ReadAircraftIdentificationAndCategory d)) ∧ ∀ t, identificationError d = some t → TrueIn (identificationReasons d) t := by
  simp only [translated]; exact @identification_register_reason

/-- `velocity_register_reason` (C104), of the translated code. -/
theorem code_velocity_register_reason :
    ∀ (d : List UInt8),
    (velocityError d = none ↔ Succeeds (Gen.bds.bds09.ReadAirborneVelocity d)) ∧ ∀ t, velocityError d = some t → TrueIn (velocityReasons d) t := by
  simp only [translated]; exact @velocity_register_reason

/-- `status_register_refused` (C104), of the translated code. -/
theorem code_status_register_refused :
    ∀ (d : List UInt8),
    statusError d = none ↔ Succeeds (Gen.bds.bds61.ReadAircraftStatus d) := by
  simp only [translated]; exact @status_register_refused

/-- `operational_register_refused` (C104), of the translated code. -/
theorem code_operational_register_refused :
    ∀ (d : List UInt8),
    operationalError d = none ↔ Succeeds (Gen.bds.bds65.ReadAircraftOperationalStatus d) := by
  simp only [translated]; exact @operational_register_refused

/-- `concurrent_calls` (C105), of the translated code. -/
theorem code_concurrent_calls :
    ∀ (h : Heap) (messages : List Slice) (hv : ∀ m ∈ messages, m.Valid h) (schedule : List Event)
    (hq : Quiet h messages schedule),
    (∀ m ∈ messages, (runCalls h messages schedule).heap.view m = h.view m) ∧
    (∀ (i : Nat) m r, messages[i]? = some m → (runCalls h messages schedule).states[i]? = some (.done r) →
      (∀ e, r = .error e → Gen.modes.reader.ReadMessage (h.view m) = .error e) ∧
      ∀ v ms, r = .ok (v, ms) → Gen.modes.reader.ReadMessage (h.view m) = .ok v ∧
        v.byteField = ms.field.map (runCalls h messages schedule).heap.view ∧
        (runCalls h messages schedule).heap.view ms.payload = ((h.view m).take (m.len - 3)).drop 1 ∧
        (runCalls h messages schedule).heap.view ms.parity = (h.view m).drop (m.len - 3)) ∧
    (∀ (i j : Nat) vi mi vj mj fi fj, i ≠ j → (runCalls h messages schedule).states[i]? = some (.done (.ok (vi, mi))) →
      (runCalls h messages schedule).states[j]? = some (.done (.ok (vj, mj))) → mi.field = some fi → mj.field = some fj →
      fi.arr ≠ fj.arr) ∧
    ∀ i < messages.length, 22 ≤ schedule.count (.call i) → ∃ r, (runCalls h messages schedule).states[i]? = some (.done r) := by
  simp only [same_ReadMessage]; exact @concurrent_calls

/-- `checkCRC_reasons` (C106), of the translated code. -/
theorem code_checkCRC_reasons :
    ∀ (f : List UInt8) (m : ModeSMessage) (h : Gen.modes.reader.ReadMessage f = .ok m) (al il : AllowList) (e : Txt),
    crcError m f al il = some e ↔
      ((bits f 1 5 = 17 ∨ bits f 1 5 = 18) ∧ ¬ generator ∣ messagePoly f ∧ e = t! "the message does not have a valid CRC") ∨
      (bits f 1 5 = 11 ∧ (∃ a : UInt32, Overlaid f a.toNat ∧ ¬ Allowed il a) ∧
        e = t! "the message parity resolves to an unknown Interrogator Identifier") ∨
      ((bits f 1 5 ≠ 11 ∧ bits f 1 5 ≠ 17 ∧ bits f 1 5 ≠ 18) ∧ (∃ a : UInt32, Overlaid f a.toNat ∧ ¬ Allowed al a) ∧
        e = t! "the message parity resolves to an unknown Address") := by
  simp only [same_ReadMessage]; exact @checkCRC_reasons

end Modes
