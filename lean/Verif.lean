import Verif.Props.Fields
import Verif.Props.Frame
import Verif.Props.Altitude
import Verif.Props.Alias
import Verif.Props.CRC
import Verif.Props.ACAS
import Verif.Props.BDS05
import Verif.Props.BDS06
import Verif.Props.Ident
import Verif.Props.BDS09
import Verif.Props.Velocity
import Verif.Props.BDS61
import Verif.Props.BDS65
import Verif.Props.BDS62
import Verif.Props.ADSB
import Verif.Props.CommBSmall
import Verif.Props.BDS5060
import Verif.Props.BDS40
import Verif.Props.BDS44
import Verif.Props.BDS45
import Verif.Props.CommB
import Verif.Props.GeoNL
import Verif.Props.GeoDistance
import Verif.Props.GeoAirborne
import Verif.Props.GeoSurface
import Verif.Props.Main
import Verif.Model.GeoFloat
import Verif.Lemmas.FloatR
import Verif.Lemmas.Taylor
import Verif.Lemmas.NLGrid
import Verif.Props.GeoFloat
import Verif.Props.GeoFloatNL
import Verif.Props.GeoFloatLocal
import Verif.Props.GeoFloatSurface
import Verif.Props.ADSBCoherent
import Verif.Props.Bounds
import Verif.Model.TextModeS
import Verif.Props.Texts
import Verif.Props.TextModeS
import Verif.Model.TextRegisters
import Verif.Lemmas.TextLines
import Verif.Props.TextFields
import Verif.Props.TextRA
import Verif.Props.TextADSB
import Verif.Props.TextCommB
import Verif.Props.TextShows
import Verif.Props.TextShowsCapability
import Verif.Props.TextShowsOperational
import Verif.Spec.Transmit
import Verif.Spec.Reasons
import Verif.Props.EndToEnd
import Verif.Model.Program
import Verif.Props.Program
import Verif.Props.CommandLine
import Verif.Model.Accessors
import Verif.Props.Accessors
import Verif.Props.Direct
import Verif.Lemmas.FloatMono
import Verif.Lemmas.Near
import Verif.Lemmas.GeoErr
import Verif.Props.GeoFloatDistance
import Verif.Props.EndToEndVelocity
import Verif.Model.VelocityFloat
import Verif.Props.VelocityFloat
import Verif.Props.EndToEndCommB
import Verif.Props.UnitTests
import Verif.Props.UnitTestsGeo
import Verif.Props.EndToEndSurveillance
import Verif.Props.EndToEndMet
import Verif.Props.EndToEndACAS
import Verif.Props.EndToEndCapability
import Verif.Spec.Pack
import Verif.Lemmas.Pack
import Verif.Props.EndToEndOperational
import Verif.Props.CommBRegisters
import Verif.Props.EndToEndStatus
import Verif.Props.History
import Verif.Props.ToldApart
import Verif.Props.ToldApartADSB
import Verif.Props.CRCLimits
import Verif.Props.ProgramReplies
import Verif.Witness.ModeS
import Verif.Witness.ADSB
import Verif.Witness.CommB
import Verif.Witness.Geo
import Verif.Witness.Text
import Verif.Witness.EndToEnd
import Verif.Witness.ToldApart
import Verif.Witness.Replies
import Verif.Model.GeoSpecial
import Verif.Props.GeoSpecial
import Verif.Witness.Special
import Verif.Model.Errors
import Verif.Props.Errors
import Verif.Witness.Errors
import Verif.Model.Numeral
import Verif.Props.Numeral
import Verif.Witness.Numeral
import Verif.Model.FloatText
import Verif.Model.Reasons
import Verif.Lemmas.FloatEval
import Verif.Lemmas.FloatTextEval
import Verif.Props.FloatText
import Verif.Props.GoFloats
import Verif.Props.Numbers
import Verif.Props.Reasons
import Verif.Witness.Numbers
import Verif.Witness.Reasons
import Verif.Model.ReaderErrors
import Verif.Spec.ReaderReasons
import Verif.Props.ReaderReasons
import Verif.Witness.ReaderReasons
import Verif.Model.Concurrent
import Verif.Props.Concurrent
import Verif.Witness.Concurrent
import Verif.Lemmas.TranslationAttr
import Verif.Model.Translation
import Verif.Props.TranslationFields
import Verif.Props.Translation
import Verif.Props.TranslationReaders
import Verif.Props.TranslationMessages
import Verif.Props.TranslationCoherency
import Verif.Props.TranslationFrame
import Verif.Props.TranslationCommB
import Verif.Model.TranslationGeo
import Verif.Props.TranslationGeo
import Verif.Props.CRCReasons
import Verif.Props.CodeTheorems
import Verif.Props.CodeEntry
import Verif.Model.TranslationWords
import Verif.Props.TranslationErase
import Verif.Props.TranslationWords
import Verif.Props.TranslationWordsReaders
import Verif.Props.CodeWords
import Verif.Props.CodeWordsEntry
import Verif.Props.TextAdvisory
import Verif.Model.TranslationTexts
import Verif.Lemmas.TextAttr
import Verif.Props.TranslationTextsFields
import Verif.Props.TranslationTextsLines
import Verif.Props.TranslationTextsRegisters
import Verif.Props.TranslationTexts
import Verif.Props.CodeTexts
import Verif.Witness.CodeTexts
import Verif.Model.TranslationProgram
import Verif.Model.TranslationVelocity
import Verif.Props.TranslationProgram
import Verif.Props.CodeProgram
import Verif.Witness.CodeProgram
import Verif.Props.CodeReports
import Verif.Witness.CodeReports
import Verif.Props.TranslationVelocity
import Verif.Props.CodeVelocity
import Verif.Witness.CodeVelocity
