import Verif.Props.Bits
import Verif.Props.CRC
import Verif.Props.Framer
import Verif.Props.RtcmUtil
import Verif.Props.Eph
import Verif.Props.Base
import Verif.Props.Msm
import Verif.Props.MsmScaled
import Verif.Props.Decoder
import Verif.Props.Printer
import Verif.Props.Json
import Verif.Props.Margo
import Verif.Props.PrintReport
import Verif.Props.MargoText
import Verif.Props.Run
import Verif.Props.Select
import Verif.Props.EndToEnd
import Verif.Props.EndToEndScaled
import Verif.Props.Compare
import Verif.Props.Controls
import Verif.Props.Batch
import Verif.Props.Robust
import Verif.Props.Files
import Verif.Props.Double
import Verif.Props.DoubleMargo
import Verif.Props.DoubleNav
import Verif.Props.Lossless
import Verif.Props.Failures
import Verif.Props.IniText
import Verif.Props.Log
import Verif.Props.LogVerdict
import Verif.Props.Args
import Verif.Props.Program
import Verif.Props.Sources
import Verif.Props.Opath
import Verif.Props.RunDouble
import Verif.Props.ProgramDouble
import Verif.Props.Refused
import Verif.Props.Details
import Verif.Props.DetailsLog
import Verif.Props.Grabber
import Verif.PyCore.Attr
import Verif.PyCore.Ident
import Verif.PyCore.Rules
import Verif.PyCore.Semantics
import Verif.PyCore.Syntax
import Verif.Source.BaseStation
import Verif.Source.Bits
import Verif.Source.CRC24Q
import Verif.Source.DataClassMethods
import Verif.Source.DecoderTop
import Verif.Source.Ephemeris
import Verif.Source.Lookup
import Verif.Source.JsonPrinter
import Verif.Source.MargoPrinter
import Verif.Source.Observables
import Verif.Source.Program
import Verif.Source.RtcmBase
import Verif.Source.RtcmEph
import Verif.Source.RtcmMsm
import Verif.Source.RtcmUtilities
import Verif.PyCore.RulesObj
import Verif.Refine.Basic
import Verif.Refine.Bits
import Verif.Refine.CRC24Q
import Verif.Refine.Eph
import Verif.Refine.EphData
import Verif.Refine.EphDecode
import Verif.Refine.EphScale
import Verif.Refine.Fields
import Verif.Refine.Framer
import Verif.Refine.RtcmUtil
import Verif.Spec.SourceText
import Verif.Props.SourceText
import Verif.Props.SourceEph
import Verif.Props.SourceFramer
import Verif.PyCore.RulesMore
import Verif.Refine.MsmHeap
import Verif.Refine.MsmBare
import Verif.Refine.MsmHdr
import Verif.Refine.MsmObs
import Verif.Refine.MsmExtract
import Verif.Refine.MsmHead
import Verif.Refine.MsmObs13
import Verif.Refine.MsmDecode
import Verif.Spec.MsmNames
import Verif.Props.SourceMsm
import Verif.PyCore.RulesDict
import Verif.Refine.ScHeap
import Verif.Refine.ScStmt
import Verif.Refine.ScObs
import Verif.Refine.Sc47
import Verif.Refine.ScLoop
import Verif.Refine.Sc47Call
import Verif.Refine.ScTabs
import Verif.Refine.Sc47Fn
import Verif.Refine.Sc13
import Verif.Refine.Sc13Fn
import Verif.Refine.ScInit
import Verif.Refine.ScConvert
import Verif.Refine.ScMasks
import Verif.Refine.ScSignals
import Verif.Refine.ScSlots
import Verif.Refine.ScFinish
import Verif.Refine.ScDecode
import Verif.Refine.ScCall
import Verif.Refine.ScMsm17
import Verif.Spec.ScaledNames
import Verif.Props.SourceScaled
import Verif.Spec.BaseNames
import Verif.Refine.BaseItems
import Verif.Refine.BaseSim
import Verif.Refine.BaseObj
import Verif.Refine.BaseAd
import Verif.Refine.BaseSp
import Verif.Refine.BaseGlbs
import Verif.Refine.BaseDecode
import Verif.Refine.BaseCopy
import Verif.Refine.BaseScale
import Verif.Refine.BaseText
import Verif.Refine.BaseDict
import Verif.Refine.Base
import Verif.Props.SourceBase
import Verif.PyCore.Fuel
import Verif.Source.ConverterTop
import Verif.Refine.Top
import Verif.Refine.Assembly
import Verif.Spec.TopText
import Verif.Props.SourceTop
import Verif.Props.SourceDeliver
import Verif.Spec.Arithmetic
import Verif.Spec.ScaledDoubles
import Verif.Lemmas.ExactArith
import Verif.Lemmas.FamilyDouble
import Verif.Props.SourceDouble
import Verif.Props.DeliverDouble
import Verif.Spec.JsonText
import Verif.Spec.SessionText
import Verif.Refine.JsonSlots
import Verif.Refine.JsonBare
import Verif.Refine.JsonMsm
import Verif.Refine.JsonData
import Verif.Refine.MargoLeaf
import Verif.Refine.MargoSlots
import Verif.Refine.MargoCells
import Verif.Refine.MargoBuf
import Verif.Refine.MargoCall
import Verif.Spec.MargoBuffer
import Verif.Props.SourceJson
import Verif.Props.SourceSession
import Verif.Props.SourceMargo
import Verif.Spec.MargoSession
import Verif.Props.SourceMargoSession
import Verif.Props.SourceSound
import Verif.Props.SourceLossless
