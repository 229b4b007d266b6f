import Verif.Model.Objects
import Verif.Model.Framer
import Verif.Model.Msm
import Verif.Model.Eph
import Verif.Model.Base
import Verif.Model.Details

/-!
# Model of `SubDecoderInterface` and of the decoding part of `DecoderTop` (decoder_top.py:34-218, 326-334)

`TEST_DATA_GRABBER` is `None` (decoder_top.py:30), so lines 166-168 and 201-202 do nothing; for other
values see Model/Grabber. The records for the log are those of Model/Log.lean; `details` is what a sub-decoder sends to the logger about single observables and fields.
-/

namespace Verif
namespace Decoder

/-- Attributes of a `SubDecoderInterface` object, decoder_top.py:125-128; `none` is the method `default_decode`. The field `details` is not an
attribute: it gives the log records about single observables and fields that `decode` makes for a message. -/
structure SubDecoder where
  decode : Option (Bytes → Py (Option PyObj))
  ioSpec : PyDict Nat Cls
  subset : String
  actualMessages : List Nat
  details : Bytes → List Msm.Detail := fun _ => []

/-- `[m + i * 10 for i in range(7) for m in messages]`. decoder_top.py:51, 61. -/
def msmNumbers (messages : List Nat) : List Nat :=
  (List.range 7).flatMap (fun i => messages.map (fun m => m + i * 10))

/-- decoder_top.py:46-54 `__make_MSM47O_spec`. -/
def makeMSM47OSpec (bare : Bool) : PyDict Nat Cls :=
  (msmNumbers [1074, 1075, 1076, 1077]).map (fun n => (n, if bare then .bareMSM4567 else .observablesMSM))

/-- decoder_top.py:56-64 `__make_MSM13O_spec`. -/
def makeMSM13OSpec (bare : Bool) : PyDict Nat Cls :=
  (msmNumbers [1071, 1072, 1073]).map (fun n => (n, if bare then .bareMSM123 else .observablesMSM))

/-- decoder_top.py:66-80 `__make_EPH_spec`. -/
def makeEPHSpec (_bare : Bool) : PyDict Nat Cls :=
  [(1045, .ephGALF), (1046, .ephGALI), (1020, .ephGLO), (1019, .ephGPS), (1044, .ephQZS), (1042, .ephBDS), (1041, .ephNAVIC)]

/-- decoder_top.py:82-98 `__make_BASE_spec`. -/
def makeBASESpec (_bare : Bool) : PyDict Nat Cls :=
  [(1005, .baseRP), (1006, .baseRPH), (1007, .baseAD), (1008, .baseADSN), (1033, .baseADSNRC), (1013, .baseSP), (1029, .baseTS),
    (1230, .baseGLBS)]

/-- decoder_top.py:100-105 `__make_LEGO_spec`. -/
def makeLEGOSpec (_bare : Bool) : PyDict Nat Cls := []

/-- decoder_top.py:112-118 `_RTCM_MSG_SUBSETS`. -/
def subsets : PyDict String (Bool → PyDict Nat Cls) :=
  [("LEGO", makeLEGOSpec), ("MSM13O", makeMSM13OSpec), ("MSM47O", makeMSM47OSpec), ("EPH", makeEPHSpec), ("BASE", makeBASESpec)]

/-- decoder_top.py:120-128 `__init__`. -/
def SubDecoder.new (subset : String) (bare : Bool) : Py SubDecoder :=
  match subsets.get? subset with
  | none => .error .assertionError
  | some gen => .ok { decode := none, ioSpec := gen bare, subset := subset, actualMessages := [] }

/-- The result of `decode_msm17` as an object. sub_decoders/RTCM_MSM.py:740-742, 754-756. -/
def msmObj (x : Msm.Bare ⊕ Msm.ObservablesMSM) : PyObj :=
  match x with
  | .inl b => .msmBare b
  | .inr o => .msm o

/-- The result of the base station decoder as an object. sub_decoders/RTCM_BASE.py:443-472. -/
def baseObj (x : Base.BareObj ⊕ Base.ScaledObj) : PyObj :=
  match x with
  | .inl b => .baseBare b
  | .inr o => .baseScaled o

/-- sub_decoders/RTCM_MSM.py:734-743 `SubdecoderMSM4567`: the attribute `io`. -/
def subMSM4567 (bare : Bool) : Py SubDecoder := do
  let io ← SubDecoder.new "MSM47O" bare
  pure { io with
    decode := some (fun buf => pure ((Msm.decodeMsm17 bare buf).map msmObj))
    actualMessages := io.ioSpec.keys
    details := Msm.msmDetails bare }

/-- sub_decoders/RTCM_MSM.py:746-756 `SubdecoderMSM123`: the attribute `io`. -/
def subMSM123 (bare : Bool) : Py SubDecoder := do
  let io ← SubDecoder.new "MSM13O" bare
  pure { io with
    decode := some (fun buf => pure ((Msm.decodeMsm17 bare buf).map msmObj))
    actualMessages := io.ioSpec.keys
    details := Msm.msmDetails bare }

/-- sub_decoders/RTCM_EPH.py:723-731 `SubdecoderEph.__init__`: the attribute `io`. -/
def subEph (bare : Bool) : Py SubDecoder := do
  let io ← SubDecoder.new "EPH" bare
  pure { io with decode := some (fun buf => pure ((Eph.subDecode bare buf).map PyObj.eph)), actualMessages := Eph.msgList }

/-- sub_decoders/RTCM_BASE.py:432-440 `SubdecoderBaseStationData.__init__`: the attribute `io`. -/
def subBase (bare : Bool) : Py SubDecoder := do
  let io ← SubDecoder.new "BASE" bare
  pure { io with
    decode := some (fun buf => do return (← Base.subDecode bare buf).map baseObj)
    actualMessages := Base.msgList
    details := Base.baseDetails }

/-- Attributes of a `DecoderTop` object, decoder_top.py:158-165. -/
structure DecoderTop where
  decoders : PyDict String SubDecoder := []
  parser : Framer.Parser := Framer.Parser.init
  /-- `__dec_attempts` -/
  attempts : Nat := 0
  /-- `__dec_succeeded` -/
  succeeded : Nat := 0

/-- decoder_top.py:172-190 `register_decoder`; the type check of line 178 holds in the model. -/
def DecoderTop.register (d : DecoderTop) (io : SubDecoder) : DecoderTop × Bool :=
  if io.decode.isNone then (d, false)
  else if io.actualMessages.length = 0 then (d, false)
  else ({ d with decoders := d.decoders.set io.subset io }, true)

/-- decoder_top.py:107-110 `default_decode` or the method set by the sub-decoder. -/
def SubDecoder.run (io : SubDecoder) (msg : Bytes) : Py (Option PyObj) :=
  match io.decode with
  | none => .error .notImplemented
  | some f => f msg

/-- The loop decoder_top.py:204-216 followed by `return rv`: new counters and the result or exception. `num` is `None` for messages
that are too short; `None` is in no specification. -/
def decodeLoop (num : Option Nat) (msg : Bytes) (attempts succeeded : Nat) :
    List SubDecoder → (Nat × Nat) × Py (Option PyObj)
  | [] => ((attempts, succeeded), .ok none)
  | dec :: rest =>
    match num.bind (fun n => if dec.actualMessages.contains n then dec.ioSpec.get? n else none) with
    | none => decodeLoop num msg attempts succeeded rest
    | some cls =>
      match dec.run msg with
      | .error e => ((attempts + 1, succeeded), .error e)
      | .ok none => ((attempts + 1, succeeded), .error .decoderDecode)
      | .ok (some rv) =>
        if isInstance rv cls then ((attempts + 1, succeeded + 1), .ok (some rv))
        else ((attempts + 1, succeeded), .error .decoderDecode)

/-- decoder_top.py:138-152 `catch_decoder_exceptions`: an exception gives `None`. -/
def catchDecoder (x : Py (Option PyObj)) : Option PyObj :=
  match x with
  | .ok rv => rv
  | .error _ => none

/-- decoder_top.py:192-218 `decode`, with the decorator. -/
def DecoderTop.decode (d : DecoderTop) (msg : Bytes) : DecoderTop × Option PyObj :=
  let r := decodeLoop (Framer.mnum msg) msg d.attempts d.succeeded (d.decoders.map (·.2))
  ({ d with attempts := r.1.1, succeeded := r.1.2 }, catchDecoder r.2)

/-- decoder_top.py:326-329 `dec_errors`. -/
def DecoderTop.decErrors (d : DecoderTop) : Int := (d.attempts : Int) - d.succeeded

/-- decoder_top.py:222-271 `catch_message` as a method of the whole object. -/
def DecoderTop.catchMessage (d : DecoderTop) (chunk : Bytes) : PyD (DecoderTop × List Bytes) := do
  let (p, ms) ← Framer.catchMessage d.parser chunk
  pure ({ d with parser := p }, ms)

/-- Registration of a list of sub-decoders as in the strategies, converter_top.py:141-147, 169-181, 203-215, 237-249: all are
constructed first; `None` if one of them is refused. A failing constructor would raise. -/
def registerAll (d : DecoderTop) : List SubDecoder → Option DecoderTop
  | [] => some d
  | io :: rest =>
    let (d, ok) := d.register io
    if ok then registerAll d rest else none

/-- Conversion modes, converter_top.py:273-278. -/
inductive Mode where
  | margo | json | jsonB | jargo
  deriving DecidableEq, Repr

/-- The decoder part of the four strategies, converter_top.py:140-147, 167-181, 201-215, 235-249. -/
def strategyDecoder (mode : Mode) : Py (Option DecoderTop) :=
  match mode with
  | .margo => do
    let msm123 ← subMSM123 false
    let msm4567 ← subMSM4567 false
    pure (registerAll {} [msm4567, msm123])
  | .json | .jargo => do
    let msm123 ← subMSM123 false
    let msm4567 ← subMSM4567 false
    let eph ← subEph false
    let base ← subBase false
    pure (registerAll {} [msm4567, msm123, eph, base])
  | .jsonB => do
    let msm123 ← subMSM123 true
    let msm4567 ← subMSM4567 true
    let eph ← subEph true
    let base ← subBase true
    pure (registerAll {} [msm4567, msm123, eph, base])

end Decoder
end Verif
