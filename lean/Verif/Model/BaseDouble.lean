import Mathlib.Data.Rat.Floor
import Verif.Model.Base

/-!
# Base station messages with rounded arithmetic

The functions of `Model/Base.lean` that compute with floats once more, with a rounding `rnd` at each place where Python rounds.
-/

namespace Verif
namespace Base
open Bits

/-- `x * y` of an int and a float literal. sub_decoders/RTCM_BASE.py:101-109, 259, 368-371. -/
def mulR (rnd : Rat → Rat) (x : Int) (y : Rat) : Rat := rnd (rnd x * rnd y)

/-- sub_decoders/RTCM_BASE.py:96-106 -/
def scaleRPR (rnd : Rat → Rat) (ibs : BaseRP Int Int Int) : Py (BaseRP Bool Rat String) := do
  let qc ← qcIndex ibs.QC_bias
  pure { msgNum := ibs.msgNum, bsID := ibs.bsID, ITRF_Year := ibs.ITRF_Year, GPS_OK := ibs.GPS_OK == 1,
         GLO_OK := ibs.GLO_OK == 1, GAL_OK := ibs.GAL_OK == 1, isVirtual := ibs.isVirtual == 1,
         refPoint_X := mulR rnd ibs.refPoint_X e4, singleOsc := ibs.singleOsc == 1, refPoint_Y := mulR rnd ibs.refPoint_Y e4,
         QC_bias := qc, refPoint_Z := mulR rnd ibs.refPoint_Z e4 }

/-- sub_decoders/RTCM_BASE.py:241 `math.floor((8 * len(buf) - 70) / 29)`: the quotient of two ints is a float. -/
def countR (rnd : Rat → Rat) (len : Nat) : Int := ⌊rnd ((8 * (len : Int) - 70 : Int) / (29 : Rat))⌋

/-- sub_decoders/RTCM_BASE.py:223-250 `__decode1013`. `range` of a negative number is empty. -/
def decode1013R (rnd : Rat → Rat) (buf : Bytes) : Py BareObj := do
  let offset := 24
  let msgNum ← gbu buf offset 12; let offset := offset + 12
  let bsID ← gbu buf offset 12; let offset := offset + 12
  let modifiedJulianDay ← gbu buf offset 16; let offset := offset + 16
  let daySec ← gbu buf offset 17; let offset := offset + 17
  let bsNm ← gbu buf offset 5; let offset := offset + 5
  let leapSec ← gbu buf offset 8; let offset := offset + 8
  let Nm := if bsNm ≠ 0 then (bsNm : Int) else countR rnd buf.length
  let (shedule, offset) ← readShedule buf Nm.toNat offset []
  if 70 + 29 * Nm ≠ (offset - 24 : Nat) then .error .baseDecoder
  else
    lengthCheck (offset - 24) (offset - 24) buf.length
    pure (.sp { msgNum, bsID, modifiedJulianDay, daySec, Nm := bsNm, leapSec, shedule })

/-- sub_decoders/RTCM_BASE.py:252-262 `__scale1013` -/
def scaleSPR (rnd : Rat → Rat) (ibs : BaseSP Int Int) : BaseSP Bool Rat :=
  { msgNum := ibs.msgNum, bsID := ibs.bsID, modifiedJulianDay := ibs.modifiedJulianDay, daySec := ibs.daySec,
    Nm := ibs.Nm, leapSec := ibs.leapSec,
    shedule := ibs.shedule.map (fun kv => (kv.1, (1 == kv.2.1, mulR rnd kv.2.2 (1 / 10)))) }

/-- sub_decoders/RTCM_BASE.py:358-373 `__scale1230` -/
def scaleGLBSR (rnd : Rat → Rat) (ibs : BaseGLBS Int Int) : BaseGLBS Bool Rat :=
  { msgNum := ibs.msgNum, bsID := ibs.bsID, isCorrected := ibs.isCorrected == 1,
    validity := ibs.validity.map (fun kv => (kv.1, kv.2 == 1)),
    correction := ibs.correction.map (fun kv => (kv.1, mulR rnd kv.2 (2 / 10))) }

/-- sub_decoders/RTCM_BASE.py:375-400 `__decode` -/
def decodeBareR (rnd : Rat → Rat) (buf : Bytes) : Py BareObj := do
  let msgNum ← getMsgNum buf
  if msgNum = 1013 then decode1013R rnd buf else decodeBare buf

/-- sub_decoders/RTCM_BASE.py:402-419 `scale` (with 108-109 for the height). -/
def scaleR (rnd : Rat → Rat) : BareObj → Py ScaledObj
  | .rp o => do return .rp (← scaleRPR rnd o)
  | .rph o => do
    let rp ← scaleRPR rnd o.rp
    return .rph ⟨rp, mulR rnd o.height e4⟩
  | .ad o => do return .ad (← scaleAD o)
  | .adsn o => do return .adsn (← scaleADSN o)
  | .adsnrc o => do return .adsnrc (← scaleADSNRC o)
  | .sp o => return .sp (scaleSPR rnd o)
  | .ts o => do return .ts (← scaleTS o)
  | .glbs o => return .glbs (scaleGLBSR rnd o)

/-- sub_decoders/RTCM_BASE.py:421-429 `decode` -/
def decodeR (rnd : Rat → Rat) (buf : Bytes) (isBareOutput : Bool) : Py (BareObj ⊕ ScaledObj) := do
  let baseData ← decodeBareR rnd buf
  if isBareOutput then pure (.inl baseData) else return .inr (← scaleR rnd baseData)

/-- sub_decoders/RTCM_BASE.py:442-472 `SubdecoderBaseStationData.decode` -/
def subDecodeR (rnd : Rat → Rat) (bareData : Bool) (buf : Bytes) : Py (Option (BareObj ⊕ ScaledObj)) := do
  let _ ← getMsgNum buf
  match decodeR rnd buf bareData with
  | .ok o => pure (some o)
  | .error _ => pure none

end Base
end Verif
