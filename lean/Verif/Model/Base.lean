import Verif.Model.Bits
import Verif.Model.PyStr
import Verif.Model.BaseTypes

/-!
# Model of sub_decoders/RTCM_BASE.py

Floats are exact rationals. Log output (warnings about undefined biases) is not modelled.
-/

namespace Verif
namespace Base
open Bits PyStr

/-- sub_decoders/RTCM_BASE.py:42 `self.msgList` -/
def msgList : List Nat := [1005, 1006, 1007, 1008, 1033, 1013, 1029, 1230]

/-- sub_decoders/RTCM_BASE.py:44-46 `get_msg_num` -/
def getMsgNum (buf : Bytes) : Py Nat := gbu buf 24 12

/-- sub_decoders/RTCM_BASE.py:48-61 `__length_check` -/
def lengthCheck (nexp ndec bufLen : Nat) : Py Unit :=
  if ndec ≠ nexp then .error .baseDecoder
  else
    let ndec := 6 + ((ndec + 7) >>> 3)
    if ndec ≠ bufLen then .error .baseDecoder else .ok ()

/-- sub_decoders/RTCM_BASE.py:63-89 `__decode10056`; the class is chosen by the message number (line 68), which is what
`isinstance` tests in line 83. -/
def decode10056 (buf : Bytes) : Py BareObj := do
  let offset := 24
  let msgNum ← gbu buf offset 12; let offset := offset + 12
  let bsID ← gbu buf offset 12; let offset := offset + 12
  let ITRF_Year ← gbu buf offset 6; let offset := offset + 6
  let GPS_OK ← gbu buf offset 1; let offset := offset + 1
  let GLO_OK ← gbu buf offset 1; let offset := offset + 1
  let GAL_OK ← gbu buf offset 1; let offset := offset + 1
  let isVirtual ← gbu buf offset 1; let offset := offset + 1
  let refPoint_X ← gbs buf offset 38; let offset := offset + 38
  let singleOsc ← gbu buf offset 1; let offset := offset + 1 + 1
  let refPoint_Y ← gbs buf offset 38; let offset := offset + 38
  let QC_bias ← gbu buf offset 2; let offset := offset + 2
  let refPoint_Z ← gbs buf offset 38; let offset := offset + 38
  let bs : BaseRP Int Int Int :=
    { msgNum, bsID, ITRF_Year, GPS_OK, GLO_OK, GAL_OK, isVirtual, refPoint_X, singleOsc, refPoint_Y, QC_bias,
      refPoint_Z }
  if msgNum = 1005 then
    lengthCheck 152 (offset - 24) buf.length
    pure (.rp bs)
  else
    let height ← gbu buf offset 16; let offset := offset + 16
    lengthCheck 168 (offset - 24) buf.length
    pure (.rph ⟨bs, height⟩)

/-- sub_decoders/RTCM_BASE.py:94 `__QC_VALUES` -/
def qcValues : List String := ["UNDEF", "CORRECTED", "NOT CORRECTED", "RESERVED"]

/-- `__QC_VALUES[index]` with Python's negative indexes. sub_decoders/RTCM_BASE.py:94, 104-105. -/
def qcIndex (i : Int) : Py String :=
  let j := if i < 0 then i + 4 else i
  if j < 0 then .error .indexError
  else match qcValues[j.toNat]? with
    | some s => .ok s
    | none => .error .indexError

/-- `1e-4`. sub_decoders/RTCM_BASE.py:101, 103, 106, 109. -/
def e4 : Rat := 1 / 10000

/-- sub_decoders/RTCM_BASE.py:96-106, the part of `__scale10056` common to both classes. -/
def scaleRP (ibs : BaseRP Int Int Int) : Py (BaseRP Bool Rat String) := do
  let qc ← qcIndex ibs.QC_bias
  pure { msgNum := ibs.msgNum, bsID := ibs.bsID, ITRF_Year := ibs.ITRF_Year, GPS_OK := ibs.GPS_OK == 1,
         GLO_OK := ibs.GLO_OK == 1, GAL_OK := ibs.GAL_OK == 1, isVirtual := ibs.isVirtual == 1,
         refPoint_X := ibs.refPoint_X * e4, singleOsc := ibs.singleOsc == 1, refPoint_Y := ibs.refPoint_Y * e4,
         QC_bias := qc, refPoint_Z := ibs.refPoint_Z * e4 }

/-- The loops sub_decoders/RTCM_BASE.py:130-133, 146-149, 163-166, 173-176, 180-183, 279-282: `n` bytes from `offset` are
appended to `symb` in hexadecimal. Returns text and new offset. -/
def readHex (buf : Bytes) : Nat → Nat → String → Py (String × Nat)
  | 0, offset, symb => .ok (symb, offset)
  | n + 1, offset, symb => do
    let b ← gbu buf offset 8
    readHex buf n (offset + 8) (symb ++ (hex b ++ " "))

/-- sub_decoders/RTCM_BASE.py:113-189 `__decode10078_1033`; the class is chosen by the message number (lines 119-124),
which is what `isinstance` tests in lines 137 and 152. -/
def decode10078_1033 (buf : Bytes) : Py BareObj := do
  let offset := 24
  let msgNum ← gbu buf offset 12; let offset := offset + 12
  let bsID ← gbu buf offset 12; let offset := offset + 12
  let descrLength ← gbu buf offset 8; let offset := offset + 8
  let (symb, offset) ← readHex buf descrLength offset ""
  let descr := strip symb
  let setupID ← gbu buf offset 8; let offset := offset + 8
  let ad : BaseAD := { msgNum, bsID, descrLength, descr, setupID }
  if msgNum = 1007 then
    lengthCheck (40 + 8 * descrLength) (offset - 24) buf.length
    pure (.ad ad)
  else
    let serialNumberLength ← gbu buf offset 8; let offset := offset + 8
    let (symb, offset) ← readHex buf serialNumberLength offset ""
    let serialNumber := strip symb
    let adsn : BaseADSN := { ad, serialNumberLength, serialNumber }
    if msgNum = 1008 then
      lengthCheck (48 + 8 * (descrLength + serialNumberLength)) (offset - 24) buf.length
      pure (.adsn adsn)
    else
      let rcvDescriptorLength ← gbu buf offset 8; let offset := offset + 8
      let (symb, offset) ← readHex buf rcvDescriptorLength offset ""
      let rcvDescriptor := strip symb
      let rcvFWVersionLength ← gbu buf offset 8; let offset := offset + 8
      let (symb, offset) ← readHex buf rcvFWVersionLength offset ""
      let rcvFWVersion := strip symb
      let rcvSerNumLength ← gbu buf offset 8; let offset := offset + 8
      let (symb, offset) ← readHex buf rcvSerNumLength offset ""
      let rcvSerNum := strip symb
      let strLen := descrLength + serialNumberLength + rcvDescriptorLength
      let strLen := strLen + (rcvFWVersionLength + rcvSerNumLength)
      lengthCheck (72 + 8 * strLen) (offset - 24) buf.length
      pure (.adsnrc { adsn, rcvDescriptorLength, rcvDescriptor, rcvFWVersionLength, rcvFWVersion, rcvSerNumLength,
                      rcvSerNum })

/-- sub_decoders/RTCM_BASE.py:197-199 -/
def scaleAD (ibs : BaseAD) : Py BaseAD := do
  let descr ← hexTextDecode ibs.descr
  pure { ibs with descr }

/-- sub_decoders/RTCM_BASE.py:197-206 -/
def scaleADSN (ibs : BaseADSN) : Py BaseADSN := do
  let ad ← scaleAD ibs.ad
  let serialNumber ← hexTextDecode ibs.serialNumber
  pure { ibs with ad, serialNumber }

/-- sub_decoders/RTCM_BASE.py:197-221 -/
def scaleADSNRC (ibs : BaseADSNRC) : Py BaseADSNRC := do
  let adsn ← scaleADSN ibs.adsn
  let rcvDescriptor ← hexTextDecode ibs.rcvDescriptor
  let rcvFWVersion ← hexTextDecode ibs.rcvFWVersion
  let rcvSerNum ← hexTextDecode ibs.rcvSerNum
  pure { ibs with adsn, rcvDescriptor, rcvFWVersion, rcvSerNum }

/-- The loop sub_decoders/RTCM_BASE.py:243-247: returns schedule and offset. -/
def readShedule (buf : Bytes) : Nat → Nat → PyDict Int (Int × Int) → Py (PyDict Int (Int × Int) × Nat)
  | 0, offset, d => .ok (d, offset)
  | n + 1, offset, d => do
    let ID ← gbu buf offset 12; let offset := offset + 12
    let isPeriodic ← gbu buf offset 1; let offset := offset + 1
    let period ← gbu buf offset 16; let offset := offset + 16
    readShedule buf n offset (d.set ID (isPeriodic, period))

/-- sub_decoders/RTCM_BASE.py:223-250 `__decode1013`. In line 241 the buffer holds at least 94 bits, so the floor of the
quotient is a natural number. -/
def decode1013 (buf : Bytes) : Py BareObj := do
  let offset := 24
  let msgNum ← gbu buf offset 12; let offset := offset + 12
  let bsID ← gbu buf offset 12; let offset := offset + 12
  let modifiedJulianDay ← gbu buf offset 16; let offset := offset + 16
  let daySec ← gbu buf offset 17; let offset := offset + 17
  let bsNm ← gbu buf offset 5; let offset := offset + 5
  let leapSec ← gbu buf offset 8; let offset := offset + 8
  let Nm := if bsNm ≠ 0 then bsNm else (8 * buf.length - 70) / 29
  let (shedule, offset) ← readShedule buf Nm offset []
  lengthCheck (70 + 29 * Nm) (offset - 24) buf.length
  pure (.sp { msgNum, bsID, modifiedJulianDay, daySec, Nm := bsNm, leapSec, shedule })

/-- sub_decoders/RTCM_BASE.py:252-262 `__scale1013` -/
def scaleSP (ibs : BaseSP Int Int) : BaseSP Bool Rat :=
  { msgNum := ibs.msgNum, bsID := ibs.bsID, modifiedJulianDay := ibs.modifiedJulianDay, daySec := ibs.daySec,
    Nm := ibs.Nm, leapSec := ibs.leapSec,
    shedule := ibs.shedule.map (fun kv => (kv.1, (1 == kv.2.1, kv.2.2 * (1 / 10 : Rat)))) }

/-- sub_decoders/RTCM_BASE.py:264-287 `__decode1029` -/
def decode1029 (buf : Bytes) : Py BareObj := do
  let offset := 24
  let msgNum ← gbu buf offset 12; let offset := offset + 12
  let bsID ← gbu buf offset 12; let offset := offset + 12
  let modifiedJulianDay ← gbu buf offset 16; let offset := offset + 16
  let daySec ← gbu buf offset 17; let offset := offset + 17
  let charNum ← gbu buf offset 7; let offset := offset + 7
  let unitsNum ← gbu buf offset 8; let offset := offset + 8
  let (msg, offset) ← readHex buf unitsNum offset ""
  let message := strip msg
  lengthCheck (72 + 8 * unitsNum) (offset - 24) buf.length
  pure (.ts { msgNum, bsID, modifiedJulianDay, daySec, charNum, unitsNum, message })

/-- sub_decoders/RTCM_BASE.py:289-297 `__scale1029` -/
def scaleTS (ibs : BaseTS) : Py BaseTS := do
  let message ← hexTextDecode ibs.message
  pure { ibs with message }

/-- gnss_types/base_station.py:144-149: the dictionaries of a new object (its `msgNum` is 0). -/
def zeroDict : PyDict String Int := [("1C", 0), ("1P", 0), ("2C", 0), ("2P", 0)]

/-- One block of sub_decoders/RTCM_BASE.py:310-353: if the flag is set read a bias for `key`. The state is
(correction, validity, offset, N). -/
def readBias (buf : Bytes) (flag : Bool) (key : String)
    (st : PyDict String Int × PyDict String Int × Nat × Nat) : Py (PyDict String Int × PyDict String Int × Nat × Nat) :=
  if flag then do
    let x ← gbs buf st.2.2.1 16
    pure (st.1.set key x, st.2.1.set key 1, st.2.2.1 + 16, st.2.2.2 + 1)
  else pure st

/-- sub_decoders/RTCM_BASE.py:299-356 `__decode1230` -/
def decode1230 (buf : Bytes) : Py BareObj := do
  let offset := 24
  let msgNum ← gbu buf offset 12; let offset := offset + 12
  let bsID ← gbu buf offset 12; let offset := offset + 12
  let isCorrected ← gbu buf offset 1; let offset := offset + 1 + 3
  let validity ← gbu buf offset 4; let offset := offset + 4
  let st ← readBias buf (validity &&& 0x08 != 0) "1C" (zeroDict, zeroDict, offset, 0)
  let st ← readBias buf (validity &&& 0x04 != 0) "1P" st
  let st ← readBias buf (validity &&& 0x02 != 0) "2C" st
  let st ← readBias buf (validity &&& 0x01 != 0) "2P" st
  lengthCheck (32 + 16 * st.2.2.2) (st.2.2.1 - 24) buf.length
  pure (.glbs { msgNum, bsID, isCorrected, validity := st.2.1, correction := st.1 })

/-- sub_decoders/RTCM_BASE.py:358-373 `__scale1230` for a dictionary with exactly the keys 1C, 1P, 2C, 2P (the only ones
the decoder creates; a missing key would raise `KeyError`). -/
def scaleGLBS (ibs : BaseGLBS Int Int) : BaseGLBS Bool Rat :=
  { msgNum := ibs.msgNum, bsID := ibs.bsID, isCorrected := ibs.isCorrected == 1,
    validity := ibs.validity.map (fun kv => (kv.1, kv.2 == 1)),
    correction := ibs.correction.map (fun kv => (kv.1, kv.2 * (2 / 10 : Rat))) }

/-- sub_decoders/RTCM_BASE.py:375-400 `__decode` -/
def decodeBare (buf : Bytes) : Py BareObj := do
  let msgNum ← getMsgNum buf
  if msgNum = 1005 then decode10056 buf
  else if msgNum = 1006 then decode10056 buf
  else if msgNum = 1007 then decode10078_1033 buf
  else if msgNum = 1008 then decode10078_1033 buf
  else if msgNum = 1033 then decode10078_1033 buf
  else if msgNum = 1013 then decode1013 buf
  else if msgNum = 1029 then decode1029 buf
  else if msgNum = 1230 then decode1230 buf
  else .error .baseDecoder

/-- sub_decoders/RTCM_BASE.py:402-419 `scale` (with 108-109 for the height). -/
def scale : BareObj → Py ScaledObj
  | .rp o => do return .rp (← scaleRP o)
  | .rph o => do
    let rp ← scaleRP o.rp
    return .rph ⟨rp, o.height * e4⟩
  | .ad o => do return .ad (← scaleAD o)
  | .adsn o => do return .adsn (← scaleADSN o)
  | .adsnrc o => do return .adsnrc (← scaleADSNRC o)
  | .sp o => return .sp (scaleSP o)
  | .ts o => do return .ts (← scaleTS o)
  | .glbs o => return .glbs (scaleGLBS o)

/-- sub_decoders/RTCM_BASE.py:421-429 `decode`: a bare or a scaled object. -/
def decode (buf : Bytes) (isBareOutput : Bool) : Py (BareObj ⊕ ScaledObj) := do
  let baseData ← decodeBare buf
  if isBareOutput then pure (.inl baseData) else return .inr (← scale baseData)

/-- sub_decoders/RTCM_BASE.py:442-472 `SubdecoderBaseStationData.decode`. Reading the message number is outside of the
`try` block, other exceptions give `None`. -/
def subDecode (bareData : Bool) (buf : Bytes) : Py (Option (BareObj ⊕ ScaledObj)) := do
  let _ ← getMsgNum buf
  match decode buf bareData with
  | .ok o => pure (some o)
  | .error _ => pure none

end Base
end Verif
