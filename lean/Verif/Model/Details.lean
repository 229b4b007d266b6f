import Verif.Model.Msm
import Verif.Model.Base

/-!
# Model of the log records about single observables and fields

The functions below follow the conversion of observables (sub_decoders/RTCM_MSM.py:382-668) and the decoding of message 1230
(sub_decoders/RTCM_BASE.py:299-356) and collect what these functions send to the logger. If an exception ends the loops over the
observables the records are lost in the model; Props/Details.lean shows that this does not happen.
-/

namespace Verif
namespace Msm
open RtcmUtil Bits

/-- Records about single observables and fields.
sub_decoders/RTCM_MSM.py:489-492, 498-501, 525-553, 631-642,
sub_decoders/RTCM_BASE.py:315-351. -/
inductive Detail where
  /-- sub_decoders/RTCM_MSM.py:490-492 -/
  | noCoarseRange (gnss : String) (sat sgn_idx : Nat)
  /-- sub_decoders/RTCM_MSM.py:499-501 -/
  | noCoarseDoppler (gnss : String) (sat sgn_idx : Nat)
  /-- sub_decoders/RTCM_MSM.py:526-528, 632-634 -/
  | noFineRange (gnss : String) (sat : Nat) (sgn : String)
  /-- sub_decoders/RTCM_MSM.py:538-540, 640-642 -/
  | noFinePhase (gnss : String) (sat : Nat) (sgn : String)
  /-- sub_decoders/RTCM_MSM.py:551-553 -/
  | noFineDoppler (gnss : String) (sat : Nat) (sgn : String)
  /-- sub_decoders/RTCM_BASE.py:316-318, 327-329, 338-340, 349-351 -/
  | biasUndefined (num : Nat) (field : String)
  deriving DecidableEq, Repr

/-- The body of `while slots` in `_convert_obs47`, sub_decoders/RTCM_MSM.py:509-567: index of the cell and records so far. -/
def bodyLog47 (src : Bare4567) (sc : Scalers) (sgn_map : List String) (sat : Nat) (rng_ok phase_rate_ok : Bool) (i : Nat)
    (slotExist : Bool) (st : Nat × List Detail) : Py (Nat × List Detail) := do
  let (sgn_idx, log) := st
  let sgn ← tupAt sgn_map i
  if slotExist = false then pure (sgn_idx, log)
  else
    let log ←
      if rng_ok then do
        let f ← tupAt src.sgn.rng_fine sgn_idx
        pure (if sc.okRng f then log else log ++ [.noFineRange src.atr.gnss sat sgn])
      else pure log
    let log ←
      if rng_ok then do
        let f ← tupAt src.sgn.phase_fine sgn_idx
        pure (if sc.okPhs f then log else log ++ [.noFinePhase src.atr.gnss sat sgn])
      else pure log
    let log ←
      if phase_rate_ok then do
        let f ← tupAt src.sgn.phase_rate_fine sgn_idx
        pure (if sc.okDpl f then log else log ++ [.noFineDoppler src.atr.gnss sat sgn])
      else pure log
    pure (sgn_idx + 1, log)

/-- The body of `for slots in self.slots_per_sat` in `_convert_obs47`, sub_decoders/RTCM_MSM.py:472-568. -/
def satLog47 (src : Bare4567) (sc : Scalers) (sat_list : List Nat) (sgn_map : List String)
    (st : Nat × Nat × List Detail) (slots : Nat) : Py (Nat × Nat × List Detail) := do
  let (sat_idx, sgn_idx, log) := st
  let sat ← tupAt sat_list sat_idx
  let ms ← tupAt src.sat.rng_ms sat_idx
  let rng_ok := ms != 255
  let log := if rng_ok then log else log ++ [.noCoarseRange src.atr.gnss sat sgn_idx]
  let (phase_rate_ok, log) ←
    if src.atr.is_msm7 || src.atr.is_msm5 then do
      let r ← tupAt src.sat.phase_rate_rough sat_idx
      if r % 2 ^ 14 != 0x2000 then pure (true, log) else pure (false, log ++ [.noCoarseDoppler src.atr.gnss sat sgn_idx])
    else pure (false, log)
  let (sgn_idx, log) ← whileSlots (bodyLog47 src sc sgn_map sat rng_ok phase_rate_ok) slots 0 (sgn_idx, log)
  pure (sat_idx + 1, sgn_idx, log)

/-- Records of `_convert_obs47`, sub_decoders/RTCM_MSM.py:447-583. -/
def obsLog47 (src : Bare4567) (sat_list : List Nat) (sgn_map : List String) (slots_per_sat : List Nat) : Py (List Detail) := do
  let sc := if src.atr.is_msm7 || src.atr.is_msm6 then SCALERS67 else SCALERS45
  let (_, _, log) ← slots_per_sat.foldlM (satLog47 src sc sat_list sgn_map) (0, 0, [])
  pure log

/-- The body of `while slots` in `_convert_obs13`, sub_decoders/RTCM_MSM.py:614-655; `ph_ok` lives across iterations. -/
def bodyLog13 (src : Bare123) (sgn_map : List String) (sat : Nat) (rng_ok : Bool) (i : Nat) (slotExist : Bool)
    (st : Bool × Nat × List Detail) : Py (Bool × Nat × List Detail) := do
  let (ph_ok, sgn_idx, log) := st
  let sgn ← tupAt sgn_map i
  if slotExist = false then pure (ph_ok, sgn_idx, log)
  else
    let (ph_ok, log) ←
      if rng_ok then do
        let f ← tupAt src.sgn.rng_fine sgn_idx
        if f % 2 ^ 15 != 0x4000 then pure (ph_ok, log) else pure (false, log ++ [.noFineRange src.atr.gnss sat sgn])
      else pure (ph_ok, log)
    let log ←
      if ph_ok then do
        let f ← tupAt src.sgn.phase_fine sgn_idx
        pure (if f % 2 ^ 22 == 0x200000 then log ++ [.noFinePhase src.atr.gnss sat sgn] else log)
      else pure log
    pure (ph_ok, sgn_idx + 1, log)

/-- The body of `for slots in self.slots_per_sat` in `_convert_obs13`, sub_decoders/RTCM_MSM.py:603-656. -/
def satLog13 (src : Bare123) (sat_list : List Nat) (sgn_map : List String)
    (st : Nat × Nat × List Detail) (slots : Nat) : Py (Nat × Nat × List Detail) := do
  let (sat_idx, sgn_idx, log) := st
  let sat ← tupAt sat_list sat_idx
  let _ ← tupAt src.sat.rng_rough sat_idx
  let rng_ok := src.atr.is_msm1 || src.atr.is_msm3
  let ph_ok := src.atr.is_msm2 || src.atr.is_msm3
  let (_, sgn_idx, log) ← whileSlots (bodyLog13 src sgn_map sat rng_ok) slots 0 (ph_ok, sgn_idx, log)
  pure (sat_idx + 1, sgn_idx, log)

/-- Records of `_convert_obs13`, sub_decoders/RTCM_MSM.py:585-668. -/
def obsLog13 (src : Bare123) (sat_list : List Nat) (sgn_map : List String) (slots_per_sat : List Nat) : Py (List Detail) := do
  let (_, _, log) ← slots_per_sat.foldlM (satLog13 src sat_list sgn_map) (0, 0, [])
  pure log

/-- Records of `convert`, sub_decoders/RTCM_MSM.py:382-445. -/
def convertLog (src : Bare) : Py (List Detail) :=
  if src.atr.gnss = "" then pure []
  else
    let h := src.hdr
    if h.sat_mask = 0 then pure []
    else do
      let sat_list := maskList h.sat_mask 64
      let items ← ((maskList h.sgn_mask 32).map (rnxLit src.atr.gnss)).mapM (signalItem src.atr.gnss)
      let sgn_map := items.map (·.1)
      let M := bitCount h.sgn_mask
      let mask := (1 <<< M) - 1
      let slots_per_sat := (List.range sat_list.length).map (fun i => (h.cell_mask >>> (M * i)) &&& mask)
      match src with
      | .m4567 b => obsLog47 b sat_list sgn_map slots_per_sat
      | .m123 b => obsLog13 b sat_list sgn_map slots_per_sat

/-- Records of `decode_msm17`, sub_decoders/RTCM_MSM.py:675-728, about observables: there are none in bare mode. -/
def msmDetails (isBare : Bool) (buf : Bytes) : List Detail :=
  match decode buf with
  | .error _ => []
  | .ok b =>
    if isBare then []
    else
      match convertLog b with
      | .error _ => []
      | .ok log => log

end Msm

namespace Base
open Bits Msm

/-- One of the four blocks of sub_decoders/RTCM_BASE.py:309-353 together with those after it: records and end of reading. `bits` lists
the flags in the order of the code with the names used in the log. -/
def biasLog (buf : Bytes) (msgNum : Nat) (offset : Nat) : List (Bool × String) → List Detail
  | [] => []
  | (flag, field) :: rest =>
    if flag then
      match gbs buf offset 16 with
      | .error _ => []
      | .ok x => (if x = -32768 then [.biasUndefined msgNum field] else []) ++ biasLog buf msgNum (offset + 16) rest
    else biasLog buf msgNum offset rest

/-- Records of `__decode1230`, sub_decoders/RTCM_BASE.py:299-356. -/
def details1230 (buf : Bytes) : List Detail :=
  match (do
    let msgNum ← gbu buf 24 12
    let _ ← gbu buf 36 12
    let _ ← gbu buf 48 1
    let validity ← gbu buf 52 4
    pure (msgNum, validity) : Py (Nat × Nat)) with
  | .error _ => []
  | .ok (msgNum, validity) =>
    biasLog buf msgNum 56
      [(validity &&& 0x08 != 0, "L1CA"), (validity &&& 0x04 != 0, "L1P"), (validity &&& 0x02 != 0, "L2CA"), (validity &&& 0x01 != 0, "L2P")]

/-- Records of `SubdecoderBaseStationData.decode`, sub_decoders/RTCM_BASE.py:442-472, about single fields: message 1230 only. -/
def baseDetails (buf : Bytes) : List Detail :=
  match getMsgNum buf with
  | .error _ => []
  | .ok n => if n = 1230 then details1230 buf else []

end Base
end Verif
