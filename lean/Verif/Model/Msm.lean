import Verif.Model.Bits
import Verif.Model.RtcmUtil
import Verif.Model.MsmTypes

/-!
# Model of sub_decoders/RTCM_MSM.py

Floats are exact rationals. Log output is not modelled. The object under construction (`self.bd`, `rv`) is passed
explicitly; a Python `tuple` is a list.
-/

namespace Verif
namespace Msm
open Bits RtcmUtil

/-- Python indexing of a tuple at a non-negative index.
sub_decoders/RTCM_MSM.py:475, 483-497, 510-564. -/
def tupAt {α : Type} (l : List α) (i : Nat) : Py α :=
  match l[i]? with
  | some x => .ok x
  | none => .error .indexError

/-- Python `int.bit_count()` of a non-negative integer.
sub_decoders/RTCM_MSM.py:130-131, 161-163, 264-266, 434. -/
def bitCount (n : Nat) : Nat := if n = 0 then 0 else n % 2 + bitCount (n / 2)
termination_by n

/-- `next(bw)` on the generator over the remaining widths; a `StopIteration` becomes `PyErr.valueError` (both are caught by
`except Exception`). sub_decoders/RTCM_MSM.py:188, 195, 201, 208-246, 291-327. -/
def nextW : List Nat → Py (Nat × List Nat)
  | [] => .error .valueError
  | w :: ws => .ok (w, ws)

/-! ## `BareObservablesMSM17Decoder` -/

/-- sub_decoders/RTCM_MSM.py:39 -/
def MIN_HDR_LEN : Nat := 169

/-- sub_decoders/RTCM_MSM.py:41 -/
def BIT_WIDTH_7 : List Nat := [8, 4, 10, 14, 20, 24, 10, 1, 10, 15]
/-- sub_decoders/RTCM_MSM.py:42 -/
def BIT_WIDTH_6 : List Nat := [8, 10, 20, 24, 10, 1, 10]
/-- sub_decoders/RTCM_MSM.py:43 -/
def BIT_WIDTH_5 : List Nat := [8, 4, 10, 14, 15, 22, 4, 1, 6, 15]
/-- sub_decoders/RTCM_MSM.py:44 -/
def BIT_WIDTH_4 : List Nat := [8, 10, 15, 22, 4, 1, 6]
/-- sub_decoders/RTCM_MSM.py:45 -/
def BIT_WIDTH_3 : List Nat := [10, 15, 22, 4, 1]
/-- sub_decoders/RTCM_MSM.py:46 -/
def BIT_WIDTH_2 : List Nat := [10, 22, 4, 1]
/-- sub_decoders/RTCM_MSM.py:47 -/
def BIT_WIDTH_1 : List Nat := [10, 15]

/-- sub_decoders/RTCM_MSM.py:99-102 `get_msg_num`, with `catch_bits_exceptions` (`none` is `None`). -/
def getMsgNum (buf : Bytes) : Option Nat := catchBits (gbu buf 24 12)

/-- `MSMT.msm_subset` applied to the result of `get_msg_num`, sub_decoders/RTCM_MSM.py:70-71. Simplified: `msm_subset(None)`
raises `TypeError`; here `None` is in no table and `decode` fails with the error of an unknown number. `decode_msm17` catches both
and returns `None` (proved of the text in `Refine/MsmDecode.lean`, `msm17_bare_src`). -/
def subsetOf (num : Option Nat) : String × String :=
  match num with
  | some n => msmSubset n
  | none => ("", "")

/-- sub_decoders/RTCM_MSM.py:69-71 -/
def attributes (buf : Bytes) : Attributes :=
  let num := getMsgNum buf
  { gnss := (subsetOf num).1, subset := (subsetOf num).2, msg_number := num }

/-- sub_decoders/RTCM_MSM.py:104-156 `__extract_hdr`: header and new offset. -/
def extractHdr (buf : Bytes) (offset : Nat) : Py (BareHdr × Nat) := do
  let len ← gbu buf 14 10
  let bits_elapsed : Int := ((len : Int) - 3) * 8
  if bits_elapsed < MIN_HDR_LEN then .error .bareData
  else
    let _msg_num ← gbu buf offset 12; let offset := offset + 12
    let rs_id ← gbu buf offset 12; let offset := offset + 12
    let time ← gbu buf offset 30; let offset := offset + 30
    let MMB ← gbu buf offset 1; let offset := offset + 1
    let IODS ← gbu buf offset 3; let offset := offset + (3 + 7)
    let clk_steer ← gbu buf offset 2; let offset := offset + 2
    let clk_ext ← gbu buf offset 2; let offset := offset + 2
    let smth_indc ← gbu buf offset 1; let offset := offset + 1
    let smth_intr ← gbu buf offset 3; let offset := offset + 3
    let sat_mask ← gbu buf offset 64; let offset := offset + 64
    let sat_mask ← revbitu sat_mask 64
    let sgn_mask ← gbu buf offset 32; let offset := offset + 32
    let sgn_mask ← revbitu sgn_mask 32
    let hdr : BareHdr :=
      { rs_id, time, MMB, IODS, clk_steer, clk_ext, smth_indc, smth_intr, sat_mask, sgn_mask }
    let Nsat := bitCount sat_mask
    let Nsgn := bitCount sgn_mask
    if Nsat = 0 then
      let Nbytes := (offset + 7) >>> 3
      if buf.length ≠ Nbytes + 3 then .error .bareData
      else pure (hdr, offset)
    else
      let cell_bits := Nsat * Nsgn
      let bits_elapsed := bits_elapsed - MIN_HDR_LEN
      if cell_bits > 64 then .error .bareData
      else if (cell_bits : Int) > bits_elapsed then .error .bareData
      else
        let cell_mask ← gbu buf offset cell_bits; let offset := offset + cell_bits
        let cell_mask ← revbitu cell_mask cell_bits
        pure ({ hdr with cell_mask := cell_mask }, offset)

/-- `tuple(self.getbitu(buf, offset + i * bits, bits) for i in range(0, n))`.
sub_decoders/RTCM_MSM.py:189-191, 196-204, 228-242, 292-330. -/
def tupleU (buf : Bytes) (offset bits n : Nat) : Py (List Nat) := tupleOfRange n (fun i => gbu buf (offset + i * bits) bits)

/-- `tuple(self.getbits(buf, offset + i * bits, bits) for i in range(0, n))`.
sub_decoders/RTCM_MSM.py:209-224, 247-249, 300-318. -/
def tupleS (buf : Bytes) (offset bits n : Nat) : Py (List Int) := tupleOfRange n (fun i => gbs buf (offset + i * bits) bits)

/-- sub_decoders/RTCM_MSM.py:169-180: estimated length and the widths. -/
def plan4567 (atr : Attributes) (offset Nsat Ncell : Nat) : Nat × List Nat :=
  if atr.is_msm7 then (((offset + 36 * Nsat + 80 * Ncell + 7) >>> 3) + 3, BIT_WIDTH_7)
  else if atr.is_msm6 then (((offset + 18 * Nsat + 65 * Ncell + 7) >>> 3) + 3, BIT_WIDTH_6)
  else if atr.is_msm5 then (((offset + 36 * Nsat + 63 * Ncell + 7) >>> 3) + 3, BIT_WIDTH_5)
  else (((offset + 18 * Nsat + 48 * Ncell + 7) >>> 3) + 3, BIT_WIDTH_4)

/-- sub_decoders/RTCM_MSM.py:158-259 `__extract_observables4567`. -/
def extract4567 (buf : Bytes) (atr : Attributes) (hdr : BareHdr) (offset : Nat) : Py (Bare4567 × Nat) := do
  let Nsat := bitCount hdr.sat_mask
  let Nsgn := bitCount hdr.sgn_mask
  let Ncell := bitCount hdr.cell_mask
  if Nsat = 0 ∨ Nsgn = 0 ∨ Ncell = 0 then .error .bareData
  else
    let (est_len, bw) := plan4567 atr offset Nsat Ncell
    if est_len ≠ buf.length then .error .bareData
    else
      let sat : BareSat4567 := {}
      let sgn : BareSgn4567 := {}
      let (bits, bw) ← nextW bw
      let x ← tupleU buf offset bits Nsat
      let sat := { sat with rng_ms := x }
      let offset := offset + bits * Nsat
      let (sat, offset, bw) ←
        if atr.is_msm5 || atr.is_msm7 then do
          let (bits, bw) ← nextW bw
          let x ← tupleU buf offset bits Nsat
          pure ({ sat with ext_info := x }, offset + bits * Nsat, bw)
        else pure (sat, offset, bw)
      let (bits, bw) ← nextW bw
      let x ← tupleU buf offset bits Nsat
      let sat := { sat with rng_rough := x }
      let offset := offset + bits * Nsat
      let (sat, offset, bw) ←
        if atr.is_msm5 || atr.is_msm7 then do
          let (bits, bw) ← nextW bw
          let x ← tupleS buf offset bits Nsat
          pure ({ sat with phase_rate_rough := x }, offset + bits * Nsat, bw)
        else pure (sat, offset, bw)
      let (bits, bw) ← nextW bw
      let x ← tupleS buf offset bits Ncell
      let sgn := { sgn with rng_fine := x }
      let offset := offset + bits * Ncell
      let (bits, bw) ← nextW bw
      let x ← tupleS buf offset bits Ncell
      let sgn := { sgn with phase_fine := x }
      let offset := offset + bits * Ncell
      let (bits, bw) ← nextW bw
      let x ← tupleU buf offset bits Ncell
      let sgn := { sgn with lock_time := x }
      let offset := offset + bits * Ncell
      let (bits, bw) ← nextW bw
      let x ← tupleU buf offset bits Ncell
      let sgn := { sgn with hc_indc := x }
      let offset := offset + bits * Ncell
      let (bits, bw) ← nextW bw
      let x ← tupleU buf offset bits Ncell
      let sgn := { sgn with c2n := x }
      let offset := offset + bits * Ncell
      let (sgn, offset) ←
        if atr.is_msm5 || atr.is_msm7 then do
          let (bits, _) ← nextW bw
          let x ← tupleS buf offset bits Ncell
          pure ({ sgn with phase_rate_fine := x }, offset + bits * Ncell)
        else pure (sgn, offset)
      let Nbytes := (offset + 7) >>> 3
      if buf.length ≠ Nbytes + 3 then .error .bareData
      else pure ({ atr := atr, hdr := hdr, sat := sat, sgn := sgn }, offset)

/-- sub_decoders/RTCM_MSM.py:272-282: estimated length and the widths. -/
def plan123 (atr : Attributes) (offset Nsat Ncell : Nat) : Nat × List Nat :=
  if atr.is_msm1 then (((offset + 10 * Nsat + 15 * Ncell + 7) >>> 3) + 3, BIT_WIDTH_1)
  else if atr.is_msm2 then (((offset + 10 * Nsat + 28 * Ncell + 7) >>> 3) + 3, BIT_WIDTH_2)
  else if atr.is_msm3 then (((offset + 10 * Nsat + 43 * Ncell + 7) >>> 3) + 3, BIT_WIDTH_3)
  else (0, BIT_WIDTH_3)

/-- sub_decoders/RTCM_MSM.py:261-340 `__extract_observables123`. -/
def extract123 (buf : Bytes) (atr : Attributes) (hdr : BareHdr) (offset : Nat) : Py (Bare123 × Nat) := do
  let Nsat := bitCount hdr.sat_mask
  let Nsgn := bitCount hdr.sgn_mask
  let Ncell := bitCount hdr.cell_mask
  if Nsat = 0 ∨ Nsgn = 0 ∨ Ncell = 0 then .error .bareData
  else
    let (est_len, bw) := plan123 atr offset Nsat Ncell
    if est_len ≠ buf.length then .error .bareData
    else
      let sgn : BareSgn123 := {}
      let (bits, bw) ← nextW bw
      let x ← tupleU buf offset bits Nsat
      let sat : BareSat123 := { rng_rough := x }
      let offset := offset + bits * Nsat
      let (sgn, offset) ←
        if atr.is_msm1 then do
          let (bits, _) ← nextW bw
          let x ← tupleS buf offset bits Ncell
          pure ({ sgn with rng_fine := x }, offset + bits * Ncell)
        else do
          let (sgn, offset, bw) ←
            if atr.is_msm3 then do
              let (bits, bw) ← nextW bw
              let x ← tupleS buf offset bits Ncell
              pure ({ sgn with rng_fine := x }, offset + bits * Ncell, bw)
            else pure (sgn, offset, bw)
          let (bits, bw) ← nextW bw
          let x ← tupleS buf offset bits Ncell
          let sgn := { sgn with phase_fine := x }
          let offset := offset + bits * Ncell
          let (bits, bw) ← nextW bw
          let x ← tupleU buf offset bits Ncell
          let sgn := { sgn with lock_time := x }
          let offset := offset + bits * Ncell
          let (bits, _) ← nextW bw
          let x ← tupleU buf offset bits Ncell
          let sgn := { sgn with hc_indc := x }
          let offset := offset + bits * Ncell
          pure (sgn, offset)
      let Nbytes := (offset + 7) >>> 3
      if buf.length ≠ Nbytes + 3 then .error .bareData
      else pure ({ atr := atr, hdr := hdr, sat := sat, sgn := sgn }, offset)

/-- sub_decoders/RTCM_MSM.py:64-97 `decode`. A fresh object is filled; it becomes available (`_ready`) only when nothing was
raised. -/
def decode (buf : Bytes) : Py Bare := do
  let atr := attributes buf
  if atr.is_msm1 || atr.is_msm2 || atr.is_msm3 then
    let (hdr, offset) ← extractHdr buf 24
    if hdr.sat_mask = 0 then pure (.m123 { atr := atr, hdr := hdr })
    else
      let (b, _) ← extract123 buf atr hdr offset
      pure (.m123 b)
  else if atr.is_msm4 || atr.is_msm5 || atr.is_msm6 || atr.is_msm7 then
    let (hdr, offset) ← extractHdr buf 24
    if hdr.sat_mask = 0 then pure (.m4567 { atr := atr, hdr := hdr })
    else
      let (b, _) ← extract4567 buf atr hdr offset
      pure (.m4567 b)
  else .error .bareData

/-! ## `Bare2Scaled` -/

/-- sub_decoders/RTCM_MSM.py:349-375: scalers and checkers. -/
structure Scalers where
  rng : Rat
  phs : Rat
  dpl : Rat
  ltm : Nat → Nat
  c2n : Rat
  okRng : Int → Bool
  okPhs : Int → Bool
  okDpl : Int → Bool

/-- sub_decoders/RTCM_MSM.py:349-355 and 365-369; `0.0001` is taken as the rational 1/10000. -/
def SCALERS67 : Scalers :=
  { rng := 1 / 2 ^ 29, phs := 1 / 2 ^ 31, dpl := 1 / 10000, ltm := unpackTlock10, c2n := 1 / 16,
    okRng := isDF405_OK, okPhs := isDF406_OK, okDpl := isDF404_OK }

/-- sub_decoders/RTCM_MSM.py:357-363 and 371-375. -/
def SCALERS45 : Scalers :=
  { rng := 1 / 2 ^ 24, phs := 1 / 2 ^ 29, dpl := 1 / 10000, ltm := unpackTlock4, c2n := 1,
    okRng := isDF400_OK, okPhs := isDF401_OK, okDpl := isDF404_OK }

/-- `d[sgn].update({sat: v})`. sub_decoders/RTCM_MSM.py:524, 536, 549, 557-565, 630, 647-655. -/
def updIn {α : Type} (d : PyDict String (PyDict Nat α)) (sgn : String) (sat : Nat) (v : α) :
    Py (PyDict String (PyDict Nat α)) :=
  match d.get? sgn with
  | none => .error .keyError
  | some e => .ok (d.set sgn (e.set sat v))

/-- `d.update({sgn: {}})` for each `sgn`. sub_decoders/RTCM_MSM.py:459-465, 591-595. -/
def addEmpty {α : Type} (d : PyDict String (PyDict Nat α)) (sgns : List String) : PyDict String (PyDict Nat α) :=
  sgns.foldl (fun d s => d.set s []) d

/-- `if 0 == len(d[sgn]): del d[sgn]`. sub_decoders/RTCM_MSM.py:571-583, 661-669. -/
def delEmpty1 {α : Type} (d : PyDict String (PyDict Nat α)) (sgn : String) : Py (PyDict String (PyDict Nat α)) :=
  match d.get? sgn with
  | none => .error .keyError
  | some e => .ok (if e.length = 0 then d.filter (fun p => p.1 != sgn) else d)

/-- The loop `while slots`: the body gets the value of `i` before it is incremented and `slotExist`.
sub_decoders/RTCM_MSM.py:506-516, 612-622. -/
def whileSlots {σ : Type} (body : Nat → Bool → σ → Py σ) (slots i : Nat) (st : σ) : Py σ :=
  if slots = 0 then .ok st
  else do
    let st ← body i (slots &&& 1 != 0) st
    whileSlots body (slots >>> 1) (i + 1) st
termination_by slots
decreasing_by rw [Nat.shiftRight_eq_div_pow]; omega

/-- sub_decoders/RTCM_MSM.py:509-567, the body of `while slots` in `_convert_obs47`. -/
def body47 (src : Bare4567) (sc : Scalers) (sgn_map : List String) (sat : Nat) (rng_ok : Bool) (rng : Rat)
    (phase_rate_ok : Bool) (phase_rate : Rat) (i : Nat) (slotExist : Bool) (st : Nat × Obs) : Py (Nat × Obs) := do
  let (sgn_idx, obs) := st
  let sgn ← tupAt sgn_map i
  if slotExist = false then pure (sgn_idx, obs)
  else
    let obs ←
      if rng_ok then do
        let f ← tupAt src.sgn.rng_fine sgn_idx
        if sc.okRng f then do
          let d ← updIn obs.rng sgn sat ((rng + (f : Rat) * sc.rng) * CRNG_1MS)
          pure { obs with rng := d }
        else pure obs
      else pure obs
    let obs ←
      if rng_ok then do
        let f ← tupAt src.sgn.phase_fine sgn_idx
        if sc.okPhs f then do
          let d ← updIn obs.phs sgn sat ((rng + (f : Rat) * sc.phs) * CRNG_1MS)
          pure { obs with phs := d }
        else pure obs
      else pure obs
    let obs ←
      if phase_rate_ok then do
        let f ← tupAt src.sgn.phase_rate_fine sgn_idx
        if sc.okDpl f then do
          let d ← updIn obs.dpl sgn sat (phase_rate + (f : Rat) * sc.dpl)
          pure { obs with dpl := d }
        else pure obs
      else pure obs
    let t ← tupAt src.sgn.lock_time sgn_idx
    let d ← updIn obs.ltm sgn sat (sc.ltm t)
    let obs := { obs with ltm := d }
    let c ← tupAt src.sgn.c2n sgn_idx
    let d ← updIn obs.c2n sgn sat ((c : Rat) * sc.c2n)
    let obs := { obs with c2n := d }
    let h ← tupAt src.sgn.hc_indc sgn_idx
    let d ← updIn obs.hca sgn sat (h != 0)
    let obs := { obs with hca := d }
    pure (sgn_idx + 1, obs)

/-- sub_decoders/RTCM_MSM.py:472-568, the body of `for slots in self.slots_per_sat` in `_convert_obs47`. -/
def sat47 (src : Bare4567) (sc : Scalers) (sat_list : List Nat) (sgn_map : List String)
    (st : Nat × Nat × Obs) (slots : Nat) : Py (Nat × Nat × Obs) := do
  let (sat_idx, sgn_idx, obs) := st
  let sat ← tupAt sat_list sat_idx
  let ms ← tupAt src.sat.rng_ms sat_idx
  let rng_ok := ms != 255
  let rng : Rat ←
    if rng_ok then do
      let rough ← tupAt src.sat.rng_rough sat_idx
      pure ((((ms <<< 10) + rough : Nat) : Rat) / 1024)
    else pure 0
  let (phase_rate_ok, phase_rate) ←
    if src.atr.is_msm7 || src.atr.is_msm5 then do
      let r ← tupAt src.sat.phase_rate_rough sat_idx
      if r % 2 ^ 14 != 0x2000 then pure (true, (r : Rat)) else pure (false, (0 : Rat))
    else pure (false, (0 : Rat))
  let (sgn_idx, obs) ← whileSlots (body47 src sc sgn_map sat rng_ok rng phase_rate_ok phase_rate) slots 0 (sgn_idx, obs)
  pure (sat_idx + 1, sgn_idx, obs)

/-- sub_decoders/RTCM_MSM.py:571-583 -/
def del47 (obs : Obs) (sgn : String) : Py Obs := do
  let dpl ← delEmpty1 obs.dpl sgn
  let rng ← delEmpty1 obs.rng sgn
  let c2n ← delEmpty1 obs.c2n sgn
  let phs ← delEmpty1 obs.phs sgn
  let ltm ← delEmpty1 obs.ltm sgn
  let hca ← delEmpty1 obs.hca sgn
  pure { rng, phs, ltm, hca, dpl, c2n }

/-- sub_decoders/RTCM_MSM.py:447-583 `_convert_obs47`. -/
def convertObs47 (src : Bare4567) (sat_list : List Nat) (sgn_map : List String) (slots_per_sat : List Nat) (obs : Obs) :
    Py Obs := do
  let sc := if src.atr.is_msm7 || src.atr.is_msm6 then SCALERS67 else SCALERS45
  let obs : Obs :=
    { rng := addEmpty obs.rng sgn_map, c2n := addEmpty obs.c2n sgn_map, dpl := addEmpty obs.dpl sgn_map,
      phs := addEmpty obs.phs sgn_map, ltm := addEmpty obs.ltm sgn_map, hca := addEmpty obs.hca sgn_map }
  let (_, _, obs) ← slots_per_sat.foldlM (sat47 src sc sat_list sgn_map) (0, 0, obs)
  sgn_map.foldlM del47 obs

/-- sub_decoders/RTCM_MSM.py:614-655, the body of `while slots` in `_convert_obs13`; `ph_ok` lives across iterations. -/
def body13 (src : Bare123) (sc : Scalers) (sgn_map : List String) (sat : Nat) (rng : Rat) (rng_ok : Bool)
    (i : Nat) (slotExist : Bool) (st : Bool × Nat × Obs) : Py (Bool × Nat × Obs) := do
  let (ph_ok, sgn_idx, obs) := st
  let sgn ← tupAt sgn_map i
  if slotExist = false then pure (ph_ok, sgn_idx, obs)
  else
    let (ph_ok, obs) ←
      if rng_ok then do
        let f ← tupAt src.sgn.rng_fine sgn_idx
        if f % 2 ^ 15 != 0x4000 then do
          let d ← updIn obs.rng sgn sat ((rng + (f : Rat) * sc.rng) * CRNG_1MS)
          pure (ph_ok, { obs with rng := d })
        else pure (false, obs)
      else pure (ph_ok, obs)
    let obs ←
      if ph_ok then do
        let f ← tupAt src.sgn.phase_fine sgn_idx
        if f % 2 ^ 22 == 0x200000 then pure obs
        else do
          let d ← updIn obs.phs sgn sat ((rng + (f : Rat) * sc.phs) * CRNG_1MS)
          let obs := { obs with phs := d }
          let t ← tupAt src.sgn.lock_time sgn_idx
          let d ← updIn obs.ltm sgn sat (sc.ltm t)
          let obs := { obs with ltm := d }
          let h ← tupAt src.sgn.hc_indc sgn_idx
          let d ← updIn obs.hca sgn sat (h != 0)
          pure { obs with hca := d }
      else pure obs
    pure (ph_ok, sgn_idx + 1, obs)

/-- sub_decoders/RTCM_MSM.py:603-656, the body of `for slots in self.slots_per_sat` in `_convert_obs13`. -/
def sat13 (src : Bare123) (sc : Scalers) (sat_list : List Nat) (sgn_map : List String)
    (st : Nat × Nat × Obs) (slots : Nat) : Py (Nat × Nat × Obs) := do
  let (sat_idx, sgn_idx, obs) := st
  let sat ← tupAt sat_list sat_idx
  let rough ← tupAt src.sat.rng_rough sat_idx
  let rng : Rat := (rough : Rat) / 1024
  let rng_ok := src.atr.is_msm1 || src.atr.is_msm3
  let ph_ok := src.atr.is_msm2 || src.atr.is_msm3
  let (_, sgn_idx, obs) ← whileSlots (body13 src sc sgn_map sat rng rng_ok) slots 0 (ph_ok, sgn_idx, obs)
  pure (sat_idx + 1, sgn_idx, obs)

/-- sub_decoders/RTCM_MSM.py:659-668 -/
def del13 (obs : Obs) (sgn : String) : Py Obs := do
  let rng ← delEmpty1 obs.rng sgn
  let phs ← delEmpty1 obs.phs sgn
  let ltm ← delEmpty1 obs.ltm sgn
  let hca ← delEmpty1 obs.hca sgn
  pure { obs with rng, phs, ltm, hca }

/-- sub_decoders/RTCM_MSM.py:585-668 `_convert_obs13`. -/
def convertObs13 (src : Bare123) (sat_list : List Nat) (sgn_map : List String) (slots_per_sat : List Nat) (obs : Obs) :
    Py Obs := do
  let sc := SCALERS45
  let obs : Obs :=
    { obs with rng := addEmpty obs.rng sgn_map, phs := addEmpty obs.phs sgn_map,
               ltm := addEmpty obs.ltm sgn_map, hca := addEmpty obs.hca sgn_map }
  let (_, _, obs) ← slots_per_sat.foldlM (sat13 src sc sat_list sgn_map) (0, 0, obs)
  sgn_map.foldlM del13 obs

/-- `(i + 1 for i in range(0, n) if (mask & (1 << i)))`. sub_decoders/RTCM_MSM.py:420, 426. -/
def maskList (mask n : Nat) : List Nat :=
  ((List.range n).filter (fun i => mask &&& (1 <<< i) != 0)).map (· + 1)

/-- sub_decoders/RTCM_MSM.py:429: `{s: MSMT.crr_frq(gnss, s) for s in sgn_map}` as the list of its items before duplicates are
merged. `crr_frq` raises for `None`, so afterwards every element of `sgn_map` is a string. -/
def signalItem (gnss : String) (s : Option String) : Py (String × Rat) := do
  let f ← crrFrq gnss s
  match s with
  | none => .error .keyError
  | some s => pure (s, f)

/-- sub_decoders/RTCM_MSM.py:382-445 `convert`; `none` is `None`. -/
def convert (src : Option Bare) : Py (Option ObservablesMSM) :=
  match src with
  | none => pure none
  | some src =>
    if src.atr.gnss = "" then pure none
    else do
      let h := src.hdr
      let hdr : ObsHdr := { time := src.time, day := src.day }
      let aux : ObsAux :=
        { rs_id := h.rs_id, MMB := h.MMB, IODS := h.IODS,
          clk_steer := (h.clk_steer, unpackClkSteer h.clk_steer), clk_ext := (h.clk_ext, unpackClkExt h.clk_ext),
          smth_indc := (h.smth_indc, unpackSmthIndc h.smth_indc),
          smth_intr := (h.smth_intr, unpackSmthIntr h.smth_intr) }
      if h.sat_mask = 0 then pure (some { hdr := { hdr with sats := [], signals := [] }, aux := aux, atr := src.atr })
      else
        let sat_list := maskList h.sat_mask 64
        let sat_num := sat_list.length
        let items ← ((maskList h.sgn_mask 32).map (rnxLit src.atr.gnss)).mapM (signalItem src.atr.gnss)
        let sgn_map := items.map (·.1)
        let signals : PyDict String Rat := items.foldl (fun d p => d.set p.1 p.2) []
        let hdr := { hdr with sats := sat_list, signals := signals }
        let M := bitCount h.sgn_mask
        let mask := (1 <<< M) - 1
        let slots_per_sat := (List.range sat_num).map (fun i => (h.cell_mask >>> (M * i)) &&& mask)
        let obs ← match src with
          | .m4567 b => convertObs47 b sat_list sgn_map slots_per_sat {}
          | .m123 b => convertObs13 b sat_list sgn_map slots_per_sat {}
        pure (some { hdr := hdr, obs := obs, aux := aux, atr := src.atr })

/-- sub_decoders/RTCM_MSM.py:675-728 `decode_msm17`: bare object (`inl`), scaled object (`inr`) or `None`. All exceptions of
`decode` and of `convert` are caught. -/
def decodeMsm17 (isBare : Bool) (buf : Bytes) : Option (Bare ⊕ ObservablesMSM) :=
  match decode buf with
  | .error _ => none
  | .ok b =>
    if isBare then some (.inl b)
    else
      match convert (some b) with
      | .error _ => none
      | .ok none => none
      | .ok (some r) => some (.inr r)

end Msm
end Verif
