import Verif.Spec.MsmObj
import Verif.Spec.Signals

/-!
# Specification of scaled observables

The observables in physical units that a multiple signal message carries (RTCM 10403.3, section 3.5.12 and 3.5.16), for each
satellite number `s` and each signal number `t`.
-/

namespace Verif

/-- `d[sgn][sat]`, `none` if there is no such entry. -/
def get2 {α : Type} (d : PyDict String (PyDict Nat α)) (sgn : String) (sat : Nat) : Option α :=
  (d.get? sgn).bind (fun e => e.get? sat)

namespace Spec
open Msm

/-- Numbers of the set entries of a mask, counted from 1. -/
def setNumbers (m : List Bool) : List Nat := ((List.range m.length).filter (fun i => m.getD i false)).map (· + 1)

/-- Light travels this far in one millisecond [m]. -/
def lightMs : Rat := 299792458 / 1000

/-- A signed field of `w` bits: the most negative code means `invalid`. -/
def validInt (w : Nat) (x : Int) : Option Rat := if x = -(2 ^ (w - 1)) then none else some (x : Rat)

/-- Resolution of the fine pseudorange [ms]: DF400, DF405. -/
def resRng (k : Nat) : Rat := if k = 6 ∨ k = 7 then 1 / 2 ^ 29 else 1 / 2 ^ 24
/-- Resolution of the fine phase range [ms]: DF401, DF406. -/
def resPhs (k : Nat) : Rat := if k = 6 ∨ k = 7 then 1 / 2 ^ 31 else 1 / 2 ^ 29
/-- Resolution of the CNR [dBHz]: DF403, DF408. -/
def resCnr (k : Nat) : Rat := if k = 6 ∨ k = 7 then 1 / 2 ^ 4 else 1
/-- Resolution of the fine phase range rate [m/s]: DF404. -/
def resRate : Rat := 1 / 10000

/-- Minimum lock time in ms, DF402: 0, 32, 64, … -/
def lock402 (t : Nat) : Nat := if t = 0 then 0 else 2 ^ (4 + t)

/-- Minimum lock time in ms, DF407: 64 codes with step 1 ms, then each 32 codes the step doubles; code 704 is 67108864 ms,
codes above are reserved (0). -/
def lock407 (t : Nat) : Nat :=
  if t < 64 then t else if t < 704 then 2 ^ (t / 32 - 1) * (t - 32 * (t / 32 - 1)) else if t = 704 then 67108864 else 0

/-- Clock steering (DF411). -/
def steerName : Nat → String
  | 0 => "OFF" | 1 => "ON" | _ => "UNDEF"
/-- External clock (DF412). -/
def extClockName : Nat → String
  | 0 => "INTERNAL" | 1 => "EXT-LOCK" | 2 => "EXT-UNLOCK" | _ => "UNDEF"
/-- Divergence-free smoothing (DF417). -/
def smoothName : Nat → String
  | 1 => "DVRG-FREE" | _ => "UNDEF"
/-- Smoothing interval (DF418) [s]. -/
def intervalName : Nat → String
  | 0 => "NOSMTH" | 1 => "00-30" | 2 => "30-60" | 3 => "60-120" | 4 => "120-240" | 5 => "240-480" | 6 => "480+" | _ => "UNLIM"

namespace MsmData

/-- Satellite numbers in ascending order. -/
def satList (d : MsmData) : List Nat := setNumbers d.sats
/-- Signal numbers in ascending order. -/
def sigList (d : MsmData) : List Nat := setNumbers d.sigs

/-- Row of a satellite in the cell mask: number of satellites before it. -/
def satRow (d : MsmData) (s : Nat) : Nat := (d.sats.take (s - 1)).count true
/-- Column of a signal in the cell mask: number of signals before it. -/
def sigCol (d : MsmData) (t : Nat) : Nat := (d.sigs.take (t - 1)).count true
/-- Position in the cell mask. -/
def cellPos (d : MsmData) (s t : Nat) : Nat := d.satRow s * d.nsig + d.sigCol t

/-- Index of the cell of satellite `s` and signal `t` in the columns of cell data: the number of cells before it;
`none` if there is no such cell. -/
def cellIdx (d : MsmData) (s t : Nat) : Option Nat :=
  if d.cells.getD (d.cellPos s t) false then some ((d.cells.take (d.cellPos s t)).count true) else none

/-- Rough range of a satellite [ms]. MSM1 … MSM3 carry it modulo 1 ms only. -/
def rough (d : MsmData) (s : Nat) : Option Rat := do
  let r ← d.rngRough[d.satRow s]?
  if d.k ≤ 3 then some ((r : Rat) / 1024)
  else
    let ms ← d.rngMs[d.satRow s]?
    if ms = 255 then none else some ((ms : Rat) + (r : Rat) / 1024)

/-- Pseudorange [m]. -/
def rngVal (d : MsmData) (s t : Nat) : Option Rat := do
  let i ← d.cellIdx s t
  let r ← d.rough s
  let x ← d.rngFine[i]?
  let f ← validInt (msmWidths d.k).fine x
  some ((r + f * resRng d.k) * lightMs)

/-- Phase range [m]. -/
def phsVal (d : MsmData) (s t : Nat) : Option Rat := do
  let i ← d.cellIdx s t
  let r ← d.rough s
  let x ← d.phsFine[i]?
  let f ← validInt (msmWidths d.k).phs x
  some ((r + f * resPhs d.k) * lightMs)

/-- Phase range rate [m/s]. -/
def dplVal (d : MsmData) (s t : Nat) : Option Rat := do
  let i ← d.cellIdx s t
  let y ← d.rateRough[d.satRow s]?
  let r ← validInt (msmWidths d.k).rate y
  let x ← d.rateFine[i]?
  let f ← validInt (msmWidths d.k).fineRate x
  some (r + f * resRate)

/-- Carrier to noise ratio [dBHz]. -/
def c2nVal (d : MsmData) (s t : Nat) : Option Rat := do
  let i ← d.cellIdx s t
  let x ← d.cnr[i]?
  some ((x : Rat) * resCnr d.k)

/-- Lock time [ms]. MSM1 … MSM3: reported together with the phase range only. -/
def ltmVal (d : MsmData) (s t : Nat) : Option Nat := do
  let i ← d.cellIdx s t
  let x ← d.lock[i]?
  if d.k ≤ 3 ∧ d.phsVal s t = none then none
  else if d.k = 6 ∨ d.k = 7 then some (lock407 x) else some (lock402 x)

/-- Half-cycle ambiguity. MSM1 … MSM3: reported together with the phase range only. -/
def hcaVal (d : MsmData) (s t : Nat) : Option Bool := do
  let i ← d.cellIdx s t
  let x ← d.half[i]?
  if d.k ≤ 3 ∧ d.phsVal s t = none then none else some (decide (x ≠ 0))

/-- RINEX code of a signal. -/
def sigName (d : MsmData) (t : Nat) : Option String := sigCode d.g t

/-- Carrier frequency of a signal [MHz]: that of its band, the first character of the code. -/
def sigFreq (d : MsmData) (name : String) : Rat := (name.toList.head?.map (bandMHz d.g)).getD 0

/-- All signals have a RINEX code. -/
def SignalsKnown (d : MsmData) : Prop := ∀ t ∈ d.sigList, (d.sigName t).isSome

/-- A table `{signal: {satellite: value}}` without empty entries. -/
def table {α : Type} (d : MsmData) (val : Nat → Nat → Option α) : PyDict String (PyDict Nat α) :=
  d.sigList.filterMap (fun t =>
    let row := d.satList.filterMap (fun s => (val s t).map (fun v => (s, v)))
    if row.isEmpty then none else (d.sigName t).map (fun n => (n, row)))

/-- Header of the scaled object: GLONASS time is day of week and time of day. -/
def scaledHdr (d : MsmData) : ObsHdr :=
  { signals := d.sigList.filterMap (fun t => (d.sigName t).map (fun n => (n, d.sigFreq n)))
    sats := d.satList
    time := if d.g = 1 then d.time % 2 ^ 27 else d.time
    day := if d.g = 1 then d.time / 2 ^ 27 else 0 }

/-- Auxiliary data of the scaled object. -/
def scaledAux (d : MsmData) : ObsAux :=
  { rs_id := d.station, MMB := d.multiple, IODS := d.iods
    clk_steer := (d.steering, steerName d.steering)
    clk_ext := (d.external, extClockName d.external)
    smth_indc := (d.smoothing, smoothName d.smoothing)
    smth_intr := (d.interval, intervalName d.interval) }

/-- The observations. -/
def scaledObs (d : MsmData) : Obs :=
  { rng := d.table d.rngVal, phs := d.table d.phsVal, ltm := d.table d.ltmVal, hca := d.table d.hcaVal,
    dpl := d.table d.dplVal, c2n := d.table d.c2nVal }

/-- The fine pseudorange of the cell is marked invalid. -/
def rngBad (d : MsmData) (s t : Nat) : Bool :=
  match d.cellIdx s t with
  | none => false
  | some i => d.rngFine[i]? == some (-(2 ^ ((msmWidths d.k).fine - 1)))

/-- MSM3 as implemented (not as specified): the fine pseudorange of this cell or of an earlier cell of the same satellite is marked
invalid. -/
def sticky (d : MsmData) (s t : Nat) : Bool :=
  d.k == 3 && d.sigList.any (fun u => decide (d.sigCol u ≤ d.sigCol t) && d.rngBad s u)

/-- MSM1 … MSM3 as implemented: phase data are dropped if `sticky`. -/
def codeObs13 (d : MsmData) : Obs :=
  let cut {α : Type} (val : Nat → Nat → Option α) (s t : Nat) : Option α := if d.sticky s t then none else val s t
  { rng := d.table d.rngVal, phs := d.table (cut d.phsVal), ltm := d.table (cut d.ltmVal), hca := d.table (cut d.hcaVal),
    dpl := [], c2n := [] }

/-- The scaled object. -/
def scaledObj (d : MsmData) : ObservablesMSM :=
  { hdr := d.scaledHdr, obs := d.scaledObs, aux := d.scaledAux, atr := d.attrObj }

end MsmData
end Spec
end Verif
