import Verif.Spec.MsmScaled
import Verif.Spec.BaseObj
import Verif.Model.Details

/-!
# What the log should say about single observables of a multiple signal message
-/

namespace Verif
namespace Spec
open Msm

/-- A signed field of `w` bits carries the code `invalid`. -/
def marked (w : Nat) (x : Option Int) : Bool := decide (x = some (-(2 ^ (w - 1))))

namespace MsmData

/-- The rough phase range rate of a satellite is transmitted and valid. -/
def roughRateOk (d : MsmData) (s : Nat) : Bool :=
  match d.rateRough[d.satRow s]? with
  | none => false
  | some y => !marked (msmWidths d.k).rate (some y)

/-- Lines about the cell of satellite `s` and signal `t`: for each fine value that is marked invalid although the rough value is there.
(`sticky` concerns MSM3 only: an invalid pseudorange silences the lines about the phase ranges of this and later cells of the satellite.) -/
def cellReports (d : MsmData) (s t : Nat) : List Detail :=
  match d.cellIdx s t, d.sigName t with
  | some i, some n =>
    (if (d.rough s).isSome && marked (msmWidths d.k).fine d.rngFine[i]? then [.noFineRange (gnssLetter d.g) s n] else []) ++
    (if (d.rough s).isSome && !d.sticky s t && marked (msmWidths d.k).phs d.phsFine[i]? then [.noFinePhase (gnssLetter d.g) s n] else []) ++
    (if d.roughRateOk s && marked (msmWidths d.k).fineRate d.rateFine[i]? then [.noFineDoppler (gnssLetter d.g) s n] else [])
  | _, _ => []

/-- Lines about a satellite: for each rough value that is marked invalid, with the number of cells before those of the satellite; then
the lines about its cells. -/
def satReports (d : MsmData) (s : Nat) : List Detail :=
  (if d.rngMs[d.satRow s]? = some 255 then [.noCoarseRange (gnssLetter d.g) s ((d.cells.take (d.satRow s * d.nsig)).count true)] else []) ++
  (if marked (msmWidths d.k).rate d.rateRough[d.satRow s]? then
    [.noCoarseDoppler (gnssLetter d.g) s ((d.cells.take (d.satRow s * d.nsig)).count true)] else []) ++
  d.sigList.flatMap (d.cellReports s)

/-- Lines about a message. -/
def reports (d : MsmData) : List Detail := d.satList.flatMap d.satReports

/-- What a line says is true of the message. -/
def LineTrue (d : MsmData) : Detail → Prop
  | .noCoarseRange g s i => g = gnssLetter d.g ∧ s ∈ d.satList ∧ d.rngMs[d.satRow s]? = some 255 ∧
      i = (d.cells.take (d.satRow s * d.nsig)).count true
  | .noCoarseDoppler g s i => g = gnssLetter d.g ∧ s ∈ d.satList ∧ marked (msmWidths d.k).rate d.rateRough[d.satRow s]? = true ∧
      i = (d.cells.take (d.satRow s * d.nsig)).count true
  | .noFineRange g s n => g = gnssLetter d.g ∧ s ∈ d.satList ∧
      ∃ t ∈ d.sigList, d.sigName t = some n ∧ ∃ i, d.cellIdx s t = some i ∧ marked (msmWidths d.k).fine d.rngFine[i]? = true
  | .noFinePhase g s n => g = gnssLetter d.g ∧ s ∈ d.satList ∧
      ∃ t ∈ d.sigList, d.sigName t = some n ∧ ∃ i, d.cellIdx s t = some i ∧ marked (msmWidths d.k).phs d.phsFine[i]? = true
  | .noFineDoppler g s n => g = gnssLetter d.g ∧ s ∈ d.satList ∧
      ∃ t ∈ d.sigList, d.sigName t = some n ∧ ∃ i, d.cellIdx s t = some i ∧ marked (msmWidths d.k).fineRate d.rateFine[i]? = true
  | .biasUndefined _ _ => False

end MsmData

/-- Lines that account for a missing pseudorange of satellite `s` and signal `n`. -/
def AccountsRange (g : String) (s : Nat) (n : String) : Detail → Prop
  | .noCoarseRange g' s' _ => g' = g ∧ s' = s
  | .noFineRange g' s' n' => g' = g ∧ s' = s ∧ n' = n
  | _ => False

/-- Lines that account for a missing phase range. -/
def AccountsPhase (g : String) (s : Nat) (n : String) : Detail → Prop
  | .noCoarseRange g' s' _ => g' = g ∧ s' = s
  | .noFinePhase g' s' n' => g' = g ∧ s' = s ∧ n' = n
  | _ => False

/-- Lines that account for a missing phase range rate. -/
def AccountsRate (g : String) (s : Nat) (n : String) : Detail → Prop
  | .noCoarseDoppler g' s' _ => g' = g ∧ s' = s
  | .noFineDoppler g' s' n' => g' = g ∧ s' = s ∧ n' = n
  | _ => False

/-- Lines about message 1230: one for each bias that is transmitted with the code 0x8000. -/
def biasReports : List (String × Option Int) → List Detail
  | [] => []
  | (field, x) :: rest => (if x = some (-32768) then [.biasUndefined 1230 field] else []) ++ biasReports rest

end Spec
end Verif
