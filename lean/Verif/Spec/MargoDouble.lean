import Verif.Spec.Margo
import Verif.Spec.MargoText
import Verif.Spec.ReadText
import Verif.Spec.Double

/-!
# MARGO output in double precision

How far the printed values may be from the exact ones.
-/

namespace Verif
namespace Spec
open Msm

/-- Largest error of a value in double precision: ranges 0.1 µm, phases 1e-5 cycles, Doppler 1e-9 Hz, lock times 1e-15 of the value, none for
carrier to noise ratios and flags. -/
def ObsKind.tolerance : ObsKind → Rat → Rat
  | .range, _ => 1 / 10 ^ 7
  | .phase, _ => 1 / 10 ^ 5
  | .doppler, _ => 1 / 10 ^ 9
  | .lock, x => |x| / 10 ^ 15
  | .cnr, _ => 0
  | .half, _ => 0

/-- The rows of a message in the order of printing: kind and signal. -/
def margoPlan (m : MargoSettings) (p : ObservablesMSM) : List (ObsKind × String) :=
  (kindsOf m).flatMap (fun k => (slotsOf p k).map (fun slot => (k, slot)))

/-- The columns of a row. -/
def margoCols (m : MargoSettings) (g : Nat) (p : ObservablesMSM) (k : ObsKind) (slot : String) : List (Option Rat) :=
  (List.range (margoSats g)).map (fun i => margoCell m g p k slot (i + 1))

/-- A field of a line shows a value within half a unit of its last decimal and the error of double precision. -/
def ShowsNear (k : ObsKind) (cell : Option Rat) (field : Txt) : Prop :=
  match cell with
  | none => readCell field = some none
  | some x => ∃ y, readCell field = some (some y) ∧ |y - x| ≤ 1 / (2 * 10 ^ k.format.2) + k.tolerance x

/-- A line shows a row: the time exactly, then one field for each column. -/
def ShowsRowNear (k : ObsKind) (t : Int) (cells : List (Option Rat)) (line : Txt) : Prop :=
  ∃ f fs, readFields line = f :: fs ∧ readFixed f = some (t : Rat) ∧ List.Forall₂ (ShowsNear k) cells fs

end Spec
end Verif
