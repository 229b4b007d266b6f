import Verif.Model.JsonPrinter
import Verif.Spec.MargoDouble
import Verif.Spec.NavDouble

/-!
# The files of two runs of the program that differ by rounding only
-/

namespace Verif
namespace Spec
open Decoder

/-- `o'` is the decoded object `o` in double precision. -/
inductive NearObj : PyObj → PyObj → Prop
  /-- objects without floats, and ephemerides, which are scaled by powers of two -/
  | same (o : PyObj) : NearObj o o
  | msm {r r' : Msm.ObservablesMSM} (h : InDoubles r r') : NearObj (.msm r) (.msm r')
  /-- the exact group delays are the multiples of 0.1 ns nearest to the doubles -/
  | bds {e e' : EphBDS PyNum} (h : snapEph (.bds e') = .bds e) : NearObj (.eph (.bds e)) (.eph (.bds e'))
  /-- the exact values are the multiples of the units nearest to the doubles -/
  | base {b b' : Base.ScaledObj} (h : snapBase b' = b) (hq : List.Forall₂ (Within (baseTolerance b)) (quantities b) (quantities b')) :
      NearObj (.baseScaled b) (.baseScaled b')

/-- A text written at one time in two runs. -/
inductive NearPiece (fr : Rat → Txt) (c : Json.Controls) : Txt → Txt → Prop
  | same (t : Txt) : NearPiece fr c t t
  /-- the text of an object in a JSON file -/
  | json {o o' : PyObj} (h : NearObj o o') : NearPiece fr c ([',', '\r'] ++ Json.objText fr c o) ([',', '\r'] ++ Json.objText fr c o')
  /-- a line of a MARGO file: same time, missing values at the same places -/
  | row (k : ObsKind) (t : Int) {l l' : List (Option Rat)} (h : List.Forall₂ (Option.Rel (fun x y => |y - x| ≤ k.tolerance x)) l l') :
      NearPiece fr c (rowText k t l) (rowText k t l')

/-- Contents of a file in two runs: the same number of pieces, which correspond. -/
inductive NearText (fr : Rat → Txt) (c : Json.Controls) : Txt → Txt → Prop
  | nil : NearText fr c [] []
  | write {t t' x x' : Txt} (h : NearText fr c t t') (hx : NearPiece fr c x x') : NearText fr c (t ++ x) (t' ++ x')

/-- File systems of two runs: the same directories, calls and faults, the same files in the same order. -/
structure NearDisk (fr : Rat → Txt) (c : Json.Controls) (w w' : Disk) : Prop where
  dirs : w'.dirs = w.dirs
  fault : w'.fault = w.fault
  calls : w'.calls = w.calls
  files : List.Forall₂ (fun p q => p.1 = q.1 ∧ NearText fr c p.2 q.2) w.files w'.files

end Spec
end Verif
