import Verif.Spec.ScaledNames
import Verif.Spec.BaseNames
import Verif.Spec.Double

/-!
# Objects in physical units, with numbers in double precision

What the objects of `ScaledNames` and `BaseNames` look like if the numbers are doubles near the exact ones.
-/

namespace Verif
namespace Spec
open PyCore

/-- The table `name` of the scaled object `v` has an entry exactly where the content has a value, and the entry is a double within `b` of the value. -/
def MsmData.TableNear (d : MsmData) (h : Heap) (v : Val) (name : String) (b : Rat) (val : Nat → Nat → Option Rat) : Prop :=
  (∀ (n : String) (s : Nat) (w : Val), entryVal h v name n s = some w →
    ∃ t ∈ d.sigList, d.sigName t = some n ∧ s ∈ d.satList ∧ ∃ x y, val s t = some x ∧ w = .flt y ∧ Within b x y) ∧
  (∀ t ∈ d.sigList, ∀ n, d.sigName t = some n → ∀ s ∈ d.satList, ∀ x, val s t = some x → ∃ y, entryVal h v name n s = some (.flt y) ∧ Within b x y)

/-- The header: as in `MsmData.HeadShown`, with carrier frequencies [MHz] within 1e-12. -/
structure MsmData.HeadNear (d : MsmData) (h : Heap) (v : Val) : Prop where
  attrs : ∀ p ∈ d.scaledAttrs, pathVal h v p.1 = some p.2
  codes : ∀ p ∈ d.codedAttrs, (pathVal h v ["aux", p.1]).bind (itemVal h · (.str "code")) = some (.int p.2.1) ∧
    (pathVal h v ["aux", p.1]).bind (itemVal h · (.str "val")) = some (.str p.2.2)
  signals : ∀ (n : String) (w : Val), (pathVal h v ["hdr", "signals"]).bind (itemVal h · (.str n)) = some w →
    (∃ t ∈ d.sigList, d.sigName t = some n) ∧ ∃ y, w = .flt y ∧ Within (1 / 10 ^ 12) (d.sigFreq n) y
  allSignals : ∀ t ∈ d.sigList, ∀ n, d.sigName t = some n → ∃ w, (pathVal h v ["hdr", "signals"]).bind (itemVal h · (.str n)) = some w

/-- In the heap `h` the object `v` shows the observables of the content `d`: ranges within 0.1 µm, rates within 1e-12 m/s, all else exactly. -/
structure MsmData.ScaledNear (d : MsmData) (h : Heap) (v : Val) : Prop where
  head : d.HeadNear h v
  rng : d.TableNear h v "rng" (1 / 10 ^ 7) d.rngVal
  phs : d.TableNear h v "phs" (1 / 10 ^ 7) d.phsVal
  dpl : d.TableNear h v "dpl" (1 / 10 ^ 12) d.dplVal
  c2n : d.TableShown h v "c2n" (fun s t => (d.c2nVal s t).map .flt)
  ltm : d.TableShown h v "ltm" (fun s t => (d.ltmVal s t).map (fun x : Nat => .int x))
  hca : d.TableShown h v "hca" (fun s t => (d.hcaVal s t).map .bool)

/-- An ephemeris: each named attribute is the given value, but for the two group delays of BeiDou, which are doubles with a relative error of at most 2^-51. -/
def NamedNear (names : List String) (vals : List Val) (h : Heap) (v : Val) : Prop :=
  List.Forall₂ (fun n x => ∃ w, pathVal h v [n] = some w ∧
    (w = x ∨ (n = "TGD1" ∨ n = "TGD2") ∧ ∃ a b, x = .flt a ∧ w = .flt b ∧ Within (|a| / 2 ^ 51) a b)) names vals

/-- A base station object: as in `BaseMsg.HeldScaled`, but coordinates and heights, which have at most 38 bits, are doubles within 20 nm, intervals (16 bits) and
biases (16 bits) within 20 ps and 20 pm. -/
def BaseMsg.HeldNear (f : List UInt8 → String) (m : BaseMsg) (h : Heap) (v : Val) : Prop :=
  ∃ fc ft fx : Int → Rat, (∀ x : Int, |x| ≤ 2 ^ 38 → Within (2 / 10 ^ 8) (x / 10000) (fc x)) ∧ (∀ x : Int, |x| ≤ 2 ^ 16 → Within (2 / 10 ^ 11) (x / 10) (ft x)) ∧
    (∀ x : Int, |x| ≤ 2 ^ 16 → Within (2 / 10 ^ 11) (x / 5) (fx x)) ∧ IsOfClass h v m.className ∧
    (∀ p ∈ m.attrs flagVal (fun x => .flt (fc x)) (fun x => .str (quarterText x)) f, pathVal h v [p.1] = some p.2) ∧
    m.Tables flagVal (fun x => .flt (ft x)) flagVal (fun x => .flt (fx x)) h v

end Spec
end Verif
