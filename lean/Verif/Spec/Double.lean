import Mathlib.Algebra.Order.Field.Rat
import Mathlib.Algebra.Order.Ring.Abs
import Mathlib.Data.Int.Log
import Mathlib.Data.Rat.Floor
import Verif.Spec.MsmScaled

/-!
# IEEE 754 double precision numbers

`Double x` says that a number has at most 53 significant bits and is a multiple of the smallest subnormal number. The upper limit of the
exponent is left out: numbers of this program stay far below it, which the theorems state as bounds.

`Nearest rnd` says that `rnd` rounds each number to a nearest such number. It leaves open which of two equally near ones is taken, so
that what is proved for all such `rnd` holds for the IEEE rule (ties to even) and for any other.
-/

namespace Verif
namespace Spec

/-- Finite numbers of the binary64 format, without upper limit of the exponent. -/
def Double (x : Rat) : Prop := ∃ m e : Int, |m| ≤ 2 ^ 53 ∧ -1074 ≤ e ∧ x = m * (2 : Rat) ^ e

/-- Rounding to nearest. -/
structure Nearest (rnd : Rat → Rat) : Prop where
  double : ∀ x, Double (rnd x)
  near : ∀ x z, Double z → |rnd x - x| ≤ |z - x|

/-- Relative error of one rounding. -/
def ulp : Rat := 1 / 2 ^ 53

/-- The nearest integer, ties to even. -/
def halfEven (x : Rat) : Int :=
  let f := ⌊x⌋
  if x - f < 1 / 2 then f else if 1 / 2 < x - f then f + 1 else if f % 2 = 0 then f else f + 1

/-- The exponent of the last of 53 bits of a number; -1074 for subnormal numbers. -/
def lastBit (x : Rat) : Int := max (Int.log 2 |x| - 52) (-1074)

/-- The rounding of IEEE 754: to nearest, ties to even. `ieee_nearest` shows that it satisfies `Nearest`. -/
def ieee (x : Rat) : Rat := halfEven (x / 2 ^ lastBit x) * 2 ^ lastBit x

/-! ## Scaled observables in double precision -/

open Msm

/-- `y` is a double that differs from `x` by at most `b`. -/
def Within (b x y : Rat) : Prop := Double y ∧ |y - x| ≤ b

/-- Two tables with the same signals and satellites in the same order. -/
def SameCells {α β : Type} (t : PyDict String (PyDict Nat α)) (u : PyDict String (PyDict Nat β)) : Prop :=
  t.map (fun p => (p.1, p.2.map (·.1))) = u.map (fun p => (p.1, p.2.map (·.1)))

/-- `r'` is the scaled object `r` in double precision. -/
structure InDoubles (r r' : ObservablesMSM) : Prop where
  /-- attributes, auxiliary data, time and satellites are the same -/
  atr : r'.atr = r.atr
  aux : r'.aux = r.aux
  hdr : { r'.hdr with signals := r.hdr.signals } = r.hdr
  /-- carrier frequencies [MHz] of the signals -/
  signals : r'.hdr.signals.map (·.1) = r.hdr.signals.map (·.1)
  freq : ∀ n, Option.Rel (Within (1 / 10 ^ 12)) (r.hdr.signals.get? n) (r'.hdr.signals.get? n)
  /-- pseudoranges and phase ranges [m]: within 0.1 µm -/
  rngCells : SameCells r.obs.rng r'.obs.rng
  rng : ∀ n s, Option.Rel (Within (1 / 10 ^ 7)) (get2 r.obs.rng n s) (get2 r'.obs.rng n s)
  phsCells : SameCells r.obs.phs r'.obs.phs
  phs : ∀ n s, Option.Rel (Within (1 / 10 ^ 7)) (get2 r.obs.phs n s) (get2 r'.obs.phs n s)
  /-- phase range rates [m/s] -/
  dplCells : SameCells r.obs.dpl r'.obs.dpl
  dpl : ∀ n s, Option.Rel (Within (1 / 10 ^ 12)) (get2 r.obs.dpl n s) (get2 r'.obs.dpl n s)
  /-- the others are exact -/
  c2n : r'.obs.c2n = r.obs.c2n
  ltm : r'.obs.ltm = r.obs.ltm
  hca : r'.obs.hca = r.obs.hca

end Spec
end Verif
