import Mathlib.Algebra.Order.Round
import Verif.Spec.BaseObj
import Verif.Spec.Double
import Verif.Spec.Eph

/-!
# Base station data and ephemerides in double precision

The exact value of a quantity is the multiple of its unit that is nearest to its double.
-/

namespace Verif
namespace Spec

/-- The multiple of `u` nearest to `y`. -/
def snapTo (u y : Rat) : Rat := round (y / u) * u

/-- All quantities of a base station object. -/
def quantities : Base.ScaledObj → List Rat
  | .rp o => [o.refPoint_X, o.refPoint_Y, o.refPoint_Z]
  | .rph o => [o.rp.refPoint_X, o.rp.refPoint_Y, o.rp.refPoint_Z, o.height]
  | .sp o => o.shedule.map (fun kv => kv.2.2)
  | .glbs o => o.correction.map (fun kv => kv.2)
  | _ => []

/-- Largest error of the quantities of an object. -/
def baseTolerance : Base.ScaledObj → Rat
  | .rp _ => 2 / 10 ^ 8
  | .rph _ => 2 / 10 ^ 8
  | _ => 2 / 10 ^ 11

/-- Reference point with coordinates that are multiples of 0.1 mm. -/
def snapRP (o : BaseRP Bool Rat String) : BaseRP Bool Rat String :=
  { o with refPoint_X := snapTo (1 / 10000) o.refPoint_X, refPoint_Y := snapTo (1 / 10000) o.refPoint_Y, refPoint_Z := snapTo (1 / 10000) o.refPoint_Z }

/-- The object with each quantity replaced by the nearest multiple of its unit: 0.1 mm, 0.1 s, 0.2 m. -/
def snapBase : Base.ScaledObj → Base.ScaledObj
  | .rp o => .rp (snapRP o)
  | .rph o => .rph ⟨snapRP o.rp, snapTo (1 / 10000) o.height⟩
  | .sp o => .sp { o with shedule := o.shedule.map (fun kv => (kv.1, kv.2.1, snapTo (1 / 10) kv.2.2)) }
  | .glbs o => .glbs { o with correction := o.correction.map (fun kv => (kv.1, snapTo (1 / 5) kv.2)) }
  | o => o

/-- A group delay replaced by the nearest multiple of 0.1 ns. -/
def snapNum : PyNum → PyNum
  | .flt y => .flt (snapTo (1 / 10 ^ 10) y)
  | .int x => .int x

/-- The object with the group delays of BeiDou replaced by the nearest multiples of 0.1 ns. -/
def snapEph : Eph.Obj PyNum → Eph.Obj PyNum
  | .bds o => .bds { o with TGD1 := snapNum o.TGD1, TGD2 := snapNum o.TGD2 }
  | o => o

end Spec
end Verif
