import Verif.Spec.Msm
import Verif.Spec.Signals
import Verif.Model.MsmTypes

/-!
# The objects that denote the content of a multiple signal message
-/

namespace Verif
namespace Spec
open Msm

/-- Names of the MSM types. -/
def msmName : Nat → String
  | 1 => "MSM1" | 2 => "MSM2" | 3 => "MSM3" | 4 => "MSM4" | 5 => "MSM5" | 6 => "MSM6" | 7 => "MSM7" | _ => ""

/-- A mask as integer: bit `i` is entry `i`. -/
def maskInt : List Bool → Nat
  | [] => 0
  | b :: l => b.toNat + 2 * maskInt l

/-- A column of a bare object: the values, or `(0,)` if the message type does not have the field. -/
def colObj {α : Type} [OfNat α 0] (w : Nat) (l : List α) : List α := if w = 0 then [0] else l

/-- Attributes. -/
def MsmData.attrObj (d : MsmData) : Attributes :=
  { gnss := gnssLetter d.g, subset := msmName d.k, msg_number := some d.number }

/-- Header of the bare object. -/
def MsmData.hdrObj (d : MsmData) : BareHdr :=
  { rs_id := d.station, time := d.time, MMB := d.multiple, IODS := d.iods, clk_steer := d.steering, clk_ext := d.external,
    smth_indc := d.smoothing, smth_intr := d.interval, sat_mask := maskInt d.sats, sgn_mask := maskInt d.sigs,
    cell_mask := maskInt d.cells }

/-- The bare object: the transmitted integers. -/
def MsmData.bareObj (d : MsmData) : Bare :=
  let w := msmWidths d.k
  if d.k ≤ 3 then
    .m123
      { atr := d.attrObj, hdr := d.hdrObj, sat := { rng_rough := colObj w.rough d.rngRough },
        sgn :=
          { rng_fine := colObj w.fine d.rngFine, phase_fine := colObj w.phs d.phsFine, lock_time := colObj w.lock d.lock,
            hc_indc := colObj w.half d.half } }
  else
    .m4567
      { atr := d.attrObj, hdr := d.hdrObj,
        sat :=
          { rng_ms := colObj w.ms d.rngMs, ext_info := colObj w.ext d.extInfo, rng_rough := colObj w.rough d.rngRough,
            phase_rate_rough := colObj w.rate d.rateRough },
        sgn :=
          { rng_fine := colObj w.fine d.rngFine, phase_fine := colObj w.phs d.phsFine, lock_time := colObj w.lock d.lock,
            hc_indc := colObj w.half d.half, c2n := colObj w.cnr d.cnr,
            phase_rate_fine := colObj w.fineRate d.rateFine } }

end Spec
end Verif
