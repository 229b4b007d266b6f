import Verif.Spec.MsmObj
import Verif.Spec.SourceText

/-!
# Names of the data of a multiple signal message in the output
-/

namespace Verif
namespace Spec
open PyCore

/-- The value reached from `v` by following the attributes: `v.x.y…`. -/
def pathVal (h : Heap) (v : Val) : List String → Option Val
  | [] => some v
  | x :: xs =>
    match v with
    | .ref a => (h[a]?.bind (attrVal · x)).bind (pathVal h · xs)
    | _ => none

/-- A tuple of integers. -/
def intsVal (l : List Int) : Val := .tup (l.map .int)
/-- A tuple of unsigned integers. -/
def natsVal (l : List Nat) : Val := .tup (l.map (fun x : Nat => .int x))

/-- Attributes of a bare object that are common to all types: the kind of the message and its header. -/
def MsmData.headAttrs (d : MsmData) : List (List String × Val) :=
  [(["atr", "gnss"], .str (gnssLetter d.g)), (["atr", "subset"], .str (msmName d.k)), (["atr", "msg_number"], .int d.number),
   (["hdr", "rs_id"], .int d.station), (["hdr", "time"], .int d.time), (["hdr", "MMB"], .int d.multiple),
   (["hdr", "IODS"], .int d.iods), (["hdr", "clk_steer"], .int d.steering), (["hdr", "clk_ext"], .int d.external),
   (["hdr", "smth_indc"], .int d.smoothing), (["hdr", "smth_intr"], .int d.interval),
   (["hdr", "sat_mask"], .int (maskInt d.sats)), (["hdr", "sgn_mask"], .int (maskInt d.sigs)),
   (["hdr", "cell_mask"], .int (maskInt d.cells))]

/-- Attributes with the data of satellites and cells: MSM1 … MSM3. -/
def MsmData.attrs13 (d : MsmData) : List (List String × Val) :=
  let w := msmWidths d.k
  [(["sat", "rng_rough"], natsVal (colObj w.rough d.rngRough)), (["sgn", "rng_fine"], intsVal (colObj w.fine d.rngFine)),
   (["sgn", "phase_fine"], intsVal (colObj w.phs d.phsFine)), (["sgn", "lock_time"], natsVal (colObj w.lock d.lock)),
   (["sgn", "hc_indc"], natsVal (colObj w.half d.half))]

/-- Attributes with the data of satellites and cells: MSM4 … MSM7. -/
def MsmData.attrs47 (d : MsmData) : List (List String × Val) :=
  let w := msmWidths d.k
  [(["sat", "rng_ms"], natsVal (colObj w.ms d.rngMs)), (["sat", "ext_info"], natsVal (colObj w.ext d.extInfo)),
   (["sat", "phase_rate_rough"], intsVal (colObj w.rate d.rateRough)), (["sgn", "c2n"], natsVal (colObj w.cnr d.cnr)),
   (["sgn", "phase_rate_fine"], intsVal (colObj w.fineRate d.rateFine))] ++ d.attrs13

/-- In the heap `h` the bare object `v` shows the content `d`. -/
def MsmData.ShownBy (d : MsmData) (h : Heap) (v : Val) : Prop :=
  ∀ p ∈ d.headAttrs ++ (if d.k ≤ 3 then d.attrs13 else d.attrs47), pathVal h v p.1 = some p.2

end Spec
end Verif
