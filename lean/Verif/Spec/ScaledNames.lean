import Verif.Spec.MsmScaled
import Verif.Spec.MsmNames

/-!
# Names of the observables of a multiple signal message in the output of scaled values
-/

namespace Verif
namespace Spec
open PyCore

/-- The value of `v[k]` for a dictionary `v`, `none` if it is not a dictionary or has no such key. -/
def itemVal (h : Heap) (v k : Val) : Option Val :=
  match v with
  | .ref a =>
    match h[a]? with
    | some (.dict kvs) => dictGet kvs k
    | _ => none
  | _ => none

/-- The value of `v.obs.<name>[sgn][sat]`, `none` if there is no such entry. -/
def entryVal (h : Heap) (v : Val) (name sgn : String) (sat : Nat) : Option Val :=
  ((pathVal h v ["obs", name]).bind (itemVal h · (.str sgn))).bind (itemVal h · (.int sat))

/-- Attributes of a scaled object: the kind of the message, its header, the data of the station. GLONASS time is day of week and time of
day. -/
def MsmData.scaledAttrs (d : MsmData) : List (List String × Val) :=
  [(["atr", "gnss"], .str (gnssLetter d.g)), (["atr", "subset"], .str (msmName d.k)), (["atr", "msg_number"], .int d.number),
   (["hdr", "sats"], natsVal d.satList), (["hdr", "time"], .int (if d.g = 1 then d.time % 2 ^ 27 else d.time : Nat)),
   (["hdr", "day"], .int (if d.g = 1 then d.time / 2 ^ 27 else 0 : Nat)),
   (["aux", "rs_id"], .int d.station), (["aux", "MMB"], .int d.multiple), (["aux", "IODS"], .int d.iods)]

/-- Attributes with a code and its meaning. -/
def MsmData.codedAttrs (d : MsmData) : List (String × Nat × String) :=
  [("clk_steer", d.steering, steerName d.steering), ("clk_ext", d.external, extClockName d.external),
   ("smth_indc", d.smoothing, smoothName d.smoothing), ("smth_intr", d.interval, intervalName d.interval)]

/-- The table `name` of the scaled object `v` contains the values `val` of satellites and signals of the content: the entry under a RINEX code and
a satellite number is that of the signal with this code and of this satellite. -/
def MsmData.TableShown (d : MsmData) (h : Heap) (v : Val) (name : String) (val : Nat → Nat → Option Val) : Prop :=
  ∀ (n : String) (s : Nat) (w : Val), entryVal h v name n s = some w ↔
    ∃ t ∈ d.sigList, d.sigName t = some n ∧ s ∈ d.satList ∧ val s t = some w

/-- What a scaled object shows except for the tables: the header with the carrier frequencies and the auxiliary data. -/
structure MsmData.HeadShown (d : MsmData) (h : Heap) (v : Val) : Prop where
  attrs : ∀ p ∈ d.scaledAttrs, pathVal h v p.1 = some p.2
  codes : ∀ p ∈ d.codedAttrs, (pathVal h v ["aux", p.1]).bind (itemVal h · (.str "code")) = some (.int p.2.1) ∧
    (pathVal h v ["aux", p.1]).bind (itemVal h · (.str "val")) = some (.str p.2.2)
  signals : ∀ (n : String) (w : Val), (pathVal h v ["hdr", "signals"]).bind (itemVal h · (.str n)) = some w ↔
    ∃ t ∈ d.sigList, d.sigName t = some n ∧ w = .flt (d.sigFreq n)

/-- In the heap `h` the object `v` shows the observables of the content `d` in physical units. -/
structure MsmData.ScaledShown (d : MsmData) (h : Heap) (v : Val) : Prop where
  head : d.HeadShown h v
  rng : d.TableShown h v "rng" (fun s t => (d.rngVal s t).map .flt)
  phs : d.TableShown h v "phs" (fun s t => (d.phsVal s t).map .flt)
  dpl : d.TableShown h v "dpl" (fun s t => (d.dplVal s t).map .flt)
  c2n : d.TableShown h v "c2n" (fun s t => (d.c2nVal s t).map .flt)
  ltm : d.TableShown h v "ltm" (fun s t => (d.ltmVal s t).map (fun x : Nat => .int x))
  hca : d.TableShown h v "hca" (fun s t => (d.hcaVal s t).map .bool)

end Spec
end Verif
