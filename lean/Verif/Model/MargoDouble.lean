import Verif.Model.MargoPrinter
import Verif.Model.MsmDouble

/-!
# Model of the arithmetic of printers/margo_printer.py with rounding

The functions of Model/MargoPrinter.lean that compute with floats, once more, with a rounding `rnd` applied to each literal and after each
operation, in the order of evaluation of the code. With `rnd = id` they are the functions of Model/MargoPrinter.lean.
-/

namespace Verif
namespace Margo
open Decoder RtcmUtil Text

/-- printers/margo_printer.py:191-202 `make_crr_frq`; `LT[sat]` is an int, converted to float before the multiplication. -/
def makeCrrFrqR (rnd : Rat → Rat) (c : Controls) (gnss sgn : String) : Py (List Rat) := do
  let fc ← crrFrq gnss (some sgn)
  let fc := rnd fc
  let n ← maxSats gnss
  let frq := List.replicate n fc
  if gnss ≠ "R" then pure frq
  else if sgn ∉ ["1C", "1P", "2C", "2P"] then pure frq
  else
    let df : Rat := if sgn ∈ ["1C", "1P"] then rnd (5625 / 10000) else rnd (4375 / 10000)
    frq.zipIdx 1 |>.mapM (fun p => match c.glo_lit_tab.get? p.2 with
      | none => .error .keyError
      | some lt => pure (rnd (p.1 + rnd (df * rnd lt))))

/-- printers/margo_printer.py:204-210 `make_lambdas`. -/
def makeLambdasR (rnd : Rat → Rat) (c : Controls) (gnss sgn : String) : Py (List Rat) := do
  let frequencies ← makeCrrFrqR rnd c gnss sgn
  frequencies.mapM (fun f => if f = 0 then .error .zeroDivision else pure (rnd (rnd (rnd CRNG_1MS * rnd (1 / 1000)) / f)))

/-- `x / y`. printers/margo_printer.py:209, 280, 294. -/
def divideR (rnd : Rat → Rat) (x y : Rat) : Py Rat := if y = 0 then .error .zeroDivision else .ok (rnd (x / y))

/-- Carrier phase cells, printers/margo_printer.py:256-281. -/
def cellPhaseR (rnd : Rat → Rat) (c : Controls) (gnss : String) (hca : PyDict String (PyDict Nat Bool)) (slot : String)
    (obs : PyDict Nat Rat) : Py (Nat → Py Cell) := do
  let lam ← makeLambdasR rnd c gnss slot
  pure (fun sat => match obs.get? sat with
    | none => pure .nan
    | some v => if ambOk c hca slot sat then do
        let l ← lamAt lam sat
        return .num (← divideR rnd v l)
      else pure .nan)

/-- Doppler cells, printers/margo_printer.py:292-295. -/
def cellDopplerR (rnd : Rat → Rat) (c : Controls) (gnss : String) (slot : String) (obs : PyDict Nat Rat) : Py (Nat → Py Cell) := do
  let lam ← makeLambdasR rnd c gnss slot
  pure (fun sat => match obs.get? sat with
    | none => pure .nan
    | some v => do
      let l ← lamAt lam sat
      let q ← divideR rnd (-v) l
      return if isNegZero v l then .negZero else .num q)

/-- Lock time cells, printers/margo_printer.py:321; the lock time is an int, converted to float before the multiplication. -/
def cellLockR (rnd : Rat → Rat) (_slot : String) (obs : PyDict Nat Nat) : Py (Nat → Py Cell) :=
  pure (fun sat => match obs.get? sat with
    | some v => pure (.num (rnd (rnd (v : Rat) * rnd (1 / 1000))))
    | none => pure .nan)

/-- printers/margo_printer.py:212-343 `ObservablesMSMtoPrintBuffer`. -/
def printBufferR (rnd : Rat → Rat) (c : Controls) (p : Msm.ObservablesMSM) : Py (PyDict Txt Row) := do
  let gnss := p.atr.gnss
  if !ofileLt1.mem gnss then .error .assertionError
  else
    let time : Int := if gnss ≠ "G" then convToGpsTime p.hdr.time p.hdr.day c.gps_utc_shift gnss else p.hdr.time
    let max_sats ← maxSats gnss
    let rv ← slotLoop gnss "C" p.atr.subset time max_sats cellPlain [] p.obs.rng
    let rv ← slotLoop gnss "L" p.atr.subset time max_sats (cellPhaseR rnd c gnss p.obs.hca) rv p.obs.phs
    let rv ← slotLoop gnss "D" p.atr.subset time max_sats (cellDopplerR rnd c gnss) rv p.obs.dpl
    let rv ← slotLoop gnss "S" p.atr.subset time max_sats cellPlain rv p.obs.c2n
    let rv ← if c.lock_time_enable then slotLoop gnss "T" p.atr.subset time max_sats (cellLockR rnd) rv p.obs.ltm else pure rv
    if c.half_cycle_enable then slotLoop gnss "A" p.atr.subset time max_sats cellHca rv p.obs.hca else pure rv

/-- printers/margo_printer.py:357-377 `make_header`. -/
def makeHeaderR (rnd : Rat → Rat) (c : Controls) (ofile_name : Txt) : Py (Txt × Txt) := do
  let gnss ← charAt ofile_name 0
  let param ← charAt ofile_name 1
  let (width, frc) ← format param
  let n ← maxSats gnss
  let line1 := Text.join [','] ((List.range n).map (fun sat : Nat => rjust width (intRepr (sat + 1))))
  let id ← margoFileId param
  let line1 := Text.join [','] [rjust 10 (intRepr id), line1] ++ ['\n']
  let width := if width < 9 then 9 else width
  let frc := if frc < 4 then 4 else frc
  let sgn := String.ofList ((ofile_name.drop 2).take 2)
  let frequencies ← makeCrrFrqR rnd c gnss sgn
  let cf ← crrFrq gnss (some sgn)
  let line2 := Text.join [','] (frequencies.map (fun x => rjust width (fixedRepr frc x)))
  let line2 := Text.join [','] [rjust 10 (fixedRepr frc (rnd cf)), line2] ++ ['\n']
  pure (line1, line2)

/-- printers/margo_printer.py:426-438 `__append`. -/
def Printer.appendR (rnd : Rat → Rat) (p : Printer) (w : Disk) (ofile line : Txt) : (Printer × Disk) × Py Unit :=
  if p.ofiles.mem ofile then p.writeTo w ofile line
  else
    match p.createOfile w ofile with
    | (s, .error e) => (s, .error e)
    | (s, .ok false) => (s, .ok ())
    | ((p, w), .ok true) =>
      match makeHeaderR rnd p.ctrl ofile with
      | .error e => ((p, w), .error e)
      | .ok (h1, h2) =>
        match p.writeTo w ofile h1 with
        | (s, .error e) => (s, .error e)
        | ((p, w), .ok ()) =>
          match p.writeTo w ofile h2 with
          | (s, .error e) => (s, .error e)
          | ((p, w), .ok ()) => p.writeTo w ofile line

/-- The loop printers/margo_printer.py:448-455. -/
def Printer.printRowsR (rnd : Rat → Rat) (p : Printer) (w : Disk) : PyDict Txt Row → (Printer × Disk) × Py Unit
  | [] => ((p, w), .ok ())
  | (f, row) :: rest =>
    match (do format (← charAt f 1)) with
    | .error e => ((p, w), .error e)
    | .ok (width, frc) =>
      match p.appendR rnd w f (formatObsString row width frc) with
      | (s, .error e) => (s, .error e)
      | ((p, w), .ok ()) => Printer.printRowsR rnd p w rest

/-- printers/margo_printer.py:440-470 `__print` and `__print_ObservablesMSM`. -/
def Printer.printR (rnd : Rat → Rat) (p : Printer) (w : Disk) (o : PyObj) : (Printer × Disk) × Py Unit :=
  match o with
  | .msm obs =>
    match printBufferR rnd p.ctrl obs with
    | .error e => ((p, w), .error e)
    | .ok pbuf => p.printRowsR rnd w pbuf
  | _ => ((p, w), .error .assertionError)

theorem makeCrrFrqR_id : makeCrrFrqR id = makeCrrFrq := rfl
theorem makeLambdasR_id : makeLambdasR id = makeLambdas := rfl
theorem printBufferR_id : printBufferR id = printBuffer := rfl
theorem makeHeaderR_id : makeHeaderR id = makeHeader := rfl

end Margo
end Verif
