import Verif.Model.Decoder
import Verif.Model.Text

/-!
# Model of `TestDataGrabber` (tests/test_utilities.py:69-186) and of `DecoderTop.decode` with the switch
`TEST_DATA_GRABBER` (decoder_top.py:28-30, 166-168, 201-202)

Files are opened in the current directory; they are given by their names. Opening may fail (`OSError`), always or never for
a name; writing to an open file does not fail. Writing to a closed file is a `ValueError`.
-/

namespace Verif
namespace Grabber

/-- One entry of a scenario, tests/test_utilities.py:74-81; `fp` is `None`, or a file that is open (`true`) or closed (`false`). -/
structure Slot where
  fname : Txt
  cnt : Nat
  delay : Nat
  fp : Option Bool
  deriving DecidableEq, Repr

/-- A scenario, tests/test_utilities.py:73. -/
abbrev Scenario := PyDict Nat Slot

/-- The literal `{"fname": fname, "cnt": cnt, "delay": delay, "fp": None}`, tests/test_utilities.py:74-81. -/
def entry (fname : String) (cnt delay : Nat) : Slot := { fname := fname.toList, cnt := cnt, delay := delay, fp := none }

/-- tests/test_utilities.py:73-81 -/
def ephScenario : Scenario :=
  [(1019, entry "msg1019.rtcm3" 3 0), (1020, entry "msg1020.rtcm3" 3 0), (1041, entry "msg1041.rtcm3" 3 0),
    (1042, entry "msg1042.rtcm3" 3 0), (1044, entry "msg1044.rtcm3" 3 0), (1045, entry "msg1045.rtcm3" 3 0),
    (1046, entry "msg1046.rtcm3" 3 0)]

/-- tests/test_utilities.py:82-88 -/
def baseScenario : Scenario :=
  [(1005, entry "msg1005.rtcm3" 1 0), (1007, entry "msg1007.rtcm3" 1 0), (1230, entry "msg1230.rtcm3" 1 0),
    (1006, entry "msg1006.rtcm3" 1 0), (1033, entry "msg1033.rtcm3" 1 0)]

/-- tests/test_utilities.py:89-120 -/
def msm7Scenario : Scenario :=
  [(1077, entry "msg1077.rtcm3" 1 10), (1087, entry "msg1087.rtcm3" 1 10), (1097, entry "msg1097.rtcm3" 1 10),
    (1127, entry "msg1127.rtcm3" 1 10), (1137, entry "msg1137.rtcm3" 1 10)]

/-- tests/test_utilities.py:122-153 -/
def msm5Scenario : Scenario :=
  [(1075, entry "msg1075.rtcm3" 20 10), (1085, entry "msg1085.rtcm3" 20 10), (1095, entry "msg1095.rtcm3" 20 10),
    (1125, entry "msg1125.rtcm3" 20 10), (1135, entry "msg1135.rtcm3" 20 10)]

/-- Attributes of a `TestDataGrabber` object, tests/test_utilities.py:72-153. -/
structure Grabber where
  eph : Scenario := ephScenario
  base : Scenario := baseScenario
  msm7 : Scenario := msm7Scenario
  msm5 : Scenario := msm5Scenario
  deriving DecidableEq

/-- The current directory as `open(…, "wb")` and `write` see it (tests/test_utilities.py:179-182): contents of files, and which files
can be opened. -/
structure Dir where
  files : Txt → Option Bytes
  openable : Txt → Bool

/-- `open(name, "wb")`, tests/test_utilities.py:179. -/
def Dir.openWb (w : Dir) (name : Txt) : Py Dir :=
  if w.openable name then .ok { w with files := fun x => if x = name then some [] else w.files x } else .error .osError

/-- `fp.write(msg)` on an open file followed by `flush()`, tests/test_utilities.py:181-182. -/
def Dir.append (w : Dir) (name : Txt) (msg : Bytes) : Dir :=
  { w with files := fun x => if x = name then some ((w.files name).getD [] ++ msg) else w.files x }

/-- The part of `save` after the choice of the scenario, tests/test_utilities.py:168-186, for the entry `s`: new entry and directory. -/
def saveSlot (s : Slot) (msg : Bytes) (w : Dir) : Py (Slot × Dir) :=
  if s.delay ≠ 0 then .ok ({ s with delay := s.delay - 1 }, w)
  else if s.cnt = 0 then .ok (s, w)
  else do
    let (s, w) ← match s.fp with
      | none => do
        let w ← w.openWb s.fname
        pure ({ s with fp := some true }, w)
      | some _ => pure (s, w)
    match s.fp with
    | some true =>
      let w := w.append s.fname msg
      let s := { s with cnt := s.cnt - 1 }
      pure (if s.cnt = 0 then { s with fp := some false } else s, w)
    | _ => .error .valueError

/-- The same for a scenario: `scenario.get(mNum)` and the rest of `save`, tests/test_utilities.py:160, 168-186. The number is `None` for
messages that are too short. -/
def saveIn (sc : Scenario) (mNum : Option Nat) (msg : Bytes) (w : Dir) : Py (Scenario × Dir) :=
  match mNum with
  | none => .ok (sc, w)
  | some n =>
    match sc.get? n with
    | none => .ok (sc, w)
    | some s => do
      let (s, w) ← saveSlot s msg w
      pure (sc.set n s, w)

/-- tests/test_utilities.py:155-186 `save` -/
def Grabber.save (g : Grabber) (mNum : Option Nat) (msg : Bytes) (mode : Txt) (w : Dir) : Py (Grabber × Dir) :=
  if mode = "EPH".toList then do
    let (sc, w) ← saveIn g.eph mNum msg w
    pure ({ g with eph := sc }, w)
  else if mode = "BASE".toList then do
    let (sc, w) ← saveIn g.base mNum msg w
    pure ({ g with base := sc }, w)
  else if mode = "MSM7".toList then do
    let (sc, w) ← saveIn g.msm7 mNum msg w
    pure ({ g with msm7 := sc }, w)
  else if mode = "MSM5".toList then do
    let (sc, w) ← saveIn g.msm5 mNum msg w
    pure ({ g with msm5 := sc }, w)
  else .ok (g, w)

/-- A `DecoderTop` with its attribute `_TDG` (decoder_top.py:166-168), and the current directory. -/
structure Top where
  dec : Decoder.DecoderTop
  tdg : Grabber
  dir : Dir

/-- decoder_top.py:192-218 `decode` for any value of `TEST_DATA_GRABBER`, with the decorator: an exception of `save` ends the method
before the sub-decoders are asked, and the result is `None`. -/
def Top.decode (grab : Option Txt) (t : Top) (msg : Bytes) : Top × Option Decoder.PyObj :=
  match grab with
  | none =>
    let (d, rv) := t.dec.decode msg
    ({ t with dec := d }, rv)
  | some mode =>
    match t.tdg.save (Framer.mnum msg) msg mode t.dir with
    | .error _ => (t, none)
    | .ok (g, w) =>
      let (d, rv) := t.dec.decode msg
      ({ dec := d, tdg := g, dir := w }, rv)

/-- A sequence of calls of `decode`, as in run_conversion.py:118-119: final state and results. -/
def Top.decodeAll (grab : Option Txt) (t : Top) : List Bytes → Top × List (Option Decoder.PyObj)
  | [] => (t, [])
  | m :: ms =>
    let (t, r) := t.decode grab m
    let (t, rs) := t.decodeAll grab ms
    (t, r :: rs)

end Grabber
end Verif
