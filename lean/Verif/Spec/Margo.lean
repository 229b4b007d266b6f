import Verif.Spec.MsmScaled
import Verif.Model.Text

/-!
# Specification of MARGO output

For each epoch (one MSM message), each kind of observable and each signal there is one row: the GPS time of week in ms and one column
for each satellite of the constellation. `none` is NaN.
-/

namespace Verif
namespace Spec
open Msm

/-- Kinds of observables. -/
inductive ObsKind where
  | range | phase | doppler | cnr | lock | half
  deriving DecidableEq, Repr

/-- Letter of a kind in file names. -/
def ObsKind.letter : ObsKind → Char
  | .range => 'C' | .phase => 'L' | .doppler => 'D' | .cnr => 'S' | .lock => 'T' | .half => 'A'

/-- Number of satellites (columns) of the constellations. -/
def margoSats : Nat → Nat
  | 0 => 32 | 1 => 24 | 2 => 36 | 3 => 38 | 4 => 5 | 5 => 37 | 6 => 14 | _ => 0

/-- Frequency step of GLONASS FDMA channels [MHz]. -/
def channelStep : Char → Rat
  | '1' => 9 / 16 | '2' => 7 / 16 | _ => 0

/-- Carrier frequency of a signal of a satellite [MHz]. -/
def carrier (channel : Nat → Int) (g : Nat) (slot : String) (sat : Nat) : Rat :=
  match slot.toList.head? with
  | none => 0
  | some b => if g = 1 then bandMHz g b + channelStep b * (channel sat : Rat) else bandMHz g b

/-- Wave length [m]: speed of light divided by the carrier frequency. -/
def waveLength (channel : Nat → Int) (g : Nat) (slot : String) (sat : Nat) : Rat :=
  (299792458 / 1000000) / carrier channel g slot sat

/-- What is printed: settings. -/
structure MargoSettings where
  /-- half-cycle output enabled: ambiguous phases and the flags themselves are printed -/
  half : Bool
  /-- lock times are printed -/
  lock : Bool
  /-- GPS time − UTC [s] -/
  leap : Int
  /-- GLONASS frequency channels by satellite -/
  channel : Nat → Int

/-- The signals for which a message has observables of a kind. -/
def slotsOf (p : ObservablesMSM) : ObsKind → List String
  | .range => p.obs.rng.map (·.1)
  | .phase => p.obs.phs.map (·.1)
  | .doppler => p.obs.dpl.map (·.1)
  | .cnr => p.obs.c2n.map (·.1)
  | .lock => p.obs.ltm.map (·.1)
  | .half => p.obs.hca.map (·.1)

/-- The value in the column of a satellite: range [m], phase [cycles] without half-cycle ambiguity, Doppler [Hz], carrier to noise
ratio [dBHz], lock time [s], half-cycle flag. -/
def margoCell (m : MargoSettings) (g : Nat) (p : ObservablesMSM) (k : ObsKind) (slot : String) (sat : Nat) : Option Rat :=
  match k with
  | .range => get2 p.obs.rng slot sat
  | .phase =>
    if m.half = false ∧ get2 p.obs.hca slot sat = some true then none
    else (get2 p.obs.phs slot sat).map (fun v => v / waveLength m.channel g slot sat)
  | .doppler => (get2 p.obs.dpl slot sat).map (fun v => -(v / waveLength m.channel g slot sat))
  | .cnr => get2 p.obs.c2n slot sat
  | .lock => (get2 p.obs.ltm slot sat).map (fun v : Nat => (v : Rat) / 1000)
  | .half => (get2 p.obs.hca slot sat).map (fun b => if b then 1 else 0)

/-- Kinds that are printed, in the order of printing. -/
def kindsOf (m : MargoSettings) : List ObsKind :=
  [.range, .phase, .doppler, .cnr] ++ (if m.lock then [.lock] else []) ++ (if m.half then [.half] else [])

/-- Name of the file for a constellation, kind, signal and message type. -/
def margoName (g : Nat) (k : ObsKind) (slot subset : String) : Txt :=
  (gnssLetter g).toList ++ k.letter :: slot.toList ++ '_' :: subset.toList ++ ".obs".toList

/-- All rows of a message with time `t`: file name, time, columns. -/
def margoRows (m : MargoSettings) (g : Nat) (t : Int) (p : ObservablesMSM) : List (Txt × Int × List (Option Rat)) :=
  (kindsOf m).flatMap (fun k => (slotsOf p k).map (fun slot =>
    (margoName g k slot p.atr.subset, t, (List.range (margoSats g)).map (fun i => margoCell m g p k slot (i + 1)))))

/-- One week in ms. -/
def weekMs : Int := 604800000

/-- GPS time of week [ms] of an epoch: BeiDou time is 14 s behind, GLONASS time is UTC + 3 h given as day of week and time of day. -/
def gpsTimeOfWeek (leap : Int) (g : Nat) (time day : Int) : Int :=
  if g = 5 then (time + 14000) % weekMs
  else if g = 1 then (day * 86400000 + time - 3 * 3600000 + leap * 1000) % weekMs
  else time

/-- The time of a message is valid: inside the week; GLONASS: inside the day, which may have a leap second, and the day is known. -/
def ValidTime (leap : Int) (g : Nat) (p : ObservablesMSM) : Prop :=
  if g = 1 then p.hdr.day ≤ 6 ∧ p.hdr.time < 86401000 ∧ 0 ≤ leap ∧ leap < 10800 else (p.hdr.time : Int) < weekMs

/-- Objects as they are decoded: signals are those of the constellation; no table has a signal twice; where half-cycle flags are
given for a signal, each phase has one. -/
structure Regular (g : Nat) (p : ObservablesMSM) : Prop where
  lt : g < 7
  gnss : p.atr.gnss = gnssLetter g
  subset : p.atr.subset.toList.length ≤ 5
  nodup : ∀ k, (slotsOf p k).Nodup
  signals : ∀ k, ∀ n ∈ slotsOf p k, ∃ t, sigCode g t = some n
  flags : ∀ n s, get2 p.obs.phs n s ≠ none → n ∈ slotsOf p .half → get2 p.obs.hca n s ≠ none

end Spec
end Verif
