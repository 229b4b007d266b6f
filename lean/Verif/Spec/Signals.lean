import Mathlib.Algebra.Order.Field.Rat

/-!
# Signals of multiple signal messages

RTCM 10403.3 tables 3.5-91, 3.5-96, 3.5-99, 3.5-102, 3.5-105, 3.5-108 and the NavIC table: which RINEX code a signal number denotes.
The tables consist of runs of consecutive numbers in one band. Constellations are numbered 0 … 6 in the order of the message
numbers: GPS, GLONASS, Galileo, SBAS, QZSS, BeiDou, NavIC.
-/

namespace Verif
namespace Spec

/-- RINEX letters of the constellations in the order of the message numbers. -/
def gnssLetter : Nat → String
  | 0 => "G" | 1 => "R" | 2 => "E" | 3 => "S" | 4 => "Q" | 5 => "B" | 6 => "I" | _ => ""

/-- Runs of signal numbers: first number, band, attributes of the consecutive signals. -/
def sigRuns : Nat → List (Nat × Char × List Char)
  | 0 => [(2, '1', ['C', 'P', 'W']), (8, '2', ['C', 'P', 'W']), (15, '2', ['S', 'L', 'X']), (22, '5', ['I', 'Q', 'X']),
          (30, '1', ['S', 'L', 'X'])]
  | 1 => [(2, '1', ['C', 'P']), (8, '2', ['C', 'P'])]
  | 2 => [(2, '1', ['C', 'A', 'B', 'X', 'Z']), (8, '6', ['C', 'A', 'B', 'X', 'Z']), (14, '7', ['I', 'Q', 'X']),
          (18, '8', ['I', 'Q', 'X']), (22, '5', ['I', 'Q', 'X'])]
  | 3 => [(2, '1', ['C']), (22, '5', ['I', 'Q', 'X'])]
  | 4 => [(2, '1', ['C']), (9, '6', ['S', 'L', 'X']), (15, '2', ['S', 'L', 'X']), (22, '5', ['I', 'Q', 'X']),
          (30, '1', ['S', 'L', 'X'])]
  | 5 => [(2, '2', ['I', 'Q', 'X']), (8, '6', ['I', 'Q', 'X']), (14, '7', ['I', 'Q', 'X'])]
  | 6 => [(8, '9', ['A']), (22, '5', ['A'])]
  | _ => []

/-- RINEX code of signal `t` of constellation `g`: band and attribute; `none` if the number is reserved. -/
def sigCode (g t : Nat) : Option String :=
  (sigRuns g).findSome? (fun r =>
    if r.1 ≤ t then (r.2.2[t - r.1]?).map (fun a => String.ofList [r.2.1, a]) else none)

/-- Carrier frequency of a band [MHz] (RINEX 3.04, tables 4 … 10); of GLONASS bands 1 and 2 the one of channel 0. -/
def bandMHz : Nat → Char → Rat
  | 0, '1' => 1575.42 | 0, '2' => 1227.60 | 0, '5' => 1176.45
  | 1, '1' => 1602 | 1, '2' => 1246
  | 2, '1' => 1575.42 | 2, '5' => 1176.45 | 2, '6' => 1278.75 | 2, '7' => 1207.14 | 2, '8' => 1191.795
  | 3, '1' => 1575.42 | 3, '5' => 1176.45
  | 4, '1' => 1575.42 | 4, '2' => 1227.60 | 4, '5' => 1176.45 | 4, '6' => 1278.75
  | 5, '2' => 1561.098 | 5, '6' => 1268.52 | 5, '7' => 1207.14
  | 6, '5' => 1176.45 | 6, '9' => 2492.028
  | _, _ => 0

end Spec
end Verif
