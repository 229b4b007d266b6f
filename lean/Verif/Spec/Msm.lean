import Verif.Spec.Base
import Verif.Spec.Pack

/-!
# Specification of the RTCM multiple signal messages MSM1 … MSM7

Contents of a message, the field layout of a content and the values of its fields.
-/

namespace Verif
namespace Spec

/-- Widths of the data fields of an MSM type in the order of transmission; 0 means that the field is absent. Four fields per
satellite, six fields per cell. -/
structure MsmWidths where
  /-- rough range, integer milliseconds (DF397) -/
  ms : Nat
  /-- extended satellite information -/
  ext : Nat
  /-- rough range modulo one millisecond (DF398) -/
  rough : Nat
  /-- rough phase range rate (DF399), signed -/
  rate : Nat
  /-- fine pseudorange (DF400, DF405), signed -/
  fine : Nat
  /-- fine phase range (DF401, DF406), signed -/
  phs : Nat
  /-- lock time indicator (DF402, DF407) -/
  lock : Nat
  /-- half-cycle ambiguity indicator (DF420) -/
  half : Nat
  /-- signal CNR (DF403, DF408) -/
  cnr : Nat
  /-- fine phase range rate (DF404), signed -/
  fineRate : Nat
  deriving DecidableEq

/-- RTCM 10403.3, tables 3.5-83 … 3.5-97. -/
def msmWidths : Nat → MsmWidths
  | 1 => ⟨0, 0, 10, 0, 15, 0, 0, 0, 0, 0⟩
  | 2 => ⟨0, 0, 10, 0, 0, 22, 4, 1, 0, 0⟩
  | 3 => ⟨0, 0, 10, 0, 15, 22, 4, 1, 0, 0⟩
  | 4 => ⟨8, 0, 10, 0, 15, 22, 4, 1, 6, 0⟩
  | 5 => ⟨8, 4, 10, 14, 15, 22, 4, 1, 6, 15⟩
  | 6 => ⟨8, 0, 10, 0, 20, 24, 10, 1, 10, 0⟩
  | 7 => ⟨8, 4, 10, 14, 20, 24, 10, 1, 10, 15⟩
  | _ => ⟨0, 0, 0, 0, 0, 0, 0, 0, 0, 0⟩

/-- Contents of a multiple signal message. -/
structure MsmData where
  /-- constellation: 0 GPS, 1 GLONASS, 2 Galileo, 3 SBAS, 4 QZSS, 5 BeiDou, 6 NavIC -/
  g : Nat
  /-- type: `k` of MSM`k` -/
  k : Nat
  station : Nat
  time : Nat
  multiple : Nat
  iods : Nat
  steering : Nat
  external : Nat
  smoothing : Nat
  interval : Nat
  /-- satellite mask: entry `i` is satellite `i + 1` -/
  sats : List Bool
  /-- signal mask: entry `i` is signal `i + 1` -/
  sigs : List Bool
  /-- cell mask: row after row, one row per satellite present, one column per signal present -/
  cells : List Bool
  /-- data of the satellites present -/
  rngMs : List Nat
  extInfo : List Nat
  rngRough : List Nat
  rateRough : List Int
  /-- data of the cells present -/
  rngFine : List Int
  phsFine : List Int
  lock : List Nat
  half : List Nat
  cnr : List Nat
  rateFine : List Int
  deriving DecidableEq

namespace MsmData

/-- Message number: 1071 … 1077 GPS, 1081 … 1087 GLONASS and so on. -/
def number (d : MsmData) : Nat := 1070 + 10 * d.g + d.k

/-- Number of satellites. -/
def nsat (d : MsmData) : Nat := d.sats.count true
/-- Number of signals. -/
def nsig (d : MsmData) : Nat := d.sigs.count true
/-- Number of cells. -/
def ncell (d : MsmData) : Nat := d.cells.count true

/-- Length of a column: one entry per satellite (cell) if the field exists in the message. -/
def colLen (w n : Nat) : Nat := if w = 0 then 0 else n

/-- A content that makes sense: known number, mask lengths, at least one cell and a cell mask of at most 64 bits, one entry per
satellite or cell in each column. (Value ranges are a matter of encoding.) -/
structure WF (d : MsmData) : Prop where
  g : d.g < 7
  k : 1 ≤ d.k ∧ d.k ≤ 7
  sats : d.sats.length = 64
  sigs : d.sigs.length = 32
  cells : d.cells.length = d.nsat * d.nsig
  size : d.nsat * d.nsig ≤ 64
  nonempty : 0 < d.ncell
  rngMs : d.rngMs.length = colLen (msmWidths d.k).ms d.nsat
  extInfo : d.extInfo.length = colLen (msmWidths d.k).ext d.nsat
  rngRough : d.rngRough.length = colLen (msmWidths d.k).rough d.nsat
  rateRough : d.rateRough.length = colLen (msmWidths d.k).rate d.nsat
  rngFine : d.rngFine.length = colLen (msmWidths d.k).fine d.ncell
  phsFine : d.phsFine.length = colLen (msmWidths d.k).phs d.ncell
  lock : d.lock.length = colLen (msmWidths d.k).lock d.ncell
  half : d.half.length = colLen (msmWidths d.k).half d.ncell
  cnr : d.cnr.length = colLen (msmWidths d.k).cnr d.ncell
  rateFine : d.rateFine.length = colLen (msmWidths d.k).fineRate d.ncell

/-- Header fields up to and including the signal mask. -/
def hdrLayout : List Field := [U 12, U 12, U 30, U 1, U 3, R 7, U 2, U 2, U 1, U 3, U 64, U 32]

/-- Values of the header fields. A mask is sent with its first entry as most significant bit. -/
def hdrVals (d : MsmData) : List Int :=
  [d.number, d.station, d.time, d.multiple, d.iods, d.steering, d.external, d.smoothing, d.interval,
   natOfBits d.sats, natOfBits d.sigs]

/-- Unsigned column. -/
def ints (l : List Nat) : List Int := l.map Int.ofNat

/-- The columns of satellite and signal data: field and its value for each satellite (cell). -/
def columns (d : MsmData) : List (Field × List Int) :=
  let w := msmWidths d.k
  [(U w.ms, ints d.rngMs), (U w.ext, ints d.extInfo), (U w.rough, ints d.rngRough), (S w.rate, d.rateRough),
   (S w.fine, d.rngFine), (S w.phs, d.phsFine), (U w.lock, ints d.lock), (U w.half, ints d.half), (U w.cnr, ints d.cnr),
   (S w.fineRate, d.rateFine)]

/-- Layout of a message: header, cell mask, then the columns one after the other. -/
def layout (d : MsmData) : List Field :=
  hdrLayout ++ ([U d.cells.length] ++ d.columns.flatMap (fun c => c.2.map (fun _ => c.1)))

/-- Values of a message in the order of its layout. -/
def vals (d : MsmData) : List Int :=
  d.hdrVals ++ ([(natOfBits d.cells : Int)] ++ d.columns.flatMap (fun c => c.2))

/-- A byte string consists of three header bytes, the encoding of the content filled up to a byte boundary, and three bytes. -/
def CarriedBy (d : MsmData) (buf : List UInt8) : Prop := CarriesExact buf d.layout d.vals

/-- All values are in the range of their fields. -/
def InRange (d : MsmData) : Prop := FitsAll d.layout d.vals

/-- The frame that carries a content. -/
def toFrame (d : MsmData) : List UInt8 := frame (packBits (encode d.layout d.vals))

end MsmData

/-- Header of an empty message (no satellites): layout and values. There is no cell mask and no data. -/
def MsmData.emptyVals (d : MsmData) : List Int :=
  [d.number, d.station, d.time, d.multiple, d.iods, d.steering, d.external, d.smoothing, d.interval, 0, natOfBits d.sigs]

end Spec
end Verif
