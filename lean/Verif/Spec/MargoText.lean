import Verif.Spec.Margo

/-!
# Specification of MARGO files
-/

namespace Verif
namespace Spec
open Text

/-- Column width and number of decimals of a kind. -/
def ObsKind.format : ObsKind → Nat × Nat
  | .range => (15, 3) | .phase => (15, 4) | .doppler => (15, 3) | .cnr => (15, 2) | .lock => (10, 3) | .half => (4, 0)

/-- Number of a kind in the header. -/
def ObsKind.code : ObsKind → Nat
  | .range => 0 | .phase => 1 | .doppler => 2 | .cnr => 3 | .lock => 4 | .half => 5

/-- Fields separated by commas. -/
def commaLine (fields : List Txt) : Txt := join [','] fields ++ ['\n']

/-- A column. The sign of a Doppler value is always changed by the printer, so that zero has a minus sign. -/
def cellText (k : ObsKind) : Option Rat → Txt
  | some x => rjust k.format.1 ((if k = .doppler ∧ x = 0 then ['-'] else []) ++ fixedRepr k.format.2 x)
  | none => rjust k.format.1 "nan".toList

/-- A row: time and columns. -/
def rowText (k : ObsKind) (t : Int) (cells : List (Option Rat)) : Txt :=
  commaLine (rjust 10 (intRepr t) :: cells.map (cellText k))

/-- The header: kind and satellite numbers; base frequency and carrier frequencies of the satellites. -/
def headText (m : MargoSettings) (g : Nat) (k : ObsKind) (slot : String) : Txt :=
  commaLine (rjust 10 (intRepr k.code) :: (List.range (margoSats g)).map (fun i : Nat => rjust k.format.1 (intRepr ((i + 1 : Nat) : Int)))) ++
  commaLine (rjust 10 (fixedRepr (max 4 k.format.2) ((slot.toList.head?.map (bandMHz g)).getD 0)) ::
    (List.range (margoSats g)).map (fun i => rjust (max 9 k.format.1) (fixedRepr (max 4 k.format.2) (carrier m.channel g slot (i + 1)))))

/-- The text of a file: the rows with its name out of all rows, after the header. -/
def fileText (m : MargoSettings) (g : Nat) (k : ObsKind) (slot subset : String) (rows : List (Txt × Int × List (Option Rat))) : Txt :=
  headText m g k slot ++ (rows.filter (fun r => r.1 == margoName g k slot subset)).flatMap (fun r => rowText k r.2.1 r.2.2)

/-- Directory of a constellation. -/
def margoDir : Nat → String
  | 0 => "GPS" | 1 => "GLN" | 2 => "GAL" | 3 => "SBS" | 4 => "QZS" | 5 => "BDS" | 6 => "NAVIC" | _ => ""

end Spec
end Verif
