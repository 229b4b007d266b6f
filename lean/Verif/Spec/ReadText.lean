import Verif.Model.Text
import Mathlib.Data.Rat.Defs
import Mathlib.Algebra.Order.Ring.Unbundled.Rat
import Mathlib.Algebra.Order.Group.Unbundled.Abs

/-!
# Reading tables of numbers

A reader of lines with fields that are separated by commas, independent of the way they were written.
-/

namespace Verif
namespace Spec

/-- A decimal number without sign. -/
def readNat (t : Txt) : Option Nat :=
  if t ≠ [] ∧ t.all Char.isDigit then some (t.foldl (fun a c => a * 10 + (c.toNat - 48)) 0) else none

/-- The sign and the rest. -/
def readSign : Txt → Bool × Txt
  | '-' :: t => (true, t)
  | t => (false, t)

/-- A decimal fraction after blanks. -/
def readFixed (t : Txt) : Option Rat :=
  let (neg, t) := readSign (t.dropWhile (· == ' '))
  let int := t.takeWhile (· != '.')
  let frac := (t.dropWhile (· != '.')).drop 1
  match readNat int, if frac = [] then some 0 else readNat frac with
  | some n, some f => some ((if neg then -1 else 1) * ((n : Rat) + f / 10 ^ frac.length))
  | _, _ => none

/-- A field of a table: a number or `nan`. -/
def readCell (t : Txt) : Option (Option Rat) :=
  if t.dropWhile (· == ' ') = ['n', 'a', 'n'] then some none else (readFixed t).map some

/-- The parts of a text between separators. -/
def splitAt (sep : Char) : Txt → List Txt
  | [] => [[]]
  | c :: cs =>
    if c = sep then [] :: splitAt sep cs
    else
      match splitAt sep cs with
      | [] => [[c]]
      | t :: ts => (c :: t) :: ts

/-- The fields of a line. -/
def readFields (t : Txt) : List Txt := splitAt ',' t

/-- The lines of a text, each ended by a line feed. -/
def readLines (t : Txt) : List Txt := (splitAt '\n' t).dropLast

/-- `y` is `x` rounded to `d` decimals. -/
def RoundedTo (d : Nat) (x y : Rat) : Prop := |y - x| * (2 * 10 ^ d) ≤ 1 ∧ ∃ n : Int, y = n / 10 ^ d

end Spec
end Verif
