/-!
# Python text formatting used by the printers

Text is a list of characters.
-/

namespace Verif

/-- Python `str`, as a list of characters.
For example run_conversion.py:32 and printers/margo_printer.py:346. -/
abbrev Txt : Type := List Char

namespace Text

/-- `str(n)` of a non-negative int.
Used in f-strings, for example printers/margo_printer.py:350, 364. -/
def natRepr (n : Nat) : Txt := Nat.toDigits 10 n

/-- `str(i)` of an int. Used in f-strings, for example printers/margo_printer.py:350. -/
def intRepr (i : Int) : Txt := if i < 0 then '-' :: natRepr i.natAbs else natRepr i.natAbs

/-- Padding with blanks on the left to at least `w` characters, as the width in a format specification does for numbers.
Width in f-strings: printers/margo_printer.py:350-352, 364-365, 374-375. -/
def rjust (w : Nat) (t : Txt) : Txt := List.replicate (w - t.length) ' ' ++ t

/-- Nearest integer to `num / den`, ties to even. Used for printers/margo_printer.py:352, 374-375. -/
def roundHalfEven (num den : Nat) : Nat :=
  if 2 * (num % den) < den then num / den
  else if den < 2 * (num % den) then num / den + 1
  else if (num / den) % 2 = 0 then num / den else num / den + 1

/-- The last `frc` decimal digits of `n`. Used for printers/margo_printer.py:352, 374-375. -/
def fracDigits : Nat → Nat → Txt
  | 0, _ => []
  | frc + 1, n => fracDigits frc (n / 10) ++ [Nat.digitChar (n % 10)]

/-- `f"{x:.{frc}f}"` of a finite float: the correctly rounded decimal fraction. Floats are exact rationals here, so `x` is not
the negative zero, for which `Margo.Cell` has a case of its own.
printers/margo_printer.py:352, 374-375. -/
def fixedRepr (frc : Nat) (x : Rat) : Txt :=
  let n := roundHalfEven (x.num.natAbs * 10 ^ frc) x.den
  (if x < 0 then ['-'] else []) ++ natRepr (n / 10 ^ frc) ++ (if frc = 0 then [] else '.' :: fracDigits frc n)

/-- `sep.join(parts)`. Used in printers/margo_printer.py:352, 364-365, 374-375. -/
def join (sep : Txt) : List Txt → Txt
  | [] => []
  | [p] => p
  | p :: q :: ps => p ++ sep ++ join sep (q :: ps)

end Text
end Verif
