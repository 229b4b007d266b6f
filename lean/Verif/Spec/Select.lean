import Verif.Model.Text

/-!
# Texts that Python reads as integers
-/

namespace Verif
namespace Spec

/-- A non-empty sequence of digits. -/
def DigitGroup (t : Txt) : Prop := t ≠ [] ∧ ∀ c ∈ t, c.isDigit = true

/-- Value of a sequence of digits. -/
def digitsValue (t : Txt) : Nat := t.foldl (fun a c => a * 10 + (c.toNat - 48)) 0

/-- ASCII white space of Python. -/
def WhiteSpace (c : Char) : Prop := c = ' ' ∨ c ∈ ['\t', '\n', '\x0b', '\x0c', '\r', '\x1c', '\x1d', '\x1e', '\x1f']

/-- `t` is the text of the integer `v`: white space, an optional sign, groups of digits separated by underscores, white space. -/
def IntText (t : Txt) (v : Int) : Prop :=
  ∃ (a sign d : Txt) (gs : List Txt) (b : Txt), t = a ++ (sign ++ (d ++ gs.flatMap ('_' :: ·))) ++ b ∧
    (∀ c ∈ a, WhiteSpace c) ∧ (∀ c ∈ b, WhiteSpace c) ∧ DigitGroup d ∧ (∀ g ∈ gs, DigitGroup g) ∧
    ((sign = [] ∨ sign = ['+']) ∧ v = digitsValue (d ++ gs.flatten) ∨ sign = ['-'] ∧ v = -(digitsValue (d ++ gs.flatten) : Int))

end Spec
end Verif
