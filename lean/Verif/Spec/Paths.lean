import Verif.Model.Text

/-!
# Paths
-/

namespace Verif
namespace Spec

/-- The path `q` is `d` or lies below `d`. -/
def Under (d q : Txt) : Prop := q = d ∨ d ++ ['/'] <+: q

/-- Neither of two folders is the other one or contains it. -/
def Apart (d e : Txt) : Prop := ¬ Under d e ∧ ¬ Under e d

end Spec
end Verif
