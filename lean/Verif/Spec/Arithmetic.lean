import Verif.PyCore.Semantics
import Verif.Spec.Double

/-!
The two kinds of arithmetic that claims about the text of the program are about.
-/

namespace Verif
namespace Spec
open PyCore

/-- Exact arithmetic: floats are the rational numbers. -/
@[reducible] def exactArith : Rounding := ⟨id, rfl, rfl⟩

theorem Nearest.keeps {rnd : Rat → Rat} (h : Nearest rnd) {x : Rat} (hx : Double x) : rnd x = x := by
  have := h.near x x hx
  rw [sub_self, abs_zero] at this
  exact sub_eq_zero.1 (abs_eq_zero.1 (le_antisymm this (abs_nonneg _)))

/-- Arithmetic of double precision: the result of each operation is rounded to a nearest double. -/
@[reducible] def doubleArith {rnd : Rat → Rat} (h : Nearest rnd) : Rounding where
  rnd := rnd
  zero := h.keeps ⟨0, 0, by norm_num, by norm_num, by norm_num⟩
  k1024 := h.keeps ⟨1024, 0, by norm_num, by norm_num, by norm_num⟩

end Spec
end Verif
