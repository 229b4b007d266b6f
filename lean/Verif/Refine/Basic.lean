import Verif.Source.Lookup

/-!
# Results of functions of the source and results of the model
-/

namespace Verif
namespace PyCore

open Rounding (rnd)
variable [Rounding]

/-- A result of the model as the result of a call that leaves a heap behind. -/
def ofModel {α : Type} (f : α → Val) (h : Heap) : Py α → Except Exc Val × Heap
  | .ok a => (.ok (f a), h)
  | .error e => (.error (.py (errName e)), h)

@[pyrun] theorem ofModel_ok {α : Type} (f : α → Val) (h : Heap) (a : α) : ofModel f h (.ok a) = (.ok (f a), h) := rfl
@[pyrun] theorem ofModel_error {α : Type} (f : α → Val) (h : Heap) (e : PyErr) :
    ofModel f h (.error e : Py α) = (.error (.py (errName e)), h) := rfl

/-- Call of a function: `pycall Look.fn_f Src.fn_f`. -/
macro "pycall" l:term:max d:term:max : tactic =>
  `(tactic| (rw [callFn_succ src _ _ _ _ _ _ $l rfl]
             simp only [$d:term, List.length_cons, List.length_nil, Nat.reduceAdd, Nat.reduceSub, Nat.zero_add, List.drop_zero,
               List.drop_nil, List.map_nil, List.map_cons, List.append_nil, List.cons_append, List.nil_append, List.zip_cons_cons,
               List.zip_nil_left, List.zip_nil_right, const_int, const_bool, List.drop_succ_cons]))

end PyCore
end Verif
