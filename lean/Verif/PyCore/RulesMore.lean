import Verif.PyCore.RulesObj

/-!
# More rules for the execution of programs: generators, classes, numbers
-/

namespace Verif
namespace PyCore

variable [Rounding]

variable (P : Prog) (call : CallT) (s : St)

@[pyrun] theorem builtin_super : builtinFn P n!"super" [] s = (.ok .super, s) := rfl
@[pyrun] theorem getAttr_super (x : Ident) : getAttr P call .super x s = (.ok (.bmeth .super x), s) := rfl
@[pyrun] theorem builtinMeth_super : builtinMeth P .super n!"__init__" [] s = (.ok .none, s) := rfl
@[pyrun] theorem builtin_tuple (v : Val) : builtinFn P n!"tuple" [v] s = M.seq (elements P v s) (fun vs => M.pure (.tup vs)) := rfl
@[pyrun] theorem bit_count_nat (n : Nat) : builtinMeth P (.int n) n!"bit_count" [] s = (.ok (.int (Nat.digits 2 n).sum), s) := rfl

/-- The next element of a generator. -/
def nextObj (a : Nat) : Obj → M Val
  | .iter (v :: vs) => M.write a (.iter vs) >>= fun _ => M.pure v
  | .iter [] => M.throw n!"StopIteration"
  | _ => M.stuck
@[pyrun] theorem nextObj_cons (a : Nat) (v : Val) (vs : List Val) (l : List (Ident × Val)) (h : Heap) :
    nextObj a (.iter (v :: vs)) ⟨l, h⟩ = (.ok v, ⟨l, h.set a (.iter vs)⟩) := rfl
@[pyrun] theorem builtin_next (a : Nat) : builtinFn P n!"next" [.ref a] s = M.seq (M.read a s) (nextObj a) := by
  show (M.read a >>= _) s = _
  rw [M.bind_apply]
  congr 1

/-- Whether an object is an instance of a class. -/
def instOf (P : Prog) (b : Ident) : Obj → M Bool
  | .inst c _ => M.pure (subclass P c b)
  | _ => M.stuck
@[pyrun] theorem instOf_inst (b c : Ident) (fs : List (Ident × Val)) : instOf P b (.inst c fs) s = (.ok (subclass P c b), s) := rfl
@[pyrun] theorem builtin_isinstance (a : Nat) (b : Ident) :
    builtinFn P n!"isinstance" [.ref a, .cls b] s = M.seq (M.read a s) (fun o => instOf P b o >>= fun r => M.pure (.bool r)) := by
  show (isInstance P (.ref a) [.cls b] >>= _) s = _
  unfold isInstance
  simp only []
  rw [M.bind_apply, M.bind_apply]
  cases h : M.read a s with
  | mk r s' =>
    cases r with
    | error e => rfl
    | ok o => cases o <;> simp only [M.seq_ok, instOf, List.any_cons, List.any_nil, Bool.or_false] <;> rfl

/-- A tuple in the body of a class. -/
@[pyrun] theorem memberVal_tuple (c x d : Ident) (es : List Expr) (self : Val) :
    memberVal P call c x self (some (d, .value (.tuple es))) s =
      M.ofOption ((staticVal.staticVals P d es).map .tup) s := by
  simp only [memberVal, staticVal]
@[pyrun] theorem staticVals_nil (c : Ident) : staticVal.staticVals P c [] = some [] := by simp only [staticVal.staticVals]
@[pyrun] theorem staticVals_const (c : Ident) (k : Const) (es : List Expr) :
    staticVal.staticVals P c (.const k :: es) = (staticVal.staticVals P c es).map (k.val :: ·) := by
  simp only [staticVal.staticVals, staticVal]
  cases staticVal.staticVals P c es <;> rfl

attribute [pyrun] Option.map_some

end PyCore
end Verif
