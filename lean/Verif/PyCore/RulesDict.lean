import Verif.PyCore.RulesMore

/-!
# More rules for the execution of programs: dictionaries on the heap, indexes, comprehensions
-/

namespace Verif
namespace PyCore

open Rounding (rnd)
variable [Rounding]

variable (P : Prog) (call : CallT) (s : St)

theorem lookup_bindKey (l : List (Ident × Val)) (x y : Ident) (v : Val) :
    (M.bindKey l x v).lookup y = if y == x then some v else l.lookup y := by
  induction l with
  | nil => rw [M.bindKey_nil, List.lookup_cons]; cases y == x <;> rfl
  | cons p l ih =>
    obtain ⟨z, u⟩ := p
    rw [M.bindKey_cons, List.lookup_cons]
    by_cases hz : z = x
    · subst hz
      rw [beq_self_eq_true, if_pos rfl, List.lookup_cons]
      cases y == z <;> rfl
    · rw [if_neg (by simpa using hz), List.lookup_cons, ih]
      by_cases hy : y = z
      · subst hy
        rw [beq_self_eq_true]
        have : (y == x) = false := by simpa using hz
        rw [this]; rfl
      · have : (y == z) = false := by simpa using hy
        rw [this]

/-- `v[i]` of an object. -/
def objIndex (i : Val) : Obj → M Val
  | .list vs => match i with
    | .int i => seqIndex vs i
    | _ => M.stuck
  | .dict d =>
    match dictGet d i with
    | some x => M.pure x
    | none => M.throw n!"KeyError"
  | _ => M.stuck
@[pyrun] theorem index_ref (a : Nat) (i : Val) : indexVal P (.ref a) i s = M.seq (M.read a s) (objIndex i) := by
  have : indexVal P (.ref a) i = M.read a >>= fun o => match o, i with
    | .list vs, .int i => seqIndex vs i
    | .dict d, i =>
      match dictGet d i with
      | some x => M.pure x
      | none => M.throw n!"KeyError"
    | _, _ => M.stuck := by cases i <;> rfl
  rw [this, M.bind_apply]
  congr 1
  funext o
  cases o <;> cases i <;> rfl
/-- What is found in a dictionary. -/
def keyed : Option Val → M Val
  | some x => M.pure x
  | none => M.throw n!"KeyError"
@[pyrun] theorem keyed_some (x : Val) : keyed (some x) s = (.ok x, s) := rfl
@[pyrun] theorem keyed_none : keyed none s = (.error (.py n!"KeyError"), s) := rfl
@[pyrun] theorem objIndex_dict (i : Val) (d : List (Val × Val)) : objIndex i (.dict d) s = keyed (dictGet d i) s := by
  show (match dictGet d i with | some x => M.pure x | none => M.throw n!"KeyError" : M Val) s = _
  cases dictGet d i <;> rfl

/-- What is found in a tuple. -/
def indexed : Option Val → M Val
  | some x => M.pure x
  | none => M.throw n!"IndexError"
@[pyrun] theorem indexed_some (x : Val) : indexed (some x) s = (.ok x, s) := rfl
@[pyrun] theorem indexed_none : indexed none s = (.error (.py n!"IndexError"), s) := rfl
theorem index_tup (vs : List Val) (i : Nat) : indexVal P (.tup vs) (.int i) s = indexed vs[i]? s := by
  show seqIndex vs (i : Int) s = _
  unfold seqIndex indexed
  have h1 : ¬ (i : Int) < 0 := by omega
  simp only [if_neg h1, Int.toNat_natCast]
  cases vs[i]? <;> rfl

/-- Assignment to an entry. -/
def setEntry (r : Nat) (i x : Val) : Obj → M Unit
  | .dict d => M.write r (.dict (dictSet d i x))
  | _ => M.stuck
@[pyrun] theorem setEntry_dict (r : Nat) (i x : Val) (d : List (Val × Val)) (l : List (Ident × Val)) (h : Heap) :
    setEntry r i x (.dict d) ⟨l, h⟩ = (.ok (), ⟨l, h.set r (.dict (dictSet d i x))⟩) := rfl
@[pyrun] theorem setIndex_ref (r : Nat) (i x : Val) : setIndex (.ref r) i x s = M.seq (M.read r s) (setEntry r i x) := by
  unfold setIndex
  simp only []
  rw [M.bind_apply]
  congr 1

/-- Entry that is deleted. -/
def delEntry (r : Nat) (i : Val) : Obj → M Unit
  | .dict d =>
    match dictGet d i with
    | some _ => M.write r (.dict (dictDel d i))
    | none => M.throw n!"KeyError"
  | _ => M.stuck
@[pyrun] theorem delIndex_ref (r : Nat) (i : Val) : delIndex (.ref r) i s = M.seq (M.read r s) (delEntry r i) := by
  unfold delIndex
  simp only []
  rw [M.bind_apply]
  congr 1
theorem delEntry_some {r : Nat} {i v : Val} {d : List (Val × Val)} (hd : dictGet d i = some v) (l : List (Ident × Val)) (h : Heap) :
    delEntry r i (.dict d) ⟨l, h⟩ = (.ok (), ⟨l, h.set r (.dict (dictDel d i))⟩) := by
  show (match dictGet d i with | some _ => M.write r (.dict (dictDel d i)) | none => M.throw n!"KeyError" : M Unit) _ = _
  rw [hd]; rfl

/-- `len` of an object. -/
def lenObj : Obj → M Val
  | .list vs => M.pure (.int vs.length)
  | .dict d => M.pure (.int d.length)
  | .set l => M.pure (.int l.length)
  | _ => M.stuck
@[pyrun] theorem lenObj_dict (d : List (Val × Val)) : lenObj (.dict d) s = (.ok (.int d.length), s) := rfl
@[pyrun] theorem builtin_len_ref (a : Nat) : builtinFn P n!"len" [.ref a] s = M.seq (M.read a s) lenObj := by
  show (M.read a >>= _) s = _
  rw [M.bind_apply]
  congr 1

@[pyrun] theorem makeDict_nil : makeDict [] [] = [] := rfl
@[pyrun] theorem makeDict_one (k v : Val) : makeDict [k] [v] = [(k, v)] := rfl

@[pyrun] theorem builtin_str : builtinFn P n!"str" [] s = (.ok (.str ""), s) := rfl

@[pyrun] theorem builtin_isinstance2 (a : Nat) (b c : Ident) :
    builtinFn P n!"isinstance" [.ref a, .tup [.cls b, .cls c]] s =
      M.seq (M.read a s) (fun o => instOf P b o >>= fun r => instOf P c o >>= fun r' => M.pure (.bool (r || r'))) := by
  show (isInstance P (.ref a) [.cls b, .cls c] >>= _) s = _
  unfold isInstance
  simp only []
  rw [M.bind_apply, M.bind_apply]
  cases h : M.read a s with
  | mk r s' =>
    cases r with
    | error e => rfl
    | ok o => cases o <;> simp only [M.seq_ok, instOf, List.any_cons, List.any_nil, Bool.or_false] <;> rfl

theorem div_ff (p q : Rat) (hq : q ≠ 0) : binOp .div (.flt p) (.flt q) s = (.ok (.flt (rnd (p / q))), s) := by
  show (if q = 0 then M.throw n!"ZeroDivisionError" else M.pure (.flt (rnd (p / q))) : M Val) s = _
  rw [if_neg hq]; rfl

/-- Entries of a dictionary comprehension. -/
def pairOf : Val → M (Val × Val)
  | .tup [a, b] => M.pure (a, b)
  | _ => M.stuck
@[pyrun] theorem pairOf_tup (a b : Val) : pairOf (.tup [a, b]) s = (.ok (a, b), s) := rfl
theorem eval_dictComp (k v : Expr) (x : Ident) (iter : Expr) :
    eval P call (.dictComp k v x iter) s = M.seq (eval P call iter s) (fun it => elements P it >>= fun vs =>
      M.inScope (compLoop x (M.pure true) (eval P call k >>= fun a => eval P call v >>= fun b => M.pure (.tup [a, b])) vs) >>= fun rs =>
      M.mapList pairOf rs >>= fun kvs => M.alloc (.dict (kvs.foldl (fun d p => dictSet d p.1 p.2) [])) >>= fun a => M.pure (.ref a)) := by
  rw [eval]
  have : pairOf = (fun v => match v with | .tup [a, b] => M.pure (a, b) | _ => M.stuck) := by
    funext v; cases v <;> rfl
  rw [this]
  rfl

end PyCore
end Verif
