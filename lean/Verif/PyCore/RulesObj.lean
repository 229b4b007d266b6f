import Verif.PyCore.Rules

/-!
# More rules for the execution of programs: slices, methods of builtin types, objects in the heap
-/

namespace Verif
namespace PyCore

variable [Rounding]

variable (P : Prog) (n : Nat) (call : CallT) (s : St)

/-- Slices of `bytes`. -/
@[pyrun] theorem slice_both (b : List UInt8) (l h : Nat) :
    sliceVal (.bytes b) (.int l) (.int h) s = (.ok (.bytes ((b.take h).drop l)), s) := rfl
@[pyrun] theorem slice_zero (b : List UInt8) (h : Nat) :
    sliceVal (.bytes b) (.int 0) (.int h) s = (.ok (.bytes (b.take h)), s) := rfl
@[pyrun] theorem slice_from (b : List UInt8) (l : Nat) :
    sliceVal (.bytes b) (.int l) .none s = (.ok (.bytes (b.drop l)), s) := rfl
@[pyrun] theorem slice_from_one (b : List UInt8) :
    sliceVal (.bytes b) (.int 1) .none s = (.ok (.bytes (b.drop 1)), s) := rfl

/-- Slices of texts and lists. -/
@[pyrun] theorem slice_text (t : String) (h : Nat) :
    sliceVal (.str t) (.int 0) (.int h) s = (.ok (.str (String.ofList (t.toList.take h))), s) := rfl
/-- A new list with the same elements. -/
def copyList : Obj → M Val
  | .list vs => M.alloc (.list vs) >>= fun b => M.pure (.ref b)
  | _ => M.stuck
@[pyrun] theorem copyList_list (vs : List Val) (l : List (Ident × Val)) (h : Heap) :
    copyList (.list vs) ⟨l, h⟩ = (.ok (.ref h.length), ⟨l, h ++ [.list vs]⟩) := rfl
@[pyrun] theorem slice_list (a : Nat) : sliceVal (.ref a) .none .none s = M.seq (M.read a s) copyList := by
  show (M.read a >>= _) s = _
  rw [M.bind_apply]
  congr 1
@[pyrun] theorem builtin_len_str (t : String) : builtinFn P n!"len" [.str t] s = (.ok (.int t.toList.length), s) := rfl
@[pyrun] theorem builtin_enumerate (v : Val) (k : Int) : builtinFn P n!"enumerate" [v, .int k] s =
    M.seq (elements P v s) (fun vs => M.pure (.tup ((vs.zipIdx).map (fun p => .tup [.int (k + (p.2 : Int)), p.1])))) := rfl
@[pyrun] theorem binOp_mul_tup (vs : List Val) (k : Nat) :
    binOp .mul (.tup vs) (.int k) s = (.ok (.tup (List.replicate k vs).flatten), s) := rfl

/-- Methods of `bytes`. -/
@[pyrun] theorem meth_find (b : List UInt8) (x : UInt8) (i : Nat) :
    builtinMeth P (.bytes b) n!"find" [.bytes [x], .int i] s = (.ok (.int (findFrom (· == x) b i)), s) := rfl
@[pyrun] theorem getAttr_fromhex : getAttr P call (.builtin n!"bytes") n!"fromhex" s = (.ok (.builtin n!"bytes.fromhex"), s) := rfl
@[pyrun] theorem builtin_fromhex : builtinFn P n!"bytes.fromhex" [.str "D3"] s = (.ok (.bytes [0xD3]), s) := rfl

@[pyrun] theorem builtin_dict (l : List (Ident × Val)) (h : Heap) :
    builtinFn P n!"dict" [] ⟨l, h⟩ = (.ok (.ref h.length), ⟨l, h ++ [.dict []]⟩) := rfl
@[pyrun] theorem builtin_set (l : List (Ident × Val)) (h : Heap) :
    builtinFn P n!"set" [] ⟨l, h⟩ = (.ok (.ref h.length), ⟨l, h ++ [.set []]⟩) := rfl
@[pyrun] theorem builtin_set_of (v : Val) : builtinFn P n!"set" [v] s =
    M.seq (elements P v s) (fun vs => M.alloc (.set (setOf vs)) >>= fun a => M.pure (.ref a)) := rfl
@[pyrun] theorem cmpOp_isNot_none_none : cmpOp P .isNot .none .none s = (.ok (.bool false), s) := rfl
@[pyrun] theorem cmpOp_isNot_fn (f : Ident) : cmpOp P .isNot (.fn f) .none s = (.ok (.bool true), s) := rfl

/-- The elements of an object. -/
def objElements (a : Nat) : Obj → M (List Val)
  | .list vs => M.pure vs
  | .dict d => M.pure (d.map (·.1))
  | .iter vs => M.write a (.iter []) >>= fun _ => M.pure vs
  | .inst _ _ => M.stuck
  | .set _ => M.stuck
@[pyrun] theorem objElements_list (a : Nat) (vs : List Val) : objElements a (.list vs) s = (.ok vs, s) := rfl
@[pyrun] theorem objElements_dict (a : Nat) (d : List (Val × Val)) : objElements a (.dict d) s = (.ok (d.map (·.1)), s) := rfl
@[pyrun] theorem objElements_iter (a : Nat) (vs : List Val) (l : List (Ident × Val)) (h : Heap) :
    objElements a (.iter vs) ⟨l, h⟩ = (.ok vs, ⟨l, h.set a (.iter [])⟩) := rfl
@[pyrun] theorem elements_ref (a : Nat) : elements P (.ref a) s = M.seq (M.read a s) (objElements a) := by
  show (M.read a >>= _) s = _
  rw [M.bind_apply]
  congr 1

/-- The parts of `join`. -/
def bytesOfVal : Val → M (List UInt8)
  | .bytes b => M.pure b
  | _ => M.stuck
@[pyrun] theorem bytesOfVal_bytes (b : List UInt8) : bytesOfVal (.bytes b) s = (.ok b, s) := rfl
@[pyrun] theorem meth_join (l : Val) : builtinMeth P (.bytes []) n!"join" [l] s =
    M.seq (elements P l s) (fun vs => M.mapList bytesOfVal vs >>= fun bs => M.pure (.bytes bs.flatten)) := by
  show (elements P l >>= _) s = _
  rw [M.bind_apply]
  congr 1

/-- Methods of objects of builtin types. -/
def refMeth (P : Prog) (a : Nat) (m : Ident) (args : List Val) (o : Obj) : M Val :=
  match o, m, args with
  | .dict d, n!"update", [.ref b] => do
    match ← M.read b with
    | .dict e => do
      M.write a (.dict (e.foldl (fun d p => dictSet d p.1 p.2) d))
      M.pure .none
    | _ => M.stuck
  | .dict d, n!"keys", [] => M.pure (.tup (d.map (·.1)))
  | .dict d, n!"values", [] => M.pure (.tup (d.map (·.2)))
  | .dict d, n!"items", [] => M.pure (.tup (d.map (fun p => .tup [p.1, p.2])))
  | .dict d, n!"get", [k] => M.pure ((dictGet d k).getD .none)
  | .dict _, n!"fromkeys", [l, v] => do
    let ks ← elements P l
    let b ← M.alloc (.dict (ks.foldl (fun d k => dictSet d k v) []))
    M.pure (.ref b)
  | .list l, n!"append", [x] => do
    M.write a (.list (l ++ [x]))
    M.pure .none
  | _, _, _ => M.stuck
@[pyrun] theorem meth_ref (a : Nat) (m : Ident) (args : List Val) :
    builtinMeth P (.ref a) m args s = M.seq (M.read a s) (refMeth P a m args) := by
  unfold builtinMeth
  simp only []
  rw [M.bind_apply]
  congr 1
@[pyrun] theorem refMeth_append (a : Nat) (l : List Val) (x : Val) (loc : List (Ident × Val)) (h : Heap) :
    refMeth P a n!"append" [x] (.list l) ⟨loc, h⟩ = (.ok .none, ⟨loc, h.set a (.list (l ++ [x]))⟩) := rfl
@[pyrun] theorem refMeth_keys (a : Nat) (d : List (Val × Val)) : refMeth P a n!"keys" [] (.dict d) s = (.ok (.tup (d.map (·.1))), s) := rfl
@[pyrun] theorem refMeth_items (a : Nat) (d : List (Val × Val)) :
    refMeth P a n!"items" [] (.dict d) s = (.ok (.tup (d.map (fun p => .tup [p.1, p.2]))), s) := rfl
@[pyrun] theorem refMeth_get (a : Nat) (d : List (Val × Val)) (k : Val) :
    refMeth P a n!"get" [k] (.dict d) s = (.ok ((dictGet d k).getD .none), s) := rfl
/-- `d.update(e)`. -/
def updateWith (a : Nat) (d : List (Val × Val)) : Obj → M Val
  | .dict e => M.write a (.dict (e.foldl (fun d p => dictSet d p.1 p.2) d)) >>= fun _ => M.pure .none
  | _ => M.stuck
@[pyrun] theorem updateWith_dict (a : Nat) (d e : List (Val × Val)) (loc : List (Ident × Val)) (h : Heap) :
    updateWith a d (.dict e) ⟨loc, h⟩ = (.ok .none, ⟨loc, h.set a (.dict (e.foldl (fun d p => dictSet d p.1 p.2) d))⟩) := rfl
@[pyrun] theorem refMeth_update (a b : Nat) (d : List (Val × Val)) :
    refMeth P a n!"update" [.ref b] (.dict d) s = M.seq (M.read b s) (updateWith a d) := by
  show (M.read b >>= _) s = _
  rw [M.bind_apply]
  congr 1

end PyCore
end Verif
