import Verif.PyCore.Attr
import Verif.PyCore.Semantics

/-!
# Rules for the execution of programs in proofs

Each rule is about a computation that is applied to a state, so that simp executes a program from its beginning and does not look at
what is still to come. The rules hold by definition.
-/

namespace Verif
namespace PyCore

open Rounding (rnd)
variable [Rounding]

/-- What comes after a computation that has ended with a result. -/
def M.seq {α β : Type} (r : Except Exc α × St) (f : α → M β) : Except Exc β × St :=
  match r with
  | (.ok a, s) => f a s
  | (.error e, s) => (.error e, s)

@[pyrun] theorem M.seq_ok {α β : Type} (a : α) (s : St) (f : α → M β) : M.seq (.ok a, s) f = f a s := rfl
@[pyrun] theorem M.seq_error {α β : Type} (e : Exc) (s : St) (f : α → M β) : M.seq (.error e, s) f = (.error e, s) := rfl
@[pyrun] theorem M.bind_apply {α β : Type} (m : M α) (f : α → M β) (s : St) : (m >>= f) s = M.seq (m s) f := rfl
@[pyrun] theorem M.bind_apply' {α β : Type} (m : M α) (f : α → M β) (s : St) : M.bind m f s = M.seq (m s) f := rfl
@[pyrun] theorem M.pure_apply {α : Type} (a : α) (s : St) : M.pure a s = (.ok a, s) := rfl
@[pyrun] theorem M.throw_apply {α : Type} (c : Ident) (s : St) : (M.throw c : M α) s = (.error (.py c), s) := rfl
@[pyrun] theorem M.getLoc_apply (x : Ident) (s : St) : M.getLoc x s = (.ok (s.loc.lookup x), s) := rfl
@[pyrun] theorem M.setLoc_apply (x : Ident) (v : Val) (l : List (Ident × Val)) (h : Heap) :
    M.setLoc x v ⟨l, h⟩ = (.ok (), ⟨M.bindKey l x v, h⟩) := rfl
@[pyrun] theorem M.alloc_apply (o : Obj) (l : List (Ident × Val)) (h : Heap) :
    M.alloc o ⟨l, h⟩ = (.ok h.length, ⟨l, h ++ [o]⟩) := rfl
@[pyrun] theorem M.write_apply (a : Nat) (o : Obj) (l : List (Ident × Val)) (h : Heap) :
    M.write a o ⟨l, h⟩ = (.ok (), ⟨l, h.set a o⟩) := rfl

/-- What is read at an address. -/
def M.found (o : Option Obj) (s : St) : Except Exc Obj × St :=
  match o with
  | some o => (.ok o, s)
  | none => (.error .stuck, s)

@[pyrun] theorem M.found_some (o : Obj) (s : St) : M.found (some o) s = (.ok o, s) := rfl
@[pyrun] theorem M.read_apply (a : Nat) (s : St) : M.read a s = M.found s.heap[a]? s := by
  unfold M.read M.found; cases s.heap[a]? <;> rfl
@[pyrun] theorem M.ofOption_some {α : Type} (a : α) (s : St) : M.ofOption (some a) s = (.ok a, s) := rfl
@[pyrun] theorem M.ofPy_ok {α : Type} (f : PyErr → Ident) (a : α) (s : St) : M.ofPy f (.ok a) s = (.ok a, s) := rfl
@[pyrun] theorem M.ofPy_error {α : Type} (f : PyErr → Ident) (e : PyErr) (s : St) :
    (M.ofPy f (.error e) : M α) s = (.error (.py (f e)), s) := rfl
@[pyrun] theorem M.mapList_nil {α β : Type} (f : α → M β) (s : St) : M.mapList f [] s = (.ok [], s) := rfl
@[pyrun] theorem M.mapList_cons {α β : Type} (f : α → M β) (a : α) (as : List α) (s : St) :
    M.mapList f (a :: as) s = M.seq (f a s) (fun b => M.bind (M.mapList f as) fun bs => M.pure (b :: bs)) := rfl

/-- End of a call: the local variables of the caller are as before. -/
def M.returned (l : List (Ident × Val)) (r : Except Exc Val × Heap) : Except Exc Val × St := (r.1, ⟨l, r.2⟩)

@[pyrun] theorem M.returned_mk (l : List (Ident × Val)) (r : Except Exc Val) (h : Heap) : M.returned l (r, h) = (r, ⟨l, h⟩) := rfl
@[pyrun] theorem M.call_apply (call : CallT) (f : Ident) (args : List Val) (l : List (Ident × Val)) (h : Heap) :
    M.call call f args ⟨l, h⟩ = M.returned l (call f args h) := rfl

/-- End of a comprehension. -/
def M.left {α : Type} (l : List (Ident × Val)) (r : Except Exc α × St) : Except Exc α × St := (r.1, { r.2 with loc := l })

@[pyrun] theorem M.left_mk {α : Type} (l l' : List (Ident × Val)) (r : Except Exc α) (h : Heap) :
    M.left l (r, ⟨l', h⟩) = (r, ⟨l, h⟩) := rfl
@[pyrun] theorem M.inScope_apply {α : Type} (m : M α) (s : St) : M.inScope m s = M.left s.loc (m s) := rfl

@[pyrun] theorem M.bindKey_nil (x : Ident) (v : Val) : M.bindKey [] x v = [(x, v)] := rfl
@[pyrun] theorem M.bindKey_cons (y x : Ident) (u v : Val) (l : List (Ident × Val)) :
    M.bindKey ((y, u) :: l) x v = if y == x then (y, v) :: l else (y, u) :: M.bindKey l x v := rfl

/-! ## Expressions -/

section
variable (P : Prog) (call : CallT) (s : St)

@[pyrun] theorem eval_const (c : Const) : eval P call (.const c) s = (.ok c.val, s) := by rw [eval]; rfl

/-- Value of a name that is local, else global. -/
def nameVal (P : Prog) (x : Ident) (s : St) : Option Val → Except Exc Val × St
  | some v => (.ok v, s)
  | none =>
    match P.globals.lookup x with
    | some g => (.ok (globalVal g), s)
    | none => (.error (.py n!"NameError"), s)

@[pyrun] theorem nameVal_some (x : Ident) (v : Val) : nameVal P x s (some v) = (.ok v, s) := rfl
/-- Value of a global name. -/
def globVal (s : St) : Option Global → Except Exc Val × St
  | some g => (.ok (globalVal g), s)
  | none => (.error (.py n!"NameError"), s)
@[pyrun] theorem globVal_some (g : Global) : globVal s (some g) = (.ok (globalVal g), s) := rfl
@[pyrun] theorem nameVal_none (x : Ident) : nameVal P x s none = globVal s (P.globals.lookup x) := by
  unfold nameVal globVal; cases P.globals.lookup x <;> rfl
@[pyrun] theorem eval_name (x : Ident) : eval P call (.name x) s = nameVal P x s (s.loc.lookup x) := by
  rw [eval, M.bind_apply, M.getLoc_apply, M.seq_ok]
  unfold nameVal
  cases s.loc.lookup x with
  | some v => rfl
  | none => cases P.globals.lookup x <;> rfl
@[pyrun] theorem eval_attr (e : Expr) (a : Ident) : eval P call (.attr e a) s = M.seq (eval P call e s) (fun v => getAttr P call v a) := by
  rw [eval]; rfl
@[pyrun] theorem eval_call (f : Expr) (args : List Expr) :
    eval P call (.call f args) s = M.seq (eval P call f s) (fun v => evalList P call args >>= fun vs => callVal P call v vs) := by
  rw [eval]; rfl

/-- The arguments bound to `*args`. -/
def starArgs : Option Val → M (List Val)
  | some (.tup vs) => M.pure vs
  | _ => M.stuck
@[pyrun] theorem starArgs_tup (vs : List Val) : starArgs (some (.tup vs)) s = (.ok vs, s) := rfl
@[pyrun] theorem eval_callStar (f : Expr) (x : Ident) :
    eval P call (.callStar f x) s =
      M.seq (eval P call f s) (fun v => M.getLoc x >>= fun o => starArgs o >>= fun vs => callVal P call v vs) := by
  rw [eval, M.bind_apply]
  congr 1
  funext v s'
  rw [M.bind_apply, M.bind_apply]
  congr 1
  funext o
  match o with
  | some (.tup _) => rfl
  | some .none | some (.bool _) | some (.int _) | some (.flt _) | some (.str _) | some (.ident _) | some .text | some (.bytes _) | some (.ref _)
  | some (.stat _ _) | some (.cls _) | some (.fn _) | some (.bound _ _) | some (.bmeth _ _) | some (.builtin _) | some (.exc _)
  | some (.field _) | some (.modul _) | some .logger | some .super | some (.json _ _) | none => rfl
@[pyrun] theorem eval_bin (op : BinOp) (l r : Expr) :
    eval P call (.bin op l r) s = M.seq (eval P call l s) (fun a => eval P call r >>= fun b => binOp op a b) := by rw [eval]; rfl

/-- `-v`. -/
def negVal : Val → M Val
  | .int i => M.pure (.int (-i))
  | .flt q => M.pure (.flt (-q))
  | _ => M.stuck
@[pyrun] theorem negVal_int (i : Int) : negVal (.int i) s = (.ok (.int (-i)), s) := rfl
@[pyrun] theorem negVal_flt (q : Rat) : negVal (.flt q) s = (.ok (.flt (-q)), s) := rfl
@[pyrun] theorem eval_neg (e : Expr) : eval P call (.neg e) s = M.seq (eval P call e s) negVal := by
  rw [eval, M.bind_apply]
  congr 1
@[pyrun] theorem eval_not (e : Expr) :
    eval P call (.not e) s = M.seq (eval P call e s) (fun v => truth P v >>= fun b => M.pure (.bool (!b))) := by rw [eval]; rfl
@[pyrun] theorem eval_cmp (op : CmpOp) (l r : Expr) :
    eval P call (.cmp op l r) s = M.seq (eval P call l s) (fun a => eval P call r >>= fun b => cmpOp P op a b) := by rw [eval]; rfl

/-- The second computation or a value. -/
def M.choose {α : Type} (b : Bool) (m k : M α) : M α := if b then m else k
@[pyrun] theorem M.choose_true {α : Type} (m k : M α) : M.choose true m k s = m s := rfl
@[pyrun] theorem M.choose_false {α : Type} (m k : M α) : M.choose false m k s = k s := rfl
theorem M.choose_apply {α : Type} (b : Bool) (m k : M α) : M.choose b m k s = if b then m s else k s := by cases b <;> rfl
@[pyrun] theorem eval_and (l r : Expr) :
    eval P call (.and l r) s =
      M.seq (eval P call l s) (fun a => truth P a >>= fun b => M.choose b (eval P call r) (M.pure a)) := by rw [eval]; rfl
@[pyrun] theorem eval_or (l r : Expr) :
    eval P call (.or l r) s =
      M.seq (eval P call l s) (fun a => truth P a >>= fun b => M.choose b (M.pure a) (eval P call r)) := by rw [eval]; rfl
@[pyrun] theorem eval_ite (c a b : Expr) :
    eval P call (.ite c a b) s =
      M.seq (eval P call c s) (fun v => truth P v >>= fun t => M.choose t (eval P call a) (eval P call b)) := by rw [eval]; rfl
@[pyrun] theorem eval_tuple (es : List Expr) :
    eval P call (.tuple es) s = M.seq (evalList P call es s) (fun vs => M.pure (.tup vs)) := by rw [eval]; rfl
@[pyrun] theorem eval_list (es : List Expr) :
    eval P call (.list es) s = M.seq (evalList P call es s) (fun vs => M.alloc (.list vs) >>= fun a => M.pure (.ref a)) := by
  rw [eval]; rfl
@[pyrun] theorem eval_dict (ks vs : List Expr) :
    eval P call (.dict ks vs) s = M.seq (evalList P call ks s) (fun ks => evalList P call vs >>= fun vs =>
      M.alloc (.dict (makeDict ks vs)) >>= fun a => M.pure (.ref a)) := by rw [eval]; rfl
@[pyrun] theorem eval_index (e i : Expr) :
    eval P call (.index e i) s = M.seq (eval P call e s) (fun v => eval P call i >>= fun i => indexVal P v i) := by rw [eval]; rfl
@[pyrun] theorem eval_slice (e lo hi : Expr) :
    eval P call (.slice e lo hi) s = M.seq (eval P call e s) (fun v => eval P call lo >>= fun lo => eval P call hi >>= fun hi =>
      sliceVal v lo hi) := by rw [eval]; rfl
@[pyrun] theorem eval_gen (elt : Expr) (x : Ident) (iter cond : Expr) :
    eval P call (.gen elt x iter cond) s = M.seq (eval P call iter s) (fun v => elements P v >>= fun vs =>
      M.inScope (compLoop x (eval P call cond >>= fun c => truth P c) (eval P call elt) vs) >>= fun rs =>
      M.alloc (.iter rs) >>= fun a => M.pure (.ref a)) := by rw [eval]; rfl
@[pyrun] theorem eval_listComp (elt : Expr) (x : Ident) (iter cond : Expr) :
    eval P call (.listComp elt x iter cond) s = M.seq (eval P call iter s) (fun v => elements P v >>= fun vs =>
      M.inScope (compLoop x (eval P call cond >>= fun c => truth P c) (eval P call elt) vs) >>= fun rs =>
      M.alloc (.list rs) >>= fun a => M.pure (.ref a)) := by rw [eval]; rfl
@[pyrun] theorem eval_fstr (es : List Expr) :
    eval P call (.fstr es) s = M.seq (evalList P call es s) (fun _ => M.pure .text) := by rw [eval]; rfl
@[pyrun] theorem evalList_nil : evalList P call [] s = (.ok [], s) := by rw [evalList]; rfl
@[pyrun] theorem evalList_cons (e : Expr) (es : List Expr) :
    evalList P call (e :: es) s = M.seq (eval P call e s) (fun v => evalList P call es >>= fun vs => M.pure (v :: vs)) := by
  rw [evalList]; rfl

/-! ## Statements -/

variable (n : Nat)

@[pyrun] theorem exec_expr (e : Expr) : exec P n call (.expr e) s = M.seq (eval P call e s) (fun _ => M.pure .next) := by
  rw [exec]; rfl
@[pyrun] theorem exec_assign (t : Target) (e : Expr) :
    exec P n call (.assign t e) s = M.seq (eval P call e s) (fun v => assign P call t v >>= fun _ => M.pure .next) := by
  rw [exec]; rfl

/-- The parts of a tuple. -/
def tupArgs : Val → M (List Val)
  | .tup vs => M.pure vs
  | _ => M.stuck
@[pyrun] theorem tupArgs_tup (vs : List Val) : tupArgs (.tup vs) s = (.ok vs, s) := rfl
@[pyrun] theorem exec_unpack (ts : List Target) (e : Expr) :
    exec P n call (.unpack ts e) s =
      M.seq (eval P call e s) (fun v => tupArgs v >>= fun vs => assignAll P call ts vs >>= fun _ => M.pure .next) := by
  rw [exec, M.bind_apply]
  congr 1
  funext v
  cases v <;> rfl
@[pyrun] theorem exec_aug (t : Target) (op : BinOp) (e : Expr) :
    exec P n call (.aug t op e) s = M.seq (augAssign P call t op (eval P call e) s) (fun _ => M.pure .next) := by rw [exec]; rfl
@[pyrun] theorem exec_ret (e : Expr) : exec P n call (.ret e) s = M.seq (eval P call e s) (fun v => M.pure (.ret v)) := by
  rw [exec]; rfl

/-- Raise a value. -/
def raiseVal : Val → M Flow
  | .exc c => M.throw c
  | _ => M.stuck
@[pyrun] theorem raiseVal_exc (c : Ident) : raiseVal (.exc c) s = (.error (.py c), s) := rfl
@[pyrun] theorem exec_raise (e : Expr) : exec P n call (.raise e) s = M.seq (eval P call e s) raiseVal := by
  rw [exec, M.bind_apply]
  congr 1
@[pyrun] theorem exec_ite (c : Expr) (a b : List Stmt) :
    exec P n call (.ite c a b) s =
      M.seq (eval P call c s) (fun v => truth P v >>= fun t => M.choose t (execBlock P n call a) (execBlock P n call b)) := by
  rw [exec]; rfl
@[pyrun] theorem exec_for (x : Target) (it : Expr) (body orelse : List Stmt) :
    exec P n call (.for x it body orelse) s = M.seq (eval P call it s) (fun v => elements P v >>= fun vs =>
      forLoop (assign P call x) (execBlock P n call body) (execBlock P n call orelse) vs) := by rw [exec]; rfl
theorem exec_while (c : Expr) (body orelse : List Stmt) :
    exec P n call (.while c body orelse) s = whileLoop (eval P call c >>= fun v => truth P v) (execBlock P n call body)
      (execBlock P n call orelse) n s := by rw [exec]

/-- What comes after the body of `try`. -/
def tried (P : Prog) (n : Nat) (call : CallT) (handlers : List Handler) (orelse : List Stmt) (r : Except Exc Flow × St) :
    Except Exc Flow × St :=
  match r with
  | (.ok .next, s) => execBlock P n call orelse s
  | (.error (.py c), s) => handle P n call handlers c s
  | r => r
@[pyrun] theorem tried_next (hs : List Handler) (o : List Stmt) : tried P n call hs o (.ok .next, s) = execBlock P n call o s := rfl
@[pyrun] theorem tried_ret (hs : List Handler) (o : List Stmt) (v : Val) : tried P n call hs o (.ok (.ret v), s) = (.ok (.ret v), s) := rfl
@[pyrun] theorem tried_error (hs : List Handler) (o : List Stmt) (c : Ident) :
    tried P n call hs o (.error (.py c), s) = handle P n call hs c s := rfl
@[pyrun] theorem exec_try (b : List Stmt) (hs : List Handler) (o : List Stmt) :
    exec P n call (.try b hs o) s = tried P n call hs o (execBlock P n call b s) := by
  rw [exec]
  unfold tried
  rfl
@[pyrun] theorem exec_del (e i : Expr) :
    exec P n call (.del e i) s = M.seq (eval P call e s) (fun v => eval P call i >>= fun i => delIndex v i >>= fun _ => M.pure .next) := by
  rw [exec]; rfl
@[pyrun] theorem exec_pass : exec P n call .pass s = (.ok .next, s) := by rw [exec]; rfl
@[pyrun] theorem exec_brk : exec P n call .brk s = (.ok .brk, s) := by rw [exec]; rfl
@[pyrun] theorem exec_cont : exec P n call .cont s = (.ok .cont, s) := by rw [exec]; rfl

/-- What comes after a statement. -/
def after (rest : M Flow) : Flow → M Flow
  | .next => rest
  | f => M.pure f
@[pyrun] theorem after_next (rest : M Flow) : after rest .next s = rest s := rfl
@[pyrun] theorem after_brk (rest : M Flow) : after rest .brk s = (.ok .brk, s) := rfl
@[pyrun] theorem after_cont (rest : M Flow) : after rest .cont s = (.ok .cont, s) := rfl
@[pyrun] theorem after_ret (rest : M Flow) (v : Val) : after rest (.ret v) s = (.ok (.ret v), s) := rfl
@[pyrun] theorem execBlock_nil : execBlock P n call [] s = (.ok .next, s) := by rw [execBlock]; rfl
@[pyrun] theorem execBlock_cons (st : Stmt) (sts : List Stmt) :
    execBlock P n call (st :: sts) s = M.seq (exec P n call st s) (after (execBlock P n call sts)) := by
  rw [execBlock, M.bind_apply]
  congr 1
@[pyrun] theorem handle_nil (c : Ident) : handle P n call [] c s = (.error (.py c), s) := by rw [handle]; rfl
theorem handle_cons (b : Ident) (x : Option Ident) (body : List Stmt) (hs : List Handler) (c : Ident) :
    handle P n call (.mk b x body :: hs) c s =
      if catches P c b then
        match x with
        | some x => execBlock P n call body { s with loc := M.bindKey s.loc x (.exc c) }
        | none => execBlock P n call body s
      else handle P n call hs c s := by
  rw [handle]
  cases catches P c b
  · rfl
  · cases x <;> rfl

@[pyrun] theorem assign_name (y : Ident) (x : Val) : assign P call (.name y) x s = M.setLoc y x s := rfl
@[pyrun] theorem assign_attr (e : Expr) (a : Ident) (x : Val) :
    assign P call (.attr e a) x s = M.seq (eval P call e s) (fun v => setAttr v a x) := rfl
@[pyrun] theorem assign_index (e i : Expr) (x : Val) :
    assign P call (.index e i) x s = M.seq (eval P call e s) (fun v => eval P call i >>= fun i => setIndex v i x) := rfl
@[pyrun] theorem assignAll_nil : assignAll P call [] [] s = (.ok (), s) := rfl
@[pyrun] theorem assignAll_cons (t : Target) (ts : List Target) (v : Val) (vs : List Val) :
    assignAll P call (t :: ts) (v :: vs) s = M.seq (assign P call t v s) (fun _ => assignAll P call ts vs) := rfl

/-- Operand of an assignment to a variable that is bound or not. -/
def augName (op : BinOp) (y : Ident) (value : M Val) : Option Val → M Unit
  | some v => value >>= fun x => binOp op v x >>= fun r => M.setLoc y r
  | none => M.throw n!"UnboundLocalError"
@[pyrun] theorem augName_some (op : BinOp) (y : Ident) (value : M Val) (v : Val) :
    augName op y value (some v) s = M.seq (value s) (fun x => binOp op v x >>= fun r => M.setLoc y r) := rfl
@[pyrun] theorem augAssign_name (op : BinOp) (y : Ident) (value : M Val) :
    augAssign P call (.name y) op value s = augName op y value (s.loc.lookup y) s := by
  unfold augAssign augName
  simp only []
  rw [M.bind_apply, M.getLoc_apply, M.seq_ok]
  cases s.loc.lookup y <;> rfl
@[pyrun] theorem augAssign_index (op : BinOp) (e i : Expr) (value : M Val) :
    augAssign P call (.index e i) op value s = M.seq (eval P call e s) (fun v => eval P call i >>= fun i =>
      indexVal P v i >>= fun old => value >>= fun x => binOp op old x >>= fun r => setIndex v i r) := rfl
@[pyrun] theorem augAssign_attr (op : BinOp) (e : Expr) (a : Ident) (value : M Val) :
    augAssign P call (.attr e a) op value s = M.seq (eval P call e s) (fun v =>
      getAttr P call v a >>= fun old => value >>= fun x => binOp op old x >>= fun r => setAttr v a r) := rfl

/-- What comes after one round of a loop. -/
def loopNext (rest : M Flow) : Flow → M Flow
  | .next => rest
  | .cont => rest
  | .brk => M.pure .next
  | .ret r => M.pure (.ret r)
@[pyrun] theorem loopNext_next (rest : M Flow) : loopNext rest .next s = rest s := rfl
@[pyrun] theorem loopNext_cont (rest : M Flow) : loopNext rest .cont s = rest s := rfl
@[pyrun] theorem loopNext_brk (rest : M Flow) : loopNext rest .brk s = (.ok .next, s) := rfl
@[pyrun] theorem loopNext_ret (rest : M Flow) (v : Val) : loopNext rest (.ret v) s = (.ok (.ret v), s) := rfl
@[pyrun] theorem forLoop_nil (set : Val → M Unit) (body orelse : M Flow) : forLoop set body orelse [] s = orelse s := rfl
theorem forLoop_cons (set : Val → M Unit) (body orelse : M Flow) (v : Val) (vs : List Val) :
    forLoop set body orelse (v :: vs) s = M.seq (set v s) (fun _ => body >>= loopNext (forLoop set body orelse vs)) := by
  rw [forLoop, M.bind_apply]
  congr 1
theorem whileLoop_succ (cond : M Bool) (body orelse : M Flow) (k : Nat) :
    whileLoop cond body orelse (k + 1) s =
      M.seq (cond s) (fun b => M.choose b (body >>= loopNext (whileLoop cond body orelse k)) orelse) := by
  rw [whileLoop, M.bind_apply]
  congr 1
@[pyrun] theorem compLoop_nil (x : Ident) (cond : M Bool) (elt : M Val) : compLoop x cond elt [] s = (.ok [], s) := rfl
theorem compLoop_cons (x : Ident) (cond : M Bool) (elt : M Val) (v : Val) (vs : List Val) :
    compLoop x cond elt (v :: vs) s = M.seq (M.setLoc x v s) (fun _ => cond >>= fun b =>
      M.choose b (elt >>= fun r => compLoop x cond elt vs >>= fun rs => M.pure (r :: rs)) (compLoop x cond elt vs)) := by
  rfl

/-! ## Functions -/

/-- End of the body of a function. -/
def endCall (r : Except Exc Flow × St) : Except Exc Val × Heap :=
  match r with
  | (.ok (.ret v), s) => (.ok v, s.heap)
  | (.ok .next, s) => (.ok .none, s.heap)
  | (.ok _, s) => (.error .stuck, s.heap)
  | (.error e, s) => (.error e, s.heap)
@[pyrun] theorem endCall_ret (v : Val) (l : List (Ident × Val)) (h : Heap) : endCall (.ok (.ret v), ⟨l, h⟩) = (.ok v, h) := rfl
@[pyrun] theorem endCall_next (l : List (Ident × Val)) (h : Heap) : endCall (.ok .next, ⟨l, h⟩) = (.ok .none, h) := rfl
@[pyrun] theorem endCall_error (e : Exc) (l : List (Ident × Val)) (h : Heap) : endCall (.error e, ⟨l, h⟩) = (.error e, h) := rfl

theorem callFn_succ (f : Ident) (d : FnDef) (args : List Val) (l : List (Ident × Val)) (h : Heap) (hf : P.fns.lookup f = some d)
    (hl : bindArgs d args = some l) : callFn P (n + 1) f args h = endCall (execBlock P n (callFn P n) d.body ⟨l, h⟩) := by
  rw [callFn]
  simp only [hf, hl]
  unfold endCall
  rfl

/-! ## Operators -/

variable (a b : Int) (p q : Rat)

@[pyrun] theorem binOp_add : binOp .add (.int a) (.int b) s = (.ok (.int (a + b)), s) := rfl
@[pyrun] theorem binOp_add_ff : binOp .add (.flt p) (.flt q) s = (.ok (.flt (rnd (p + q))), s) := rfl
@[pyrun] theorem binOp_add_str (x y : String) : binOp .add (.str x) (.str y) s = (.ok (.str (x ++ y)), s) := rfl
@[pyrun] theorem binOp_add_text : binOp .add .text .text s = (.ok .text, s) := rfl
@[pyrun] theorem binOp_add_text_str (x : String) : binOp .add .text (.str x) s = (.ok .text, s) := rfl
@[pyrun] theorem binOp_add_str_text (x : String) : binOp .add (.str x) .text s = (.ok .text, s) := rfl
@[pyrun] theorem binOp_sub : binOp .sub (.int a) (.int b) s = (.ok (.int (a - b)), s) := rfl
@[pyrun] theorem binOp_mul : binOp .mul (.int a) (.int b) s = (.ok (.int (a * b)), s) := rfl
@[pyrun] theorem binOp_mul_if : binOp .mul (.int a) (.flt q) s = (.ok (.flt (rnd (rnd a * q))), s) := rfl
@[pyrun] theorem binOp_mul_fi : binOp .mul (.flt q) (.int a) s = (.ok (.flt (rnd (q * rnd a))), s) := rfl
@[pyrun] theorem binOp_mul_ff : binOp .mul (.flt p) (.flt q) s = (.ok (.flt (rnd (p * q))), s) := rfl
@[pyrun] theorem binOp_shl (k : Nat) : binOp .shl (.int a) (.int k) s = (.ok (.int (a * 2 ^ k)), s) := rfl
@[pyrun] theorem binOp_shl_neg (k : Nat) : binOp .shl (.int a) (.int (Int.negSucc k)) s = (.error (.py n!"ValueError"), s) := rfl
@[pyrun] theorem binOp_shl_lit (k : Nat) :
    binOp .shl (.int a) (.int (no_index (@OfNat.ofNat Int k instOfNat))) s = (.ok (.int (a * 2 ^ k)), s) := rfl
@[pyrun] theorem binOp_shr (k : Nat) : binOp .shr (.int a) (.int k) s = (.ok (.int (a / 2 ^ k)), s) := rfl
@[pyrun] theorem binOp_shr_lit (k : Nat) :
    binOp .shr (.int a) (.int (no_index (@OfNat.ofNat Int k instOfNat))) s = (.ok (.int (a / 2 ^ k)), s) := rfl
@[pyrun] theorem binOp_pow_neg (k : Nat) (ha : a ≠ 0) :
    binOp .pow (.int a) (.int (Int.negSucc k)) s = (.ok (.flt (rnd (1 / (a : Rat) ^ (k + 1)))), s) := by
  show (if a = 0 then M.throw n!"ZeroDivisionError" else M.pure (.flt (rnd (1 / (a : Rat) ^ (k + 1)))) : M Val) s = _
  rw [if_neg ha]; rfl
@[pyrun] theorem binOp_band : binOp .band (.int a) (.int b) s = (.ok (.int (Int.land a b)), s) := rfl
@[pyrun] theorem binOp_bor : binOp .bor (.int a) (.int b) s = (.ok (.int (Int.lor a b)), s) := rfl
@[pyrun] theorem binOp_bxor : binOp .bxor (.int a) (.int b) s = (.ok (.int (Int.xor a b)), s) := rfl

@[pyrun] theorem cmpOp_lt : cmpOp P .lt (.int a) (.int b) s = (.ok (.bool (decide (a < b))), s) := rfl
@[pyrun] theorem cmpOp_le : cmpOp P .le (.int a) (.int b) s = (.ok (.bool (decide (a ≤ b))), s) := rfl
@[pyrun] theorem cmpOp_gt : cmpOp P .gt (.int a) (.int b) s = (.ok (.bool (decide (b < a))), s) := rfl
@[pyrun] theorem cmpOp_ge : cmpOp P .ge (.int a) (.int b) s = (.ok (.bool (decide (b ≤ a))), s) := rfl

/-- Result of `==` if it is defined. -/
def eqResult (neg : Bool) (s : St) : Option Bool → Except Exc Val × St
  | some r => (.ok (.bool (if neg then !r else r)), s)
  | none => (.error .stuck, s)
@[pyrun] theorem eqResult_some (r : Bool) : eqResult false s (some r) = (.ok (.bool r), s) := rfl
@[pyrun] theorem eqResult_neg (r : Bool) : eqResult true s (some r) = (.ok (.bool (!r)), s) := rfl
@[pyrun] theorem cmpOp_eq (x y : Val) : cmpOp P .eq x y s = eqResult false s (pyEq x y) := by
  unfold cmpOp eqResult
  simp only []
  rw [M.bind_apply]
  cases pyEq x y <;> rfl
@[pyrun] theorem cmpOp_ne (x y : Val) : cmpOp P .ne x y s = eqResult true s (pyEq x y) := by
  unfold cmpOp eqResult
  simp only []
  rw [M.bind_apply]
  cases pyEq x y <;> rfl
@[pyrun] theorem cmpOp_mem (x y : Val) :
    cmpOp P .mem x y s = M.seq (memberVals P y s) (fun vs => memList x vs >>= fun r => M.pure (.bool r)) := rfl
@[pyrun] theorem memberVals_tup (vs : List Val) : memberVals P (.tup vs) s = (.ok vs, s) := rfl
/-- The elements of an object that `in` looks at. -/
def memberObj (P : Prog) (v : Val) : Obj → M (List Val)
  | .set vs => M.pure vs
  | _ => elements P v
@[pyrun] theorem memberObj_set (v : Val) (vs : List Val) : memberObj P v (.set vs) s = (.ok vs, s) := rfl
@[pyrun] theorem memberVals_ref (r : Nat) : memberVals P (.ref r) s = M.seq (M.read r s) (memberObj P (.ref r)) := by
  unfold memberVals
  simp only []
  rw [M.bind_apply]
  congr 1
@[pyrun] theorem pyEq_int : pyEq (.int a) (.int b) = some (a == b) := rfl
@[pyrun] theorem pyEq_str (x y : String) : pyEq (.str x) (.str y) = some (x == y) := rfl
@[pyrun] theorem pyEq_bytes (x y : List UInt8) : pyEq (.bytes x) (.bytes y) = some (x == y) := rfl
@[pyrun] theorem pyEq_none : pyEq .none .none = some true := rfl
@[pyrun] theorem pyEq_cls (x y : Ident) : pyEq (.cls x) (.cls y) = some (x == y) := rfl
@[pyrun] theorem pyEq_bool (x y : Bool) : pyEq (.bool x) (.bool y) = some (x == y) := rfl

@[pyrun] theorem indexVal_head (v : Val) (vs : List Val) : indexVal P (.tup (v :: vs)) (.int 0) s = (.ok v, s) := rfl
@[pyrun] theorem truth_bool (t : Bool) : truth P (.bool t) s = (.ok t, s) := rfl
@[pyrun] theorem truth_int : truth P (.int a) s = (.ok (a != 0), s) := rfl
@[pyrun] theorem truth_str (x : String) : truth P (.str x) s = (.ok (x != ""), s) := rfl
@[pyrun] theorem truth_none : truth P .none s = (.ok false, s) := rfl

/-! ## Calls and attributes -/

@[pyrun] theorem callVal_fn (f : Ident) (args : List Val) : callVal P call (.fn f) args s = M.call call f args s := rfl
@[pyrun] theorem callVal_bound (f : Ident) (v : Val) (args : List Val) :
    callVal P call (.bound f v) args s = M.call call f (v :: args) s := rfl
@[pyrun] theorem callVal_cls (c : Ident) (args : List Val) : callVal P call (.cls c) args s = construct P call c args s := rfl
/-- `getattr(v, a)`. -/
def getattrVal (P : Prog) (call : CallT) : List Val → M Val
  | [v, .ident a] => getAttr P call v a
  | [v, .str a] => getAttr P call v ⟨codeOf a⟩
  | _ => M.stuck
@[pyrun] theorem getattrVal_eq (v : Val) (a : Ident) : getattrVal P call [v, .ident a] s = getAttr P call v a s := rfl
@[pyrun] theorem getattrVal_str (v : Val) (a : String) : getattrVal P call [v, .str a] s = getAttr P call v ⟨codeOf a⟩ s := rfl
@[pyrun] theorem callVal_builtin (f : Ident) (args : List Val) :
    callVal P call (.builtin f) args s = if f == n!"getattr" then getattrVal P call args s else builtinFn P f args s := by
  unfold callVal getattrVal
  simp only []
  split <;> rfl
@[pyrun] theorem callVal_bmeth (v : Val) (m : Ident) (args : List Val) : callVal P call (.bmeth v m) args s = builtinMeth P v m args s := rfl
@[pyrun] theorem globalVal_cls (c : Ident) : globalVal (.cls c) = .cls c := rfl
@[pyrun] theorem globalVal_fn (c : Ident) : globalVal (.fn c) = .fn c := rfl
@[pyrun] theorem globalVal_builtin (c : Ident) : globalVal (.builtin c) = .builtin c := rfl
@[pyrun] theorem globalVal_modul (c : List Ident) : globalVal (.modul c) = .modul c := rfl
@[pyrun] theorem globalVal_logger : globalVal .logger = .logger := rfl
@[pyrun] theorem globalVal_const (c : Const) : globalVal (.const c) = c.val := rfl

@[pyrun] theorem builtin_int (i : Int) : builtinFn P n!"int" [.int i] s = (.ok (.int i), s) := rfl
@[pyrun] theorem builtin_int0 : builtinFn P n!"int" [] s = (.ok (.int 0), s) := rfl
@[pyrun] theorem builtin_float (i : Int) : builtinFn P n!"float" [.int i] s = (.ok (.flt (rnd i)), s) := rfl
@[pyrun] theorem builtin_float' (q : Rat) : builtinFn P n!"float" [.flt q] s = (.ok (.flt q), s) := rfl
@[pyrun] theorem builtin_len_bytes (b : List UInt8) : builtinFn P n!"len" [.bytes b] s = (.ok (.int b.length), s) := rfl
@[pyrun] theorem builtin_len_tup (b : List Val) : builtinFn P n!"len" [.tup b] s = (.ok (.int b.length), s) := rfl
@[pyrun] theorem builtin_range (i : Int) : builtinFn P n!"range" [.int i] s = (.ok (.tup (rangeVals 0 i)), s) := rfl
@[pyrun] theorem builtin_range2 (i j : Int) : builtinFn P n!"range" [.int i, .int j] s = (.ok (.tup (rangeVals i j)), s) := rfl
/-- `type(…)` of an object. -/
def typeVal : Obj → M Val
  | .inst c _ => M.pure (.cls c)
  | _ => M.stuck
@[pyrun] theorem typeVal_inst (c : Ident) (fs : List (Ident × Val)) : typeVal (.inst c fs) s = (.ok (.cls c), s) := rfl
@[pyrun] theorem builtin_type_ref (a : Nat) : builtinFn P n!"type" [.ref a] s = M.seq (M.read a s) typeVal := by
  show (M.read a >>= _) s = _
  rw [M.bind_apply]
  congr 1
@[pyrun] theorem builtin_type_exc (c : Ident) : builtinFn P n!"type" [.exc c] s = (.ok (.cls c), s) := rfl
@[pyrun] theorem elements_tup (vs : List Val) : elements P (.tup vs) s = (.ok vs, s) := rfl
@[pyrun] theorem elements_bytes (b : List UInt8) : elements P (.bytes b) s = (.ok (b.map (fun x => .int x.toNat)), s) := rfl

/-- Attribute of a class that has been found. -/
def memberVal (P : Prog) (call : CallT) (c a : Ident) (self : Val) : Option (Ident × Member) → M Val
  | some (_, .method f) => M.pure (.bound f self)
  | some (_, .clsMethod f) => M.pure (.bound f (.cls c))
  | some (_, .static f) => M.pure (.fn f)
  | some (_, .prop f) => M.call call f [self]
  | some (b, .value (.dict _ _)) => M.pure (.stat b a)
  | some (b, .value (.list _)) => M.pure (.stat b a)
  | some (b, .value e) => M.ofOption (staticVal P b e)
  | none => M.throw n!"AttributeError"
theorem classAttr_eq (c x : Ident) (self : Val) : classAttr P call c x self s = memberVal P call c x self (findMember P c x) s := by
  unfold classAttr memberVal; rfl
@[pyrun] theorem memberVal_method (c x d f : Ident) (self : Val) :
    memberVal P call c x self (some (d, .method f)) s = (.ok (.bound f self), s) := rfl
@[pyrun] theorem memberVal_clsMethod (c x d f : Ident) (self : Val) :
    memberVal P call c x self (some (d, .clsMethod f)) s = (.ok (.bound f (.cls c)), s) := rfl
@[pyrun] theorem memberVal_static (c x d f : Ident) (self : Val) :
    memberVal P call c x self (some (d, .static f)) s = (.ok (.fn f), s) := rfl
@[pyrun] theorem memberVal_prop (c x d f : Ident) (self : Val) :
    memberVal P call c x self (some (d, .prop f)) s = M.call call f [self] s := rfl
@[pyrun] theorem memberVal_const (c x d : Ident) (k : Const) (self : Val) :
    memberVal P call c x self (some (d, .value (.const k))) s = (.ok k.val, s) := by
  simp only [memberVal, staticVal]; rfl

/-- Attribute of an instance. -/
def instAttr (P : Prog) (call : CallT) (c x : Ident) (self : Val) : Option Val → M Val
  | some v => M.pure v
  | none => if x = n!"__class__" then M.pure (.cls c) else classAttr P call c x self
@[pyrun] theorem instAttr_some (c x : Ident) (self v : Val) : instAttr P call c x self (some v) s = (.ok v, s) := rfl
theorem instAttr_none (c x : Ident) (self : Val) (hx : x ≠ n!"__class__") :
    instAttr P call c x self none s = memberVal P call c x self (findMember P c x) s := by
  rw [instAttr, if_neg hx, classAttr_eq]
@[pyrun] theorem instAttr_class (c x : Ident) (self : Val) (hx : (x == n!"__class__") = false) :
    instAttr P call c x self none s = memberVal P call c x self (findMember P c x) s :=
  instAttr_none P call s c x self (by rw [beq_eq_false_iff_ne] at hx; exact hx)
/-- Attribute of an object. -/
def objAttr (P : Prog) (call : CallT) (self : Val) (x : Ident) : Obj → M Val
  | .inst c fs => instAttr P call c x self (fs.lookup x)
  | _ => M.pure (.bmeth self x)
@[pyrun] theorem objAttr_inst (self : Val) (x c : Ident) (fs : List (Ident × Val)) :
    objAttr P call self x (.inst c fs) s = instAttr P call c x self (fs.lookup x) s := rfl
@[pyrun] theorem objAttr_dict (self : Val) (x : Ident) (d : List (Val × Val)) :
    objAttr P call self x (.dict d) s = (.ok (.bmeth self x), s) := rfl
@[pyrun] theorem objAttr_list (self : Val) (x : Ident) (d : List Val) :
    objAttr P call self x (.list d) s = (.ok (.bmeth self x), s) := rfl
@[pyrun] theorem getAttr_ref (r : Nat) (x : Ident) :
    getAttr P call (.ref r) x s = M.seq (M.read r s) (objAttr P call (.ref r) x) := by
  unfold getAttr
  simp only []
  rw [M.bind_apply]
  congr 1
/-- Attribute of a class; a method is not bound. -/
def ownAttr (P : Prog) (call : CallT) (c x : Ident) : Option (Ident × Member) → M Val
  | some (_, .method f) => M.pure (.fn f)
  | o => memberVal P call c x (.cls c) o
theorem getAttr_cls (c x : Ident) : getAttr P call (.cls c) x s = ownAttr P call c x (findMember P c x) s := by
  unfold getAttr ownAttr
  simp only []
  have h := classAttr_eq P call s c x (.cls c)
  cases hm : findMember P c x with
  | none => rw [hm] at h; exact h
  | some m =>
    rw [hm] at h
    obtain ⟨d, m⟩ := m
    cases m <;> first | rfl | exact h
@[pyrun] theorem ownAttr_clsMethod (c x d f : Ident) : ownAttr P call c x (some (d, .clsMethod f)) s = (.ok (.bound f (.cls c)), s) := rfl
@[pyrun] theorem ownAttr_static (c x d f : Ident) : ownAttr P call c x (some (d, .static f)) s = (.ok (.fn f), s) := rfl
@[pyrun] theorem ownAttr_const (c x d : Ident) (k : Const) :
    ownAttr P call c x (some (d, .value (.const k))) s = (.ok k.val, s) := memberVal_const P call s c x d k (.cls c)
@[pyrun] theorem ownAttr_dict (c x d : Ident) (ks vs : List Expr) :
    ownAttr P call c x (some (d, .value (.dict ks vs))) s = (.ok (.stat d x), s) := rfl
@[pyrun] theorem ownAttr_list (c x d : Ident) (vs : List Expr) :
    ownAttr P call c x (some (d, .value (.list vs))) s = (.ok (.stat d x), s) := rfl
/-- Value of a name of a module. -/
def M.named : Option Global → M Val
  | some g => M.pure (globalVal g)
  | none => M.stuck
@[pyrun] theorem M.named_some (g : Global) : M.named (some g) s = (.ok (globalVal g), s) := rfl
@[pyrun] theorem getAttr_modul (names : List Ident) (x : Ident) :
    getAttr P call (.modul names) x s = if names.contains x then M.named (P.globals.lookup x) s else (.error .stuck, s) := by
  unfold getAttr M.named
  simp only []
  split
  · cases P.globals.lookup x <;> rfl
  · rfl
@[pyrun] theorem getAttr_logger (x : Ident) : getAttr P call .logger x s = (.ok (.bmeth .logger x), s) := rfl
@[pyrun] theorem getAttr_int (i : Int) (x : Ident) : getAttr P call (.int i) x s = (.ok (.bmeth (.int i) x), s) := rfl
@[pyrun] theorem getAttr_str (i : String) (x : Ident) : getAttr P call (.str i) x s = (.ok (.bmeth (.str i) x), s) := rfl
@[pyrun] theorem getAttr_bytes (i : List UInt8) (x : Ident) : getAttr P call (.bytes i) x s = (.ok (.bmeth (.bytes i) x), s) := rfl
@[pyrun] theorem getAttr_stat (c d x : Ident) : getAttr P call (.stat c d) x s = (.ok (.bmeth (.stat c d) x), s) := rfl
@[pyrun] theorem getAttr_exc_args (c : Ident) : getAttr P call (.exc c) n!"args" s = (.ok (.tup [.text]), s) := rfl
@[pyrun] theorem getAttr_exc_process (c : Ident) : getAttr P call (.exc c) n!"process" s = (.ok (.bmeth (.exc c) n!"process"), s) := rfl
@[pyrun] theorem builtinMeth_logger (x : Ident) (args : List Val) : builtinMeth P .logger x args s = (.ok .none, s) := rfl
@[pyrun] theorem builtinMeth_process (c : Ident) : builtinMeth P (.exc c) n!"process" [] s = (.ok .none, s) := rfl

/-- Attribute of an object that is replaced. -/
def setAttrObj (r : Nat) (x : Ident) (v : Val) : Obj → M Unit
  | .inst c fs => M.write r (.inst c (M.bindKey fs x v))
  | _ => M.stuck
@[pyrun] theorem setAttrObj_inst (r : Nat) (x : Ident) (v : Val) (c : Ident) (fs : List (Ident × Val)) :
    setAttrObj r x v (.inst c fs) s = M.write r (.inst c (M.bindKey fs x v)) s := rfl
@[pyrun] theorem setAttr_ref (r : Nat) (x : Ident) (v : Val) : setAttr (.ref r) x v s = M.seq (M.read r s) (setAttrObj r x v) := by
  unfold setAttr
  simp only []
  rw [M.bind_apply]
  congr 1

end

@[pyrun] theorem const_int (i : Int) : Const.val (.int i) = .int i := rfl
@[pyrun] theorem const_str (x : String) : Const.val (.str x) = .str x := rfl
@[pyrun] theorem const_none : Const.val .none = .none := rfl
@[pyrun] theorem const_bool (b : Bool) : Const.val (.bool b) = .bool b := rfl
@[pyrun] theorem const_flt (a : Int) (b : Nat) : Const.val (.flt a b) = .flt (rnd (mkRat a b)) := rfl
@[pyrun] theorem const_bytes (b : List Nat) : Const.val (.bytes b) = .bytes (b.map UInt8.ofNat) := rfl

attribute [pyrun] List.lookup_cons List.lookup_nil

/-- Executes the program. -/
syntax "pyexec" (" [" (Lean.Parser.Tactic.simpLemma),* "]")? : tactic
macro_rules
  | `(tactic| pyexec) =>
    `(tactic| simp only [pyrun, reduceIte, String.reduceBEq, ident_beq, Nat.reduceBEq, beq_self_eq_true, Bool.false_eq_true, List.length_append, List.length_cons,
        List.length_nil, Nat.zero_add])
  | `(tactic| pyexec [$ls,*]) =>
    `(tactic| simp only [pyrun, reduceIte, String.reduceBEq, ident_beq, Nat.reduceBEq, beq_self_eq_true, Bool.false_eq_true, List.length_append, List.length_cons,
        List.length_nil, Nat.zero_add, $ls,*])

end PyCore
end Verif
