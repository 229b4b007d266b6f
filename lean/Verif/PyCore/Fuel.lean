import Verif.PyCore.Semantics

/-!
# More fuel gives the same result

A call that does not run out of fuel has the same result with more fuel. So a call has at most one result, and the bound on the depth of calls and on the rounds of
`while` in the semantics is no more than a way to say that a computation comes to an end.
-/

namespace Verif
namespace PyCore

variable [Rounding]

/-- `m'` does what `m` does unless `m` runs out of fuel. -/
def Below {α : Type} (m m' : M α) : Prop := ∀ s, (m s).1 = .error .diverge ∨ m' s = m s

/-- The same for calls. -/
def CallBelow (c c' : CallT) : Prop := ∀ f args h, (c f args h).1 = .error .diverge ∨ c' f args h = c f args h

namespace Below
variable {α β : Type}

theorem refl (m : M α) : Below m m := fun _ => .inr rfl

theorem bind {m m' : M α} {f f' : α → M β} (hm : Below m m') (hf : ∀ a, Below (f a) (f' a)) : Below (m >>= f) (m' >>= f') := by
  intro s
  change (M.bind m f s).1 = _ ∨ M.bind m' f' s = M.bind m f s
  unfold M.bind
  rcases hm s with h | h
  · left
    cases hs : m s with
    | mk r s' =>
      rw [hs] at h
      dsimp only at h
      subst h
      rfl
  · rw [h]
    cases hs : m s with
    | mk r s' =>
      cases r with
      | ok a => exact hf a s'
      | error e => exact .inr rfl

theorem inScope {m m' : M α} (hm : Below m m') : Below (M.inScope m) (M.inScope m') := by
  intro s
  unfold M.inScope
  rcases hm s with h | h
  · exact .inl h
  · rw [h]; exact .inr rfl

theorem call {c c' : CallT} (hc : CallBelow c c') (f : Ident) (args : List Val) : Below (M.call c f args) (M.call c' f args) := by
  intro s
  unfold M.call
  rcases hc f args s.heap with h | h
  · exact .inl h
  · rw [h]; exact .inr rfl

theorem ite {b : Bool} {m m' k k' : M α} (hm : Below m m') (hk : Below k k') : Below (if b then m else k) (if b then m' else k') := by
  cases b
  · exact hk
  · exact hm

theorem compLoop (x : Ident) {c c' : M Bool} {e e' : M Val} (hc : Below c c') (he : Below e e') : ∀ vs, Below (compLoop x c e vs) (compLoop x c' e' vs)
  | [] => refl _
  | _ :: vs => bind (refl _) fun _ => bind hc fun _ => ite (bind he fun _ => bind (compLoop x hc he vs) fun _ => refl _) (compLoop x hc he vs)

theorem forLoop {set set' : Val → M Unit} {b b' o o' : M Flow} (hs : ∀ v, Below (set v) (set' v)) (hb : Below b b') (ho : Below o o') :
    ∀ vs, Below (forLoop set b o vs) (forLoop set' b' o' vs)
  | [] => ho
  | v :: vs => bind (hs v) fun _ => bind hb fun f => by
    cases f with
    | next => exact forLoop hs hb ho vs
    | cont => exact forLoop hs hb ho vs
    | brk => exact refl _
    | ret r => exact refl _

theorem whileLoop {c c' : M Bool} {b b' o o' : M Flow} (hc : Below c c') (hb : Below b b') (ho : Below o o') :
    ∀ n, Below (whileLoop c b o n) (whileLoop c' b' o' (n + 1))
  | 0 => fun _ => .inl rfl
  | n + 1 => bind hc fun _ => ite (bind hb fun f => by
    cases f with
    | next => exact whileLoop hc hb ho n
    | cont => exact whileLoop hc hb ho n
    | brk => exact refl _
    | ret r => exact refl _) ho

end Below

section
set_option linter.unusedSectionVars false
variable (P : Prog) {c c' : CallT} (hc : CallBelow c c')
include hc

theorem classAttr_below (d a : Ident) (v : Val) : Below (classAttr P c d a v) (classAttr P c' d a v) := by
  unfold classAttr
  split
  all_goals first | exact Below.refl _ | exact Below.call hc _ _

theorem getAttr_below (v : Val) (a : Ident) : Below (getAttr P c v a) (getAttr P c' v a) := by
  cases v with
  | ref r =>
    refine Below.bind (Below.refl _) fun o => ?_
    cases o with
    | inst d fs =>
      dsimp only
      split
      · exact Below.refl _
      · split
        · exact Below.refl _
        · exact classAttr_below P hc _ _ _
    | _ => exact Below.refl _
  | cls d =>
    unfold getAttr
    dsimp only
    split
    · exact Below.refl _
    · exact classAttr_below P hc _ _ _
  | _ => exact Below.refl _

theorem construct_below (d : Ident) (args : List Val) : Below (construct P c d args) (construct P c' d args) := by
  unfold construct
  split
  · exact Below.refl _
  · split
    · exact Below.refl _
    · split
      · split
        · refine Below.bind (Below.refl _) fun a => Below.bind (Below.refl _) fun fs => Below.bind (Below.refl _) fun _ => ?_
          split
          · exact Below.bind (Below.call hc _ _) fun _ => Below.refl _
          · exact Below.refl _
        · exact Below.refl _
      · refine Below.bind (Below.refl _) fun a => ?_
        split
        · exact Below.bind (Below.call hc _ _) fun _ => Below.refl _
        · exact Below.refl _

theorem callVal_below (v : Val) (args : List Val) : Below (callVal P c v args) (callVal P c' v args) := by
  cases v with
  | fn f => exact Below.call hc _ _
  | bound f self => exact Below.call hc _ _
  | cls d => exact construct_below P hc _ _
  | builtin b =>
    unfold callVal
    dsimp only
    split
    · split
      · exact getAttr_below P hc _ _
      · exact getAttr_below P hc _ _
      · exact Below.refl _
    · exact Below.refl _
  | _ => exact Below.refl _

mutual
theorem eval_below : ∀ e, Below (eval P c e) (eval P c' e)
  | .const k => by rw [eval, eval]; exact Below.refl _
  | .name x => by rw [eval, eval]; exact Below.refl _
  | .attr e a => by rw [eval, eval]; exact Below.bind (eval_below e) fun v => getAttr_below P hc v a
  | .call f args => by rw [eval, eval]; exact Below.bind (eval_below f) fun v => Below.bind (evalList_below args) fun vs => callVal_below P hc v vs
  | .callStar f x => by
    rw [eval, eval]
    refine Below.bind (eval_below f) fun v => Below.bind (Below.refl _) fun o => ?_
    split
    · exact callVal_below P hc _ _
    · exact Below.refl _
  | .bin op l r => by rw [eval, eval]; exact Below.bind (eval_below l) fun _ => Below.bind (eval_below r) fun _ => Below.refl _
  | .neg e => by rw [eval, eval]; exact Below.bind (eval_below e) fun _ => Below.refl _
  | .not e => by rw [eval, eval]; exact Below.bind (eval_below e) fun _ => Below.refl _
  | .cmp op l r => by rw [eval, eval]; exact Below.bind (eval_below l) fun _ => Below.bind (eval_below r) fun _ => Below.refl _
  | .and l r => by rw [eval, eval]; exact Below.bind (eval_below l) fun _ => Below.bind (Below.refl _) fun _ => Below.ite (eval_below r) (Below.refl _)
  | .or l r => by rw [eval, eval]; exact Below.bind (eval_below l) fun _ => Below.bind (Below.refl _) fun _ => Below.ite (Below.refl _) (eval_below r)
  | .ite q a b => by rw [eval, eval]; exact Below.bind (eval_below q) fun _ => Below.bind (Below.refl _) fun _ => Below.ite (eval_below a) (eval_below b)
  | .tuple es => by rw [eval, eval]; exact Below.bind (evalList_below es) fun _ => Below.refl _
  | .list es => by rw [eval, eval]; exact Below.bind (evalList_below es) fun _ => Below.refl _
  | .dict ks vs => by rw [eval, eval]; exact Below.bind (evalList_below ks) fun _ => Below.bind (evalList_below vs) fun _ => Below.refl _
  | .index e i => by rw [eval, eval]; exact Below.bind (eval_below e) fun _ => Below.bind (eval_below i) fun _ => Below.refl _
  | .slice e lo hi => by rw [eval, eval]; exact Below.bind (eval_below e) fun _ => Below.bind (eval_below lo) fun _ => Below.bind (eval_below hi) fun _ => Below.refl _
  | .gen elt x it q => by
    rw [eval, eval]
    exact Below.bind (eval_below it) fun _ => Below.bind (Below.refl _) fun vs => Below.bind (Below.inScope (Below.compLoop x (Below.bind (eval_below q) fun _ => Below.refl _) (eval_below elt) vs)) fun _ => Below.refl _
  | .listComp elt x it q => by
    rw [eval, eval]
    exact Below.bind (eval_below it) fun _ => Below.bind (Below.refl _) fun vs => Below.bind (Below.inScope (Below.compLoop x (Below.bind (eval_below q) fun _ => Below.refl _) (eval_below elt) vs)) fun _ => Below.refl _
  | .dictComp k v x it => by
    rw [eval, eval]
    exact Below.bind (eval_below it) fun _ => Below.bind (Below.refl _) fun vs =>
      Below.bind (Below.inScope (Below.compLoop x (Below.refl _) (Below.bind (eval_below k) fun _ => Below.bind (eval_below v) fun _ => Below.refl _) vs)) fun _ => Below.refl _
  | .fstr es => by rw [eval, eval]; exact Below.bind (evalList_below es) fun _ => Below.refl _
theorem evalList_below : ∀ es, Below (evalList P c es) (evalList P c' es)
  | [] => by rw [evalList, evalList]; exact Below.refl _
  | e :: es => by rw [evalList, evalList]; exact Below.bind (eval_below e) fun _ => Below.bind (evalList_below es) fun _ => Below.refl _
end

theorem assign_below (t : Target) (x : Val) : Below (assign P c t x) (assign P c' t x) := by
  cases t with
  | name y => exact Below.refl _
  | attr e a => exact Below.bind (eval_below P hc e) fun _ => Below.refl _
  | index e i => exact Below.bind (eval_below P hc e) fun _ => Below.bind (eval_below P hc i) fun _ => Below.refl _

theorem assignAll_below : ∀ ts vs, Below (assignAll P c ts vs) (assignAll P c' ts vs)
  | [], [] => Below.refl _
  | t :: ts, v :: vs => Below.bind (assign_below P hc t v) fun _ => assignAll_below ts vs
  | [], _ :: _ => Below.refl _
  | _ :: _, [] => Below.refl _

theorem augAssign_below (t : Target) (op : BinOp) {m m' : M Val} (hm : Below m m') : Below (augAssign P c t op m) (augAssign P c' t op m') := by
  cases t with
  | name y =>
    refine Below.bind (Below.refl _) fun o => ?_
    cases o with
    | none => exact Below.refl _
    | some v => exact Below.bind hm fun _ => Below.refl _
  | attr e a => exact Below.bind (eval_below P hc e) fun v => Below.bind (getAttr_below P hc v a) fun _ => Below.bind hm fun _ => Below.refl _
  | index e i => exact Below.bind (eval_below P hc e) fun _ => Below.bind (eval_below P hc i) fun _ => Below.bind (Below.refl _) fun _ => Below.bind hm fun _ => Below.refl _

mutual
theorem exec_below (n : Nat) : ∀ st, Below (exec P n c st) (exec P (n + 1) c' st)
  | .expr e => by rw [exec, exec]; exact Below.bind (eval_below P hc e) fun _ => Below.refl _
  | .assign t e => by rw [exec, exec]; exact Below.bind (eval_below P hc e) fun v => Below.bind (assign_below P hc t v) fun _ => Below.refl _
  | .unpack ts e => by
    rw [exec, exec]
    refine Below.bind (eval_below P hc e) fun v => ?_
    split
    · exact Below.bind (assignAll_below P hc _ _) fun _ => Below.refl _
    · exact Below.refl _
  | .aug t op e => by rw [exec, exec]; exact Below.bind (augAssign_below P hc t op (eval_below P hc e)) fun _ => Below.refl _
  | .ret e => by rw [exec, exec]; exact Below.bind (eval_below P hc e) fun _ => Below.refl _
  | .raise e => by rw [exec, exec]; exact Below.bind (eval_below P hc e) fun _ => Below.refl _
  | .ite q a b => by rw [exec, exec]; exact Below.bind (eval_below P hc q) fun _ => Below.bind (Below.refl _) fun _ => Below.ite (execBlock_below n a) (execBlock_below n b)
  | .for x it body orelse => by
    rw [exec, exec]
    exact Below.bind (eval_below P hc it) fun _ => Below.bind (Below.refl _) fun vs => Below.forLoop (assign_below P hc x) (execBlock_below n body) (execBlock_below n orelse) vs
  | .while q body orelse => by
    rw [exec, exec]
    exact Below.whileLoop (Below.bind (eval_below P hc q) fun _ => Below.refl _) (execBlock_below n body) (execBlock_below n orelse) n
  | .try body handlers orelse => by
    rw [exec, exec]
    intro s
    rcases execBlock_below n body s with h | h
    · left
      dsimp only
      cases hs : execBlock P n c body s with
      | mk r s' =>
        rw [hs] at h
        dsimp only at h
        subst h
        rfl
    · dsimp only
      rw [h]
      cases hs : execBlock P n c body s with
      | mk r s' =>
        cases r with
        | ok f =>
          cases f with
          | next => exact execBlock_below n orelse s'
          | _ => exact .inr rfl
        | error e =>
          cases e with
          | py k => exact handle_below n handlers k s'
          | _ => exact .inr rfl
  | .del e i => by rw [exec, exec]; exact Below.bind (eval_below P hc e) fun _ => Below.bind (eval_below P hc i) fun _ => Below.refl _
  | .pass => by rw [exec, exec]; exact Below.refl _
  | .brk => by rw [exec, exec]; exact Below.refl _
  | .cont => by rw [exec, exec]; exact Below.refl _
theorem execBlock_below (n : Nat) : ∀ sts, Below (execBlock P n c sts) (execBlock P (n + 1) c' sts)
  | [] => by rw [execBlock, execBlock]; exact Below.refl _
  | st :: sts => by
    rw [execBlock, execBlock]
    refine Below.bind (exec_below n st) fun f => ?_
    cases f with
    | next => exact execBlock_below n sts
    | _ => exact Below.refl _
theorem handle_below (n : Nat) : ∀ hs k, Below (handle P n c hs k) (handle P (n + 1) c' hs k)
  | [], k => by rw [handle, handle]; exact Below.refl _
  | .mk b x body :: hs, k => by
    rw [handle, handle]
    refine Below.ite ?_ (handle_below n hs k)
    cases x with
    | none => exact Below.bind (Below.refl _) fun _ => execBlock_below n body
    | some x => exact Below.bind (Below.refl _) fun _ => execBlock_below n body
end

end

theorem callFn_below (P : Prog) : ∀ n, CallBelow (callFn P n) (callFn P (n + 1))
  | 0 => fun _ _ _ => .inl rfl
  | n + 1 => by
    intro f args h
    rw [callFn, callFn]
    dsimp only
    cases P.fns.lookup f with
    | none => exact .inr rfl
    | some d =>
      dsimp only
      cases bindArgs d args with
      | none => exact .inr rfl
      | some loc =>
        dsimp only
        rcases execBlock_below P (callFn_below P n) n d.body ⟨loc, h⟩ with hb | hb
        · left
          cases hs : execBlock P n (callFn P n) d.body ⟨loc, h⟩ with
          | mk r s' =>
            rw [hs] at hb
            dsimp only at hb
            subst hb
            rfl
        · rw [hb]
          exact .inr rfl

/-- A call that does not run out of fuel has the same result with more fuel. -/
theorem callFn_mono (P : Prog) {f : Ident} {args : List Val} {h : Heap} {n m : Nat} (hn : n ≤ m) (hd : (callFn P n f args h).1 ≠ .error .diverge) :
    callFn P m f args h = callFn P n f args h := by
  induction m, hn using Nat.le_induction with
  | base => rfl
  | succ m hm ih =>
    rcases callFn_below P m f args h with h1 | h1
    · rw [ih] at h1
      exact absurd h1 hd
    · rw [h1, ih]

end PyCore
end Verif
