import Verif.Refine.ScHeap
import Verif.PyCore.RulesDict

/-!
# Statements about the tables of observables
-/

namespace Verif
namespace PyCore
namespace Refine
open Verif.Msm

open Rounding (rnd)
variable [Rounding]

/-! ## Simulation -/

/-- The statements have done what the model does: with the result of the model they end normally in a state described by `post`; with an
exception of the model they raise an exception that `except Exception` catches, in a heap described by `fr`. -/
def Sim {α : Type} (m : Py α) (run : Except Exc Flow × St) (post : α → St → Prop) (fr : Heap → Prop) : Prop :=
  match m with
  | .ok a => ∃ st, run = (.ok .next, st) ∧ post a st
  | .error _ => ∃ c st, run = (.error (.py c), st) ∧ catches src c n!"Exception" = true ∧ fr st.heap

section
variable {α β : Type} {m : Py α} {f : α → Py β} {n : Nat} {call : CallT} {a b : List Stmt} {st : St} {P : α → St → Prop}
  {Q : β → St → Prop} {fr : Heap → Prop} {run : Except Exc Flow × St}

theorem Sim.ok {x : α} {st : St} (h : run = (.ok .next, st)) (hp : P x st) : Sim (.ok x) run P fr := ⟨st, h, hp⟩
theorem Sim.error {e : PyErr} {c : Ident} {st : St} (h : run = (.error (.py c), st)) (hc : catches src c n!"Exception" = true)
    (hf : fr st.heap) : Sim (.error e : Py α) run P fr := ⟨c, st, h, hc, hf⟩

theorem Sim.bind (h1 : Sim m (execBlock src n call a st) P fr)
    (h2 : ∀ x st', P x st' → Sim (f x) (execBlock src n call b st') Q fr) :
    Sim (m >>= f) (execBlock src n call (a ++ b) st) Q fr := by
  rw [execBlock_app]
  cases m with
  | ok x =>
    obtain ⟨st', h, hp⟩ := h1
    rw [h, M.seq_ok, after_next]
    exact h2 x st' hp
  | error e =>
    obtain ⟨c, st', h, hc, hf⟩ := h1
    rw [h, M.seq_error]
    exact ⟨c, st', rfl, hc, hf⟩

theorem Sim.imp {P' : α → St → Prop} (h1 : Sim m run P fr) (h : ∀ x st, P x st → P' x st) : Sim m run P' fr := by
  cases m with
  | ok x => obtain ⟨st, h1, h2⟩ := h1; exact ⟨st, h1, h x st h2⟩
  | error e => exact h1

theorem Sim.map {g : α → β} (h1 : Sim (g <$> m) run Q fr) : Sim m run (fun x st => Q (g x) st) fr := by
  cases m <;> exact h1
end

theorem catches_index : catches src n!"IndexError" n!"Exception" = true := rfl
theorem catches_key : catches src n!"KeyError" n!"Exception" = true := rfl

/-! ## Local variables -/

/-- Values of local variables. -/
def Has (loc : Fields) (ps : Fields) : Prop := ∀ p ∈ ps, loc.lookup p.1 = some p.2

theorem Has.nil (loc : Fields) : Has loc [] := fun _ h => absurd h List.not_mem_nil
theorem Has.cons {loc : Fields} {x : Ident} {v : Val} {ps : Fields} : Has loc ((x, v) :: ps) ↔ loc.lookup x = some v ∧ Has loc ps := by
  unfold Has; rw [List.forall_mem_cons]
theorem Has.set {loc ps : Fields} (hl : Has loc ps) (x : Ident) (v : Val) (hx : (ps.map (·.1)).contains x = false) : Has (M.bindKey loc x v) ps := by
  intro p hp
  rw [lookup_bindKey]
  have : (p.1 == x) = false := by
    rw [beq_eq_false_iff_ne]
    rintro rfl
    rw [List.contains_iff_mem.2 (List.mem_map_of_mem hp)] at hx
    exact Bool.noConfusion hx
  rw [this]
  exact hl p hp
theorem Has.put {loc ps : Fields} (hl : Has loc ps) (x : Ident) (v : Val) (hx : (ps.map (·.1)).contains x = false) :
    Has (M.bindKey loc x v) ((x, v) :: ps) := by
  rw [Has.cons]
  exact ⟨by rw [lookup_bindKey, beq_self_eq_true]; rfl, hl.set x v hx⟩

/-- Names that are not local. -/
def Free (loc : Fields) (xs : List Ident) : Prop := ∀ x ∈ xs, loc.lookup x = none
theorem Free.set {loc : Fields} {xs : List Ident} (hl : Free loc xs) (x : Ident) (v : Val) (hx : xs.contains x = false) : Free (M.bindKey loc x v) xs := by
  intro y hy
  rw [lookup_bindKey]
  have : (y == x) = false := by
    rw [beq_eq_false_iff_ne]
    rintro rfl
    rw [List.contains_iff_mem.2 hy] at hx
    exact Bool.noConfusion hx
  rw [this]
  exact hl y hy

/-- The names of the library and of the module that the conversion uses. -/
def libNames : List Ident := [n!"len", n!"float", n!"MSMT", n!"logger"]
theorem Free.lib {loc : Fields} (hl : Free loc libNames) :
    loc.lookup n!"len" = none ∧ loc.lookup n!"float" = none ∧ loc.lookup n!"MSMT" = none ∧ loc.lookup n!"logger" = none :=
  ⟨hl _ (by decide), hl _ (by decide), hl _ (by decide), hl _ (by decide)⟩

/-! ## Objects that do not change -/

/-- An object outside the tables. -/
def Addr.At (D : Addr) (a : Nat) (o : Obj) : Prop := a < D.B ∧ (∀ t, a ≠ D.A t) ∧ D.F[a]? = some o

variable {D : Addr} {h : Heap} {T : Tab → VTab}

theorem Addr.Frame.at (hf : D.Frame h) {a : Nat} {o : Obj} (ha : D.At a o) : h[a]? = some o := by
  rw [hf.2 a ha.1 ha.2.1, ha.2.2]

/-- The observables are at `r`. -/
def RvAt (D : Addr) (r : Nat) : Prop := ∃ (rf : Fields) (o : Nat) (of : Fields),
  D.At r (.inst n!"ObservablesMSM" rf) ∧ rf.lookup n!"obs" = some (.ref o) ∧ D.At o (.inst n!"_ObservablesObs" of) ∧
  ∀ t, of.lookup t.id = some (.ref (D.A t))

section
variable {n : Nat} {call : CallT} {loc : Fields} {r : Nat} (hr : RvAt D r) (hrv : loc.lookup n!"rv" = some (.ref r))
include hr hrv

theorem rv_tab (hf : D.Frame h) (t : Tab) : eval src call (.attr (.attr (.name n!"rv") n!"obs") t.id) ⟨loc, h⟩ = (.ok (.ref (D.A t)), ⟨loc, h⟩) := by
  obtain ⟨rf, o, of, h1, h2, h3, h4⟩ := hr
  pyexec [hrv, hf.at h1, h2, hf.at h3, h4]

/-- `rv.obs.table[sgn].update({sat: tmp})`. -/
theorem upd_sim (hi : D.Inv h T) (t : Tab) {s : String} {sat : Nat} {v : Val} (hs : loc.lookup n!"sgn" = some (.str s))
    (ha : loc.lookup n!"sat" = some (.int sat)) (hv : loc.lookup n!"tmp" = some v) :
    Sim (updIn (T t) s sat v)
      (execBlock src n call [.expr (.call (.attr (.index (.attr (.attr (.name n!"rv") n!"obs") t.id) (.name n!"sgn")) n!"update")
        [.dict [.name n!"sat"] [.name n!"tmp"]])] ⟨loc, h⟩)
      (fun d st => st.loc = loc ∧ D.Inv st.heap (Function.update T t d)) D.Frame := by
  have e1 := rv_tab (call := call) hr hrv hi.frame t
  have e2 : h[D.A t]? = some (.dict (encD .str (fun s _ => .ref (D.ad t s)) (T t))) := hi.out t
  unfold updIn
  rw [execBlock_cons, exec_expr, eval_call, eval_attr, eval_index, e1]
  cases hg : (T t).get? s with
  | none =>
    refine Sim.error (c := n!"KeyError") (st := ⟨loc, h⟩) ?_ catches_key hi.frame
    pyexec [e2, hs, hi.get t s, hg, Option.map_none]
  | some d =>
    obtain ⟨e3, hn, hm⟩ := hi.entry hg
    have e4 : (h ++ [Obj.dict [(.int sat, v)]])[D.ad t s]? = some (.dict (encD (fun x : Nat => .int x) (fun _ v => v) d)) := by
      rw [List.getElem?_append_left (getElem?_lt e3)]; exact e3
    have e3' : h[D.ad t s]? = some (.dict (encD (fun x : Nat => .int x) (fun _ v => v) d)) := e3
    have e5 : (h ++ [Obj.dict [(.int sat, v)]])[h.length]? = some (.dict [(.int sat, v)]) := append_getElem0 ..
    have e6 := encD_set (fun _ v => v) keyEnc_nat d hn sat v
    have hi' := (hi.app [Obj.dict [(.int sat, v)]]).upd hg sat v
    refine Sim.ok (st := ⟨loc, _⟩) ?_ ⟨rfl, hi'⟩
    pyexec [e2, hs, hi.get t s, hg, Option.map_some, e3', e4, e5, ha, hv, List.foldl_cons, List.foldl_nil, e6, inner]

/-- `rv.obs.table.update({sgn: {}})`. -/
theorem add_stmt (hi : D.Inv h T) (t : Tab) {s : String} (hs : loc.lookup n!"sgn" = some (.str s)) (hm : s ∈ D.sgns)
    (hk : s ∉ (T t).keys) (hl : h.length = D.ad t s) (rest : List Stmt) :
    ∃ h', execBlock src n call (.expr (.call (.attr (.attr (.attr (.name n!"rv") n!"obs") t.id) n!"update")
        [.dict [.name n!"sgn"] [.dict [] []]]) :: rest) ⟨loc, h⟩ = execBlock src n call rest ⟨loc, h'⟩ ∧
      D.Inv h' (Function.update T t ((T t).set s [])) ∧ h'.length = h.length + 2 := by
  have e1 := rv_tab (call := call) hr hrv hi.frame t
  have e2 : h[D.A t]? = some (.dict (encD .str (fun s _ => .ref (D.ad t s)) (T t))) := hi.out t
  have hi' := hi.add hm hk hl (.dict [(.str s, .ref h.length)])
  refine ⟨_, ?_, hi', by rw [List.length_set, List.length_append]; rfl⟩
  rw [execBlock_cons, exec_expr, eval_call, eval_attr, e1]
  have e3 : (h ++ [Obj.dict [], Obj.dict [(Val.str s, Val.ref h.length)]])[D.A t]? = some (.dict (encD .str (fun s _ => .ref (D.ad t s)) (T t))) := by
    rw [List.getElem?_append_left (getElem?_lt e2), e2]
  have e4 : (h ++ [Obj.dict [], Obj.dict [(Val.str s, Val.ref h.length)]])[h.length + 1]? = some (.dict [(Val.str s, Val.ref h.length)]) :=
    append_getElem ..
  pyexec [e2, hs, List.append_assoc, List.cons_append, List.nil_append, e3, e4, List.foldl_cons, List.foldl_nil]

/-- `if 0 == len(rv.obs.table[sgn]): del rv.obs.table[sgn]`. -/
theorem del_sim (hi : D.Inv h T) (t : Tab) {s : String} (hs : loc.lookup n!"sgn" = some (.str s)) (hl : loc.lookup n!"len" = none) :
    Sim (delEmpty1 (T t) s)
      (execBlock src n call [.ite (.cmp .eq (.const (.int 0)) (.call (.name n!"len") [.index (.attr (.attr (.name n!"rv") n!"obs") t.id) (.name n!"sgn")])) [
        .del (.attr (.attr (.name n!"rv") n!"obs") t.id) (.name n!"sgn")] []] ⟨loc, h⟩)
      (fun d st => st.loc = loc ∧ D.Inv st.heap (Function.update T t d)) D.Frame := by
  have e1 := rv_tab (call := call) hr hrv hi.frame t
  have e2 : h[D.A t]? = some (.dict (encD .str (fun s _ => .ref (D.ad t s)) (T t))) := hi.out t
  have e0 : src.globals.lookup n!"len" = some (.builtin n!"len") := rfl
  unfold delEmpty1
  cases hg : (T t).get? s with
  | none =>
    refine Sim.error (c := n!"KeyError") (st := ⟨loc, h⟩) ?_ catches_key hi.frame
    rw [execBlock_cons, exec_ite, eval_cmp, eval_const, M.seq_ok, M.bind_apply, eval_call, eval_name]
    pyexec [hl, e0, eval_index, e1, e2, hs, hi.get t s, hg, Option.map_none]
  | some d =>
    obtain ⟨e3, hn, hm⟩ := hi.entry hg
    have e3' : h[D.ad t s]? = some (.dict (encD (fun x : Nat => .int x) (fun _ v => v) d)) := e3
    have e4 : (encD (fun x : Nat => Val.int x) (fun _ v => v) d).length = d.length := by unfold encD; rw [List.length_map]
    by_cases hd : d.length = 0
    · refine Sim.ok (st := ⟨loc, h.set (D.A t) (.dict (dictDel (encD .str (fun s _ => .ref (D.ad t s)) (T t)) (.str s)))⟩) ?_
        ⟨rfl, by rw [if_pos hd]; exact hi.del t s⟩
      have h5 := hi.get t s
      rw [hg, Option.map_some] at h5
      have h6 := delEntry_some (r := D.A t) h5 loc h
      rw [hd] at e4
      pyexec [hl, e0, eval_index, e1, e2, hs, h5, h6, e3', e4, Nat.cast_zero]
    · refine Sim.ok (st := ⟨loc, h⟩) ?_ ⟨rfl, by rw [if_neg hd, Function.update_eq_self]; exact hi⟩
      have h7 : ((0 : Int) == (d.length : Int)) = false := by rw [beq_eq_false_iff_ne]; omega
      pyexec [hl, e0, eval_index, e1, e2, hs, hi.get t s, hg, Option.map_some, e3', e4, h7]
end

end Refine
end PyCore
end Verif
