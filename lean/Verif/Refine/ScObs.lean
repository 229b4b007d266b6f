import Verif.Refine.ScStmt

/-!
# The observables of the model as tables
-/

namespace Verif
namespace PyCore
namespace Refine
open Verif.Msm Verif.RtcmUtil

open Rounding (rnd)
variable [Rounding]

section
variable {κ α β : Type} [BEq κ] [LawfulBEq κ] [DecidableEq κ] (g : α → β)

/-- A dictionary with other values. -/
def mapD (d : PyDict κ α) : PyDict κ β := d.map (fun p => (p.1, g p.2))

theorem mapD_get (d : PyDict κ α) (k : κ) : (mapD g d).get? k = (d.get? k).map g := by
  induction d with
  | nil => rfl
  | cons p d ih =>
    obtain ⟨x, v⟩ := p
    show PyDict.get? ((x, g v) :: mapD g d) k = _
    rw [PyDict.get?_cons, PyDict.get?_cons, ih]
    split <;> rfl

theorem mapD_set (d : PyDict κ α) (k : κ) (v : α) : mapD g (d.set k v) = (mapD g d).set k (g v) := by
  unfold PyDict.set
  have : (mapD g d).mem k = d.mem k := by rw [PyDict.mem_eq, PyDict.mem_eq, mapD_get]; cases d.get? k <;> rfl
  rw [this]
  split
  · unfold mapD
    rw [List.map_map, List.map_map]
    apply List.map_congr_left
    intro p _
    simp only [Function.comp]
    split <;> rfl
  · unfold mapD; rw [List.map_append]; rfl

theorem mapD_filter (d : PyDict κ α) (q : κ → Bool) :
    mapD g (d.filter (fun p => q p.1)) = (mapD g d).filter (fun p => q p.1) := by
  unfold mapD; rw [List.filter_map]; rfl

theorem mapD_length (d : PyDict κ α) : (mapD g d).length = d.length := by unfold mapD; rw [List.length_map]
theorem mapD_keys (d : PyDict κ α) : (mapD g d).keys = d.keys := by unfold mapD PyDict.keys; rw [List.map_map]; rfl
end

/-- A table with encoded values. -/
def mapV {α : Type} (g : α → Val) (d : PyDict String (PyDict Nat α)) : VTab := mapD (mapD g) d

section
variable {α : Type} (g : α → Val) (d : PyDict String (PyDict Nat α))

theorem mapV_upd (s : String) (a : Nat) (v : α) : updIn (mapV g d) s a (g v) = mapV g <$> updIn d s a v := by
  unfold updIn
  rw [show (mapV g d).get? s = _ from mapD_get _ d s]
  cases d.get? s with
  | none => rfl
  | some e =>
    show Except.ok _ = Except.ok _
    rw [show mapV g (d.set s (e.set a v)) = _ from mapD_set _ d s _, mapD_set]
    rfl

theorem mapV_del (s : String) : delEmpty1 (mapV g d) s = mapV g <$> delEmpty1 d s := by
  unfold delEmpty1
  rw [show (mapV g d).get? s = _ from mapD_get _ d s]
  cases d.get? s with
  | none => rfl
  | some e =>
    show Except.ok _ = Except.ok _
    rw [mapD_length]
    split
    · exact congrArg _ (mapD_filter _ d (fun k => k != s)).symm
    · rfl

theorem mapV_add (s : String) : mapV g (d.set s []) = (mapV g d).set s [] := mapD_set _ d s []
end

/-- The tables of the observables: numbers as `float`, lock times as `int`, indicators as `bool`. -/
def obsV (o : Obs) : Tab → VTab
  | .rng => mapV .flt o.rng
  | .phs => mapV .flt o.phs
  | .ltm => mapV (fun x : Nat => .int x) o.ltm
  | .hca => mapV .bool o.hca
  | .dpl => mapV .flt o.dpl
  | .c2n => mapV .flt o.c2n

section
variable (o : Obs)
theorem obsV_rng (d) : Function.update (obsV o) .rng (mapV .flt d) = obsV { o with rng := d } := by
  funext t; cases t <;> simp only [Function.update_self, ne_eq, reduceCtorEq, not_false_eq_true, Function.update_of_ne] <;> rfl
theorem obsV_phs (d) : Function.update (obsV o) .phs (mapV .flt d) = obsV { o with phs := d } := by
  funext t; cases t <;> simp only [Function.update_self, ne_eq, reduceCtorEq, not_false_eq_true, Function.update_of_ne] <;> rfl
theorem obsV_ltm (d) : Function.update (obsV o) .ltm (mapV (fun x : Nat => .int x) d) = obsV { o with ltm := d } := by
  funext t; cases t <;> simp only [Function.update_self, ne_eq, reduceCtorEq, not_false_eq_true, Function.update_of_ne] <;> rfl
theorem obsV_hca (d) : Function.update (obsV o) .hca (mapV .bool d) = obsV { o with hca := d } := by
  funext t; cases t <;> simp only [Function.update_self, ne_eq, reduceCtorEq, not_false_eq_true, Function.update_of_ne] <;> rfl
theorem obsV_dpl (d) : Function.update (obsV o) .dpl (mapV .flt d) = obsV { o with dpl := d } := by
  funext t; cases t <;> simp only [Function.update_self, ne_eq, reduceCtorEq, not_false_eq_true, Function.update_of_ne] <;> rfl
theorem obsV_c2n (d) : Function.update (obsV o) .c2n (mapV .flt d) = obsV { o with c2n := d } := by
  funext t; cases t <;> simp only [Function.update_self, ne_eq, reduceCtorEq, not_false_eq_true, Function.update_of_ne] <;> rfl
end

/-! ## The steps of the loops -/

/-- A value that is written if it was transmitted and is valid. -/
def stepOpt (ok : Bool) (fs : List Int) (j : Nat) (chk : Int → Bool) (val : Int → Rat) (d : PyDict String (PyDict Nat Rat)) (s : String) (a : Nat) :
    Py (PyDict String (PyDict Nat Rat)) :=
  if ok then tupAt fs j >>= fun f => if chk f then updIn d s a (val f) else .ok d else .ok d

theorem stepOpt_bind {γ : Type} (ok : Bool) (fs : List Int) (j : Nat) (chk : Int → Bool) (val : Int → Rat) (d : PyDict String (PyDict Nat Rat))
    (s : String) (a : Nat) (k : PyDict String (PyDict Nat Rat) → Py γ) : stepOpt ok fs j chk val d s a >>= k =
    if ok then tupAt fs j >>= fun f => if chk f then updIn d s a (val f) >>= k else k d else k d := by
  unfold stepOpt
  cases ok with
  | false => rfl
  | true =>
    rw [if_pos rfl, if_pos rfl]
    cases tupAt fs j with
    | error _ => rfl
    | ok f =>
      show (if chk f then _ else _) >>= k = if chk f then _ else _
      cases chk f <;> rfl

/-- `body47` as steps. -/
theorem body47_steps (b : Bare4567) (sc : Scalers) (sgns : List String) (sat : Nat) (rok : Bool) (rng : Rat) (pok : Bool) (pr : Rat) (i : Nat)
    (e : Bool) (j : Nat) (o : Obs) : body47R rnd b sc sgns sat rok rng pok pr i e (j, o) =
    (tupAt sgns i >>= fun s => if e = false then .ok (j, o) else
      stepOpt rok b.sgn.rng_fine j sc.okRng (fun f => rnd (rnd (rng + rnd (rnd (f : Rat) * sc.rng)) * crngR rnd)) o.rng s sat >>= fun d1 =>
      stepOpt rok b.sgn.phase_fine j sc.okPhs (fun f => rnd (rnd (rng + rnd (rnd (f : Rat) * sc.phs)) * crngR rnd)) o.phs s sat >>= fun d2 =>
      stepOpt pok b.sgn.phase_rate_fine j sc.okDpl (fun f => rnd (pr + rnd (rnd (f : Rat) * sc.dpl))) o.dpl s sat >>= fun d3 =>
      (tupAt b.sgn.lock_time j >>= fun t => updIn o.ltm s sat (sc.ltm t)) >>= fun d4 =>
      (tupAt b.sgn.c2n j >>= fun c => updIn o.c2n s sat (rnd (rnd (c : Rat) * sc.c2n))) >>= fun d5 =>
      (tupAt b.sgn.hc_indc j >>= fun x => updIn o.hca s sat (x != 0)) >>= fun d6 =>
      .ok (j + 1, { rng := d1, phs := d2, dpl := d3, ltm := d4, c2n := d5, hca := d6 })) := by
  simp only [stepOpt_bind, bind_assoc]
  cases e <;> rfl

end Refine
end PyCore
end Verif
