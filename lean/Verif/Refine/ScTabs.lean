import Verif.Refine.Sc47Call

/-! # Making and removing the tables of signals, sub_decoders/RTCM_MSM.py:458-465, 570-583, 590-595, 660-669 -/

namespace Verif
namespace PyCore
namespace Refine
open Verif.Msm Verif.RtcmUtil

open Rounding (rnd)
variable [Rounding]

def delStmt (t : Tab) : Stmt :=
  .ite (.cmp .eq (.const (.int 0)) (.call (.name n!"len") [.index (.attr (.attr (.name n!"rv") n!"obs") t.id) (.name n!"sgn")])) [
        .del (.attr (.attr (.name n!"rv") n!"obs") t.id) (.name n!"sgn")] []
def addStmt (t : Tab) : Stmt :=
  .expr (.call (.attr (.attr (.attr (.name n!"rv") n!"obs") t.id) n!"update") [.dict [.name n!"sgn"] [.dict [] []]])

section
variable {D : Addr} {h : Heap} {T : Tab → VTab} {n : Nat} {call : CallT} {loc : Fields} {r : Nat} {s : String} {α : Type} {g : α → Val}
  {d : PyDict String (PyDict Nat α)}

theorem del_tab (hr : RvAt D r) (hrv : loc.lookup n!"rv" = some (.ref r)) (hs : loc.lookup n!"sgn" = some (.str s)) (hl : loc.lookup n!"len" = none)
    (hi : D.Inv h T) (t : Tab) (hT : T t = mapV g d) :
    Sim (delEmpty1 d s) (execBlock src n call [delStmt t] ⟨loc, h⟩)
      (fun d st => st.loc = loc ∧ D.Inv st.heap (Function.update T t (mapV g d))) D.Frame := by
  have := del_sim (n := n) (call := call) hr hrv hi t hs hl
  rw [hT, mapV_del] at this
  exact this.map
end

/-- `D.sgns` in order from address `L`; one signal takes `w` addresses and a table its own two. -/
structure Lay (D : Addr) (L w : Nat) (off : Tab → Nat) : Prop where
  nodup : D.sgns.Nodup
  ad : ∀ pre s post, D.sgns = pre ++ s :: post → ∀ t, D.ad t s = L + w * pre.length + off t

section
variable {D : Addr} {h : Heap} {o : Obs} {n : Nat} {call : CallT} {loc : Fields} {r : Nat} {s : String}

theorem del47_sim (hr : RvAt D r) (hrv : loc.lookup n!"rv" = some (.ref r)) (hs : loc.lookup n!"sgn" = some (.str s)) (hl : loc.lookup n!"len" = none)
    (hi : D.Inv h (obsV o)) :
    Sim (del47 o s) (execBlock src n call [delStmt .dpl, delStmt .rng, delStmt .c2n, delStmt .phs, delStmt .ltm, delStmt .hca] ⟨loc, h⟩)
      (fun o st => st.loc = loc ∧ D.Inv st.heap (obsV o)) D.Frame := by
  unfold del47
  refine Sim.bind (a := [delStmt .dpl]) (b := [delStmt .rng, delStmt .c2n, delStmt .phs, delStmt .ltm, delStmt .hca])
    (del_tab (g := .flt) (d := o.dpl) hr hrv hs hl hi .dpl rfl) ?_
  rintro d1 ⟨_, h⟩ ⟨hl1, hi⟩
  dsimp only at hl1 hi
  subst hl1
  rw [obsV_dpl] at hi
  refine Sim.bind (a := [delStmt .rng]) (b := [delStmt .c2n, delStmt .phs, delStmt .ltm, delStmt .hca])
    (del_tab (g := .flt) (d := o.rng) hr hrv hs hl hi .rng rfl) ?_
  rintro d2 ⟨_, h⟩ ⟨hl2, hi⟩
  dsimp only at hl2 hi
  subst hl2
  rw [obsV_rng] at hi
  refine Sim.bind (a := [delStmt .c2n]) (b := [delStmt .phs, delStmt .ltm, delStmt .hca])
    (del_tab (g := .flt) (d := o.c2n) hr hrv hs hl hi .c2n rfl) ?_
  rintro d3 ⟨_, h⟩ ⟨hl3, hi⟩
  dsimp only at hl3 hi
  subst hl3
  rw [obsV_c2n] at hi
  refine Sim.bind (a := [delStmt .phs]) (b := [delStmt .ltm, delStmt .hca])
    (del_tab (g := .flt) (d := o.phs) hr hrv hs hl hi .phs rfl) ?_
  rintro d4 ⟨_, h⟩ ⟨hl4, hi⟩
  dsimp only at hl4 hi
  subst hl4
  rw [obsV_phs] at hi
  refine Sim.bind (a := [delStmt .ltm]) (b := [delStmt .hca])
    (del_tab (g := (fun x : Nat => .int x)) (d := o.ltm) hr hrv hs hl hi .ltm rfl) ?_
  rintro d5 ⟨_, h⟩ ⟨hl5, hi⟩
  dsimp only at hl5 hi
  subst hl5
  rw [obsV_ltm] at hi
  refine Sim.bind (a := [delStmt .hca]) (b := [])
    (del_tab (g := .bool) (d := o.hca) hr hrv hs hl hi .hca rfl) ?_
  rintro d6 ⟨_, h⟩ ⟨hl6, hi⟩
  dsimp only at hl6 hi
  subst hl6
  rw [obsV_hca] at hi
  refine Sim.ok (st := ⟨_, h⟩) ?_ ⟨rfl, hi⟩
  pyexec

section
variable (o : Obs) (s : String)
theorem obsV_add_rng : Function.update (obsV o) .rng ((obsV o .rng).set s []) = obsV { o with rng := o.rng.set s [] } := by
  rw [show obsV o .rng = mapV .flt o.rng from rfl, ← mapV_add, obsV_rng]
theorem obsV_add_c2n : Function.update (obsV o) .c2n ((obsV o .c2n).set s []) = obsV { o with c2n := o.c2n.set s [] } := by
  rw [show obsV o .c2n = mapV .flt o.c2n from rfl, ← mapV_add, obsV_c2n]
theorem obsV_add_dpl : Function.update (obsV o) .dpl ((obsV o .dpl).set s []) = obsV { o with dpl := o.dpl.set s [] } := by
  rw [show obsV o .dpl = mapV .flt o.dpl from rfl, ← mapV_add, obsV_dpl]
theorem obsV_add_phs : Function.update (obsV o) .phs ((obsV o .phs).set s []) = obsV { o with phs := o.phs.set s [] } := by
  rw [show obsV o .phs = mapV .flt o.phs from rfl, ← mapV_add, obsV_phs]
theorem obsV_add_ltm : Function.update (obsV o) .ltm ((obsV o .ltm).set s []) = obsV { o with ltm := o.ltm.set s [] } := by
  rw [show obsV o .ltm = mapV (fun x : Nat => .int x) o.ltm from rfl, ← mapV_add, obsV_ltm]
theorem obsV_add_hca : Function.update (obsV o) .hca ((obsV o .hca).set s []) = obsV { o with hca := o.hca.set s [] } := by
  rw [show obsV o .hca = mapV .bool o.hca from rfl, ← mapV_add, obsV_hca]
end

/-- Empty tables for one more signal. -/
def new47 (o : Obs) (s : String) : Obs :=
  { rng := o.rng.set s []
    c2n := o.c2n.set s []
    dpl := o.dpl.set s []
    phs := o.phs.set s []
    ltm := o.ltm.set s []
    hca := o.hca.set s [] }

theorem new47_all (l : List String) (o : Obs) : l.foldl new47 o =
    { rng := addEmpty o.rng l
      c2n := addEmpty o.c2n l
      dpl := addEmpty o.dpl l
      phs := addEmpty o.phs l
      ltm := addEmpty o.ltm l
      hca := addEmpty o.hca l } := by
  induction l generalizing o with
  | nil => rfl
  | cons a l ih => rw [List.foldl_cons, ih]; rfl

theorem keys_new {α : Type} {d : PyDict String α} {k : String} {v : α} (h : k ∉ d.keys) : (d.set k v).keys = d.keys ++ [k] := by
  rw [PyDict.keys_set, if_neg]
  rw [PyDict.mem_eq, PyDict.get?_isSome_iff]; exact h

def off47 : Tab → Nat
  | .rng => 0
  | .c2n => 2
  | .dpl => 4
  | .phs => 6
  | .ltm => 8
  | .hca => 10

/-- What holds before the tables of `s` are made. -/
def Made (D : Addr) (L w : Nat) (ts : List Tab) (pre : List String) (o : Obs) (h : Heap) : Prop :=
  D.Inv h (obsV o) ∧ (∀ t ∈ ts, (obsV o t).keys = pre) ∧ h.length = L + w * pre.length

theorem upd_ne {T : Tab → VTab} {t t' : Tab} {d : VTab} (h : t' ≠ t) : Function.update T t d t' = T t' := Function.update_of_ne h _ _

theorem new47_sim (hr : RvAt D r) (hrv : loc.lookup n!"rv" = some (.ref r)) (hs : loc.lookup n!"sgn" = some (.str s)) {L : Nat}
    (hD : Lay D L 12 off47) {pre post : List String} (hp : D.sgns = pre ++ s :: post) (hm : Made D L 12 [.rng, .c2n, .dpl, .phs, .ltm, .hca] pre o h) :
    Sim (.ok (new47 o s)) (execBlock src n call [addStmt .rng, addStmt .c2n, addStmt .dpl, addStmt .phs, addStmt .ltm, addStmt .hca] ⟨loc, h⟩)
      (fun o st => st.loc = loc ∧ Made D L 12 [.rng, .c2n, .dpl, .phs, .ltm, .hca] (pre ++ [s]) o st.heap) D.Frame := by
  obtain ⟨hi, hk, hl⟩ := hm
  have hsm : s ∈ D.sgns := by rw [hp]; exact List.mem_append_right _ List.mem_cons_self
  have hns : s ∉ pre := by
    have := hD.nodup
    rw [hp, List.nodup_append] at this
    exact fun h => this.2.2 s h s List.mem_cons_self rfl
  have had := hD.ad pre s post hp
  have hk' : ∀ t ∈ [Tab.rng, .c2n, .dpl, .phs, .ltm, .hca], s ∉ (obsV o t).keys := fun t ht => by rw [hk t ht]; exact hns
  obtain ⟨h1, e1, i1, n1⟩ := add_stmt (n := n) (call := call) hr hrv hi .rng hs hsm (hk' _ (by decide)) (by rw [had, hl]; rfl)
    [addStmt .c2n, addStmt .dpl, addStmt .phs, addStmt .ltm, addStmt .hca]
  rw [obsV_add_rng] at i1
  obtain ⟨h2, e2, i2, n2⟩ := add_stmt (n := n) (call := call) hr hrv i1 .c2n hs hsm (hk' .c2n (by decide)) (by rw [had, n1, hl]; rfl)
    [addStmt .dpl, addStmt .phs, addStmt .ltm, addStmt .hca]
  rw [obsV_add_c2n] at i2
  obtain ⟨h3, e3, i3, n3⟩ := add_stmt (n := n) (call := call) hr hrv i2 .dpl hs hsm (hk' .dpl (by decide)) (by rw [had, n2, n1, hl]; rfl)
    [addStmt .phs, addStmt .ltm, addStmt .hca]
  rw [obsV_add_dpl] at i3
  obtain ⟨h4, e4, i4, n4⟩ := add_stmt (n := n) (call := call) hr hrv i3 .phs hs hsm (hk' .phs (by decide)) (by rw [had, n3, n2, n1, hl]; rfl)
    [addStmt .ltm, addStmt .hca]
  rw [obsV_add_phs] at i4
  obtain ⟨h5, e5, i5, n5⟩ := add_stmt (n := n) (call := call) hr hrv i4 .ltm hs hsm (hk' .ltm (by decide)) (by rw [had, n4, n3, n2, n1, hl]; rfl)
    [addStmt .hca]
  rw [obsV_add_ltm] at i5
  obtain ⟨h6, e6, i6, n6⟩ := add_stmt (n := n) (call := call) hr hrv i5 .hca hs hsm (hk' .hca (by decide)) (by rw [had, n5, n4, n3, n2, n1, hl]; rfl)
    []
  rw [obsV_add_hca] at i6
  refine Sim.ok (st := ⟨loc, h6⟩) ?_ ⟨rfl, i6, ?_, ?_⟩
  · refine e1.trans (e2.trans (e3.trans (e4.trans (e5.trans (e6.trans ?_)))))
    pyexec
  · intro t ht
    rw [← hk t ht]
    cases t
    all_goals
      refine ((mapD_keys ..).trans (keys_new ?_)).trans (congrArg (· ++ [s]) (mapD_keys ..).symm)
      exact fun hx => hk' _ ht (Eq.mpr (congrArg (s ∈ ·) (mapD_keys ..)) hx)
  · rw [n6, n5, n4, n3, n2, n1, hl, List.length_append]; rw [List.length_singleton]; omega
end

end Refine
end PyCore
end Verif
