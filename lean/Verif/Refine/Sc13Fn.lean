import Verif.Refine.Sc13

/-! # The call of `Bare2Scaled._convert_obs13`, sub_decoders/RTCM_MSM.py:585-669 -/

namespace Verif
namespace PyCore
namespace Refine
open Verif.Msm Verif.RtcmUtil

open Rounding (rnd)
variable [Rounding]

theorem sat13_steps (m : Bare123) (sc : Scalers) (sats : List Nat) (sgns : List String) (k j : Nat) (o : Obs) (sl : Nat) :
    sat13R rnd m sc sats sgns (k, j, o) sl =
    ((tupAt sats k >>= fun sat => tupAt m.sat.rng_rough k >>= fun r => .ok (sat, r)) >>= fun x =>
      whileSlots (body13R rnd m sc sgns x.1 (rnd (rnd (x.2 : Rat) / 1024)) (m.atr.is_msm1 || m.atr.is_msm3)) sl 0 (m.atr.is_msm2 || m.atr.is_msm3, j, o) >>= fun y =>
      .ok (k + 1, y.2.1, y.2.2)) := by
  unfold sat13R
  dsimp only
  cases tupAt sats k with
  | error e => rfl
  | ok sat => cases tupAt m.sat.rng_rough k <;> rfl

section
variable {D : Addr} {C : C13} {loc : Fields} {h : Heap} {o : Obs} {k j sl : Nat} {n N : Nat}

/-- Locals between satellites. -/
def S13 (C : C13) (k j : Nat) (loc : Fields) : Prop := Has loc ((n!"sgn_idx", .int j) :: (n!"sat_idx", .int k) :: C.base) ∧ Free loc libNames

theorem sat13_sim (hC : C.Ok D) (hn : sl < n) (hi : D.Inv h (obsV o)) (hL : S13 C k j loc) :
    Sim (sat13R rnd C.m (scalersR rnd SCALERS45) C.sats C.sgns (k, j, o) sl) (execBlock src n (callFn src (N + 1)) forBody13 ⟨M.bindKey loc n!"slots" (.int sl), h⟩)
      (fun x st => S13 C x.1 x.2.1 st.loc ∧ D.Inv st.heap (obsV x.2.2)) D.Frame := by
  rw [sat13_steps]
  obtain ⟨hH, hF⟩ := hL
  have hH := hH.put n!"slots" (.int sl) rfl
  have hF := hF.set n!"slots" (.int sl) rfl
  generalize M.bindKey loc n!"slots" (.int sl) = loc at hH hF
  refine Sim.bind (a := forBody13.take 4) (b := forBody13.drop 4) (P := fun (x : Nat × Nat) st => Has st.loc (
    (n!"ph_ok", .bool (C.m.atr.is_msm2 || C.m.atr.is_msm3)) :: (n!"rng_ok", .bool (C.m.atr.is_msm1 || C.m.atr.is_msm3)) ::
    (n!"rng", .flt (rnd (rnd (x.2 : Rat) / 1024))) :: (n!"sat", .int x.1) :: (n!"slots", .int sl) :: (n!"sgn_idx", .int j) :: (n!"sat_idx", .int k) :: C.base) ∧
    Free st.loc libNames ∧ D.Inv st.heap (obsV o)) ?_ ?_
  · have hL' := hH
    simp only [C13.base, Has.cons] at hL'
    obtain ⟨l1, l2, l3, l4, l5, l6, l7, -⟩ := hL'
    obtain ⟨g1, g2, g3, g4⟩ := hF.lib
    have e0 : (sat13F C.m.sat).lookup n!"rng_rough" = some (natTup C.m.sat.rng_rough) := rfl
    have q1 := is_msm1_src N C.aA h C.m.atr (hi.frame.at hC.atr)
    have q2 := is_msm2_src N C.aA h C.m.atr (hi.frame.at hC.atr)
    have q3 := is_msm3_src N C.aA h C.m.atr (hi.frame.at hC.atr)
    have f1 : (atrF C.m.atr).lookup n!"is_msm1" = none := rfl
    have f2 : (atrF C.m.atr).lookup n!"is_msm2" = none := rfl
    have f3 : (atrF C.m.atr).lookup n!"is_msm3" = none := rfl
    simp only [forBody13, Src.fn_Bare2Scaled_convert_obs13, List.getElem?_cons_succ, List.getElem?_cons_zero, List.take_succ_cons, List.take_zero]
    cases hv : tupAt C.sats k with
    | error e =>
      refine Sim.error (c := n!"IndexError") (st := ⟨loc, h⟩) ?_ catches_index hi.frame
      pyexec [l4, hi.frame.at hC.self, l3, index_natTup, tupAt_err hv, Option.map_none]
    | ok sat =>
      cases hm : tupAt C.m.sat.rng_rough k with
      | error e =>
        refine Sim.error (c := n!"IndexError") (st := ⟨M.bindKey loc n!"sat" (.int sat), h⟩) ?_
          catches_index hi.frame
        pyexec [l4, hi.frame.at hC.self, l3, index_natTup, tupAt_ok hv, Option.map_some, l5, hi.frame.at hC.bd, hi.frame.at hC.sat, e0, lookup_bindKey,
          tupAt_err hm, Option.map_none, g2]
      | ok ms =>
        refine Sim.ok (st := ⟨M.bindKey (M.bindKey (M.bindKey (M.bindKey loc n!"sat" (.int sat)) n!"rng" (.flt (rnd (rnd (ms : Rat) / 1024)))) n!"rng_ok"
          (.bool (C.m.atr.is_msm1 || C.m.atr.is_msm3))) n!"ph_ok" (.bool (C.m.atr.is_msm2 || C.m.atr.is_msm3)), h⟩) ?_ ⟨?_, ?_, hi⟩
        · have e3 : rnd (mkRat 1024 1) = 1024 := Rounding.k1024
          have e4 := div_ff ⟨M.bindKey loc n!"sat" (.int sat), h⟩ (rnd (ms : Rat)) (1024 : Rat) (by norm_num)
          cases h1 : C.m.atr.is_msm1
          all_goals
            rw [h1] at q1
            cases h2 : C.m.atr.is_msm2
          all_goals
            rw [h2] at q2
            pyexec [l4, hi.frame.at hC.self, l3, index_natTup, tupAt_ok hv, Option.map_some, l5, hi.frame.at hC.bd, hi.frame.at hC.sat, e0, lookup_bindKey,
              tupAt_ok hm, g2, e3, e4, hi.frame.at hC.atr, f1, f2, f3, q1, q2, q3, Bool.true_or, Bool.false_or, Int.cast_natCast]
        · exact (((hH.put n!"sat" (.int sat) rfl).put n!"rng" (.flt (rnd (rnd (ms : Rat) / 1024))) rfl).put n!"rng_ok" (.bool (C.m.atr.is_msm1 || C.m.atr.is_msm3)) rfl).put
            n!"ph_ok" (.bool (C.m.atr.is_msm2 || C.m.atr.is_msm3)) rfl
        · exact (((hF.set _ _ rfl).set _ _ rfl).set _ _ rfl).set _ _ rfl
  rintro ⟨sat, ro⟩ ⟨loc, h⟩ ⟨hH, hF, hi⟩
  dsimp only at hH hF hi ⊢
  let R : R13 := ⟨k, sat, rnd (rnd (ro : Rat) / 1024), C.m.atr.is_msm1 || C.m.atr.is_msm3⟩
  refine Sim.bind (a := (forBody13.drop 4).take 2) (b := forBody13.drop 6) (P := fun x st => S13 C k x.2.1 st.loc ∧ D.Inv st.heap (obsV x.2.2)) ?_ ?_
  · have hA : At13 C R (C.m.atr.is_msm2 || C.m.atr.is_msm3) j 0 sl (M.bindKey loc n!"i" (.int (0 : Nat))) := by
      refine ⟨?_, hF.set _ _ rfl⟩
      have hL' := hH
      simp only [C13.base, Has.cons] at hL'
      obtain ⟨l1, l2, l3, l4, l5, l6, l7, l8, l9, l10, l11, -⟩ := hL'
      simp only [W13, C13.base, Has.cons, lookup_bindKey, ident_beq, Nat.reduceBEq, Bool.false_eq_true, if_false, if_true, l1, l2, l3, l4, l5, l6, l7, l8, l9, l10,
        l11, true_and, Has.nil, R]
    have hw := while_sim (n := n) (call := callFn src (N + 1)) (fr := D.Frame) (B := whileBody13)
      (body := body13R rnd C.m (scalersR rnd SCALERS45) C.sgns sat (rnd (rnd (ro : Rat) / 1024)) (C.m.atr.is_msm1 || C.m.atr.is_msm3))
      (P := fun x i sl st => At13 C R x.1 x.2.1 i sl st.loc ∧ D.Inv st.heap (obsV x.2.2))
      (fun x i sl st hp => by
        have := hp.1.1
        simp only [W13, Has.cons] at this
        exact this.2.2.2.1)
      (fun x i sl st hp => by
        obtain ⟨x1, x2, x3⟩ := x
        have hr := round13 (n := n) (N := N) (R := R) hC hp.2 hp.1
        change (match body13R rnd C.m (scalersR rnd SCALERS45) C.sgns sat (rnd (rnd (ro : Rat) / 1024)) (C.m.atr.is_msm1 || C.m.atr.is_msm3) i (sl &&& 1 != 0) (x1, x2, x3) with
          | .ok x => _
          | .error _ => _) at hr
        cases hb : body13R rnd C.m (scalersR rnd SCALERS45) C.sgns sat (rnd (rnd (ro : Rat) / 1024)) (C.m.atr.is_msm1 || C.m.atr.is_msm3) i (sl &&& 1 != 0) (x1, x2, x3) with
        | ok y => rw [hb] at hr; exact hr
        | error e => rw [hb] at hr; exact hr)
      n sl 0 (C.m.atr.is_msm2 || C.m.atr.is_msm3, j, o) ⟨_, h⟩ hn ⟨hA, hi⟩
    have he : (forBody13.drop 4).take 2 = [.assign (.name n!"i") (.const (.int 0)), .while (.name n!"slots") whileBody13 []] := rfl
    rw [he, block_assign (v := .int (0 : Nat)) (loc := loc) (h := h) (by pyexec; rfl), execBlock_cons, seq_after_nil, exec_while]
    refine hw.imp ?_
    rintro ⟨x1, x2, x3⟩ ⟨loc, h⟩ ⟨i, ⟨hq, hf⟩, hi⟩
    refine ⟨⟨?_, hf⟩, hi⟩
    simp only [W13, C13.base, Has.cons, R] at hq
    obtain ⟨l1, l2, l3, l4, l5, l6, l7, l8, l9, l10, l11, l12, -⟩ := hq
    simp only [C13.base, Has.cons, l2, l5, l9, l10, l11, l12, true_and, Has.nil]
  rintro ⟨p', j', o'⟩ ⟨loc, h⟩ ⟨⟨hH, hF⟩, hi⟩
  dsimp only at hH hF hi ⊢
  simp only [C13.base, Has.cons] at hH
  obtain ⟨l1, l2, l3, l4, l5, l6, -⟩ := hH
  refine Sim.ok (st := ⟨M.bindKey loc n!"sat_idx" (.int (k + 1 : Nat)), h⟩) ?_ ⟨⟨?_, hF.set _ _ rfl⟩, hi⟩
  · have e2 : (k : Int) + (1 : Int) = ((k + 1 : Nat) : Int) := rfl
    simp only [forBody13, Src.fn_Bare2Scaled_convert_obs13, List.getElem?_cons_succ, List.getElem?_cons_zero, List.drop_succ_cons, List.drop_zero]
    pyexec [l2, e2]
  · simp only [C13.base, Has.cons, lookup_bindKey, ident_beq, Nat.reduceBEq, Bool.false_eq_true, if_false, if_true,
      l1, l3, l4, l5, l6, true_and, Has.nil]
end

section
variable {D : Addr} {h : Heap} {o : Obs} {n : Nat} {call : CallT} {loc : Fields} {r : Nat} {s : String}

theorem del13_sim (hr : RvAt D r) (hrv : loc.lookup n!"rv" = some (.ref r)) (hs : loc.lookup n!"sgn" = some (.str s)) (hl : loc.lookup n!"len" = none)
    (hi : D.Inv h (obsV o)) :
    Sim (del13 o s) (execBlock src n call [delStmt .rng, delStmt .phs, delStmt .ltm, delStmt .hca] ⟨loc, h⟩)
      (fun o st => st.loc = loc ∧ D.Inv st.heap (obsV o)) D.Frame := by
  unfold del13
  refine Sim.bind (a := [delStmt .rng]) (b := [delStmt .phs, delStmt .ltm, delStmt .hca])
    (del_tab (g := .flt) (d := o.rng) hr hrv hs hl hi .rng rfl) ?_
  rintro d2 ⟨_, h⟩ ⟨hl2, hi⟩
  dsimp only at hl2 hi
  subst hl2
  rw [obsV_rng] at hi
  refine Sim.bind (a := [delStmt .phs]) (b := [delStmt .ltm, delStmt .hca])
    (del_tab (g := .flt) (d := o.phs) hr hrv hs hl hi .phs rfl) ?_
  rintro d4 ⟨_, h⟩ ⟨hl4, hi⟩
  dsimp only at hl4 hi
  subst hl4
  rw [obsV_phs] at hi
  refine Sim.bind (a := [delStmt .ltm]) (b := [delStmt .hca])
    (del_tab (g := (fun x : Nat => .int x)) (d := o.ltm) hr hrv hs hl hi .ltm rfl) ?_
  rintro d5 ⟨_, h⟩ ⟨hl5, hi⟩
  dsimp only at hl5 hi
  subst hl5
  rw [obsV_ltm] at hi
  refine Sim.bind (a := [delStmt .hca]) (b := [])
    (del_tab (g := .bool) (d := o.hca) hr hrv hs hl hi .hca rfl) ?_
  rintro d6 ⟨_, h⟩ ⟨hl6, hi⟩
  dsimp only at hl6 hi
  subst hl6
  rw [obsV_hca] at hi
  refine Sim.ok (st := ⟨_, h⟩) ?_ ⟨rfl, hi⟩
  pyexec

/-- Empty tables for one more signal. -/
def new13 (o : Obs) (s : String) : Obs :=
  { o with
    rng := o.rng.set s []
    phs := o.phs.set s []
    ltm := o.ltm.set s []
    hca := o.hca.set s [] }

theorem new13_all (l : List String) (o : Obs) : l.foldl new13 o =
    { o with
      rng := addEmpty o.rng l
      phs := addEmpty o.phs l
      ltm := addEmpty o.ltm l
      hca := addEmpty o.hca l } := by
  induction l generalizing o with
  | nil => rfl
  | cons a l ih => rw [List.foldl_cons, ih]; rfl

def off13 : Tab → Nat
  | .rng => 0
  | .phs => 2
  | .ltm => 4
  | .hca => 6
  | .dpl => 1
  | .c2n => 3

theorem new13_sim (hr : RvAt D r) (hrv : loc.lookup n!"rv" = some (.ref r)) (hs : loc.lookup n!"sgn" = some (.str s)) {L : Nat}
    (hD : Lay D L 8 off13) {pre post : List String} (hp : D.sgns = pre ++ s :: post) (hm : Made D L 8 [.rng, .phs, .ltm, .hca] pre o h) :
    Sim (.ok (new13 o s)) (execBlock src n call [addStmt .rng, addStmt .phs, addStmt .ltm, addStmt .hca] ⟨loc, h⟩)
      (fun o st => st.loc = loc ∧ Made D L 8 [.rng, .phs, .ltm, .hca] (pre ++ [s]) o st.heap) D.Frame := by
  obtain ⟨hi, hk, hl⟩ := hm
  have hsm : s ∈ D.sgns := by rw [hp]; exact List.mem_append_right _ List.mem_cons_self
  have hns : s ∉ pre := by
    have := hD.nodup
    rw [hp, List.nodup_append] at this
    exact fun h => this.2.2 s h s List.mem_cons_self rfl
  have had := hD.ad pre s post hp
  have hk' : ∀ t ∈ [Tab.rng, .phs, .ltm, .hca], s ∉ (obsV o t).keys := fun t ht => by rw [hk t ht]; exact hns
  obtain ⟨h1, e1, i1, n1⟩ := add_stmt (n := n) (call := call) hr hrv hi .rng hs hsm (hk' _ (by decide)) (by rw [had, hl]; rfl)
    [addStmt .phs, addStmt .ltm, addStmt .hca]
  rw [obsV_add_rng] at i1
  obtain ⟨h4, e4, i4, n4⟩ := add_stmt (n := n) (call := call) hr hrv i1 .phs hs hsm (hk' .phs (by decide)) (by rw [had, n1, hl]; rfl)
    [addStmt .ltm, addStmt .hca]
  rw [obsV_add_phs] at i4
  obtain ⟨h5, e5, i5, n5⟩ := add_stmt (n := n) (call := call) hr hrv i4 .ltm hs hsm (hk' .ltm (by decide)) (by rw [had, n4, n1, hl]; rfl)
    [addStmt .hca]
  rw [obsV_add_ltm] at i5
  obtain ⟨h6, e6, i6, n6⟩ := add_stmt (n := n) (call := call) hr hrv i5 .hca hs hsm (hk' .hca (by decide)) (by rw [had, n5, n4, n1, hl]; rfl)
    []
  rw [obsV_add_hca] at i6
  refine Sim.ok (st := ⟨loc, h6⟩) ?_ ⟨rfl, i6, ?_, ?_⟩
  · refine e1.trans (e4.trans (e5.trans (e6.trans ?_)))
    pyexec
  · intro t ht
    rw [← hk t ht]
    cases t
    all_goals first
      | exact absurd ht (by decide)
      | refine ((mapD_keys ..).trans (keys_new ?_)).trans (congrArg (· ++ [s]) (mapD_keys ..).symm)
        exact fun hx => hk' _ ht (Eq.mpr (congrArg (s ∈ ·) (mapD_keys ..)) hx)
  · rw [n6, n5, n4, n1, hl, List.length_append]; rw [List.length_singleton]; omega
end

theorem new13_foldM (l : List String) (o : Obs) : l.foldlM (fun o s => (.ok (new13 o s) : Py Obs)) o = .ok (l.foldl new13 o) := by
  induction l generalizing o with
  | nil => rfl
  | cons a l ih => rw [List.foldlM_cons, List.foldl_cons, ← ih]; rfl

theorem convertObs13_steps (m : Bare123) (sats : List Nat) (sgns : List String) (slots : List Nat) (o : Obs) :
    convertObs13R rnd m sats sgns slots o = (sgns.foldlM (fun o s => (.ok (new13 o s) : Py Obs)) o >>= fun o =>
      slots.foldlM (sat13R rnd m (scalersR rnd SCALERS45) sats sgns) (0, 0, o) >>= fun x =>
      sgns.foldlM del13 x.2.2) := by
  rw [new13_foldM, new13_all]
  rfl

section
variable {D : Addr} {C : C13} {loc : Fields} {h : Heap} {N : Nat}

theorem obs13_run (hC : C.Ok D) (hN : ∀ s ∈ C.slots, s < N + 1)
    (hs : D.sgns = C.sgns) (hL : Lay D h.length 8 off13) (hi : D.Inv h (obsV {}))
    (hH : Has loc C.base) (hF : Free loc libNames) :
    Sim (C.sgns.foldlM (fun o s => (.ok (new13 o s) : Py Obs)) {} >>= fun o => C.slots.foldlM (sat13R rnd C.m (scalersR rnd SCALERS45) C.sats C.sgns) (0, 0, o) >>= fun x =>
      C.sgns.foldlM del13 x.2.2)
      (execBlock src (N + 1) (callFn src (N + 1)) (Src.fn_Bare2Scaled_convert_obs13.body.drop 1) ⟨loc, h⟩)
      (fun o st => D.Inv st.heap (obsV o)) D.Frame := by
  refine Sim.bind (a := (Src.fn_Bare2Scaled_convert_obs13.body.drop 1).take 1) (b := Src.fn_Bare2Scaled_convert_obs13.body.drop 2)
    (P := fun o st => Has st.loc C.base ∧ Free st.loc libNames ∧ D.Inv st.heap (obsV o)) ?_ ?_
  · have hH' := hH
    simp only [C13.base, Has.cons] at hH'
    obtain ⟨l1, l2, l3, l4, -⟩ := hH'
    have hb : (Src.fn_Bare2Scaled_convert_obs13.body.drop 1).take 1 = [.for (.name n!"sgn") (.attr (.name n!"self") n!"sgn_map")
      [addStmt .rng, addStmt .phs, addStmt .ltm, addStmt .hca] []] := rfl
    rw [hb, block_for (vs := C.sgns.map .str) (st' := ⟨loc, h⟩) (by pyexec [l1, hi.frame.at hC.self, strTup])]
    refine (for_sim (l0 := C.sgns) (P := fun pre o st => (Has st.loc C.base ∧ Free st.loc libNames) ∧
      Made D h.length 8 [.rng, .phs, .ltm, .hca] pre o st.heap) ?_ C.sgns [] {} ⟨loc, h⟩ rfl ⟨⟨hH, hF⟩, hi, ?_, by simp⟩).imp ?_
    · rintro pre s post o loc1 h1 hp ⟨⟨hH, hF⟩, hm⟩
      have hl' := hH
      simp only [C13.base, Has.cons] at hl'
      obtain ⟨l1, l2, l3, l4, -⟩ := hl'
      dsimp only at l3 hm
      refine (new13_sim (loc := M.bindKey loc1 n!"sgn" (.str s)) hC.rv (by rw [lookup_bindKey]; exact l3) (by rw [lookup_bindKey]; rfl) hL (hs.trans hp) hm).imp ?_
      rintro o' ⟨_, h2⟩ ⟨rfl, hm⟩
      exact ⟨⟨hH.set _ _ rfl, hF.set _ _ rfl⟩, hm⟩
    · intro t _
      cases t <;> rfl
    · rintro o st ⟨hh, hm⟩
      exact ⟨hh.1, hh.2, hm.1⟩
  rintro o ⟨loc, h⟩ ⟨hH, hF, hi⟩
  refine Sim.bind (a := (Src.fn_Bare2Scaled_convert_obs13.body.drop 2).take 2) (b := Src.fn_Bare2Scaled_convert_obs13.body.drop 4)
    (P := fun x st => S13 C x.1 x.2.1 st.loc ∧ D.Inv st.heap (obsV x.2.2)) ?_ ?_
  · have hb : (Src.fn_Bare2Scaled_convert_obs13.body.drop 2).take 2 = [.unpack [.name n!"sat_idx", .name n!"sgn_idx"] (.tuple [.const (.int 0), .const (.int 0)])] ++ [.for (.name n!"slots") (.attr (.name n!"self") n!"slots_per_sat")
      forBody13 []] := rfl
    have hu : execBlock src (N + 1) (callFn src (N + 1)) [.unpack [.name n!"sat_idx", .name n!"sgn_idx"] (.tuple [.const (.int 0), .const (.int 0)])]
        ⟨loc, h⟩ = (.ok .next, ⟨M.bindKey (M.bindKey loc n!"sat_idx" (.int (0 : Nat))) n!"sgn_idx" (.int (0 : Nat)), h⟩) := by
      pyexec
      rfl
    have hq : S13 C 0 0 (M.bindKey (M.bindKey loc n!"sat_idx" (.int (0 : Nat))) n!"sgn_idx" (.int (0 : Nat))) :=
      ⟨(hH.put _ _ rfl).put _ _ rfl, (hF.set _ _ rfl).set _ _ rfl⟩
    have hl' := hq.1
    simp only [C13.base, Has.cons] at hl'
    obtain ⟨l1, l2, l3, l4, l5, -⟩ := hl'
    rw [hb, execBlock_app, hu, M.seq_ok, after_next]
    rw [block_for (vs := C.slots.map (fun x : Nat => .int x))
      (st' := ⟨M.bindKey (M.bindKey loc n!"sat_idx" (.int (0 : Nat))) n!"sgn_idx" (.int (0 : Nat)), h⟩) (by pyexec [l3, hi.frame.at hC.self, natTup])]
    refine for_sim (l0 := C.slots) (P := fun _ x st => S13 C x.1 x.2.1 st.loc ∧ D.Inv st.heap (obsV x.2.2)) ?_ C.slots [] (0, 0, o) ⟨_, h⟩ rfl ⟨hq, hi⟩
    rintro pre sl post ⟨k, j, o⟩ loc1 h1 hp ⟨hq, hi⟩
    exact sat13_sim hC (hN sl (by rw [hp]; exact List.mem_append_right _ List.mem_cons_self)) hi hq
  rintro ⟨k, j, o⟩ ⟨loc, h⟩ ⟨hq, hi⟩
  have hl' := hq.1
  simp only [C13.base, Has.cons] at hl'
  obtain ⟨l1, l2, l3, l4, l5, -⟩ := hl'
  dsimp only at l3 hi ⊢
  have hb : Src.fn_Bare2Scaled_convert_obs13.body.drop 4 = [.for (.name n!"sgn") (.attr (.name n!"self") n!"sgn_map")
      [delStmt .rng, delStmt .phs, delStmt .ltm, delStmt .hca] []] := rfl
  rw [hb, block_for (vs := C.sgns.map .str) (st' := ⟨loc, h⟩) (by pyexec [l3, hi.frame.at hC.self, strTup])]
  refine (for_sim (l0 := C.sgns) (P := fun _ o st => S13 C k j st.loc ∧ D.Inv st.heap (obsV o)) ?_ C.sgns [] o ⟨loc, h⟩ rfl ⟨hq, hi⟩).imp
    (fun o st hp => hp.2)
  rintro pre s post o loc1 h1 hp ⟨hq, hi⟩
  have hl' := hq.1
  simp only [C13.base, Has.cons] at hl'
  obtain ⟨l1, l2, l3, l4, l5, -⟩ := hl'
  dsimp only at l5 hi
  refine (del13_sim (loc := M.bindKey loc1 n!"sgn" (.str s)) hC.rv (by rw [lookup_bindKey]; exact l5) (by rw [lookup_bindKey]; rfl)
    (by rw [lookup_bindKey]; exact hq.2.lib.1) hi).imp ?_
  rintro o' ⟨_, h2⟩ ⟨hl2, hm⟩
  dsimp only at hl2
  subst hl2
  exact ⟨⟨hq.1.set _ _ rfl, hq.2.set _ _ rfl⟩, hm⟩

theorem convObs13_src (hC : C.Ok D) (hN : ∀ s ∈ C.slots, s < N + 1)
    (hs : D.sgns = C.sgns) (hL : Lay D h.length 8 off13) (hi : D.Inv h (obsV {})) :
    CallSim (convertObs13R rnd C.m C.sats C.sgns C.slots {})
      (callFn src (N + 2) n!"Bare2Scaled._convert_obs13" [.ref C.a, .ref C.b, .ref C.r] h) (fun o h => D.Inv h (obsV o)) D.Frame := by
  rw [callFn_succ src _ _ _ _ _ _ Look.fn_Bare2Scaled_convert_obs13 rfl, convertObs13_steps]
  show CallSim _ (endCall (execBlock src (N + 1) (callFn src (N + 1)) Src.fn_Bare2Scaled_convert_obs13.body
    ⟨[(n!"self", .ref C.a), (n!"src", .ref C.b), (n!"rv", .ref C.r)], h⟩)) _ _
  have hb : Src.fn_Bare2Scaled_convert_obs13.body = [.assign (.name n!"scalers") (.attr (.name n!"self") n!"_Bare2Scaled__SCALERS45")] ++
    Src.fn_Bare2Scaled_convert_obs13.body.drop 1 := rfl
  have hs1 := hi.frame.at hC.self
  rw [hb, execBlock_app]
  have hr := obs13_run (loc := [(n!"self", .ref C.a), (n!"src", .ref C.b), (n!"rv", .ref C.r), (n!"scalers", stat45)])
      hC hN hs hL hi (by simp only [C13.base, Has.cons, Has.nil, and_true]; exact ⟨rfl, rfl, rfl, rfl⟩)
      (by intro x hx; simp only [libNames, List.mem_cons, List.not_mem_nil, or_false] at hx; rcases hx with rfl | rfl | rfl | rfl <;> rfl)
  refine Sim.endCall (post := fun o st => D.Inv st.heap (obsV o)) ?_ (fun _ _ h => h)
  refine Eq.mp (congrArg (fun r => Sim _ r _ _) ?_) hr
  pyexec [hs1, stat45]
end

end Refine
end PyCore
end Verif
