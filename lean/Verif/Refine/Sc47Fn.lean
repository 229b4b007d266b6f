import Verif.Refine.ScTabs

/-! # The call of `Bare2Scaled._convert_obs47`, sub_decoders/RTCM_MSM.py:447-583 -/

namespace Verif
namespace PyCore
namespace Refine
open Verif.Msm Verif.RtcmUtil

open Rounding (rnd)
variable [Rounding]

/-- What a call does when the model computes `m`. -/
def CallSim {α : Type} (m : Py α) (run : Except Exc Val × Heap) (post : α → Heap → Prop) (fr : Heap → Prop) : Prop :=
  match m with
  | .ok a => ∃ h, run = (.ok .none, h) ∧ post a h
  | .error _ => ∃ c h, run = (.error (.py c), h) ∧ catches src c n!"Exception" = true ∧ fr h

theorem Sim.endCall {α : Type} {m : Py α} {run : Except Exc Flow × St} {post : α → St → Prop} {fr : Heap → Prop} {post' : α → Heap → Prop}
    (h : Sim m run post fr) (hp : ∀ a st, post a st → post' a st.heap) : CallSim m (endCall run) post' fr := by
  cases m with
  | ok a =>
    obtain ⟨⟨loc, h⟩, h1, h2⟩ := h
    rw [h1]
    exact ⟨h, rfl, hp a _ h2⟩
  | error e =>
    obtain ⟨c, ⟨loc, h⟩, h1, h2, h3⟩ := h
    rw [h1]
    exact ⟨c, h, rfl, h2, h3⟩

theorem block_for {n : Nat} {call : CallT} {y : Ident} {it : Expr} {B : List Stmt} {st st' : St} {vs : List Val}
    (he : eval src call it st = (.ok (.tup vs), st')) : execBlock src n call [.for (.name y) it B []] st =
    forLoop (assign src call (.name y)) (execBlock src n call B) (execBlock src n call []) vs st' := by
  rw [execBlock_cons, seq_after_nil, exec_for, he, M.seq_ok, M.bind_apply, elements_tup, M.seq_ok]

theorem new47_foldM (l : List String) (o : Obs) : l.foldlM (fun o s => (.ok (new47 o s) : Py Obs)) o = .ok (l.foldl new47 o) := by
  induction l generalizing o with
  | nil => rfl
  | cons a l ih => rw [List.foldlM_cons, List.foldl_cons, ← ih]; rfl

theorem convertObs47_steps (m : Bare4567) (sats : List Nat) (sgns : List String) (slots : List Nat) (o : Obs) :
    convertObs47R rnd m sats sgns slots o = (sgns.foldlM (fun o s => (.ok (new47 o s) : Py Obs)) o >>= fun o =>
      slots.foldlM (sat47R rnd m (if m.atr.is_msm7 || m.atr.is_msm6 then (scalersR rnd SCALERS67) else (scalersR rnd SCALERS45)) sats sgns) (0, 0, o) >>= fun x =>
      sgns.foldlM del47 x.2.2) := by
  rw [new47_foldM, new47_all]
  rfl

section
variable {D : Addr} {C : C47} {loc : Fields} {h : Heap} {N : Nat}

theorem obs47_run (hC : C.Ok D (callFn src (N + 1))) (hV : ScVals (callFn src (N + 1)) C.sv C.cv C.sc) (hN : ∀ s ∈ C.slots, s < N + 1)
    (hs : D.sgns = C.sgns) (hL : Lay D h.length 12 off47) (hi : D.Inv h (obsV {}))
    (hH : Has loc C.base) (hF : Free loc libNames) :
    Sim (C.sgns.foldlM (fun o s => (.ok (new47 o s) : Py Obs)) {} >>= fun o => C.slots.foldlM (sat47R rnd C.m C.sc C.sats C.sgns) (0, 0, o) >>= fun x =>
      C.sgns.foldlM del47 x.2.2)
      (execBlock src (N + 1) (callFn src (N + 1)) (Src.fn_Bare2Scaled_convert_obs47.body.drop 1) ⟨loc, h⟩)
      (fun o st => D.Inv st.heap (obsV o)) D.Frame := by
  refine Sim.bind (a := (Src.fn_Bare2Scaled_convert_obs47.body.drop 1).take 1) (b := Src.fn_Bare2Scaled_convert_obs47.body.drop 2)
    (P := fun o st => Has st.loc C.base ∧ Free st.loc libNames ∧ D.Inv st.heap (obsV o)) ?_ ?_
  · have hH' := hH
    simp only [C47.base, Has.cons] at hH'
    obtain ⟨l1, l2, l3, l4, l5, -⟩ := hH'
    have hb : (Src.fn_Bare2Scaled_convert_obs47.body.drop 1).take 1 = [.for (.name n!"sgn") (.attr (.name n!"self") n!"sgn_map")
      [addStmt .rng, addStmt .c2n, addStmt .dpl, addStmt .phs, addStmt .ltm, addStmt .hca] []] := rfl
    rw [hb, block_for (vs := C.sgns.map .str) (st' := ⟨loc, h⟩) (by pyexec [l1, hi.frame.at hC.self, strTup])]
    refine (for_sim (l0 := C.sgns) (P := fun pre o st => (Has st.loc C.base ∧ Free st.loc libNames) ∧
      Made D h.length 12 [.rng, .c2n, .dpl, .phs, .ltm, .hca] pre o st.heap) ?_ C.sgns [] {} ⟨loc, h⟩ rfl ⟨⟨hH, hF⟩, hi, ?_, by simp⟩).imp ?_
    · rintro pre s post o loc1 h1 hp ⟨⟨hH, hF⟩, hm⟩
      have hl' := hH
      simp only [C47.base, Has.cons] at hl'
      obtain ⟨l1, l2, l3, l4, l5, -⟩ := hl'
      dsimp only at l3 hm
      refine (new47_sim (loc := M.bindKey loc1 n!"sgn" (.str s)) hC.rv (by rw [lookup_bindKey]; exact l3) (by rw [lookup_bindKey]; rfl) hL (hs.trans hp) hm).imp ?_
      rintro o' ⟨_, h2⟩ ⟨rfl, hm⟩
      exact ⟨⟨hH.set _ _ rfl, hF.set _ _ rfl⟩, hm⟩
    · intro t _
      cases t <;> rfl
    · rintro o st ⟨hh, hm⟩
      exact ⟨hh.1, hh.2, hm.1⟩
  rintro o ⟨loc, h⟩ ⟨hH, hF, hi⟩
  refine Sim.bind (a := (Src.fn_Bare2Scaled_convert_obs47.body.drop 2).take 2) (b := Src.fn_Bare2Scaled_convert_obs47.body.drop 4)
    (P := fun x st => S47 C x.1 x.2.1 st.loc ∧ D.Inv st.heap (obsV x.2.2)) ?_ ?_
  · have hb : (Src.fn_Bare2Scaled_convert_obs47.body.drop 2).take 2 = [.unpack [.name n!"sat_idx", .name n!"sgn_idx"] (.tuple [.const (.int 0), .const (.int 0)])] ++ [.for (.name n!"slots") (.attr (.name n!"self") n!"slots_per_sat")
      forBody47 []] := rfl
    have hu : execBlock src (N + 1) (callFn src (N + 1)) [.unpack [.name n!"sat_idx", .name n!"sgn_idx"] (.tuple [.const (.int 0), .const (.int 0)])]
        ⟨loc, h⟩ = (.ok .next, ⟨M.bindKey (M.bindKey loc n!"sat_idx" (.int (0 : Nat))) n!"sgn_idx" (.int (0 : Nat)), h⟩) := by
      pyexec
      rfl
    have hq : S47 C 0 0 (M.bindKey (M.bindKey loc n!"sat_idx" (.int (0 : Nat))) n!"sgn_idx" (.int (0 : Nat))) :=
      ⟨(hH.put _ _ rfl).put _ _ rfl, (hF.set _ _ rfl).set _ _ rfl⟩
    have hl' := hq.1
    simp only [C47.base, Has.cons] at hl'
    obtain ⟨l1, l2, l3, l4, l5, -⟩ := hl'
    rw [hb, execBlock_app, hu, M.seq_ok, after_next]
    rw [block_for (vs := C.slots.map (fun x : Nat => .int x))
      (st' := ⟨M.bindKey (M.bindKey loc n!"sat_idx" (.int (0 : Nat))) n!"sgn_idx" (.int (0 : Nat)), h⟩) (by pyexec [l3, hi.frame.at hC.self, natTup])]
    refine for_sim (l0 := C.slots) (P := fun _ x st => S47 C x.1 x.2.1 st.loc ∧ D.Inv st.heap (obsV x.2.2)) ?_ C.slots [] (0, 0, o) ⟨_, h⟩ rfl ⟨hq, hi⟩
    rintro pre sl post ⟨k, j, o⟩ loc1 h1 hp ⟨hq, hi⟩
    exact sat47_sim hC hV (hN sl (by rw [hp]; exact List.mem_append_right _ List.mem_cons_self)) hi hq
  rintro ⟨k, j, o⟩ ⟨loc, h⟩ ⟨hq, hi⟩
  have hl' := hq.1
  simp only [C47.base, Has.cons] at hl'
  obtain ⟨l1, l2, l3, l4, l5, -⟩ := hl'
  dsimp only at l3 hi ⊢
  have hb : Src.fn_Bare2Scaled_convert_obs47.body.drop 4 = [.for (.name n!"sgn") (.attr (.name n!"self") n!"sgn_map")
      [delStmt .dpl, delStmt .rng, delStmt .c2n, delStmt .phs, delStmt .ltm, delStmt .hca] []] := rfl
  rw [hb, block_for (vs := C.sgns.map .str) (st' := ⟨loc, h⟩) (by pyexec [l3, hi.frame.at hC.self, strTup])]
  refine (for_sim (l0 := C.sgns) (P := fun _ o st => S47 C k j st.loc ∧ D.Inv st.heap (obsV o)) ?_ C.sgns [] o ⟨loc, h⟩ rfl ⟨hq, hi⟩).imp
    (fun o st hp => hp.2)
  rintro pre s post o loc1 h1 hp ⟨hq, hi⟩
  have hl' := hq.1
  simp only [C47.base, Has.cons] at hl'
  obtain ⟨l1, l2, l3, l4, l5, -⟩ := hl'
  dsimp only at l5 hi
  refine (del47_sim (loc := M.bindKey loc1 n!"sgn" (.str s)) hC.rv (by rw [lookup_bindKey]; exact l5) (by rw [lookup_bindKey]; rfl)
    (by rw [lookup_bindKey]; exact hq.2.lib.1) hi).imp ?_
  rintro o' ⟨_, h2⟩ ⟨hl2, hm⟩
  dsimp only at hl2
  subst hl2
  exact ⟨⟨hq.1.set _ _ rfl, hq.2.set _ _ rfl⟩, hm⟩

theorem convObs47_src (hC : C.Ok D (callFn src (N + 1))) (hN : ∀ s ∈ C.slots, s < N + 1)
    (hs : D.sgns = C.sgns) (hL : Lay D h.length 12 off47) (hi : D.Inv h (obsV {})) :
    CallSim (convertObs47R rnd C.m C.sats C.sgns C.slots {})
      (callFn src (N + 2) n!"Bare2Scaled._convert_obs47" [.ref C.a, .ref C.b, .ref C.r] h) (fun o h => D.Inv h (obsV o)) D.Frame := by
  rw [callFn_succ src _ _ _ _ _ _ Look.fn_Bare2Scaled_convert_obs47 rfl, convertObs47_steps]
  show CallSim _ (endCall (execBlock src (N + 1) (callFn src (N + 1)) Src.fn_Bare2Scaled_convert_obs47.body
    ⟨[(n!"self", .ref C.a), (n!"src", .ref C.b), (n!"rv", .ref C.r)], h⟩)) _ _
  have hb : Src.fn_Bare2Scaled_convert_obs47.body = [.ite (.or (.attr (.attr (.name n!"src") n!"atr") n!"is_msm7") (.attr (.attr (.name n!"src") n!"atr") n!"is_msm6")) [
      .assign (.name n!"scalers") (.attr (.name n!"self") n!"_Bare2Scaled__SCALERS67"),
      .assign (.name n!"checkers") (.attr (.name n!"self") n!"_Bare2Scaled__CHECKERS67")] [
      .assign (.name n!"scalers") (.attr (.name n!"self") n!"_Bare2Scaled__SCALERS45"),
      .assign (.name n!"checkers") (.attr (.name n!"self") n!"_Bare2Scaled__CHECKERS45")]] ++ Src.fn_Bare2Scaled_convert_obs47.body.drop 1 := rfl
  have e7 := is_msm7_src N C.aA h C.m.atr (hi.frame.at hC.atr)
  have e6 := is_msm6_src N C.aA h C.m.atr (hi.frame.at hC.atr)
  have f7 : (atrF C.m.atr).lookup n!"is_msm7" = none := rfl
  have f6 : (atrF C.m.atr).lookup n!"is_msm6" = none := rfl
  have hc : eval src (callFn src (N + 1)) (.or (.attr (.attr (.name n!"src") n!"atr") n!"is_msm7") (.attr (.attr (.name n!"src") n!"atr") n!"is_msm6"))
      ⟨[(n!"self", .ref C.a), (n!"src", .ref C.b), (n!"rv", .ref C.r)], h⟩ =
      (.ok (.bool (C.m.atr.is_msm7 || C.m.atr.is_msm6)), ⟨[(n!"self", .ref C.a), (n!"src", .ref C.b), (n!"rv", .ref C.r)], h⟩) := by
    cases h7 : C.m.atr.is_msm7
    all_goals rw [h7] at e7
    all_goals pyexec [hi.frame.at hC.bd, hi.frame.at hC.atr, f7, f6, e7, e6, Bool.true_or, Bool.false_or]
  have hs1 := hi.frame.at hC.self
  rw [hb, execBlock_app]
  cases hx : (C.m.atr.is_msm7 || C.m.atr.is_msm6) with
  | true =>
    rw [hx] at hc
    rw [block_ite_true (st := ⟨_, h⟩) (st' := ⟨_, h⟩) hc rfl]
    have hr := obs47_run (C := { C with
      sv := stat67
      cv := chk67
      sc := (scalersR rnd SCALERS67) }) (loc := [(n!"self", .ref C.a), (n!"src", .ref C.b), (n!"rv", .ref C.r), (n!"scalers", stat67), (n!"checkers", chk67)])
      ⟨hC.self, hC.bd, hC.atr, hC.sat, hC.sgn, hC.rv⟩ (scVals67 N) hN hs hL hi (by simp only [C47.base, Has.cons, Has.nil, and_true]; exact ⟨rfl, rfl, rfl, rfl, rfl⟩)
      (by intro x hx; simp only [libNames, List.mem_cons, List.not_mem_nil, or_false] at hx; rcases hx with rfl | rfl | rfl | rfl <;> rfl)
    refine Sim.endCall (post := fun o st => D.Inv st.heap (obsV o)) ?_ (fun _ _ h => h)
    refine Eq.mp (congrArg (fun r => Sim _ r _ _) ?_) hr
    pyexec [hs1, stat67, chk67]
  | false =>
    rw [hx] at hc
    rw [block_ite_false (st := ⟨_, h⟩) (st' := ⟨_, h⟩) hc rfl]
    have hr := obs47_run (C := { C with
      sv := stat45
      cv := chk45
      sc := (scalersR rnd SCALERS45) }) (loc := [(n!"self", .ref C.a), (n!"src", .ref C.b), (n!"rv", .ref C.r), (n!"scalers", stat45), (n!"checkers", chk45)])
      ⟨hC.self, hC.bd, hC.atr, hC.sat, hC.sgn, hC.rv⟩ (scVals45 N) hN hs hL hi (by simp only [C47.base, Has.cons, Has.nil, and_true]; exact ⟨rfl, rfl, rfl, rfl, rfl⟩)
      (by intro x hx; simp only [libNames, List.mem_cons, List.not_mem_nil, or_false] at hx; rcases hx with rfl | rfl | rfl | rfl <;> rfl)
    refine Sim.endCall (post := fun o st => D.Inv st.heap (obsV o)) ?_ (fun _ _ h => h)
    refine Eq.mp (congrArg (fun r => Sim _ r _ _) ?_) hr
    pyexec [hs1, stat45, chk45]
end

end Refine
end PyCore
end Verif
