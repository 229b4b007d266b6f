import Verif.Refine.ScLoop

/-! # `Bare2Scaled._convert_obs47`: satellites and the call, sub_decoders/RTCM_MSM.py:447-583 -/

namespace Verif
namespace PyCore
namespace Refine
open Verif.Msm Verif.RtcmUtil

open Rounding (rnd)
variable [Rounding]

/-- The body of the loop over satellites. -/
def forBody47 : List Stmt :=
  match (Src.fn_Bare2Scaled_convert_obs47.body[3]? : Option Stmt) with
  | some (.for _ _ b _) => b
  | _ => []

theorem sat47_steps (m : Bare4567) (sc : Scalers) (sats : List Nat) (sgns : List String) (k j : Nat) (o : Obs) (sl : Nat) :
    sat47R rnd m sc sats sgns (k, j, o) sl =
    ((tupAt sats k >>= fun sat => tupAt m.sat.rng_ms k >>= fun ms => .ok (sat, ms)) >>= fun x =>
      (if (x.2 != 255) = true then tupAt m.sat.rng_rough k >>= fun r => .ok (rnd (rnd (((x.2 <<< 10) + r : Nat) : Rat) / 1024)) else .ok 0) >>= fun rng =>
      (if (m.atr.is_msm7 || m.atr.is_msm5) = true then tupAt m.sat.phase_rate_rough k >>= fun r =>
        (if (r % 2 ^ 14 != 0x2000) = true then .ok (true, rnd (r : Rat)) else .ok (false, 0)) else .ok (false, 0)) >>= fun p =>
      whileSlots (body47R rnd m sc sgns x.1 (x.2 != 255) rng p.1 p.2) sl 0 (j, o) >>= fun y =>
      .ok (k + 1, y.1, y.2)) := by
  unfold sat47R
  dsimp only
  cases tupAt sats k with
  | error e => rfl
  | ok sat =>
    cases tupAt m.sat.rng_ms k with
    | error e => rfl
    | ok ms =>
      show (if (ms != 255) = true then _ else _) = (if (ms != 255) = true then _ else _) >>= _
      by_cases h1 : (ms != 255) = true
      · rw [if_pos h1, if_pos h1]
        cases tupAt m.sat.rng_rough k with
        | error e => rfl
        | ok r =>
          show (if (m.atr.is_msm7 || m.atr.is_msm5) = true then _ else _) = (if (m.atr.is_msm7 || m.atr.is_msm5) = true then _ else _) >>= _
          by_cases h2 : (m.atr.is_msm7 || m.atr.is_msm5) = true
          · rw [if_pos h2, if_pos h2]
            cases tupAt m.sat.phase_rate_rough k with
            | error e => rfl
            | ok q =>
              show (if (q % 2 ^ 14 != 0x2000) = true then _ else _) = (if (q % 2 ^ 14 != 0x2000) = true then _ else _) >>= _
              by_cases h3 : (q % 2 ^ 14 != 0x2000) = true
              · rw [if_pos h3, if_pos h3]; rfl
              · rw [if_neg h3, if_neg h3]; rfl
          · rw [if_neg h2, if_neg h2]; rfl
      · rw [if_neg h1, if_neg h1]
        show (if (m.atr.is_msm7 || m.atr.is_msm5) = true then _ else _) = (if (m.atr.is_msm7 || m.atr.is_msm5) = true then _ else _) >>= _
        by_cases h2 : (m.atr.is_msm7 || m.atr.is_msm5) = true
        · rw [if_pos h2, if_pos h2]
          cases tupAt m.sat.phase_rate_rough k with
          | error e => rfl
          | ok q =>
            show (if (q % 2 ^ 14 != 0x2000) = true then _ else _) = (if (q % 2 ^ 14 != 0x2000) = true then _ else _) >>= _
            by_cases h3 : (q % 2 ^ 14 != 0x2000) = true
            · rw [if_pos h3, if_pos h3]; rfl
            · rw [if_neg h3, if_neg h3]; rfl
        · rw [if_neg h2, if_neg h2]; rfl

section
variable {D : Addr} {C : C47} {loc : Fields} {h : Heap} {o : Obs} {k j sl : Nat} {n N : Nat}

/-- Locals between satellites. -/
def S47 (C : C47) (k j : Nat) (loc : Fields) : Prop := Has loc ((n!"sgn_idx", .int j) :: (n!"sat_idx", .int k) :: C.base) ∧ Free loc libNames

theorem sat47_sim (hC : C.Ok D (callFn src (N + 1))) (hV : ScVals (callFn src (N + 1)) C.sv C.cv C.sc) (hn : sl < n)
    (hi : D.Inv h (obsV o)) (hL : S47 C k j loc) :
    Sim (sat47R rnd C.m C.sc C.sats C.sgns (k, j, o) sl) (execBlock src n (callFn src (N + 1)) forBody47 ⟨M.bindKey loc n!"slots" (.int sl), h⟩)
      (fun x st => S47 C x.1 x.2.1 st.loc ∧ D.Inv st.heap (obsV x.2.2)) D.Frame := by
  rw [sat47_steps]
  obtain ⟨hH, hF⟩ := hL
  have hH := hH.put n!"slots" (.int sl) rfl
  have hF := hF.set n!"slots" (.int sl) rfl
  generalize M.bindKey loc n!"slots" (.int sl) = loc at hH hF
  refine Sim.bind (a := forBody47.take 4) (b := forBody47.drop 4) (P := fun (x : Nat × Nat) st => Has st.loc ((n!"rng_ok", .bool (x.2 != 255)) ::
    (n!"phase_rate", .flt 0) :: (n!"rng", .flt 0) :: (n!"sat", .int x.1) :: (n!"slots", .int sl) :: (n!"sgn_idx", .int j) :: (n!"sat_idx", .int k) :: C.base) ∧
    Free st.loc libNames ∧ D.Inv st.heap (obsV o) ∧ C.m.sat.rng_ms[k]? = some x.2) ?_ ?_
  · have hL' := hH
    simp only [C47.base, Has.cons] at hL'
    obtain ⟨l1, l2, l3, l4, l5, l6, l7, l8, -⟩ := hL'
    have e0 : (sat47F C.m.sat).lookup n!"rng_ms" = some (natTup C.m.sat.rng_ms) := rfl
    simp only [forBody47, Src.fn_Bare2Scaled_convert_obs47, List.getElem?_cons_succ, List.getElem?_cons_zero, List.take_succ_cons, List.take_zero]
    cases hv : tupAt C.sats k with
    | error e =>
      refine Sim.error (c := n!"IndexError") (st := ⟨loc, h⟩) ?_ catches_index hi.frame
      pyexec [l4, hi.frame.at hC.self, l3, index_natTup, tupAt_err hv, Option.map_none]
    | ok sat =>
      cases hm : tupAt C.m.sat.rng_ms k with
      | error e =>
        refine Sim.error (c := n!"IndexError") (st := ⟨M.bindKey (M.bindKey (M.bindKey loc n!"sat" (.int sat)) n!"rng" (.flt 0)) n!"phase_rate" (.flt 0), h⟩) ?_
          catches_index hi.frame
        have e2 : rnd (mkRat 0 1) = 0 := Rounding.zero
        pyexec [l4, hi.frame.at hC.self, l3, index_natTup, tupAt_ok hv, Option.map_some, l5, hi.frame.at hC.bd, hi.frame.at hC.sat, e0, lookup_bindKey,
          tupAt_err hm, Option.map_none, e2]
      | ok ms =>
        refine Sim.ok (st := ⟨M.bindKey (M.bindKey (M.bindKey (M.bindKey loc n!"sat" (.int sat)) n!"rng" (.flt 0)) n!"phase_rate" (.flt 0))
          n!"rng_ok" (.bool (ms != 255)), h⟩) ?_ ⟨?_, ?_, hi, tupAt_ok hm⟩
        · have e1 : (!((ms : Int) == (255 : Int))) = (ms != 255) := by
            rw [show (255 : Int) = ((255 : Nat) : Int) from rfl, natCast_beq]; rfl
          have e2 : rnd (mkRat 0 1) = 0 := Rounding.zero
          pyexec [l4, hi.frame.at hC.self, l3, index_natTup, tupAt_ok hv, Option.map_some, l5, hi.frame.at hC.bd, hi.frame.at hC.sat, e0, lookup_bindKey,
            tupAt_ok hm, e1, e2]
        · exact (((hH.put n!"sat" (.int sat) rfl).put n!"rng" (.flt 0) rfl).put n!"phase_rate" (.flt 0) rfl).put n!"rng_ok" (.bool (ms != 255)) rfl
        · exact (((hF.set _ _ rfl).set _ _ rfl).set _ _ rfl).set _ _ rfl
  rintro ⟨sat, ms⟩ ⟨loc, h⟩ ⟨hH, hF, hi, hms⟩
  dsimp only at hH hF hi hms ⊢
  refine Sim.bind (a := (forBody47.drop 4).take 1) (b := forBody47.drop 5) (P := fun x st => Has st.loc ((n!"rng", .flt x) ::
    (n!"rng_ok", .bool (ms != 255)) ::
    (n!"phase_rate", .flt 0) :: (n!"sat", .int sat) :: (n!"slots", .int sl) :: (n!"sgn_idx", .int j) :: (n!"sat_idx", .int k) :: C.base) ∧
    Free st.loc libNames ∧ D.Inv st.heap (obsV o)) ?_ ?_
  · have hL' := hH
    simp only [C47.base, Has.cons] at hL'
    obtain ⟨l1, l2, l3, l4, l5, l6, l7, l8, l9, l10, l11, l12, -⟩ := hL'
    obtain ⟨g1, g2, g3, g4⟩ := hF.lib
    have e0 : (sat47F C.m.sat).lookup n!"rng_ms" = some (natTup C.m.sat.rng_ms) := rfl
    have e1 : (sat47F C.m.sat).lookup n!"rng_rough" = some (natTup C.m.sat.rng_rough) := rfl
    have e2 : (atrF C.m.atr).lookup n!"gnss" = some (.str C.m.atr.gnss) := rfl
    simp only [forBody47, Src.fn_Bare2Scaled_convert_obs47, List.getElem?_cons_succ, List.getElem?_cons_zero, List.take_succ_cons, List.take_zero,
      List.drop_succ_cons, List.drop_zero]
    cases hb : (ms != 255) with
    | false =>
      rw [hb] at l1
      refine Sim.ok (st := ⟨loc, h⟩) ?_ ⟨?_, hF, hi⟩
      · pyexec [l1, l9, g4, hi.frame.at hC.bd, hi.frame.at hC.atr, e2, l4, l6]
      · simp only [C47.base, Has.cons, l1, l2, l3, l4, l5, l6, l7, l8, l9, l10, l11, l12, true_and, Has.nil]
    | true =>
      rw [hb] at l1
      rw [if_pos rfl]
      cases hv : tupAt C.m.sat.rng_rough k with
      | error e =>
        refine Sim.error (c := n!"IndexError") (st := ⟨loc, h⟩) ?_ catches_index hi.frame
        pyexec [l1, l9, g2, hi.frame.at hC.bd, hi.frame.at hC.sat, e0, e1, l7, index_natTup, tupAt_err hv, hms, Option.map_some, Option.map_none]
      | ok r =>
        refine Sim.ok (st := ⟨M.bindKey loc n!"rng" (.flt (rnd (rnd (((ms <<< 10) + r : Nat) : Rat) / 1024))), h⟩) ?_ ⟨?_, hF.set _ _ rfl, hi⟩
        · have e3 : rnd (mkRat 1024 1) = 1024 := Rounding.k1024
          have e4 : (((ms : Int) * (2 : Int) ^ 10 + (r : Int) : Int) : Rat) = (((ms <<< 10) + r : Nat) : Rat) := by
            rw [Nat.shiftLeft_eq]; push_cast; rfl
          pyexec [l1, l9, g2, hi.frame.at hC.bd, hi.frame.at hC.sat, e0, e1, l7, index_natTup, tupAt_ok hv, hms, Option.map_some, e3, e4,
            div_ff ⟨loc, h⟩ (rnd ((ms <<< 10 + r : Nat) : Rat)) (1024 : Rat) (by norm_num)]
        · simp only [C47.base, Has.cons, lookup_bindKey, ident_beq, Nat.reduceBEq, Bool.false_eq_true, if_false, if_true,
            l1, l2, l3, l4, l5, l6, l7, l8, l9, l10, l11, l12, true_and, Has.nil]
  rintro rng ⟨loc, h⟩ ⟨hH, hF, hi⟩
  dsimp only at hH hF hi ⊢
  refine Sim.bind (a := (forBody47.drop 5).take 1) (b := forBody47.drop 6) (P := fun x st => Has st.loc ((n!"phase_rate", .flt x.2) ::
    (n!"phase_rate_ok", .bool x.1) :: (n!"rng", .flt rng) ::
    (n!"rng_ok", .bool (ms != 255)) ::
    (n!"sat", .int sat) :: (n!"slots", .int sl) :: (n!"sgn_idx", .int j) :: (n!"sat_idx", .int k) :: C.base) ∧
    Free st.loc libNames ∧ D.Inv st.heap (obsV o)) ?_ ?_
  · have hL' := hH
    simp only [C47.base, Has.cons] at hL'
    obtain ⟨l1, l2, l3, l4, l5, l6, l7, l8, l9, l10, l11, l12, -⟩ := hL'
    obtain ⟨g1, g2, g3, g4⟩ := hF.lib
    have e0 : (sat47F C.m.sat).lookup n!"phase_rate_rough" = some (intTup C.m.sat.phase_rate_rough) := rfl
    have e2 : (atrF C.m.atr).lookup n!"gnss" = some (.str C.m.atr.gnss) := rfl
    have e7 := is_msm7_src N C.aA h C.m.atr (hi.frame.at hC.atr)
    have e5 := is_msm5_src N C.aA h C.m.atr (hi.frame.at hC.atr)
    have f7 : (atrF C.m.atr).lookup n!"is_msm7" = none := rfl
    have f5 : (atrF C.m.atr).lookup n!"is_msm5" = none := rfl
    have hc : eval src (callFn src (N + 1)) (.or (.attr (.attr (.name n!"src") n!"atr") n!"is_msm7") (.attr (.attr (.name n!"src") n!"atr") n!"is_msm5")) ⟨loc, h⟩ =
        (.ok (.bool (C.m.atr.is_msm7 || C.m.atr.is_msm5)), ⟨loc, h⟩) := by
      cases h7 : C.m.atr.is_msm7
      all_goals rw [h7] at e7
      all_goals pyexec [l9, hi.frame.at hC.bd, hi.frame.at hC.atr, f7, f5, e7, e5, Bool.true_or, Bool.false_or]
    simp only [forBody47, Src.fn_Bare2Scaled_convert_obs47, List.getElem?_cons_succ, List.getElem?_cons_zero, List.take_succ_cons, List.take_zero,
      List.drop_succ_cons, List.drop_zero]
    cases hb : (C.m.atr.is_msm7 || C.m.atr.is_msm5) with
    | false =>
      rw [hb] at hc
      rw [block_ite_false (st := ⟨loc, h⟩) (st' := ⟨loc, h⟩) hc rfl]
      refine Sim.ok (st := ⟨M.bindKey loc n!"phase_rate_ok" (.bool false), h⟩) ?_ ⟨?_, hF.set _ _ rfl, hi⟩
      · pyexec
      · simp only [C47.base, Has.cons, lookup_bindKey, ident_beq, Nat.reduceBEq, Bool.false_eq_true, if_false, if_true,
          l1, l2, l3, l4, l5, l6, l7, l8, l9, l10, l11, l12, true_and, Has.nil]
    | true =>
      rw [hb] at hc
      rw [block_ite_true (st := ⟨loc, h⟩) (st' := ⟨loc, h⟩) hc rfl, if_pos rfl]
      cases hv : tupAt C.m.sat.phase_rate_rough k with
      | error e =>
        refine Sim.error (c := n!"IndexError") (st := ⟨loc, h⟩) ?_ catches_index hi.frame
        pyexec [l9, g2, hi.frame.at hC.bd, hi.frame.at hC.sat, e0, l7, index_intTup, tupAt_err hv, Option.map_none]
      | ok r =>
        have e3 : Int.land r (16383 : Int) = r % 2 ^ 14 := land_mask r 14
        show Sim (if (r % 2 ^ 14 != 0x2000) = true then _ else _) _ _ _
        have e4 : (!(r % 2 ^ 14 == (8192 : Int))) = (r % 2 ^ 14 != 0x2000) := rfl
        cases hx : (r % 2 ^ 14 != 0x2000) with
        | true =>
          rw [if_pos rfl]
          rw [hx] at e4
          refine Sim.ok (st := ⟨M.bindKey (M.bindKey loc n!"phase_rate_ok" (.bool true)) n!"phase_rate" (.flt (rnd r)), h⟩) ?_
            ⟨?_, (hF.set _ _ rfl).set _ _ rfl, hi⟩
          · pyexec [l9, g2, hi.frame.at hC.bd, hi.frame.at hC.sat, e0, l7, index_intTup, tupAt_ok hv, Option.map_some, e3, e4, lookup_bindKey]
          · simp only [C47.base, Has.cons, lookup_bindKey, ident_beq, Nat.reduceBEq, Bool.false_eq_true, if_false, if_true,
              l1, l2, l3, l4, l5, l6, l7, l8, l9, l10, l11, l12, true_and, Has.nil]
        | false =>
          rw [if_neg Bool.false_ne_true]
          rw [hx] at e4
          refine Sim.ok (st := ⟨M.bindKey loc n!"phase_rate_ok" (.bool false), h⟩) ?_ ⟨?_, hF.set _ _ rfl, hi⟩
          · pyexec [l9, g2, hi.frame.at hC.bd, hi.frame.at hC.sat, e0, l7, index_intTup, tupAt_ok hv, Option.map_some, e3, e4, lookup_bindKey, g4,
              hi.frame.at hC.atr, e2, l4, l6, l5]
          · simp only [C47.base, Has.cons, lookup_bindKey, ident_beq, Nat.reduceBEq, Bool.false_eq_true, if_false, if_true,
              l1, l2, l3, l4, l5, l6, l7, l8, l9, l10, l11, l12, true_and, Has.nil]
  rintro ⟨pok, pr⟩ ⟨loc, h⟩ ⟨hH, hF, hi⟩
  dsimp only at hH hF hi ⊢
  let R : R47 := ⟨k, sat, rng, pr, ms != 255, pok⟩
  refine Sim.bind (a := (forBody47.drop 6).take 2) (b := forBody47.drop 8) (P := fun x st => S47 C k x.1 st.loc ∧ D.Inv st.heap (obsV x.2)) ?_ ?_
  · have hA : At47 C R j 0 sl (M.bindKey loc n!"i" (.int (0 : Nat))) := by
      refine ⟨?_, hF.set _ _ rfl⟩
      have hL' := hH
      simp only [C47.base, Has.cons] at hL'
      obtain ⟨l1, l2, l3, l4, l5, l6, l7, l8, l9, l10, l11, l12, l13, -⟩ := hL'
      simp only [W47, R47.loc, C47.base, Has.cons, lookup_bindKey, ident_beq, Nat.reduceBEq, Bool.false_eq_true, if_false, if_true, l1, l2, l3, l4, l5, l6, l7, l8, l9, l10,
        l11, l12, l13, true_and, Has.nil, R]
    have hw := while_sim (n := n) (call := callFn src (N + 1)) (fr := D.Frame) (B := whileBody47)
      (body := body47R rnd C.m C.sc C.sgns sat (ms != 255) rng pok pr)
      (P := fun x i sl st => At47 C R x.1 i sl st.loc ∧ D.Inv st.heap (obsV x.2))
      (fun x i sl st hp => by
        have := hp.1.1
        simp only [W47, Has.cons] at this
        exact this.2.2.1)
      (fun x i sl st hp => by
        obtain ⟨x1, x2⟩ := x
        have hr := round47 (n := n) (R := R) hC hV hp.2 hp.1
        change (match body47R rnd C.m C.sc C.sgns sat (ms != 255) rng pok pr i (sl &&& 1 != 0) (x1, x2) with
          | .ok x => _
          | .error _ => _) at hr
        cases hb : body47R rnd C.m C.sc C.sgns sat (ms != 255) rng pok pr i (sl &&& 1 != 0) (x1, x2) with
        | ok y => rw [hb] at hr; exact hr
        | error e => rw [hb] at hr; exact hr)
      n sl 0 (j, o) ⟨_, h⟩ hn ⟨hA, hi⟩
    have he : (forBody47.drop 6).take 2 = [.assign (.name n!"i") (.const (.int 0)), .while (.name n!"slots") whileBody47 []] := rfl
    rw [he, block_assign (v := .int (0 : Nat)) (loc := loc) (h := h) (by pyexec; rfl), execBlock_cons, seq_after_nil, exec_while]
    refine hw.imp ?_
    rintro ⟨x1, x2⟩ ⟨loc, h⟩ ⟨i, ⟨hq, hf⟩, hi⟩
    refine ⟨⟨?_, hf⟩, hi⟩
    simp only [W47, R47.loc, C47.base, Has.cons, R] at hq
    obtain ⟨l1, l2, l3, l4, l5, l6, l7, l8, l9, l10, l11, l12, l13, l14, -⟩ := hq
    simp only [C47.base, Has.cons, l1, l2, l3, l4, l5, l6, l7, l8, l9, l10, l11, l12, l13, l14, true_and, Has.nil]
  rintro ⟨j', o'⟩ ⟨loc, h⟩ ⟨⟨hH, hF⟩, hi⟩
  dsimp only at hH hF hi ⊢
  simp only [C47.base, Has.cons] at hH
  obtain ⟨l1, l2, l3, l4, l5, l6, l7, -⟩ := hH
  refine Sim.ok (st := ⟨M.bindKey loc n!"sat_idx" (.int (k + 1 : Nat)), h⟩) ?_ ⟨⟨?_, hF.set _ _ rfl⟩, hi⟩
  · have e2 : (k : Int) + (1 : Int) = ((k + 1 : Nat) : Int) := rfl
    simp only [forBody47, Src.fn_Bare2Scaled_convert_obs47, List.getElem?_cons_succ, List.getElem?_cons_zero, List.take_succ_cons, List.take_zero,
      List.drop_succ_cons, List.drop_zero]
    pyexec [l2, e2]
  · simp only [C47.base, Has.cons, lookup_bindKey, ident_beq, Nat.reduceBEq, Bool.false_eq_true, if_false, if_true,
      l1, l2, l3, l4, l5, l6, l7, true_and, Has.nil]
end

end Refine
end PyCore
end Verif
