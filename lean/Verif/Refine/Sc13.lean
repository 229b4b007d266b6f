import Verif.Refine.Sc47Fn

/-!
# `Bare2Scaled._convert_obs13`

sub_decoders/RTCM_MSM.py:585-669.
-/

namespace Verif
namespace PyCore
namespace Refine
open Verif.Msm Verif.RtcmUtil

open Rounding (rnd)
variable [Rounding]

/-- What `_convert_obs13` works with. -/
structure C13 where
  a : Nat
  b : Nat
  r : Nat
  aA : Nat
  aH : Nat
  aT : Nat
  aG : Nat
  m : Bare123
  sats : List Nat
  sgns : List String
  slots : List Nat

structure C13.Ok (C : C13) (D : Addr) : Prop where
  self : D.At C.a (.inst n!"Bare2Scaled" [(n!"sgn_map", strTup C.sgns), (n!"slots_per_sat", natTup C.slots), (n!"sat_list", natTup C.sats)])
  bd : D.At C.b (.inst n!"BareObservablesMSM123" [(n!"atr", .ref C.aA), (n!"hdr", .ref C.aH), (n!"sat", .ref C.aT), (n!"sgn", .ref C.aG)])
  atr : D.At C.aA (.inst n!"Attributes" (atrF C.m.atr))
  sat : D.At C.aT (.inst n!"_BareObservablesSatDataMSM123" (sat13F C.m.sat))
  sgn : D.At C.aG (.inst n!"_BareObservablesSignalDataMSM123" (sgn13F C.m.sgn))
  rv : RvAt D C.r

/-- The values of one satellite. -/
structure R13 where
  k : Nat
  sat : Nat
  rng : Rat
  rok : Bool

/-- Local variables. -/
def C13.base (C : C13) : Fields := [(n!"self", .ref C.a), (n!"src", .ref C.b), (n!"rv", .ref C.r), (n!"scalers", stat45)]
def W13 (C : C13) (R : R13) (p : Bool) (j i slots : Nat) : Fields :=
  (n!"ph_ok", .bool p) :: (n!"sgn_idx", .int j) :: (n!"i", .int i) :: (n!"slots", .int slots) ::
  (n!"sat_idx", .int R.k) :: (n!"sat", .int R.sat) :: (n!"rng", .flt R.rng) :: (n!"rng_ok", .bool R.rok) :: C.base

theorem body13_steps (b : Bare123) (sc : Scalers) (sgns : List String) (sat : Nat) (rng : Rat) (rok : Bool) (i : Nat)
    (e : Bool) (p : Bool) (j : Nat) (o : Obs) : body13R rnd b sc sgns sat rng rok i e (p, j, o) =
    (tupAt sgns i >>= fun s => if e = false then .ok (p, j, o) else
      (if rok = true then tupAt b.sgn.rng_fine j >>= fun f => if (f % 2 ^ 15 != 0x4000) = true then
          updIn o.rng s sat (rnd (rnd (rng + rnd (rnd (f : Rat) * sc.rng)) * crngR rnd)) >>= fun d => .ok (p, d) else .ok (false, o.rng)
        else .ok (p, o.rng)) >>= fun x =>
      (if x.1 = true then tupAt b.sgn.phase_fine j >>= fun f => if (f % 2 ^ 22 == 0x200000) = true then .ok (o.phs, o.ltm, o.hca) else
          (Except.ok f >>= fun f => updIn o.phs s sat (rnd (rnd (rng + rnd (rnd (f : Rat) * sc.phs)) * crngR rnd))) >>= fun d2 =>
          (tupAt b.sgn.lock_time j >>= fun t => updIn o.ltm s sat (sc.ltm t)) >>= fun d3 =>
          (tupAt b.sgn.hc_indc j >>= fun h => updIn o.hca s sat (h != 0)) >>= fun d4 => .ok (d2, d3, d4)
        else .ok (o.phs, o.ltm, o.hca)) >>= fun y =>
      .ok (x.1, j + 1, { o with rng := x.2, phs := y.1, ltm := y.2.1, hca := y.2.2 })) := by
  unfold body13R
  dsimp only
  cases tupAt sgns i with
  | error _ => rfl
  | ok s =>
    cases e with
    | false => rfl
    | true =>
      have H : ∀ (p : Bool) (d : PyDict String (PyDict Nat Rat)),
          (do
            let obs ←
              if p then do
                let f ← tupAt b.sgn.phase_fine j
                if f % 2 ^ 22 == 0x200000 then pure { o with rng := d }
                else do
                  let d2 ← updIn o.phs s sat (rnd (rnd (rng + rnd (rnd (f : Rat) * sc.phs)) * crngR rnd))
                  let t ← tupAt b.sgn.lock_time j
                  let d3 ← updIn o.ltm s sat (sc.ltm t)
                  let h ← tupAt b.sgn.hc_indc j
                  let d4 ← updIn o.hca s sat (h != 0)
                  pure { o with rng := d, phs := d2, ltm := d3, hca := d4 }
              else pure { o with rng := d }
            pure (p, j + 1, obs) : Py (Bool × Nat × Obs)) =
          ((if p = true then tupAt b.sgn.phase_fine j >>= fun f => if (f % 2 ^ 22 == 0x200000) = true then .ok (o.phs, o.ltm, o.hca) else
          (Except.ok f >>= fun f => updIn o.phs s sat (rnd (rnd (rng + rnd (rnd (f : Rat) * sc.phs)) * crngR rnd))) >>= fun d2 =>
          (tupAt b.sgn.lock_time j >>= fun t => updIn o.ltm s sat (sc.ltm t)) >>= fun d3 =>
          (tupAt b.sgn.hc_indc j >>= fun h => updIn o.hca s sat (h != 0)) >>= fun d4 => .ok (d2, d3, d4)
        else .ok (o.phs, o.ltm, o.hca)) >>= fun y =>
          .ok (p, j + 1, { o with rng := d, phs := y.1, ltm := y.2.1, hca := y.2.2 })) := by
        intro p d
        cases p with
        | false => rfl
        | true =>
          rw [if_pos rfl, if_pos rfl]
          cases tupAt b.sgn.phase_fine j with
          | error _ => rfl
          | ok f =>
            show (if (f % 2 ^ 22 == 0x200000) = true then _ else _) = (if (f % 2 ^ 22 == 0x200000) = true then _ else _) >>= _
            by_cases h1 : (f % 2 ^ 22 == 0x200000) = true
            · rw [if_pos h1, if_pos h1]; rfl
            · rw [if_neg h1, if_neg h1]
              show (updIn o.phs s sat _ >>= _) = (updIn o.phs s sat _ >>= _) >>= _
              cases updIn o.phs s sat (rnd (rnd (rng + rnd (rnd (f : Rat) * sc.phs)) * crngR rnd)) with
              | error _ => rfl
              | ok d2 =>
                cases tupAt b.sgn.lock_time j with
                | error _ => rfl
                | ok t =>
                  show (updIn o.ltm s sat _ >>= _) = (updIn o.ltm s sat _ >>= _) >>= _
                  cases updIn o.ltm s sat (sc.ltm t) with
                  | error _ => rfl
                  | ok d3 =>
                    cases tupAt b.sgn.hc_indc j with
                    | error _ => rfl
                    | ok t =>
                      show (updIn o.hca s sat _ >>= _) = (updIn o.hca s sat _ >>= _) >>= _
                      cases updIn o.hca s sat (t != 0) <;> rfl
      show (if rok = true then _ else _) = (if rok = true then _ else _) >>= _
      cases rok with
      | false =>
        exact H p o.rng
      | true =>
        rw [if_pos rfl, if_pos rfl]
        cases tupAt b.sgn.rng_fine j with
        | error _ => rfl
        | ok f =>
          show (if (f % 2 ^ 15 != 0x4000) = true then _ else _) = (if (f % 2 ^ 15 != 0x4000) = true then _ else _) >>= _
          by_cases h1 : (f % 2 ^ 15 != 0x4000) = true
          · rw [if_pos h1, if_pos h1]
            cases updIn o.rng s sat (rnd (rnd (rng + rnd (rnd (f : Rat) * sc.rng)) * crngR rnd)) with
            | error _ => rfl
            | ok d => exact H p d
          · rw [if_neg h1, if_neg h1]
            exact H false o.rng

section
variable {D : Addr} {C : C13} {R : R13} {loc : Fields} {h : Heap} {o : Obs} {p : Bool} {k j i sl : Nat} {s : String} {n N : Nat} {call : CallT}

/-- Locals inside the body, after the name of the signal has been found. -/
def In13 (C : C13) (R : R13) (p : Bool) (j i sl : Nat) (s : String) (loc : Fields) : Prop :=
  Has loc ((n!"sgn", .str s) :: W13 C R p j i sl) ∧ Free loc libNames

theorem In13.tmp (hL : In13 C R p j i sl s loc) (v : Val) : In13 C R p j i sl s (M.bindKey loc n!"tmp" v) :=
  ⟨hL.1.set _ _ rfl, hL.2.set _ _ rfl⟩

/-- The statements for a value. -/
theorem val13_sim {α β : Type} (hC : C.Ok D) {T : Tab → VTab} (hi : D.Inv h T) (hL : In13 C R p j i sl s loc) (t : Tab) (tmpE : Expr) (m : Py α)
    (val : α → β) (g : β → Val) (d : PyDict String (PyDict Nat β))
    (hok : ∀ x, m = .ok x → eval src call tmpE ⟨loc, h⟩ = (.ok (g (val x)), ⟨loc, h⟩))
    (herr : ∀ e, m = .error e → eval src call tmpE ⟨loc, h⟩ = (.error (.py n!"IndexError"), ⟨loc, h⟩)) (hT : T t = mapV g d) :
    Sim (m >>= fun x => updIn d s R.sat (val x)) (execBlock src n call [.assign (.name n!"tmp") tmpE,
          .expr (.call (.attr (.index (.attr (.attr (.name n!"rv") n!"obs") t.id) (.name n!"sgn")) n!"update") [.dict [.name n!"sat"] [.name n!"tmp"]])]
        ⟨loc, h⟩)
      (fun d st => In13 C R p j i sl s st.loc ∧ D.Inv st.heap (Function.update T t (mapV g d))) D.Frame := by
  cases hv : m with
  | error e =>
    refine Sim.error (c := n!"IndexError") (st := ⟨loc, h⟩) ?_ catches_index hi.frame
    rw [execBlock_cons, exec_assign, herr e hv]; rfl
  | ok x =>
    have hL2 := hL.tmp (g (val x))
    have hL3 := hL2.1
    simp only [W13, C13.base, Has.cons] at hL3
    obtain ⟨l1, l2, l3, l4, l5, l6, l7, l8, l9, l10, l11, l12, l13, -⟩ := hL3
    have u := upd_sim (n := n) (call := call) hC.rv l12 hi t l1 l7
      (v := g (val x)) (by rw [lookup_bindKey, beq_self_eq_true]; rfl)
    rw [hT, mapV_upd] at u
    rw [block_assign (hok x hv)]
    exact u.map.imp (fun d st hd => ⟨by rw [hd.1]; exact hL2, hd.2⟩)

/-- The body of the loop over the signals. -/
def whileBody13 : List Stmt :=
  match (Src.fn_Bare2Scaled_convert_obs13.body[3]? : Option Stmt) with
  | some (.for _ _ b _) => match (b[5]? : Option Stmt) with
    | some (.while _ b _) => b
    | _ => []
  | _ => []

/-- The body of the loop over satellites. -/
def forBody13 : List Stmt :=
  match (Src.fn_Bare2Scaled_convert_obs13.body[3]? : Option Stmt) with
  | some (.for _ _ b _) => b
  | _ => []

theorem rest13_sim (hC : C.Ok D) (hi : D.Inv h (obsV o)) (hL : In13 C R p j i sl s loc) :
    Sim ((if R.rok = true then tupAt C.m.sgn.rng_fine j >>= fun f => if (f % 2 ^ 15 != 0x4000) = true then
          updIn o.rng s R.sat (rnd (rnd (R.rng + rnd (rnd (f : Rat) * (scalersR rnd SCALERS45).rng)) * crngR rnd)) >>= fun d => .ok (p, d) else .ok (false, o.rng)
        else .ok (p, o.rng)) >>= fun x =>
      (if x.1 = true then tupAt C.m.sgn.phase_fine j >>= fun f => if (f % 2 ^ 22 == 0x200000) = true then .ok (o.phs, o.ltm, o.hca) else
          (Except.ok f >>= fun f => updIn o.phs s R.sat (rnd (rnd (R.rng + rnd (rnd (f : Rat) * (scalersR rnd SCALERS45).phs)) * crngR rnd))) >>= fun d2 =>
          (tupAt C.m.sgn.lock_time j >>= fun t => updIn o.ltm s R.sat ((scalersR rnd SCALERS45).ltm t)) >>= fun d3 =>
          (tupAt C.m.sgn.hc_indc j >>= fun h => updIn o.hca s R.sat (h != 0)) >>= fun d4 => .ok (d2, d3, d4)
        else .ok (o.phs, o.ltm, o.hca)) >>= fun y =>
      (.ok (x.1, j + 1, { o with rng := x.2, phs := y.1, ltm := y.2.1, hca := y.2.2 }) : Py (Bool × Nat × Obs)))
      (execBlock src n (callFn src (N + 1)) (whileBody13.drop 5) ⟨loc, h⟩)
      (fun x st => In13 C R x.1 x.2.1 i sl s st.loc ∧ D.Inv st.heap (obsV x.2.2)) D.Frame := by
  have hV := scVals45 N
  refine Sim.bind (a := (whileBody13.drop 5).take 1) (b := whileBody13.drop 6)
    (P := fun x st => In13 C R x.1 j i sl s st.loc ∧ D.Inv st.heap (obsV { o with rng := x.2 })) ?_ ?_
  · have hL' := hL.1
    simp only [W13, C13.base, Has.cons] at hL'
    obtain ⟨l1, l2, l3, l4, l5, l6, l7, l8, l9, l10, l11, l12, l13, -⟩ := hL'
    obtain ⟨g1, g2, g3, g4⟩ := hL.2.lib
    have e0 : (sgn13F C.m.sgn).lookup n!"rng_fine" = some (intTup C.m.sgn.rng_fine) := rfl
    have e1 : (atrF C.m.atr).lookup n!"gnss" = some (.str C.m.atr.gnss) := rfl
    have hb : (whileBody13.drop 5).take 1 = [.ite (.name n!"rng_ok") [
          .ite (.cmp .ne (.bin .band (.index (.attr (.attr (.name n!"src") n!"sgn") n!"rng_fine") (.name n!"sgn_idx")) (.const (.int 32767))) (.const (.int 16384))) [
            .assign (.name n!"tmp") (.bin .mul (.bin .add (.name n!"rng") (.bin .mul (.call (.name n!"float") [.index (.attr (.attr (.name n!"src") n!"sgn") n!"rng_fine") (.name n!"sgn_idx")]) (.index (.name n!"scalers") (.const (.str "rng"))))) (.attr (.name n!"MSMT") n!"CRNG_1MS")),
            .expr (.call (.attr (.index (.attr (.attr (.name n!"rv") n!"obs") n!"rng") (.name n!"sgn")) n!"update") [.dict [.name n!"sat"] [.name n!"tmp"]])] [
            .expr (.call (.attr (.name n!"logger") n!"info") [.fstr [.attr (.attr (.name n!"src") n!"atr") n!"gnss", .name n!"sat", .name n!"sgn"]]),
            .assign (.name n!"ph_ok") (.const (.bool false))]] []] := rfl
    rw [hb]
    cases hr : R.rok with
    | false =>
      rw [hr] at l9
      refine Sim.ok (st := ⟨loc, h⟩) ?_ ⟨hL, hi⟩
      pyexec [l9]
    | true =>
      rw [hr] at l9
      rw [if_pos rfl, block_ite_true (v := .bool true) (st := ⟨loc, h⟩) (st' := ⟨loc, h⟩) (by pyexec [l9]) rfl]
      cases hv : tupAt C.m.sgn.rng_fine j with
      | error e =>
        refine Sim.error (c := n!"IndexError") (st := ⟨loc, h⟩) ?_ catches_index hi.frame
        pyexec [l11, hi.frame.at hC.bd, hi.frame.at hC.sgn, e0, l3, index_intTup, tupAt_err hv, Option.map_none]
      | ok f =>
        have e3 : Int.land f (32767 : Int) = f % 2 ^ 15 := land_mask f 15
        have e4 : (!(f % 2 ^ 15 == (16384 : Int))) = (f % 2 ^ 15 != 0x4000) := rfl
        show Sim (if (f % 2 ^ 15 != 0x4000) = true then _ else _) _ _ _
        have hc : eval src (callFn src (N + 1)) (.cmp .ne (.bin .band (.index (.attr (.attr (.name n!"src") n!"sgn") n!"rng_fine") (.name n!"sgn_idx")) (.const (.int 32767))) (.const (.int 16384))) ⟨loc, h⟩ =
            (.ok (.bool (f % 2 ^ 15 != 0x4000)), ⟨loc, h⟩) := by
          pyexec [l11, hi.frame.at hC.bd, hi.frame.at hC.sgn, e0, l3, index_intTup, tupAt_ok hv, Option.map_some, e3, e4]
        cases hx : (f % 2 ^ 15 != 0x4000) with
        | true =>
          rw [hx] at hc
          rw [if_pos rfl, block_ite_true (st := ⟨loc, h⟩) (st' := ⟨loc, h⟩) hc rfl]
          have hvs := val13_sim (n := n) (call := callFn src (N + 1)) hC hi hL .rng
            (.bin .mul (.bin .add (.name n!"rng") (.bin .mul (.call (.name n!"float") [.index (.attr (.attr (.name n!"src") n!"sgn") n!"rng_fine") (.name n!"sgn_idx")]) (.index (.name n!"scalers") (.const (.str "rng"))))) (.attr (.name n!"MSMT") n!"CRNG_1MS"))
            (.ok f) (fun f : Int => rnd (rnd (R.rng + rnd (rnd (f : Rat) * (scalersR rnd SCALERS45).rng)) * crngR rnd)) .flt o.rng
            (fun x hx => by
              cases hx
              pyexec [l8, g2, g3, l11, hi.frame.at hC.bd, hi.frame.at hC.sgn, e0, l3, index_intTup, tupAt_ok hv, Option.map_some, l13, hV.rng, crng_src])
            (fun e hx => nomatch hx) rfl
          have hvs : Sim (updIn o.rng s R.sat (rnd (rnd (R.rng + rnd (rnd (f : Rat) * (scalersR rnd SCALERS45).rng)) * crngR rnd))) _ _ _ := hvs
          generalize updIn o.rng s R.sat (rnd (rnd (R.rng + rnd (rnd (f : Rat) * (scalersR rnd SCALERS45).rng)) * crngR rnd)) = m at hvs ⊢
          cases m with
          | error e => exact hvs
          | ok d =>
            obtain ⟨st, h1, h2, h3⟩ := hvs
            exact ⟨st, h1, h2, by rw [obsV_rng] at h3; exact h3⟩
        | false =>
          rw [hx] at hc
          rw [if_neg Bool.false_ne_true, block_ite_false (st := ⟨loc, h⟩) (st' := ⟨loc, h⟩) hc rfl]
          refine Sim.ok (st := ⟨M.bindKey loc n!"ph_ok" (.bool false), h⟩) ?_ ⟨⟨?_, hL.2.set _ _ rfl⟩, hi⟩
          · pyexec [g4, l11, hi.frame.at hC.bd, hi.frame.at hC.atr, e1, l7, l1]
          · simp only [W13, C13.base, Has.cons, lookup_bindKey, ident_beq, Nat.reduceBEq, Bool.false_eq_true, if_false, if_true, l1, l3, l4, l5, l6, l7, l8,
              l9, l10, l11, l12, l13, true_and, Has.nil, hr]
  rintro ⟨p, d1⟩ ⟨loc, h⟩ ⟨hL, hi⟩
  dsimp only at hL hi ⊢
  refine Sim.bind (a := (whileBody13.drop 6).take 1) (b := whileBody13.drop 7)
    (P := fun y st => In13 C R p j i sl s st.loc ∧ D.Inv st.heap (obsV { o with rng := d1, phs := y.1, ltm := y.2.1, hca := y.2.2 })) ?_ ?_
  · have hL' := hL.1
    simp only [W13, C13.base, Has.cons] at hL'
    obtain ⟨l1, l2, l3, l4, l5, l6, l7, l8, l9, l10, l11, l12, l13, -⟩ := hL'
    obtain ⟨g1, g2, g3, g4⟩ := hL.2.lib
    have e0 : (sgn13F C.m.sgn).lookup n!"phase_fine" = some (intTup C.m.sgn.phase_fine) := rfl
    have e1 : (atrF C.m.atr).lookup n!"gnss" = some (.str C.m.atr.gnss) := rfl
    cases p with
    | false =>
      refine Sim.ok (st := ⟨loc, h⟩) ?_ ⟨hL, hi⟩
      simp only [whileBody13, Src.fn_Bare2Scaled_convert_obs13, List.getElem?_cons_succ, List.getElem?_cons_zero, List.take_succ_cons, List.take_zero,
        List.drop_succ_cons, List.drop_zero]
      pyexec [l2]
    | true =>
      let B1 : List Stmt := [
            .assign (.name n!"tmp") (.bin .mul (.bin .add (.name n!"rng") (.bin .mul (.call (.name n!"float") [.index (.attr (.attr (.name n!"src") n!"sgn") n!"phase_fine") (.name n!"sgn_idx")]) (.index (.name n!"scalers") (.const (.str "phs"))))) (.attr (.name n!"MSMT") n!"CRNG_1MS")),
            .expr (.call (.attr (.index (.attr (.attr (.name n!"rv") n!"obs") n!"phs") (.name n!"sgn")) n!"update") [.dict [.name n!"sat"] [.name n!"tmp"]])]
      let B2 : List Stmt := [
            .assign (.name n!"tmp") (.call (.index (.name n!"scalers") (.const (.str "ltm"))) [.index (.attr (.attr (.name n!"src") n!"sgn") n!"lock_time") (.name n!"sgn_idx")]),
            .expr (.call (.attr (.index (.attr (.attr (.name n!"rv") n!"obs") n!"ltm") (.name n!"sgn")) n!"update") [.dict [.name n!"sat"] [.name n!"tmp"]])]
      let B3 : List Stmt := [
            .assign (.name n!"tmp") (.cmp .ne (.index (.attr (.attr (.name n!"src") n!"sgn") n!"hc_indc") (.name n!"sgn_idx")) (.const (.int 0))),
            .expr (.call (.attr (.index (.attr (.attr (.name n!"rv") n!"obs") n!"hca") (.name n!"sgn")) n!"update") [.dict [.name n!"sat"] [.name n!"tmp"]])]
      have hb : (whileBody13.drop 6).take 1 = [.ite (.name n!"ph_ok") [
          .ite (.cmp .eq (.bin .band (.index (.attr (.attr (.name n!"src") n!"sgn") n!"phase_fine") (.name n!"sgn_idx")) (.const (.int 4194303))) (.const (.int 2097152))) [
            .expr (.call (.attr (.name n!"logger") n!"info") [.fstr [.attr (.attr (.name n!"src") n!"atr") n!"gnss", .name n!"sat", .name n!"sgn"]])]
            (B1 ++ (B2 ++ (B3 ++ [])))] []] := rfl
      rw [hb, if_pos rfl, block_ite_true (v := .bool true) (st := ⟨loc, h⟩) (st' := ⟨loc, h⟩) (by pyexec [l2]) rfl]
      cases hv : tupAt C.m.sgn.phase_fine j with
      | error e =>
        refine Sim.error (c := n!"IndexError") (st := ⟨loc, h⟩) ?_ catches_index hi.frame
        pyexec [l11, hi.frame.at hC.bd, hi.frame.at hC.sgn, e0, l3, index_intTup, tupAt_err hv, Option.map_none]
      | ok f =>
        have e3 : Int.land f (4194303 : Int) = f % 2 ^ 22 := land_mask f 22
        have e4 : (f % 2 ^ 22 == (2097152 : Int)) = (f % 2 ^ 22 == 0x200000) := rfl
        show Sim (if (f % 2 ^ 22 == 0x200000) = true then _ else _) _ _ _
        have hc : eval src (callFn src (N + 1)) (.cmp .eq (.bin .band (.index (.attr (.attr (.name n!"src") n!"sgn") n!"phase_fine") (.name n!"sgn_idx")) (.const (.int 4194303))) (.const (.int 2097152))) ⟨loc, h⟩ =
            (.ok (.bool (f % 2 ^ 22 == 0x200000)), ⟨loc, h⟩) := by
          pyexec [l11, hi.frame.at hC.bd, hi.frame.at hC.sgn, e0, l3, index_intTup, tupAt_ok hv, Option.map_some, e3, e4]
        cases hx : (f % 2 ^ 22 == 0x200000) with
        | true =>
          rw [hx] at hc
          rw [if_pos rfl, block_ite_true (st := ⟨loc, h⟩) (st' := ⟨loc, h⟩) hc rfl]
          refine Sim.ok (st := ⟨loc, h⟩) ?_ ⟨hL, hi⟩
          pyexec [g4, l11, hi.frame.at hC.bd, hi.frame.at hC.atr, e1, l7, l1]
        | false =>
          rw [hx] at hc
          rw [if_neg Bool.false_ne_true, block_ite_false (st := ⟨loc, h⟩) (st' := ⟨loc, h⟩) hc rfl]
          refine Sim.bind (a := B1) (b := B2 ++ (B3 ++ []))
            (P := fun d st => In13 C R true j i sl s st.loc ∧ D.Inv st.heap (obsV { o with rng := d1, phs := d })) ?_ ?_
          · refine (val13_sim hC hi hL .phs _ (.ok f) (fun f : Int => rnd (rnd (R.rng + rnd (rnd (f : Rat) * (scalersR rnd SCALERS45).phs)) * crngR rnd)) _ _ ?_ (fun e hx => nomatch hx) rfl).imp
              (fun d st hd => ⟨hd.1, by rw [obsV_phs] at hd; exact hd.2⟩)
            intro x hx
            cases hx
            pyexec [l8, g2, g3, l11, hi.frame.at hC.bd, hi.frame.at hC.sgn, e0, l3, index_intTup, tupAt_ok hv, Option.map_some, l13, hV.phs, crng_src]
          rintro d2 ⟨loc, h⟩ ⟨hL, hi⟩
          refine Sim.bind (a := B2) (b := B3 ++ [])
            (P := fun d st => In13 C R true j i sl s st.loc ∧ D.Inv st.heap (obsV { o with rng := d1, phs := d2, ltm := d })) ?_ ?_
          · have hL' := hL.1
            simp only [W13, C13.base, Has.cons] at hL'
            obtain ⟨l1, l2, l3, l4, l5, l6, l7, l8, l9, l10, l11, l12, l13, -⟩ := hL'
            have e0 : (sgn13F C.m.sgn).lookup n!"lock_time" = some (natTup C.m.sgn.lock_time) := rfl
            obtain ⟨u, hu1, hu2⟩ := hV.ltm
            refine (val13_sim hC hi hL .ltm _ _ _ _ _ ?_ ?_ rfl).imp
              (fun d st hd => ⟨hd.1, by rw [obsV_ltm] at hd; exact hd.2⟩)
            · intro f hf
              dsimp only at hi ⊢
              pyexec [l11, hi.frame.at hC.bd, hi.frame.at hC.sgn, e0, l3, index_natTup, tupAt_ok hf, Option.map_some, l13, hu1, hu2]
            · intro e hf
              dsimp only at hi ⊢
              pyexec [l11, hi.frame.at hC.bd, hi.frame.at hC.sgn, e0, l3, index_natTup, tupAt_err hf, Option.map_none, l13, hu1, hu2]
          rintro d3 ⟨loc, h⟩ ⟨hL, hi⟩
          refine Sim.bind (a := B3) (b := [])
            (P := fun d st => In13 C R true j i sl s st.loc ∧ D.Inv st.heap (obsV { o with rng := d1, phs := d2, ltm := d3, hca := d })) ?_ ?_
          · have hL' := hL.1
            simp only [W13, C13.base, Has.cons] at hL'
            obtain ⟨l1, l2, l3, l4, l5, l6, l7, l8, l9, l10, l11, l12, l13, -⟩ := hL'
            have e0 : (sgn13F C.m.sgn).lookup n!"hc_indc" = some (natTup C.m.sgn.hc_indc) := rfl
            refine (val13_sim hC hi hL .hca _ _ _ _ _ ?_ ?_ rfl).imp
              (fun d st hd => ⟨hd.1, by rw [obsV_hca] at hd; exact hd.2⟩)
            · intro f hf
              dsimp only at hi ⊢
              pyexec [l11, hi.frame.at hC.bd, hi.frame.at hC.sgn, e0, l3, index_natTup, tupAt_ok hf, Option.map_some, natCast_ne0]
            · intro e hf
              dsimp only at hi ⊢
              pyexec [l11, hi.frame.at hC.bd, hi.frame.at hC.sgn, e0, l3, index_natTup, tupAt_err hf, Option.map_none]
          rintro d4 ⟨loc, h⟩ ⟨hL, hi⟩
          refine Sim.ok (st := ⟨loc, h⟩) ?_ ⟨hL, hi⟩
          pyexec
  rintro ⟨d2, d3, d4⟩ ⟨loc, h⟩ ⟨hL, hi⟩
  have hL' := hL.1
  simp only [W13, C13.base, Has.cons] at hL'
  obtain ⟨l1, l2, l3, l4, l5, l6, l7, l8, l9, l10, l11, l12, l13, -⟩ := hL'
  refine Sim.ok (st := ⟨M.bindKey loc n!"sgn_idx" (.int (j + 1 : Nat)), h⟩) ?_ ⟨⟨?_, hL.2.set _ _ rfl⟩, hi⟩
  · have e2 : (j : Int) + (1 : Int) = ((j + 1 : Nat) : Int) := rfl
    simp only [whileBody13, Src.fn_Bare2Scaled_convert_obs13, List.getElem?_cons_succ, List.getElem?_cons_zero, List.take_succ_cons, List.take_zero,
      List.drop_succ_cons, List.drop_zero]
    pyexec [l3, e2]
  · simp only [W13, C13.base, Has.cons, lookup_bindKey, ident_beq, Nat.reduceBEq, Bool.false_eq_true, if_false, if_true, l1, l2, l4, l5, l6, l7, l8, l9, l10,
      l11, l12, l13, true_and, Has.nil]

/-- Locals at the beginning of a round. -/
def At13 (C : C13) (R : R13) (p : Bool) (j i sl : Nat) (loc : Fields) : Prop := Has loc (W13 C R p j i sl) ∧ Free loc libNames

/-- A round of the loop over the signals. -/
theorem round13 (hC : C.Ok D) (hi : D.Inv h (obsV o)) (hL : At13 C R p j i sl loc) :
    match body13R rnd C.m (scalersR rnd SCALERS45) C.sgns R.sat R.rng R.rok i (sl &&& 1 != 0) (p, j, o) with
    | .ok x => ∃ fl st, execBlock src n (callFn src (N + 1)) whileBody13 ⟨loc, h⟩ = (.ok fl, st) ∧ (fl = .next ∨ fl = .cont) ∧
        At13 C R x.1 x.2.1 (i + 1) (sl >>> 1) st.loc ∧ D.Inv st.heap (obsV x.2.2)
    | .error _ => ∃ c st, execBlock src n (callFn src (N + 1)) whileBody13 ⟨loc, h⟩ = (.error (.py c), st) ∧ catches src c n!"Exception" = true ∧
        D.Frame st.heap := by
  have hL' := hL.1
  simp only [W13, C13.base, Has.cons] at hL'
  obtain ⟨l2, l3, l4, l5, l6, l7, l8, l9, l10, l11, l12, l13, -⟩ := hL'
  rw [body13_steps, show whileBody13 = whileBody13.take 5 ++ whileBody13.drop 5 from rfl]
  cases hv : tupAt C.sgns i with
  | error e =>
    refine ⟨n!"IndexError", ⟨loc, h⟩, ?_, catches_index, hi.frame⟩
    simp only [whileBody13, Src.fn_Bare2Scaled_convert_obs13, List.getElem?_cons_succ, List.getElem?_cons_zero, List.take_succ_cons, List.cons_append]
    pyexec [l10, hi.frame.at hC.self, l4, index_strTup, tupAt_err hv, Option.map_none]
  | ok s =>
    have e2 : (i : Int) + (1 : Int) = ((i + 1 : Nat) : Int) := rfl
    have e3 : Int.land (sl : Int) (1 : Int) = ((sl &&& 1 : Nat) : Int) := rfl
    have e4 : (sl : Int) / (2 : Int) ^ 1 = ((sl >>> 1 : Nat) : Int) := by rw [Nat.shiftRight_eq_div_pow]; rfl
    have hL3 : In13 C R p j (i + 1) (sl >>> 1) s (M.bindKey (M.bindKey (M.bindKey (M.bindKey loc n!"sgn" (.str s)) n!"i" (.int ((i + 1 : Nat) : Int)))
        n!"slotExist" (.int ((sl &&& 1 : Nat) : Int))) n!"slots" (.int ((sl >>> 1 : Nat) : Int))) := by
      refine ⟨?_, (((hL.2.set _ _ rfl).set _ _ rfl).set _ _ rfl).set _ _ rfl⟩
      simp only [W13, C13.base, Has.cons, lookup_bindKey, ident_beq, Nat.reduceBEq, Bool.false_eq_true, if_false, if_true, l2, l3, l6, l7, l8, l9, l10,
        l11, l12, l13, true_and, Has.nil]
    have hpre : ∀ rest, execBlock src n (callFn src (N + 1)) (whileBody13.take 5 ++ rest) ⟨loc, h⟩ = if (sl &&& 1 != 0) = false then
        (.ok .cont, ⟨M.bindKey (M.bindKey (M.bindKey (M.bindKey loc n!"sgn" (.str s)) n!"i" (.int ((i + 1 : Nat) : Int)))
        n!"slotExist" (.int ((sl &&& 1 : Nat) : Int))) n!"slots" (.int ((sl >>> 1 : Nat) : Int)), h⟩) else
        execBlock src n (callFn src (N + 1)) rest ⟨M.bindKey (M.bindKey (M.bindKey (M.bindKey loc n!"sgn" (.str s)) n!"i" (.int ((i + 1 : Nat) : Int)))
        n!"slotExist" (.int ((sl &&& 1 : Nat) : Int))) n!"slots" (.int ((sl >>> 1 : Nat) : Int)), h⟩ := by
      intro rest
      have e5 : (((sl &&& 1 : Nat) : Int) == (0 : Int)) = !(sl &&& 1 != 0) := by
        rw [show (0 : Int) = ((0 : Nat) : Int) from rfl, natCast_beq]; unfold bne; rw [Bool.not_not]
      simp only [whileBody13, Src.fn_Bare2Scaled_convert_obs13, List.getElem?_cons_succ, List.getElem?_cons_zero, List.take_succ_cons, List.take_zero,
        List.cons_append, List.nil_append]
      cases hb : (sl &&& 1 != 0)
      all_goals
        pyexec [l10, hi.frame.at hC.self, l4, index_strTup, tupAt_ok hv, Option.map_some, lookup_bindKey, e2, l5, e3, e4, e5, hb, Bool.not_false,
          Bool.not_true, Bool.true_eq_false, if_false, if_true]
    rw [hpre]
    cases hb : (sl &&& 1 != 0) with
    | false =>
      refine ⟨.cont, _, rfl, .inr rfl, ⟨(Has.cons.1 hL3.1).2, hL3.2⟩, hi⟩
    | true =>
      rw [if_neg (by decide)]
      have hr := rest13_sim (n := n) (N := N) hC hi hL3
      rw [show ∀ (f : String → Py (Bool × Nat × Obs)), ((Except.ok s : Py String) >>= f) = f s from fun _ => rfl]
      simp only [Bool.true_eq_false, if_false]
      unfold Sim at hr
      revert hr
      generalize ((if R.rok = true then tupAt C.m.sgn.rng_fine j >>= _ else _) >>= _ : Py (Bool × Nat × Obs)) = m
      intro hr
      cases m with
      | error e => exact hr
      | ok x =>
        obtain ⟨st, h1, h2, h3⟩ := hr
        exact ⟨.next, st, h1, .inl rfl, ⟨(Has.cons.1 h2.1).2, h2.2⟩, h3⟩
end

end Refine
end PyCore
end Verif
