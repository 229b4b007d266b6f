import Verif.Refine.ScObs

/-!
# `Bare2Scaled._convert_obs47`

sub_decoders/RTCM_MSM.py:447-583.
-/

namespace Verif
namespace PyCore
namespace Refine
open Verif.Msm Verif.RtcmUtil

open Rounding (rnd)
variable [Rounding]

/-- A tuple of texts. -/
def strTup (l : List String) : Val := .tup (l.map .str)

theorem index_natTup (l : List Nat) (i : Nat) (s : St) : indexVal src (natTup l) (.int i) s =
    indexed ((l[i]?).map (fun x : Nat => .int x)) s := by
  unfold natTup; rw [index_tup, List.getElem?_map]
theorem index_intTup (l : List Int) (i : Nat) (s : St) : indexVal src (intTup l) (.int i) s = indexed ((l[i]?).map .int) s := by
  unfold intTup; rw [index_tup, List.getElem?_map]
theorem index_strTup (l : List String) (i : Nat) (s : St) : indexVal src (strTup l) (.int i) s = indexed ((l[i]?).map .str) s := by
  unfold strTup; rw [index_tup, List.getElem?_map]

theorem tupAt_ok {α : Type} {l : List α} {i : Nat} {x : α} (h : tupAt l i = .ok x) : l[i]? = some x := by
  unfold tupAt at h
  cases hx : l[i]? with
  | none => rw [hx] at h; cases h
  | some y => rw [hx] at h; cases h; rfl
theorem tupAt_err {α : Type} {l : List α} {i : Nat} {e : PyErr} (h : tupAt l i = .error e) : l[i]? = none := by
  unfold tupAt at h
  cases hx : l[i]? with
  | none => rfl
  | some y => rw [hx] at h; cases h

theorem crng_src (call : CallT) (s : St) : getAttr src call (.cls n!"MSMT") n!"CRNG_1MS" s = (.ok (.flt (crngR rnd)), s) := by
  with_unfolding_all rfl

/-- The tables of factors and of checkers do what the model says. -/
structure ScVals (call : CallT) (sv cv : Val) (sc : Scalers) : Prop where
  rng : ∀ s, indexVal src sv (.str "rng") s = (.ok (.flt sc.rng), s)
  phs : ∀ s, indexVal src sv (.str "phs") s = (.ok (.flt sc.phs), s)
  dpl : ∀ s, indexVal src sv (.str "dpl") s = (.ok (.flt sc.dpl), s)
  c2n : ∃ u, (∀ s, indexVal src sv (.str "c2n") s = (.ok u, s)) ∧ ∀ q s, binOp .mul (.flt q) u s = (.ok (.flt (rnd (q * sc.c2n))), s)
  ltm : ∃ f, (∀ s, indexVal src sv (.str "ltm") s = (.ok (.fn f), s)) ∧ ∀ (t : Nat) h, call f [.int t] h = (.ok (.int (sc.ltm t : Nat)), h)
  okRng : ∃ f, (∀ s, indexVal src cv (.str "rng") s = (.ok (.fn f), s)) ∧ ∀ (t : Int) h, call f [.int t] h = (.ok (.bool (sc.okRng t)), h)
  okPhs : ∃ f, (∀ s, indexVal src cv (.str "phs") s = (.ok (.fn f), s)) ∧ ∀ (t : Int) h, call f [.int t] h = (.ok (.bool (sc.okPhs t)), h)
  okDpl : ∃ f, (∀ s, indexVal src cv (.str "dpl") s = (.ok (.fn f), s)) ∧ ∀ (t : Int) h, call f [.int t] h = (.ok (.bool (sc.okDpl t)), h)

def stat67 : Val := .stat n!"Bare2Scaled" n!"_Bare2Scaled__SCALERS67"
def stat45 : Val := .stat n!"Bare2Scaled" n!"_Bare2Scaled__SCALERS45"
def chk67 : Val := .stat n!"Bare2Scaled" n!"_Bare2Scaled__CHECKERS67"
def chk45 : Val := .stat n!"Bare2Scaled" n!"_Bare2Scaled__CHECKERS45"

theorem sc67_obj : staticObj src n!"Bare2Scaled" n!"_Bare2Scaled__SCALERS67" = some (.dict [(.str "rng", .flt (rnd (1 / 2 ^ 29))),
    (.str "phs", .flt (rnd (1 / 2 ^ 31))), (.str "dpl", .flt (rnd (1 / 10000))), (.str "ltm", .fn n!"MSMT.unpack_tlock10"), (.str "c2n", .flt (rnd (1 / 16)))]) := by
  with_unfolding_all rfl
theorem sc45_obj : staticObj src n!"Bare2Scaled" n!"_Bare2Scaled__SCALERS45" = some (.dict [(.str "rng", .flt (rnd (1 / 2 ^ 24))),
    (.str "phs", .flt (rnd (1 / 2 ^ 29))), (.str "dpl", .flt (rnd (1 / 10000))), (.str "ltm", .fn n!"MSMT.unpack_tlock4"), (.str "c2n", .int 1)]) := by
  with_unfolding_all rfl
theorem ck67_obj : staticObj src n!"Bare2Scaled" n!"_Bare2Scaled__CHECKERS67" = some (.dict [(.str "rng", .fn n!"MSMT.isDF405_OK"),
    (.str "phs", .fn n!"MSMT.isDF406_OK"), (.str "dpl", .fn n!"MSMT.isDF404_OK")]) := by
  with_unfolding_all rfl
theorem ck45_obj : staticObj src n!"Bare2Scaled" n!"_Bare2Scaled__CHECKERS45" = some (.dict [(.str "rng", .fn n!"MSMT.isDF400_OK"),
    (.str "phs", .fn n!"MSMT.isDF401_OK"), (.str "dpl", .fn n!"MSMT.isDF404_OK")]) := by
  with_unfolding_all rfl

theorem scVals67 (n : Nat) : ScVals (callFn src (n + 1)) stat67 chk67 (scalersR rnd SCALERS67) where
  rng s := by unfold stat67; rw [stat_index sc67_obj]; rfl
  phs s := by unfold stat67; rw [stat_index sc67_obj]; rfl
  dpl s := by unfold stat67; rw [stat_index sc67_obj]; rfl
  c2n := ⟨_, fun s => by unfold stat67; rw [stat_index sc67_obj]; rfl, fun q s => rfl⟩
  ltm := ⟨_, fun s => by unfold stat67; rw [stat_index sc67_obj]; rfl, fun t h => tlock10_src n t h⟩
  okRng := ⟨_, fun s => by unfold chk67; rw [stat_index ck67_obj]; rfl, fun t h => df405_src n t h⟩
  okPhs := ⟨_, fun s => by unfold chk67; rw [stat_index ck67_obj]; rfl, fun t h => df406_src n t h⟩
  okDpl := ⟨_, fun s => by unfold chk67; rw [stat_index ck67_obj]; rfl, fun t h => df404_src n t h⟩

theorem scVals45 (n : Nat) : ScVals (callFn src (n + 1)) stat45 chk45 (scalersR rnd SCALERS45) where
  rng s := by unfold stat45; rw [stat_index sc45_obj]; rfl
  phs s := by unfold stat45; rw [stat_index sc45_obj]; rfl
  dpl s := by unfold stat45; rw [stat_index sc45_obj]; rfl
  c2n := ⟨_, fun s => by unfold stat45; rw [stat_index sc45_obj]; rfl, fun q s => by rw [binOp_mul_fi]; rfl⟩
  ltm := ⟨_, fun s => by unfold stat45; rw [stat_index sc45_obj]; rfl, fun t h => tlock4_src n t h⟩
  okRng := ⟨_, fun s => by unfold chk45; rw [stat_index ck45_obj]; rfl, fun t h => df400_src n t h⟩
  okPhs := ⟨_, fun s => by unfold chk45; rw [stat_index ck45_obj]; rfl, fun t h => df401_src n t h⟩
  okDpl := ⟨_, fun s => by unfold chk45; rw [stat_index ck45_obj]; rfl, fun t h => df404_src n t h⟩

/-! ## The loop over the signals -/

theorem seq_after_nil (n : Nat) (call : CallT) (r : Except Exc Flow × St) : M.seq r (after (execBlock src n call [])) = r := by
  obtain ⟨r, st⟩ := r
  cases r with
  | error _ => rfl
  | ok f => cases f <;> pyexec

theorem block_ite_true {n : Nat} {call : CallT} {c : Expr} {A B : List Stmt} {st st' : St} {v : Val} (hc : eval src call c st = (.ok v, st'))
    (ht : truth src v st' = (.ok true, st')) : execBlock src n call [.ite c A B] st = execBlock src n call A st' := by
  rw [execBlock_cons, seq_after_nil, exec_ite, hc, M.seq_ok, M.bind_apply, ht, M.seq_ok, M.choose_true]
theorem block_assign {n : Nat} {call : CallT} {e : Expr} {x : Ident} {rest : List Stmt} {st : St} {loc : Fields} {h : Heap} {v : Val}
    (he : eval src call e st = (.ok v, ⟨loc, h⟩)) :
    execBlock src n call (.assign (.name x) e :: rest) st = execBlock src n call rest ⟨M.bindKey loc x v, h⟩ := by
  rw [execBlock_cons, exec_assign, he, M.seq_ok, M.bind_apply, assign_name, M.setLoc_apply, M.seq_ok, M.pure_apply, M.seq_ok, after_next]
theorem block_ite_false {n : Nat} {call : CallT} {c : Expr} {A B : List Stmt} {st st' : St} {v : Val} (hc : eval src call c st = (.ok v, st'))
    (ht : truth src v st' = (.ok false, st')) : execBlock src n call [.ite c A B] st = execBlock src n call B st' := by
  rw [execBlock_cons, seq_after_nil, exec_ite, hc, M.seq_ok, M.bind_apply, ht, M.seq_ok, M.choose_false]

/-- What `_convert_obs47` works with: addresses of the scaler, of the message and its parts, of the result; tables; the message. -/
structure C47 where
  a : Nat
  b : Nat
  r : Nat
  aA : Nat
  aH : Nat
  aT : Nat
  aG : Nat
  sv : Val
  cv : Val
  sc : Scalers
  m : Bare4567
  sats : List Nat
  sgns : List String
  slots : List Nat

structure C47.Ok (C : C47) (D : Addr) (call : CallT) : Prop where
  self : D.At C.a (.inst n!"Bare2Scaled" [(n!"sgn_map", strTup C.sgns), (n!"slots_per_sat", natTup C.slots), (n!"sat_list", natTup C.sats)])
  bd : D.At C.b (.inst n!"BareObservablesMSM4567" [(n!"atr", .ref C.aA), (n!"hdr", .ref C.aH), (n!"sat", .ref C.aT), (n!"sgn", .ref C.aG)])
  atr : D.At C.aA (.inst n!"Attributes" (atrF C.m.atr))
  sat : D.At C.aT (.inst n!"_BareObservablesSatDataMSM4567" (sat47F C.m.sat))
  sgn : D.At C.aG (.inst n!"_BareObservablesSignalDataMSM4567" (sgn47F C.m.sgn))
  rv : RvAt D C.r

/-- The values of one satellite. -/
structure R47 where
  k : Nat
  sat : Nat
  rng : Rat
  pr : Rat
  rok : Bool
  pok : Bool

/-- Local variables. -/
def C47.base (C : C47) : Fields :=
  [(n!"self", .ref C.a), (n!"src", .ref C.b), (n!"rv", .ref C.r), (n!"scalers", C.sv), (n!"checkers", C.cv)]
def R47.loc (R : R47) (ps : Fields) : Fields :=
  (n!"sat_idx", .int R.k) :: (n!"sat", .int R.sat) :: (n!"rng", .flt R.rng) :: (n!"phase_rate", .flt R.pr) :: (n!"rng_ok", .bool R.rok) ::
  (n!"phase_rate_ok", .bool R.pok) :: ps
def W47 (C : C47) (R : R47) (j i slots : Nat) : Fields :=
  (n!"sgn_idx", .int j) :: (n!"i", .int i) :: (n!"slots", .int slots) :: R.loc C.base

section
variable {D : Addr} {call : CallT} {C : C47} {R : R47} {loc : Fields} {h : Heap} {o : Obs} {j i sl : Nat} {s : String} {n : Nat}

/-- Locals inside the body, after the name of the signal has been found. -/
def In47 (C : C47) (R : R47) (j i sl : Nat) (s : String) (loc : Fields) : Prop :=
  Has loc ((n!"sgn", .str s) :: W47 C R j i sl) ∧ Free loc libNames

theorem In47.tmp (hL : In47 C R j i sl s loc) (v : Val) : In47 C R j i sl s (M.bindKey loc n!"tmp" v) :=
  ⟨hL.1.set _ _ rfl, hL.2.set _ _ rfl⟩

/-- The statement for an optional value. -/
theorem opt_sim (hC : C.Ok D call) {T : Tab → VTab} (hi : D.Inv h T) (hL : In47 C R j i sl s loc) (okN : Ident) (ck : String) (fld : Ident)
    (t : Tab) (tmpE : Expr) (fs : List Int) (val : Int → Rat) (chk : Int → Bool) (d : PyDict String (PyDict Nat Rat)) (ok : Bool)
    (hok : loc.lookup okN = some (.bool ok))
    (hchk : ∃ f, (∀ s, indexVal src C.cv (.str ck) s = (.ok (.fn f), s)) ∧ ∀ (t : Int) h, call f [.int t] h = (.ok (.bool (chk t)), h))
    (hfld : (sgn47F C.m.sgn).lookup fld = some (intTup fs))
    (htmp : ∀ f, fs[j]? = some f → eval src call tmpE ⟨loc, h⟩ = (.ok (.flt (val f)), ⟨loc, h⟩)) (hT : T t = mapV .flt d) :
    Sim (stepOpt ok fs j chk val d s R.sat) (execBlock src n call [.ite (.name okN) [.ite (.call (.index (.name n!"checkers") (.const (.str ck)))
        [.index (.attr (.attr (.name n!"src") n!"sgn") fld) (.name n!"sgn_idx")]) [.assign (.name n!"tmp") tmpE,
          .expr (.call (.attr (.index (.attr (.attr (.name n!"rv") n!"obs") t.id) (.name n!"sgn")) n!"update") [.dict [.name n!"sat"] [.name n!"tmp"]])]
        [.expr (.call (.attr (.name n!"logger") n!"info") [.fstr [.attr (.attr (.name n!"src") n!"atr") n!"gnss", .name n!"sat", .name n!"sgn"]])]]
        []] ⟨loc, h⟩)
      (fun d st => In47 C R j i sl s st.loc ∧ D.Inv st.heap (Function.update T t (mapV .flt d))) D.Frame := by
  have hL' := hL.1
  simp only [W47, R47.loc, C47.base, Has.cons] at hL'
  obtain ⟨l1, l2, l3, l4, l5, l6, l7, l8, l9, l10, l11, l12, l13, l14, l15, -⟩ := hL'
  obtain ⟨g1, g2, g3, g4⟩ := hL.2.lib
  obtain ⟨f, hf1, hf2⟩ := hchk
  have hid : Function.update T t (mapV .flt d) = T := by rw [← hT, Function.update_eq_self]
  unfold stepOpt
  cases ok with
  | false =>
    refine Sim.ok (st := ⟨loc, h⟩) ?_ ⟨hL, by rw [hid]; exact hi⟩
    pyexec [hok]
  | true =>
    rw [if_pos rfl]
    cases hv : tupAt fs j with
    | error e =>
      refine Sim.error (c := n!"IndexError") (st := ⟨loc, h⟩) ?_ catches_index hi.frame
      pyexec [hok, l12, l2, hi.frame.at hC.bd, hi.frame.at hC.sgn, hfld, l15, hf1, index_intTup, tupAt_err hv, Option.map_none]
    | ok x =>
      show Sim (if chk x = true then _ else _) _ _ _
      cases hx : chk x with
      | false =>
        rw [if_neg Bool.false_ne_true]
        refine Sim.ok (st := ⟨loc, h⟩) ?_ ⟨hL, by rw [hid]; exact hi⟩
        have e0 : (atrF C.m.atr).lookup n!"gnss" = some (.str C.m.atr.gnss) := rfl
        pyexec [hok, l12, l2, hi.frame.at hC.bd, hi.frame.at hC.sgn, hfld, l15, hf1, index_intTup, tupAt_ok hv, Option.map_some, hf2, hx, g4,
          hi.frame.at hC.atr, e0, l6, l1]
      | true =>
        rw [if_pos rfl]
        have hL2 := hL.tmp (.flt (val x))
        have hL3 := hL2.1
        simp only [W47, R47.loc, C47.base, Has.cons] at hL3
        have u := upd_sim (n := n) (call := call) hC.rv hL3.2.2.2.2.2.2.2.2.2.2.2.2.1 hi t hL3.1 hL3.2.2.2.2.2.1
          (v := .flt (val x)) (by rw [lookup_bindKey, beq_self_eq_true]; rfl)
        rw [hT, mapV_upd] at u
        have u' := u.map
        rw [block_ite_true (v := .bool true) (st := ⟨loc, h⟩) (st' := ⟨loc, h⟩) (by pyexec [hok]) rfl,
          block_ite_true (v := .bool true) (st := ⟨loc, h⟩) (st' := ⟨loc, h⟩) (by
            pyexec [hok, l12, l2, hi.frame.at hC.bd, hi.frame.at hC.sgn, hfld, l15, hf1, index_intTup, tupAt_ok hv, Option.map_some, hf2, hx]) rfl,
          block_assign (htmp x (tupAt_ok hv))]
        exact u'.imp (fun d st hd => ⟨by rw [hd.1]; exact hL2, hd.2⟩)

theorem natCast_ne0 (x : Nat) : (!((x : Int) == 0)) = (x != 0) := by
  rw [show (0 : Int) = ((0 : Nat) : Int) from rfl, natCast_beq]; rfl

/-- The statements for a value that is always there. -/
theorem val_sim {α β : Type} (hC : C.Ok D call) {T : Tab → VTab} (hi : D.Inv h T) (hL : In47 C R j i sl s loc) (t : Tab) (tmpE : Expr) (m : Py α)
    (val : α → β) (g : β → Val) (d : PyDict String (PyDict Nat β))
    (hok : ∀ x, m = .ok x → eval src call tmpE ⟨loc, h⟩ = (.ok (g (val x)), ⟨loc, h⟩))
    (herr : ∀ e, m = .error e → eval src call tmpE ⟨loc, h⟩ = (.error (.py n!"IndexError"), ⟨loc, h⟩)) (hT : T t = mapV g d) :
    Sim (m >>= fun x => updIn d s R.sat (val x)) (execBlock src n call [.assign (.name n!"tmp") tmpE,
          .expr (.call (.attr (.index (.attr (.attr (.name n!"rv") n!"obs") t.id) (.name n!"sgn")) n!"update") [.dict [.name n!"sat"] [.name n!"tmp"]])]
        ⟨loc, h⟩)
      (fun d st => In47 C R j i sl s st.loc ∧ D.Inv st.heap (Function.update T t (mapV g d))) D.Frame := by
  cases hv : m with
  | error e =>
    refine Sim.error (c := n!"IndexError") (st := ⟨loc, h⟩) ?_ catches_index hi.frame
    rw [execBlock_cons, exec_assign, herr e hv]; rfl
  | ok x =>
    have hL2 := hL.tmp (g (val x))
    have hL3 := hL2.1
    simp only [W47, R47.loc, C47.base, Has.cons] at hL3
    have u := upd_sim (n := n) (call := call) hC.rv hL3.2.2.2.2.2.2.2.2.2.2.2.2.1 hi t hL3.1 hL3.2.2.2.2.2.1
      (v := g (val x)) (by rw [lookup_bindKey, beq_self_eq_true]; rfl)
    rw [hT, mapV_upd] at u
    rw [block_assign (hok x hv)]
    exact u.map.imp (fun d st hd => ⟨by rw [hd.1]; exact hL2, hd.2⟩)

/-- The body of the loop over the signals. -/
def whileBody47 : List Stmt :=
  match (Src.fn_Bare2Scaled_convert_obs47.body[3]? : Option Stmt) with
  | some (.for _ _ b _) => match (b[7]? : Option Stmt) with
    | some (.while _ b _) => b
    | _ => []
  | _ => []

theorem body_split : whileBody47 = whileBody47.take 5 ++ ((whileBody47.drop 5).take 1 ++ ((whileBody47.drop 6).take 1 ++ ((whileBody47.drop 7).take 1 ++
    ((whileBody47.drop 8).take 2 ++ ((whileBody47.drop 10).take 2 ++ ((whileBody47.drop 12).take 2 ++ whileBody47.drop 14)))))) := rfl

theorem rest_sim (hC : C.Ok D call) (hV : ScVals call C.sv C.cv C.sc) (hi : D.Inv h (obsV o)) (hL : In47 C R j i sl s loc) :
    Sim (stepOpt R.rok C.m.sgn.rng_fine j C.sc.okRng (fun f => rnd (rnd (R.rng + rnd (rnd (f : Rat) * C.sc.rng)) * crngR rnd)) o.rng s R.sat >>= fun d1 =>
      stepOpt R.rok C.m.sgn.phase_fine j C.sc.okPhs (fun f => rnd (rnd (R.rng + rnd (rnd (f : Rat) * C.sc.phs)) * crngR rnd)) o.phs s R.sat >>= fun d2 =>
      stepOpt R.pok C.m.sgn.phase_rate_fine j C.sc.okDpl (fun f => rnd (R.pr + rnd (rnd (f : Rat) * C.sc.dpl))) o.dpl s R.sat >>= fun d3 =>
      (tupAt C.m.sgn.lock_time j >>= fun t => updIn o.ltm s R.sat (C.sc.ltm t)) >>= fun d4 =>
      (tupAt C.m.sgn.c2n j >>= fun c => updIn o.c2n s R.sat (rnd (rnd (c : Rat) * C.sc.c2n))) >>= fun d5 =>
      (tupAt C.m.sgn.hc_indc j >>= fun x => updIn o.hca s R.sat (x != 0)) >>= fun d6 =>
      .ok (j + 1, { rng := d1, phs := d2, dpl := d3, ltm := d4, c2n := d5, hca := d6 }))
      (execBlock src n call (whileBody47.drop 5) ⟨loc, h⟩)
      (fun x st => In47 C R x.1 i sl s st.loc ∧ D.Inv st.heap (obsV x.2)) D.Frame := by
  refine Sim.bind (a := (whileBody47.drop 5).take 1) (b := whileBody47.drop 6)
    (P := fun d st => In47 C R j i sl s st.loc ∧ D.Inv st.heap (obsV { o with rng := d })) ?_ ?_
  · have hL' := hL.1
    simp only [W47, R47.loc, C47.base, Has.cons] at hL'
    obtain ⟨l1, l2, l3, l4, l5, l6, l7, l8, l9, l10, l11, l12, l13, l14, l15, -⟩ := hL'
    obtain ⟨g1, g2, g3, g4⟩ := hL.2.lib
    have e0 : (sgn47F C.m.sgn).lookup n!"rng_fine" = some (intTup C.m.sgn.rng_fine) := rfl
    refine (opt_sim hC hi hL n!"rng_ok" "rng" n!"rng_fine" .rng _ _ _ _ _ _ l9 hV.okRng e0 ?_ rfl).imp
      (fun d st hd => ⟨hd.1, by rw [← obsV_rng]; exact hd.2⟩)
    intro f hf
    pyexec [l7, g2, g3, l12, hi.frame.at hC.bd, hi.frame.at hC.sgn, e0, l2, index_intTup, hf, Option.map_some, l14, hV.rng, crng_src]
  rintro d1 ⟨loc, h⟩ ⟨hL, hi⟩
  refine Sim.bind (a := (whileBody47.drop 6).take 1) (b := whileBody47.drop 7)
    (P := fun d st => In47 C R j i sl s st.loc ∧ D.Inv st.heap (obsV { o with rng := d1, phs := d })) ?_ ?_
  · have hL' := hL.1
    simp only [W47, R47.loc, C47.base, Has.cons] at hL'
    obtain ⟨l1, l2, l3, l4, l5, l6, l7, l8, l9, l10, l11, l12, l13, l14, l15, -⟩ := hL'
    obtain ⟨g1, g2, g3, g4⟩ := hL.2.lib
    have e0 : (sgn47F C.m.sgn).lookup n!"phase_fine" = some (intTup C.m.sgn.phase_fine) := rfl
    refine (opt_sim hC hi hL n!"rng_ok" "phs" n!"phase_fine" .phs _ _ _ _ _ _ l9 hV.okPhs e0 ?_ rfl).imp
      (fun d st hd => ⟨hd.1, by rw [obsV_phs] at hd; exact hd.2⟩)
    intro f hf
    dsimp only at hi ⊢
    pyexec [l7, g2, g3, l12, hi.frame.at hC.bd, hi.frame.at hC.sgn, e0, l2, index_intTup, hf, Option.map_some, l14, hV.phs, crng_src]
  rintro d2 ⟨loc, h⟩ ⟨hL, hi⟩
  refine Sim.bind (a := (whileBody47.drop 7).take 1) (b := whileBody47.drop 8)
    (P := fun d st => In47 C R j i sl s st.loc ∧ D.Inv st.heap (obsV { o with rng := d1, phs := d2, dpl := d })) ?_ ?_
  · have hL' := hL.1
    simp only [W47, R47.loc, C47.base, Has.cons] at hL'
    obtain ⟨l1, l2, l3, l4, l5, l6, l7, l8, l9, l10, l11, l12, l13, l14, l15, -⟩ := hL'
    obtain ⟨g1, g2, g3, g4⟩ := hL.2.lib
    have e0 : (sgn47F C.m.sgn).lookup n!"phase_rate_fine" = some (intTup C.m.sgn.phase_rate_fine) := rfl
    refine (opt_sim hC hi hL n!"phase_rate_ok" "dpl" n!"phase_rate_fine" .dpl _ _ _ _ _ _ l10 hV.okDpl e0 ?_ rfl).imp
      (fun d st hd => ⟨hd.1, by rw [obsV_dpl] at hd; exact hd.2⟩)
    intro f hf
    dsimp only at hi ⊢
    pyexec [l8, g2, g3, l12, hi.frame.at hC.bd, hi.frame.at hC.sgn, e0, l2, index_intTup, hf, Option.map_some, l14, hV.dpl]
  rintro d3 ⟨loc, h⟩ ⟨hL, hi⟩
  refine Sim.bind (a := (whileBody47.drop 8).take 2) (b := whileBody47.drop 10)
    (P := fun d st => In47 C R j i sl s st.loc ∧ D.Inv st.heap (obsV { o with rng := d1, phs := d2, dpl := d3, ltm := d })) ?_ ?_
  · have hL' := hL.1
    simp only [W47, R47.loc, C47.base, Has.cons] at hL'
    obtain ⟨l1, l2, l3, l4, l5, l6, l7, l8, l9, l10, l11, l12, l13, l14, l15, -⟩ := hL'
    obtain ⟨g1, g2, g3, g4⟩ := hL.2.lib
    have e0 : (sgn47F C.m.sgn).lookup n!"lock_time" = some (natTup C.m.sgn.lock_time) := rfl
    obtain ⟨u, hu1, hu2⟩ := hV.ltm
    refine (val_sim hC hi hL .ltm _ _ _ _ _ ?_ ?_ rfl).imp
      (fun d st hd => ⟨hd.1, by rw [obsV_ltm] at hd; exact hd.2⟩)
    · intro f hf
      dsimp only at hi ⊢
      pyexec [g2, g3, l12, hi.frame.at hC.bd, hi.frame.at hC.sgn, e0, l2, index_natTup, tupAt_ok hf, Option.map_some, l14, hu1, hu2]
    · intro e hf
      dsimp only at hi ⊢
      pyexec [g2, g3, l12, hi.frame.at hC.bd, hi.frame.at hC.sgn, e0, l2, index_natTup, tupAt_err hf, Option.map_none, l14, hu1, hu2]
  rintro d4 ⟨loc, h⟩ ⟨hL, hi⟩
  refine Sim.bind (a := (whileBody47.drop 10).take 2) (b := whileBody47.drop 12)
    (P := fun d st => In47 C R j i sl s st.loc ∧ D.Inv st.heap (obsV { o with rng := d1, phs := d2, dpl := d3, ltm := d4, c2n := d })) ?_ ?_
  · have hL' := hL.1
    simp only [W47, R47.loc, C47.base, Has.cons] at hL'
    obtain ⟨l1, l2, l3, l4, l5, l6, l7, l8, l9, l10, l11, l12, l13, l14, l15, -⟩ := hL'
    obtain ⟨g1, g2, g3, g4⟩ := hL.2.lib
    have e0 : (sgn47F C.m.sgn).lookup n!"c2n" = some (natTup C.m.sgn.c2n) := rfl
    obtain ⟨u, hu1, hu2⟩ := hV.c2n
    refine (val_sim hC hi hL .c2n _ _ _ _ _ ?_ ?_ rfl).imp
      (fun d st hd => ⟨hd.1, by rw [obsV_c2n] at hd; exact hd.2⟩)
    · intro f hf
      dsimp only at hi ⊢
      pyexec [g2, g3, l12, hi.frame.at hC.bd, hi.frame.at hC.sgn, e0, l2, index_natTup, tupAt_ok hf, Option.map_some, l14, hu1, hu2, Int.cast_natCast]
    · intro e hf
      dsimp only at hi ⊢
      pyexec [g2, g3, l12, hi.frame.at hC.bd, hi.frame.at hC.sgn, e0, l2, index_natTup, tupAt_err hf, Option.map_none, l14, hu1, hu2, Int.cast_natCast]
  rintro d5 ⟨loc, h⟩ ⟨hL, hi⟩
  refine Sim.bind (a := (whileBody47.drop 12).take 2) (b := whileBody47.drop 14)
    (P := fun d st => In47 C R j i sl s st.loc ∧ D.Inv st.heap (obsV { o with rng := d1, phs := d2, dpl := d3, ltm := d4, c2n := d5, hca := d })) ?_ ?_
  · have hL' := hL.1
    simp only [W47, R47.loc, C47.base, Has.cons] at hL'
    obtain ⟨l1, l2, l3, l4, l5, l6, l7, l8, l9, l10, l11, l12, l13, l14, l15, -⟩ := hL'
    obtain ⟨g1, g2, g3, g4⟩ := hL.2.lib
    have e0 : (sgn47F C.m.sgn).lookup n!"hc_indc" = some (natTup C.m.sgn.hc_indc) := rfl
    refine (val_sim hC hi hL .hca _ _ _ _ _ ?_ ?_ rfl).imp
      (fun d st hd => ⟨hd.1, by rw [obsV_hca] at hd; exact hd.2⟩)
    · intro f hf
      dsimp only at hi ⊢
      pyexec [g2, g3, l12, hi.frame.at hC.bd, hi.frame.at hC.sgn, e0, l2, index_natTup, tupAt_ok hf, Option.map_some, l14, natCast_ne0]
    · intro e hf
      dsimp only at hi ⊢
      pyexec [g2, g3, l12, hi.frame.at hC.bd, hi.frame.at hC.sgn, e0, l2, index_natTup, tupAt_err hf, Option.map_none, l14, natCast_ne0]
  rintro d6 ⟨loc, h⟩ ⟨hL, hi⟩
  have l2 := (Has.cons.1 (Has.cons.1 hL.1).2).1
  refine Sim.ok (st := ⟨M.bindKey loc n!"sgn_idx" (.int ((j + 1 : Nat) : Int)), h⟩) ?_ ⟨?_, hi⟩
  · simp only [whileBody47, Src.fn_Bare2Scaled_convert_obs47, List.getElem?_cons_succ, List.getElem?_cons_zero, List.drop_succ_cons, List.drop_zero]
    pyexec [l2, Nat.cast_add, Nat.cast_one]
  · refine ⟨?_, hL.2.set _ _ rfl⟩
    have hL' := hL.1
    unfold W47 at hL' ⊢
    rw [Has.cons, Has.cons] at hL' ⊢
    refine ⟨?_, ?_, hL'.2.2.set _ _ rfl⟩
    · rw [lookup_bindKey, if_neg (by decide)]; exact hL'.1
    · rw [lookup_bindKey, beq_self_eq_true]; rfl

/-- Locals at the beginning of a round. -/
def At47 (C : C47) (R : R47) (j i sl : Nat) (loc : Fields) : Prop := Has loc (W47 C R j i sl) ∧ Free loc libNames

/-- A round of the loop over the signals. -/
theorem round47 (hC : C.Ok D call) (hV : ScVals call C.sv C.cv C.sc) (hi : D.Inv h (obsV o)) (hL : At47 C R j i sl loc) :
    match body47R rnd C.m C.sc C.sgns R.sat R.rok R.rng R.pok R.pr i (sl &&& 1 != 0) (j, o) with
    | .ok x => ∃ fl st, execBlock src n call whileBody47 ⟨loc, h⟩ = (.ok fl, st) ∧ (fl = .next ∨ fl = .cont) ∧
        At47 C R x.1 (i + 1) (sl >>> 1) st.loc ∧ D.Inv st.heap (obsV x.2)
    | .error _ => ∃ c st, execBlock src n call whileBody47 ⟨loc, h⟩ = (.error (.py c), st) ∧ catches src c n!"Exception" = true ∧ D.Frame st.heap := by
  have hL' := hL.1
  simp only [W47, R47.loc, C47.base, Has.cons] at hL'
  obtain ⟨l2, l3, l4, l5, l6, l7, l8, l9, l10, l11, l12, l13, l14, l15, -⟩ := hL'
  rw [body47_steps, body_split]
  cases hv : tupAt C.sgns i with
  | error e =>
    refine ⟨n!"IndexError", ⟨loc, h⟩, ?_, catches_index, hi.frame⟩
    simp only [whileBody47, Src.fn_Bare2Scaled_convert_obs47, List.getElem?_cons_succ, List.getElem?_cons_zero, List.take_succ_cons, List.cons_append]
    pyexec [l11, hi.frame.at hC.self, l3, index_strTup, tupAt_err hv, Option.map_none]
  | ok s =>
    have e2 : (i : Int) + (1 : Int) = ((i + 1 : Nat) : Int) := rfl
    have e3 : Int.land (sl : Int) (1 : Int) = ((sl &&& 1 : Nat) : Int) := rfl
    have e4 : (sl : Int) / (2 : Int) ^ 1 = ((sl >>> 1 : Nat) : Int) := by rw [Nat.shiftRight_eq_div_pow]; rfl
    have hL3 : In47 C R j (i + 1) (sl >>> 1) s (M.bindKey (M.bindKey (M.bindKey (M.bindKey loc n!"sgn" (.str s)) n!"i" (.int ((i + 1 : Nat) : Int)))
        n!"slotExist" (.int ((sl &&& 1 : Nat) : Int))) n!"slots" (.int ((sl >>> 1 : Nat) : Int))) := by
      refine ⟨?_, (((hL.2.set _ _ rfl).set _ _ rfl).set _ _ rfl).set _ _ rfl⟩
      simp only [W47, R47.loc, C47.base, Has.cons, lookup_bindKey, ident_beq, Nat.reduceBEq, Bool.false_eq_true, if_false, if_true, l2, l5, l6, l7, l8, l9, l10,
        l11, l12, l13, l14, l15, true_and, Has.nil]
    have hpre : ∀ rest, execBlock src n call (whileBody47.take 5 ++ rest) ⟨loc, h⟩ = if (sl &&& 1 != 0) = false then
        (.ok .cont, ⟨M.bindKey (M.bindKey (M.bindKey (M.bindKey loc n!"sgn" (.str s)) n!"i" (.int ((i + 1 : Nat) : Int)))
        n!"slotExist" (.int ((sl &&& 1 : Nat) : Int))) n!"slots" (.int ((sl >>> 1 : Nat) : Int)), h⟩) else
        execBlock src n call rest ⟨M.bindKey (M.bindKey (M.bindKey (M.bindKey loc n!"sgn" (.str s)) n!"i" (.int ((i + 1 : Nat) : Int)))
        n!"slotExist" (.int ((sl &&& 1 : Nat) : Int))) n!"slots" (.int ((sl >>> 1 : Nat) : Int)), h⟩ := by
      intro rest
      have e5 : (((sl &&& 1 : Nat) : Int) == (0 : Int)) = !(sl &&& 1 != 0) := by
        rw [show (0 : Int) = ((0 : Nat) : Int) from rfl, natCast_beq]; unfold bne; rw [Bool.not_not]
      simp only [whileBody47, Src.fn_Bare2Scaled_convert_obs47, List.getElem?_cons_succ, List.getElem?_cons_zero, List.take_succ_cons, List.take_zero,
        List.cons_append, List.nil_append]
      cases hb : (sl &&& 1 != 0)
      all_goals
        pyexec [l11, hi.frame.at hC.self, l3, index_strTup, tupAt_ok hv, Option.map_some, lookup_bindKey, e2, l4, e3, e4, e5, hb, Bool.not_false,
          Bool.not_true, Bool.true_eq_false, if_false, if_true]
    rw [hpre]
    cases hb : (sl &&& 1 != 0) with
    | false =>
      refine ⟨.cont, _, rfl, .inr rfl, ⟨(Has.cons.1 hL3.1).2, hL3.2⟩, hi⟩
    | true =>
      rw [if_neg (by decide)]
      have hr := rest_sim (n := n) hC hV hi hL3
      rw [show ∀ (f : String → Py (Nat × Obs)), ((Except.ok s : Py String) >>= f) = f s from fun _ => rfl]
      simp only [Bool.true_eq_false, if_false]
      generalize hm : (stepOpt R.rok C.m.sgn.rng_fine j C.sc.okRng (fun f => rnd (rnd (R.rng + rnd (rnd (f : Rat) * C.sc.rng)) * crngR rnd)) o.rng s R.sat >>= _) = m at hr ⊢
      cases m with
      | error e => exact hr
      | ok x =>
        obtain ⟨st, h1, h2, h3⟩ := hr
        exact ⟨.next, st, h1, .inl rfl, ⟨(Has.cons.1 h2.1).2, h2.2⟩, h3⟩
end

end Refine
end PyCore
end Verif
