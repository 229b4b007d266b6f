import Verif.Refine.BaseCopy

/-!
# The text of the `__scale…` methods of sub_decoders/RTCM_BASE.py
-/

namespace Verif
namespace PyCore
namespace Refine
open Base

open Rounding (rnd)
variable [Rounding]

/-- `QC_VALUES`, sub_decoders/RTCM_BASE.py:94 -/
def qcVals : List Val := qcValues.map .str

theorem qc_index (i : Int) (s : St) : objIndex (.int i) (.list qcVals) s = match qcIndex i with
    | .ok x => (.ok (.str x), s)
    | .error e => (.error (.py (errName e)), s) := by
  show seqIndex qcVals i s = _
  unfold seqIndex qcIndex qcVals
  rw [List.length_map]
  have h4 : ((qcValues.length : Nat) : Int) = 4 := rfl
  rw [h4]
  dsimp only
  generalize (if i < 0 then i + 4 else i) = j
  by_cases h1 : j < 0
  · rw [if_pos h1, if_pos h1]
    rfl
  · rw [if_neg h1, if_neg h1, List.getElem?_map]
    cases qcValues[j.toNat]? <;> rfl

theorem hr4 : mkRat 1 10000 = e4 := by rw [Rat.mkRat_eq_div]; rfl

/-- A scaled `BaseRP`. -/
def rpScaled (o : BaseRP Int Int Int) (x : String) : BaseRP Bool Rat String where
  msgNum := o.msgNum
  bsID := o.bsID
  ITRF_Year := o.ITRF_Year
  GPS_OK := o.GPS_OK == 1
  GLO_OK := o.GLO_OK == 1
  GAL_OK := o.GAL_OK == 1
  isVirtual := o.isVirtual == 1
  refPoint_X := mulR rnd o.refPoint_X e4
  singleOsc := o.singleOsc == 1
  refPoint_Y := mulR rnd o.refPoint_Y e4
  QC_bias := x
  refPoint_Z := mulR rnd o.refPoint_Z e4

theorem scaleRP_src (n : Nat) (v : Val) {h : Heap} {a : Nat} {o : BaseRP Int Int Int} (ha : BareShown (.rp o) h a) :
    Builds ScaledBase h (callFn src (n + 3) n!"BaseStationDataDecoder.__scale10056" [v, .ref a] h) (Base.scaleR rnd (.rp o)) := by
  have ha : h[a]? = some (.inst n!"BaseRP" (rpFields .int .int .int o)) := ha
  rw [callFn_succ src _ _ _ _ _ _ Look.fn_BaseStationDataDecoder_P_scale10056 rfl]
  have hcp := copyRP_src n (h := h ++ [.list qcVals]) (heap_old ha _)
  have hq := qc_index o.QC_bias
  have hqv : Obj.list [Val.str "UNDEF", Val.str "CORRECTED", Val.str "NOT CORRECTED", Val.str "RESERVED"] = Obj.list qcVals := rfl
  unfold Src.fn_BaseStationDataDecoder_P_scale10056
  change Post _ _ (execBlock _ _ _ _ ⟨[(n!"cls", v), (n!"ibs", .ref a)], h⟩) _
  rw [List.append_assoc, List.singleton_append] at hcp
  rw [List.length_append, List.length_singleton] at hcp
  generalize (rpFields Val.int Val.int Val.int o).map itemOf = X at hcp
  unfold rpFields at ha hcp
  have hsub : subclass src n!"BaseRP" n!"BaseRPH" = false := rfl
  cases hx : qcIndex o.QC_bias with
  | error e =>
    rw [hx] at hq
    pyexec [ha, heap_old ha, hqv, hcp, append_getElem0, append_set0, append_getElem, append_set, List.getElem?_cons_zero, List.getElem?_cons_succ,
      List.set_cons_zero, List.set_cons_succ, hq]
    have hm : Base.scaleR rnd (.rp o) = .error e := by
      unfold Base.scaleR scaleRPR
      dsimp only
      rw [hx]
      rfl
    rw [hm]
    exact Post.error _
  | ok x =>
    rw [hx] at hq
    pyexec [ha, heap_old ha, hqv, hcp, append_getElem0, append_set0, append_getElem, append_set, List.getElem?_cons_zero, List.getElem?_cons_succ,
      List.set_cons_zero, List.set_cons_succ, hq, hr4, hsub]
    have hm : Base.scaleR rnd (.rp o) = .ok (.rp (rpScaled o x)) := by
      unfold Base.scaleR scaleRPR
      dsimp only
      rw [hx]
      rfl
    rw [hm]
    refine ⟨h.length + 1, _, rfl, by omega, ?_⟩
    change (h ++ _)[h.length + 1]? = _
    rw [append_getElem]
    rfl

theorem scaleRPH_src (n : Nat) (v : Val) {h : Heap} {a : Nat} {o : BaseRPH Int Int Int} (ha : BareShown (.rph o) h a) :
    Builds ScaledBase h (callFn src (n + 3) n!"BaseStationDataDecoder.__scale10056" [v, .ref a] h) (Base.scaleR rnd (.rph o)) := by
  have ha : h[a]? = some (.inst n!"BaseRPH" (rphFields .int .int .int o)) := ha
  rw [callFn_succ src _ _ _ _ _ _ Look.fn_BaseStationDataDecoder_P_scale10056 rfl]
  have hcp := copyRPH_src n (h := h ++ [.list qcVals]) (heap_old ha _)
  have hq := qc_index o.rp.QC_bias
  have hqv : Obj.list [Val.str "UNDEF", Val.str "CORRECTED", Val.str "NOT CORRECTED", Val.str "RESERVED"] = Obj.list qcVals := rfl
  unfold Src.fn_BaseStationDataDecoder_P_scale10056
  change Post _ _ (execBlock _ _ _ _ ⟨[(n!"cls", v), (n!"ibs", .ref a)], h⟩) _
  rw [List.append_assoc, List.singleton_append] at hcp
  rw [List.length_append, List.length_singleton] at hcp
  generalize (rphFields Val.int Val.int Val.int o).map itemOf = X at hcp
  unfold rphFields rpFields at ha hcp
  rw [List.cons_append, List.cons_append, List.cons_append, List.cons_append, List.cons_append, List.cons_append, List.cons_append, List.cons_append, List.cons_append, List.cons_append, List.cons_append, List.cons_append, List.nil_append] at ha hcp
  have hsub : subclass src n!"BaseRPH" n!"BaseRPH" = true := rfl
  cases hx : qcIndex o.rp.QC_bias with
  | error e =>
    rw [hx] at hq
    pyexec [ha, heap_old ha, hqv, hcp, append_getElem0, append_set0, append_getElem, append_set, List.getElem?_cons_zero, List.getElem?_cons_succ,
      List.set_cons_zero, List.set_cons_succ, hq]
    have hm : Base.scaleR rnd (.rph o) = .error e := by
      unfold Base.scaleR scaleRPR
      dsimp only
      rw [hx]
      rfl
    rw [hm]
    exact Post.error _
  | ok x =>
    rw [hx] at hq
    pyexec [ha, heap_old ha, hqv, hcp, append_getElem0, append_set0, append_getElem, append_set, List.getElem?_cons_zero, List.getElem?_cons_succ,
      List.set_cons_zero, List.set_cons_succ, hq, hr4, hsub]
    have hm : Base.scaleR rnd (.rph o) = .ok (.rph ⟨rpScaled o.rp x, mulR rnd o.height e4⟩) := by
      unfold Base.scaleR scaleRPR
      dsimp only
      rw [hx]
      rfl
    rw [hm]
    refine ⟨h.length + 1, _, rfl, by omega, ?_⟩
    change (h ++ _)[h.length + 1]? = _
    rw [append_getElem]
    rfl

end Refine
end PyCore
end Verif
