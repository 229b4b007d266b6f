import Verif.Refine.BaseGlbs

/-!
# The text of `__decode` of sub_decoders/RTCM_BASE.py
-/

namespace Verif
namespace PyCore
namespace Refine
open Base

open Rounding (rnd)
variable [Rounding]

theorem baseMsgNum_src (n : Nat) {h : Heap} {a : Nat} (ha : BaseSelf h a) (buf : Bytes) :
    callFn src (n + 2) n!"BaseStationDataDecoder.get_msg_num" [.ref a, .bytes buf] h =
      ofModel (fun v : Nat => .int v) h (Base.getMsgNum buf) := by
  obtain ⟨l, ha⟩ := ha
  pycall Look.fn_BaseStationDataDecoder_get_msg_num Src.fn_BaseStationDataDecoder_get_msg_num
  have h1 := getbitu_src n n!"BaseStationDataDecoder" baseClass buf 24 12 h
  unfold Base.getMsgNum Bits.gbu
  cases hv : Bits.getbitu buf (24 : Nat) (12 : Nat) with
  | error e =>
    erw [hv] at h1
    pyexec [ha, instAttr_none _ _ _ _ _ _ (show n!"getbitu" ≠ n!"__class__" by decide), baseClass.getbitu, h1]
  | ok v =>
    erw [hv] at h1
    pyexec [ha, instAttr_none _ _ _ _ _ _ (show n!"getbitu" ≠ n!"__class__" by decide), baseClass.getbitu, h1]

theorem decodeBareR_def (buf : Bytes) : decodeBareR rnd buf = (do
    let msgNum ← Base.getMsgNum buf
    if msgNum = 1005 then decode10056 buf
    else if msgNum = 1006 then decode10056 buf
    else if msgNum = 1007 then decode10078_1033 buf
    else if msgNum = 1008 then decode10078_1033 buf
    else if msgNum = 1033 then decode10078_1033 buf
    else if msgNum = 1013 then decode1013R rnd buf
    else if msgNum = 1029 then decode1029 buf
    else if msgNum = 1230 then decode1230 buf
    else .error .baseDecoder) := by
  unfold decodeBareR decodeBare
  cases Base.getMsgNum buf with
  | error e => rfl
  | ok v =>
    change (if v = 1013 then _ else if v = 1005 then _ else _) = (if v = 1005 then _ else _)
    by_cases h : v = 1013
    · subst h
      rfl
    · rw [if_neg h, if_neg h, if_neg h]

theorem baseDecodeBare_src (n : Nat) {h : Heap} {a : Nat} (ha : BaseSelf h a) (buf : Bytes) :
    Builds BareShown h (callFn src (n + 4) n!"BaseStationDataDecoder.__decode" [.ref a, .bytes buf] h) (decodeBareR rnd buf) := by
  pycall Look.fn_BaseStationDataDecoder_P_decode Src.fn_BaseStationDataDecoder_P_decode
  have h1 := baseMsgNum_src (n + 1) ha buf
  obtain ⟨l, ha'⟩ := ha
  rw [decodeBareR_def]
  cases hv : Base.getMsgNum buf with
  | error e =>
    rw [hv] at h1
    refine ⟨[], ?_⟩
    rw [List.append_nil]
    pyexec [ha', h1]
  | ok v =>
    rw [hv] at h1
    show Builds _ _ _ (if v = 1005 then _ else _)
    by_cases h1005 : v = 1005
    · rw [if_pos h1005]
      have e1005 : ((v : Int) == (1005 : Int)) = true := by rw [beq_iff_eq]; omega
      have hc := decode10056_src n ⟨l, ha'⟩ buf
      generalize hr : callFn src (n + 3) n!"BaseStationDataDecoder.__decode10056" [.ref a, .bytes buf] h = r at hc
      obtain ⟨r, h'⟩ := r
      refine cast (congrArg (fun r => Builds _ _ r _) ?_) hc
      cases r <;> pyexec [ha', h1, e1005, hr]
    have e1005 : ((v : Int) == (1005 : Int)) = false := by rw [beq_eq_false_iff_ne]; omega
    rw [if_neg h1005]
    by_cases h1006 : v = 1006
    · rw [if_pos h1006]
      have e1006 : ((v : Int) == (1006 : Int)) = true := by rw [beq_iff_eq]; omega
      have hc := decode10056_src n ⟨l, ha'⟩ buf
      generalize hr : callFn src (n + 3) n!"BaseStationDataDecoder.__decode10056" [.ref a, .bytes buf] h = r at hc
      obtain ⟨r, h'⟩ := r
      refine cast (congrArg (fun r => Builds _ _ r _) ?_) hc
      cases r <;> pyexec [ha', h1, e1005, e1006, hr]
    have e1006 : ((v : Int) == (1006 : Int)) = false := by rw [beq_eq_false_iff_ne]; omega
    rw [if_neg h1006]
    by_cases h1007 : v = 1007
    · rw [if_pos h1007]
      have e1007 : ((v : Int) == (1007 : Int)) = true := by rw [beq_iff_eq]; omega
      have hc := decode10078_src n ⟨l, ha'⟩ buf
      generalize hr : callFn src (n + 3) n!"BaseStationDataDecoder.__decode10078_1033" [.ref a, .bytes buf] h = r at hc
      obtain ⟨r, h'⟩ := r
      refine cast (congrArg (fun r => Builds _ _ r _) ?_) hc
      cases r <;> pyexec [ha', h1, e1005, e1006, e1007, hr]
    have e1007 : ((v : Int) == (1007 : Int)) = false := by rw [beq_eq_false_iff_ne]; omega
    rw [if_neg h1007]
    by_cases h1008 : v = 1008
    · rw [if_pos h1008]
      have e1008 : ((v : Int) == (1008 : Int)) = true := by rw [beq_iff_eq]; omega
      have hc := decode10078_src n ⟨l, ha'⟩ buf
      generalize hr : callFn src (n + 3) n!"BaseStationDataDecoder.__decode10078_1033" [.ref a, .bytes buf] h = r at hc
      obtain ⟨r, h'⟩ := r
      refine cast (congrArg (fun r => Builds _ _ r _) ?_) hc
      cases r <;> pyexec [ha', h1, e1005, e1006, e1007, e1008, hr]
    have e1008 : ((v : Int) == (1008 : Int)) = false := by rw [beq_eq_false_iff_ne]; omega
    rw [if_neg h1008]
    by_cases h1033 : v = 1033
    · rw [if_pos h1033]
      have e1033 : ((v : Int) == (1033 : Int)) = true := by rw [beq_iff_eq]; omega
      have hc := decode10078_src n ⟨l, ha'⟩ buf
      generalize hr : callFn src (n + 3) n!"BaseStationDataDecoder.__decode10078_1033" [.ref a, .bytes buf] h = r at hc
      obtain ⟨r, h'⟩ := r
      refine cast (congrArg (fun r => Builds _ _ r _) ?_) hc
      cases r <;> pyexec [ha', h1, e1005, e1006, e1007, e1008, e1033, hr]
    have e1033 : ((v : Int) == (1033 : Int)) = false := by rw [beq_eq_false_iff_ne]; omega
    rw [if_neg h1033]
    by_cases h1013 : v = 1013
    · rw [if_pos h1013]
      have e1013 : ((v : Int) == (1013 : Int)) = true := by rw [beq_iff_eq]; omega
      have hc := decode1013_src n ⟨l, ha'⟩ buf
      generalize hr : callFn src (n + 3) n!"BaseStationDataDecoder.__decode1013" [.ref a, .bytes buf] h = r at hc
      obtain ⟨r, h'⟩ := r
      refine cast (congrArg (fun r => Builds _ _ r _) ?_) hc
      cases r <;> pyexec [ha', h1, e1005, e1006, e1007, e1008, e1033, e1013, hr]
    have e1013 : ((v : Int) == (1013 : Int)) = false := by rw [beq_eq_false_iff_ne]; omega
    rw [if_neg h1013]
    by_cases h1029 : v = 1029
    · rw [if_pos h1029]
      have e1029 : ((v : Int) == (1029 : Int)) = true := by rw [beq_iff_eq]; omega
      have hc := decode1029_src n ⟨l, ha'⟩ buf
      generalize hr : callFn src (n + 3) n!"BaseStationDataDecoder.__decode1029" [.ref a, .bytes buf] h = r at hc
      obtain ⟨r, h'⟩ := r
      refine cast (congrArg (fun r => Builds _ _ r _) ?_) hc
      cases r <;> pyexec [ha', h1, e1005, e1006, e1007, e1008, e1033, e1013, e1029, hr]
    have e1029 : ((v : Int) == (1029 : Int)) = false := by rw [beq_eq_false_iff_ne]; omega
    rw [if_neg h1029]
    by_cases h1230 : v = 1230
    · rw [if_pos h1230]
      have e1230 : ((v : Int) == (1230 : Int)) = true := by rw [beq_iff_eq]; omega
      have hc := decode1230_src n ⟨l, ha'⟩ buf
      generalize hr : callFn src (n + 3) n!"BaseStationDataDecoder.__decode1230" [.ref a, .bytes buf] h = r at hc
      obtain ⟨r, h'⟩ := r
      refine cast (congrArg (fun r => Builds _ _ r _) ?_) hc
      cases r <;> pyexec [ha', h1, e1005, e1006, e1007, e1008, e1033, e1013, e1029, e1230, hr]
    have e1230 : ((v : Int) == (1230 : Int)) = false := by rw [beq_eq_false_iff_ne]; omega
    rw [if_neg h1230]
    refine ⟨[], ?_⟩
    rw [List.append_nil]
    pyexec [ha', h1, e1005, e1006, e1007, e1008, e1033, e1013, e1029, e1230]
    rfl

end Refine
end PyCore
end Verif
