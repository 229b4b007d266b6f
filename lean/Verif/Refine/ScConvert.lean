import Verif.Refine.ScInit

/-! # `Bare2Scaled.convert`, sub_decoders/RTCM_MSM.py:382-445: the header -/

namespace Verif
namespace PyCore
namespace Refine
open Verif.Msm Verif.RtcmUtil

open Rounding (rnd)
variable [Rounding]

/-- Fields of a message. -/
def bdF (aA aH aT aG : Nat) : Fields := [(n!"atr", .ref aA), (n!"hdr", .ref aH), (n!"sat", .ref aT), (n!"sgn", .ref aG)]

/-- `time` of a message. -/
def timeOf (x : Attributes) (hd : BareHdr) : Nat := if x.gnss = "R" then hd.time &&& 0x7FFFFFF else hd.time
/-- `day` of a message. -/
def dayOf (x : Attributes) (hd : BareHdr) : Nat := if x.gnss = "R" then (hd.time >>> 27) &&& 0x07 else 0

theorem int_shr27 (t : Nat) : (t : Int) / (2 : Int) ^ 27 = ((t >>> 27 : Nat) : Int) := by
  rw [Nat.shiftRight_eq_div_pow]; norm_cast

section
variable {h : Heap} {b aA aH aT aG : Nat} {x : Attributes} {hd : BareHdr}
  (h2 : h[aA]? = some (.inst n!"Attributes" (atrF x))) (h3 : h[aH]? = some (.inst n!"_BareObservablesHdrMSM" (hdrF hd)))
include h2 h3

theorem time47_at (n : Nat) (h1 : h[b]? = some (.inst n!"BareObservablesMSM4567" (bdF aA aH aT aG))) :
    callFn src (n + 1) n!"BareObservablesMSM4567.time" [.ref b] h = (.ok (.int (timeOf x hd)), h) := by
  pycall Look.fn_BareObservablesMSM4567_time Src.fn_BareObservablesMSM4567_time
  have e1 : (hdrF hd).lookup n!"time" = some (.int hd.time) := rfl
  have e2 : (atrF x).lookup n!"gnss" = some (.str x.gnss) := rfl
  unfold timeOf
  by_cases hg : x.gnss = "R"
  · rw [if_pos hg]
    pyexec [h1, h2, h3, e1, e2, hg, bdF, beq_self_eq_true]
    rfl
  · have hg' : (x.gnss == "R") = false := by rw [beq_eq_false_iff_ne]; exact hg
    rw [if_neg hg]
    pyexec [h1, h2, h3, e1, e2, hg', bdF]
theorem day47_at (n : Nat) (h1 : h[b]? = some (.inst n!"BareObservablesMSM4567" (bdF aA aH aT aG))) :
    callFn src (n + 1) n!"BareObservablesMSM4567.day" [.ref b] h = (.ok (.int (dayOf x hd)), h) := by
  pycall Look.fn_BareObservablesMSM4567_day Src.fn_BareObservablesMSM4567_day
  have e1 : (hdrF hd).lookup n!"time" = some (.int hd.time) := rfl
  have e2 : (atrF x).lookup n!"gnss" = some (.str x.gnss) := rfl
  unfold dayOf
  by_cases hg : x.gnss = "R"
  · rw [if_pos hg]
    pyexec [h1, h2, h3, e1, e2, hg, bdF, beq_self_eq_true]
    rw [int_shr27]
    rfl
  · have hg' : (x.gnss == "R") = false := by rw [beq_eq_false_iff_ne]; exact hg
    rw [if_neg hg]
    pyexec [h1, h2, h3, e1, e2, hg', bdF]
    rfl
theorem time13_at (n : Nat) (h1 : h[b]? = some (.inst n!"BareObservablesMSM123" (bdF aA aH aT aG))) :
    callFn src (n + 1) n!"BareObservablesMSM123.time" [.ref b] h = (.ok (.int (timeOf x hd)), h) := by
  pycall Look.fn_BareObservablesMSM123_time Src.fn_BareObservablesMSM123_time
  have e1 : (hdrF hd).lookup n!"time" = some (.int hd.time) := rfl
  have e2 : (atrF x).lookup n!"gnss" = some (.str x.gnss) := rfl
  unfold timeOf
  by_cases hg : x.gnss = "R"
  · rw [if_pos hg]
    pyexec [h1, h2, h3, e1, e2, hg, bdF, beq_self_eq_true]
    rfl
  · have hg' : (x.gnss == "R") = false := by rw [beq_eq_false_iff_ne]; exact hg
    rw [if_neg hg]
    pyexec [h1, h2, h3, e1, e2, hg', bdF]
theorem day13_at (n : Nat) (h1 : h[b]? = some (.inst n!"BareObservablesMSM123" (bdF aA aH aT aG))) :
    callFn src (n + 1) n!"BareObservablesMSM123.day" [.ref b] h = (.ok (.int (dayOf x hd)), h) := by
  pycall Look.fn_BareObservablesMSM123_day Src.fn_BareObservablesMSM123_day
  have e1 : (hdrF hd).lookup n!"time" = some (.int hd.time) := rfl
  have e2 : (atrF x).lookup n!"gnss" = some (.str x.gnss) := rfl
  unfold dayOf
  by_cases hg : x.gnss = "R"
  · rw [if_pos hg]
    pyexec [h1, h2, h3, e1, e2, hg, bdF, beq_self_eq_true]
    rw [int_shr27]
    rfl
  · have hg' : (x.gnss == "R") = false := by rw [beq_eq_false_iff_ne]; exact hg
    rw [if_neg hg]
    pyexec [h1, h2, h3, e1, e2, hg', bdF]
    rfl
end

/-- The message is in the heap. -/
structure BareAt (H : Heap) (K : Ident) (b aA aH aT aG : Nat) (x : Attributes) (hd : BareHdr) : Prop where
  cls : K = n!"BareObservablesMSM4567" ∨ K = n!"BareObservablesMSM123"
  bd : ∀ X, (H ++ X)[b]? = some (.inst K (bdF aA aH aT aG))
  atr : ∀ X, (H ++ X)[aA]? = some (.inst n!"Attributes" (atrF x))
  hdr : ∀ X, (H ++ X)[aH]? = some (.inst n!"_BareObservablesHdrMSM" (hdrF hd))

/-- The scaler and the observables after the header has been converted. -/
def headObjs (c aA : Nat) (sgns slots satl sig sats : Val) (x : Attributes) (hd : BareHdr) : List Obj :=
  scObj sgns slots satl :: rvObjs (c + 1) (.ref aA) sig sats (.int (timeOf x hd)) (.int (dayOf x hd)) (.int hd.rs_id) (.int hd.MMB) (.int hd.IODS)
    (codeD (.int hd.clk_steer) (.str (unpackClkSteer hd.clk_steer))) (codeD (.int hd.clk_ext) (.str (unpackClkExt hd.clk_ext)))
    (codeD (.int hd.smth_indc) (.str (unpackSmthIndc hd.smth_indc))) (codeD (.int hd.smth_intr) (.str (unpackSmthIntr hd.smth_intr)))

section
variable {H : Heap} {K : Ident} {b aA aH aT aG : Nat} {x : Attributes} {hd : BareHdr} (hb : BareAt H K b aA aH aT aG x hd)
include hb

theorem convert_unknown (n : Nat) (s : Obj) (hx : x.gnss = "") :
    callFn src (n + 4) n!"Bare2Scaled.convert" [.ref H.length, .ref b] (H ++ [s]) = (.ok .none, H ++ [s]) := by
  pycall Look.fn_Bare2Scaled_convert Src.fn_Bare2Scaled_convert
  have e2 : (atrF x).lookup n!"gnss" = some (.str x.gnss) := rfl
  obtain ⟨rfl | rfl, h1, h2, h3⟩ := hb
  · have s1 : subclass src n!"BareObservablesMSM4567" n!"BareObservablesMSM4567" = true := rfl
    have s2 : subclass src n!"BareObservablesMSM4567" n!"BareObservablesMSM123" = false := rfl
    pyexec [h1, h2, e2, bdF, hx, beq_self_eq_true, s1, s2, Bool.or_false, Bool.false_or, Bool.or_true, Bool.not_true]
  · have s1 : subclass src n!"BareObservablesMSM123" n!"BareObservablesMSM4567" = false := rfl
    have s2 : subclass src n!"BareObservablesMSM123" n!"BareObservablesMSM123" = true := rfl
    pyexec [h1, h2, e2, bdF, hx, beq_self_eq_true, s1, s2, Bool.or_false, Bool.false_or, Bool.or_true, Bool.not_true]

/-- Statements before the masks are examined. -/
theorem convert_head (n m : Nat) (rest : List Stmt) (s1 s2 s3 : Val) (hx : x.gnss ≠ "") :
    execBlock src m (callFn src (n + 4)) (Src.fn_Bare2Scaled_convert.body.take 17 ++ rest)
      ⟨[(n!"self", .ref H.length), (n!"src", .ref b)], H ++ [scObj s1 s2 s3]⟩ =
    execBlock src m (callFn src (n + 4)) rest
      ⟨[(n!"self", .ref H.length), (n!"src", .ref b), (n!"rv", .ref (H.length + 1))],
        H ++ headObjs H.length aA s1 s2 s3 (.ref (H.length + 10)) (.tup [.int 0]) x hd⟩ := by
  have e2 : (atrF x).lookup n!"gnss" = some (.str x.gnss) := rfl
  have hg' : (x.gnss == "") = false := by rw [beq_eq_false_iff_ne]; exact hx
  have r1 := rv_init (n + 1) (H ++ [scObj s1 s2 s3])
  simp only [List.length_append, List.length_cons, List.length_nil, Nat.zero_add, List.append_assoc, List.cons_append, List.nil_append, Nat.reduceAdd, scObj, Nat.add_assoc] at r1
  have f1 : (hdrF hd).lookup n!"rs_id" = some (.int hd.rs_id) := rfl
  have f2 : (hdrF hd).lookup n!"MMB" = some (.int hd.MMB) := rfl
  have f3 : (hdrF hd).lookup n!"IODS" = some (.int hd.IODS) := rfl
  have f4 : (hdrF hd).lookup n!"clk_steer" = some (.int hd.clk_steer) := rfl
  have f5 : (hdrF hd).lookup n!"clk_ext" = some (.int hd.clk_ext) := rfl
  have f6 : (hdrF hd).lookup n!"smth_indc" = some (.int hd.smth_indc) := rfl
  have f7 : (hdrF hd).lookup n!"smth_intr" = some (.int hd.smth_intr) := rfl
  have m4 : findMember src n!"MSMT" n!"unpack_clk_steer" = some (n!"MSMT", .static n!"MSMT.unpack_clk_steer") := rfl
  have m5 : findMember src n!"MSMT" n!"unpack_clk_ext" = some (n!"MSMT", .static n!"MSMT.unpack_clk_ext") := rfl
  have m6 : findMember src n!"MSMT" n!"unpack_smth_indc" = some (n!"MSMT", .static n!"MSMT.unpack_smth_indc") := rfl
  have m7 : findMember src n!"MSMT" n!"unpack_smth_intr" = some (n!"MSMT", .static n!"MSMT.unpack_smth_intr") := rfl
  simp only [Src.fn_Bare2Scaled_convert, List.take_succ_cons, List.take_zero, List.cons_append, List.nil_append]
  obtain ⟨rfl | rfl, h1, h2, h3⟩ := hb
  · have c1 : subclass src n!"BareObservablesMSM4567" n!"BareObservablesMSM4567" = true := rfl
    have c2 : subclass src n!"BareObservablesMSM4567" n!"BareObservablesMSM123" = false := rfl
    have t1 := fun X => time47_at (h2 X) (h3 X) (n + 3) (h1 X)
    have t2 := fun X => day47_at (h2 X) (h3 X) (n + 3) (h1 X)
    simp only [bdF] at h1
    pyexec [h1, h2, h3, e2, hg', c1, c2, Bool.or_false, Bool.false_or, Bool.or_true, Bool.not_true, r1, t1, t2, f1, f2, f3, f4, f5, f6, f7,
      getAttr_cls, m4, m5, m6, m7, rvObjs, scObj, ohdrF, oauxF, codeD, clk_steer_src, clk_ext_src, smth_indc_src, smth_intr_src, headObjs,
      Nat.add_assoc, List.append_assoc, List.cons_append, List.nil_append, Nat.reduceAdd, append_getElem0, append_set0, append_getElem,
      append_set, List.getElem?_cons_zero, List.getElem?_cons_succ, List.set_cons_zero, List.set_cons_succ]
    rfl
  · have c1 : subclass src n!"BareObservablesMSM123" n!"BareObservablesMSM4567" = false := rfl
    have c2 : subclass src n!"BareObservablesMSM123" n!"BareObservablesMSM123" = true := rfl
    have t1 := fun X => time13_at (h2 X) (h3 X) (n + 3) (h1 X)
    have t2 := fun X => day13_at (h2 X) (h3 X) (n + 3) (h1 X)
    simp only [bdF] at h1
    pyexec [h1, h2, h3, e2, hg', c1, c2, Bool.or_false, Bool.false_or, Bool.or_true, Bool.not_true, r1, t1, t2, f1, f2, f3, f4, f5, f6, f7,
      getAttr_cls, m4, m5, m6, m7, rvObjs, scObj, ohdrF, oauxF, codeD, clk_steer_src, clk_ext_src, smth_indc_src, smth_intr_src, headObjs,
      Nat.add_assoc, List.append_assoc, List.cons_append, List.nil_append, Nat.reduceAdd, append_getElem0, append_set0, append_getElem,
      append_set, List.getElem?_cons_zero, List.getElem?_cons_succ, List.set_cons_zero, List.set_cons_succ]
    rfl

end

end Refine
end PyCore
end Verif
