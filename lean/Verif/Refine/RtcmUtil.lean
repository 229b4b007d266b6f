import Verif.Refine.CRC24Q
import Verif.Model.RtcmUtil
import Mathlib.Tactic.Ring
import Mathlib.Tactic.Positivity

/-!
# utilities/RTCM_utilities.py: the functions of the source have the results of the model
-/

namespace Verif
namespace PyCore
namespace Refine

open Rounding (rnd)
variable [Rounding]

/-! ## Dictionaries in class bodies -/

/-- `d.get(k)` of a dictionary in a class body. -/
theorem stat_get {P : Prog} {c a : Ident} {d : List (Val × Val)} (ho : staticObj P c a = some (.dict d)) (k : Val) (s : St) :
    builtinMeth P (.stat c a) n!"get" [k] s = (.ok ((dictGet d k).getD .none), s) := by
  show M.seq (M.ofOption (staticObj P c a) s) _ = _
  rw [ho]
  rfl

/-- `if d` for a dictionary in a class body. -/
theorem stat_truth {P : Prog} {c a : Ident} {d : List (Val × Val)} (ho : staticObj P c a = some (.dict d)) (s : St) :
    truth P (.stat c a) s = (.ok (!d.isEmpty), s) := by
  show M.seq (M.ofOption (staticObj P c a) s) _ = _
  rw [ho]
  rfl

/-- `d[k]` of a dictionary in a class body. -/
theorem stat_index {P : Prog} {c a : Ident} {d : List (Val × Val)} (ho : staticObj P c a = some (.dict d)) (k : Val) (s : St) :
    indexVal P (.stat c a) k s = match dictGet d k with
      | some v => (.ok v, s)
      | none => (.error (.py n!"KeyError"), s) := by
  show M.seq (M.ofOption (staticObj P c a) s) _ = _
  rw [ho]
  show M.seq (Except.ok (Obj.dict d), s) _ = _
  rw [M.seq_ok]
  dsimp only
  cases dictGet d k <;> rfl

/-- Keys that are integers. -/
theorem dictGet_int {α : Type} (f : α → Val) (d : PyDict Int α) (k : Int) :
    dictGet (d.map (fun p => (.int p.1, f p.2))) (.int k) = (d.get? k).map f := by
  induction d with
  | nil => rfl
  | cons p d ih =>
    obtain ⟨x, v⟩ := p
    simp only [List.map_cons, dictGet, keyEq, pyEq_int, Option.getD_some, PyDict.get?, List.lookup_cons]
    by_cases hx : x = k
    · subst hx
      simp only [beq_self_eq_true, reduceIte, Option.map_some]
    · have h1 : (x == k) = false := by simpa using hx
      have h2 : (k == x) = false := by simpa using fun h => hx h.symm
      simp only [h1, h2, Bool.false_eq_true, reduceIte]
      exact ih

/-- Keys that are natural numbers in the model. -/
theorem dictGet_nat {α : Type} (f : α → Val) (d : PyDict Nat α) (k : Nat) :
    dictGet (d.map (fun p => (.int p.1, f p.2))) (.int k) = (d.get? k).map f := by
  induction d with
  | nil => rfl
  | cons p d ih =>
    obtain ⟨x, v⟩ := p
    simp only [List.map_cons, dictGet, keyEq, pyEq_int, Option.getD_some, PyDict.get?, List.lookup_cons]
    by_cases hx : x = k
    · subst hx
      simp only [beq_self_eq_true, reduceIte, Option.map_some]
    · have h1 : ((x : Int) == (k : Int)) = false := by simpa using hx
      have h2 : (k == x) = false := by simpa using fun h => hx h.symm
      simp only [h1, h2, Bool.false_eq_true, reduceIte]
      exact ih

/-- Keys that are texts. -/
theorem dictGet_str {α : Type} (f : α → Val) (d : PyDict String α) (k : String) :
    dictGet (d.map (fun p => (.str p.1, f p.2))) (.str k) = (d.get? k).map f := by
  induction d with
  | nil => rfl
  | cons p d ih =>
    obtain ⟨x, v⟩ := p
    simp only [List.map_cons, dictGet, keyEq, pyEq_str, Option.getD_some, PyDict.get?, List.lookup_cons]
    by_cases hx : x = k
    · subst hx
      simp only [beq_self_eq_true, reduceIte, Option.map_some]
    · have h1 : (x == k) = false := by simpa using hx
      have h2 : (k == x) = false := by simpa using fun h => hx h.symm
      simp only [h1, h2, Bool.false_eq_true, reduceIte]
      exact ih

theorem dictGet_str_none {α : Type} (f : α → Val) (d : PyDict String α) :
    dictGet (d.map (fun p => (.str p.1, f p.2))) .none = none := by
  induction d with
  | nil => rfl
  | cons p d ih => exact ih

/-! ## The tables -/

open RtcmUtil

theorem leg1_src : staticObj src n!"LEGT" n!"LEG1_MSG_LIST" = some (.dict (leg1MsgList.map (fun p => (.int p.1, .str p.2)))) := by rfl
theorem leg2_src : staticObj src n!"LEGT" n!"LEG2_MSG_LIST" = some (.dict (leg2MsgList.map (fun p => (.int p.1, .str p.2)))) := by rfl
theorem leg3_src : staticObj src n!"LEGT" n!"LEG3_MSG_LIST" = some (.dict (leg3MsgList.map (fun p => (.int p.1, .str p.2)))) := by rfl
theorem leg4_src : staticObj src n!"LEGT" n!"LEG4_MSG_LIST" = some (.dict (leg4MsgList.map (fun p => (.int p.1, .str p.2)))) := by rfl
theorem eph_src : staticObj src n!"EPHT" n!"EPH_MSG_LIST" = some (.dict (ephMsgList.map (fun p => (.int p.1, .str p.2)))) := by rfl
theorem msm7_src : staticObj src n!"MSMT" n!"MSM7_MSG_LIST" = some (.dict (msm7MsgList.map (fun p => (.int p.1, .str p.2)))) := by rfl
theorem msm6_src : staticObj src n!"MSMT" n!"MSM6_MSG_LIST" = some (.dict (msm6MsgList.map (fun p => (.int p.1, .str p.2)))) := by rfl
theorem msm5_src : staticObj src n!"MSMT" n!"MSM5_MSG_LIST" = some (.dict (msm5MsgList.map (fun p => (.int p.1, .str p.2)))) := by rfl
theorem msm4_src : staticObj src n!"MSMT" n!"MSM4_MSG_LIST" = some (.dict (msm4MsgList.map (fun p => (.int p.1, .str p.2)))) := by rfl
theorem msm3_src : staticObj src n!"MSMT" n!"MSM3_MSG_LIST" = some (.dict (msm3MsgList.map (fun p => (.int p.1, .str p.2)))) := by rfl
theorem msm2_src : staticObj src n!"MSMT" n!"MSM2_MSG_LIST" = some (.dict (msm2MsgList.map (fun p => (.int p.1, .str p.2)))) := by rfl
theorem msm1_src : staticObj src n!"MSMT" n!"MSM1_MSG_LIST" = some (.dict (msm1MsgList.map (fun p => (.int p.1, .str p.2)))) := by rfl

theorem gpsLit_src : staticObj src n!"MSMT" n!"_MSMT__GPS_LIT" = some (.dict (gpsLit.map (fun p => (.int p.1, .str p.2)))) := by rfl
theorem glnLit_src : staticObj src n!"MSMT" n!"_MSMT__GLN_LIT" = some (.dict (glnLit.map (fun p => (.int p.1, .str p.2)))) := by rfl
theorem galLit_src : staticObj src n!"MSMT" n!"_MSMT__GAL_LIT" = some (.dict (galLit.map (fun p => (.int p.1, .str p.2)))) := by rfl
theorem sbasLit_src : staticObj src n!"MSMT" n!"_MSMT__SBAS_LIT" = some (.dict (sbasLit.map (fun p => (.int p.1, .str p.2)))) := by rfl
theorem qzssLit_src : staticObj src n!"MSMT" n!"_MSMT__QZSS_LIT" = some (.dict (qzssLit.map (fun p => (.int p.1, .str p.2)))) := by rfl
theorem bdsLit_src : staticObj src n!"MSMT" n!"_MSMT__BDS_LIT" = some (.dict (bdsLit.map (fun p => (.int p.1, .str p.2)))) := by rfl
theorem navicLit_src : staticObj src n!"MSMT" n!"_MSMT__NAVIC_LIT" = some (.dict (navicLit.map (fun p => (.int p.1, .str p.2)))) := by rfl

theorem gpsCf_src : staticObj src n!"MSMT" n!"_MSMT__GPS_CF" = some (.dict (gpsCf.map (fun p => (.str p.1, .flt (rnd p.2))))) := by with_unfolding_all rfl
theorem glnCf_src : staticObj src n!"MSMT" n!"_MSMT__GLN_CF" = some (.dict (glnCf.map (fun p => (.str p.1, .flt (rnd p.2))))) := by with_unfolding_all rfl
theorem galCf_src : staticObj src n!"MSMT" n!"_MSMT__GAL_CF" = some (.dict (galCf.map (fun p => (.str p.1, .flt (rnd p.2))))) := by with_unfolding_all rfl
theorem sbasCf_src : staticObj src n!"MSMT" n!"_MSMT__SBAS_CF" = some (.dict (sbasCf.map (fun p => (.str p.1, .flt (rnd p.2))))) := by with_unfolding_all rfl
theorem qzssCf_src : staticObj src n!"MSMT" n!"_MSMT__QZSS_CF" = some (.dict (qzssCf.map (fun p => (.str p.1, .flt (rnd p.2))))) := by with_unfolding_all rfl
theorem bdsCf_src : staticObj src n!"MSMT" n!"_MSMT__BDS_CF" = some (.dict (bdsCf.map (fun p => (.str p.1, .flt (rnd p.2))))) := by with_unfolding_all rfl
theorem navicCf_src : staticObj src n!"MSMT" n!"_MSMT__NAVIC_CF" = some (.dict (navicCf.map (fun p => (.str p.1, .flt (rnd p.2))))) := by with_unfolding_all rfl

/-- The names of the tables of signals. -/
def litNames : PyDict String Ident :=
  [("G", n!"_MSMT__GPS_LIT"), ("R", n!"_MSMT__GLN_LIT"), ("E", n!"_MSMT__GAL_LIT"), ("S", n!"_MSMT__SBAS_LIT"),
   ("Q", n!"_MSMT__QZSS_LIT"), ("B", n!"_MSMT__BDS_LIT"), ("I", n!"_MSMT__NAVIC_LIT")]

/-- The names of the tables of carrier frequencies. -/
def cfNames : PyDict String Ident :=
  [("G", n!"_MSMT__GPS_CF"), ("R", n!"_MSMT__GLN_CF"), ("E", n!"_MSMT__GAL_CF"), ("S", n!"_MSMT__SBAS_CF"),
   ("Q", n!"_MSMT__QZSS_CF"), ("B", n!"_MSMT__BDS_CF"), ("I", n!"_MSMT__NAVIC_CF")]

theorem rinex_src : staticObj src n!"MSMT" n!"_MSMT__MSM2RINEX_TAB" =
    some (.dict (litNames.map (fun p => (.str p.1, .stat n!"MSMT" p.2)))) := by rfl
theorem cf_src : staticObj src n!"MSMT" n!"_RINEX_CF_TAB" =
    some (.dict (cfNames.map (fun p => (.str p.1, .stat n!"MSMT" p.2)))) := by rfl

/-! ## Types of messages -/

/-- A pair of texts as a value. -/
def pairVal (p : String × String) : Val := .tup [.str p.1, .str p.2]

theorem eph_subset_src (n : Nat) (num : Int) (h : Heap) :
    callFn src (n + 1) n!"EPHT.eph_subset" [.cls n!"EPHT", .int num] h = (.ok (pairVal (ephSubset num)), h) := by
  pycall Look.fn_EPHT_eph_subset Src.fn_EPHT_eph_subset
  unfold ephSubset tryTab
  pyexec [getAttr_cls, stat_get eph_src, dictGet_int]
  cases ephMsgList.get? num with
  | none => pyexec [Option.map_none, Option.getD_none]; rfl
  | some g =>
    by_cases hg : g = ""
    · subst hg; pyexec [Option.map_some, Option.getD_some]; rfl
    · have : (g != "") = true := by simpa using hg
      pyexec [Option.map_some, Option.getD_some, this, hg]; rfl

/-- No text in a table is empty. -/
theorem get_nonempty {d : PyDict Int String} (hd : ∀ p ∈ d, (p.2 != "") = true) {k : Int} {g : String} (hg : d.get? k = some g) :
    (g != "") = true ∧ g ≠ "" := by
  have h : (g != "") = true := by
    unfold PyDict.get? at hg
    obtain ⟨l₁, l₂, rfl, _⟩ := List.lookup_eq_some_iff.mp hg
    exact hd (k, g) (by simp)
  exact ⟨h, by simpa using h⟩

/-- One table after the other. -/
macro "subset_step" t:term:max e:term:max : tactic =>
  `(tactic| (
    rcases hg : PyDict.get? $t _ with _ | g
    rotate_left
    · obtain ⟨h1, h2⟩ := get_nonempty (by decide) hg
      pyexec [getAttr_cls, stat_get $e, dictGet_int, hg, Option.map_some, Option.getD_some, h1, h2]
      rfl
    pyexec [getAttr_cls, stat_get $e, dictGet_int, hg, Option.map_none, Option.getD_none]
    clear hg))

theorem legacy_subset_src (n : Nat) (num : Int) (h : Heap) :
    callFn src (n + 1) n!"LEGT.legacy_subset" [.cls n!"LEGT", .int num] h = (.ok (pairVal (legacySubset num)), h) := by
  pycall Look.fn_LEGT_legacy_subset Src.fn_LEGT_legacy_subset
  unfold legacySubset tryTab
  by_cases h1 : num < 1001
  · pyexec [h1, decide_true, true_or]; rfl
  by_cases h2 : 1012 < num
  · pyexec [h1, h2, decide_false, decide_true, or_true, gt_iff_lt]; rfl
  pyexec [h1, h2, decide_false, or_self, gt_iff_lt]
  subset_step leg1MsgList leg1_src
  subset_step leg2MsgList leg2_src
  subset_step leg3MsgList leg3_src
  subset_step leg4MsgList leg4_src
  rfl

theorem msm_subset_src (n : Nat) (num : Int) (h : Heap) :
    callFn src (n + 1) n!"MSMT.msm_subset" [.cls n!"MSMT", .int num] h = (.ok (pairVal (msmSubset num)), h) := by
  pycall Look.fn_MSMT_msm_subset Src.fn_MSMT_msm_subset
  unfold msmSubset tryTab
  by_cases h1 : num < 1071
  · pyexec [h1, decide_true, true_or]; rfl
  by_cases h2 : 1137 < num
  · pyexec [h1, h2, decide_false, decide_true, or_true, gt_iff_lt]; rfl
  pyexec [h1, h2, decide_false, or_self, gt_iff_lt]
  subset_step msm7MsgList msm7_src
  subset_step msm6MsgList msm6_src
  subset_step msm5MsgList msm5_src
  subset_step msm4MsgList msm4_src
  subset_step msm3MsgList msm3_src
  subset_step msm2MsgList msm2_src
  subset_step msm1MsgList msm1_src
  rfl

/-- `x in (…)` for integers. -/
theorem memList_int (x : Int) (l : List Int) (s : St) : memList (.int x) (l.map .int) s = (.ok (decide (x ∈ l)), s) := by
  induction l with
  | nil => rfl
  | cons y l ih =>
    simp only [List.map_cons, memList, pyEq_int]
    by_cases hy : y = x
    · subst hy
      simp only [beq_self_eq_true, List.mem_cons, true_or, decide_true]
      rfl
    · have h1 : (y == x) = false := by simpa using hy
      have h2 : ¬ x = y := fun h => hy h.symm
      simp only [h1, List.mem_cons, h2, false_or]
      exact ih

theorem getSubset_src (n : Nat) (num : Int) (h : Heap) :
    callFn src (n + 2) n!"getSubset" [.int num] h = (.ok (pairVal (getSubset num)), h) := by
  pycall Look.fn_getSubset Src.fn_getSubset
  unfold getSubset
  have m1 := memList_int num [1001, 1002, 1003, 1004, 1009, 1010, 1011, 1012]
  have m2 := memList_int num [1019, 1020]
  simp only [List.map_cons, List.map_nil] at m1 m2
  by_cases c1 : num ∈ ([1001, 1002, 1003, 1004, 1009, 1010, 1011, 1012] : List Int)
  · pyexec [m1, c1, decide_true, legacy_subset_src n, getAttr_cls, pairVal]
  by_cases c2 : num ∈ ([1019, 1020] : List Int)
  · pyexec [m1, c1, m2, c2, decide_false, decide_true, eph_subset_src n, getAttr_cls, pairVal]
  simp only [if_neg c1, if_neg c2]
  by_cases c3 : 1041 ≤ num
  · by_cases c4 : num ≤ 1046
    · pyexec [m1, c1, m2, c2, c3, c4, decide_false, decide_true, and_self, eph_subset_src n, getAttr_cls, pairVal]
    · by_cases c5 : 1071 ≤ num
      · by_cases c6 : num ≤ 1137
        · pyexec [m1, c1, m2, c2, c3, c4, c5, c6, decide_false, decide_true, and_self, and_false, msm_subset_src n, getAttr_cls, pairVal]
        · pyexec [m1, c1, m2, c2, c3, c4, c5, c6, decide_false, decide_true, and_self, and_false, getAttr_cls, pairVal]
      · pyexec [m1, c1, m2, c2, c3, c4, c5, decide_false, decide_true, and_self, and_false, false_and, getAttr_cls, pairVal]
  · have c5 : ¬ 1071 ≤ num := by omega
    pyexec [m1, c1, m2, c2, c3, c5, decide_false, decide_true, and_self, and_false, false_and, getAttr_cls, pairVal]

/-! ## Signals -/

/-- `None` or a text. -/
def optStr : Option String → Val
  | some s => .str s
  | none => .none

theorem getD_str (o : Option String) : (o.map Val.str).getD .none = optStr o := by cases o <;> rfl

/-- The lookup in the table of one system. -/
macro "lit_case" g:term:max d:term:max e:term:max hx:ident : tactic =>
  `(tactic| (
    subst $hx
    pyexec [getAttr_cls, stat_get rinex_src, dictGet_str, Option.map_some, Option.getD_some, stat_truth $e, stat_get $e, dictGet_nat,
      getD_str, show litNames.get? $g = some _ from rfl, show msm2RinexTab.get? $g = some $d from rfl,
      show (!List.isEmpty (($d).map (fun p : Nat × String => (Val.int p.1, Val.str p.2)))) = true from rfl]))

theorem lookup_none {α : Type} {l : PyDict String α} {k : String} (h : k ∉ l.map (·.1)) : l.get? k = none := by
  unfold PyDict.get?
  rw [List.lookup_eq_none_iff]
  intro p hp
  have : k ≠ p.1 := fun e => h (e ▸ List.mem_map_of_mem hp)
  simpa using this

theorem rnx_lit_src (n : Nat) (gnss : String) (code : Nat) (h : Heap) :
    callFn src (n + 1) n!"MSMT.rnx_lit" [.cls n!"MSMT", .str gnss, .int code] h = (.ok (optStr (rnxLit gnss code)), h) := by
  pycall Look.fn_MSMT_rnx_lit Src.fn_MSMT_rnx_lit
  unfold rnxLit
  by_cases hG : gnss = "G"
  · lit_case "G" gpsLit gpsLit_src hG
  by_cases hR : gnss = "R"
  · lit_case "R" glnLit glnLit_src hR
  by_cases hE : gnss = "E"
  · lit_case "E" galLit galLit_src hE
  by_cases hS : gnss = "S"
  · lit_case "S" sbasLit sbasLit_src hS
  by_cases hQ : gnss = "Q"
  · lit_case "Q" qzssLit qzssLit_src hQ
  by_cases hB : gnss = "B"
  · lit_case "B" bdsLit bdsLit_src hB
  by_cases hI : gnss = "I"
  · lit_case "I" navicLit navicLit_src hI
  have h1 : litNames.get? gnss = none := lookup_none (by simp [litNames, *])
  have h2 : msm2RinexTab.get? gnss = none := lookup_none (by simp [msm2RinexTab, *])
  pyexec [getAttr_cls, stat_get rinex_src, dictGet_str, h1, h2, Option.map_none, Option.getD_none]
  rfl

theorem dictGet_flt (d : PyDict String Rat) (k : String) :
    dictGet (d.map (fun p => (.str p.1, .flt (rnd p.2)))) (.str k) = (d.get? k).map (fun x => .flt (rnd x)) :=
  dictGet_str (fun x => Val.flt (rnd x)) d k

theorem dictGet_flt_none (d : PyDict String Rat) : dictGet (d.map (fun p => (.str p.1, .flt (rnd p.2)))) .none = none :=
  dictGet_str_none (fun x => Val.flt (rnd x)) d

/-- The lookup in the table of one system. -/
macro "cf_case" g:term:max d:term:max e:term:max hx:ident s:ident : tactic =>
  `(tactic| (
    subst $hx
    cases $s:ident with
    | none => pyexec [getAttr_cls, stat_index cf_src, dictGet_str, Option.map_some, stat_index $e, dictGet_flt_none, optStr,
        show cfNames.get? $g = some _ from rfl, show rinexCfTab.get? $g = some $d from rfl, errName]
    | some t =>
      cases hf : PyDict.get? $d t with
      | none => pyexec [getAttr_cls, stat_index cf_src, dictGet_str, dictGet_flt, Option.map_some, Option.map_none, stat_index $e, optStr,
          show cfNames.get? $g = some _ from rfl, show rinexCfTab.get? $g = some $d from rfl, hf, errName]
      | some f => pyexec [getAttr_cls, stat_index cf_src, dictGet_str, dictGet_flt, Option.map_some, stat_index $e, optStr,
          show cfNames.get? $g = some _ from rfl, show rinexCfTab.get? $g = some $d from rfl, hf]))

theorem crr_frq_src (n : Nat) (gnss : String) (sgn : Option String) (h : Heap) :
    callFn src (n + 1) n!"MSMT.crr_frq" [.cls n!"MSMT", .str gnss, optStr sgn] h = ofModel (fun f => .flt (rnd f)) h (crrFrq gnss sgn) := by
  pycall Look.fn_MSMT_crr_frq Src.fn_MSMT_crr_frq
  unfold crrFrq
  by_cases hG : gnss = "G"
  · cf_case "G" gpsCf gpsCf_src hG sgn
  by_cases hR : gnss = "R"
  · cf_case "R" glnCf glnCf_src hR sgn
  by_cases hE : gnss = "E"
  · cf_case "E" galCf galCf_src hE sgn
  by_cases hS : gnss = "S"
  · cf_case "S" sbasCf sbasCf_src hS sgn
  by_cases hQ : gnss = "Q"
  · cf_case "Q" qzssCf qzssCf_src hQ sgn
  by_cases hB : gnss = "B"
  · cf_case "B" bdsCf bdsCf_src hB sgn
  by_cases hI : gnss = "I"
  · cf_case "I" navicCf navicCf_src hI sgn
  have h1 : cfNames.get? gnss = none := lookup_none (by simp [cfNames, *])
  have h2 : rinexCfTab.get? gnss = none := lookup_none (by simp [rinexCfTab, *])
  pyexec [getAttr_cls, stat_index cf_src, dictGet_str, h1, h2, Option.map_none, errName]

/-! ## Fields of MSM -/

theorem natCast_beq (a b : Nat) : ((a : Int) == (b : Int)) = (a == b) := by
  rw [Bool.eq_iff_iff, beq_iff_eq, beq_iff_eq, Nat.cast_inj]

theorem clk_steer_src (n : Nat) (code : Nat) (h : Heap) :
    callFn src (n + 1) n!"MSMT.unpack_clk_steer" [.int code] h = (.ok (.str (unpackClkSteer code)), h) := by
  pycall Look.fn_MSMT_unpack_clk_steer Src.fn_MSMT_unpack_clk_steer
  rcases code with _ | _ | code
  · rfl
  · rfl
  · have h0 : (((code + 1 + 1 : Nat) : Int) == (0 : Int)) = false := by rw [beq_eq_false_iff_ne]; omega
    have h1 : (((code + 1 + 1 : Nat) : Int) == (1 : Int)) = false := by rw [beq_eq_false_iff_ne]; omega
    pyexec [h0, h1]
    rfl

theorem clk_ext_src (n : Nat) (code : Nat) (h : Heap) :
    callFn src (n + 1) n!"MSMT.unpack_clk_ext" [.int code] h = (.ok (.str (unpackClkExt code)), h) := by
  pycall Look.fn_MSMT_unpack_clk_ext Src.fn_MSMT_unpack_clk_ext
  rcases code with _ | _ | _ | code
  · rfl
  · rfl
  · rfl
  · have h0 : (((code + 1 + 1 + 1 : Nat) : Int) == (0 : Int)) = false := by rw [beq_eq_false_iff_ne]; omega
    have h1 : (((code + 1 + 1 + 1 : Nat) : Int) == (1 : Int)) = false := by rw [beq_eq_false_iff_ne]; omega
    have h2 : (((code + 1 + 1 + 1 : Nat) : Int) == (2 : Int)) = false := by rw [beq_eq_false_iff_ne]; omega
    pyexec [h0, h1, h2]
    rfl

theorem smth_indc_src (n : Nat) (code : Nat) (h : Heap) :
    callFn src (n + 1) n!"MSMT.unpack_smth_indc" [.int code] h = (.ok (.str (unpackSmthIndc code)), h) := by
  pycall Look.fn_MSMT_unpack_smth_indc Src.fn_MSMT_unpack_smth_indc
  rcases code with _ | _ | code
  · rfl
  · rfl
  · have h1 : (((code + 1 + 1 : Nat) : Int) == (1 : Int)) = false := by rw [beq_eq_false_iff_ne]; omega
    pyexec [h1]
    rfl

theorem smth_intr_src (n : Nat) (code : Nat) (h : Heap) :
    callFn src (n + 1) n!"MSMT.unpack_smth_intr" [.int code] h = (.ok (.str (unpackSmthIntr code)), h) := by
  pycall Look.fn_MSMT_unpack_smth_intr Src.fn_MSMT_unpack_smth_intr
  rcases code with _ | _ | _ | _ | _ | _ | _ | code
  iterate 7 rfl
  have hk : ∀ k : Int, k ≤ 6 → (((code + 1 + 1 + 1 + 1 + 1 + 1 + 1 : Nat) : Int) == k) = false := by
    intro k hk; rw [beq_eq_false_iff_ne]; omega
  pyexec [hk 0 (by decide), hk 1 (by decide), hk 2 (by decide), hk 3 (by decide), hk 4 (by decide), hk 5 (by decide), hk 6 (by decide)]
  rfl

theorem tlock10_src (n : Nat) (t : Nat) (h : Heap) :
    callFn src (n + 1) n!"MSMT.unpack_tlock10" [.int t] h = (.ok (.int (unpackTlock10 t : Nat)), h) := by
  pycall Look.fn_MSMT_unpack_tlock10 Src.fn_MSMT_unpack_tlock10
  unfold unpackTlock10
  by_cases h1 : t < 64
  · have h1' : (t : Int) < 64 := by omega
    pyexec [h1, h1', decide_true]
  have h1' : ¬ (t : Int) < 64 := by omega
  by_cases h2 : t < 704
  · have h2' : (t : Int) < 704 := by omega
    have e1 : (t : Int) / (2 : Int) ^ 5 - (1 : Int) = ((t >>> 5 - 1 : Nat) : Int) := by
      rw [shr_nat, Nat.shiftRight_eq_div_pow]; omega
    have e2 : (t : Int) - (32 : Int) * ((t >>> 5 - 1 : Nat) : Int) = ((t - 32 * (t >>> 5 - 1) : Nat) : Int) := by
      rw [Nat.shiftRight_eq_div_pow]; omega
    pyexec [h1, h1', h2, h2', decide_true, decide_false, e1]
    rw [shl_one_nat, e2, Nat.cast_mul]
  have h2' : ¬ (t : Int) < 704 := by omega
  by_cases h3 : t = 704
  · subst h3; rfl
  · have h3' : ((t : Int) == (704 : Int)) = false := by rw [beq_eq_false_iff_ne]; omega
    pyexec [h1, h1', h2, h2', h3, h3', decide_false]
    rfl

theorem tlock4_src (n : Nat) (t : Nat) (h : Heap) :
    callFn src (n + 1) n!"MSMT.unpack_tlock4" [.int t] h = (.ok (.int (unpackTlock4 t : Nat)), h) := by
  pycall Look.fn_MSMT_unpack_tlock4 Src.fn_MSMT_unpack_tlock4
  unfold unpackTlock4
  by_cases h1 : t = 0
  · subst h1; rfl
  · have h1' : ((t : Int) == (0 : Int)) = false := by rw [beq_eq_false_iff_ne]; omega
    have e : (4 : Int) + (t : Int) = ((4 + t : Nat) : Int) := by push_cast; rfl
    pyexec [h1, h1', e]
    rw [shl_one_nat]

/-- `x & (2 ** k - 1)` is the remainder. -/
theorem land_mask (x : Int) (k : Nat) : Int.land x ((2 ^ k - 1 : Nat) : Int) = x % 2 ^ k := by
  have hp : 0 < 2 ^ k := Nat.two_pow_pos k
  cases x with
  | ofNat m =>
    show ((m &&& (2 ^ k - 1) : Nat) : Int) = _
    rw [Nat.and_two_pow_sub_one_eq_mod, Int.ofNat_eq_natCast, Int.natCast_emod, Nat.cast_pow, Nat.cast_ofNat]
  | negSucc m =>
    show ((Nat.ldiff (2 ^ k - 1) m : Nat) : Int) = _
    have e : Nat.ldiff (2 ^ k - 1) m = 2 ^ k - (m % 2 ^ k + 1) := by
      apply Nat.eq_of_testBit_eq
      intro i
      rw [Nat.testBit_ldiff, Nat.testBit_two_pow_sub_succ (Nat.mod_lt _ hp), Nat.testBit_two_pow_sub_one, Nat.testBit_mod_two_pow]
      by_cases hi : i < k <;> simp [hi]
    have hm := Nat.mod_lt m hp
    rw [e, Int.negSucc_emod _ (by positivity)]
    push_cast [Nat.cast_sub (show m % 2 ^ k + 1 ≤ 2 ^ k by omega)]
    ring

theorem df405_src (n : Nat) (x : Int) (h : Heap) :
    callFn src (n + 1) n!"MSMT.isDF405_OK" [.int x] h = (.ok (.bool (isDF405_OK x)), h) := by
  pycall Look.fn_MSMT_isDF405_OK Src.fn_MSMT_isDF405_OK
  have e := land_mask x 20
  rw [show ((2 ^ 20 - 1 : Nat) : Int) = 1048575 from rfl] at e
  pyexec [e]
  rfl

theorem df406_src (n : Nat) (x : Int) (h : Heap) :
    callFn src (n + 1) n!"MSMT.isDF406_OK" [.int x] h = (.ok (.bool (isDF406_OK x)), h) := by
  pycall Look.fn_MSMT_isDF406_OK Src.fn_MSMT_isDF406_OK
  have e := land_mask x 24
  rw [show ((2 ^ 24 - 1 : Nat) : Int) = 16777215 from rfl] at e
  pyexec [e]
  rfl

theorem df400_src (n : Nat) (x : Int) (h : Heap) :
    callFn src (n + 1) n!"MSMT.isDF400_OK" [.int x] h = (.ok (.bool (isDF400_OK x)), h) := by
  pycall Look.fn_MSMT_isDF400_OK Src.fn_MSMT_isDF400_OK
  have e := land_mask x 15
  rw [show ((2 ^ 15 - 1 : Nat) : Int) = 32767 from rfl] at e
  pyexec [e]
  rfl

theorem df401_src (n : Nat) (x : Int) (h : Heap) :
    callFn src (n + 1) n!"MSMT.isDF401_OK" [.int x] h = (.ok (.bool (isDF401_OK x)), h) := by
  pycall Look.fn_MSMT_isDF401_OK Src.fn_MSMT_isDF401_OK
  have e := land_mask x 22
  rw [show ((2 ^ 22 - 1 : Nat) : Int) = 4194303 from rfl] at e
  pyexec [e]
  rfl

theorem df404_src (n : Nat) (x : Int) (h : Heap) :
    callFn src (n + 1) n!"MSMT.isDF404_OK" [.int x] h = (.ok (.bool (isDF404_OK x)), h) := by
  pycall Look.fn_MSMT_isDF404_OK Src.fn_MSMT_isDF404_OK
  have e := land_mask x 15
  rw [show ((2 ^ 15 - 1 : Nat) : Int) = 32767 from rfl] at e
  pyexec [e]
  rfl

end Refine
end PyCore
end Verif
