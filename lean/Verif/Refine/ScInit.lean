import Verif.Refine.MsmDecode
import Verif.Refine.Sc47Fn
import Verif.Refine.Sc13Fn

/-! # Objects that `Bare2Scaled.convert` makes -/

namespace Verif
namespace PyCore
namespace Refine
open Verif.Msm Verif.RtcmUtil

open Rounding (rnd)
variable [Rounding]

/-- A dictionary with a code and its meaning. -/
def codeD (c : Val) (s : Val) : Obj := .dict [(.str "code", c), (.str "val", s)]

@[pyrun] theorem makeDict_two (k v v' : Val) (s s' : String) (hs : (s == s') = false) : makeDict [.str s, .str s'] [v, v'] = [(.str s, v), (.str s', v')] := by
  unfold makeDict
  show dictSet (dictSet [] (.str s) v) (.str s') v' = _
  show dictSet [(.str s, v)] (.str s') v' = _
  simp only [dictSet]
  have : keyEq (.str s) (.str s') = false := hs
  rw [this]
  rfl

/-- `_ObservablesObs` with its tables at address `c`. -/
def obsF (c : Nat) : Fields :=
  [(n!"rng", .ref (c + 1)), (n!"phs", .ref (c + 2)), (n!"ltm", .ref (c + 3)), (n!"hca", .ref (c + 4)), (n!"dpl", .ref (c + 5)), (n!"c2n", .ref (c + 6))]

theorem obs_init (n : Nat) (h : Heap) : callFn src (n + 1) n!"_ObservablesObs.__init__" [.ref h.length] (h ++ [.inst n!"_ObservablesObs" []]) =
    (.ok .none, h ++ [.inst n!"_ObservablesObs" (obsF h.length), .dict [], .dict [], .dict [], .dict [], .dict [], .dict []]) := by
  pycall Look.fn_ObservablesObs_P_init_P Src.fn_ObservablesObs_P_init_P
  pyexec [last1, List.cons_append, List.nil_append, Nat.reduceAdd, append_getElem0, append_set0, append_getElem,
    append_set, List.getElem?_cons_zero, List.getElem?_cons_succ, List.set_cons_zero, List.set_cons_succ]
  rfl

/-- `_ObservablesHdrMSM` with its fields. -/
def ohdrF (sig sats time day : Val) : Fields := [(n!"signals", sig), (n!"sats", sats), (n!"time", time), (n!"day", day)]

theorem ohdr_init (n : Nat) (h : Heap) : callFn src (n + 1) n!"_ObservablesHdrMSM.__init__" [.ref h.length] (h ++ [.inst n!"_ObservablesHdrMSM" []]) =
    (.ok .none, h ++ [.inst n!"_ObservablesHdrMSM" (ohdrF (.ref (h.length + 1)) (.tup [.int 0]) (.int 0) (.int 0)), .dict []]) := by
  pycall Look.fn_ObservablesHdrMSM_P_init_P Src.fn_ObservablesHdrMSM_P_init_P
  pyexec [last1, List.cons_append, List.nil_append, Nat.reduceAdd, append_getElem0, append_set0, append_getElem,
    append_set, List.getElem?_cons_zero, List.getElem?_cons_succ, List.set_cons_zero, List.set_cons_succ]
  rfl

/-- `_ObservablesAuxMSM` with its fields. -/
def oauxF (rs mmb iods : Val) (c : Nat) : Fields :=
  [(n!"rs_id", rs), (n!"MMB", mmb), (n!"IODS", iods), (n!"clk_steer", .ref (c + 1)), (n!"clk_ext", .ref (c + 2)), (n!"smth_indc", .ref (c + 3)),
    (n!"smth_intr", .ref (c + 4))]

theorem oaux_init (n : Nat) (h : Heap) : callFn src (n + 1) n!"_ObservablesAuxMSM.__init__" [.ref h.length] (h ++ [.inst n!"_ObservablesAuxMSM" []]) =
    (.ok .none, h ++ [.inst n!"_ObservablesAuxMSM" (oauxF (.int 42) (.int 0) (.int 0) h.length), codeD (.int 2) (.str "UNDEF"), codeD (.int 3) (.str "UNDEF"),
      codeD (.int 0) (.str "UNDEF"), codeD (.int 0) (.str "NOSMTH")]) := by
  pycall Look.fn_ObservablesAuxMSM_P_init_P Src.fn_ObservablesAuxMSM_P_init_P
  have e : ("code" == "val") = false := rfl
  pyexec [last1, List.cons_append, List.nil_append, Nat.reduceAdd, append_getElem0, append_set0, append_getElem,
    append_set, List.getElem?_cons_zero, List.getElem?_cons_succ, List.set_cons_zero, List.set_cons_succ, makeDict_two, e]
  rfl

/-- The objects of `ObservablesMSM` at address `c`; the object of the attributes is at `at`. -/
def rvObjs (c : Nat) (at' sig sats time day rs mmb iods : Val) (d1 d2 d3 d4 : Obj) : List Obj :=
  [.inst n!"ObservablesMSM" [(n!"obs", .ref (c + 1)), (n!"hdr", .ref (c + 8)), (n!"aux", .ref (c + 10)), (n!"atr", at')],
    .inst n!"_ObservablesObs" (obsF (c + 1)), .dict [], .dict [], .dict [], .dict [], .dict [], .dict [],
    .inst n!"_ObservablesHdrMSM" (ohdrF sig sats time day), .dict [],
    .inst n!"_ObservablesAuxMSM" (oauxF rs mmb iods (c + 10)), d1, d2, d3, d4, .inst n!"Attributes" (atrF ⟨"", "", some 0⟩)]

theorem rv_init (n : Nat) (h : Heap) : callFn src (n + 3) n!"ObservablesMSM.__init__" [.ref h.length] (h ++ [.inst n!"ObservablesMSM" []]) =
    (.ok .none, h ++ rvObjs h.length (.ref (h.length + 15)) (.ref (h.length + 9)) (.tup [.int 0]) (.int 0) (.int 0) (.int 42) (.int 0) (.int 0)
      (codeD (.int 2) (.str "UNDEF")) (codeD (.int 3) (.str "UNDEF")) (codeD (.int 0) (.str "UNDEF")) (codeD (.int 0) (.str "NOSMTH"))) := by
  pycall Look.fn_ObservablesMSM_P_init_P Src.fn_ObservablesMSM_P_init_P
  have e1 := fun o1 => obs_init (n + 1) (h ++ [o1])
  have e2 := fun o1 o2 o3 o4 o5 o6 o7 o8 => ohdr_init (n + 1) (h ++ [o1, o2, o3, o4, o5, o6, o7, o8])
  have e3 := fun o1 o2 o3 o4 o5 o6 o7 o8 o9 o10 => oaux_init (n + 1) (h ++ [o1, o2, o3, o4, o5, o6, o7, o8, o9, o10])
  have e4 := fun o1 o2 o3 o4 o5 o6 o7 o8 o9 o10 o11 o12 o13 o14 o15 => atr_init n (h ++ [o1, o2, o3, o4, o5, o6, o7, o8, o9, o10, o11, o12, o13, o14, o15])
  simp only [List.length_append, List.length_cons, List.length_nil, Nat.zero_add, List.append_assoc, List.cons_append, List.nil_append, Nat.reduceAdd] at e1 e2 e3 e4
  pyexec [List.append_assoc, List.cons_append, List.nil_append, Nat.reduceAdd, e1, e2, e3, e4, append_getElem0, append_set0, append_getElem,
    append_set, List.getElem?_cons_zero, List.getElem?_cons_succ, List.set_cons_zero, List.set_cons_succ]
  rfl

/-- `Bare2Scaled` with its fields. -/
def scObj (sgns slots sats : Val) : Obj := .inst n!"Bare2Scaled" [(n!"sgn_map", sgns), (n!"slots_per_sat", slots), (n!"sat_list", sats)]

theorem sc_init (n : Nat) (h : Heap) : callFn src (n + 1) n!"Bare2Scaled.__init__" [.ref h.length] (h ++ [.inst n!"Bare2Scaled" []]) =
    (.ok .none, h ++ [scObj (.tup [.str ""]) (.tup [.int 0]) (.tup [.int 0])]) := by
  pycall Look.fn_Bare2Scaled_P_init_P Src.fn_Bare2Scaled_P_init_P
  pyexec [last1, List.cons_append, List.nil_append, Nat.reduceAdd, append_getElem0, append_set0, append_getElem,
    append_set, List.getElem?_cons_zero, List.getElem?_cons_succ, List.set_cons_zero, List.set_cons_succ]
  rfl

end Refine
end PyCore
end Verif
