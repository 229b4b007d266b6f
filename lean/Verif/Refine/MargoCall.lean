import Verif.Refine.MargoBuf

/-!
# Calls of `MargoCore.ObservablesMSMtoPrintBuffer`, printers/margo_printer.py:212-343
-/

namespace Verif
namespace PyCore
namespace Refine
open RtcmUtil Margo

open Rounding (rnd)
variable [Rounding]

/-- The buffer of the model is returned as a dictionary of lists, or the exception of the model is raised. -/
theorem print_buffer_call {h : Heap} {a k g : Nat} {c : Controls} {r : Nat} {at' : Nat} {o : Msm.ObservablesMSM} (hc : CtrlAt h a k g c)
    (ho : ObsAt h r at' o) (hone : rnd 1 = 1) (n : Nat) :
    match printBufferR rnd c o with
    | .ok b => ∃ d Y, callFn src (n + 4) n!"MargoCore.ObservablesMSMtoPrintBuffer" [.ref a, .ref r] h =
        (.ok (.ref h.length), h ++ .dict d :: .list [.int (rowTimeOf c o)] :: Y) ∧ BufIn h.length Y d b
    | .error e => ∃ h', callFn src (n + 4) n!"MargoCore.ObservablesMSMtoPrintBuffer" [.ref a, .ref r] h = (.error (.py (errName e)), h') := by
  have hb := print_buffer_body (n := n) hc ho hone
  rw [callFn_succ src (n + 3) n!"MargoCore.ObservablesMSMtoPrintBuffer" Src.fn_MargoCore_ObservablesMSMtoPrintBuffer [.ref a, .ref r] [(n!"self", .ref a), (n!"pdata", .ref r)] h Look.fn_MargoCore_ObservablesMSMtoPrintBuffer rfl, bufBody_eq]
  generalize printBufferR rnd c o = m at hb ⊢
  cases m with
  | ok b =>
    obtain ⟨fl, ⟨loc, H⟩, h1, rfl, d, Y, h2, h3⟩ := hb
    refine ⟨d, Y, ?_, h3⟩
    rw [h1, endCall_ret]
    exact Prod.ext rfl h2
  | error e =>
    obtain ⟨⟨loc, H⟩, h1⟩ := hb
    exact ⟨H, by rw [h1, endCall_error]⟩

end Refine
end PyCore
end Verif
