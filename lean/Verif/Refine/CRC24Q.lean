import Verif.Refine.Bits
import Verif.Model.CRC24Q

/-!
# utilities/CRC24Q.py: the function of the source has the results of the model
-/

namespace Verif
namespace PyCore
namespace Refine

open Rounding (rnd)
variable [Rounding]

set_option maxRecDepth 4000 in
/-- The table of the source is the table of the model. -/
theorem crc_table : staticObj src n!"CRC24Q" n!"_crc_tab" = some (.list (CRC24Q.crcTab.map (fun (x : Nat) => .int x))) := by rfl

/-- `v[i]` of a list in a class body. -/
theorem index_stat_list {P : Prog} {c a : Ident} {vs : List Val} (ho : staticObj P c a = some (.list vs)) (i : Nat) (s : St) :
    indexVal P (.stat c a) (.int i) s = match vs[i]? with
      | some v => (.ok v, s)
      | none => (.error (.py n!"IndexError"), s) := by
  simp only [indexVal, objOf, ho, M.bind_apply, M.ofOption_some, M.seq_ok, seqIndex]
  have h : ¬ ((i : Int) < 0) := by omega
  simp only [if_neg h, Int.toNat_natCast]
  cases vs[i]? <;> rfl

/-- The loop of `calc`. -/
theorem crc_loop (n : Nat) (call : CallT) (v1 : Val) (h : Heap) (xs : Bytes) (acc : Nat)
    (l : List (Ident × Val)) (hl : l = [] ∨ ∃ i, l = [(n!"d", i)]) :
    let r := forLoop (assign src call (.name n!"d"))
      (execBlock src n call [.assign (.name n!"crc") (.bin .bxor (.bin .band (.bin .shl (.name n!"crc") (.const (.int 8)))
        (.const (.int 16777215))) (.index (.attr (.name n!"cls") n!"_crc_tab")
        (.bin .bxor (.bin .shr (.name n!"crc") (.const (.int 16))) (.name n!"d"))))]) (execBlock src n call [])
      (xs.map (fun x => .int x.toNat))
      ⟨(n!"cls", .cls n!"CRC24Q") :: (n!"data", v1) :: (n!"crc", .int acc) :: l, h⟩
    match xs.foldlM CRC24Q.calcStep acc with
    | .ok v => ∃ l', r = (.ok .next, ⟨(n!"cls", .cls n!"CRC24Q") :: (n!"data", v1) :: (n!"crc", .int (v : Nat)) :: l', h⟩)
    | .error e => ∃ l', r = (.error (.py (errName e)), ⟨l', h⟩) := by
  induction xs generalizing acc l with
  | nil =>
    refine ⟨l, ?_⟩
    pyexec [List.map_nil]
  | cons x xs ih =>
    have e : M.bindKey l n!"d" (.int x.toNat) = [(n!"d", .int x.toNat)] := by
      rcases hl with rfl | ⟨i, rfl⟩ <;> pyexec
    have e1 : Int.xor ((acc : Int) / 2 ^ 16) (x.toNat : Int) = ((acc >>> 16 ^^^ x.toNat : Nat) : Int) := by
      rw [shr_nat]; rfl
    simp only [List.map_cons, forLoop_cons, List.foldlM_cons]
    pyexec [e, getAttr_cls, e1, index_stat_list crc_table, List.getElem?_map]
    unfold CRC24Q.calcStep
    cases hb : CRC24Q.crcTab[acc >>> 16 ^^^ x.toNat]? with
    | none =>
      pyexec [Option.map_none]
      exact ⟨_, rfl⟩
    | some t =>
      have hi := ih ((acc <<< 8 &&& 0xFFFFFF) ^^^ t) [(n!"d", .int x.toNat)] (Or.inr ⟨_, rfl⟩)
      have e2 : Int.xor (Int.land ((acc : Int) * 2 ^ 8) 16777215) (t : Int) = (((acc <<< 8 &&& 0xFFFFFF) ^^^ t : Nat) : Int) := by
        rw [Nat.shiftLeft_eq]; push_cast; rfl
      pyexec [Option.map_some, e2]
      exact hi

theorem crc_src (n : Nat) (data : Bytes) (h : Heap) :
    callFn src (n + 1) n!"CRC24Q.calc" [.cls n!"CRC24Q", .bytes data] h = ofModel (fun v : Nat => .int v) h (CRC24Q.crcCalc data) := by
  pycall Look.fn_CRC24Q_calc Src.fn_CRC24Q_calc
  have hl := crc_loop n (callFn src n) (.bytes data) h data 0 [] (Or.inl rfl)
  dsimp only at hl
  unfold CRC24Q.crcCalc
  rw [Nat.cast_zero] at hl
  cases hr : data.foldlM CRC24Q.calcStep 0 with
  | error e =>
    rw [hr] at hl
    obtain ⟨l', hl⟩ := hl
    pyexec [hl]
  | ok v =>
    rw [hr] at hl
    obtain ⟨l', hl⟩ := hl
    pyexec [hl]

end Refine
end PyCore
end Verif
