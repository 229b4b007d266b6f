import Verif.Refine.Basic
import Verif.Model.Bits
import Mathlib.Data.Int.Bitwise
import Mathlib.Tactic.Ring

/-!
# utilities/bits.py: the functions of the source have the results of the model
-/

namespace Verif
namespace PyCore
namespace Refine

open Rounding (rnd)
variable [Rounding]

/-- The class that is used for the reading of bits inherits from `Bits`. -/
structure BitsClass (c : Ident) : Prop where
  width : findMember src c n!"MAX_BIT_WIDTH" = some (n!"Bits", .value (.const (.int 128)))
  getbitu : findMember src c n!"getbitu" = some (n!"Bits", .clsMethod n!"Bits.getbitu")
  getbits : findMember src c n!"getbits" = some (n!"Bits", .clsMethod n!"Bits.getbits")
  revbitu : findMember src c n!"revbitu" = some (n!"Bits", .clsMethod n!"Bits.revbitu")
  revbits : findMember src c n!"revbits" = some (n!"Bits", .clsMethod n!"Bits.revbits")

/-- `buf[i]`. -/
theorem index_bytes (P : Prog) (buf : Bytes) (i : Nat) (s : St) :
    indexVal P (.bytes buf) (.int i) s = match byteAt buf i with
      | .ok v => (.ok (.int v), s)
      | .error e => (.error (.py (errName e)), s) := by
  simp only [indexVal, M.bind_apply, seqIndex, byteAt]
  have h : ¬ ((i : Int) < 0) := by omega
  simp only [if_neg h, Int.toNat_natCast]
  cases buf[i]? <;> rfl

/-- The loop of `getbitu`. -/
theorem getbitu_loop (n : Nat) (call : CallT) (c : Ident) (buf : Bytes) (v1 v2 v3 v4 v5 : Val) (h : Heap) (xs : List Nat) (acc : Nat)
    (l : List (Ident × Val)) (hl : l = [] ∨ ∃ i, l = [(n!"i", i)]) :
    let r := forLoop (assign src call (.name n!"i"))
      (execBlock src n call [.assign (.name n!"acc") (.bin .add (.bin .mul (.name n!"acc") (.const (.int 256)))
        (.index (.name n!"buf") (.name n!"i")))]) (execBlock src n call []) (xs.map (fun (i : Nat) => .int i))
      ⟨(n!"cls", .cls c) :: (n!"buf", .bytes buf) :: (n!"start_pos", v1) :: (n!"length", v2) :: (n!"finish_pos", v3) ::
        (n!"finish_byte", v4) :: (n!"start_byte", v5) :: (n!"acc", .int acc) :: l, h⟩
    match xs.foldlM (fun (acc : Nat) i => do
          let b ← byteAt buf i
          pure (acc * 256 + b)) acc with
    | .ok v => ∃ l', r = (.ok .next, ⟨(n!"cls", .cls c) :: (n!"buf", .bytes buf) :: (n!"start_pos", v1) :: (n!"length", v2) :: (n!"finish_pos", v3) ::
        (n!"finish_byte", v4) :: (n!"start_byte", v5) :: (n!"acc", .int (v : Nat)) :: l', h⟩) ∧ (l' = [] ∨ ∃ i, l' = [(n!"i", i)])
    | .error e => ∃ l', r = (.error (.py (errName e)), ⟨l', h⟩) := by
  induction xs generalizing acc l with
  | nil =>
    refine ⟨l, ?_, hl⟩
    pyexec [List.map_nil]
  | cons x xs ih =>
    have e : M.bindKey l n!"i" (.int x) = [(n!"i", .int x)] := by
      rcases hl with rfl | ⟨i, rfl⟩ <;> pyexec
    simp only [List.map_cons, forLoop_cons, List.foldlM_cons]
    pyexec [index_bytes, e]
    cases hb : byteAt buf x with
    | error e => 
      pyexec
      exact ⟨_, rfl⟩
    | ok b =>
      have hi := ih (acc * 256 + b) [(n!"i", .int x)] (Or.inr ⟨_, rfl⟩)
      pyexec
      push_cast at hi
      exact hi

theorem shr_nat (a k : Nat) : (a : Int) / 2 ^ k = ((a >>> k : Nat) : Int) := by
  rw [Nat.shiftRight_eq_div_pow, Int.natCast_ediv, Nat.cast_pow, Nat.cast_ofNat]

theorem rangeVals_nat (a b : Nat) : rangeVals a b = (List.range' a (b - a)).map (fun (i : Nat) => .int i) := by
  unfold rangeVals
  rw [List.range'_eq_map_range, List.map_map, show ((b : Int) - a).toNat = b - a by omega]
  apply List.map_congr_left
  intro i _
  simp only [Function.comp, Nat.cast_add]

theorem getbitu_src (n : Nat) (c : Ident) (hc : BitsClass c) (buf : Bytes) (o w : Int) (h : Heap) :
    callFn src (n + 1) n!"Bits.getbitu" [.cls c, .bytes buf, .int o, .int w] h =
      ofModel (fun v : Nat => .int v) h (Bits.getbitu buf o w) := by
  pycall Look.fn_Bits_getbitu Src.fn_Bits_getbitu
  unfold Bits.getbitu Bits.MAX_BIT_WIDTH
  by_cases hw : w < 1
  · pyexec [getAttr_cls, hc.width, hw, decide_true, true_or, errName]
  by_cases hw2 : 128 < w
  · pyexec [getAttr_cls, hc.width, hw, hw2, decide_true, decide_false, false_or, true_or, gt_iff_lt, errName]
  by_cases ho : o < 0
  · pyexec [getAttr_cls, hc.width, hw, hw2, ho, decide_true, decide_false, false_or, true_or, gt_iff_lt, errName]
  obtain ⟨o, rfl⟩ := Int.eq_ofNat_of_zero_le (show 0 ≤ o by omega)
  obtain ⟨w, rfl⟩ := Int.eq_ofNat_of_zero_le (show 0 ≤ w by omega)
  have e2 := shr_nat o 3
  have e1 := shr_nat (o + w + 7) 3
  rw [Nat.cast_add, Nat.cast_add, Nat.cast_ofNat] at e1
  simp only [hw, hw2, ho, gt_iff_lt, or_self, if_false]
  rw [show ((o : Int) + w).toNat = o + w by omega]
  simp only [Int.toNat_natCast]
  by_cases hf : buf.length < (o + w + 7) >>> 3
  · have hf' : (buf.length : Int) < ((o + w + 7) >>> 3 : Nat) := by omega
    pyexec [getAttr_cls, hc.width, hw, hw2, ho, decide_true, decide_false, e1, e2, hf, hf', errName]
  have hf' : ¬ (buf.length : Int) < ((o + w + 7) >>> 3 : Nat) := by omega
  simp only [if_neg hf]
  pyexec [getAttr_cls, hc.width, hw, hw2, ho, decide_false, e1, e2, hf', rangeVals_nat]
  have hl := getbitu_loop n (callFn src n) c buf (.int o) (.int w) (.int (↑o + ↑w)) (.int ((o + w + 7) >>> 3 : Nat)) (.int (o >>> 3 : Nat)) h
    (List.range' (o >>> 3) ((o + w + 7) >>> 3 - o >>> 3)) 0 [] (Or.inl rfl)
  dsimp only at hl
  cases hr : (List.range' (o >>> 3) ((o + w + 7) >>> 3 - o >>> 3)).foldlM (fun (acc : Nat) i => do
          let b ← byteAt buf i
          pure (acc * 256 + b)) 0 with
  | error e =>
    rw [hr] at hl
    obtain ⟨l', hl⟩ := hl
    rw [Nat.cast_zero] at hl
    rw [hl]
    pyexec
    rfl
  | ok v =>
    rw [hr] at hl
    obtain ⟨l', hl, hi⟩ := hl
    rw [Nat.cast_zero] at hl
    rw [hl]
    have e3 : ((((o + w + 7) >>> 3 : Nat) : Int) * (8 : Int) - (↑o + ↑w)) = (((o + w + 7) >>> 3 * 8 - (o + w) : Nat) : Int) := by
      rw [Nat.shiftRight_eq_div_pow]
      omega
    have e4 : (1 : Int) * (2 : Int) ^ w - (1 : Int) = ((1 <<< w - 1 : Nat) : Int) := by
      rw [Nat.one_shiftLeft, Nat.cast_sub Nat.one_le_two_pow]; push_cast; ring
    rcases hi with rfl | ⟨i, rfl⟩ <;> (pyexec [e3]; rw [e4, shr_nat]; rfl)

theorem shl_one_nat (k : Nat) : (1 : Int) * (2 : Int) ^ k = ((1 <<< k : Nat) : Int) := by
  rw [Nat.one_shiftLeft, one_mul, Nat.cast_pow, Nat.cast_ofNat]

theorem getbitu_ok {buf : Bytes} {o w : Int} {v : Nat} (h : Bits.getbitu buf o w = .ok v) : 1 ≤ w ∧ w ≤ 128 ∧ 0 ≤ o := by
  unfold Bits.getbitu Bits.MAX_BIT_WIDTH at h
  split at h
  · cases h
  · omega

theorem getbits_src (n : Nat) (c : Ident) (hc : BitsClass c) (buf : Bytes) (o w : Int) (h : Heap) :
    callFn src (n + 2) n!"Bits.getbits" [.cls c, .bytes buf, .int o, .int w] h = ofModel .int h (Bits.getbits buf o w) := by
  pycall Look.fn_Bits_getbits Src.fn_Bits_getbits
  unfold Bits.getbits
  cases hv : Bits.getbitu buf o w with
  | error e =>
    pyexec [getAttr_cls, hc.getbitu, getbitu_src n c hc, hv]
    rfl
  | ok v =>
    obtain ⟨k, hk⟩ := Int.eq_ofNat_of_zero_le (show 0 ≤ w - 1 by have := getbitu_ok hv; omega)
    have hw : w.toNat - 1 = k := by omega
    pyexec [getAttr_cls, hc.getbitu, getbitu_src n c hc, hv, hk]
    show _ = (Except.ok (Val.int (Bits.extendSign v w.toNat)), h)
    unfold Bits.extendSign
    rw [shl_one_nat, hw]
    rfl

/-- The loop of `revbitu`. -/
theorem revbitu_loop (n : Nat) (call : CallT) (c : Ident) (v1 v2 v3 : Val) (h : Heap) (xs : List Val) (rv sr : Nat)
    (l : List (Ident × Val)) (hl : l = [] ∨ ∃ i, l = [(n!"_", i)]) :
    ∃ l' s', forLoop (assign src call (.name n!"_"))
      (execBlock src n call [
      .assign (.name n!"rv") (.bin .bor (.bin .shl (.name n!"rv") (.const (.int 1))) (.bin .band (.name n!"src") (.const (.int 1)))),
      .assign (.name n!"src") (.bin .shr (.name n!"src") (.const (.int 1)))]) (execBlock src n call []) xs
      ⟨(n!"cls", .cls c) :: (n!"a", v1) :: (n!"length", v2) :: (n!"ofs", v3) :: (n!"src", .int sr) :: (n!"rv", .int rv) :: l, h⟩ =
    (.ok .next, ⟨(n!"cls", .cls c) :: (n!"a", v1) :: (n!"length", v2) :: (n!"ofs", v3) :: (n!"src", s') ::
      (n!"rv", .int (Bits.revLoop xs.length rv sr : Nat)) :: l', h⟩) := by
  induction xs generalizing rv sr l with
  | nil =>
    refine ⟨l, .int sr, ?_⟩
    pyexec [Bits.revLoop]
  | cons x xs ih =>
    have e : M.bindKey l n!"_" x = [(n!"_", x)] := by
      rcases hl with rfl | ⟨i, rfl⟩ <;> pyexec
    obtain ⟨l', s', hi⟩ := ih ((rv <<< 1) ||| (sr &&& 1)) (sr >>> 1) [(n!"_", x)] (Or.inr ⟨_, rfl⟩)
    refine ⟨l', s', ?_⟩
    have e1 : Int.lor ((rv : Int) * 2 ^ 1) (Int.land (sr : Int) 1) = ((rv <<< 1 ||| (sr &&& 1) : Nat) : Int) := by
      rw [Nat.shiftLeft_eq]; push_cast; rfl
    simp only [forLoop_cons]
    pyexec [e, Bits.revLoop, e1, shr_nat]
    exact hi

theorem revbitu_src (n : Nat) (c : Ident) (hc : BitsClass c) (a w o : Nat) (h : Heap) :
    callFn src (n + 1) n!"Bits.revbitu" [.cls c, .int a, .int w, .int o] h =
      ofModel (fun v : Nat => .int v) h (Bits.revbitu a w o) := by
  pycall Look.fn_Bits_revbitu Src.fn_Bits_revbitu
  unfold Bits.revbitu Bits.MAX_BIT_WIDTH
  simp only [Nat.cast_add, gt_iff_lt]
  by_cases hw : 128 < (w : Int) + o
  · pyexec [getAttr_cls, hc.width, hw, decide_true, errName]
  · obtain ⟨l', s', hi⟩ := revbitu_loop n (callFn src n) c (.int a) (.int w) (.int o) h (rangeVals 0 w) 0 (a >>> o) [] (Or.inl rfl)
    rw [Nat.cast_zero] at hi
    pyexec [getAttr_cls, hc.width, hw, decide_false, shr_nat, hi]
    simp only [rangeVals, List.length_map, List.length_range, Int.sub_zero, Int.toNat_natCast]

theorem revbitu_src2 (n : Nat) (c : Ident) (hc : BitsClass c) (a w : Nat) (h : Heap) :
    callFn src (n + 1) n!"Bits.revbitu" [.cls c, .int a, .int w] h =
      ofModel (fun v : Nat => .int v) h (Bits.revbitu a w 0) := by
  rw [← revbitu_src n c hc]
  rw [callFn_succ src _ _ _ _ _ _ Look.fn_Bits_revbitu rfl, callFn_succ src _ _ _ _ _ _ Look.fn_Bits_revbitu rfl]
  rfl

theorem revbits_src (n : Nat) (c : Ident) (hc : BitsClass c) (a w o : Nat) (h : Heap) :
    callFn src (n + 2) n!"Bits.revbits" [.cls c, .int a, .int w, .int o] h = ofModel .int h (Bits.revbits a w o) := by
  pycall Look.fn_Bits_revbits Src.fn_Bits_revbits
  unfold Bits.revbits
  cases hv : Bits.revbitu a w o with
  | error e =>
    pyexec [getAttr_cls, hc.revbitu, revbitu_src n c hc, hv]
    rfl
  | ok v =>
    by_cases hw : w = 0
    · subst hw
      pyexec [getAttr_cls, hc.revbitu, revbitu_src n c hc, hv, show ((0 : Nat) : Int) - 1 = Int.negSucc 0 from rfl]
      rfl
    · have hk : (w : Int) - 1 = ((w - 1 : Nat) : Int) := by omega
      pyexec [getAttr_cls, hc.revbitu, revbitu_src n c hc, hv, hk]
      show _ = ofModel .int h (if w = 0 then .error .valueError else .ok (Bits.extendSign v w))
      unfold Bits.extendSign
      rw [shl_one_nat, if_neg hw]
      rfl

end Refine
end PyCore
end Verif
