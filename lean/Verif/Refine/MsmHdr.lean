import Verif.Refine.MsmBare

/-!
# `BareObservablesMSM17Decoder.__extract_hdr` and its model
-/

namespace Verif
namespace PyCore
namespace Refine

open Rounding (rnd)
variable [Rounding]

/-- The target of the statements that fill the header. -/
def hdrE : Expr := .attr (.attr (.name n!"self") n!"bd") n!"hdr"

/-- Result of the rest of `__extract_hdr`. -/
def HdrRes (G : Heap) (r : Bool) (K : BareKind) (atr sat sgn : Fields) (T : List Obj) (x : Except Exc Flow × St) :
    Py (Msm.BareHdr × Nat) → Prop
  | .ok (h', o') => ∃ l, x = (.ok (.ret (.int o')), ⟨l, bareHeap G r K atr (hdrF h') sat sgn T⟩)
  | .error e => ∃ l hdr', x = (.error (.py (errName e)), ⟨l, bareHeap G r K atr hdr' sat sgn T⟩)

section
variable {G : Heap} {r : Bool} {K : BareKind} {atr hdr sat sgn : Fields} {T : List Obj}

/-- Local variables. -/
def hdrLoc (G : Heap) (buf : Bytes) (o : Nat) (l : Fields) : Fields :=
  (n!"self", .ref G.length) :: (n!"buf", .bytes buf) :: (n!"offset", .int o) :: l

theorem msmSelf (G : Heap) (r : Bool) : SelfObj n!"BareObservablesMSM17Decoder" [(n!"_ready", .bool r), (n!"bd", .ref (G.length + 2))] :=
  ⟨msmClass, rfl, rfl⟩

theorem getbitu_eval (n : Nat) (buf : Bytes) (o : Nat) (l : Fields) (ew : Expr) (w : Nat)
    (hw : eval src (callFn src (n + 1)) ew ⟨hdrLoc G buf o l, bareHeap G r K atr hdr sat sgn T⟩ =
      (.ok (.int w), ⟨hdrLoc G buf o l, bareHeap G r K atr hdr sat sgn T⟩)) :
    eval src (callFn src (n + 1)) (.call (.attr (.name n!"self") n!"getbitu") [.name n!"buf", .name n!"offset", ew])
        ⟨hdrLoc G buf o l, bareHeap G r K atr hdr sat sgn T⟩ =
      match Bits.gbu buf o w with
      | .ok v => (.ok (.int v), ⟨hdrLoc G buf o l, bareHeap G r K atr hdr sat sgn T⟩)
      | .error e => (.error (.py (errName e)), ⟨hdrLoc G buf o l, bareHeap G r K atr hdr sat sgn T⟩) := by
  unfold hdrLoc at hw ⊢
  have h2 := getbitu_src n _ msmClass buf o w
  unfold Bits.gbu
  cases hv : Bits.getbitu buf o w with
  | error e => rw [hv] at h2; pyexec [h2, msmClass.getbitu, hw]
  | ok v => rw [hv] at h2; pyexec [h2, msmClass.getbitu, hw]

theorem hdr_next {n m : Nat} {buf : Bytes} {o o' w : Nat} {l : Fields} {F : Ident} {e : Expr} {rest : List Stmt}
    {p : Nat → Py (Msm.BareHdr × Nat)}
    (he : eval src (callFn src (n + 1)) e ⟨hdrLoc G buf o l, bareHeap G r K atr hdr sat sgn T⟩ =
      (.ok (.int o'), ⟨hdrLoc G buf o l, bareHeap G r K atr hdr sat sgn T⟩))
    (hr : ∀ v : Nat, HdrRes G r K atr sat sgn T (execBlock src m (callFn src (n + 1)) rest
      ⟨hdrLoc G buf o' l, bareHeap G r K atr (M.bindKey hdr F (.int v)) sat sgn T⟩) (p v)) :
    HdrRes G r K atr sat sgn T (execBlock src m (callFn src (n + 1)) (.unpack [.attr hdrE F, .name n!"offset"]
      (.tuple [.call (.attr (.name n!"self") n!"getbitu") [.name n!"buf", .name n!"offset", .const (.int w)], e]) :: rest)
      ⟨hdrLoc G buf o l, bareHeap G r K atr hdr sat sgn T⟩) (Bits.gbu buf o w >>= p) := by
  have h1 := getbitu_eval (G := G) (r := r) (K := K) (atr := atr) (hdr := hdr) (sat := sat) (sgn := sgn) (T := T) n buf o l
    (.const (.int w)) w (by pyexec)
  cases hv : Bits.gbu buf o w with
  | error er =>
    rw [hv] at h1
    refine ⟨hdrLoc G buf o l, hdr, ?_⟩
    pyexec [h1]
  | ok v =>
    rw [hv] at h1
    have := hr v
    unfold hdrLoc at *
    simp only [hdrE]
    pyexec [h1, he]
    exact this

theorem hdr_rev {n m : Nat} {buf : Bytes} {o v w : Nat} {l : Fields} {F : Ident} {rest : List Stmt}
    {p : Nat → Py (Msm.BareHdr × Nat)} (hF : hdr.lookup F = some (.int v))
    (hr : ∀ v' : Nat, HdrRes G r K atr sat sgn T (execBlock src m (callFn src (n + 1)) rest
      ⟨hdrLoc G buf o l, bareHeap G r K atr (M.bindKey hdr F (.int v')) sat sgn T⟩) (p v')) :
    HdrRes G r K atr sat sgn T (execBlock src m (callFn src (n + 1)) (.assign (.attr hdrE F)
      (.call (.attr (.name n!"self") n!"revbitu") [.attr hdrE F, .const (.int w)]) :: rest)
      ⟨hdrLoc G buf o l, bareHeap G r K atr hdr sat sgn T⟩) (Bits.revbitu v w 0 >>= p) := by
  have h2 := revbitu_src2 n _ msmClass v w
  cases hv : Bits.revbitu v w 0 with
  | error er =>
    rw [hv] at h2
    refine ⟨hdrLoc G buf o l, hdr, ?_⟩
    unfold hdrLoc
    simp only [hdrE]
    pyexec [h2, msmClass.revbitu, hF]
  | ok v =>
    rw [hv] at h2
    have := hr v
    unfold hdrLoc at *
    simp only [hdrE]
    pyexec [h2, msmClass.revbitu, hF]
    exact this

theorem except_ok_bind {α β : Type} (a : α) (f : α → Py β) : ((Except.ok a : Py α) >>= f) = f a := rfl
theorem except_error_bind {α β : Type} (e : PyErr) (f : α → Py β) : ((Except.error e : Py α) >>= f) = .error e := rfl

theorem extract_hdr_src (n : Nat) (buf : Bytes) (o : Nat) :
    match Msm.extractHdr buf o with
    | .ok (h', o') => callFn src (n + 2) n!"BareObservablesMSM17Decoder.__extract_hdr" [.ref G.length, .bytes buf, .int o]
        (bareHeap G r K atr (hdrF {}) sat sgn T) = (.ok (.int o'), bareHeap G r K atr (hdrF h') sat sgn T)
    | .error e => ∃ hdr', callFn src (n + 2) n!"BareObservablesMSM17Decoder.__extract_hdr" [.ref G.length, .bytes buf, .int o]
        (bareHeap G r K atr (hdrF {}) sat sgn T) = (.error (.py (errName e)), bareHeap G r K atr hdr' sat sgn T) := by
  have key : HdrRes G r K atr sat sgn T (execBlock src (n + 1) (callFn src (n + 1))
      Src.fn_BareObservablesMSM17Decoder_P_extract_hdr.body ⟨hdrLoc G buf o [], bareHeap G r K atr (hdrF {}) sat sgn T⟩)
      (Msm.extractHdr buf o) := by
    unfold Src.fn_BareObservablesMSM17Decoder_P_extract_hdr Msm.extractHdr
    dsimp only
    have h0 := getbitu_src n _ msmClass buf 14 10
    have e0 : Bits.gbu buf 14 10 = Bits.getbitu buf 14 10 := rfl
    rw [e0]
    cases hv : Bits.getbitu buf 14 10 with
    | error e =>
      rw [hv] at h0
      refine ⟨hdrLoc G buf o [], hdrF {}, ?_⟩
      unfold hdrLoc
      pyexec [h0, msmClass.getbitu]
    | ok len =>
    rw [hv] at h0
    rw [except_ok_bind]
    generalize hrest : ([Stmt.unpack [.attr (.attr (.attr (.name n!"self") n!"bd") n!"hdr") n!"rs_id", _] _, _, _, _, _, _, _, _, _, _, _, _, _, _, _, _, _, _, _, _, _] : List Stmt) = rest
    by_cases h1 : ((len : Int) - 3) * 8 < (Msm.MIN_HDR_LEN : Int)
    · rw [if_pos h1]
      simp only [Msm.MIN_HDR_LEN, Nat.cast_ofNat] at h1
      refine ⟨hdrLoc G buf o [(n!"bits_elapsed", .int (((len : Int) - 3) * 8))], hdrF {}, ?_⟩
      unfold hdrLoc
      pyexec [h0, msmClass.getbitu, h1, decide_true]
      rfl
    rw [if_neg h1]
    have h1' : ¬ ((len : Int) - 3) * 8 < 169 := h1
    have h2 := getbitu_eval (G := G) (r := r) (K := K) (atr := atr) (hdr := hdrF {}) (sat := sat) (sgn := sgn) (T := T) n buf o
      [(n!"bits_elapsed", .int (((len : Int) - 3) * 8))] (.const (.int 12)) 12 (by pyexec; rfl)
    cases hv1 : Bits.gbu buf o 12 with
    | error e =>
      rw [hv1] at h2
      refine ⟨hdrLoc G buf o [(n!"bits_elapsed", .int (((len : Int) - 3) * 8))], hdrF {}, ?_⟩
      unfold hdrLoc at h2 ⊢
      pyexec [h0, msmClass.getbitu, h1', decide_false, h2]
    | ok num =>
    rw [hv1] at h2
    rw [except_ok_bind]
    unfold hdrLoc at h2 ⊢
    pyexec [h0, msmClass.getbitu, h1', decide_false, h2]
    subst rest
    refine hdr_next (G := G) (o := o + 12) (l := [(n!"bits_elapsed", .int (((len : Int) - 3) * 8)), (n!"msg_num", .int num)])
      (by unfold hdrLoc; pyexec; push_cast; rfl) ?_
    intro rs_id
    simp only [hdrF, M.bindKey_cons, ident_beq, reduceIte, Bool.false_eq_true, Nat.reduceBEq]
    refine hdr_next (by unfold hdrLoc; pyexec; push_cast; rfl) ?_
    intro time
    simp only [M.bindKey_cons, ident_beq, reduceIte, Bool.false_eq_true, Nat.reduceBEq]
    refine hdr_next (by unfold hdrLoc; pyexec; push_cast; rfl) ?_
    intro MMB
    simp only [M.bindKey_cons, ident_beq, reduceIte, Bool.false_eq_true, Nat.reduceBEq]
    refine hdr_next (by unfold hdrLoc; pyexec; push_cast; rfl) ?_
    intro IODS
    simp only [M.bindKey_cons, ident_beq, reduceIte, Bool.false_eq_true, Nat.reduceBEq]
    refine hdr_next (by unfold hdrLoc; pyexec; push_cast; rfl) ?_
    intro clk_steer
    simp only [M.bindKey_cons, ident_beq, reduceIte, Bool.false_eq_true, Nat.reduceBEq]
    refine hdr_next (by unfold hdrLoc; pyexec; push_cast; rfl) ?_
    intro clk_ext
    simp only [M.bindKey_cons, ident_beq, reduceIte, Bool.false_eq_true, Nat.reduceBEq]
    refine hdr_next (by unfold hdrLoc; pyexec; push_cast; rfl) ?_
    intro smth_indc
    simp only [M.bindKey_cons, ident_beq, reduceIte, Bool.false_eq_true, Nat.reduceBEq]
    refine hdr_next (by unfold hdrLoc; pyexec; push_cast; rfl) ?_
    intro smth_intr
    simp only [M.bindKey_cons, ident_beq, reduceIte, Bool.false_eq_true, Nat.reduceBEq]
    refine hdr_next (by unfold hdrLoc; pyexec; push_cast; rfl) ?_
    intro sat0
    simp only [M.bindKey_cons, ident_beq, reduceIte, Bool.false_eq_true, Nat.reduceBEq]
    refine hdr_rev rfl ?_
    intro sat_mask
    simp only [M.bindKey_cons, ident_beq, reduceIte, Bool.false_eq_true, Nat.reduceBEq]
    refine hdr_next (by unfold hdrLoc; pyexec; push_cast; rfl) ?_
    intro sgn0
    simp only [M.bindKey_cons, ident_beq, reduceIte, Bool.false_eq_true, Nat.reduceBEq]
    refine hdr_rev rfl ?_
    intro sgn_mask
    simp only [M.bindKey_cons, ident_beq, reduceIte, Bool.false_eq_true, Nat.reduceBEq]
    simp only [Nat.reduceAdd]
    generalize o + 12 + 12 + 30 + 1 + 10 + 2 + 2 + 1 + 3 + 64 + 32 = o2
    have bc := bitCount_digits
    have hs := bc sat_mask
    have hg := bc sgn_mask
    generalize Msm.bitCount sat_mask = Nsat at hs ⊢
    generalize Msm.bitCount sgn_mask = Nsgn at hg ⊢
    have e2 : ((o2 : Int) + (7 : Int)) / (2 : Int) ^ 3 = (((o2 + 7) >>> 3 : Nat) : Int) := by
      rw [Nat.shiftRight_eq_div_pow]; push_cast; rfl
    unfold hdrLoc
    by_cases c1 : Nsat = 0
    · have c1' : ((Nsat : Int) == 0) = true := by rw [beq_iff_eq]; omega
      rw [if_pos c1]
      by_cases c2 : buf.length = (o2 + 7) >>> 3 + 3
      · have c2' : ((buf.length : Int) == (((o2 + 7) >>> 3 : Nat) : Int) + 3) = true := by rw [beq_iff_eq]; omega
        rw [if_neg (by omega)]
        exact ⟨_, by
          pyexec [hs, hg, c1', e2, c2', Bool.not_true]
          rfl⟩
      · have c2' : ((buf.length : Int) == (((o2 + 7) >>> 3 : Nat) : Int) + 3) = false := by rw [beq_eq_false_iff_ne]; omega
        rw [if_pos c2]
        exact ⟨_, _, by
          pyexec [hs, hg, c1', e2, c2', Bool.not_false]
          rfl⟩
    have c1' : ((Nsat : Int) == 0) = false := by rw [beq_eq_false_iff_ne]; omega
    rw [if_neg c1]
    have e3 : (Nsat : Int) * (Nsgn : Int) = ((Nsat * Nsgn : Nat) : Int) := by push_cast; rfl
    generalize Nsat * Nsgn = Nc at e3 ⊢
    have e4 : ((len : Int) - 3) * 8 - ((Msm.MIN_HDR_LEN : Nat) : Int) = ((len : Int) - 3) * 8 - 169 := rfl
    rw [e4]
    by_cases c3 : Nc > 64
    · have c3' : (64 : Int) < (Nc : Int) := by omega
      rw [if_pos c3]
      exact ⟨_, _, by
        pyexec [hs, hg, c1', e3, c3', decide_true]
        rfl⟩
    have c3' : ¬ (64 : Int) < (Nc : Int) := by omega
    rw [if_neg c3]
    by_cases c4 : (Nc : Int) > ((len : Int) - 3) * 8 - 169
    · rw [if_pos c4]
      rw [gt_iff_lt] at c4
      exact ⟨_, _, by
        pyexec [hs, hg, c1', e3, c3', decide_false, c4, decide_true]
        rfl⟩
    rw [if_neg c4]
    rw [gt_iff_lt] at c4
    have h3 := getbitu_src n _ msmClass buf o2 Nc
    unfold Bits.gbu
    cases hv3 : Bits.getbitu buf o2 Nc with
    | error e =>
      rw [hv3] at h3
      rw [except_error_bind]
      exact ⟨_, _, by
        pyexec [hs, hg, c1', e3, c3', decide_false, c4, h3, msmClass.getbitu]
        rfl⟩
    | ok cm =>
      rw [hv3] at h3
      rw [except_ok_bind]
      have h4 := revbitu_src2 n _ msmClass cm Nc
      cases hv4 : Bits.revbitu cm Nc with
      | error e =>
        rw [hv4] at h4
        rw [except_error_bind]
        exact ⟨_, _, by
          pyexec [hs, hg, c1', e3, c3', decide_false, c4, h3, h4, msmClass.getbitu, msmClass.revbitu]
          rfl⟩
      | ok cm' =>
        rw [hv4] at h4
        rw [except_ok_bind]
        exact ⟨_, by
          pyexec [hs, hg, c1', e3, c3', decide_false, c4, h3, h4, msmClass.getbitu, msmClass.revbitu]
          rfl⟩
  have hc : callFn src (n + 2) n!"BareObservablesMSM17Decoder.__extract_hdr" [.ref G.length, .bytes buf, .int o]
        (bareHeap G r K atr (hdrF {}) sat sgn T) = endCall (execBlock src (n + 1) (callFn src (n + 1))
      Src.fn_BareObservablesMSM17Decoder_P_extract_hdr.body ⟨hdrLoc G buf o [], bareHeap G r K atr (hdrF {}) sat sgn T⟩) :=
    callFn_succ src _ _ _ _ _ _ Look.fn_BareObservablesMSM17Decoder_P_extract_hdr rfl
  rw [hc]
  cases hp : Msm.extractHdr buf o with
  | ok x =>
    rw [hp] at key
    obtain ⟨l, h1⟩ := key
    rw [h1]
    rfl
  | error e =>
    rw [hp] at key
    obtain ⟨l, hdr', h1⟩ := key
    rw [h1]
    exact ⟨hdr', rfl⟩

end

end Refine
end PyCore
end Verif
