import Verif.PyCore.RulesObj
import Verif.Refine.Bits
import Verif.Refine.CRC24Q
import Verif.Lemmas.Framer

/-!
# decoder_top.py, the parsing part: the methods of the source have the results of the model
-/

namespace Verif
namespace PyCore
namespace Refine
open Framer

open Rounding (rnd)
variable [Rounding]

/-- The value of an optional result. -/
def optVal {α : Type} (f : α → Val) : Option α → Val
  | some a => f a
  | none => .none

theorem bitsSelf : BitsClass n!"Bits" := ⟨rfl, rfl, rfl, rfl, rfl⟩

theorem catchesBits (e : PyErr) : catches src (errName e) n!"ExceptionBitsError" = decide (e = .bitsError) := by cases e <;> rfl
theorem catchesAny (e : PyErr) : catches src (errName e) n!"Exception" = true := by cases e <;> rfl

theorem mlen_src (n : Nat) (buf : Bytes) (h : Heap) :
    callFn src (n + 3) n!"DecoderTop.mlen" [.bytes buf] h = (.ok (optVal (fun x : Nat => .int x) (mlen buf)), h) := by
  have h1 : callFn src (n + 2) n!"DecoderTop.mlen$undecorated" [.bytes buf] h =
      ofModel (fun x : Nat => .int x) h (do let l ← Bits.gbu buf 14 10; pure (l + 6)) := by
    pycall Look.fn_DecoderTop_mlen_undecorated Src.fn_DecoderTop_mlen_undecorated
    have h2 := getbitu_src n n!"Bits" bitsSelf buf 14 10 h
    unfold Bits.gbu
    push_cast
    cases hv : Bits.getbitu buf 14 10 with
    | error e => rw [hv] at h2; pyexec [getAttr_cls, h2, bitsSelf.getbitu]; rfl
    | ok v =>
      rw [hv] at h2; pyexec [getAttr_cls, h2, bitsSelf.getbitu]
      rfl
  pycall Look.fn_DecoderTop_mlen Src.fn_DecoderTop_mlen
  unfold mlen Bits.catchBits
  generalize (do let l ← Bits.gbu buf 14 10; pure (l + 6) : Py Nat) = p at h1 ⊢
  cases p with
  | error e =>
    pyexec [h1, handle_cons, catchesBits, catchesAny]
    cases e <;> pyexec [reduceCtorEq, decide_true, decide_false, optVal]
  | ok v => pyexec [h1, optVal]

theorem mnum_src (n : Nat) (buf : Bytes) (h : Heap) :
    callFn src (n + 3) n!"DecoderTop.mnum" [.bytes buf] h = (.ok (optVal (fun x : Nat => .int x) (mnum buf)), h) := by
  have h1 : callFn src (n + 2) n!"DecoderTop.mnum$undecorated" [.bytes buf] h =
      ofModel (fun x : Nat => .int x) h (Bits.gbu buf 24 12) := by
    pycall Look.fn_DecoderTop_mnum_undecorated Src.fn_DecoderTop_mnum_undecorated
    have h2 := getbitu_src n n!"Bits" bitsSelf buf 24 12 h
    unfold Bits.gbu
    push_cast
    cases hv : Bits.getbitu buf 24 12 with
    | error e => rw [hv] at h2; pyexec [getAttr_cls, h2, bitsSelf.getbitu]
    | ok v => rw [hv] at h2; pyexec [getAttr_cls, h2, bitsSelf.getbitu]
  pycall Look.fn_DecoderTop_mnum Src.fn_DecoderTop_mnum
  unfold mnum Bits.catchBits
  generalize Bits.gbu buf 24 12 = p at h1 ⊢
  cases p with
  | error e =>
    pyexec [h1, handle_cons, catchesBits, catchesAny]
    cases e <;> pyexec [reduceCtorEq, decide_true, decide_false, optVal]
  | ok v => pyexec [h1, optVal]

theorem crcSelf : findMember src n!"CRC24Q" n!"calc" = some (n!"CRC24Q", .clsMethod n!"CRC24Q.calc") := rfl

theorem mcrc_src (n : Nat) (buf : Bytes) (h : Heap) :
    callFn src (n + 3) n!"DecoderTop.mcrc" [.bytes buf] h = (.ok (optVal .bool (mcrc buf)), h) := by
  have h1 : callFn src (n + 2) n!"DecoderTop.mcrc$undecorated" [.bytes buf] h =
      ofModel .bool h (do
        let l ← Bits.gbu buf 14 10
        let dataLen := l + 3
        let crcCalc ← CRC24Q.crcCalc (buf.take dataLen)
        let crcGet ← Bits.gbu buf (dataLen * 8) 24
        pure (crcCalc == crcGet)) := by
    pycall Look.fn_DecoderTop_mcrc_undecorated Src.fn_DecoderTop_mcrc_undecorated
    have h2 := getbitu_src n n!"Bits" bitsSelf buf 14 10 h
    unfold Bits.gbu
    push_cast
    cases hv : Bits.getbitu buf 14 10 with
    | error e => rw [hv] at h2; pyexec [getAttr_cls, h2, bitsSelf.getbitu]; rfl
    | ok v =>
      rw [hv] at h2
      have e : ((v : Int) + 3) = ((v + 3 : Nat) : Int) := by push_cast; rfl
      have h3 := crc_src n (buf.take (v + 3)) h
      show _ = ofModel .bool h (do
        let crcCalc ← CRC24Q.crcCalc (buf.take (v + 3))
        let crcGet ← Bits.getbitu buf (((v + 3 : Nat) : Int) * 8) 24
        pure (crcCalc == crcGet))
      cases hc : CRC24Q.crcCalc (buf.take (v + 3)) with
      | error e' => rw [hc] at h3; pyexec [getAttr_cls, h2, bitsSelf.getbitu, e, crcSelf, h3]; rfl
      | ok c =>
        rw [hc] at h3
        have h4 := getbitu_src n n!"Bits" bitsSelf buf (((v + 3 : Nat) : Int) * 8) 24 h
        cases hg : Bits.getbitu buf (((v + 3 : Nat) : Int) * 8) 24 with
        | error e' =>
          rw [hg] at h4; pyexec [getAttr_cls, h2, bitsSelf.getbitu, e, crcSelf, h3, h4]; rfl
        | ok g =>
          rw [hg] at h4; pyexec [getAttr_cls, h2, bitsSelf.getbitu, e, crcSelf, h3, h4]
          show _ = (Except.ok (Val.bool (c == g)), h)
          congr 3
          rw [Bool.eq_iff_iff, beq_iff_eq, beq_iff_eq]
          omega
  pycall Look.fn_DecoderTop_mcrc Src.fn_DecoderTop_mcrc
  unfold mcrc Bits.catchBits
  dsimp only at h1 ⊢
  generalize (do
        let l ← Bits.gbu buf 14 10
        let crcCalc ← CRC24Q.crcCalc (buf.take (l + 3))
        let crcGet ← Bits.gbu buf ((l + 3) * 8) 24
        pure (crcCalc == crcGet) : Py Bool) = p at h1 ⊢
  cases p with
  | error e =>
    pyexec [h1, handle_cons, catchesBits, catchesAny]
    cases e <;> pyexec [reduceCtorEq, decide_true, decide_false, optVal]
  | ok v => pyexec [h1, optVal]

/-- An object of the class `DecoderTop`, as `__init__` makes it (decoder_top.py:158-165): the attributes of the parser are those of the
model, the others have any values. -/
def topObj (d x y : Val) (p : Parser) : Obj :=
  .inst n!"DecoderTop" [(n!"decoders", d), (n!"_tail", .bytes p.tail), (n!"_skipped_some_bytes", .bool p.skipped),
    (n!"_synchronized", .bool p.synchronized), (n!"_DecoderTop__pars_err_cnt", .int p.parsErrCnt),
    (n!"_DecoderTop__dec_attempts", x), (n!"_DecoderTop__dec_succeeded", y)]

theorem find_src (tail : Bytes) (ptr : Nat) :
    findFrom (· == (0xD3 : UInt8)) tail ptr = match findD3 tail ptr with
      | some i => (i : Int)
      | none => -1 := by
  unfold findFrom findD3
  cases (tail.drop ptr).findIdx? (fun b => b == 0xD3) with
  | none => rfl
  | some j => simp [Nat.add_comm]

/-- The loop of `__rebase_to_D3`. -/
theorem rebase_loop (n : Nat) (call : CallT) (H : Heap) (a : Nat) (ha : a < H.length) (d x y : Val) (p : Parser) (t : Bytes)
    (k ptr : Nat) (hk : p.tail.length - ptr < k) (ht : rebaseLoop p.tail ptr = pure t)
    (l : List (Ident × Val)) (hl : l = [] ∨ ∃ i, l = [(n!"ofs", i)]) :
    ∃ l', whileLoop (eval src call (.not (.name n!"synch_ok")) >>= fun v => truth src v)
      (execBlock src n call [
      .assign (.name n!"ofs") (.call (.attr (.attr (.name n!"self") n!"_tail") n!"find") [.call (.attr (.name n!"bytes") n!"fromhex") [.const (.str "D3")], .name n!"ptr"]),
      .ite (.cmp .eq (.name n!"ofs") (.neg (.const (.int 1)))) [
        .assign (.attr (.name n!"self") n!"_tail") (.const (.bytes [])),
        .brk] [
        .ite (.cmp .eq (.name n!"ofs") (.bin .sub (.name n!"tail_len") (.const (.int 1)))) [
          .assign (.attr (.name n!"self") n!"_tail") (.slice (.attr (.name n!"self") n!"_tail") (.name n!"ofs") (.bin .add (.name n!"ofs") (.const (.int 1)))),
          .assign (.name n!"synch_ok") (.const (.bool true))] [
          .ite (.cmp .eq (.bin .band (.index (.attr (.name n!"self") n!"_tail") (.bin .add (.name n!"ofs") (.const (.int 1)))) (.const (.int 252))) (.const (.int 0))) [
            .assign (.attr (.name n!"self") n!"_tail") (.slice (.attr (.name n!"self") n!"_tail") (.name n!"ofs") (.const .none)),
            .assign (.name n!"synch_ok") (.const (.bool true))] [
            .assign (.name n!"ptr") (.bin .add (.name n!"ofs") (.const (.int 1)))]]]])
      (execBlock src n call [.pass]) (k + 1)
      ⟨(n!"self", .ref a) :: (n!"tail_len", .int p.tail.length) :: (n!"synch_ok", .bool false) :: (n!"ptr", .int ptr) :: l,
        H.set a (topObj d x y p)⟩ =
      (.ok .next, ⟨(n!"self", .ref a) :: l', H.set a (topObj d x y { p with tail := t })⟩) ∧ l'.lookup n!"len" = none := by
  have hr : ∀ o, (H.set a o)[a]? = some o := fun o => by simp [ha]
  induction k generalizing ptr l with
  | zero => omega
  | succ k ih =>
    have e : ∀ v, M.bindKey l n!"ofs" v = [(n!"ofs", v)] := by
      rcases hl with rfl | ⟨i, rfl⟩ <;> intro v <;> pyexec
    have eb : l.lookup n!"bytes" = none := by
      rcases hl with rfl | ⟨i, rfl⟩ <;> rfl
    rw [rebaseLoop] at ht
    cases hf : findD3 p.tail ptr with
    | none =>
      rw [hf] at ht
      have ht : ([] : Bytes) = t := by injection ht with ht; injection ht
      subst ht
      rw [whileLoop_succ]
      unfold topObj
      pyexec [hr, find_src, hf, e, eb, Bool.not_false, List.map_nil, List.set_set]
      exact ⟨_, rfl, rfl⟩
    | some i =>
      obtain ⟨h1, h2, h3, h4⟩ := findD3_some hf
      rw [hf] at ht
      dsimp only at ht
      have e1 : ((i : Int) == -1) = false := by rw [beq_eq_false_iff_ne]; omega
      have e2 : ((i : Int) == (p.tail.length : Int) - 1) = decide (i = p.tail.length - 1) := by
        rw [Bool.eq_iff_iff, beq_iff_eq, decide_eq_true_eq]; omega
      have e3 : (i : Int) + 1 = ((i + 1 : Nat) : Int) := by push_cast; rfl
      rw [whileLoop_succ]
      unfold topObj
      by_cases hlast : i = p.tail.length - 1
      · rw [if_pos hlast] at ht
        have ht : (p.tail.drop i).take 1 = t := by injection ht with ht; injection ht
        have e4 : (p.tail.take (i + 1)).drop i = t := by rw [← ht, List.drop_take]; congr 1; omega
        subst ht
        rw [decide_eq_true hlast] at e2
        pyexec [hr, find_src, hf, e, eb, Bool.not_false, Bool.not_true, e1, e2, e3, e4, List.set_set, whileLoop_succ]
        exact ⟨_, rfl, rfl⟩
      · rw [if_neg hlast, byteAt_lt (by omega), liftD_ok_bind] at ht
        rw [decide_eq_false hlast] at e2
        have e5 := index_bytes src p.tail (i + 1)
        rw [byteAt_lt (by omega)] at e5
        dsimp only at e5
        have e6 : (Int.land ((p.tail.getD (i + 1) 0).toNat : Int) 252 == 0) = decide ((p.tail.getD (i + 1) 0).toNat &&& 0xFC = 0) := by
          rw [Bool.eq_iff_iff, beq_iff_eq, decide_eq_true_eq]
          exact Int.ofNat_inj (m := (p.tail.getD (i + 1) 0).toNat &&& 0xFC) (n := 0)
        split at ht
        next hz =>
          have ht : p.tail.drop i = t := by injection ht with ht; injection ht
          subst ht
          rw [decide_eq_true hz] at e6
          pyexec [hr, find_src, hf, e, eb, Bool.not_false, Bool.not_true, e1, e2, e3, e5, e6, List.set_set, whileLoop_succ]
          exact ⟨_, rfl, rfl⟩
        next hz =>
          rw [decide_eq_false hz] at e6
          have hi := ih (i + 1) (by omega) ht [(n!"ofs", .int i)] (Or.inr ⟨_, rfl⟩)
          unfold topObj at hi
          pyexec [hr, find_src, hf, e, eb, Bool.not_false, Bool.not_true, e1, e2, e3, e5, e6, List.set_set]
          exact hi

theorem pureD_eq {α : Type} {a b : α} (h : (pure a : PyD α) = pure b) : a = b := by injection h with h; injection h

theorem bytes_beq_nil (b : Bytes) : (b == []) = decide (b = []) := by cases b <;> rfl

theorem land_header (b : Nat) : (Int.land (b : Int) 252 == 0) = decide (b &&& 0xFC = 0) := by
  rw [Bool.eq_iff_iff, beq_iff_eq, decide_eq_true_eq]
  exact Int.ofNat_inj (m := b &&& 0xFC) (n := 0)

/-- `__rebase_to_D3` has the effect and the result of the model. -/
theorem rebase_src (n : Nat) (H : Heap) (a : Nat) (ha : a < H.length) (d x y : Val) (p : Parser) (t : Bytes) (k : Nat)
    (ht : rebaseToD3 p.tail = pure (t, k)) (hn : p.tail.length + 1 ≤ n) :
    callFn src (n + 1) n!"DecoderTop.__rebase_to_D3" [.ref a] (H.set a (topObj d x y p)) =
      (.ok (.int k), H.set a (topObj d x y { p with tail := t })) := by
  have hr : ∀ o, (H.set a o)[a]? = some o := fun o => by simp [ha]
  pycall Look.fn_DecoderTop_P_rebase_to_D3 Src.fn_DecoderTop_P_rebase_to_D3
  unfold rebaseToD3 at ht
  by_cases hz : p.tail = []
  · rw [if_pos hz] at ht
    have ht := pureD_eq ht
    simp only [Prod.mk.injEq] at ht
    obtain ⟨rfl, rfl⟩ := ht
    unfold topObj
    pyexec [hr, List.map_nil, bytes_beq_nil, decide_eq_true hz]
    rfl
  · have hpos : 0 < p.tail.length := List.length_pos_iff.2 hz
    rw [if_neg hz, byteAt_lt hpos, liftD_ok_bind] at ht
    dsimp only at ht
    have e0 := index_bytes src p.tail 0
    rw [byteAt_lt hpos] at e0
    dsimp only at e0
    rw [Nat.cast_zero] at e0
    have e1 : (((p.tail.getD 0 0).toNat : Int) == 211) = ((p.tail.getD 0 0).toNat == 0xD3) := by
      rw [Bool.eq_iff_iff, beq_iff_eq, beq_iff_eq]; omega
    have e2 : ((p.tail.length : Int) == 1) = decide (p.tail.length = 1) := by
      rw [Bool.eq_iff_iff, beq_iff_eq, decide_eq_true_eq]; omega
    generalize hs : ((p.tail.getD 0 0).toNat == 0xD3) = sy at ht e1
    by_cases h1 : p.tail.length = 1
    · rw [if_pos h1] at ht
      have ht := pureD_eq ht
      simp only [Prod.mk.injEq] at ht
      obtain ⟨rfl, rfl⟩ := ht
      unfold topObj
      cases sy <;> pyexec [hr, List.map_nil, bytes_beq_nil, decide_eq_false hz, e0, e1, e2, decide_eq_true h1] <;> rfl
    · rw [if_neg h1, byteAt_lt (by omega), liftD_ok_bind] at ht
      have e3 := index_bytes src p.tail 1
      rw [byteAt_lt (by omega)] at e3
      dsimp only at e3
      rw [Nat.cast_one] at e3
      have e4 := land_header (p.tail.getD 1 0).toNat
      by_cases hg : sy = true ∧ (p.tail.getD 1 0).toNat &&& 0xFC = 0
      · obtain ⟨rfl, hb⟩ := hg
        rw [hb] at ht
        have ht := pureD_eq ht
        simp only [Prod.mk.injEq] at ht
        obtain ⟨rfl, rfl⟩ := ht
        rw [decide_eq_true hb] at e4
        unfold topObj
        pyexec [hr, List.map_nil, bytes_beq_nil, decide_eq_false hz, e0, e1, e2, decide_eq_false h1, e3, e4, Bool.not_true]
      · have hm : (if (sy && ((p.tail.getD 1 0).toNat &&& 0xFC) != 0) = true then false else sy) = false := by
          cases sy
          · rfl
          · simp only [true_and] at hg
            rw [if_pos (by simpa using hg)]
        rw [hm] at ht
        simp only [Bool.false_eq_true, if_false] at ht
        obtain ⟨c, c1, c2, c3, -⟩ := rebaseLoop_spec p.tail 1 (by omega)
        have hlp := fun call => rebase_loop n call H a ha d x y p _ (n - 1) 1 (by omega) c3 [] (Or.inl rfl)
        rw [c3] at ht
        have ht := pureD_eq ht
        simp only [Prod.mk.injEq] at ht
        obtain ⟨rfl, rfl⟩ := ht
        rw [Nat.sub_add_cancel (by omega : 1 ≤ n), Nat.cast_one] at hlp
        obtain ⟨l', hlp, hll⟩ := hlp (callFn src n)
        unfold topObj at hlp ⊢
        cases sy
        · pyexec [hr, List.map_nil, bytes_beq_nil, decide_eq_false hz, e0, e1, e2, decide_eq_false h1, e3, e4, exec_while, hlp, hll]
        · simp only [true_and] at hg
          rw [decide_eq_false hg] at e4
          pyexec [hr, List.map_nil, bytes_beq_nil, decide_eq_false hz, e0, e1, e2, decide_eq_false h1, e3, e4, exec_while, hlp, hll, Bool.not_false]

theorem rebase_total (tail : Bytes) : ∃ t k, rebaseToD3 tail = pure (t, k) ∧ t.length ≤ tail.length ∧ (6 ≤ k → t.length = k) := by
  match tail with
  | [] => exact ⟨_, _, rebase_nil, by simp, by simp⟩
  | [b] =>
    refine ⟨_, _, rebase_one b, by simp, ?_⟩
    split <;> omega
  | b :: c :: tl =>
    obtain ⟨k, h1, h2, -⟩ := rebase_spec (b :: c :: tl) (by simp)
    exact ⟨_, _, h2, by simp, by simp⟩

theorem mlen_ge {buf : Bytes} {m : Nat} (h : mlen buf = some m) : 6 ≤ m := by
  unfold mlen Bits.catchBits at h
  cases hg : Bits.gbu buf 14 10 with
  | error e => rw [hg] at h; cases h
  | ok v =>
    rw [hg] at h
    have h : some (v + 6) = some m := h
    injection h with h
    omega

/-- The effect of decoder_top.py:236-242: bytes were skipped after a message. -/
def skipStep (p : Parser) (k m : Nat) : Parser :=
  if (!p.skipped) && (k < m) && p.synchronized then { p with skipped := true, synchronized := false } else p

theorem skip_step (n : Nat) (call : CallT) (H : Heap) (a : Nat) (ha : a < H.length) (d x y : Val) (p : Parser) (k m : Nat)
    (loc : List (Ident × Val)) (h1 : loc.lookup n!"self" = some (.ref a)) (h2 : loc.lookup n!"tail_length" = some (.int k))
    (h3 : loc.lookup n!"tail_0" = some (.int m)) :
    exec src n call (.ite (.and (.not (.attr (.name n!"self") n!"_skipped_some_bytes")) (.and (.cmp .lt (.name n!"tail_length") (.name n!"tail_0")) (.attr (.name n!"self") n!"_synchronized"))) [
        .assign (.attr (.name n!"self") n!"_skipped_some_bytes") (.const (.bool true)),
        .assign (.attr (.name n!"self") n!"_synchronized") (.const (.bool false))] [])
      ⟨loc, H.set a (topObj d x y p)⟩ = (.ok .next, ⟨loc, H.set a (topObj d x y (skipStep p k m))⟩) := by
  have hr : ∀ o, (H.set a o)[a]? = some o := fun o => by simp [ha]
  obtain ⟨tail, sk, sy, cnt⟩ := p
  have e : decide ((k : Int) < (m : Int)) = decide (k < m) := by simp
  unfold skipStep topObj
  generalize decide (k < m) = lt at e ⊢
  cases sk <;> cases lt <;> cases sy <;>
    pyexec [hr, h1, h2, h3, e, Bool.not_false, Bool.not_true, Bool.and_true, Bool.true_and, Bool.false_and, Bool.and_false, List.set_set]

theorem truth_opt (o : Option Bool) (s : St) : truth src (optVal .bool o) s = (.ok (o == some true), s) := by
  cases o with
  | none => rfl
  | some b => cases b <;> rfl

/-- The loop of `catch_message`: `b` is the address of `ret_list`. -/
theorem catch_loop (n : Nat) (H : Heap) (a b : Nat) (ha : a < H.length) (hb : b < H.length) (hab : a ≠ b) (d x y ch : Val)
    (p q : Parser) (ret out : List Bytes) (k : Nat) (hk : p.tail.length < k) (hn : p.tail.length + 4 ≤ n)
    (ht : catchLoop p ret = pure (q, out))
    (l : List (Ident × Val)) (hl : l = [] ∨ ∃ u v w, l = [(n!"tail_0", u), (n!"tail_length", v), (n!"msg_length", w)]) :
    ∃ l', whileLoop (eval src (callFn src n) (.not (.name n!"search_finished")) >>= fun v => truth src v)
      (execBlock src n (callFn src n) [
      .assign (.name n!"tail_0") (.call (.name n!"len") [.attr (.name n!"self") n!"_tail"]),
      .assign (.name n!"tail_length") (.call (.attr (.name n!"self") n!"_DecoderTop__rebase_to_D3") []),
      .ite (.and (.not (.attr (.name n!"self") n!"_skipped_some_bytes")) (.and (.cmp .lt (.name n!"tail_length") (.name n!"tail_0")) (.attr (.name n!"self") n!"_synchronized"))) [
        .assign (.attr (.name n!"self") n!"_skipped_some_bytes") (.const (.bool true)),
        .assign (.attr (.name n!"self") n!"_synchronized") (.const (.bool false))] [],
      .ite (.cmp .lt (.name n!"tail_length") (.const (.int 6))) [
        .assign (.name n!"search_finished") (.const (.bool true)),
        .assign (.name n!"msg_length") (.const (.int 0))] [
        .assign (.name n!"msg_length") (.call (.attr (.name n!"self") n!"mlen") [.attr (.name n!"self") n!"_tail"]),
        .assign (.name n!"search_finished") (.cmp .gt (.name n!"msg_length") (.name n!"tail_length"))],
      .ite (.not (.name n!"search_finished")) [
        .ite (.call (.attr (.name n!"self") n!"mcrc") [.attr (.name n!"self") n!"_tail"]) [
          .expr (.call (.attr (.name n!"ret_list") n!"append") [.slice (.attr (.name n!"self") n!"_tail") (.const (.int 0)) (.name n!"msg_length")]),
          .assign (.attr (.name n!"self") n!"_tail") (.slice (.attr (.name n!"self") n!"_tail") (.name n!"msg_length") (.const .none)),
          .ite (.attr (.name n!"self") n!"_skipped_some_bytes") [
            .aug (.attr (.name n!"self") n!"_DecoderTop__pars_err_cnt") .add (.const (.int 1)),
            .assign (.attr (.name n!"self") n!"_skipped_some_bytes") (.const (.bool false))] [],
          .assign (.attr (.name n!"self") n!"_synchronized") (.const (.bool true))] [
          .assign (.attr (.name n!"self") n!"_tail") (.slice (.attr (.name n!"self") n!"_tail") (.const (.int 1)) (.const .none))]] []])
      (execBlock src n (callFn src n) []) (k + 1)
      ⟨(n!"self", .ref a) :: (n!"chunk", ch) :: (n!"ret_list", .ref b) :: (n!"search_finished", .bool false) :: l,
        (H.set b (.list (ret.map .bytes))).set a (topObj d x y p)⟩ =
      (.ok .next, ⟨(n!"self", .ref a) :: (n!"chunk", ch) :: (n!"ret_list", .ref b) :: l',
        (H.set b (.list (out.map .bytes))).set a (topObj d x y q)⟩) := by
  induction k generalizing p ret l with
  | zero => omega
  | succ k ih =>
    have e : ∀ v, M.bindKey l n!"tail_0" v = (n!"tail_0", v) :: (l.drop 1) := by
      rcases hl with rfl | ⟨u, v, w, rfl⟩ <;> intro v <;> pyexec <;> rfl
    have e' : ∀ v, M.bindKey (l.drop 1) n!"tail_length" v = (n!"tail_length", v) :: (l.drop 2) := by
      rcases hl with rfl | ⟨u, v, w, rfl⟩ <;> intro v <;> pyexec [List.drop_succ_cons, List.drop_nil, List.drop_zero]
    have e'' : ∀ v, M.bindKey (l.drop 2) n!"msg_length" v = [(n!"msg_length", v)] := by
      rcases hl with rfl | ⟨u, v, w, rfl⟩ <;> intro v <;> pyexec [List.drop_succ_cons, List.drop_nil, List.drop_zero]
    have eb : l.lookup n!"len" = none := by
      rcases hl with rfl | ⟨u, v, w, rfl⟩ <;> rfl
    have hr : ∀ (H : Heap) o, a < H.length → (H.set a o)[a]? = some o := fun H o ha => by simp [ha]
    have hset : ∀ o, a < (H.set b o).length := fun o => by simpa using ha
    rw [catchLoop] at ht
    obtain ⟨t, len, hreb, hle, hlen⟩ := rebase_total p.tail
    rw [hreb] at ht
    obtain ⟨n, rfl⟩ : ∃ n', n = n' + 3 := ⟨n - 3, by omega⟩
    have hB := rebase_src (n + 2) (H.set b (.list (ret.map .bytes))) a (hset _) d x y p t len hreb (by omega)
    have hS := fun loc h1 h2 h3 => skip_step (n + 3) (callFn src (n + 3)) (H.set b (.list (ret.map .bytes))) a (hset _) d x y
      { p with tail := t } len p.tail.length loc h1 h2 h3
    have ht2 : (if len < 6 then pure (skipStep { p with tail := t } len p.tail.length, ret) else
        match mlen (skipStep { p with tail := t } len p.tail.length).tail with
        | none => liftD (.error .typeError)
        | some msgLength =>
          if msgLength > len then
            pure (skipStep { p with tail := t } len p.tail.length, ret)
          else if mcrc (skipStep { p with tail := t } len p.tail.length).tail = some true then
            catchLoop { (if (skipStep { p with tail := t } len p.tail.length).skipped then
              { (skipStep { p with tail := t } len p.tail.length) with
                tail := (skipStep { p with tail := t } len p.tail.length).tail.drop msgLength
                parsErrCnt := (skipStep { p with tail := t } len p.tail.length).parsErrCnt + 1
                skipped := false }
              else { (skipStep { p with tail := t } len p.tail.length) with
                tail := (skipStep { p with tail := t } len p.tail.length).tail.drop msgLength }) with synchronized := true }
              (ret ++ [(skipStep { p with tail := t } len p.tail.length).tail.take msgLength])
          else
            catchLoop { (skipStep { p with tail := t } len p.tail.length) with
              tail := (skipStep { p with tail := t } len p.tail.length).tail.drop 1 } ret : PyD (Parser × List Bytes)) = pure (q, out) := ht
    clear ht
    rename' ht2 => ht
    have hst : (skipStep { p with tail := t } len p.tail.length).tail = t := by unfold skipStep; split <;> rfl
    generalize skipStep { p with tail := t } len p.tail.length = p1 at ht hS hst
    generalize hstm : Stmt.ite (.and (.not (.attr (.name n!"self") n!"_skipped_some_bytes")) (.and (.cmp .lt (.name n!"tail_length") (.name n!"tail_0")) (.attr (.name n!"self") n!"_synchronized"))) [
        .assign (.attr (.name n!"self") n!"_skipped_some_bytes") (.const (.bool true)),
        .assign (.attr (.name n!"self") n!"_synchronized") (.const (.bool false))] [] = stm at hS ih ⊢
    have hS' := hS ((n!"self", .ref a) :: (n!"chunk", ch) :: (n!"ret_list", .ref b) :: (n!"search_finished", .bool false) ::
      (n!"tail_0", .int p.tail.length) :: (n!"tail_length", .int len) :: l.drop 2) rfl rfl rfl
    obtain ⟨tail1, sk, sy, cnt⟩ := p1
    dsimp only at hst
    subst hst
    rw [whileLoop_succ]
    unfold topObj at hB hS' ⊢
    by_cases h6 : len < 6
    · rw [if_pos h6] at ht
      have ht := pureD_eq ht
      simp only [Prod.mk.injEq] at ht
      obtain ⟨rfl, rfl⟩ := ht
      have e6 : decide ((len : Int) < 6) = true := by simp; omega
      pyexec [hr, hset, e, e', e'', eb, Bool.not_false, Bool.not_true, hB, hS', whileLoop_succ, e6]
      exact ⟨_, rfl⟩
    · rw [if_neg h6] at ht
      have e6 : decide ((len : Int) < 6) = false := by simp; omega
      have hL := mlen_src n tail1
      have hC := mcrc_src n tail1
      dsimp only at ht
      cases hm : mlen tail1 with
      | none => rw [hm] at ht; cases ht
      | some m =>
        rw [hm] at ht hL
        have hm6 := mlen_ge hm
        dsimp only [optVal] at ht hL
        by_cases hml : m > len
        · rw [if_pos hml] at ht
          have ht := pureD_eq ht
          simp only [Prod.mk.injEq] at ht
          obtain ⟨rfl, rfl⟩ := ht
          have e7 : decide ((len : Int) < (m : Int)) = true := by simp; omega
          pyexec [hr, hset, e, e', e'', eb, Bool.not_false, Bool.not_true, hB, hS', whileLoop_succ, e6, e7, hL]
          exact ⟨_, rfl⟩
        · rw [if_neg hml] at ht
          have e7 : decide ((len : Int) < (m : Int)) = false := by simp; omega
          by_cases hc : mcrc tail1 = some true
          · rw [if_pos hc] at ht
            have hlt := hlen (by omega)
            rw [hc] at hC
            have ec : (some true == some true) = true := rfl
            have hrb : ∀ o, ((H.set b (.list (ret.map .bytes))).set a o)[b]? = some (.list (ret.map .bytes)) := fun o => by
              rw [List.getElem?_set_ne hab]; simp [hb]
            have hcm : ∀ o, ((H.set b (.list (ret.map .bytes))).set a o).set b (.list (ret.map .bytes ++ [.bytes (tail1.take m)])) =
                (H.set b (.list ((ret ++ [tail1.take m]).map .bytes))).set a o := fun o => by
              rw [List.set_comm _ _ hab, List.set_set, List.map_append]; rfl
            cases sk
            · have hi := ih _ _ (by show (tail1.drop m).length < k; rw [List.length_drop]; omega)
                (by show (tail1.drop m).length + 4 ≤ _; rw [List.length_drop]; omega) ht
                [(n!"tail_0", .int p.tail.length), (n!"tail_length", .int len), (n!"msg_length", .int m)] (Or.inr ⟨_, _, _, rfl⟩)
              obtain ⟨l', hi⟩ := hi
              unfold topObj at hi
              refine ⟨l', ?_⟩
              pyexec [hr, hset, e, e', e'', eb, Bool.not_false, Bool.not_true, hB, hS', e6, e7, hL, hC, truth_opt, ec, hrb, hcm, List.set_set]
              exact hi
            · have hi := ih _ _ (by show (tail1.drop m).length < k; rw [List.length_drop]; omega)
                (by show (tail1.drop m).length + 4 ≤ _; rw [List.length_drop]; omega) ht
                [(n!"tail_0", .int p.tail.length), (n!"tail_length", .int len), (n!"msg_length", .int m)] (Or.inr ⟨_, _, _, rfl⟩)
              obtain ⟨l', hi⟩ := hi
              unfold topObj at hi
              refine ⟨l', ?_⟩
              pyexec [hr, hset, e, e', e'', eb, Bool.not_false, Bool.not_true, hB, hS', e6, e7, hL, hC, truth_opt, ec, hrb, hcm, List.set_set]
              exact hi
          · rw [if_neg hc] at ht
            have hlt := hlen (by omega)
            have ec : (mcrc tail1 == some true) = false := by rw [beq_eq_false_iff_ne]; exact hc
            have hi := ih _ _ (by show (tail1.drop 1).length < k; rw [List.length_drop]; omega)
              (by show (tail1.drop 1).length + 4 ≤ _; rw [List.length_drop]; omega) ht
              [(n!"tail_0", .int p.tail.length), (n!"tail_length", .int len), (n!"msg_length", .int m)] (Or.inr ⟨_, _, _, rfl⟩)
            obtain ⟨l', hi⟩ := hi
            unfold topObj at hi
            refine ⟨l', ?_⟩
            pyexec [hr, hset, e, e', e'', eb, Bool.not_false, Bool.not_true, hB, hS', e6, e7, hL, hC, truth_opt, ec, List.set_set]
            exact hi

/-- `catch_message` has the effect and the result of the model: the returned list is the new object at the address `H.length`. -/
theorem catch_src (n : Nat) (H : Heap) (a : Nat) (ha : a < H.length) (d x y : Val) (p q : Parser) (chunk : Bytes) (out : List Bytes)
    (ht : catchMessage p chunk = pure (q, out)) (hn : p.tail.length + chunk.length + 5 ≤ n) :
    callFn src (n + 1) n!"DecoderTop.catch_message" [.ref a, .bytes chunk] (H.set a (topObj d x y p)) =
      (.ok (.ref H.length), (H ++ [Obj.list (out.map .bytes), Obj.list [.bytes p.tail, .bytes chunk]]).set a (topObj d x y q)) := by
  have hr : ∀ (H : Heap) o, a < H.length → (H.set a o)[a]? = some o := fun H o ha => by simp [ha]
  pycall Look.fn_DecoderTop_catch_message Src.fn_DecoderTop_catch_message
  unfold catchMessage at ht
  dsimp only at ht
  have hs1 : ∀ o L, (H.set a o) ++ L = (H ++ L).set a o := fun o L => by rw [List.set_append_left _ _ ha]
  have hs2 : ∀ o L M, ((H ++ L).set a o) ++ M = (H ++ (L ++ M)).set a o := fun o L M => by
    rw [← List.set_append_left _ _ (by rw [List.length_append]; omega), List.append_assoc]
  have hr2 : ∀ (L : Heap) o, ((H ++ L).set a o)[a]? = some o := fun L o => hr _ _ (by rw [List.length_append]; omega)
  have hj2 : ∀ o, ((H ++ [Obj.list [], Obj.list [.bytes p.tail, .bytes chunk]]).set a o)[H.length + 1]? = some (Obj.list [.bytes p.tail, .bytes chunk]) := by
    intro o; rw [List.getElem?_set_ne (by omega)]; simp
  have ef : ([p.tail, chunk] : List Bytes).flatten = p.tail ++ chunk := by simp
  obtain ⟨n, rfl⟩ : ∃ n', n = n' + 1 := ⟨n - 1, by omega⟩
  by_cases hz : p.tail ++ chunk = []
  · rw [if_pos hz] at ht
    have ht := pureD_eq ht
    simp only [Prod.mk.injEq] at ht
    obtain ⟨rfl, rfl⟩ := ht
    unfold topObj
    pyexec [hr, ha, hs1, hs2, hr2, List.cons_append, List.nil_append, List.map_nil, List.length_set, hj2, ef, List.set_set, bytes_beq_nil, decide_eq_true hz, exec_while, whileLoop_succ, Bool.not_true]
  · rw [if_neg hz] at ht
    have hset : ∀ out : List Bytes, (H ++ [Obj.list [], Obj.list [.bytes p.tail, .bytes chunk]]).set H.length (.list (out.map .bytes)) =
        H ++ [Obj.list (out.map .bytes), Obj.list [.bytes p.tail, .bytes chunk]] := fun out => by
      rw [List.set_append_right _ _ (le_refl _), Nat.sub_self]; rfl
    have hlp := catch_loop (n + 1) (H ++ [Obj.list [], Obj.list [.bytes p.tail, .bytes chunk]]) a H.length
      (by rw [List.length_append]; omega) (by simp) (by omega) d x y (.bytes chunk) _ q [] out n
      (by show (p.tail ++ chunk).length < _; rw [List.length_append]; omega)
      (by show (p.tail ++ chunk).length + 4 ≤ _; rw [List.length_append]; omega) ht [] (Or.inl rfl)
    rw [hset, hset] at hlp
    obtain ⟨l', hlp⟩ := hlp
    unfold topObj at hlp ⊢
    rw [List.map_nil] at hlp
    pyexec [hr, ha, hs1, hs2, hr2, List.cons_append, List.nil_append, List.map_nil, List.length_set, hj2, ef, List.set_set, bytes_beq_nil, decide_eq_false hz, exec_while, hlp]

/-- `DecoderTop.__init__`: the object is as in the model; the dictionary of the decoders is the new object at the end of the heap. -/
theorem top_init_src (n : Nat) (H : Heap) (a : Nat) (ha : a < H.length) :
    callFn src (n + 1) n!"DecoderTop.__init__" [.ref a] (H.set a (.inst n!"DecoderTop" [])) =
      (.ok .none, (H ++ [Obj.dict []]).set a (topObj (.ref H.length) (.int 0) (.int 0) Parser.init)) := by
  have hr : ∀ (H : Heap) o, a < H.length → (H.set a o)[a]? = some o := fun H o ha => by simp [ha]
  have hs1 : ∀ o L, (H.set a o) ++ L = (H ++ L).set a o := fun o L => by rw [List.set_append_left _ _ ha]
  have hr2 : ∀ (L : Heap) o, ((H ++ L).set a o)[a]? = some o := fun L o => hr _ _ (by rw [List.length_append]; omega)
  pycall Look.fn_DecoderTop_P_init_P Src.fn_DecoderTop_P_init_P
  unfold topObj Parser.init
  pyexec [hr, ha, hs1, hr2, List.length_set, List.set_set, List.map_nil]
  rfl

theorem parse_errors_src (n : Nat) (H : Heap) (a : Nat) (d x y : Val) (p : Parser) (ha : H[a]? = some (topObj d x y p)) :
    callFn src (n + 1) n!"DecoderTop.parse_errors" [.ref a] H = (.ok (.int p.parsErrCnt), H) := by
  pycall Look.fn_DecoderTop_parse_errors Src.fn_DecoderTop_parse_errors
  unfold topObj at ha
  pyexec [ha]

end Refine
end PyCore
end Verif
