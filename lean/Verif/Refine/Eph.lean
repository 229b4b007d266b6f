import Verif.Refine.EphScale

/-!
# `EphemerisDecoder.decode` and `SubdecoderEph.decode` of the source and their models
-/

namespace Verif
namespace PyCore
namespace Refine

open Rounding (rnd)
variable [Rounding]

/-- An object of the model as an object on the heap. -/
def ephObj {ν : Type} (f : ν → Val) : Eph.Obj ν → Obj
  | .gps e => .inst n!"EphGPS" (gpsFields f e)
  | .glo e => .inst n!"EphGLO" (gloFields f e)
  | .navic e => .inst n!"EphNAVIC" (navicFields f e)
  | .bds e => .inst n!"EphBDS" (bdsFields f e)
  | .qzs e => .inst n!"EphQZS" (qzsFields f e)
  | .galf e => .inst n!"EphGALF" (galfFields f e)
  | .gali e => .inst n!"EphGALI" (galiFields f e)

theorem ephMsgNum_src (n : Nat) {h : Heap} {a : Nat} (ha : EphSelf h a) (buf : Bytes) :
    callFn src (n + 2) n!"EphemerisDecoder.get_msg_num" [.ref a, .bytes buf] h =
      ofModel (fun v : Nat => .int v) h (Eph.getMsgNum buf) := by
  obtain ⟨l, ha⟩ := ha
  pycall Look.fn_EphemerisDecoder_get_msg_num Src.fn_EphemerisDecoder_get_msg_num
  have h1 := getbitu_src n n!"EphemerisDecoder" ephClass buf 24 12 h
  unfold Eph.getMsgNum Bits.gbu
  cases hv : Bits.getbitu buf (24 : Nat) (12 : Nat) with
  | error e =>
    erw [hv] at h1
    pyexec [ha, instAttr_none _ _ _ _ _ _ (show n!"getbitu" ≠ n!"__class__" by decide), ephClass.getbitu, h1]
  | ok v =>
    erw [hv] at h1
    pyexec [ha, instAttr_none _ _ _ _ _ _ (show n!"getbitu" ≠ n!"__class__" by decide), ephClass.getbitu, h1]

theorem Makes.lift {α β : Type} {f : α → Obj} {g : β → Obj} {h : Heap} {r : Except Exc Val × Heap} {p : Py α} (hm : Makes f h r p) (k : α → β)
    (hk : ∀ e, g (k e) = f e) : Makes g h r (p >>= fun e => pure (k e)) := by
  cases p with
  | ok v =>
    obtain ⟨a, t, h1, h2, h3⟩ := hm
    exact ⟨a, t, h1, h2, by rw [h3, hk]⟩
  | error e => exact hm

theorem ephDecodeBare_src (n : Nat) {h : Heap} {a : Nat} (ha : EphSelf h a) (buf : Bytes) :
    Makes (ephObj Val.int) h (callFn src (n + 4) n!"EphemerisDecoder.__decode" [.ref a, .bytes buf] h) (Eph.decodeBare buf) := by
  pycall Look.fn_EphemerisDecoder_P_decode Src.fn_EphemerisDecoder_P_decode
  have h1 := ephMsgNum_src (n + 1) ha buf
  obtain ⟨l, ha'⟩ := ha
  unfold Eph.decodeBare
  cases hv : Eph.getMsgNum buf with
  | error e =>
    rw [hv] at h1
    refine ⟨[], ?_⟩
    rw [List.append_nil]
    pyexec [ha', h1]
  | ok v =>
    rw [hv] at h1
    show Makes _ _ _ (if v = 1019 then _ else _)
    by_cases h1019 : v = 1019
    · rw [if_pos h1019]
      have e1019 : ((v : Int) == (1019 : Int)) = true := by rw [beq_iff_eq]; omega
      have hc := (decode1019_src n ⟨l, ha'⟩ buf).lift (g := ephObj Val.int) .gps (fun _ => rfl)
      generalize hr : callFn src (n + 3) n!"EphemerisDecoder.__decode1019" [.ref a, .bytes buf] h = r at hc
      obtain ⟨r, h'⟩ := r
      refine cast (congrArg (fun r => Makes _ _ r _) ?_) hc
      cases r <;> pyexec [ha', h1, e1019, hr]
    have e1019 : ((v : Int) == (1019 : Int)) = false := by rw [beq_eq_false_iff_ne]; omega
    rw [if_neg h1019]
    by_cases h1020 : v = 1020
    · rw [if_pos h1020]
      have e1020 : ((v : Int) == (1020 : Int)) = true := by rw [beq_iff_eq]; omega
      have hc := (decode1020_src n ⟨l, ha'⟩ buf).lift (g := ephObj Val.int) .glo (fun _ => rfl)
      generalize hr : callFn src (n + 3) n!"EphemerisDecoder.__decode1020" [.ref a, .bytes buf] h = r at hc
      obtain ⟨r, h'⟩ := r
      refine cast (congrArg (fun r => Makes _ _ r _) ?_) hc
      cases r <;> pyexec [ha', h1, e1019, e1020, hr]
    have e1020 : ((v : Int) == (1020 : Int)) = false := by rw [beq_eq_false_iff_ne]; omega
    rw [if_neg h1020]
    by_cases h1041 : v = 1041
    · rw [if_pos h1041]
      have e1041 : ((v : Int) == (1041 : Int)) = true := by rw [beq_iff_eq]; omega
      have hc := (decode1041_src n ⟨l, ha'⟩ buf).lift (g := ephObj Val.int) .navic (fun _ => rfl)
      generalize hr : callFn src (n + 3) n!"EphemerisDecoder.__decode1041" [.ref a, .bytes buf] h = r at hc
      obtain ⟨r, h'⟩ := r
      refine cast (congrArg (fun r => Makes _ _ r _) ?_) hc
      cases r <;> pyexec [ha', h1, e1019, e1020, e1041, hr]
    have e1041 : ((v : Int) == (1041 : Int)) = false := by rw [beq_eq_false_iff_ne]; omega
    rw [if_neg h1041]
    by_cases h1042 : v = 1042
    · rw [if_pos h1042]
      have e1042 : ((v : Int) == (1042 : Int)) = true := by rw [beq_iff_eq]; omega
      have hc := (decode1042_src n ⟨l, ha'⟩ buf).lift (g := ephObj Val.int) .bds (fun _ => rfl)
      generalize hr : callFn src (n + 3) n!"EphemerisDecoder.__decode1042" [.ref a, .bytes buf] h = r at hc
      obtain ⟨r, h'⟩ := r
      refine cast (congrArg (fun r => Makes _ _ r _) ?_) hc
      cases r <;> pyexec [ha', h1, e1019, e1020, e1041, e1042, hr]
    have e1042 : ((v : Int) == (1042 : Int)) = false := by rw [beq_eq_false_iff_ne]; omega
    rw [if_neg h1042]
    by_cases h1044 : v = 1044
    · rw [if_pos h1044]
      have e1044 : ((v : Int) == (1044 : Int)) = true := by rw [beq_iff_eq]; omega
      have hc := (decode1044_src n ⟨l, ha'⟩ buf).lift (g := ephObj Val.int) .qzs (fun _ => rfl)
      generalize hr : callFn src (n + 3) n!"EphemerisDecoder.__decode1044" [.ref a, .bytes buf] h = r at hc
      obtain ⟨r, h'⟩ := r
      refine cast (congrArg (fun r => Makes _ _ r _) ?_) hc
      cases r <;> pyexec [ha', h1, e1019, e1020, e1041, e1042, e1044, hr]
    have e1044 : ((v : Int) == (1044 : Int)) = false := by rw [beq_eq_false_iff_ne]; omega
    rw [if_neg h1044]
    by_cases h1045 : v = 1045
    · rw [if_pos h1045]
      have e1045 : ((v : Int) == (1045 : Int)) = true := by rw [beq_iff_eq]; omega
      have hc := (decode1045_src n ⟨l, ha'⟩ buf).lift (g := ephObj Val.int) .galf (fun _ => rfl)
      generalize hr : callFn src (n + 3) n!"EphemerisDecoder.__decode1045" [.ref a, .bytes buf] h = r at hc
      obtain ⟨r, h'⟩ := r
      refine cast (congrArg (fun r => Makes _ _ r _) ?_) hc
      cases r <;> pyexec [ha', h1, e1019, e1020, e1041, e1042, e1044, e1045, hr]
    have e1045 : ((v : Int) == (1045 : Int)) = false := by rw [beq_eq_false_iff_ne]; omega
    rw [if_neg h1045]
    by_cases h1046 : v = 1046
    · rw [if_pos h1046]
      have e1046 : ((v : Int) == (1046 : Int)) = true := by rw [beq_iff_eq]; omega
      have hc := (decode1046_src n ⟨l, ha'⟩ buf).lift (g := ephObj Val.int) .gali (fun _ => rfl)
      generalize hr : callFn src (n + 3) n!"EphemerisDecoder.__decode1046" [.ref a, .bytes buf] h = r at hc
      obtain ⟨r, h'⟩ := r
      refine cast (congrArg (fun r => Makes _ _ r _) ?_) hc
      cases r <;> pyexec [ha', h1, e1019, e1020, e1041, e1042, e1044, e1045, e1046, hr]
    have e1046 : ((v : Int) == (1046 : Int)) = false := by rw [beq_eq_false_iff_ne]; omega
    rw [if_neg h1046]
    refine ⟨[], ?_⟩
    rw [List.append_nil]
    pyexec [ha', h1, e1019, e1020, e1041, e1042, e1044, e1045, e1046]
    rfl

/-- What `scale` gives for an object. -/
theorem ephScale_src (n : Nat) {h : Heap} {q : Nat} (e : Eph.Obj Int) (hq : h[q]? = some (ephObj Val.int e)) :
    Makes (ephObj numVal) h (callFn src (n + 2) n!"EphemerisDecoder.scale" [.cls n!"EphemerisDecoder", .ref q] h) (.ok (Eph.scaleR rnd e)) := by
  pycall Look.fn_EphemerisDecoder_scale Src.fn_EphemerisDecoder_scale
  cases e with
  | gps e =>
    have h1 := scale1019_src n e hq
    simp only [ephObj] at hq
    refine ⟨h.length + 1, [l2Codes] ++ [.inst n!"EphGPS" (gpsFields numVal (Eph.scale1019R rnd e))], ?_, Nat.le_succ _, ?_⟩
    · rw [← List.append_assoc]
      pyexec [hq, h1, getAttr_cls, List.contains_cons, Bool.or_true, Bool.true_or]
    · rw [← List.append_assoc]
      exact heap_last2 _ _ _
  | glo e =>
    have h1 := scale1020_src n e hq
    simp only [ephObj] at hq
    refine ⟨h.length, [.inst n!"EphGLO" (gloFields numVal (Eph.scale1020R rnd e))], ?_, Nat.le_refl _, heap_last _ _⟩
    pyexec [hq, h1, getAttr_cls, List.contains_cons, Bool.or_true, Bool.true_or]
  | navic e =>
    have h1 := scale1041_src n e hq
    simp only [ephObj] at hq
    refine ⟨h.length, [.inst n!"EphNAVIC" (navicFields numVal (Eph.scale1041R rnd e))], ?_, Nat.le_refl _, heap_last _ _⟩
    pyexec [hq, h1, getAttr_cls, List.contains_cons, Bool.or_true, Bool.true_or]
  | bds e =>
    have h1 := scale1042_src n e hq
    simp only [ephObj] at hq
    refine ⟨h.length, [.inst n!"EphBDS" (bdsFields numVal (Eph.scale1042R rnd e))], ?_, Nat.le_refl _, heap_last _ _⟩
    pyexec [hq, h1, getAttr_cls, List.contains_cons, Bool.or_true, Bool.true_or]
  | qzs e =>
    have h1 := scale1044_src n e hq
    simp only [ephObj] at hq
    refine ⟨h.length, [.inst n!"EphQZS" (qzsFields numVal (Eph.scale1044R rnd e))], ?_, Nat.le_refl _, heap_last _ _⟩
    pyexec [hq, h1, getAttr_cls, List.contains_cons, Bool.or_true, Bool.true_or]
  | galf e =>
    have h1 := scale1045_src n e hq
    simp only [ephObj] at hq
    refine ⟨h.length, [.inst n!"EphGALF" (galfFields numVal (Eph.scale1045R rnd e))], ?_, Nat.le_refl _, heap_last _ _⟩
    pyexec [hq, h1, getAttr_cls, List.contains_cons, Bool.or_true, Bool.true_or]
  | gali e =>
    have h1 := scale1046_src n e hq
    simp only [ephObj] at hq
    refine ⟨h.length, [.inst n!"EphGALI" (galiFields numVal (Eph.scale1046R rnd e))], ?_, Nat.le_refl _, heap_last _ _⟩
    pyexec [hq, h1, getAttr_cls, List.contains_cons, Bool.or_true, Bool.true_or]

theorem ephObj_bare (e : Eph.Obj Int) : ephObj numVal (e.map .int) = ephObj Val.int e := by cases e <;> rfl

theorem ephDecode_src (n : Nat) {h : Heap} {a : Nat} (ha : EphSelf h a) (buf : Bytes) (bare : Bool) :
    Makes (ephObj numVal) h (callFn src (n + 5) n!"EphemerisDecoder.decode" [.ref a, .bytes buf, .bool bare] h) (Eph.decodeR rnd buf bare) := by
  pycall Look.fn_EphemerisDecoder_decode Src.fn_EphemerisDecoder_decode
  have h1 := ephDecodeBare_src n ha buf
  obtain ⟨l, ha'⟩ := ha
  unfold Eph.decodeR
  cases hv : Eph.decodeBare buf with
  | error e =>
    rw [hv] at h1
    obtain ⟨t, h1⟩ := h1
    refine ⟨t, ?_⟩
    pyexec [ha', h1]
  | ok e =>
    rw [hv] at h1
    obtain ⟨b, t, h1, hb, hbt⟩ := h1
    cases bare with
    | true =>
      refine ⟨b, t, ?_, hb, (by rw [hbt]; exact congrArg some (ephObj_bare e).symm)⟩
      pyexec [ha', h1, Bool.not_true]
    | false =>
      obtain ⟨b', t', h2, hb', hbt'⟩ := ephScale_src (n + 2) e hbt
      refine ⟨b', t ++ t', ?_, ?_, ?_⟩
      · rw [← List.append_assoc]
        pyexec [ha', heap_old ha', h1, h2, Bool.not_false]
      · rw [List.length_append] at hb'
        omega
      · rw [← List.append_assoc]
        exact hbt'

/-- The handlers of `SubdecoderEph.decode`. -/
theorem ephSub_src (n : Nat) {h : Heap} {a d : Nat} (hd : EphSelf h d) (bare : Bool)
    {fs : List (Ident × Val)}
    (ha : h[a]? = some (.inst n!"SubdecoderEph" fs)) (hf1 : fs.lookup n!"decoder" = some (.ref d))
    (hf2 : fs.lookup n!"_SubdecoderEph__bare_data" = some (.bool bare)) (buf : Bytes) :
    match Eph.subDecodeR rnd bare buf with
    | some e => ∃ b t, callFn src (n + 6) n!"SubdecoderEph.decode" [.ref a, .bytes buf] h = (.ok (.ref b), h ++ t) ∧
        h.length ≤ b ∧ (h ++ t)[b]? = some (ephObj numVal e)
    | none => ∃ t, callFn src (n + 6) n!"SubdecoderEph.decode" [.ref a, .bytes buf] h = (.ok .none, h ++ t) := by
  pycall Look.fn_SubdecoderEph_decode Src.fn_SubdecoderEph_decode
  have h1 := ephMsgNum_src (n + 3) hd buf
  have h2 := ephDecode_src n hd buf bare
  obtain ⟨l, hd'⟩ := hd
  unfold Eph.subDecodeR
  have hc1 : ∀ e, catches src (errName e) n!"ExceptionEphemerisDecoder" = decide (e = .ephDecoder) := by intro e; cases e <;> rfl
  have hc2 : ∀ e, catches src (errName e) n!"ExceptionBitsError" = decide (e = .bitsError) := by intro e; cases e <;> rfl
  have hc3 : ∀ e, catches src (errName e) n!"IndexError" = decide (e = .indexError) := by intro e; cases e <;> rfl
  have hc4 : ∀ e, catches src (errName e) n!"ArithmeticError" = decide (e = .zeroDivision) := by intro e; cases e <;> rfl
  have hc5 : ∀ e, catches src (errName e) n!"Exception" = true := by intro e; cases e <;> rfl
  cases hv : Eph.getMsgNum buf with
  | error e =>
    rw [hv] at h1
    refine ⟨[], ?_⟩
    rw [List.append_nil]
    pyexec [ha, hf1, hf2, hd', h1, handle_cons, hc1, hc2, hc3, hc4, hc5]
    cases e <;> pyexec [reduceCtorEq, decide_true, decide_false]
  | ok v =>
    rw [hv] at h1
    cases hv2 : Eph.decodeR rnd buf bare with
    | error e =>
      rw [hv2] at h2
      obtain ⟨t, h2⟩ := h2
      refine ⟨t, ?_⟩
      pyexec [ha, hf1, hf2, hd', h1, h2, handle_cons, hc1, hc2, hc3, hc4, hc5]
      cases e <;> pyexec [reduceCtorEq, decide_true, decide_false]
    | ok e =>
      rw [hv2] at h2
      obtain ⟨b, t, h2, hb, hbt⟩ := h2
      refine ⟨b, t, ?_, hb, hbt⟩
      pyexec [ha, hf1, hf2, hd', h1, h2]

end Refine
end PyCore
end Verif
