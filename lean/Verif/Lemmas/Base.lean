import Verif.Lemmas.BaseText
import Verif.Spec.BaseObj

/-!
# Decoders of base station messages, one by one
-/

namespace Verif
open Spec Bits Base PyStr

theorem layout_ok (m : BaseMsg) : ∀ f ∈ m.layout, 0 < f.width ∧ f.kind ≠ .sm := by
  intro f hf
  cases m <;> simp only [BaseMsg.layout, layout1005, textLayout, List.mem_append, List.mem_cons, List.mem_map,
    List.mem_flatMap, List.not_mem_nil, or_false] at hf
  case m1230 st al a b c d =>
    cases a <;> cases b <;> cases c <;> cases d <;> simp [biasLayout] at hf <;> aesop
  all_goals aesop

theorem carriedBy_iff (m : BaseMsg) (buf : Bytes) :
    m.CarriedBy buf ↔ buf.length = 6 + (layoutWidth m.layout + 7) / 8 ∧ readAt m.layout (bitsOf buf) 24 = m.vals := by
  unfold BaseMsg.CarriedBy
  rw [carriesExact_iff _ _ _ (layout_ok m), readAt_eq]

/-- Message number of a content. -/
def msgNumOf : BaseMsg → Nat
  | .m1005 _ => 1005 | .m1006 _ _ => 1006 | .m1007 _ _ _ => 1007 | .m1008 _ _ _ _ => 1008
  | .m1033 _ _ _ _ _ _ _ => 1033 | .m1013 _ _ _ _ _ => 1013 | .m1029 _ _ _ _ _ => 1029 | .m1230 _ _ _ _ _ _ => 1230

theorem carried_num {m : BaseMsg} {buf : Bytes} (h : m.CarriedBy buf) : gbu buf 24 12 = .ok (msgNumOf m) := by
  rw [carriedBy_iff] at h
  have hl : 5 ≤ buf.length := by
    have h12 : 12 ≤ layoutWidth m.layout := by
      cases m <;> simp [BaseMsg.layout, layout1005, layoutWidth]
    omega
  rw [gbu_ok (by omega) (by omega) (by omega)]
  have h2 := congrArg (fun l => l.head?) h.2
  have e : (readAt m.layout (bitsOf buf) 24).head? = some (natOfBits (slice (bitsOf buf) 24 12) : Int) := by
    cases m <;> simp [BaseMsg.layout, layout1005, readAt_U]
  simp only [e] at h2
  congr 1
  cases m <;> simp [BaseMsg.vals, refVals, msgNumOf] at h2 ⊢ <;> omega

theorem lengthCheck_iff (a b n : Nat) : lengthCheck a b n = .ok () ↔ b = a ∧ n = 6 + (b + 7) / 8 := by
  unfold lengthCheck
  simp only [Nat.shiftRight_eq_div_pow]
  split_ifs with h1 h2
  · simp [h1]
  · simp at h1; simp [h1]; omega
  · simp at h1 h2; simp [h1]; omega

theorem dec10056_len {buf : Bytes} {o : BareObj} (h : decode10056 buf = .ok o) :
    buf.length = if gbu buf 24 12 = .ok 1005 then 25 else 27 := by
  unfold decode10056 at h
  obtain ⟨n, hn, h⟩ := bind_ok h
  rw [hn]
  iterate 11 (obtain ⟨_, _, h⟩ := bind_ok h)
  by_cases hc : n = 1005
  · rw [if_pos hc] at h
    obtain ⟨_, h1, h⟩ := bind_ok h
    rw [if_pos (by rw [hc])]
    have := (lengthCheck_iff _ _ _).1 h1
    omega
  · rw [if_neg hc] at h
    obtain ⟨_, _, h⟩ := bind_ok h
    obtain ⟨_, h1, h⟩ := bind_ok h
    rw [if_neg (by simpa using hc)]
    have := (lengthCheck_iff _ _ _).1 h1
    omega

/-- The reference point at the standard position. -/
def refAt (bits : List Bool) : RefPoint :=
  { station := natOfBits (slice bits 36 12), year := natOfBits (slice bits 48 6), gps := natOfBits (slice bits 54 1),
    glo := natOfBits (slice bits 55 1), gal := natOfBits (slice bits 56 1), virtual := natOfBits (slice bits 57 1),
    x := intOfBits (slice bits 58 38), osc := natOfBits (slice bits 96 1), y := intOfBits (slice bits 98 38),
    quarter := natOfBits (slice bits 136 2), z := intOfBits (slice bits 138 38) }

theorem dec1005_val {buf : Bytes} (hl : buf.length = 25) (hn : natOfBits (slice (bitsOf buf) 24 12) = 1005) :
    decode10056 buf = .ok (bareObj (.m1005 (refAt (bitsOf buf)))) := by
  unfold decode10056
  simp (disch := omega) only [gbu_ok, gbs_ok, ok_bind, pure_ok, hn, if_true]
  rw [(lengthCheck_iff _ _ _).2 ⟨rfl, by omega⟩]
  rfl

theorem dec1006_val {buf : Bytes} (hl : buf.length = 27) (hn : natOfBits (slice (bitsOf buf) 24 12) = 1006) :
    decode10056 buf = .ok (bareObj (.m1006 (refAt (bitsOf buf)) (natOfBits (slice (bitsOf buf) 176 16)))) := by
  unfold decode10056
  simp (disch := omega) only [gbu_ok, gbs_ok, ok_bind, pure_ok, hn]
  rw [if_neg (by decide), (lengthCheck_iff _ _ _).2 ⟨rfl, by omega⟩]
  rfl

theorem refAt_eq {bits : List Bool} {n : Int} {p : RefPoint} (h : readAt layout1005 bits 24 = refVals n p) :
    n = natOfBits (slice bits 24 12) ∧ p = refAt bits := by
  simp only [layout1005, readAt_U, readAt_S, readAt_R, readAt_nil, refVals, List.cons.injEq, and_true] at h
  obtain ⟨h0, h1, h2, h3, h4, h5, h6, h7, h8, h9, h10, h11⟩ := h
  refine ⟨h0.symm, ?_⟩
  obtain ⟨⟩ := p
  simp only at h1 h2 h3 h4 h5 h6 h7 h8 h9 h10 h11
  subst h1 h2 h3 h4 h5 h6 h7 h8 h9 h10 h11
  rfl

theorem w1005 (p : RefPoint) : 6 + (layoutWidth (BaseMsg.m1005 p).layout + 7) / 8 = 25 := by
  simp [BaseMsg.layout, layout1005, layoutWidth]

theorem w1006 (p : RefPoint) (h : Int) : 6 + (layoutWidth (BaseMsg.m1006 p h).layout + 7) / 8 = 27 := by
  simp [BaseMsg.layout, layout1005, layoutWidth]

theorem dec1005_iff (buf : Bytes) (o : BareObj) (hn : gbu buf 24 12 = .ok 1005) :
    decode10056 buf = .ok o ↔ ∃ p, (BaseMsg.m1005 p).CarriedBy buf ∧ o = bareObj (.m1005 p) := by
  have hv := (gbu_inv hn).1.symm
  constructor
  · intro h
    have hl := dec10056_len h
    rw [if_pos hn] at hl
    rw [dec1005_val hl hv] at h
    cases h
    refine ⟨_, (carriedBy_iff _ _).2 ⟨by rw [w1005]; exact hl, ?_⟩, rfl⟩
    have e : (1005 : Int) = ((1005 : Nat) : Int) := rfl
    simp only [BaseMsg.vals]
    rw [e, ← hv]; rfl
  · rintro ⟨p, hp, rfl⟩
    obtain ⟨hl, hr⟩ := (carriedBy_iff _ _).1 hp
    rw [w1005] at hl
    rw [dec1005_val hl hv, (refAt_eq hr).2]

theorem dec1006_iff (buf : Bytes) (o : BareObj) (hn : gbu buf 24 12 = .ok 1006) :
    decode10056 buf = .ok o ↔ ∃ p h, (BaseMsg.m1006 p h).CarriedBy buf ∧ o = bareObj (.m1006 p h) := by
  have hv := (gbu_inv hn).1.symm
  constructor
  · intro h
    have hl := dec10056_len h
    rw [hn, if_neg (by decide)] at hl
    rw [dec1006_val hl hv] at h
    cases h
    refine ⟨_, _, (carriedBy_iff _ _).2 ⟨by rw [w1006]; exact hl, ?_⟩, rfl⟩
    have e : (1006 : Int) = ((1006 : Nat) : Int) := rfl
    simp only [BaseMsg.vals]
    rw [e, ← hv]; rfl
  · rintro ⟨p, h, hp, rfl⟩
    obtain ⟨hl, hr⟩ := (carriedBy_iff _ _).1 hp
    simp only [BaseMsg.layout, BaseMsg.vals, readAt_append] at hr
    obtain ⟨h1, h2⟩ := List.append_inj hr (by rw [readAt_eq, readAll_length]; rfl)
    simp only [readAt_U, readAt_nil, List.cons.injEq, and_true] at h2
    rw [w1006] at hl
    rw [dec1006_val hl hv, (refAt_eq h1).2, ← h2]; rfl

/-! ## Texts -/

theorem readAt_split {A B : List Spec.Field} {bits : List Bool} {o : Nat} {va vb : List Int}
    (h : va.length = (A.filter (fun f => f.kind ≠ .res)).length) :
    readAt (A ++ B) bits o = va ++ vb ↔ readAt A bits o = va ∧ readAt B bits (o + layoutWidth A) = vb := by
  rw [readAt_append]
  constructor
  · intro h'
    exact List.append_inj h' (by rw [readAt_eq, readAll_length, h])
  · rintro ⟨rfl, rfl⟩; rfl

theorem text_vals_length (d : List UInt8) :
    (textVals d).length = ((textLayout d).filter (fun f => f.kind ≠ .res)).length := by
  simp [textVals, textLayout, List.filter_cons]
  induction d with
  | nil => rfl
  | cons b d ih => simp [ih]

theorem vals_length_append {A B : List Spec.Field} {va vb : List Int}
    (ha : va.length = (A.filter (fun f => f.kind ≠ .res)).length)
    (hb : vb.length = (B.filter (fun f => f.kind ≠ .res)).length) :
    (va ++ vb).length = ((A ++ B).filter (fun f => f.kind ≠ .res)).length := by
  simp only [List.length_append, List.filter_append, ha, hb]

theorem nat_int_eq {a b : Nat} : (a : Int) = (b : Int) ↔ a = b := by omega

theorem carried1007 (id : Int) (d : List UInt8) (u : Int) (buf : Bytes) : (BaseMsg.m1007 id d u).CarriedBy buf ↔
    buf.length = 6 + (40 + 8 * d.length + 7) / 8 ∧
    natOfBits (slice (bitsOf buf) 24 12) = 1007 ∧ (natOfBits (slice (bitsOf buf) 36 12) : Int) = id ∧
    readAt (textLayout d) (bitsOf buf) 48 = textVals d ∧
    (natOfBits (slice (bitsOf buf) (56 + 8 * d.length) 8) : Int) = u := by
  rw [carriedBy_iff]
  simp only [BaseMsg.layout, BaseMsg.vals]
  rw [readAt_split (vals_length_append (by rfl) (text_vals_length d)), readAt_split (by rfl)]
  simp only [layoutWidth_append, width_text, layoutWidth, readAt_U, readAt_nil, List.cons.injEq, and_true]
  rw [show 24 + (12 + (12 + 0) + (8 + 8 * d.length)) = 56 + 8 * d.length by omega,
    show (12 + (12 + 0) + (8 + 8 * d.length) + (8 + 0)) = 40 + 8 * d.length by omega]
  rw [show (1007 : Int) = ((1007 : Nat) : Int) from rfl, nat_int_eq]
  tauto

theorem carried1008 (id : Int) (d : List UInt8) (u : Int) (s : List UInt8) (buf : Bytes) :
    (BaseMsg.m1008 id d u s).CarriedBy buf ↔
    buf.length = 6 + (48 + 8 * (d.length + s.length) + 7) / 8 ∧
    natOfBits (slice (bitsOf buf) 24 12) = 1008 ∧ (natOfBits (slice (bitsOf buf) 36 12) : Int) = id ∧
    readAt (textLayout d) (bitsOf buf) 48 = textVals d ∧
    (natOfBits (slice (bitsOf buf) (56 + 8 * d.length) 8) : Int) = u ∧
    readAt (textLayout s) (bitsOf buf) (64 + 8 * d.length) = textVals s := by
  rw [carriedBy_iff]
  simp only [BaseMsg.layout, BaseMsg.vals]
  rw [readAt_split (vals_length_append (vals_length_append (by rfl) (text_vals_length d)) (by rfl)),
    readAt_split (vals_length_append (by rfl) (text_vals_length d)), readAt_split (by rfl)]
  simp only [layoutWidth_append, width_text, layoutWidth, readAt_U, readAt_nil, List.cons.injEq, and_true]
  rw [show 24 + (12 + (12 + 0) + (8 + 8 * d.length)) = 56 + 8 * d.length by omega,
    show 24 + (12 + (12 + 0) + (8 + 8 * d.length) + (8 + 0)) = 64 + 8 * d.length by omega,
    show (12 + (12 + 0) + (8 + 8 * d.length) + (8 + 0)) + (8 + 8 * s.length) = 48 + 8 * (d.length + s.length) by omega]
  rw [show (1008 : Int) = ((1008 : Nat) : Int) from rfl, nat_int_eq]
  tauto

theorem carried1033 (id : Int) (d : List UInt8) (u : Int) (s r f n : List UInt8) (buf : Bytes) :
    (BaseMsg.m1033 id d u s r f n).CarriedBy buf ↔
    buf.length = 6 + (72 + 8 * (d.length + s.length + r.length + (f.length + n.length)) + 7) / 8 ∧
    natOfBits (slice (bitsOf buf) 24 12) = 1033 ∧ (natOfBits (slice (bitsOf buf) 36 12) : Int) = id ∧
    readAt (textLayout d) (bitsOf buf) 48 = textVals d ∧
    (natOfBits (slice (bitsOf buf) (56 + 8 * d.length) 8) : Int) = u ∧
    readAt (textLayout s) (bitsOf buf) (64 + 8 * d.length) = textVals s ∧
    readAt (textLayout r) (bitsOf buf) (72 + 8 * d.length + 8 * s.length) = textVals r ∧
    readAt (textLayout f) (bitsOf buf) (80 + 8 * d.length + 8 * s.length + 8 * r.length) = textVals f ∧
    readAt (textLayout n) (bitsOf buf) (88 + 8 * d.length + 8 * s.length + 8 * r.length + 8 * f.length) =
      textVals n := by
  rw [carriedBy_iff]
  simp only [BaseMsg.layout, BaseMsg.vals]
  have l1 := vals_length_append (A := [U 12, U 12]) (va := [1033, id]) (by rfl) (text_vals_length d)
  have l2 := vals_length_append l1 (B := [U 8]) (vb := [u]) (by rfl)
  have l3 := vals_length_append l2 (text_vals_length s)
  have l4 := vals_length_append l3 (text_vals_length r)
  have l5 := vals_length_append l4 (text_vals_length f)
  rw [readAt_split l5, readAt_split l4, readAt_split l3, readAt_split l2, readAt_split l1, readAt_split (by rfl)]
  simp only [layoutWidth_append, width_text, layoutWidth, readAt_U, readAt_nil, List.cons.injEq, and_true]
  rw [show (12 + (12 + 0) + (8 + 8 * d.length) + (8 + 0)) + (8 + 8 * s.length) + (8 + 8 * r.length) +
        (8 + 8 * f.length) + (8 + 8 * n.length) =
        72 + 8 * (d.length + s.length + r.length + (f.length + n.length)) by omega,
    show 24 + (12 + (12 + 0) + (8 + 8 * d.length) + (8 + 0) + (8 + 8 * s.length) + (8 + 8 * r.length) +
        (8 + 8 * f.length)) = 88 + 8 * d.length + 8 * s.length + 8 * r.length + 8 * f.length by omega,
    show 24 + (12 + (12 + 0) + (8 + 8 * d.length) + (8 + 0) + (8 + 8 * s.length) + (8 + 8 * r.length)) =
        80 + 8 * d.length + 8 * s.length + 8 * r.length by omega,
    show 24 + (12 + (12 + 0) + (8 + 8 * d.length) + (8 + 0) + (8 + 8 * s.length)) =
        72 + 8 * d.length + 8 * s.length by omega,
    show 24 + (12 + (12 + 0) + (8 + 8 * d.length) + (8 + 0)) = 64 + 8 * d.length by omega,
    show 24 + (12 + (12 + 0) + (8 + 8 * d.length)) = 56 + 8 * d.length by omega]
  rw [show (1033 : Int) = ((1033 : Nat) : Int) from rfl, nat_int_eq]
  tauto

/-- `text_bwd` with explicit offsets. -/
theorem text_bwd' {buf : Bytes} {off : Nat} {d : List UInt8} (h : readAt (textLayout d) (bitsOf buf) off = textVals d)
    (o1 o2 o3 : Nat) (h1 : o1 = off) (h2 : o2 = off + 8) (h3 : o3 = off + 8 + 8 * d.length)
    (hb : o3 ≤ 8 * buf.length) :
    gbu buf o1 8 = .ok d.length ∧ readHex buf d.length o2 "" = .ok (rawHex d, o3) := by
  subst h1 h2 h3
  exact text_bwd hb h

theorem dec1007_iff (buf : Bytes) (o : BareObj) (hn : gbu buf 24 12 = .ok 1007) :
    decode10078_1033 buf = .ok o ↔ ∃ id d u, (BaseMsg.m1007 id d u).CarriedBy buf ∧ o = bareObj (.m1007 id d u) := by
  have hv := (gbu_inv hn).1.symm
  constructor
  · intro h
    unfold decode10078_1033 at h
    obtain ⟨_, hn', h⟩ := bind_ok h
    rw [hn] at hn'; cases hn'
    obtain ⟨id, hid, h⟩ := bind_ok h
    obtain ⟨len, hlen, h⟩ := bind_ok h
    obtain ⟨r, hr, h⟩ := bind_ok h
    obtain ⟨d, rfl, rfl, hb, hd⟩ := text_fwd hlen hr
    try dsimp only at h
    obtain ⟨u, hu, h⟩ := bind_ok h
    rw [if_pos rfl] at h
    obtain ⟨_, hc, h⟩ := bind_ok h
    cases h
    have hc := (lengthCheck_iff _ _ _).1 hc
    refine ⟨id, d, u, (carried1007 _ _ _ _).2 ⟨by omega, hv, by rw [← (gbu_inv hid).1], hd, ?_⟩, ?_⟩
    · rw [(gbu_inv hu).1]
    · simp [bareObj, adObj, strip_rawHex]
  · rintro ⟨id, d, u, hp, rfl⟩
    obtain ⟨hl, h1, rfl, h3, rfl⟩ := (carried1007 _ _ _ _).1 hp
    unfold decode10078_1033
    try dsimp only
    obtain ⟨t1, t2⟩ := text_bwd' h3 48 56 (56 + 8 * d.length) rfl rfl (by omega) (by omega)
    rw [hn, ok_bind, gbu_ok (by omega) (by omega) (by omega), ok_bind, t1, ok_bind, t2, ok_bind]
    try dsimp only
    rw [gbu_ok (by omega) (by omega) (by omega), ok_bind, if_pos rfl, (lengthCheck_iff _ _ _).2 ⟨by omega, by omega⟩]
    simp [ok_bind, pure_ok, bareObj, adObj, strip_rawHex]

theorem dec1008_iff (buf : Bytes) (o : BareObj) (hn : gbu buf 24 12 = .ok 1008) :
    decode10078_1033 buf = .ok o ↔
      ∃ id d u s, (BaseMsg.m1008 id d u s).CarriedBy buf ∧ o = bareObj (.m1008 id d u s) := by
  have hv := (gbu_inv hn).1.symm
  constructor
  · intro h
    unfold decode10078_1033 at h
    obtain ⟨_, hn', h⟩ := bind_ok h
    rw [hn] at hn'; cases hn'
    obtain ⟨id, hid, h⟩ := bind_ok h
    obtain ⟨len, hlen, h⟩ := bind_ok h
    obtain ⟨r, hr, h⟩ := bind_ok h
    obtain ⟨d, rfl, rfl, hb, hd⟩ := text_fwd hlen hr
    try dsimp only at h
    obtain ⟨u, hu, h⟩ := bind_ok h
    rw [if_neg (by decide)] at h
    obtain ⟨len, hlen, h⟩ := bind_ok h
    obtain ⟨r, hr, h⟩ := bind_ok h
    obtain ⟨s, rfl, rfl, hb', hs⟩ := text_fwd hlen hr
    try dsimp only at h
    rw [if_pos rfl] at h
    obtain ⟨_, hc, h⟩ := bind_ok h
    cases h
    have hc := (lengthCheck_iff _ _ _).1 hc
    refine ⟨id, d, u, s, (carried1008 _ _ _ _ _).2 ⟨by omega, hv, by rw [← (gbu_inv hid).1], hd, ?_, ?_⟩, ?_⟩
    · rw [(gbu_inv hu).1]
    · rw [← hs]; congr 1; omega
    · simp [bareObj, adObj, adsnObj, strip_rawHex]
  · rintro ⟨id, d, u, s, hp, rfl⟩
    obtain ⟨hl, h1, rfl, h3, rfl, h4⟩ := (carried1008 _ _ _ _ _).1 hp
    unfold decode10078_1033
    try dsimp only
    obtain ⟨t1, t2⟩ := text_bwd' h3 48 56 (56 + 8 * d.length) rfl rfl (by omega) (by omega)
    obtain ⟨t3, t4⟩ := text_bwd' h4 (56 + 8 * d.length + 8) (56 + 8 * d.length + 8 + 8)
      (72 + 8 * d.length + 8 * s.length) (by omega) (by omega) (by omega) (by omega)
    rw [hn, ok_bind, gbu_ok (by omega) (by omega) (by omega), ok_bind, t1, ok_bind, t2, ok_bind]
    try dsimp only
    rw [gbu_ok (by omega) (by omega) (by omega), ok_bind, if_neg (by decide)]
    try dsimp only
    rw [t3, ok_bind, t4, ok_bind, if_pos rfl, (lengthCheck_iff _ _ _).2 ⟨by omega, by omega⟩]
    simp [ok_bind, pure_ok, bareObj, adObj, adsnObj, strip_rawHex]

theorem dec1033_iff (buf : Bytes) (o : BareObj) (hn : gbu buf 24 12 = .ok 1033) :
    decode10078_1033 buf = .ok o ↔
      ∃ id d u s r f n, (BaseMsg.m1033 id d u s r f n).CarriedBy buf ∧ o = bareObj (.m1033 id d u s r f n) := by
  have hv := (gbu_inv hn).1.symm
  constructor
  · intro h
    unfold decode10078_1033 at h
    obtain ⟨_, hn', h⟩ := bind_ok h
    rw [hn] at hn'; cases hn'
    obtain ⟨id, hid, h⟩ := bind_ok h
    obtain ⟨len, hlen, h⟩ := bind_ok h
    obtain ⟨r, hr, h⟩ := bind_ok h
    obtain ⟨d, rfl, rfl, hb, hd⟩ := text_fwd hlen hr
    try dsimp only at h
    obtain ⟨u, hu, h⟩ := bind_ok h
    rw [if_neg (by decide)] at h
    obtain ⟨len, hlen, h⟩ := bind_ok h
    obtain ⟨r, hr, h⟩ := bind_ok h
    obtain ⟨s, rfl, rfl, hb', hs⟩ := text_fwd hlen hr
    try dsimp only at h
    rw [if_neg (by decide)] at h
    obtain ⟨len, hlen, h⟩ := bind_ok h
    obtain ⟨r, hr, h⟩ := bind_ok h
    obtain ⟨rd, rfl, rfl, hb', hrd⟩ := text_fwd hlen hr
    try dsimp only at h
    obtain ⟨len, hlen, h⟩ := bind_ok h
    obtain ⟨r, hr, h⟩ := bind_ok h
    obtain ⟨fw, rfl, rfl, hb', hfw⟩ := text_fwd hlen hr
    try dsimp only at h
    obtain ⟨len, hlen, h⟩ := bind_ok h
    obtain ⟨r, hr, h⟩ := bind_ok h
    obtain ⟨sn, rfl, rfl, hb', hsn⟩ := text_fwd hlen hr
    try dsimp only at h
    obtain ⟨_, hc, h⟩ := bind_ok h
    cases h
    have hc := (lengthCheck_iff _ _ _).1 hc
    refine ⟨id, d, u, s, rd, fw, sn,
      (carried1033 _ _ _ _ _ _ _ _).2 ⟨by omega, hv, by rw [← (gbu_inv hid).1], hd, ?_, ?_, ?_, ?_, ?_⟩, ?_⟩
    · rw [(gbu_inv hu).1]
    · rw [← hs]; congr 1; omega
    · rw [← hrd]; congr 1; omega
    · rw [← hfw]; congr 1; omega
    · rw [← hsn]; congr 1; omega
    · simp [bareObj, adObj, adsnObj, adsnrcObj, strip_rawHex]
  · rintro ⟨id, d, u, s, r, f, n, hp, rfl⟩
    obtain ⟨hl, h1, rfl, h3, rfl, h4, h5, h6, h7⟩ := (carried1033 _ _ _ _ _ _ _ _).1 hp
    unfold decode10078_1033
    try dsimp only
    obtain ⟨t1, t2⟩ := text_bwd' h3 48 56 (56 + 8 * d.length) rfl rfl (by omega) (by omega)
    obtain ⟨t3, t4⟩ := text_bwd' h4 (56 + 8 * d.length + 8) (56 + 8 * d.length + 8 + 8)
      (72 + 8 * d.length + 8 * s.length) (by omega) (by omega) (by omega) (by omega)
    obtain ⟨t5, t6⟩ := text_bwd' h5 (72 + 8 * d.length + 8 * s.length) (72 + 8 * d.length + 8 * s.length + 8)
      (80 + 8 * d.length + 8 * s.length + 8 * r.length) (by omega) (by omega) (by omega) (by omega)
    obtain ⟨t7, t8⟩ := text_bwd' h6 (80 + 8 * d.length + 8 * s.length + 8 * r.length)
      (80 + 8 * d.length + 8 * s.length + 8 * r.length + 8)
      (88 + 8 * d.length + 8 * s.length + 8 * r.length + 8 * f.length) (by omega) (by omega) (by omega) (by omega)
    obtain ⟨t9, t10⟩ := text_bwd' h7 (88 + 8 * d.length + 8 * s.length + 8 * r.length + 8 * f.length)
      (88 + 8 * d.length + 8 * s.length + 8 * r.length + 8 * f.length + 8)
      (96 + 8 * d.length + 8 * s.length + 8 * r.length + 8 * f.length + 8 * n.length) (by omega) (by omega) (by omega)
      (by omega)
    rw [hn, ok_bind, gbu_ok (by omega) (by omega) (by omega), ok_bind, t1, ok_bind, t2, ok_bind]
    try dsimp only
    rw [gbu_ok (by omega) (by omega) (by omega), ok_bind, if_neg (by decide)]
    try dsimp only
    rw [t3, ok_bind, t4, ok_bind, if_neg (by decide)]
    try dsimp only
    rw [t5, ok_bind, t6, ok_bind]
    try dsimp only
    rw [t7, ok_bind, t8, ok_bind]
    try dsimp only
    rw [t9, ok_bind, t10, ok_bind]
    try dsimp only
    rw [(lengthCheck_iff _ _ _).2 ⟨by omega, by omega⟩]
    simp [ok_bind, pure_ok, bareObj, adObj, adsnObj, adsnrcObj, strip_rawHex]

/-! ## 1029 -/

theorem carried1029 (id mjd sec n : Int) (t : List UInt8) (buf : Bytes) :
    (BaseMsg.m1029 id mjd sec n t).CarriedBy buf ↔
    buf.length = 6 + (72 + 8 * t.length + 7) / 8 ∧
    natOfBits (slice (bitsOf buf) 24 12) = 1029 ∧ (natOfBits (slice (bitsOf buf) 36 12) : Int) = id ∧
    (natOfBits (slice (bitsOf buf) 48 16) : Int) = mjd ∧ (natOfBits (slice (bitsOf buf) 64 17) : Int) = sec ∧
    (natOfBits (slice (bitsOf buf) 81 7) : Int) = n ∧
    readAt (textLayout t) (bitsOf buf) 88 = textVals t := by
  rw [carriedBy_iff]
  simp only [BaseMsg.layout, BaseMsg.vals]
  rw [readAt_split (by rfl)]
  simp only [layoutWidth_append, width_text, layoutWidth, readAt_U, readAt_nil, List.cons.injEq, and_true]
  rw [show 12 + (12 + (16 + (17 + (7 + 0)))) + (8 + 8 * t.length) = 72 + 8 * t.length by omega,
    show (1029 : Int) = ((1029 : Nat) : Int) from rfl, nat_int_eq]
  tauto

theorem dec1029_iff (buf : Bytes) (o : BareObj) (hn : gbu buf 24 12 = .ok 1029) :
    decode1029 buf = .ok o ↔
      ∃ id mjd sec n t, (BaseMsg.m1029 id mjd sec n t).CarriedBy buf ∧ o = bareObj (.m1029 id mjd sec n t) := by
  have hv := (gbu_inv hn).1.symm
  constructor
  · intro h
    unfold decode1029 at h
    obtain ⟨_, hn', h⟩ := bind_ok h
    rw [hn] at hn'; cases hn'
    obtain ⟨id, hid, h⟩ := bind_ok h
    obtain ⟨mjd, hmjd, h⟩ := bind_ok h
    obtain ⟨sec, hsec, h⟩ := bind_ok h
    obtain ⟨n, hnn, h⟩ := bind_ok h
    obtain ⟨len, hlen, h⟩ := bind_ok h
    obtain ⟨r, hr, h⟩ := bind_ok h
    obtain ⟨d, rfl, rfl, hb, hd⟩ := text_fwd hlen hr
    try dsimp only at h
    obtain ⟨_, hc, h⟩ := bind_ok h
    cases h
    have hc := (lengthCheck_iff _ _ _).1 hc
    refine ⟨id, mjd, sec, n, d, (carried1029 _ _ _ _ _ _).2 ⟨by omega, hv, by rw [← (gbu_inv hid).1],
      by rw [← (gbu_inv hmjd).1], by rw [← (gbu_inv hsec).1], by rw [← (gbu_inv hnn).1], hd⟩, ?_⟩
    simp [bareObj, tsObj, strip_rawHex]
  · rintro ⟨id, mjd, sec, n, t, hp, rfl⟩
    obtain ⟨hl, h1, rfl, rfl, rfl, rfl, h3⟩ := (carried1029 _ _ _ _ _ _).1 hp
    unfold decode1029
    try dsimp only
    obtain ⟨t1, t2⟩ := text_bwd' h3 88 96 (96 + 8 * t.length)
      rfl rfl (by omega) (by omega)
    rw [hn, ok_bind, gbu_ok (by omega) (by omega) (by omega), ok_bind, gbu_ok (by omega) (by omega) (by omega), ok_bind,
      gbu_ok (by omega) (by omega) (by omega), ok_bind, gbu_ok (by omega) (by omega) (by omega), ok_bind, t1, ok_bind, t2,
      ok_bind]
    try dsimp only
    rw [(lengthCheck_iff _ _ _).2 ⟨by omega, by omega⟩]
    simp [ok_bind, pure_ok, bareObj, tsObj, strip_rawHex]

/-! ## 1013 -/

/-- Layout of the announcements. -/
abbrev annLayout (ann : List (Int × Int × Int)) : List Spec.Field := ann.flatMap (fun _ => [U 12, U 1, U 16])

/-- Values of the announcements. -/
abbrev annVals (ann : List (Int × Int × Int)) : List Int := ann.flatMap (fun a => [a.1, a.2.1, a.2.2])

theorem width_ann (ann : List (Int × Int × Int)) : layoutWidth (annLayout ann) = 29 * ann.length := by
  induction ann with
  | nil => rfl
  | cons a ann ih => simp only [annLayout, List.flatMap_cons, layoutWidth_append] at ih ⊢; rw [ih]; simp [layoutWidth]; omega

theorem readShedule_fwd {buf : Bytes} {n off : Nat} {dict r} (h : readShedule buf n off dict = .ok r)
    (hb : off ≤ 8 * buf.length) :
    ∃ ann : List (Int × Int × Int), ann.length = n ∧
      r = (ann.foldl (fun d a => d.set a.1 (a.2.1, a.2.2)) dict, off + 29 * n) ∧ off + 29 * n ≤ 8 * buf.length ∧
      readAt (annLayout ann) (bitsOf buf) off = annVals ann := by
  induction n generalizing off dict with
  | zero => cases h; exact ⟨[], rfl, rfl, hb, rfl⟩
  | succ n ih =>
    unfold readShedule at h
    obtain ⟨a, ha, h⟩ := bind_ok h
    obtain ⟨b, hb, h⟩ := bind_ok h
    obtain ⟨c, hc, h⟩ := bind_ok h
    have hc' := gbu_inv hc
    obtain ⟨ann, h1, h2, h3, h4⟩ := ih h (by omega)
    refine ⟨((a : Int), (b : Int), (c : Int)) :: ann, by simp [h1], ?_, by omega, ?_⟩
    · rw [h2, List.foldl_cons]; congr 1; omega
    · simp only [annLayout, annVals, List.flatMap_cons, readAt_append, readAt_U, readAt_nil, layoutWidth] at h4 ⊢
      rw [show off + (12 + (1 + (16 + 0))) = off + 12 + 1 + 16 by omega, h4, ← (gbu_inv ha).1, ← (gbu_inv hb).1,
        ← (gbu_inv hc).1]

theorem readShedule_bwd {buf : Bytes} {off : Nat} {dict} {ann : List (Int × Int × Int)}
    (hb : off + 29 * ann.length ≤ 8 * buf.length) (h : readAt (annLayout ann) (bitsOf buf) off = annVals ann) :
    readShedule buf ann.length off dict =
      .ok (ann.foldl (fun d a => d.set a.1 (a.2.1, a.2.2)) dict, off + 29 * ann.length) := by
  induction ann generalizing off dict with
  | nil => rfl
  | cons a ann ih =>
    obtain ⟨x, y, z⟩ := a
    simp only [annLayout, annVals, List.flatMap_cons] at h
    rw [readAt_split (by rfl)] at h
    obtain ⟨h1, h2⟩ := h
    simp only [readAt_U, readAt_nil, List.cons.injEq, and_true] at h1
    obtain ⟨rfl, rfl, rfl⟩ := h1
    simp only [List.length_cons] at hb ⊢
    unfold readShedule
    rw [gbu_ok (by omega) (by omega) (by omega), ok_bind]
    try dsimp only
    rw [gbu_ok (by omega) (by omega) (by omega), ok_bind]
    try dsimp only
    rw [gbu_ok (by omega) (by omega) (by omega), ok_bind]
    simp only [layoutWidth] at h2 ⊢
    rw [ih (by omega) h2, List.foldl_cons]
    congr 2; omega

theorem carried1013 (id mjd sec leap : Int) (ann : List (Int × Int × Int)) (buf : Bytes) :
    (BaseMsg.m1013 id mjd sec leap ann).CarriedBy buf ↔
    buf.length = 6 + (70 + 29 * ann.length + 7) / 8 ∧
    natOfBits (slice (bitsOf buf) 24 12) = 1013 ∧ (natOfBits (slice (bitsOf buf) 36 12) : Int) = id ∧
    (natOfBits (slice (bitsOf buf) 48 16) : Int) = mjd ∧ (natOfBits (slice (bitsOf buf) 64 17) : Int) = sec ∧
    natOfBits (slice (bitsOf buf) 81 5) = ann.length ∧ (natOfBits (slice (bitsOf buf) 86 8) : Int) = leap ∧
    readAt (annLayout ann) (bitsOf buf) 94 = annVals ann := by
  rw [carriedBy_iff]
  simp only [BaseMsg.layout, BaseMsg.vals]
  rw [readAt_split (by rfl)]
  have hw := width_ann ann
  simp only [annLayout] at hw
  simp only [layoutWidth_append, hw, layoutWidth, readAt_U, readAt_nil, List.cons.injEq, and_true]
  rw [show 12 + (12 + (16 + (17 + (5 + (8 + 0))))) + 29 * ann.length = 70 + 29 * ann.length by omega,
    show (1013 : Int) = ((1013 : Nat) : Int) from rfl, nat_int_eq, nat_int_eq]
  tauto

theorem dec1013_iff (buf : Bytes) (o : BareObj) (hn : gbu buf 24 12 = .ok 1013) :
    decode1013 buf = .ok o ↔ ∃ id mjd sec leap ann, ann ≠ [] ∧ (BaseMsg.m1013 id mjd sec leap ann).CarriedBy buf ∧
      o = bareObj (.m1013 id mjd sec leap ann) := by
  have hv := (gbu_inv hn).1.symm
  constructor
  · intro h
    unfold decode1013 at h
    obtain ⟨_, hn', h⟩ := bind_ok h
    rw [hn] at hn'; cases hn'
    obtain ⟨id, hid, h⟩ := bind_ok h
    obtain ⟨mjd, hmjd, h⟩ := bind_ok h
    obtain ⟨sec, hsec, h⟩ := bind_ok h
    obtain ⟨n, hnn, h⟩ := bind_ok h
    obtain ⟨leap, hleap, h⟩ := bind_ok h
    obtain ⟨r, hr, h⟩ := bind_ok h
    have hleap' := gbu_inv hleap
    obtain ⟨ann, ha, rfl, hb, hd⟩ := readShedule_fwd hr (by omega)
    obtain ⟨_, hc, h⟩ := bind_ok h
    cases h
    have hc := (lengthCheck_iff _ _ _).1 hc
    by_cases hz : n = 0
    · exfalso
      subst hz
      rw [if_neg (by simp)] at hc hb ha
      have := Nat.div_mul_le_self (8 * buf.length - 70) 29
      have := Nat.lt_div_mul_add (a := 8 * buf.length - 70) (b := 29) (by omega)
      omega
    · rw [if_pos hz] at ha hc
      refine ⟨id, mjd, sec, leap, ann, by rintro rfl; exact hz ha.symm,
        (carried1013 _ _ _ _ _ _).2 ⟨by omega, hv, by rw [← (gbu_inv hid).1],
        by rw [← (gbu_inv hmjd).1], by rw [← (gbu_inv hsec).1], by rw [← (gbu_inv hnn).1, ha],
        by rw [← (gbu_inv hleap).1], hd⟩, ?_⟩
      simp [bareObj, ha]
  · rintro ⟨id, mjd, sec, leap, ann, hne, hp, rfl⟩
    obtain ⟨hl, h1, rfl, rfl, rfl, hnn, rfl, h3⟩ := (carried1013 _ _ _ _ _ _).1 hp
    have hne' : ann.length ≠ 0 := by simpa using hne
    unfold decode1013
    try dsimp only
    rw [hn, ok_bind, gbu_ok (by omega) (by omega) (by omega), ok_bind, gbu_ok (by omega) (by omega) (by omega), ok_bind,
      gbu_ok (by omega) (by omega) (by omega), ok_bind, gbu_ok (by omega) (by omega) (by omega), ok_bind,
      gbu_ok (by omega) (by omega) (by omega), ok_bind]
    simp only [Nat.reduceAdd, hnn]
    rw [if_pos hne', readShedule_bwd (by omega) h3, ok_bind]
    try dsimp only
    rw [(lengthCheck_iff _ _ _).2 ⟨by omega, by omega⟩]
    simp [ok_bind, pure_ok, bareObj]

/-! ## 1230 -/

theorem mask4 (bits : List Bool) (o : Nat) (h : o + 4 ≤ bits.length) :
    ∃ a b c d : Bool, natOfBits (slice bits o 4) = 8 * a.toNat + 4 * b.toNat + 2 * c.toNat + d.toNat ∧
      natOfBits (slice bits o 1) = a.toNat ∧ natOfBits (slice bits (o + 1) 1) = b.toNat ∧
      natOfBits (slice bits (o + 2) 1) = c.toNat ∧ natOfBits (slice bits (o + 3) 1) = d.toNat := by
  obtain ⟨a, b, c, d, rest, e⟩ : ∃ a b c d rest, bits.drop o = a :: b :: c :: d :: rest := by
    have hl : 4 ≤ (bits.drop o).length := by simp; omega
    match hb : bits.drop o, hl with
    | a :: b :: c :: d :: rest, _ => exact ⟨a, b, c, d, rest, rfl⟩
  have e1 : bits.drop (o + 1) = b :: c :: d :: rest := by rw [← List.drop_drop, e]; rfl
  have e2 : bits.drop (o + 2) = c :: d :: rest := by rw [← List.drop_drop, e]; rfl
  have e3 : bits.drop (o + 3) = d :: rest := by rw [← List.drop_drop, e]; rfl
  refine ⟨a, b, c, d, ?_⟩
  simp only [slice, e, e1, e2, e3, List.take_succ_cons, List.take_zero]
  cases a <;> cases b <;> cases c <;> cases d <;> decide

theorem mask4_and : ∀ a b c d : Bool,
    ((8 * a.toNat + 4 * b.toNat + 2 * c.toNat + d.toNat) &&& 8 != 0) = a ∧
    ((8 * a.toNat + 4 * b.toNat + 2 * c.toNat + d.toNat) &&& 4 != 0) = b ∧
    ((8 * a.toNat + 4 * b.toNat + 2 * c.toNat + d.toNat) &&& 2 != 0) = c ∧
    ((8 * a.toNat + 4 * b.toNat + 2 * c.toNat + d.toNat) &&& 1 != 0) = d := by decide

/-- The state after an optional bias. -/
def afterBias (key : String) (x : Option Int) (st : PyDict String Int × PyDict String Int × Nat × Nat) :
    PyDict String Int × PyDict String Int × Nat × Nat :=
  match x with
  | some v => (st.1.set key v, st.2.1.set key 1, st.2.2.1 + 16, st.2.2.2 + 1)
  | none => st

theorem readBias_fwd {buf : Bytes} {flag : Bool} {key : String} {st st'} (h : readBias buf flag key st = .ok st') :
    ∃ x : Option Int, x.isSome = flag ∧ st' = afterBias key x st ∧
      readAt (biasLayout x) (bitsOf buf) st.2.2.1 = biasVals x := by
  unfold readBias at h
  cases flag with
  | false => cases h; exact ⟨none, rfl, rfl, rfl⟩
  | true =>
    rw [if_pos rfl] at h
    obtain ⟨v, hv, h⟩ := bind_ok h
    cases h
    refine ⟨some v, rfl, rfl, ?_⟩
    rw [(gbs_inv hv).1]; rfl

theorem readBias_bwd {buf : Bytes} {x : Option Int} {key : String} {st}
    (h : readAt (biasLayout x) (bitsOf buf) st.2.2.1 = biasVals x)
    (hb : st.2.2.1 + layoutWidth (biasLayout x) ≤ 8 * buf.length) :
    readBias buf x.isSome key st = .ok (afterBias key x st) := by
  cases x with
  | none => rfl
  | some v =>
    simp only [biasLayout, readAt_S, readAt_nil, biasVals, List.cons.injEq, and_true, layoutWidth] at h hb
    unfold readBias
    rw [Option.isSome_some, if_pos rfl, gbs_ok (by omega) (by omega) (by omega), ok_bind, h]
    rfl

theorem bias_vals_length (x : Option Int) :
    (biasVals x).length = ((biasLayout x).filter (fun f => f.kind ≠ .res)).length := by
  cases x <;> rfl

theorem width_bias (x : Option Int) : layoutWidth (biasLayout x) = 16 * x.isSome.toNat := by
  cases x <;> rfl

theorem carried1230 (id al : Int) (a b c d : Option Int) (buf : Bytes) :
    (BaseMsg.m1230 id al a b c d).CarriedBy buf ↔
    buf.length = 6 + (32 + 16 * (a.isSome.toNat + b.isSome.toNat + c.isSome.toNat + d.isSome.toNat) + 7) / 8 ∧
    natOfBits (slice (bitsOf buf) 24 12) = 1230 ∧ (natOfBits (slice (bitsOf buf) 36 12) : Int) = id ∧
    (natOfBits (slice (bitsOf buf) 48 1) : Int) = al ∧ (natOfBits (slice (bitsOf buf) 52 1)) = a.isSome.toNat ∧
    (natOfBits (slice (bitsOf buf) 53 1)) = b.isSome.toNat ∧ (natOfBits (slice (bitsOf buf) 54 1)) = c.isSome.toNat ∧
    (natOfBits (slice (bitsOf buf) 55 1)) = d.isSome.toNat ∧
    readAt (biasLayout a) (bitsOf buf) 56 = biasVals a ∧
    readAt (biasLayout b) (bitsOf buf) (56 + 16 * a.isSome.toNat) = biasVals b ∧
    readAt (biasLayout c) (bitsOf buf) (56 + 16 * a.isSome.toNat + 16 * b.isSome.toNat) = biasVals c ∧
    readAt (biasLayout d) (bitsOf buf) (56 + 16 * a.isSome.toNat + 16 * b.isSome.toNat + 16 * c.isSome.toNat) =
      biasVals d := by
  rw [carriedBy_iff]
  simp only [BaseMsg.layout, BaseMsg.vals]
  have l1 := vals_length_append (A := [U 12, U 12, U 1, R 3, U 1, U 1, U 1, U 1])
    (va := [1230, id, al, biasBit a, biasBit b, biasBit c, biasBit d]) (by rfl) (bias_vals_length a)
  have l2 := vals_length_append l1 (bias_vals_length b)
  have l3 := vals_length_append l2 (bias_vals_length c)
  rw [readAt_split l3, readAt_split l2, readAt_split l1, readAt_split (by rfl)]
  simp only [layoutWidth_append, width_bias, layoutWidth, readAt_U, readAt_R, readAt_nil, List.cons.injEq, and_true,
    Nat.reduceAdd]
  have hb : ∀ x : Option Int, biasBit x = (x.isSome.toNat : Int) := by intro x; cases x <;> rfl
  rw [show 32 + 16 * a.isSome.toNat + 16 * b.isSome.toNat + 16 * c.isSome.toNat + 16 * d.isSome.toNat =
    32 + 16 * (a.isSome.toNat + b.isSome.toNat + c.isSome.toNat + d.isSome.toNat) by omega,
    show 24 + (32 + 16 * a.isSome.toNat + 16 * b.isSome.toNat + 16 * c.isSome.toNat) =
      56 + 16 * a.isSome.toNat + 16 * b.isSome.toNat + 16 * c.isSome.toNat by omega,
    show 24 + (32 + 16 * a.isSome.toNat + 16 * b.isSome.toNat) =
      56 + 16 * a.isSome.toNat + 16 * b.isSome.toNat by omega,
    show 24 + (32 + 16 * a.isSome.toNat) = 56 + 16 * a.isSome.toNat by omega]
  rw [hb, hb, hb, hb, show (1230 : Int) = ((1230 : Nat) : Int) from rfl, nat_int_eq, nat_int_eq, nat_int_eq, nat_int_eq,
    nat_int_eq]
  tauto

theorem off_after (key : String) (x : Option Int) (st) : (afterBias key x st).2.2.1 = st.2.2.1 + 16 * x.isSome.toNat := by
  cases x <;> rfl

theorem n_after (key : String) (x : Option Int) (st) : (afterBias key x st).2.2.2 = st.2.2.2 + x.isSome.toNat := by
  cases x <;> rfl

theorem table_after (a b c d : Option Int) (o n : Nat) :
    (afterBias "2P" d (afterBias "2C" c (afterBias "1P" b (afterBias "1C" a (zeroDict, zeroDict, o, n))))).1 =
      gloTable (a.getD 0) (b.getD 0) (c.getD 0) (d.getD 0) ∧
    (afterBias "2P" d (afterBias "2C" c (afterBias "1P" b (afterBias "1C" a (zeroDict, zeroDict, o, n))))).2.1 =
      gloTable (biasBit a) (biasBit b) (biasBit c) (biasBit d) := by
  cases a <;> cases b <;> cases c <;> cases d <;> exact ⟨rfl, rfl⟩

theorem dec1230_iff (buf : Bytes) (o : BareObj) (hn : gbu buf 24 12 = .ok 1230) :
    decode1230 buf = .ok o ↔ ∃ id al a b c d, (BaseMsg.m1230 id al a b c d).CarriedBy buf ∧
      o = bareObj (.m1230 id al a b c d) := by
  have hv := (gbu_inv hn).1.symm
  constructor
  · intro h
    unfold decode1230 at h
    obtain ⟨_, hn', h⟩ := bind_ok h
    rw [hn] at hn'; cases hn'
    obtain ⟨id, hid, h⟩ := bind_ok h
    obtain ⟨al, hal, h⟩ := bind_ok h
    obtain ⟨v, hval, h⟩ := bind_ok h
    obtain ⟨hval, hbnd, -⟩ := gbu_inv hval
    obtain ⟨fa, fb, fc, fd, e0, e1, e2, e3, e4⟩ := mask4 (bitsOf buf) 52 (by rw [bitsOf_length]; omega)
    have hval' : v = 8 * fa.toNat + 4 * fb.toNat + 2 * fc.toNat + fd.toNat := by rw [hval, ← e0]
    subst hval'
    obtain ⟨m1, m2, m3, m4⟩ := mask4_and fa fb fc fd
    rw [m1, m2, m3, m4] at h
    obtain ⟨st1, h1, h⟩ := bind_ok h
    obtain ⟨st2, h2, h⟩ := bind_ok h
    obtain ⟨st3, h3, h⟩ := bind_ok h
    obtain ⟨st4, h4, h⟩ := bind_ok h
    obtain ⟨a, rfl, rfl, ra⟩ := readBias_fwd h1
    obtain ⟨b, rfl, rfl, rb⟩ := readBias_fwd h2
    obtain ⟨c, rfl, rfl, rc⟩ := readBias_fwd h3
    obtain ⟨d, rfl, rfl, rd⟩ := readBias_fwd h4
    obtain ⟨_, hc, h⟩ := bind_ok h
    cases h
    have hc := (lengthCheck_iff _ _ _).1 hc
    simp only [off_after, n_after] at ra rb rc rd hc
    refine ⟨id, al, a, b, c, d, (carried1230 _ _ _ _ _ _ _).2
      ⟨by omega, hv, by rw [← (gbu_inv hid).1], by rw [← (gbu_inv hal).1], e1, e2, e3, e4, ra, rb, rc, rd⟩, ?_⟩
    obtain ⟨t1, t2⟩ := table_after a b c d (24 + 12 + 12 + 1 + 3 + 4) 0
    rw [t1, t2]; rfl
  · rintro ⟨id, al, a, b, c, d, hp, rfl⟩
    obtain ⟨hl, h1, rfl, rfl, f1, f2, f3, f4, ra, rb, rc, rd⟩ := (carried1230 _ _ _ _ _ _ _).1 hp
    obtain ⟨fa, fb, fc, fd, e0, e1, e2, e3, e4⟩ := mask4 (bitsOf buf) 52 (by rw [bitsOf_length]; omega)
    have inj : ∀ x y : Bool, x.toNat = y.toNat → x = y := by decide
    have g1 := inj _ _ (e1.symm.trans f1)
    have g2 := inj _ _ (e2.symm.trans f2)
    have g3 := inj _ _ (e3.symm.trans f3)
    have g4 := inj _ _ (e4.symm.trans f4)
    subst g1 g2 g3 g4
    obtain ⟨m1, m2, m3, m4⟩ := mask4_and a.isSome b.isSome c.isSome d.isSome
    unfold decode1230
    dsimp only
    rw [hn, ok_bind, gbu_ok (by omega) (by omega) (by omega), ok_bind, gbu_ok (by omega) (by omega) (by omega), ok_bind,
      gbu_ok (by omega) (by omega) (by omega), ok_bind, e0, m1, m2, m3, m4,
      readBias_bwd ra (by rw [width_bias]; dsimp only; omega), ok_bind,
      readBias_bwd (by rw [off_after]; exact rb) (by rw [width_bias]; simp only [off_after]; omega), ok_bind,
      readBias_bwd (by rw [off_after, off_after]; exact rc) (by rw [width_bias]; simp only [off_after]; omega), ok_bind,
      readBias_bwd (by rw [off_after, off_after, off_after]; exact rd) (by rw [width_bias]; simp only [off_after]; omega),
      ok_bind, (lengthCheck_iff _ _ _).2 (by simp only [off_after, n_after]; omega), ok_bind]
    obtain ⟨t1, t2⟩ := table_after a b c d (24 + 12 + 12 + 1 + 3 + 4) 0
    rw [t1, t2]; rfl

/-! ## All messages -/

/-- A content that the decoder accepts: an announcement list of 1013 must not be empty. -/
def Acceptable : BaseMsg → Prop
  | .m1013 _ _ _ _ ann => ann ≠ []
  | _ => True

theorem decodeBare_iff (buf : Bytes) (o : BareObj) :
    decodeBare buf = .ok o ↔ ∃ m, Acceptable m ∧ m.CarriedBy buf ∧ o = bareObj m := by
  constructor
  · intro h
    unfold decodeBare at h
    obtain ⟨n, hn, h⟩ := bind_ok h
    unfold getMsgNum at hn
    split_ifs at h with c1 c2 c3 c4 c5 c6 c7 c8
    · subst c1; obtain ⟨p, h1, h2⟩ := (dec1005_iff _ _ hn).1 h; exact ⟨_, by exact trivial, h1, h2⟩
    · subst c2; obtain ⟨p, q, h1, h2⟩ := (dec1006_iff _ _ hn).1 h; exact ⟨_, by exact trivial, h1, h2⟩
    · subst c3; obtain ⟨_, _, _, h1, h2⟩ := (dec1007_iff _ _ hn).1 h; exact ⟨_, by exact trivial, h1, h2⟩
    · subst c4; obtain ⟨_, _, _, _, h1, h2⟩ := (dec1008_iff _ _ hn).1 h; exact ⟨_, by exact trivial, h1, h2⟩
    · subst c5; obtain ⟨_, _, _, _, _, _, _, h1, h2⟩ := (dec1033_iff _ _ hn).1 h; exact ⟨_, by exact trivial, h1, h2⟩
    · subst c6; obtain ⟨_, _, _, _, _, h0, h1, h2⟩ := (dec1013_iff _ _ hn).1 h; exact ⟨_, by exact h0, h1, h2⟩
    · subst c7; obtain ⟨_, _, _, _, _, h1, h2⟩ := (dec1029_iff _ _ hn).1 h; exact ⟨_, by exact trivial, h1, h2⟩
    · subst c8; obtain ⟨_, _, _, _, _, _, h1, h2⟩ := (dec1230_iff _ _ hn).1 h; exact ⟨_, by exact trivial, h1, h2⟩
  · rintro ⟨m, ha, hc, rfl⟩
    have hn := carried_num hc
    unfold decodeBare getMsgNum
    rw [hn, ok_bind]
    cases m with
    | m1005 p => exact (dec1005_iff _ _ hn).2 ⟨_, hc, rfl⟩
    | m1006 p => exact (dec1006_iff _ _ hn).2 ⟨_, _, hc, rfl⟩
    | m1007 => exact (dec1007_iff _ _ hn).2 ⟨_, _, _, hc, rfl⟩
    | m1008 => exact (dec1008_iff _ _ hn).2 ⟨_, _, _, _, hc, rfl⟩
    | m1033 => exact (dec1033_iff _ _ hn).2 ⟨_, _, _, _, _, _, _, hc, rfl⟩
    | m1013 => exact (dec1013_iff _ _ hn).2 ⟨_, _, _, _, _, ha, hc, rfl⟩
    | m1029 => exact (dec1029_iff _ _ hn).2 ⟨_, _, _, _, _, hc, rfl⟩
    | m1230 => exact (dec1230_iff _ _ hn).2 ⟨_, _, _, _, _, _, hc, rfl⟩

end Verif
