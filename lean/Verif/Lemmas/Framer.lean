import Verif.Model.Framer
import Verif.Lemmas.Scan
import Verif.Lemmas.CRC

namespace Verif
open Spec Framer

/-! ## Header fields -/

theorem list3 {s : List UInt8} (h : 3 ≤ s.length) : ∃ a b c t, s = a :: b :: c :: t := by
  match s, h with
  | a :: b :: c :: t, _ => exact ⟨a, b, c, t, rfl⟩

theorem hdr_len {s : Bytes} (h : 3 ≤ s.length) (h4 : (s.getD 1 0).toNat < 4) :
    Bits.gbu s 14 10 = .ok (payloadLen s) := by
  rw [gbu_eq, if_pos (by omega)]
  congr 1
  obtain ⟨a, b, c, t, rfl⟩ := list3 h
  simp only [payloadLen, List.getD, List.getElem?_cons_succ, List.getElem?_cons_zero, Option.getD_some] at *
  have e : slice (bitsOf (a :: b :: c :: t)) 14 10 = (bitsOf [a, b, c]).drop 14 := by
    have : bitsOf (a :: b :: c :: t) = bitsOf [a, b, c] ++ bitsOf t := by
      rw [← bitsOf_append]; rfl
    rw [this, slice, List.drop_append_of_le_length (by simp), List.take_left' (by simp)]
  rw [e, natOfBits_drop]
  simp only [bitsOf_cons, natOfBits_append, natOfBits_byteBits, bitsOf_nil, List.append_nil,
    List.length_append, byteBits_length]
  have := c.toNat_lt
  omega

theorem mlen_eq {s : Bytes} (h : 3 ≤ s.length) (h4 : (s.getD 1 0).toNat < 4) :
    mlen s = some (payloadLen s + 6) := by
  unfold mlen
  rw [hdr_len h h4]; rfl

theorem getD_take (s : List UInt8) (n i : Nat) (h : i < n) : (s.take n).getD i 0 = s.getD i 0 := by
  simp [List.getD, List.getElem?_take_of_lt h]

theorem payloadLen_take (s : List UInt8) (n : Nat) (h : 3 ≤ n) : payloadLen (s.take n) = payloadLen s := by
  unfold payloadLen
  rw [getD_take _ _ _ (by omega), getD_take _ _ _ (by omega)]

theorem mcrc_eq {s : Bytes} (h4 : (s.getD 1 0).toNat < 4)
    (h0 : s[0]? = some 0xD3) (hl : payloadLen s + 6 ≤ s.length) :
    (mcrc s = some true ↔ ValidFrame (s.take (payloadLen s + 6))) := by
  have h3 : 3 ≤ s.length := by omega
  unfold mcrc
  rw [hdr_len h3 h4]
  have hget : Bits.gbu s ((payloadLen s + 3) * 8) 24 =
      .ok (natOfBits (bitsOf ((s.take (payloadLen s + 6)).drop (payloadLen s + 3)))) := by
    rw [gbu_eq, if_pos (by omega)]
    congr 2
    rw [slice, bitsOf_drop, bitsOf_take, List.drop_take]
    congr 1
    · omega
    · congr 1; omega
  have hstep : (Bits.catchBits do
      let l ← (Except.ok (payloadLen s) : Py Nat)
      let dataLen := l + 3
      let crcCalc ← CRC24Q.crcCalc (s.take dataLen)
      let crcGet ← Bits.gbu s (dataLen * 8) 24
      pure (crcCalc == crcGet)) =
      some (crc24q (s.take (payloadLen s + 3)) ==
        natOfBits (bitsOf ((s.take (payloadLen s + 6)).drop (payloadLen s + 3)))) := by
    show Bits.catchBits (do
      let crcCalc ← CRC24Q.crcCalc (s.take (payloadLen s + 3))
      let crcGet ← Bits.gbu s ((payloadLen s + 3) * 8) 24
      pure (crcCalc == crcGet)) = _
    rw [calc_eq, hget]; rfl
  rw [hstep]
  have hlen : (s.take (payloadLen s + 6)).length = payloadLen s + 6 := by simp; omega
  have htk : (s.take (payloadLen s + 6)).take (payloadLen s + 3) = s.take (payloadLen s + 3) := by
    rw [List.take_take]; congr 1; omega
  constructor
  · intro h
    simp only [Option.some.injEq, beq_iff_eq] at h
    refine ⟨?_, ?_, ?_, ?_⟩
    · rw [List.getElem?_take_of_lt (by omega), h0]
    · rw [getD_take _ _ _ (by omega)]; exact h4
    · rw [payloadLen_take _ _ (by omega), hlen]
    · rw [hlen, show payloadLen s + 6 - 3 = payloadLen s + 3 by omega, htk, h]
  · intro h
    have := h.crc
    rw [hlen, show payloadLen s + 6 - 3 = payloadLen s + 3 by omega, htk] at this
    simp [this]

/-! ## Rebase -/

theorem findD3_some {tail : Bytes} {ptr ofs : Nat} (h : findD3 tail ptr = some ofs) :
    ptr ≤ ofs ∧ ofs < tail.length ∧ tail[ofs]? = some 0xD3 ∧
      ∀ j, ptr ≤ j → j < ofs → tail[j]? ≠ some 0xD3 := by
  unfold findD3 at h
  simp only [Option.map_eq_some_iff] at h
  obtain ⟨i, hi, rfl⟩ := h
  rw [List.findIdx?_eq_some_iff_getElem] at hi
  obtain ⟨hlt, hp, hn⟩ := hi
  simp only [List.length_drop] at hlt
  refine ⟨by omega, by omega, ?_, ?_⟩
  · rw [List.getElem_drop] at hp
    rw [List.getElem?_eq_getElem (by omega)]
    simp only [beq_iff_eq] at hp
    rw [← hp]; congr 2; omega
  · intro j h1 h2 hc
    have := hn (j - ptr) (by omega)
    rw [List.getElem_drop] at this
    rw [List.getElem?_eq_getElem (by omega)] at hc
    simp only [Option.some.injEq] at hc
    apply this
    simp only [beq_iff_eq]
    rw [← hc]; congr 1; omega

theorem findD3_none {tail : Bytes} {ptr : Nat} (h : findD3 tail ptr = none) :
    ∀ j, ptr ≤ j → tail[j]? ≠ some 0xD3 := by
  unfold findD3 at h
  simp only [Option.map_eq_none_iff, List.findIdx?_eq_none_iff] at h
  intro j h1 hc
  have hj : j < tail.length := by
    by_contra hcc
    rw [List.getElem?_eq_none (by omega)] at hc
    simp at hc
  have := h 0xD3 (by
    rw [List.mem_iff_getElem?]
    exact ⟨j - ptr, by rw [List.getElem?_drop, show ptr + (j - ptr) = j by omega, hc]⟩)
  simp at this

theorem qskip_drop_of_ne {tail : Bytes} {j : Nat} (hj : j < tail.length) (h : tail[j]? ≠ some 0xD3) :
    qskip (tail.drop j) := by
  refine ⟨by simp; omega, Or.inl ?_⟩
  rw [List.getElem?_drop]; simpa using h

theorem and_FC (b : Nat) (h : b < 256) : (b &&& 0xFC = 0) ↔ b < 4 := by
  have : ∀ b, b < 256 → ((b &&& 0xFC = 0) ↔ b < 4) := by decide +kernel
  exact this b h

theorem byteAt_lt {tail : Bytes} {i : Nat} (h : i < tail.length) :
    byteAt tail i = .ok (tail.getD i 0).toNat := by
  simp [byteAt, h, List.getD]

theorem getD_drop (s : List UInt8) (n i : Nat) : (s.drop n).getD i 0 = s.getD (n + i) 0 := by
  simp [List.getD, List.getElem?_drop]

theorem liftD_ok_bind {α β : Type} (a : α) (f : α → PyD β) : (liftD (.ok a) >>= f) = f a := rfl

theorem rebaseLoop_spec (tail : Bytes) (ptr : Nat) (hp : ptr ≤ tail.length) :
    ∃ k, ptr ≤ k ∧ k ≤ tail.length ∧ rebaseLoop tail ptr = pure (tail.drop k) ∧
      (∀ j, ptr ≤ j → j < k → qskip (tail.drop j)) ∧ (k = tail.length ∨ ¬ qskip (tail.drop k)) := by
  induction hn : tail.length - ptr using Nat.strong_induction_on generalizing ptr with
  | _ n ih =>
    rw [rebaseLoop]
    cases hf : findD3 tail ptr with
    | none =>
      refine ⟨tail.length, hp, le_refl _, by simp, ?_, Or.inl rfl⟩
      intro j h1 h2
      exact qskip_drop_of_ne h2 (findD3_none hf j h1)
    | some ofs =>
      obtain ⟨h1, h2, h3, h4⟩ := findD3_some hf
      have hpre : ∀ j, ptr ≤ j → j < ofs → qskip (tail.drop j) :=
        fun j ha hb => qskip_drop_of_ne (by omega) (h4 j ha hb)
      by_cases hlast : ofs = tail.length - 1
      · simp only [hlast, if_true]
        refine ⟨ofs, h1, by omega, ?_, hpre, Or.inr ?_⟩
        · rw [← hlast, List.take_of_length_le (by simp; omega)]
        · rintro ⟨_, h5 | h5⟩
          · rw [List.getElem?_drop] at h5; simp [h3] at h5
          · simp at h5; omega
      · simp only [hlast, if_false]
        rw [byteAt_lt (by omega)]
        show ∃ k, _ ∧ _ ∧ (if (tail.getD (ofs + 1) 0).toNat &&& 0xFC = 0 then
          (pure (List.drop ofs tail) : PyD Bytes) else rebaseLoop tail (ofs + 1)) = _ ∧ _ ∧ _
        have hfc := and_FC (tail.getD (ofs + 1) 0).toNat (UInt8.toNat_lt _)
        by_cases hb : (tail.getD (ofs + 1) 0).toNat < 4
        · rw [if_pos (hfc.2 hb)]
          refine ⟨ofs, h1, by omega, rfl, hpre, Or.inr ?_⟩
          rintro ⟨_, h5 | h5⟩
          · rw [List.getElem?_drop] at h5; simp [h3] at h5
          · rw [getD_drop] at h5; omega
        · rw [if_neg (fun h => hb (hfc.1 h))]
          obtain ⟨k, k1, k2, k3, k4, k5⟩ := ih (tail.length - (ofs + 1)) (by omega) (ofs + 1) (by omega) rfl
          refine ⟨k, by omega, k2, k3, ?_, k5⟩
          intro j ha hb'
          rcases Nat.lt_trichotomy j ofs with hj | hj | hj
          · exact hpre j ha hj
          · subst hj
            refine ⟨by simp; omega, Or.inr ⟨by simp; omega, ?_⟩⟩
            rw [getD_drop]; omega
          · exact k4 j (by omega) hb'

theorem rebase_spec (tail : Bytes) (h2 : 2 ≤ tail.length) :
    ∃ k, k ≤ tail.length ∧ rebaseToD3 tail = pure (tail.drop k, tail.length - k) ∧
      (∀ j, j < k → qskip (tail.drop j)) ∧ (k = tail.length ∨ ¬ qskip (tail.drop k)) := by
  unfold rebaseToD3
  rw [if_neg (by rintro rfl; simp at h2)]
  rw [byteAt_lt (by omega), byteAt_lt (by omega)]
  simp only [show tail.length ≠ 1 by omega, if_false]
  show ∃ k, _ ∧ (if (if ((tail.getD 0 0).toNat == 0xD3) && ((tail.getD 1 0).toNat &&& 0xFC) != 0 then false
      else ((tail.getD 0 0).toNat == 0xD3)) = true then (pure (tail, tail.length) : PyD (Bytes × Nat)) else
        (do
          let t ← rebaseLoop tail 1
          pure (t, t.length))) = _ ∧ _
  have hcond : (if ((tail.getD 0 0).toNat == 0xD3) && ((tail.getD 1 0).toNat &&& 0xFC) != 0 then false
      else ((tail.getD 0 0).toNat == 0xD3)) = true ↔ ¬ qskip tail := by
    have hfc := and_FC (tail.getD 1 0).toNat (UInt8.toNat_lt _)
    have h0 : ((tail.getD 0 0).toNat == 0xD3) = true ↔ tail[0]? = some 0xD3 := by
      have hg : tail[0]? = some (tail.getD 0 0) := by
        rw [List.getElem?_eq_getElem (by omega)]; simp [List.getD, show 0 < tail.length by omega]
      rw [hg]
      simp only [beq_iff_eq, Option.some.injEq]
      constructor
      · intro h; apply UInt8.toNat_inj.1; simpa using h
      · intro h; rw [h]; rfl
    have hne : tail ≠ [] := by rintro rfl; simp at h2
    unfold qskip
    by_cases ha : ((tail.getD 0 0).toNat == 0xD3) = true
    · have ha' := h0.1 ha
      by_cases hb : (tail.getD 1 0).toNat < 4
      · have := hfc.2 hb
        simp only [ha, this]
        simp only [Bool.true_and, bne_self_eq_false, Bool.false_eq_true, if_false, true_iff]
        rintro ⟨_, h5 | h5⟩
        · exact h5 ha'
        · omega
      · have hb' : ¬ ((tail.getD 1 0).toNat &&& 0xFC = 0) := fun h => hb (hfc.1 h)
        simp only [ha]
        simp only [Bool.true_and, bne_iff_ne, ne_eq, hb', not_false_eq_true, if_true]
        constructor
        · intro h; simp at h
        · intro h; exact absurd ⟨hne, Or.inr ⟨h2, by omega⟩⟩ h
    · have ha' : ¬ tail[0]? = some 0xD3 := fun h => ha (h0.2 h)
      have hf : ((tail.getD 0 0).toNat == 0xD3) = false := by simpa using ha
      rw [hf]
      constructor
      · intro h; simp at h
      · intro h; exact absurd ⟨hne, Or.inl ha'⟩ h
  by_cases hq : qskip tail
  · rw [if_neg (by rw [hcond]; simpa using hq)]
    obtain ⟨k, k1, k2, k3, k4, k5⟩ := rebaseLoop_spec tail 1 (by omega)
    refine ⟨k, k2, ?_, ?_, k5⟩
    · rw [k3]; simp
    · intro j hj
      cases j with
      | zero => simpa using hq
      | succ j => exact k4 _ (by omega) hj
  · rw [if_pos (hcond.2 hq)]
    exact ⟨0, by omega, by simp, by omega, Or.inr (by simpa using hq)⟩

theorem rebase_nil : rebaseToD3 [] = pure ([], 0) := by
  unfold rebaseToD3; simp

theorem rebase_one (b : UInt8) : rebaseToD3 [b] = pure ([b], if b = 0xD3 then 1 else 0) := by
  unfold rebaseToD3
  have hb : (b.toNat == 0xD3) = decide (b = 0xD3) := by
    rw [Bool.eq_iff_iff]
    simp only [beq_iff_eq, decide_eq_true_eq]
    constructor
    · intro h; apply UInt8.toNat_inj.1; simpa using h
    · intro h; rw [h]; rfl
  rw [if_neg (by simp), byteAt_lt (by simp)]
  rw [liftD_ok_bind]
  simp [hb]

/-! ## The main loop -/

/-- The two flags are determined by: has a message been seen, and is the current gap empty. -/
def flagsOk (seen : Bool) (gap : Bytes) (sk sy : Bool) : Prop :=
  sk = (seen && !gap.isEmpty) ∧ sy = (seen && gap.isEmpty)

/-- Number of errors counted for newly scanned segments. -/
def errsOf (seen : Bool) (segs : List Seg) : Nat :=
  (if seen then segs else segs.drop 1).countP (fun g => g.gap ≠ [])

/-- The retained bytes: the undecided rest, or one useless byte. -/
def tailOk (gap rest tail : Bytes) : Prop :=
  tail = rest ∨ (rest = [] ∧ gap ≠ [] ∧ ∃ b, b ≠ 0xD3 ∧ tail = [b])


theorem errsOf_nil (seen : Bool) : errsOf seen [] = 0 := by cases seen <;> rfl

theorem errsOf_cons (seen : Bool) (g : Seg) (segs : List Seg) :
    errsOf seen (g :: segs) = (if (seen && !g.gap.isEmpty) = true then 1 else 0) + errsOf true segs := by
  unfold errsOf
  cases seen
  · simp
  · cases hg : g.gap with
    | nil => simp [hg]
    | cons a l => simp [hg]; omega

theorem append_isEmpty_false {a b : Bytes} (h : a ≠ [] ∨ b ≠ []) : (a ++ b).isEmpty = false := by
  rcases h with h | h
  · cases a <;> simp_all
  · cases b <;> simp_all

/-- Flag update of decoder_top.py:236-242; `d` says that bytes were dropped. -/
def updFlags (sk sy d : Bool) : Bool × Bool := if ((!sk) && d && sy) = true then (true, false) else (sk, sy)

theorem updState (t : Bytes) (sk sy : Bool) (cnt : Nat) (d : Bool) :
    (if ((!sk) && d && sy) = true then (⟨t, true, false, cnt⟩ : Parser) else ⟨t, sk, sy, cnt⟩) =
      ⟨t, (updFlags sk sy d).1, (updFlags sk sy d).2, cnt⟩ := by
  unfold updFlags; split_ifs <;> rfl

theorem flags_step {seen sk sy d : Bool} {gap gap' : Bytes}
    (h : flagsOk seen gap sk sy ∨ (seen = true ∧ sk = false ∧ sy = true ∧ d = true))
    (h0 : d = false → gap' = gap) (h1 : d = true → gap' ≠ []) :
    flagsOk seen gap' (updFlags sk sy d).1 (updFlags sk sy d).2 := by
  cases d with
  | false =>
    rw [h0 rfl]
    rcases h with h | h
    · simpa [updFlags] using h
    · simp at h
  | true =>
    have hg : gap'.isEmpty = false := by
      have := h1 rfl
      cases gap' <;> simp_all
    unfold flagsOk at *
    rw [hg]
    rcases h with ⟨h2, h3⟩ | ⟨h2, h3, h4, _⟩
    · subst h2 h3
      cases seen <;> cases gap.isEmpty <;> simp [updFlags]
    · subst h2 h3 h4
      simp [updFlags]

theorem catchLoop_spec (n : Nat) : ∀ (T : Bytes) (sk sy : Bool) (cnt : Nat) (ret : List Bytes) (seen : Bool)
    (gap p s : Bytes), T.length = n → T = p ++ s →
    (p = [] ∨ ∃ b, p = [b] ∧ b ≠ 0xD3 ∧ gap ≠ []) →
    (flagsOk seen gap sk sy ∨ (seen = true ∧ sk = false ∧ sy = true ∧ gap ≠ [] ∧ p = [] ∧ 2 ≤ T.length ∧
      T[0]? ≠ some 0xD3)) →
    ∃ T' sk' sy', catchLoop ⟨T, sk, sy, cnt⟩ ret =
        pure (⟨T', sk', sy', cnt + errsOf seen (scan gap s).segs⟩, ret ++ (scan gap s).segs.map (·.msg)) ∧
      tailOk (scan gap s).gap (scan gap s).rest T' ∧
      flagsOk (seen || !(scan gap s).segs.isEmpty) (scan gap s).gap sk' sy' := by
  induction n using Nat.strong_induction_on with
  | _ n ih =>
    intro T sk sy cnt ret seen gap p s hT hps hp hfl
    rw [catchLoop]
    by_cases h2 : 2 ≤ T.length
    · -- two or more bytes
      obtain ⟨k, hk, hreb, hskip, hend⟩ := rebase_spec T h2
      have hT0 : T ≠ [] := by rintro rfl; simp at h2
      have hk0 : T[0]? ≠ some 0xD3 → 0 < k := by
        intro hD
        by_contra hc
        have hk0 : k = 0 := by omega
        subst hk0
        rcases hend with he | he
        · omega
        · exact he ⟨by simpa using hT0, Or.inl (by simpa using hD)⟩
      have hkp : p.length ≤ k := by
        rcases hp with rfl | ⟨b, rfl, hb, _⟩
        · simp
        · exact hk0 (by simp [hps, hb])
      have hdrop : ∀ j, s.drop j = T.drop (p.length + j) := by
        intro j; rw [hps, ← List.drop_drop, List.drop_left]
      have hslen : T.length = p.length + s.length := by rw [hps, List.length_append]
      have hscan : scan gap s = scan (gap ++ s.take (k - p.length)) (T.drop k) := by
        rw [scan_skips (k - p.length) (by omega) (fun j hj => by
          rw [hdrop]; exact hskip _ (by omega)), hdrop, show p.length + (k - p.length) = k by omega]
      generalize hgap' : gap ++ s.take (k - p.length) = gap' at hscan
      have hg0 : k = 0 → gap' = gap := by
        intro h0; rw [← hgap']; simp [h0]
      have hg1 : 0 < k → gap' ≠ [] := by
        intro h0 hc
        rw [← hgap'] at hc
        simp only [List.append_eq_nil_iff] at hc
        rcases hp with hp' | ⟨b, _, _, hg⟩
        · have h3 := congrArg List.length hc.2
          simp only [hp', List.length_nil, List.length_take] at h3 hslen
          omega
        · exact hg hc.1
      have hfl1 := flags_step (seen := seen) (sk := sk) (sy := sy) (gap := gap) (gap' := gap')
        (d := decide (T.length - k < T.length)) (by
          rcases hfl with h | ⟨h3, h4, h5, _, _, _, hD⟩
          · exact Or.inl h
          · have := hk0 hD
            exact Or.inr ⟨h3, h4, h5, by simp; omega⟩)
        (by intro h; simp at h; exact hg0 (by omega))
        (by intro h; simp at h; exact hg1 (by omega))
      have hUlen : (T.drop k).length = T.length - k := by simp
      have hUend : T.drop k = [] ∨ ¬ qskip (T.drop k) := by
        rcases hend with he | he
        · left; simp [he]
        · exact Or.inr he
      rw [hreb, pure_bind]
      simp only [updState]
      generalize (updFlags sk sy (decide (T.length - k < T.length))).1 = sk1 at *
      generalize (updFlags sk sy (decide (T.length - k < T.length))).2 = sy1 at *
      rw [hscan, ← hUlen]
      generalize hU : T.drop k = U at *
      by_cases h6 : U.length < 6
      · rw [if_pos h6]
        have hw : verdict U = .wait := by
          rcases hUend with h | h
          · rw [h]; exact verdict_nil
          · by_cases h0 : U = []
            · rw [h0]; exact verdict_nil
            · rw [(verdict_not_qskip h0 h).2.2, if_pos (Or.inl h6)]
        rw [scan_wait hw]
        refine ⟨U, sk1, sy1, by simp [errsOf_nil], Or.inl rfl, by simpa using hfl1⟩
      · rw [if_neg h6]
        have hU0 : U ≠ [] := by rintro rfl; simp at h6
        have hq : ¬ qskip U := by
          rcases hUend with h | h
          · exact absurd h hU0
          · exact h
        obtain ⟨hD3, hb1, hverd⟩ := verdict_not_qskip hU0 hq
        have hb1 := hb1 (by omega)
        rw [mlen_eq (by omega) hb1]
        simp only
        by_cases hlong : payloadLen U + 6 > U.length
        · rw [if_pos hlong]
          have hw : verdict U = .wait := by rw [hverd, if_pos (by omega)]
          rw [scan_wait hw]
          exact ⟨U, sk1, sy1, by simp [errsOf_nil], Or.inl rfl, by simpa using hfl1⟩
        · rw [if_neg hlong]
          have hcrc := mcrc_eq hb1 hD3 (by omega)
          by_cases hvf : ValidFrame (U.take (payloadLen U + 6))
          · rw [if_pos (hcrc.2 hvf)]
            have hv : verdict U = .frame (payloadLen U + 6) := by
              rw [hverd, if_neg (by omega), if_pos hvf]
            rw [scan_frame hv]
            generalize hm : payloadLen U + 6 = m at *
            obtain ⟨T', sk', sy', e1, e2, e3⟩ := ih (U.drop m).length (by simp; omega) (U.drop m) false true
              (cnt + if sk1 = true then 1 else 0) (ret ++ [U.take m]) true [] [] (U.drop m) rfl (by simp)
              (Or.inl rfl) (Or.inl (by simp [flagsOk]))
            refine ⟨T', sk', sy', ?_, e2, ?_⟩
            · have hstate : (if sk1 = true then
                  ({ tail := U.drop m, skipped := false, synchronized := sy1, parsErrCnt := cnt + 1 } : Parser)
                  else { tail := U.drop m, skipped := sk1, synchronized := sy1, parsErrCnt := cnt }) =
                  ⟨U.drop m, false, sy1, cnt + if sk1 = true then 1 else 0⟩ := by
                cases sk1 <;> simp
              simp only [hstate]
              rw [e1]
              have hsk : sk1 = (seen && !gap'.isEmpty) := hfl1.1
              rw [errsOf_cons, hsk]
              simp [Nat.add_assoc]
            · simpa using e3
          · rw [if_neg (fun h => hvf (hcrc.1 h))]
            have hv : verdict U = .skip := by
              rw [hverd, if_neg (by omega), if_neg hvf]
            rw [scan_skip hv]
            have hne : U.take 1 ≠ [] := by
              intro h; have := congrArg List.length h; simp at this; exact hU0 this
            have hge : (gap' ++ U.take 1).isEmpty = false := append_isEmpty_false (Or.inr hne)
            have hgne : gap' ++ U.take 1 ≠ [] := by
              intro h; rw [h] at hge; simp at hge
            have hflags : flagsOk seen (gap' ++ U.take 1) sk1 sy1 ∨
                (seen = true ∧ sk1 = false ∧ sy1 = true ∧ gap' ++ U.take 1 ≠ [] ∧ ([] : Bytes) = [] ∧
                  2 ≤ (U.drop 1).length ∧ (U.drop 1)[0]? ≠ some 0xD3) := by
              obtain ⟨f1, f2⟩ := hfl1
              cases seen
              · left; simp only [Bool.false_and] at f1 f2; simp [flagsOk, f1, f2]
              · cases hge2 : gap'.isEmpty
                · rw [hge2] at f1 f2
                  left; simp only [flagsOk, hge, f1, f2]; simp
                · rw [hge2] at f1 f2
                  right
                  refine ⟨rfl, by simpa using f1, by simpa using f2, hgne, rfl, by simp; omega, ?_⟩
                  rw [List.getElem?_drop]
                  intro hc
                  have : (U.getD 1 0) = 0xD3 := by simp [List.getD, hc]
                  rw [this] at hb1
                  exact absurd hb1 (by decide)
            have := ih (U.drop 1).length (by simp; omega) (U.drop 1) sk1 sy1 cnt ret seen
              (gap' ++ U.take 1) [] (U.drop 1) rfl (by simp) (Or.inl rfl) hflags
            exact this
    · -- zero or one byte
      have hfl' : flagsOk seen gap sk sy := by
        rcases hfl with h | h
        · exact h
        · omega
      match T, h2 with
      | [], _ =>
        have hs : s = [] := by
          have := congrArg List.length hps; simp at this; exact List.length_eq_zero_iff.1 (by omega)
        subst hs
        rw [scan_wait verdict_nil]
        simp only [rebase_nil, pure_bind]
        refine ⟨[], sk, sy, ?_, Or.inl rfl, by simpa using hfl'⟩
        simp [errsOf_nil]
      | [b], _ =>
        simp only [rebase_one, pure_bind]
        by_cases hb : b = 0xD3
        · subst hb
          have hpn : p = [] := by
            rcases hp with h | ⟨b, rfl, hb, _⟩
            · exact h
            · simp at hps; exact absurd hps.1.symm hb
          subst hpn
          simp only [List.nil_append] at hps
          subst hps
          rw [scan_wait (by decide)]
          refine ⟨[0xD3], sk, sy, ?_, Or.inl rfl, by simpa using hfl'⟩
          simp [errsOf_nil]
        · have e2 : ∀ g, gap ++ g ≠ [] → flagsOk seen (gap ++ g) (updFlags sk sy true).1 (updFlags sk sy true).2 :=
            fun g hg => flags_step (Or.inl hfl') (by simp) (fun _ => hg)
          simp only [updState]
          have hd : decide ((if b = 0xD3 then 1 else 0) < [b].length) = true := by simp [hb]
          rw [hd]
          generalize (updFlags sk sy true).1 = sk1 at *
          generalize (updFlags sk sy true).2 = sy1 at *
          rw [if_pos (by simp [hb])]
          rcases hp with rfl | ⟨b', rfl, hb', hg⟩
          · simp only [List.nil_append] at hps
            subst hps
            have hv : verdict [b] = .skip := verdict_qskip ⟨by simp, Or.inl (by simpa using hb)⟩
            rw [scan_skip hv]
            simp only [List.take_succ_cons, List.take_zero, List.drop_succ_cons, List.drop_zero]
            rw [scan_wait verdict_nil]
            refine ⟨[b], sk1, sy1, by simp [errsOf_nil], Or.inr ⟨rfl, by simp, b, hb, rfl⟩, ?_⟩
            simpa using e2 [b] (by simp)
          · have hs : s = [] := by
              have := congrArg List.length hps; simp at this; exact this
            subst hs
            rw [scan_wait verdict_nil]
            refine ⟨[b], sk1, sy1, by simp [errsOf_nil], Or.inr ⟨rfl, hg, b, hb, rfl⟩, ?_⟩
            simpa using e2 [] (by simpa using hg)
      | _ :: _ :: _, h => simp at h

/-! ## Calls and sequences of calls -/

/-- The abstraction relation between a parser object and the abstract scan state. -/
def ParserRel (st : Parser) (seen : Bool) (gap rest : Bytes) : Prop :=
  flagsOk seen gap st.skipped st.synchronized ∧ tailOk gap rest st.tail

theorem ParserRel_init : ParserRel Parser.init false [] [] := by
  simp [ParserRel, flagsOk, tailOk, Parser.init]

theorem catchMessage_spec {st : Parser} {seen : Bool} {gap rest : Bytes} (h : ParserRel st seen gap rest)
    (chunk : Bytes) (r : ScanResult) (hr : scan gap (rest ++ chunk) = r) :
    ∃ st', catchMessage st chunk = pure (st', r.segs.map (·.msg)) ∧
      st'.parsErrCnt = st.parsErrCnt + errsOf seen r.segs ∧
      ParserRel st' (seen || !r.segs.isEmpty) r.gap r.rest := by
  obtain ⟨hfl, ht⟩ := h
  unfold catchMessage
  by_cases h0 : st.tail ++ chunk = []
  · simp only [h0, if_true]
    simp only [List.append_eq_nil_iff] at h0
    have hrest : rest = [] := by
      rcases ht with h | ⟨h, _⟩
      · rw [← h]; exact h0.1
      · exact h
    rw [hrest, h0.2, List.append_nil, scan_wait verdict_nil] at hr
    subst hr
    refine ⟨_, rfl, by simp [errsOf_nil], ?_, ?_⟩
    · simpa using hfl
    · exact Or.inl rfl
  · simp only [h0, if_false]
    have hp : ∃ p, st.tail ++ chunk = p ++ (rest ++ chunk) ∧ (p = [] ∨ ∃ b, p = [b] ∧ b ≠ 0xD3 ∧ gap ≠ []) := by
      rcases ht with h | ⟨h1, h2, b, hb, h3⟩
      · exact ⟨[], by simp [h], Or.inl rfl⟩
      · exact ⟨[b], by simp [h1, h3], Or.inr ⟨b, rfl, hb, h2⟩⟩
    obtain ⟨p, hp1, hp2⟩ := hp
    obtain ⟨T', sk', sy', e1, e2, e3⟩ := catchLoop_spec _ (st.tail ++ chunk) st.skipped st.synchronized
      st.parsErrCnt [] seen gap p (rest ++ chunk) rfl hp1 hp2 (Or.inl hfl)
    rw [hr] at e1 e2 e3
    rw [e1]
    exact ⟨_, by simp; rfl, rfl, e3, e2⟩

theorem errsOf_append (seen : Bool) (a b : List Seg) :
    errsOf seen (a ++ b) = errsOf seen a + errsOf (seen || !a.isEmpty) b := by
  cases a with
  | nil => simp [errsOf_nil]
  | cons x a =>
    rw [List.cons_append, errsOf_cons, errsOf_cons]
    simp only [List.isEmpty_cons, Bool.not_false, Bool.or_true]
    simp [errsOf, List.countP_append, Nat.add_assoc]

theorem feed_spec (chunks : List Bytes) : ∀ {st : Parser} {seen : Bool} {gap rest : Bytes},
    ParserRel st seen gap rest → verdict rest = .wait →
    ∃ st', feed st chunks = pure (st', (scan gap (rest ++ chunks.flatten)).segs.map (·.msg)) ∧
      st'.parsErrCnt = st.parsErrCnt + errsOf seen (scan gap (rest ++ chunks.flatten)).segs ∧
      ParserRel st' (seen || !(scan gap (rest ++ chunks.flatten)).segs.isEmpty)
        (scan gap (rest ++ chunks.flatten)).gap (scan gap (rest ++ chunks.flatten)).rest := by
  induction chunks with
  | nil =>
    intro st seen gap rest h hw
    simp only [List.flatten_nil, List.append_nil]
    rw [scan_wait hw]
    exact ⟨st, rfl, by simp [errsOf_nil], by simpa using h⟩
  | cons c cs ih =>
    intro st seen gap rest h hw
    obtain ⟨st1, e1, e2, e3⟩ := catchMessage_spec h c _ rfl
    obtain ⟨st2, f1, f2, f3⟩ := ih e3 (scan_rest_wait _ _)
    have hs := scan_append gap (rest ++ c) cs.flatten
    rw [List.append_assoc, ← List.flatten_cons] at hs
    rw [hs]
    refine ⟨st2, ?_, ?_, ?_⟩
    · rw [feed, e1, pure_bind]
      simp only
      rw [f1, pure_bind]
      simp
    · rw [f2, e2]
      simp only
      rw [errsOf_append]; omega
    · have : (seen || !(scan gap (rest ++ c)).segs.isEmpty ||
          !(scan (scan gap (rest ++ c)).gap ((scan gap (rest ++ c)).rest ++ cs.flatten)).segs.isEmpty) =
          (seen || !((scan gap (rest ++ c)).segs ++
            (scan (scan gap (rest ++ c)).gap ((scan gap (rest ++ c)).rest ++ cs.flatten)).segs).isEmpty) := by
        rw [Bool.or_assoc]
        congr 1
        cases (scan gap (rest ++ c)).segs <;> simp
      simp only
      rw [← this]
      exact f3

end Verif
