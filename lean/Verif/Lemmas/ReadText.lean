import Verif.Spec.ReadText
import Mathlib.Tactic.Ring
import Mathlib.Tactic.FieldSimp
import Mathlib.Tactic.Linarith
import Mathlib.Tactic.Positivity
import Mathlib.Algebra.Order.Field.Rat

/-!
# Reading what was formatted
-/

namespace Verif
namespace ReadText
open Spec Text

/-- Value of digits after the number `a`. -/
def val (a : Nat) (t : Txt) : Nat := t.foldl (fun a c => a * 10 + (c.toNat - 48)) a

theorem val_append (a : Nat) (s t : Txt) : val a (s ++ t) = val (val a s) t := by
  unfold val; rw [List.foldl_append]

theorem digitChar_val : ∀ d < 10, (Nat.digitChar d).toNat - 48 = d ∧ (Nat.digitChar d).isDigit = true := by decide

theorem val_digit (a d : Nat) (h : d < 10) : val a [Nat.digitChar d] = a * 10 + d := by
  unfold val
  simp [(digitChar_val d h).1]

theorem val_nat (n : Nat) : val 0 (natRepr n) = n := by
  unfold natRepr
  induction n using Nat.strongRecOn with
  | ind n ih =>
    rcases Nat.lt_or_ge n 10 with h | h
    · rw [Nat.toDigits_of_lt_base h, val_digit _ _ h]; omega
    · rw [Nat.toDigits_of_base_le (by omega) (by omega), val_append, ih (n / 10) (by omega), val_digit _ _ (by omega)]
      omega

theorem nat_digits (n : Nat) : (natRepr n).all Char.isDigit = true ∧ natRepr n ≠ [] := by
  refine ⟨?_, ?_⟩
  · rw [List.all_eq_true]
    intro c hc
    exact Nat.isDigit_of_mem_toDigits (by omega) (by omega) hc
  · unfold natRepr
    rcases Nat.lt_or_ge n 10 with h | h
    · rw [Nat.toDigits_of_lt_base h]; simp
    · rw [Nat.toDigits_of_base_le (by omega) (by omega)]; simp

theorem frac_digits (f n : Nat) : (fracDigits f n).all Char.isDigit = true ∧ (fracDigits f n).length = f := by
  induction f generalizing n with
  | zero => exact ⟨rfl, rfl⟩
  | succ f ih =>
    obtain ⟨h1, h2⟩ := ih (n / 10)
    unfold fracDigits
    rw [List.all_append, h1, List.length_append, h2]
    exact ⟨by simp [(digitChar_val (n % 10) (by omega)).2], rfl⟩

theorem val_frac (f n a : Nat) : val a (fracDigits f n) = a * 10 ^ f + n % 10 ^ f := by
  induction f generalizing n with
  | zero => simp [fracDigits, val, Nat.mod_one]
  | succ f ih =>
    unfold fracDigits
    rw [val_append, ih, val_digit _ _ (by omega), Nat.pow_succ']
    have : n % (10 * 10 ^ f) = n % 10 + 10 * (n / 10 % 10 ^ f) := Nat.mod_mul
    rw [this]
    ring

/-- Rounding to the nearest integer. -/
theorem round_bound (n d : Nat) (hd : 0 < d) : 2 * n ≤ 2 * d * roundHalfEven n d + d ∧ 2 * d * roundHalfEven n d ≤ 2 * n + d := by
  have h := Nat.div_add_mod n d
  have h2 := Nat.mod_lt n hd
  unfold roundHalfEven
  have e : 2 * d * (n / d) = 2 * (d * (n / d)) := by ring
  have e' : 2 * d * (n / d + 1) = 2 * (d * (n / d)) + 2 * d := by ring
  split
  · rw [e]; omega
  · split
    · rw [e']; omega
    · split
      · rw [e]; omega
      · rw [e']; omega

/-- Blanks before a text that does not start with one. -/
theorem drop_blanks (w : Nat) (t : Txt) (h : t.head? ≠ some ' ') : (rjust w t).dropWhile (· == ' ') = t := by
  unfold rjust
  induction w - t.length with
  | zero =>
    cases t with
    | nil => rfl
    | cons c cs =>
      have : c ≠ ' ' := by simpa using h
      simp [List.dropWhile_cons, this]
  | succ m ih => simpa [List.replicate_succ, List.dropWhile_cons] using ih

theorem digits_no {t : Txt} (h : t.all Char.isDigit = true) (c : Char) (hc : c.isDigit = false) : c ∉ t := by
  intro hm
  rw [List.all_eq_true] at h
  rw [h c hm] at hc
  cases hc

theorem takeWhile_all {t : Txt} (h : '.' ∉ t) (s : Txt) : (t ++ s).takeWhile (· != '.') = t ++ s.takeWhile (· != '.') ∧
    (t ++ s).dropWhile (· != '.') = s.dropWhile (· != '.') := by
  induction t with
  | nil => exact ⟨rfl, rfl⟩
  | cons c cs ih =>
    have hc : c ≠ '.' := fun e => h (by simp [e])
    obtain ⟨i1, i2⟩ := ih (fun e => h (by simp [e]))
    simp [List.takeWhile_cons, List.dropWhile_cons, hc, i1, i2]

theorem readNat_digits {t : Txt} (h : t.all Char.isDigit = true) (h0 : t ≠ []) : readNat t = some (val 0 t) := by
  unfold readNat
  rw [if_pos ⟨h0, h⟩]
  rfl

/-- Text of the rounded number. -/
theorem fixed_head (d : Nat) (x : Rat) : (fixedRepr d x).head? ≠ some ' ' ∧ fixedRepr d x ≠ ['n', 'a', 'n'] ∧
    (∀ c ∈ fixedRepr d x, c.isDigit = true ∨ c = '-' ∨ c = '.') := by
  have h3 : ∀ c ∈ fixedRepr d x, c.isDigit = true ∨ c = '-' ∨ c = '.' := by
    intro c hc
    unfold fixedRepr at hc
    dsimp only at hc
    rcases List.mem_append.1 hc with hc | hc
    · rcases List.mem_append.1 hc with hc | hc
      · split at hc
        · exact .inr (.inl (by simpa using hc))
        · simp at hc
      · exact .inl (List.all_eq_true.1 (nat_digits _).1 c hc)
    · split at hc
      · simp at hc
      · rcases List.mem_cons.1 hc with hc | hc
        · exact .inr (.inr hc)
        · exact .inl (List.all_eq_true.1 (frac_digits _ _).1 c hc)
  refine ⟨?_, ?_, h3⟩
  · intro h
    have := h3 ' ' (List.mem_of_mem_head? h)
    revert this; decide
  · intro h
    have := h3 'n' (by rw [h]; simp)
    revert this; decide

theorem readFixed_fixed (w d : Nat) (x : Rat) : ∃ y, readFixed (rjust w (fixedRepr d x)) = some y ∧ RoundedTo d x y := by
  obtain ⟨h1, -, -⟩ := fixed_head d x
  set n := roundHalfEven (x.num.natAbs * 10 ^ d) x.den with hn
  have hsign : readSign (fixedRepr d x) = (decide (x < 0), natRepr (n / 10 ^ d) ++ (if d = 0 then [] else '.' :: fracDigits d n)) := by
    unfold fixedRepr
    dsimp only
    rw [← hn]
    by_cases hx : x < 0
    · simp [hx, readSign]
    · obtain ⟨g1, g2⟩ := nat_digits (n / 10 ^ d)
      cases hr : natRepr (n / 10 ^ d) with
      | nil => exact absurd hr g2
      | cons c cs =>
        have : c ≠ '-' := by
          rintro rfl
          rw [hr] at g1
          simp at g1
        simp only [hx, if_false, List.nil_append, List.cons_append, decide_false]
        unfold readSign
        split
        · rename_i heq
          injection heq with a b
          exact absurd a this
        · rfl
  have hno : '.' ∉ natRepr (n / 10 ^ d) := digits_no (nat_digits _).1 '.' (by decide)
  obtain ⟨t1, t2⟩ := takeWhile_all hno (if d = 0 then [] else '.' :: fracDigits d n)
  have hval : readFixed (rjust w (fixedRepr d x)) = some ((if decide (x < 0) = true then -1 else 1) * ((n / 10 ^ d : Nat) + ((n % 10 ^ d : Nat) : Rat) / 10 ^ d)) := by
    unfold readFixed
    rw [drop_blanks w _ h1, hsign]
    dsimp only
    rw [t1, t2]
    by_cases hd : d = 0
    · subst hd
      simp only [if_true, List.takeWhile_nil, List.append_nil, List.dropWhile_nil, List.drop_nil]
      rw [readNat_digits (nat_digits _).1 (nat_digits _).2, val_nat]
      simp [Nat.mod_one]
    · rw [if_neg hd]
      have e1 : ('.' :: fracDigits d n).takeWhile (· != '.') = [] := by simp
      have e2 : (('.' :: fracDigits d n).dropWhile (· != '.')).drop 1 = fracDigits d n := by simp
      rw [e1, e2, List.append_nil, readNat_digits (nat_digits _).1 (nat_digits _).2, val_nat]
      obtain ⟨f1, f2⟩ := frac_digits d n
      have f0 : fracDigits d n ≠ [] := by
        intro h; rw [h] at f2; exact hd f2.symm
      rw [if_neg f0, readNat_digits f1 f0, val_frac, f2]
      simp
  refine ⟨_, hval, ?_⟩
  have hp : (0 : Rat) < 10 ^ d := by positivity
  have hsum : ((n / 10 ^ d : Nat) : Rat) + ((n % 10 ^ d : Nat) : Rat) / 10 ^ d = n / 10 ^ d := by
    have := Nat.div_add_mod n (10 ^ d)
    have h' : ((10 ^ d * (n / 10 ^ d) + n % 10 ^ d : Nat) : Rat) = n := by exact_mod_cast congrArg (Nat.cast (R := Rat)) this
    push_cast at h' ⊢
    rw [eq_div_iff hp.ne', add_mul, div_mul_cancel₀ _ hp.ne', mul_comm]
    exact h'
  rw [hsum]
  obtain ⟨b1, b2⟩ := round_bound (x.num.natAbs * 10 ^ d) x.den x.den_pos
  rw [← hn] at b1 b2
  have hden : (0 : Rat) < x.den := by exact_mod_cast x.den_pos
  have hx : x = x.num / x.den := (Rat.num_div_den x).symm
  have B1 : 2 * ((x.num.natAbs : Rat) * 10 ^ d) ≤ 2 * x.den * n + x.den := by exact_mod_cast b1
  have B2 : 2 * (x.den : Rat) * n ≤ 2 * (x.num.natAbs * 10 ^ d) + x.den := by exact_mod_cast b2
  have key : ∀ s : Rat, (s = 1 ∨ s = -1) → x = s * ((x.num.natAbs : Rat) / x.den) →
      |s * (n / 10 ^ d) - x| * (2 * 10 ^ d) ≤ 1 := by
    intro s hs hxs
    have e : s * (n / 10 ^ d) - x = s * ((n : Rat) / 10 ^ d - (x.num.natAbs : Rat) / x.den) := by
      rw [mul_sub, ← hxs]
    have hs1 : |s| = 1 := by rcases hs with rfl | rfl <;> simp
    rw [e, abs_mul, hs1, one_mul]
    have e2 : (n : Rat) / 10 ^ d - (x.num.natAbs : Rat) / x.den = (2 * x.den * n - 2 * (x.num.natAbs * 10 ^ d)) / (x.den * (2 * 10 ^ d)) := by
      field_simp
    rw [e2, abs_div, abs_of_pos (show (0 : Rat) < x.den * (2 * 10 ^ d) by positivity)]
    rw [div_mul_eq_mul_div, div_le_one (by positivity)]
    have : |2 * (x.den : Rat) * n - 2 * (x.num.natAbs * 10 ^ d)| ≤ x.den := by
      rw [abs_le]; constructor <;> linarith
    exact mul_le_mul_of_nonneg_right this (by positivity)
  by_cases hneg : x < 0
  · simp only [hneg, decide_true, if_true]
    refine ⟨key (-1) (.inr rfl) ?_, -(n : Int), by push_cast; ring⟩
    have hnum : x.num < 0 := Rat.num_neg.2 hneg
    have : ((x.num.natAbs : Int) : Rat) = -(x.num : Rat) := by
      rw [show (x.num.natAbs : Int) = -x.num by omega]; push_cast; ring
    have h2 : ((x.num.natAbs : Nat) : Rat) = -(x.num : Rat) := by rw [← this]; exact (Int.cast_natCast _).symm
    rw [h2]
    conv_lhs => rw [hx]
    ring
  · simp only [hneg, decide_false, Bool.false_eq_true, if_false]
    refine ⟨key 1 (.inl rfl) ?_, (n : Int), by push_cast; ring⟩
    have hnum : 0 ≤ x.num := Rat.num_nonneg.2 (not_lt.1 hneg)
    have : ((x.num.natAbs : Int) : Rat) = (x.num : Rat) := by
      rw [show (x.num.natAbs : Int) = x.num by omega]
    have h2 : ((x.num.natAbs : Nat) : Rat) = (x.num : Rat) := by rw [← this]; exact (Int.cast_natCast _).symm
    rw [h2, one_mul]
    exact hx

theorem int_fixed (t : Int) : intRepr t = fixedRepr 0 (t : Rat) := by
  unfold fixedRepr intRepr
  have : roundHalfEven ((t : Rat).num.natAbs * 10 ^ 0) (t : Rat).den = t.natAbs := by
    simp [roundHalfEven, Nat.mod_one]
  dsimp only
  rw [this]
  by_cases h : t < 0
  · have h' : (t : Rat) < 0 := by exact_mod_cast h
    simp [h]
  · have h' : ¬ (t : Rat) < 0 := by exact_mod_cast h
    simp [h]

theorem readFixed_int (w : Nat) (t : Int) : readFixed (rjust w (intRepr t)) = some (t : Rat) := by
  rw [int_fixed]
  obtain ⟨y, h1, h2, n, h3⟩ := readFixed_fixed w 0 (t : Rat)
  rw [h1]
  have h3 : y = n := by simpa using h3
  rw [h3] at h2 ⊢
  have h2 : |((n - t : Int) : Rat)| * 2 ≤ 1 := by simpa using h2
  have h2 : |n - t| * 2 ≤ 1 := by exact_mod_cast h2
  have h4 : |n - t| = 0 := by
    have := abs_nonneg (n - t)
    omega
  have h5 : n - t = 0 := abs_eq_zero.1 h4
  rw [show n = t by omega]

theorem rjust_mem {w : Nat} {t : Txt} {c : Char} (h : c ∈ rjust w t) : c = ' ' ∨ c ∈ t := by
  unfold rjust at h
  rcases List.mem_append.1 h with h | h
  · exact .inl (List.mem_replicate.1 h).2
  · exact .inr h

/-! ## Fields -/

theorem splitAt_ne (sep : Char) (t : Txt) : splitAt sep t ≠ [] := by
  cases t with
  | nil => simp [splitAt]
  | cons c cs => unfold splitAt; split; · simp
                 · split <;> simp

theorem splitAt_one (sep : Char) {t : Txt} (h : sep ∉ t) : splitAt sep t = [t] := by
  induction t with
  | nil => rfl
  | cons c cs ih =>
    have hc : c ≠ sep := fun e => h (by simp [e])
    unfold splitAt
    rw [if_neg hc, ih (fun e => h (by simp [e]))]

theorem splitAt_sep (sep : Char) {t : Txt} (h : sep ∉ t) (s : Txt) : splitAt sep (t ++ sep :: s) = t :: splitAt sep s := by
  induction t with
  | nil => simp [splitAt]
  | cons c cs ih =>
    have hc : c ≠ sep := fun e => h (by simp [e])
    rw [List.cons_append]
    conv_lhs => unfold splitAt
    rw [if_neg hc, ih (fun e => h (by simp [e]))]

theorem splitAt_join (sep : Char) : ∀ (l : List Txt), l ≠ [] → (∀ t ∈ l, sep ∉ t) → splitAt sep (join [sep] l) = l
  | [], h, _ => absurd rfl h
  | [t], _, h => by unfold join; exact splitAt_one sep (h t (by simp))
  | t :: u :: l, _, h => by
    unfold join
    rw [List.append_assoc, List.singleton_append, splitAt_sep sep (h t (by simp)), splitAt_join sep (u :: l) (by simp)
      (fun x hx => h x (by simp [hx]))]

theorem readLines_flat : ∀ (l : List Txt), (∀ t ∈ l, '\n' ∉ t) → readLines (l.flatMap (fun t => t ++ ['\n'])) = l := by
  intro l h
  unfold readLines
  have : splitAt '\n' (l.flatMap (fun t => t ++ ['\n'])) = l ++ [[]] := by
    induction l with
    | nil => rfl
    | cons t l ih =>
      rw [List.flatMap_cons, List.append_assoc, List.singleton_append, splitAt_sep _ (h t (by simp)), ih (fun x hx => h x (by simp [hx]))]
      rfl
  rw [this]
  simp

end ReadText
end Verif
