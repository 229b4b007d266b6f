import Verif.Spec.Double
import Mathlib.Data.Int.Log
import Mathlib.Algebra.Order.Field.Power
import Mathlib.Algebra.Order.Ring.Pow
import Mathlib.Algebra.Order.Round
import Mathlib.Algebra.Order.Floor.Ring
import Mathlib.Data.Rat.Floor
import Mathlib.Tactic.Linarith
import Mathlib.Tactic.Positivity
import Mathlib.Tactic.FieldSimp
import Mathlib.Tactic.Ring
import Mathlib.Tactic.NormNum

/-!
# Facts about rounding to double precision
-/

namespace Verif
namespace Spec

theorem double_zero : Double 0 := ⟨0, 0, by norm_num, by norm_num, by norm_num⟩

theorem Double.neg {x : Rat} (h : Double x) : Double (-x) := by
  obtain ⟨m, e, h1, h2, rfl⟩ := h
  exact ⟨-m, e, by rwa [abs_neg], h2, by push_cast; ring⟩

/-- Integers over powers of two. -/
theorem double_div (m : Int) (k : Nat) (hm : |m| ≤ 2 ^ 53) (hk : k ≤ 1074) : Double (m / 2 ^ k) := by
  refine ⟨m, -k, hm, by omega, ?_⟩
  rw [zpow_neg, zpow_natCast, div_eq_mul_inv]

theorem double_int (m : Int) (hm : |m| ≤ 2 ^ 53) : Double m := by
  have := double_div m 0 hm (by omega)
  simpa using this

/-- The nearest multiple of `2 ^ q`. -/
theorem near_multiple (x : Rat) (q : Int) : |(round (x / 2 ^ q) : Rat) * 2 ^ q - x| ≤ 2 ^ q / 2 := by
  have hp : (0 : Rat) < 2 ^ q := by positivity
  have h := abs_sub_round (x / 2 ^ q)
  have e : (round (x / 2 ^ q) : Rat) * 2 ^ q - x = -((x / 2 ^ q - round (x / 2 ^ q)) * 2 ^ q) := by
    field_simp
    ring
  rw [e, abs_neg, abs_mul, abs_of_pos hp]
  calc _ ≤ 1 / 2 * 2 ^ q := mul_le_mul_of_nonneg_right h hp.le
    _ = _ := by ring

/-- A double near each number that is not too small. -/
theorem exists_near (x : Rat) (hx : (2 : Rat) ^ (-1022 : Int) ≤ |x|) : ∃ z, Double z ∧ |z - x| ≤ ulp * |x| := by
  have h0 : 0 < |x| := lt_of_lt_of_le (by positivity) hx
  obtain ⟨e, he1, he2⟩ : ∃ e : Int, (2 : Rat) ^ e ≤ |x| ∧ |x| < 2 ^ (e + 1) := by
    refine ⟨Int.log 2 |x|, ?_, ?_⟩
    · have := Int.zpow_log_le_self (b := 2) (by norm_num) h0; exact_mod_cast this
    · have := Int.lt_zpow_succ_log_self (b := 2) (by norm_num) |x|; exact_mod_cast this
  have he : -1022 ≤ e := by
    by_contra hlt
    have : (2 : Rat) ^ (e + 1) ≤ 2 ^ (-1022 : Int) := zpow_le_zpow_right₀ (by norm_num) (by omega)
    linarith
  have hp : (0 : Rat) < 2 ^ (e - 52) := by positivity
  have hn := near_multiple x (e - 52)
  refine ⟨(round (x / 2 ^ (e - 52)) : Rat) * 2 ^ (e - 52), ⟨round (x / 2 ^ (e - 52)), e - 52, ?_, by omega, rfl⟩, ?_⟩
  · have h2 : |x| / 2 ^ (e - 52) < 2 ^ 53 := by
      rw [div_lt_iff₀ hp]
      have : (2 : Rat) ^ (e + 1) = 2 ^ 53 * 2 ^ (e - 52) := by
        rw [show (2 : Rat) ^ 53 = 2 ^ (53 : Int) by norm_num, ← zpow_add₀ (by norm_num)]
        congr 1; ring
      linarith
    have h3 : |x / 2 ^ (e - 52)| < 2 ^ 53 := by rwa [abs_div, abs_of_pos hp]
    have h4 := abs_sub_round (x / 2 ^ (e - 52))
    have h5 : |(round (x / 2 ^ (e - 52)) : Rat)| < 2 ^ 53 + 1 := by
      rw [abs_le] at h4; rw [abs_lt] at h3 ⊢; constructor <;> linarith
    have : |round (x / 2 ^ (e - 52))| < 2 ^ 53 + 1 := by exact_mod_cast h5
    omega
  · refine hn.trans ?_
    have : (2 : Rat) ^ (e - 52) / 2 = ulp * 2 ^ e := by
      rw [zpow_sub₀ (by norm_num)]; unfold ulp; norm_num; ring
    rw [this]
    exact mul_le_mul_of_nonneg_left he1 (by unfold ulp; norm_num)

namespace Nearest
variable {rnd : Rat → Rat}

/-- Doubles are not changed. -/
theorem exact (h : Nearest rnd) {x : Rat} (hx : Double x) : rnd x = x := by
  have := h.near x x hx
  rw [sub_self, abs_zero] at this
  have := abs_nonpos_iff.1 this
  linarith

theorem zero (h : Nearest rnd) : rnd 0 = 0 := h.exact double_zero

/-- Relative error. -/
theorem error (h : Nearest rnd) {x : Rat} (hx : x = 0 ∨ (2 : Rat) ^ (-1022 : Int) ≤ |x|) : |rnd x - x| ≤ ulp * |x| := by
  rcases hx with rfl | hx
  · rw [h.zero]; simp
  · obtain ⟨z, hz, hz2⟩ := exists_near x hx
    exact (h.near x z hz).trans hz2

/-- The error for all numbers; the second term is half of the smallest double. -/
theorem error_all (h : Nearest rnd) (x : Rat) : |rnd x - x| ≤ ulp * |x| + 2 ^ (-1075 : Int) := by
  have hu : 0 ≤ ulp * |x| := mul_nonneg (by unfold ulp; norm_num) (abs_nonneg x)
  rcases le_or_gt ((2 : Rat) ^ (-1022 : Int)) |x| with hx | hx
  · have := h.error (Or.inr hx)
    have h2 : (0 : Rat) ≤ 2 ^ (-1075 : Int) := by positivity
    linarith
  · have hn := near_multiple x (-1074)
    have hp : (0 : Rat) < 2 ^ (-1074 : Int) := by positivity
    have hd : Double ((round (x / 2 ^ (-1074 : Int)) : Rat) * 2 ^ (-1074 : Int)) := by
      refine ⟨_, -1074, ?_, le_refl _, rfl⟩
      have h1 := abs_sub_round (x / 2 ^ (-1074 : Int))
      have h2 : |x / 2 ^ (-1074 : Int)| < 2 ^ 52 := by
        rw [abs_div, abs_of_pos hp, div_lt_iff₀ hp]
        have e : (2 : Rat) ^ 52 * 2 ^ (-1074 : Int) = 2 ^ (-1022 : Int) := by
          rw [show (2 : Rat) ^ 52 = 2 ^ (52 : Int) by norm_num, ← zpow_add₀ (by norm_num)]; norm_num
        rwa [e]
      have h3 : |(round (x / 2 ^ (-1074 : Int)) : Rat)| < 2 ^ 52 + 1 := by
        rw [abs_le] at h1; rw [abs_lt] at h2 ⊢; constructor <;> linarith
      have : |round (x / 2 ^ (-1074 : Int))| < 2 ^ 52 + 1 := by exact_mod_cast h3
      omega
    have h2 := (h.near x _ hd).trans hn
    have e : (2 : Rat) ^ (-1074 : Int) / 2 = 2 ^ (-1075 : Int) := by
      rw [show (-1074 : Int) = -1075 + 1 by norm_num, zpow_add₀ (by norm_num)]; norm_num
    rw [e] at h2
    linarith

/-- The absolute error of numbers up to a bound. -/
theorem error_le (h : Nearest rnd) {x b : Rat} (hx : |x| ≤ b) : |rnd x - x| ≤ ulp * b + 1 / 2 ^ 1000 := by
  have h1 := h.error_all x
  have h2 : ulp * |x| ≤ ulp * b := mul_le_mul_of_nonneg_left hx (by unfold ulp; norm_num)
  have h3 : (2 : Rat) ^ (-1075 : Int) ≤ 1 / 2 ^ 1000 := by
    rw [one_div, ← zpow_natCast, ← zpow_neg]
    exact zpow_le_zpow_right₀ (by norm_num) (by norm_num)
  linarith

/-- Rounding is monotone. -/
theorem mono (h : Nearest rnd) {x y : Rat} (hxy : x ≤ y) : rnd x ≤ rnd y := by
  rcases hxy.eq_or_lt with rfl | hlt
  · exact le_refl _
  · by_contra hc
    have hc := not_le.1 hc
    have h1 := h.near x _ (h.double y)
    have h2 := h.near y _ (h.double x)
    rcases abs_cases (rnd x - x) with ⟨a1, b1⟩ | ⟨a1, b1⟩ <;> rcases abs_cases (rnd y - x) with ⟨a2, b2⟩ | ⟨a2, b2⟩ <;>
      rcases abs_cases (rnd y - y) with ⟨a3, b3⟩ | ⟨a3, b3⟩ <;> rcases abs_cases (rnd x - y) with ⟨a4, b4⟩ | ⟨a4, b4⟩ <;> linarith

end Nearest

/-! ## Accumulated relative errors -/

/-- `y` is `x` after `n` roundings: their quotient is between `(1 - ulp) ^ n` and its inverse. -/
def Near (n : Nat) (x y : Rat) : Prop := ∃ t : Rat, y = x * t ∧ (1 - ulp) ^ n ≤ t ∧ t * (1 - ulp) ^ n ≤ 1

theorem ulp_pos : (0 : Rat) < 1 - ulp := by unfold ulp; norm_num
theorem ulp_le : (1 : Rat) - ulp ≤ 1 := by unfold ulp; norm_num

theorem Near.refl (x : Rat) : Near 0 x x := ⟨1, by ring, by simp, by simp⟩

theorem Near.of_eq {x y : Rat} (h : x = y) : Near 0 x y := h ▸ Near.refl x

theorem Near.weaken {n m : Nat} {x y : Rat} (h : Near n x y) (hnm : n ≤ m) : Near m x y := by
  obtain ⟨t, h1, h2, h3⟩ := h
  have hp : (1 - ulp) ^ m ≤ (1 - ulp) ^ n := pow_le_pow_of_le_one ulp_pos.le ulp_le hnm
  have ht : 0 < t := lt_of_lt_of_le (pow_pos ulp_pos n) h2
  exact ⟨t, h1, hp.trans h2, (mul_le_mul_of_nonneg_left hp ht.le).trans h3⟩

theorem Near.trans {n m : Nat} {x y z : Rat} (h : Near n x y) (h' : Near m y z) : Near (n + m) x z := by
  obtain ⟨t, rfl, h2, h3⟩ := h
  obtain ⟨s, rfl, h5, h6⟩ := h'
  have hn := pow_pos ulp_pos n
  have hm := pow_pos ulp_pos m
  have ht : 0 < t := lt_of_lt_of_le hn h2
  have hs : 0 < s := lt_of_lt_of_le hm h5
  refine ⟨t * s, by ring, ?_, ?_⟩
  · rw [pow_add]; exact mul_le_mul h2 h5 hm.le ht.le
  · rw [pow_add]
    calc _ = (t * (1 - ulp) ^ n) * (s * (1 - ulp) ^ m) := by ring
      _ ≤ 1 * 1 := mul_le_mul h3 h6 (by positivity) (by norm_num)
      _ = 1 := by norm_num

theorem Near.mul {n m : Nat} {x y x' y' : Rat} (h : Near n x y) (h' : Near m x' y') : Near (n + m) (x * x') (y * y') := by
  obtain ⟨t, rfl, h2, h3⟩ := h
  obtain ⟨s, rfl, h5, h6⟩ := h'
  have hn := pow_pos ulp_pos n
  have hm := pow_pos ulp_pos m
  have ht : 0 < t := lt_of_lt_of_le hn h2
  have hs : 0 < s := lt_of_lt_of_le hm h5
  refine ⟨t * s, by ring, ?_, ?_⟩
  · rw [pow_add]; exact mul_le_mul h2 h5 hm.le ht.le
  · rw [pow_add]
    calc _ = (t * (1 - ulp) ^ n) * (s * (1 - ulp) ^ m) := by ring
      _ ≤ 1 * 1 := mul_le_mul h3 h6 (by positivity) (by norm_num)
      _ = 1 := by norm_num

theorem Near.inv {n : Nat} {x y : Rat} (h : Near n x y) : Near n x⁻¹ y⁻¹ := by
  obtain ⟨t, rfl, h2, h3⟩ := h
  have hn := pow_pos ulp_pos n
  have ht : 0 < t := lt_of_lt_of_le hn h2
  refine ⟨t⁻¹, by rw [mul_inv], ?_, ?_⟩
  · rw [le_inv_comm₀ hn ht, ← one_div, le_div_iff₀ hn]; exact h3
  · rw [inv_mul_le_iff₀ ht, mul_one]; exact h2

theorem Near.div {n m : Nat} {x y x' y' : Rat} (h : Near n x y) (h' : Near m x' y') : Near (n + m) (x / x') (y / y') := by
  rw [div_eq_mul_inv, div_eq_mul_inv]
  exact h.mul h'.inv

theorem Near.neg {n : Nat} {x y : Rat} (h : Near n x y) : Near n (-x) (-y) := by
  obtain ⟨t, rfl, h2, h3⟩ := h
  exact ⟨t, by ring, h2, h3⟩

theorem Near.zero_iff {n : Nat} {x y : Rat} (h : Near n x y) : y = 0 ↔ x = 0 := by
  obtain ⟨t, rfl, h2, -⟩ := h
  have ht : 0 < t := lt_of_lt_of_le (pow_pos ulp_pos n) h2
  simp [ht.ne']

/-- The relative error after at most `2 ^ 50` roundings. -/
theorem Near.bound {n : Nat} {x y : Rat} (h : Near n x y) (hn : n ≤ 2 ^ 50) : |y - x| ≤ 2 * n * ulp * |x| := by
  obtain ⟨t, rfl, h2, h3⟩ := h
  have hb : 1 - (n : Rat) * ulp ≤ (1 - ulp) ^ n := by
    have := one_add_mul_le_pow (a := -ulp) (by unfold ulp; norm_num) n
    have e : (1 : Rat) + n * -ulp = 1 - n * ulp := by ring
    rw [e] at this
    have e : (1 : Rat) + -ulp = 1 - ulp := by ring
    rwa [e] at this
  have hnu : (n : Rat) * ulp ≤ 1 / 2 := by
    have : (n : Rat) ≤ 2 ^ 50 := by exact_mod_cast hn
    unfold ulp
    linarith
  have hnn : 0 ≤ (n : Rat) * ulp := by unfold ulp; positivity
  have ht : 0 < t := lt_of_lt_of_le (pow_pos ulp_pos n) h2
  have hlow : 1 - (n : Rat) * ulp ≤ t := hb.trans h2
  have hup : t * (1 - (n : Rat) * ulp) ≤ 1 := (mul_le_mul_of_nonneg_left hb ht.le).trans h3
  have hup2 : t ≤ 1 + 2 * (n * ulp) := by nlinarith
  have e : x * t - x = x * (t - 1) := by ring
  rw [e, abs_mul, mul_comm |x|]
  apply mul_le_mul_of_nonneg_right _ (abs_nonneg x)
  rw [abs_le]
  constructor <;> linarith

theorem Nearest.step {rnd : Rat → Rat} (h : Nearest rnd) {x : Rat} (hx : x = 0 ∨ (2 : Rat) ^ (-1022 : Int) ≤ |x|) : Near 1 x (rnd x) := by
  by_cases h0 : x = 0
  · subst h0; rw [h.zero]; exact (Near.refl 0).weaken (by omega)
  · have he := h.error hx
    have hx0 : 0 < |x| := abs_pos.2 h0
    refine ⟨rnd x / x, by field_simp, ?_⟩
    have h1 : |rnd x / x - 1| ≤ ulp := by
      have : rnd x / x - 1 = (rnd x - x) / x := by field_simp
      rw [this, abs_div, div_le_iff₀ hx0]
      exact he
    rw [abs_le] at h1
    have hu : (0 : Rat) < ulp := by unfold ulp; norm_num
    have hu1 := ulp_pos
    rw [pow_one]
    constructor
    · linarith
    · nlinarith

/-- The same after `n` roundings. -/
theorem Near.round {rnd : Rat → Rat} (h : Nearest rnd) {n : Nat} {x y : Rat} (hn : Near n x y)
    (hy : y = 0 ∨ (2 : Rat) ^ (-1022 : Int) ≤ |y|) : Near (n + 1) x (rnd y) := hn.trans (h.step hy)

/-- A lower bound of the size of a rounded number. -/
theorem Near.large {n : Nat} {x y b : Rat} (h : Near n x y) (hn : n ≤ 2 ^ 50) (hb : b ≤ |x|) : b / 2 ≤ |y| := by
  obtain ⟨t, rfl, h2, h3⟩ := h
  have hb' : 1 - (n : Rat) * ulp ≤ (1 - ulp) ^ n := by
    have := one_add_mul_le_pow (a := -ulp) (by unfold ulp; norm_num) n
    have e : (1 : Rat) + n * -ulp = 1 - n * ulp := by ring
    rw [e] at this
    have e : (1 : Rat) + -ulp = 1 - ulp := by ring
    rwa [e] at this
  have hnu : (n : Rat) * ulp ≤ 1 / 2 := by
    have : (n : Rat) ≤ 2 ^ 50 := by exact_mod_cast hn
    unfold ulp
    linarith
  have ht : 1 / 2 ≤ t := by linarith
  rw [abs_mul, abs_of_pos (by linarith : (0 : Rat) < t)]
  have := abs_nonneg x
  nlinarith

/-! ## A rounding exists -/

theorem halfEven_near (x : Rat) (n : Int) : |(halfEven x : Rat) - x| ≤ |(n : Rat) - x| := by
  have h1 := Int.floor_le x
  have h2 := Int.lt_floor_add_one x
  have key : ∀ m : Int, (m : Rat) ≤ ⌊x⌋ ∨ (⌊x⌋ : Rat) + 1 ≤ m := by
    intro m
    rcases le_or_gt m ⌊x⌋ with h | h
    · left; exact_mod_cast h
    · right; exact_mod_cast h
  unfold halfEven
  dsimp only
  rcases key n with h | h
  · have hn : |(n : Rat) - x| = x - n := by rw [abs_sub_comm]; exact abs_of_nonneg (by linarith)
    rw [hn]
    split
    · rw [abs_le]; constructor <;> linarith
    · split
      · push_cast; rw [abs_le]; constructor <;> linarith
      · split
        · rw [abs_le]; constructor <;> linarith
        · push_cast; rw [abs_le]; constructor <;> linarith
  · have hn : |(n : Rat) - x| = n - x := abs_of_nonneg (by linarith)
    rw [hn]
    split
    · rw [abs_le]; constructor <;> linarith
    · split
      · push_cast; rw [abs_le]; constructor <;> linarith
      · split
        · rw [abs_le]; constructor <;> linarith
        · push_cast; rw [abs_le]; constructor <;> linarith

theorem halfEven_abs (x : Rat) (b : Nat) (h : |x| ≤ b) : |halfEven x| ≤ b := by
  have h0 := halfEven_near x b
  have h1 := halfEven_near x (-b)
  have : |(halfEven x : Rat)| ≤ b := by
    rw [abs_le] at h ⊢
    push_cast at h1
    have a : |((b : Int) : Rat) - x| = b - x := by push_cast; exact abs_of_nonneg (by linarith)
    have c : |(-(b : Rat)) - x| = x + b := by rw [abs_sub_comm, abs_of_nonneg] <;> linarith
    rw [a] at h0
    rw [c] at h1
    have d := le_abs_self ((halfEven x : Rat) - x)
    have e := neg_abs_le ((halfEven x : Rat) - x)
    constructor <;> linarith
  exact_mod_cast this

/-- The IEEE rounding is a rounding to nearest. -/
theorem ieee_nearest : Nearest ieee := by
  constructor
  · intro x
    refine ⟨halfEven (x / 2 ^ lastBit x), lastBit x, ?_, le_max_right _ _, rfl⟩
    refine halfEven_abs _ (2 ^ 53) ?_
    have hp : (0 : Rat) < 2 ^ lastBit x := by positivity
    rw [abs_div, abs_of_pos hp, div_le_iff₀ hp]
    by_cases hx : x = 0
    · subst hx; simp; positivity
    · have h2 := Int.lt_zpow_succ_log_self (b := 2) (R := Rat) (by norm_num) |x|
      have h3 : (2 : Rat) ^ (Int.log 2 |x| + 1) ≤ 2 ^ (53 + lastBit x) :=
        zpow_le_zpow_right₀ (by norm_num) (by have := le_max_left (Int.log 2 |x| - 52) (-1074); unfold lastBit; omega)
      have e : (2 : Rat) ^ (53 + lastBit x) = 2 ^ 53 * 2 ^ lastBit x := by
        rw [zpow_add₀ (by norm_num)]; norm_num
      rw [e] at h3
      exact_mod_cast (h2.le.trans h3)
  · rintro x z ⟨m, e, hm, he, rfl⟩
    have hp : (0 : Rat) < 2 ^ lastBit x := by positivity
    -- the distance to `z` is at least that to a multiple of the last bit
    have hscale : ∀ n : Int, |ieee x - x| ≤ |(n : Rat) * 2 ^ lastBit x - x| := by
      intro n
      have h := halfEven_near (x / 2 ^ lastBit x) n
      have h1 : ieee x - x = ((halfEven (x / 2 ^ lastBit x) : Rat) - x / 2 ^ lastBit x) * 2 ^ lastBit x := by
        unfold ieee; field_simp
      have h2 : (n : Rat) * 2 ^ lastBit x - x = ((n : Rat) - x / 2 ^ lastBit x) * 2 ^ lastBit x := by field_simp
      rw [h1, h2, abs_mul, abs_mul, abs_of_pos hp]
      exact mul_le_mul_of_nonneg_right h hp.le
    by_cases hle : lastBit x ≤ e
    · -- `z` is itself a multiple
      have h := hscale (m * 2 ^ (e - lastBit x).toNat)
      have e1 : ((m * 2 ^ (e - lastBit x).toNat : Int) : Rat) * 2 ^ lastBit x = m * 2 ^ e := by
        push_cast
        rw [mul_assoc, ← zpow_natCast, ← zpow_add₀ (by norm_num)]
        congr 2
        omega
      rwa [e1] at h
    · -- `z` is below the binade of `x`
      have hlt : e < lastBit x := by omega
      have hl : lastBit x = Int.log 2 |x| - 52 := by
        unfold lastBit at hlt ⊢; omega
      by_cases hx : x = 0
      · have h := hscale 0
        subst hx
        simp only [Int.cast_zero, zero_mul, sub_zero, abs_zero] at h
        rw [sub_zero]
        exact h.trans (abs_nonneg _)
      have hlog : (2 : Rat) ^ Int.log 2 |x| ≤ |x| := by
        have := Int.zpow_log_le_self (b := 2) (by norm_num) (abs_pos.2 hx); exact_mod_cast this
      have htop : (2 : Rat) ^ Int.log 2 |x| = 2 ^ 52 * 2 ^ lastBit x := by
        rw [hl, show (2 : Rat) ^ 52 = 2 ^ (52 : Int) by norm_num, ← zpow_add₀ (by norm_num)]
        congr 1; ring
      have hz : |(m : Rat) * 2 ^ e| ≤ 2 ^ Int.log 2 |x| := by
        rw [abs_mul, abs_of_pos (by positivity : (0 : Rat) < 2 ^ e)]
        have hm' : |(m : Rat)| ≤ 2 ^ 53 := by exact_mod_cast hm
        calc _ ≤ (2 : Rat) ^ 53 * 2 ^ e := mul_le_mul_of_nonneg_right hm' (by positivity)
          _ = 2 ^ (53 + e) := by rw [zpow_add₀ (by norm_num)]; norm_num
          _ ≤ _ := zpow_le_zpow_right₀ (by norm_num) (by omega)
      rw [abs_le] at hz
      rcases lt_or_gt_of_ne hx with hneg | hpos
      · have h := hscale (-(2 ^ 52))
        rw [abs_of_neg hneg] at hlog hz htop
        refine h.trans ?_
        have e2 : ((-(2 ^ 52) : Int) : Rat) * 2 ^ lastBit x = -2 ^ Int.log 2 (-x) := by rw [htop]; push_cast; ring
        rw [e2, abs_of_nonneg (by linarith), abs_of_nonneg (by linarith)]
        linarith
      · have h := hscale (2 ^ 52)
        rw [abs_of_pos hpos] at hlog hz htop
        refine h.trans ?_
        have e2 : (((2 ^ 52) : Int) : Rat) * 2 ^ lastBit x = 2 ^ Int.log 2 x := by rw [htop]; push_cast; ring
        rw [e2, abs_of_nonpos (by linarith), abs_of_nonpos (by linarith)]
        linarith

end Spec
end Verif
