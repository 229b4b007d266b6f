import Verif.Lemmas.Base
import Verif.Lemmas.Pack
import Verif.Model.Msm
import Verif.Spec.MsmObj

/-!
# Bare decoding of multiple signal messages
-/

namespace Verif
open Spec Bits Msm

theorem bitCount_zero : bitCount 0 = 0 := by rw [bitCount]; rfl

theorem bitCount_double (n : Nat) (b : Bool) : bitCount (n * 2 + b.toNat) = bitCount n + b.toNat := by
  by_cases h : n * 2 + b.toNat = 0
  · have h1 : n = 0 := by omega
    have h2 : b.toNat = 0 := by omega
    rw [h, h1, h2, bitCount_zero]
  · rw [bitCount, if_neg h]
    have hb : b.toNat < 2 := by cases b <;> simp
    rw [show (n * 2 + b.toNat) % 2 = b.toNat by omega, show (n * 2 + b.toNat) / 2 = n by omega, Nat.add_comm]

theorem bitCount_maskInt (l : List Bool) : bitCount (maskInt l) = l.count true := by
  induction l with
  | nil => exact bitCount_zero
  | cons b l ih =>
    rw [maskInt, show b.toNat + 2 * maskInt l = maskInt l * 2 + b.toNat by omega, bitCount_double, ih]
    cases b <;> simp

theorem maskInt_eq (l : List Bool) : maskInt l = natOfBits l.reverse := by
  induction l with
  | nil => rfl
  | cons b l ih =>
    rw [maskInt, List.reverse_cons, natOfBits_append, ← ih]
    simp [natOfBits]; omega

theorem maskInt_zero (l : List Bool) : maskInt l = 0 ↔ l.count true = 0 := by
  induction l with
  | nil => simp [maskInt]
  | cons b l ih =>
    rw [maskInt]
    cases b <;> simp [ih]

theorem revbitu_mask (l : List Bool) (n : Nat) (hn : l.length = n) (h : n ≤ 128) :
    revbitu (natOfBits l) n = .ok (maskInt l) := by
  unfold revbitu MAX_BIT_WIDTH
  rw [if_neg (by omega)]
  congr 1
  subst hn
  rw [maskInt_eq, Nat.shiftRight_zero]
  apply bitsOfNat_inj (w := l.length) (revLoop_lt _ _)
  · have := natOfBits_lt l.reverse; rwa [List.length_reverse] at this
  · rw [bitsOfNat_revLoop, bitsOfNat_natOfBits]
    have := bitsOfNat_natOfBits l.reverse
    rw [List.length_reverse] at this
    exact this.symm

/-! ## Columns -/

/-- `n` unsigned fields of width `w` from position `o`. -/
def natCol (bits : List Bool) (o w n : Nat) : List Nat := (List.range n).map (fun i => natOfBits (slice bits (o + i * w) w))

/-- `n` signed fields of width `w` from position `o`. -/
def intCol (bits : List Bool) (o w n : Nat) : List Int := (List.range n).map (fun i => intOfBits (slice bits (o + i * w) w))

/-- Column that is absent if the width is 0. -/
def colU (bits : List Bool) (o w n : Nat) : List Nat := natCol bits o w (MsmData.colLen w n)

/-- Column that is absent if the width is 0. -/
def colS (bits : List Bool) (o w n : Nat) : List Int := intCol bits o w (MsmData.colLen w n)

theorem mapM_range_ok {α : Type} (n : Nat) (f : Nat → Py α) (g : Nat → α) (h : ∀ i, i < n → f i = .ok (g i)) :
    tupleOfRange n f = .ok ((List.range n).map g) := by
  unfold tupleOfRange
  have : ∀ l : List Nat, (∀ i ∈ l, f i = .ok (g i)) → l.mapM f = .ok (l.map g) := by
    intro l
    induction l with
    | nil => intro _; rfl
    | cons x l ih =>
      intro hl
      rw [List.mapM_cons, hl x (by simp), ok_bind, ih (fun i hi => hl i (by simp [hi])), ok_bind]
      rfl
  exact this _ (fun i hi => h i (by simpa using hi))

theorem col_bound {o w n i m : Nat} (h : o + w * n ≤ m) (hi : i < n) : o + i * w + w ≤ m := by
  have : (i + 1) * w ≤ n * w := Nat.mul_le_mul_right w hi
  rw [Nat.add_mul] at this
  rw [Nat.mul_comm] at h
  omega

theorem tupleU_ok {buf : Bytes} {o w n : Nat} (h1 : 1 ≤ w) (h2 : w ≤ 128) (h3 : o + w * n ≤ 8 * buf.length) :
    tupleU buf o w n = .ok (natCol (bitsOf buf) o w n) :=
  mapM_range_ok _ _ _ (fun i hi => gbu_ok h1 h2 (by have := col_bound h3 hi; omega))

theorem tupleS_ok {buf : Bytes} {o w n : Nat} (h1 : 1 ≤ w) (h2 : w ≤ 128) (h3 : o + w * n ≤ 8 * buf.length) :
    tupleS buf o w n = .ok (intCol (bitsOf buf) o w n) :=
  mapM_range_ok _ _ _ (fun i hi => gbs_ok h1 h2 (by have := col_bound h3 hi; omega))

/-- The values of a column in the bit string. -/
def colAt (f : Spec.Field) (bits : List Bool) (o n : Nat) : List Int :=
  (List.range n).map (fun i => f.value (slice bits (o + i * f.width) f.width))

theorem width_col {α : Type} (f : Spec.Field) (l : List α) : layoutWidth (l.map (fun _ => f)) = f.width * l.length := by
  induction l with
  | nil => simp [layoutWidth]
  | cons a l ih => rw [List.map_cons, layoutWidth, ih, List.length_cons, Nat.mul_add]; omega

theorem readAt_col {α : Type} (f : Spec.Field) (hk : f.kind ≠ .res) (l : List α) (bits : List Bool) (o : Nat) :
    readAt (l.map (fun _ => f)) bits o = colAt f bits o l.length := by
  induction l generalizing o with
  | nil => rfl
  | cons a l ih =>
    rw [List.map_cons, readAt, if_neg hk, ih, colAt, colAt, List.length_cons, List.range_succ_eq_map, List.map_cons,
      List.map_map]
    congr 1
    · simp
    · apply List.map_congr_left
      intro i _
      simp only [Function.comp]
      congr 2
      rw [Nat.succ_mul]; omega

theorem filter_col {α : Type} (f : Spec.Field) (hk : f.kind ≠ .res) (l : List α) :
    ((l.map (fun _ => f)).filter (fun f => f.kind ≠ .res)).length = l.length := by
  induction l with
  | nil => rfl
  | cons a l ih =>
    rw [List.map_cons, List.filter_cons_of_pos (by simpa using hk), List.length_cons, ih]
    rfl

/-- The columns are found in the bit string one after the other. -/
def ColsAt : List (Spec.Field × List Int) → List Bool → Nat → Prop
  | [], _, _ => True
  | c :: cs, bits, o => c.2 = colAt c.1 bits o c.2.length ∧ ColsAt cs bits (o + c.1.width * c.2.length)

theorem cols_iff (cs : List (Spec.Field × List Int)) (hk : ∀ c ∈ cs, c.1.kind ≠ .res) (bits : List Bool) (o : Nat) :
    readAt (cs.flatMap (fun c => c.2.map (fun _ => c.1))) bits o = cs.flatMap (fun c => c.2) ↔ ColsAt cs bits o := by
  induction cs generalizing o with
  | nil => simp [ColsAt, readAt]
  | cons c cs ih =>
    rw [List.flatMap_cons, List.flatMap_cons, readAt_split (by rw [filter_col _ (hk c (by simp))]),
      ih (fun c hc => hk c (by simp [hc])), readAt_col _ (hk c (by simp)), width_col, ColsAt]
    constructor
    · rintro ⟨h1, h2⟩; exact ⟨h1.symm, h2⟩
    · rintro ⟨h1, h2⟩; exact ⟨h1.symm, h2⟩

theorem width_cols (cs : List (Spec.Field × List Int)) :
    layoutWidth (cs.flatMap (fun c => c.2.map (fun _ => c.1))) = (cs.map (fun c => c.1.width * c.2.length)).sum := by
  induction cs with
  | nil => rfl
  | cons c cs ih => rw [List.flatMap_cons, layoutWidth_append, width_col, ih, List.map_cons, List.sum_cons]

theorem colAt_U (w : Nat) (bits : List Bool) (o n : Nat) : colAt (U w) bits o n = MsmData.ints (natCol bits o w n) := by
  simp only [colAt, natCol, MsmData.ints, List.map_map]; rfl

theorem colAt_S (w : Nat) (bits : List Bool) (o n : Nat) : colAt (S w) bits o n = intCol bits o w n := rfl

theorem ints_inj {a b : List Nat} : MsmData.ints a = MsmData.ints b ↔ a = b := by
  constructor
  · intro h
    exact List.map_injective_iff.2 (fun x y h => by simpa using h) h
  · rintro rfl; rfl

@[simp] theorem ints_length (a : List Nat) : (MsmData.ints a).length = a.length := by simp [MsmData.ints]
@[simp] theorem natCol_length (bits : List Bool) (o w n : Nat) : (natCol bits o w n).length = n := by simp [natCol]
@[simp] theorem intCol_length (bits : List Bool) (o w n : Nat) : (intCol bits o w n).length = n := by simp [intCol]

end Verif
