import Verif.Model.RtcmUtil
import Verif.Spec.Signals
import Mathlib.Tactic.Linarith
import Mathlib.Tactic.NormNum
import Mathlib.Algebra.Order.Ring.Rat

/-!
# C20, C26 (marker part), C28, C29: message classification, lock time, signal tables
-/

namespace Verif
open RtcmUtil

/-- Constellation letters in the order of the MSM numbering plan (1071…, 1081…, …, 1131…). -/
def msmLetters : List String := ["G", "R", "E", "S", "Q", "B", "I"]

/-- MSM type names. -/
def msmNames : List String := ["MSM1", "MSM2", "MSM3", "MSM4", "MSM5", "MSM6", "MSM7"]

theorem range_int {P : Int → Prop} [DecidablePred P] (a : Int) (n : Nat)
    (h : ∀ i, i < n → P (a + (i : Nat))) : ∀ x : Int, a ≤ x → x < a + n → P x := by
  intro x h1 h2
  have := h (x - a).toNat (by omega)
  rwa [show a + ((x - a).toNat : Int) = x by omega] at this

/-- **C20** numbers 1071+10g+(k-1) are classified as (letter g, MSMk), by both functions. -/
theorem C20_msm (g k : Nat) (hg : g < 7) (hk : k < 7) :
    msmSubset (1071 + 10 * g + k) = (msmLetters.getD g "", msmNames.getD k "") ∧
    getSubset (1071 + 10 * g + k) = (msmLetters.getD g "", msmNames.getD k "") := by
  have : ∀ g, g < 7 → ∀ k, k < 7 →
    msmSubset (1071 + 10 * (g : Nat) + (k : Nat)) = (msmLetters.getD g "", msmNames.getD k "") ∧
    getSubset (1071 + 10 * (g : Nat) + (k : Nat)) = (msmLetters.getD g "", msmNames.getD k "") := by
    decide +kernel
  exact this g hg k hk

/-- **C20** no other integer is classified as MSM by `msm_subset`. -/
theorem C20_msm_only (n : Int) (h : msmSubset n ≠ ("", "")) :
    ∃ g k : Nat, g < 7 ∧ k < 7 ∧ n = 1071 + 10 * g + k := by
  by_cases hr : n < 1071 ∨ n > 1137
  · simp [msmSubset, hr] at h
  · have := range_int (P := fun n => msmSubset n ≠ ("", "") → (n - 1071) % 10 < 7) 1071 67 (by decide +kernel)
      n (by omega) (by omega) h
    exact ⟨((n - 1071) / 10).toNat, ((n - 1071) % 10).toNat, by omega, by omega, by omega⟩

/-- The non-MSM part of the numbering plan. -/
def planOther : List (Int × (String × String)) :=
  [(1001, ("G", "LEG1")), (1002, ("G", "LEG2")), (1003, ("G", "LEG3")), (1004, ("G", "LEG4")),
   (1009, ("R", "LEG1")), (1010, ("R", "LEG2")), (1011, ("R", "LEG3")), (1012, ("R", "LEG4")),
   (1019, ("G", "EPH")), (1020, ("R", "EPH")), (1041, ("I", "EPH")), (1042, ("B", "EPH")),
   (1044, ("Q", "EPH")), (1045, ("E", "EPH")), (1046, ("E", "EPH"))]

/-- **C20** the complete classification by `getSubset` of every integer: the fifteen other numbers, the
forty-nine MSM numbers, and nothing else. -/
theorem C20_getSubset (n : Int) (c : String × String) :
    (getSubset n = c ∧ c ≠ ("", "")) ↔
      ((n, c) ∈ planOther ∨ ∃ g k : Nat, g < 7 ∧ k < 7 ∧ n = 1071 + 10 * g + k ∧
        c = (msmLetters.getD g "", msmNames.getD k "")) := by
  have hA : ∀ p ∈ planOther, getSubset p.1 = p.2 ∧ p.2 ≠ ("", "") := by decide +kernel
  have hB : ∀ g, g < 7 → ∀ k, k < 7 → (msmLetters.getD g "", msmNames.getD k "") ≠ ("", "") := by
    decide +kernel
  have hC := range_int (P := fun n => (getSubset n == ("", "") ||
      planOther.contains (n, getSubset n) || (decide (1071 ≤ n) && decide ((n - 1071) % 10 < 7))) = true)
      1001 137 (by decide +kernel)
  constructor
  · rintro ⟨h1, h2⟩
    have hr : 1001 ≤ n ∧ n < 1001 + (137 : Nat) := by
      by_contra hr
      apply h2
      rw [← h1]
      unfold getSubset
      rw [if_neg, if_neg, if_neg (by omega), if_neg (by omega)]
      · simp; omega
      · simp; omega
    have hC' := hC n hr.1 hr.2
    rw [h1] at hC'
    simp only [Bool.or_eq_true, beq_iff_eq, List.contains_iff_mem, Bool.and_eq_true, decide_eq_true_eq] at hC'
    rcases hC' with (h3 | h3) | h3
    · exact absurd h3 h2
    · left; exact h3
    · right
      have hg : ((n - 1071) / 10).toNat < 7 := by omega
      have hk : ((n - 1071) % 10).toNat < 7 := by omega
      have hn : n = 1071 + 10 * (((n - 1071) / 10).toNat : Int) + (((n - 1071) % 10).toNat : Int) := by omega
      refine ⟨_, _, hg, hk, hn, ?_⟩
      rw [← (C20_msm _ _ hg hk).2, ← hn, h1]
  · rintro (h | ⟨g, k, hg, hk, rfl, rfl⟩)
    · exact hA _ h
    · exact ⟨(C20_msm g k hg hk).2, hB g hg k hk⟩

example : getSubset 1077 = ("G", "MSM7") ∧ getSubset 1124 = ("B", "MSM4") ∧ getSubset 1078 = ("", "") ∧
    getSubset (-5) = ("", "") := by decide +kernel

/-! ## C26: marker checks -/

/-- **C26** the marker checks reject exactly the most negative value of a two's complement field of the
respective width (15, 22, 20, 24, 15 bits). -/
theorem C26_markers (x : Int) :
    (-(2 ^ 14) ≤ x → x < 2 ^ 14 → (isDF400_OK x = true ↔ x ≠ -(2 ^ 14))) ∧
    (-(2 ^ 21) ≤ x → x < 2 ^ 21 → (isDF401_OK x = true ↔ x ≠ -(2 ^ 21))) ∧
    (-(2 ^ 19) ≤ x → x < 2 ^ 19 → (isDF405_OK x = true ↔ x ≠ -(2 ^ 19))) ∧
    (-(2 ^ 23) ≤ x → x < 2 ^ 23 → (isDF406_OK x = true ↔ x ≠ -(2 ^ 23))) ∧
    (-(2 ^ 14) ≤ x → x < 2 ^ 14 → (isDF404_OK x = true ↔ x ≠ -(2 ^ 14))) := by
  refine ⟨?_, ?_, ?_, ?_, ?_⟩ <;> intro h1 h2 <;>
    simp only [isDF400_OK, isDF401_OK, isDF404_OK, isDF405_OK, isDF406_OK, bne_iff_ne, ne_eq] <;> omega

example : isDF400_OK (-16384) = false ∧ isDF400_OK (-16383) = true ∧ isDF406_OK (-8388608) = false := by decide

/-! ## C28: lock time -/

/-- RTCM table of DF407: index range, factor and offset of the minimum lock time in ms. -/
def df407Table : List (Nat × Nat × Nat × Nat) :=
  [(0, 63, 1, 0), (64, 95, 2, 64), (96, 127, 4, 256), (128, 159, 8, 768), (160, 191, 16, 2048),
   (192, 223, 32, 5120), (224, 255, 64, 12288), (256, 287, 128, 28672), (288, 319, 256, 65536),
   (320, 351, 512, 147456), (352, 383, 1024, 327680), (384, 415, 2048, 720896),
   (416, 447, 4096, 1572864), (448, 479, 8192, 3407872), (480, 511, 16384, 7340032),
   (512, 543, 32768, 15728640), (544, 575, 65536, 33554432), (576, 607, 131072, 71303168),
   (608, 639, 262144, 150994944), (640, 671, 524288, 318767104), (672, 703, 1048576, 671088640),
   (704, 704, 1, 0)]

/-- **C28** `unpack_tlock10` equals the DF407 table on its rows, with 704 meaning 67108864 ms. -/
theorem C28_table10 : ∀ row ∈ df407Table, ∀ t, row.1 ≤ t → t ≤ row.2.1 →
    unpackTlock10 t = if t = 704 then 67108864 else row.2.2.1 * t - row.2.2.2 := by
  have : ∀ row ∈ df407Table, ∀ t, t < 705 → row.1 ≤ t → t ≤ row.2.1 →
    unpackTlock10 t = if t = 704 then 67108864 else row.2.2.1 * t - row.2.2.2 := by decide +kernel
  intro row hrow t h1 h2
  have hb : ∀ row ∈ df407Table, row.2.1 < 705 := by decide
  exact this row hrow t (by have := hb row hrow; omega) h1 h2

/-- **C28** every code 0..704 belongs to a row; codes above are reserved and give 0. -/
theorem C28_cover10 (t : Nat) :
    (t ≤ 704 → ∃ row ∈ df407Table, row.1 ≤ t ∧ t ≤ row.2.1) ∧ (704 < t → unpackTlock10 t = 0) := by
  constructor
  · have : ∀ t, t < 705 → ∃ row ∈ df407Table, row.1 ≤ t ∧ t ≤ row.2.1 := by decide +kernel
    intro h; exact this t (by omega)
  · intro h
    unfold unpackTlock10
    rw [if_neg (by omega), if_neg (by omega), if_neg (by omega)]

/-- **C28** strictly increasing on 0..704. -/
theorem C28_mono10 (s t : Nat) (h : s < t) (ht : t ≤ 704) : unpackTlock10 s < unpackTlock10 t := by
  have hstep : ∀ t, t < 704 → unpackTlock10 t < unpackTlock10 (t + 1) := by decide +kernel
  induction t with
  | zero => omega
  | succ t ih =>
    rcases Nat.lt_or_ge s t with h1 | h1
    · exact lt_trans (ih h1 (by omega)) (hstep t (by omega))
    · have : s = t := by omega
      subst this
      exact hstep s (by omega)

/-- **C28** `unpack_tlock4` is 0 for 0, else 2^(4+t) ms (table of DF402: 32, 64, ..., 524288 ms); it is
strictly increasing. -/
theorem C28_tlock4 (s t : Nat) : unpackTlock4 0 = 0 ∧ (0 < t → unpackTlock4 t = 32 * 2 ^ (t - 1)) ∧
    (s < t → unpackTlock4 s < unpackTlock4 t) := by
  have hform : ∀ t, 0 < t → unpackTlock4 t = 32 * 2 ^ (t - 1) := by
    intro t ht
    obtain ⟨k, rfl⟩ : ∃ k, t = k + 1 := ⟨t - 1, by omega⟩
    unfold unpackTlock4
    rw [if_neg (by omega), Nat.one_shiftLeft, show 4 + (k + 1) = 5 + k by omega, Nat.pow_add]; rfl
  refine ⟨rfl, hform t, fun h => ?_⟩
  rw [hform t (by omega)]
  by_cases hs : s = 0
  · subst hs
    have : 0 < 2 ^ (t - 1) := by positivity
    show 0 < _; omega
  · rw [hform s (by omega)]
    have := Nat.pow_lt_pow_right (show 1 < 2 by omega) (show s - 1 < t - 1 by omega)
    omega

/-! ## C29: signal tables -/

theorem lookup_mem {κ α : Type} [BEq κ] [LawfulBEq κ] {d : List (κ × α)} {k : κ} {v : α}
    (h : List.lookup k d = some v) : (k, v) ∈ d := by
  induction d with
  | nil => simp at h
  | cons p d ih =>
    obtain ⟨k', v'⟩ := p
    rw [List.lookup_cons] at h
    by_cases hk : k == k'
    · rw [hk] at h
      simp only [Option.some.injEq] at h
      have := eq_of_beq hk
      subst this h
      simp
    · simp only [Bool.not_eq_true] at hk
      rw [hk] at h
      exact List.mem_cons_of_mem _ (ih h)

/-- **C29** signal codes of a constellation map injectively to two-character RINEX codes, each of which has
a (positive) carrier frequency; RINEX codes exist for signal numbers 1..32 only. -/
theorem C29_signals (gnss : String) (a b : Nat) (sa sb : String)
    (ha : rnxLit gnss a = some sa) (hb : rnxLit gnss b = some sb) :
    (sa = sb → a = b) ∧ sa.length = 2 ∧ (∃ f, crrFrq gnss (some sa) = .ok f ∧ 0 < f) ∧ 1 ≤ a ∧ a ≤ 32 := by
  unfold rnxLit at ha hb
  cases ht : msm2RinexTab.get? gnss with
  | none => rw [ht] at ha; simp at ha
  | some tab =>
    rw [ht] at ha hb
    have h1 : (gnss, tab) ∈ msm2RinexTab := lookup_mem ht
    have h2 : (a, sa) ∈ tab := lookup_mem ha
    have h3 : (b, sb) ∈ tab := lookup_mem hb
    have hall : ∀ p ∈ msm2RinexTab, ∀ x ∈ p.2, (∀ y ∈ p.2, x.2 = y.2 → x.1 = y.1) ∧ x.2.length = 2 ∧
        (match crrFrq p.1 (some x.2) with | .ok f => decide (0 < f) | .error _ => false) = true ∧
        1 ≤ x.1 ∧ x.1 ≤ 32 := by
      decide +kernel
    obtain ⟨h4, h5, h6, h7, h8⟩ := hall _ h1 _ h2
    refine ⟨h4 _ h3, h5, ?_, h7, h8⟩
    simp only at h6
    cases hf : crrFrq gnss (some sa) with
    | error e => rw [hf] at h6; simp at h6
    | ok f => rw [hf] at h6; exact ⟨f, rfl, by simpa using h6⟩

/-- The tables of the code say the same as the specification of signals, for every constellation and signal number. -/
theorem rnxLit_eq (g t : Nat) : rnxLit (Spec.gnssLetter g) t = Spec.sigCode g t := by
  have key : ∀ g < 8, ∀ t < 40, rnxLit (Spec.gnssLetter g) t = Spec.sigCode g t := by decide +kernel
  have hbig : ∀ g < 8, ∀ r ∈ Spec.sigRuns g, r.1 + r.2.2.length ≤ 40 := by decide +kernel
  have hg : ∀ g, 7 ≤ g → Spec.gnssLetter g = Spec.gnssLetter 7 ∧ Spec.sigRuns g = Spec.sigRuns 7 := by
    intro g hg
    obtain ⟨k, rfl⟩ := Nat.exists_eq_add_of_le hg
    rw [Nat.add_comm]
    exact ⟨rfl, rfl⟩
  have main : ∀ g < 8, rnxLit (Spec.gnssLetter g) t = Spec.sigCode g t := by
    intro g hg8
    by_cases ht : t < 40
    · exact key g hg8 t ht
    · have h1 : Spec.sigCode g t = none := by
        unfold Spec.sigCode
        rw [List.findSome?_eq_none_iff]
        intro r hr
        have := hbig g hg8 r hr
        rw [if_pos (by omega), List.getElem?_eq_none (by omega)]
        rfl
      rw [h1]
      cases h2 : rnxLit (Spec.gnssLetter g) t with
      | none => rfl
      | some n =>
        have := (C29_signals _ _ _ _ _ h2 h2).2.2.2.2
        omega
  by_cases h : g < 8
  · exact main g h
  · have h7 := main 7 (by omega)
    obtain ⟨h1, h2⟩ := hg g (by omega)
    unfold Spec.sigCode
    rw [h1, h2]
    exact h7

/-- **C56** Every MSM signal number has the RINEX code that RTCM assigns to it, or none if it is reserved, and the carrier frequency of
the signal is that of its band. -/
theorem C56_codes (g t : Nat) : rnxLit (Spec.gnssLetter g) t = Spec.sigCode g t ∧
    ∀ n, Spec.sigCode g t = some n → ∃ b a, n.toList = [b, a] ∧ 0 < Spec.bandMHz g b ∧
      crrFrq (Spec.gnssLetter g) (some n) = .ok (Spec.bandMHz g b) := by
  refine ⟨rnxLit_eq g t, ?_⟩
  intro n hn
  unfold Spec.sigCode at hn
  obtain ⟨r, hr, h⟩ := List.exists_of_findSome?_eq_some hn
  split at h
  · rw [Option.map_eq_some_iff] at h
    obtain ⟨a, ha, rfl⟩ := h
    have hg : g < 7 := by
      by_contra hg
      obtain ⟨k, rfl⟩ := Nat.exists_eq_add_of_le (Nat.not_lt.1 hg)
      rw [Nat.add_comm] at hr
      exact absurd hr List.not_mem_nil
    have key : ∀ g < 7, ∀ r ∈ Spec.sigRuns g, 0 < Spec.bandMHz g r.2.1 ∧ ∀ a ∈ r.2.2,
        (match crrFrq (Spec.gnssLetter g) (some (String.ofList [r.2.1, a])) with
          | .ok f => decide (f = Spec.bandMHz g r.2.1) | .error _ => false) = true := by decide +kernel
    obtain ⟨k1, k2⟩ := key g hg r hr
    have k3 := k2 a (List.mem_of_getElem? ha)
    refine ⟨r.2.1, a, by simp, k1, ?_⟩
    cases hf : crrFrq (Spec.gnssLetter g) (some (String.ofList [r.2.1, a])) with
    | error e => rw [hf] at k3; simp at k3
    | ok f => rw [hf] at k3; simp at k3; rw [k3]
  · cases h

/-- Signals exist: Galileo signal 22 is E5a-I at 1176.45 MHz; signal 21 is reserved. -/
example : Spec.sigCode 2 22 = some "5I" ∧ Spec.bandMHz 2 '5' = 1176.45 ∧ Spec.sigCode 2 21 = none := by decide +kernel

example : rnxLit "E" 22 = some "5I" ∧ rnxLit "E" 2 = some "1C" := by decide +kernel

end Verif
