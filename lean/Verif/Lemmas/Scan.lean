import Verif.Spec.Scan
import Verif.Lemmas.Bits
import Mathlib.Tactic.SplitIfs

namespace Verif
open Spec

/-- Cheap reasons to skip a byte: no sync byte, or non-zero reserved bits. -/
def qskip (s : List UInt8) : Prop :=
  s ≠ [] ∧ (s[0]? ≠ some 0xD3 ∨ (2 ≤ s.length ∧ 4 ≤ (s.getD 1 0).toNat))

theorem verdict_qskip {s : List UInt8} (h : qskip s) : verdict s = .skip := by
  obtain ⟨h0, h1⟩ := h
  unfold verdict
  rw [if_neg h0]
  split_ifs <;> simp_all

theorem verdict_nil : verdict [] = .wait := by simp [verdict]

theorem verdict_not_qskip {s : List UInt8} (h0 : s ≠ []) (h : ¬ qskip s) :
    s[0]? = some 0xD3 ∧ (2 ≤ s.length → (s.getD 1 0).toNat < 4) ∧
    verdict s = if s.length < 6 ∨ s.length < payloadLen s + 6 then .wait
      else if ValidFrame (s.take (payloadLen s + 6)) then .frame (payloadLen s + 6) else .skip := by
  have h1 : s[0]? = some 0xD3 := by
    by_contra hc; exact h ⟨h0, Or.inl hc⟩
  have h2 : ¬ (2 ≤ s.length ∧ 4 ≤ (s.getD 1 0).toNat) := fun hc => h ⟨h0, Or.inr hc⟩
  refine ⟨h1, fun hl => by by_contra hc; exact h2 ⟨hl, by omega⟩, ?_⟩
  unfold verdict
  rw [if_neg h0, if_neg (by simpa using h1), if_neg h2]

theorem verdict_skip_ne {s : List UInt8} (h : verdict s = .skip) : s ≠ [] := by
  rintro rfl; simp [verdict] at h

theorem verdict_frame {s : List UInt8} {n : Nat} (h : verdict s = .frame n) :
    s ≠ [] ∧ n = payloadLen s + 6 ∧ n ≤ s.length ∧ ValidFrame (s.take n) ∧ ¬ qskip s := by
  unfold verdict at h
  split_ifs at h with h1 h2 h3 h4 h5
  simp only [Verdict.frame.injEq] at h
  subst h
  refine ⟨h1, rfl, by omega, h5, ?_⟩
  rintro ⟨_, h6 | h6⟩
  · exact h2 h6
  · exact h3 h6

theorem verdict_wait {s : List UInt8} (h : verdict s = .wait) :
    s = [] ∨ (¬ qskip s ∧ (s.length < 6 ∨ s.length < payloadLen s + 6)) := by
  unfold verdict at h
  split_ifs at h with h1 h2 h3 h4
  · exact Or.inl h1
  · refine Or.inr ⟨?_, h4⟩
    rintro ⟨_, h6 | h6⟩
    · exact h2 h6
    · exact h3 h6

theorem scan_wait {gap s : List UInt8} (h : verdict s = .wait) : scan gap s = ⟨[], gap, s⟩ := by
  rw [scan, h]

theorem scan_skip {gap s : List UInt8} (h : verdict s = .skip) :
    scan gap s = scan (gap ++ s.take 1) (s.drop 1) := by
  rw [scan, h]
  simp only [verdict_skip_ne h, if_false]

theorem scan_frame {gap s : List UInt8} {n : Nat} (h : verdict s = .frame n) :
    scan gap s = ⟨⟨gap, s.take n⟩ :: (scan [] (s.drop n)).segs, (scan [] (s.drop n)).gap,
      (scan [] (s.drop n)).rest⟩ := by
  have h2 := verdict_frame h
  rw [scan, h]
  simp only [show ¬ (n = 0 ∨ s = []) from by rintro (h3 | h3); omega; exact h2.1 h3, if_false]

theorem scan_skips (k : Nat) {gap s : List UInt8} (hk : k ≤ s.length)
    (h : ∀ j, j < k → qskip (s.drop j)) : scan gap s = scan (gap ++ s.take k) (s.drop k) := by
  induction k with
  | zero => simp
  | succ k ih =>
    rw [ih (by omega) (fun j hj => h j (by omega)), scan_skip (verdict_qskip (h k (by omega))),
      List.drop_drop, List.append_assoc]
    congr 2
    rw [List.take_add, ]

/-! ## Extending the stream -/

theorem getD_append_left (s c : List UInt8) (i : Nat) (h : i < s.length) : (s ++ c).getD i 0 = s.getD i 0 := by
  simp [List.getD, List.getElem?_append_left h]

theorem payloadLen_append (s c : List UInt8) (h : 3 ≤ s.length) : payloadLen (s ++ c) = payloadLen s := by
  unfold payloadLen
  rw [getD_append_left _ _ _ (by omega), getD_append_left _ _ _ (by omega)]

theorem qskip_append {s : List UInt8} (c : List UInt8) (h : qskip s) : qskip (s ++ c) := by
  obtain ⟨h0, h1⟩ := h
  have hl := List.length_pos_iff.2 h0
  refine ⟨by simp [h0], ?_⟩
  rw [List.getElem?_append_left hl]
  rcases h1 with h1 | h1
  · exact Or.inl h1
  · right
    rw [getD_append_left _ _ _ (by omega)]
    exact ⟨by simp; omega, h1.2⟩

theorem not_qskip_append {s : List UInt8} (c : List UInt8) (hl : 2 ≤ s.length) (h : ¬ qskip s) :
    ¬ qskip (s ++ c) := by
  rintro ⟨h0, h1⟩
  apply h
  refine ⟨by intro hc; subst hc; simp at hl, ?_⟩
  rw [List.getElem?_append_left (by omega)] at h1
  rcases h1 with h1 | h1
  · exact Or.inl h1
  · right
    rw [getD_append_left _ _ _ (by omega)] at h1
    exact ⟨hl, h1.2⟩

theorem verdict_append_frame {s : List UInt8} {n : Nat} (c : List UInt8) (h : verdict s = .frame n) :
    verdict (s ++ c) = .frame n := by
  obtain ⟨h0, h1, h2, h3, h4⟩ := verdict_frame h
  have := (verdict_not_qskip (by simp [h0]) (not_qskip_append c (by omega) h4)).2.2
  rw [this, payloadLen_append _ _ (by omega), ← h1, if_neg (by simp; omega),
    List.take_append_of_le_length h2, if_pos h3]

theorem verdict_append_skip {s : List UInt8} (c : List UInt8) (h : verdict s = .skip) :
    verdict (s ++ c) = .skip := by
  have h0 := verdict_skip_ne h
  by_cases hq : qskip s
  · exact verdict_qskip (qskip_append c hq)
  · have h1 := (verdict_not_qskip h0 hq).2.2
    rw [h] at h1
    split_ifs at h1 with h2 h3
    have := (verdict_not_qskip (by simp [h0]) (not_qskip_append c (by omega) hq)).2.2
    rw [this, payloadLen_append _ _ (by omega), if_neg (by simp; omega),
      List.take_append_of_le_length (by omega), if_neg h3]

/-- Scanning is incremental. -/
theorem scan_append (gap s c : List UInt8) :
    scan gap (s ++ c) =
      ⟨(scan gap s).segs ++ (scan (scan gap s).gap ((scan gap s).rest ++ c)).segs,
        (scan (scan gap s).gap ((scan gap s).rest ++ c)).gap,
        (scan (scan gap s).gap ((scan gap s).rest ++ c)).rest⟩ := by
  induction hn : s.length using Nat.strong_induction_on generalizing gap s with
  | _ n ih =>
    cases hv : verdict s with
    | wait => rw [scan_wait hv]; simp
    | skip =>
      have h0 := List.length_pos_iff.2 (verdict_skip_ne hv)
      rw [scan_skip hv, scan_skip (verdict_append_skip c hv), List.take_append_of_le_length (by omega),
        List.drop_append_of_le_length (by omega)]
      exact ih _ (by simp; omega) _ _ rfl
    | frame m =>
      obtain ⟨h0, h1, h2, h3, h4⟩ := verdict_frame hv
      rw [scan_frame hv, scan_frame (verdict_append_frame c hv), List.take_append_of_le_length (by omega),
        List.drop_append_of_le_length (by omega)]
      rw [ih _ (by simp; omega) _ _ rfl]
      simp

/-- The scan is a segmentation of the stream. -/
theorem scan_flatten (gap s : List UInt8) :
    gap ++ s = ((scan gap s).segs.map (fun g => g.gap ++ g.msg)).flatten ++ (scan gap s).gap ++ (scan gap s).rest := by
  induction hn : s.length using Nat.strong_induction_on generalizing gap s with
  | _ n ih =>
    cases hv : verdict s with
    | wait => rw [scan_wait hv]; simp
    | skip =>
      have h0 := List.length_pos_iff.2 (verdict_skip_ne hv)
      rw [scan_skip hv, ← ih _ (by simp; omega) _ _ rfl, List.append_assoc, List.take_append_drop]
    | frame m =>
      obtain ⟨h0, h1, h2, h3, h4⟩ := verdict_frame hv
      rw [scan_frame hv]
      have := ih _ (by simp; omega) [] (s.drop m) rfl
      simp only [List.nil_append] at this
      conv_lhs => rw [← List.take_append_drop m s, this]
      simp

/-- Scanned messages are valid frames. -/
theorem scan_valid (gap s : List UInt8) : ∀ g ∈ (scan gap s).segs, ValidFrame g.msg := by
  induction hn : s.length using Nat.strong_induction_on generalizing gap s with
  | _ n ih =>
    cases hv : verdict s with
    | wait => rw [scan_wait hv]; simp
    | skip =>
      have h0 := List.length_pos_iff.2 (verdict_skip_ne hv)
      rw [scan_skip hv]
      exact ih _ (by simp; omega) _ _ rfl
    | frame m =>
      obtain ⟨h0, h1, h2, h3, h4⟩ := verdict_frame hv
      rw [scan_frame hv]
      intro g hg
      simp only [List.mem_cons] at hg
      rcases hg with rfl | hg
      · exact h3
      · exact ih _ (by simp; omega) _ _ rfl g hg

theorem scan_rest_wait (gap s : List UInt8) : verdict (scan gap s).rest = .wait := by
  induction hn : s.length using Nat.strong_induction_on generalizing gap s with
  | _ n ih =>
    cases hv : verdict s with
    | wait => rw [scan_wait hv]; exact hv
    | skip =>
      have h0 := List.length_pos_iff.2 (verdict_skip_ne hv)
      rw [scan_skip hv]
      exact ih _ (by simp; omega) _ _ rfl
    | frame m =>
      obtain ⟨h0, h1, h2, h3, h4⟩ := verdict_frame hv
      rw [scan_frame hv]
      exact ih _ (by simp; omega) _ _ rfl

theorem payloadLen_le {s : List UInt8} (h : (s.getD 1 0).toNat < 4) : payloadLen s ≤ 1023 := by
  unfold payloadLen
  have := (s.getD 2 0).toNat_lt
  omega

/-- Undecided bytes are fewer than the longest frame. -/
theorem wait_short {s : List UInt8} (h : verdict s = .wait) : s.length ≤ 1028 := by
  rcases verdict_wait h with rfl | ⟨hq, hl⟩
  · simp
  · by_cases h6 : s.length < 6
    · omega
    · have h0 : s ≠ [] := by rintro rfl; simp at h6
      have := (verdict_not_qskip h0 hq).2.1 (by omega)
      have := payloadLen_le this
      omega

end Verif
