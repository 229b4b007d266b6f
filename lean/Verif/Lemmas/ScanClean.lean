import Verif.Lemmas.Scan
import Verif.Lemmas.Framer

namespace Verif
open Spec

theorem valid_length {f : List UInt8} (h : ValidFrame f) : 6 ≤ f.length := by
  have := h.length; omega

theorem verdict_valid {f : List UInt8} (h : ValidFrame f) (s : List UInt8) :
    verdict (f ++ s) = .frame f.length := by
  apply verdict_append_frame
  have hl := valid_length h
  have h0 : f ≠ [] := by rintro rfl; simp at hl
  have hq : ¬ qskip f := by
    rintro ⟨_, h1 | h1⟩
    · exact h1 h.sync
    · have := h.reserved; omega
  rw [(verdict_not_qskip h0 hq).2.2, ← h.length, if_neg (by omega), List.take_length, if_pos h]

theorem scan_valid_cons {f : List UInt8} (h : ValidFrame f) (gap s : List UInt8) :
    scan gap (f ++ s) = ⟨⟨gap, f⟩ :: (scan [] s).segs, (scan [] s).gap, (scan [] s).rest⟩ := by
  rw [scan_frame (verdict_valid h s)]
  simp

theorem scan_noise {n : List UInt8} (h : (0xD3 : UInt8) ∉ n) (gap s : List UInt8) :
    scan gap (n ++ s) = scan (gap ++ n) s := by
  rw [scan_skips n.length (by simp)]
  · simp
  · intro j hj
    apply qskip_drop_of_ne (by simp; omega)
    rw [List.getElem?_append_left hj]
    intro hc
    exact h (List.mem_of_getElem? hc)

theorem scan_noisy (segs : List Seg) (last : List UInt8) (hv : ∀ g ∈ segs, ValidFrame g.msg)
    (hn : ∀ g ∈ segs, (0xD3 : UInt8) ∉ g.gap) (hl : (0xD3 : UInt8) ∉ last) :
    scan [] ((segs.map (fun g => g.gap ++ g.msg)).flatten ++ last) = ⟨segs, last, []⟩ := by
  induction segs with
  | nil =>
    have := scan_noise hl [] []
    simp only [List.append_nil, List.nil_append] at this
    simp only [List.map_nil, List.flatten_nil, List.nil_append]
    rw [this, scan_wait verdict_nil]
  | cons g segs ih =>
    simp only [List.map_cons, List.flatten_cons, List.append_assoc]
    rw [scan_noise (hn g (by simp)), List.nil_append, scan_valid_cons (hv g (by simp)),
      ih (fun g hg => hv g (by simp [hg])) (fun g hg => hn g (by simp [hg]))]

/-- Messages of a segmentation with their byte positions; `o` is the position of the first byte. -/
def located (o : Nat) : List Seg → List (Nat × List UInt8)
  | [] => []
  | g :: segs => (o + g.gap.length, g.msg) :: located (o + g.gap.length + g.msg.length) segs

theorem scan_complete (gap s pre f post : List UInt8) (o : Nat) (hs : s = pre ++ f ++ post) (hf : ValidFrame f)
    (hlong : 1029 ≤ (f ++ post).length) :
    (o + gap.length + pre.length, f) ∈ located o (scan gap s).segs ∨
      ∃ p m, (p, m) ∈ located o (scan gap s).segs ∧ p < o + gap.length + pre.length ∧
        o + gap.length + pre.length < p + m.length := by
  induction hn : s.length using Nat.strong_induction_on generalizing gap s pre o with
  | _ n ih =>
    cases hv : verdict s with
    | wait =>
      have := wait_short hv
      rw [hs] at this
      simp at this hlong
      omega
    | skip =>
      have h0 := List.length_pos_iff.2 (verdict_skip_ne hv)
      cases pre with
      | nil =>
        rw [hs, List.nil_append, verdict_valid hf] at hv
        simp at hv
      | cons b pre =>
        rw [scan_skip hv]
        have := ih (s.drop 1).length (by simp; omega) (gap ++ s.take 1) (s.drop 1) pre o (by rw [hs]; rfl) rfl
        rw [List.length_append, List.length_take_of_le (by omega)] at this
        rw [List.length_cons]
        have e : o + gap.length + (pre.length + 1) = o + (gap.length + 1) + pre.length := by omega
        rw [e]; exact this
    | frame m =>
      obtain ⟨h0, h1, h2, h3, h4⟩ := verdict_frame hv
      rw [scan_frame hv]
      simp only [located]
      cases hpre : pre with
      | nil =>
        left
        subst hpre
        rw [hs, List.nil_append, verdict_valid hf] at hv
        simp only [Verdict.frame.injEq] at hv
        subst hv
        rw [hs]
        simp
      | cons b pre' =>
        rw [← hpre]
        have hpl : 0 < pre.length := by rw [hpre]; simp
        by_cases hlt : pre.length < m
        · right
          refine ⟨o + gap.length, s.take m, by simp, by omega, ?_⟩
          rw [List.length_take_of_le h2]; omega
        · have hdrop : s.drop m = pre.drop m ++ f ++ post := by
            rw [hs, List.append_assoc, List.drop_append_of_le_length (by omega), List.append_assoc]
          have := ih (s.drop m).length (by simp; omega) [] (s.drop m) (pre.drop m) (o + gap.length + m)
            hdrop rfl
          rw [List.length_drop, List.length_nil] at this
          have e : o + gap.length + m + 0 + (pre.length - m) = o + gap.length + pre.length := by omega
          rw [e] at this
          rw [List.length_take_of_le h2]
          rcases this with h | ⟨p, x, h5, h6, h7⟩
          · left; simp [h]
          · right; exact ⟨p, x, by simp [h5], h6, h7⟩

end Verif
