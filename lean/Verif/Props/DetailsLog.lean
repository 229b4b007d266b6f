import Verif.Props.Details
import Verif.Props.Log
import Verif.Props.EndToEnd

/-!
# C83: lost observables are reported in the log of a file
-/

namespace Verif
open Spec Decoder Conv Run Framer Msm

/-- The remark that a record makes about a single observable or field. -/
def Spec.remarkOf : Record → Option Detail
  | .detail d => some d
  | _ => none

/-- The remarks that a message deserves: in the modes with scaled values, those about the observables of a multiple signal message that the
decoder accepts and whose signals are known; in the modes with base station messages, those about the biases of message 1230. -/
def Spec.Content.remarks (m : Mode) : Content → List Detail
  | .eph _ => []
  | .base (.m1230 _ _ a b c d) => if m.obsOnly then [] else biasReports [("L1CA", a), ("L1P", b), ("L2CA", c), ("L2P", d)]
  | .base _ => []
  | .msm d => if m.bare = false ∧ LengthEstimateRight d ∧ d.SignalsKnown then d.reports else []

theorem Run.records_remark (b : Bool) (msg : Bytes) (det : List Detail) (r : Option PyObj) :
    (messageRecords b msg det r).filterMap remarkOf = det := by
  have h1 : ∀ l : List Detail, (l.map Record.detail).filterMap remarkOf = l := by
    intro l
    rw [List.filterMap_map]
    exact List.filterMap_some
  unfold messageRecords
  rw [List.filterMap_append, h1]
  have : ∀ l : List Record, (∀ x ∈ l, remarkOf x = none) → l.filterMap remarkOf = [] := fun l h => List.filterMap_eq_nil_iff.2 h
  conv_rhs => rw [← List.append_nil det]
  refine congrArg (det ++ ·) (this _ ?_)
  intro x hx
  split at hx
  · simp at hx; subst hx; rfl
  · split at hx
    · simp at hx; subst hx; rfl
    · split at hx
      · split at hx <;> simp at hx
        · subst hx; rfl
        · rcases hx with rfl | rfl <;> rfl
      · simp at hx; subst hx; rfl

/-- **C83** If a file is processed to its end, the lines about single observables and fields in its log are those of its frames, in the
order of the frames. This holds for every chunk size. -/
theorem C83_log (m : Mode) (w0 : Disk) (wd : Txt) (box : Box) (c : Converter) (h : strategy m w0 wd box = .ok (some c))
    (fr : Rat → Txt) (n : Nat) (hn : 0 < n) (path : Txt) (bytes : Bytes) (w : Disk) (c' : Converter) (w' : Disk)
    (hd : decodeRtcmFile fr n (some bytes) c w = some ((c', w'), true)) :
    (decodeRtcmFileLog fr n path (some bytes) c w).filterMap remarkOf = (messages bytes).flatMap (details m) := by
  have h1 := (C72_messages m w0 wd box c h fr n hn path bytes w c' w' hd).1
  have h2 : ∀ l : List Record, (l.filter (fun r => !isProgress r && !aboutOutput r)).filterMap remarkOf = l.filterMap remarkOf := by
    intro l
    induction l with
    | nil => rfl
    | cons x l ih =>
      cases x <;> simp [isProgress, aboutOutput, aboutCreation, List.filterMap_cons, remarkOf] at ih ⊢ <;> exact ih
  rw [← h2, h1]
  rw [List.filterMap_cons_none rfl, List.filterMap_append, List.filterMap_flatMap]
  simp only [records_remark]
  exact List.append_nil _

/-- **C83** What a frame with a content contributes. -/
theorem C83_content (m : Mode) (c : Content) (h : c.WellFormed) : details m c.frame = c.remarks m := by
  have hv := frame_valid h
  have hc := frame_carries h
  generalize c.frame = buf at hv hc
  unfold details
  cases c with
  | eph e =>
    rw [number_eph h.2.2 (carries_eph hc)]
    dsimp only
    rw [family_eph e]
    dsimp only [familyDetails, Content.remarks]
    rw [ite_self]
  | base b =>
    obtain ⟨h1, h2⟩ := number_base hc
    rw [h1]
    dsimp only
    rw [h2]
    have hon : familyOn m.obsOnly .base = !m.obsOnly := by cases m <;> rfl
    dsimp only [familyDetails]
    rw [hon]
    have hnum : natOfBits (slice (bitsOf buf) 24 12) = (Content.base b).number := by
      have := h1
      unfold numberIn at this
      split at this
      · cases this
      · exact Option.some.inj this
    cases b with
    | m1230 id al x y z t =>
      rw [C83_bias id al x y z t buf hc]
      cases hm : m.obsOnly <;> simp [Content.remarks, hm]
    | _ =>
      rw [C83_bias_only buf (by rw [hnum]; simp [Content.number])]
      simp [Content.remarks]
  | msm d =>
    rw [number_msm h.2.2 hc]
    dsimp only
    have hd : msmDetails m.bare buf = Content.remarks m (.msm d) := by
      dsimp only [Content.remarks]
      cases hb : m.bare with
      | true => rw [(C83_silent buf hv).1, if_neg (by simp)]
      | false =>
        by_cases hE : LengthEstimateRight d
        · by_cases hs : d.SignalsKnown
          · rw [if_pos ⟨rfl, hE, hs⟩]
            exact C83_lines d h.2.2 hE buf hv hc hs
          · rw [if_neg (by simp [hs])]
            refine (C83_silent buf hv).2 ((C24_C27_scaled_iff buf hv _).2 (.inl ⟨d, h.2.2, hc, hE, ?_⟩))
            rw [if_neg hs]
        · rw [if_neg (by simp [hE])]
          have hk : d.k = 2 ∨ d.k = 3 := by
            by_contra hk
            exact hE ⟨fun h2 => absurd (.inl h2) hk, fun h3 => absurd (.inr h3) hk⟩
          exact (C83_silent buf hv).2 (C22_violated d h.2.2 hk (.inr hE) buf hv hc false)
    rcases family_msm h.2.2 with hf | hf
    · rw [hf]
      have : familyOn m.obsOnly .msm13 = true := by cases m <;> rfl
      dsimp only
      rw [if_pos this]
      exact hd
    · rw [hf]
      have : familyOn m.obsOnly .msm47 = true := by cases m <;> rfl
      dsimp only
      rw [if_pos this]
      exact hd

/-- **C83** The log of a file that holds the frames of given contents: the lines about single observables and fields are exactly those that
the contents deserve, in order. -/
theorem C83_file (m : Mode) (w0 : Disk) (wd : Txt) (box : Box) (c : Converter) (h : strategy m w0 wd box = .ok (some c))
    (fr : Rat → Txt) (n : Nat) (hn : 0 < n) (path : Txt) (cs : List Content) (hcs : ∀ c ∈ cs, c.WellFormed) (w : Disk) (c' : Converter)
    (w' : Disk) (hd : decodeRtcmFile fr n (some (cs.map Content.frame).flatten) c w = some ((c', w'), true)) :
    (decodeRtcmFileLog fr n path (some (cs.map Content.frame).flatten) c w).filterMap remarkOf = cs.flatMap (Content.remarks m) := by
  rw [C83_log m w0 wd box c h fr n hn path _ w c' w' hd, (messages_clean (cs.map Content.frame) (by
    intro f hf
    obtain ⟨x, hx, rfl⟩ := List.mem_map.1 hf
    exact frame_valid (hcs x hx))).1, List.flatMap_map]
  exact List.flatMap_congr (fun x hx => C83_content m x (hcs x hx))

/-- Message 1230 with two of three biases marked as undefined. -/
def exBias : Content := .base (.m1230 7 1 (some (-32768)) none (some 100) (some (-32768)))

/-- The hypotheses are met by every file; a file with an MSM5 and message 1230 gives these lines. -/
example (w0 : Disk) (wd : Txt) (box : Box) (c : Converter) (h : strategy .json w0 wd box = .ok (some c)) (hc : Margo.ChannelsOK box.margo)
    (fr : Rat → Txt) (path : Txt) (w : Disk) :
    ((decodeRtcmFileLog fr 4096 path (some ([.msm exMsm5, exBias].map Content.frame).flatten) c w).filterMap remarkOf).map
        (fun d => (detailLevel d, detailText d)) =
      [(.info, "No fine range:gnss=E,(sat=3,sgn='1C')".toList), (.info, "No fine phase:gnss=E,(sat=3,sgn='1C')".toList),
       (.info, "No fine doppler:gnss=E,(sat=3,sgn='1C')".toList), (.warning, "No coarse range:gnss=E,(sat=11,sgn_idx=1)".toList),
       (.warning, "Msg 1230. Field L1CA marked as undefined (0x8000)".toList),
       (.warning, "Msg 1230. Field L2P marked as undefined (0x8000)".toList)] := by
  obtain ⟨c', w', hd⟩ := file_total h hc fr (by decide : 0 < 4096) ([.msm exMsm5, exBias].map Content.frame).flatten w
  rw [C83_file .json w0 wd box c h fr 4096 (by decide) path [.msm exMsm5, exBias] ?_ w c' w' hd]
  · decide +kernel
  · intro x hx
    simp only [List.mem_cons, List.not_mem_nil, or_false] at hx
    rcases hx with rfl | rfl
    · exact ⟨by simp only [Content.layout, Content.vals]; decide +kernel, by decide +kernel, (by decide +kernel : exMsm5.WF)⟩
    · exact ⟨by simp only [exBias, Content.layout, Content.vals]; decide +kernel, by decide +kernel, trivial⟩

/-- **C83** None of these lines announces an error: fine values that are missing are information, missing rough values and undefined
biases are warnings. -/
theorem C83_level (d : Detail) : ¬ announcesError (.detail d) ∧
    ((∃ g s n, d = .noFineRange g s n ∨ d = .noFinePhase g s n ∨ d = .noFineDoppler g s n) ↔ (Record.detail d).level = .info) := by
  cases d <;> simp [announcesError, Record.level, detailLevel]

example : (Record.detail (.noFinePhase "E" 11 "1B")).text id = some "No fine phase:gnss=E,(sat=11,sgn='1B')".toList := by decide

end Verif
