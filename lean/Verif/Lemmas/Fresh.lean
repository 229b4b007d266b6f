import Verif.Lemmas.FrameRun
import Verif.Lemmas.RunFiles
import Verif.Props.EndToEnd

/-!
# The work folder is empty but for the log file when the conversion of a file starts
-/

namespace Verif

/-- The folder exists (and will be deleted) or there are no files in it. -/
def Spec.Clear (w : Disk) (d : Txt) : Prop := w.isdir d = true ∨ ∀ q, Under d q → w.read q = none

namespace Run
open Spec Decoder Conv

/-- Path of the log file. -/
def logPath (f : Txt) (format : String) : Txt := Disk.join (workFolder f format.toList) (makeLogFileName f)

/-- The state in which the conversion of a file starts. -/
theorem convert_begin {format : String} {m : Mode} (hm : modeOf format = some m) (box : Box)
    (f : Txt) (w : Disk) (hw : ∀ i, w.fault i = false) :
    ∃ w1 w2 c, createWorkFolder w f format.toList = (w1, some (workFolder f format.toList)) ∧
      initLogger w1 false (Disk.join (workFolder f format.toList) (makeLogFileName f)) = ((w2, true), .ok ()) ∧
      factory format w2 (workFolder f format.toList) box = .ok (some c) ∧
      strategy m w2 (workFolder f format.toList) box = .ok (some c) ∧ (∀ i, w2.fault i = false) ∧
      (Clear w (workFolder f format.toList) → ∀ q, Under (workFolder f format.toList) q → q ≠ logPath f format → w2.read q = none) := by
  obtain ⟨w1, e1, d1, f1⟩ := folder_ok w hw f format.toList
  obtain ⟨w2, e2, d2, f2⟩ := logger_ok w1 f1 (Disk.join (workFolder f format.toList) (makeLogFileName f))
  have hdir : w2.isdir (workFolder f format.toList) = true := by unfold Disk.isdir; rw [d2]; exact d1
  obtain ⟨c, c1, c2, -⟩ := (factory_eq hm w2 (workFolder f format.toList) box).1 hdir
  refine ⟨w1, w2, c, e1, e2, c1, c2, f2, ?_⟩
  · intro hc q hq hne
    unfold logPath at hne
    have r1 : w1.read q = none := by
      unfold createWorkFolder at e1
      dsimp only at e1
      cases hd : w.isdir (workFolder f format.toList) with
      | true =>
        rw [hd, if_pos rfl] at e1
        have hr : (w.rmtree (workFolder f format.toList)).2 = true := by unfold Disk.rmtree; simp [hw]
        rw [hr] at e1
        have := ((Disk.read_rmtree w _ q).2 hr).1 hq
        simp only [if_true] at e1
        have h2 : ∀ u : Disk, ((u.makedirs (workFolder f format.toList)).1.read q) = u.read q := fun u => Disk.read_makedirs u _ q
        split at e1
        · have e1 := congrArg Prod.fst e1; dsimp only at e1; rw [← e1, h2, this]
        · cases e1
      | false =>
        have hn : w.read q = none := by
          rcases hc with hc | hc
          · rw [hd] at hc; cases hc
          · exact hc q hq
        rw [hd, if_neg Bool.false_ne_true] at e1
        simp only [if_true] at e1
        split at e1
        · have e1 := congrArg Prod.fst e1; dsimp only at e1; rw [← e1, Disk.read_makedirs, hn]
        · cases e1
    unfold initLogger at e2
    have ho : (w1.openW (Disk.join (workFolder f format.toList) (makeLogFileName f))).2 = true := by unfold Disk.openW; simp [f1]
    have hr := Disk.read_openW w1 (Disk.join (workFolder f format.toList) (makeLogFileName f)) q
    rw [if_neg (fun h => hne h.2)] at hr
    generalize w1.openW (Disk.join (workFolder f format.toList) (makeLogFileName f)) = y at e2 ho hr
    obtain ⟨w3, b⟩ := y
    dsimp only at ho hr
    subst ho
    dsimp only at e2
    unfold init2CH at e2
    rw [if_neg Bool.false_ne_true] at e2
    split at e2
    · cases e2
    · have := congrArg (fun x => x.1.1.read q) e2
      dsimp only at this
      rw [← this]
      have hw' := Disk.read_write w3 (Disk.join (workFolder f format.toList) (makeLogFileName f)) q logHead
      rw [if_neg hne, hr, r1] at hw'
      exact hw'

theorem convert_result {format : String} {box : Box} {f wd : Txt} {w w1 w2 : Disk} {c : Converter}
    (e1 : createWorkFolder w f format.toList = (w1, some wd)) (e2 : initLogger w1 false (Disk.join wd (makeLogFileName f)) = ((w2, true), .ok ()))
    (c1 : factory format w2 wd box = .ok (some c)) {fr : Rat → Txt} {src : Txt → Option Bytes} {c' : Converter} {w' : Disk} {ok : Bool}
    (hrun : decodeRtcmFile fr FILE_CHUNK_LEN (src f) c w2 = some ((c', w'), ok)) :
    convertFile fr src format (some box) w false f = some ((w', false), .ok (if ok then verdictOf c'.statistics else .terminated)) := by
  unfold convertFile
  rw [e1]
  dsimp only
  rw [e2]
  dsimp only
  rw [c1]
  dsimp only
  rw [hrun]
  rfl

/-- The state in which the conversion of a file starts, and how its result follows from the one of `decode_rtcm_file`. -/
theorem convert_start {format : String} {m : Mode} (hm : modeOf format = some m) (box : Box)
    (f : Txt) (w : Disk) (hw : ∀ i, w.fault i = false) :
    ∃ w2 c, strategy m w2 (workFolder f format.toList) box = .ok (some c) ∧ (∀ i, w2.fault i = false) ∧
      (Clear w (workFolder f format.toList) → ∀ q, Under (workFolder f format.toList) q → q ≠ logPath f format → w2.read q = none) ∧
      ∀ fr src c' w' ok, decodeRtcmFile fr FILE_CHUNK_LEN (src f) c w2 = some ((c', w'), ok) →
        convertFile fr src format (some box) w false f =
          some ((w', false), .ok (if ok then verdictOf c'.statistics else .terminated)) := by
  obtain ⟨w1, w2, c, e1, e2, c1, c2, f2, hclear⟩ := convert_begin hm box f w hw
  exact ⟨w2, c, c2, f2, hclear, fun fr src c' w' ok hrun => convert_result e1 e2 c1 hrun⟩

theorem json_under {d : Txt} (hd : Folder d) {n : Int} {row : Json.SpecRow} (h : Json.JSON_SPEC.get? n = some row) :
    Under d (Json.pathOf d row) := by
  obtain ⟨h1, -, -, h4⟩ := Json.spec_names _ (PyDict.mem_of_get? h)
  exact Disk.under_join_join hd h1 h4

theorem json_not_log (format : String) (f : Txt) {n : Int} {row : Json.SpecRow} (h : Json.JSON_SPEC.get? n = some row) :
    Json.pathOf (workFolder f format.toList) row ≠ logPath f format := by
  intro he
  obtain ⟨h1, h2⟩ := json_last _ (PyDict.mem_of_get? h)
  have := congrArg List.getLast? he
  unfold Json.pathOf logPath at this
  have hl : makeLogFileName f ≠ [] := by unfold makeLogFileName; simp
  rw [join_getLast _ _ h1, join_getLast _ _ hl, h2] at this
  unfold makeLogFileName at this
  rw [List.getLast?_append_of_ne_nil _ (by decide)] at this
  exact absurd this (by decide)

end Run
end Verif
