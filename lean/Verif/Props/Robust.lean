import Verif.Lemmas.RunTotal
import Verif.Props.Batch
import Verif.Props.Controls

/-!
# C62: no contents of the source files can stop a run
-/

namespace Verif
open Spec Decoder Conv Run Disk

/-- The verdicts that are possible for a source file: if it can be read and controls are available, its conversion finishes; if it
cannot be read, the conversion is reported as terminated. Creating the work folder may fail. -/
def Spec.VerdictFits (src : Txt → Option Bytes) (controls : Option Box) (f : Txt) : Run.Verdict → Prop
  | .noFolder => True
  | .noControls => controls = none
  | .noConverter => False
  | .terminated => controls ≠ none ∧ src f = none
  | .finishedWithoutErrors => controls ≠ none ∧ src f ≠ none
  | .finishedWithErrors => controls ≠ none ∧ src f ≠ none

theorem Run.verdict_fits (src : Txt → Option Bytes) {controls : Option Box} (hc : controls ≠ none) {f : Txt} (hf : src f ≠ none) (s : Stats) :
    VerdictFits src controls f (verdictOf s) := by
  unfold verdictOf
  split
  · exact ⟨hc, hf⟩
  · exact ⟨hc, hf⟩

/-- **C62, one file.** -/
theorem C62_file {format : String} {m : Mode} (hm : modeOf format = some m) (fr : Rat → Txt) (src : Txt → Option Bytes)
    (controls : Option Box) (hc : ∀ box, controls = some box → Margo.ChannelsOK box.margo) (f : Txt) (w : Disk) :
    ∃ w' ready r, convertFile fr src format controls w false f = some ((w', ready), r) ∧ w'.fault = w.fault ∧
      (r = .error .osError ∧ (∃ i, w.fault i = true) ∨
        ∃ v, r = .ok v ∧ ready = false ∧ VerdictFits src controls f v ∧ ((∀ i, w.fault i = false) → v ≠ .noFolder)) := by
  obtain ⟨w', ready, r, e, hf⟩ := (convert_local hm fr src controls f false).1 w
  refine ⟨w', ready, r, e, hf.fault, ?_⟩
  cases r with
  | error err =>
    left
    have h1 := C50_no_assert fr src format controls [f] w (w', ready) err (by rw [mainLoop_cons, e])
    refine ⟨by rw [h1], ?_⟩
    by_contra hn
    obtain ⟨w2, v, e2, -⟩ := convert_nofault hm fr src controls f w (fun i => by
      cases hi : w.fault i with
      | false => rfl
      | true => exact absurd ⟨i, hi⟩ hn)
    rw [e2] at e
    cases e
  | ok v =>
    right
    refine ⟨v, rfl, C50_released fr src format controls w f w' ready v e, ?_⟩
    rw [convert_eq] at e
    cases hfl : createWorkFolder w f format.toList with
    | mk w1 r1 =>
      rw [hfl] at e
      cases r1 with
      | none =>
        cases e
        refine ⟨trivial, ?_⟩
        intro hw
        obtain ⟨w2, e2, -⟩ := folder_ok w hw f format.toList
        rw [e2] at hfl
        cases hfl
      | some wfld =>
        dsimp only at e
        suffices h : VerdictFits src controls f v ∧ v ≠ .noFolder from ⟨h.1, fun _ => h.2⟩
        unfold inFolder at e
        split at e
        · cases e
        · rename_i w2 _ _
          split at e
          · cases e
            exact ⟨rfl, by simp⟩
          · rename_i box
            have hch := hc box rfl
            split at e
            · cases e
            · rename_i hfac
              unfold factory strategy at hfac
              rw [hm] at hfac
              dsimp only at hfac
              rw [strategy_eq, ok_bind] at hfac
              dsimp only at hfac
              rw [strategyPrinter_eq] at hfac
              split at hfac <;> cases hfac
            · rename_i c hfac
              have hst : strategy m w2 wfld box = .ok (some c) := by
                unfold factory at hfac
                rw [hm] at hfac
                exact hfac
              cases hs : src f with
              | none =>
                rw [hs] at e
                cases e
                exact ⟨⟨by simp, hs⟩, by simp⟩
              | some bytes =>
                rw [hs] at e
                obtain ⟨c', w3, h3⟩ := file_total hst hch fr (n := FILE_CHUNK_LEN) (by decide) bytes w2
                rw [h3] at e
                cases e
                rw [if_pos rfl]
                refine ⟨verdict_fits src (by simp) (by rw [hs]; simp) _, ?_⟩
                unfold verdictOf
                split <;> simp

/-- **C62** Whatever bytes the source files contain, whichever calls of the file system fail, and whatever controls are available,
the main loop ends; it ends with a verdict for each file that was selected, in order, or with an `OSError` if a call of the file system
failed. Readable files are never reported as terminated. The table of controls must have a frequency channel for each GLONASS
satellite, and no carrier frequency may be zero, see `C62_controls`. -/
theorem C62_run {format : String} {m : Mode} (hm : modeOf format = some m) (fr : Rat → Txt) (src : Txt → Option Bytes)
    (controls : Option Box) (hc : ∀ box, controls = some box → Margo.ChannelsOK box.margo) : ∀ (files : List Txt) (w : Disk),
    ∃ s r, mainLoop fr src format controls w false files = some (s, r) ∧
      (r = .error .osError ∧ (∃ i, w.fault i = true) ∨
        ∃ vs, r = .ok vs ∧ List.Forall₂ (VerdictFits src controls) files vs ∧ ((∀ i, w.fault i = false) → .noFolder ∉ vs))
  | [], w => ⟨_, _, rfl, .inr ⟨[], rfl, .nil, by simp⟩⟩
  | f :: files, w => by
    obtain ⟨w1, ready, r, e1, f1, h1⟩ := C62_file hm fr src controls hc f w
    rw [mainLoop_cons, e1]
    rcases h1 with ⟨rfl, hi⟩ | ⟨v, rfl, rfl, hv, hn⟩
    · exact ⟨_, _, rfl, .inl ⟨rfl, hi⟩⟩
    · dsimp only
      obtain ⟨s, r, e2, h2⟩ := C62_run hm fr src controls hc files w1
      rw [e2]
      rw [f1] at h2
      rcases h2 with ⟨rfl, hi⟩ | ⟨vs, rfl, hvs, hns⟩
      · exact ⟨_, _, rfl, .inl ⟨rfl, hi⟩⟩
      · refine ⟨_, _, rfl, .inr ⟨v :: vs, rfl, .cons hv hvs, ?_⟩⟩
        intro hw
        rw [List.mem_cons, not_or]
        exact ⟨fun h => hn hw h.symm, hns hw⟩

/-- **C62, controls.** Controls read from configuration files meet the condition of `C62_run` if no GLONASS frequency channel is −2848 (real
channels are −7 … 13). -/
theorem C62_controls (cs : List Ctl.Call) (b : Box) (h : (Ctl.after cs).boxed = some b)
    (h2 : ∀ s, b.margo.glo_lit_tab.get? s ≠ some (-2848)) : Margo.ChannelsOK b.margo := by
  obtain ⟨hm, -, hb⟩ := C47_available cs
  obtain ⟨ini, hv⟩ := hm b.margo ((hb b).1 h).1
  intro s h1 h24
  obtain ⟨v, hl, -⟩ := hv.literals s ⟨h1, h24⟩
  have hg : b.margo.glo_lit_tab.get? s = some v := hl
  have hne : v ≠ -2848 := by
    rintro rfl
    exact h2 s hg
  refine ⟨v, hg, ?_, ?_⟩
  · intro h0
    apply hne
    have h0 : (v : Rat) = -2848 := by linarith
    exact_mod_cast h0
  · intro h0
    apply hne
    have h0 : (v : Rat) = -2848 := by linarith
    exact_mod_cast h0

/-- Controls with an impossible frequency channel of satellite 1. -/
def exBadBox : Box := { margo := { glo_lit_tab := (({} : Margo.Controls).glo_lit_tab).set 1 (-2848) }, json := {} }

theorem Run.exGlo5_stops : (match Margo.printBuffer exBadBox.margo exGlo5.scaledObj with
    | .error e => decide (e = .zeroDivision)
    | .ok _ => false) = true := by decide +kernel

/-- The outcome of a valid frame of an MSM content. -/
theorem Run.outcome_obs {m : Mode} (hb : m.bare = false) {d : MsmData} (hw : d.WF) {buf : Bytes}
    (hc : d.CarriedBy buf) {o : Msm.ObservablesMSM} (ho : Msm.decodeMsm17 false buf = some (.inr o)) :
    outcome m buf = some (.msm o) := by
  unfold outcome
  rw [number_msm hw hc]
  dsimp only
  rcases family_msm hw with hf | hf
  · rw [hf]
    dsimp only
    rw [if_pos (by cases m <;> rfl)]
    unfold familyDecode
    dsimp only
    rw [hb, ho]; rfl
  · rw [hf]
    dsimp only
    rw [if_pos (by cases m <;> rfl)]
    unfold familyDecode
    dsimp only
    rw [hb, ho]; rfl

/-- **C62** The condition on the frequency channels is needed: with the channel −2848 for satellite 1 the conversion of a file that is one
GLONASS message (which does not even have an observation of satellite 1) is terminated by an exception. -/
theorem C62_channel (fr : Rat → Txt) (w : Disk) (hw : ∀ i, w.fault i = false) (f : Txt) (src : Txt → Option Bytes)
    (hs : src f = some (Content.msm exGlo5).frame) :
    ∃ w', convertFile fr src "MARGO" (some exBadBox) w false f = some ((w', false), .ok .terminated) := by
  have hwf : (Content.msm exGlo5).WellFormed :=
    ⟨by simp only [Content.layout, Content.vals]; decide +kernel, by decide +kernel, (by decide +kernel : exGlo5.WF)⟩
  have hv := frame_valid hwf
  have hcar := frame_carries hwf
  obtain ⟨w1, e1, d1, f1⟩ := folder_ok w hw f "MARGO".toList
  obtain ⟨w2, e2, d2, f2⟩ := logger_ok w1 f1 (Disk.join (workFolder f "MARGO".toList) (makeLogFileName f))
  have hm : modeOf "MARGO" = some .margo := by decide
  have hd : w2.isdir (workFolder f "MARGO".toList) = true := by unfold Disk.isdir; rw [d2]; exact d1
  obtain ⟨c, hc1, hc2, rfl⟩ := (factory_eq hm w2 (workFolder f "MARGO".toList) exBadBox).1 hd
  obtain ⟨c', a1, -⟩ := C51_whole .margo w2 _ exBadBox _ hc2 fr FILE_CHUNK_LEN (by decide) (Content.msm exGlo5).frame w2
  have hmsg : messages (Content.msm exGlo5).frame = [(Content.msm exGlo5).frame] := by
    have := (messages_clean [(Content.msm exGlo5).frame] (by simpa using hv)).1
    simpa using this
  have hout : outcome .margo (Content.msm exGlo5).frame = some (.msm exGlo5.scaledObj) :=
    outcome_obs rfl hwf.2.2 hcar (C24_scaled exGlo5 hwf.2.2 (by decide) (by decide +kernel) _ hv hcar)
  have hproc : ∀ (d : DecoderTop), d.decoders = registered .margo → (processMsgs fr ⟨d, startPrinter .margo (workFolder f "MARGO".toList) exBadBox⟩ w2
      [(Content.msm exGlo5).frame]).2 ≠ .ok () := by
    intro d hd
    obtain ⟨c1, g1, g2, -⟩ := decode_outcome (m := .margo) (c := ⟨d, startPrinter .margo (workFolder f "MARGO".toList) exBadBox⟩) hd
      (Content.msm exGlo5).frame
    unfold processMsgs
    rw [g1, hout]
    dsimp only
    unfold Converter.print PrinterTop.print
    rw [g2]
    have hps : (startPrinter .margo (workFolder f "MARGO".toList) exBadBox).printers =
      [margoSub { ctrl := exBadBox.margo, wd := workFolder f "MARGO".toList }] := rfl
    rw [hps]
    unfold printLoop
    have hh : (margoSub { ctrl := exBadBox.margo, wd := workFolder f "MARGO".toList }).handles (PyObj.msm exGlo5.scaledObj).cls = true := by
      rw [margo_handles]; rfl
    rw [if_pos hh]
    unfold margoSub
    unfold Impl.print Margo.Printer.print
    dsimp only
    have hp := exGlo5_stops
    split at hp
    · rename_i e he
      have : e = .zeroDivision := by simpa using hp
      subst this
      rw [he]
      simp [catchAsserts]
    · cases hp
  unfold convertFile
  rw [e1]
  dsimp only
  rw [e2]
  dsimp only
  rw [hc1]
  dsimp only
  rw [hs, a1, hmsg, decide_eq_false (hproc _ rfl)]
  exact ⟨_, rfl⟩

/-- The default controls meet the condition of C62. -/
example : Margo.ChannelsOK (Box.mk {} {}).margo := Margo.default_channels

/-- A run over a garbage file, an unreadable file and an empty file. -/
example (fr : Rat → Txt) : ∃ s r, mainLoop fr (fun f => if f = ['a'] then some [0xD3, 0, 1, 2, 3] else if f = ['c'] then some [] else none)
    "JARGO" (some ⟨{}, {}⟩) {} false [['a'], ['b'], ['c']] = some (s, .ok r) ∧ r.length = 3 ∧ r[1]? = some .terminated := by
  have hm : modeOf "JARGO" = some .jargo := by decide
  obtain ⟨s, r, e, h⟩ := C62_run hm fr (fun f => if f = ['a'] then some [0xD3, 0, 1, 2, 3] else if f = ['c'] then some [] else none)
    (some ⟨{}, {}⟩) (fun box hb => by cases hb; exact Margo.default_channels) [['a'], ['b'], ['c']] {}
  rcases h with ⟨-, i, hi⟩ | ⟨vs, rfl, h1, h2⟩
  · cases hi
  · refine ⟨s, vs, e, h1.length_eq.symm, ?_⟩
    have hn := h2 (fun _ => rfl)
    cases h1 with
    | cons a1 h1 => cases h1 with
      | cons a2 h1 =>
        rename_i v _
        cases v with
        | terminated => rfl
        | noFolder => exact absurd (by simp) hn
        | noControls => exact absurd (show some _ = none from a2) (by simp)
        | noConverter => exact a2.elim
        | finishedWithoutErrors => exact absurd rfl a2.2
        | finishedWithErrors => exact absurd rfl a2.2

end Verif
