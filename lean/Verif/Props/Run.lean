import Verif.Lemmas.Run

/-!
# C48, C50, C51: the conversion of files
-/

namespace Verif
open Spec Decoder Conv Run

/-! ## C51 -/

theorem Run.fresh_parser {m : Mode} {w : Disk} {wd : Txt} {box : Box} {c : Converter} (h : strategy m w wd box = .ok (some c)) :
    c.decoder.parser = Framer.Parser.init := by
  have h1 := (strategy_cases h).1
  rw [strategy_eq] at h1
  have e1 : c.decoder = { decoders := registered m } := (Option.some.inj (Except.ok.inj h1)).symm
  rw [e1]

/-- **C51** For every chunk size the result of converting a file is that of processing, in order, the messages which the scan of the whole
file yields: the same files, the same return value, the same decoding and printing counters. If it returns `True`, the parsing errors are
those of the scan as well. -/
theorem C51_whole (m : Mode) (w0 : Disk) (wd : Txt) (box : Box) (c : Converter) (h : strategy m w0 wd box = .ok (some c))
    (fr : Rat → Txt) (n : Nat) (hn : 0 < n) (bytes : Bytes) (w : Disk) :
    ∃ c', decodeRtcmFile fr n (some bytes) c w =
        some ((c', ((processMsgs fr c w (messages bytes)).1.1.release (processMsgs fr c w (messages bytes)).1.2).2),
          decide ((processMsgs fr c w (messages bytes)).2 = .ok ())) ∧
      c'.printer = ((processMsgs fr c w (messages bytes)).1.1.release (processMsgs fr c w (messages bytes)).1.2).1.printer ∧
      c'.decoder.attempts = (processMsgs fr c w (messages bytes)).1.1.decoder.attempts ∧
      c'.decoder.succeeded = (processMsgs fr c w (messages bytes)).1.1.decoder.succeeded ∧
      ((processMsgs fr c w (messages bytes)).2 = .ok () → c'.decoder.parser.parsErrCnt = dirtyGaps (scan [] bytes).segs) := by
  obtain ⟨st', h1, h2⟩ := readLoop_messages fr n hn bytes c w (fresh_parser h)
  unfold decodeRtcmFile
  dsimp only
  rw [h1]
  refine ⟨setParser ((processMsgs fr c w (messages bytes)).1.1.release (processMsgs fr c w (messages bytes)).1.2).1 st', ?_, rfl, rfl, rfl, h2⟩
  cases hr : (processMsgs fr c w (messages bytes)).2 with
  | ok u => cases u; rfl
  | error e => rfl

/-- **C51** Two chunk sizes give the same files and the same return value; if the return value is `True`, also the same statistics. -/
theorem C51_chunk_size (m : Mode) (w0 : Disk) (wd : Txt) (box : Box) (c : Converter) (h : strategy m w0 wd box = .ok (some c))
    (fr : Rat → Txt) (n n' : Nat) (hn : 0 < n) (hn' : 0 < n') (content : Option Bytes) (w : Disk) :
    ∃ c1 c2 w' ok, decodeRtcmFile fr n content c w = some ((c1, w'), ok) ∧ decodeRtcmFile fr n' content c w = some ((c2, w'), ok) ∧
      (ok = true → c1.statistics = c2.statistics) := by
  cases content with
  | none => exact ⟨_, _, _, _, rfl, rfl, fun _ => rfl⟩
  | some bytes =>
    obtain ⟨c1, a1, a2, a3, a4, a5⟩ := C51_whole m w0 wd box c h fr n hn bytes w
    obtain ⟨c2, b1, b2, b3, b4, b5⟩ := C51_whole m w0 wd box c h fr n' hn' bytes w
    refine ⟨c1, c2, _, _, a1, b1, fun ho => ?_⟩
    have ho := of_decide_eq_true ho
    unfold Converter.statistics DecoderTop.decErrors
    rw [a2, b2, a3, b3, a4, b4, a5 ho, b5 ho]

/-- The hypotheses are met in each mode. -/
example (m : Mode) (box : Box) : ∃ c, strategy m { dirs := [['w']] } ['w'] box = .ok (some c) := by
  unfold strategy
  obtain ⟨d, hd⟩ := C17_strategy m
  rw [hd, strategyPrinter_eq]
  exact ⟨_, rfl⟩

/-! ## C48 -/

/-- **C48** (partial) 'Finished without errors' is reported only if the file was processed to its end and there was neither a decoding
error nor a printing error. Missing: parsing errors, see `C48_violated`. -/
theorem C48_partial (fr : Rat → Txt) (src : Txt → Option Bytes) (format : String) (controls : Option Box) (w : Disk) (ready : Bool)
    (f : Txt) (s : Disk × Bool) (h : convertFile fr src format controls w ready f = some (s, .ok .finishedWithoutErrors)) :
    ∃ c c' w1 w2, decodeRtcmFile fr 4096 (src f) c w1 = some ((c', w2), true) ∧
      c'.statistics.decoding_errors = 0 ∧ c'.statistics.printing_errors = 0 := by
  unfold convertFile at h
  split at h
  · cases h
  · split at h
    · cases h
    · split at h
      · cases h
      · split at h
        · cases h
        · cases h
        · rename_i c _
          split at h
          · cases h
          · rename_i c' w2 ok hd
            cases ok with
            | false => cases h
            | true =>
              refine ⟨c, c', _, w2, hd, ?_⟩
              have hv : verdictOf c'.statistics = .finishedWithoutErrors := by
                simp only [if_true, Option.some.injEq, Prod.mk.injEq, Except.ok.injEq] at h
                exact h.2
              unfold verdictOf at hv
              split at hv
              · cases hv
              · rename_i hne
                rw [not_or, not_or, not_not, not_not] at hne
                exact ⟨hne.2.1, hne.1⟩

/-- A valid frame of a message that is not supported. -/
def exOther : Bytes := frame [0, 0, 0]

theorem exOther_valid : ValidFrame exOther := by decide +kernel

/-- **C48** is violated: there is a file (two frames with a damaged byte sequence between them) for which a parsing error is counted and
'Finished without errors' is reported, in every mode and with all controls. -/
theorem C48_violated : ∃ bytes : Bytes, ∀ (m : Mode) (format : String) (box : Box) (fr : Rat → Txt), modeOf format = some m →
    (∃ w', convertFile fr (fun _ => some bytes) format (some box) {} false "x.rtcm".toList = some ((w', false), .ok .finishedWithoutErrors)) ∧
    ∀ w0 wd c w, strategy m w0 wd box = .ok (some c) →
      ∃ c' w', decodeRtcmFile fr 4096 (some bytes) c w = some ((c', w'), true) ∧ c'.statistics.parsing_errors = 1 ∧
        verdictOf c'.statistics = .finishedWithoutErrors := by
  refine ⟨exOther ++ [0x11] ++ exOther, ?_⟩
  have hscan : scan [] (exOther ++ [0x11] ++ exOther) = ⟨[⟨[], exOther⟩, ⟨[0x11], exOther⟩], [], []⟩ := by
    have := scan_noisy [⟨[], exOther⟩, ⟨[0x11], exOther⟩] [] (by simp [exOther_valid]) (by simp) (by simp)
    simpa [List.append_assoc] using this
  have hmsg : messages (exOther ++ [0x11] ++ exOther) = [exOther, exOther] := by
    unfold messages; rw [hscan]; rfl
  have hdirty : dirtyGaps (scan [] (exOther ++ [0x11] ++ exOther)).segs = 1 := by rw [hscan]; decide
  have main : ∀ (m : Mode) (box : Box) (fr : Rat → Txt) w0 wd c w, strategy m w0 wd box = .ok (some c) →
      ∃ c' w', decodeRtcmFile fr 4096 (some (exOther ++ [0x11] ++ exOther)) c w = some ((c', w'), true) ∧ c'.statistics.parsing_errors = 1 ∧
        verdictOf c'.statistics = .finishedWithoutErrors := by
    intro m box fr w0 wd c w h
    obtain ⟨h1, h2⟩ := strategy_cases h
    have hd : ∀ c : Converter, c.decoder.decoders = registered m → c.decode exOther = (c, none) := by
      intro c hc
      have hn : numberIn exOther = some 0 := by decide +kernel
      unfold Converter.decode
      rw [decode_eq hc, hn]
      rfl
    have hdec : c.decoder.decoders = registered m := reach_decoders (.start h1)
    have hp : processMsgs fr c w [exOther, exOther] = ((c, w), .ok ()) := by
      unfold processMsgs
      rw [hd c hdec]
      dsimp only
      unfold processMsgs
      rw [hd c hdec]
      rfl
    obtain ⟨c', a1, a2, a3, a4, a5⟩ := C51_whole m w0 wd box c h fr 4096 (by decide) (exOther ++ [0x11] ++ exOther) w
    rw [hmsg, hp] at a1 a2 a3 a4 a5
    rw [hdirty] at a5
    refine ⟨c', _, a1, a5 rfl, ?_⟩
    rw [strategy_eq] at h1
    have e1 : c.decoder = { decoders := registered m } := (Option.some.inj (Except.ok.inj h1)).symm
    have e2 : c.printer = startPrinter m wd box := by
      rw [strategyPrinter_eq] at h2
      split at h2
      · exact (Option.some.inj (Except.ok.inj h2)).symm
      · cases h2
    have hpr : c'.printer.attempts = 0 ∧ c'.printer.succeeded = 0 := by
      rw [a2]
      show c.printer.attempts = 0 ∧ c.printer.succeeded = 0
      rw [e2]
      cases m <;> exact ⟨rfl, rfl⟩
    unfold verdictOf Converter.statistics DecoderTop.decErrors PrinterTop.errors
    rw [a3, a4, hpr.1, hpr.2, e1]
    rfl
  intro m format box fr hm
  refine ⟨?_, fun w0 wd c w h => main m box fr w0 wd c w h⟩
  have hfld : createWorkFolder {} "x.rtcm".toList format.toList =
      ({ dirs := [workFolder "x.rtcm".toList format.toList], calls := 1 }, some (workFolder "x.rtcm".toList format.toList)) := rfl
  unfold convertFile
  rw [hfld]
  dsimp only
  have hlog : ∃ w1 : Disk, initLogger { dirs := [workFolder "x.rtcm".toList format.toList], calls := 1 } false
      (Disk.join (workFolder "x.rtcm".toList format.toList) (makeLogFileName "x.rtcm".toList)) = ((w1, true), .ok ()) ∧
      w1.isdir (workFolder "x.rtcm".toList format.toList) = true := by
    unfold initLogger init2CH Disk.openW
    refine ⟨_, rfl, ?_⟩
    simp [Disk.isdir, Disk.write]
  obtain ⟨w1, g1, g2⟩ := hlog
  rw [g1]
  dsimp only
  have hst : ∃ c, strategy m w1 (workFolder "x.rtcm".toList format.toList) box = .ok (some c) := by
    unfold strategy
    obtain ⟨d, hd⟩ := C17_strategy m
    rw [hd, strategyPrinter_eq, g2]
    exact ⟨_, rfl⟩
  obtain ⟨c, hc⟩ := hst
  unfold factory
  rw [hm]
  dsimp only
  rw [hc]
  dsimp only
  obtain ⟨c', w', b1, b2, b3⟩ := main m box fr w1 _ c w1 hc
  unfold FILE_CHUNK_LEN
  rw [b1]
  dsimp only
  rw [b3]
  exact ⟨w', rfl⟩

/-- Each mode has a format name. -/
example : modeOf "MARGO" = some .margo ∧ modeOf "JSON" = some .json ∧ modeOf "JSON-B" = some .jsonB ∧ modeOf "JARGO" = some .jargo := by
  decide

/-! ## C50 -/

/-- **C50** The logger is released after each file: if it was not initialised before, it is not initialised afterwards, whatever
happens, unless the program ends with an exception. -/
theorem C50_released (fr : Rat → Txt) (src : Txt → Option Bytes) (format : String) (controls : Option Box) (w : Disk) (f : Txt)
    (w' : Disk) (ready : Bool) (v : Run.Verdict) (h : convertFile fr src format controls w false f = some ((w', ready), .ok v)) : ready = false := by
  unfold convertFile deinit at h
  split at h
  · cases h; rfl
  · split at h
    · cases h
    · split at h
      · cases h; rfl
      · split at h
        · cases h
        · cases h; rfl
        · split at h
          · cases h
          · cases h; rfl

/-- The work folder that `create_work_folder` returns exists. -/
theorem Run.createWorkFolder_some {w w1 : Disk} {src pfx wfld : Txt} (h : createWorkFolder w src pfx = (w1, some wfld)) :
    wfld = workFolder src pfx ∧ w1.isdir wfld = true ∧
      w1.files = (if w.isdir wfld then (w.rmtree wfld).1 else w).files := by
  have mk : ∀ (w0 : Disk) (fld : Txt), (w0.makedirs fld).2 = true → (w0.makedirs fld).1.isdir fld = true ∧ (w0.makedirs fld).1.files = w0.files := by
    intro w0 fld hm
    unfold Disk.makedirs at hm ⊢
    split
    · rename_i hf
      rw [if_pos hf] at hm
      cases hm
    · simp [Disk.isdir]
  unfold createWorkFolder at h
  generalize workFolder src pfx = fld at h ⊢
  dsimp only at h
  cases hd : w.isdir fld with
  | true =>
    rw [hd, if_pos rfl] at h
    split at h
    · split at h
      · rename_i h2
        have e := Prod.mk.inj h
        have e2 := Option.some.inj e.2
        subst e2
        rw [hd, ← e.1]
        exact ⟨rfl, mk _ _ h2⟩
      · cases (Prod.mk.inj h).2
    · cases (Prod.mk.inj h).2
  | false =>
    rw [hd, if_neg Bool.false_ne_true] at h
    dsimp only at h
    rw [if_pos rfl] at h
    split at h
    · rename_i h2
      have e := Prod.mk.inj h
      have e2 := Option.some.inj e.2
      subst e2
      rw [hd, ← e.1]
      exact ⟨rfl, mk _ _ h2⟩
    · cases (Prod.mk.inj h).2

/-- **C50** For every list of files, all contents, controls and file system failures: each file is started with the logger not
initialised, so 'Logger already exists' is never raised. The only exception that can leave the loop is an `OSError` from opening
the log file. -/
theorem C50_no_assert (fr : Rat → Txt) (src : Txt → Option Bytes) (format : String) (controls : Option Box) (files : List Txt) :
    ∀ (w : Disk) (s : Disk × Bool) (e : PyErr), mainLoop fr src format controls w false files = some (s, .error e) → e = .osError := by
  have one : ∀ (w : Disk) (f : Txt) (s : Disk × Bool) (e : PyErr), convertFile fr src format controls w false f = some (s, .error e) →
      e = .osError := by
    intro w f s e h
    unfold convertFile at h
    split at h
    · cases h
    · rename_i w1 wfld hfld
      have hdir : w1.isdir wfld = true := (createWorkFolder_some hfld).2.1
      split at h
      · rename_i s' e' hl
        have he : e' = e := by cases h; rfl
        subst he
        unfold initLogger init2CH at hl
        split at hl
        · cases hl
        · simp only [Bool.false_eq_true, if_false] at hl
          split at hl
          · cases hl; rfl
          · cases hl
      · rename_i w2 ready hl
        have hdir2 : w2.isdir wfld = true := by
          unfold initLogger init2CH at hl
          have ho : ∀ p, (w1.openW p).1.dirs = w1.dirs := by intro p; unfold Disk.openW; split <;> rfl
          split at hl
          · rename_i hop
            have e1 : (w1.openW (Disk.join wfld (makeLogFileName f))).1 = w2 := by rw [hop]; cases hl; rfl
            unfold Disk.isdir at hdir ⊢
            rw [← e1, ho]; exact hdir
          · rename_i w3 hop
            simp only [Bool.false_eq_true, if_false] at hl
            have e1 : w3 = (w1.openW (Disk.join wfld (makeLogFileName f))).1 := by rw [hop]
            split at hl
            · cases hl
            · have e2 : w2.dirs = w3.dirs := by cases hl; rfl
              unfold Disk.isdir at hdir ⊢
              rw [e2, e1, ho]; exact hdir
        split at h
        · cases h
        · rename_i box _
          split at h
          · rename_i e' hfac
            exfalso
            unfold factory at hfac
            split at hfac
            · cases hfac
            · rename_i mode _
              unfold strategy at hfac
              obtain ⟨d, hd⟩ := C17_strategy mode
              rw [hd, strategyPrinter_eq, hdir2] at hfac
              cases hfac
          · cases h
          · split at h
            · cases h
            · cases h
  induction files with
  | nil => intro w s e h; cases h
  | cons f rest ih =>
    intro w s e h
    unfold mainLoop at h
    split at h
    · cases h
    · rename_i s' e' hc
      cases h
      exact one w f _ _ hc
    · rename_i w' ready v hc
      have hr := C50_released fr src format controls w f w' ready v hc
      subst hr
      split at h
      · cases h
      · rename_i s' e' hm
        cases h
        exact ih w' _ _ hm
      · cases h

/-- Initialising a logger that is in use would raise; the model can show the error. -/
example : ∃ s, init2CH {} true = (s, .error .assertionError) := ⟨_, rfl⟩

/-- The outcomes in question occur: no controls, a missing converter, a file that cannot be opened. -/
example (fr : Rat → Txt) (box : Box) :
    (∃ w', mainLoop fr (fun _ => none) "JSON" none {} false ["a.r".toList, "b.r".toList] = some ((w', false), .ok [.noControls, .noControls])) ∧
    (∃ w', mainLoop fr (fun _ => none) "XML" (some box) {} false ["a.r".toList, "b.r".toList] = some ((w', false), .ok [.noConverter, .noConverter])) ∧
    (∃ w', mainLoop fr (fun _ => none) "JSON" none { fault := fun i => i == 0 } false ["a.r".toList, "b.r".toList] =
      some ((w', false), .ok [.noFolder, .noControls])) := ⟨⟨_, rfl⟩, ⟨_, rfl⟩, ⟨_, rfl⟩⟩

end Verif
