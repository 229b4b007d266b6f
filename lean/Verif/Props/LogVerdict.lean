import Verif.Props.Log
import Verif.Props.Failures

/-!
# C73: the last line of the log agrees with the lines before it
-/

namespace Verif
open Spec Decoder Conv Run Framer

theorem Run.detail_level (d : Msm.Detail) : detailLevel d ≠ .error := by
  cases d <;> simp [detailLevel]

theorem Run.records_error {m : Mode} (msg : Bytes) : (∀ r ∈ messageRecords m.obsOnly msg (details m msg) (outcome m msg), ¬ announcesError r) ↔
    (supportedMsg m msg && (outcome m msg).isNone) = false := by
  unfold messageRecords supportedMsg supportedIn
  rw [List.forall_mem_append, and_iff_right (by
    intro r hr
    obtain ⟨d, -, rfl⟩ := List.mem_map.1 hr
    exact detail_level d)]
  cases hn : numberIn msg with
  | none => simp [announcesError, Record.level]
  | some k =>
    dsimp only
    cases hf : family k with
    | none => simp [announcesError, Record.level]
    | some f =>
      dsimp only
      cases hx : familyOn m.obsOnly f with
      | false => simp [announcesError, Record.level]
      | true =>
        rw [if_pos rfl]
        cases ho : outcome m msg <;> simp [announcesError, Record.level]

/-- An error is announced in the log of reading a file if and only if the statistics count one; lines about MARGO files that cannot be created
aside. -/
theorem Run.read_error {m : Mode} {w0 : Disk} {wd : Txt} {box : Box} {c : Converter} (h : strategy m w0 wd box = .ok (some c))
    (fr : Rat → Txt) {n : Nat} (hn : 0 < n) {bytes : Bytes} {w : Disk} {y : Converter × Disk}
    (hr : readLoop fr n c w bytes = some (y, .ok ())) (size : Nat) :
    ((∀ r ∈ readLog fr n size 0 c w bytes, announcesError r → aboutCreation r = true) ↔
      verdictOf y.1.statistics = .finishedWithoutErrors) ∧
    ((∀ cls, usesMargo m cls = false) → ∀ r ∈ readLog fr n size 0 c w bytes, aboutCreation r = false) := by
  obtain ⟨s1, s2, s3, s4, s5⟩ := start_state h
  obtain ⟨hok, hst, hy⟩ := stats_true h fr hn hr
  obtain ⟨p1, p2, p3, -, -, p6⟩ := process_log fr (messages bytes) c w s1 s2 hok
  have hread := read_true h fr hn hr size 0
  have a1 : (∀ r ∈ readLog fr n size 0 c w bytes, announcesError r → aboutCreation r = true) ↔
      ∀ r ∈ processLog fr c w (messages bytes), announcesError r → aboutCreation r = true := by
    rw [← hread]
    constructor
    · intro hx r hr
      exact hx r (List.mem_filter.1 hr).1
    · intro hx r hr
      cases hp : isProgress r with
      | false => exact hx r (List.mem_filter.2 ⟨hr, by rw [hp]; rfl⟩)
      | true => cases r <;> simp_all [isProgress, announcesError, Record.level]
  have a2 : (∀ r ∈ processLog fr c w (messages bytes), announcesError r → aboutCreation r = true) ↔
      (processLog fr c w (messages bytes)).count .printFailed = 0 ∧
      ∀ msg ∈ messages bytes, (supportedMsg m msg && (outcome m msg).isNone) = false := by
    constructor
    · intro hx
      refine ⟨?_, fun msg hm => (records_error msg).1 (fun r hr he => ?_)⟩
      · rw [List.count_eq_zero]
        intro hm
        exact absurd (hx _ hm rfl) (by simp [aboutCreation])
      · have hm2 : r ∈ (processLog fr c w (messages bytes)).filter (fun x => !aboutOutput x) := by
          rw [p1]
          exact List.mem_flatMap.2 ⟨msg, hm, hr⟩
        obtain ⟨g1, g2⟩ := List.mem_filter.1 hm2
        have := hx r g1 he
        unfold aboutOutput at g2
        rw [this] at g2
        cases g2
    · rintro ⟨h1, h2⟩ r hr he
      by_cases hp : aboutOutput r = true
      · unfold aboutOutput at hp
        rcases Bool.or_eq_true_iff.1 hp with hp | hp
        · exact hp
        · have := of_decide_eq_true hp
          subst this
          exact absurd hr (List.count_eq_zero.1 h1)
      · have : r ∈ (processLog fr c w (messages bytes)).filter (fun x => !aboutOutput x) := List.mem_filter.2 ⟨hr, by simpa using hp⟩
        rw [p1] at this
        obtain ⟨msg, hm, hr⟩ := List.mem_flatMap.1 this
        exact absurd he ((records_error msg).2 (h2 msg hm) r hr)
  have a3 : y.1.statistics.printing_errors = ((processLog fr c w (messages bytes)).count .printFailed : Nat) := by
    rw [p2, s5]
    show y.1.printer.errors = _
    rw [hy]
    ring
  have a4 : (∀ msg ∈ messages bytes, (supportedMsg m msg && (outcome m msg).isNone) = false) ↔ y.1.statistics.decoding_errors = 0 := by
    rw [hst.decoding, Int.natCast_eq_zero, List.countP_eq_zero]
    simp [Option.isSome_iff_ne_none]
  constructor
  · rw [a1, a2, a4]
    unfold verdictOf
    rw [a3]
    split
    · rename_i hv
      constructor
      · rintro ⟨h1, h2⟩
        rw [h1, h2] at hv
        simp at hv
      · intro hx; cases hx
    · rename_i hv
      simp only [not_or, not_not] at hv
      exact ⟨fun _ => rfl, fun _ => ⟨by exact_mod_cast hv.1, hv.2.1⟩⟩
  · intro hu r hr
    cases hp : isProgress r with
    | true => cases r <;> first | rfl | cases hp
    | false =>
      refine p6 hu r ?_
      rw [← hread]
      exact List.mem_filter.2 ⟨hr, by rw [hp]; rfl⟩

theorem Run.loop_verdict (num : Option Nat) (msg : Bytes) : ∀ l : List SubDecoder, ∀ r ∈ decodeLoopLog num msg l, r ≠ .finishedWithoutErrors
  | [] => by simp [decodeLoopLog]
  | dec :: rest => by
    have ih := loop_verdict num msg rest
    rw [logLoop_cons]
    intro r hr
    split at hr
    · exact ih r hr
    · rw [List.append_assoc] at hr
      rcases List.mem_append.1 hr with hr | hr
      · obtain ⟨d, -, rfl⟩ := List.mem_map.1 hr
        simp
      rcases List.mem_append.1 hr with hr | hr
      · unfold subLog at hr
        split at hr <;> simp at hr <;> subst hr <;> simp
      · split at hr
        · simp at hr; subst hr; simp
        · simp at hr; subst hr; simp
        · split at hr <;> simp at hr
          subst hr; simp

theorem Run.print_verdict (fr : Rat → Txt) (t : PrinterTop) (w : Disk) (o : PyObj) : ∀ r ∈ printLog fr t w o, r ≠ .finishedWithoutErrors := by
  unfold printLog
  intro r hr
  split at hr
  · simp at hr; subst hr; simp
  · rcases List.mem_append.1 hr with hr | hr
    · have := implLog_about _ _ _ r hr
      rintro rfl
      cases this
    · split at hr <;> simp at hr
      subst hr; simp

theorem Run.process_verdict (fr : Rat → Txt) : ∀ (ms : List Bytes) (c : Converter) (w : Disk),
    ∀ r ∈ processLog fr c w ms, r ≠ .finishedWithoutErrors
  | [], _, _ => by simp [processLog]
  | msg :: ms, c, w => by
    rw [processLog_cons]
    intro r hr
    rcases List.mem_append.1 hr with hr | hr
    · exact loop_verdict _ _ _ r hr
    · split at hr
      · exact process_verdict fr ms _ _ r hr
      · rcases List.mem_append.1 hr with hr | hr
        · exact print_verdict _ _ _ _ r hr
        · split at hr
          · simp at hr
          · exact process_verdict fr ms _ _ r hr

theorem Run.read_verdict (fr : Rat → Txt) (n size : Nat) (bytes : Bytes) : ∀ (done : Nat) (c : Converter) (w : Disk),
    ∀ r ∈ readLog fr n size done c w bytes, r ≠ .finishedWithoutErrors := by
  induction hl : bytes.length using Nat.strongRecOn generalizing bytes with
  | ind k ih =>
    intro done c w r hr
    rw [readLog] at hr
    split at hr
    · simp at hr
    · rename_i ht
      split at hr
      · rcases List.mem_append.1 hr with hr | hr
        · exact process_verdict _ _ _ _ r hr
        · split at hr
          · simp at hr
          · rcases List.mem_cons.1 hr with hr | hr
            · subst hr; simp
            · refine ih _ ?_ (bytes.drop n) rfl _ _ _ r hr
              rw [List.length_drop]
              have h1 : n ≠ 0 := by intro h0; subst h0; simp at ht
              have h2 : bytes ≠ [] := by intro h0; subst h0; simp at ht
              have := List.length_pos_iff.2 h2
              omega
      · simp at hr

/-- What a log consists of, if there is a log. -/
theorem Run.log_cases {fr : Rat → Txt} {src : Txt → Option Bytes} {format : String} {controls : Option Box} {w : Disk} {ready : Bool}
    {f : Txt} (h : convertFileLog fr src format controls w ready f ≠ []) :
    (.finishedWithoutErrors ∉ convertFileLog fr src format controls w ready f ∧
      ∃ r ∈ convertFileLog fr src format controls w ready f, announcesError r ∧ aboutCreation r = false) ∨
    ∃ m w0 wd box c bytes y, modeOf format = some m ∧ strategy m w0 wd box = .ok (some c) ∧
      readLoop fr FILE_CHUNK_LEN c w0 bytes = some (y, .ok ()) ∧
      convertFileLog fr src format controls w ready f =
        .opened f :: (readLog fr FILE_CHUNK_LEN bytes.length 0 c w0 bytes ++ [.closing f, verdictRecord (verdictOf y.1.statistics)]) := by
  unfold convertFileLog at h ⊢
  generalize hw : createWorkFolder w f format.toList = cw at h ⊢
  obtain ⟨w1, o⟩ := cw
  cases o with
  | none => exact absurd rfl h
  | some wfld =>
    dsimp only at h ⊢
    split at h
    · rename_i w2 hl
      cases controls with
      | none => exact .inl ⟨by simp, .noControls, by simp, rfl, rfl⟩
      | some box =>
        dsimp only at h ⊢
        cases hf : factory format w2 wfld box with
        | error e => rw [hf] at h; exact absurd rfl h
        | ok oc =>
          rw [hf] at h
          cases oc with
          | none => exact .inl ⟨by simp, .noConverter, by simp, rfl, rfl⟩
          | some c =>
            dsimp only at h ⊢
            have hstr : ∃ m, modeOf format = some m ∧ strategy m w2 wfld box = .ok (some c) := by
              unfold factory at hf
              split at hf
              · cases hf
              · rename_i m hm
                exact ⟨m, hm, hf⟩
            obtain ⟨m, hm, hstr⟩ := hstr
            cases hsrc : src f with
            | none => exact .inl ⟨by simp [decodeRtcmFile, decodeRtcmFileLog, verdictRecord],
                .gotException, by simp [decodeRtcmFile, decodeRtcmFileLog], rfl, rfl⟩
            | some bytes =>
              obtain ⟨st', h1, -⟩ := readLoop_messages fr FILE_CHUNK_LEN (by decide) bytes c w2 (fresh_parser hstr)
              have e3 := read_verdict fr FILE_CHUNK_LEN bytes.length bytes 0 c w2
              cases hp : (processMsgs fr c w2 (messages bytes)).2 with
              | error e =>
                rw [hp] at h1
                have e1 : decodeRtcmFile fr FILE_CHUNK_LEN (some bytes) c w2 = some (((setParser (processMsgs fr c w2 (messages bytes)).1.1 st').release
                    (processMsgs fr c w2 (messages bytes)).1.2), false) := by
                  unfold decodeRtcmFile
                  dsimp only
                  rw [h1]
                  rfl
                rw [e1]
                unfold decodeRtcmFileLog
                dsimp only
                rw [h1]
                refine .inl ⟨?_, .gotException, by simp, rfl, rfl⟩
                intro hm
                simp [verdictRecord] at hm
                exact absurd rfl (e3 _ hm)
              | ok u =>
                rw [hp] at h1
                cases u
                have e1 : decodeRtcmFile fr FILE_CHUNK_LEN (some bytes) c w2 = some (((setParser (processMsgs fr c w2 (messages bytes)).1.1 st').release
                    (processMsgs fr c w2 (messages bytes)).1.2), true) := by
                  unfold decodeRtcmFile
                  dsimp only
                  rw [h1]
                  rfl
                rw [e1]
                dsimp only
                rw [log_ok h1, if_pos rfl]
                refine .inr ⟨m, w2, wfld, box, c, bytes, _, hm, hstr, h1, ?_⟩
                have e4 : ((setParser (processMsgs fr c w2 (messages bytes)).1.1 st').release (processMsgs fr c w2 (messages bytes)).1.2).1.statistics =
                    (setParser (processMsgs fr c w2 (messages bytes)).1.1 st').statistics := rfl
                rw [e4]
                simp
    · exact absurd rfl h

theorem Run.verdict_iff {r : List Record} {f : Txt} {v : Verdict} (h : ∀ x ∈ r, x ≠ .finishedWithoutErrors) :
    .finishedWithoutErrors ∈ .opened f :: (r ++ [.closing f, verdictRecord v]) ↔ v = .finishedWithoutErrors := by
  constructor
  · intro hm
    simp only [List.mem_cons, List.mem_append, reduceCtorEq, List.not_mem_nil, false_or, or_false] at hm
    rcases hm with hm | hm
    · exact absurd rfl (h _ hm)
    · cases v <;> first | rfl | cases hm
  · rintro rfl
    simp [verdictRecord]

/-- **C73** The log of a file says 'Finished without errors' if and only if no line of it announces an error, apart from the lines about MARGO
files that cannot be created. -/
theorem C73_verdict (fr : Rat → Txt) (src : Txt → Option Bytes) (format : String) (controls : Option Box) (w : Disk) (ready : Bool)
    (f : Txt) (h : convertFileLog fr src format controls w ready f ≠ []) :
    .finishedWithoutErrors ∈ convertFileLog fr src format controls w ready f ↔
      ∀ r ∈ convertFileLog fr src format controls w ready f, announcesError r → aboutCreation r = true := by
  rcases log_cases h with ⟨h1, r, h2, h3, h4⟩ | ⟨m, w0, wd, box, c, bytes, y, hm, hs, hr, he⟩
  · refine ⟨fun hx => absurd hx h1, fun hx => ?_⟩
    rw [hx r h2 h3] at h4
    cases h4
  · have e2 := (read_error hs fr (by decide : 0 < FILE_CHUNK_LEN) hr bytes.length).1
    rw [he, verdict_iff (read_verdict fr FILE_CHUNK_LEN bytes.length bytes 0 c w0), ← e2]
    constructor
    · intro hx r hr2 hr3
      have hv := e2.1 hx
      rw [hv] at hr2
      simp only [List.mem_cons, List.mem_append, List.not_mem_nil, or_false] at hr2
      rcases hr2 with rfl | hr2 | rfl | rfl
      · cases hr3
      · exact hx r hr2 hr3
      · cases hr3
      · cases hr3
    · intro hx r hr2
      exact hx r (by simp [hr2])

/-- **C73** (partial) Full statement: the log of a file says 'Finished without errors' if and only if no line of it announces an error. Missing:
the modes with MARGO, see `C73_violated` and `C73_verdict`. -/
theorem C73_partial (fr : Rat → Txt) (src : Txt → Option Bytes) (format : String) (hf : format = "JSON" ∨ format = "JSON-B")
    (controls : Option Box) (w : Disk) (ready : Bool) (f : Txt) (h : convertFileLog fr src format controls w ready f ≠ []) :
    .finishedWithoutErrors ∈ convertFileLog fr src format controls w ready f ↔
      ∀ r ∈ convertFileLog fr src format controls w ready f, ¬ announcesError r := by
  refine ⟨fun hx => ?_, fun hx => (C73_verdict fr src format controls w ready f h).2 (fun r hr he => absurd he (hx r hr))⟩
  have hy := (C73_verdict fr src format controls w ready f h).1 hx
  rcases log_cases h with ⟨h1, -⟩ | ⟨m, w0, wd, box, c, bytes, y, hm, hs, hr, he⟩
  · exact absurd hx h1
  · have hu : ∀ cls, usesMargo m cls = false := by
      rcases hf with rfl | rfl <;> (cases hm; intro cls; rfl)
    have e2 := (read_error hs fr (by decide : 0 < FILE_CHUNK_LEN) hr bytes.length).2 hu
    have hv := (verdict_iff (read_verdict fr FILE_CHUNK_LEN bytes.length bytes 0 c w0)).1 (by rw [he] at hx; exact hx)
    intro r hr2 hr3
    have hr4 := hy r hr2 hr3
    rw [he, hv] at hr2
    simp only [List.mem_cons, List.mem_append, List.not_mem_nil, or_false] at hr2
    rcases hr2 with rfl | hr2 | rfl | rfl
    · cases hr4
    · rw [e2 r hr2] at hr4
      cases hr4
    · cases hr4
    · cases hr4

/-- Both verdicts occur: the file is empty or cannot be opened. -/
example (fr : Rat → Txt) (box : Box) :
    convertFileLog fr (fun _ => some []) "JSON" (some box) {} false "x.rtcm".toList =
      [.opened "x.rtcm".toList, .closing "x.rtcm".toList, .finishedWithoutErrors] ∧
    convertFileLog fr (fun _ => none) "JSON" (some box) {} false "x.rtcm".toList =
      [.gotException, .exceptionText, .notOpened "x.rtcm".toList, .terminated] := by
  have hfld : createWorkFolder {} "x.rtcm".toList "JSON".toList =
      ({ dirs := [workFolder "x.rtcm".toList "JSON".toList], calls := 1 }, some (workFolder "x.rtcm".toList "JSON".toList)) := rfl
  have hlog : ∃ w1 : Disk, initLogger { dirs := [workFolder "x.rtcm".toList "JSON".toList], calls := 1 } false
      (Disk.join (workFolder "x.rtcm".toList "JSON".toList) (makeLogFileName "x.rtcm".toList)) = ((w1, true), .ok ()) ∧
      w1.isdir (workFolder "x.rtcm".toList "JSON".toList) = true := by
    unfold initLogger init2CH Disk.openW
    refine ⟨_, rfl, ?_⟩
    simp [Disk.isdir, Disk.write]
  obtain ⟨w1, g1, g2⟩ := hlog
  have hst : ∃ c, strategy .json w1 (workFolder "x.rtcm".toList "JSON".toList) box = .ok (some c) := by
    unfold strategy
    obtain ⟨d, hd⟩ := C17_strategy .json
    rw [hd, strategyPrinter_eq, g2]
    exact ⟨_, rfl⟩
  obtain ⟨c, hc⟩ := hst
  have hfac : factory "JSON" w1 (workFolder "x.rtcm".toList "JSON".toList) box = .ok (some c) := hc
  obtain ⟨-, -, s3, s4, s5⟩ := start_state hc
  have hv : verdictOf c.statistics = .finishedWithoutErrors := by
    unfold verdictOf Converter.statistics DecoderTop.decErrors
    rw [s3, s4, s5]
    rfl
  have hl : readLoop fr FILE_CHUNK_LEN c w1 [] = some ((c, w1), .ok ()) := by
    unfold readLoop
    rw [dif_pos (by simp)]
  have hg : readLog fr FILE_CHUNK_LEN 0 0 c w1 [] = [] := by
    unfold readLog
    rw [dif_pos (by simp)]
  constructor
  · unfold convertFileLog
    rw [hfld]
    dsimp only
    rw [g1]
    dsimp only
    rw [hfac]
    dsimp only
    have e1 : decodeRtcmFile fr FILE_CHUNK_LEN (some []) c w1 = some (c.release w1, true) := by
      unfold decodeRtcmFile
      dsimp only
      rw [hl]
      rfl
    rw [e1, log_ok hl]
    dsimp only
    rw [if_pos rfl]
    have e2 : (c.release w1).1.statistics = c.statistics := rfl
    rw [e2, hv, List.length_nil, hg]
    rfl
  · unfold convertFileLog
    rw [hfld]
    dsimp only
    rw [g1]
    dsimp only
    rw [hfac]
    rfl

theorem Run.rowsLog_faulty (f : Txt) (row : Margo.Row) (rows : PyDict Txt Margo.Row) (p : Margo.Printer) (w : Disk) (hp : p.ofiles = [])
    (hw : ∀ i, w.calls ≤ i → w.fault i = true) (hn : ∃ g k slot u, Margo.Named g k slot u (f, row)) :
    .notCreatedText ∈ rowsLog p w ((f, row) :: rows) := by
  obtain ⟨g, k, slot, u, hn⟩ := hn
  unfold rowsLog
  have hcs := hn.chars.2.1
  have hc := hn.chars.1
  dsimp only at hcs hc
  rw [hcs, ok_bind, Margo.format_ok]
  dsimp only
  refine List.mem_append_left _ ?_
  rw [hp, if_neg (by simp [PyDict.mem, PyDict.get?])]
  unfold createLog
  rw [hc, ok_bind, Margo.dir_ok g hn.lt]
  dsimp only
  have hf := hw w.calls (Nat.le_refl _)
  cases hd : w.isdir (Disk.join p.wd (margoDir g).toList) with
  | true => simp [Disk.openW, hf]
  | false => simp [Disk.makedirs, hf]

/-- **C73** is violated by MARGO: with the default controls, on a file system where the work folder and the log file can be created but no
other file, a file with one message is converted; the log says that a file could not be created and, at the end, 'Finished without
errors'. -/
theorem C73_violated : ∃ bytes, ValidFrame bytes ∧ ∀ (fr : Rat → Txt) (f : Txt),
    let log := convertFileLog fr (fun _ => some bytes) "MARGO" (some { margo := {}, json := {} }) threeCalls false f
    .finishedWithoutErrors ∈ log ∧ ∃ r ∈ log, announcesError r := by
  have hwf : (Content.msm exMsm5).WellFormed := (exContents_ok _ (by simp [exContents])).1
  have hacc : (Content.msm exMsm5).AcceptedScaled := ⟨(exContents_ok _ (by simp [exContents])).2, by decide +kernel, by decide +kernel⟩
  have hv := frame_valid hwf
  obtain ⟨hout, hreg⟩ := outcome_margo_msm hwf hacc
  refine ⟨(Content.msm exMsm5).frame, hv, ?_⟩
  intro fr f
  dsimp only
  generalize (Content.msm exMsm5).frame = bytes at hout hv
  set box : Box := { margo := {}, json := {} } with hbox
  obtain ⟨w1, w2, e1, e2, e3, e4⟩ : ∃ w1 w2, createWorkFolder threeCalls f "MARGO".toList = (w1, some (workFolder f "MARGO".toList)) ∧
      initLogger w1 false (logPath f "MARGO") = ((w2, true), .ok ()) ∧ w2.isdir (workFolder f "MARGO".toList) = true ∧
      (∀ i, w2.calls ≤ i → w2.fault i = true) := by
    refine ⟨{ dirs := [workFolder f "MARGO".toList], fault := threeCalls.fault, calls := 1 },
      { dirs := [workFolder f "MARGO".toList], files := [(logPath f "MARGO", logHead)], fault := threeCalls.fault, calls := 3 }, ?_, ?_, ?_, ?_⟩
    · rfl
    · unfold initLogger init2CH Disk.openW Disk.write
      simp [threeCalls, PyDict.set, PyDict.get?, PyDict.mem]
    · simp [Disk.isdir]
    · intro i hi
      simpa [threeCalls] using hi
  obtain ⟨c, c1, c2, c3⟩ := (factory_eq (format := "MARGO") rfl w2 (workFolder f "MARGO".toList) box).1 e3
  have hmsg : messages bytes = [bytes] := by
    have := (messages_clean [bytes] (by simpa using hv)).1
    simpa using this
  have hbuf := Margo.printBuffer_ok box.margo hreg (fun h => absurd h (by decide))
  have hnamed := Margo.mrows_named box.margo (t := (if exMsm5.g = 0 then (exMsm5.scaledObj.hdr.time : Int) else
    Margo.convToGpsTime exMsm5.scaledObj.hdr.time exMsm5.scaledObj.hdr.day box.margo.gps_utc_shift (gnssLetter exMsm5.g))) hreg
    (fun h => absurd h (by decide)) (kindsOf (Margo.settings box.margo))
  generalize hrows : Margo.mrows (Margo.settings box.margo) exMsm5.g (if exMsm5.g = 0 then (exMsm5.scaledObj.hdr.time : Int) else
    Margo.convToGpsTime exMsm5.scaledObj.hdr.time exMsm5.scaledObj.hdr.day box.margo.gps_utc_shift (gnssLetter exMsm5.g)) exMsm5.scaledObj
    (kindsOf (Margo.settings box.margo)) = rows at hbuf hnamed
  have hne : rows ≠ [] := by
    rw [← hrows]
    decide +kernel
  have hbad : .notCreatedText ∈ implLog w2 (.msm exMsm5.scaledObj) (.margo { ctrl := box.margo, wd := workFolder f "MARGO".toList }) := by
    unfold implLog
    dsimp only
    rw [hbuf]
    dsimp only
    cases rows with
    | nil => exact absurd rfl hne
    | cons r rows =>
      obtain ⟨n, row⟩ := r
      refine rowsLog_faulty n row rows _ w2 rfl e4 ?_
      exact (hnamed _ (by simp)).imp (fun g h => h.imp (fun k h => h.imp (fun s h => h.imp (fun u h => h.1))))
  obtain ⟨w3, p1, -⟩ := Margo.printRows_faulty rows { ctrl := box.margo, wd := workFolder f "MARGO".toList } w2 rfl e4
    (fun r hr => (hnamed r hr).imp (fun g h => h.imp (fun k h => h.imp (fun s h => h.imp (fun u h => h.1)))))
  have hp : Margo.Printer.print { ctrl := box.margo, wd := workFolder f "MARGO".toList } w2 (.msm exMsm5.scaledObj) =
      (({ ctrl := box.margo, wd := workFolder f "MARGO".toList }, w3), .ok ()) := by
    unfold Margo.Printer.print
    dsimp only
    rw [hbuf]
    exact p1
  obtain ⟨c4, d1, d2, d3, -, -⟩ := decode_outcome (m := .margo) (c := c) (by rw [c3]) bytes
  rw [hout] at d1
  have hprl : printLog fr c4.printer w2 (.msm exMsm5.scaledObj) =
      implLog w2 (.msm exMsm5.scaledObj) (.margo { ctrl := box.margo, wd := workFolder f "MARGO".toList }) := by
    rw [d2, c3]
    unfold printLog startPrinter
    dsimp only
    rw [List.find?_cons_of_pos (by rfl)]
    dsimp only
    unfold Impl.print
    dsimp only
    rw [hp]
    simp
  have hdl : decodeLog c.decoder bytes = messageRecords Mode.margo.obsOnly bytes (details .margo bytes) (some (.msm exMsm5.scaledObj)) := by
    rw [decodeLog_eq (m := .margo) (by rw [c3]) bytes, hout]
  have hplog : ∃ tail, processLog fr c w2 [bytes] = messageRecords Mode.margo.obsOnly bytes (details .margo bytes) (some (.msm exMsm5.scaledObj)) ++
      (implLog w2 (.msm exMsm5.scaledObj) (.margo { ctrl := box.margo, wd := workFolder f "MARGO".toList }) ++ tail) ∧ tail = [] := by
    refine ⟨[], ?_, rfl⟩
    rw [processLog_cons, hdl, d1]
    dsimp only
    rw [hprl]
    congr 2
    split <;> rfl
  obtain ⟨tail, hplog, rfl⟩ := hplog
  rw [List.append_nil] at hplog
  obtain ⟨c', w', hd⟩ := file_total c2 Margo.default_channels fr (by decide : 0 < FILE_CHUNK_LEN) bytes w2
  obtain ⟨y, hr, hst⟩ := decode_true hd
  have hread := read_true c2 fr (by decide : 0 < FILE_CHUNK_LEN) hr bytes.length 0
  rw [hmsg, hplog] at hread
  have hin : .notCreatedText ∈ readLog fr FILE_CHUNK_LEN bytes.length 0 c w2 bytes := by
    have hm : .notCreatedText ∈ (readLog fr FILE_CHUNK_LEN bytes.length 0 c w2 bytes).filter (fun x => !isProgress x) := by
      rw [hread]
      exact List.mem_append_right _ hbad
    exact (List.mem_filter.1 hm).1
  have hver : verdictOf y.1.statistics = .finishedWithoutErrors := by
    refine (read_error c2 fr (by decide : 0 < FILE_CHUNK_LEN) hr bytes.length).1.1 ?_
    intro r hr1 hr2
    have hmem : r ∈ (readLog fr FILE_CHUNK_LEN bytes.length 0 c w2 bytes).filter (fun x => !isProgress x) := by
      refine List.mem_filter.2 ⟨hr1, ?_⟩
      cases r <;> first | rfl | cases hr2
    rw [hread] at hmem
    rcases List.mem_append.1 hmem with hm | hm
    · have := (records_error (m := .margo) bytes).2 (by rw [hout]; simp) r (by rw [hout]; exact hm)
      exact absurd hr2 this
    · exact implLog_about _ _ _ r hm
  have hlog : convertFileLog fr (fun _ => some bytes) "MARGO" (some box) threeCalls false f =
      .opened f :: (readLog fr FILE_CHUNK_LEN bytes.length 0 c w2 bytes ++ [.closing f]) ++ [.finishedWithoutErrors] := by
    unfold convertFileLog
    rw [e1]
    dsimp only
    rw [show Disk.join (workFolder f "MARGO".toList) (makeLogFileName f) = logPath f "MARGO" from rfl, e2]
    dsimp only
    rw [c1]
    dsimp only
    rw [hd, log_ok hr]
    dsimp only
    rw [if_pos rfl, hst, hver]
    rfl
  rw [hlog]
  exact ⟨by simp, .notCreatedText, by simp [hin], rfl⟩

end Verif
