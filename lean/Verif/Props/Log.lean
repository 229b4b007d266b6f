import Verif.Lemmas.Log

/-!
# C72: the log of a conversion tells the truth
-/

namespace Verif
open Spec Decoder Conv Run Framer

/-- Statistics that are right about a stream: the number of frames with a supported number, the number of frames that are preceded by
discarded bytes, and the number of frames with a supported number whose content could not be decoded. -/
structure Run.StatsTrue (m : Mode) (bytes : Bytes) (st : Stats) : Prop where
  attempts : st.decoding_attempts = (messages bytes).countP (supportedMsg m)
  parsing : st.parsing_errors = dirtyGaps (scan [] bytes).segs
  decoding : st.decoding_errors = ((messages bytes).countP (fun msg => supportedMsg m msg && (outcome m msg).isNone) : Nat)

theorem Run.start_state {m : Mode} {w0 : Disk} {wd : Txt} {box : Box} {c : Converter} (h : strategy m w0 wd box = .ok (some c)) :
    Reach m c.decoder ∧ PReach m c.printer ∧ c.decoder.attempts = 0 ∧ c.decoder.succeeded = 0 ∧ c.printer.errors = 0 := by
  obtain ⟨h1, h2⟩ := strategy_cases h
  refine ⟨.start h1, .start h2, ?_⟩
  rw [strategy_eq] at h1
  have e1 : c.decoder = { decoders := registered m } := (Option.some.inj (Except.ok.inj h1)).symm
  have e2 : c.printer = startPrinter m wd box := by
    rw [strategyPrinter_eq] at h2
    split at h2
    · exact (Option.some.inj (Except.ok.inj h2)).symm
    · cases h2
  rw [e1, e2]
  cases m <;> exact ⟨rfl, rfl, rfl⟩

theorem Run.stats_true {m : Mode} {w0 : Disk} {wd : Txt} {box : Box} {c : Converter} (h : strategy m w0 wd box = .ok (some c))
    (fr : Rat → Txt) {n : Nat} (hn : 0 < n) {bytes : Bytes} {w : Disk} {y : Converter × Disk}
    (hr : readLoop fr n c w bytes = some (y, .ok ())) :
    (processMsgs fr c w (messages bytes)).2 = .ok () ∧ StatsTrue m bytes y.1.statistics ∧
      y.1.printer = (processMsgs fr c w (messages bytes)).1.1.printer := by
  obtain ⟨s1, s2, s3, s4, s5⟩ := start_state h
  obtain ⟨st', h1, h2⟩ := readLoop_messages fr n hn bytes c w (fresh_parser h)
  rw [hr] at h1
  have h1 := Option.some.inj h1
  have hok : (processMsgs fr c w (messages bytes)).2 = .ok () := (congrArg Prod.snd h1).symm
  have hy : y = (setParser (processMsgs fr c w (messages bytes)).1.1 st', (processMsgs fr c w (messages bytes)).1.2) := congrArg Prod.fst h1
  obtain ⟨-, -, -, p4, p5, -⟩ := process_log fr (messages bytes) c w s1 s2 hok
  refine ⟨hok, ?_, by rw [hy]; rfl⟩
  subst hy
  refine ⟨?_, h2 hok, ?_⟩
  · show (processMsgs fr c w (messages bytes)).1.1.decoder.attempts = _
    rw [p4, s3, Nat.zero_add]
  · show (processMsgs fr c w (messages bytes)).1.1.decoder.decErrors = _
    unfold DecoderTop.decErrors
    rw [p4, p5, s3, s4, count_failed m (messages bytes)]
    push_cast
    ring

/-- What a conversion to the end of the file gives. -/
theorem Run.decode_true {fr : Rat → Txt} {n : Nat} {bytes : Bytes} {c c' : Converter} {w w' : Disk}
    (hd : decodeRtcmFile fr n (some bytes) c w = some ((c', w'), true)) :
    ∃ y, readLoop fr n c w bytes = some (y, .ok ()) ∧ c'.statistics = y.1.statistics := by
  unfold decodeRtcmFile at hd
  dsimp only at hd
  cases hr : readLoop fr n c w bytes with
  | none => rw [hr] at hd; cases hd
  | some x =>
    obtain ⟨y, r⟩ := x
    rw [hr] at hd
    have hd := Option.some.inj hd
    cases r with
    | error e => exact absurd (congrArg Prod.snd hd) (by simp)
    | ok u =>
      refine ⟨y, rfl, ?_⟩
      have : c' = (y.1.release y.2).1 := (congrArg (fun x => x.1.1) hd).symm
      rw [this]
      rfl

/-- The log of reading a file. -/
theorem Run.read_true {m : Mode} {w0 : Disk} {wd : Txt} {box : Box} {c : Converter} (h : strategy m w0 wd box = .ok (some c))
    (fr : Rat → Txt) {n : Nat} (hn : 0 < n) {bytes : Bytes} {w : Disk} {y : Converter × Disk}
    (hr : readLoop fr n c w bytes = some (y, .ok ())) (size done : Nat) :
    (readLog fr n size done c w bytes).filter (fun x => !isProgress x) = processLog fr c w (messages bytes) := by
  obtain ⟨s1, s2, -⟩ := start_state h
  obtain ⟨⟨chunks, st, ms, i1, i2, -, i4⟩, -⟩ := readLog_feed fr n hn size c.statistics bytes done c w y
    (by rw [fresh_parser h]; exact .init) s1 s2 hr
  obtain ⟨st2, f1, -⟩ := feed_init chunks
  rw [fresh_parser h, f1] at i2
  have e2 : messages chunks.flatten = ms := congrArg Prod.snd (pureD_inj i2)
  rw [i4, ← e2, i1]

theorem Run.log_ok {fr : Rat → Txt} {n : Nat} {bytes : Bytes} {c : Converter} {w : Disk} {y : Converter × Disk}
    (hr : readLoop fr n c w bytes = some (y, .ok ())) (path : Txt) :
    decodeRtcmFileLog fr n path (some bytes) c w = .opened path :: (readLog fr n bytes.length 0 c w bytes ++ [.closing path]) := by
  unfold decodeRtcmFileLog
  dsimp only
  rw [hr]
  simp

/-- **C72** If a file is processed to its end, its log consists of the line about opening it, for every frame of the stream, in order, the
lines that the frame deserves (remarks about missing observables and fields, see C83, then ignored, decoded, or failed), and the line about closing it; apart from the progress lines, one line
for each printing error that the statistics count, and lines about MARGO files that cannot be created. This holds for every chunk size. -/
theorem C72_messages (m : Mode) (w0 : Disk) (wd : Txt) (box : Box) (c : Converter) (h : strategy m w0 wd box = .ok (some c))
    (fr : Rat → Txt) (n : Nat) (hn : 0 < n) (path : Txt) (bytes : Bytes) (w : Disk) (c' : Converter) (w' : Disk)
    (hd : decodeRtcmFile fr n (some bytes) c w = some ((c', w'), true)) :
    (decodeRtcmFileLog fr n path (some bytes) c w).filter (fun r => !isProgress r && !aboutOutput r) =
      .opened path :: ((messages bytes).flatMap (fun msg => messageRecords m.obsOnly msg (details m msg) (outcome m msg)) ++ [.closing path]) ∧
    ((decodeRtcmFileLog fr n path (some bytes) c w).count .printFailed : Int) = c'.statistics.printing_errors := by
  obtain ⟨y, hr, hst⟩ := decode_true hd
  obtain ⟨s1, s2, s3, s4, s5⟩ := start_state h
  obtain ⟨hok, -, hy⟩ := stats_true h fr hn hr
  obtain ⟨p1, p2, p3, -⟩ := process_log fr (messages bytes) c w s1 s2 hok
  have hread := read_true h fr hn hr bytes.length 0
  have hcount : (readLog fr n bytes.length 0 c w bytes).count .printFailed = (processLog fr c w (messages bytes)).count .printFailed := by
    rw [← hread, List.count_filter rfl]
  rw [log_ok hr]
  constructor
  · rw [List.filter_cons_of_pos (by simp [isProgress, aboutOutput, aboutCreation]), List.filter_append, List.filter_cons_of_pos (by simp [isProgress, aboutOutput, aboutCreation]), List.filter_nil,
      ← List.filter_filter, ← p1]
    congr 2
    rw [List.filter_filter, ← hread, List.filter_filter]
    congr 1
    funext x
    rw [Bool.and_comm]
  · rw [List.count_cons_of_ne (by simp), List.count_append, hcount, List.count_singleton, if_neg (by simp), Nat.add_zero, p2, s5, hst]
    show _ = y.1.printer.errors
    rw [hy]
    ring

/-- A frame with message number 1005 and nothing else. -/
def exCut : Bytes := frame [0x3E, 0xD0]

/-- The hypotheses are met by every stream, and the log shows the fate of each frame: message 1005 is cut off, message 0 is not supported. -/
example (w0 : Disk) (wd : Txt) (box : Box) (c : Converter) (h : strategy .json w0 wd box = .ok (some c)) (hc : Margo.ChannelsOK box.margo)
    (fr : Rat → Txt) (path : Txt) (w : Disk) :
    ((decodeRtcmFileLog fr 3 path (some (exCut ++ exOther)) c w).filter (fun r => !isProgress r && !aboutOutput r)) =
      [.opened path, .failed (some 1005), .wrongResult "BASE" (some 1005), .noDecoder (some 0), .closing path] := by
  obtain ⟨c', w', hd⟩ := file_total h hc fr (by decide : 0 < 3) (exCut ++ exOther) w
  rw [(C72_messages .json w0 wd box c h fr 3 (by decide) path _ w c' w' hd).1]
  have : (messages (exCut ++ exOther)).flatMap (fun msg => messageRecords Mode.json.obsOnly msg (details .json msg) (outcome .json msg)) =
      [.failed (some 1005), .wrongResult "BASE" (some 1005), .noDecoder (some 0)] := by decide +kernel
  rw [this]
  rfl

/-- A complete message 1005 is reported as decoded. -/
example : ∃ o, messageRecords Mode.json.obsOnly (frame (0x3E :: 0xD0 :: List.replicate 17 0)) [] (outcome .json (frame (0x3E :: 0xD0 :: List.replicate 17 0))) =
    [.succeeded (some 1005) o] ∧ (Record.succeeded (some 1005) o).text id = some "Msg 1005. Decoding succeeded".toList := by
  have : ((outcome .json (frame (0x3E :: 0xD0 :: List.replicate 17 0))).map (fun o => decide (succeededText (some 1005) o =
      "Msg 1005. Decoding succeeded".toList))) = some true := by decide +kernel
  obtain ⟨o, h1, h2⟩ := Option.map_eq_some_iff.1 this
  refine ⟨o, ?_, congrArg some (of_decide_eq_true h2)⟩
  rw [h1]
  have h3 : numberIn (frame (0x3E :: 0xD0 :: List.replicate 17 0)) = some 1005 := by decide +kernel
  unfold messageRecords
  rw [h3]
  rfl

/-- **C72** The progress lines: one for every chunk that is read; it states how many bytes of the file have been read, and its counters are
right about the part of the file that has been read so far. -/
theorem C72_progress (m : Mode) (w0 : Disk) (wd : Txt) (box : Box) (c : Converter) (h : strategy m w0 wd box = .ok (some c))
    (fr : Rat → Txt) (n : Nat) (hn : 0 < n) (path : Txt) (bytes : Bytes) (w : Disk) (c' : Converter) (w' : Disk)
    (hd : decodeRtcmFile fr n (some bytes) c w = some ((c', w'), true)) :
    ∃ st : Nat → Stats, (decodeRtcmFileLog fr n path (some bytes) c w).filter isProgress =
        (List.range ((bytes.length + n - 1) / n)).map (fun k => .progress (min ((k + 1) * n) bytes.length) bytes.length (st k)) ∧
      ∀ k < (bytes.length + n - 1) / n, StatsTrue m (bytes.take ((k + 1) * n)) (st k) ∧
        ∃ ck wk, decodeRtcmFile fr n (some (bytes.take ((k + 1) * n))) c w = some ((ck, wk), true) ∧ ck.statistics = st k := by
  obtain ⟨y, hr, -⟩ := decode_true hd
  obtain ⟨s1, s2, -⟩ := start_state h
  obtain ⟨-, i5, i6⟩ := readLog_feed fr n hn bytes.length c.statistics bytes 0 c w y (by rw [fresh_parser h]; exact .init) s1 s2 hr
  refine ⟨fun k => endStats (readLoop fr n c w (bytes.take ((k + 1) * n))) c.statistics, ?_, ?_⟩
  · rw [log_ok hr, List.filter_cons_of_neg (by simp [isProgress]), List.filter_append, i5, List.filter_cons_of_neg (by simp [isProgress]),
      List.filter_nil, List.append_nil]
    simp only [Nat.zero_add]
  · intro k hk
    obtain ⟨x, hx⟩ := i6 k hk
    dsimp only
    rw [hx]
    refine ⟨(stats_true h fr hn hx).2.1, (x.1.release x.2).1, (x.1.release x.2).2, ?_, rfl⟩
    unfold decodeRtcmFile
    dsimp only
    rw [hx]
    rfl

/-- A file of 4100 bytes gives two lines, after 4096 and 4100 bytes. -/
example (w0 : Disk) (wd : Txt) (box : Box) (c : Converter) (h : strategy .margo w0 wd box = .ok (some c)) (hc : Margo.ChannelsOK box.margo)
    (fr : Rat → Txt) (path : Txt) (w : Disk) : ∃ s1 s2,
    ((decodeRtcmFileLog fr 4096 path (some (List.replicate 4100 0)) c w).filter isProgress) = [.progress 4096 4100 s1, .progress 4100 4100 s2] := by
  obtain ⟨c', w', hd⟩ := file_total h hc fr (by decide : 0 < 4096) (List.replicate 4100 0) w
  obtain ⟨st, h1, -⟩ := C72_progress .margo w0 wd box c h fr 4096 (by decide) path _ w c' w' hd
  refine ⟨st 0, st 1, ?_⟩
  rw [h1, List.length_replicate]
  rfl

/-- **C72** The percentage of a progress line, computed in double precision, differs from the part of the file that was read by hardly more
than half a unit of its last digit, and it is 100.00% for the last line. -/
theorem C72_text (rnd : Rat → Rat) (hr : Nearest rnd) (done size : Nat) (hs : 0 < size) (hs2 : size ≤ 2 ^ 53) (hd : done ≤ size) :
    (∃ y, readPercent (percentText rnd done size) = some y ∧ |y - 100 * (done : Rat) / size| ≤ 1 / 200 + 1 / 2 ^ 40) ∧
      percentText rnd size size = "100.00%".toList := by
  have hz : (0 : Rat) < size := by exact_mod_cast hs
  have e1 : ∀ k : Nat, k ≤ 2 ^ 53 → rnd (k : Rat) = k := by
    intro k hk
    refine hr.exact ?_
    have := double_int (k : Int) (by rw [abs_of_nonneg (by omega)]; exact_mod_cast hk)
    exact_mod_cast this
  constructor
  · unfold percentText
    rw [rjust_percent 1, e1 done (by omega), e1 size hs2]
    obtain ⟨y, h1, h2, -⟩ := ReadText.readFixed_fixed 1 2 (rnd (rnd ((done : Rat) / size) * 100))
    refine ⟨y, ?_, ?_⟩
    · unfold readPercent
      rw [List.reverse_append]
      show readFixed (Text.rjust 1 _).reverse.reverse = _
      rw [List.reverse_reverse, h1]
    · have hq0 : 0 ≤ (done : Rat) / size := by positivity
      have hq1 : (done : Rat) / size ≤ 1 := by
        rw [div_le_one hz]; exact_mod_cast hd
      set q : Rat := (done : Rat) / size with hq
      have a1 := hr.error_le (x := q) (b := 1) (by rw [abs_of_nonneg hq0]; exact hq1)
      have tiny : (1 : Rat) / 2 ^ 1000 ≤ 1 / 2 ^ 60 :=
        one_div_le_one_div_of_le (by positivity) (pow_le_pow_right₀ (by norm_num) (by norm_num))
      have hu : ulp * 1 + 1 / 2 ^ 1000 ≤ (1 : Rat) / 2 ^ 52 := by
        refine (add_le_add_right tiny _).trans ?_
        unfold ulp; norm_num
      have a1 := a1.trans hu
      have hb : |rnd q * 100| ≤ 128 := by
        rw [abs_le] at a1 ⊢
        have : (1 : Rat) / 2 ^ 52 ≤ 1 / 100 := by norm_num
        constructor <;> linarith [a1.1, a1.2]
      have a2 := hr.error_le hb
      have hu2 : ulp * 128 + 1 / 2 ^ 1000 ≤ (1 : Rat) / 2 ^ 45 := by
        refine (add_le_add_right tiny _).trans ?_
        unfold ulp; norm_num
      have a2 := a2.trans hu2
      have e3 : 100 * (done : Rat) / size = q * 100 := by rw [hq]; ring
      rw [e3]
      have h2 : |y - rnd (rnd q * 100)| ≤ 1 / 200 := by
        have : |y - rnd (rnd q * 100)| * 200 ≤ 1 := by simpa using (by norm_num at h2 ⊢; linarith : |y - rnd (rnd q * 100)| * 200 ≤ 1)
        linarith
      rw [abs_le] at a1 a2 h2 ⊢
      have n1 : (1 : Rat) / 2 ^ 45 + 100 * (1 / 2 ^ 52) ≤ 1 / 2 ^ 40 := by norm_num
      constructor <;> linarith [a1.1, a1.2, a2.1, a2.2, h2.1, h2.2]
  · unfold percentText
    rw [e1 size hs2, div_self hz.ne']
    have h1 : rnd 1 = 1 := by have := e1 1 (by norm_num); exact_mod_cast this
    have h100 : rnd (1 * 100) = 100 := by
      have := e1 100 (by norm_num)
      rw [one_mul]
      exact_mod_cast this
    rw [h1, h100]
    decide +kernel

/-- With exact arithmetic a third of a file is shown like this. -/
example : progressText id 1 3 ⟨5, 0, 2, 4, 1⟩ = "33.33%, 5 messages, prs-dec-prnt errors 0-2-1.".toList := by decide +kernel

end Verif
