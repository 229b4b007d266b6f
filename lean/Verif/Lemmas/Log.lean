import Verif.Spec.Log
import Verif.Lemmas.RunTotal
import Verif.Lemmas.Double
import Verif.Lemmas.ReadText

/-!
# Lemmas about the log
-/

namespace Verif
namespace Run
open Conv Decoder Framer Spec

theorem run_eq {bare : Bool} {msg : Bytes} {n : Nat} {f : Family} (hn : numberIn msg = some n) :
    (ofFamily bare f).run msg = .ok (familyDecode bare f msg) := by
  cases f with
  | msm13 => rfl
  | msm47 => rfl
  | eph => rfl
  | base =>
    simp only [ofFamily, SubDecoder.run, sBase, familyDecode]
    cases hx : Base.subDecode bare msg with
    | ok x => rfl
    | error e =>
      exfalso
      unfold Base.subDecode at hx
      have : ∃ k, Base.getMsgNum msg = .ok k := by
        exact ⟨n, by unfold Base.getMsgNum; rw [gbu_num, hn]⟩
      obtain ⟨k, hk⟩ := this
      rw [hk, ok_bind] at hx
      split at hx <;> exact absurd hx (by simp [pure, Except.pure])

theorem details_eq (bare : Bool) (f : Family) (msg : Bytes) : (ofFamily bare f).details msg = familyDetails bare f msg := by
  cases f <;> rfl

theorem logLoop_cons (num : Option Nat) (msg : Bytes) (dec : SubDecoder) (rest : List SubDecoder) :
    decodeLoopLog num msg (dec :: rest) = match resp dec num with
      | none => decodeLoopLog num msg rest
      | some cls => (dec.details msg).map .detail ++ subLog num (dec.run msg) ++
        (match dec.run msg with
        | .error _ => [.raised]
        | .ok none => [.wrongResult dec.subset num]
        | .ok (some rv) => if isInstance rv cls then [] else [.wrongResult dec.subset num]) := by
  rw [decodeLoopLog]
  rfl

/-- Records of an attempt with one sub-decoder. -/
def attemptLog (dec : SubDecoder) (cls : Cls) (num : Option Nat) (msg : Bytes) : List Record :=
  (dec.details msg).map .detail ++ subLog num (dec.run msg) ++
    (match dec.run msg with
    | .error _ => [.raised]
    | .ok none => [.wrongResult dec.subset num]
    | .ok (some rv) => if isInstance rv cls then [] else [.wrongResult dec.subset num])

theorem reg_log (m : Mode) (n : Nat) (msg : Bytes) :
    decodeLoopLog (some n) msg ((registered m).map (·.2)) =
      match family n with
      | none => [.noDecoder (some n)]
      | some f => if familyOn m.obsOnly f then attemptLog (ofFamily m.bare f) ((declared m.bare n).getD .baseRP) (some n) msg
        else [.noDecoder (some n)] := by
  unfold registered
  cases ho : m.obsOnly <;> simp only [Bool.false_eq_true, if_false, if_true, List.map_cons, List.map_nil, logLoop_cons, resp47,
    resp13, respEph, respBase]
  · cases hf : family n with
    | none => simp [decodeLoopLog]
    | some f =>
      obtain ⟨c, hc⟩ := declared_some (b := m.bare) hf
      cases f <;> simp [hc, familyOn, ofFamily, attemptLog]
  · cases hf : family n with
    | none => simp [decodeLoopLog]
    | some f =>
      obtain ⟨c, hc⟩ := declared_some (b := m.bare) hf
      cases f <;> simp [hc, familyOn, ofFamily, decodeLoopLog, attemptLog]

theorem none_log (msg : Bytes) (l : List SubDecoder) : decodeLoopLog none msg l = [.noDecoder none] := by
  induction l with
  | nil => rfl
  | cons d l ih => rw [logLoop_cons]; exact ih

theorem decodeLog_eq {m : Mode} {d : DecoderTop} (h : d.decoders = registered m) (msg : Bytes) :
    decodeLog d msg = messageRecords m.obsOnly msg (details m msg) (outcome m msg) := by
  unfold decodeLog messageRecords details
  rw [h, mnum_eq]
  cases hn : numberIn msg with
  | none => exact none_log _ _
  | some n =>
    dsimp only
    rw [reg_log]
    cases hf : family n with
    | none => rfl
    | some f =>
      dsimp only
      by_cases hon : familyOn m.obsOnly f = true
      · rw [if_pos hon, if_pos hon, if_pos hon, ← details_eq]
        have ho : outcome m msg = familyDecode m.bare f msg := by simp [outcome, hn, hf, hon]
        unfold attemptLog
        rw [run_eq hn, ho, List.append_assoc]
        refine congrArg (_ ++ ·) ?_
        cases hd : familyDecode m.bare f msg with
        | none =>
          dsimp only
          cases f <;> rfl
        | some o =>
          rw [(familyDecode_typed hn hf hd).1]
          dsimp only
          rw [Option.getD_some, isInstance_self]
          rfl
      · rw [if_neg hon, if_neg hon, if_neg hon]
        rfl

theorem records_print (b : Bool) (msg : Bytes) (det : List Msm.Detail) (r : Option PyObj) : ∀ x ∈ messageRecords b msg det r, aboutOutput x = false ∧ isProgress x = false := by
  unfold messageRecords
  intro x hx
  rcases List.mem_append.1 hx with hx | hx
  · obtain ⟨d, -, rfl⟩ := List.mem_map.1 hx
    simp [isProgress, aboutOutput, aboutCreation]
  split at hx
  · simp at hx; subst hx; simp [isProgress, aboutOutput, aboutCreation]
  · split at hx
    · simp at hx; subst hx; simp [isProgress, aboutOutput, aboutCreation]
    · split at hx
      · split at hx <;> simp at hx
        · subst hx; simp [isProgress, aboutOutput, aboutCreation]
        · rcases hx with rfl | rfl <;> simp [isProgress, aboutOutput, aboutCreation]
      · simp at hx; subst hx; simp [isProgress, aboutOutput, aboutCreation]

theorem createLog_about (p : Margo.Printer) (w : Disk) (oname : Txt) : ∀ r ∈ createLog p w oname, aboutCreation r = true := by
  unfold createLog
  intro r hr
  split at hr
  · simp at hr
  · rename_i dir _
    dsimp only at hr
    generalize (if w.isdir (Disk.join p.wd dir.toList) then (w, true) else w.makedirs (Disk.join p.wd dir.toList)) = x at hr
    obtain ⟨w1, ok⟩ := x
    have h2 : ∀ q, r ∈ [Record.notCreated q, .notCreatedText] → aboutCreation r = true := by
      intro q hq
      simp at hq
      rcases hq with rfl | rfl <;> rfl
    cases ok with
    | false => exact h2 _ hr
    | true =>
      dsimp only at hr
      rw [if_pos rfl] at hr
      split at hr
      · simp at hr
      · exact h2 _ hr

theorem rowsLog_about (rows : PyDict Txt Margo.Row) : ∀ (p : Margo.Printer) (w : Disk), ∀ r ∈ rowsLog p w rows, aboutCreation r = true := by
  induction rows with
  | nil => intro p w r hr; simp [rowsLog] at hr
  | cons x rows ih =>
    intro p w r hr
    obtain ⟨f, row⟩ := x
    unfold rowsLog at hr
    split at hr
    · simp at hr
    · rcases List.mem_append.1 hr with hr | hr
      · split at hr
        · simp at hr
        · exact createLog_about _ _ _ r hr
      · split at hr
        · simp at hr
        · exact ih _ _ r hr

theorem implLog_about (w : Disk) (o : PyObj) (i : Impl) : ∀ r ∈ implLog w o i, aboutCreation r = true := by
  unfold implLog
  intro r hr
  split at hr
  · simp at hr
  · split at hr
    · split at hr
      · simp at hr
      · exact rowsLog_about _ _ _ r hr
    · simp at hr

theorem printLog_eq {m : Mode} {t : PrinterTop} (h : PReach m t) {o : PyObj} {n : Nat} (hs : supportedIn m n = true)
    (hd : declared m.bare n = some o.cls) (fr : Rat → Txt) (w : Disk) (hr : (t.print fr w o).2 = .ok ()) :
    (∀ r ∈ printLog fr t w o, aboutOutput r = true) ∧
      ((printLog fr t w o).count .printFailed : Int) = (t.print fr w o).1.1.errors - t.errors ∧
      (usesMargo m o.cls = false → ∀ r ∈ printLog fr t w o, aboutCreation r = false) := by
  obtain ⟨pre, s, post, h1, h2, h3, h4, -, -, h6, -, h8, -⟩ := C39_step m t h o n hs hd fr w
  have hf : t.printers.find? (fun p => p.handles o.cls) = some s := by
    rw [h1, List.find?_append, List.find?_eq_none.2 (by
      intro x hx; rw [h3 x (by simp [hx])]; simp)]
    simp [h2]
  have hl : printLog fr t w o = implLog w o s.impl ++ if (s.impl.print fr w o).2 = .ok () then [] else [.printFailed] := by
    unfold printLog
    rw [hf]
    dsimp only
    congr 1
    rw [hr] at h6
    cases hx : (s.impl.print fr w o).2 with
    | ok u => cases u; rfl
    | error e =>
      rw [hx] at h6
      cases e <;> first | rfl | exact absurd h6 (by simp [catchAsserts])
  have himp := implLog_about w o s.impl
  have hcount : (implLog w o s.impl).count .printFailed = 0 := by
    rw [List.count_eq_zero]
    intro hm
    exact absurd (himp _ hm) (by simp [aboutCreation])
  rw [hl, h8]
  refine ⟨?_, ?_, ?_⟩
  · intro r hm
    rcases List.mem_append.1 hm with hm | hm
    · unfold aboutOutput
      rw [himp r hm]
      rfl
    · split at hm
      · simp at hm
      · simp at hm; subst hm; rfl
  · rw [List.count_append, hcount]
    split
    · simp
    · simp
  · intro hu r hm
    rw [hu] at h4
    rcases List.mem_append.1 hm with hm | hm
    · cases hi : s.impl with
      | json p => rw [hi] at hm; simp [implLog] at hm
      | margo p => rw [hi] at h4; cases h4
    · split at hm
      · simp at hm
      · simp at hm; subst hm; rfl

theorem processLog_cons (fr : Rat → Txt) (c : Converter) (w : Disk) (msg : Bytes) (rest : List Bytes) :
    processLog fr c w (msg :: rest) = decodeLog c.decoder msg ++
    (match c.decode msg with
    | (c, none) => processLog fr c w rest
    | (c, some o) =>
      printLog fr c.printer w o ++
      (match c.print fr w o with
      | (_, .error _) => []
      | ((c, w), .ok ()) => processLog fr c w rest)) := by
  rw [processLog]
  rfl

theorem process_inv' {m : Mode} (fr : Rat → Txt) (msgs : List Bytes) (c : Converter) (w : Disk) (h1 : Reach m c.decoder)
    (h2 : PReach m c.printer) : Reach m (processMsgs fr c w msgs).1.1.decoder ∧ PReach m (processMsgs fr c w msgs).1.1.printer := by
  induction msgs generalizing c w with
  | nil => exact ⟨h1, h2⟩
  | cons msg rest ih =>
    rw [process_cons]
    cases hd : c.decode msg with
    | mk c' r =>
      have e1 : c'.decoder = (c.decoder.decode msg).1 := (congrArg (fun x => x.1.decoder) hd).symm
      have e2 : c'.printer = c.printer := (congrArg (fun x => x.1.printer) hd).symm
      have r1 : Reach m c'.decoder := by rw [e1]; exact .decode msg h1
      have r2 : PReach m c'.printer := by rw [e2]; exact h2
      cases r with
      | none => exact ih c' w r1 r2
      | some o =>
        dsimp only
        cases hx : c'.print fr w o with
        | mk s r =>
          obtain ⟨c2, w2⟩ := s
          have q1 : c2.printer = (c'.printer.print fr w o).1.1 := (congrArg (fun x => x.1.1.printer) hx).symm
          have q2 : c2.decoder = c'.decoder := (congrArg (fun x => x.1.1.decoder) hx).symm
          have r3 : Reach m c2.decoder := by rw [q2]; exact r1
          have r4 : PReach m c2.printer := by rw [q1]; exact .print fr w o r2
          cases r with
          | error e => exact ⟨r3, r4⟩
          | ok u => exact ih c2 w2 r3 r4

/-- The records about the messages, and the counters. -/
theorem process_log {m : Mode} (fr : Rat → Txt) : ∀ (ms : List Bytes) (c : Converter) (w : Disk), Reach m c.decoder → PReach m c.printer →
    (processMsgs fr c w ms).2 = .ok () →
    (processLog fr c w ms).filter (fun x => !aboutOutput x) = ms.flatMap (fun msg => messageRecords m.obsOnly msg (details m msg) (outcome m msg)) ∧
    ((processLog fr c w ms).count .printFailed : Int) = (processMsgs fr c w ms).1.1.printer.errors - c.printer.errors ∧
    (∀ x ∈ processLog fr c w ms, isProgress x = false) ∧
    (processMsgs fr c w ms).1.1.decoder.attempts = c.decoder.attempts + ms.countP (supportedMsg m) ∧
    (processMsgs fr c w ms).1.1.decoder.succeeded = c.decoder.succeeded + (ms.filterMap (outcome m)).length ∧
    ((∀ cls, usesMargo m cls = false) → ∀ x ∈ processLog fr c w ms, aboutCreation x = false)
  | [], c, w, _, _, _ => by simp [processLog, processMsgs]
  | msg :: ms, c, w, h1, h2, h => by
    obtain ⟨c1, e1, e2, e3, e4, e5⟩ := decode_outcome (reach_decoders h1) msg
    have hr1 : Reach m c1.decoder := by
      have : c1.decoder = (c.decoder.decode msg).1 := by
        have := congrArg (fun x => x.1.decoder) e1
        exact this.symm
      rw [this]
      exact .decode msg h1
    have hcl : decodeLog c.decoder msg = messageRecords m.obsOnly msg (details m msg) (outcome m msg) := decodeLog_eq (reach_decoders h1) msg
    have hfil : (messageRecords m.obsOnly msg (details m msg) (outcome m msg)).filter (fun x => !aboutOutput x) = messageRecords m.obsOnly msg (details m msg) (outcome m msg) := by
      rw [List.filter_eq_self]
      intro x hx
      rw [(records_print _ _ _ _ x hx).1]
      rfl
    have hcnt : (messageRecords m.obsOnly msg (details m msg) (outcome m msg)).count .printFailed = 0 := by
      rw [List.count_eq_zero]
      intro hx
      exact absurd (records_print _ _ _ _ _ hx).1 (by simp [aboutOutput])
    have hcre : ∀ x ∈ messageRecords m.obsOnly msg (details m msg) (outcome m msg), aboutCreation x = false := by
      intro x hx
      have := (records_print _ _ _ _ x hx).1
      unfold aboutOutput at this
      exact (Bool.or_eq_false_iff.1 this).1
    rw [process_cons, e1] at h
    rw [processLog_cons, process_cons, e1, hcl, List.flatMap_cons, List.countP_cons, List.filterMap_cons]
    cases ho : outcome m msg with
    | none =>
      rw [ho] at h hfil hcnt hcre e5
      dsimp only at h ⊢
      obtain ⟨g1, g2, g3, g4, g5, g6⟩ := process_log fr ms c1 w hr1 (by rw [e2]; exact h2) h
      rw [List.filter_append, hfil, g1, List.count_append, hcnt, Nat.zero_add, g2, e2, g4, g5, e4, e5]
      refine ⟨rfl, rfl, ?_, by omega, by simp, ?_⟩
      · intro x hx
        rcases List.mem_append.1 hx with hx | hx
        · exact (records_print _ _ _ _ x hx).2
        · exact g3 x hx
      · intro hu x hx
        rcases List.mem_append.1 hx with hx | hx
        · exact hcre x hx
        · exact g6 hu x hx
    | some o =>
      rw [ho] at h hfil hcnt hcre e5
      dsimp only at h ⊢
      obtain ⟨k, hk, t1, t2, -⟩ := C17_typed m c.decoder h1 msg o (by
        have := congrArg Prod.snd e1
        rw [ho] at this
        exact this)
      have hp1 : PReach m c1.printer := by rw [e2]; exact h2
      cases hx : c1.print fr w o with
      | mk s r =>
        obtain ⟨c2, w2⟩ := s
        rw [hx] at h
        cases r with
        | error e => exact absurd h (by simp)
        | ok u =>
          dsimp only at h ⊢
          have q1 : c2.printer = (c1.printer.print fr w o).1.1 := by
            have := congrArg (fun x => x.1.1.printer) hx; exact this.symm
          have q2 : c2.decoder = c1.decoder := by
            have := congrArg (fun x => x.1.1.decoder) hx; exact this.symm
          have q3 : (c1.printer.print fr w o).2 = .ok () := by
            have := congrArg (fun x => x.2) hx; exact this
          obtain ⟨p1, p2, p3⟩ := printLog_eq hp1 t1 t2 fr w q3
          obtain ⟨g1, g2, g3, g4, g5, g6⟩ := process_log fr ms c2 w2 (by rw [q2]; exact hr1) (by rw [q1]; exact .print fr w o hp1) h
          have pf : (printLog fr c1.printer w o).filter (fun x => !aboutOutput x) = [] := by
            rw [List.filter_eq_nil_iff]
            intro x hx
            rw [p1 x hx]
            simp
          rw [List.filter_append, List.filter_append, hfil, g1, pf, List.nil_append, List.count_append, List.count_append, hcnt]
          refine ⟨rfl, ?_, ?_, by rw [g4, q2, e4]; omega, by rw [g5, q2, e5]; simp; omega, ?_⟩
          · push_cast
            rw [p2, g2, q1, e2]
            omega
          · intro x hx
            rcases List.mem_append.1 hx with hx | hx
            · exact (records_print _ _ _ _ x hx).2
            · rcases List.mem_append.1 hx with hx | hx
              · have := p1 x hx
                cases x <;> first | rfl | exact absurd this (by simp [aboutOutput, aboutCreation])
              · exact g3 x hx
          · intro hu x hx
            rcases List.mem_append.1 hx with hx | hx
            · exact hcre x hx
            · rcases List.mem_append.1 hx with hx | hx
              · exact p3 (hu _) x hx
              · exact g6 hu x hx

theorem processLog_setParser (fr : Rat → Txt) (st : Parser) (ms : List Bytes) : ∀ (c : Converter) (w : Disk),
    processLog fr (setParser c st) w ms = processLog fr c w ms := by
  induction ms with
  | nil => intro c w; rfl
  | cons m ms ih =>
    intro c w
    rw [processLog_cons, processLog_cons, decode_setParser]
    have e0 : decodeLog (setParser c st).decoder m = decodeLog c.decoder m := rfl
    rw [e0]
    cases h : c.decode m with
    | mk c' r =>
      cases r with
      | none => dsimp only; rw [ih]
      | some o =>
        dsimp only
        rw [print_setParser]
        have e1 : (setParser c' st).printer = c'.printer := rfl
        rw [e1]
        cases h2 : c'.print fr w o with
        | mk s r =>
          obtain ⟨c2, w2⟩ := s
          cases r with
          | ok u => dsimp only; rw [ih]
          | error e => rfl

theorem processLog_append (fr : Rat → Txt) (a b : List Bytes) : ∀ (c : Converter) (w : Disk),
    (processMsgs fr c w a).2 = .ok () → processLog fr c w (a ++ b) =
      processLog fr c w a ++ processLog fr (processMsgs fr c w a).1.1 (processMsgs fr c w a).1.2 b := by
  induction a with
  | nil => intro c w _; rfl
  | cons m a ih =>
    intro c w
    rw [List.cons_append, process_cons, processLog_cons, processLog_cons]
    cases h : c.decode m with
    | mk c' r =>
      cases r with
      | none => dsimp only; intro hx; rw [ih _ _ hx, List.append_assoc]
      | some o =>
        dsimp only
        cases h2 : c'.print fr w o with
        | mk s r =>
          obtain ⟨c2, w2⟩ := s
          cases r with
          | ok u => dsimp only; intro hx; rw [ih _ _ hx, List.append_assoc, List.append_assoc]
          | error e => intro hx; exact absurd hx (by simp)

theorem processLog_plain {m : Mode} (fr : Rat → Txt) (ms : List Bytes) (c : Converter) (w : Disk) (h1 : Reach m c.decoder)
    (h2 : PReach m c.printer) (h : (processMsgs fr c w ms).2 = .ok ()) : (processLog fr c w ms).filter (fun x => !isProgress x) = processLog fr c w ms ∧
    (processLog fr c w ms).filter isProgress = [] := by
  have := (process_log fr ms c w h1 h2 h).2.2.1
  refine ⟨?_, ?_⟩
  · rw [List.filter_eq_self]
    intro x hx
    rw [this x hx]
    rfl
  · rw [List.filter_eq_nil_iff]
    intro x hx
    rw [this x hx]
    simp

/-- Statistics of the converter that a loop ends with. -/
def endStats (x : Option ((Converter × Disk) × Py Unit)) (d : Stats) : Stats :=
  match x with
  | some ((c, _), _) => c.statistics
  | none => d

/-- The records of the loop over the chunks of a file. -/
theorem readLog_feed {m : Mode} (fr : Rat → Txt) (n : Nat) (hn : 0 < n) (size : Nat) (d : Stats) (bytes : Bytes) :
    ∀ (done : Nat) (c : Converter) (w : Disk) (x : Converter × Disk),
    Reachable c.decoder.parser → Reach m c.decoder → PReach m c.printer → readLoop fr n c w bytes = some (x, .ok ()) →
    (∃ chunks st ms, chunks.flatten = bytes ∧ feed c.decoder.parser chunks = pure (st, ms) ∧ (processMsgs fr c w ms).2 = .ok () ∧
      (readLog fr n size done c w bytes).filter (fun x => !isProgress x) = processLog fr c w ms) ∧
    (readLog fr n size done c w bytes).filter isProgress = (List.range ((bytes.length + n - 1) / n)).map (fun k =>
      .progress (done + min ((k + 1) * n) bytes.length) size (endStats (readLoop fr n c w (bytes.take ((k + 1) * n))) d)) ∧
    ∀ k < (bytes.length + n - 1) / n, ∃ y, readLoop fr n c w (bytes.take ((k + 1) * n)) = some (y, .ok ()) := by
  induction hl : bytes.length using Nat.strongRecOn generalizing bytes with
  | ind k ih =>
    intro done c w x hr h1 h2 h
    by_cases hb : bytes = []
    · subst hb
      have e : readLog fr n size done c w [] = [] := by
        unfold readLog
        rw [dif_pos (by simp)]
      rw [e]
      refine ⟨⟨[], c.decoder.parser, [], rfl, rfl, rfl, rfl⟩, ?_⟩
      have : (k + n - 1) / n = 0 := by
        subst hl
        rw [Nat.div_eq_zero_iff]
        right
        simp
        omega
      rw [this]
      exact ⟨rfl, fun j hj => absurd hj (by omega)⟩
    · have ht : bytes.take n ≠ [] := by
        cases bytes with
        | nil => exact absurd rfl hb
        | cons x xs =>
          cases n with
          | zero => omega
          | succ n => simp
      have hpos := List.length_pos_iff.2 hb
      obtain ⟨st1, ms1, e1, hr1⟩ := C09_total c.decoder.parser hr (bytes.take n)
      have hstep : ∀ b2 : Bytes, b2.take n = bytes.take n → readLoop fr n c w b2 =
          match processMsgs fr (setParser c st1) w ms1 with
          | ((c, w), .error e) => some ((c, w), .error e)
          | ((c, w), .ok ()) => readLoop fr n c w (b2.drop n) := by
        intro b2 hb2
        rw [readLoop, dif_neg (by rw [hb2]; exact ht), hb2, parseBytes_eq c _ st1 ms1 e1]
        rfl
      rw [hstep bytes rfl] at h
      have hlog : readLog fr n size done c w bytes = processLog fr (setParser c st1) w ms1 ++
          (match processMsgs fr (setParser c st1) w ms1 with
          | (_, .error _) => []
          | ((c, w), .ok ()) =>
            .progress (done + (bytes.take n).length) size c.statistics ::
              readLog fr n size (done + (bytes.take n).length) c w (bytes.drop n)) := by
        rw [readLog, dif_neg ht, parseBytes_eq c _ st1 ms1 e1]
        rfl
      have hreach1 : Reach m (setParser c st1).decoder := by
        refine .catch (bytes.take n) ms1 h1 ?_
        unfold returnsD DecoderTop.catchMessage
        rw [e1]
        rfl
      have hp := process_inv' fr ms1 (setParser c st1) w hreach1 h2
      cases hx : processMsgs fr (setParser c st1) w ms1 with
      | mk s r =>
        obtain ⟨c2, w2⟩ := s
        rw [hx] at h hlog hp
        cases r with
        | error e => exact absurd h (by simp)
        | ok u =>
          dsimp only at h hlog hp
          have hpar : c2.decoder.parser = st1 := by
            have := process_parser fr ms1 (setParser c st1) w
            rw [hx] at this
            exact this
          have hok : (processMsgs fr (setParser c st1) w ms1).2 = .ok () := by rw [hx]
          obtain ⟨⟨chunks, st, ms, i1, i2, i3, i4⟩, i5, i6⟩ := ih (bytes.drop n).length (by rw [List.length_drop]; omega) (bytes.drop n) rfl
            (done + (bytes.take n).length) c2 w2 x (by rw [hpar]; exact hr1) hp.1 hp.2 h
          obtain ⟨f1, f2⟩ := processLog_plain fr ms1 (setParser c st1) w hreach1 h2 hok
          have hpm : processMsgs fr c w ms1 = ((setParser c2 c.decoder.parser, w2), .ok ()) := by
            have := process_setParser fr c.decoder.parser ms1 (setParser c st1) w
            rw [setParser_set, setParser_self, hx] at this
            exact this
          have hlen : (bytes.take n).length = min n bytes.length := List.length_take
          have hdl : (bytes.drop n).length = bytes.length - n := List.length_drop
          have hcount : (k + n - 1) / n = ((bytes.drop n).length + n - 1) / n + 1 := by
            rw [hdl, ← hl]
            by_cases hle : bytes.length ≤ n
            · have a1 : (bytes.length + n - 1) / n = 1 := by
                rw [Nat.div_eq_iff (by omega)]; omega
              have a2 : (bytes.length - n + n - 1) / n = 0 := by
                rw [Nat.div_eq_zero_iff]; right; omega
              rw [a1, a2]
            · have : bytes.length + n - 1 = (bytes.length - n + n - 1) + n := by omega
              rw [this, Nat.add_div_right _ hn]
          have hfirst : readLoop fr n c w (bytes.take ((0 + 1) * n)) = some ((c2, w2), .ok ()) := by
            rw [Nat.zero_add, Nat.one_mul, hstep _ (by rw [List.take_take, min_self]), hx]
            dsimp only
            rw [List.drop_take, Nat.sub_self, List.take_zero]
            unfold readLoop
            rw [dif_pos (by simp)]
          have hnext : ∀ j, readLoop fr n c w (bytes.take ((j + 1 + 1) * n)) = readLoop fr n c2 w2 ((bytes.drop n).take ((j + 1) * n)) := by
            intro j
            have e3 : (bytes.take ((j + 1 + 1) * n)).take n = bytes.take n := by
              rw [List.take_take, min_eq_left (by nlinarith)]
            have e4 : (bytes.take ((j + 1 + 1) * n)).drop n = (bytes.drop n).take ((j + 1) * n) := by
              rw [List.drop_take]
              congr 1
              rw [Nat.add_mul (j + 1) 1 n]
              omega
            rw [hstep _ e3, hx]
            dsimp only
            rw [e4]
          refine ⟨⟨bytes.take n :: chunks, st, ms1 ++ ms, ?_, ?_, ?_, ?_⟩, ?_, ?_⟩
          · rw [List.flatten_cons, i1, List.take_append_drop]
          · unfold feed
            rw [e1]
            show (do let (st, ms') ← feed st1 chunks; pure (st, ms1 ++ ms')) = _
            have : feed st1 chunks = pure (st, ms) := by rw [← hpar]; exact i2
            rw [this]
            rfl
          · rw [process_append, hpm]
            dsimp only
            rw [process_setParser]
            exact i3
          · rw [hlog, List.filter_append, f1, List.filter_cons_of_neg (by simp [isProgress]), i4, processLog_setParser,
              processLog_append _ _ _ _ _ (by rw [hpm]), hpm, processLog_setParser]
          · rw [hlog, List.filter_append, f2, List.nil_append, List.filter_cons_of_pos (by simp [isProgress]), i5]
            rw [hcount, List.range_succ_eq_map, List.map_cons, List.map_map]
            congr 1
            · rw [hfirst, hlen, Nat.zero_add, Nat.one_mul, hl]
              rfl
            · apply List.map_congr_left
              intro j _
              dsimp only [Function.comp]
              rw [Nat.succ_eq_add_one, hnext, hlen, hdl]
              congr 1
              have : (j + 1 + 1) * n = (j + 1) * n + n := by ring
              rw [this, hl]
              omega
          · intro j hj
            cases j with
            | zero => exact ⟨_, hfirst⟩
            | succ j =>
              rw [hnext]
              exact i6 j (by omega)

theorem supported_of_isSome {m : Mode} {msg : Bytes} (h : (outcome m msg).isSome = true) : supportedMsg m msg = true := by
  unfold outcome at h
  unfold supportedMsg supportedIn
  split at h
  · cases h
  · rename_i n hn
    rw [hn]
    dsimp only
    split at h
    · cases h
    · rename_i f hf
      rw [hf]
      dsimp only
      split at h
      · assumption
      · cases h

theorem count_failed (m : Mode) (ms : List Bytes) : ms.countP (supportedMsg m) =
    (ms.filterMap (outcome m)).length + ms.countP (fun msg => supportedMsg m msg && (outcome m msg).isNone) := by
  induction ms with
  | nil => rfl
  | cons msg ms ih =>
    rw [List.countP_cons, List.countP_cons, List.filterMap_cons, ih]
    cases ho : outcome m msg with
    | none => cases supportedMsg m msg <;> simp <;> omega
    | some o =>
      have := supported_of_isSome (m := m) (msg := msg) (by rw [ho]; rfl)
      rw [this]
      simp
      omega

theorem rjust_percent (w : Nat) (t : Txt) (c : Char) : Text.rjust (w + 1) (t ++ [c]) = Text.rjust w t ++ [c] := by
  unfold Text.rjust
  rw [List.length_append, List.append_assoc]
  simp

end Run
end Verif
