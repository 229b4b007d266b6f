import Verif.Model.Run
import Verif.Props.Framer
import Verif.Props.Printer

/-!
# Lemmas about the conversion loop
-/

namespace Verif
namespace Run
open Conv Decoder Framer Spec

/-- A converter with another state of the parser. -/
def setParser (c : Converter) (st : Parser) : Converter := { c with decoder := { c.decoder with parser := st } }

theorem setParser_set (c : Converter) (s t : Parser) : setParser (setParser c s) t = setParser c t := rfl

theorem setParser_self (c : Converter) : setParser c c.decoder.parser = c := rfl

theorem decode_setParser (c : Converter) (st : Parser) (msg : Bytes) :
    (setParser c st).decode msg = (setParser (c.decode msg).1 st, (c.decode msg).2) := rfl

theorem decode_parser (c : Converter) (msg : Bytes) : (c.decode msg).1.decoder.parser = c.decoder.parser := rfl

theorem print_setParser (fr : Rat → Txt) (c : Converter) (st : Parser) (w : Disk) (o : PyObj) :
    (setParser c st).print fr w o = ((setParser (c.print fr w o).1.1 st, (c.print fr w o).1.2), (c.print fr w o).2) := rfl

theorem process_setParser (fr : Rat → Txt) (st : Parser) (ms : List Bytes) : ∀ (c : Converter) (w : Disk),
    processMsgs fr (setParser c st) w ms =
      ((setParser (processMsgs fr c w ms).1.1 st, (processMsgs fr c w ms).1.2), (processMsgs fr c w ms).2) := by
  induction ms with
  | nil => intro c w; rfl
  | cons m ms ih =>
    intro c w
    unfold processMsgs
    rw [decode_setParser]
    cases h : c.decode m with
    | mk c' r =>
      cases r with
      | none => exact ih c' w
      | some o =>
        dsimp only
        rw [print_setParser]
        cases h2 : c'.print fr w o with
        | mk s r =>
          obtain ⟨c2, w2⟩ := s
          cases r with
          | ok u => cases u; exact ih c2 w2
          | error e => rfl

theorem process_parser (fr : Rat → Txt) (ms : List Bytes) : ∀ (c : Converter) (w : Disk),
    (processMsgs fr c w ms).1.1.decoder.parser = c.decoder.parser := by
  intro c w
  have := process_setParser fr c.decoder.parser ms c w
  rw [setParser_self] at this
  rw [this]
  rfl

theorem process_cons (fr : Rat → Txt) (c : Converter) (w : Disk) (m : Bytes) (l : List Bytes) :
    processMsgs fr c w (m :: l) =
      match c.decode m with
      | (c, none) => processMsgs fr c w l
      | (c, some o) =>
        match c.print fr w o with
        | ((c, w), .error e) => ((c, w), .error e)
        | ((c, w), .ok ()) => processMsgs fr c w l := by
  rw [processMsgs]; rfl

theorem process_append (fr : Rat → Txt) (a b : List Bytes) : ∀ (c : Converter) (w : Disk),
    processMsgs fr c w (a ++ b) =
      match processMsgs fr c w a with
      | (s, .ok ()) => processMsgs fr s.1 s.2 b
      | (s, .error e) => (s, .error e) := by
  induction a with
  | nil => intro c w; rfl
  | cons m a ih =>
    intro c w
    rw [List.cons_append, process_cons, process_cons]
    cases h : c.decode m with
    | mk c' r =>
      cases r with
      | none => exact ih c' w
      | some o =>
        dsimp only
        cases h2 : c'.print fr w o with
        | mk s r =>
          obtain ⟨c2, w2⟩ := s
          cases r with
          | ok u => cases u; exact ih c2 w2
          | error e => rfl

theorem parseBytes_eq (c : Converter) (chunk : Bytes) (st : Parser) (ms : List Bytes)
    (h : catchMessage c.decoder.parser chunk = pure (st, ms)) : (c.parseBytes chunk).run = some (.ok (setParser c st, ms)) := by
  unfold Converter.parseBytes DecoderTop.catchMessage
  rw [h]
  rfl

/-- The loop over the chunks of a file is feeding the parser and then processing all messages. -/
theorem readLoop_feed (fr : Rat → Txt) (n : Nat) (hn : 0 < n) (bytes : Bytes) : ∀ (c : Converter) (w : Disk),
    Reachable c.decoder.parser →
    ∃ chunks st ms st', chunks.flatten = bytes ∧ feed c.decoder.parser chunks = pure (st, ms) ∧
      readLoop fr n c w bytes = some ((setParser (processMsgs fr c w ms).1.1 st', (processMsgs fr c w ms).1.2), (processMsgs fr c w ms).2) ∧
      ((processMsgs fr c w ms).2 = .ok () → st' = st) := by
  induction hl : bytes.length using Nat.strongRecOn generalizing bytes with
  | ind k ih =>
    intro c w hr
    by_cases hb : bytes = []
    · subst hb
      refine ⟨[], c.decoder.parser, [], c.decoder.parser, rfl, rfl, ?_, fun _ => rfl⟩
      unfold readLoop
      rw [dif_pos (by simp)]
      rfl
    · have ht : bytes.take n ≠ [] := by
        cases bytes with
        | nil => exact absurd rfl hb
        | cons x xs =>
          cases n with
          | zero => omega
          | succ n => simp
      obtain ⟨st1, ms1, e1, hr1⟩ := C09_total c.decoder.parser hr (bytes.take n)
      unfold readLoop
      rw [dif_neg ht, parseBytes_eq c _ st1 ms1 e1]
      dsimp only
      rw [process_setParser]
      have hpos := List.length_pos_iff.2 hb
      cases hp : processMsgs fr c w ms1 with
      | mk s r =>
        obtain ⟨c2, w2⟩ := s
        have hc2 : c2.decoder.parser = c.decoder.parser := by
          have := process_parser fr ms1 c w
          rw [hp] at this; exact this
        obtain ⟨chunks, st, ms, st', i1, i2, i3, i4⟩ := ih (bytes.drop n).length (by rw [List.length_drop]; omega) (bytes.drop n) rfl
          (setParser c2 st1) w2 hr1
        have hfeed : feed c.decoder.parser (bytes.take n :: chunks) = pure (st, ms1 ++ ms) := by
          unfold feed
          rw [e1]
          show (do let (st, ms') ← feed st1 chunks; pure (st, ms1 ++ ms')) = _
          have : feed st1 chunks = pure (st, ms) := i2
          rw [this]
          rfl
        have hflat : (bytes.take n :: chunks).flatten = bytes := by
          rw [List.flatten_cons, i1, List.take_append_drop]
        cases r with
        | error e =>
          refine ⟨_, st, ms1 ++ ms, st1, hflat, hfeed, ?_, ?_⟩
          · rw [process_append, hp]
          · intro h
            rw [process_append, hp] at h
            cases h
        | ok u =>
          cases u
          refine ⟨_, st, ms1 ++ ms, st', hflat, hfeed, ?_, ?_⟩
          · rw [process_append, hp]
            dsimp only
            rw [i3, process_setParser, setParser_set]
          · intro h
            rw [process_append, hp] at h
            dsimp only at h
            apply i4
            rw [process_setParser]
            exact h

/-- The same for a new converter. -/
theorem readLoop_messages (fr : Rat → Txt) (n : Nat) (hn : 0 < n) (bytes : Bytes) (c : Converter) (w : Disk)
    (hc : c.decoder.parser = Parser.init) :
    ∃ st', readLoop fr n c w bytes = some ((setParser (processMsgs fr c w (messages bytes)).1.1 st', (processMsgs fr c w (messages bytes)).1.2),
        (processMsgs fr c w (messages bytes)).2) ∧
      ((processMsgs fr c w (messages bytes)).2 = .ok () → st'.parsErrCnt = dirtyGaps (scan [] bytes).segs) := by
  obtain ⟨chunks, st, ms, st', h1, h2, h3, h4⟩ := readLoop_feed fr n hn bytes c w (by rw [hc]; exact .init)
  obtain ⟨st2, f1, f2, -⟩ := feed_init chunks
  rw [hc, f1] at h2
  have h2 := pureD_inj h2
  have e1 : st2 = st := congrArg Prod.fst h2
  have e2 : messages chunks.flatten = ms := congrArg Prod.snd h2
  rw [h1] at e2 f2
  subst e2
  refine ⟨st', h3, fun h => ?_⟩
  rw [h4 h, ← e1, f2]

end Run
end Verif
