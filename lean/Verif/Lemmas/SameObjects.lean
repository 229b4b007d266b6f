import Verif.Props.Run
import Verif.Lemmas.RunJson

/-!
# What is written depends on the decoded objects only
-/

namespace Verif
namespace Run
open Conv Decoder Framer Spec

/-- The objects printed one after the other, up to the first exception. -/
def printObjs (fr : Rat → Txt) (t : PrinterTop) (w : Disk) : List PyObj → (PrinterTop × Disk) × Py Unit
  | [] => ((t, w), .ok ())
  | o :: rest =>
    match t.print fr w o with
    | ((t, w), .error e) => ((t, w), .error e)
    | ((t, w), .ok ()) => printObjs fr t w rest

/-- Processing messages is printing what they decode to; the decoder counts the messages. -/
theorem process_objs {m : Mode} (fr : Rat → Txt) (ms : List Bytes) : ∀ (c : Converter) (w : Disk), c.decoder.decoders = registered m →
    ((processMsgs fr c w ms).1.1.printer, (processMsgs fr c w ms).1.2) = (printObjs fr c.printer w (ms.filterMap (outcome m))).1 ∧
    (processMsgs fr c w ms).2 = (printObjs fr c.printer w (ms.filterMap (outcome m))).2 ∧
    ((processMsgs fr c w ms).2 = .ok () →
      (processMsgs fr c w ms).1.1.decoder.attempts = c.decoder.attempts + ms.countP (supportedMsg m) ∧
      (processMsgs fr c w ms).1.1.decoder.succeeded = c.decoder.succeeded + (ms.filterMap (outcome m)).length) := by
  induction ms with
  | nil => intro c w _; exact ⟨rfl, rfl, fun _ => ⟨rfl, rfl⟩⟩
  | cons msg ms ih =>
    intro c w hd
    obtain ⟨c1, e1, e2, e3, e4, e5⟩ := decode_outcome hd msg
    rw [process_cons, e1, List.filterMap_cons, List.countP_cons]
    cases ho : outcome m msg with
    | none =>
      rw [ho] at e5
      obtain ⟨g1, g2, g3⟩ := ih c1 w e3
      rw [e2] at g1 g2
      refine ⟨g1, g2, fun h => ?_⟩
      obtain ⟨h1, h2⟩ := g3 h
      constructor
      · rw [h1, e4]; omega
      · rw [h2, e5]; simp
    | some o =>
      rw [ho] at e5
      dsimp only
      rw [printObjs]
      have hp : c1.print fr w o = (({ c1 with printer := (c.printer.print fr w o).1.1 }, (c.printer.print fr w o).1.2),
          (c.printer.print fr w o).2) := by
        unfold Converter.print
        rw [e2]
      rw [hp]
      generalize c.printer.print fr w o = y
      obtain ⟨⟨t, w1⟩, r⟩ := y
      cases r with
      | error e => exact ⟨rfl, rfl, fun h => by cases h⟩
      | ok u =>
        cases u
        dsimp only
        obtain ⟨g1, g2, g3⟩ := ih { c1 with printer := t } w1 e3
        refine ⟨g1, g2, fun h => ?_⟩
        obtain ⟨h1, h2⟩ := g3 h
        dsimp only at h1 h2
        constructor
        · rw [h1, e4]; omega
        · rw [h2, e5, List.length_cons]; simp; omega

/-- Two files with the same objects in them. -/
theorem same_run {m : Mode} {w0 : Disk} {wd : Txt} {box : Box} {c : Converter} (h : strategy m w0 wd box = .ok (some c))
    (fr : Rat → Txt) (n : Nat) (hn : 0 < n) (b1 b2 : Bytes) (w : Disk)
    (he : (messages b1).filterMap (outcome m) = (messages b2).filterMap (outcome m)) :
    ∃ c1 c2 w' ok, decodeRtcmFile fr n (some b1) c w = some ((c1, w'), ok) ∧ decodeRtcmFile fr n (some b2) c w = some ((c2, w'), ok) ∧
      c1.printer = c2.printer ∧
      (ok = true → ∀ k : Nat, (messages b1).countP (supportedMsg m) = (messages b2).countP (supportedMsg m) + k →
        c1.statistics.decoding_attempts = c2.statistics.decoding_attempts + k ∧
        c1.statistics.decoding_errors = c2.statistics.decoding_errors + k) := by
  have hdec : c.decoder.decoders = registered m := reach_decoders (.start (strategy_cases h).1)
  obtain ⟨c1, a1, a2, a3, a4, -⟩ := C51_whole m w0 wd box c h fr n hn b1 w
  obtain ⟨c2, d1, d2, d3, d4, -⟩ := C51_whole m w0 wd box c h fr n hn b2 w
  obtain ⟨g1, g2, g3⟩ := process_objs fr (messages b1) c w hdec
  obtain ⟨i1, i2, i3⟩ := process_objs fr (messages b2) c w hdec
  rw [he] at g1 g2 g3
  rw [← i1] at g1
  rw [← i2] at g2
  generalize processMsgs fr c w (messages b1) = x at *
  generalize processMsgs fr c w (messages b2) = y at *
  obtain ⟨⟨x1, x2⟩, x3⟩ := x
  obtain ⟨⟨y1, y2⟩, y3⟩ := y
  dsimp only at *
  obtain ⟨g4, g5⟩ := Prod.mk.inj g1
  subst g5
  subst g2
  have hrel : (x1.release x2).2 = (y1.release x2).2 ∧ (x1.release x2).1.printer = (y1.release x2).1.printer := by
    unfold Converter.release
    rw [g4]
    exact ⟨rfl, rfl⟩
  rw [hrel.1] at a1
  rw [hrel.2] at a2
  refine ⟨c1, c2, _, _, a1, d1, a2.trans d2.symm, fun hok k hk => ?_⟩
  have hok : x3 = .ok () := by simpa using hok
  obtain ⟨g6, g7⟩ := g3 hok
  obtain ⟨i6, i7⟩ := i3 hok
  unfold Converter.statistics DecoderTop.decErrors
  dsimp only
  rw [a3, a4, d3, d4, g6, g7, i6, i7, hk]
  constructor
  · omega
  · push_cast; omega

end Run
end Verif
