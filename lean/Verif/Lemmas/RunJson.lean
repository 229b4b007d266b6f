import Verif.Lemmas.Run
import Verif.Props.Json

/-!
# Lemmas about conversion to JSON
-/

namespace Verif
namespace Run
open Conv Decoder Framer Spec

/-- What decoding a message yields in a mode. -/
def outcome (m : Mode) (msg : Bytes) : Option PyObj :=
  match numberIn msg with
  | none => none
  | some n => match family n with
    | none => none
    | some f => if familyOn m.obsOnly f then familyDecode m.bare f msg else none

/-- The remarks about single observables and fields that decoding a message yields in a mode. -/
def details (m : Mode) (msg : Bytes) : List Msm.Detail :=
  match numberIn msg with
  | none => []
  | some n => match family n with
    | none => []
    | some f => if familyOn m.obsOnly f then familyDetails m.bare f msg else []

theorem decode_outcome {m : Mode} {c : Converter} (h : c.decoder.decoders = registered m) (msg : Bytes) :
    ∃ c', c.decode msg = (c', outcome m msg) ∧ c'.printer = c.printer ∧ c'.decoder.decoders = registered m ∧
      c'.decoder.attempts = c.decoder.attempts + (if supportedMsg m msg then 1 else 0) ∧
      c'.decoder.succeeded = c.decoder.succeeded + (if (outcome m msg).isSome then 1 else 0) := by
  have hdec := decode_eq h msg
  unfold Converter.decode
  cases hn : numberIn msg with
  | none =>
    rw [hn] at hdec
    dsimp only at hdec
    rw [hdec]
    exact ⟨c, by simp [outcome, hn], rfl, h, by simp [supportedMsg, hn], by simp [outcome, hn]⟩
  | some n =>
    rw [hn] at hdec
    dsimp only at hdec
    cases hf : family n with
    | none =>
      rw [hf] at hdec
      dsimp only at hdec
      rw [hdec]
      exact ⟨c, by simp [outcome, hn, hf], rfl, h, by simp [supportedMsg, supportedIn, hn, hf], by simp [outcome, hn, hf]⟩
    | some f =>
      rw [hf] at hdec
      dsimp only at hdec
      cases ho : familyOn m.obsOnly f with
      | false =>
        rw [ho, if_neg Bool.false_ne_true] at hdec
        rw [hdec]
        exact ⟨c, by simp [outcome, hn, hf, ho], rfl, h, by simp [supportedMsg, supportedIn, hn, hf, ho], by simp [outcome, hn, hf, ho]⟩
      | true =>
        rw [ho, if_pos rfl] at hdec
        rw [hdec]
        have e : outcome m msg = familyDecode m.bare f msg := by simp [outcome, hn, hf, ho]
        rw [e]
        refine ⟨_, rfl, rfl, h, ?_, rfl⟩
        simp [supportedMsg, supportedIn, hn, hf, ho]

/-- The JSON printer handles every class in modes JSON and JSON-B. -/
theorem json_handles (p : Json.Printer) (cls : Cls) :
    SubPrinter.handles { dataSpec := jsonSpecs.flatMap (·.2), actualSpec := Json.JSON_SPEC.flatMap (·.2.classes), impl := .json p } cls = true := by
  unfold SubPrinter.handles
  dsimp only
  cases cls <;> decide +kernel

/-- A sub-printer of the modes JSON and JSON-B. -/
def jsonSub (p : Json.Printer) : SubPrinter :=
  { dataSpec := jsonSpecs.flatMap (·.2), actualSpec := Json.JSON_SPEC.flatMap (·.2.classes), impl := .json p }

theorem json_no_other (fr : Rat → Txt) (p : Json.Printer) (w : Disk) (o : PyObj) :
    (p.print fr w o).2 = .ok () ∨ (p.print fr w o).2 = .error .assertionError := by
  rcases Json.print_cases fr p w o with ⟨w', h, -⟩ | ⟨n, row, -, -, ⟨path, -, h⟩ | ⟨-, w', -, h⟩⟩
  · rw [h]; exact .inr rfl
  · rw [h]; exact .inl rfl
  · rw [h]; exact .inl rfl

theorem process_json {m : Mode} (fr : Rat → Txt) (ms : List Bytes) : ∀ (c : Converter) (w : Disk) (p : Json.Printer),
    c.decoder.decoders = registered m → c.printer.printers = [jsonSub p] →
    ∃ c', processMsgs fr c w ms = ((c', (Json.printAll fr p w (ms.filterMap (outcome m))).1.2), .ok ()) ∧
      c'.printer.printers = [jsonSub (Json.printAll fr p w (ms.filterMap (outcome m))).1.1] ∧
      c'.printer.attempts = c.printer.attempts + (ms.filterMap (outcome m)).length ∧
      c'.printer.succeeded = c.printer.succeeded + (Json.printAll fr p w (ms.filterMap (outcome m))).2.length ∧
      c'.decoder.attempts = c.decoder.attempts + ms.countP (supportedMsg m) ∧
      c'.decoder.succeeded = c.decoder.succeeded + (ms.filterMap (outcome m)).length := by
  induction ms with
  | nil => intro c w p _ hp; exact ⟨c, rfl, hp, rfl, rfl, rfl, rfl⟩
  | cons msg ms ih =>
    intro c w p hd hp
    obtain ⟨c1, e1, e2, e3, e4, e5⟩ := decode_outcome hd msg
    unfold processMsgs
    rw [e1, List.filterMap_cons, List.countP_cons]
    cases ho : outcome m msg with
    | none =>
      rw [ho] at e5
      dsimp only
      obtain ⟨c', g1, g2, g3, g4, g5, g6⟩ := ih c1 w p e3 (by rw [e2, hp])
      exact ⟨c', g1, g2, by rw [g3, e2], by rw [g4, e2], by rw [g5, e4]; omega, by rw [g6, e5]; simp⟩
    | some o =>
      rw [ho] at e5
      dsimp only
      have hpr : ∃ c2, c1.print fr w o = ((c2, (p.print fr w o).1.2), .ok ()) ∧ c2.decoder = c1.decoder ∧
          c2.printer.printers = [jsonSub (p.print fr w o).1.1] ∧ c2.printer.attempts = c.printer.attempts + 1 ∧
          c2.printer.succeeded = c.printer.succeeded + (if (p.print fr w o).2 = .ok () then 1 else 0) := by
        unfold Converter.print PrinterTop.print
        rw [e2, hp]
        unfold printLoop
        rw [if_pos (show (jsonSub p).handles o.cls = true from json_handles p o.cls)]
        unfold jsonSub Impl.print
        dsimp only
        have := json_no_other fr p w o
        cases hx : p.print fr w o with
        | mk s r =>
          obtain ⟨p', w'⟩ := s
          rw [hx] at this
          rcases this with h | h
          · dsimp only at h; subst h; exact ⟨_, rfl, rfl, rfl, rfl, rfl⟩
          · dsimp only at h; subst h; exact ⟨_, rfl, rfl, rfl, rfl, rfl⟩
      obtain ⟨c2, f1, f2, f3, f4, f5⟩ := hpr
      rw [f1]
      dsimp only
      obtain ⟨c', g1, g2, g3, g4, g5, g6⟩ := ih c2 (p.print fr w o).1.2 (p.print fr w o).1.1 (by rw [f2, e3]) f3
      have hall : (Json.printAll fr p w (o :: ms.filterMap (outcome m))).1 =
            (Json.printAll fr (p.print fr w o).1.1 (p.print fr w o).1.2 (ms.filterMap (outcome m))).1 ∧
          (Json.printAll fr p w (o :: ms.filterMap (outcome m))).2.length =
            (Json.printAll fr (p.print fr w o).1.1 (p.print fr w o).1.2 (ms.filterMap (outcome m))).2.length +
              (if (p.print fr w o).2 = .ok () then 1 else 0) := by
        have := json_no_other fr p w o
        rw [Json.printAll]
        cases hx : p.print fr w o with
        | mk s r =>
          obtain ⟨p', w'⟩ := s
          rw [hx] at this
          rcases this with h | h
          · dsimp only at h; subst h; exact ⟨rfl, by simp⟩
          · dsimp only at h; subst h; exact ⟨rfl, by simp⟩
      refine ⟨c', ?_, ?_, ?_, ?_, ?_, ?_⟩
      · rw [g1, hall.1]
      · rw [g2, hall.1]
      · rw [g3, f4, List.length_cons]; omega
      · rw [g4, f5, hall.2]; omega
      · rw [g5, f2, e4]; omega
      · rw [g6, f2, e5]; simp; omega

end Run
end Verif
