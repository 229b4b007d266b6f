import Verif.Props.Margo
import Verif.Props.Run
import Verif.Lemmas.RunJson

/-!
# Lemmas: printing what was decoded raises nothing but assertions
-/

namespace Verif
namespace Run
open Conv Decoder Framer Spec

/-- Extracted messages are valid frames. -/
theorem messages_valid (bytes : Bytes) : ∀ m ∈ messages bytes, ValidFrame m := by
  intro m hm
  obtain ⟨g, hg, rfl⟩ := List.mem_map.1 hm
  exact scan_valid [] bytes g hg

/-- The observables that are decoded from a valid frame. -/
theorem outcome_msm {m : Mode} {msg : Bytes} (hv : ValidFrame msg) {p : Msm.ObservablesMSM} (h : outcome m msg = some (.msm p)) :
    ∃ d : MsmData, d.WF ∧ d.CarriedBy msg ∧ LengthEstimateRight d ∧ d.SignalsKnown ∧ p = { d.scaledObj with obs := codeObs d } := by
  unfold outcome at h
  split at h
  · cases h
  · split at h
    · cases h
    · split at h
      · rename_i f _ _
        have key : (Msm.decodeMsm17 m.bare msg).map msmObj = some (.msm p) → ∃ d : MsmData, d.WF ∧ d.CarriedBy msg ∧
            LengthEstimateRight d ∧ d.SignalsKnown ∧ p = { d.scaledObj with obs := codeObs d } := by
          intro h
          obtain ⟨x, hx, he⟩ := Option.map_eq_some_iff.1 h
          have hx' : Msm.decodeMsm17 false msg = some (.inr p) := by
            cases x with
            | inl b => cases he
            | inr o =>
              cases he
              cases hb : m.bare with
              | false => rw [hb] at hx; exact hx
              | true =>
                rw [hb] at hx
                unfold Msm.decodeMsm17 at hx
                split at hx <;> cases hx
          rcases (C24_C27_scaled_iff msg hv _).1 hx' with ⟨d, h1, h2, h3, h4⟩ | ⟨-, h4⟩
          · split at h4
            · cases h4
              exact ⟨d, h1, h2, h3, by assumption, rfl⟩
            · cases h4
          · cases h4
        cases f with
        | msm13 => exact key h
        | msm47 => exact key h
        | eph =>
          obtain ⟨x, hx, he⟩ := Option.map_eq_some_iff.1 h
          cases he
        | base =>
          unfold familyDecode at h
          dsimp only at h
          split at h
          · obtain ⟨x, hx, he⟩ := Option.map_eq_some_iff.1 h
            cases x <;> cases he
          · cases h
      · cases h

end Run

namespace Margo
open Spec

theorem printRows_total : ∀ (rs : List (Txt × Row)) (p : Printer) (w : Disk),
    (∀ r ∈ rs, ∃ g k slot u, Named g k slot u r ∧ (g = 1 → ChannelsOK p.ctrl)) →
    ∃ p' w', p.printRows w rs = ((p', w'), .ok ()) ∧ p'.ctrl = p.ctrl
  | [], p, w, _ => ⟨p, w, rfl, rfl⟩
  | r :: rs, p, w, hn => by
    obtain ⟨g, k, slot, u, h, hc⟩ := hn r (by simp)
    have hstep : ∃ p' w', p.append w r.1 (formatObsString r.2 k.format.1 k.format.2) = ((p', w'), .ok ()) ∧ p'.ctrl = p.ctrl := by
      rcases append_cases p w h hc (formatObsString r.2 k.format.1 k.format.2) with ⟨path, -, e⟩ | ⟨-, w', e, -⟩ | ⟨-, w', e, -⟩
      · exact ⟨_, _, e, rfl⟩
      · exact ⟨_, _, e, rfl⟩
      · exact ⟨_, _, e, rfl⟩
    obtain ⟨p', w', e, hp'⟩ := hstep
    obtain ⟨p'', w'', e', hp''⟩ := printRows_total rs p' w' (fun r' hr' => by rw [hp']; exact hn r' (by simp [hr']))
    refine ⟨p'', w'', ?_, hp''.trans hp'⟩
    obtain ⟨f, row⟩ := r
    unfold Printer.printRows
    have hcs := h.chars.2.1
    dsimp only at hcs
    rw [hcs, ok_bind, format_ok]
    dsimp only at e ⊢
    rw [e]
    exact e'

/-- Printing regular observables raises nothing. -/
theorem print_total (p : Printer) (w : Disk) {g : Nat} {o : Msm.ObservablesMSM} (h : Regular g o) (hc : g = 1 → ChannelsOK p.ctrl) :
    ∃ p' w', p.print w (.msm o) = ((p', w'), .ok ()) ∧ p'.ctrl = p.ctrl := by
  have hb := printBuffer_ok p.ctrl h hc
  unfold Printer.print
  dsimp only
  rw [hb]
  exact printRows_total _ p w (mrows_named p.ctrl h hc _)

end Margo

namespace Run
open Conv Decoder Framer Spec

/-- The sub-printer for MARGO files. -/
def margoSub (p : Margo.Printer) : SubPrinter :=
  { dataSpec := margoSpecs.flatMap (·.2), actualSpec := [.observablesMSM], impl := .margo p }

/-- The sub-printer for JSON files in mode JARGO. -/
def jargoSub (p : Json.Printer) : SubPrinter :=
  { dataSpec := jargoSpecs.flatMap (·.2), actualSpec := Json.JSON_SPEC.flatMap (·.2.classes), impl := .json p }

theorem margo_handles (p : Margo.Printer) (cls : Cls) : (margoSub p).handles cls = decide (cls = .observablesMSM) := by
  unfold SubPrinter.handles margoSub
  dsimp only
  cases cls <;> decide +kernel

theorem jargo_handles (p : Json.Printer) (cls : Cls) :
    (jargoSub p).handles cls = decide (cls ≠ .observablesMSM ∧ cls ≠ .bareMSM123 ∧ cls ≠ .bareMSM4567) := by
  unfold SubPrinter.handles jargoSub
  dsimp only
  cases cls <;> decide +kernel

/-- The frequency channels of a sub-printer are complete. -/
def Sane : Impl → Prop
  | .json _ => True
  | .margo p => Margo.ChannelsOK p.ctrl

theorem impl_total (fr : Rat → Txt) (i : Impl) (w : Disk) (o : PyObj) (hi : Sane i) (ho : ∀ p, o = .msm p → ∃ g, Regular g p) :
    ∃ i' w' r, i.print fr w o = ((i', w'), r) ∧ Sane i' ∧ (r = .ok () ∨ r = .error .assertionError) := by
  cases i with
  | json p => exact ⟨_, _, _, rfl, trivial, json_no_other fr p w o⟩
  | margo p =>
    by_cases hm : ∃ q, o = .msm q
    · obtain ⟨q, rfl⟩ := hm
      obtain ⟨g, hg⟩ := ho q rfl
      obtain ⟨p', w', e, hc⟩ := Margo.print_total p w hg (fun _ => hi)
      refine ⟨.margo p', w', .ok (), ?_, ?_, .inl rfl⟩
      · unfold Impl.print; dsimp only; rw [e]
      · unfold Sane; dsimp only; rw [hc]; exact hi
    · have e : p.print w o = ((p, w), .error .assertionError) := by
        cases o with
        | msm q => exact absurd ⟨q, rfl⟩ hm
        | _ => rfl
      refine ⟨.margo p, w, _, ?_, hi, .inr rfl⟩
      unfold Impl.print; dsimp only; rw [e]

theorem loop_total (fr : Rat → Txt) (o : PyObj) (ho : ∀ p, o = .msm p → ∃ g, Regular g p) : ∀ (l : List SubPrinter) (a s : Nat) (w : Disk),
    (∀ x ∈ l, Sane x.impl) → ∃ a' s' l' w' r, printLoop fr o a s w l = ((a', s', l', w'), r) ∧ (∀ x ∈ l', Sane x.impl) ∧
      (r = .ok () ∨ r = .error .assertionError)
  | [], a, s, w, _ => ⟨a, s, [], w, _, rfl, by simp, .inl rfl⟩
  | p :: rest, a, s, w, hl => by
    unfold printLoop
    split
    · obtain ⟨i', w', r, e, hi, hr⟩ := impl_total fr p.impl w o (hl p (by simp)) ho
      rw [e]
      have hs : ∀ x ∈ { p with impl := i' } :: rest, Sane x.impl := by
        intro x hx
        rcases List.mem_cons.1 hx with rfl | hx
        · exact hi
        · exact hl x (by simp [hx])
      rcases hr with rfl | rfl
      · exact ⟨_, _, _, _, _, rfl, hs, .inl rfl⟩
      · exact ⟨_, _, _, _, _, rfl, hs, .inr rfl⟩
    · obtain ⟨a', s', l', w', r, e, h1, h2⟩ := loop_total fr o ho rest a s w (fun x hx => hl x (by simp [hx]))
      rw [e]
      refine ⟨_, _, _, _, _, rfl, ?_, h2⟩
      intro x hx
      rcases List.mem_cons.1 hx with rfl | hx
      · exact hl x (by simp)
      · exact h1 x hx

theorem process_total {m : Mode} (fr : Rat → Txt) : ∀ (ms : List Bytes) (c : Converter) (w : Disk), (∀ x ∈ ms, ValidFrame x) →
    c.decoder.decoders = registered m → (∀ x ∈ c.printer.printers, Sane x.impl) → (processMsgs fr c w ms).2 = .ok ()
  | [], c, w, _, _, _ => rfl
  | msg :: ms, c, w, hv, hd, hp => by
    obtain ⟨c1, e1, e2, e3, -⟩ := decode_outcome hd msg
    unfold processMsgs
    rw [e1]
    cases ho : outcome m msg with
    | none => exact process_total fr ms c1 w (fun x hx => hv x (by simp [hx])) e3 (by rw [e2]; exact hp)
    | some o =>
      dsimp only
      have hreg : ∀ p, o = .msm p → ∃ g, Regular g p := by
        rintro p rfl
        obtain ⟨d, h1, -, -, -, rfl⟩ := outcome_msm (hv msg (by simp)) ho
        exact ⟨d.g, Margo.regular_decoded d h1⟩
      obtain ⟨a', s', l', w', r, e, h1, h2⟩ := loop_total fr o hreg c1.printer.printers c1.printer.attempts c1.printer.succeeded w
        (by rw [e2]; exact hp)
      unfold Converter.print PrinterTop.print
      rw [e]
      dsimp only
      rcases h2 with rfl | rfl
      · exact process_total fr ms _ w' (fun x hx => hv x (by simp [hx])) e3 h1
      · exact process_total fr ms _ w' (fun x hx => hv x (by simp [hx])) e3 h1

/-- Converting a readable file never ends with an exception. -/
theorem file_total {m : Mode} {w0 : Disk} {wd : Txt} {box : Box} {c : Converter} (h : strategy m w0 wd box = .ok (some c))
    (hc : Margo.ChannelsOK box.margo) (fr : Rat → Txt) {n : Nat} (hn : 0 < n) (bytes : Bytes) (w : Disk) :
    ∃ c' w', decodeRtcmFile fr n (some bytes) c w = some ((c', w'), true) := by
  obtain ⟨c', a1, -⟩ := C51_whole m w0 wd box c h fr n hn bytes w
  rw [a1]
  obtain ⟨h1, h2⟩ := strategy_cases h
  have hd : c.decoder.decoders = registered m := by
    rw [strategy_eq] at h1
    rw [← Option.some.inj (Except.ok.inj h1)]
  have hp : ∀ x ∈ c.printer.printers, Sane x.impl := by
    rw [strategyPrinter_eq] at h2
    split at h2
    · rw [← Option.some.inj (Except.ok.inj h2)]
      cases m <;> simp [startPrinter, Sane, hc]
    · cases h2
  rw [process_total fr _ c w (messages_valid bytes) hd hp]
  exact ⟨_, _, rfl⟩

end Run
end Verif
