import Verif.Props.RunDouble

/-!
# Lemmas: the format JSON-B does not use floating point arithmetic
-/

namespace Verif
open Spec Decoder Conv Run

namespace Decoder

/-- Two sub-decoders that agree on a message. -/
structure DecSame (msg : Bytes) (d d' : SubDecoder) : Prop where
  spec : d'.ioSpec = d.ioSpec
  actual : d'.actualMessages = d.actualMessages
  run : d'.run msg = d.run msg

theorem msm_bareR (rnd : Rat → Rat) (buf : Bytes) : Msm.decodeMsm17R rnd true buf = Msm.decodeMsm17 true buf := by
  unfold Msm.decodeMsm17R Msm.decodeMsm17
  cases Msm.decode buf with
  | error e => rfl
  | ok b => dsimp only; rw [if_pos rfl, if_pos rfl]

theorem registered_same {rnd : Rat → Rat} (h : Nearest rnd) (msg : Bytes) (hl : msg.length < 2 ^ 40) :
    List.Forall₂ (DecSame msg) ((registered .jsonB).map (·.2)) ((registeredR rnd .jsonB).map (·.2)) := by
  have h1 : DecSame msg (s47 true) (r47 rnd true) :=
    ⟨rfl, rfl, congrArg (fun x => (pure (Option.map msmObj x) : Py (Option PyObj))) (msm_bareR rnd msg)⟩
  have h2 : DecSame msg (s13 true) (r13 rnd true) :=
    ⟨rfl, rfl, congrArg (fun x => (pure (Option.map msmObj x) : Py (Option PyObj))) (msm_bareR rnd msg)⟩
  have h3 : DecSame msg (sEph true) (rEph rnd true) :=
    ⟨rfl, rfl, congrArg (fun x => (pure (Option.map PyObj.eph x) : Py (Option PyObj))) (C68_eph h msg).1⟩
  have h4 : DecSame msg (sBase true) (rBase rnd true) :=
    ⟨rfl, rfl, congrArg (fun x : Py (Option (Base.BareObj ⊕ Base.ScaledObj)) => x.bind (fun y => (pure (y.map baseObj) : Py (Option PyObj)))) (C68_base h msg hl).1⟩
  have e : Mode.jsonB.bare = true := rfl
  unfold registered registeredR
  rw [e, if_neg (by decide), if_neg (by decide)]
  exact .cons h1 (.cons h2 (.cons h3 (.cons h4 .nil)))

theorem loop_same (num : Option Nat) (msg : Bytes) (a s : Nat) {l l' : List SubDecoder} (hl : List.Forall₂ (DecSame msg) l l') :
    decodeLoop num msg a s l' = decodeLoop num msg a s l := by
  induction hl with
  | nil => rfl
  | @cons d d' l l' hd _ ih =>
    rw [decodeLoop_cons, decodeLoop_cons]
    have hr : resp d' num = resp d num := by unfold resp; rw [hd.spec, hd.actual]
    rw [hr]
    cases resp d num with
    | none => exact ih
    | some cls =>
      dsimp only
      unfold attempt
      rw [hd.run]

end Decoder

namespace Run
open Framer

theorem decode_same {rnd : Rat → Rat} (h : Nearest rnd) {c : Converter} (hc : c.decoder.decoders = registered .jsonB) (msg : Bytes)
    (hl : msg.length < 2 ^ 40) : (rounded rnd .jsonB c).decode msg = (rounded rnd .jsonB (c.decode msg).1, (c.decode msg).2) := by
  have h1 := loop_same (mnum msg) msg c.decoder.attempts c.decoder.succeeded (registered_same h msg hl)
  rw [← hc] at h1
  unfold Converter.decode DecoderTop.decode rounded
  dsimp only
  rw [h1]

/-- A sub-printer of JSON files. -/
def IsJson : Impl → Prop
  | .json _ => True
  | .margo _ => False

theorem printLoop_same (rnd : Rat → Rat) (fr : Rat → Txt) (o : PyObj) : ∀ (l : List SubPrinter) (a s : Nat) (w : Disk),
    (∀ x ∈ l, IsJson x.impl) →
    printLoopR rnd fr o a s w l = printLoop fr o a s w l ∧ ∀ x ∈ (printLoop fr o a s w l).1.2.2.1, IsJson x.impl
  | [], _, _, _, _ => ⟨rfl, by simp [printLoop]⟩
  | p :: rest, a, s, w, hl => by
    unfold printLoop printLoopR
    split
    · have hp := hl p (by simp)
      have h1 : p.impl.printR rnd fr w o = p.impl.print fr w o ∧ IsJson (p.impl.print fr w o).1.1 := by
        cases hi : p.impl with
        | json q => exact ⟨rfl, trivial⟩
        | margo q => rw [hi] at hp; exact hp.elim
      obtain ⟨h1, h2⟩ := h1
      rw [h1]
      generalize p.impl.print fr w o = x at h2 ⊢
      obtain ⟨⟨i, w1⟩, r⟩ := x
      dsimp only at h2
      cases r <;>
      · refine ⟨rfl, fun x hx => ?_⟩
        rcases List.mem_cons.1 hx with rfl | hx
        · exact h2
        · exact hl x (by simp [hx])
    · obtain ⟨h1, h2⟩ := printLoop_same rnd fr o rest a s w (fun x hx => hl x (by simp [hx]))
      rw [h1]
      generalize printLoop fr o a s w rest = y at h2 ⊢
      obtain ⟨⟨a1, s1, l1, w1⟩, r⟩ := y
      dsimp only at h2
      refine ⟨rfl, fun x hx => ?_⟩
      rcases List.mem_cons.1 hx with rfl | hx
      · exact hl x (by simp)
      · exact h2 x hx

theorem print_same (rnd : Rat → Rat) (fr : Rat → Txt) (o : PyObj) (c : Converter) (hc : ∀ x ∈ c.printer.printers, IsJson x.impl) (w : Disk) :
    ∃ c1 w1 r, c.print fr w o = ((c1, w1), r) ∧ (rounded rnd .jsonB c).printR rnd fr w o = ((rounded rnd .jsonB c1, w1), r) ∧
      c1.decoder = c.decoder ∧ ∀ x ∈ c1.printer.printers, IsJson x.impl := by
  obtain ⟨h1, h2⟩ := printLoop_same rnd fr o c.printer.printers c.printer.attempts c.printer.succeeded w hc
  unfold Converter.print PrinterTop.print Converter.printR PrinterTop.printR rounded
  dsimp only
  rw [h1]
  generalize printLoop fr o c.printer.attempts c.printer.succeeded w c.printer.printers = y at h2 ⊢
  obtain ⟨⟨a1, s1, l1, w1⟩, r⟩ := y
  exact ⟨_, _, _, rfl, rfl, rfl, h2⟩

theorem process_same {rnd : Rat → Rat} (h : Nearest rnd) (fr : Rat → Txt) : ∀ (ms : List Bytes), (∀ x ∈ ms, ValidFrame x) →
    ∀ (c : Converter) (w : Disk), c.decoder.decoders = registered .jsonB → (∀ x ∈ c.printer.printers, IsJson x.impl) →
    ∃ c1 w1 r, processMsgs fr c w ms = ((c1, w1), r) ∧ processMsgsR rnd fr (rounded rnd .jsonB c) w ms = ((rounded rnd .jsonB c1, w1), r) ∧
      c1.decoder.decoders = registered .jsonB ∧ ∀ x ∈ c1.printer.printers, IsJson x.impl
  | [], _, c, w, hd, hc => ⟨c, w, _, rfl, rfl, hd, hc⟩
  | msg :: ms, hv, c, w, hd, hc => by
    have e1 := decode_same h hd msg (frame_short (hv msg (by simp)))
    obtain ⟨-, d2, d3⟩ := decode_decoders hd msg
    unfold processMsgs processMsgsR
    rw [e1]
    generalize c.decode msg = x at d2 d3 ⊢
    obtain ⟨c1, o⟩ := x
    dsimp only at d2 d3 ⊢
    cases o with
    | none => exact process_same h fr ms (fun x hx => hv x (by simp [hx])) c1 w d3 (by rw [d2]; exact hc)
    | some o =>
      obtain ⟨c2, w1, r, f1, f2, f3, f4⟩ := print_same rnd fr o c1 (by rw [d2]; exact hc) w
      dsimp only
      rw [f1, f2]
      cases r with
      | error e => exact ⟨c2, w1, _, rfl, rfl, by rw [f3]; exact d3, f4⟩
      | ok u => exact process_same h fr ms (fun x hx => hv x (by simp [hx])) c2 w1 (by rw [f3]; exact d3) f4

theorem readLoop_same {rnd : Rat → Rat} (h : Nearest rnd) (fr : Rat → Txt) (n : Nat) (bytes : Bytes) : ∀ (c : Converter) (w : Disk),
    Reachable c.decoder.parser → c.decoder.decoders = registered .jsonB → (∀ x ∈ c.printer.printers, IsJson x.impl) →
    ∃ c1 w1 r, readLoop fr n c w bytes = some ((c1, w1), r) ∧ readLoopR rnd fr n (rounded rnd .jsonB c) w bytes = some ((rounded rnd .jsonB c1, w1), r) := by
  induction hl : bytes.length using Nat.strongRecOn generalizing bytes with
  | ind k ih =>
    intro c w hr hd hc
    unfold readLoop readLoopR
    by_cases ht : bytes.take n = []
    · rw [dif_pos ht, dif_pos ht]
      exact ⟨c, w, _, rfl, rfl⟩
    · rw [dif_neg ht, dif_neg ht]
      obtain ⟨st1, ms1, e1, hr1⟩ := C09_total c.decoder.parser hr (bytes.take n)
      rw [parseBytes_eq c _ st1 ms1 e1, parseBytes_eq (rounded rnd .jsonB c) _ st1 ms1 e1]
      dsimp only
      rw [show setParser (rounded rnd .jsonB c) st1 = rounded rnd .jsonB (setParser c st1) from rfl]
      have hp := process_parser fr ms1 (setParser c st1) w
      obtain ⟨c1, w1, r, f1, f2, f4, f5⟩ := process_same h fr ms1 (C03_sound _ _ _ _ hr e1) (setParser c st1) w hd hc
      rw [f1] at hp
      rw [f1, f2]
      cases r with
      | error e => exact ⟨c1, w1, _, rfl, rfl⟩
      | ok u =>
        have hn : n ≠ 0 := by rintro rfl; exact ht rfl
        have hne : bytes ≠ [] := by rintro rfl; exact ht (by simp)
        have hpos := List.length_pos_iff.2 hne
        exact ih (bytes.drop n).length (by rw [List.length_drop]; omega) (bytes.drop n) rfl c1 w1
          (by rw [show c1.decoder.parser = st1 from hp]; exact hr1) f4 f5

theorem file_same {rnd : Rat → Rat} (h : Nearest rnd) (fr : Rat → Txt) (n : Nat) (content : Option Bytes) (c : Converter) (w : Disk)
    (hr : Reachable c.decoder.parser) (hd : c.decoder.decoders = registered .jsonB) (hc : ∀ x ∈ c.printer.printers, IsJson x.impl) :
    ∃ c1 w1 ok, decodeRtcmFile fr n content c w = some ((c1, w1), ok) ∧
      decodeRtcmFileR rnd fr n content (rounded rnd .jsonB c) w = some ((rounded rnd .jsonB c1, w1), ok) := by
  cases content with
  | none => exact ⟨_, _, false, rfl, rfl⟩
  | some bytes =>
    obtain ⟨c1, w1, r, e1, e2⟩ := readLoop_same h fr n bytes c w hr hd hc
    unfold decodeRtcmFile decodeRtcmFileR
    dsimp only
    rw [e1, e2]
    exact ⟨_, _, _, rfl, rfl⟩

theorem convertFile_same {rnd : Rat → Rat} (h : Nearest rnd) (fr : Rat → Txt) (src : Txt → Option Bytes) (controls : Option Box)
    (w : Disk) (ready : Bool) (f : Txt) :
    convertFileR rnd fr src "JSON-B" controls w ready f = convertFile fr src "JSON-B" controls w ready f := by
  unfold convertFile convertFileR
  generalize createWorkFolder w f "JSON-B".toList = x
  obtain ⟨w1, wf⟩ := x
  cases wf with
  | none => rfl
  | some wfld =>
    dsimp only
    generalize initLogger w1 ready (Disk.join wfld (makeLogFileName f)) = x
    obtain ⟨⟨w2, ready2⟩, r⟩ := x
    cases r with
    | error e => rfl
    | ok u =>
      dsimp only
      cases controls with
      | none => rfl
      | some box =>
        dsimp only
        unfold factory factoryR
        rw [show modeOf "JSON-B" = some .jsonB by decide]
        dsimp only
        rw [strategy_is, strategyR_is]
        cases hd : w2.isdir wfld with
        | true =>
          simp only [if_true]
          obtain ⟨c1, w3, ok, e1, e2⟩ := file_same h fr FILE_CHUNK_LEN (src f)
            { decoder := { decoders := registered .jsonB }, printer := startPrinter .jsonB wfld box } w2 .init rfl
            (by simp [startPrinter, IsJson])
          rw [e1, e2]
          rfl
        | false => rfl

theorem mainLoop_same {rnd : Rat → Rat} (h : Nearest rnd) (fr : Rat → Txt) (src : Txt → Option Bytes) (controls : Option Box) :
    ∀ (files : List Txt) (w : Disk) (ready : Bool),
    mainLoopR rnd fr src "JSON-B" controls w ready files = mainLoop fr src "JSON-B" controls w ready files
  | [], _, _ => rfl
  | f :: rest, w, ready => by
    unfold mainLoop mainLoopR
    rw [convertFile_same h fr src controls w ready f]
    cases convertFile fr src "JSON-B" controls w ready f with
    | none => rfl
    | some x =>
      obtain ⟨⟨w1, ready1⟩, r⟩ := x
      cases r with
      | error e => rfl
      | ok v =>
        dsimp only
        rw [mainLoop_same h fr src controls rest w1 ready1]
        cases mainLoop fr src "JSON-B" controls w1 ready1 rest with
        | none => rfl
        | some x =>
          obtain ⟨s, r⟩ := x
          cases r <;> rfl

end Run
end Verif
