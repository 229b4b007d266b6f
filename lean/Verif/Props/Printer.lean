import Verif.Model.Run
import Verif.Props.Decoder

/-!
# C39: every decoded object is printed by exactly one printer
-/

namespace Verif
open Spec Decoder Conv

/-- The sub-printer is the MARGO printer. -/
def Conv.Impl.isMargo : Impl → Bool
  | .json _ => false
  | .margo _ => true

/-- Observables are printed by the MARGO printer in modes MARGO and JARGO, everything else by the JSON printer. -/
def usesMargo (m : Mode) (c : Cls) : Bool := (m == .margo || m == .jargo) && c == .observablesMSM

/-- The printer objects that a run in a mode can reach: the one created by the strategy, changed by any sequence of calls of
`print` and `close`; at any time the set of sub-printers may be iterated in another order. -/
inductive PReach (m : Mode) : PrinterTop → Prop
  | start {w : Disk} {wd : Txt} {box : Box} {t : PrinterTop} (h : strategyPrinter m w wd box = .ok (some t)) : PReach m t
  | reorder {t : PrinterTop} {ps : List SubPrinter} (h : PReach m t) (hp : t.printers.Perm ps) : PReach m { t with printers := ps }
  | print {t : PrinterTop} (fr : Rat → Txt) (w : Disk) (o : PyObj) (h : PReach m t) : PReach m (t.print fr w o).1.1
  | close {t : PrinterTop} (w : Disk) (h : PReach m t) : PReach m (t.close w).1

namespace Conv

/-- What is fixed about a sub-printer. -/
def SubPrinter.sig (s : SubPrinter) : List Cls × List Cls × Bool := (s.dataSpec, s.actualSpec, s.impl.isMargo)

/-- see `SubPrinter.handles` -/
def sigHandles (x : List Cls × List Cls × Bool) (c : Cls) : Bool := x.1.contains c && x.2.1.contains c

theorem handles_sig (s : SubPrinter) (c : Cls) : s.handles c = sigHandles s.sig c := rfl

/-- The sub-printers of a mode. -/
def expectedSigs : Mode → List (List Cls × List Cls × Bool)
  | .margo => [(margoSpecs.flatMap (·.2), [.observablesMSM], true)]
  | .json | .jsonB => [(jsonSpecs.flatMap (·.2), Json.JSON_SPEC.flatMap (·.2.classes), false)]
  | .jargo => [(jargoSpecs.flatMap (·.2), Json.JSON_SPEC.flatMap (·.2.classes), false),
      (margoSpecs.flatMap (·.2), [.observablesMSM], true)]

theorem newJson_sig {w : Disk} {wd : Txt} {c : Json.Controls} {mode : String} {s : SubPrinter} {l : PyDict String (List Cls)}
    (hl : specsList.get? mode = some l) (h : newJson w wd c mode = .ok s) :
    s = { dataSpec := l.flatMap (·.2), actualSpec := Json.JSON_SPEC.flatMap (·.2.classes), impl := .json { ctrls := c, wd := wd } } := by
  unfold newJson at h
  split at h
  · cases h
  · rw [show makeSpecs mode = .ok (l.flatMap (·.2)) by unfold makeSpecs; rw [hl]] at h
    cases h; rfl

theorem newMargo_sig {w : Disk} {wd : Txt} {c : Margo.Controls} {mode : String} {s : SubPrinter} {l : PyDict String (List Cls)}
    (hl : specsList.get? mode = some l) (h : newMargo w wd c mode = .ok s) :
    s = { dataSpec := l.flatMap (·.2), actualSpec := [.observablesMSM], impl := .margo { ctrl := c, wd := wd } } := by
  unfold newMargo at h
  split at h
  · cases h
  · rw [show makeSpecs mode = .ok (l.flatMap (·.2)) by unfold makeSpecs; rw [hl]] at h
    cases h; rfl

/-- The printer objects created by the strategies. -/
def startPrinter (m : Mode) (wd : Txt) (box : Box) : PrinterTop :=
  let j (l : PyDict String (List Cls)) : SubPrinter :=
    { dataSpec := l.flatMap (·.2), actualSpec := Json.JSON_SPEC.flatMap (·.2.classes), impl := .json { ctrls := box.json, wd := wd } }
  let g : SubPrinter :=
    { dataSpec := margoSpecs.flatMap (·.2), actualSpec := [.observablesMSM], impl := .margo { ctrl := box.margo, wd := wd } }
  match m with
  | .margo => { format := "MARGO", printers := [g] }
  | .json | .jsonB => { format := "JSON", printers := [j jsonSpecs] }
  | .jargo => { format := "JARGO", printers := [j jargoSpecs, g] }

theorem strategyPrinter_eq (m : Mode) (w : Disk) (wd : Txt) (box : Box) :
    strategyPrinter m w wd box = if w.isdir wd then .ok (some (startPrinter m wd box)) else .error .assertionError := by
  have hj : ∀ mode l, specsList.get? mode = some l → newJson w wd box.json mode = if w.isdir wd then .ok
      { dataSpec := l.flatMap (·.2), actualSpec := Json.JSON_SPEC.flatMap (·.2.classes), impl := .json { ctrls := box.json, wd := wd } }
      else .error .assertionError := by
    intro mode l hl
    unfold newJson makeSpecs
    rw [hl]
    cases w.isdir wd <;> rfl
  have hm : newMargo w wd box.margo "MARGO" = if w.isdir wd then .ok
      { dataSpec := margoSpecs.flatMap (·.2), actualSpec := [.observablesMSM], impl := .margo { ctrl := box.margo, wd := wd } }
      else .error .assertionError := by
    unfold newMargo makeSpecs
    rw [show specsList.get? "MARGO" = some margoSpecs by decide]
    cases w.isdir wd <;> rfl
  unfold strategyPrinter
  cases m <;> dsimp only
  · rw [hm]; cases w.isdir wd <;> rfl
  · rw [hj "JSON" jsonSpecs (by decide)]; cases w.isdir wd <;> rfl
  · rw [hj "JSON" jsonSpecs (by decide)]; cases w.isdir wd <;> rfl
  · rw [hj "JARGO" jargoSpecs (by decide), hm]; cases w.isdir wd <;> rfl

theorem printLoop_sig (fr : Rat → Txt) (o : PyObj) (l : List SubPrinter) (a s : Nat) (w : Disk) :
    (printLoop fr o a s w l).1.2.2.1.map SubPrinter.sig = l.map SubPrinter.sig := by
  induction l with
  | nil => rfl
  | cons p rest ih =>
    unfold printLoop
    split
    · have hk : ∀ i : Impl, i.isMargo = p.impl.isMargo → ({ p with impl := i } : SubPrinter).sig = p.sig := by
        intro i hi; unfold SubPrinter.sig; rw [hi]
      have hp : (p.impl.print fr w o).1.1.isMargo = p.impl.isMargo := by
        unfold Impl.print; cases p.impl <;> rfl
      split
      · rename_i heq
        rw [heq] at hp
        rw [List.map_cons, List.map_cons, hk _ hp]
      · rename_i heq
        rw [heq] at hp
        rw [List.map_cons, List.map_cons, hk _ hp]
    · rw [List.map_cons, List.map_cons, ← ih]

theorem closeLoop_sig (l : List SubPrinter) (w : Disk) : (closeLoop w l).1.map SubPrinter.sig = l.map SubPrinter.sig := by
  induction l generalizing w with
  | nil => rfl
  | cons p rest ih =>
    unfold closeLoop
    have hp : (p.impl.close w).1.isMargo = p.impl.isMargo := by
      unfold Impl.close; cases p.impl <;> rfl
    dsimp only
    rw [List.map_cons, List.map_cons, ih]
    congr 1
    unfold SubPrinter.sig
    rw [hp]

theorem reach_sigs {m : Mode} {t : PrinterTop} (h : PReach m t) : (t.printers.map SubPrinter.sig).Perm (expectedSigs m) := by
  induction h with
  | @start w wd box t h =>
    rw [strategyPrinter_eq] at h
    split at h
    · cases h
      cases m <;> exact List.Perm.refl _
    · cases h
  | reorder h hp ih => exact (hp.symm.map _).trans ih
  | print fr w o h ih => rw [show ∀ t : PrinterTop, (t.print fr w o).1.1.printers = (printLoop fr o t.attempts t.succeeded w t.printers).1.2.2.1 from fun _ => rfl, printLoop_sig]; exact ih
  | close w h ih => rw [show ∀ t : PrinterTop, (t.close w).1.printers = (closeLoop w t.printers).1 from fun _ => rfl, closeLoop_sig]; exact ih

/-- The classes of the objects decoded in a mode. -/
def okCls (m : Mode) (c : Cls) : Bool :=
  match m with
  | .margo => c == .observablesMSM
  | .json | .jargo => !(c == .bareMSM123 || c == .bareMSM4567)
  | .jsonB => !(c == .observablesMSM)

theorem okCls_of_declared {m : Mode} {n : Nat} {c : Cls} (hs : supportedIn m n = true) (hd : declared m.bare n = some c) :
    okCls m c = true := by
  unfold supportedIn at hs
  unfold declared at hd
  cases hf : family n with
  | none => rw [hf] at hs; cases hs
  | some f =>
    rw [hf] at hs hd
    cases f <;> cases m <;> dsimp only at hs hd
    all_goals first
      | (simp [Mode.obsOnly, familyOn] at hs; done)
      | (simp only [Mode.bare] at hd; cases hd; rfl)
      | (split_ifs at hd <;> cases hd <;> rfl)

theorem expected_handler (m : Mode) (c : Cls) (h : okCls m c = true) :
    ((expectedSigs m).filter (sigHandles · c)).map (·.2.2) = [usesMargo m c] := by
  cases m <;> cases c <;> first | (cases h; done) | decide +kernel

/-- Exactly one sub-printer handles the class. -/
theorem handler {m : Mode} {t : PrinterTop} (h : PReach m t) {c : Cls} (hc : okCls m c = true) :
    ∃ pre s post, t.printers = pre ++ s :: post ∧ (∀ x ∈ pre ++ post, x.handles c = false) ∧ s.handles c = true ∧
      s.impl.isMargo = usesMargo m c := by
  have h1 := ((reach_sigs h).filter (sigHandles · c)).map (·.2.2)
  rw [expected_handler m c hc, List.perm_singleton, List.filter_map, List.map_map] at h1
  have h2 : ∃ s, t.printers.filter ((sigHandles · c) ∘ SubPrinter.sig) = [s] ∧ s.impl.isMargo = usesMargo m c := by
    cases hl : t.printers.filter ((sigHandles · c) ∘ SubPrinter.sig) with
    | nil => rw [hl] at h1; cases h1
    | cons s l =>
      rw [hl] at h1
      cases l with
      | nil => exact ⟨s, rfl, by simpa [SubPrinter.sig] using h1⟩
      | cons => simp at h1
  obtain ⟨s, hs, hm⟩ := h2
  rw [List.filter_eq_cons_iff] at hs
  obtain ⟨pre, post, h3, h4, h5, h6⟩ := hs
  refine ⟨pre, s, post, h3, ?_, h5, hm⟩
  intro x hx
  rcases List.mem_append.1 hx with hx | hx
  · rw [handles_sig]; simpa using h4 x hx
  · rw [List.filter_eq_nil_iff] at h6
    rw [handles_sig]; simpa using h6 x hx

theorem printLoop_skip (fr : Rat → Txt) (o : PyObj) (pre l : List SubPrinter) (a s : Nat) (w : Disk)
    (h : ∀ x ∈ pre, x.handles o.cls = false) :
    printLoop fr o a s w (pre ++ l) =
      (((printLoop fr o a s w l).1.1, (printLoop fr o a s w l).1.2.1, pre ++ (printLoop fr o a s w l).1.2.2.1,
        (printLoop fr o a s w l).1.2.2.2), (printLoop fr o a s w l).2) := by
  induction pre with
  | nil => rfl
  | cons p pre ih =>
    rw [List.cons_append, printLoop, if_neg (by rw [h p (by simp)]; simp), ih (fun x hx => h x (by simp [hx]))]
    rfl

theorem filter_single {c : Cls} {l pre post : List SubPrinter} {s : SubPrinter} (h : l = pre ++ s :: post) (hs : s.handles c = true)
    (ho : ∀ x ∈ pre ++ post, x.handles c = false) : l.filter (·.handles c) = [s] := by
  have h1 : pre.filter (·.handles c) = [] := List.filter_eq_nil_iff.2 (fun x hx => by rw [ho x (by simp [hx])]; simp)
  have h2 : post.filter (·.handles c) = [] := List.filter_eq_nil_iff.2 (fun x hx => by rw [ho x (by simp [hx])]; simp)
  rw [h, List.filter_append, List.filter_cons_of_pos (p := fun x : SubPrinter => x.handles c) hs, h1, h2]
  rfl

end Conv

/-- **C39** One object of a class that is decoded in the mode: exactly one sub-printer handles it (the MARGO printer for
observables in modes MARGO and JARGO, else the JSON printer) and no other is touched; `attempts` grows by one; `errors` grows by one
iff that printer raises. -/
theorem C39_step (m : Mode) (t : PrinterTop) (h : PReach m t) (o : PyObj) (n : Nat) (hs : supportedIn m n = true)
    (hd : declared m.bare n = some o.cls) (fr : Rat → Txt) (w : Disk) :
    ∃ pre s post, t.printers = pre ++ s :: post ∧ s.handles o.cls = true ∧ (∀ x ∈ pre ++ post, x.handles o.cls = false) ∧
      s.impl.isMargo = usesMargo m o.cls ∧
      (t.print fr w o).1.1.printers = pre ++ { s with impl := (s.impl.print fr w o).1.1 } :: post ∧
      (t.print fr w o).1.2 = (s.impl.print fr w o).1.2 ∧
      (t.print fr w o).2 = catchAsserts (s.impl.print fr w o).2 ∧
      (t.print fr w o).1.1.attempts = t.attempts + 1 ∧
      (t.print fr w o).1.1.errors = t.errors + (if (s.impl.print fr w o).2 = .ok () then 0 else 1) ∧
      (t.print fr w o).1.1.format = t.format := by
  obtain ⟨pre, s, post, h1, h2, h3, h4⟩ := handler h (okCls_of_declared hs hd)
  refine ⟨pre, s, post, h1, h3, h2, h4, ?_⟩
  unfold PrinterTop.print PrinterTop.errors
  rw [h1, printLoop_skip _ _ _ _ _ _ _ (fun x hx => h2 x (by simp [hx])), printLoop, if_pos h3]
  cases hr : s.impl.print fr w o with
  | mk s' r =>
    obtain ⟨i, w'⟩ := s'
    cases r with
    | ok u => cases u; simp
    | error e => simp; omega

/-- **C39** The order of iteration over the set of sub-printers does not matter. -/
theorem C39_order (m : Mode) (t t' : PrinterTop) (h : PReach m t) (hp : t.printers.Perm t'.printers) (ha : t.attempts = t'.attempts)
    (hsc : t.succeeded = t'.succeeded) (o : PyObj) (n : Nat) (hs : supportedIn m n = true) (hd : declared m.bare n = some o.cls)
    (fr : Rat → Txt) (w : Disk) :
    (t.print fr w o).1.2 = (t'.print fr w o).1.2 ∧ (t.print fr w o).2 = (t'.print fr w o).2 ∧
    (t.print fr w o).1.1.printers.Perm (t'.print fr w o).1.1.printers ∧
    (t.print fr w o).1.1.attempts = (t'.print fr w o).1.1.attempts ∧ (t.print fr w o).1.1.errors = (t'.print fr w o).1.1.errors := by
  have ht' : PReach m { t with printers := t'.printers } := .reorder h hp
  obtain ⟨pre, s, post, a1, a2, a3, a4, a5, a6, a7, a8, a9, -⟩ := C39_step m t h o n hs hd fr w
  obtain ⟨pre', s', post', b1, b2, b3, b4, b5, b6, b7, b8, b9, -⟩ := C39_step m _ ht' o n hs hd fr w
  have hsame : s = s' ∧ (pre ++ post).Perm (pre' ++ post') := by
    have e : (t.printers.filter (·.handles o.cls)).Perm (t'.printers.filter (·.handles o.cls)) := hp.filter _
    have f1 : t.printers.filter (·.handles o.cls) = [s] := filter_single a1 a2 a3
    have f2 : t'.printers.filter (·.handles o.cls) = [s'] := filter_single b1 b2 b3
    rw [f1, f2, List.perm_singleton, List.cons.injEq] at e
    refine ⟨e.1, ?_⟩
    have hp' := hp
    dsimp only at b1
    rw [a1, b1, e.1] at hp'
    exact (List.perm_cons _).1 ((List.perm_middle.symm.trans hp').trans List.perm_middle)
  obtain ⟨rfl, hperm⟩ := hsame
  have hq : ∀ x : PrinterTop, x.printers = t'.printers → x.attempts = t'.attempts → x.succeeded = t'.succeeded →
      (x.print fr w o).1.2 = (t'.print fr w o).1.2 ∧ (x.print fr w o).2 = (t'.print fr w o).2 ∧
      (x.print fr w o).1.1.printers = (t'.print fr w o).1.1.printers ∧
      (x.print fr w o).1.1.attempts = (t'.print fr w o).1.1.attempts ∧
      (x.print fr w o).1.1.errors = (t'.print fr w o).1.1.errors := by
    intro x e1 e2 e3
    unfold PrinterTop.print PrinterTop.errors
    rw [e1, e2, e3]
    exact ⟨rfl, rfl, rfl, rfl, rfl⟩
  obtain ⟨q1, q2, q3, q4, q5⟩ := hq { t with printers := t'.printers } rfl ha hsc
  refine ⟨by rw [a6, ← q1, b6], by rw [a7, ← q2, b7], ?_, by rw [a8, ← q4, b8], by rw [a9, ← q5, b9]; rfl⟩
  rw [← q3, a5, b5]
  exact (List.perm_middle.trans ((List.perm_cons _).2 hperm)).trans List.perm_middle.symm

/-- The converter objects that a run can reach: created by the strategy, changed by `parse_bytes`, by processing messages (decode, and
print what was decoded), by `release`, and by other iteration orders of the set of printers. -/
inductive CReach (m : Mode) : Converter → Prop
  | start {w : Disk} {wd : Txt} {box : Box} {c : Converter} (h : strategy m w wd box = .ok (some c)) : CReach m c
  | reorder {c : Converter} {ps : List SubPrinter} (h : CReach m c) (hp : c.printer.printers.Perm ps) :
      CReach m { c with printer := { c.printer with printers := ps } }
  | parse {c c' : Converter} {ms : List Bytes} (chunk : Bytes) (h : CReach m c) (hc : returnsD (c.parseBytes chunk) (c', ms)) :
      CReach m c'
  | process {c : Converter} (fr : Rat → Txt) (w : Disk) (msgs : List Bytes) (h : CReach m c) :
      CReach m (Run.processMsgs fr c w msgs).1.1
  | release {c : Converter} (w : Disk) (h : CReach m c) : CReach m (c.release w).1

/-- The counters agree. -/
def Conv.Balanced (c : Converter) : Prop :=
  (c.printer.attempts : Int) = c.decoder.attempts - c.decoder.decErrors ∧ 0 ≤ c.printer.errors ∧
    c.printer.errors ≤ c.printer.attempts

theorem Conv.process_inv {m : Mode} (fr : Rat → Txt) (msgs : List Bytes) :
    ∀ (c : Converter) (w : Disk), Reach m c.decoder → PReach m c.printer → Balanced c →
      Reach m (Run.processMsgs fr c w msgs).1.1.decoder ∧ PReach m (Run.processMsgs fr c w msgs).1.1.printer ∧
        Balanced (Run.processMsgs fr c w msgs).1.1 := by
  induction msgs with
  | nil => intro c w h1 h2 h3; exact ⟨h1, h2, h3⟩
  | cons msg rest ih =>
    intro c w h1 h2 h3
    have hr : Reach m (c.decode msg).1.decoder := .decode msg h1
    obtain ⟨s1, s2, s3, -, -⟩ := C18_step m c.decoder h1 msg
    have hty := C17_typed m c.decoder h1 msg
    have e1 : (c.decode msg).1.decoder = (c.decoder.decode msg).1 := rfl
    have e2 : (c.decode msg).2 = (c.decoder.decode msg).2 := rfl
    have e3 : (c.decode msg).1.printer = c.printer := rfl
    unfold Run.processMsgs
    cases hd : c.decode msg with
    | mk c' r =>
      rw [hd] at hr e1 e2 e3
      dsimp only at hr e1 e2 e3
      unfold Balanced at h3
      cases r with
      | none =>
        dsimp only
        refine ih c' w hr (by rw [e3]; exact h2) ?_
        unfold Balanced
        rw [e3, e1, s1, s2, ← e2]
        refine ⟨?_, h3.2⟩
        cases hb : supportedMsg m msg <;> simp <;> omega
      | some o =>
        dsimp only
        obtain ⟨n, hn, t1, t2, -⟩ := hty o e2.symm
        have hsup : supportedMsg m msg = true := by unfold supportedMsg; rw [hn]; exact t1
        have h2' : PReach m c'.printer := by rw [e3]; exact h2
        obtain ⟨pre, s, post, -, -, -, -, -, -, -, a8, a9, -⟩ := C39_step m c'.printer h2' o n t1 t2 fr w
        have hp : PReach m (c'.printer.print fr w o).1.1 := .print fr w o h2'
        have p1 : (c'.print fr w o).1.1.printer = (c'.printer.print fr w o).1.1 := rfl
        have p2 : (c'.print fr w o).1.1.decoder = c'.decoder := rfl
        have hbal : Balanced (c'.print fr w o).1.1 := by
          unfold Balanced
          rw [p1, p2, a8, a9, e1, e3, s1, s2, ← e2, hsup]
          simp only [if_true]
          rw [if_neg (by simp)]
          split <;> push_cast <;> omega
        rw [← p1] at hp
        rw [← p2] at hr
        cases hx : c'.print fr w o with
        | mk s' r =>
          rw [hx] at hp hr hbal
          obtain ⟨c2, w2⟩ := s'
          cases r with
          | ok u => cases u; exact ih c2 w2 hr hp hbal
          | error e => exact ⟨hr, hp, hbal⟩

theorem Conv.strategy_cases {m : Mode} {w : Disk} {wd : Txt} {box : Box} {c : Converter} (h : strategy m w wd box = .ok (some c)) :
    strategyDecoder m = .ok (some c.decoder) ∧ strategyPrinter m w wd box = .ok (some c.printer) := by
  unfold strategy at h
  obtain ⟨d, hd⟩ := C17_strategy m
  rw [hd, strategyPrinter_eq] at h
  rw [hd, strategyPrinter_eq]
  cases hw : w.isdir wd with
  | false => rw [hw] at h; cases h
  | true => rw [hw] at h; cases h; exact ⟨rfl, rfl⟩

theorem Conv.creach_inv {m : Mode} {c : Converter} (h : CReach m c) : Reach m c.decoder ∧ PReach m c.printer ∧ Balanced c := by
  induction h with
  | @start w wd box c h =>
    obtain ⟨h1, h2⟩ := strategy_cases h
    refine ⟨.start h1, .start h2, ?_⟩
    rw [strategy_eq] at h1
    rw [strategyPrinter_eq] at h2
    have e1 : c.decoder = { decoders := registered m } := (Option.some.inj (Except.ok.inj h1)).symm
    have e2 : c.printer = startPrinter m wd box := by
      split at h2
      · exact (Option.some.inj (Except.ok.inj h2)).symm
      · cases h2
    unfold Balanced PrinterTop.errors DecoderTop.decErrors
    rw [e1, e2]
    cases m <;> simp [startPrinter]
  | reorder h hp ih => exact ⟨ih.1, .reorder ih.2.1 hp, ih.2.2⟩
  | @parse c c' ms chunk h hc ih =>
    have hcm : returnsD (c.decoder.catchMessage chunk) (c'.decoder, ms) ∧ c'.printer = c.printer ∧
        c'.decoder.attempts = c.decoder.attempts ∧ c'.decoder.succeeded = c.decoder.succeeded := by
      unfold Converter.parseBytes DecoderTop.catchMessage returnsD at hc
      unfold DecoderTop.catchMessage returnsD
      rw [ExceptT.run_bind, ExceptT.run_bind] at hc
      rw [ExceptT.run_bind]
      cases hx : (Framer.catchMessage c.decoder.parser chunk).run with
      | none => rw [hx] at hc; cases hc
      | some r =>
        rw [hx] at hc
        cases r with
        | error e => cases hc
        | ok p => cases hc; exact ⟨rfl, rfl, rfl, rfl⟩
    obtain ⟨h1, h2, h3, h4⟩ := hcm
    refine ⟨.catch chunk ms ih.1 h1, by rw [h2]; exact ih.2.1, ?_⟩
    have := ih.2.2
    unfold Balanced DecoderTop.decErrors at this ⊢
    rw [h2, h3, h4]
    exact this
  | process fr w msgs h ih => exact process_inv fr msgs _ w ih.1 ih.2.1 ih.2.2
  | release w h ih => exact ⟨ih.1, .close w ih.2.1, ih.2.2⟩

/-- **C39** In every state of a run the printing attempts are the decoding attempts minus the decoding errors: whatever was decoded was
handed to a printer, and nothing else. -/
theorem C39_run (m : Mode) (c : Converter) (h : CReach m c) :
    (c.statistics.printing_attempts : Int) = c.statistics.decoding_attempts - c.statistics.decoding_errors ∧
    0 ≤ c.statistics.printing_errors ∧ c.statistics.printing_errors ≤ c.statistics.printing_attempts :=
  (creach_inv h).2.2

/-- A strategy creates a printer if and only if the work folder exists. -/
example (m : Mode) (box : Box) : ∃ t, PReach m t ∧ t.printers ≠ [] := by
  refine ⟨startPrinter m ['w'] box, .start (w := { dirs := [['w']] }) (wd := ['w']) (box := box) ?_, ?_⟩
  · rw [strategyPrinter_eq, if_pos (by decide)]
  · cases m <;> simp [startPrinter]

example : supportedIn .jargo 1087 = true ∧ declared Mode.jargo.bare 1087 = some .observablesMSM ∧
    usesMargo .jargo .observablesMSM = true ∧ supportedIn .jargo 1019 = true ∧ usesMargo .jargo .ephGPS = false := by decide

end Verif
