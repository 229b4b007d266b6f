import Verif.Lemmas.RunTotal
import Verif.Props.EndToEnd

/-!
# Lemmas: the files after a run in any mode
-/

namespace Verif
namespace Margo
open Spec

/-- Another start for the invariant. -/
theorem FInv.rebase {c : Controls} {wd : Txt} {w0 : Disk} {p : Printer} {w : Disk} {R : List (Txt × Row)} (h : FInv c wd w0 p w R)
    (hw0 : ∀ i, w0.fault i = false) {w' : Disk} (hf : w'.fault = w.fault)
    (hr : ∀ g k slot u t, g < 7 → sigCode g t = some slot →
      w'.read (pathOf wd g (margoName g k slot u)) = w.read (pathOf wd g (margoName g k slot u))) : FInv c wd w' p w' R := by
  refine ⟨h.ctrl, h.dir, rfl, ?_, fun _ => h.all hw0, fun _ _ => rfl⟩
  intro g k slot u t path hg ht hp
  obtain ⟨e1, pre, suf, e2, e3, e4⟩ := h.opened g k slot u t path hg ht hp
  refine ⟨e1, pre, suf, e2, ?_, fun _ => e4 hw0⟩
  rw [e1, hr g k slot u t hg ht, ← e1, e3]

end Margo

namespace Run
open Conv Decoder Framer Spec

theorem join_getLast (a b : Txt) (h : b ≠ []) : (Disk.join a b).getLast? = b.getLast? := by
  unfold Disk.join
  split
  · rfl
  · split
    · rw [List.getLast?_append_of_ne_nil _ h]
    · rw [List.getLast?_append_of_ne_nil _ (by simp)]
      simp [List.getLast?_cons, h]
      cases b with
      | nil => exact absurd rfl h
      | cons x l => simp [List.getLast?_cons]

theorem json_last : ∀ p ∈ Json.JSON_SPEC, p.2.file.toList ≠ [] ∧ p.2.file.toList.getLast? = some 'n' := by decide +kernel

/-- Files of the two printers are different. -/
theorem path_apart (wd : Txt) {n : Int} {row : Json.SpecRow} (h : Json.JSON_SPEC.get? n = some row) (g g' : Nat) (k : ObsKind) (slot u : String) :
    Json.pathOf wd row ≠ Margo.pathOf wd g (margoName g' k slot u) := by
  intro he
  obtain ⟨h1, h2⟩ := json_last _ (PyDict.mem_of_get? h)
  have := congrArg List.getLast? he
  unfold Json.pathOf Margo.pathOf at this
  rw [join_getLast _ _ h1, join_getLast _ _ (Margo.name_ne g' k slot u), h2] at this
  unfold margoName at this
  rw [List.getLast?_append_of_ne_nil _ (by decide)] at this
  exact absurd this (by decide)

/-- The sub-printers of a mode. -/
def subs (m : Mode) (pj : Json.Printer) (pm : Margo.Printer) : List SubPrinter :=
  match m with
  | .margo => [margoSub pm]
  | .json | .jsonB => [jsonSub pj]
  | .jargo => [jargoSub pj, margoSub pm]

/-- State after the objects `Js` were printed by the JSON printer and the rows `R` by the MARGO printer. -/
structure RInv (fr : Rat → Txt) (wd : Txt) (box : Box) (w0 : Disk) (pj : Json.Printer) (pm : Margo.Printer) (w : Disk) (Js : List PyObj)
    (R : List (Txt × Margo.Row)) : Prop where
  jwd : pj.wd = wd
  jctrl : pj.ctrls = box.json
  json : Json.Inv fr pj w Js
  margo : Margo.FInv box.margo wd w pm w R
  names : ∀ r ∈ R, ∃ g k slot u, Margo.Named g k slot u r
  fault : ∀ i, w.fault i = false
  frame : ∀ q, (∀ r ∈ R, ∀ g k slot u, Margo.Named g k slot u r → q ≠ Margo.pathOf wd g r.1) →
    (∀ n row, Json.JSON_SPEC.get? n = some row → Json.ofNumber n Js ≠ [] → q ≠ Json.pathOf wd row) → w.read q = w0.read q

theorem RInv.init (fr : Rat → Txt) (wd : Txt) (box : Box) (w : Disk) (hw : ∀ i, w.fault i = false) :
    RInv fr wd box w { ctrls := box.json, wd := wd } { ctrl := box.margo, wd := wd } w [] [] :=
  ⟨rfl, rfl, .init _ _ _ _, .init _ _ _, by simp, hw, fun _ _ _ => rfl⟩

theorem RInv.stepJson {fr : Rat → Txt} {wd : Txt} {box : Box} {w0 : Disk} {pj : Json.Printer} {pm : Margo.Printer} {w : Disk}
    {Js : List PyObj} {R : List (Txt × Margo.Row)} (h : RInv fr wd box w0 pj pm w Js R) {o : PyObj} {n : Int} {row : Json.SpecRow}
    (hn : Json.objNum o = some n) (hr : Json.JSON_SPEC.get? n = some row) :
    ∃ pj' w', pj.print fr w o = ((pj', w'), .ok ()) ∧ RInv fr wd box w0 pj' pm w' (Js ++ [o]) R := by
  obtain ⟨a1, a2, a3, a4⟩ := h.json.step o
  obtain ⟨b1, b2⟩ := Json.print_ok fr pj w h.fault o hn hr
  cases hx : pj.print fr w o with
  | mk s r =>
    obtain ⟨pj', w'⟩ := s
    rw [hx] at a1 a2 a3 a4 b1 b2
    dsimp only at a1 a2 a3 a4 b1 b2
    subst b1
    have a4 : Json.Inv fr pj' w' (Js ++ [o]) := by
      rcases a4 with ⟨-, a4⟩ | ⟨a4, -⟩
      · exact a4
      · cases a4
    have hf : ∀ i, w'.fault i = false := by rw [b2]; exact h.fault
    have hq : ∀ q, q ≠ Json.pathOf wd row → w'.read q = w.read q := by
      intro q hq
      refine a3 q (fun n' row' h1 h2 => ?_)
      rw [hn] at h1
      cases h1
      rw [hr] at h2
      cases h2
      rw [h.jwd]
      exact hq
    refine ⟨pj', w', rfl, a1.trans h.jwd, a2.trans h.jctrl, a4, ?_, h.names, hf, ?_⟩
    · refine h.margo.rebase h.fault b2 (fun g k slot u t _ _ => hq _ (Ne.symm ?_))
      exact path_apart wd hr g g k slot u
    · intro q q1 q2
      rw [hq q (q2 n row hr ?_)]
      · refine h.frame q q1 (fun n' row' h1 h2 => q2 n' row' h1 ?_)
        rw [Json.ofNumber_snoc]
        split
        · simp
        · exact h2
      · rw [Json.ofNumber_snoc, if_pos hn]
        simp

theorem RInv.stepMargo {fr : Rat → Txt} {wd : Txt} {box : Box} {w0 : Disk} {pj : Json.Printer} {pm : Margo.Printer} {w : Disk}
    {Js : List PyObj} {R : List (Txt × Margo.Row)} (h : RInv fr wd box w0 pj pm w Js R) (hc : Margo.ChannelsPos box.margo)
    {g : Nat} {p : Msm.ObservablesMSM} (hp : Regular g p) :
    ∃ pm' w' rs, pm.print w (.msm p) = ((pm', w'), .ok ()) ∧ Margo.printBuffer box.margo p = .ok rs ∧
      RInv fr wd box w0 pj pm' w' Js (R ++ rs) := by
  have hb := Margo.printBuffer_ok box.margo hp (fun _ => hc.ok)
  have hnamed := fun t => Margo.mrows_signed (t := t) box.margo hp (fun _ => hc) (kindsOf (Margo.settings box.margo))
  obtain ⟨pm', w', e, hI⟩ := h.margo.rows _ (hnamed _)
  refine ⟨pm', w', _, ?_, hb, h.jwd, h.jctrl, ?_, ?_, ?_, ?_, ?_⟩
  · unfold Margo.Printer.print
    dsimp only
    rw [h.margo.ctrl, hb]
    exact e
  · refine h.json.frame (fun n row hr => hI.frame _ ?_)
    intro r hr' g' _ _ _ _
    rw [h.jwd]
    rcases List.mem_append.1 hr' with hr' | hr'
    · obtain ⟨g2, k, slot, u, hN⟩ := h.names r hr'
      rw [hN.name]
      exact path_apart wd hr _ _ _ _ _
    · obtain ⟨g2, k, slot, u, hN, -⟩ := hnamed _ r hr'
      rw [hN.name]
      exact path_apart wd hr _ _ _ _ _
  · exact hI.rebase h.fault rfl (fun _ _ _ _ _ _ _ => rfl)
  · intro r hr'
    rcases List.mem_append.1 hr' with hr' | hr'
    · exact h.names r hr'
    · obtain ⟨g2, k, slot, u, hN, -⟩ := hnamed _ r hr'
      exact ⟨g2, k, slot, u, hN⟩
  · intro i
    rw [hI.fault]
    exact h.fault i
  · intro q q1 q2
    rw [hI.frame q q1]
    exact h.frame q (fun r hr' => q1 r (by simp [hr'])) q2

/-- The observables among the objects that are printed as MARGO files in a mode. -/
def margoOf (m : Mode) : PyObj → Option Msm.ObservablesMSM
  | .msm p => if usesMargo m .observablesMSM then some p else none
  | _ => none

/-- The print buffer of an object. -/
def bufRows (c : Margo.Controls) (p : Msm.ObservablesMSM) : List (Txt × Margo.Row) :=
  match Margo.printBuffer c p with
  | .ok rs => rs
  | .error _ => []

theorem outcome_typed {m : Mode} {msg : Bytes} {o : PyObj} (h : outcome m msg = some o) :
    ∃ (n : Nat) (row : Json.SpecRow), numberIn msg = some n ∧ supportedIn m n = true ∧ declared m.bare n = some o.cls ∧
      Json.objNum o = some (n : Int) ∧ Json.JSON_SPEC.get? (n : Int) = some row ∧ o.cls ∈ row.classes := by
  have hd : Reach m { decoders := registered m } := .start (strategy_eq m)
  have hx : (({ decoders := registered m } : DecoderTop).decode msg).2 = some o := by
    obtain ⟨c', e1, -⟩ := decode_outcome (c := { decoder := { decoders := registered m } }) (m := m) rfl msg
    have := congrArg Prod.snd e1
    rw [h] at this
    exact this
  obtain ⟨n, h1, h2, h3, h4⟩ := C17_typed m _ hd msg o hx
  obtain ⟨n', row, g1, g2, g3, g4⟩ := C46_total m _ hd msg o hx
  rw [h1] at g1
  cases g1
  exact ⟨n, row, h1, h2, h3, g2, g3, g4⟩

/-- The converter after a successful call of `print`. -/
def bump (c : Converter) (ps : List SubPrinter) : Converter :=
  { c with printer := { c.printer with attempts := c.printer.attempts + 1, succeeded := c.printer.succeeded + 1, printers := ps } }

theorem print_files {m : Mode} {fr : Rat → Txt} {wd : Txt} {box : Box} {w0 : Disk} {pj : Json.Printer} {pm : Margo.Printer} {w : Disk}
    {Js : List PyObj} {R : List (Txt × Margo.Row)} (h : RInv fr wd box w0 pj pm w Js R) (hc : Margo.ChannelsPos box.margo) {msg : Bytes}
    (hv : ValidFrame msg) {o : PyObj} (ho : outcome m msg = some o) (c : Converter) (hp : c.printer.printers = subs m pj pm) :
    ∃ c' w' pj' pm', c.print fr w o = ((c', w'), .ok ()) ∧ c'.decoder = c.decoder ∧ c'.printer.printers = subs m pj' pm' ∧
      c'.printer.attempts = c.printer.attempts + 1 ∧ c'.printer.succeeded = c.printer.succeeded + 1 ∧
      RInv fr wd box w0 pj' pm' w' (Js ++ [o].filter (fun o => !usesMargo m o.cls))
        (R ++ ([o].filterMap (margoOf m)).flatMap (bufRows box.margo)) := by
  obtain ⟨n, row, -, t2, t3, t4, t5, -⟩ := outcome_typed ho
  have hok := okCls_of_declared t2 t3
  cases hu : usesMargo m o.cls with
  | false =>
    obtain ⟨pj', w', e, hI⟩ := h.stepJson t4 t5
    have hmo : margoOf m o = none := by
      cases o with
      | msm p => unfold margoOf; dsimp only; rw [if_neg (by rw [show usesMargo m Cls.observablesMSM = false from hu]; simp)]
      | _ => rfl
    have e2 : [o].filterMap (margoOf m) = [] := by simp [hmo]
    have e3 : [o].filter (fun o => !usesMargo m o.cls) = [o] := by simp [hu]
    rw [e2, e3, List.flatMap_nil, List.append_nil]
    cases m with
    | margo =>
      have : o.cls = .observablesMSM := by simpa [okCls] using hok
      rw [this] at hu
      exact absurd hu (by decide)
    | json =>
      refine ⟨bump c (subs .json pj' pm), w', pj', pm, ?_, rfl, rfl, rfl, rfl, hI⟩
      · unfold Converter.print PrinterTop.print
        rw [hp]
        unfold subs printLoop
        dsimp only
        rw [if_pos (show (jsonSub pj).handles o.cls = true from json_handles pj o.cls)]
        unfold Impl.print jsonSub
        dsimp only
        rw [e]
        rfl
    | jsonB =>
      refine ⟨bump c (subs .jsonB pj' pm), w', pj', pm, ?_, rfl, rfl, rfl, rfl, hI⟩
      · unfold Converter.print PrinterTop.print
        rw [hp]
        unfold subs printLoop
        dsimp only
        rw [if_pos (show (jsonSub pj).handles o.cls = true from json_handles pj o.cls)]
        unfold Impl.print jsonSub
        dsimp only
        rw [e]
        rfl
    | jargo =>
      have hh : (jargoSub pj).handles o.cls = true := by
        rw [jargo_handles]
        unfold okCls at hok
        unfold usesMargo at hu
        simp at hok hu ⊢
        exact ⟨hu, hok⟩
      refine ⟨bump c (subs .jargo pj' pm), w', pj', pm, ?_, rfl, rfl, rfl, rfl, hI⟩
      · unfold Converter.print PrinterTop.print
        rw [hp]
        unfold subs printLoop
        dsimp only
        rw [if_pos hh]
        unfold Impl.print jargoSub
        dsimp only
        rw [e]
        rfl
  | true =>
    obtain ⟨p, rfl⟩ : ∃ p, o = .msm p := by
      cases o with
      | msm p => exact ⟨p, rfl⟩
      | msmBare b => cases b <;> simp [usesMargo, PyObj.cls] at hu
      | eph e => cases e <;> simp [usesMargo, PyObj.cls, ephCls] at hu
      | baseBare b => cases b <;> simp [usesMargo, PyObj.cls, baseCls] at hu
      | baseScaled b => cases b <;> simp [usesMargo, PyObj.cls, baseCls] at hu
    obtain ⟨d, h1, -, -, -, hpd⟩ := outcome_msm hv ho
    have hreg : Regular d.g p := by rw [hpd]; exact Margo.regular_decoded d h1
    obtain ⟨pm', w', rs, e, eb, hI⟩ := h.stepMargo hc hreg
    have e2 : [PyObj.msm p].filterMap (margoOf m) = [p] := by
      have : margoOf m (.msm p) = some p := by
        unfold margoOf
        dsimp only
        rw [if_pos (show usesMargo m Cls.observablesMSM = true from hu)]
      simp [this]
    have e3 : [PyObj.msm p].filter (fun o => !usesMargo m o.cls) = [] := by simp [hu]
    have e4 : [p].flatMap (bufRows box.margo) = rs := by simp [bufRows, eb]
    rw [e2, e3, e4, List.append_nil]
    have hh : (margoSub pm).handles (PyObj.msm p).cls = true := by rw [margo_handles]; rfl
    have hl : printLoop fr (.msm p) c.printer.attempts c.printer.succeeded w [margoSub pm] =
        ((c.printer.attempts + 1, c.printer.succeeded + 1, [margoSub pm'], w'), .ok ()) := by
      unfold printLoop
      rw [if_pos hh]
      unfold Impl.print margoSub
      dsimp only
      rw [e]
    cases m with
    | json => exact absurd hu (by simp [usesMargo])
    | jsonB => exact absurd hu (by simp [usesMargo])
    | margo =>
      refine ⟨bump c (subs .margo pj pm'), w', pj, pm', ?_, rfl, rfl, rfl, rfl, hI⟩
      · unfold Converter.print PrinterTop.print
        rw [hp]
        unfold subs printLoop
        dsimp only
        rw [if_pos hh]
        unfold Impl.print margoSub
        dsimp only
        rw [e]
        rfl
    | jargo =>
      have hh' : (jargoSub pj).handles (PyObj.msm p).cls = false := by rw [jargo_handles]; rfl
      refine ⟨bump c (subs .jargo pj pm'), w', pj, pm', ?_, rfl, rfl, rfl, rfl, hI⟩
      · unfold Converter.print PrinterTop.print
        rw [hp]
        unfold subs printLoop
        dsimp only
        rw [if_neg (by rw [hh']; simp), hl]
        rfl

theorem process_files {m : Mode} {fr : Rat → Txt} {wd : Txt} {box : Box} {w0 : Disk} (hc : Margo.ChannelsPos box.margo) :
    ∀ (ms : List Bytes) (c : Converter) (w : Disk) (pj : Json.Printer) (pm : Margo.Printer) (Js : List PyObj) (R : List (Txt × Margo.Row)),
    (∀ x ∈ ms, ValidFrame x) → c.decoder.decoders = registered m → c.printer.printers = subs m pj pm → RInv fr wd box w0 pj pm w Js R →
    ∃ c' w' pj' pm', processMsgs fr c w ms = ((c', w'), .ok ()) ∧ c'.printer.printers = subs m pj' pm' ∧
      c'.printer.attempts = c.printer.attempts + (ms.filterMap (outcome m)).length ∧
      c'.printer.succeeded = c.printer.succeeded + (ms.filterMap (outcome m)).length ∧
      c'.decoder.attempts = c.decoder.attempts + ms.countP (supportedMsg m) ∧
      c'.decoder.succeeded = c.decoder.succeeded + (ms.filterMap (outcome m)).length ∧
      RInv fr wd box w0 pj' pm' w' (Js ++ (ms.filterMap (outcome m)).filter (fun o => !usesMargo m o.cls))
        (R ++ ((ms.filterMap (outcome m)).filterMap (margoOf m)).flatMap (bufRows box.margo))
  | [], c, w, pj, pm, Js, R, _, _, hp, hI => ⟨c, w, pj, pm, rfl, hp, rfl, rfl, rfl, rfl, by simpa using hI⟩
  | msg :: ms, c, w, pj, pm, Js, R, hv, hd, hp, hI => by
    obtain ⟨c1, e1, e2, e3, e4, e5⟩ := decode_outcome hd msg
    unfold processMsgs
    rw [e1, List.filterMap_cons, List.countP_cons]
    cases ho : outcome m msg with
    | none =>
      rw [ho] at e5
      dsimp only
      obtain ⟨c', w', pj', pm', g1, g2, g3, g4, g5, g6, g7⟩ := process_files hc ms c1 w pj pm Js R (fun x hx => hv x (by simp [hx])) e3
        (by rw [e2, hp]) hI
      exact ⟨c', w', pj', pm', g1, g2, by rw [g3, e2], by rw [g4, e2], by rw [g5, e4]; omega, by rw [g6, e5]; simp, g7⟩
    | some o =>
      rw [ho] at e5
      dsimp only
      obtain ⟨c2, w2, pj2, pm2, f1, f2, f3, f4, f5, f6⟩ := print_files hI hc (hv msg (by simp)) ho c1 (by rw [e2, hp])
      rw [f1]
      dsimp only
      obtain ⟨c', w', pj', pm', g1, g2, g3, g4, g5, g6, g7⟩ := process_files hc ms c2 w2 pj2 pm2 _ _ (fun x hx => hv x (by simp [hx]))
        (by rw [f2, e3]) f3 f6
      refine ⟨c', w', pj', pm', g1, g2, ?_, ?_, ?_, ?_, ?_⟩
      · rw [g3, f4, e2, List.length_cons]; omega
      · rw [g4, f5, e2, List.length_cons]; omega
      · rw [g5, f2, e4]; omega
      · rw [g6, f2, e5, List.length_cons]; simp; omega
      · have a1 : (o :: ms.filterMap (outcome m)) = [o] ++ ms.filterMap (outcome m) := rfl
        rw [a1, List.filter_append, List.filterMap_append, List.flatMap_append, ← List.append_assoc, ← List.append_assoc]
        exact g7

end Run
end Verif
