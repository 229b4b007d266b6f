import Verif.Lemmas.RunDouble
import Verif.Lemmas.RunFiles
import Verif.Props.Files

/-!
# Lemmas: the files after a run with rounded arithmetic
-/

namespace Verif
namespace Run
open Conv Decoder Framer Spec

theorem printR_setParser (rnd : Rat → Rat) (fr : Rat → Txt) (c : Converter) (st : Parser) (w : Disk) (o : PyObj) :
    (setParser c st).printR rnd fr w o = ((setParser (c.printR rnd fr w o).1.1 st, (c.printR rnd fr w o).1.2), (c.printR rnd fr w o).2) := rfl

theorem processR_setParser (rnd : Rat → Rat) (fr : Rat → Txt) (st : Parser) (ms : List Bytes) : ∀ (c : Converter) (w : Disk),
    processMsgsR rnd fr (setParser c st) w ms =
      ((setParser (processMsgsR rnd fr c w ms).1.1 st, (processMsgsR rnd fr c w ms).1.2), (processMsgsR rnd fr c w ms).2) := by
  induction ms with
  | nil => intro c w; rfl
  | cons m ms ih =>
    intro c w
    unfold processMsgsR
    rw [decode_setParser]
    cases h : c.decode m with
    | mk c' r =>
      cases r with
      | none => exact ih c' w
      | some o =>
        dsimp only
        rw [printR_setParser]
        cases h2 : c'.printR rnd fr w o with
        | mk s r =>
          obtain ⟨c2, w2⟩ := s
          cases r with
          | ok u => cases u; exact ih c2 w2
          | error e => rfl

theorem processR_parser (rnd : Rat → Rat) (fr : Rat → Txt) (ms : List Bytes) : ∀ (c : Converter) (w : Disk),
    (processMsgsR rnd fr c w ms).1.1.decoder.parser = c.decoder.parser := by
  intro c w
  have := processR_setParser rnd fr c.decoder.parser ms c w
  rw [setParser_self] at this
  rw [this]
  rfl

theorem processR_cons (rnd : Rat → Rat) (fr : Rat → Txt) (c : Converter) (w : Disk) (m : Bytes) (l : List Bytes) :
    processMsgsR rnd fr c w (m :: l) =
      match c.decode m with
      | (c, none) => processMsgsR rnd fr c w l
      | (c, some o) =>
        match c.printR rnd fr w o with
        | ((c, w), .error e) => ((c, w), .error e)
        | ((c, w), .ok ()) => processMsgsR rnd fr c w l := by
  rw [processMsgsR]; rfl

theorem processR_append (rnd : Rat → Rat) (fr : Rat → Txt) (a b : List Bytes) : ∀ (c : Converter) (w : Disk),
    processMsgsR rnd fr c w (a ++ b) =
      match processMsgsR rnd fr c w a with
      | (s, .ok ()) => processMsgsR rnd fr s.1 s.2 b
      | (s, .error e) => (s, .error e) := by
  induction a with
  | nil => intro c w; rfl
  | cons m a ih =>
    intro c w
    rw [List.cons_append, processR_cons, processR_cons]
    cases h : c.decode m with
    | mk c' r =>
      cases r with
      | none => exact ih c' w
      | some o =>
        dsimp only
        cases h2 : c'.printR rnd fr w o with
        | mk s r =>
          obtain ⟨c2, w2⟩ := s
          cases r with
          | ok u => cases u; exact ih c2 w2
          | error e => rfl

/-- The loop over the chunks of a file is feeding the parser and then processing all messages. -/
theorem readLoopR_feed (rnd : Rat → Rat) (fr : Rat → Txt) (n : Nat) (hn : 0 < n) (bytes : Bytes) : ∀ (c : Converter) (w : Disk),
    Reachable c.decoder.parser →
    ∃ chunks st ms st', chunks.flatten = bytes ∧ feed c.decoder.parser chunks = pure (st, ms) ∧
      readLoopR rnd fr n c w bytes = some ((setParser (processMsgsR rnd fr c w ms).1.1 st', (processMsgsR rnd fr c w ms).1.2), (processMsgsR rnd fr c w ms).2) ∧
      ((processMsgsR rnd fr c w ms).2 = .ok () → st' = st) := by
  induction hl : bytes.length using Nat.strongRecOn generalizing bytes with
  | ind k ih =>
    intro c w hr
    by_cases hb : bytes = []
    · subst hb
      refine ⟨[], c.decoder.parser, [], c.decoder.parser, rfl, rfl, ?_, fun _ => rfl⟩
      unfold readLoopR
      rw [dif_pos (by simp)]
      rfl
    · have ht : bytes.take n ≠ [] := by
        cases bytes with
        | nil => exact absurd rfl hb
        | cons x xs =>
          cases n with
          | zero => omega
          | succ n => simp
      obtain ⟨st1, ms1, e1, hr1⟩ := C09_total c.decoder.parser hr (bytes.take n)
      unfold readLoopR
      rw [dif_neg ht, parseBytes_eq c _ st1 ms1 e1]
      dsimp only
      rw [processR_setParser]
      have hpos := List.length_pos_iff.2 hb
      cases hp : processMsgsR rnd fr c w ms1 with
      | mk s r =>
        obtain ⟨c2, w2⟩ := s
        have hc2 : c2.decoder.parser = c.decoder.parser := by
          have := processR_parser rnd fr ms1 c w
          rw [hp] at this; exact this
        obtain ⟨chunks, st, ms, st', i1, i2, i3, i4⟩ := ih (bytes.drop n).length (by rw [List.length_drop]; omega) (bytes.drop n) rfl
          (setParser c2 st1) w2 hr1
        have hfeed : feed c.decoder.parser (bytes.take n :: chunks) = pure (st, ms1 ++ ms) := by
          unfold feed
          rw [e1]
          show (do let (st, ms') ← feed st1 chunks; pure (st, ms1 ++ ms')) = _
          have : feed st1 chunks = pure (st, ms) := i2
          rw [this]
          rfl
        have hflat : (bytes.take n :: chunks).flatten = bytes := by
          rw [List.flatten_cons, i1, List.take_append_drop]
        cases r with
        | error e =>
          refine ⟨_, st, ms1 ++ ms, st1, hflat, hfeed, ?_, ?_⟩
          · rw [processR_append, hp]
          · intro h
            rw [processR_append, hp] at h
            cases h
        | ok u =>
          cases u
          refine ⟨_, st, ms1 ++ ms, st', hflat, hfeed, ?_, ?_⟩
          · rw [processR_append, hp]
            dsimp only
            rw [i3, processR_setParser, setParser_set]
          · intro h
            rw [processR_append, hp] at h
            dsimp only at h
            apply i4
            rw [processR_setParser]
            exact h

/-- The same for a new converter. -/
theorem readLoopR_messages (rnd : Rat → Rat) (fr : Rat → Txt) (n : Nat) (hn : 0 < n) (bytes : Bytes) (c : Converter) (w : Disk)
    (hc : c.decoder.parser = Parser.init) :
    ∃ st', readLoopR rnd fr n c w bytes = some ((setParser (processMsgsR rnd fr c w (messages bytes)).1.1 st', (processMsgsR rnd fr c w (messages bytes)).1.2),
        (processMsgsR rnd fr c w (messages bytes)).2) ∧
      ((processMsgsR rnd fr c w (messages bytes)).2 = .ok () → st'.parsErrCnt = dirtyGaps (scan [] bytes).segs) := by
  obtain ⟨chunks, st, ms, st', h1, h2, h3, h4⟩ := readLoopR_feed rnd fr n hn bytes c w (by rw [hc]; exact .init)
  obtain ⟨st2, f1, f2, -⟩ := feed_init chunks
  rw [hc, f1] at h2
  have h2 := pureD_inj h2
  have e1 : st2 = st := congrArg Prod.fst h2
  have e2 : messages chunks.flatten = ms := congrArg Prod.snd h2
  rw [h1] at e2 f2
  subst e2
  refine ⟨st', h3, fun h => ?_⟩
  rw [h4 h, ← e1, f2]

end Run

namespace Margo
open Spec

/-- A row with exact and with rounded arithmetic. -/
def NearPrinted (r r' : Txt × Row) : Prop :=
  r'.1 = r.1 ∧ r'.2.1 = r.2.1 ∧ ∃ g k slot u, Named g k slot u r' ∧ Signed k r' ∧
    List.Forall₂ (Option.Rel (fun x y => |y - x| ≤ k.tolerance x)) (r.2.2.map Cell.val) (r'.2.2.map Cell.val)

/-- The rows of an object with exact and with rounded arithmetic. -/
theorem printed_rows {rnd : Rat → Rat} (h : Nearest rnd) (c : Controls) (hc : Channels c) {g : Nat} {p p' : Msm.ObservablesMSM}
    (hp : Msm.ObjRel rnd p p') (hR : Regular g p) (hC : ChannelsPos c) :
    ∃ rows rows', printBuffer c p = .ok rows ∧ printBufferR rnd c p' = .ok rows' ∧ List.Forall₂ NearPrinted rows rows' := by
  have hOK : g = 1 → ChannelsOK c := fun _ => hC.ok
  have e1 := printBuffer_ok c hR hOK
  have hs := mrows_signed c (t := if g = 0 then (p.hdr.time : Int) else convToGpsTime p.hdr.time p.hdr.day c.gps_utc_shift (gnssLetter g))
    hR (fun _ => hC) (kindsOf (settings c))
  have hrel := printBuffer_rel h c hc hp
  rw [e1] at hrel
  generalize hpb : printBufferR rnd c p' = b at hrel ⊢
  cases b with
  | error e => exact hrel.elim
  | ok rows' =>
    refine ⟨_, rows', e1, rfl, ?_⟩
    have hrel : BufRel _ rows' := hrel
    refine List.Forall₂.imp ?_ (forall₂_getElem hrel hs)
    rintro ⟨n, r⟩ ⟨n', r'⟩ ⟨⟨g1, k, slot, u, hN, hS, -⟩, h1, h2, h3⟩
    dsimp only at h1 h2 h3
    subst h1
    have hk : n[1]? = some k.letter := by
      have := name_second hN.lt k slot u
      rwa [← hN.name] at this
    have h4 := h3 k hk
    have hN' : Named g1 k slot u (n, r') := ⟨hN.lt, hN.code, hN.name, h4.length_eq.symm.trans hN.len⟩
    have h5 : Signed k (n, r') := by
      intro x hx
      obtain ⟨y, -, -, hy⟩ := forall₂_right h4 hx
      exact hy
    refine ⟨rfl, h2.symm, g1, k, slot, u, hN', h5, ?_⟩
    rw [List.forall₂_map_left_iff, List.forall₂_map_right_iff]
    exact List.Forall₂.imp (fun _ _ hab => hab.1) h4

end Margo

namespace Run
open Conv Decoder Framer Spec

theorem RInv.stepMargoR {rnd : Rat → Rat} (hn : Nearest rnd) {fr : Rat → Txt} {wd : Txt} {box : Box} {w0 : Disk} {pj : Json.Printer}
    {pm : Margo.Printer} {w : Disk} {Js : List PyObj} {R : List (Txt × Margo.Row)} (h : RInv fr wd box w0 pj pm w Js R)
    (hc : Margo.ChannelsPos box.margo) (hb : Margo.Channels box.margo) {g : Nat} {p p' : Msm.ObservablesMSM} (hp : Regular g p)
    (hr : Msm.ObjRel rnd p p') :
    ∃ pm' w' rs rs', pm.printR rnd w (.msm p') = ((pm', w'), .ok ()) ∧ Margo.printBuffer box.margo p = .ok rs ∧
      List.Forall₂ Margo.NearPrinted rs rs' ∧ RInv fr wd box w0 pj pm' w' Js (R ++ rs') := by
  obtain ⟨rs, rs', e1, e2, e3⟩ := Margo.printed_rows hn box.margo hb hr hp hc
  have hnamed : ∀ r ∈ rs', ∃ g k slot u, Margo.Named g k slot u r ∧ Margo.Signed k r ∧ (g = 1 → Margo.ChannelsOK box.margo) := by
    intro r hr
    obtain ⟨x, -, -, -, g, k, slot, u, a1, a2, -⟩ := Margo.forall₂_right e3 hr
    exact ⟨g, k, slot, u, a1, a2, fun _ => hc.ok⟩
  obtain ⟨pm', w', e, hI⟩ := h.margo.rows _ hnamed
  refine ⟨pm', w', rs, rs', ?_, e1, e3, h.jwd, h.jctrl, ?_, ?_, ?_, ?_, ?_⟩
  · unfold Margo.Printer.printR
    dsimp only
    rw [h.margo.ctrl, e2]
    dsimp only
    rw [Margo.printRowsR_eq hn rs' pm w (by rw [h.margo.ctrl]; exact hb)]
    exact e
  · refine h.json.frame (fun n row hr => hI.frame _ ?_)
    intro r hr' g' _ _ _ _
    rw [h.jwd]
    rcases List.mem_append.1 hr' with hr' | hr'
    · obtain ⟨g2, k, slot, u, hN⟩ := h.names r hr'
      rw [hN.name]
      exact path_apart wd hr _ _ _ _ _
    · obtain ⟨g2, k, slot, u, hN, -⟩ := hnamed r hr'
      rw [hN.name]
      exact path_apart wd hr _ _ _ _ _
  · exact hI.rebase h.fault rfl (fun _ _ _ _ _ _ _ => rfl)
  · intro r hr'
    rcases List.mem_append.1 hr' with hr' | hr'
    · exact h.names r hr'
    · obtain ⟨g2, k, slot, u, hN, -⟩ := hnamed r hr'
      exact ⟨g2, k, slot, u, hN⟩
  · intro i
    rw [hI.fault]
    exact h.fault i
  · intro q q1 q2
    rw [hI.frame q q1]
    exact h.frame q (fun r hr' => q1 r (by simp [hr'])) q2

theorem print_filesR {rnd : Rat → Rat} (hn : Nearest rnd) {m : Mode} {fr : Rat → Txt} {wd : Txt} {box : Box} {w0 : Disk} {pj : Json.Printer}
    {pm : Margo.Printer} {w : Disk} {Js : List PyObj} {R : List (Txt × Margo.Row)} (h : RInv fr wd box w0 pj pm w Js R)
    (hc : Margo.ChannelsPos box.margo) (hb : Margo.Channels box.margo) {msg : Bytes} (hv : ValidFrame msg) {o o' : PyObj}
    (ho : outcome m msg = some o) (hr : ORel rnd o o') (c : Converter) (hp : c.printer.printers = subs m pj pm) :
    ∃ c' w' pj' pm' S, (rounded rnd m c).printR rnd fr w o' = ((rounded rnd m c', w'), .ok ()) ∧ c'.decoder = c.decoder ∧
      c'.printer.printers = subs m pj' pm' ∧
      List.Forall₂ Margo.NearPrinted (([o].filterMap (margoOf m)).flatMap (bufRows box.margo)) S ∧
      RInv fr wd box w0 pj' pm' w' (Js ++ [o'].filter (fun o => !usesMargo m o.cls)) (R ++ S) := by
  obtain ⟨n, row, -, t2, t3, t4, t5, -⟩ := outcome_typed ho
  have hcls := near_cls (hr.near hn)
  have hnum := near_num (hr.near hn)
  have hok := okCls_of_declared t2 t3
  rw [← hcls] at hok
  rw [← hnum] at t4
  cases hu : usesMargo m o'.cls with
  | false =>
    obtain ⟨pj', w', e, hI⟩ := h.stepJson t4 t5
    have hmo : margoOf m o = none := by
      rw [hcls] at hu
      cases o with
      | msm p => unfold margoOf; dsimp only; rw [if_neg (by rw [show usesMargo m Cls.observablesMSM = false from hu]; simp)]
      | _ => rfl
    have e2 : [o].filterMap (margoOf m) = [] := by simp [hmo]
    have e3 : [o'].filter (fun o => !usesMargo m o.cls) = [o'] := by simp [hu]
    rw [e2, e3, List.flatMap_nil]
    cases m with
    | margo =>
      have : o'.cls = .observablesMSM := by simpa [okCls] using hok
      rw [this] at hu
      exact absurd hu (by decide)
    | json =>
      refine ⟨bump c (subs .json pj' pm), w', pj', pm, [], ?_, rfl, rfl, .nil, by rw [List.append_nil]; exact hI⟩
      · unfold Converter.printR PrinterTop.printR rounded
        dsimp only
        rw [hp]
        unfold subs printLoopR
        dsimp only
        rw [if_pos (show (jsonSub pj).handles o'.cls = true from json_handles pj o'.cls)]
        unfold Impl.printR jsonSub
        dsimp only
        rw [e]
        rfl
    | jsonB =>
      refine ⟨bump c (subs .jsonB pj' pm), w', pj', pm, [], ?_, rfl, rfl, .nil, by rw [List.append_nil]; exact hI⟩
      · unfold Converter.printR PrinterTop.printR rounded
        dsimp only
        rw [hp]
        unfold subs printLoopR
        dsimp only
        rw [if_pos (show (jsonSub pj).handles o'.cls = true from json_handles pj o'.cls)]
        unfold Impl.printR jsonSub
        dsimp only
        rw [e]
        rfl
    | jargo =>
      have hh : (jargoSub pj).handles o'.cls = true := by
        rw [jargo_handles]
        unfold okCls at hok
        unfold usesMargo at hu
        simp at hok hu ⊢
        exact ⟨hu, hok⟩
      refine ⟨bump c (subs .jargo pj' pm), w', pj', pm, [], ?_, rfl, rfl, .nil, by rw [List.append_nil]; exact hI⟩
      · unfold Converter.printR PrinterTop.printR rounded
        dsimp only
        rw [hp]
        unfold subs printLoopR
        dsimp only
        rw [if_pos hh]
        unfold Impl.printR jargoSub
        dsimp only
        rw [e]
        rfl
  | true =>
    obtain ⟨p, rfl⟩ : ∃ p, o = .msm p := by
      rw [hcls] at hu
      cases o with
      | msm p => exact ⟨p, rfl⟩
      | msmBare b => cases b <;> simp [usesMargo, PyObj.cls] at hu
      | eph e => cases e <;> simp [usesMargo, PyObj.cls, ephCls] at hu
      | baseBare b => cases b <;> simp [usesMargo, PyObj.cls, baseCls] at hu
      | baseScaled b => cases b <;> simp [usesMargo, PyObj.cls, baseCls] at hu
    cases hr with
    | @msm _ p' hr =>
    obtain ⟨d, h1, -, -, -, hpd⟩ := outcome_msm hv ho
    have hreg : Regular d.g p := by rw [hpd]; exact Margo.regular_decoded d h1
    obtain ⟨pm', w', rs, rs', e, eb, en, hI⟩ := h.stepMargoR hn hc hb hreg hr
    have e2 : [PyObj.msm p].filterMap (margoOf m) = [p] := by
      have : margoOf m (.msm p) = some p := by
        unfold margoOf
        dsimp only
        rw [if_pos (show usesMargo m Cls.observablesMSM = true from hu)]
      simp [this]
    have e3 : [PyObj.msm p'].filter (fun o => !usesMargo m o.cls) = [] := by simp [hu]
    have e4 : [p].flatMap (bufRows box.margo) = rs := by simp [bufRows, eb]
    rw [e2, e3, e4, List.append_nil]
    have hh : (margoSub pm).handles (PyObj.msm p').cls = true := by rw [margo_handles]; rfl
    have hl : printLoopR rnd fr (.msm p') c.printer.attempts c.printer.succeeded w [margoSub pm] =
        ((c.printer.attempts + 1, c.printer.succeeded + 1, [margoSub pm'], w'), .ok ()) := by
      unfold printLoopR
      rw [if_pos hh]
      unfold Impl.printR margoSub
      dsimp only
      rw [e]
    cases m with
    | json => exact absurd hu (by simp [usesMargo])
    | jsonB => exact absurd hu (by simp [usesMargo])
    | margo =>
      refine ⟨bump c (subs .margo pj pm'), w', pj, pm', rs', ?_, rfl, rfl, en, hI⟩
      · unfold Converter.printR PrinterTop.printR rounded
        dsimp only
        rw [hp]
        unfold subs
        dsimp only
        rw [hl]
        rfl
    | jargo =>
      have hh' : (jargoSub pj).handles (PyObj.msm p').cls = false := by rw [jargo_handles]; rfl
      refine ⟨bump c (subs .jargo pj pm'), w', pj, pm', rs', ?_, rfl, rfl, en, hI⟩
      · unfold Converter.printR PrinterTop.printR rounded
        dsimp only
        rw [hp]
        unfold subs printLoopR
        dsimp only
        rw [if_neg (by rw [hh']; simp), hl]
        rfl

theorem process_filesR {rnd : Rat → Rat} (hn : Nearest rnd) {m : Mode} {fr : Rat → Txt} {wd : Txt} {box : Box} {w0 : Disk}
    (hc : Margo.ChannelsPos box.margo) (hb : Margo.Channels box.margo) :
    ∀ (ms : List Bytes) (c : Converter) (w : Disk) (pj : Json.Printer) (pm : Margo.Printer) (Js : List PyObj) (R : List (Txt × Margo.Row)),
    (∀ x ∈ ms, ValidFrame x) → c.decoder.decoders = registered m → c.printer.printers = subs m pj pm → RInv fr wd box w0 pj pm w Js R →
    ∃ c' w' pj' pm' os' S, processMsgsR rnd fr (rounded rnd m c) w ms = ((rounded rnd m c', w'), .ok ()) ∧
      c'.printer.printers = subs m pj' pm' ∧ List.Forall₂ (ORel rnd) (ms.filterMap (outcome m)) os' ∧
      List.Forall₂ Margo.NearPrinted (((ms.filterMap (outcome m)).filterMap (margoOf m)).flatMap (bufRows box.margo)) S ∧
      RInv fr wd box w0 pj' pm' w' (Js ++ os'.filter (fun o => !usesMargo m o.cls)) (R ++ S)
  | [], c, w, pj, pm, Js, R, _, _, hp, hI => ⟨c, w, pj, pm, [], [], rfl, hp, .nil, .nil, by simpa using hI⟩
  | msg :: ms, c, w, pj, pm, Js, R, hv, hd, hp, hI => by
    have hlen := frame_short (hv msg (by simp))
    obtain ⟨o', e1, e2⟩ := decode_rounded hn hd msg hlen
    obtain ⟨d1, d2, d3⟩ := decode_decoders hd msg
    unfold processMsgsR
    rw [e1, List.filterMap_cons, ← d1]
    generalize c.decode msg = x at e1 e2 d1 d2 d3 ⊢
    obtain ⟨c1, o⟩ := x
    dsimp only at e1 e2 d1 d2 d3 ⊢
    cases e2 with
    | none => exact process_filesR hn hc hb ms c1 w pj pm Js R (fun x hx => hv x (by simp [hx])) d3 (by rw [d2, hp]) hI
    | @some o o' ho =>
      obtain ⟨c2, w2, pj2, pm2, S1, f1, f2, f3, f4, f5⟩ := print_filesR hn hI hc hb (hv msg (by simp)) d1.symm ho c1 (by rw [d2, hp])
      dsimp only
      rw [f1]
      dsimp only
      obtain ⟨c', w', pj', pm', os', S2, g1, g2, g3, g4, g5⟩ := process_filesR hn hc hb ms c2 w2 pj2 pm2 _ _ (fun x hx => hv x (by simp [hx]))
        (by rw [f2, d3]) f3 f5
      refine ⟨c', w', pj', pm', o' :: os', S1 ++ S2, g1, g2, .cons ho g3, ?_, ?_⟩
      · have a1 : (o :: ms.filterMap (outcome m)) = [o] ++ ms.filterMap (outcome m) := rfl
        rw [a1, List.filterMap_append, List.flatMap_append]
        exact List.rel_append f4 g4
      · have a1 : (o' :: os') = [o'] ++ os' := rfl
        rw [a1, List.filter_append, ← List.append_assoc, ← List.append_assoc]
        exact g5

/-- What is read after a run: the JSON files of `Js` and the MARGO files of `rows`. -/
structure Written (fr : Rat → Txt) (wd : Txt) (box : Box) (Js : List PyObj) (rows : List (Txt × Int × List (Option Rat))) (w w' : Disk) : Prop where
  json : ∀ n row, Json.JSON_SPEC.get? n = some row → Json.ofNumber n Js ≠ [] →
    w'.read (Json.pathOf wd row) = some (Json.openText fr box.json (Json.ofNumber n Js) ++ ['\r', ']'])
  margo : ∀ g k slot u t, g < 7 → sigCode g t = some slot → margoName g k slot u ∈ rows.map (·.1) →
    w'.read (Margo.pathOf wd g (margoName g k slot u)) = some (fileText (Margo.settings box.margo) g k slot u rows)
  rest : ∀ q, (∀ n row, Json.JSON_SPEC.get? n = some row → Json.ofNumber n Js ≠ [] → q ≠ Json.pathOf wd row) →
    (∀ g k slot u t, g < 7 → sigCode g t = some slot → margoName g k slot u ∈ rows.map (·.1) →
      q ≠ Margo.pathOf wd g (margoName g k slot u)) → w'.read q = w.read q

theorem RInv.written {fr : Rat → Txt} {m : Mode} {wd : Txt} {box : Box} {w0 : Disk} {pj : Json.Printer} {pm : Margo.Printer} {w : Disk}
    {Js : List PyObj} {R : List (Txt × Margo.Row)} (h : RInv fr wd box w0 pj pm w Js R) (hm : m = .margo → Js = []) (c : Converter)
    (hp : c.printer.printers = subs m pj pm) :
    Written fr wd box Js (R.map (fun r => (r.1, r.2.1, r.2.2.map Margo.Cell.val))) w0 (c.release w).2 := by
  obtain ⟨j1, j2⟩ := h.json.close
  rw [h.jwd, h.jctrl] at j1
  rw [h.jwd] at j2
  have hr : ∀ q, (c.release w).2.read q = (pj.close w).2.read q := by
    intro q
    unfold Converter.release PrinterTop.close
    rw [hp]
    cases m with
    | margo =>
      refine (j2 q ?_).symm
      intro n row _ hne
      rw [hm rfl] at hne
      exact absurd rfl hne
    | json => rfl
    | jsonB => rfl
    | jargo => rfl
  have hname : ∀ n, n ∈ (R.map (fun r => (r.1, r.2.1, r.2.2.map Margo.Cell.val))).map (·.1) ↔ ∃ r ∈ R, r.1 = n := by
    intro n
    rw [List.map_map, List.mem_map]
    rfl
  have hapart : ∀ n row g k slot u, Json.JSON_SPEC.get? n = some row → Margo.pathOf wd g (margoName g k slot u) ≠ Json.pathOf wd row :=
    fun n row g k slot u hrow => (path_apart wd hrow g g k slot u).symm
  refine ⟨?_, ?_, ?_⟩
  · intro n row hrow hne
    rw [hr]
    exact j1 n row hrow hne
  · intro g k slot u t hg ht hn
    rw [hr, j2 _ (fun n row hrow _ => hapart n row g k slot u hrow)]
    obtain ⟨r, hr', hn⟩ := (hname _).1 hn
    have := h.margo.all h.fault r hr'
    rw [hn] at this
    obtain ⟨path, hpath⟩ := Option.ne_none_iff_exists'.1 this
    obtain ⟨e1, pre, suf, e2, e3, e4⟩ := h.margo.opened g k slot u t path hg ht hpath
    rw [e4 h.fault, List.nil_append] at e2
    rw [← e1, e3, ← e2, Margo.rowsText_view]
    rfl
  · intro q q1 q2
    rw [hr, j2 q q1]
    refine h.frame q ?_ q1
    intro r hr' g k slot u hN
    obtain ⟨t, ht⟩ := hN.code
    rw [hN.name]
    exact q2 g k slot u t hN.lt ht ((hname _).2 ⟨r, hr', hN.name⟩)

/-- A row with exact arithmetic and one with rounded arithmetic. -/
def NearRowOf (r r' : Txt × Int × List (Option Rat)) : Prop :=
  r'.1 = r.1 ∧ r'.2.1 = r.2.1 ∧ ∃ g k slot u t, g < 7 ∧ sigCode g t = some slot ∧ r.1 = margoName g k slot u ∧
    List.Forall₂ (Option.Rel (fun x y => |y - x| ≤ k.tolerance x)) r.2.2 r'.2.2

/-- The run of a converter with rounded arithmetic on any bytes. -/
theorem run_filesR {rnd : Rat → Rat} (hnr : Nearest rnd) (fr : Rat → Txt) {m : Mode} {w0 : Disk} {wd : Txt} {box : Box} {c : Converter}
    (h : strategy m w0 wd box = .ok (some c)) (hch : Margo.ChannelsPos box.margo) (hb : Margo.Channels box.margo) (n : Nat) (hn : 0 < n)
    (bytes : Bytes) (w : Disk) (hw : ∀ i, w.fault i = false) :
    ∃ c' w' os' rows', decodeRtcmFileR rnd fr n (some bytes) (rounded rnd m c) w = some ((c', w'), true) ∧
      List.Forall₂ (ORel rnd) ((messages bytes).filterMap (outcome m)) os' ∧
      List.Forall₂ NearRowOf (obsRows (Margo.settings box.margo) (rowTime box.margo) (rowPart m ((messages bytes).filterMap (outcome m)))) rows' ∧
      Written fr wd box (jsonPart m os') rows' w w' := by
  obtain ⟨h1, h2⟩ := strategy_cases h
  have hdec : c.decoder.decoders = registered m := reach_decoders (.start h1)
  have e2 : c.printer = startPrinter m wd box := by
    rw [strategyPrinter_eq] at h2
    split at h2
    · exact (Option.some.inj (Except.ok.inj h2)).symm
    · cases h2
  have e3 : c.printer.printers = subs m { ctrls := box.json, wd := wd } { ctrl := box.margo, wd := wd } := by
    rw [e2]; cases m <;> rfl
  have hval := messages_valid bytes
  obtain ⟨c1, w1, pj, pm, os', S, g1, g2, g3, g4, g5⟩ := process_filesR hnr (m := m) (fr := fr) hch hb (messages bytes) c w
    { ctrls := box.json, wd := wd } { ctrl := box.margo, wd := wd } [] [] hval hdec e3 (RInv.init fr wd box w hw)
  rw [List.nil_append, List.nil_append, ← jsonPart_eq] at g5
  rw [← rowPart_eq] at g4
  obtain ⟨st', a1, -⟩ := readLoopR_messages rnd fr n hn bytes (rounded rnd m c) w (show c.decoder.parser = _ from fresh_parser h)
  rw [g1] at a1
  have hJ : m = .margo → jsonPart m os' = [] := by
    rintro rfl
    rw [jsonPart_eq, List.filter_eq_nil_iff]
    intro o' ho'
    obtain ⟨o, ho, hoo⟩ := Margo.forall₂_right g3 ho'
    obtain ⟨msg, hmsg, hout⟩ := List.mem_filterMap.1 ho
    obtain ⟨n, row, -, t2, t3, -⟩ := outcome_typed hout
    have := okCls_of_declared t2 t3
    unfold okCls at this
    have : o.cls = .observablesMSM := by simpa using this
    rw [near_cls (hoo.near hnr), this]
    decide
  have hF := g5.written hJ c1 g2
  refine ⟨(setParser (rounded rnd m c1) st' |>.release w1).1, (c1.release w1).2, os', _, ?_, g3, ?_, hF⟩
  · unfold decodeRtcmFileR
    dsimp only
    rw [a1]
    rfl
  · rw [List.forall₂_map_right_iff]
    have hview : obsRows (Margo.settings box.margo) (rowTime box.margo) (rowPart m ((messages bytes).filterMap (outcome m))) =
        ((rowPart m ((messages bytes).filterMap (outcome m))).flatMap (bufRows box.margo)).map
          (fun r => (r.1, r.2.1, r.2.2.map Margo.Cell.val)) := by
      unfold obsRows
      rw [List.map_flatMap]
      rw [List.flatMap_congr]
      intro p hp
      rw [rowPart_eq] at hp
      obtain ⟨o, ho, hop⟩ := List.mem_filterMap.1 hp
      obtain ⟨msg, hmsg, hout⟩ := List.mem_filterMap.1 ho
      have : o = .msm p := by
        cases o with
        | msm q =>
          unfold margoOf at hop
          dsimp only at hop
          split at hop
          · cases hop; rfl
          · cases hop
        | _ => cases hop
      subst this
      obtain ⟨d, d1, -, -, -, rfl⟩ := outcome_msm (hval msg hmsg) hout
      exact (bufRows_view hch (Margo.regular_decoded d d1)).symm
    rw [hview, List.forall₂_map_left_iff]
    refine List.Forall₂.imp ?_ g4
    rintro r r' ⟨b1, b2, g, k, slot, u, hN, -, b3⟩
    obtain ⟨t, ht⟩ := hN.code
    exact ⟨b1, b2, g, k, slot, u, t, hN.lt, ht, by rw [← b1]; exact hN.name, b3⟩

end Run
end Verif
