import Verif.Lemmas.RunFiles
import Verif.Props.EndToEndScaled
import Verif.Props.MargoText

/-!
# C63–C65: the files after a run in each mode
-/

namespace Verif
open Spec Decoder Conv Run

namespace Spec

/-- The constellation of observables, by the letter of its name. -/
def sysOf (p : Msm.ObservablesMSM) : Nat := ((List.range 7).find? (fun g => gnssLetter g == p.atr.gnss)).getD 0

/-- The rows of a list of observables, the time of each being given. -/
def obsRows (s : MargoSettings) (time : Msm.ObservablesMSM → Int) (ps : List Msm.ObservablesMSM) : List (Txt × Int × List (Option Rat)) :=
  ps.flatMap (fun p => margoRows s (sysOf p) (time p) p)

/-- Observables that are printed as rows: those of modes MARGO and JARGO. -/
def rowPart (m : Mode) (os : List PyObj) : List Msm.ObservablesMSM :=
  os.filterMap (fun o => match o with
    | .msm p => if m = .margo ∨ m = .jargo then some p else none
    | _ => none)

/-- Everything else is printed as JSON. -/
def jsonPart (m : Mode) (os : List PyObj) : List PyObj :=
  os.filter (fun o => match o with
    | .msm _ => decide (¬(m = .margo ∨ m = .jargo))
    | _ => true)

/-- The file system `w'` is `w` with the files of the objects `os` written, and nothing else. -/
structure Files (fr : Rat → Txt) (m : Mode) (wd : Txt) (box : Box) (time : Msm.ObservablesMSM → Int) (os : List PyObj) (w w' : Disk) : Prop where
  json : ∀ n row, Json.JSON_SPEC.get? n = some row → Json.ofNumber n (jsonPart m os) ≠ [] →
    w'.read (Json.pathOf wd row) = some (Json.openText fr box.json (Json.ofNumber n (jsonPart m os)) ++ ['\r', ']'])
  margo : ∀ g k slot u t, g < 7 → sigCode g t = some slot →
    margoName g k slot u ∈ (obsRows (Margo.settings box.margo) time (rowPart m os)).map (·.1) →
    w'.read (Margo.pathOf wd g (margoName g k slot u)) =
      some (fileText (Margo.settings box.margo) g k slot u (obsRows (Margo.settings box.margo) time (rowPart m os)))
  rest : ∀ q, (∀ n row, Json.JSON_SPEC.get? n = some row → Json.ofNumber n (jsonPart m os) ≠ [] → q ≠ Json.pathOf wd row) →
    (∀ g k slot u t, g < 7 → sigCode g t = some slot →
      margoName g k slot u ∈ (obsRows (Margo.settings box.margo) time (rowPart m os)).map (·.1) →
      q ≠ Margo.pathOf wd g (margoName g k slot u)) → w'.read q = w.read q

end Spec

namespace Run

theorem sysOf_regular {g : Nat} {p : Msm.ObservablesMSM} (h : Regular g p) : sysOf p = g := by
  have key : ∀ g < 7, ((List.range 7).find? (fun x => gnssLetter x == gnssLetter g)).getD 0 = g := by decide +kernel
  unfold sysOf
  rw [h.gnss]
  exact key g h.lt

/-- The time that the code writes. -/
def rowTime (c : Margo.Controls) (p : Msm.ObservablesMSM) : Int :=
  if sysOf p = 0 then (p.hdr.time : Int) else Margo.convToGpsTime p.hdr.time p.hdr.day c.gps_utc_shift (gnssLetter (sysOf p))

theorem rowTime_valid (c : Margo.Controls) {g : Nat} {p : Msm.ObservablesMSM} (h : Regular g p) (hv : ValidTime c.gps_utc_shift g p) :
    rowTime c p = gpsTimeOfWeek c.gps_utc_shift g p.hdr.time p.hdr.day := by
  unfold rowTime
  rw [sysOf_regular h]
  unfold ValidTime at hv
  by_cases e0 : g = 0
  · subst e0
    rw [if_pos rfl]
    rfl
  · rw [if_neg e0]
    refine (C42_conv _ _ _ g h.lt (fun e => ⟨by omega, ?_⟩) (fun e => ?_) (fun e e' => ⟨by omega, ?_⟩)).1
    · rwa [if_neg (by omega)] at hv
    · rw [if_pos e] at hv
      omega
    · rwa [if_neg e] at hv

theorem bufRows_view {c : Margo.Controls} (hc : Margo.ChannelsPos c) {g : Nat} {p : Msm.ObservablesMSM} (h : Regular g p) :
    (bufRows c p).map (fun r => (r.1, r.2.1, r.2.2.map Margo.Cell.val)) = margoRows (Margo.settings c) (sysOf p) (rowTime c p) p := by
  unfold bufRows rowTime
  rw [sysOf_regular h, Margo.printBuffer_ok c h (fun _ => hc.ok)]
  exact Margo.mrows_view _ _ _ _

theorem rowPart_eq (m : Mode) (os : List PyObj) : rowPart m os = os.filterMap (margoOf m) := by
  unfold rowPart
  congr 1
  funext o
  cases o with
  | msm p => cases m <;> rfl
  | _ => rfl

theorem jsonPart_eq (m : Mode) (os : List PyObj) : jsonPart m os = os.filter (fun o => !usesMargo m o.cls) := by
  unfold jsonPart
  congr 1
  funext o
  cases o with
  | msm p => cases m <;> rfl
  | msmBare b => cases b <;> cases m <;> rfl
  | eph e => cases e <;> cases m <;> rfl
  | baseBare b => cases b <;> cases m <;> rfl
  | baseScaled b => cases b <;> cases m <;> rfl

theorem RInv.released {fr : Rat → Txt} {m : Mode} {wd : Txt} {box : Box} {w0 : Disk} {pj : Json.Printer} {pm : Margo.Printer} {w : Disk}
    {os : List PyObj} {time : Msm.ObservablesMSM → Int}
    (h : RInv fr wd box w0 pj pm w (jsonPart m os) ((rowPart m os).flatMap (bufRows box.margo)))
    (hview : ∀ p ∈ rowPart m os, (bufRows box.margo p).map (fun r => (r.1, r.2.1, r.2.2.map Margo.Cell.val)) =
      margoRows (Margo.settings box.margo) (sysOf p) (time p) p)
    (hm : m = .margo → jsonPart m os = []) (c : Converter) (hp : c.printer.printers = subs m pj pm) :
    Files fr m wd box time os w0 (c.release w).2 := by
  have hS : ((rowPart m os).flatMap (bufRows box.margo)).map (fun r => (r.1, r.2.1, r.2.2.map Margo.Cell.val)) =
      obsRows (Margo.settings box.margo) time (rowPart m os) := by
    unfold obsRows
    rw [List.map_flatMap]
    generalize rowPart m os = l at hview
    induction l with
    | nil => rfl
    | cons a l ih =>
      rw [List.flatMap_cons, List.flatMap_cons, hview a (by simp), ih (fun p hp => hview p (by simp [hp]))]
  obtain ⟨j1, j2⟩ := h.json.close
  rw [h.jwd, h.jctrl] at j1
  rw [h.jwd] at j2
  -- what is read after release
  have hr : ∀ q, (c.release w).2.read q = (pj.close w).2.read q := by
    intro q
    unfold Converter.release PrinterTop.close
    rw [hp]
    cases m with
    | margo =>
      refine (j2 q ?_).symm
      intro n row _ hne
      rw [hm rfl] at hne
      exact absurd rfl hne
    | json => rfl
    | jsonB => rfl
    | jargo => rfl
  have hname : ∀ n, n ∈ (obsRows (Margo.settings box.margo) time (rowPart m os)).map (·.1) ↔
      ∃ r ∈ (rowPart m os).flatMap (bufRows box.margo), r.1 = n := by
    intro n
    rw [← hS, List.map_map, List.mem_map]
    rfl
  have hapart : ∀ n row g k slot u, Json.JSON_SPEC.get? n = some row → Margo.pathOf wd g (margoName g k slot u) ≠ Json.pathOf wd row :=
    fun n row g k slot u hrow => (path_apart wd hrow g g k slot u).symm
  refine ⟨?_, ?_, ?_⟩
  · intro n row hrow hne
    rw [hr]
    exact j1 n row hrow hne
  · intro g k slot u t hg ht hn
    rw [hr, j2 _ (fun n row hrow _ => hapart n row g k slot u hrow)]
    obtain ⟨r, hr', hn⟩ := (hname _).1 hn
    have := h.margo.all h.fault r hr'
    rw [hn] at this
    obtain ⟨path, hpath⟩ := Option.ne_none_iff_exists'.1 this
    obtain ⟨e1, pre, suf, e2, e3, e4⟩ := h.margo.opened g k slot u t path hg ht hpath
    rw [e4 h.fault, List.nil_append] at e2
    rw [← e1, e3, ← e2, Margo.rowsText_view, hS]
    rfl
  · intro q q1 q2
    rw [hr, j2 q q1]
    refine h.frame q ?_ q1
    intro r hr' g k slot u hN
    obtain ⟨t, ht⟩ := hN.code
    rw [hN.name]
    exact q2 g k slot u t hN.lt ht ((hname _).2 ⟨r, hr', hN.name⟩)

/-- The run of a converter on any bytes. -/
theorem run_files (fr : Rat → Txt) {m : Mode} {w0 : Disk} {wd : Txt} {box : Box} {c : Converter}
    (h : strategy m w0 wd box = .ok (some c)) (hch : Margo.ChannelsPos box.margo) (n : Nat) (hn : 0 < n) (bytes : Bytes) (w : Disk)
    (hw : ∀ i, w.fault i = false) :
    ∃ c' w', decodeRtcmFile fr n (some bytes) c w = some ((c', w'), true) ∧
      c'.statistics = { decoding_attempts := (messages bytes).countP (supportedMsg m),
                        parsing_errors := dirtyGaps (scan [] bytes).segs,
                        decoding_errors := ((messages bytes).countP (supportedMsg m) : Int) - ((messages bytes).filterMap (outcome m)).length,
                        printing_attempts := ((messages bytes).filterMap (outcome m)).length,
                        printing_errors := 0 } ∧
      Files fr m wd box (rowTime box.margo) ((messages bytes).filterMap (outcome m)) w w' := by
  obtain ⟨h1, h2⟩ := strategy_cases h
  have hdec : c.decoder.decoders = registered m := reach_decoders (.start h1)
  rw [strategy_eq] at h1
  have e1 : c.decoder = { decoders := registered m } := (Option.some.inj (Except.ok.inj h1)).symm
  have e2 : c.printer = startPrinter m wd box := by
    rw [strategyPrinter_eq] at h2
    split at h2
    · exact (Option.some.inj (Except.ok.inj h2)).symm
    · cases h2
  have e3 : c.printer.printers = subs m { ctrls := box.json, wd := wd } { ctrl := box.margo, wd := wd } := by
    rw [e2]; cases m <;> rfl
  have e4 : c.printer.attempts = 0 ∧ c.printer.succeeded = 0 := by
    rw [e2]; cases m <;> exact ⟨rfl, rfl⟩
  have hval := messages_valid bytes
  obtain ⟨c1, w1, pj, pm, g1, g2, g3, g4, g5, g6, g7⟩ := process_files (m := m) (fr := fr) hch (messages bytes) c w
    { ctrls := box.json, wd := wd } { ctrl := box.margo, wd := wd } [] [] hval hdec e3 (RInv.init fr wd box w hw)
  rw [List.nil_append, List.nil_append, ← jsonPart_eq, ← rowPart_eq] at g7
  obtain ⟨c', a1, a2, a3, a4, a5⟩ := C51_whole m w0 wd box c h fr n hn bytes w
  rw [g1] at a1 a2 a3 a4 a5
  have hF := g7.released (time := rowTime box.margo) (by
      intro p hp
      rw [rowPart_eq] at hp
      obtain ⟨o, ho, hop⟩ := List.mem_filterMap.1 hp
      obtain ⟨msg, hmsg, hout⟩ := List.mem_filterMap.1 ho
      have : o = .msm p := by
        cases o with
        | msm q =>
          unfold margoOf at hop
          dsimp only at hop
          split at hop
          · cases hop; rfl
          · cases hop
        | _ => cases hop
      subst this
      obtain ⟨d, d1, -, -, -, rfl⟩ := outcome_msm (hval msg hmsg) hout
      exact bufRows_view hch (Margo.regular_decoded d d1)) (by
      rintro rfl
      rw [jsonPart_eq, List.filter_eq_nil_iff]
      intro o ho
      obtain ⟨msg, hmsg, hout⟩ := List.mem_filterMap.1 ho
      obtain ⟨n, row, -, t2, t3, -⟩ := outcome_typed hout
      have := okCls_of_declared t2 t3
      unfold okCls at this
      have : o.cls = .observablesMSM := by simpa using this
      rw [this]
      decide) c1 g2
  refine ⟨c', (c1.release w1).2, a1, ?_, hF⟩
  have hrel : (c1.release w1).1.printer.attempts = c1.printer.attempts ∧ (c1.release w1).1.printer.succeeded = c1.printer.succeeded :=
    ⟨rfl, rfl⟩
  unfold Converter.statistics DecoderTop.decErrors PrinterTop.errors
  rw [a2, a3, a4, a5 rfl]
  dsimp only
  rw [hrel.1, hrel.2, g3, g4, g5, g6, e1, e4.1, e4.2]
  simp

end Run

/-- **C63** Whatever bytes a file has, in each mode, on a file system without failures: conversion ends regularly, no printing error is
counted, and the file system afterwards is the one before with exactly these files written: for each message number whose objects are
printed as JSON its file with the header and these objects in order, and for each observable, signal and message type that is
printed as rows its file with the header and these rows in order. Valid times are written as GPS time of week. -/
theorem C63_files (fr : Rat → Txt) (m : Mode) (w0 : Disk) (wd : Txt) (box : Box) (c : Converter)
    (h : strategy m w0 wd box = .ok (some c)) (hch : Margo.ChannelsPos box.margo) (n : Nat) (hn : 0 < n) (bytes : Bytes) (w : Disk)
    (hw : ∀ i, w.fault i = false) :
    ∃ c' w' time, decodeRtcmFile fr n (some bytes) c w = some ((c', w'), true) ∧
      c'.statistics = { decoding_attempts := (messages bytes).countP (supportedMsg m),
                        parsing_errors := dirtyGaps (scan [] bytes).segs,
                        decoding_errors := ((messages bytes).countP (supportedMsg m) : Int) - ((messages bytes).filterMap (outcome m)).length,
                        printing_attempts := ((messages bytes).filterMap (outcome m)).length,
                        printing_errors := 0 } ∧
      Files fr m wd box time ((messages bytes).filterMap (outcome m)) w w' ∧
      ∀ g p, Regular g p → ValidTime box.margo.gps_utc_shift g p → time p = gpsTimeOfWeek box.margo.gps_utc_shift g p.hdr.time p.hdr.day := by
  obtain ⟨c', w', a1, a2, a3⟩ := run_files fr h hch n hn bytes w hw
  exact ⟨c', w', rowTime box.margo, a1, a2, a3, fun g p hr hv => rowTime_valid _ hr hv⟩

/-- **C63** The description is complete: it determines the contents of each path. -/
theorem C63_unique {fr : Rat → Txt} {m : Mode} {wd : Txt} {box : Box} {time : Msm.ObservablesMSM → Int} {os : List PyObj} {w w1 w2 : Disk}
    (h1 : Files fr m wd box time os w w1) (h2 : Files fr m wd box time os w w2) (q : Txt) : w1.read q = w2.read q := by
  by_cases a : ∃ n row, Json.JSON_SPEC.get? n = some row ∧ Json.ofNumber n (jsonPart m os) ≠ [] ∧ q = Json.pathOf wd row
  · obtain ⟨n, row, a1, a2, rfl⟩ := a
    rw [h1.json n row a1 a2, h2.json n row a1 a2]
  · by_cases b : ∃ g k slot u t, g < 7 ∧ sigCode g t = some slot ∧
      margoName g k slot u ∈ (obsRows (Margo.settings box.margo) time (rowPart m os)).map (·.1) ∧
      q = Margo.pathOf wd g (margoName g k slot u)
    · obtain ⟨g, k, slot, u, t, b1, b2, b3, rfl⟩ := b
      rw [h1.margo g k slot u t b1 b2 b3, h2.margo g k slot u t b1 b2 b3]
    · have a' : ∀ n row, Json.JSON_SPEC.get? n = some row → Json.ofNumber n (jsonPart m os) ≠ [] → q ≠ Json.pathOf wd row :=
        fun n row x y z => a ⟨n, row, x, y, z⟩
      have b' : ∀ g k slot u t, g < 7 → sigCode g t = some slot →
          margoName g k slot u ∈ (obsRows (Margo.settings box.margo) time (rowPart m os)).map (·.1) →
          q ≠ Margo.pathOf wd g (margoName g k slot u) := fun g k slot u t x y z v => b ⟨g, k, slot, u, t, x, y, z, v⟩
      rw [h1.rest q a' b', h2.rest q a' b']

/-! ## C64: from encoded observables to MARGO files -/

/-- The MSM contents among the pieces of a file. -/
def Spec.msmsOf (ps : List Piece) : List MsmData :=
  (contentsOf ps).filterMap (fun c => match c with
    | .msm d => some d
    | _ => none)

/-- The rows of MSM contents: those of the scaled values, at the GPS time of week. -/
def Spec.msmRows (s : MargoSettings) (leap : Int) (ds : List MsmData) : List (Txt × Int × List (Option Rat)) :=
  ds.flatMap (fun d => margoRows s d.g (gpsTimeOfWeek leap d.g d.scaledObj.hdr.time d.scaledObj.hdr.day) d.scaledObj)

namespace Run

theorem outcome_margo_msm {d : MsmData} (h : (Content.msm d).WellFormed) (ha : (Content.msm d).AcceptedScaled) :
    outcome .margo (Content.msm d).frame = some (.msm d.scaledObj) ∧ Regular d.g d.scaledObj := by
  have hv := frame_valid h
  have hc := frame_carries h
  obtain ⟨hE, hk, h3⟩ := ha
  have hd : Msm.decodeMsm17 false (Content.msm d).frame = some (.inr d.scaledObj) := by
    by_cases h4 : 4 ≤ d.k
    · exact C24_scaled d h.2.2 h4 hk _ hv hc
    · exact C25_partial d h.2.2 (by omega) hk h3 hE _ hv hc
  have hd' := (C24_C27_scaled_iff _ hv _).2 (.inl ⟨d, h.2.2, hc, hE, rfl⟩)
  rw [if_pos hk, hd] at hd'
  have e : d.scaledObj = { d.scaledObj with obs := codeObs d } := by
    simpa using hd'
  refine ⟨?_, by rw [e]; exact Margo.regular_decoded d h.2.2⟩
  unfold outcome
  rw [number_msm h.2.2 hc]
  dsimp only
  rcases family_msm h.2.2 with hf | hf
  · rw [hf]
    show (Msm.decodeMsm17 false _).map msmObj = _
    rw [hd]; rfl
  · rw [hf]
    show (Msm.decodeMsm17 false _).map msmObj = _
    rw [hd]; rfl

theorem outcome_margo_other {c : Content} (h : c.WellFormed) (hc : ∀ d, c ≠ .msm d) :
    outcome .margo c.frame = none ∧ supportedMsg .margo c.frame = false := by
  have hx := frame_carries h
  cases c with
  | msm d => exact absurd rfl (hc d)
  | eph e =>
    have hx := carries_eph hx
    unfold outcome supportedMsg supportedIn
    rw [number_eph h.2.2 hx]
    dsimp only
    rw [family_eph e]
    exact ⟨rfl, rfl⟩
  | base b =>
    obtain ⟨h1, h2⟩ := number_base hx
    unfold outcome supportedMsg supportedIn
    rw [h1]
    dsimp only
    rw [h2]
    exact ⟨rfl, rfl⟩

theorem pieces_margo {ps : List Piece} (hp : ∀ p ∈ ps, p.Ok) (hs : ∀ d ∈ msmsOf ps, (Content.msm d).AcceptedScaled) :
    (ps.map Piece.frame).filterMap (outcome .margo) = (msmsOf ps).map (fun d => .msm d.scaledObj) ∧
      (ps.map Piece.frame).countP (supportedMsg .margo) = (msmsOf ps).length := by
  induction ps with
  | nil => exact ⟨rfl, rfl⟩
  | cons p ps ih =>
    have ih' := ih (fun q hq => hp q (by simp [hq]))
    obtain ⟨gap, item⟩ := p
    have hitem := (hp ⟨gap, item⟩ (by simp)).2
    rw [List.map_cons, List.filterMap_cons, List.countP_cons]
    cases item with
    | inl c =>
      have ef : Piece.frame ⟨gap, .inl c⟩ = c.frame := rfl
      rw [ef]
      by_cases hc : ∃ d, c = .msm d
      · obtain ⟨d, rfl⟩ := hc
        have hm : msmsOf (⟨gap, .inl (.msm d)⟩ :: ps) = d :: msmsOf ps := rfl
        rw [hm] at hs ⊢
        obtain ⟨i1, i2⟩ := ih' (fun x hx => hs x (by simp [hx]))
        have ho := (outcome_margo_msm hitem (hs d (by simp))).1
        rw [i1, i2, ho, if_pos (outcome_supported ho)]
        exact ⟨rfl, rfl⟩
      · have hm : msmsOf (⟨gap, .inl c⟩ :: ps) = msmsOf ps := by
          cases c with
          | msm d => exact absurd ⟨d, rfl⟩ hc
          | _ => rfl
        rw [hm] at hs ⊢
        obtain ⟨i1, i2⟩ := ih' hs
        obtain ⟨o1, o2⟩ := outcome_margo_other hitem (fun d hd => hc ⟨d, hd⟩)
        rw [i1, i2, o1, o2]
        exact ⟨rfl, rfl⟩
    | inr f =>
      have ef : Piece.frame ⟨gap, .inr f⟩ = f := rfl
      have hm : msmsOf (⟨gap, .inr f⟩ :: ps) = msmsOf ps := rfl
      rw [ef]
      rw [hm] at hs ⊢
      obtain ⟨i1, i2⟩ := ih' hs
      have hno := hitem.2
      have o1 : outcome .margo f = none ∧ supportedMsg .margo f = false := by
        unfold outcome supportedMsg supportedIn
        cases hn : numberIn f with
        | none => exact ⟨rfl, rfl⟩
        | some n => dsimp only; rw [hno n hn]; exact ⟨rfl, rfl⟩
      rw [i1, i2, o1.1, o1.2]
      exact ⟨rfl, rfl⟩

end Run

/-- **C64** A file of frames of well-formed contents, mixed with noise and other valid frames, converted in mode MARGO with any read chunk
size, on a file system without failures. If the MSM contents are such that scaled decoding delivers them and their times are valid, then nothing
but the noise between frames is counted as an error; for each observable, signal and message type that occurs there is one file, which
splits into the two lines of its header and one line for each row, in the order of the messages; each line shows the GPS time of
week and one column for each satellite with the value of this satellite in this message, rounded to the decimals of the format, or the
mark of a missing value; and no other file is changed. -/
theorem C64_margo (fr : Rat → Txt) (w0 : Disk) (wd : Txt) (box : Box) (c : Converter) (h : strategy .margo w0 wd box = .ok (some c))
    (hch : Margo.ChannelsPos box.margo) (n : Nat) (hn : 0 < n) (w : Disk) (hw : ∀ i, w.fault i = false) (ps : List Piece)
    (hp : ∀ p ∈ ps, p.Ok) (ha : ∀ d ∈ msmsOf ps, (Content.msm d).AcceptedScaled)
    (ht : ∀ d ∈ msmsOf ps, ValidTime box.margo.gps_utc_shift d.g d.scaledObj) (last : Bytes) (hl : (0xD3 : UInt8) ∉ last) :
    let s := Margo.settings box.margo
    let rows := msmRows s box.margo.gps_utc_shift (msmsOf ps)
    ∃ c' w', decodeRtcmFile fr n (some ((ps.map (fun p => p.gap ++ p.frame)).flatten ++ last)) c w = some ((c', w'), true) ∧
      c'.statistics = { decoding_attempts := (msmsOf ps).length, parsing_errors := (ps.drop 1).countP (fun p => p.gap ≠ []),
                        decoding_errors := 0, printing_attempts := (msmsOf ps).length, printing_errors := 0 } ∧
      (∀ d ∈ msmsOf ps, ∀ k ∈ kindsOf s, ∀ slot ∈ slotsOf d.scaledObj k, ∃ t l1 l2 ls,
        w'.read (Margo.pathOf wd d.g (margoName d.g k slot d.scaledObj.atr.subset)) = some t ∧ readLines t = l1 :: l2 :: ls ∧
        headText s d.g k slot = l1 ++ ['\n'] ++ (l2 ++ ['\n']) ∧
        List.Forall₂ (fun r l => ShowsRow k r.2.1 r.2.2 l) (rows.filter (fun r => r.1 == margoName d.g k slot d.scaledObj.atr.subset)) ls) ∧
      ∀ q, (∀ d ∈ msmsOf ps, ∀ k ∈ kindsOf s, ∀ slot ∈ slotsOf d.scaledObj k,
        q ≠ Margo.pathOf wd d.g (margoName d.g k slot d.scaledObj.atr.subset)) → w'.read q = w.read q := by
  intro s rows
  obtain ⟨e1, e2⟩ := pieces_margo hp ha
  obtain ⟨e3, e4⟩ := pieces_messages hp last hl
  obtain ⟨c', w', a1, a2, a3⟩ := run_files fr h hch n hn ((ps.map (fun p => p.gap ++ p.frame)).flatten ++ last) w hw
  rw [e3, e1] at a3
  rw [e3, e1, e2, e4] at a2
  have hwf : ∀ d ∈ msmsOf ps, (Content.msm d).WellFormed := by
    intro d hd
    obtain ⟨c, hc, hcd⟩ := List.mem_filterMap.1 hd
    have hcd : c = .msm d := by
      cases c with
      | msm x => cases hcd; rfl
      | _ => cases hcd
    subst hcd
    obtain ⟨p, hpm, hpc⟩ := List.mem_filterMap.1 hc
    have := (hp p hpm).2
    obtain ⟨gap, item⟩ := p
    cases item with
    | inl x => cases hpc; exact this
    | inr f => cases hpc
  have hreg : ∀ d ∈ msmsOf ps, Regular d.g d.scaledObj := fun d hd => (outcome_margo_msm (hwf d hd) (ha d hd)).2
  have hpart : rowPart .margo ((msmsOf ps).map (fun d => .msm d.scaledObj)) = (msmsOf ps).map MsmData.scaledObj := by
    unfold rowPart
    rw [List.filterMap_map]
    generalize msmsOf ps = l
    induction l with
    | nil => rfl
    | cons d l ih =>
      rw [List.filterMap_cons, ih]
      rfl
  have hrows : obsRows s (rowTime box.margo) ((msmsOf ps).map MsmData.scaledObj) = rows := by
    unfold obsRows rows msmRows
    rw [List.flatMap_map]
    have : ∀ d ∈ msmsOf ps, margoRows s (sysOf d.scaledObj) (rowTime box.margo d.scaledObj) d.scaledObj =
        margoRows s d.g (gpsTimeOfWeek box.margo.gps_utc_shift d.g d.scaledObj.hdr.time d.scaledObj.hdr.day) d.scaledObj := by
      intro d hd
      rw [sysOf_regular (hreg d hd), rowTime_valid _ (hreg d hd) (ht d hd)]
    generalize msmsOf ps = l at this
    induction l with
    | nil => rfl
    | cons d l ih => rw [List.flatMap_cons, List.flatMap_cons, this d (by simp), ih (fun x hx => this x (by simp [hx]))]
  have hmem : ∀ d ∈ msmsOf ps, ∀ k ∈ kindsOf s, ∀ slot ∈ slotsOf d.scaledObj k,
      margoName d.g k slot d.scaledObj.atr.subset ∈ rows.map (·.1) := by
    intro d hd k hk slot hs
    refine List.mem_map.2 ⟨_, List.mem_flatMap.2 ⟨d, hd, List.mem_flatMap.2 ⟨k, hk, List.mem_map.2 ⟨slot, hs, rfl⟩⟩⟩, rfl⟩
  refine ⟨c', w', a1, ?_, ?_, ?_⟩
  · rw [a2]; simp
  · intro d hd k hk slot hs
    obtain ⟨t, hsig⟩ := (hreg d hd).signals k slot hs
    have hfile := a3.margo d.g k slot d.scaledObj.atr.subset t (hreg d hd).lt hsig (by rw [hpart, hrows]; exact hmem d hd k hk slot hs)
    rw [hpart, hrows] at hfile
    obtain ⟨l1, l2, ls, b1, b2, b3⟩ := C57_file s d.g k slot d.scaledObj.atr.subset rows
    exact ⟨_, l1, l2, ls, hfile, b1, b2, b3⟩
  · intro q hq
    refine a3.rest q ?_ ?_
    · intro k row _ hne
      refine absurd ?_ hne
      have : jsonPart .margo ((msmsOf ps).map (fun d => PyObj.msm d.scaledObj)) = [] := by
        unfold jsonPart
        rw [List.filter_eq_nil_iff]
        intro o ho
        obtain ⟨d, -, rfl⟩ := List.mem_map.1 ho
        dsimp only
        decide
      rw [this]
      rfl
    · intro g k slot u t hg hsig hm he
      rw [hpart, hrows] at hm
      obtain ⟨r, hr, hrn⟩ := List.mem_map.1 hm
      obtain ⟨d, hd, hr⟩ := List.mem_flatMap.1 hr
      obtain ⟨k', hk', hr⟩ := List.mem_flatMap.1 hr
      obtain ⟨slot', hs', rfl⟩ := List.mem_map.1 hr
      dsimp only at hrn
      obtain ⟨t', hsig'⟩ := (hreg d hd).signals k' slot' hs'
      obtain ⟨b, a, hba⟩ := Margo.code_chars hsig
      obtain ⟨b', a', hba'⟩ := Margo.code_chars hsig'
      obtain ⟨rfl, rfl, rfl, rfl⟩ := Margo.name_inj (hreg d hd).lt hg (by simp [hba']) (by simp [hba]) hrn
      exact hq d hd k' hk' slot' hs' he

/-- Noise, an unsupported frame and two contents meet the hypotheses of C64. -/
example : let ps : List Piece := [⟨[1, 2], .inl (.msm exMsm5)⟩, ⟨[], .inr exOther⟩, ⟨[0xFF], .inl (.msm exGlo5)⟩]
    msmsOf ps = [exMsm5, exGlo5] ∧ (∀ d ∈ msmsOf ps, (Content.msm d).WellFormed ∧ (Content.msm d).AcceptedScaled ∧
      ValidTime ({} : Margo.Controls).gps_utc_shift d.g d.scaledObj) := by
  refine ⟨rfl, ?_⟩
  intro d hd
  have hd : d ∈ [exMsm5, exGlo5] := hd
  simp only [List.mem_cons, List.not_mem_nil, or_false] at hd
  rcases hd with rfl | rfl
  · exact ⟨(exContents_ok _ (by simp [exContents])).1, ⟨(exContents_ok _ (by simp [exContents])).2, by decide +kernel, by decide +kernel⟩,
      by unfold ValidTime; decide +kernel⟩
  · exact ⟨⟨by simp only [Content.layout, Content.vals]; decide +kernel, by decide +kernel, (by decide +kernel : exGlo5.WF)⟩,
      ⟨by show LengthEstimateRight _; decide +kernel, by decide +kernel, by decide +kernel⟩, by unfold ValidTime; decide +kernel⟩

/-! ## C65: mode JARGO is MARGO for observables and JSON for the rest -/

namespace Run

theorem margo_rows (msgs : List Bytes) :
    rowPart .margo (msgs.filterMap (outcome .margo)) = rowPart .jargo (msgs.filterMap (outcome .jargo)) := by
  rw [rowPart_eq, rowPart_eq, List.filterMap_filterMap, List.filterMap_filterMap]
  congr 1
  funext msg
  unfold outcome
  cases numberIn msg with
  | none => rfl
  | some n =>
    dsimp only
    cases family n with
    | none => rfl
    | some f =>
      cases f with
      | msm13 => rfl
      | msm47 => rfl
      | eph =>
        have e : (Option.bind (familyDecode Mode.jargo.bare .eph msg) (margoOf .jargo)) = none := by
          unfold familyDecode
          dsimp only
          cases Eph.subDecode Mode.jargo.bare msg <;> rfl
        exact e.symm
      | base =>
        have e : (Option.bind (familyDecode Mode.jargo.bare .base msg) (margoOf .jargo)) = none := by
          unfold familyDecode
          dsimp only
          split
          · rename_i x _
            cases x with
            | none => rfl
            | some y => cases y <;> rfl
          · rfl
        exact e.symm

theorem obs_rows : ∀ p ∈ Json.JSON_SPEC, Cls.observablesMSM ∈ p.2.classes →
    ∀ c ∈ p.2.classes, c = .observablesMSM ∨ c = .bareMSM123 ∨ c = .bareMSM4567 := by decide +kernel

end Run

/-- **C65** Three conversions of the same bytes, in modes JARGO, MARGO and JSON, into the same folder in the same state, without
failures of the file system. After JARGO: no JSON file of observables was touched, each other JSON file is as after JSON, all other files are
as after MARGO. The counts are those of JSON. -/
theorem C65_jargo (fr : Rat → Txt) (w0 : Disk) (wd : Txt) (box : Box) (cX cM cJ : Converter) (hX : strategy .jargo w0 wd box = .ok (some cX))
    (hM : strategy .margo w0 wd box = .ok (some cM)) (hJ : strategy .json w0 wd box = .ok (some cJ)) (hch : Margo.ChannelsPos box.margo)
    (n : Nat) (hn : 0 < n) (bytes : Bytes) (w : Disk) (hw : ∀ i, w.fault i = false) :
    ∃ cX' cM' cJ' wX wM wJ, decodeRtcmFile fr n (some bytes) cX w = some ((cX', wX), true) ∧
      decodeRtcmFile fr n (some bytes) cM w = some ((cM', wM), true) ∧ decodeRtcmFile fr n (some bytes) cJ w = some ((cJ', wJ), true) ∧
      cX'.statistics = cJ'.statistics ∧
      (∀ k row, Json.JSON_SPEC.get? k = some row → Cls.observablesMSM ∈ row.classes →
        wX.read (Json.pathOf wd row) = w.read (Json.pathOf wd row)) ∧
      (∀ k row, Json.JSON_SPEC.get? k = some row → Cls.observablesMSM ∉ row.classes →
        wX.read (Json.pathOf wd row) = wJ.read (Json.pathOf wd row)) ∧
      (∀ q, (∀ k row, Json.JSON_SPEC.get? k = some row → q ≠ Json.pathOf wd row) → wX.read q = wM.read q) := by
  obtain ⟨cX', wX, x1, x2, x3⟩ := run_files fr hX hch n hn bytes w hw
  obtain ⟨cM', wM, m1, m2, m3⟩ := run_files fr hM hch n hn bytes w hw
  obtain ⟨cJ', wJ, j1, j2, j3⟩ := run_files fr hJ hch n hn bytes w hw
  have hout : outcome .json = outcome .jargo := rfl
  have hsup : supportedMsg .json = supportedMsg .jargo := rfl
  rw [hout] at j2 j3
  rw [hsup] at j2
  have hrows := margo_rows (messages bytes)
  -- objects of a number
  have hobj : ∀ k row o, Json.JSON_SPEC.get? k = some row → o ∈ (messages bytes).filterMap (outcome .jargo) → Json.objNum o = some k →
      o.cls ∈ row.classes ∧ o.cls ≠ .bareMSM123 ∧ o.cls ≠ .bareMSM4567 := by
    intro k row o hrow ho hk
    obtain ⟨msg, hmsg, hout⟩ := List.mem_filterMap.1 ho
    obtain ⟨n', row', -, t2, t3, t4, t5, t6⟩ := outcome_typed hout
    rw [hk] at t4
    cases t4
    rw [hrow] at t5
    cases t5
    have := okCls_of_declared t2 t3
    unfold okCls at this
    simp at this
    exact ⟨t6, this⟩
  have hnone : ∀ k row, Json.JSON_SPEC.get? k = some row → Cls.observablesMSM ∈ row.classes →
      Json.ofNumber k (jsonPart .jargo ((messages bytes).filterMap (outcome .jargo))) = [] := by
    intro k row hrow hobs
    unfold Json.ofNumber
    rw [List.filter_eq_nil_iff]
    intro o ho hk
    rw [jsonPart_eq] at ho
    obtain ⟨o1, o2⟩ := List.mem_filter.1 ho
    obtain ⟨c1, c2, c3⟩ := hobj k row o hrow o1 (by simpa using hk)
    rcases obs_rows _ (PyDict.mem_of_get? hrow) hobs _ c1 with e | e | e
    · rw [e] at o2
      exact absurd o2 (by decide)
    · exact c2 e
    · exact c3 e
  have hsame : ∀ k row, Json.JSON_SPEC.get? k = some row → Cls.observablesMSM ∉ row.classes →
      Json.ofNumber k (jsonPart .jargo ((messages bytes).filterMap (outcome .jargo))) =
        Json.ofNumber k (jsonPart .json ((messages bytes).filterMap (outcome .jargo))) := by
    intro k row hrow hobs
    unfold Json.ofNumber
    rw [jsonPart_eq, jsonPart_eq, List.filter_filter, List.filter_filter]
    apply List.filter_congr
    intro o ho
    by_cases hk : Json.objNum o = some k
    · obtain ⟨c1, -⟩ := hobj k row o hrow ho hk
      have hne : o.cls ≠ .observablesMSM := fun e => hobs (e ▸ c1)
      have e1 : ∀ c : Cls, c ≠ .observablesMSM → usesMargo .jargo c = usesMargo .json c := by intro c; cases c <;> decide
      rw [e1 _ hne]
    · have e1 : (Json.objNum o == some k) = false := by rw [beq_eq_false_iff_ne]; exact hk
      rw [e1]
      rfl
  have hjm : jsonPart .margo ((messages bytes).filterMap (outcome .margo)) = [] := by
    rw [jsonPart_eq, List.filter_eq_nil_iff]
    intro o ho
    obtain ⟨msg, hmsg, hout⟩ := List.mem_filterMap.1 ho
    obtain ⟨n, row, -, t2, t3, -⟩ := outcome_typed hout
    have := okCls_of_declared t2 t3
    unfold okCls at this
    have : o.cls = .observablesMSM := by simpa using this
    rw [this]
    decide
  refine ⟨cX', cM', cJ', wX, wM, wJ, x1, m1, j1, by rw [x2, j2], ?_, ?_, ?_⟩
  · intro k row hrow hobs
    refine x3.rest _ ?_ (fun g k slot u t _ _ _ => path_apart wd hrow g g k slot u)
    intro k' row' hrow' hne he
    rw [Json.path_inj wd hrow hrow' he] at hrow
    rw [hrow] at hrow'
    cases hrow'
    exact hne (hnone _ _ hrow hobs)
  · intro k row hrow hobs
    by_cases hne : Json.ofNumber k (jsonPart .jargo ((messages bytes).filterMap (outcome .jargo))) = []
    · have a : ∀ mm : Mode, mm = .jargo ∨ mm = .json → ∀ k' row', Json.JSON_SPEC.get? k' = some row' →
          Json.ofNumber k' (jsonPart mm ((messages bytes).filterMap (outcome .jargo))) ≠ [] → Json.pathOf wd row ≠ Json.pathOf wd row' := by
        intro mm hmm k' row' hrow' hne' he
        have hk := Json.path_inj wd hrow hrow' he
        subst hk
        rcases hmm with rfl | rfl
        · exact hne' hne
        · rw [← hsame k row hrow hobs] at hne'
          exact hne' hne
      rw [x3.rest _ (a _ (.inl rfl)) (fun g k slot u t _ _ _ => path_apart wd hrow g g k slot u),
        j3.rest _ (a _ (.inr rfl)) (fun g k slot u t _ _ _ => path_apart wd hrow g g k slot u)]
    · rw [x3.json k row hrow hne, j3.json k row hrow (by rw [← hsame k row hrow hobs]; exact hne), hsame k row hrow hobs]
  · intro q hq
    by_cases b : ∃ g k slot u t, g < 7 ∧ sigCode g t = some slot ∧
      margoName g k slot u ∈ (obsRows (Margo.settings box.margo) (rowTime box.margo)
        (rowPart .jargo ((messages bytes).filterMap (outcome .jargo)))).map (·.1) ∧
      q = Margo.pathOf wd g (margoName g k slot u)
    · obtain ⟨g, k, slot, u, t, b1, b2, b3, rfl⟩ := b
      rw [x3.margo g k slot u t b1 b2 b3, m3.margo g k slot u t b1 b2 (by rw [hrows]; exact b3), hrows]
    · rw [x3.rest q (fun k row hrow _ => hq k row hrow) (fun g k slot u t b1 b2 b3 b4 => b ⟨g, k, slot, u, t, b1, b2, b3, b4⟩),
        m3.rest q (fun k row hrow _ => hq k row hrow) (fun g k slot u t b1 b2 b3 b4 => b ⟨g, k, slot, u, t, b1, b2, by rw [← hrows]; exact b3, b4⟩)]

/-- The hypotheses of C63 and C65 are met by the default controls; the bytes are arbitrary. -/
example : (∀ m, ∃ c, strategy m { dirs := [['w']] } ['w'] ⟨{}, {}⟩ = .ok (some c)) ∧ Margo.ChannelsPos (Box.mk {} {}).margo := by
  refine ⟨fun m => ?_, Margo.default_pos⟩
  unfold strategy
  obtain ⟨d, hd⟩ := C17_strategy m
  rw [hd, strategyPrinter_eq]
  exact ⟨_, rfl⟩

/-- Rows and JSON objects of the parts of a mode. -/
example : rowPart .jargo [.msm exMsm5.scaledObj, exAD 7] = [exMsm5.scaledObj] ∧ jsonPart .jargo [.msm exMsm5.scaledObj, exAD 7] = [exAD 7] ∧
    jsonPart .json [.msm exMsm5.scaledObj, exAD 7] = [.msm exMsm5.scaledObj, exAD 7] := ⟨rfl, rfl, rfl⟩

end Verif
