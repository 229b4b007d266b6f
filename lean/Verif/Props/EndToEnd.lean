import Verif.Lemmas.ContentJson
import Verif.Lemmas.RunJson
import Verif.Props.Run
import Verif.Props.Eph
import Verif.Props.Base
import Verif.Props.Msm
import Verif.Props.MsmScaled
import Verif.Spec.Message

/-!
# C52: from encoded messages to JSON files
-/

namespace Verif
open Spec Decoder Conv Run

/-- Contents that the decoders accept. Excluded are the well-formed contents that are refused because of errors in the program: QZSS
ephemerides (C31), 1013 without announcements (C36), MSM2 and MSM3 with a wrong length estimate (C22). -/
def Spec.Content.Accepted : Content → Prop
  | .eph e => ∀ q, e ≠ .qzs q
  | .base m => Acceptable m
  | .msm d => LengthEstimateRight d

namespace Run

theorem frame_valid {c : Content} (h : c.WellFormed) : ValidFrame c.frame := validFrame_messageFrame h.1 h.2.1

theorem frame_carries {c : Content} (h : c.WellFormed) : CarriesExact c.frame c.layout c.vals := carries_messageFrame h.1

theorem carries_eph {e : Eph.Obj Int} {buf : Bytes} (h : CarriesExact buf (fieldsOf (tableOf e)) (valsOf e)) : CarriesEph buf e := by
  obtain ⟨hdr, payload, crc, bits, pad, h1, h2, h3, h4, h5, h6⟩ := h
  exact ⟨hdr, payload, crc, bits, pad, h1, h2, h3, h4, h6⟩

theorem numberIn_valid {buf : Bytes} (h : 5 ≤ buf.length) : ∃ n, numberIn buf = some n := by
  unfold numberIn
  rw [if_neg (by omega)]
  exact ⟨_, rfl⟩

theorem family_eph (e : Eph.Obj Int) : family (ephNum e) = some .eph := by cases e <;> simp only [ephNum] <;> decide

theorem family_msm {d : MsmData} (h : d.WF) : family d.number = some .msm13 ∨ family d.number = some .msm47 := by
  have h1 := h.g
  have h2 := h.k
  unfold MsmData.number family
  have e1 : (1070 + 10 * d.g + d.k) / 10 = 107 + d.g := by omega
  have e2 : (1070 + 10 * d.g + d.k) % 10 = d.k := by omega
  rw [e1, e2]
  by_cases hk : d.k ≤ 3
  · rw [if_pos (by omega)]; exact .inl rfl
  · rw [if_neg (by omega), if_pos (by omega)]; exact .inr rfl

theorem number_msm {d : MsmData} (h : d.WF) {buf : Bytes} (hc : d.CarriedBy buf) : numberIn buf = some d.number := by
  have hG := (carried_good h hc).1
  have h1 := hG.len
  unfold numberIn
  rw [if_neg (by omega)]
  exact congrArg some hG.num

theorem number_base {m : BaseMsg} {buf : Bytes} (hc : m.CarriedBy buf) : numberIn buf = some (Content.base m).number ∧
    family (Content.base m).number = some .base := by
  have h := carried_num hc
  rw [gbu_num] at h
  cases hn : numberIn buf with
  | none => rw [hn] at h; cases h
  | some n =>
    rw [hn] at h
    have h := Except.ok.inj (show (Except.ok n : Py Nat) = .ok _ from h)
    subst h
    refine ⟨by cases m <;> rfl, ?_⟩
    cases m <;> simp only [Content.number] <;> decide

theorem number_eph {e : Eph.Obj Int} (hn : NumOk e) {buf : Bytes} (hc : CarriesEph buf e) : numberIn buf = some (ephNum e) := by
  obtain ⟨h1, h2⟩ := hc.facts
  have hl : 5 ≤ buf.length := le_trans (by unfold minFrame; omega) h1
  unfold numberIn
  rw [if_neg (by omega)]
  unfold NumOk at hn
  rw [← h2] at hn
  have key : ∀ (L : List Field) (bits : List Bool), (readAll (U 12 :: L) bits).head? = some ((natOfBits (bits.take 12) : Nat) : Int) := by
    intro L bits; rfl
  have : natOfBits (((bitsOf buf).drop 24).take 12) = ephNum e := by
    have hT : ∃ L, fieldsOf (tableOf e) = U 12 :: L := by cases e <;> exact ⟨_, rfl⟩
    obtain ⟨L, hL⟩ := hT
    rw [hL, key] at hn
    exact_mod_cast Option.some.inj hn
  rw [this]

/-- Bare decoding of a frame that carries an accepted content. -/
theorem outcome_bare {c : Content} (h : c.WellFormed) (ha : c.Accepted) : outcome .jsonB c.frame = some c.bareObj := by
  have hv := frame_valid h
  have hc := frame_carries h
  generalize c.frame = buf at hv hc
  unfold outcome
  cases c with
  | eph e =>
    have hc := carries_eph hc
    rw [number_eph h.2.2 hc]
    dsimp only
    rw [family_eph e]
    show (Eph.subDecode true buf).map PyObj.eph = _
    rw [C30_subDecode buf e ha h.2.2 hc]
    rfl
  | base m =>
    obtain ⟨h1, h2⟩ := number_base hc
    rw [h1]
    dsimp only
    rw [h2]
    have hd := (C33_C37_bare_iff buf (Spec.bareObj m)).2 ⟨m, ha, hc, rfl⟩
    show (match Base.subDecode true buf with
      | .ok x => x.map baseObj
      | .error _ => none) = _
    have hnum := carried_num hc
    have hs : Base.subDecode true buf = .ok (some (.inl (Spec.bareObj m))) := by
      unfold Base.subDecode Base.getMsgNum
      rw [hnum, ok_bind, hd]
      rfl
    rw [hs]
    rfl
  | msm d =>
    rw [number_msm h.2.2 hc]
    dsimp only
    have hd : Msm.decodeMsm17 true buf = some (.inl d.bareObj) := by
      unfold Msm.decodeMsm17
      rw [(C21_C22_bare_iff buf hv d.bareObj).2 ⟨d, h.2.2, hc, ha, rfl⟩]
      rfl
    rcases family_msm h.2.2 with hf | hf
    · rw [hf]
      show (Msm.decodeMsm17 true buf).map msmObj = _
      rw [hd]; rfl
    · rw [hf]
      show (Msm.decodeMsm17 true buf).map msmObj = _
      rw [hd]; rfl

/-- No object results from a content that is not accepted. -/
theorem outcome_refused {c : Content} (h : c.WellFormed) (ha : ¬c.Accepted) (m : Mode) : outcome m c.frame = none := by
  have hv := frame_valid h
  have hc := frame_carries h
  generalize c.frame = buf at hv hc
  unfold outcome
  cases c with
  | eph e =>
    have hc := carries_eph hc
    rw [number_eph h.2.2 hc]
    dsimp only
    rw [family_eph e]
    have : ∃ q, e = .qzs q := by
      by_contra hno
      exact ha (fun q hq => hno ⟨q, hq⟩)
    obtain ⟨q, rfl⟩ := this
    dsimp only
    split
    · show (Eph.subDecode m.bare buf).map PyObj.eph = none
      rw [C31_violated_wellformed buf m.bare q h.2.2 hc]
      rfl
    · rfl
  | base b =>
    obtain ⟨h1, h2⟩ := number_base hc
    rw [h1]
    dsimp only
    rw [h2]
    dsimp only
    split
    · show (match Base.subDecode m.bare buf with
        | .ok x => x.map baseObj
        | .error _ => none) = none
      have hs : Base.subDecode m.bare buf = .ok none := by
        cases b with
        | m1013 id mjd sec leap ann =>
          have : ann = [] := not_not.1 ha
          subst this
          exact C36_violated buf m.bare id mjd sec leap hc
        | _ => exact absurd trivial ha
      rw [hs]
      rfl
    · rfl
  | msm d =>
    rw [number_msm h.2.2 hc]
    dsimp only
    have hk : d.k = 2 ∨ d.k = 3 := by
      by_contra hk
      exact ha ⟨fun h2 => absurd (.inl h2) hk, fun h3 => absurd (.inr h3) hk⟩
    have hd := C22_violated d h.2.2 hk (.inr ha) buf hv hc m.bare
    rcases family_msm h.2.2 with hf | hf
    · rw [hf]
      dsimp only
      split
      · show (Msm.decodeMsm17 m.bare buf).map msmObj = none
        rw [hd]; rfl
      · rfl
    · rw [hf]
      dsimp only
      split
      · show (Msm.decodeMsm17 m.bare buf).map msmObj = none
        rw [hd]; rfl
      · rfl

end Run
end Verif

namespace Verif
open Spec Decoder Conv Run

namespace Run

/-- Conversion in modes JSON and JSON-B. -/
theorem json_run {m : Mode} (hm : m = .json ∨ m = .jsonB) {w0 : Disk} {wd : Txt} {box : Box} {c : Converter}
    (h : strategy m w0 wd box = .ok (some c)) (fr : Rat → Txt) (n : Nat) (hn : 0 < n) (bytes : Bytes) (w : Disk) :
    let R := Json.printAll fr { ctrls := box.json, wd := wd } w ((messages bytes).filterMap (outcome m))
    ∃ c', decodeRtcmFile fr n (some bytes) c w = some ((c', (R.1.1.close R.1.2).2), true) ∧
      c'.statistics = { decoding_attempts := (messages bytes).countP (supportedMsg m),
                        parsing_errors := dirtyGaps (scan [] bytes).segs,
                        decoding_errors := ((messages bytes).countP (supportedMsg m) : Int) - ((messages bytes).filterMap (outcome m)).length,
                        printing_attempts := ((messages bytes).filterMap (outcome m)).length,
                        printing_errors := (((messages bytes).filterMap (outcome m)).length : Int) - R.2.length } := by
  intro R
  obtain ⟨h1, h2⟩ := strategy_cases h
  have hdec : c.decoder.decoders = registered m := reach_decoders (.start h1)
  rw [strategy_eq] at h1
  have e1 : c.decoder = { decoders := registered m } := (Option.some.inj (Except.ok.inj h1)).symm
  have e2 : c.printer = startPrinter m wd box := by
    rw [strategyPrinter_eq] at h2
    split at h2
    · exact (Option.some.inj (Except.ok.inj h2)).symm
    · cases h2
  have e3 : c.printer = { format := "JSON", printers := [jsonSub { ctrls := box.json, wd := wd }] } := by
    rw [e2]; rcases hm with rfl | rfl <;> rfl
  obtain ⟨c1, g1, g2, g3, g4, g5, g6⟩ := process_json fr (messages bytes) c w { ctrls := box.json, wd := wd } hdec (by rw [e3])
  obtain ⟨c', a1, a2, a3, a4, a5⟩ := C51_whole m w0 wd box c h fr n hn bytes w
  rw [g1] at a1 a2 a3 a4 a5
  have hrel : (c1.release R.1.2).2 = (R.1.1.close R.1.2).2 ∧ (c1.release R.1.2).1.printer.attempts = c1.printer.attempts ∧
      (c1.release R.1.2).1.printer.succeeded = c1.printer.succeeded := by
    unfold Converter.release PrinterTop.close
    rw [g2]
    exact ⟨rfl, rfl, rfl⟩
  refine ⟨c', ?_, ?_⟩
  · rw [a1]
    have : decide ((Except.ok () : Py Unit) = Except.ok ()) = true := rfl
    dsimp only
    rw [hrel.1, this]
  · unfold Converter.statistics DecoderTop.decErrors PrinterTop.errors
    rw [a2, a3, a4, a5 rfl]
    dsimp only
    rw [hrel.2.1, hrel.2.2, g3, g4, g5, g6, e1, e3]
    simp [R]

theorem messages_clean (fs : List Bytes) (hv : ∀ f ∈ fs, ValidFrame f) :
    messages fs.flatten = fs ∧ dirtyGaps (scan [] fs.flatten).segs = 0 := by
  have hs := scan_noisy (fs.map (fun f => ⟨[], f⟩)) [] (by simpa using hv) (by simp) (by simp)
  have hfl : (List.map (fun g : Seg => g.gap ++ g.msg) (fs.map (fun f => ⟨[], f⟩))).flatten = fs.flatten := by
    congr 1; simp [Function.comp_def]
  rw [hfl, List.append_nil] at hs
  unfold messages
  rw [hs]
  constructor
  · simp [Function.comp_def]
  · unfold dirtyGaps
    rw [List.countP_eq_zero]
    intro g hg
    obtain ⟨f, _, rfl⟩ := List.mem_map.1 (List.mem_of_mem_drop hg)
    simp

theorem outcome_supported {m : Mode} {msg : Bytes} {o : PyObj} (h : outcome m msg = some o) : supportedMsg m msg = true := by
  unfold outcome at h
  unfold supportedMsg supportedIn
  cases hn : numberIn msg with
  | none => rw [hn] at h; cases h
  | some n =>
    rw [hn] at h
    dsimp only at h ⊢
    cases hf : family n with
    | none => rw [hf] at h; cases h
    | some f =>
      rw [hf] at h
      dsimp only at h ⊢
      split at h
      · assumption
      · cases h

/-- The message number of the decoded object is the one of the content, and it is in the table of the JSON printer. -/
theorem outcome_num {m : Mode} {c : Content} (h : c.WellFormed) {o : PyObj} (ho : outcome m c.frame = some o) :
    Json.objNum o = some (c.number : Int) ∧ (∃ row, Json.JSON_SPEC.get? (c.number : Int) = some row) ∧
      Json.clsName o.cls = className m.bare c.number := by
  have hnum : numberIn c.frame = some c.number := by
    cases c with
    | eph e => exact number_eph h.2.2 (carries_eph (frame_carries h))
    | base b => exact (number_base (frame_carries h)).1
    | msm d => exact number_msm h.2.2 (frame_carries h)
  have hd : ∃ d, Reach m d ∧ (d.decode c.frame).2 = some o := by
    refine ⟨{ decoders := registered m }, .start (strategy_eq m), ?_⟩
    obtain ⟨c', e1, -⟩ := decode_outcome (c := { decoder := { decoders := registered m } }) (m := m) rfl c.frame
    have := congrArg Prod.snd e1
    rw [ho] at this
    exact this
  obtain ⟨d, hd1, hd2⟩ := hd
  obtain ⟨n, row, h1, h2, h3, -⟩ := C46_total m d hd1 c.frame o hd2
  rw [hnum] at h1
  cases h1
  obtain ⟨n', g1, -, g3, -⟩ := C17_typed m d hd1 c.frame o hd2
  rw [hnum] at g1
  cases g1
  exact ⟨h2, ⟨row, h3⟩, Json.class_of _ _ _ g3⟩

end Run

/-- **C46** The file of a supported message number and the name of the class in its header are the specified ones. -/
theorem C46_named (wd : Txt) (bare : Bool) (n : Nat) (cls : Cls) (h : declared bare n = some cls) :
    ∃ row, Json.JSON_SPEC.get? (n : Int) = some row ∧ Json.pathOf wd row = Disk.join wd (jsonFile n).toList ∧
      Json.clsName cls = className bare n := by
  obtain ⟨row, h1, -⟩ := Json.row_of_declared n bare cls h
  exact ⟨row, h1, Json.path_of wd n row h1, Json.class_of bare n cls h⟩

/-- Two files. -/
example : jsonFile 1087 = "MSM7/GLN-MSM7-1087.json" ∧ jsonFile 1033 = "BASE/AntAndRcvDesc-1033.json" ∧
    className true 1087 = "BareObservablesMSM4567" ∧ declared false 1033 = some .baseADSNRC := by decide +kernel

/-- For each message number of the contents its file denotes the array of a header with the name of the class and of one value per
content with this number, in order, such that `P` holds of the content and the value. -/
def Spec.HoldsContents (P : Content → JV → Prop) (bare : Bool) (wd : Txt) (w : Disk) (cs : List Content) : Prop :=
  ∀ k : Nat, (∃ c ∈ cs, c.number = k) → ∃ t vs, w.read (Disk.join wd (jsonFile k).toList) = some t ∧
    JsonText (fileJson (className bare k) vs) t ∧ List.Forall₂ P (cs.filter (·.number = k)) vs

namespace Run

/-- The files after a run without failures, from the objects. -/
theorem json_files_of {m : Mode} (hm : m = .json ∨ m = .jsonB) {w0 : Disk} {wd : Txt} {box : Box} {c : Converter}
    (h : strategy m w0 wd box = .ok (some c)) (fr : Rat → Txt) (hfr : ∀ x, IsNum (fr x)) (n : Nat) (hn : 0 < n) (w : Disk)
    (hw : ∀ i, w.fault i = false) (bytes : Bytes) (cs : List Content) (obj : Content → PyObj)
    (hcs : ∀ c ∈ cs, c.WellFormed ∧ outcome m c.frame = some (obj c)) (P : Content → JV → Prop)
    (hP : ∀ c ∈ cs, P c (jv fr (Json.objVal box.json (obj c))))
    (hobj : (messages bytes).filterMap (outcome m) = cs.map obj) (hsup : (messages bytes).countP (supportedMsg m) = cs.length) :
    ∃ c' w', decodeRtcmFile fr n (some bytes) c w = some ((c', w'), true) ∧
      c'.statistics = { decoding_attempts := cs.length, parsing_errors := dirtyGaps (scan [] bytes).segs, decoding_errors := 0,
                        printing_attempts := cs.length, printing_errors := 0 } ∧
      HoldsContents P m.bare wd w' cs := by
  obtain ⟨c', a1, a2⟩ := json_run hm h fr n hn bytes w
  rw [hobj] at a1 a2
  have hall := C45_all fr box.json wd w hw (cs.map obj) (by
    intro o ho
    obtain ⟨c, hc, rfl⟩ := List.mem_map.1 ho
    obtain ⟨g1, ⟨row, g2⟩, -⟩ := outcome_num (hcs c hc).1 (hcs c hc).2
    exact ⟨_, row, g1, g2⟩)
  rw [hsup, hall] at a2
  refine ⟨c', _, a1, ?_, ?_⟩
  · rw [a2]; simp
  · intro k hk
    have hsel : (Json.printAll fr { ctrls := box.json, wd := wd } w (cs.map obj)).2.filter (fun x => Json.objNum x == some (k : Int)) =
        (cs.filter (·.number = k)).map obj := by
      rw [hall, List.filter_map]
      congr 1
      apply List.filter_congr
      intro c hc
      obtain ⟨g1, -⟩ := outcome_num (hcs c hc).1 (hcs c hc).2
      simp only [Function.comp_apply, g1]
      by_cases hck : c.number = k <;> simp [hck]
    obtain ⟨c0, hc0, hk0⟩ := hk
    have hne : (cs.filter (·.number = k)).map obj ≠ [] := by
      intro h0
      have : c0 ∈ cs.filter (·.number = k) := List.mem_filter.2 ⟨hc0, by simpa using hk0⟩
      rw [List.map_eq_nil_iff] at h0
      rw [h0] at this
      cases this
    obtain ⟨o, l, hol⟩ := List.exists_cons_of_ne_nil hne
    obtain ⟨row, t, r1, r2, -, r4⟩ := C45_files fr hfr box.json wd w (cs.map obj) (k : Int) o l (by rw [hsel, hol])
    rw [Json.path_of wd k row r1] at r2
    refine ⟨t, (cs.filter (·.number = k)).map (fun c => jv fr (Json.objVal box.json (obj c))), r2, ?_, ?_⟩
    · have hcls : Json.clsName o.cls = className m.bare k := by
        have ho : o ∈ (cs.filter (·.number = k)).map obj := by rw [hol]; simp
        obtain ⟨c, hc, rfl⟩ := List.mem_map.1 ho
        obtain ⟨hc1, hc2⟩ := List.mem_filter.1 hc
        have := (outcome_num (hcs c hc1).1 (hcs c hc1).2).2.2
        rw [this, of_decide_eq_true hc2]
      have hl : (o :: l).map (fun x => jv fr (Json.objVal box.json x)) =
          (cs.filter (·.number = k)).map (fun c => jv fr (Json.objVal box.json (obj c))) := by
        rw [← hol, List.map_map]
        rfl
      rw [hcls, hl] at r4
      exact r4
    · rw [List.forall₂_map_right_iff, List.forall₂_same]
      intro c hc
      exact hP c (List.mem_filter.1 hc).1

/-- The files after the conversion of a clean file without failures. -/
theorem json_files {m : Mode} (hm : m = .json ∨ m = .jsonB) {w0 : Disk} {wd : Txt} {box : Box} {c : Converter}
    (h : strategy m w0 wd box = .ok (some c)) (fr : Rat → Txt) (hfr : ∀ x, IsNum (fr x)) (n : Nat) (hn : 0 < n) (w : Disk)
    (hw : ∀ i, w.fault i = false) (cs : List Content) (obj : Content → PyObj)
    (hcs : ∀ c ∈ cs, c.WellFormed ∧ outcome m c.frame = some (obj c)) (P : Content → JV → Prop)
    (hP : ∀ c ∈ cs, P c (jv fr (Json.objVal box.json (obj c)))) :
    ∃ c' w', decodeRtcmFile fr n (some (cs.map Content.frame).flatten) c w = some ((c', w'), true) ∧
      c'.statistics = { decoding_attempts := cs.length, parsing_errors := 0, decoding_errors := 0, printing_attempts := cs.length,
                        printing_errors := 0 } ∧
      HoldsContents P m.bare wd w' cs := by
  obtain ⟨hmsg, hdirty⟩ := messages_clean (cs.map Content.frame) (by
    intro f hf
    obtain ⟨c, hc, rfl⟩ := List.mem_map.1 hf
    exact frame_valid (hcs c hc).1)
  have hobj : (cs.map Content.frame).filterMap (outcome m) = cs.map obj := by
    clear hmsg hdirty hP
    induction cs with
    | nil => rfl
    | cons c cs ih =>
      rw [List.map_cons, List.filterMap_cons, (hcs c (by simp)).2, ih (fun x hx => hcs x (by simp [hx]))]
      rfl
  have hsup : (cs.map Content.frame).countP (supportedMsg m) = cs.length := by
    rw [List.countP_eq_length.2, List.length_map]
    intro f hf
    obtain ⟨c, hc, rfl⟩ := List.mem_map.1 hf
    exact outcome_supported (hcs c hc).2
  have := json_files_of hm h fr hfr n hn w hw (cs.map Content.frame).flatten cs obj hcs P hP (by rw [hmsg, hobj]) (by rw [hmsg, hsup])
  rw [hdirty] at this
  exact this

end Run

/-- **C52** (partial) A file that is a concatenation of the frames of well-formed contents, converted in mode JSON-B with any read
chunk size, on a file system without failures: nothing is counted as an error, and for each message number that occurs its
file holds the JSON array of a header and the transmitted values of exactly the contents with this number, in order. Missing: the
contents that are not `Accepted`, see `C52_violated`. -/
theorem C52_partial (fr : Rat → Txt) (hfr : ∀ x, IsNum (fr x)) (w0 : Disk) (wd : Txt) (box : Box) (c : Converter)
    (h : strategy .jsonB w0 wd box = .ok (some c)) (n : Nat) (hn : 0 < n) (w : Disk) (hw : ∀ i, w.fault i = false) (cs : List Content)
    (hcs : ∀ c ∈ cs, c.WellFormed ∧ c.Accepted) :
    ∃ c' w', decodeRtcmFile fr n (some (cs.map Content.frame).flatten) c w = some ((c', w'), true) ∧
      c'.statistics = { decoding_attempts := cs.length, parsing_errors := 0, decoding_errors := 0, printing_attempts := cs.length,
                        printing_errors := 0 } ∧
      HoldsContents (Content.BareJson box.json.enable_hdr_data box.json.enable_aux_data) true wd w' cs :=
  json_files (.inr rfl) h fr hfr n hn w hw cs Content.bareObj (fun c hc => ⟨(hcs c hc).1, outcome_bare (hcs c hc).1 (hcs c hc).2⟩) _
    (fun c hc => Json.content_bare fr box.json c (hcs c hc).1)

/-- Work folder and logger on a file system without failures. -/
theorem Run.folder_ok (w : Disk) (hw : ∀ i, w.fault i = false) (src pfx : Txt) :
    ∃ w1, createWorkFolder w src pfx = (w1, some (workFolder src pfx)) ∧ w1.isdir (workFolder src pfx) = true ∧ ∀ i, w1.fault i = false := by
  unfold createWorkFolder
  generalize workFolder src pfx = fld
  dsimp only
  cases hd : w.isdir fld <;> simp [Disk.rmtree, Disk.makedirs, hw, Disk.isdir]

theorem Run.logger_ok (w : Disk) (hw : ∀ i, w.fault i = false) (path : Txt) :
    ∃ w1, initLogger w false path = ((w1, true), .ok ()) ∧ w1.dirs = w.dirs ∧ ∀ i, w1.fault i = false := by
  unfold initLogger init2CH Disk.openW Disk.write
  simp [hw]

/-- **C52** (partial) The same for the body of the main loop: the verdict is 'finished without errors'. -/
theorem C52_file_partial (fr : Rat → Txt) (hfr : ∀ x, IsNum (fr x)) (src : Txt → Option Bytes) (box : Box) (f : Txt) (w : Disk)
    (hw : ∀ i, w.fault i = false) (cs : List Content) (hcs : ∀ c ∈ cs, c.WellFormed ∧ c.Accepted)
    (hsrc : src f = some (cs.map Content.frame).flatten) :
    ∃ w', convertFile fr src "JSON-B" (some box) w false f = some ((w', false), .ok .finishedWithoutErrors) ∧
      HoldsContents (Content.BareJson box.json.enable_hdr_data box.json.enable_aux_data) true (workFolder f "JSON-B".toList) w' cs := by
  obtain ⟨w1, e1, d1, f1⟩ := folder_ok w hw f "JSON-B".toList
  obtain ⟨w2, e2, d2, f2⟩ := logger_ok w1 f1 (Disk.join (workFolder f "JSON-B".toList) (makeLogFileName f))
  have hs : ∃ c, strategy .jsonB w2 (workFolder f "JSON-B".toList) box = .ok (some c) := by
    unfold strategy
    obtain ⟨d, hd⟩ := C17_strategy .jsonB
    have : w2.isdir (workFolder f "JSON-B".toList) = true := by unfold Disk.isdir; rw [d2]; exact d1
    rw [hd, strategyPrinter_eq, if_pos this]
    exact ⟨_, rfl⟩
  obtain ⟨c, hc⟩ := hs
  obtain ⟨c', w', a1, a2, a3⟩ := C52_partial fr hfr w2 _ box c hc FILE_CHUNK_LEN (by decide) w2 f2 cs hcs
  refine ⟨w', ?_, a3⟩
  have hfac : factory "JSON-B" w2 (workFolder f "JSON-B".toList) box = .ok (some c) := hc
  unfold convertFile
  rw [e1]
  dsimp only
  rw [e2]
  dsimp only
  rw [hfac, hsrc]
  dsimp only
  rw [a1]
  dsimp only
  rw [if_pos rfl, a2]
  rfl

/-- Contents of three kinds. -/
def exContents : List Content :=
  [.msm exMsm5, .eph (.glo sampleGlo), .base (.m1006 sampleRef 65535), .msm exMsm3, .msm exMsm5]

/-- The hypotheses of C52 are met. -/
theorem exContents_ok : ∀ c ∈ exContents, c.WellFormed ∧ c.Accepted := by
  have h5 : (Content.msm exMsm5).WellFormed ∧ (Content.msm exMsm5).Accepted :=
    ⟨⟨by simp only [Content.layout, Content.vals]; decide +kernel, by decide +kernel, (by decide +kernel : exMsm5.WF)⟩,
      (by decide +kernel : LengthEstimateRight exMsm5)⟩
  have h3 : (Content.msm exMsm3).WellFormed ∧ (Content.msm exMsm3).Accepted :=
    ⟨⟨by simp only [Content.layout, Content.vals]; decide +kernel, by decide +kernel, (by decide +kernel : exMsm3.WF)⟩,
      (by decide +kernel : LengthEstimateRight exMsm3)⟩
  have he : (Content.eph (.glo sampleGlo)).WellFormed ∧ (Content.eph (.glo sampleGlo)).Accepted :=
    ⟨⟨by simp only [Content.layout, Content.vals, tableOf]; decide, by decide +kernel, rfl⟩, by intro q h; cases h⟩
  have hb : (Content.base (.m1006 sampleRef 65535)).WellFormed ∧ (Content.base (.m1006 sampleRef 65535)).Accepted :=
    ⟨⟨by simp only [Content.layout, Content.vals]; decide, by decide +kernel, trivial⟩, trivial⟩
  simp only [exContents, List.mem_cons, List.not_mem_nil, or_false, forall_eq_or_imp, forall_eq]
  exact ⟨h5, he, hb, h3, h5⟩

example : exContents.map Content.number = [1095, 1020, 1006, 1083, 1095] ∧
    (exContents.filter (·.number = 1095)).map Content.bareObj = [.msmBare exMsm5.bareObj, .msmBare exMsm5.bareObj] := ⟨rfl, rfl⟩

/-- **C52** is violated: the frame of a well-formed content that is not `Accepted` counts as a decoding error and yields no object, in
every mode that handles its number. -/
theorem C52_violated (c : Content) (h : c.WellFormed) (ha : ¬c.Accepted) (m : Mode) (d : DecoderTop) (hd : Reach m d) :
    (d.decode c.frame).2 = none ∧ ((d.decode c.frame).1.decErrors = d.decErrors + 1 ↔ supportedMsg m c.frame = true) := by
  obtain ⟨c', e1, e2, e3, e4, e5⟩ := decode_outcome (c := { decoder := d }) (reach_decoders hd) c.frame
  have h1 : c'.decoder = (d.decode c.frame).1 := (congrArg (fun x => x.1.decoder) e1).symm
  have h2 : (d.decode c.frame).2 = outcome m c.frame := congrArg Prod.snd e1
  rw [outcome_refused h ha m] at h2 e5
  refine ⟨h2, ?_⟩
  rw [← h1]
  unfold DecoderTop.decErrors
  rw [e4, e5]
  cases supportedMsg m c.frame <;> simp; omega

/-- Contents that are well-formed but not accepted exist: a QZSS ephemeris, 1013 without announcements, MSM2 with eight cells. -/
example : (Content.eph (.qzs sampleQzs)).WellFormed ∧ ¬(Content.eph (.qzs sampleQzs)).Accepted ∧
    (Content.base (.m1013 1 60000 86400 18 [])).WellFormed ∧ ¬(Content.base (.m1013 1 60000 86400 18 [])).Accepted ∧
    (Content.msm exMsm2).WellFormed ∧ ¬(Content.msm exMsm2).Accepted := by
  refine ⟨⟨by simp only [Content.layout, Content.vals, tableOf]; decide, by decide +kernel, ?_⟩, fun h => h _ rfl,
    ⟨by simp only [Content.layout, Content.vals]; decide, by decide +kernel, by decide⟩, fun h => h rfl,
    ⟨by simp only [Content.layout, Content.vals]; decide +kernel, by decide +kernel, (by decide +kernel : exMsm2.WF)⟩,
    (by decide +kernel : ¬LengthEstimateRight exMsm2)⟩
  rfl

end Verif
