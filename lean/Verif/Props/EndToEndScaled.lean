import Verif.Props.EndToEnd

/-!
# C59: from encoded messages to JSON files in physical units
-/

namespace Verif
open Spec Decoder Conv Run

/-- Contents that the decoders deliver completely in scaled mode. Excluded are, besides those that are not `Accepted`: texts that are
empty (C34, C35) or not UTF-8, MSM with a signal that has no code (C27), MSM3 with a fine pseudorange marked invalid (C25). -/
def Spec.Content.AcceptedScaled (c : Content) : Prop :=
  c.Accepted ∧ match c with
    | .eph _ => True
    | .base m => ∀ t ∈ m.texts, t ≠ [] ∧ ∃ s, t = utf8 s
    | .msm d => d.SignalsKnown ∧ (d.k = 3 → ∀ x ∈ d.rngFine, x ≠ -(2 ^ 14))

/-- The GLONASS time field of a content is in range. -/
theorem Run.tk_range {e : Eph.Obj Int} (h : FitsAll (fieldsOf (tableOf e)) (valsOf e)) (g : EphGLO Int) (he : e = .glo g) :
    0 ≤ g.tk ∧ g.tk < 4096 := by
  subst he
  have step : ∀ {f : Field} {L : List Field} {v : Int} {vs : List Int}, f.kind ≠ .res → FitsAll (f :: L) (v :: vs) →
      f.Fits v ∧ FitsAll L vs := by
    intro f L v vs hf hx
    unfold FitsAll at hx
    rw [if_neg hf] at hx
    obtain ⟨v', vs', e, h1, h2⟩ := hx
    cases e
    exact ⟨h1, h2⟩
  have h1 := (step (by decide) h).2
  have h2 := (step (by decide) h1).2
  have h3 := (step (by decide) h2).2
  have h4 := (step (by decide) h3).2
  have h5 := (step (by decide) h4).2
  have h6 := (step (by decide) h5).2
  have h7 := (step (by decide) h6).1
  exact h7

theorem Run.outcome_scaled {c : Content} (h : c.WellFormed) (ha : c.AcceptedScaled) : ∃ o, outcome .json c.frame = some o ∧ c.Scaled o := by
  obtain ⟨ha, hs⟩ := ha
  have hv := frame_valid h
  have hc := frame_carries h
  generalize c.frame = buf at hv hc
  unfold outcome
  cases c with
  | eph e =>
    have hc := carries_eph hc
    rw [number_eph h.2.2 hc]
    dsimp only
    rw [family_eph e]
    refine ⟨.eph (Eph.scale e), ?_, Eph.scale e, (C32_type e).1, C32_scale e (tk_range h.1), rfl⟩
    show (Eph.subDecode false buf).map PyObj.eph = _
    have h5 : 5 ≤ buf.length := le_trans (by unfold minFrame; omega) hc.facts.1
    unfold Eph.subDecode Eph.decode
    rw [getMsgNum_eq buf h5, ok_bind, C30_roundtrip buf e ha h.2.2 hc]
    rfl
  | base m =>
    obtain ⟨h1, h2⟩ := number_base hc
    rw [h1]
    dsimp only
    rw [h2]
    have hf : ∀ t ∈ m.texts, t ≠ [] ∧ IsUtf8Of t (textOf t) := by
      intro t ht
      obtain ⟨h3, s, rfl⟩ := hs t ht
      refine ⟨h3, ?_⟩
      rw [textOf_utf8]
      exact (isUtf8Of_iff _ _).2 rfl
    have hd := (C33_C37_scaled_iff buf (scaledObj textOf m)).2 ⟨m, textOf, ha, hc, hf, rfl⟩
    refine ⟨.baseScaled (scaledObj textOf m), ?_, textOf, hf, rfl⟩
    show (match Base.subDecode false buf with
      | .ok x => x.map baseObj
      | .error _ => none) = _
    have hnum := carried_num hc
    have hs : Base.subDecode false buf = .ok (some (.inr (scaledObj textOf m))) := by
      unfold Base.subDecode Base.getMsgNum
      rw [hnum, ok_bind, hd]
      rfl
    rw [hs]
    rfl
  | msm d =>
    rw [number_msm h.2.2 hc]
    dsimp only
    have hd : Msm.decodeMsm17 false buf = some (.inr d.scaledObj) := by
      by_cases hk : 4 ≤ d.k
      · exact C24_scaled d h.2.2 hk hs.1 buf hv hc
      · exact C25_partial d h.2.2 (by omega) hs.1 hs.2 ha buf hv hc
    refine ⟨.msm d.scaledObj, ?_, rfl⟩
    rcases family_msm h.2.2 with hf | hf
    · rw [hf]
      show (Msm.decodeMsm17 false buf).map msmObj = _
      rw [hd]; rfl
    · rw [hf]
      show (Msm.decodeMsm17 false buf).map msmObj = _
      rw [hd]; rfl

/-- **C59** (partial) A file that is a concatenation of the frames of well-formed contents, converted in mode JSON with any read
chunk size, on a file system without failures: nothing is counted as an error, and for each message number that occurs its file
holds the JSON array of a header and, in order, one value per content with this number: the object that holds this content in
physical units. Missing: the contents that are not `AcceptedScaled`, see `C52_violated`, `C34_C35_violated` and `C25_violated`. -/
theorem C59_partial (fr : Rat → Txt) (hfr : ∀ x, IsNum (fr x)) (w0 : Disk) (wd : Txt) (box : Box) (c : Converter)
    (h : strategy .json w0 wd box = .ok (some c)) (n : Nat) (hn : 0 < n) (w : Disk) (hw : ∀ i, w.fault i = false) (cs : List Content)
    (hcs : ∀ c ∈ cs, c.WellFormed ∧ c.AcceptedScaled) :
    ∃ (c' : Converter) (w' : Disk), decodeRtcmFile fr n (some (cs.map Content.frame).flatten) c w = some ((c', w'), true) ∧
      c'.statistics = { decoding_attempts := cs.length, parsing_errors := 0, decoding_errors := 0, printing_attempts := cs.length,
                        printing_errors := 0 } ∧
      HoldsContents (Content.ScaledJson fr box.json.enable_hdr_data box.json.enable_aux_data) false wd w' cs := by
  have key : ∀ c, ∃ o, c ∈ cs → outcome .json c.frame = some o ∧ c.Scaled o := by
    intro c
    by_cases hc : c ∈ cs
    · obtain ⟨o, ho⟩ := outcome_scaled (hcs c hc).1 (hcs c hc).2
      exact ⟨o, fun _ => ho⟩
    · exact ⟨c.bareObj, fun h => absurd h hc⟩
  choose obj hobj using key
  exact json_files (.inl rfl) h fr hfr n hn w hw cs obj (fun c hc => ⟨(hcs c hc).1, (hobj c hc).1⟩) _
    (fun c hc => Json.content_scaled fr box.json c (hcs c hc).1 _ (hobj c hc).2)

/-- The contents of the example for C52 meet the hypotheses. -/
example : ∀ c ∈ exContents, c.WellFormed ∧ c.AcceptedScaled := by
  intro c hc
  refine ⟨(exContents_ok c hc).1, (exContents_ok c hc).2, ?_⟩
  simp only [exContents, List.mem_cons, List.not_mem_nil, or_false] at hc
  rcases hc with rfl | rfl | rfl | rfl | rfl
  · exact ⟨by decide +kernel, by decide +kernel⟩
  · trivial
  · simp [BaseMsg.texts]
  · exact ⟨by decide +kernel, by decide +kernel⟩
  · exact ⟨by decide +kernel, by decide +kernel⟩

/-! ## C60: noise and other messages -/

/-- A piece of a file: noise followed by the frame of a content or by some other frame. -/
structure Spec.Piece where
  gap : List UInt8
  item : Content ⊕ List UInt8

/-- The frame of a piece. -/
def Spec.Piece.frame (p : Piece) : List UInt8 :=
  match p.item with
  | .inl c => c.frame
  | .inr f => f

/-- The contents among the pieces. -/
def Spec.contentsOf (ps : List Piece) : List Content := ps.filterMap (fun p => p.item.getLeft?)

/-- The noise has no sync byte; a frame that is not the one of a content is valid and has a message number that is not supported. -/
def Spec.Piece.Ok (p : Piece) : Prop :=
  (0xD3 : UInt8) ∉ p.gap ∧ match p.item with
    | .inl c => c.WellFormed
    | .inr f => ValidFrame f ∧ ∀ n, numberIn f = some n → family n = none

namespace Run

theorem pieces_run {m : Mode} {ps : List Piece} (hp : ∀ p ∈ ps, p.Ok) {obj : Content → PyObj}
    (hcs : ∀ c ∈ contentsOf ps, outcome m c.frame = some (obj c)) :
    (ps.map Piece.frame).filterMap (outcome m) = (contentsOf ps).map obj ∧
      (ps.map Piece.frame).countP (supportedMsg m) = (contentsOf ps).length := by
  induction ps with
  | nil => exact ⟨rfl, rfl⟩
  | cons p ps ih =>
    obtain ⟨gap, item⟩ := p
    cases item with
    | inl c =>
      have hc : contentsOf (⟨gap, .inl c⟩ :: ps) = c :: contentsOf ps := rfl
      rw [hc] at hcs ⊢
      obtain ⟨h1, h2⟩ := ih (fun q hq => hp q (by simp [hq])) (fun x hx => hcs x (by simp [hx]))
      have ho := hcs c (by simp)
      rw [List.map_cons, List.filterMap_cons, List.countP_cons, h1, h2]
      have ef : Piece.frame ⟨gap, .inl c⟩ = c.frame := rfl
      rw [ef, ho, if_pos (outcome_supported ho)]
      exact ⟨rfl, rfl⟩
    | inr f =>
      have hc : contentsOf (⟨gap, .inr f⟩ :: ps) = contentsOf ps := rfl
      rw [hc] at hcs ⊢
      obtain ⟨h1, h2⟩ := ih (fun q hq => hp q (by simp [hq])) hcs
      have hno := ((hp _ (List.mem_cons_self)).2).2
      have hs : supportedMsg m f = false := by
        unfold supportedMsg supportedIn
        cases hn : numberIn f with
        | none => rfl
        | some n => dsimp only; rw [hno n hn]
      have ho : outcome m f = none := by
        unfold outcome
        cases hn : numberIn f with
        | none => rfl
        | some n => dsimp only; rw [hno n hn]
      rw [List.map_cons, List.filterMap_cons, List.countP_cons, h1, h2]
      have ef : Piece.frame ⟨gap, .inr f⟩ = f := rfl
      rw [ef, ho, hs]
      exact ⟨rfl, rfl⟩

theorem pieces_messages {ps : List Piece} (hp : ∀ p ∈ ps, p.Ok) (last : Bytes) (hl : (0xD3 : UInt8) ∉ last) :
    messages ((ps.map (fun p => p.gap ++ p.frame)).flatten ++ last) = ps.map Piece.frame ∧
      dirtyGaps (scan [] ((ps.map (fun p => p.gap ++ p.frame)).flatten ++ last)).segs = (ps.drop 1).countP (fun p => p.gap ≠ []) := by
  have hs := scan_noisy (ps.map (fun p => ⟨p.gap, p.frame⟩)) last
    (by
      intro g hg
      obtain ⟨p, hpm, rfl⟩ := List.mem_map.1 hg
      have := (hp p hpm).2
      obtain ⟨gap, item⟩ := p
      cases item with
      | inl c => exact frame_valid this
      | inr f => exact this.1)
    (by
      intro g hg
      obtain ⟨p, hpm, rfl⟩ := List.mem_map.1 hg
      exact (hp p hpm).1) hl
  rw [List.map_map] at hs
  have e : ((fun g : Seg => g.gap ++ g.msg) ∘ fun p : Piece => (⟨p.gap, p.frame⟩ : Seg)) = fun p => p.gap ++ p.frame := rfl
  rw [e] at hs
  unfold messages dirtyGaps
  rw [hs]
  constructor
  · rw [List.map_map]; rfl
  · show List.countP _ (List.drop 1 (List.map _ _)) = _
    rw [← List.map_drop, List.countP_map]
    rfl

end Run

theorem Run.contents_wf {ps : List Piece} (hp : ∀ p ∈ ps, p.Ok) : ∀ c ∈ contentsOf ps, c.WellFormed := by
  intro c hc
  obtain ⟨p, hpm, hpc⟩ := List.mem_filterMap.1 hc
  have := (hp p hpm).2
  obtain ⟨gap, item⟩ := p
  cases item with
  | inl d => cases hpc; exact this
  | inr f => cases hpc

/-- **C60** A file of frames of contents that the decoders accept, mixed with noise (without the byte 0xD3) before, between and after
the frames and with valid frames of unsupported message numbers, converted in mode JSON-B: the contents are written as in C52, the
other frames leave no trace in the statistics, and the parsing errors are the non-empty runs of noise between two frames. -/
theorem C60_noise (fr : Rat → Txt) (hfr : ∀ x, IsNum (fr x)) (w0 : Disk) (wd : Txt) (box : Box) (c : Converter)
    (h : strategy .jsonB w0 wd box = .ok (some c)) (n : Nat) (hn : 0 < n) (w : Disk) (hw : ∀ i, w.fault i = false) (ps : List Piece)
    (hp : ∀ p ∈ ps, p.Ok) (ha : ∀ c ∈ contentsOf ps, c.Accepted) (last : Bytes) (hl : (0xD3 : UInt8) ∉ last) :
    ∃ c' w', decodeRtcmFile fr n (some ((ps.map (fun p => p.gap ++ p.frame)).flatten ++ last)) c w = some ((c', w'), true) ∧
      c'.statistics = { decoding_attempts := (contentsOf ps).length, parsing_errors := (ps.drop 1).countP (fun p => p.gap ≠ []),
                        decoding_errors := 0, printing_attempts := (contentsOf ps).length, printing_errors := 0 } ∧
      HoldsContents (Content.BareJson box.json.enable_hdr_data box.json.enable_aux_data) true wd w' (contentsOf ps) := by
  have hwf := contents_wf hp
  have hout : ∀ c ∈ contentsOf ps, outcome .jsonB c.frame = some c.bareObj := fun c hc => outcome_bare (hwf c hc) (ha c hc)
  obtain ⟨e1, e2⟩ := pieces_run hp hout
  obtain ⟨e3, e4⟩ := pieces_messages hp last hl
  have := json_files_of (.inr rfl) h fr hfr n hn w hw ((ps.map (fun p => p.gap ++ p.frame)).flatten ++ last) (contentsOf ps)
    Content.bareObj (fun c hc => ⟨hwf c hc, hout c hc⟩) _ (fun c hc => Json.content_bare fr box.json c (hwf c hc)) (by rw [e3, e1])
    (by rw [e3, e2])
  rw [e4] at this
  exact this

/-- **C60** The same in mode JSON, with the values in physical units of C59. -/
theorem C60_noise_scaled (fr : Rat → Txt) (hfr : ∀ x, IsNum (fr x)) (w0 : Disk) (wd : Txt) (box : Box) (c : Converter)
    (h : strategy .json w0 wd box = .ok (some c)) (n : Nat) (hn : 0 < n) (w : Disk) (hw : ∀ i, w.fault i = false) (ps : List Piece)
    (hp : ∀ p ∈ ps, p.Ok) (ha : ∀ c ∈ contentsOf ps, c.AcceptedScaled) (last : Bytes) (hl : (0xD3 : UInt8) ∉ last) :
    ∃ c' w', decodeRtcmFile fr n (some ((ps.map (fun p => p.gap ++ p.frame)).flatten ++ last)) c w = some ((c', w'), true) ∧
      c'.statistics = { decoding_attempts := (contentsOf ps).length, parsing_errors := (ps.drop 1).countP (fun p => p.gap ≠ []),
                        decoding_errors := 0, printing_attempts := (contentsOf ps).length, printing_errors := 0 } ∧
      HoldsContents (Content.ScaledJson fr box.json.enable_hdr_data box.json.enable_aux_data) false wd w' (contentsOf ps) := by
  have hwf := contents_wf hp
  have key : ∀ c, ∃ o, c ∈ contentsOf ps → outcome .json c.frame = some o ∧ c.Scaled o := by
    intro c
    by_cases hc : c ∈ contentsOf ps
    · obtain ⟨o, ho⟩ := outcome_scaled (hwf c hc) (ha c hc)
      exact ⟨o, fun _ => ho⟩
    · exact ⟨c.bareObj, fun h => absurd h hc⟩
  choose obj hobj using key
  obtain ⟨e1, e2⟩ := pieces_run hp (fun c hc => (hobj c hc).1)
  obtain ⟨e3, e4⟩ := pieces_messages hp last hl
  have := json_files_of (.inl rfl) h fr hfr n hn w hw ((ps.map (fun p => p.gap ++ p.frame)).flatten ++ last) (contentsOf ps)
    obj (fun c hc => ⟨hwf c hc, (hobj c hc).1⟩) _ (fun c hc => Json.content_scaled fr box.json c (hwf c hc) _ (hobj c hc).2)
    (by rw [e3, e1]) (by rw [e3, e2])
  rw [e4] at this
  exact this

/-- Noise, an unsupported frame and two contents. -/
example : ∀ p ∈ [⟨[1, 2], .inl (.msm exMsm5)⟩, ⟨[], .inr exOther⟩, (⟨[0xFF], .inl (.msm exMsm3)⟩ : Piece)], p.Ok := by
  simp only [List.mem_cons, List.not_mem_nil, or_false, forall_eq_or_imp, forall_eq]
  refine ⟨⟨by decide, (exContents_ok _ (by simp [exContents])).1⟩, ⟨by decide, ?_, ?_⟩,
    ⟨by decide, (exContents_ok (.msm exMsm3) (by simp [exContents])).1⟩⟩
  · decide +kernel
  · intro n hn
    have : numberIn exOther = some 0 := by decide +kernel
    rw [this] at hn
    cases hn
    decide

end Verif
