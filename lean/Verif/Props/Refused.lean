import Verif.Props.Program
import Verif.Lemmas.SameObjects

/-!
# C82: messages that are refused do no harm to the others
-/

namespace Verif
open Spec Decoder Conv Run

/-- Well-formed contents that the program does not decode though the format asks for them. In all formats: the contents that are not
`Accepted`. In formats with physical units also: a base-station message with a text that is empty or not UTF-8, and MSM with a signal
without code. The format MARGO asks for observables only. -/
def Spec.Content.Refused (format : String) (c : Content) : Prop :=
  (format = "MARGO" → c.isMsm = true) ∧
  (¬c.Accepted ∨ format ≠ "JSON-B" ∧ match c with
    | .eph _ => False
    | .base m => ∃ t ∈ m.texts, t = [] ∨ ¬∃ s, t = utf8 s
    | .msm d => ¬d.SignalsKnown)

open Classical in
/-- The frames of the contents that are not refused, without noise and without other frames. -/
noncomputable def Spec.kept (format : String) (ps : List Piece) : List Piece :=
  ((contentsOf ps).filter (fun c => !decide (c.Refused format))).map (fun c => ⟨[], .inl c⟩)

open Classical in
/-- The number of contents that are refused. -/
noncomputable def Spec.refusals (format : String) (ps : List Piece) : Nat := (contentsOf ps).countP (fun c => decide (c.Refused format))

/-- MSM which the program decodes wrongly (C25) or has no date for: MSM3 with a fine pseudorange marked invalid in the formats with
physical units, times out of range in the formats with rows. -/
def Spec.Sound (format : String) (leap : Int) (ps : List Piece) : Prop :=
  (format ≠ "JSON-B" → ∀ d ∈ msmsOf ps, d.k = 3 → ∀ x ∈ d.rngFine, x ≠ -(2 ^ 14)) ∧
  (format = "MARGO" ∨ format = "JARGO" → ∀ d ∈ msmsOf ps, ValidTime leap d.g d.scaledObj)

namespace Run

theorem mode_of {format : String} {m : Mode} (hm : modeOf format = some m) : (format = "MARGO" ∧ m = .margo) ∨
    (format = "JSON" ∧ m = .json) ∨ (format = "JSON-B" ∧ m = .jsonB) ∨ (format = "JARGO" ∧ m = .jargo) := by
  have hx := PyDict.mem_of_get? hm
  simpa [Prod.ext_iff] using hx

open Classical in
theorem contents_kept_eq (format : String) (ps : List Piece) :
    contentsOf (kept format ps) = (contentsOf ps).filter (fun c => !decide (c.Refused format)) := by
  have key : ∀ l : List Content, contentsOf (l.map (fun c => ⟨[], .inl c⟩)) = l := by
    intro l
    unfold contentsOf
    rw [List.filterMap_map]
    exact List.filterMap_some
  exact key _

theorem contents_kept (format : String) (ps : List Piece) (c : Content) :
    c ∈ contentsOf (kept format ps) ↔ c ∈ contentsOf ps ∧ ¬c.Refused format := by
  rw [contents_kept_eq, List.mem_filter]
  simp

/-- What is left is convertible. -/
theorem convertible_kept {format : String} {leap : Int} {ps : List Piece} (hs : Sound format leap ps) :
    Convertible format leap (kept format ps) := by
  have hacc : ∀ c, c ∈ contentsOf (kept format ps) → (format = "MARGO" → c.isMsm = true) → c.Accepted := by
    intro c hc hm
    by_contra hno
    exact ((contents_kept format ps c).1 hc).2 ⟨hm, .inl hno⟩
  have hscl : ∀ c, c ∈ contentsOf (kept format ps) → (format = "MARGO" → c.isMsm = true) → format ≠ "JSON-B" → c.AcceptedScaled := by
    intro c hc hm hj
    refine ⟨hacc c hc hm, ?_⟩
    obtain ⟨h1, h2⟩ := (contents_kept format ps c).1 hc
    have h2 := fun h => h2 ⟨hm, .inr ⟨hj, h⟩⟩
    cases c with
    | eph e => trivial
    | base b =>
      intro t ht
      by_contra hno
      apply h2
      refine ⟨t, ht, ?_⟩
      rw [not_and_or, not_not] at hno
      exact hno
    | msm d => exact ⟨not_not.1 h2, hs.1 hj d ((msms_contents ps d).2 h1)⟩
  refine ⟨?_, ?_, ?_⟩
  · rintro rfl c hc
    exact hacc c hc (by simp)
  · rintro hf c hc
    apply hscl c hc <;> rcases hf with rfl | rfl <;> simp
  · rintro hf d hd
    have hc := (msms_contents _ d).1 hd
    refine ⟨hscl _ hc (fun _ => rfl) (by rcases hf with rfl | rfl <;> simp), ?_⟩
    exact hs.2 hf d ((msms_contents ps d).2 ((contents_kept format ps _).1 hc).1)

/-- A content that is refused is not decoded, though its number is supported. -/
theorem refused_outcome {format : String} {m : Mode} (hm : modeOf format = some m) {c : Content} (hw : c.WellFormed)
    (hr : c.Refused format) : outcome m c.frame = none ∧ supportedMsg m c.frame = true := by
  have hms := mode_of hm
  obtain ⟨h1, h2⟩ := hr
  have hobs : m.obsOnly = true → c.isMsm = true := by
    intro h
    apply h1
    rcases hms with ⟨h', rfl⟩ | ⟨-, rfl⟩ | ⟨-, rfl⟩ | ⟨-, rfl⟩
    · exact h'
    all_goals cases h
  have hbare : format ≠ "JSON-B" → m.bare = false := by
    intro h
    rcases hms with ⟨-, rfl⟩ | ⟨-, rfl⟩ | ⟨e, rfl⟩ | ⟨-, rfl⟩
    · rfl
    · rfl
    · exact absurd e h
    · rfl
  have hv := frame_valid hw
  have hc := frame_carries hw
  constructor
  · by_cases ha : c.Accepted
    · have hx : format ≠ "JSON-B" ∧ _ := h2.resolve_left (fun h => h ha)
      obtain ⟨hj, hx⟩ := hx
      have hb := hbare hj
      clear h2
      generalize c.frame = buf at hv hc
      unfold outcome
      cases c with
      | eph e => exact absurd hx id
      | base b =>
        obtain ⟨n1, n2⟩ := number_base hc
        rw [n1]
        dsimp only
        rw [n2]
        dsimp only
        split
        · show (match Base.subDecode m.bare buf with
            | .ok x => x.map baseObj
            | .error _ => none) = none
          rw [hb]
          have hs : Base.subDecode false buf = .ok none := by
            unfold Base.subDecode Base.decode Base.getMsgNum
            rw [carried_num hc, ok_bind, (decodeBare_iff _ _).2 ⟨b, ha, hc, rfl⟩, ok_bind, if_neg (by decide)]
            cases hsc : Base.scale (Spec.bareObj b) with
            | error e => rfl
            | ok r =>
              obtain ⟨t, ht, hbad⟩ := hx
              obtain ⟨t1, s, t2⟩ := texts_of_scale hsc t ht
              rcases hbad with hbad | hbad
              · exact absurd hbad t1
              · exact absurd ⟨s, (isUtf8Of_iff _ _).1 t2⟩ hbad
          rw [hs]
          rfl
        · rfl
      | msm d =>
        rw [number_msm hw.2.2 hc]
        dsimp only
        have hd : Msm.decodeMsm17 false buf = none := by
          rw [(C24_C27_scaled_iff buf hv _).2 (Or.inl ⟨d, hw.2.2, hc, ha, rfl⟩), if_neg hx]
        rcases family_msm hw.2.2 with hf | hf
        · rw [hf]
          dsimp only
          split
          · show (Msm.decodeMsm17 m.bare buf).map msmObj = none
            rw [hb, hd]; rfl
          · rfl
        · rw [hf]
          dsimp only
          split
          · show (Msm.decodeMsm17 m.bare buf).map msmObj = none
            rw [hb, hd]; rfl
          · rfl
    · exact outcome_refused hw ha m
  · unfold supportedMsg supportedIn
    generalize c.frame = buf at hv hc
    cases c with
    | eph e =>
      have hc := carries_eph hc
      rw [number_eph hw.2.2 hc]
      dsimp only
      rw [family_eph e]
      cases ho : m.obsOnly with
      | true => exact absurd (hobs ho) (by simp [Content.isMsm])
      | false => rfl
    | base b =>
      obtain ⟨n1, n2⟩ := number_base hc
      rw [n1]
      dsimp only
      rw [n2]
      cases ho : m.obsOnly with
      | true => exact absurd (hobs ho) (by simp [Content.isMsm])
      | false => rfl
    | msm d =>
      rw [number_msm hw.2.2 hc]
      dsimp only
      rcases family_msm hw.2.2 with hf | hf <;> (rw [hf]; cases m.obsOnly <;> rfl)

theorem other_outcome {m : Mode} {f : Bytes} (hno : ∀ n, numberIn f = some n → family n = none) :
    outcome m f = none ∧ supportedMsg m f = false := by
  unfold outcome supportedMsg supportedIn
  cases hn : numberIn f with
  | none => exact ⟨rfl, rfl⟩
  | some n => dsimp only; rw [hno n hn]; exact ⟨rfl, rfl⟩

/-- A content that is not refused is decoded, if the format asks for it. -/
theorem not_refused_outcome {format : String} {m : Mode} (hm : modeOf format = some m) {c : Content} (hw : c.WellFormed)
    (ha : format = "MARGO" → c.isMsm = true) (hr : ¬c.Refused format) : outcome m c.frame ≠ none := by
  have hacc : c.Accepted := by
    by_contra h
    exact hr ⟨ha, .inl h⟩
  by_cases hj : format = "JSON-B"
  · subst hj
    have : m = .jsonB := by
      rcases mode_of hm with ⟨h, -⟩ | ⟨h, -⟩ | ⟨-, h⟩ | ⟨h, -⟩
      · exact absurd h (by decide)
      · exact absurd h (by decide)
      · exact h
      · exact absurd h (by decide)
    rw [this, outcome_bare hw hacc]
    simp
  · have hbare : m.bare = false := by
      rcases mode_of hm with ⟨-, rfl⟩ | ⟨-, rfl⟩ | ⟨e, rfl⟩ | ⟨-, rfl⟩
      · rfl
      · rfl
      · exact absurd e hj
      · rfl
    have hobs : m.obsOnly = true → c.isMsm = true := by
      intro h
      apply ha
      rcases mode_of hm with ⟨h', rfl⟩ | ⟨-, rfl⟩ | ⟨-, rfl⟩ | ⟨-, rfl⟩
      · exact h'
      all_goals cases h
    have hx := fun h => hr ⟨ha, .inr ⟨hj, h⟩⟩
    by_cases hmsm : c.isMsm = true
    · have hv := frame_valid hw
      have hc := frame_carries hw
      cases c with
      | eph e => cases hmsm
      | base b => cases hmsm
      | msm d =>
        generalize (Content.msm d).frame = buf at hv hc
        unfold outcome
        rw [number_msm hw.2.2 hc]
        dsimp only
        have hd : ∃ o, Msm.decodeMsm17 false buf = some o :=
          ⟨_, by rw [(C24_C27_scaled_iff buf hv _).2 (Or.inl ⟨d, hw.2.2, hc, hacc, rfl⟩), if_pos (not_not.1 hx)]⟩
        obtain ⟨o, hd⟩ := hd
        have hon : ∀ b, familyOn b .msm13 = true ∧ familyOn b .msm47 = true := by decide
        rcases family_msm hw.2.2 with hf | hf
        · rw [hf]
          dsimp only
          rw [if_pos (hon _).1]
          show (Msm.decodeMsm17 m.bare buf).map msmObj ≠ none
          rw [hbare, hd]; simp
        · rw [hf]
          dsimp only
          rw [if_pos (hon _).2]
          show (Msm.decodeMsm17 m.bare buf).map msmObj ≠ none
          rw [hbare, hd]; simp
    · have hoo : m.obsOnly = false := by
        cases h : m.obsOnly with
        | false => rfl
        | true => exact absurd (hobs h) hmsm
      have hsc : c.AcceptedScaled := by
        refine ⟨hacc, ?_⟩
        cases c with
        | eph e => trivial
        | base b =>
          intro t ht
          by_contra hno
          rw [not_and_or, not_not] at hno
          exact hx ⟨t, ht, hno⟩
        | msm d => exact absurd rfl hmsm
      have : outcome m c.frame = outcome .json c.frame := by
        unfold outcome
        rw [hbare, hoo]
        rfl
      rw [this]
      exact scaled_outcome hw hsc

/-- The objects in the pieces are those in the pieces that are kept. -/
theorem kept_run {format : String} {m : Mode} (hm : modeOf format = some m) {ps : List Piece} (hp : ∀ p ∈ ps, p.Ok) :
    (ps.map Piece.frame).filterMap (outcome m) = ((kept format ps).map Piece.frame).filterMap (outcome m) ∧
      (ps.map Piece.frame).countP (supportedMsg m) = ((kept format ps).map Piece.frame).countP (supportedMsg m) + refusals format ps := by
  classical
  induction ps with
  | nil => exact ⟨rfl, rfl⟩
  | cons p ps ih =>
    obtain ⟨h1, h2⟩ := ih (fun q hq => hp q (by simp [hq]))
    obtain ⟨gap, item⟩ := p
    cases item with
    | inl c =>
      have hw : c.WellFormed := (hp _ (List.mem_cons_self)).2
      have hc : contentsOf (⟨gap, .inl c⟩ :: ps) = c :: contentsOf ps := rfl
      have ef : Piece.frame ⟨gap, .inl c⟩ = c.frame := rfl
      have ef' : Piece.frame ⟨[], .inl c⟩ = c.frame := rfl
      by_cases hr : c.Refused format
      · obtain ⟨r1, r2⟩ := refused_outcome hm hw hr
        have hk : kept format (⟨gap, .inl c⟩ :: ps) = kept format ps := by
          unfold kept
          rw [hc, List.filter_cons_of_neg (by simpa using hr)]
        have hn : refusals format (⟨gap, .inl c⟩ :: ps) = refusals format ps + 1 := by
          unfold refusals
          rw [hc, List.countP_cons_of_pos (by simpa using hr)]
        rw [hk, hn, List.map_cons, List.filterMap_cons, List.countP_cons, ef, r1, if_pos r2, h2]
        exact ⟨h1, by omega⟩
      · have hk : kept format (⟨gap, .inl c⟩ :: ps) = ⟨[], .inl c⟩ :: kept format ps := by
          unfold kept
          rw [hc, List.filter_cons_of_pos (by simpa using hr)]
          rfl
        have hn : refusals format (⟨gap, .inl c⟩ :: ps) = refusals format ps := by
          unfold refusals
          rw [hc, List.countP_cons_of_neg (by simpa using hr)]
        rw [hk, hn, List.map_cons, List.map_cons, List.filterMap_cons, List.filterMap_cons, List.countP_cons, List.countP_cons, h1, h2,
          ef, ef']
        exact ⟨rfl, by omega⟩
    | inr f =>
      have hc : contentsOf (⟨gap, .inr f⟩ :: ps) = contentsOf ps := rfl
      have hk : kept format (⟨gap, .inr f⟩ :: ps) = kept format ps := by
        unfold kept
        rw [hc]
      have hn : refusals format (⟨gap, .inr f⟩ :: ps) = refusals format ps := rfl
      have ef : Piece.frame ⟨gap, .inr f⟩ = f := rfl
      obtain ⟨r1, r2⟩ := other_outcome (m := m) ((hp _ (List.mem_cons_self)).2).2
      rw [hk, hn, List.map_cons, List.filterMap_cons, List.countP_cons, ef, r1, r2]
      exact ⟨h1, h2⟩

theorem kept_ok {format : String} {ps : List Piece} (hp : ∀ p ∈ ps, p.Ok) : ∀ p ∈ kept format ps, p.Ok := by
  classical
  intro p h
  unfold kept at h
  obtain ⟨c, hc, rfl⟩ := List.mem_map.1 h
  exact ⟨by simp, contents_wf hp c (List.mem_filter.1 hc).1⟩

end Run

/-- The source without all that is not decoded. -/
noncomputable def Spec.Stream.stripped (format : String) (s : Stream) : Stream := ⟨kept format s.pieces, []⟩

theorem Run.stripped_ok {format : String} {s : Stream} (h : s.Ok) : (s.stripped format).Ok := ⟨kept_ok h.1, by simp [Stream.stripped]⟩

/-- **C82, one message.** Exactly the contents that are refused are not decoded, and each counts as one decoding error: for every state
of the converter in a run of the format, and every well-formed content the format asks for. -/
theorem C82_message {format : String} {m : Mode} (hm : modeOf format = some m) (d : DecoderTop) (hd : Reach m d) (c : Content)
    (hw : c.WellFormed) (ha : format = "MARGO" → c.isMsm = true) :
    ((d.decode c.frame).2 = none ↔ c.Refused format) ∧
    (c.Refused format → (d.decode c.frame).1.decErrors = d.decErrors + 1) ∧
    (¬c.Refused format → (d.decode c.frame).1.decErrors = d.decErrors) := by
  obtain ⟨c', e1, -, -, e4, e5⟩ := decode_outcome (m := m) (c := { decoder := d }) (reach_decoders hd) c.frame
  have h2 : (d.decode c.frame).2 = outcome m c.frame := congrArg Prod.snd e1
  have h1 : (d.decode c.frame).1 = c'.decoder := congrArg (fun x => x.1.decoder) e1
  dsimp only at e4 e5
  rw [h2, h1]
  unfold DecoderTop.decErrors
  rw [e4, e5]
  refine ⟨⟨fun h => ?_, fun h => (refused_outcome hm hw h).1⟩, fun h => ?_, fun h => ?_⟩
  · by_contra hr
    exact not_refused_outcome hm hw ha hr h
  · obtain ⟨r1, r2⟩ := refused_outcome hm hw h
    rw [r1, r2]
    simp
    omega
  · have := not_refused_outcome hm hw ha h
    obtain ⟨o, ho⟩ := Option.ne_none_iff_exists'.1 this
    rw [ho, outcome_supported ho]
    simp

/-- **C82, one file.** A source of well-formed contents, noise and unsupported messages, and the same source without the noise, the
unsupported messages and the contents that are refused, are converted to the same files with the same return value, on any file system,
whatever fails. If it is `True`, the first has as many decoding errors more as there are contents that are refused. -/
theorem C82_same {format : String} {m : Mode} (hm : modeOf format = some m) (w0 : Disk) (wd : Txt) (box : Box) (c : Converter)
    (h : strategy m w0 wd box = .ok (some c)) (fr : Rat → Txt) (n : Nat) (hn : 0 < n) (w : Disk) (st : Stream) (hok : st.Ok) :
    ∃ c1 c2 w' ok, decodeRtcmFile fr n (some st.bytes) c w = some ((c1, w'), ok) ∧
      decodeRtcmFile fr n (some (st.stripped format).bytes) c w = some ((c2, w'), ok) ∧
      (ok = true → c1.statistics = { c2.statistics with
        decoding_attempts := c2.statistics.decoding_attempts + refusals format st.pieces
        decoding_errors := c2.statistics.decoding_errors + refusals format st.pieces
        parsing_errors := (st.pieces.drop 1).countP (fun p => p.gap ≠ []) }) := by
  obtain ⟨e1, e2⟩ := pieces_messages hok.1 st.last hok.2
  obtain ⟨e3, -⟩ := pieces_messages (stripped_ok (format := format) hok).1 _ (stripped_ok (format := format) hok).2
  obtain ⟨k1, k2⟩ := kept_run hm hok.1
  have hms1 : messages st.bytes = st.pieces.map Piece.frame := e1
  have hms2 : messages (st.stripped format).bytes = (kept format st.pieces).map Piece.frame := e3
  obtain ⟨c1, c2, w', ok, a1, a2, a3, a4⟩ := same_run h fr n hn st.bytes (st.stripped format).bytes w (by rw [hms1, hms2, k1])
  refine ⟨c1, c2, w', ok, a1, a2, fun hk => ?_⟩
  obtain ⟨s1, s2⟩ := a4 hk (refusals format st.pieces) (by rw [hms1, hms2, k2])
  obtain ⟨c1', d1, -, -, -, d5⟩ := C51_whole m w0 wd box c h fr n hn st.bytes w
  rw [a1] at d1
  have d1 := Option.some.inj d1
  have hc1 : c1 = c1' := congrArg (fun x => x.1.1) d1
  have hok' : ok = _ := congrArg (fun x => x.2) d1
  subst hc1
  rw [hk] at hok'
  have hp : c1.statistics.parsing_errors = (st.pieces.drop 1).countP (fun p => p.gap ≠ []) := by
    rw [← e2]
    exact d5 (by simpa using hok'.symm)
  have hpr : c1.statistics.printing_attempts = c2.statistics.printing_attempts ∧
      c1.statistics.printing_errors = c2.statistics.printing_errors := by
    unfold Converter.statistics
    dsimp only
    rw [a3]
    exact ⟨rfl, rfl⟩
  generalize c1.statistics = x at *
  cases x
  dsimp only at s1 s2 hp hpr ⊢
  rw [s1, s2, hp, hpr.1, hpr.2]

/-- The verdict on a source: with errors if and only if one of its contents is refused. -/
noncomputable def Spec.verdictOn (format : String) (ps : List Piece) : Run.Verdict :=
  if refusals format ps = 0 then .finishedWithoutErrors else .finishedWithErrors

theorem Run.verdictOn_iff (format : String) (ps : List Piece) :
    (verdictOn format ps = .finishedWithoutErrors ↔ ∀ c ∈ contentsOf ps, ¬c.Refused format) ∧
    (verdictOn format ps = .finishedWithErrors ↔ ∃ c ∈ contentsOf ps, c.Refused format) := by
  classical
  have h : refusals format ps = 0 ↔ ∀ c ∈ contentsOf ps, ¬c.Refused format := by
    unfold refusals
    rw [List.countP_eq_zero]
    simp
  unfold verdictOn
  by_cases h0 : refusals format ps = 0
  · rw [if_pos h0]
    have := h.1 h0
    refine ⟨by simpa using this, iff_of_false (by simp) ?_⟩
    rintro ⟨c, hc, hr⟩
    exact this c hc hr
  · rw [if_neg h0]
    have := fun x => h0 (h.2 x)
    refine ⟨iff_of_false (by simp) this, iff_of_true rfl ?_⟩
    by_contra hno
    exact this (fun c hc hr => hno ⟨c, hc, hr⟩)

namespace Run

/-- The files of a conversion with refused contents. -/
theorem file_refused (fr : Rat → Txt) (hfr : ∀ x, IsNum (fr x)) (src : Txt → Option Bytes) {format : String} {m : Mode}
    (hm : modeOf format = some m) (box : Box) (hch : Margo.ChannelsPos box.margo) (f : Txt) (w : Disk) (hw : ∀ i, w.fault i = false)
    (st : Stream) (hok : st.Ok) (hsrc : src f = some st.bytes) (hs : Sound format box.margo.gps_utc_shift st.pieces) :
    ∃ w', convertFile fr src format (some box) w false f = some ((w', false), .ok (verdictOn format st.pieces)) ∧
      Products fr box.json.enable_hdr_data box.json.enable_aux_data (Margo.settings box.margo) format (workFolder f format.toList) w'
        (kept format st.pieces) ∧
      (Clear w (workFolder f format.toList) → ∀ q, Under (workFolder f format.toList) q → w'.read q ≠ none →
        q = logPath f format ∨
          ProductPath (Margo.settings box.margo) format (workFolder f format.toList) (kept format st.pieces) q) := by
  obtain ⟨w', e, h1, h2⟩ := file_products fr hfr (fun _ => some (st.stripped format).bytes) hm box hch f w hw (st.stripped format)
    (stripped_ok hok) rfl (convertible_kept hs)
  refine ⟨w', ?_, h1, h2⟩
  obtain ⟨w2, c, hc, -, -, hconv⟩ := convert_start hm box f w hw
  obtain ⟨c1, c2, w3, ok, a1, a2, a3⟩ := C82_same hm w2 _ box c hc fr FILE_CHUNK_LEN (by decide) w2 st hok
  have b2 := hconv fr (fun _ => some (st.stripped format).bytes) c2 w3 ok a2
  have b1 := hconv fr src c1 w3 ok (by rw [hsrc]; exact a1)
  rw [e] at b2
  have b2 := Option.some.inj b2
  have hw3 : w' = w3 := congrArg (fun x => x.1.1) b2
  have hv : (Except.ok .finishedWithoutErrors : Py Verdict) = .ok (if ok then verdictOf c2.statistics else .terminated) :=
    congrArg (fun x => x.2) b2
  have hv := Except.ok.inj hv
  subst hw3
  rw [b1]
  cases ok with
  | false => cases hv
  | true =>
    rw [if_pos rfl] at hv ⊢
    unfold verdictOf at hv
    split at hv
    · cases hv
    · rename_i hz
      have hz1 : c2.statistics.printing_errors = 0 := by by_contra h; exact hz (.inl h)
      have hz2 : c2.statistics.decoding_errors = 0 := by by_contra h; exact hz (.inr (.inl h))
      rw [a3 rfl]
      unfold verdictOf verdictOn
      dsimp only
      rw [hz1, hz2]
      by_cases h0 : refusals format st.pieces = 0
      · rw [if_pos h0, if_neg (by simp [h0])]
      · rw [if_neg h0, if_pos (by right; left; omega)]

end Run

/-- **C82, files.** As C76, but contents may be refused: each source that is a stream of well-formed contents is converted with errors if
one of its contents is refused and without errors if not. Its work folder has the products of the contents that are not refused and nothing
else but the log. -/
theorem C82_files (fr : Rat → Txt) (hfr : ∀ x, IsNum (fr x)) (src : Txt → Option Bytes) {format : String} {m : Mode}
    (hm : modeOf format = some m) (box : Box) (hch : Margo.ChannelsPos box.margo) (w : Disk) (hw : ∀ i, w.fault i = false)
    (files : List Txt) (hap : files.Pairwise (fun f g => Apart (workFolder f format.toList) (workFolder g format.toList)))
    (st : Txt → Stream)
    (hst : ∀ f ∈ files, (st f).Ok ∧ src f = some (st f).bytes ∧ Sound format box.margo.gps_utc_shift (st f).pieces) :
    ∃ w', mainLoop fr src format (some box) w false files = some ((w', false), .ok (files.map (fun f => verdictOn format (st f).pieces))) ∧
      (∀ f ∈ files, Products fr box.json.enable_hdr_data box.json.enable_aux_data (Margo.settings box.margo) format
          (workFolder f format.toList) w' (kept format (st f).pieces) ∧
        (Clear w (workFolder f format.toList) → ∀ q, Under (workFolder f format.toList) q → w'.read q ≠ none →
          q = logPath f format ∨
            ProductPath (Margo.settings box.margo) format (workFolder f format.toList) (kept format (st f).pieces) q)) ∧
      ∀ q, (∀ f ∈ files, ¬ Under (workFolder f format.toList) q) → w'.read q = w.read q := by
  have hone : ∀ f ∈ files, _ := fun f hf => file_refused fr hfr src hm box hch f w hw (st f) (hst f hf).1 (hst f hf).2.1 (hst f hf).2.2
  obtain ⟨w', e, h1, h2⟩ := loop_each hm fr src (some box) w hw files hap (fun f => verdictOn format (st f).pieces)
    (fun f hf => (hone f hf).imp (fun _ h => h.1))
  refine ⟨w', e, ?_, h2⟩
  intro f hf
  obtain ⟨w1, a1, a2, a3⟩ := hone f hf
  have hr := h1 f hf w1 a1
  refine ⟨products_transfer (workFolder_ok hm f) (kept_ok (hst f hf).1.1) a2 hr, ?_⟩
  intro hc q hq hne
  rw [hr q hq] at hne
  exact a3 hc q hq hne

open Spec.Cmd Args Ctl in
/-- **C82** The whole program, with the configuration of the repository, as C76_program, but contents may be refused. -/
theorem C82_program (fr : Rat → Txt) (hfr : ∀ x, IsNum (fr x)) (sh : Shell) (src : Txt → Option Bytes) (ini : Txt → IniFile)
    (order1 order2 : List Txt → List Txt) (ho : ∀ l x, x ∈ order1 l ↔ x ∈ l) (hini : ini "defaults.ini".toList = iniFile (some defaultsText))
    (prompt : List Txt) (localArgs : Option Txt) (source : List Txt) (format : String) (ext : Txt)
    (h : CmdLine source format.toList none ext (argv prompt localArgs)) (w : Disk) (hw : ∀ i, w.fault i = false)
    (hfile : ∀ s ∈ source, sh.isfile (sh.abspath s) = true)
    (hap : source.Pairwise (fun s t => Apart (workFolder (sh.abspath s) format.toList) (workFolder (sh.abspath t) format.toList)))
    (st : Txt → Stream)
    (hst : ∀ s ∈ source, (st (sh.abspath s)).Ok ∧ src (sh.abspath s) = some (st (sh.abspath s)).bytes ∧
      Sound format 18 (st (sh.abspath s)).pieces) :
    ∃ w', command fr sh src ini order1 order2 prompt localArgs w false =
        some ((w', false), .finished (source.map (fun s => verdictOn format (st (sh.abspath s)).pieces))) ∧
      (∀ s ∈ source, Products fr true true defaultSettings format (workFolder (sh.abspath s) format.toList) w'
          (kept format (st (sh.abspath s)).pieces) ∧
        (Clear w (workFolder (sh.abspath s) format.toList) → ∀ q, Under (workFolder (sh.abspath s) format.toList) q → w'.read q ≠ none →
          q = logPath (sh.abspath s) format ∨
            ProductPath defaultSettings format (workFolder (sh.abspath s) format.toList) (kept format (st (sh.abspath s)).pieces) q)) ∧
      ∀ q, (∀ s ∈ source, ¬ Under (workFolder (sh.abspath s) format.toList) q) → w'.read q = w.read q := by
  obtain ⟨m, hm, -⟩ := C75_format ((C74_accepted (argv prompt localArgs) ⟨source, format.toList, none, ext⟩).mpr h)
  rw [String.ofList_toList] at hm
  obtain ⟨mgr, b, e1, e2, e3, e4, e5, e6⟩ := defaults_box ho
  have hleap : b.margo.gps_utc_shift = 18 := congrArg MargoSettings.leap e6
  have hfiles : makeListOfSourceFiles sh source ext = source.map sh.abspath := by
    rw [C54_arguments]
    · rw [List.filter_eq_self]
      intro x hx
      obtain ⟨s, hs, rfl⟩ := List.mem_map.1 hx
      exact hfile s hs
    · rintro ⟨a, rfl, h1, -⟩
      rw [hfile a (by simp)] at h1
      cases h1
  obtain ⟨w', r1, r2, r3⟩ := C82_files fr hfr src hm b e3 w hw (source.map sh.abspath) (List.pairwise_map.2 hap) st (by
    intro f hf
    obtain ⟨s, hs, rfl⟩ := List.mem_map.1 hf
    rw [hleap]
    exact hst s hs)
  refine ⟨w', ?_, ?_, ?_⟩
  · rw [C75_accepted fr sh src ini order1 order2 h, hini]
    unfold Ctl.main
    rw [e1]
    dsimp only [Option.map_none]
    rw [e2, hfiles, String.ofList_toList, r1, List.map_map]
    rfl
  · intro s hs
    have := r2 _ (List.mem_map_of_mem hs)
    rw [e4, e5, e6] at this
    exact this
  · intro q hq
    apply r3
    intro f hf
    obtain ⟨s, hs, rfl⟩ := List.mem_map.1 hf
    exact hq s hs

/-- In format JSON-B every stream of well-formed contents meets the hypothesis. -/
theorem Run.sound_bare (leap : Int) (ps : List Piece) : Sound "JSON-B" leap ps := ⟨by simp, by simp⟩

/-- Observables, a QZSS ephemeris, noise, a message 1008 without serial number, observables of GLONASS. -/
def Spec.exMixed : Stream :=
  ⟨[⟨[1], .inl (.msm exMsm5)⟩, ⟨[], .inl (.eph (.qzs sampleQzs))⟩, ⟨[2, 3], .inl (.base sampleNoSerial)⟩, ⟨[], .inl (.msm exGlo5)⟩], []⟩

/-- The source is a stream for all formats. The ephemeris is refused in JSON-B, JSON and JARGO, the message without serial number in JSON
and JARGO; nothing is refused in MARGO, which does not ask for them. -/
example : exMixed.Ok ∧ (∀ format, Sound format 18 exMixed.pieces) ∧
    (Content.eph (.qzs sampleQzs)).Refused "JSON-B" ∧ ¬(Content.base sampleNoSerial).Refused "JSON-B" ∧
    (Content.eph (.qzs sampleQzs)).Refused "JSON" ∧ (Content.base sampleNoSerial).Refused "JARGO" ∧
    ¬(Content.eph (.qzs sampleQzs)).Refused "MARGO" ∧ ¬(Content.msm exMsm5).Refused "MARGO" ∧
    verdictOn "JSON-B" exMixed.pieces = .finishedWithErrors ∧ verdictOn "MARGO" exMixed.pieces = .finishedWithoutErrors := by
  obtain ⟨⟨hp, -⟩, hcv⟩ := exStream_ok
  have hwf := contents_wf hp
  have m5 : Content.msm exMsm5 ∈ contentsOf exStream.pieces := by
    show _ ∈ [Content.msm exMsm5, .base (.m1006 sampleRef 65535), .msm exGlo5]
    simp
  have g5 : Content.msm exGlo5 ∈ contentsOf exStream.pieces := by
    show _ ∈ [Content.msm exMsm5, .base (.m1006 sampleRef 65535), .msm exGlo5]
    simp
  have hq : ¬(Content.eph (.qzs sampleQzs)).Accepted := fun h => h sampleQzs rfl
  have hqw : (Content.eph (.qzs sampleQzs)).WellFormed := 
    ⟨by simp only [Content.layout, Content.vals, tableOf]; decide, by decide +kernel, rfl⟩
  have hbw : (Content.base sampleNoSerial).WellFormed :=
    ⟨by simp only [Content.layout, Content.vals]; decide +kernel, by decide +kernel, trivial⟩
  have r1 : ∀ {format}, format ≠ "MARGO" → (Content.eph (.qzs sampleQzs)).Refused format := fun h => ⟨fun e => absurd e h, .inl hq⟩
  have nb : ¬(Content.base sampleNoSerial).Refused "JSON-B" := by
    rintro ⟨-, h | h⟩
    · exact h trivial
    · exact h.1 rfl
  have hm : ∀ d, Content.msm d ∈ contentsOf exStream.pieces → ¬(Content.msm d).Refused "MARGO" := by
    rintro d hd ⟨-, h⟩
    have ha := ((hcv "MARGO").2.2 (.inl rfl) d ((msms_contents _ d).2 hd)).1
    rcases h with h | h
    · exact h ha.1
    · exact h.2 ha.2.1
  refine ⟨⟨?_, by decide⟩, ?_, r1 (by decide), nb, r1 (by decide), ?_, ?_, hm _ m5, ?_, ?_⟩
  · simp only [exMixed, List.mem_cons, List.not_mem_nil, or_false, forall_eq_or_imp, forall_eq]
    exact ⟨⟨by decide, hwf _ m5⟩, ⟨by decide, hqw⟩, ⟨by decide, hbw⟩, ⟨by decide, hwf _ g5⟩⟩
  · intro format
    have hd : ∀ d ∈ msmsOf exMixed.pieces, d = exMsm5 ∨ d = exGlo5 := by
      intro d hd
      have : d ∈ [exMsm5, exGlo5] := hd
      simpa using this
    refine ⟨fun _ d h => ?_, fun hf d h => ?_⟩
    · rcases hd d h with rfl | rfl <;> decide +kernel
    · rcases hd d h with rfl | rfl
      · exact ((hcv format).2.2 hf _ ((msms_contents _ _).2 m5)).2
      · exact ((hcv format).2.2 hf _ ((msms_contents _ _).2 g5)).2
  · exact ⟨by simp, .inr ⟨by decide, [], by decide, .inl rfl⟩⟩
  · rintro ⟨h, -⟩
    exact absurd (h rfl) (by simp [Content.isMsm])
  · rw [(verdictOn_iff _ _).2]
    refine ⟨_, ?_, r1 (by decide)⟩
    show _ ∈ [Content.msm exMsm5, .eph (.qzs sampleQzs), .base sampleNoSerial, .msm exGlo5]
    simp
  · rw [(verdictOn_iff _ _).1]
    intro c hc
    have hc : c ∈ [Content.msm exMsm5, .eph (.qzs sampleQzs), .base sampleNoSerial, .msm exGlo5] := hc
    simp only [List.mem_cons, List.not_mem_nil, or_false] at hc
    rcases hc with rfl | rfl | rfl | rfl
    · exact hm _ m5
    · rintro ⟨h, -⟩
      exact absurd (h rfl) (by simp [Content.isMsm])
    · rintro ⟨h, -⟩
      exact absurd (h rfl) (by simp [Content.isMsm])
    · exact hm _ g5

end Verif
