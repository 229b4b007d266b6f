import Verif.Props.Args
import Verif.Props.IniText
import Verif.Props.Batch
import Verif.Props.Files
import Verif.Props.Select
import Verif.Lemmas.Fresh

/-!
# C76: from the command line to the products
-/

namespace Verif
open Spec Decoder Conv Run

/-- A source file: pieces, then noise. -/
structure Spec.Stream where
  pieces : List Piece
  last : List UInt8

/-- The bytes of a source file. -/
def Spec.Stream.bytes (s : Stream) : List UInt8 := (s.pieces.map (fun p => p.gap ++ p.frame)).flatten ++ s.last

/-- The pieces are well-formed, and there is no sync byte in the noise. -/
def Spec.Stream.Ok (s : Stream) : Prop := (∀ p ∈ s.pieces, p.Ok) ∧ (0xD3 : UInt8) ∉ s.last

/-- A content with observables. -/
def Spec.Content.isMsm : Content → Bool
  | .msm _ => true
  | _ => false

/-- The contents are among those that the program converts to the format. -/
def Spec.Convertible (format : String) (leap : Int) (ps : List Piece) : Prop :=
  (format = "JSON-B" → ∀ c ∈ contentsOf ps, c.Accepted) ∧
  (format = "JSON" ∨ format = "JARGO" → ∀ c ∈ contentsOf ps, c.AcceptedScaled) ∧
  (format = "MARGO" ∨ format = "JARGO" → ∀ d ∈ msmsOf ps, (Content.msm d).AcceptedScaled ∧ ValidTime leap d.g d.scaledObj)

/-- The path of a MARGO file. -/
def Spec.margoPath (wd : Txt) (d : MsmData) (k : ObsKind) (slot : String) : Txt :=
  Disk.join (Disk.join wd (margoDir d.g).toList) (margoName d.g k slot d.scaledObj.atr.subset)

/-- For each kind of observables and each signal of a content with observables its file has the two lines of the header and one line for
each row with this file name, in order. -/
def Spec.HoldsRows (s : MargoSettings) (wd : Txt) (w : Disk) (ds : List MsmData) : Prop :=
  ∀ d ∈ ds, ∀ k ∈ kindsOf s, ∀ slot ∈ slotsOf d.scaledObj k, ∃ t l1 l2 ls,
    w.read (margoPath wd d k slot) = some t ∧ readLines t = l1 :: l2 :: ls ∧ headText s d.g k slot = l1 ++ ['\n'] ++ (l2 ++ ['\n']) ∧
    List.Forall₂ (fun r l => ShowsRow k r.2.1 r.2.2 l)
      ((msmRows s s.leap ds).filter (fun r => r.1 == margoName d.g k slot d.scaledObj.atr.subset)) ls

/-- The products of a source in the work folder `wd`: JSON-B has all contents as integers, JSON has all contents in physical units,
MARGO has the observables as rows, JARGO has the observables as rows and all other contents as JSON in physical units. -/
def Spec.Products (fr : Rat → Txt) (hdr aux : Bool) (s : MargoSettings) (format : String) (wd : Txt) (w : Disk) (ps : List Piece) : Prop :=
  (format = "JSON-B" → HoldsContents (Content.BareJson hdr aux) true wd w (contentsOf ps)) ∧
  (format = "JSON" → HoldsContents (Content.ScaledJson fr hdr aux) false wd w (contentsOf ps)) ∧
  (format = "MARGO" ∨ format = "JARGO" → HoldsRows s wd w (msmsOf ps)) ∧
  (format = "JARGO" → HoldsContents (Content.ScaledJson fr hdr aux) false wd w ((contentsOf ps).filter (fun c => !c.isMsm)))

/-- The paths of the products of a source. -/
def Spec.ProductPath (s : MargoSettings) (format : String) (wd : Txt) (ps : List Piece) (q : Txt) : Prop :=
  ((format = "JSON" ∨ format = "JSON-B") ∧ ∃ c ∈ contentsOf ps, q = Disk.join wd (jsonFile c.number).toList) ∨
  (format = "JARGO" ∧ ∃ c ∈ contentsOf ps, c.isMsm = false ∧ q = Disk.join wd (jsonFile c.number).toList) ∨
  ((format = "MARGO" ∨ format = "JARGO") ∧ ∃ d ∈ msmsOf ps, ∃ k ∈ kindsOf s, ∃ slot ∈ slotsOf d.scaledObj k, q = margoPath wd d k slot)

namespace Run

/-- Nothing but the files of the contents changes in a run to JSON. -/
theorem program_json_rest {m : Mode} (hm : m = .json ∨ m = .jsonB) (fr : Rat → Txt) {w0 : Disk} {wd : Txt} {box : Box} {c : Converter}
    (h : strategy m w0 wd box = .ok (some c)) (hch : Margo.ChannelsPos box.margo) (n : Nat) (hn : 0 < n) (w : Disk)
    (hw : ∀ i, w.fault i = false) (ps : List Piece) (hp : ∀ p ∈ ps, p.Ok) (ho : ∀ c ∈ contentsOf ps, outcome m c.frame ≠ none)
    (last : Bytes) (hl : (0xD3 : UInt8) ∉ last) {c' : Converter} {w' : Disk} {ok : Bool}
    (hr : decodeRtcmFile fr n (some ((ps.map (fun p => p.gap ++ p.frame)).flatten ++ last)) c w = some ((c', w'), ok)) :
    ∀ q, (∀ c ∈ contentsOf ps, q ≠ Disk.join wd (jsonFile c.number).toList) → w'.read q = w.read q := by
  intro q hq
  obtain ⟨c1, w1, a1, -, a3⟩ := run_files fr h hch n hn ((ps.map (fun p => p.gap ++ p.frame)).flatten ++ last) w hw
  rw [hr] at a1
  cases a1
  obtain ⟨e3, -⟩ := pieces_messages hp last hl
  have key : ∀ c, ∃ o, c ∈ contentsOf ps → outcome m c.frame = some o := by
    intro c
    by_cases hc : c ∈ contentsOf ps
    · obtain ⟨o, ho⟩ := Option.ne_none_iff_exists'.1 (ho c hc)
      exact ⟨o, fun _ => ho⟩
    · exact ⟨c.bareObj, fun h => absurd h hc⟩
  choose obj hobj using key
  obtain ⟨e1, -⟩ := pieces_run hp hobj
  rw [e3, e1] at a3
  refine a3.rest q ?_ ?_
  · intro k row hrow hne he
    obtain ⟨o, ho⟩ := List.exists_mem_of_ne_nil _ hne
    unfold Json.ofNumber at ho
    obtain ⟨o1, o2⟩ := List.mem_filter.1 ho
    unfold jsonPart at o1
    obtain ⟨x, hx, rfl⟩ := List.mem_map.1 (List.mem_filter.1 o1).1
    obtain ⟨g1, -⟩ := outcome_num (contents_wf hp x hx) (hobj x hx)
    rw [g1] at o2
    have : (x.number : Int) = k := by simpa using o2
    subst this
    rw [Json.path_of wd x.number row hrow] at he
    exact hq x hx he
  · intro g k slot u t _ _ hmem
    have : rowPart m ((contentsOf ps).map obj) = [] := by
      unfold rowPart
      rw [List.filterMap_eq_nil_iff]
      intro o _
      rcases hm with rfl | rfl <;> cases o <;> simp
    rw [this] at hmem
    cases hmem

theorem scaled_outcome {c : Content} (h : c.WellFormed) (ha : c.AcceptedScaled) : outcome .json c.frame ≠ none := by
  obtain ⟨o, ho, -⟩ := outcome_scaled h ha
  rw [ho]; simp

/-- A content is one of observables if its file is one of observables. -/
theorem content_class {c : Content} (h : c.WellFormed) (ha : c.AcceptedScaled) {row : Json.SpecRow}
    (hrow : Json.JSON_SPEC.get? (c.number : Int) = some row) : Cls.observablesMSM ∈ row.classes ↔ c.isMsm = true := by
  obtain ⟨o, ho, -⟩ := outcome_scaled h ha
  obtain ⟨n, row', t1, t2, t3, t4, t5, t6⟩ := outcome_typed ho
  obtain ⟨g1, -⟩ := outcome_num h ho
  rw [g1] at t4
  cases t4
  rw [hrow] at t5
  cases t5
  have hcls : o.cls = .observablesMSM ↔ c.isMsm = true := by
    have hf : o.cls = .observablesMSM ↔ (family c.number = some .msm13 ∨ family c.number = some .msm47) := by
      have t3 : declared false c.number = some o.cls := t3
      unfold declared at t3
      generalize family c.number = x at t3
      cases x with
      | none => cases t3
      | some f =>
        cases f with
        | msm13 => simp at t3; simp [← t3]
        | msm47 => simp at t3; simp [← t3]
        | _ =>
          refine iff_of_false ?_ (by simp)
          intro e
          rw [e] at t3
          dsimp only at t3
          repeat (split at t3; · cases t3)
          cases t3
    rw [hf]
    cases c with
    | msm d => exact iff_of_true (family_msm h.2.2) rfl
    | eph e =>
      have : family (Content.eph e).number = some .eph := family_eph e
      rw [this]
      simp [Content.isMsm]
    | base b =>
      rw [(number_base (frame_carries h)).2]
      simp [Content.isMsm]
  rw [← hcls]
  constructor
  · intro hobs
    have := okCls_of_declared t2 t3
    unfold okCls at this
    simp at this
    rcases obs_rows _ (PyDict.mem_of_get? hrow) hobs _ t6 with e | e | e
    · exact e
    · exact absurd e this.1
    · exact absurd e this.2
  · intro e
    rw [← e]; exact t6

theorem msms_contents (ps : List Piece) (d : MsmData) : d ∈ msmsOf ps ↔ Content.msm d ∈ contentsOf ps := by
  unfold msmsOf
  rw [List.mem_filterMap]
  constructor
  · rintro ⟨c, hc, h⟩
    cases c with
    | msm x => cases h; exact hc
    | _ => cases h
  · intro h
    exact ⟨_, h, rfl⟩

theorem filter_kind {ps : List Piece} (hwf : ∀ c ∈ contentsOf ps, c.WellFormed) (ha : ∀ c ∈ contentsOf ps, c.AcceptedScaled) {k : Nat}
    {x : Content} (hx : x ∈ contentsOf ps) (hk : x.number = k) (hm : x.isMsm = false) :
    ((contentsOf ps).filter (fun c => !c.isMsm)).filter (·.number = k) = (contentsOf ps).filter (·.number = k) := by
  rw [List.filter_filter]
  apply List.filter_congr
  intro c hc
  by_cases h : c.number = k
  · obtain ⟨o, ho, -⟩ := outcome_scaled (hwf x hx) (ha x hx)
    obtain ⟨-, ⟨row, hrow⟩, -⟩ := outcome_num (hwf x hx) ho
    have h1 := content_class (hwf x hx) (ha x hx) hrow
    rw [hk, ← h] at hrow
    have h2 := content_class (hwf c hc) (ha c hc) hrow
    rw [h1] at h2
    cases hcm : c.isMsm with
    | false => simp [h]
    | true => exact absurd (h2.2 hcm) (by simp [hm])
  · simp [h]

/-- The files of a conversion, and nothing else in the work folder. -/
theorem file_products (fr : Rat → Txt) (hfr : ∀ x, IsNum (fr x)) (src : Txt → Option Bytes) {format : String} {m : Mode}
    (hm : modeOf format = some m) (box : Box) (hch : Margo.ChannelsPos box.margo) (f : Txt) (w : Disk) (hw : ∀ i, w.fault i = false)
    (st : Stream) (hok : st.Ok) (hsrc : src f = some st.bytes) (hcv : Convertible format box.margo.gps_utc_shift st.pieces) :
    ∃ w', convertFile fr src format (some box) w false f = some ((w', false), .ok .finishedWithoutErrors) ∧
      Products fr box.json.enable_hdr_data box.json.enable_aux_data (Margo.settings box.margo) format (workFolder f format.toList) w'
        st.pieces ∧
      (Clear w (workFolder f format.toList) → ∀ q, Under (workFolder f format.toList) q → w'.read q ≠ none →
        q = logPath f format ∨ ProductPath (Margo.settings box.margo) format (workFolder f format.toList) st.pieces q) := by
  obtain ⟨hp, hl⟩ := hok
  obtain ⟨w2, c, hc, f2, hclear, hconv⟩ := convert_start hm box f w hw
  have hwf := contents_wf hp
  have hn : 0 < FILE_CHUNK_LEN := by decide
  have hverd : ∀ {c' : Converter} {w' : Disk}, decodeRtcmFile fr FILE_CHUNK_LEN (some st.bytes) c w2 = some ((c', w'), true) →
      c'.statistics.decoding_errors = 0 → c'.statistics.printing_errors = 0 →
      convertFile fr src format (some box) w false f = some ((w', false), .ok .finishedWithoutErrors) := by
    intro c' w' h1 h2 h3
    rw [← hsrc] at h1
    rw [hconv fr src c' w' true h1, if_pos rfl]
    unfold verdictOf
    rw [if_neg (by rw [h2, h3]; simp)]
  have hrest : ∀ {w' : Disk} {P : Txt → Prop}, (∀ q, ¬ P q → w'.read q = w2.read q) →
      (Clear w (workFolder f format.toList) → ∀ q, Under (workFolder f format.toList) q → w'.read q ≠ none → q = logPath f format ∨ P q) := by
    intro w' P h1 h2 q h3 h4
    by_contra hno
    rw [not_or] at hno
    exact h4 ((h1 q hno.2).trans (hclear h2 q h3 hno.1))
  have hmode : (format = "MARGO" ∧ m = .margo) ∨ (format = "JSON" ∧ m = .json) ∨ (format = "JSON-B" ∧ m = .jsonB) ∨
      (format = "JARGO" ∧ m = .jargo) := by
    have hx := PyDict.mem_of_get? hm
    simpa [Prod.ext_iff] using hx
  rcases hmode with ⟨rfl, rfl⟩ | ⟨rfl, rfl⟩ | ⟨rfl, rfl⟩ | ⟨rfl, rfl⟩
  · have hv := hcv.2.2 (.inl rfl)
    obtain ⟨c', w', a1, a2, a3, a4⟩ := C64_margo fr w2 _ box c hc hch _ hn w2 f2 st.pieces hp (fun d hd => (hv d hd).1)
      (fun d hd => (hv d hd).2) st.last hl
    refine ⟨w', hverd a1 (by rw [a2]) (by rw [a2]), ⟨by simp, by simp, fun _ => a3, by simp⟩, ?_⟩
    apply hrest
    intro q hq
    apply a4
    intro d hd k hk slot hs he
    exact hq (.inr (.inr ⟨.inl rfl, d, hd, k, hk, slot, hs, he⟩))
  · have hv := hcv.2.1 (.inl rfl)
    obtain ⟨c', w', a1, a2, a3⟩ := C60_noise_scaled fr hfr w2 _ box c hc _ hn w2 f2 st.pieces hp hv st.last hl
    refine ⟨w', hverd a1 (by rw [a2]) (by rw [a2]), ⟨by simp, fun _ => a3, by simp, by simp⟩, ?_⟩
    apply hrest
    intro q hq
    refine program_json_rest (.inl rfl) fr hc hch _ hn w2 f2 st.pieces hp (fun c hc => scaled_outcome (hwf c hc) (hv c hc)) st.last hl a1 q ?_
    intro x hx he
    exact hq (.inl ⟨.inl rfl, x, hx, he⟩)
  · have hv := hcv.1 rfl
    obtain ⟨c', w', a1, a2, a3⟩ := C60_noise fr hfr w2 _ box c hc _ hn w2 f2 st.pieces hp hv st.last hl
    refine ⟨w', hverd a1 (by rw [a2]) (by rw [a2]), ⟨fun _ => a3, by simp, by simp, by simp⟩, ?_⟩
    apply hrest
    intro q hq
    refine program_json_rest (.inr rfl) fr hc hch _ hn w2 f2 st.pieces hp (fun c hc => by rw [outcome_bare (hwf c hc) (hv c hc)]; simp)
      st.last hl a1 q ?_
    intro x hx he
    exact hq (.inl ⟨.inr rfl, x, hx, he⟩)
  · have hv := hcv.2.1 (.inr rfl)
    have hr := hcv.2.2 (.inr rfl)
    obtain ⟨h1, h2⟩ := strategy_cases hc
    have hdir : w2.isdir (workFolder f "JARGO".toList) = true := by
      rw [strategyPrinter_eq] at h2
      split at h2
      · assumption
      · cases h2
    obtain ⟨cM, -, hM, -⟩ := (factory_eq (m := .margo) (by decide : modeOf "MARGO" = some .margo) w2 (workFolder f "JARGO".toList) box).1 hdir
    obtain ⟨cJ, -, hJ, -⟩ := (factory_eq (m := .json) (by decide : modeOf "JSON" = some .json) w2 (workFolder f "JARGO".toList) box).1 hdir
    obtain ⟨cX', cM', cJ', wX, wM, wJ, x1, x2, x3, x4, x5, x6, x7⟩ := C65_jargo fr w2 _ box c cM cJ hc hM hJ hch _ hn st.bytes w2 f2
    obtain ⟨c', w', a1, a2, a3, a4⟩ := C64_margo fr w2 _ box cM hM hch _ hn w2 f2 st.pieces hp (fun d hd => (hr d hd).1)
      (fun d hd => (hr d hd).2) st.last hl
    obtain ⟨c'', w'', b1, b2, b3⟩ := C60_noise_scaled fr hfr w2 _ box cJ hJ _ hn w2 f2 st.pieces hp hv st.last hl
    have b4 := program_json_rest (.inl rfl) fr hJ hch _ hn w2 f2 st.pieces hp (fun c hc => scaled_outcome (hwf c hc) (hv c hc)) st.last hl b1
    have e1 : some ((c', w'), true) = some ((cM', wM), true) := a1.symm.trans x2
    cases e1
    have e2 : some ((c'', w''), true) = some ((cJ', wJ), true) := b1.symm.trans x3
    cases e2
    have hrow : ∀ x ∈ contentsOf st.pieces, ∃ row, Json.JSON_SPEC.get? (x.number : Int) = some row ∧
        Json.pathOf (workFolder f "JARGO".toList) row = Disk.join (workFolder f "JARGO".toList) (jsonFile x.number).toList ∧
        (Cls.observablesMSM ∈ row.classes ↔ x.isMsm = true) := by
      intro x hx
      obtain ⟨o, ho, -⟩ := outcome_scaled (hwf x hx) (hv x hx)
      obtain ⟨-, ⟨row, hrow⟩, -⟩ := outcome_num (hwf x hx) ho
      exact ⟨row, hrow, Json.path_of _ _ _ hrow, content_class (hwf x hx) (hv x hx) hrow⟩
    refine ⟨wX, hverd x1 (by rw [x4, b2]) (by rw [x4, b2]), ⟨by simp, by simp, fun _ => ?_, fun _ => ?_⟩, ?_⟩
    · intro d hd k hk slot hs
      obtain ⟨t, l1, l2, ls, r1, r2⟩ := a3 d hd k hk slot hs
      refine ⟨t, l1, l2, ls, ?_, r2⟩
      rw [← r1]
      exact x7 _ (fun n row hn he => path_apart _ hn _ _ _ _ _ he.symm)
    · intro k hk
      obtain ⟨x, hx, hxk⟩ := hk
      obtain ⟨hx1, hx2⟩ := List.mem_filter.1 hx
      have hx2 : x.isMsm = false := by simpa using hx2
      obtain ⟨t, vs, r1, r2, r3⟩ := b3 k ⟨x, hx1, hxk⟩
      refine ⟨t, vs, ?_, r2, ?_⟩
      · obtain ⟨row, q1, q2, q3⟩ := hrow x hx1
        rw [← r1, ← hxk, ← q2]
        exact x6 _ _ q1 (by rw [q3, hx2]; simp)
      · rw [filter_kind hwf hv hx1 hxk hx2]
        exact r3
    · apply hrest
      intro q hq
      by_cases hj : ∃ k row, Json.JSON_SPEC.get? k = some row ∧ q = Json.pathOf (workFolder f "JARGO".toList) row
      · obtain ⟨k, row, hk, rfl⟩ := hj
        by_cases hobs : Cls.observablesMSM ∈ row.classes
        · exact x5 k row hk hobs
        · rw [x6 k row hk hobs]
          apply b4
          intro x hx he
          obtain ⟨row', q1, q2, q3⟩ := hrow x hx
          rw [← q2] at he
          have hkk := Json.path_inj _ hk q1 he
          subst hkk
          rw [hk] at q1
          cases q1
          refine hq (.inr (.inl ⟨rfl, x, hx, ?_, q2⟩))
          rw [q3] at hobs
          simpa using hobs
      · rw [x7 q (fun k row hk he => hj ⟨k, row, hk, he⟩)]
        apply a4
        intro d hd k hk slot hs he
        exact hq (.inr (.inr ⟨.inr rfl, d, hd, k, hk, slot, hs, he⟩))

theorem apart_symm {d e : Txt} (h : Apart d e) : Apart e d := ⟨h.2, h.1⟩

/-- If each file `f` alone is converted with verdict `v f`, so are all of them, with the same products. -/
theorem loop_each {format : String} {m : Mode} (hm : modeOf format = some m) (fr : Rat → Txt) (src : Txt → Option Bytes)
    (controls : Option Box) (w : Disk) (hw : ∀ i, w.fault i = false) (files : List Txt)
    (hap : files.Pairwise (fun f g => Apart (workFolder f format.toList) (workFolder g format.toList))) (v : Txt → Verdict)
    (hcv : ∀ f ∈ files, ∃ w', convertFile fr src format controls w false f = some ((w', false), .ok (v f))) :
    ∃ w', mainLoop fr src format controls w false files = some ((w', false), .ok (files.map v)) ∧
      (∀ f ∈ files, ∀ w1, convertFile fr src format controls w false f = some ((w1, false), .ok (v f)) →
        ∀ q, Under (workFolder f format.toList) q → w'.read q = w1.read q) ∧
      ∀ q, (∀ f ∈ files, ¬ Under (workFolder f format.toList) q) → w'.read q = w.read q := by
  obtain ⟨w2, vs, e2, l2, -⟩ := mainLoop_nofault hm fr src controls files w hw
  have key : ∀ i (hi : i < files.length), vs[i]? = some (v files[i]) ∧
      ∀ w1, convertFile fr src format controls w false files[i] = some ((w1, false), .ok (v files[i])) →
        ∀ q, Under (workFolder files[i] format.toList) q → w2.read q = w1.read q := by
    intro i hi
    have hsplit : files = files.take i ++ files[i] :: files.drop (i + 1) := by
      rw [List.getElem_cons_drop, List.take_append_drop]
    have hap' : ∀ g ∈ files.take i ++ files.drop (i + 1), Apart (workFolder files[i] format.toList) (workFolder g format.toList) := by
      intro g hg
      rw [hsplit, List.pairwise_append, List.pairwise_cons] at hap
      rcases List.mem_append.1 hg with h | h
      · exact apart_symm (hap.2.2 g h _ List.mem_cons_self)
      · exact hap.2.1.1 g h
    obtain ⟨w1, v1, w2', vs1, us, e1, e3, h1, h2, h3⟩ := C61_batch fr src hm controls w hw (files.take i) (files.drop (i + 1)) files[i] hap'
    rw [← hsplit, e2] at e3
    cases e3
    obtain ⟨wa, ea⟩ := hcv files[i] (List.getElem_mem hi)
    rw [mainLoop_cons, ea] at e1
    dsimp only at e1
    have hnil : mainLoop fr src format controls wa false [] = some ((wa, false), .ok []) := rfl
    rw [hnil] at e1
    cases e1
    constructor
    · rw [List.getElem?_append_right (by rw [h1, List.length_take]; omega), h1, List.length_take, min_eq_left (by omega), Nat.sub_self]
      rfl
    · intro wb eb q hq
      rw [ea] at eb
      cases eb
      exact (h3 q hq).1
  refine ⟨w2, ?_, ?_, ?_⟩
  · rw [e2]
    have : vs = files.map v := by
      apply List.ext_getElem?
      intro i
      rw [List.getElem?_map]
      by_cases hi : i < files.length
      · rw [(key i hi).1, List.getElem?_eq_getElem hi]; rfl
      · rw [List.getElem?_eq_none (by omega), List.getElem?_eq_none (by omega)]; rfl
    rw [this]
  · intro f hf
    obtain ⟨i, hi, rfl⟩ := List.mem_iff_getElem.1 hf
    exact (key i hi).2
  · intro q hq
    obtain ⟨w', ready', r, e, -, h⟩ := mainLoop_frame hm fr src controls files w false
    rw [e2] at e
    cases e
    exact (h q hq).1

theorem number_row {c : Content} (h : c.WellFormed) : ∃ row, Json.JSON_SPEC.get? (c.number : Int) = some row := by
  rw [← Option.isSome_iff_exists]
  cases c with
  | eph e => cases e <;> simp only [Content.number, ephNum] <;> decide +kernel
  | base b => cases b <;> simp only [Content.number] <;> decide +kernel
  | msm d =>
    have key : ∀ g < 7, ∀ k < 8, 1 ≤ k → (Json.JSON_SPEC.get? ((1070 + 10 * g + k : Nat) : Int)).isSome = true := by decide +kernel
    exact key d.g (by have := h.2.2.g; omega) d.k (by have := h.2.2.k; omega) (by have := h.2.2.k; omega)

theorem margoName_head (g : Nat) (hg : g < 7) (k : ObsKind) (slot u : String) : (margoName g k slot u).head? ≠ some '/' := by
  have key : ∀ g < 7, ∃ c, (gnssLetter g).toList.head? = some c ∧ c ≠ '/' := by
    intro g hg
    interval_cases g <;> exact ⟨_, rfl, by decide⟩
  obtain ⟨c, h1, h2⟩ := key g hg
  unfold margoName
  rw [List.append_assoc, List.append_assoc]
  cases hx : (gnssLetter g).toList with
  | nil => rw [hx] at h1; cases h1
  | cons a t =>
    rw [hx] at h1
    cases h1
    intro h
    exact h2 (Option.some.inj h)

/-- The products are read in the work folder only. -/
theorem products_transfer {fr : Rat → Txt} {hdr aux : Bool} {s : MargoSettings} {format : String} {wd : Txt} {w w' : Disk}
    {ps : List Piece} (hwd : Folder wd) (hp : ∀ p ∈ ps, p.Ok)
    (h : Products fr hdr aux s format wd w ps) (hr : ∀ q, Under wd q → w'.read q = w.read q) :
    Products fr hdr aux s format wd w' ps := by
  have hwf := contents_wf hp
  have hjson : ∀ {P : Content → JV → Prop} {bare : Bool} {cs : List Content}, (∀ c ∈ cs, c ∈ contentsOf ps) →
      HoldsContents P bare wd w cs → HoldsContents P bare wd w' cs := by
    intro P bare cs hsub h k hk
    obtain ⟨t, vs, r1, r2⟩ := h k hk
    refine ⟨t, vs, ?_, r2⟩
    rw [← r1]
    apply hr
    obtain ⟨c, hc, rfl⟩ := hk
    obtain ⟨row, hrow⟩ := number_row (hwf c (hsub c hc))
    rw [← Json.path_of wd _ row hrow]
    exact json_under hwd hrow
  refine ⟨fun x => hjson (fun _ h => h) (h.1 x), fun x => hjson (fun _ h => h) (h.2.1 x), fun x => ?_,
    fun x => hjson (fun _ h => List.mem_of_mem_filter h) (h.2.2.2 x)⟩
  intro d hd k hk slot hs
  obtain ⟨t, l1, l2, ls, r1, r2⟩ := h.2.2.1 x d hd k hk slot hs
  refine ⟨t, l1, l2, ls, ?_, r2⟩
  rw [← r1]
  apply hr
  have hg : d.g < 7 := by
    have := (hwf _ ((msms_contents ps d).1 hd)).2.2.g
    omega
  exact Disk.under_join_join hwd (Margo.dir_names d.g hg).1 (margoName_head d.g hg k slot _)

/-- The settings that defaults.ini gives. -/
theorem defaults_box {order : List Txt → List Txt} (ho : ∀ l x, x ∈ order l ↔ x ∈ l) :
    ∃ (mgr : Ctl.Manager) (b : Box), ({} : Ctl.Manager).initFromFile order (Ctl.iniFile (some Ctl.defaultsText)) = (mgr, .ok ()) ∧
      mgr.boxed = some b ∧ Margo.ChannelsPos b.margo ∧ b.json.enable_hdr_data = true ∧ b.json.enable_aux_data = true ∧
      Margo.settings b.margo = ⟨false, false, 18, fun s => (List.lookup s Ctl.defaultLiterals).getD 0⟩ := by
  obtain ⟨h1, c, h2, h3, h4, h5, h6⟩ := C71_defaults ho
  generalize hx : ({} : Ctl.Manager).initFromFile order (Ctl.iniFile (some Ctl.defaultsText)) = x at h1 h2
  obtain ⟨mgr, r⟩ := x
  refine ⟨mgr, _, by rw [show r = .ok () from h1], h2, ?_, rfl, rfl, ?_⟩
  · have key : ∀ s < 25, 1 ≤ s → ((List.lookup s Ctl.defaultLiterals).any
        (fun ch => decide ((0 : Rat) < 1602 + 9 / 16 * (ch : Int) ∧ (0 : Rat) < 1246 + 7 / 16 * (ch : Int)))) = true := by decide +kernel
    intro s h1 h24
    have := key s (by omega) h1
    rw [Option.any_eq_true] at this
    obtain ⟨ch, h7, h8⟩ := this
    exact ⟨ch, (h6 s).trans h7, by simpa using h8⟩
  · unfold Margo.settings
    dsimp only
    rw [h3, h4, h5]
    congr 1
    funext s
    exact congrArg (fun o => Option.getD o 0) (h6 s)

end Run

/-- What defaults.ini asks for: no half-cycle flags, no lock times, 18 s between GPS time and UTC, the channels of its table. -/
def Spec.defaultSettings : MargoSettings := ⟨false, false, 18, fun s => (List.lookup s Ctl.defaultLiterals).getD 0⟩

/-- **C76, files.** The loop over source files with any controls that have positive carrier frequencies: each source that is a stream of
convertible contents is converted without errors, its work folder has the products of its contents and nothing else but the log, and
nothing outside of the work folders is changed. -/
theorem C76_files (fr : Rat → Txt) (hfr : ∀ x, IsNum (fr x)) (src : Txt → Option Bytes) {format : String} {m : Mode}
    (hm : modeOf format = some m) (box : Box) (hch : Margo.ChannelsPos box.margo) (w : Disk) (hw : ∀ i, w.fault i = false)
    (files : List Txt) (hap : files.Pairwise (fun f g => Apart (workFolder f format.toList) (workFolder g format.toList)))
    (st : Txt → Stream)
    (hst : ∀ f ∈ files, (st f).Ok ∧ src f = some (st f).bytes ∧ Convertible format box.margo.gps_utc_shift (st f).pieces) :
    ∃ w', mainLoop fr src format (some box) w false files = some ((w', false), .ok (files.map (fun _ => .finishedWithoutErrors))) ∧
      (∀ f ∈ files, Products fr box.json.enable_hdr_data box.json.enable_aux_data (Margo.settings box.margo) format
          (workFolder f format.toList) w' (st f).pieces ∧
        (Clear w (workFolder f format.toList) → ∀ q, Under (workFolder f format.toList) q → w'.read q ≠ none →
          q = logPath f format ∨ ProductPath (Margo.settings box.margo) format (workFolder f format.toList) (st f).pieces q)) ∧
      ∀ q, (∀ f ∈ files, ¬ Under (workFolder f format.toList) q) → w'.read q = w.read q := by
  have hone : ∀ f ∈ files, _ := fun f hf => file_products fr hfr src hm box hch f w hw (st f) (hst f hf).1 (hst f hf).2.1 (hst f hf).2.2
  obtain ⟨w', e, h1, h2⟩ := loop_each hm fr src (some box) w hw files hap (fun _ => .finishedWithoutErrors)
    (fun f hf => (hone f hf).imp (fun _ h => h.1))
  refine ⟨w', e, ?_, h2⟩
  intro f hf
  obtain ⟨w1, a1, a2, a3⟩ := hone f hf
  have hr := h1 f hf w1 a1
  refine ⟨products_transfer (workFolder_ok hm f) (hst f hf).1.1 a2 hr, ?_⟩
  intro hc q hq hne
  rw [hr q hq] at hne
  exact a3 hc q hq hne

open Spec.Cmd Args Ctl in
/-- **C76** The whole program, with the configuration of the repository: a command line that names a format and source files, each of
which is a stream of convertible contents with noise and unsupported messages in between, on a file system without failures. The program
ends with every file converted without errors. The work folder of each source has the products of its contents, and, if it was new or
replaced an old one, nothing else but the log. Nothing outside of the work folders is changed. -/
theorem C76_program (fr : Rat → Txt) (hfr : ∀ x, IsNum (fr x)) (sh : Shell) (src : Txt → Option Bytes) (ini : Txt → IniFile)
    (order1 order2 : List Txt → List Txt) (ho : ∀ l x, x ∈ order1 l ↔ x ∈ l) (hini : ini "defaults.ini".toList = iniFile (some defaultsText))
    (prompt : List Txt) (localArgs : Option Txt) (source : List Txt) (format : String) (ext : Txt)
    (h : CmdLine source format.toList none ext (argv prompt localArgs)) (w : Disk) (hw : ∀ i, w.fault i = false)
    (hfile : ∀ s ∈ source, sh.isfile (sh.abspath s) = true)
    (hap : source.Pairwise (fun s t => Apart (workFolder (sh.abspath s) format.toList) (workFolder (sh.abspath t) format.toList)))
    (st : Txt → Stream)
    (hst : ∀ s ∈ source, (st (sh.abspath s)).Ok ∧ src (sh.abspath s) = some (st (sh.abspath s)).bytes ∧
      Convertible format 18 (st (sh.abspath s)).pieces) :
    ∃ w', command fr sh src ini order1 order2 prompt localArgs w false =
        some ((w', false), .finished (source.map (fun _ => .finishedWithoutErrors))) ∧
      (∀ s ∈ source, Products fr true true defaultSettings format (workFolder (sh.abspath s) format.toList) w' (st (sh.abspath s)).pieces ∧
        (Clear w (workFolder (sh.abspath s) format.toList) → ∀ q, Under (workFolder (sh.abspath s) format.toList) q → w'.read q ≠ none →
          q = logPath (sh.abspath s) format ∨
            ProductPath defaultSettings format (workFolder (sh.abspath s) format.toList) (st (sh.abspath s)).pieces q)) ∧
      ∀ q, (∀ s ∈ source, ¬ Under (workFolder (sh.abspath s) format.toList) q) → w'.read q = w.read q := by
  have hm : ∃ m, modeOf format = some m := by
    obtain ⟨m, hm, -⟩ := C75_format ((C74_accepted (argv prompt localArgs) ⟨source, format.toList, none, ext⟩).mpr h)
    rw [String.ofList_toList] at hm
    exact ⟨m, hm⟩
  obtain ⟨m, hm⟩ := hm
  obtain ⟨mgr, b, e1, e2, e3, e4, e5, e6⟩ := defaults_box ho
  have hleap : b.margo.gps_utc_shift = 18 := congrArg MargoSettings.leap e6
  have hfiles : makeListOfSourceFiles sh source ext = source.map sh.abspath := by
    rw [C54_arguments]
    · rw [List.filter_eq_self]
      intro x hx
      obtain ⟨s, hs, rfl⟩ := List.mem_map.1 hx
      exact hfile s hs
    · rintro ⟨a, rfl, h1, -⟩
      rw [hfile a (by simp)] at h1
      cases h1
  obtain ⟨w', r1, r2, r3⟩ := C76_files fr hfr src hm b e3 w hw (source.map sh.abspath) (List.pairwise_map.2 hap) st (by
    intro f hf
    obtain ⟨s, hs, rfl⟩ := List.mem_map.1 hf
    rw [hleap]
    exact hst s hs)
  refine ⟨w', ?_, ?_, ?_⟩
  · rw [C75_accepted fr sh src ini order1 order2 h, hini]
    unfold Ctl.main
    rw [e1]
    dsimp only [Option.map_none]
    rw [e2, hfiles, String.ofList_toList, r1, List.map_map]
    rfl
  · intro s hs
    have := r2 _ (List.mem_map_of_mem hs)
    rw [e4, e5, e6] at this
    exact this
  · intro q hq
    apply r3
    intro f hf
    obtain ⟨s, hs, rfl⟩ := List.mem_map.1 hf
    exact hq s hs

theorem Run.selected_mem {l : List Txt} {idx : List Int} {f : Txt} (h : f ∈ selected l idx) : f ∈ l := by
  unfold selected at h
  obtain ⟨i, -, h⟩ := List.mem_flatMap.1 h
  rw [selected_eq] at h
  split at h
  · rw [Option.mem_toList] at h
    exact List.mem_of_getElem? h
  · cases h

theorem Run.selected_nodup {l : List Txt} {idx : List Int} (hl : l.Nodup) (hi : idx.Nodup) : (selected l idx).Nodup := by
  unfold selected
  rw [List.nodup_flatMap]
  constructor
  · intro i _
    rw [selected_eq]
    split
    · cases l[(i - 1).toNat]? <;> simp
    · exact List.nodup_nil
  · refine List.Pairwise.imp_of_mem ?_ hi
    intro i j _ _ hne
    show List.Disjoint _ _
    dsimp only
    rw [selected_eq, selected_eq]
    split
    · split
      · rename_i h1 h2
        intro x hx hy
        rw [Option.mem_toList] at hx hy
        obtain ⟨a1, a2⟩ := List.getElem?_eq_some_iff.1 hx
        obtain ⟨b1, b2⟩ := List.getElem?_eq_some_iff.1 hy
        have := (List.Nodup.getElem_inj_iff hl).1 (a2.trans b2.symm)
        omega
      · intro x _ hy
        cases hy
    · intro x hx
      cases hx

open Spec.Cmd Args Ctl in
/-- **C76, directory.** The source is a directory, and the user enters different numbers of files in it; other numbers select nothing. The
selected files are converted as above. -/
theorem C76_directory (fr : Rat → Txt) (hfr : ∀ x, IsNum (fr x)) (sh : Shell) (src : Txt → Option Bytes) (ini : Txt → IniFile)
    (order1 order2 : List Txt → List Txt) (ho : ∀ l x, x ∈ order1 l ↔ x ∈ l) (hini : ini "defaults.ini".toList = iniFile (some defaultsText))
    (prompt : List Txt) (localArgs : Option Txt) (a : Txt) (format : String) (ext : Txt)
    (h : CmdLine [a] format.toList none ext (argv prompt localArgs)) (w : Disk) (hw : ∀ i, w.fault i = false)
    (h1 : sh.isfile (sh.abspath a) = false) (h2 : sh.isdir (sh.abspath a) = true) (idx : List Int)
    (hidx : List.Forall₂ IntText (splitAt ' ' sh.input) idx) (hdiff : idx.Nodup) (dir : Txt) (hdir : dir = [] ∨ dir.getLast? = some '/')
    (he : '/' ∉ ext ∧ '.' ∉ ext) (names : List Txt) (hnames : ∀ n ∈ names, '/' ∉ n ∧ ∃ c ∈ n, c ≠ '.') (hnd : names.Nodup)
    (hglob : sh.glob (sh.abspath a) ext = names.map (fun n => dir ++ n ++ '.' :: ext)) (st : Txt → Stream)
    (hst : ∀ f ∈ selected (sh.glob (sh.abspath a) ext) idx, (st f).Ok ∧ src f = some (st f).bytes ∧ Convertible format 18 (st f).pieces) :
    ∃ w', command fr sh src ini order1 order2 prompt localArgs w false =
        some ((w', false), .finished ((selected (sh.glob (sh.abspath a) ext) idx).map (fun _ => .finishedWithoutErrors))) ∧
      (∀ f ∈ selected (sh.glob (sh.abspath a) ext) idx, Products fr true true defaultSettings format (workFolder f format.toList) w' (st f).pieces ∧
        (Clear w (workFolder f format.toList) → ∀ q, Under (workFolder f format.toList) q → w'.read q ≠ none →
          q = logPath f format ∨ ProductPath defaultSettings format (workFolder f format.toList) (st f).pieces q)) ∧
      ∀ q, (∀ f ∈ selected (sh.glob (sh.abspath a) ext) idx, ¬ Under (workFolder f format.toList) q) → w'.read q = w.read q := by
  obtain ⟨m, hm, -⟩ := C75_format ((C74_accepted (argv prompt localArgs) ⟨[a], format.toList, none, ext⟩).mpr h)
  rw [String.ofList_toList] at hm
  obtain ⟨mgr, b, e1, e2, e3, e4, e5, e6⟩ := defaults_box ho
  have hleap : b.margo.gps_utc_shift = 18 := congrArg MargoSettings.leap e6
  have hfiles := C54_directory sh a ext idx h1 h2 hidx
  have hlist : (sh.glob (sh.abspath a) ext).Nodup := by
    rw [hglob]
    refine hnd.map ?_
    intro x y hxy
    exact List.append_cancel_left (List.append_cancel_right hxy)
  obtain ⟨w', r1, r2, r3⟩ := C76_files fr hfr src hm b e3 w hw (selected (sh.glob (sh.abspath a) ext) idx) (by
    refine List.Pairwise.imp_of_mem ?_ (selected_nodup hlist hdiff)
    intro f g hf hg hne
    have hf := selected_mem hf
    have hg := selected_mem hg
    rw [hglob] at hf hg
    obtain ⟨x, hx, rfl⟩ := List.mem_map.1 hf
    obtain ⟨y, hy, rfl⟩ := List.mem_map.1 hg
    exact apart_inDir hdir (hnames x hx) (hnames y hy) he (format_no_slash hm) (by rintro rfl; exact hne rfl)) st (by
    rw [hleap]
    exact hst)
  refine ⟨w', ?_, ?_, r3⟩
  · rw [C75_accepted fr sh src ini order1 order2 h, hini]
    unfold Ctl.main
    rw [e1]
    dsimp only [Option.map_none]
    rw [e2, hfiles, String.ofList_toList, r1]
    rfl
  · intro f hf
    have := r2 f hf
    rw [e4, e5, e6] at this
    exact this

open Spec.Cmd Args Ctl in
/-- **C76, second configuration file.** With a further configuration file on the command line the program either ends with an exception
and has written nothing, or it works with controls `b` that the two files together describe; then, if these controls have no channel
with a negative carrier frequency, the sources are converted as in C76 with these controls. -/
theorem C76_configured (fr : Rat → Txt) (hfr : ∀ x, IsNum (fr x)) (sh : Shell) (src : Txt → Option Bytes) (ini : Txt → IniFile)
    (order1 order2 : List Txt → List Txt) (ho1 : ∀ l x, x ∈ order1 l ↔ x ∈ l) (ho2 : ∀ l x, x ∈ order2 l ↔ x ∈ l)
    (hini : ini "defaults.ini".toList = iniFile (some defaultsText)) (path : Txt) (extra : Option Txt) (hextra : ini path = iniFile extra)
    (prompt : List Txt) (localArgs : Option Txt) (source : List Txt) (format : String) (ext : Txt)
    (h : CmdLine source format.toList (some path) ext (argv prompt localArgs)) (w : Disk) (hw : ∀ i, w.fault i = false)
    (hfile : ∀ s ∈ source, sh.isfile (sh.abspath s) = true)
    (hap : source.Pairwise (fun s t => Apart (workFolder (sh.abspath s) format.toList) (workFolder (sh.abspath t) format.toList)))
    (st : Txt → Stream) (hst : ∀ s ∈ source, (st (sh.abspath s)).Ok ∧ src (sh.abspath s) = some (st (sh.abspath s)).bytes) :
    (∃ e, command fr sh src ini order1 order2 prompt localArgs w false = some ((w, false), .raised e)) ∨
    ∃ b : Box, MargoValid (configuration defaultsText extra) b.margo ∧ JsonValid (configuration defaultsText extra) b.json ∧
      ((∀ s v, b.margo.glo_lit_tab.get? s = some v → -2848 < v) →
        (∀ s ∈ source, Convertible format b.margo.gps_utc_shift (st (sh.abspath s)).pieces) →
        ∃ w', command fr sh src ini order1 order2 prompt localArgs w false =
            some ((w', false), .finished (source.map (fun _ => .finishedWithoutErrors))) ∧
          (∀ s ∈ source, Products fr b.json.enable_hdr_data b.json.enable_aux_data (Margo.settings b.margo) format
              (workFolder (sh.abspath s) format.toList) w' (st (sh.abspath s)).pieces ∧
            (Clear w (workFolder (sh.abspath s) format.toList) → ∀ q, Under (workFolder (sh.abspath s) format.toList) q → w'.read q ≠ none →
              q = logPath (sh.abspath s) format ∨
                ProductPath (Margo.settings b.margo) format (workFolder (sh.abspath s) format.toList) (st (sh.abspath s)).pieces q)) ∧
          ∀ q, (∀ s ∈ source, ¬ Under (workFolder (sh.abspath s) format.toList) q) → w'.read q = w.read q) := by
  obtain ⟨m, hm, -⟩ := C75_format ((C74_accepted (argv prompt localArgs) ⟨source, format.toList, some path, ext⟩).mpr h)
  rw [String.ofList_toList] at hm
  have hcmd : command fr sh src ini order1 order2 prompt localArgs w false =
      (mainText fr sh src order1 order2 (some defaultsText) (some extra) format source ext w false).map ended := by
    rw [C75_accepted fr sh src ini order1 order2 h, hini, String.ofList_toList, Option.map_some, hextra]
    rfl
  rcases C71_shipped fr sh src extra format source ext w false ho1 ho2 with ⟨e, he⟩ | ⟨b, b1, b2, b3⟩
  · exact .inl ⟨e, by rw [hcmd, he]; rfl⟩
  · refine .inr ⟨b, b1, b2, fun hpos hcv => ?_⟩
    have hch : Margo.ChannelsPos b.margo := by
      intro s h1 h24
      obtain ⟨v, hl, -⟩ := b1.literals s ⟨h1, h24⟩
      have hl : b.margo.glo_lit_tab.get? s = some v := hl
      have hv := hpos s v hl
      have hv : (-2848 : Rat) < (v : Rat) := by exact_mod_cast hv
      exact ⟨v, hl, by linarith, by linarith⟩
    have hfiles : makeListOfSourceFiles sh source ext = source.map sh.abspath := by
      rw [C54_arguments]
      · rw [List.filter_eq_self]
        intro x hx
        obtain ⟨s, hs, rfl⟩ := List.mem_map.1 hx
        exact hfile s hs
      · rintro ⟨a, rfl, h1, -⟩
        rw [hfile a (by simp)] at h1
        cases h1
    obtain ⟨w', r1, r2, r3⟩ := C76_files fr hfr src hm b hch w hw (source.map sh.abspath) (List.pairwise_map.2 hap) st (by
      intro f hf
      obtain ⟨s, hs, rfl⟩ := List.mem_map.1 hf
      exact ⟨(hst s hs).1, (hst s hs).2, hcv s hs⟩)
    refine ⟨w', ?_, fun s hs => r2 _ (List.mem_map_of_mem hs), ?_⟩
    · rw [hcmd, b3, hfiles, r1, List.map_map]
      rfl
    · intro q hq
      apply r3
      intro f hf
      obtain ⟨s, hs, rfl⟩ := List.mem_map.1 hf
      exact hq s hs

open Spec.Cmd Args Ctl in
/-- A command line with the file addons.ini of the repository, which takes effect with channels as in defaults.ini. -/
example : CmdLine ["/d/a.rtcm3".toList] "JSON".toList (some "addons.ini".toList) "rtcm3".toList
      (argv ["-o".toList, "JSON".toList, "-i".toList, "addons.ini".toList, "/d/a.rtcm3".toList] none) ∧
    ((({} : Manager).initFromFile id (iniFile (some defaultsText))).1.updateFromFile id (iniFile (some addonsText))).2 = .ok () ∧
    ∀ p ∈ defaultLiterals, -2848 < p.2 :=
  ⟨(C74_accepted _ ⟨_, "JSON".toList, some "addons.ini".toList, _⟩).mp (by decide), by decide +kernel, by decide +kernel⟩

/-- Noise, observables, a frame that is not supported, a reference point, observables of GLONASS, noise. -/
def Spec.exStream : Stream :=
  ⟨[⟨[1, 2], .inl (.msm exMsm5)⟩, ⟨[], .inr exOther⟩, ⟨[], .inl (.base (.m1006 sampleRef 65535))⟩, ⟨[0xFF], .inl (.msm exGlo5)⟩], [7]⟩

theorem Run.exStream_ok : exStream.Ok ∧ ∀ format, Convertible format 18 exStream.pieces := by
  have hg : (Content.msm exGlo5).WellFormed :=
    ⟨by simp only [Content.layout, Content.vals]; decide +kernel, by decide +kernel, (by decide +kernel : exGlo5.WF)⟩
  have g1 : (Content.msm exGlo5).AcceptedScaled := ⟨by show LengthEstimateRight _; decide +kernel, by decide +kernel, by decide +kernel⟩
  have g2 : (Content.msm exMsm5).AcceptedScaled := ⟨(exContents_ok _ (by simp [exContents])).2, by decide +kernel, by decide +kernel⟩
  have g3 : (Content.base (.m1006 sampleRef 65535)).AcceptedScaled := ⟨(exContents_ok _ (by simp [exContents])).2, by simp [BaseMsg.texts]⟩
  have hs : ∀ c ∈ contentsOf exStream.pieces, c.AcceptedScaled := by
    intro c hc
    have hc : c ∈ [Content.msm exMsm5, .base (.m1006 sampleRef 65535), .msm exGlo5] := hc
    simp only [List.mem_cons, List.not_mem_nil, or_false] at hc
    rcases hc with rfl | rfl | rfl
    · exact g2
    · exact g3
    · exact g1
  refine ⟨⟨?_, by decide⟩, fun format => ⟨fun _ c hc => (hs c hc).1, fun _ => hs, fun _ d hd => ?_⟩⟩
  · simp only [exStream, List.mem_cons, List.not_mem_nil, or_false, forall_eq_or_imp, forall_eq]
    refine ⟨⟨by decide, (exContents_ok _ (by simp [exContents])).1⟩, ⟨by decide, by decide +kernel, ?_⟩,
      ⟨by decide, (exContents_ok _ (by simp [exContents])).1⟩, ⟨by decide, hg⟩⟩
    intro n hn
    have : numberIn exOther = some 0 := by decide +kernel
    rw [this] at hn
    cases hn
    decide
  · have hd : d ∈ [exMsm5, exGlo5] := hd
    simp only [List.mem_cons, List.not_mem_nil, or_false] at hd
    rcases hd with rfl | rfl
    · exact ⟨g2, by unfold ValidTime; decide +kernel⟩
    · exact ⟨g1, by unfold ValidTime; decide +kernel⟩

open Spec.Cmd Args Ctl in
/-- The hypotheses of C76 are met by `-o JARGO /d/a.rtcm3 /d/b.rtcm3` with two files that have this stream; the conclusion names real
files: the one of the reference point and the one of the pseudoranges of GLONASS. -/
theorem Run.exProgram (fr : Rat → Txt) (hfr : ∀ x, IsNum (fr x)) :
    let sh : Shell := { abspath := id, isfile := fun _ => true, isdir := fun _ => false, glob := fun _ _ => [], input := [] }
    ∃ w', command fr sh (fun _ => some exStream.bytes) (fun _ => iniFile (some defaultsText)) id id
        ["-o".toList, "JARGO".toList, "/d/a.rtcm3".toList, "/d/b.rtcm3".toList] none {} false =
          some ((w', false), .finished [.finishedWithoutErrors, .finishedWithoutErrors]) ∧
      (w'.read "/d/b-JARGO/BASE/RefPointHeight-1006.json".toList).isSome ∧ (w'.read "/d/a-JARGO/GLN/RC1C_MSM5.obs".toList).isSome ∧
      (w'.read "/d/a-JARGO/MSM5/GLN-MSM5-1085.json".toList) = none := by
  intro sh
  have h : CmdLine ["/d/a.rtcm3".toList, "/d/b.rtcm3".toList] "JARGO".toList none "rtcm3".toList
      (argv ["-o".toList, "JARGO".toList, "/d/a.rtcm3".toList, "/d/b.rtcm3".toList] none) :=
    (C74_accepted _ ⟨_, "JARGO".toList, none, _⟩).mp (by decide)
  obtain ⟨w', e, h1, -⟩ := C76_program fr hfr sh (fun _ => some exStream.bytes) (fun _ => iniFile (some defaultsText)) id id
    (fun _ _ => Iff.rfl) rfl _ none _ "JARGO" _ h {} (fun _ => rfl) (fun _ _ => rfl) (by unfold Apart Under; decide +kernel) (fun _ => exStream)
    (fun _ _ => ⟨exStream_ok.1, rfl, exStream_ok.2 _⟩)
  refine ⟨w', e, ?_, ?_, ?_⟩
  · obtain ⟨t, vs, r, -⟩ := (h1 "/d/b.rtcm3".toList (by simp)).1.2.2.2 rfl 1006
      ⟨.base (.m1006 sampleRef 65535), List.mem_filter.2 ⟨by simp [exStream, contentsOf], rfl⟩, rfl⟩
    have e : Disk.join (workFolder (sh.abspath "/d/b.rtcm3".toList) "JARGO".toList) (jsonFile 1006).toList =
      "/d/b-JARGO/BASE/RefPointHeight-1006.json".toList := by decide +kernel
    rw [e] at r
    rw [r]; rfl
  · obtain ⟨t, l1, l2, ls, r, -⟩ := (h1 "/d/a.rtcm3".toList (by simp)).1.2.2.1 (.inr rfl) exGlo5 (by decide +kernel) .range (by decide) "1C"
      (by decide +kernel)
    have e : margoPath (workFolder (sh.abspath "/d/a.rtcm3".toList) "JARGO".toList) exGlo5 .range "1C" =
      "/d/a-JARGO/GLN/RC1C_MSM5.obs".toList := by decide +kernel
    rw [e] at r
    rw [r]; rfl
  · by_contra hne
    rcases (h1 "/d/a.rtcm3".toList (by simp)).2 (.inr (fun _ _ => rfl)) _ (by unfold Under; decide +kernel) hne with h | ⟨h, -⟩ | ⟨-, c, h, hm, he⟩ |
      ⟨-, d, hd, k, hk, slot, hs, he⟩
    · exact absurd h (by decide +kernel)
    · exact absurd h (by decide)
    · have h : c ∈ [Content.msm exMsm5, .base (.m1006 sampleRef 65535), .msm exGlo5] := h
      simp only [List.mem_cons, List.not_mem_nil, or_false] at h
      rcases h with rfl | rfl | rfl
      · cases hm
      · exact absurd he (by decide +kernel)
      · cases hm
    · have key : ∀ d ∈ msmsOf exStream.pieces, ∀ k ∈ kindsOf defaultSettings, ∀ slot ∈ slotsOf d.scaledObj k,
        "/d/a-JARGO/MSM5/GLN-MSM5-1085.json".toList ≠ margoPath (workFolder "/d/a.rtcm3".toList "JARGO".toList) d k slot := by decide +kernel
      exact key d hd k hk slot hs he

open Spec.Cmd Args Ctl in
/-- Files `a`, `b` and `c` of a directory; `3`, `7` and `1` are entered. -/
example :
    let sh : Shell := { abspath := id, isfile := fun _ => false, isdir := fun _ => true,
                        glob := fun _ _ => ["/d/a.rtcm3".toList, "/d/b.rtcm3".toList, "/d/c.rtcm3".toList], input := "3 7 1".toList }
    CmdLine ["/d".toList] "JSON".toList none "rtcm3".toList (argv ["-o".toList, "JSON".toList, "/d".toList] none) ∧
    List.Forall₂ IntText (splitAt ' ' sh.input) [3, 7, 1] ∧ [(3 : Int), 7, 1].Nodup ∧
    sh.glob (sh.abspath "/d".toList) "rtcm3".toList = ["a".toList, "b".toList, "c".toList].map (fun n => "/d/".toList ++ n ++ '.' :: "rtcm3".toList) ∧
    selected (sh.glob (sh.abspath "/d".toList) "rtcm3".toList) [3, 7, 1] = ["/d/c.rtcm3".toList, "/d/a.rtcm3".toList] := by
  intro sh
  refine ⟨(C74_accepted _ ⟨_, "JSON".toList, none, _⟩).mp (by decide), ?_, by decide, rfl, rfl⟩
  have e : splitAt ' ' sh.input = ["3".toList, "7".toList, "1".toList] := by decide +kernel
  rw [e]
  exact .cons ((pyInt_iff _ _).1 (by decide)) (.cons ((pyInt_iff _ _).1 (by decide)) (.cons ((pyInt_iff _ _).1 (by decide)) .nil))

end Verif
