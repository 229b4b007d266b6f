import Verif.Spec.JsonDouble
import Verif.Lemmas.JsonDouble
import Verif.Lemmas.JsonUnique
import Verif.Lemmas.RunFilesDouble
import Verif.Lemmas.BareDouble

/-!
# C81: from the command line to the products, in double precision
-/

namespace Verif
open Spec Decoder Conv Run

/-- `HoldsRows` in double precision: each line shows the time exactly and each value within half a unit of its last decimal and the error of
double precision. -/
def Spec.HoldsRowsDouble (s : MargoSettings) (wd : Txt) (w : Disk) (ds : List MsmData) : Prop :=
  ∀ d ∈ ds, ∀ k ∈ kindsOf s, ∀ slot ∈ slotsOf d.scaledObj k, ∃ t l1 l2 ls,
    w.read (margoPath wd d k slot) = some t ∧ readLines t = l1 :: l2 :: ls ∧ headText s d.g k slot = l1 ++ ['\n'] ++ (l2 ++ ['\n']) ∧
    List.Forall₂ (fun r l => ShowsRowNear k r.2.1 r.2.2 l)
      ((msmRows s s.leap ds).filter (fun r => r.1 == margoName d.g k slot d.scaledObj.atr.subset)) ls

/-- The products of a source in double precision: JSON-B has all contents as integers, exactly; JSON has all contents in physical units with
the errors of double precision, MARGO has the observables as rows with such errors, JARGO has the observables as rows and all other contents
as JSON. -/
def Spec.ProductsDouble (fr : Rat → Txt) (hdr aux : Bool) (s : MargoSettings) (format : String) (wd : Txt) (w : Disk) (ps : List Piece) : Prop :=
  (format = "JSON-B" → HoldsContents (Content.BareJson hdr aux) true wd w (contentsOf ps)) ∧
  (format = "JSON" → HoldsContents (Content.DoubleJson fr hdr aux) false wd w (contentsOf ps)) ∧
  (format = "MARGO" ∨ format = "JARGO" → HoldsRowsDouble s wd w (msmsOf ps)) ∧
  (format = "JARGO" → HoldsContents (Content.DoubleJson fr hdr aux) false wd w ((contentsOf ps).filter (fun c => !c.isMsm)))

namespace Run

theorem forall₂_filterRel {α β : Type} {R : α → β → Prop} {p : α → Bool} {q : β → Bool} {l : List α} {l' : List β} (h : List.Forall₂ R l l')
    (hpq : ∀ a b, R a b → q b = p a) : List.Forall₂ R (l.filter p) (l'.filter q) := by
  induction h with
  | nil => exact .nil
  | @cons a b l l' hab _ ih =>
    rw [List.filter_cons, List.filter_cons, hpq a b hab]
    split
    · exact .cons hab ih
    · exact ih

/-- The JSON files of objects with exact and with rounded arithmetic. -/
theorem json_double {rnd : Rat → Rat} (hnr : Nearest rnd) {fr : Rat → Txt} (hfr : ∀ x, IsNum (fr x)) {m : Mode} {wd : Txt} {box : Box}
    {time : Msm.ObservablesMSM → Int} {os os' : List PyObj} {rows' : List (Txt × Int × List (Option Rat))} {w wE wR : Disk}
    (hF : Files fr m wd box time os w wE) (hW : Written fr wd box (jsonPart m os') rows' w wR) (hos : List.Forall₂ (ORel rnd) os os')
    {n : Int} {row : Json.SpecRow} (hrow : Json.JSON_SPEC.get? n = some row) (hne : Json.ofNumber n (jsonPart m os) ≠ [])
    {t : Txt} {cls : String} {vs : List JV} (ht : wE.read (Json.pathOf wd row) = some t) (hj : JsonText (fileJson cls vs) t) :
    ∃ t' vs', wR.read (Json.pathOf wd row) = some t' ∧ JsonText (fileJson cls vs') t' ∧ List.Forall₂ (NearJson fr none) vs vs' := by
  have hl : List.Forall₂ (ORel rnd) (Json.ofNumber n (jsonPart m os)) (Json.ofNumber n (jsonPart m os')) := by
    rw [jsonPart_eq, jsonPart_eq]
    unfold Json.ofNumber
    refine forall₂_filterRel (forall₂_filterRel hos ?_) ?_
    · intro a b hab
      rw [near_cls (hab.near hnr)]
    · intro a b hab
      rw [near_num (hab.near hnr)]
  have h1 := hF.json n row hrow hne
  have h2 := hW.json n row hrow
  generalize Json.ofNumber n (jsonPart m os) = l at hl h1 hne
  generalize Json.ofNumber n (jsonPart m os') = l' at hl h2
  cases hl with
  | nil => exact absurd rfl hne
  | @cons o o' l l' ho hl =>
    rw [ht] at h1
    cases h1
    have e := JsonText.unique hj (Json.openText_json fr hfr box.json o l)
    unfold fileJson at e
    injection e with e
    injection e with e3 e4
    subst e4
    refine ⟨_, (o' :: l').map (fun x => jv fr (Json.objVal box.json x)), h2 (by simp), ?_, ?_⟩
    · unfold fileJson
      rw [e3, ← near_cls (ho.near hnr)]
      exact Json.openText_json fr hfr box.json o' l'
    · rw [List.forall₂_map_left_iff, List.forall₂_map_right_iff]
      exact List.Forall₂.imp (fun _ _ hab => Json.near_json hnr box.json hab) (.cons ho hl)

theorem holds_double {rnd : Rat → Rat} (hnr : Nearest rnd) {fr : Rat → Txt} (hfr : ∀ x, IsNum (fr x)) {m : Mode} {wd : Txt} {box : Box}
    {time : Msm.ObservablesMSM → Int} {os os' : List PyObj} {rows' : List (Txt × Int × List (Option Rat))} {w wE wR : Disk}
    (hF : Files fr m wd box time os w wE) (hW : Written fr wd box (jsonPart m os') rows' w wR) (hos : List.Forall₂ (ORel rnd) os os')
    {hdr aux bare : Bool} {cs : List Content} (hwf : ∀ c ∈ cs, c.WellFormed)
    (hne : ∀ c ∈ cs, Json.ofNumber (c.number : Int) (jsonPart m os) ≠ [])
    (h : HoldsContents (Content.ScaledJson fr hdr aux) bare wd wE cs) : HoldsContents (Content.DoubleJson fr hdr aux) bare wd wR cs := by
  intro k hk
  obtain ⟨t, vs, h1, h2, h3⟩ := h k hk
  obtain ⟨c, hc, rfl⟩ := hk
  obtain ⟨row, hrow⟩ := number_row (hwf c hc)
  rw [← Json.path_of wd _ row hrow] at h1 ⊢
  obtain ⟨t', vs', g1, g2, g3⟩ := json_double hnr hfr hF hW hos hrow (hne c hc) h1 h2
  refine ⟨t', vs', g1, g2, ?_⟩
  clear h2 g2
  generalize cs.filter (·.number = c.number) = l at h3
  induction h3 generalizing vs' with
  | nil => cases g3; exact .nil
  | cons hab _ ih =>
    cases g3 with
    | cons h4 h5 => exact .cons ⟨_, hab, h4⟩ (ih _ h5)

/-- The lines of a file with rounded arithmetic. -/
theorem near_linesOf {g : Nat} (hg : g < 7) (k : ObsKind) (slot u : String) {X X' : List (Txt × Int × List (Option Rat))}
    (h : List.Forall₂ NearRowOf X X') :
    ∃ ls, (X'.filter (fun r => r.1 == margoName g k slot u)).flatMap (fun r => rowText k r.2.1 r.2.2) = ls.flatMap (fun t => t ++ ['\n']) ∧
      (∀ t ∈ ls, '\n' ∉ t) ∧
      List.Forall₂ (fun r l => ShowsRowNear k r.2.1 r.2.2 l) (X.filter (fun r => r.1 == margoName g k slot u)) ls := by
  induction h with
  | nil => exact ⟨[], rfl, by simp, .nil⟩
  | @cons x r X S hxr _ ih =>
    obtain ⟨ls, i1, i2, i3⟩ := ih
    obtain ⟨a1, a2, g', k', slot', u', t', hg', -, hN, a3⟩ := hxr
    by_cases hn : x.1 = margoName g k slot u
    · have hk : k' = k := by
        have e1 := Margo.name_second hg k slot u
        rw [← hn, hN, Margo.name_second hg'] at e1
        exact Margo.letter_inj (Option.some.inj e1)
      subst hk
      obtain ⟨l, b1, b2, b3⟩ := Margo.showsRow_near a3 (t := x.2.1)
      refine ⟨l :: ls, ?_, ?_, ?_⟩
      · rw [List.filter_cons_of_pos (by simp [a1, hn]), List.flatMap_cons, List.flatMap_cons, i1, a2, b1]
      · intro t ht
        rcases List.mem_cons.1 ht with rfl | ht
        · exact b2
        · exact i2 t ht
      · rw [List.filter_cons_of_pos (by simp [hn])]
        exact .cons b3 i3
    · refine ⟨ls, ?_, i2, ?_⟩
      · rw [List.filter_cons_of_neg (by simp [a1, hn]), i1]
      · rw [List.filter_cons_of_neg (by simp [hn])]
        exact i3

theorem nearRow_names {X X' : List (Txt × Int × List (Option Rat))} (h : List.Forall₂ NearRowOf X X') : X'.map (·.1) = X.map (·.1) := by
  induction h with
  | nil => rfl
  | cons hab _ ih => rw [List.map_cons, List.map_cons, ih, hab.1]

/-- The rows of the contents of a stream. -/
theorem stream_rows {box : Box} {ps : List Piece} (hp : ∀ p ∈ ps, p.Ok) (ha : ∀ d ∈ msmsOf ps, (Content.msm d).AcceptedScaled)
    (ht : ∀ d ∈ msmsOf ps, ValidTime box.margo.gps_utc_shift d.g d.scaledObj) :
    (∀ d ∈ msmsOf ps, Regular d.g d.scaledObj) ∧
    obsRows (Margo.settings box.margo) (rowTime box.margo) (rowPart .margo ((ps.map Piece.frame).filterMap (outcome .margo))) =
      msmRows (Margo.settings box.margo) box.margo.gps_utc_shift (msmsOf ps) := by
  have hwf : ∀ d ∈ msmsOf ps, (Content.msm d).WellFormed := fun d hd => contents_wf hp _ ((msms_contents ps d).1 hd)
  have hreg : ∀ d ∈ msmsOf ps, Regular d.g d.scaledObj := fun d hd => (outcome_margo_msm (hwf d hd) (ha d hd)).2
  have hpart : rowPart .margo ((msmsOf ps).map (fun d => .msm d.scaledObj)) = (msmsOf ps).map MsmData.scaledObj := by
    unfold rowPart
    rw [List.filterMap_map]
    generalize msmsOf ps = l
    induction l with
    | nil => rfl
    | cons d l ih =>
      rw [List.filterMap_cons, ih]
      rfl
  refine ⟨hreg, ?_⟩
  rw [(pieces_margo hp ha).1, hpart]
  unfold obsRows msmRows
  rw [List.flatMap_map]
  have : ∀ d ∈ msmsOf ps, margoRows (Margo.settings box.margo) (sysOf d.scaledObj) (rowTime box.margo d.scaledObj) d.scaledObj =
      margoRows (Margo.settings box.margo) d.g (gpsTimeOfWeek box.margo.gps_utc_shift d.g d.scaledObj.hdr.time d.scaledObj.hdr.day) d.scaledObj := by
    intro d hd
    rw [sysOf_regular (hreg d hd), rowTime_valid _ (hreg d hd) (ht d hd)]
  generalize msmsOf ps = l at this
  induction l with
  | nil => rfl
  | cons d l ih => rw [List.flatMap_cons, List.flatMap_cons, this d (by simp), ih (fun x hx => this x (by simp [hx]))]

/-- The files of the rows with rounded arithmetic. -/
theorem rows_double {fr : Rat → Txt} {wd : Txt} {box : Box} {Js : List PyObj} {rows' : List (Txt × Int × List (Option Rat))} {w wR : Disk}
    (hW : Written fr wd box Js rows' w wR) {ds : List MsmData} (hreg : ∀ d ∈ ds, Regular d.g d.scaledObj)
    (hr : List.Forall₂ NearRowOf (msmRows (Margo.settings box.margo) box.margo.gps_utc_shift ds) rows') :
    HoldsRowsDouble (Margo.settings box.margo) wd wR ds := by
  intro d hd k hk slot hs
  obtain ⟨t, hsig⟩ := (hreg d hd).signals k slot hs
  have hfile := hW.margo d.g k slot d.scaledObj.atr.subset t (hreg d hd).lt hsig (by
    rw [nearRow_names hr]
    exact List.mem_map.2 ⟨_, List.mem_flatMap.2 ⟨d, hd, List.mem_flatMap.2 ⟨k, hk, List.mem_map.2 ⟨slot, hs, rfl⟩⟩⟩, rfl⟩)
  obtain ⟨ls, a1, a2, a3⟩ := near_linesOf (hreg d hd).lt k slot d.scaledObj.atr.subset hr
  obtain ⟨l1, l2, h1, h2, h3, -⟩ := C57_header (Margo.settings box.margo) d.g k slot
  refine ⟨_, l1, l2, ls, hfile, ?_, h1, a3⟩
  unfold fileText
  rw [h1, a1]
  have : l1 ++ ['\n'] ++ (l2 ++ ['\n']) ++ ls.flatMap (fun t => t ++ ['\n']) = (l1 :: l2 :: ls).flatMap (fun t => t ++ ['\n']) := by
    simp [List.flatMap_cons, List.append_assoc]
  rw [this]
  apply ReadText.readLines_flat
  intro t ht
  simp only [List.mem_cons] at ht
  rcases ht with rfl | rfl | ht
  · exact h2
  · exact h3
  · exact a2 t ht

theorem convert_resultR {rnd : Rat → Rat} {format : String} {m : Mode} (hm : modeOf format = some m) {box : Box} {f wd : Txt} {w w1 w2 : Disk}
    {c : Converter} (e1 : createWorkFolder w f format.toList = (w1, some wd))
    (e2 : initLogger w1 false (Disk.join wd (makeLogFileName f)) = ((w2, true), .ok ()))
    (hs : strategy m w2 wd box = .ok (some c)) {fr : Rat → Txt} {src : Txt → Option Bytes} {c' : Converter} {w' : Disk} {ok : Bool}
    (hrun : decodeRtcmFileR rnd fr FILE_CHUNK_LEN (src f) (rounded rnd m c) w2 = some ((c', w'), ok)) :
    convertFileR rnd fr src format (some box) w false f = some ((w', false), .ok (if ok then verdictOf c'.statistics else .terminated)) := by
  have hR : factoryR rnd format w2 wd box = .ok (some (rounded rnd m c)) := by
    unfold factoryR
    rw [hm]
    dsimp only
    rw [strategyR_is]
    rw [strategy_is] at hs
    split at hs
    · next hd =>
      rw [if_pos hd]
      injection hs with hs
      injection hs with hs
      rw [hs]
    · cases hs
  unfold convertFileR
  rw [e1]
  dsimp only
  rw [e2]
  dsimp only
  rw [hR]
  dsimp only
  rw [hrun]
  rfl

/-- The files of a conversion in double precision, and nothing else in the work folder. -/
theorem file_products_double {rnd : Rat → Rat} (hnr : Nearest rnd) (fr : Rat → Txt) (hfr : ∀ x, IsNum (fr x)) (src : Txt → Option Bytes)
    {format : String} {m : Mode} (hm : modeOf format = some m) (box : Box) (hch : Margo.ChannelsPos box.margo) (hb : Margo.Channels box.margo)
    (f : Txt) (w : Disk) (hw : ∀ i, w.fault i = false) (st : Stream) (hok : st.Ok) (hsrc : src f = some st.bytes)
    (hcv : Convertible format box.margo.gps_utc_shift st.pieces) :
    ∃ w', convertFileR rnd fr src format (some box) w false f = some ((w', false), .ok .finishedWithoutErrors) ∧
      ProductsDouble fr box.json.enable_hdr_data box.json.enable_aux_data (Margo.settings box.margo) format (workFolder f format.toList) w'
        st.pieces ∧
      (Clear w (workFolder f format.toList) → ∀ q, Under (workFolder f format.toList) q → w'.read q ≠ none →
        q = logPath f format ∨ ProductPath (Margo.settings box.margo) format (workFolder f format.toList) st.pieces q) ∧
      Disk.Outside (workFolder f format.toList) w w' := by
  obtain ⟨wE, e1, e2, e3⟩ := file_products fr hfr src hm box hch f w hw st hok hsrc hcv
  have hout : Disk.Outside (workFolder f format.toList) w wE := by
    obtain ⟨w', r', r, h1, h2⟩ := (convert_local hm fr src (some box) f false).1 w
    rw [e1] at h1
    cases h1
    exact h2
  have hmode : (format = "MARGO" ∧ m = .margo) ∨ (format = "JSON" ∧ m = .json) ∨ (format = "JSON-B" ∧ m = .jsonB) ∨
      (format = "JARGO" ∧ m = .jargo) := by
    have hx := PyDict.mem_of_get? hm
    simpa [Prod.ext_iff] using hx
  by_cases hB : format = "JSON-B"
  · subst hB
    refine ⟨wE, ?_, ⟨fun _ => e2.1 rfl, by simp, by simp, by simp⟩, e3, hout⟩
    rw [convertFile_same hnr]
    exact e1
  obtain ⟨w1, w2, c, b1, b2, b3, b4, f2, -⟩ := convert_begin hm box f w hw
  have hn : 0 < FILE_CHUNK_LEN := by decide
  obtain ⟨hp, hl⟩ := hok
  have hwf := contents_wf hp
  have hmsg : messages st.bytes = st.pieces.map Piece.frame := (pieces_messages hp st.last hl).1
  obtain ⟨cE, wE', a1, -, a3⟩ := run_files fr b4 hch _ hn st.bytes w2 f2
  obtain ⟨cR, wR, os', rows', r1, r2, r3, r4⟩ := run_filesR hnr fr b4 hch hb _ hn st.bytes w2 f2
  have hE : wE' = wE := by
    have := convert_result (src := src) b1 b2 b3 (by rw [hsrc]; exact a1)
    rw [e1] at this
    simp only [Option.some.injEq, Prod.mk.injEq] at this
    exact this.1.1.symm
  subst hE
  have hR := convert_resultR (src := src) hm b1 b2 b4 (by rw [hsrc]; exact r1)
  obtain ⟨v1, v2, rd, r, n1, n2, n3⟩ := near_convertFile hnr (fr := fr) (j := box.json) src format (controls := some box)
    ⟨by rintro _ ⟨⟩; rfl, by rintro _ ⟨⟩; exact hb, by rintro _ ⟨⟩; exact hch⟩ (nearDisk_refl w) false f
  rw [e1] at n1
  cases n1
  rw [hR] at n2
  simp only [Option.some.injEq, Prod.mk.injEq] at n2
  obtain ⟨⟨rfl, -⟩, hv⟩ := n2
  have hfold := workFolder_ok hm f
  refine ⟨wR, by rw [hR]; exact congrArg (fun x => some ((wR, false), x)) (by simpa using hv), ?_, ?_, ?_⟩
  · rw [hmsg] at a3 r2 r3
    rcases hmode with ⟨rfl, rfl⟩ | ⟨rfl, rfl⟩ | ⟨rfl, rfl⟩ | ⟨rfl, rfl⟩
    · have hv := hcv.2.2 (.inl rfl)
      obtain ⟨g1, g2⟩ := stream_rows (box := box) hp (fun d hd => (hv d hd).1) (fun d hd => (hv d hd).2)
      rw [g2] at r3
      exact ⟨by simp, by simp, fun _ => rows_double r4 g1 r3, by simp⟩
    · have hv := hcv.2.1 (.inl rfl)
      refine ⟨by simp, fun _ => holds_double hnr hfr a3 r4 r2 hwf ?_ (e2.2.1 rfl), by simp, by simp⟩
      intro x hx
      obtain ⟨o, ho, -⟩ := outcome_scaled (hwf x hx) (hv x hx)
      obtain ⟨g1, -⟩ := outcome_num (hwf x hx) ho
      refine List.ne_nil_of_mem (a := o) ?_
      unfold Json.ofNumber jsonPart
      refine List.mem_filter.2 ⟨List.mem_filter.2 ⟨List.mem_filterMap.2 ⟨x.frame, ?_, ho⟩, ?_⟩, by rw [g1]; simp⟩
      · obtain ⟨p, hpm, hpc⟩ := List.mem_filterMap.1 hx
        refine List.mem_map.2 ⟨p, hpm, ?_⟩
        obtain ⟨gap, item⟩ := p
        cases item with
        | inl y => cases hpc; rfl
        | inr y => cases hpc
      · cases o <;> simp
    · exact absurd rfl hB
    · have hv := hcv.2.1 (.inr rfl)
      have hr := hcv.2.2 (.inr rfl)
      obtain ⟨g1, g2⟩ := stream_rows (box := box) hp (fun d hd => (hr d hd).1) (fun d hd => (hr d hd).2)
      rw [← margo_rows, g2] at r3
      refine ⟨by simp, by simp, fun _ => rows_double r4 g1 r3, fun _ => holds_double hnr hfr a3 r4 r2
        (fun c hc => hwf c (List.mem_of_mem_filter hc)) ?_ (e2.2.2.2 rfl)⟩
      intro x hx
      obtain ⟨hx, hnm⟩ := List.mem_filter.1 hx
      have hnm : x.isMsm = false := by simpa using hnm
      obtain ⟨o, ho, -⟩ := outcome_scaled (hwf x hx) (hv x hx)
      obtain ⟨g1, ⟨row, hrow⟩, -⟩ := outcome_num (hwf x hx) ho
      refine List.ne_nil_of_mem (a := o) ?_
      unfold Json.ofNumber
      rw [jsonPart_eq]
      refine List.mem_filter.2 ⟨List.mem_filter.2 ⟨List.mem_filterMap.2 ⟨x.frame, ?_, ho⟩, ?_⟩, by rw [g1]; simp⟩
      · obtain ⟨p, hpm, hpc⟩ := List.mem_filterMap.1 hx
        refine List.mem_map.2 ⟨p, hpm, ?_⟩
        obtain ⟨gap, item⟩ := p
        cases item with
        | inl y => cases hpc; rfl
        | inr y => cases hpc
      · obtain ⟨n, row', t1, t2, t3, t4, t5, t6⟩ := outcome_typed ho
        rw [g1] at t4
        cases t4
        have hcl : o.cls ≠ .observablesMSM := by
          intro he
          rw [he] at t6
          have := (content_class (hwf x hx) (hv x hx) t5).1 t6
          rw [hnm] at this
          cases this
        cases hc : o.cls <;> first | rfl | exact absurd hc hcl
  · intro hc q hq hne
    refine e3 hc q hq ?_
    intro he
    have := n3.read q
    rw [he] at this
    generalize wR.read q = y at this hne
    cases this
    exact hne rfl
  · have hfl := (folder_local f format.toList).1 w
    rw [b1] at hfl
    have hll := (logger_local (Disk.under_join hfold (logName_ok f) rfl) false).1 w1
    rw [b2] at hll
    refine ⟨n3.fault.trans hout.fault, ?_, fun q hq => (n3.isdir q).trans (hout.isdir q hq)⟩
    intro q hq
    refine (r4.rest q ?_ ?_).trans ((hll.toOutside.read q hq).trans (hfl.read q hq))
    · rintro n row hrow - rfl
      exact hq (json_under hfold hrow)
    · rintro g k slot u t hg - - rfl
      exact hq (Disk.under_join_join hfold (Margo.dir_names g hg).1 (margoName_head g hg k slot u))

/-- The products are read in the work folder only. -/
theorem productsDouble_transfer {fr : Rat → Txt} {hdr aux : Bool} {s : MargoSettings} {format : String} {wd : Txt} {w w' : Disk}
    {ps : List Piece} (hwd : Folder wd) (hp : ∀ p ∈ ps, p.Ok)
    (h : ProductsDouble fr hdr aux s format wd w ps) (hr : ∀ q, Under wd q → w'.read q = w.read q) :
    ProductsDouble fr hdr aux s format wd w' ps := by
  have hwf := contents_wf hp
  have hjson : ∀ {P : Content → JV → Prop} {bare : Bool} {cs : List Content}, (∀ c ∈ cs, c ∈ contentsOf ps) →
      HoldsContents P bare wd w cs → HoldsContents P bare wd w' cs := by
    intro P bare cs hsub h k hk
    obtain ⟨t, vs, r1, r2⟩ := h k hk
    refine ⟨t, vs, ?_, r2⟩
    rw [← r1]
    apply hr
    obtain ⟨c, hc, rfl⟩ := hk
    obtain ⟨row, hrow⟩ := number_row (hwf c (hsub c hc))
    rw [← Json.path_of wd _ row hrow]
    exact json_under hwd hrow
  refine ⟨fun x => hjson (fun _ h => h) (h.1 x), fun x => hjson (fun _ h => h) (h.2.1 x), fun x => ?_,
    fun x => hjson (fun _ h => List.mem_of_mem_filter h) (h.2.2.2 x)⟩
  intro d hd k hk slot hs
  obtain ⟨t, l1, l2, ls, r1, r2⟩ := h.2.2.1 x d hd k hk slot hs
  refine ⟨t, l1, l2, ls, ?_, r2⟩
  rw [← r1]
  apply hr
  have hg : d.g < 7 := by
    have := (hwf _ ((msms_contents ps d).1 hd)).2.2.g
    omega
  exact Disk.under_join_join hwd (Margo.dir_names d.g hg).1 (margoName_head d.g hg k slot _)

end Run

/-! ### The theorems -/

/-- **C81, JSON-B.** The conversion to JSON-B does not use floating point arithmetic: from any disk with any faults, for any sources and any
controls, both programs do the same. -/
theorem C81_bare {rnd : Rat → Rat} (h : Nearest rnd) (fr : Rat → Txt) (src : Txt → Option Bytes) (controls : Option Box)
    (files : List Txt) (w : Disk) (ready : Bool) :
    mainLoopR rnd fr src "JSON-B" controls w ready files = mainLoop fr src "JSON-B" controls w ready files :=
  mainLoop_same h fr src controls files w ready

/-- **C81, files.** C76 for the program in double precision: each source that is a stream of convertible contents is converted without
errors, its work folder has the products of its contents in double precision and nothing else but the log, and nothing outside of the work
folders is changed. -/
theorem C81_files {rnd : Rat → Rat} (h : Nearest rnd) (fr : Rat → Txt) (hfr : ∀ x, IsNum (fr x)) (src : Txt → Option Bytes) {format : String}
    {m : Mode} (hm : modeOf format = some m) (box : Box) (hch : Margo.ChannelsPos box.margo)
    (hsmall : ∀ s v, box.margo.glo_lit_tab.get? s = some v → |v| ≤ 1000) (st : Txt → Stream) :
    ∀ (files : List Txt) (w : Disk), (∀ i, w.fault i = false) →
    files.Pairwise (fun f g => Apart (workFolder f format.toList) (workFolder g format.toList)) →
    (∀ f ∈ files, (st f).Ok ∧ src f = some (st f).bytes ∧ Convertible format box.margo.gps_utc_shift (st f).pieces) →
    ∃ w', mainLoopR rnd fr src format (some box) w false files = some ((w', false), .ok (files.map (fun _ => .finishedWithoutErrors))) ∧
      (∀ f ∈ files, ProductsDouble fr box.json.enable_hdr_data box.json.enable_aux_data (Margo.settings box.margo) format
          (workFolder f format.toList) w' (st f).pieces ∧
        (Clear w (workFolder f format.toList) → ∀ q, Under (workFolder f format.toList) q → w'.read q ≠ none →
          q = logPath f format ∨ ProductPath (Margo.settings box.margo) format (workFolder f format.toList) (st f).pieces q)) ∧
      ∀ q, (∀ f ∈ files, ¬ Under (workFolder f format.toList) q) → w'.read q = w.read q
  | [], w, _, _, _ => ⟨w, rfl, by simp, fun _ _ => rfl⟩
  | f :: rest, w, hw, hap, hst => by
    obtain ⟨a1, a2, a3⟩ := hst f (by simp)
    obtain ⟨w1, b1, b2, b3, b4⟩ := file_products_double h fr hfr src hm box hch hsmall f w hw (st f) a1 a2 a3
    rw [List.pairwise_cons] at hap
    obtain ⟨w', c1, c2, c3⟩ := C81_files h fr hfr src hm box hch hsmall st rest w1 (by rw [b4.fault]; exact hw) hap.2
      (fun g hg => hst g (by simp [hg]))
    have hread : ∀ q, Under (workFolder f format.toList) q → w'.read q = w1.read q := by
      intro q hq
      exact c3 q (fun g hg => apart_under (hap.1 g hg) hq)
    refine ⟨w', ?_, ?_, ?_⟩
    · unfold mainLoopR
      rw [b1]
      dsimp only
      rw [c1]
      rfl
    · intro g hg
      rcases List.mem_cons.1 hg with rfl | hg
      · refine ⟨productsDouble_transfer (workFolder_ok hm g) a1.1 b2 hread, ?_⟩
        intro hc q hq hne
        rw [hread q hq] at hne
        exact b3 hc q hq hne
      · obtain ⟨d1, d2⟩ := c2 g hg
        refine ⟨d1, fun hc => d2 ?_⟩
        rcases hc with hc | hc
        · exact .inl ((b4.isdir _ (hap.1 g hg).1).trans hc)
        · exact .inr (fun q hq => (b4.read q (apart_under (apart_symm (hap.1 g hg)) hq)).trans (hc q hq))
    · intro q hq
      rw [c3 q (fun g hg => hq g (by simp [hg]))]
      exact b4.read q (hq f (by simp))

open Spec.Cmd Args Ctl in
/-- **C81** The whole program in double precision, with the configuration of the repository: a command line that names a format and source
files, each of which is a stream of convertible contents with noise and unsupported messages in between, on a file system without failures.
The program ends with every file converted without errors. The work folder of each source has the products of its contents in double
precision, and, if it was new or replaced an old one, nothing else but the log. Nothing outside of the work folders is changed. -/
theorem C81_program {rnd : Rat → Rat} (hr : Nearest rnd) (fr : Rat → Txt) (hfr : ∀ x, IsNum (fr x)) (sh : Shell) (src : Txt → Option Bytes)
    (ini : Txt → IniFile) (order1 order2 : List Txt → List Txt) (ho : ∀ l x, x ∈ order1 l ↔ x ∈ l)
    (hini : ini "defaults.ini".toList = iniFile (some defaultsText)) (prompt : List Txt) (localArgs : Option Txt) (source : List Txt)
    (format : String) (ext : Txt) (h : CmdLine source format.toList none ext (argv prompt localArgs)) (w : Disk) (hw : ∀ i, w.fault i = false)
    (hfile : ∀ s ∈ source, sh.isfile (sh.abspath s) = true)
    (hap : source.Pairwise (fun s t => Apart (workFolder (sh.abspath s) format.toList) (workFolder (sh.abspath t) format.toList)))
    (st : Txt → Stream)
    (hst : ∀ s ∈ source, (st (sh.abspath s)).Ok ∧ src (sh.abspath s) = some (st (sh.abspath s)).bytes ∧
      Convertible format 18 (st (sh.abspath s)).pieces) :
    ∃ w', commandR rnd fr sh src ini order1 order2 prompt localArgs w false =
        some ((w', false), .finished (source.map (fun _ => .finishedWithoutErrors))) ∧
      (∀ s ∈ source,
        ProductsDouble fr true true defaultSettings format (workFolder (sh.abspath s) format.toList) w' (st (sh.abspath s)).pieces ∧
        (Clear w (workFolder (sh.abspath s) format.toList) → ∀ q, Under (workFolder (sh.abspath s) format.toList) q → w'.read q ≠ none →
          q = logPath (sh.abspath s) format ∨
            ProductPath defaultSettings format (workFolder (sh.abspath s) format.toList) (st (sh.abspath s)).pieces q)) ∧
      ∀ q, (∀ s ∈ source, ¬ Under (workFolder (sh.abspath s) format.toList) q) → w'.read q = w.read q := by
  have hp : parseArgs (argv prompt localArgs) = .ok ⟨source, format.toList, none, ext⟩ := (C74_accepted _ _).mpr h
  obtain ⟨m, hm, -⟩ := C75_format hp
  rw [String.ofList_toList] at hm
  obtain ⟨mgr, b, e1, e2, e3, e4, e5, e6⟩ := defaults_box ho
  have hleap : b.margo.gps_utc_shift = 18 := congrArg MargoSettings.leap e6
  have hsmall : ∀ s v, b.margo.glo_lit_tab.get? s = some v → |v| ≤ 1000 := by
    obtain ⟨i1, c, i2, -, -, -, i6⟩ := C71_defaults ho
    rw [e1, e2] at i2
    cases i2
    have key : ∀ p ∈ defaultLiterals, |p.2| ≤ 1000 := by decide +kernel
    intro s v hv
    have hv : List.lookup s c.glo_lit_tab = some v := hv
    rw [i6] at hv
    obtain ⟨l1, l2, hl, -⟩ := List.lookup_eq_some_iff.1 hv
    exact key (s, v) (by rw [hl]; simp)
  have hfiles : makeListOfSourceFiles sh source ext = source.map sh.abspath := by
    rw [C54_arguments]
    · rw [List.filter_eq_self]
      intro x hx
      obtain ⟨s, hs, rfl⟩ := List.mem_map.1 hx
      exact hfile s hs
    · rintro ⟨a, rfl, h1, -⟩
      rw [hfile a (by simp)] at h1
      cases h1
  obtain ⟨w', r1, r2, r3⟩ := C81_files hr fr hfr src hm b e3 hsmall st (source.map sh.abspath) w hw (List.pairwise_map.2 hap) (by
    intro f hf
    obtain ⟨s, hs, rfl⟩ := List.mem_map.1 hf
    rw [hleap]
    exact hst s hs)
  refine ⟨w', ?_, ?_, ?_⟩
  · unfold commandR
    rw [hini, e1, hp]
    dsimp only
    rw [e2, hfiles, String.ofList_toList, r1, List.map_map]
    rfl
  · intro s hs
    have := r2 _ (List.mem_map_of_mem hs)
    rw [e4, e5, e6] at this
    exact this
  · intro q hq
    apply r3
    intro f hf
    obtain ⟨s, hs, rfl⟩ := List.mem_map.1 hf
    exact hq s hs

open Spec.Cmd Args Ctl in
/-- **C81, JSON-B, program.** From any command line that names the format JSON-B, any configuration files, any sources, any disk and any faults
both programs do the same. -/
theorem C81_bare_program {rnd : Rat → Rat} (hr : Nearest rnd) (fr : Rat → Txt) (sh : Shell) (src : Txt → Option Bytes) (ini : Txt → IniFile)
    (order1 order2 : List Txt → List Txt) (prompt : List Txt) (localArgs : Option Txt) (source : List Txt) (extra : Option Txt) (ext : Txt)
    (h : CmdLine source "JSON-B".toList extra ext (argv prompt localArgs)) (w : Disk) (ready : Bool) :
    commandR rnd fr sh src ini order1 order2 prompt localArgs w ready = command fr sh src ini order1 order2 prompt localArgs w ready := by
  have hp : parseArgs (argv prompt localArgs) = .ok ⟨source, "JSON-B".toList, extra, ext⟩ := (C74_accepted _ _).mpr h
  unfold command commandR
  rw [hp]
  cases ({} : Manager).initFromFile order1 (ini "defaults.ini".toList) with
  | mk m0 r =>
    cases r with
    | error e => rfl
    | ok u =>
      dsimp only
      rw [String.ofList_toList]
      cases extra with
      | none =>
        dsimp only
        rw [mainLoop_same hr]
        cases mainLoop fr src "JSON-B" m0.boxed w ready (makeListOfSourceFiles sh source ext) with
        | none => rfl
        | some x => obtain ⟨s, r⟩ := x; cases r <;> rfl
      | some p =>
        dsimp only
        cases m0.updateFromFile order2 (ini p) with
        | mk m1 r =>
          cases r with
          | error e => rfl
          | ok u =>
            dsimp only
            rw [mainLoop_same hr]
            cases mainLoop fr src "JSON-B" m1.boxed w ready (makeListOfSourceFiles sh source ext) with
            | none => rfl
            | some x => obtain ⟨s, r⟩ := x; cases r <;> rfl

open Args Ctl in
/-- The hypotheses of `C81_program` are met, with IEEE 754 arithmetic, by `-o JARGO /d/a.rtcm3 /d/b.rtcm3` with two files that have the stream
of C76; the conclusion names the content of real files: the coordinates of the reference point, and the pseudoranges of GLONASS. -/
example (fr : Rat → Txt) (hfr : ∀ x, IsNum (fr x)) :
    let sh : Shell := { abspath := id, isfile := fun _ => true, isdir := fun _ => false, glob := fun _ _ => [], input := [] }
    ∃ w', commandR ieee fr sh (fun _ => some exStream.bytes) (fun _ => iniFile (some defaultsText)) id id
        ["-o".toList, "JARGO".toList, "/d/a.rtcm3".toList, "/d/b.rtcm3".toList] none {} false =
          some ((w', false), .finished [.finishedWithoutErrors, .finishedWithoutErrors]) ∧
      (∃ t v, w'.read "/d/b-JARGO/BASE/RefPointHeight-1006.json".toList = some t ∧ JsonText (fileJson (className false 1006) [v]) t ∧
        Content.DoubleJson fr true true (.base (.m1006 sampleRef 65535)) v) ∧
      (∃ t l1 l2 l3, w'.read "/d/a-JARGO/GLN/RC1C_MSM5.obs".toList = some t ∧ readLines t = [l1, l2, l3]) := by
  intro sh
  obtain ⟨w', e, h1, -⟩ := C81_program ieee_nearest fr hfr sh (fun _ => some exStream.bytes) (fun _ => iniFile (some defaultsText)) id id
    (fun _ _ => Iff.rfl) rfl ["-o".toList, "JARGO".toList, "/d/a.rtcm3".toList, "/d/b.rtcm3".toList] none
    ["/d/a.rtcm3".toList, "/d/b.rtcm3".toList] "JARGO" "rtcm3".toList ((C74_accepted _ ⟨_, "JARGO".toList, none, _⟩).mp (by decide)) {}
    (fun _ => rfl) (fun _ _ => rfl) (by unfold Apart Under; decide +kernel) (fun _ => exStream)
    (fun _ _ => ⟨exStream_ok.1, rfl, exStream_ok.2 _⟩)
  refine ⟨w', e, ?_, ?_⟩
  · obtain ⟨t, vs, r1, r2, r3⟩ := (h1 "/d/b.rtcm3".toList (by simp)).1.2.2.2 rfl 1006
      ⟨.base (.m1006 sampleRef 65535), List.mem_filter.2 ⟨by simp [exStream, contentsOf], rfl⟩, rfl⟩
    have e : Disk.join (workFolder (sh.abspath "/d/b.rtcm3".toList) "JARGO".toList) (jsonFile 1006).toList =
      "/d/b-JARGO/BASE/RefPointHeight-1006.json".toList := by decide +kernel
    rw [e] at r1
    have e : ((contentsOf exStream.pieces).filter (fun c => !c.isMsm)).filter (·.number = 1006) = [.base (.m1006 sampleRef 65535)] := rfl
    rw [e] at r3
    cases r3 with
    | cons h3 h4 =>
      cases h4
      exact ⟨t, _, r1, r2, h3⟩
  · obtain ⟨t, l1, l2, ls, r1, r2, -, r3⟩ := (h1 "/d/a.rtcm3".toList (by simp)).1.2.2.1 (.inr rfl) exGlo5 (by decide +kernel) .range
      (by decide) "1C" (by decide +kernel)
    have e : margoPath (workFolder (sh.abspath "/d/a.rtcm3".toList) "JARGO".toList) exGlo5 .range "1C" =
      "/d/a-JARGO/GLN/RC1C_MSM5.obs".toList := by decide +kernel
    rw [e] at r1
    have hlen : ls.length = 1 := by rw [← r3.length_eq]; decide +kernel
    obtain ⟨l3, rfl⟩ := List.length_eq_one_iff.1 hlen
    exact ⟨t, l1, l2, l3, r1, r2⟩

end Verif
