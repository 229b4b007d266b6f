import Verif.Props.SourceDouble

/-!
What `DecoderTop.decode` delivers in double precision, from the text of the strategies of converter_top.py to the attributes of the object that is returned.
-/

namespace Verif
open Spec PyCore Refine Framer Decoder Run

theorem headNear_same {d : MsmData} {h h' : Heap} {v : Val} (hs : SameView h h') (hd : d.HeadNear h v) : d.HeadNear h' v where
  attrs := by
    have key : ∀ q ∈ d.scaledAttrs.map (·.1), ∀ x ∈ q, Safe x := by unfold MsmData.scaledAttrs; simp only [List.map_cons, List.map_nil]; decide
    intro p hp
    rw [pathVal_same hs _ _ (key _ (List.mem_map_of_mem hp))]
    exact hd.attrs p hp
  codes := by
    have key : ∀ q ∈ d.codedAttrs.map (·.1), Safe q := by unfold MsmData.codedAttrs; simp only [List.map_cons, List.map_nil]; decide
    intro p hp
    have h1 := key _ (List.mem_map_of_mem hp)
    rw [pathVal_same hs _ _ (by
      intro x hx
      simp only [List.mem_cons, List.not_mem_nil, or_false] at hx
      rcases hx with rfl | rfl
      · decide
      · exact h1), itemVal_same' hs, itemVal_same' hs]
    exact hd.codes p hp
  signals := by
    intro n w
    rw [pathVal_same hs _ _ (by decide), itemVal_same' hs]
    exact hd.signals n w
  allSignals := by
    intro t ht n hn
    rw [pathVal_same hs _ _ (by decide), itemVal_same' hs]
    exact hd.allSignals t ht n hn

theorem tableNear_same {d : MsmData} {h h' : Heap} {v : Val} (hs : SameView h h') {x : String} (hx : Safe x) {b : Rat} {val : Nat → Nat → Option Rat}
    (hd : d.TableNear h v x b val) : d.TableNear h' v x b val := by
  refine ⟨fun n s w hw => hd.1 n s w ?_, fun t ht n hn s hs' y hy => ?_⟩
  · rwa [entryVal_same hs hx] at hw
  · rw [entryVal_same hs hx]
    exact hd.2 t ht n hn s hs' y hy

theorem scaledNear_same {d : MsmData} {h h' : Heap} {v : Val} (hs : SameView h h') (hd : d.ScaledNear h v) : d.ScaledNear h' v where
  head := headNear_same hs hd.head
  rng := tableNear_same hs (by decide) hd.rng
  phs := tableNear_same hs (by decide) hd.phs
  dpl := tableNear_same hs (by decide) hd.dpl
  c2n := tableShown_same hs (by decide) hd.c2n
  ltm := tableShown_same hs (by decide) hd.ltm
  hca := tableShown_same hs (by decide) hd.hca

theorem namedNear_same {names : List String} {vals : List Val} (hn : ∀ x ∈ names, Safe x) {h h' : Heap} {v : Val} (hs : SameView h h') (hd : NamedNear names vals h v) :
    NamedNear names vals h' v := by
  unfold NamedNear at hd ⊢
  induction hd with
  | nil => exact .nil
  | cons h1 _ ih =>
    refine .cons ?_ (ih (fun x hx => hn x (List.mem_cons_of_mem _ hx)))
    rw [pathVal_same hs _ _ (by intro y hy; rw [List.mem_singleton.1 hy]; exact hn _ List.mem_cons_self)]
    exact h1

theorem heldNear_same {m : BaseMsg} {f : List UInt8 → String} {h h' : Heap} {v : Val} (hs : SameView h h') (hd : m.HeldNear f h v) : m.HeldNear f h' v := by
  obtain ⟨fc, ft, fx, h1, h2, h3, h4, h5, h6⟩ := hd
  refine ⟨fc, ft, fx, h1, h2, h3, isOfClass_same hs h4, fun p hp => ?_, tables_same hs h6⟩
  rw [pathVal_same hs _ _ (by intro y hy; rw [List.mem_singleton.1 hy]; exact baseAttrs_safe _ _ _ _ m p hp)]
  exact h5 p hp

section
variable {r : Rat → Rat} (hr : Nearest r)
variable {all : Bool} {a K : Nat} {fed got : List Bytes} {dec : List (Bytes × Val)} {h : Heap}

/-- **C104** of every frame that carries an MSM4 … MSM7 content whose signals have RINEX codes a decoder in use, executed in double precision, delivers a new object that
shows the header and exactly the valid observables, near their values. -/
theorem C104_scaled (hu : @InUse (doubleArith hr) all false a K fed got dec h) (d : MsmData) (hw : d.WF) (hk : 4 ≤ d.k) (hs : d.SignalsKnown) (m : Bytes)
    (hv : ValidFrame m) (hc : d.CarriedBy m) : @Delivers (doubleArith hr) a h m d.ScaledNear := by
  let _ := doubleArith hr
  obtain ⟨f, h1, h2, h3, h4⟩ := msm_family hw hc all
  exact deliver hu h1 h2 h3 (fun _ _ _ => scaledNear_same) (fun g e he => C101_scaled hr g e.sub e.fn (he.msm h4) d hw hk hs m hv hc)

/-- **C104** a message with a signal that has no RINEX code is refused. -/
theorem C104_unknown (hu : @InUse (doubleArith hr) all false a K fed got dec h) (d : MsmData) (hw : d.WF) (hk : 4 ≤ d.k) (hs : ∃ t ∈ d.sigList, d.sigName t = none)
    (m : Bytes) (hv : ValidFrame m) (hc : d.CarriedBy m) : @Refuses (doubleArith hr) a h m := by
  let _ := doubleArith hr
  obtain ⟨f, h1, h2, h3, h4⟩ := msm_family hw hc all
  exact refuse hu h1 h2 h3 (fun g e he => C101_unknown hr g e.sub e.fn (he.msm h4) d hw hk hs m hv hc)

/-- **C104** conversely: what is delivered of a valid frame with the number of a multiple signal message shows a content that the frame carries. -/
theorem C104_sound (hu : @InUse (doubleArith hr) all false a K fed got dec h) (m : Bytes) (hv : ValidFrame m) (k : Nat) (hk : numberIn m = some k)
    (hf : family k = some .msm13 ∨ family k = some .msm47) : @Refuses (doubleArith hr) a h m ∨
      @Delivers (doubleArith hr) a h m (fun h' v => ∃ d : MsmData, d.WF ∧ d.CarriedBy m ∧ d.SignalsKnown ∧ d.HeadNear h' v ∧ (4 ≤ d.k → d.ScaledNear h' v)) := by
  let _ := doubleArith hr
  have key : ∀ f, family k = some f → f = .msm13 ∨ f = .msm47 → _ := fun f h1 h2 =>
    deliver_or hu hk h1 (by rcases h2 with rfl | rfl <;> cases all <;> rfl)
      (prop := fun h' v => ∃ d : MsmData, d.WF ∧ d.CarriedBy m ∧ d.SignalsKnown ∧ d.HeadNear h' v ∧ (4 ≤ d.k → d.ScaledNear h' v))
      (fun _ _ _ hs ⟨d, e1, e2, e3, e4, e5⟩ => ⟨d, e1, e2, e3, headNear_same hs e4, fun hk => scaledNear_same hs (e5 hk)⟩) (fun g e he => by
        obtain ⟨N, hN⟩ := C101_sound hr g e.sub e.fn (he.msm h2) m hv
        refine ⟨N, fun n hn => ?_⟩
        rcases hN n hn with h3 | ⟨d, b, t, e1, e2, e3, e4, -, e5, e6⟩
        · exact .inl h3
        · exact .inr ⟨b, t, e4, d, e1, e2, e3, e5, e6⟩)
  rcases hf with h1 | h1
  · exact key _ h1 (.inl rfl)
  · exact key _ h1 (.inr rfl)

/-- **C104** of every buffer that carries a base station message (of 1013 those that announce something) with texts that are UTF-8 and not empty an object is delivered that
holds the message in physical units, near the exact values. -/
theorem C104_base (hu : @InUse (doubleArith hr) true false a K fed got dec h) (m : Bytes) (b : BaseMsg) (hm : b.isEmptySchedule = false) (hc : b.CarriedBy m)
    (f : List UInt8 → String) (hf : ∀ t ∈ b.texts, t ≠ [] ∧ t = utf8 (f t)) : @Delivers (doubleArith hr) a h m (b.HeldNear f) := by
  let _ := doubleArith hr
  obtain ⟨h1, h2⟩ := number_base hc
  exact deliver hu h1 h2 rfl (fun _ _ _ => heldNear_same) (fun g e he => by rw [he.base.1]; exact C103_carried hr g e.sub he.base.2 m b hm hc f hf)

/-- **C104** any other buffer of less than 2^40 bytes with the number of a base station message is refused, in both modes. -/
theorem C104_base_other (hu : @InUse (doubleArith hr) true false a K fed got dec h) (m : Bytes) (hs : m.length < 2 ^ 40) (k : Nat) (hk : numberIn m = some k)
    (hf : family k = some .base) (hno : ∀ b : BaseMsg, b.CarriedBy m → b.isEmptySchedule = true ∨ ∃ t ∈ b.texts, t = [] ∨ ∀ s, t ≠ utf8 s) :
    @Refuses (doubleArith hr) a h m := by
  let _ := doubleArith hr
  have hl : 5 ≤ m.length := by
    unfold numberIn at hk
    by_contra hc
    rw [if_pos (by omega)] at hk
    cases hk
  exact refuse hu hk hf rfl (fun g e he => by rw [he.base.1]; exact C103_other hr g e.sub he.base.2 m hl hs hno)

theorem C104_base_other_bare (hu : @InUse (doubleArith hr) true true a K fed got dec h) (m : Bytes) (hs : m.length < 2 ^ 40) (k : Nat) (hk : numberIn m = some k)
    (hf : family k = some .base) (hno : ∀ b : BaseMsg, b.CarriedBy m → b.isEmptySchedule = true) : @Refuses (doubleArith hr) a h m := by
  let _ := doubleArith hr
  have hl : 5 ≤ m.length := by
    unfold numberIn at hk
    by_contra hc
    rw [if_pos (by omega)] at hk
    cases hk
  exact refuse hu hk hf rfl (fun g e he => by rw [he.base.1]; exact C103_other_bare hr g e.sub he.base.2 m hl hs hno)

/-- **C105** of every message that carries an ephemeris of a type other than QZSS an object is delivered, and each named attribute of it is the integer of its field times the
resolution of the standard, exactly but for the two group delays of BeiDou. (Missing: QZSS, C100_qzss_violated, which holds for every arithmetic.) -/
theorem C105_eph_partial (hu : @InUse (doubleArith hr) true false a K fed got dec h) (m : Bytes) (o : Eph.Obj Int) (hq : ∀ e, o ≠ .qzs e) (hn : NumOk o)
    (hc : CarriesEph m o) : @Delivers (doubleArith hr) a h m (NamedNear (namesOf o) ((scaledVals (tableOf o) (valsOf o)).map pyNumVal)) := by
  let _ := doubleArith hr
  exact deliver hu (number_eph hn hc) (family_eph o) rfl (fun _ _ _ => namedNear_same (namesOf_safe o)) (fun g e he => by
    rw [he.eph.1]
    exact C102_scaled_partial hr g e.sub he.eph.2 m o hq hn hc)

/-- **C105** MSM1 … MSM3. (Missing: the contents whose length is estimated wrongly, and MSM3 with an invalid pseudorange.) -/
theorem C105_msm_partial (hu : @InUse (doubleArith hr) all false a K fed got dec h) (d : MsmData) (hw : d.WF) (hk : d.k ≤ 3) (hs : d.SignalsKnown)
    (h3 : d.k = 3 → ∀ x ∈ d.rngFine, x ≠ -(2 ^ 14)) (hE : LengthEstimateRight d) (m : Bytes) (hv : ValidFrame m) (hc : d.CarriedBy m) :
    @Delivers (doubleArith hr) a h m d.ScaledNear := by
  let _ := doubleArith hr
  obtain ⟨f, h1, h2, h4, h5⟩ := msm_family hw hc all
  exact deliver hu h1 h2 h4 (fun _ _ _ => scaledNear_same) (fun g e he => C105_text_partial hr g e.sub e.fn (he.msm h5) d hw hk hs h3 hE m hv hc)

end

/-! ## Concrete cases -/

/-- The rounding of IEEE 754. A decoder that has been used delivers the content `exMsm5` of C21, a base station with extreme coordinates and an ephemeris of GLONASS. -/
example (c x : Bytes) : ∃ a h, @Delivers (doubleArith ieee_nearest) a h exMsm5.toFrame exMsm5.ScaledNear ∧
    @Delivers (doubleArith ieee_nearest) a h (messageFrame exRefMsg.layout exRefMsg.vals) (exRefMsg.HeldNear (fun _ => "")) ∧
    @Delivers (doubleArith ieee_nearest) a h ([0xD3, 0, 45] ++ bytesOfBits 45 (encode (fieldsOf T1020) (vals1020 sampleGlo)) ++ [1, 2, 3])
      (NamedNear (namesOf (.glo sampleGlo)) ((scaledVals (tableOf (.glo sampleGlo)) (valsOf (.glo sampleGlo))).map pyNumVal)) ∧
    ∃ K ms v, @InUse (doubleArith ieee_nearest) true false a K [c] ms [(x, v)] h := by
  let _ := doubleArith ieee_nearest
  obtain ⟨a, K, ms, v, h, hu⟩ := inUse_some true false c x
  have h1 : exMsm5.WF := by decide +kernel
  have h2 : exMsm5.InRange := by unfold MsmData.InRange; decide +kernel
  refine ⟨a, h, C104_scaled _ hu exMsm5 h1 (by decide) (by decide +kernel) _ (msm_frame h1 h2).1 (msm_frame h1 h2).2,
    C104_base _ hu _ exRefMsg rfl (C33_C37_encodable _ (by decide +kernel)).1 _ (by simp [BaseMsg.texts, exRefMsg]),
    C105_eph_partial _ hu _ (.glo sampleGlo) (by intro e; simp) rfl ?_, K, ms, v, hu⟩
  exact ⟨[0xD3, 0, 45], _, [1, 2, 3], encode (fieldsOf T1020) (vals1020 sampleGlo), [], rfl, rfl, rfl, by decide +kernel, encodes_encode (by decide)⟩

end Verif
