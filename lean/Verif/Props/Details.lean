import Verif.Lemmas.Details
import Verif.Props.MsmScaled

/-!
# C83: lost observables are reported in the log
-/

namespace Verif
open Spec Msm

/-! ## The lines of a message -/

/-- **C83** The lines about single observables of a multiple signal message, in order: exactly those of the specification if the content
is accepted and all its signals are known, otherwise none. -/
theorem C83_lines (d : MsmData) (hw : d.WF) (hE : LengthEstimateRight d) (buf : Bytes) (hv : ValidFrame buf) (hc : d.CarriedBy buf)
    (hs : d.SignalsKnown) : msmDetails false buf = d.reports := by
  unfold msmDetails
  rw [(C21_C22_bare_iff buf hv d.bareObj).2 ⟨d, hw, hc, hE, rfl⟩]
  simp only [Bool.false_eq_true, if_false, convertLog_known hw (ranged_carried hw hc) hs]

/-- **C83** No line without a scaled object, and none in bare mode. -/
theorem C83_silent (buf : Bytes) (hv : ValidFrame buf) :
    msmDetails true buf = [] ∧ (decodeMsm17 false buf = none → msmDetails false buf = []) := by
  constructor
  · unfold msmDetails
    cases Msm.decode buf <;> rfl
  · intro h
    unfold decodeMsm17 at h
    unfold msmDetails
    cases hb : Msm.decode buf with
    | error e => rfl
    | ok b =>
      rw [hb] at h
      obtain ⟨d, hw, hc, hE, rfl⟩ := (C21_C22_bare_iff buf hv b).1 hb
      simp only [Bool.false_eq_true, if_false] at h ⊢
      by_cases hs : d.SignalsKnown
      · rw [convert_known hw (ranged_carried hw hc) hs] at h
        cases h
      · obtain ⟨e, he⟩ := convertLog_unknown hw hs
        rw [he]

/-! ## Membership -/

theorem mem_reports {d : MsmData} {l : Detail} : l ∈ d.reports ↔ ∃ s ∈ d.satList,
    (d.rngMs[d.satRow s]? = some 255 ∧ l = .noCoarseRange (gnssLetter d.g) s ((d.cells.take (d.satRow s * d.nsig)).count true)) ∨
    (marked (msmWidths d.k).rate d.rateRough[d.satRow s]? = true ∧
      l = .noCoarseDoppler (gnssLetter d.g) s ((d.cells.take (d.satRow s * d.nsig)).count true)) ∨
    ∃ t ∈ d.sigList, ∃ i, d.cellIdx s t = some i ∧ ∃ n, d.sigName t = some n ∧
      (((d.rough s).isSome = true ∧ marked (msmWidths d.k).fine d.rngFine[i]? = true ∧ l = .noFineRange (gnssLetter d.g) s n) ∨
       ((d.rough s).isSome = true ∧ d.sticky s t = false ∧ marked (msmWidths d.k).phs d.phsFine[i]? = true ∧
          l = .noFinePhase (gnssLetter d.g) s n) ∨
       (d.roughRateOk s = true ∧ marked (msmWidths d.k).fineRate d.rateFine[i]? = true ∧ l = .noFineDoppler (gnssLetter d.g) s n)) := by
  have hone : ∀ (c : Prop) [Decidable c] (x : Detail), l ∈ (if c then [x] else []) ↔ c ∧ l = x := by
    intro c _ x
    by_cases h : c <;> simp [h]
  unfold MsmData.reports MsmData.satReports
  simp only [List.mem_flatMap, List.mem_append, hone]
  apply exists_congr
  intro s
  apply and_congr_right
  intro _
  rw [or_assoc]
  apply or_congr_right
  apply or_congr_right
  apply exists_congr
  intro t
  apply and_congr_right
  intro _
  unfold MsmData.cellReports
  cases hi : d.cellIdx s t with
  | none => simp
  | some i =>
    cases hn : d.sigName t with
    | none => simp
    | some n =>
      simp only [List.mem_append, hone, Option.some.injEq, exists_eq_left', Bool.and_eq_true, Bool.not_eq_true']
      tauto

/-! ## Soundness and completeness -/

/-- **C83** Nothing false is reported. -/
theorem C83_sound (d : MsmData) (hw : d.WF) (hE : LengthEstimateRight d) (buf : Bytes) (hv : ValidFrame buf) (hc : d.CarriedBy buf)
    (hs : d.SignalsKnown) : ∀ l ∈ msmDetails false buf, d.LineTrue l := by
  intro l hl
  rw [C83_lines d hw hE buf hv hc hs, mem_reports] at hl
  obtain ⟨s, h1, ⟨h2, rfl⟩ | ⟨h2, rfl⟩ | ⟨t, ht, i, hi, n, hn, ⟨-, h2, rfl⟩ | ⟨-, -, h2, rfl⟩ | ⟨-, h2, rfl⟩⟩⟩ := hl
  · exact ⟨rfl, h1, h2, rfl⟩
  · exact ⟨rfl, h1, h2, rfl⟩
  · exact ⟨rfl, h1, t, ht, hn, i, hi, h2⟩
  · exact ⟨rfl, h1, t, ht, hn, i, hi, h2⟩
  · exact ⟨rfl, h1, t, ht, hn, i, hi, h2⟩

theorem validInt_none (w : Nat) (x : Int) : validInt w x = none ↔ marked w (some x) = true := by
  unfold validInt marked
  by_cases e : x = -(2 ^ (w - 1)) <;> simp [e]

theorem cellIdx_lt {d : MsmData} {s t i : Nat} (h : d.cellIdx s t = some i) : i < d.ncell := by
  unfold MsmData.cellIdx at h
  split at h
  · rename_i hc
    cases h
    have hl : d.cellPos s t < d.cells.length := by
      by_contra hn
      rw [List.getD_eq_getElem?_getD, List.getElem?_eq_none (by omega)] at hc
      simp at hc
    unfold MsmData.ncell
    conv_rhs => rw [← List.take_append_drop (d.cellPos s t) d.cells, List.count_append, List.drop_eq_getElem_cons hl]
    have : d.cells[d.cellPos s t] = true := by
      rw [List.getD_eq_getElem?_getD, List.getElem?_eq_getElem hl] at hc
      exact hc
    rw [this, List.count_cons_self]
    omega
  · cases h

theorem satRow_lt {d : MsmData} {s : Nat} (h : s ∈ d.satList) : d.satRow s < d.nsat := by
  have hsat : d.satList = (List.range d.nsat).map (fun a => d.satList.getD a 0) := setNumbers_range d.sats
  rw [hsat, List.mem_map] at h
  obtain ⟨a, ha, rfl⟩ := h
  rw [satRow_at (by simpa using ha)]
  simpa using ha

/-- The rough range is missing if and only if a line about it is there. -/
theorem rough_line {d : MsmData} (hw : d.WF) {s : Nat} (hs : s ∈ d.satList) :
    d.rough s = none ↔ d.rngMs[d.satRow s]? = some 255 := by
  have hlt := satRow_lt hs
  by_cases hk : d.k ≤ 3
  · obtain ⟨w2, -⟩ := widths13 (k := d.k) ⟨hw.k.1, hk⟩
    have w0 : (msmWidths d.k).ms = 0 := by
      have := hw.k.1
      have : d.k = 1 ∨ d.k = 2 ∨ d.k = 3 := by omega
      rcases this with e | e | e <;> rw [e] <;> decide
    have l1 := hw.rngMs
    rw [w0] at l1
    have e1 : d.rngMs = [] := List.length_eq_zero_iff.1 l1
    have l2 := hw.rngRough
    rw [colLen_ne w2] at l2
    unfold MsmData.rough
    rw [e1, getElem?_getD (l2 ▸ hlt) 0]
    simp [hk]
  · obtain ⟨w1, w2, -⟩ := widths47 (k := d.k) ⟨by omega, hw.k.2⟩
    have l1 := hw.rngMs
    rw [colLen_ne w1] at l1
    have l2 := hw.rngRough
    rw [colLen_ne w2] at l2
    unfold MsmData.rough
    simp only [Option.bind_eq_bind, getElem?_getD (l2 ▸ hlt) 0, getElem?_getD (l1 ▸ hlt) 0, Option.bind_some, hk, if_false]
    generalize d.rngMs.getD (d.satRow s) 0 = m
    by_cases e : m = 255 <;> simp [e]

/-- **C83** Pseudoranges (all messages that carry them, that is, all but MSM2): for a cell of the message the pseudorange is missing
in the product if and only if a line accounts for it. -/
theorem C83_range (d : MsmData) (hw : d.WF) (hE : LengthEstimateRight d) (buf : Bytes) (hv : ValidFrame buf) (hc : d.CarriedBy buf)
    (hs : d.SignalsKnown) (hk : d.k ≠ 2) (r : ObservablesMSM) (hr : decodeMsm17 false buf = some (.inr r)) (s t : Nat) (n : String)
    (hss : s ∈ d.satList) (ht : t ∈ d.sigList) (hn : d.sigName t = some n) (hcell : (d.cellIdx s t).isSome = true) :
    get2 r.obs.rng n s = none ↔ ∃ l ∈ msmDetails false buf, AccountsRange (gnssLetter d.g) s n l := by
  have hr' := (C24_C27_scaled_iff buf hv _).2 (Or.inl ⟨d, hw, hc, hE, rfl⟩)
  rw [hr, if_pos hs] at hr'
  cases hr'
  rw [C83_lines d hw hE buf hv hc hs]
  have hobs : (codeObs d).rng = d.table d.rngVal := by
    unfold codeObs
    split <;> rfl
  dsimp only
  rw [hobs, get2_table_at d _ ht hss hn]
  obtain ⟨i, hi⟩ := Option.isSome_iff_exists.1 hcell
  have hlt := cellIdx_lt hi
  have hf : (msmWidths d.k).fine ≠ 0 := by
    by_cases h3 : d.k ≤ 3
    · have := (widths13 (k := d.k) ⟨hw.k.1, h3⟩).2.2.1 hk; omega
    · exact (widths47 (k := d.k) ⟨by omega, hw.k.2⟩).2.2.1
  have l4 := hw.rngFine
  rw [colLen_ne hf] at l4
  have hval : d.rngVal s t = none ↔ d.rough s = none ∨ marked (msmWidths d.k).fine d.rngFine[i]? = true := by
    unfold MsmData.rngVal
    simp only [Option.bind_eq_bind, hi, Option.bind_some, getElem?_getD (l4 ▸ hlt) 0]
    rw [← validInt_none]
    cases d.rough s <;> cases validInt (msmWidths d.k).fine (d.rngFine.getD i 0) <;> simp
  rw [hval, rough_line hw hss]
  constructor
  · intro h
    by_cases h1 : d.rngMs[d.satRow s]? = some 255
    · exact ⟨_, mem_reports.2 ⟨s, hss, Or.inl ⟨h1, rfl⟩⟩, rfl, rfl⟩
    · rcases h with h | h
      · exact absurd h h1
      · refine ⟨.noFineRange (gnssLetter d.g) s n, mem_reports.2 ⟨s, hss, Or.inr (Or.inr ⟨t, ht, i, hi, n, hn, Or.inl ⟨?_, h, rfl⟩⟩)⟩,
          rfl, rfl, rfl⟩
        rw [Option.isSome_iff_ne_none]
        exact fun h0 => h1 ((rough_line hw hss).1 h0)
  · rintro ⟨l, hl, ha⟩
    rw [mem_reports] at hl
    obtain ⟨s', h1, ⟨h2, rfl⟩ | ⟨h2, rfl⟩ | ⟨t', ht', i', hi', n', hn', ⟨-, h2, rfl⟩ | ⟨-, -, h2, rfl⟩ | ⟨-, h2, rfl⟩⟩⟩ := hl
    · obtain ⟨-, rfl⟩ := ha
      exact Or.inl h2
    · exact ha.elim
    · obtain ⟨-, rfl, rfl⟩ := ha
      have : t' = t := sigName_inj hn' hn
      subst this
      rw [hi] at hi'
      cases hi'
      exact Or.inr h2
    · exact ha.elim
    · exact ha.elim

/-- **C83, partial**: phase ranges of all messages that carry them but MSM3. Missing: MSM3 with invalid fine pseudoranges, see
`C83_violated`. -/
theorem C83_phase_partial (d : MsmData) (hw : d.WF) (hE : LengthEstimateRight d) (buf : Bytes) (hv : ValidFrame buf)
    (hc : d.CarriedBy buf) (hs : d.SignalsKnown) (hk : d.k ≠ 1) (h3 : d.k = 3 → ∀ x ∈ d.rngFine, x ≠ -(2 ^ 14)) (r : ObservablesMSM)
    (hr : decodeMsm17 false buf = some (.inr r)) (s t : Nat) (n : String)
    (hss : s ∈ d.satList) (ht : t ∈ d.sigList) (hn : d.sigName t = some n) (hcell : (d.cellIdx s t).isSome = true) :
    get2 r.obs.phs n s = none ↔ ∃ l ∈ msmDetails false buf, AccountsPhase (gnssLetter d.g) s n l := by
  have hst : ∀ s t, d.sticky s t = false := by
    intro s t
    unfold MsmData.sticky
    by_cases hk3 : d.k = 3
    · have : d.sigList.any (fun u => decide (d.sigCol u ≤ d.sigCol t) && d.rngBad s u) = false := by
        rw [Bool.eq_false_iff]
        intro h
        obtain ⟨u, -, hu⟩ := List.any_eq_true.1 h
        rw [Bool.and_eq_true] at hu
        have h2 := hu.2
        unfold MsmData.rngBad at h2
        split at h2
        · cases h2
        · rename_i i _
          have h4 : d.rngFine[i]? = some (-(2 ^ ((msmWidths d.k).fine - 1))) := by simpa using h2
          have h5 := List.mem_of_getElem? h4
          have := h3 hk3 _ h5
          rw [hk3] at this
          exact this rfl
      rw [this, Bool.and_false]
    · have : (d.k == 3) = false := by simpa using hk3
      rw [this, Bool.false_and]
  have hr' := (C24_C27_scaled_iff buf hv _).2 (Or.inl ⟨d, hw, hc, hE, rfl⟩)
  rw [hr, if_pos hs] at hr'
  cases hr'
  rw [C83_lines d hw hE buf hv hc hs]
  have hobs : (codeObs d).phs = d.table d.phsVal := by
    unfold codeObs
    split
    · unfold MsmData.codeObs13
      simp only [hst, Bool.false_eq_true, if_false]
    · rfl
  dsimp only
  rw [hobs, get2_table_at d _ ht hss hn]
  obtain ⟨i, hi⟩ := Option.isSome_iff_exists.1 hcell
  have hlt := cellIdx_lt hi
  have hf : (msmWidths d.k).phs ≠ 0 := by
    by_cases h3 : d.k ≤ 3
    · have := ((widths13 (k := d.k) ⟨hw.k.1, h3⟩).2.2.2.2 hk).1; omega
    · exact (widths47 (k := d.k) ⟨by omega, hw.k.2⟩).2.2.2.1
  have l4 := hw.phsFine
  rw [colLen_ne hf] at l4
  have hval : d.phsVal s t = none ↔ d.rough s = none ∨ marked (msmWidths d.k).phs d.phsFine[i]? = true := by
    unfold MsmData.phsVal
    simp only [Option.bind_eq_bind, hi, Option.bind_some, getElem?_getD (l4 ▸ hlt) 0]
    rw [← validInt_none]
    cases d.rough s <;> cases validInt (msmWidths d.k).phs (d.phsFine.getD i 0) <;> simp
  rw [hval, rough_line hw hss]
  constructor
  · intro h
    by_cases h1 : d.rngMs[d.satRow s]? = some 255
    · exact ⟨_, mem_reports.2 ⟨s, hss, Or.inl ⟨h1, rfl⟩⟩, rfl, rfl⟩
    · rcases h with h | h
      · exact absurd h h1
      · refine ⟨.noFinePhase (gnssLetter d.g) s n,
          mem_reports.2 ⟨s, hss, Or.inr (Or.inr ⟨t, ht, i, hi, n, hn, Or.inr (Or.inl ⟨?_, hst s t, h, rfl⟩)⟩)⟩, rfl, rfl, rfl⟩
        rw [Option.isSome_iff_ne_none]
        exact fun h0 => h1 ((rough_line hw hss).1 h0)
  · rintro ⟨l, hl, ha⟩
    rw [mem_reports] at hl
    obtain ⟨s', h1, ⟨h2, rfl⟩ | ⟨h2, rfl⟩ | ⟨t', ht', i', hi', n', hn', ⟨-, h2, rfl⟩ | ⟨-, -, h2, rfl⟩ | ⟨-, h2, rfl⟩⟩⟩ := hl
    · obtain ⟨-, rfl⟩ := ha
      exact Or.inl h2
    · exact ha.elim
    · exact ha.elim
    · obtain ⟨-, rfl, rfl⟩ := ha
      have : t' = t := sigName_inj hn' hn
      subst this
      rw [hi] at hi'
      cases hi'
      exact Or.inr h2
    · exact ha.elim

/-- **C83** Phase range rates (MSM5 and MSM7). -/
theorem C83_rate (d : MsmData) (hw : d.WF) (buf : Bytes) (hv : ValidFrame buf) (hc : d.CarriedBy buf)
    (hs : d.SignalsKnown) (hk : d.k = 5 ∨ d.k = 7) (r : ObservablesMSM) (hr : decodeMsm17 false buf = some (.inr r)) (s t : Nat)
    (n : String) (hss : s ∈ d.satList) (ht : t ∈ d.sigList) (hn : d.sigName t = some n) (hcell : (d.cellIdx s t).isSome = true) :
    get2 r.obs.dpl n s = none ↔ ∃ l ∈ msmDetails false buf, AccountsRate (gnssLetter d.g) s n l := by
  have hE : LengthEstimateRight d := ⟨by omega, by omega⟩
  have hr' := (C24_C27_scaled_iff buf hv _).2 (Or.inl ⟨d, hw, hc, hE, rfl⟩)
  rw [hr, if_pos hs] at hr'
  cases hr'
  rw [C83_lines d hw hE buf hv hc hs]
  have hobs : (codeObs d).dpl = d.table d.dplVal := by
    unfold codeObs
    rw [if_neg (by omega)]
    rfl
  dsimp only
  rw [hobs, get2_table_at d _ ht hss hn]
  obtain ⟨i, hi⟩ := Option.isSome_iff_exists.1 hcell
  have hlt := cellIdx_lt hi
  have hrow := satRow_lt hss
  obtain ⟨v1, v2⟩ := (widths57 hw.k).1 hk
  have l3 := hw.rateRough
  have l9 := hw.rateFine
  rw [colLen_ne (by omega)] at l3 l9
  have hok : d.roughRateOk s = !marked (msmWidths d.k).rate d.rateRough[d.satRow s]? := by
    unfold MsmData.roughRateOk
    rw [getElem?_getD (l3 ▸ hrow) 0]
  have hval : d.dplVal s t = none ↔ marked (msmWidths d.k).rate d.rateRough[d.satRow s]? = true ∨
      marked (msmWidths d.k).fineRate d.rateFine[i]? = true := by
    unfold MsmData.dplVal
    simp only [Option.bind_eq_bind, hi, Option.bind_some, getElem?_getD (l3 ▸ hrow) 0, getElem?_getD (l9 ▸ hlt) 0]
    rw [← validInt_none, ← validInt_none]
    cases validInt (msmWidths d.k).rate (d.rateRough.getD (d.satRow s) 0) <;>
      cases validInt (msmWidths d.k).fineRate (d.rateFine.getD i 0) <;> simp
  rw [hval]
  constructor
  · intro h
    by_cases h1 : marked (msmWidths d.k).rate d.rateRough[d.satRow s]? = true
    · exact ⟨_, mem_reports.2 ⟨s, hss, Or.inr (Or.inl ⟨h1, rfl⟩)⟩, rfl, rfl⟩
    · rcases h with h | h
      · exact absurd h h1
      · refine ⟨.noFineDoppler (gnssLetter d.g) s n,
          mem_reports.2 ⟨s, hss, Or.inr (Or.inr ⟨t, ht, i, hi, n, hn, Or.inr (Or.inr ⟨?_, h, rfl⟩)⟩)⟩, rfl, rfl, rfl⟩
        rw [hok, Bool.eq_false_iff.2 h1]
        rfl
  · rintro ⟨l, hl, ha⟩
    rw [mem_reports] at hl
    obtain ⟨s', h1, ⟨h2, rfl⟩ | ⟨h2, rfl⟩ | ⟨t', ht', i', hi', n', hn', ⟨-, h2, rfl⟩ | ⟨-, -, h2, rfl⟩ | ⟨-, h2, rfl⟩⟩⟩ := hl
    · exact ha.elim
    · obtain ⟨-, rfl⟩ := ha
      exact Or.inl h2
    · exact ha.elim
    · exact ha.elim
    · obtain ⟨-, rfl, rfl⟩ := ha
      have : t' = t := sigName_inj hn' hn
      subst this
      rw [hi] at hi'
      cases hi'
      exact Or.inr h2

/-- **C83 violated**: the second cell of `exSticky` has a valid rough range and a valid fine phase range, its phase range is missing in
the product, and no line accounts for it. (The only line says that the pseudorange of the first cell is invalid.) -/
theorem C83_violated : ∃ (buf : Bytes) (r : ObservablesMSM), ValidFrame buf ∧ exSticky.CarriedBy buf ∧
    decodeMsm17 false buf = some (.inr r) ∧ exSticky.phsVal 5 3 = some ((512 / 1024 + 60 / 2 ^ 29) * lightMs) ∧
    exSticky.sigName 3 = some "1P" ∧ get2 r.obs.phs "1P" 5 = none ∧ msmDetails false buf = [.noFineRange "G" 5 "1C"] ∧
    ¬ ∃ l ∈ msmDetails false buf, AccountsPhase "G" 5 "1P" l := by
  have h1 : exSticky.WF := by decide +kernel
  have h2 : exSticky.InRange := by unfold MsmData.InRange; decide +kernel
  have h3 : exSticky.SignalsKnown := by decide +kernel
  have h4 : LengthEstimateRight exSticky := by decide +kernel
  have hl := C83_lines exSticky h1 h4 _ (msm_frame h1 h2).1 (msm_frame h1 h2).2 h3
  have hl' : exSticky.reports = [.noFineRange "G" 5 "1C"] := by decide +kernel
  rw [hl'] at hl
  refine ⟨exSticky.toFrame, _, (msm_frame h1 h2).1, (msm_frame h1 h2).2,
    C25_exact exSticky h1 (by decide) h3 h4 _ (msm_frame h1 h2).1 (msm_frame h1 h2).2, ?_, ?_, ?_, hl, ?_⟩
  · decide +kernel
  · decide +kernel
  · decide +kernel
  · rw [hl]
    simp [AccountsPhase]

/-- **C83 violated**, in general: whenever the fine pseudorange of a cell of an MSM3 message is marked invalid, the phase ranges of this
and all later cells of the satellite disappear without a line that accounts for them. -/
theorem C83_violated_general (d : MsmData) (hw : d.WF) (hk : d.k = 3) (hs : d.SignalsKnown) (hE : LengthEstimateRight d)
    (buf : Bytes) (hv : ValidFrame buf) (hc : d.CarriedBy buf) (s t u : Nat) (n : String) (hss : s ∈ d.satList)
    (ht : t ∈ d.sigList) (hu : u ∈ d.sigList) (hn : d.sigName t = some n) (hut : d.sigCol u ≤ d.sigCol t)
    (hbad : d.rngBad s u = true) :
    ∃ r : ObservablesMSM, decodeMsm17 false buf = some (.inr r) ∧ get2 r.obs.phs n s = none ∧
      ¬ ∃ l ∈ msmDetails false buf, AccountsPhase (gnssLetter d.g) s n l := by
  obtain ⟨r, h1, h2⟩ := C25_violated_general d hw hk hs hE buf hv hc s t u n hss ht hu hn hut hbad
  refine ⟨r, h1, h2, ?_⟩
  rw [C83_lines d hw hE buf hv hc hs]
  have hst : d.sticky s t = true := by
    unfold MsmData.sticky
    rw [hk, List.any_eq_true.2 ⟨u, hu, by rw [hbad]; simpa using hut⟩]
    rfl
  rintro ⟨l, hl, ha⟩
  rw [mem_reports] at hl
  obtain ⟨s', h3, ⟨h4, rfl⟩ | ⟨h4, rfl⟩ | ⟨t', ht', i', hi', n', hn', ⟨-, h4, rfl⟩ | ⟨-, h5, h4, rfl⟩ | ⟨-, h4, rfl⟩⟩⟩ := hl
  · obtain ⟨-, rfl⟩ := ha
    have := hw.rngMs
    rw [hk] at this
    have e1 : d.rngMs = [] := List.length_eq_zero_iff.1 this
    rw [e1] at h4
    simp at h4
  · exact ha.elim
  · exact ha.elim
  · obtain ⟨-, rfl, rfl⟩ := ha
    have : t' = t := sigName_inj hn' hn
    subst this
    rw [hst] at h5
    cases h5
  · exact ha.elim

/-- The lines of `exMsm5`: satellite 3 lost everything by its fine values, satellite 11 its ranges by the rough value. -/
example : exMsm5.WF ∧ exMsm5.SignalsKnown ∧ LengthEstimateRight exMsm5 ∧ exMsm5.reports =
    [.noFineRange "E" 3 "1C", .noFinePhase "E" 3 "1C", .noFineDoppler "E" 3 "1C", .noCoarseRange "E" 11 1] := by
  decide +kernel

/-! ## Each line once -/

theorem cellReports_nodup (d : MsmData) (s t : Nat) : (d.cellReports s t).Nodup := by
  unfold MsmData.cellReports
  split
  · split <;> split <;> split <;> simp
  · simp

/-- **C83** No line is repeated within a message. -/
theorem C83_nodup (d : MsmData) (hw : d.WF) (hE : LengthEstimateRight d) (buf : Bytes) (hv : ValidFrame buf) (hc : d.CarriedBy buf)
    (hs : d.SignalsKnown) : (msmDetails false buf).Nodup := by
  rw [C83_lines d hw hE buf hv hc hs]
  have hsat : ∀ s l, l ∈ d.satReports s → match l with
      | .noCoarseRange _ s' _ => s' = s
      | .noCoarseDoppler _ s' _ => s' = s
      | .noFineRange _ s' _ => s' = s
      | .noFinePhase _ s' _ => s' = s
      | .noFineDoppler _ s' _ => s' = s
      | .biasUndefined _ _ => False := by
    intro s l hl
    unfold MsmData.satReports at hl
    simp only [List.mem_append, List.mem_flatMap] at hl
    rcases hl with (hl | hl) | ⟨t, -, hl⟩
    · split at hl
      · rw [List.mem_singleton] at hl; subst hl; rfl
      · cases hl
    · split at hl
      · rw [List.mem_singleton] at hl; subst hl; rfl
      · cases hl
    · unfold MsmData.cellReports at hl
      split at hl
      · simp only [List.mem_append] at hl
        rcases hl with (hl | hl) | hl <;> split at hl <;>
          first
          | (rw [List.mem_singleton] at hl; subst hl; rfl)
          | cases hl
      · cases hl
  have hcell : ∀ s t l, l ∈ d.cellReports s t → match l with
      | .noCoarseRange _ _ _ => False
      | .noCoarseDoppler _ _ _ => False
      | .noFineRange _ _ n => d.sigName t = some n
      | .noFinePhase _ _ n => d.sigName t = some n
      | .noFineDoppler _ _ n => d.sigName t = some n
      | .biasUndefined _ _ => False := by
    intro s t l hl
    unfold MsmData.cellReports at hl
    split at hl
    · rename_i hn
      simp only [List.mem_append] at hl
      rcases hl with (hl | hl) | hl <;> split at hl <;>
        first
        | (rw [List.mem_singleton] at hl; subst hl; exact hn)
        | cases hl
    · cases hl
  unfold MsmData.reports
  rw [List.nodup_flatMap]
  constructor
  · intro s _
    unfold MsmData.satReports
    have hrow : (d.sigList.flatMap (d.cellReports s)).Nodup := by
      rw [List.nodup_flatMap]
      refine ⟨fun t _ => cellReports_nodup d s t, (setNumbers_nodup d.sigs).imp ?_⟩
      intro t u htu l h1 h2
      have h1 := hcell s t l h1
      have h2 := hcell s u l h2
      cases l <;> dsimp only at h1 h2 <;> first | exact h1.elim | exact htu (sigName_inj h1 h2)
    rw [List.nodup_append]
    refine ⟨?_, hrow, ?_⟩
    · split <;> split <;> simp
    · intro l h1 m h2 e
      subst e
      rw [List.mem_flatMap] at h2
      obtain ⟨t, -, h2⟩ := h2
      have h2 := hcell s t l h2
      rw [List.mem_append] at h1
      rcases h1 with h1 | h1 <;> split at h1 <;>
        first
        | (rw [List.mem_singleton] at h1; subst h1; exact h2)
        | cases h1
  · refine (setNumbers_nodup d.sats).imp ?_
    intro s u hsu l h1 h2
    have h1 := hsat s l h1
    have h2 := hsat u l h2
    cases l <;> dsimp only at h1 h2 <;> first | exact h1.elim | exact hsu (h1.symm.trans h2)

/-! ## Message 1230 -/

theorem biasLog_step {buf : Bytes} (o : Nat) (x : Option Int) (field : String) (rest : List (Bool × String))
    (h : readAt (biasLayout x) (bitsOf buf) o = biasVals x) (hb : o + 16 * x.isSome.toNat ≤ 8 * buf.length) :
    Base.biasLog buf 1230 o ((x.isSome, field) :: rest) =
      (if x = some (-32768) then [.biasUndefined 1230 field] else []) ++ Base.biasLog buf 1230 (o + 16 * x.isSome.toNat) rest := by
  cases x with
  | none => rfl
  | some v =>
    have e : (some v : Option Int).isSome.toNat = 1 := rfl
    rw [e] at hb ⊢
    simp only [biasLayout, readAt_S, readAt_nil, biasVals, List.cons.injEq, and_true] at h
    conv_lhs => unfold Base.biasLog
    rw [Option.isSome_some, if_pos rfl, gbs_ok (by omega) (by omega) (by omega), h]
    simp only [Option.some.injEq, Nat.mul_one]

/-- **C83** Message 1230: one line for each transmitted bias with the code 0x8000, in the order of the message, in both modes. -/
theorem C83_bias (id al : Int) (a b c d : Option Int) (buf : Bytes) (hc : (BaseMsg.m1230 id al a b c d).CarriedBy buf) :
    Base.baseDetails buf = biasReports [("L1CA", a), ("L1P", b), ("L2CA", c), ("L2P", d)] := by
  obtain ⟨hl, h1, rfl, rfl, f1, f2, f3, f4, ra, rb, rc, rd⟩ := (carried1230 _ _ _ _ _ _ _).1 hc
  obtain ⟨fa, fb, fc, fd, e0, e1, e2, e3, e4⟩ := mask4 (bitsOf buf) 52 (by rw [bitsOf_length]; omega)
  have inj : ∀ x y : Bool, x.toNat = y.toNat → x = y := by decide
  have g1 := inj _ _ (e1.symm.trans f1)
  have g2 := inj _ _ (e2.symm.trans f2)
  have g3 := inj _ _ (e3.symm.trans f3)
  have g4 := inj _ _ (e4.symm.trans f4)
  subst g1 g2 g3 g4
  obtain ⟨m1, m2, m3, m4⟩ := mask4_and a.isSome b.isSome c.isSome d.isSome
  have hn : Bits.gbu buf 24 12 = .ok 1230 := by rw [gbu_ok (by omega) (by omega) (by omega), h1]
  unfold Base.baseDetails Base.getMsgNum
  rw [hn]
  simp only [if_true]
  unfold Base.details1230
  rw [hn, ok_bind, gbu_ok (by omega) (by omega) (by omega), ok_bind, gbu_ok (by omega) (by omega) (by omega), ok_bind,
    gbu_ok (by omega) (by omega) (by omega), ok_bind, e0]
  simp only [pure_ok, m1, m2, m3, m4]
  rw [biasLog_step _ _ _ _ ra (by omega), biasLog_step _ _ _ _ rb (by omega), biasLog_step _ _ _ _ rc (by omega),
    biasLog_step _ _ _ _ rd (by omega)]
  rfl

/-- **C83** The other base station messages cause no lines about single fields. -/
theorem C83_bias_only (buf : Bytes) (h : natOfBits (slice (bitsOf buf) 24 12) ≠ 1230) : Base.baseDetails buf = [] := by
  unfold Base.baseDetails Base.getMsgNum
  cases hn : Bits.gbu buf 24 12 with
  | error e => rfl
  | ok n =>
    have := (gbu_inv hn).1
    dsimp only
    rw [if_neg (by omega)]

example : biasReports [("L1CA", some (-32768)), ("L1P", none), ("L2CA", some 32767), ("L2P", some (-32768))] =
    [.biasUndefined 1230 "L1CA", .biasUndefined 1230 "L2P"] := by decide

end Verif
