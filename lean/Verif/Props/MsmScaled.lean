import Verif.Lemmas.MsmObject
import Verif.Props.Msm

/-!
# C24–C27: scaled observables of multiple signal messages
-/

namespace Verif
open Spec Bits Msm RtcmUtil

theorem lookup_iff {κ α : Type} [BEq κ] [LawfulBEq κ] (l : List (κ × α)) (h : (l.map (·.1)).Nodup) (k : κ) (v : α) :
    List.lookup k l = some v ↔ (k, v) ∈ l := by
  induction l with
  | nil => simp
  | cons p l ih =>
    obtain ⟨a, b⟩ := p
    rw [List.map_cons, List.nodup_cons] at h
    rw [List.lookup_cons]
    by_cases e : k = a
    · subst e
      have : (k == k) = true := by simp
      rw [this]
      simp only [List.mem_cons, Prod.mk.injEq, true_and, Option.some.injEq]
      constructor
      · intro h; exact Or.inl h.symm
      · rintro (h2 | h2)
        · exact h2.symm
        · exact absurd (List.mem_map.2 ⟨_, h2, rfl⟩) h.1
    · have : (k == a) = false := by simpa using e
      rw [this, ih h.2]
      simp [e]

theorem setNumbers_nodup (l : List Bool) : (setNumbers l).Nodup := by
  unfold setNumbers
  refine List.Nodup.map (fun a b h => by simpa using h) (List.Nodup.filter _ List.nodup_range)

theorem filterMap_keys_nodup {κ α : Type} (l : List Nat) (hl : l.Nodup) (f : Nat → Option (κ × α)) (key : Nat → κ)
    (hkey : ∀ x ∈ l, ∀ p, f x = some p → p.1 = key x) (hinj : ∀ x ∈ l, ∀ y ∈ l, ∀ p q, f x = some p → f y = some q → key x = key y → x = y) :
    ((l.filterMap f).map (·.1)).Nodup := by
  induction l with
  | nil => simp
  | cons x l ih =>
    rw [List.nodup_cons] at hl
    have ih := ih hl.2 (fun y hy => hkey y (by simp [hy])) (fun y hy z hz => hinj y (by simp [hy]) z (by simp [hz]))
    rw [List.filterMap_cons]
    cases hx : f x with
    | none => exact ih
    | some p =>
      simp only [List.map_cons, List.nodup_cons]
      refine ⟨?_, ih⟩
      intro hm
      obtain ⟨q, hq, hqe⟩ := List.mem_map.1 hm
      obtain ⟨y, hy, hyq⟩ := List.mem_filterMap.1 hq
      have e1 := hkey x (by simp) p hx
      have e2 := hkey y (by simp [hy]) q hyq
      have := hinj x (by simp) y (by simp [hy]) p q hx hyq (by rw [← e1, ← e2, hqe])
      subst this
      exact hl.1 hy

theorem table_nodup {α : Type} (d : MsmData) (val : Nat → Nat → Option α) : ((d.table val).map (·.1)).Nodup := by
  unfold MsmData.table
  apply filterMap_keys_nodup _ (setNumbers_nodup _) _ (fun t => (d.sigName t).getD "")
  · intro x _ p hp
    dsimp only at hp
    split at hp
    · cases hp
    · simp only [Option.map_eq_some_iff] at hp
      obtain ⟨m, hm, rfl⟩ := hp
      rw [hm]; rfl
  · intro x hx y hy p q hp hq h
    dsimp only at hp hq h
    split at hp
    · cases hp
    · split at hq
      · cases hq
      · simp only [Option.map_eq_some_iff] at hp hq
        obtain ⟨m, hm, -⟩ := hp
        obtain ⟨m', hm', -⟩ := hq
        rw [hm, hm'] at h
        have h : m = m' := h
        subst h
        exact sigName_inj hm hm'

/-- Access to a table: the entry under a signal code and a satellite number is the value of the signal with that code and of that
satellite; there are no other entries. -/
theorem get2_table {α : Type} (d : MsmData) (val : Nat → Nat → Option α) (n : String) (s : Nat) (v : α) :
    get2 (d.table val) n s = some v ↔
      ∃ t ∈ d.sigList, d.sigName t = some n ∧ s ∈ d.satList ∧ val s t = some v := by
  have hrow : ∀ t, ((d.satList.filterMap (fun s => (val s t).map (fun v => (s, v)))).map (·.1)).Nodup := by
    intro t
    apply filterMap_keys_nodup _ (setNumbers_nodup _) _ id
    · intro x _ p hp
      simp only [Option.map_eq_some_iff] at hp
      obtain ⟨_, _, rfl⟩ := hp
      rfl
    · intro x _ y _ p q _ _ h; exact h
  have htab := table_nodup d val
  unfold get2 PyDict.get?
  rw [Option.bind_eq_some_iff]
  constructor
  · rintro ⟨e, he, hv⟩
    rw [lookup_iff _ htab] at he
    unfold MsmData.table at he
    obtain ⟨t, ht, hte⟩ := List.mem_filterMap.1 he
    dsimp only at hte
    split at hte
    · cases hte
    · simp only [Option.map_eq_some_iff, Prod.mk.injEq] at hte
      obtain ⟨m, hm, rfl, rfl⟩ := hte
      rw [lookup_iff _ (hrow t)] at hv
      obtain ⟨s', hs', hsv⟩ := List.mem_filterMap.1 hv
      simp only [Option.map_eq_some_iff, Prod.mk.injEq] at hsv
      obtain ⟨v', hv', rfl, rfl⟩ := hsv
      exact ⟨t, ht, hm, hs', hv'⟩
  · rintro ⟨t, ht, hn, hs, hv⟩
    have hmem : (s, v) ∈ d.satList.filterMap (fun s => (val s t).map (fun v => (s, v))) :=
      List.mem_filterMap.2 ⟨s, hs, by rw [hv]; rfl⟩
    refine ⟨d.satList.filterMap (fun s => (val s t).map (fun v => (s, v))), ?_, ?_⟩
    · rw [lookup_iff _ htab]
      unfold MsmData.table
      refine List.mem_filterMap.2 ⟨t, ht, ?_⟩
      dsimp only
      have : ¬ (d.satList.filterMap (fun s => (val s t).map (fun v => (s, v)))).isEmpty = true := by
        rw [List.isEmpty_iff]
        intro h0
        rw [h0] at hmem
        simp at hmem
      rw [if_neg this, hn]
      rfl
    · rw [lookup_iff _ (hrow t)]
      exact hmem

theorem get2_table_at {α : Type} (d : MsmData) (val : Nat → Nat → Option α) {n : String} {s t : Nat} (ht : t ∈ d.sigList)
    (hs : s ∈ d.satList) (hn : d.sigName t = some n) : get2 (d.table val) n s = val s t := by
  apply Option.ext
  intro v
  rw [get2_table]
  constructor
  · rintro ⟨u, hu, hun, -, hv⟩
    have : t = u := sigName_inj hn hun
    subst this
    exact hv
  · intro hv
    exact ⟨t, ht, hn, hs, hv⟩

/-! ## The complete characterisation -/

instance (d : MsmData) : Decidable d.SignalsKnown := by unfold MsmData.SignalsKnown; infer_instance

/-- **C24, C25, C27** Complete characterisation of scaled decoding of valid frames. `codeObs` is `scaledObs` for MSM4 … MSM7. -/
theorem C24_C27_scaled_iff (buf : Bytes) (hv : ValidFrame buf) (x : Option (Bare ⊕ ObservablesMSM)) :
    decodeMsm17 false buf = x ↔
      (∃ d : MsmData, d.WF ∧ d.CarriedBy buf ∧ LengthEstimateRight d ∧
        x = if d.SignalsKnown then some (.inr { d.scaledObj with obs := codeObs d }) else none) ∨
      ((¬ ∃ d : MsmData, d.WF ∧ d.CarriedBy buf ∧ LengthEstimateRight d) ∧ x = none) := by
  have hb := C21_C22_bare_iff buf hv
  have main : ∀ d : MsmData, d.WF → d.CarriedBy buf → LengthEstimateRight d → decodeMsm17 false buf =
      if d.SignalsKnown then some (.inr { d.scaledObj with obs := codeObs d }) else none := by
    intro d hw hc hE
    unfold decodeMsm17
    rw [(hb d.bareObj).2 ⟨d, hw, hc, hE, rfl⟩]
    by_cases hs : d.SignalsKnown
    · rw [if_pos hs]
      simp only [Bool.false_eq_true, if_false, convert_known hw (ranged_carried hw hc) hs]
    · rw [if_neg hs]
      obtain ⟨e, he⟩ := convert_unknown hw hs
      simp only [Bool.false_eq_true, if_false, he]
  by_cases h : ∃ d : MsmData, d.WF ∧ d.CarriedBy buf ∧ LengthEstimateRight d
  · constructor
    · rintro rfl
      obtain ⟨d, h1, h2, h3⟩ := h
      exact Or.inl ⟨d, h1, h2, h3, main d h1 h2 h3⟩
    · rintro (⟨d, h1, h2, h3, h4⟩ | ⟨h1, -⟩)
      · rw [h4]; exact main d h1 h2 h3
      · exact absurd h h1
  · have hn : decodeMsm17 false buf = none := by
      unfold decodeMsm17
      cases hx : Msm.decode buf with
      | error e => rfl
      | ok o =>
        obtain ⟨d, h1, h2, h3, -⟩ := (hb o).1 hx
        exact absurd ⟨d, h1, h2, h3⟩ h
    rw [hn]
    constructor
    · rintro rfl
      exact Or.inr ⟨h, rfl⟩
    · rintro (⟨d, h1, h2, h3, -⟩ | ⟨-, h2⟩)
      · exact absurd ⟨d, h1, h2, h3⟩ h
      · exact h2.symm

/-! ## C24 -/

/-- **C24** Scaled decoding of every valid frame that carries an MSM4 … MSM7 content with known signals yields the scaled object:
header, auxiliary data and for each observable the table of its values. -/
theorem C24_scaled (d : MsmData) (hw : d.WF) (hk : 4 ≤ d.k) (hs : d.SignalsKnown) (buf : Bytes) (hv : ValidFrame buf)
    (hc : d.CarriedBy buf) : decodeMsm17 false buf = some (.inr d.scaledObj) := by
  rw [C24_C27_scaled_iff buf hv]
  refine Or.inl ⟨d, hw, hc, ⟨by omega, by omega⟩, ?_⟩
  rw [if_pos hs]
  unfold codeObs
  rw [if_neg (by omega)]
  rfl

/-- **C24** The same for the frame that encodes the content. -/
theorem C24_roundtrip (d : MsmData) (hw : d.WF) (hr : d.InRange) (hk : 4 ≤ d.k) (hs : d.SignalsKnown) :
    decodeMsm17 false d.toFrame = some (.inr d.scaledObj) :=
  C24_scaled d hw hk hs _ (msm_frame hw hr).1 (msm_frame hw hr).2

/-- **C24** What the tables contain: an entry under signal code `n` and satellite `s` exists if and only if the message has a cell
for the signal with this code and this satellite and the value is valid; then it is computed from the data of this satellite and
this cell. -/
theorem C24_entries (d : MsmData) (n : String) (s : Nat) :
    (∀ v, get2 d.scaledObj.obs.rng n s = some v ↔ ∃ t ∈ d.sigList, d.sigName t = some n ∧ s ∈ d.satList ∧ d.rngVal s t = some v) ∧
    (∀ v, get2 d.scaledObj.obs.phs n s = some v ↔ ∃ t ∈ d.sigList, d.sigName t = some n ∧ s ∈ d.satList ∧ d.phsVal s t = some v) ∧
    (∀ v, get2 d.scaledObj.obs.dpl n s = some v ↔ ∃ t ∈ d.sigList, d.sigName t = some n ∧ s ∈ d.satList ∧ d.dplVal s t = some v) ∧
    (∀ v, get2 d.scaledObj.obs.ltm n s = some v ↔ ∃ t ∈ d.sigList, d.sigName t = some n ∧ s ∈ d.satList ∧ d.ltmVal s t = some v) ∧
    (∀ v, get2 d.scaledObj.obs.c2n n s = some v ↔ ∃ t ∈ d.sigList, d.sigName t = some n ∧ s ∈ d.satList ∧ d.c2nVal s t = some v) ∧
    (∀ v, get2 d.scaledObj.obs.hca n s = some v ↔ ∃ t ∈ d.sigList, d.sigName t = some n ∧ s ∈ d.satList ∧ d.hcaVal s t = some v) :=
  ⟨get2_table d _ n s, get2_table d _ n s, get2_table d _ n s, get2_table d _ n s, get2_table d _ n s, get2_table d _ n s⟩

/-- Galileo signals 2 and 15 are known, so the hypotheses are met by `exMsm5`. -/
example : exMsm5.SignalsKnown ∧ exMsm5.satList = [3, 11] ∧ exMsm5.sigList = [2, 15] ∧ exMsm5.sigName 2 = some "1C" ∧
    exMsm5.cellIdx 3 2 = some 0 ∧ exMsm5.cellIdx 3 15 = none ∧ exMsm5.cellIdx 11 2 = some 1 ∧ exMsm5.cellIdx 11 15 = some 2 := by
  decide +kernel

/-- Values of `exMsm5`: the fine range of satellite 3 and the rough range of satellite 11 are invalid; the phase rate of satellite
11 is valid. -/
example : exMsm5.rngVal 3 2 = none ∧ exMsm5.rngVal 11 2 = none ∧ exMsm5.dplVal 11 2 = some (8191 + 16383 / 10000) ∧
    exMsm5.c2nVal 11 15 = some 44 ∧ exMsm5.ltmVal 3 2 = some 524288 ∧ exMsm5.hcaVal 11 2 = some true := by
  decide +kernel

/-! ## C25 -/

/-- **C25, partial**: scaled decoding of MSM1 … MSM3 yields the scaled object; for MSM3 this is proved if no fine pseudorange is marked
invalid (and for MSM2 and MSM3 if the frame passes the length estimate, see C22). What is missing is MSM3 with invalid fine
pseudoranges: see `C25_violated`. -/
theorem C25_partial (d : MsmData) (hw : d.WF) (hk : d.k ≤ 3) (hs : d.SignalsKnown)
    (h3 : d.k = 3 → ∀ x ∈ d.rngFine, x ≠ -(2 ^ 14)) (hE : LengthEstimateRight d) (buf : Bytes) (hv : ValidFrame buf)
    (hc : d.CarriedBy buf) : decodeMsm17 false buf = some (.inr d.scaledObj) := by
  rw [C24_C27_scaled_iff buf hv]
  refine Or.inl ⟨d, hw, hc, hE, ?_⟩
  rw [if_pos hs]
  have hst : ∀ s t, d.sticky s t = false := by
    intro s t
    unfold MsmData.sticky
    by_cases hk3 : d.k = 3
    · have : d.sigList.any (fun u => decide (d.sigCol u ≤ d.sigCol t) && d.rngBad s u) = false := by
        rw [Bool.eq_false_iff]
        intro h
        obtain ⟨u, -, hu⟩ := List.any_eq_true.1 h
        rw [Bool.and_eq_true] at hu
        have h2 := hu.2
        unfold MsmData.rngBad at h2
        split at h2
        · cases h2
        · rename_i i _
          have h4 : d.rngFine[i]? = some (-(2 ^ ((msmWidths d.k).fine - 1))) := by simpa using h2
          have h5 := List.mem_of_getElem? h4
          have := h3 hk3 _ h5
          rw [hk3] at this
          exact this rfl
      rw [this, Bool.and_false]
    · have : (d.k == 3) = false := by simpa using hk3
      rw [this, Bool.false_and]
  have hempty : ∀ (val : Nat → Nat → Option Rat), (∀ s t, val s t = none) → d.table val = [] := by
    intro val hval
    unfold MsmData.table
    rw [List.filterMap_eq_nil_iff]
    intro t _
    have : d.satList.filterMap (fun s => (val s t).map (fun v => (s, v))) = [] := by
      rw [List.filterMap_eq_nil_iff]
      intro s _
      rw [hval]; rfl
    rw [this]
    rfl
  have hdpl : d.table d.dplVal = [] := by
    apply hempty
    intro s t
    have : d.rateRough = [] := by
      have h := hw.rateRough
      rw [(widths57 hw.k).2 (by omega)] at h
      exact List.length_eq_zero_iff.1 h
    unfold MsmData.dplVal
    rw [this]
    cases d.cellIdx s t <;> rfl
  have hc2n : d.table d.c2nVal = [] := by
    apply hempty
    intro s t
    have : d.cnr = [] := by
      have h := hw.cnr
      have h0 : (msmWidths d.k).cnr = 0 := by
        have : d.k = 1 ∨ d.k = 2 ∨ d.k = 3 := by have := hw.k; omega
        rcases this with e | e | e <;> rw [e] <;> rfl
      rw [h0] at h
      exact List.length_eq_zero_iff.1 h
    unfold MsmData.c2nVal
    rw [this]
    cases d.cellIdx s t <;> rfl
  unfold codeObs
  rw [if_pos hk]
  unfold MsmData.codeObs13 MsmData.scaledObj MsmData.scaledObs
  simp only [hst, Bool.false_eq_true, if_false, hdpl, hc2n]

/-- **C25** exactly what the code yields for MSM1 … MSM3 in all cases: phase range, lock time and half-cycle flag of an MSM3 cell are
missing if the fine pseudorange of this cell or of an earlier cell of the same satellite is marked invalid. -/
theorem C25_exact (d : MsmData) (hw : d.WF) (hk : d.k ≤ 3) (hs : d.SignalsKnown) (hE : LengthEstimateRight d) (buf : Bytes)
    (hv : ValidFrame buf) (hc : d.CarriedBy buf) :
    decodeMsm17 false buf = some (.inr { d.scaledObj with obs := d.codeObs13 }) := by
  rw [C24_C27_scaled_iff buf hv]
  refine Or.inl ⟨d, hw, hc, hE, ?_⟩
  rw [if_pos hs]
  unfold codeObs
  rw [if_pos hk]

example : exMsm3.WF ∧ exMsm3.k ≤ 3 ∧ exMsm3.SignalsKnown ∧ (∀ x ∈ exMsm3.rngFine, x ≠ -(2 ^ 14)) ∧
    exMsm3.rngVal 24 2 = some ((512 / 1024 - 5 / 2 ^ 24) * lightMs) ∧ exMsm3.ltmVal 24 2 = some 128 := by
  decide +kernel

/-- MSM3 of GPS: satellite 5, signals 2 (1C) and 3 (1P); the pseudorange of the first cell is marked invalid. -/
def exSticky : MsmData :=
  { g := 0, k := 3, station := 17, time := 1000, multiple := 0, iods := 0, steering := 0, external := 0, smoothing := 0,
    interval := 0, sats := maskOf 64 [4], sigs := maskOf 32 [1, 2], cells := [true, true], rngMs := [], extInfo := [],
    rngRough := [512], rateRough := [], rngFine := [-16384, 100], phsFine := [50, 60], lock := [3, 4], half := [0, 0], cnr := [],
    rateFine := [] }

/-- **C25 violated** The phase range stored for a cell depends on another cell: the second cell of `exSticky` has valid rough range,
fine pseudorange and fine phase range, its pseudorange is delivered, but its phase range is not, because the pseudorange of the
first cell is marked invalid. -/
theorem C25_violated : ∃ (buf : Bytes) (r : ObservablesMSM), ValidFrame buf ∧ exSticky.CarriedBy buf ∧
    decodeMsm17 false buf = some (.inr r) ∧ exSticky.phsVal 5 3 = some ((512 / 1024 + 60 / 2 ^ 29) * lightMs) ∧
    get2 r.obs.rng "1P" 5 = some ((512 / 1024 + 100 / 2 ^ 24) * lightMs) ∧ get2 r.obs.phs "1P" 5 = none := by
  have h1 : exSticky.WF := by decide +kernel
  have h2 : exSticky.InRange := by unfold MsmData.InRange; decide +kernel
  have h3 : exSticky.SignalsKnown := by decide +kernel
  have h4 : LengthEstimateRight exSticky := by decide +kernel
  refine ⟨exSticky.toFrame, _, (msm_frame h1 h2).1, (msm_frame h1 h2).2,
    C25_exact exSticky h1 (by decide) h3 h4 _ (msm_frame h1 h2).1 (msm_frame h1 h2).2, ?_, ?_, ?_⟩ <;> decide +kernel

/-- **C25 violated**, in general: in no MSM3 message is a phase range delivered for a cell of a satellite if an earlier cell of that
satellite is marked invalid. -/
theorem C25_violated_general (d : MsmData) (hw : d.WF) (hk : d.k = 3) (hs : d.SignalsKnown) (hE : LengthEstimateRight d)
    (buf : Bytes) (hv : ValidFrame buf) (hc : d.CarriedBy buf) (s t u : Nat) (n : String) (hss : s ∈ d.satList)
    (ht : t ∈ d.sigList) (hu : u ∈ d.sigList) (hn : d.sigName t = some n) (hut : d.sigCol u ≤ d.sigCol t)
    (hbad : d.rngBad s u = true) :
    ∃ r : ObservablesMSM, decodeMsm17 false buf = some (.inr r) ∧ get2 r.obs.phs n s = none := by
  refine ⟨_, C25_exact d hw (by omega) hs hE buf hv hc, ?_⟩
  show get2 (d.table _) n s = none
  rw [get2_table_at d _ ht hss hn]
  have : d.sticky s t = true := by
    unfold MsmData.sticky
    rw [hk, List.any_eq_true.2 ⟨u, hu, by rw [hbad]; simpa using hut⟩]
    rfl
  show (if d.sticky s t = true then none else d.phsVal s t) = none
  rw [if_pos this]

/-! ## C26 -/

/-- **C26** In an MSM4 … MSM7 message with known signals, an observable of an existing cell is missing if and only if its rough or
fine field carries the `invalid` code (255 for the rough range, otherwise the most negative code), or the message type has no
phase rates; lock time, CNR and half-cycle flag are never missing. -/
theorem C26_suppress (d : MsmData) (hw : d.WF) (hk : 4 ≤ d.k) (hs : d.SignalsKnown) (buf : Bytes) (hv : ValidFrame buf)
    (hc : d.CarriedBy buf) (s t i : Nat) (n : String) (hss : s ∈ d.satList) (ht : t ∈ d.sigList) (hn : d.sigName t = some n)
    (hi : d.cellIdx s t = some i) :
    ∃ r : ObservablesMSM, decodeMsm17 false buf = some (.inr r) ∧
      (get2 r.obs.rng n s = none ↔ d.rngMs[d.satRow s]? = some 255 ∨ d.rngFine[i]? = some (-(2 ^ ((msmWidths d.k).fine - 1)))) ∧
      (get2 r.obs.phs n s = none ↔ d.rngMs[d.satRow s]? = some 255 ∨ d.phsFine[i]? = some (-(2 ^ ((msmWidths d.k).phs - 1)))) ∧
      (get2 r.obs.dpl n s = none ↔ (d.k = 4 ∨ d.k = 6) ∨ d.rateRough[d.satRow s]? = some (-(2 ^ 13)) ∨
        d.rateFine[i]? = some (-(2 ^ 14))) ∧
      get2 r.obs.ltm n s ≠ none ∧ get2 r.obs.c2n n s ≠ none ∧ get2 r.obs.hca n s ≠ none := by
  refine ⟨_, C24_scaled d hw hk hs buf hv hc, ?_⟩
  have hrow : d.satRow s < d.nsat := by
    have h1 : d.satList = (List.range d.nsat).map (fun b => d.satList.getD b 0) := setNumbers_range d.sats
    rw [h1] at hss
    obtain ⟨a, ha, rfl⟩ := List.mem_map.1 hss
    have ha : a < d.nsat := by simpa using ha
    rw [satRow_at ha]
    exact ha
  have hcol : d.sigCol t < d.nsig := by
    have h1 : d.sigList = (List.range d.nsig).map (fun b => d.sigList.getD b 0) := setNumbers_range d.sigs
    rw [h1] at ht
    obtain ⟨a, ha, rfl⟩ := List.mem_map.1 ht
    have ha : a < d.nsig := by simpa using ha
    rw [sigCol_at ha]
    exact ha
  have hin : i < d.ncell := by
    unfold MsmData.cellIdx MsmData.cellPos at hi
    split at hi
    · rename_i h
      have := cidx_lt h
      unfold cidx at this
      cases hi
      exact this
    · cases hi
  obtain ⟨w1, w2, w3, w4, w5, w6, w7⟩ := widths47 (k := d.k) ⟨hk, hw.k.2⟩
  have l1 := hw.rngMs; have l2 := hw.rngRough; have l3 := hw.rateRough; have l4 := hw.rngFine; have l5 := hw.phsFine
  have l6 := hw.lock; have l7 := hw.half; have l8 := hw.cnr; have l9 := hw.rateFine
  rw [colLen_ne w1] at l1
  rw [colLen_ne w2] at l2
  rw [colLen_ne w3] at l4
  rw [colLen_ne w4] at l5
  rw [colLen_ne w5] at l6
  rw [colLen_ne w6] at l7
  rw [colLen_ne w7] at l8
  have k3 : ¬ d.k ≤ 3 := by omega
  have e1 := getElem?_getD (l1 ▸ hrow) 0
  have e2 := getElem?_getD (l2 ▸ hrow) 0
  have e4 := getElem?_getD (l4 ▸ hin) 0
  have e5 := getElem?_getD (l5 ▸ hin) 0
  have e6 := getElem?_getD (l6 ▸ hin) 0
  have e7 := getElem?_getD (l7 ▸ hin) 0
  have e8 := getElem?_getD (l8 ▸ hin) 0
  generalize d.rngMs.getD (d.satRow s) 0 = x1 at e1
  generalize d.rngRough.getD (d.satRow s) 0 = x2 at e2
  generalize d.rngFine.getD i 0 = x4 at e4
  generalize d.phsFine.getD i 0 = x5 at e5
  show (get2 (d.table d.rngVal) n s = none ↔ _) ∧ (get2 (d.table d.phsVal) n s = none ↔ _) ∧
    (get2 (d.table d.dplVal) n s = none ↔ _) ∧ get2 (d.table d.ltmVal) n s ≠ none ∧ get2 (d.table d.c2nVal) n s ≠ none ∧
    get2 (d.table d.hcaVal) n s ≠ none
  rw [get2_table_at d _ ht hss hn, get2_table_at d _ ht hss hn, get2_table_at d _ ht hss hn, get2_table_at d _ ht hss hn,
    get2_table_at d _ ht hss hn, get2_table_at d _ ht hss hn]
  simp only [MsmData.rngVal, MsmData.phsVal, MsmData.ltmVal, MsmData.hcaVal, MsmData.dplVal, MsmData.c2nVal, MsmData.rough,
    hi, Option.bind_eq_bind, Option.bind_some, e1, e2, e4, e5, e6, e7, e8, k3, if_false, false_and, validInt, Option.some.injEq]
  refine ⟨?_, ?_, ?_, ?_, ?_, ?_⟩
  · by_cases h1 : x1 = 255
    · simp [h1]
    · by_cases h2 : x4 = -(2 ^ ((msmWidths d.k).fine - 1))
      · simp [h1, h2]
      · simp only [h1, h2, if_false, Option.bind_some]; simp
  · by_cases h1 : x1 = 255
    · simp [h1]
    · by_cases h2 : x5 = -(2 ^ ((msmWidths d.k).phs - 1))
      · simp [h1, h2]
      · simp only [h1, h2, if_false, Option.bind_some]; simp
  · by_cases h5 : d.k = 5 ∨ d.k = 7
    · obtain ⟨v1, v2⟩ := (widths57 hw.k).1 h5
      rw [colLen_ne (by omega)] at l3 l9
      have e3 := getElem?_getD (l3 ▸ hrow) 0
      have e9 := getElem?_getD (l9 ▸ hin) 0
      generalize d.rateRough.getD (d.satRow s) 0 = x3 at e3
      generalize d.rateFine.getD i 0 = x9 at e9
      have n46 : ¬ (d.k = 4 ∨ d.k = 6) := by omega
      simp only [e3, e9, v1, v2, Option.bind_some, n46, false_or, Option.some.injEq]
      by_cases h1 : x3 = -(2 ^ (14 - 1))
      · simp [h1]
      · by_cases h2 : x9 = -(2 ^ (15 - 1))
        · simp [h1, h2]
        · simp only [h1, h2, if_false, Option.bind_some]
          constructor
          · intro h; cases h
          · rintro (h | h) <;> exact absurd h id
    · have v1 := (widths57 hw.k).2 h5
      rw [v1] at l3
      have : d.rateRough = [] := List.length_eq_zero_iff.1 l3
      rw [this]
      have : d.k = 4 ∨ d.k = 6 := by have := hw.k; omega
      simp [this]
  · split <;> simp
  · simp
  · simp

example : 3 ∈ exMsm5.satList ∧ 2 ∈ exMsm5.sigList ∧ exMsm5.sigName 2 = some "1C" ∧ exMsm5.cellIdx 3 2 = some 0 ∧
    exMsm5.rngFine[0]? = some (-(2 ^ ((msmWidths exMsm5.k).fine - 1))) := by decide +kernel

/-! ## C27 -/

/-- **C27** A message that is decoded in bare mode is rejected in scaled mode if and only if its signal mask contains a signal without
RINEX code. -/
theorem C27_reject (d : MsmData) (hw : d.WF) (hE : LengthEstimateRight d) (buf : Bytes) (hv : ValidFrame buf)
    (hc : d.CarriedBy buf) :
    decodeMsm17 true buf = some (.inl d.bareObj) ∧ (decodeMsm17 false buf = none ↔ ∃ t ∈ d.sigList, d.sigName t = none) := by
  constructor
  · unfold decodeMsm17
    rw [(C21_C22_bare_iff buf hv _).2 ⟨d, hw, hc, hE, rfl⟩]
    rfl
  · have h := (C24_C27_scaled_iff buf hv _).2 (Or.inl ⟨d, hw, hc, hE, rfl⟩)
    rw [h]
    have hiff : d.SignalsKnown ↔ ¬ ∃ t ∈ d.sigList, d.sigName t = none := by
      unfold MsmData.SignalsKnown
      push Not
      constructor
      · intro h t ht hn; have := h t ht; rw [hn] at this; cases this
      · intro h t ht; exact Option.isSome_iff_ne_none.2 (h t ht)
    by_cases hs : d.SignalsKnown
    · rw [if_pos hs]
      simp [hiff.1 hs]
    · rw [if_neg hs]
      simp only [true_iff]
      by_contra h2
      exact hs (hiff.2 h2)

/-- GPS signal 1 has no RINEX code: a message for which scaled decoding fails. -/
example : { exMsm2 with sigs := maskOf 32 [0, 2, 7, 8] }.WF ∧ ¬ { exMsm2 with sigs := maskOf 32 [0, 2, 7, 8] }.SignalsKnown := by
  decide +kernel

end Verif
