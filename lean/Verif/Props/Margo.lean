import Verif.Lemmas.MargoFiles
import Verif.Props.MsmScaled

/-!
# C40 … C44: MARGO output
-/

namespace Verif
open Spec Decoder

namespace Margo

theorem table_names {α : Type} (d : Spec.MsmData) (val : Nat → Nat → Option α) (n : String) (h : n ∈ (d.table val).map (·.1)) :
    ∃ t, d.sigName t = some n := by
  obtain ⟨q, hq, rfl⟩ := List.mem_map.1 h
  unfold MsmData.table at hq
  obtain ⟨t, -, ht⟩ := List.mem_filterMap.1 hq
  dsimp only at ht
  split at ht
  · cases ht
  · rw [Option.map_eq_some_iff] at ht
    obtain ⟨m, hm, rfl⟩ := ht
    exact ⟨t, hm⟩

theorem hca_of_phs (d : Spec.MsmData) (hw : d.WF) (s t : Nat) (h : d.phsVal s t ≠ none) : d.hcaVal s t ≠ none := by
  cases hp : d.phsVal s t with
  | none => exact absurd hp h
  | some v =>
    unfold MsmData.hcaVal
    have hp' := hp
    unfold MsmData.phsVal at hp'
    rw [Option.bind_eq_bind, Option.bind_eq_some_iff] at hp'
    obtain ⟨i, hi, hp'⟩ := hp'
    rw [Option.bind_eq_bind, Option.bind_eq_some_iff] at hp'
    obtain ⟨r, -, hp'⟩ := hp'
    rw [Option.bind_eq_bind, Option.bind_eq_some_iff] at hp'
    obtain ⟨x, hx, -⟩ := hp'
    have hlen : i < d.half.length := by
      obtain ⟨hlt, -⟩ := List.getElem?_eq_some_iff.1 hx
      rw [hw.phsFine] at hlt
      rw [hw.half]
      have hk : d.k = 1 ∨ d.k = 2 ∨ d.k = 3 ∨ d.k = 4 ∨ d.k = 5 ∨ d.k = 6 ∨ d.k = 7 := by have := hw.k; omega
      rcases hk with e | e | e | e | e | e | e <;> rw [e] at hlt ⊢ <;> simp [msmWidths, MsmData.colLen] at hlt ⊢ <;> exact hlt
    rw [hi]
    simp only [Option.bind_eq_bind, Option.bind_some, List.getElem?_eq_getElem hlen, hp]
    simp

/-- What the decoder delivers is regular. -/
theorem regular_decoded (d : Spec.MsmData) (hw : d.WF) : Regular d.g { d.scaledObj with obs := codeObs d } := by
  have hk : d.k = 1 ∨ d.k = 2 ∨ d.k = 3 ∨ d.k = 4 ∨ d.k = 5 ∨ d.k = 6 ∨ d.k = 7 := by have := hw.k; omega
  refine ⟨hw.g, rfl, ?_, ?_, ?_, ?_⟩
  · show (msmName d.k).toList.length ≤ 5
    rcases hk with e | e | e | e | e | e | e <;> rw [e] <;> decide
  · intro k
    unfold codeObs
    split <;> cases k <;> first | exact table_nodup d _ | exact List.nodup_nil
  · intro k n hn
    unfold codeObs at hn
    split at hn <;> cases k <;> first | exact table_names d _ n hn | (exact absurd hn List.not_mem_nil)
  · intro n s h1 h2
    unfold codeObs at h1 h2 ⊢
    split at h1 <;> rename_i hk3
    · rw [if_pos hk3] at h2 ⊢
      have h1 : get2 (d.table (fun s t => if d.sticky s t then none else d.phsVal s t)) n s ≠ none := h1
      show get2 (d.table (fun s t => if d.sticky s t then none else d.hcaVal s t)) n s ≠ none
      obtain ⟨v, hv⟩ := Option.ne_none_iff_exists'.1 h1
      obtain ⟨t, ht, hn, hs, hval⟩ := (get2_table _ _ _ _ _).1 hv
      rw [get2_table_at d _ ht hs hn]
      split at hval
      · cases hval
      · rename_i hst
        rw [if_neg hst]
        exact hca_of_phs d hw s t (by rw [hval]; simp)
    · rw [if_neg hk3] at h2 ⊢
      have h1 : get2 (d.table d.phsVal) n s ≠ none := h1
      show get2 (d.table d.hcaVal) n s ≠ none
      obtain ⟨v, hv⟩ := Option.ne_none_iff_exists'.1 h1
      obtain ⟨t, ht, hn, hs, hval⟩ := (get2_table _ _ _ _ _).1 hv
      rw [get2_table_at d _ ht hs hn]
      exact hca_of_phs d hw s t (by rw [hval]; simp)

/-- The default frequency channels are complete and give positive frequencies. -/
theorem default_pos : ChannelsPos {} := by
  have key : ∀ s < 25, 1 ≤ s → ((({} : Controls).glo_lit_tab.get? s).any
      (fun ch => decide ((0 : Rat) < 1602 + 9 / 16 * (ch : Int) ∧ (0 : Rat) < 1246 + 7 / 16 * (ch : Int)))) = true := by decide +kernel
  intro s h1 h2
  have := key s (by omega) h1
  rw [Option.any_eq_true] at this
  obtain ⟨ch, h3, h4⟩ := this
  exact ⟨ch, h3, by simpa using h4⟩

theorem default_channels : ChannelsOK {} := default_pos.ok

end Margo

/-! ## C42 -/

/-- **C42** For valid times the conversion yields the GPS time of week, inside the week. GLONASS days may last a second longer. -/
theorem C42_conv (leap time day : Int) (g : Nat) (hg : g < 7)
    (h5 : g = 5 → 0 ≤ time ∧ time < weekMs)
    (h1 : g = 1 → 0 ≤ day ∧ day ≤ 6 ∧ 0 ≤ time ∧ time < 86401000 ∧ 0 ≤ leap ∧ leap < 10800)
    (h0 : g ≠ 1 → g ≠ 5 → 0 ≤ time ∧ time < weekMs) :
    Margo.convToGpsTime time day leap (gnssLetter g) = gpsTimeOfWeek leap g time day ∧
    0 ≤ gpsTimeOfWeek leap g time day ∧ gpsTimeOfWeek leap g time day < weekMs := by
  have hR := (Margo.gnss_mem g hg).2.2.1
  have hB := (Margo.gnss_mem g hg).2.2.2.2.1
  unfold Margo.convToGpsTime gpsTimeOfWeek
  unfold weekMs at *
  by_cases e5 : g = 5
  · have := h5 e5
    rw [if_pos (hB.2 e5), if_pos e5]
    dsimp only
    refine ⟨?_, by omega, by omega⟩
    split <;> omega
  · rw [if_neg (fun h => e5 (hB.1 h)), if_neg e5]
    by_cases e1 : g = 1
    · have := h1 e1
      rw [if_pos (hR.2 e1), if_pos e1]
      dsimp only
      refine ⟨?_, by omega, by omega⟩
      split <;> omega
    · rw [if_neg (fun h => e1 (hR.1 h)), if_neg e1]
      exact ⟨rfl, h0 e1 e5⟩

/-- **C42** The conversion is injective on valid times (GLONASS: times of day below 24 h). -/
theorem C42_injective (leap t t' day day' : Int) (g : Nat) (hg : g < 7)
    (h0 : g ≠ 1 → 0 ≤ t ∧ t < weekMs ∧ 0 ≤ t' ∧ t' < weekMs ∧ day = day')
    (h1 : g = 1 → (0 ≤ day ∧ day ≤ 6 ∧ 0 ≤ t ∧ t < 86400000) ∧ (0 ≤ day' ∧ day' ≤ 6 ∧ 0 ≤ t' ∧ t' < 86400000) ∧ 0 ≤ leap ∧ leap < 10800)
    (h : Margo.convToGpsTime t day leap (gnssLetter g) = Margo.convToGpsTime t' day' leap (gnssLetter g)) :
    t = t' ∧ day = day' := by
  have hR := (Margo.gnss_mem g hg).2.2.1
  have hB := (Margo.gnss_mem g hg).2.2.2.2.1
  unfold Margo.convToGpsTime at h
  unfold weekMs at *
  by_cases e5 : g = 5
  · have := h0 (by omega)
    rw [if_pos (hB.2 e5), if_pos (hB.2 e5)] at h
    dsimp only at h
    split at h <;> split at h <;> omega
  · rw [if_neg (fun h => e5 (hB.1 h)), if_neg (fun h => e5 (hB.1 h))] at h
    by_cases e1 : g = 1
    · have := h1 e1
      rw [if_pos (hR.2 e1), if_pos (hR.2 e1)] at h
      dsimp only at h
      split at h <;> split at h <;> omega
    · rw [if_neg (fun h => e1 (hR.1 h)), if_neg (fun h => e1 (hR.1 h))] at h
      have := h0 e1
      omega

/-- BeiDou week rollover and a GLONASS time that belongs to the previous week. -/
example : Margo.convToGpsTime 604790000 0 18 "B" = 4000 ∧ gpsTimeOfWeek 18 5 604790000 0 = 4000 ∧
    Margo.convToGpsTime 1000 0 18 "R" = 594019000 ∧ gpsTimeOfWeek 18 1 1000 0 = 594019000 := by decide

/-! ## C40 -/

/-- The time of the rows. -/
theorem Margo.row_time (c : Margo.Controls) {g : Nat} {p : Msm.ObservablesMSM} (h : g < 7) (hv : ValidTime c.gps_utc_shift g p) :
    (if g = 0 then (p.hdr.time : Int) else Margo.convToGpsTime p.hdr.time p.hdr.day c.gps_utc_shift (gnssLetter g)) =
      gpsTimeOfWeek c.gps_utc_shift g p.hdr.time p.hdr.day := by
  have a5 : g = 5 → (p.hdr.time : Int) < weekMs := by
    intro e; unfold ValidTime at hv; rwa [if_neg (by omega)] at hv
  have a1 : g = 1 → p.hdr.day ≤ 6 ∧ p.hdr.time < 86401000 ∧ 0 ≤ c.gps_utc_shift ∧ c.gps_utc_shift < 10800 := by
    intro e; unfold ValidTime at hv; rwa [if_pos e] at hv
  have a0 : g ≠ 1 → g ≠ 5 → (p.hdr.time : Int) < weekMs := by
    intro e _; unfold ValidTime at hv; rwa [if_neg e] at hv
  by_cases e0 : g = 0
  · subst e0
    rw [if_pos rfl]
    rfl
  · rw [if_neg e0]
    refine (C42_conv _ _ _ g h (fun e => ⟨by omega, a5 e⟩) (fun e => ?_) (fun e e' => ⟨by omega, a0 e e'⟩)).1
    have := a1 e
    omega

/-- **C40** For every decoded (regular) object the print buffer consists exactly of one row for each printed kind of observable and each
signal, in this order; a row is the time and exactly one column for each satellite of the constellation, column `s` holding the
value of satellite `s` or NaN. The time is the GPS time of week if the time of the message is valid. -/
theorem C40_rows (c : Margo.Controls) (g : Nat) (p : Msm.ObservablesMSM) (h : Regular g p) (hc : g = 1 → Margo.ChannelsOK c) :
    ∃ rows t, Margo.printBuffer c p = .ok rows ∧
      rows.map (fun r => (r.1, r.2.1, r.2.2.map Margo.Cell.val)) = margoRows (Margo.settings c) g t p ∧
      (ValidTime c.gps_utc_shift g p → t = gpsTimeOfWeek c.gps_utc_shift g p.hdr.time p.hdr.day) := by
  exact ⟨_, _, Margo.printBuffer_ok c h hc, Margo.mrows_view _ _ _ _, Margo.row_time c h.lt⟩

/-- **C40** The shape of the rows. -/
theorem C40_shape (c : Margo.Controls) (g : Nat) (p : Msm.ObservablesMSM) (h : Regular g p) (hc : g = 1 → Margo.ChannelsOK c)
    (rows : PyDict Txt Margo.Row) (hr : Margo.printBuffer c p = .ok rows) (r : Txt × Margo.Row) (hm : r ∈ rows) :
    r.2.2.length = margoSats g := by
  obtain ⟨rows', t, h1, h2, -⟩ := C40_rows c g p h hc
  rw [hr] at h1
  cases h1
  have : (r.1, r.2.1, r.2.2.map Margo.Cell.val) ∈ margoRows (Margo.settings c) g t p := by
    rw [← h2]; exact List.mem_map.2 ⟨r, hm, rfl⟩
  unfold margoRows at this
  obtain ⟨k, -, hk⟩ := List.mem_flatMap.1 this
  obtain ⟨s, -, hs⟩ := List.mem_map.1 hk
  have := congrArg (fun x => x.2.2.length) hs
  simpa using this.symm

/-- **C40** Every MSM message that is decoded in scaled mode is printed in this way. -/
theorem C40_decoded (d : MsmData) (hw : d.WF) (hk : d.SignalsKnown) (hE : LengthEstimateRight d) (buf : Bytes) (hv : ValidFrame buf)
    (hc : d.CarriedBy buf) : ∃ p, Msm.decodeMsm17 false buf = some (.inr p) ∧ Regular d.g p ∧
      (4 ≤ d.k → p = d.scaledObj) := by
  refine ⟨_, (C24_C27_scaled_iff buf hv _).2 (Or.inl ⟨d, hw, hc, hE, by rw [if_pos hk]⟩), Margo.regular_decoded d hw, ?_⟩
  intro h4
  unfold codeObs
  rw [if_neg (by omega)]
  rfl

/-- The hypotheses are met by an MSM5 message of Galileo, also with the default controls. -/
example : ∃ p, Msm.decodeMsm17 false exMsm5.toFrame = some (.inr p) ∧ Regular 2 p ∧ slotsOf p .cnr = ["1C", "7Q"] ∧
    margoCell (Margo.settings {}) 2 p .cnr "7Q" 11 = some 44 := by
  have h1 : exMsm5.WF := by decide +kernel
  have h2 : exMsm5.InRange := by unfold MsmData.InRange; decide +kernel
  have h3 : exMsm5.SignalsKnown := by decide +kernel
  refine ⟨exMsm5.scaledObj, C24_roundtrip exMsm5 h1 h2 (by decide) h3, ?_, by decide +kernel, by decide +kernel⟩
  have := Margo.regular_decoded exMsm5 h1
  unfold codeObs at this
  rw [if_neg (by decide)] at this
  exact this

/-! ## C41 -/

/-- Each column is in the buffer. -/
theorem Margo.cell_mem (c : Margo.Controls) (g : Nat) (p : Msm.ObservablesMSM) (h : Regular g p) (hc : g = 1 → Margo.ChannelsOK c)
    (rows : PyDict Txt Margo.Row) (hr : Margo.printBuffer c p = .ok rows) (k : ObsKind) (hk : k ∈ kindsOf (Margo.settings c))
    (slot : String) (hslot : slot ∈ slotsOf p k) (s : Nat) (h1 : 1 ≤ s) (h2 : s ≤ margoSats g) :
    ∃ r ∈ rows, r.1 = margoName g k slot p.atr.subset ∧
      r.2.2[s - 1]? = some (Margo.cellOf (Margo.settings c) g p k slot s) := by
  rw [Margo.printBuffer_ok c h hc] at hr
  cases hr
  refine ⟨_, List.mem_flatMap.2 ⟨k, hk, List.mem_map.2 ⟨slot, hslot, rfl⟩⟩, rfl, ?_⟩
  have : s - 1 < margoSats g := by omega
  rw [List.getElem?_map, List.getElem?_range this]
  simp [show s - 1 + 1 = s by omega]

theorem Margo.slot_of_get2 {α : Type} {d : PyDict String (PyDict Nat α)} {n : String} {s : Nat} {v : α} (h : get2 d n s = some v) :
    n ∈ d.map (·.1) := by
  unfold get2 at h
  rw [Option.bind_eq_some_iff] at h
  obtain ⟨e, he, -⟩ := h
  exact List.mem_map.2 ⟨_, PyDict.mem_of_get? he, rfl⟩

/-- **C41** (partial) Each code range, carrier phase without half-cycle ambiguity, Doppler and carrier to noise ratio of a satellite that has
a column is in the row of its signal, in the column of its satellite. Missing: satellites without a column, see `C41_violated`. -/
theorem C41_partial (c : Margo.Controls) (g : Nat) (p : Msm.ObservablesMSM) (h : Regular g p) (hc : g = 1 → Margo.ChannelsOK c)
    (rows : PyDict Txt Margo.Row) (hr : Margo.printBuffer c p = .ok rows) (n : String) (s : Nat) (h1 : 1 ≤ s) (h2 : s ≤ margoSats g) (v : Rat) :
    (get2 p.obs.rng n s = some v →
      ∃ r ∈ rows, r.1 = margoName g .range n p.atr.subset ∧ r.2.2[s - 1]? = some (.num v)) ∧
    (get2 p.obs.phs n s = some v → get2 p.obs.hca n s ≠ some true →
      ∃ r ∈ rows, r.1 = margoName g .phase n p.atr.subset ∧
        r.2.2[s - 1]? = some (.num (v / waveLength (Margo.settings c).channel g n s))) ∧
    (get2 p.obs.dpl n s = some v →
      ∃ r ∈ rows, r.1 = margoName g .doppler n p.atr.subset ∧
        ∃ x, r.2.2[s - 1]? = some x ∧ x.val = some (-(v / waveLength (Margo.settings c).channel g n s))) ∧
    (get2 p.obs.c2n n s = some v →
      ∃ r ∈ rows, r.1 = margoName g .cnr n p.atr.subset ∧ r.2.2[s - 1]? = some (.num v)) := by
  have main := fun k hk hs => Margo.cell_mem c g p h hc rows hr k hk n hs s h1 h2
  refine ⟨fun hv => ?_, fun hv ha => ?_, fun hv => ?_, fun hv => ?_⟩
  · have := main .range (by simp [kindsOf]) (Margo.slot_of_get2 hv)
    simpa [margoCell, hv, Margo.cellOf] using this
  · have := main .phase (by simp [kindsOf]) (Margo.slot_of_get2 hv)
    simpa [margoCell, hv, ha, Margo.cellOf] using this
  · obtain ⟨r, h1, h2, h3⟩ := main .doppler (by simp [kindsOf]) (Margo.slot_of_get2 hv)
    refine ⟨r, h1, h2, _, h3, ?_⟩
    rw [Margo.val_cellOf]
    simp [margoCell, hv]
  · have := main .cnr (by simp [kindsOf]) (Margo.slot_of_get2 hv)
    simpa [margoCell, hv, Margo.cellOf] using this

/-- MSM4 of BeiDou: satellite 38, signal B1-I. -/
def exBds38 : MsmData :=
  { g := 5, k := 4, station := 1, time := 1000, multiple := 0, iods := 0, steering := 0, external := 0, smoothing := 0,
    interval := 0, sats := maskOf 64 [37], sigs := maskOf 32 [1], cells := [true], rngMs := [70], extInfo := [],
    rngRough := [512], rateRough := [], rngFine := [5], phsFine := [77], lock := [3], half := [0], cnr := [45],
    rateFine := [] }

/-- **C41** is violated: a valid frame of a message in use (BeiDou satellite 38) is decoded to a code range, a phase and a carrier to noise
ratio; the rows printed for it contain NaN only. -/
theorem C41_violated : ∃ (buf : Bytes) (p : Msm.ObservablesMSM), ValidFrame buf ∧ Msm.decodeMsm17 false buf = some (.inr p) ∧
    get2 p.obs.rng "2I" 38 = some ((70 + 512 / 1024 + 5 / 2 ^ 24) * lightMs) ∧ get2 p.obs.c2n "2I" 38 = some 45 ∧
    get2 p.obs.phs "2I" 38 ≠ none ∧ get2 p.obs.hca "2I" 38 = some false ∧
    ∀ c : Margo.Controls, ∃ rows, Margo.printBuffer c p = .ok rows ∧ rows ≠ [] ∧ ∀ r ∈ rows, ∀ x ∈ r.2.2, x = .nan := by
  have h1 : exBds38.WF := by decide +kernel
  have h2 : exBds38.InRange := by unfold MsmData.InRange; decide +kernel
  have h3 : exBds38.SignalsKnown := by decide +kernel
  have hreg : Regular 5 exBds38.scaledObj := by
    have := Margo.regular_decoded exBds38 h1
    unfold codeObs at this
    rw [if_neg (by decide)] at this
    exact this
  refine ⟨_, exBds38.scaledObj, (msm_frame h1 h2).1, C24_roundtrip exBds38 h1 h2 (by decide) h3, by decide +kernel, by decide +kernel,
    by decide +kernel, by decide +kernel, ?_⟩
  intro c
  refine ⟨_, Margo.printBuffer_ok c hreg (fun h => absurd h (by decide)), ?_, ?_⟩
  · intro h0
    have hm : ObsKind.range ∈ kindsOf (Margo.settings c) := by simp [kindsOf]
    have hs : "2I" ∈ slotsOf exBds38.scaledObj .range := by decide +kernel
    unfold Margo.mrows at h0
    have := List.flatMap_eq_nil_iff.1 h0 _ hm
    rw [List.map_eq_nil_iff] at this
    rw [this] at hs
    simp at hs
  · intro r hr x hx
    obtain ⟨k, -, hk⟩ := List.mem_flatMap.1 hr
    obtain ⟨s, hs, rfl⟩ := List.mem_map.1 hk
    obtain ⟨i, hi, rfl⟩ := List.mem_map.1 hx
    have hi : i < 37 := by simpa [margoSats] using hi
    have hs2 : ∀ k, slotsOf exBds38.scaledObj k = if k = .doppler then [] else ["2I"] := by
      intro k; cases k <;> decide +kernel
    rw [hs2] at hs
    split at hs
    · simp at hs
    · have hs : s = "2I" := by simpa using hs
      subst hs
      have key : ∀ i < 37, get2 exBds38.scaledObj.obs.rng "2I" (i + 1) = none ∧ get2 exBds38.scaledObj.obs.phs "2I" (i + 1) = none ∧
          get2 exBds38.scaledObj.obs.dpl "2I" (i + 1) = none ∧ get2 exBds38.scaledObj.obs.c2n "2I" (i + 1) = none ∧
          get2 exBds38.scaledObj.obs.ltm "2I" (i + 1) = none ∧ get2 exBds38.scaledObj.obs.hca "2I" (i + 1) = none := by decide +kernel
      obtain ⟨k1, k2, k3, k4, k5, k6⟩ := key i hi
      cases k <;> simp [margoCell, k1, k2, k3, k4, k5, k6, Margo.cellOf]

/-! ## C43 -/

/-- **C43** In the row of carrier phases the value of a satellite times the wave length is the decoded phase range; in the row of Doppler
values it is minus the decoded phase range rate. The wave length is the speed of light by the carrier frequency, for GLONASS the
one of the channel of the satellite: 1602 MHz + channel × 562.5 kHz, 1246 MHz + channel × 437.5 kHz. -/
theorem C43_units (c : Margo.Controls) (g : Nat) (p : Msm.ObservablesMSM) (h : Regular g p) (hc : g = 1 → Margo.ChannelsOK c)
    (rows : PyDict Txt Margo.Row) (hr : Margo.printBuffer c p = .ok rows) (n : String) (s : Nat) (h1 : 1 ≤ s) (h2 : s ≤ margoSats g)
    (v : Rat) :
    (get2 p.obs.phs n s = some v → (c.half_cycle_enable = true ∨ get2 p.obs.hca n s ≠ some true) →
      ∃ r ∈ rows, r.1 = margoName g .phase n p.atr.subset ∧
        ∃ x f : Rat, r.2.2[s - 1]? = some (.num x) ∧ f = carrier (Margo.settings c).channel g n s ∧ f ≠ 0 ∧ x * (299.792458 / f) = v) ∧
    (get2 p.obs.dpl n s = some v →
      ∃ r ∈ rows, r.1 = margoName g .doppler n p.atr.subset ∧
        ∃ (y : Margo.Cell) (x f : Rat), r.2.2[s - 1]? = some y ∧ y.val = some x ∧ f = carrier (Margo.settings c).channel g n s ∧ f ≠ 0 ∧ x * (299.792458 / f) = -v) := by
  have main := fun k hk hs => Margo.cell_mem c g p h hc rows hr k hk n hs s h1 h2
  have hlam : ∀ k, n ∈ slotsOf p k → carrier (Margo.settings c).channel g n s ≠ 0 := by
    intro k hk
    obtain ⟨t, ht⟩ := h.signals k n hk
    have := Margo.carrier_ne c ht hc (s - 1) (by omega)
    rwa [show s - 1 + 1 = s by omega] at this
  constructor
  · intro hv ha
    have hs : n ∈ slotsOf p .phase := Margo.slot_of_get2 hv
    obtain ⟨r, hr1, hr2, hr3⟩ := main .phase (by simp [kindsOf]) hs
    refine ⟨r, hr1, hr2, v / waveLength (Margo.settings c).channel g n s, _, ?_, rfl, hlam _ hs, ?_⟩
    · rw [hr3]
      congr 1
      have : ¬ ((Margo.settings c).half = false ∧ get2 p.obs.hca n s = some true) := by
        rintro ⟨a1, a2⟩
        rcases ha with ha | ha
        · have : c.half_cycle_enable = false := a1
          rw [this] at ha; cases ha
        · exact ha a2
      simp only [Margo.cellOf, margoCell]
      rw [if_neg this, hv]
      rfl
    · have := hlam _ hs
      unfold waveLength
      field_simp
      ring
  · intro hv
    have hs : n ∈ slotsOf p .doppler := Margo.slot_of_get2 hv
    obtain ⟨r, hr1, hr2, hr3⟩ := main .doppler (by simp [kindsOf]) hs
    refine ⟨r, hr1, hr2, _, -(v / waveLength (Margo.settings c).channel g n s), _, hr3, ?_, rfl, hlam _ hs, ?_⟩
    · rw [Margo.val_cellOf]
      simp [margoCell, hv]
    · have := hlam _ hs
      unfold waveLength
      field_simp
      ring

/-- **C43** Carrier frequencies: GLONASS FDMA channels from the control table, otherwise the frequency of the band. -/
theorem C43_carrier (c : Margo.Controls) (s : Nat) (ch : Int) (h : c.glo_lit_tab.get? s = some ch) :
    (∀ n ∈ ["1C", "1P"], carrier (Margo.settings c).channel 1 n s = 1602 + ch * 0.5625) ∧
    (∀ n ∈ ["2C", "2P"], carrier (Margo.settings c).channel 1 n s = 1246 + ch * 0.4375) ∧
    (∀ g t n b, g ≠ 1 → sigCode g t = some n → n.toList.head? = some b → carrier (Margo.settings c).channel g n s = bandMHz g b) := by
  have hset : (Margo.settings c).channel s = ch := by simp [Margo.settings, h]
  refine ⟨?_, ?_, ?_⟩
  · intro n hn
    have : n.toList.head? = some '1' := by
      simp only [List.mem_cons, List.not_mem_nil, or_false] at hn
      rcases hn with rfl | rfl <;> decide
    unfold carrier
    rw [this, hset]
    simp only [channelStep, bandMHz, if_true]
    ring
  · intro n hn
    have : n.toList.head? = some '2' := by
      simp only [List.mem_cons, List.not_mem_nil, or_false] at hn
      rcases hn with rfl | rfl <;> decide
    unfold carrier
    rw [this, hset]
    simp only [channelStep, bandMHz, if_true]
    ring
  · intro g t n b hg _ hb
    unfold carrier
    rw [hb]
    simp [hg]

/-- **C43** A phase with half-cycle ambiguity is NaN unless half-cycle output is enabled. -/
theorem C43_ambiguous (c : Margo.Controls) (g : Nat) (p : Msm.ObservablesMSM) (h : Regular g p) (hc : g = 1 → Margo.ChannelsOK c)
    (rows : PyDict Txt Margo.Row) (hr : Margo.printBuffer c p = .ok rows) (n : String) (s : Nat) (h1 : 1 ≤ s) (h2 : s ≤ margoSats g)
    (hn : n ∈ slotsOf p .phase) (hh : c.half_cycle_enable = false) (ha : get2 p.obs.hca n s = some true) :
    ∃ r ∈ rows, r.1 = margoName g .phase n p.atr.subset ∧ r.2.2[s - 1]? = some .nan := by
  obtain ⟨r, hr1, hr2, hr3⟩ := Margo.cell_mem c g p h hc rows hr .phase (by simp [kindsOf]) n hn s h1 h2
  refine ⟨r, hr1, hr2, ?_⟩
  rw [hr3]
  have : (Margo.settings c).half = false := hh
  simp [margoCell, this, ha, Margo.cellOf]

/-! ## C44 -/

/-- **C44** Two rows have the same file exactly if constellation, kind of observable, signal and message type are the same. -/
theorem C44_names (g g' : Nat) (hg : g < 7) (hg' : g' < 7) (k k' : ObsKind) (n n' : String) (t t' : Nat) (hn : sigCode g t = some n)
    (hn' : sigCode g' t' = some n') (u u' : String) (wd : Txt) :
    Margo.pathOf wd g (margoName g k n u) = Margo.pathOf wd g' (margoName g' k' n' u') ↔ g = g' ∧ k = k' ∧ n = n' ∧ u = u' := by
  constructor
  · intro h
    obtain ⟨b, a, hb⟩ := Margo.code_chars hn
    obtain ⟨b', a', hb'⟩ := Margo.code_chars hn'
    have key : ∀ (g : Nat) (k : ObsKind) (n u : String) (t : Nat), g < 7 → sigCode g t = some n → (margoName g k n u).head? ≠ some '/' := by
      intro g k n u t h1 h2
      exact (Margo.Named.chars (r := (margoName g k n u, 0, List.replicate (margoSats g) .nan)) ⟨h1, ⟨t, h2⟩, rfl, by simp⟩).2.2.2
    exact Margo.name_inj hg hg' (by simp [hb]) (by simp [hb'])
      (Margo.pathOf_inj hg hg' (key _ _ _ _ _ hg hn) (key _ _ _ _ _ hg' hn') h)
  · rintro ⟨rfl, rfl, rfl, rfl⟩; rfl

namespace Margo

/-- A list of objects is printed; the results of the calls. -/
def printAll (p : Printer) (w : Disk) : List Msm.ObservablesMSM → (Printer × Disk) × List (Py Unit)
  | [] => ((p, w), [])
  | o :: os =>
    let (s, r) := p.print w (.msm o)
    let (s', rs) := printAll s.1 s.2 os
    (s', r :: rs)

/-- The rows of regular objects have regular names. -/
theorem mrows_named (c : Controls) {g : Nat} {t : Int} {p : Msm.ObservablesMSM} (h : Regular g p) (hc : g = 1 → ChannelsOK c) (ks : List ObsKind) :
    ∀ r ∈ mrows (settings c) g t p ks, ∃ g k slot u, Named g k slot u r ∧ (g = 1 → ChannelsOK c) := by
  intro r hr
  obtain ⟨k, -, hk⟩ := List.mem_flatMap.1 hr
  obtain ⟨s, hs, rfl⟩ := List.mem_map.1 hk
  exact ⟨g, k, s, p.atr.subset, ⟨h.lt, h.signals k s hs, rfl, by simp⟩, hc⟩

/-- The rows of regular objects with positive frequencies have regular names and signs of zeros. -/
theorem mrows_signed (c : Controls) {g : Nat} {t : Int} {p : Msm.ObservablesMSM} (h : Regular g p) (hc : g = 1 → ChannelsPos c) (ks : List ObsKind) :
    ∀ r ∈ mrows (settings c) g t p ks, ∃ g k slot u, Named g k slot u r ∧ Signed k r ∧ (g = 1 → ChannelsOK c) := by
  intro r hr
  obtain ⟨k, -, hk⟩ := List.mem_flatMap.1 hr
  obtain ⟨s, hs, rfl⟩ := List.mem_map.1 hk
  refine ⟨g, k, s, p.atr.subset, ⟨h.lt, h.signals k s hs, rfl, by simp⟩, ?_, fun e => (hc e).ok⟩
  intro x hx
  obtain ⟨i, hi, rfl⟩ := List.mem_map.1 hx
  obtain ⟨t, ht⟩ := h.signals k s hs
  rw [val_cellOf]
  exact cellOf_ofVal (fun _ => waveLength_pos c ht hc i (by simpa using hi))

/-- The rows of objects. -/
def allRows (c : Controls) (os : List (Nat × Msm.ObservablesMSM)) : List (Txt × Int × List (Option Rat)) :=
  os.flatMap (fun x => margoRows (settings c) x.1 (gpsTimeOfWeek c.gps_utc_shift x.1 x.2.hdr.time x.2.hdr.day) x.2)

/-- All that is asked of the objects. -/
def Printable (c : Controls) (x : Nat × Msm.ObservablesMSM) : Prop :=
  Regular x.1 x.2 ∧ ValidTime c.gps_utc_shift x.1 x.2 ∧ (x.1 = 1 → ChannelsPos c)

theorem printAll_inv (c : Controls) (wd : Txt) (w0 : Disk) : ∀ (os : List (Nat × Msm.ObservablesMSM)) {p : Printer} {w : Disk}
    {R : List (Txt × Row)}, FInv c wd w0 p w R → (∀ x ∈ os, Printable c x) →
    ∃ p' w' S, printAll p w (os.map (·.2)) = ((p', w'), os.map (fun _ => .ok ())) ∧ FInv c wd w0 p' w' (R ++ S) ∧
      S.map (fun r => (r.1, r.2.1, r.2.2.map Cell.val)) = allRows c os
  | [], p, w, R, hI, _ => ⟨p, w, [], rfl, by simpa using hI, rfl⟩
  | x :: os, p, w, R, hI, h => by
    obtain ⟨h1, h2, h3⟩ := h x (by simp)
    have h4 : x.1 = 1 → ChannelsOK c := fun e => (h3 e).ok
    obtain ⟨rows, t, e1, e2, e3⟩ := C40_rows c x.1 x.2 h1 h4
    have hb := printBuffer_ok c h1 h4
    rw [e1] at hb
    have hb := Except.ok.inj hb
    subst hb
    obtain ⟨p', w', e, hI'⟩ := hI.rows _ (mrows_signed c h1 h3 _)
    obtain ⟨p'', w'', S, e', hI'', hS⟩ := printAll_inv c wd w0 os hI' (fun y hy => h y (by simp [hy]))
    refine ⟨p'', w'', _ ++ S, ?_, by simpa [List.append_assoc] using hI'', ?_⟩
    · simp only [List.map_cons]
      unfold printAll Printer.print
      dsimp only
      rw [hI.ctrl, e1]
      dsimp only
      rw [e]
      dsimp only
      rw [e']
    · rw [List.map_append, e2, hS, e3 h2]
      rfl

theorem rowsText_view (k : ObsKind) (R : List (Txt × Row)) (n : Txt) :
    rowsText k (rowsIn n R) = ((R.map (fun r => (r.1, r.2.1, r.2.2.map Cell.val))).filter (fun r => r.1 == n)).flatMap
      (fun r => rowText k r.2.1 r.2.2) := by
  unfold rowsText rowsIn
  rw [List.filter_map, List.flatMap_map]
  rfl

end Margo

/-- **C44** Whatever sequence of decoded (regular) objects is printed to an empty printer, no call fails, and if the file system does not
fail, then for each row there is a file with the name of the row in the directory of its constellation, which consists of its header once
and then exactly the rows with this name in the order of printing. -/
theorem C44_files (c : Margo.Controls) (wd : Txt) (w : Disk) (hf : ∀ i, w.fault i = false) (os : List (Nat × Msm.ObservablesMSM))
    (h : ∀ x ∈ os, Margo.Printable c x) :
    ∃ p' w', Margo.printAll { ctrl := c, wd := wd } w (os.map (·.2)) = ((p', w'), os.map (fun _ => .ok ())) ∧
      ∀ g k slot u t, g < 7 → sigCode g t = some slot → margoName g k slot u ∈ (Margo.allRows c os).map (·.1) →
        w'.read (Margo.pathOf wd g (margoName g k slot u)) = some (fileText (Margo.settings c) g k slot u (Margo.allRows c os)) := by
  obtain ⟨p', w', S, e, hI, hS⟩ := Margo.printAll_inv c wd w os (Margo.FInv.init c wd w) h
  refine ⟨p', w', e, ?_⟩
  intro g k slot u t hg ht hm
  rw [List.nil_append] at hI
  rw [← hS, List.map_map] at hm
  obtain ⟨r, hr, hn⟩ := List.mem_map.1 hm
  have hn : r.1 = margoName g k slot u := hn
  have := hI.all hf r hr
  rw [hn] at this
  obtain ⟨path, hp⟩ := Option.ne_none_iff_exists'.1 this
  obtain ⟨e1, pre, suf, e2, e3, e4⟩ := hI.opened g k slot u t path hg ht hp
  rw [e4 hf, List.nil_append] at e2
  rw [← e1, e3, ← e2, Margo.rowsText_view, hS]
  rfl

/-- **C44** If creating files fails at some times, no call fails either; each file that is open in the end consists of its header once and
the rows with its name from some point on, in the order of printing. Files of other names do not change. -/
theorem C44_faults (c : Margo.Controls) (wd : Txt) (w : Disk) (os : List (Nat × Msm.ObservablesMSM))
    (h : ∀ x ∈ os, Margo.Printable c x) :
    ∃ p' w', Margo.printAll { ctrl := c, wd := wd } w (os.map (·.2)) = ((p', w'), os.map (fun _ => .ok ())) ∧
      (∀ g k slot u t, g < 7 → sigCode g t = some slot → p'.ofiles.get? (margoName g k slot u) ≠ none →
        ∃ pre suf, (Margo.allRows c os).filter (fun r => r.1 == margoName g k slot u) = pre ++ suf ∧
          w'.read (Margo.pathOf wd g (margoName g k slot u)) =
            some (headText (Margo.settings c) g k slot ++ suf.flatMap (fun r => rowText k r.2.1 r.2.2))) ∧
      ∀ q, (∀ r ∈ Margo.allRows c os, ∀ g < 7, q ≠ Margo.pathOf wd g r.1) → w'.read q = w.read q := by
  obtain ⟨p', w', S, e, hI, hS⟩ := Margo.printAll_inv c wd w os (Margo.FInv.init c wd w) h
  rw [List.nil_append] at hI
  refine ⟨p', w', e, ?_, ?_⟩
  · intro g k slot u t hg ht hm
    obtain ⟨path, hp⟩ := Option.ne_none_iff_exists'.1 hm
    obtain ⟨e1, pre, suf, e2, e3, e4⟩ := hI.opened g k slot u t path hg ht hp
    refine ⟨pre.map (fun r => (r.1, r.2.1, r.2.2.map Margo.Cell.val)), suf.map (fun r => (r.1, r.2.1, r.2.2.map Margo.Cell.val)), ?_, ?_⟩
    · rw [← hS, List.filter_map, ← List.map_append, ← e2]
      rfl
    · rw [← e1, e3]
      unfold Margo.rowsText
      rw [List.flatMap_map]
  · intro q hq
    apply hI.frame q
    intro r hr g k slot u hN
    refine hq (r.1, r.2.1, r.2.2.map Margo.Cell.val) ?_ g hN.lt
    rw [← hS]
    exact List.mem_map.2 ⟨r, hr, rfl⟩

namespace Margo

/-- The decoded object of `exMsm5`. -/
theorem exMsm5_regular : Regular 2 exMsm5.scaledObj := by
  have := regular_decoded exMsm5 (by decide +kernel)
  unfold codeObs at this
  rw [if_neg (by decide)] at this
  exact this

theorem exMsm5_printable : Printable {} (2, exMsm5.scaledObj) :=
  ⟨exMsm5_regular, by unfold ValidTime; decide +kernel, fun h => absurd h (by decide)⟩

end Margo

/-- MSM5 of GLONASS: satellites 5 and 24, signals G1 C/A and G2 C/A; one phase with half-cycle ambiguity. -/
def exGlo5 : MsmData :=
  { g := 1, k := 5, station := 7, time := 3 * 2 ^ 27 + 43200000, multiple := 0, iods := 0, steering := 0, external := 0, smoothing := 0,
    interval := 0, sats := maskOf 64 [4, 23], sigs := maskOf 32 [1, 7], cells := [true, true, true, false],
    rngMs := [70, 65], extInfo := [8, 3], rngRough := [512, 1], rateRough := [100, -20],
    rngFine := [5, 6, 7], phsFine := [77, 78, -79], lock := [3, 4, 5], half := [0, 1, 0],
    cnr := [45, 40, 50], rateFine := [1000, -5, 17] }

theorem Margo.exGlo5_regular : Regular 1 exGlo5.scaledObj := by
  have := regular_decoded exGlo5 (by decide +kernel)
  unfold codeObs at this
  rw [if_neg (by decide)] at this
  exact this

/-- The hypotheses of C41 and C43: an MSM5 message of GLONASS with the default controls. -/
example : Msm.decodeMsm17 false exGlo5.toFrame = some (.inr exGlo5.scaledObj) ∧ Regular 1 exGlo5.scaledObj ∧ Margo.ChannelsOK {} ∧
    get2 exGlo5.scaledObj.obs.rng "1C" 24 ≠ none ∧ get2 exGlo5.scaledObj.obs.phs "1C" 24 ≠ none ∧
    get2 exGlo5.scaledObj.obs.dpl "1C" 24 ≠ none ∧ get2 exGlo5.scaledObj.obs.hca "1C" 24 = some false ∧
    get2 exGlo5.scaledObj.obs.hca "2C" 5 = some true ∧ "2C" ∈ slotsOf exGlo5.scaledObj .phase ∧ 24 ≤ margoSats 1 ∧
    ({} : Margo.Controls).glo_lit_tab.get? 24 = some 2 ∧ exGlo5.scaledObj.hdr.day = 3 ∧ ValidTime 18 1 exGlo5.scaledObj :=
  ⟨C24_roundtrip exGlo5 (by decide +kernel) (by unfold MsmData.InRange; decide +kernel) (by decide) (by decide +kernel),
    Margo.exGlo5_regular, Margo.default_channels, by decide +kernel, by decide +kernel, by decide +kernel, by decide +kernel,
    by decide +kernel, by decide +kernel, by decide, by decide +kernel, by decide +kernel, by unfold ValidTime; decide +kernel⟩

/-- The hypotheses of C44: decoded messages of GLONASS and Galileo; the file `ES7Q_MSM5.obs` gets two rows. -/
example : (∀ x ∈ [(2, exMsm5.scaledObj), (1, exGlo5.scaledObj), (2, exMsm5.scaledObj)], Margo.Printable {} x) ∧ sigCode 2 15 = some "7Q" ∧
    ((Margo.allRows {} [(2, exMsm5.scaledObj), (1, exGlo5.scaledObj), (2, exMsm5.scaledObj)]).filter
      (fun r => r.1 == margoName 2 .cnr "7Q" exMsm5.scaledObj.atr.subset)).length = 2 ∧
    margoName 2 .cnr "7Q" exMsm5.scaledObj.atr.subset = "ES7Q_MSM5.obs".toList := by
  refine ⟨?_, by decide +kernel, by decide +kernel, by decide +kernel⟩
  intro x hx
  simp only [List.mem_cons, List.not_mem_nil, or_false] at hx
  rcases hx with rfl | rfl | rfl
  · exact Margo.exMsm5_printable
  · exact ⟨Margo.exGlo5_regular, by unfold ValidTime; decide +kernel, fun _ => Margo.default_pos⟩
  · exact Margo.exMsm5_printable

end Verif
