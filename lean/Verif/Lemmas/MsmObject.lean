import Verif.Lemmas.MsmValues

/-!
# Scaled observables: the whole object
-/

namespace Verif
open Spec Bits Msm RtcmUtil

theorem mapM_ok' {α β : Type} (f : α → Py β) (g : α → β) (l : List α) (h : ∀ x ∈ l, f x = .ok (g x)) :
    l.mapM f = .ok (l.map g) := by
  induction l with
  | nil => rfl
  | cons x l ih =>
    rw [List.mapM_cons, h x (by simp), ok_bind, ih (fun y hy => h y (by simp [hy])), ok_bind]
    rfl

theorem mapM_err {α β : Type} (f : α → Py β) (l : List α) (x : α) (hx : x ∈ l) (h : ∃ e, f x = .error e) :
    ∃ e, l.mapM f = .error e := by
  induction l with
  | nil => simp at hx
  | cons y l ih =>
    rw [List.mapM_cons]
    cases hy : f y with
    | error e => exact ⟨e, rfl⟩
    | ok v =>
      rw [ok_bind]
      rcases List.mem_cons.1 hx with rfl | hx
      · obtain ⟨e, he⟩ := h
        rw [he] at hy; cases hy
      · obtain ⟨e, he⟩ := ih hx
        rw [he]
        exact ⟨e, rfl⟩

theorem freq_ok {d : MsmData} {t : Nat} {n : String} (h : d.sigName t = some n) :
    crrFrq (gnssLetter d.g) (some n) = .ok (d.sigFreq n) := by
  obtain ⟨b, a, h1, -, h3⟩ := (C56_codes d.g t).2 n h
  unfold MsmData.sigFreq
  rw [h3, h1]
  rfl

theorem gnss_ne {d : MsmData} (h : d.WF) : d.attrObj.gnss ≠ "" := by
  have : d.g = 0 ∨ d.g = 1 ∨ d.g = 2 ∨ d.g = 3 ∨ d.g = 4 ∨ d.g = 5 ∨ d.g = 6 := by have := h.g; omega
  unfold MsmData.attrObj
  rcases this with e | e | e | e | e | e | e <;> simp only [e] <;> decide

theorem gnss_R {d : MsmData} (h : d.WF) : d.attrObj.gnss = "R" ↔ d.g = 1 := by
  have : d.g = 0 ∨ d.g = 1 ∨ d.g = 2 ∨ d.g = 3 ∨ d.g = 4 ∨ d.g = 5 ∨ d.g = 6 := by have := h.g; omega
  unfold MsmData.attrObj
  rcases this with e | e | e | e | e | e | e <;> simp only [e] <;> decide

theorem bareObj_atr (d : MsmData) : d.bareObj.atr = d.attrObj := by
  unfold MsmData.bareObj; dsimp only; split <;> rfl

theorem bareObj_hdr (d : MsmData) : d.bareObj.hdr = d.hdrObj := by
  unfold MsmData.bareObj; dsimp only; split <;> rfl

theorem nsat_pos {d : MsmData} (h : d.WF) : 0 < d.nsat ∧ 0 < d.nsig := by
  have h1 := h.nonempty
  have h2 : d.ncell ≤ d.nsat * d.nsig := by rw [← h.cells]; exact List.count_le_length
  have h3 : 0 < d.nsat * d.nsig := by omega
  exact ⟨Nat.pos_of_mul_pos_right h3, Nat.pos_of_mul_pos_left h3⟩

/-- Observations delivered by the code. -/
def codeObs (d : MsmData) : Obs := if d.k ≤ 3 then d.codeObs13 else d.scaledObs

theorem obsDel47 {d : MsmData} (hw : d.WF) (hr : Ranged d) (hs : d.SignalsKnown) (hk : 4 ≤ d.k) :
    obsDel (nmOf d) d.nsig d.nsig (rowsOf (fun a => d.satList.getD a 0) d.nsat (V47 (src47 d) (scOf d) d.cells d.nsig)) =
      d.scaledObs := by
  have key := fun a (ha : a ∈ List.range d.nsat) b (hb : b < d.nsig) =>
    values47 hw hr hk (a := a) (b := b) (by simpa using ha) hb
  unfold obsDel MsmData.scaledObs
  rw [table_eq hs d.rngVal (fun b => (rowsOf (fun a => d.satList.getD a 0) d.nsat (V47 (src47 d) (scOf d) d.cells d.nsig) b).rng)
      (fun b hb => filterMap_congr' (fun a ha => by rw [(key a ha b hb).1])),
    table_eq hs d.phsVal (fun b => (rowsOf (fun a => d.satList.getD a 0) d.nsat (V47 (src47 d) (scOf d) d.cells d.nsig) b).phs)
      (fun b hb => filterMap_congr' (fun a ha => by rw [(key a ha b hb).2.1])),
    table_eq hs d.ltmVal (fun b => (rowsOf (fun a => d.satList.getD a 0) d.nsat (V47 (src47 d) (scOf d) d.cells d.nsig) b).ltm)
      (fun b hb => filterMap_congr' (fun a ha => by rw [(key a ha b hb).2.2.1])),
    table_eq hs d.hcaVal (fun b => (rowsOf (fun a => d.satList.getD a 0) d.nsat (V47 (src47 d) (scOf d) d.cells d.nsig) b).hca)
      (fun b hb => filterMap_congr' (fun a ha => by rw [(key a ha b hb).2.2.2.1])),
    table_eq hs d.dplVal (fun b => (rowsOf (fun a => d.satList.getD a 0) d.nsat (V47 (src47 d) (scOf d) d.cells d.nsig) b).dpl)
      (fun b hb => filterMap_congr' (fun a ha => by rw [(key a ha b hb).2.2.2.2.1])),
    table_eq hs d.c2nVal (fun b => (rowsOf (fun a => d.satList.getD a 0) d.nsat (V47 (src47 d) (scOf d) d.cells d.nsig) b).c2n)
      (fun b hb => filterMap_congr' (fun a ha => by rw [(key a ha b hb).2.2.2.2.2]))]

theorem obsDel13 {d : MsmData} (hw : d.WF) (hr : Ranged d) (hs : d.SignalsKnown) (hk : d.k ≤ 3) :
    cut13 (obsDel (nmOf d) d.nsig d.nsig
      (rowsOf (fun a => d.satList.getD a 0) d.nsat (V13 (src13 d) SCALERS45 d.cells d.nsig))) = d.codeObs13 := by
  have key := fun a (ha : a ∈ List.range d.nsat) b (hb : b < d.nsig) =>
    values13 hw hr hk (a := a) (b := b) (by simpa using ha) hb
  unfold obsDel MsmData.codeObs13 cut13
  rw [table_eq hs d.rngVal (fun b => (rowsOf (fun a => d.satList.getD a 0) d.nsat (V13 (src13 d) SCALERS45 d.cells d.nsig) b).rng)
      (fun b hb => filterMap_congr' (fun a ha => by rw [(key a ha b hb).1])),
    table_eq hs (fun s t => if d.sticky s t then none else d.phsVal s t)
      (fun b => (rowsOf (fun a => d.satList.getD a 0) d.nsat (V13 (src13 d) SCALERS45 d.cells d.nsig) b).phs)
      (fun b hb => filterMap_congr' (fun a ha => by rw [(key a ha b hb).2.1])),
    table_eq hs (fun s t => if d.sticky s t then none else d.ltmVal s t)
      (fun b => (rowsOf (fun a => d.satList.getD a 0) d.nsat (V13 (src13 d) SCALERS45 d.cells d.nsig) b).ltm)
      (fun b hb => filterMap_congr' (fun a ha => by rw [(key a ha b hb).2.2.1])),
    table_eq hs (fun s t => if d.sticky s t then none else d.hcaVal s t)
      (fun b => (rowsOf (fun a => d.satList.getD a 0) d.nsat (V13 (src13 d) SCALERS45 d.cells d.nsig) b).hca)
      (fun b hb => filterMap_congr' (fun a ha => by rw [(key a ha b hb).2.2.2]))]

theorem sgnMap_eq {d : MsmData} (hs : d.SignalsKnown) :
    (d.sigList.map (rnxLit (gnssLetter d.g))).mapM (signalItem (gnssLetter d.g)) =
      .ok ((List.range d.nsig).map (fun b => (nmOf d b, d.sigFreq (nmOf d b)))) := by
  have h1 : d.sigList = (List.range d.nsig).map (fun b => d.sigList.getD b 0) := setNumbers_range d.sigs
  have h2 : d.sigList.map (rnxLit (gnssLetter d.g)) = (List.range d.nsig).map (fun b => some (nmOf d b)) := by
    conv_lhs => rw [h1]
    rw [List.map_map]
    apply List.map_congr_left
    intro b hb
    have := sigName_nm hs b (by simpa using hb)
    rw [sigName_eq] at this
    exact this
  rw [h2]
  have : ∀ x ∈ (List.range d.nsig).map (fun b => some (nmOf d b)),
      signalItem (gnssLetter d.g) x = .ok ((fun x => (x.getD "", d.sigFreq (x.getD ""))) x) := by
    intro x hx
    simp only [List.mem_map, List.mem_range] at hx
    obtain ⟨b, hb, rfl⟩ := hx
    unfold signalItem
    rw [freq_ok (sigName_nm hs b hb), ok_bind]
    rfl
  rw [mapM_ok' _ _ _ this, List.map_map]
  rfl

theorem sigs_dict {d : MsmData} (hs : d.SignalsKnown) :
    ((List.range d.nsig).map (fun b => (nmOf d b, d.sigFreq (nmOf d b)))).foldl
      (fun (x : PyDict String Rat) p => x.set p.1 p.2) [] =
    d.sigList.filterMap (fun t => (d.sigName t).map (fun n => (n, d.sigFreq n))) := by
  rw [List.foldl_map]
  rw [foldl_set_new (fun b => d.sigFreq (nmOf d b)) (nm_inj hs) d.nsig le_rfl]
  have h1 : d.sigList = (List.range d.nsig).map (fun b => d.sigList.getD b 0) := setNumbers_range d.sigs
  conv_rhs => rw [h1]
  rw [List.filterMap_map, ← List.filterMap_eq_map]
  apply filterMap_congr'
  intro b hb
  simp only [Function.comp]
  rw [sigName_nm hs b (by simpa using hb)]
  rfl

theorem convert_known {d : MsmData} (hw : d.WF) (hr : Ranged d) (hs : d.SignalsKnown) :
    convert (some d.bareObj) = .ok (some { d.scaledObj with obs := codeObs d }) := by
  have hpos := nsat_pos hw
  have hmask : d.hdrObj.sat_mask ≠ 0 := by
    intro h
    have h := (maskInt_zero _).1 h
    have := hpos.1
    unfold MsmData.nsat at this
    omega
  have hsl : maskList d.hdrObj.sat_mask 64 = d.satList := maskList_eq _ _ hw.sats
  have hgl : maskList d.hdrObj.sgn_mask 32 = d.sigList := maskList_eq _ _ hw.sigs
  have hM : bitCount d.hdrObj.sgn_mask = d.nsig := bitCount_maskInt _
  have hN : d.satList.length = d.nsat := setNumbers_length _
  have hslots : (List.range d.nsat).map (fun i => (d.hdrObj.cell_mask >>> (d.nsig * i)) &&& ((1 <<< d.nsig) - 1)) =
      (List.range d.nsat).map (fun a => maskInt (slice d.cells (a * d.nsig) d.nsig)) := by
    apply List.map_congr_left
    intro a _
    exact slots_eq _ _ _
  have hatr : d.attrObj.gnss = gnssLetter d.g := rfl
  have hsat : d.satList = (List.range d.nsat).map (fun a => d.satList.getD a 0) := setNumbers_range d.sats
  have hnm : ((List.range d.nsig).map (fun b => (nmOf d b, d.sigFreq (nmOf d b)))).map (·.1) = (List.range d.nsig).map (nmOf d) := by
    rw [List.map_map]; rfl
  have l4 := hw.rngFine; have l5 := hw.phsFine
  have l6 := hw.lock; have l7 := hw.half; have l8 := hw.cnr; have l9 := hw.rateFine
  have l1 := hw.rngMs; have l2 := hw.rngRough; have l3 := hw.rateRough
  have htime : d.bareObj.time = d.scaledHdr.time := by
    unfold Bare.time MsmData.scaledHdr
    rw [bareObj_atr, bareObj_hdr]
    by_cases h1 : d.g = 1
    · rw [if_pos ((gnss_R hw).2 h1)]
      simp only [h1, if_true]
      exact Nat.and_two_pow_sub_one_eq_mod _ 27
    · rw [if_neg (fun h => h1 ((gnss_R hw).1 h))]
      simp only [h1, if_false]
      rfl
  have hday : d.bareObj.day = d.scaledHdr.day := by
    unfold Bare.day MsmData.scaledHdr
    rw [bareObj_atr, bareObj_hdr]
    by_cases h1 : d.g = 1
    · rw [if_pos ((gnss_R hw).2 h1)]
      simp only [h1, if_true]
      have e : d.hdrObj.time = d.time := rfl
      have := hr.time
      rw [e, Nat.shiftRight_eq_div_pow]
      rw [show d.time / 2 ^ 27 &&& 7 = d.time / 2 ^ 27 % 2 ^ 3 from Nat.and_two_pow_sub_one_eq_mod _ 3]
      omega
    · rw [if_neg (fun h => h1 ((gnss_R hw).1 h))]
      simp only [h1, if_false]
  unfold convert
  dsimp only
  rw [bareObj_atr, if_neg (gnss_ne hw), bareObj_hdr, if_neg hmask, htime, hday]
  simp only [hsl, hgl, hM, hN, hatr]
  rw [sgnMap_eq hs, ok_bind, hslots, hnm, sigs_dict hs]
  have hobs : (match d.bareObj with
      | .m4567 b => convertObs47 b d.satList ((List.range d.nsig).map (nmOf d))
          ((List.range d.nsat).map (fun a => maskInt (slice d.cells (a * d.nsig) d.nsig))) {}
      | .m123 b => convertObs13 b d.satList ((List.range d.nsig).map (nmOf d))
          ((List.range d.nsat).map (fun a => maskInt (slice d.cells (a * d.nsig) d.nsig))) {}) = .ok (codeObs d) := by
    unfold codeObs
    by_cases hk : d.k ≤ 3
    · rw [bareObj13 hk, if_pos hk, ← obsDel13 hw hr hs hk]
      dsimp only
      rw [hsat]
      have hk1 : 1 ≤ d.k ∧ d.k ≤ 3 := ⟨hw.k.1, hk⟩
      obtain ⟨w2, w2a, w2b, w1a, w1b⟩ := widths13 hk1
      rw [← hsat]
      conv_lhs => rw [hsat]
      apply convertObs13_eq (src13 d) d.cells (nmOf d) (fun a => d.satList.getD a 0) d.nsat d.nsig (nm_inj hs)
        (setNumbers_inj d.sats) hw.cells
      · intro h
        rw [(is13 hk1).1, decide_eq_true_iff] at h
        have := w2b h
        simp only [src13, colObj, if_neg (show (msmWidths d.k).fine ≠ 0 by omega)]
        rw [l4, colLen_ne (by omega)]; rfl
      · intro h
        rw [(is13 hk1).2, decide_eq_true_iff] at h
        obtain ⟨v1, v2, v3⟩ := w1b h
        simp only [src13, colObj, if_neg (show (msmWidths d.k).phs ≠ 0 by omega), if_neg v2, if_neg v3]
        rw [l5, l6, l7, colLen_ne (by omega), colLen_ne v2, colLen_ne v3]
        exact ⟨rfl, rfl, rfl⟩
      · simp only [src13, colObj, if_neg w2]
        rw [l2, colLen_ne w2]
    · rw [bareObj47 (by omega), if_neg hk, ← obsDel47 hw hr hs (by omega)]
      dsimp only
      obtain ⟨w1, w2, w3, w4, w5, w6, w7⟩ := widths47 (k := d.k) ⟨by omega, hw.k.2⟩
      conv_lhs => rw [hsat]
      apply convertObs47_eq (src47 d) d.cells (nmOf d) (fun a => d.satList.getD a 0) d.nsat d.nsig (nm_inj hs)
        (setNumbers_inj d.sats) hw.cells
      · simp only [src47, colObj, if_neg w3]; rw [l4, colLen_ne w3]; rfl
      · simp only [src47, colObj, if_neg w4]; rw [l5, colLen_ne w4]; rfl
      · simp only [src47, colObj, if_neg w5]; rw [l6, colLen_ne w5]; rfl
      · simp only [src47, colObj, if_neg w7]; rw [l8, colLen_ne w7]; rfl
      · simp only [src47, colObj, if_neg w6]; rw [l7, colLen_ne w6]; rfl
      · intro h
        rw [is57 hw, decide_eq_true_iff] at h
        obtain ⟨v1, v2⟩ := (widths57 hw.k).1 h
        simp only [src47, colObj, if_neg (show (msmWidths d.k).rate ≠ 0 by omega),
          if_neg (show (msmWidths d.k).fineRate ≠ 0 by omega)]
        rw [l9, l3, colLen_ne (by omega), colLen_ne (by omega)]
        exact ⟨rfl, rfl⟩
      · simp only [src47, colObj, if_neg w1]; rw [l1, colLen_ne w1]
      · simp only [src47, colObj, if_neg w2]; rw [l2, colLen_ne w2]
  cases hbo : d.bareObj <;> rw [hbo] at hobs <;> dsimp only at hobs ⊢ <;> rw [hobs, ok_bind] <;>
    simp only [pure_ok, MsmData.scaledObj, MsmData.scaledAux, steer_eq, extClock_eq, smooth_eq, interval_eq] <;> rfl

theorem convert_unknown {d : MsmData} (hw : d.WF) (hs : ¬ d.SignalsKnown) : ∃ e, convert (some d.bareObj) = .error e := by
  have hpos := nsat_pos hw
  have hmask : d.hdrObj.sat_mask ≠ 0 := by
    intro h
    have h := (maskInt_zero _).1 h
    have := hpos.1
    unfold MsmData.nsat at this
    omega
  have hgl : maskList d.hdrObj.sgn_mask 32 = d.sigList := maskList_eq _ _ hw.sigs
  have hatr : d.attrObj.gnss = gnssLetter d.g := rfl
  have : ∃ t ∈ d.sigList, d.sigName t = none := by
    unfold MsmData.SignalsKnown at hs
    push_neg at hs
    obtain ⟨t, ht, h⟩ := hs
    exact ⟨t, ht, by simpa using h⟩
  obtain ⟨t, ht, hn⟩ := this
  obtain ⟨e, he⟩ := mapM_err (signalItem (gnssLetter d.g)) (d.sigList.map (rnxLit (gnssLetter d.g))) none
    (List.mem_map.2 ⟨t, ht, (sigName_eq d t).symm.trans hn⟩) (by
      unfold signalItem crrFrq
      cases rinexCfTab.get? (gnssLetter d.g) <;> exact ⟨.keyError, rfl⟩)
  unfold convert
  dsimp only
  rw [bareObj_atr, if_neg (gnss_ne hw), bareObj_hdr, if_neg hmask, hgl, hatr, he]
  exact ⟨e, rfl⟩

end Verif
