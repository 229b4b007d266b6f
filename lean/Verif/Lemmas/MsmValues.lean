import Verif.Lemmas.MsmScaled

/-!
# Scaled observables: values and the whole object
-/

namespace Verif
open Spec Bits Msm RtcmUtil

theorem getElem?_getD {α : Type} {l : List α} {i : Nat} (h : i < l.length) (dflt : α) : l[i]? = some (l.getD i dflt) := by
  rw [List.getD_eq_getElem?_getD, List.getElem?_eq_getElem h]; rfl

theorem getD_mem {α : Type} {l : List α} {i : Nat} (h : i < l.length) (dflt : α) : l.getD i dflt ∈ l := by
  rw [List.getD_eq_getElem?_getD, List.getElem?_eq_getElem h]; exact List.getElem_mem h

theorem lock407_eq (t : Nat) : unpackTlock10 t = lock407 t := by
  unfold unpackTlock10 lock407
  simp only [Nat.shiftRight_eq_div_pow, Nat.one_shiftLeft]

theorem lock402_eq (t : Nat) : unpackTlock4 t = lock402 t := by
  unfold unpackTlock4 lock402
  rw [Nat.one_shiftLeft]

theorem steer_eq (n : Nat) : unpackClkSteer n = steerName n := by
  unfold unpackClkSteer steerName
  split
  · subst_vars; rfl
  · split
    · subst_vars; rfl
    · split <;> simp_all

theorem extClock_eq (n : Nat) : unpackClkExt n = extClockName n := by
  match n with
  | 0 => rfl
  | 1 => rfl
  | 2 => rfl
  | n + 3 => simp [unpackClkExt, extClockName]

theorem smooth_eq (n : Nat) : unpackSmthIndc n = smoothName n := by
  match n with
  | 0 => rfl
  | 1 => rfl
  | n + 2 => simp [unpackSmthIndc, smoothName]

theorem interval_eq (n : Nat) : unpackSmthIntr n = intervalName n := by
  match n with
  | 0 => rfl
  | 1 => rfl
  | 2 => rfl
  | 3 => rfl
  | 4 => rfl
  | 5 => rfl
  | 6 => rfl
  | n + 7 => simp [unpackSmthIntr, intervalName]

/-! ## Cells -/

/-- Index of the cell in row `a`, column `b`. -/
def cidx (d : MsmData) (a b : Nat) : Nat := (d.cells.take (a * d.nsig + b)).count true

theorem satRow_at {d : MsmData} {a : Nat} (ha : a < d.nsat) : d.satRow (d.satList.getD a 0) = a :=
  (setNumbers_spec d.sats a ha).2.2.2

theorem sigCol_at {d : MsmData} {b : Nat} (hb : b < d.nsig) : d.sigCol (d.sigList.getD b 0) = b :=
  (setNumbers_spec d.sigs b hb).2.2.2

theorem cellIdx_at {d : MsmData} {a b : Nat} (ha : a < d.nsat) (hb : b < d.nsig) :
    d.cellIdx (d.satList.getD a 0) (d.sigList.getD b 0) =
      if d.cells.getD (a * d.nsig + b) false = true then some (cidx d a b) else none := by
  unfold MsmData.cellIdx MsmData.cellPos
  rw [satRow_at ha, sigCol_at hb]
  rfl

theorem cidx_lt {d : MsmData} {a b : Nat} (h : d.cells.getD (a * d.nsig + b) false = true) : cidx d a b < d.ncell := by
  have hl : a * d.nsig + b < d.cells.length := by
    by_contra hn
    rw [List.getD_eq_getElem?_getD, List.getElem?_eq_none (by omega)] at h
    simp at h
  unfold cidx MsmData.ncell
  have h1 : d.cells.count true = (d.cells.take (a * d.nsig + b)).count true + (d.cells.drop (a * d.nsig + b)).count true := by
    rw [← List.count_append, List.take_append_drop]
  have h2 : d.cells[a * d.nsig + b] = true := by
    rw [List.getD_eq_getElem?_getD, List.getElem?_eq_getElem hl] at h
    exact h
  rw [List.drop_eq_getElem_cons hl, h2, List.count_cons_self] at h1
  omega

/-! ## MSM4 … MSM7 -/

/-- The bare object of an MSM4 … MSM7 content. -/
def src47 (d : MsmData) : Bare4567 :=
  let w := msmWidths d.k
  { atr := d.attrObj, hdr := d.hdrObj,
    sat :=
      { rng_ms := colObj w.ms d.rngMs, ext_info := colObj w.ext d.extInfo, rng_rough := colObj w.rough d.rngRough,
        phase_rate_rough := colObj w.rate d.rateRough },
    sgn :=
      { rng_fine := colObj w.fine d.rngFine, phase_fine := colObj w.phs d.phsFine, lock_time := colObj w.lock d.lock,
        hc_indc := colObj w.half d.half, c2n := colObj w.cnr d.cnr, phase_rate_fine := colObj w.fineRate d.rateFine } }

theorem bareObj47 {d : MsmData} (h : 4 ≤ d.k) : d.bareObj = .m4567 (src47 d) := by
  unfold MsmData.bareObj
  rw [if_neg (by omega)]; rfl

/-- The scaling constants selected for a message. -/
def scOf (d : MsmData) : Scalers := if (src47 d).atr.is_msm7 || (src47 d).atr.is_msm6 then SCALERS67 else SCALERS45


theorem scOf_low {d : MsmData} (h : d.k = 4 ∨ d.k = 5) : scOf d = SCALERS45 := by
  unfold scOf src47 MsmData.attrObj Attributes.is_msm7 Attributes.is_msm6
  rcases h with h | h <;> simp only [h] <;> rfl

theorem scOf_high {d : MsmData} (h : d.k = 6 ∨ d.k = 7) : scOf d = SCALERS67 := by
  unfold scOf src47 MsmData.attrObj Attributes.is_msm7 Attributes.is_msm6
  rcases h with h | h <;> simp only [h] <;> rfl

/-- What is needed to know about the scaling constants. -/
structure ScSpec (d : MsmData) (sc : Scalers) : Prop where
  rng : sc.rng = resRng d.k
  phs : sc.phs = resPhs d.k
  dpl : sc.dpl = resRate
  c2n : sc.c2n = resCnr d.k
  ltm : ∀ t, sc.ltm t = if d.k = 6 ∨ d.k = 7 then lock407 t else lock402 t
  okRng : (msmWidths d.k).fine ≠ 0 → ∀ x : Int, -(2 ^ ((msmWidths d.k).fine - 1) : Int) ≤ x → x < 2 ^ ((msmWidths d.k).fine - 1) →
    (sc.okRng x = true ↔ x ≠ -(2 ^ ((msmWidths d.k).fine - 1)))
  okPhs : (msmWidths d.k).phs ≠ 0 → ∀ x : Int, -(2 ^ ((msmWidths d.k).phs - 1) : Int) ≤ x → x < 2 ^ ((msmWidths d.k).phs - 1) →
    (sc.okPhs x = true ↔ x ≠ -(2 ^ ((msmWidths d.k).phs - 1)))
  okDpl : (msmWidths d.k).fineRate ≠ 0 → ∀ x : Int, -(2 ^ ((msmWidths d.k).fineRate - 1) : Int) ≤ x →
    x < 2 ^ ((msmWidths d.k).fineRate - 1) → (sc.okDpl x = true ↔ x ≠ -(2 ^ ((msmWidths d.k).fineRate - 1)))

theorem scSpec45 {d : MsmData} (h : 1 ≤ d.k ∧ d.k ≤ 5) : ScSpec d SCALERS45 := by
  have hk : d.k = 1 ∨ d.k = 2 ∨ d.k = 3 ∨ d.k = 4 ∨ d.k = 5 := by omega
  have n6 : ¬ (d.k = 6 ∨ d.k = 7) := by omega
  refine ⟨?_, ?_, rfl, ?_, ?_, ?_, ?_, ?_⟩
  · unfold resRng; rw [if_neg n6]; rfl
  · unfold resPhs; rw [if_neg n6]; rfl
  · unfold resCnr; rw [if_neg n6]; rfl
  · intro t; rw [if_neg n6]; exact lock402_eq t
  · intro h0 x h1 h2
    rcases hk with e | e | e | e | e <;> rw [e] at h0 h1 h2 ⊢ <;> first | exact absurd rfl h0 | exact (C26_markers x).1 h1 h2
  · intro h0 x h1 h2
    rcases hk with e | e | e | e | e <;> rw [e] at h0 h1 h2 ⊢ <;> first | exact absurd rfl h0 | exact (C26_markers x).2.1 h1 h2
  · intro h0 x h1 h2
    rcases hk with e | e | e | e | e <;> rw [e] at h0 h1 h2 ⊢ <;>
      first | exact absurd rfl h0 | exact (C26_markers x).2.2.2.2 h1 h2

theorem scSpec67 {d : MsmData} (h : d.k = 6 ∨ d.k = 7) : ScSpec d SCALERS67 := by
  refine ⟨?_, ?_, rfl, ?_, ?_, ?_, ?_, ?_⟩
  · unfold resRng; rw [if_pos h]; rfl
  · unfold resPhs; rw [if_pos h]; rfl
  · unfold resCnr; rw [if_pos h]; simp [SCALERS67]; norm_num
  · intro t; rw [if_pos h]; exact lock407_eq t
  · intro h0 x h1 h2
    rcases h with e | e <;> rw [e] at h0 h1 h2 ⊢ <;> exact (C26_markers x).2.2.1 h1 h2
  · intro h0 x h1 h2
    rcases h with e | e <;> rw [e] at h0 h1 h2 ⊢ <;> exact (C26_markers x).2.2.2.1 h1 h2
  · intro h0 x h1 h2
    rcases h with e | e <;> rw [e] at h0 h1 h2 ⊢ <;> first | exact absurd rfl h0 | exact (C26_markers x).2.2.2.2 h1 h2

theorem scSpec47 {d : MsmData} (h : d.WF) (hk : 4 ≤ d.k) : ScSpec d (scOf d) := by
  have := h.k
  by_cases h6 : d.k = 6 ∨ d.k = 7
  · rw [scOf_high h6]; exact scSpec67 h6
  · rw [scOf_low (by omega)]; exact scSpec45 (by omega)

theorem valid_bind (w : Nat) (x : Int) (p : Prop) [Decidable p] (g : Rat → Rat) (hp : p ↔ x ≠ -(2 ^ (w - 1))) :
    (if p then some (g (x : Rat)) else none) = (validInt w x).bind (fun f => some (g f)) := by
  unfold validInt
  by_cases e : x = -(2 ^ (w - 1))
  · have : ¬ p := fun h => hp.1 h e
    rw [if_neg this, if_pos e]; rfl
  · rw [if_pos (hp.2 e), if_neg e]; rfl

theorem colObj_ne {α : Type} [OfNat α 0] {w : Nat} (h : w ≠ 0) (l : List α) : colObj w l = l := by
  unfold colObj; rw [if_neg h]

theorem widths47 {k : Nat} (h : 4 ≤ k ∧ k ≤ 7) : (msmWidths k).ms ≠ 0 ∧ (msmWidths k).rough ≠ 0 ∧ (msmWidths k).fine ≠ 0 ∧
    (msmWidths k).phs ≠ 0 ∧ (msmWidths k).lock ≠ 0 ∧ (msmWidths k).half ≠ 0 ∧ (msmWidths k).cnr ≠ 0 := by
  have : k = 4 ∨ k = 5 ∨ k = 6 ∨ k = 7 := by omega
  rcases this with rfl | rfl | rfl | rfl <;> decide

theorem widths57 {k : Nat} (h : 1 ≤ k ∧ k ≤ 7) : ((k = 5 ∨ k = 7) → (msmWidths k).rate = 14 ∧ (msmWidths k).fineRate = 15) ∧
    (¬ (k = 5 ∨ k = 7) → (msmWidths k).rate = 0) := by
  have : k = 1 ∨ k = 2 ∨ k = 3 ∨ k = 4 ∨ k = 5 ∨ k = 6 ∨ k = 7 := by omega
  rcases this with rfl | rfl | rfl | rfl | rfl | rfl | rfl <;> decide

theorem colLen_ne {w n : Nat} (h : w ≠ 0) : MsmData.colLen w n = n := by unfold MsmData.colLen; rw [if_neg h]

theorem is57 {d : MsmData} (h : d.WF) : ((src47 d).atr.is_msm7 || (src47 d).atr.is_msm5) = decide (d.k = 5 ∨ d.k = 7) := by
  unfold src47 MsmData.attrObj Attributes.is_msm7 Attributes.is_msm5
  have : d.k = 1 ∨ d.k = 2 ∨ d.k = 3 ∨ d.k = 4 ∨ d.k = 5 ∨ d.k = 6 ∨ d.k = 7 := by have := h.k; omega
  rcases this with e | e | e | e | e | e | e <;> simp only [e] <;> decide

theorem crng_light : CRNG_1MS = lightMs := rfl

theorem values47 {d : MsmData} (hw : d.WF) (hr : Ranged d) (hk : 4 ≤ d.k) {a b : Nat} (ha : a < d.nsat) (hb : b < d.nsig) :
    let s := d.satList.getD a 0
    let t := d.sigList.getD b 0
    let v := V47 (src47 d) (scOf d) d.cells d.nsig a b
    v.rng = d.rngVal s t ∧ v.phs = d.phsVal s t ∧ v.ltm = d.ltmVal s t ∧ v.hca = d.hcaVal s t ∧ v.dpl = d.dplVal s t ∧
      v.c2n = d.c2nVal s t := by
  dsimp only
  have hsc := scSpec47 hw hk
  unfold V47
  simp only [MsmData.rngVal, MsmData.phsVal, MsmData.ltmVal, MsmData.hcaVal, MsmData.dplVal, MsmData.c2nVal, MsmData.rough,
    cellIdx_at ha hb, satRow_at ha]
  by_cases hcell : d.cells.getD (a * d.nsig + b) false = true
  swap
  · simp only [if_neg hcell]
    exact ⟨rfl, rfl, rfl, rfl, rfl, rfl⟩
  simp only [if_pos hcell]
  rw [show (d.cells.take (a * d.nsig + b)).count true = cidx d a b from rfl]
  have hj := cidx_lt hcell
  generalize cidx d a b = j at hj
  obtain ⟨w1, w2, w3, w4, w5, w6, w7⟩ := widths47 ⟨hk, hw.k.2⟩
  have l1 := hw.rngMs; have l2 := hw.rngRough; have l3 := hw.rateRough; have l4 := hw.rngFine; have l5 := hw.phsFine
  have l6 := hw.lock; have l7 := hw.half; have l8 := hw.cnr; have l9 := hw.rateFine
  rw [colLen_ne w1] at l1
  rw [colLen_ne w2] at l2
  rw [colLen_ne w3] at l4
  rw [colLen_ne w4] at l5
  rw [colLen_ne w5] at l6
  rw [colLen_ne w6] at l7
  rw [colLen_ne w7] at l8
  have k3 : ¬ d.k ≤ 3 := by omega
  have hrough : ∀ ms r : Nat, (((ms <<< 10 + r : Nat) : Rat) / 1024) = (ms : Rat) + (r : Rat) / 1024 := by
    intro ms r
    rw [Nat.shiftLeft_eq]; push_cast; ring
  have m4 := hr.fine _ (getD_mem (l4 ▸ hj) 0)
  have m5 := hr.phs _ (getD_mem (l5 ▸ hj) 0)
  simp only [is57 hw, Option.bind_eq_bind, Option.bind_some]
  simp only [getElem?_getD (l1 ▸ ha) 0, getElem?_getD (l2 ▸ ha) 0, getElem?_getD (l4 ▸ hj) 0, getElem?_getD (l5 ▸ hj) 0,
      getElem?_getD (l6 ▸ hj) 0, getElem?_getD (l7 ▸ hj) 0, getElem?_getD (l8 ▸ hj) 0]
  simp only [cv47, src47, colObj, if_neg w1, if_neg w2, if_neg w3, if_neg w4, if_neg w5, if_neg w6, if_neg w7,
    hsc.rng, hsc.phs, hsc.dpl, hsc.c2n, hsc.ltm, hrough, crng_light, bne_iff_ne, ne_eq, k3, if_false, false_and,
    Option.bind_some]
  refine ⟨?_, ?_, ?_, ?_, ?_, ?_⟩
  · by_cases e : d.rngMs.getD a 0 = 255
    · rw [if_neg (fun h => h.1 e), if_pos e]; rfl
    · simp only [e, not_false_eq_true, true_and, if_false, Option.bind_some]
      exact valid_bind _ _ _ (fun f => (_ + f * _) * _) (hsc.okRng w3 _ m4.1 m4.2)
  · by_cases e : d.rngMs.getD a 0 = 255
    · rw [if_neg (fun h => h.1 e), if_pos e]; rfl
    · simp only [e, not_false_eq_true, true_and, if_false, Option.bind_some]
      exact valid_bind _ _ _ (fun f => (_ + f * _) * _) (hsc.okPhs w4 _ m5.1 m5.2)
  · split <;> rfl
  · congr 1
    simp [bne, Bool.beq_eq_decide_eq]
  · by_cases e : d.k = 5 ∨ d.k = 7
    · obtain ⟨v1, v2⟩ := (widths57 hw.k).1 e
      rw [colLen_ne (by omega)] at l3 l9
      have m3 := hr.rate _ (getD_mem (l3 ▸ ha) 0)
      have m9 := hr.fineRate _ (getD_mem (l9 ▸ hj) 0)
      rw [if_neg (show (msmWidths d.k).rate ≠ 0 by omega), if_neg (show (msmWidths d.k).fineRate ≠ 0 by omega),
        getElem?_getD (l3 ▸ ha) 0, getElem?_getD (l9 ▸ hj) 0]
      simp only [e, decide_true, Bool.true_and, Option.bind_some]
      have hrate : ((d.rateRough.getD a 0 % 2 ^ 14 != 0x2000) = true) ↔
          d.rateRough.getD a 0 ≠ -(2 ^ ((msmWidths d.k).rate - 1)) := by
        rw [v1] at m3 ⊢
        rw [bne_iff_ne]
        omega
      have := valid_bind (msmWidths d.k).fineRate (d.rateFine.getD j 0) ((scOf d).okDpl (d.rateFine.getD j 0) = true)
        (fun f => (d.rateRough.getD a 0 : Rat) + f * resRate) (hsc.okDpl (by omega) _ m9.1 m9.2)
      by_cases c : d.rateRough.getD a 0 = -(2 ^ ((msmWidths d.k).rate - 1))
      · have c' : ¬ ((d.rateRough.getD a 0 % 2 ^ 14 != 0x2000) = true) := fun h => hrate.1 h c
        rw [if_neg (fun h => c' h.1)]
        unfold validInt
        rw [if_pos c]
        rfl
      · have c' := hrate.2 c
        simp only [c', true_and]
        rw [this]
        conv_rhs => unfold validInt
        rw [if_neg c]
        rfl
    · have v1 := (widths57 hw.k).2 e
      rw [v1] at l3
      have : d.rateRough = [] := List.length_eq_zero_iff.1 l3
      rw [this]
      simp [e]
  · trivial

/-! ## MSM1 … MSM3 -/

/-- The bare object of an MSM1 … MSM3 content. -/
def src13 (d : MsmData) : Bare123 :=
  let w := msmWidths d.k
  { atr := d.attrObj, hdr := d.hdrObj, sat := { rng_rough := colObj w.rough d.rngRough },
    sgn :=
      { rng_fine := colObj w.fine d.rngFine, phase_fine := colObj w.phs d.phsFine, lock_time := colObj w.lock d.lock,
        hc_indc := colObj w.half d.half } }

theorem bareObj13 {d : MsmData} (h : d.k ≤ 3) : d.bareObj = .m123 (src13 d) := by
  unfold MsmData.bareObj
  rw [if_pos h]; rfl

theorem widths13 {k : Nat} (h : 1 ≤ k ∧ k ≤ 3) : (msmWidths k).rough ≠ 0 ∧
    (k = 2 → (msmWidths k).fine = 0) ∧ (k ≠ 2 → (msmWidths k).fine = 15) ∧
    (k = 1 → (msmWidths k).phs = 0 ∧ (msmWidths k).lock = 0 ∧ (msmWidths k).half = 0) ∧
    (k ≠ 1 → (msmWidths k).phs = 22 ∧ (msmWidths k).lock ≠ 0 ∧ (msmWidths k).half ≠ 0) := by
  have : k = 1 ∨ k = 2 ∨ k = 3 := by omega
  rcases this with rfl | rfl | rfl <;> decide

theorem is13 {d : MsmData} (h : 1 ≤ d.k ∧ d.k ≤ 3) : ((src13 d).atr.is_msm1 || (src13 d).atr.is_msm3) = decide (d.k ≠ 2) ∧
    ((src13 d).atr.is_msm2 || (src13 d).atr.is_msm3) = decide (d.k ≠ 1) := by
  unfold src13 MsmData.attrObj Attributes.is_msm1 Attributes.is_msm3 Attributes.is_msm2
  have : d.k = 1 ∨ d.k = 2 ∨ d.k = 3 := by omega
  rcases this with e | e | e <;> simp only [e] <;> decide

theorem sigList_any {d : MsmData} (p : Nat → Bool) :
    d.sigList.any p = true ↔ ∃ c, c < d.nsig ∧ p (d.sigList.getD c 0) = true := by
  have h1 : d.sigList = (List.range d.nsig).map (fun b => d.sigList.getD b 0) := setNumbers_range d.sigs
  rw [h1, List.any_map, List.any_eq_true, ← h1]
  simp only [List.mem_range, Function.comp]

theorem rngGood3 {d : MsmData} (hw : d.WF) (hr : Ranged d) (hk : d.k = 3) {j : Nat} (hj : j < d.ncell) :
    rngGood (src13 d) (decide (d.k ≠ 2)) j = true ↔ d.rngFine[j]? ≠ some (-(2 ^ ((msmWidths d.k).fine - 1))) := by
  have hL := hw.rngFine
  have hw3 : (msmWidths d.k).fine = 15 := (widths13 (k := d.k) (by omega)).2.2.1 (by omega)
  rw [colLen_ne (by omega)] at hL
  have m := hr.fine _ (getD_mem (hL ▸ hj) 0)
  rw [getElem?_getD (hL ▸ hj) 0]
  simp only [rngGood, src13, colObj, hw3] at m ⊢
  rw [if_neg (by omega)]
  have : decide (d.k ≠ 2) = true := by simp; omega
  rw [this]
  simp only [Bool.not_true, Bool.false_or, bne_iff_ne, ne_eq, Option.some.injEq]
  omega

theorem sticky_iff {d : MsmData} (hw : d.WF) (hr : Ranged d) (hk : d.k = 2 ∨ d.k = 3) {a b : Nat} (ha : a < d.nsat)
    (hb : b < d.nsig) :
    d.sticky (d.satList.getD a 0) (d.sigList.getD b 0) = false ↔
      ∀ c, c ≤ b → d.cells.getD (a * d.nsig + c) false = true →
        rngGood (src13 d) (decide (d.k ≠ 2)) ((d.cells.take (a * d.nsig + c)).count true) = true := by
  rcases hk with hk | hk
  · have : d.sticky (d.satList.getD a 0) (d.sigList.getD b 0) = false := by
      unfold MsmData.sticky; rw [hk]; rfl
    rw [this]
    simp [rngGood, hk]
  · unfold MsmData.sticky
    have : (d.k == 3) = true := by rw [hk]; rfl
    rw [this, Bool.true_and, Bool.eq_false_iff, ne_eq, sigList_any]
    simp only [Bool.and_eq_true, decide_eq_true_iff, sigCol_at hb]
    constructor
    · intro h c hc hcell
      have hcn : c < d.nsig := by omega
      rw [show (d.cells.take (a * d.nsig + c)).count true = cidx d a c from rfl, rngGood3 hw hr hk (cidx_lt hcell)]
      intro hbad
      refine h ⟨c, hcn, ?_, ?_⟩
      · rw [sigCol_at hcn]; exact hc
      · unfold MsmData.rngBad
        rw [cellIdx_at ha hcn, if_pos hcell]
        simp [hbad]
    · rintro h ⟨c, hcn, hcb, hbad⟩
      rw [sigCol_at hcn] at hcb
      unfold MsmData.rngBad at hbad
      rw [cellIdx_at ha hcn] at hbad
      by_cases hcell : d.cells.getD (a * d.nsig + c) false = true
      · rw [if_pos hcell] at hbad
        have := h c hcb hcell
        rw [show (d.cells.take (a * d.nsig + c)).count true = cidx d a c from rfl, rngGood3 hw hr hk (cidx_lt hcell)] at this
        apply this
        simpa using hbad
      · rw [if_neg hcell] at hbad
        simp at hbad

theorem values13 {d : MsmData} (hw : d.WF) (hr : Ranged d) (hk : d.k ≤ 3) {a b : Nat} (ha : a < d.nsat) (hb : b < d.nsig) :
    let s := d.satList.getD a 0
    let t := d.sigList.getD b 0
    let v := V13 (src13 d) SCALERS45 d.cells d.nsig a b
    v.rng = d.rngVal s t ∧ v.phs = (if d.sticky s t then none else d.phsVal s t) ∧
      v.ltm = (if d.sticky s t then none else d.ltmVal s t) ∧ v.hca = (if d.sticky s t then none else d.hcaVal s t) := by
  dsimp only
  have hsc : ScSpec d SCALERS45 := scSpec45 ⟨hw.k.1, by omega⟩
  have hk1 : 1 ≤ d.k ∧ d.k ≤ 3 := ⟨hw.k.1, hk⟩
  have n6 : ¬ (d.k = 6 ∨ d.k = 7) := by omega
  obtain ⟨w2, w2a, w2b, w1a, w1b⟩ := widths13 hk1
  unfold V13
  rw [(is13 hk1).1, (is13 hk1).2]
  have hst : (d.k = 2 ∨ d.k = 3) → _ := fun h => sticky_iff hw hr h ha hb
  simp only [MsmData.rngVal, MsmData.phsVal, MsmData.ltmVal, MsmData.hcaVal, MsmData.rough, cellIdx_at ha hb, satRow_at ha, hk,
    if_true, true_and]
  by_cases hcell : d.cells.getD (a * d.nsig + b) false = true
  swap
  · simp only [if_neg hcell]
    refine ⟨rfl, ?_, ?_, ?_⟩ <;> split <;> rfl
  simp only [if_pos hcell]
  rw [show (d.cells.take (a * d.nsig + b)).count true = cidx d a b from rfl]
  have hj := cidx_lt hcell
  have l2 := hw.rngRough; have l4 := hw.rngFine; have l5 := hw.phsFine; have l6 := hw.lock; have l7 := hw.half
  rw [colLen_ne w2] at l2
  simp only [Option.bind_eq_bind, Option.bind_some, getElem?_getD (l2 ▸ ha) 0]
  constructor
  · by_cases h2 : d.k = 2
    · rw [w2a h2] at l4
      have : d.rngFine = [] := List.length_eq_zero_iff.1 l4
      rw [this]
      simp [cv13, h2]
    · have w3 := w2b h2
      rw [colLen_ne (by omega)] at l4
      have m4 := hr.fine _ (getD_mem (l4 ▸ hj) 0)
      simp only [cv13, src13, colObj, if_neg w2, if_neg (show (msmWidths d.k).fine ≠ 0 by omega), hsc.rng, crng_light,
        getElem?_getD (l4 ▸ hj) 0, Option.bind_some, h2, ne_eq, not_false_eq_true, decide_true, true_and]
      exact valid_bind _ _ _ (fun f => (_ + f * _) * _) (hsc.okRng (by omega) _ m4.1 m4.2)
  · by_cases h1 : d.k = 1
    · obtain ⟨v1, v2, v3⟩ := w1a h1
      rw [v1] at l5
      rw [v2] at l6
      rw [v3] at l7
      have e1 : d.phsFine = [] := List.length_eq_zero_iff.1 l5
      have e2 : d.lock = [] := List.length_eq_zero_iff.1 l6
      have e3 : d.half = [] := List.length_eq_zero_iff.1 l7
      rw [e1, e2, e3]
      simp [cv13, h1]
    · obtain ⟨v1, v2, v3⟩ := w1b h1
      rw [colLen_ne (by omega)] at l5 l6 l7
      have m5 := hr.phs _ (getD_mem (l5 ▸ hj) 0)
      have hph : ((decide (d.k ≠ 1) && decide (∀ c, c < b → d.cells.getD (a * d.nsig + c) false = true →
          rngGood (src13 d) (decide (d.k ≠ 2)) ((d.cells.take (a * d.nsig + c)).count true) = true)) &&
          rngGood (src13 d) (decide (d.k ≠ 2)) (cidx d a b)) = !d.sticky (d.satList.getD a 0) (d.sigList.getD b 0) := by
        rw [Bool.eq_iff_iff, Bool.not_eq_true', hst (by omega), Bool.and_eq_true, Bool.and_eq_true, decide_eq_true_iff,
          decide_eq_true_iff]
        constructor
        · rintro ⟨⟨-, h3⟩, h4⟩ c hc hcc
          by_cases e : c = b
          · subst e; exact h4
          · exact h3 c (by omega) hcc
        · intro h3
          exact ⟨⟨h1, fun c hc hcc => h3 c (by omega) hcc⟩, h3 b le_rfl hcell⟩
      have hv := valid_bind (msmWidths d.k).phs (d.phsFine.getD (cidx d a b) 0)
        ((!(d.phsFine.getD (cidx d a b) 0 % 2 ^ 22 == 0x200000)) = true)
        (fun f => ((d.rngRough.getD a 0 : Rat) / 1024 + f * resPhs d.k) * lightMs)
        (by
          rw [v1] at m5 ⊢
          simp only [Bool.not_eq_true', beq_eq_false_iff_ne, ne_eq]
          omega)
      simp only [cv13, hph]
      simp only [src13, colObj, if_neg w2, if_neg (show (msmWidths d.k).phs ≠ 0 by omega), if_neg v2, if_neg v3, hsc.phs, hsc.ltm,
        if_neg n6, crng_light, getElem?_getD (l5 ▸ hj) 0, getElem?_getD (l6 ▸ hj) 0, getElem?_getD (l7 ▸ hj) 0, Option.bind_some]
      cases hs : d.sticky (d.satList.getD a 0) (d.sigList.getD b 0) with
      | true => simp
      | false =>
        simp only [Bool.not_false, Bool.true_and, Bool.false_eq_true, if_false]
        refine ⟨hv, ?_, ?_⟩
        · rw [← hv]
          by_cases c : (!(d.phsFine.getD (cidx d a b) 0 % 2 ^ 22 == 0x200000)) = true
          · rw [if_pos c, if_pos c, if_neg (by simp)]
          · rw [if_neg c, if_neg c, if_pos rfl]
        · rw [← hv]
          by_cases c : (!(d.phsFine.getD (cidx d a b) 0 % 2 ^ 22 == 0x200000)) = true
          · rw [if_pos c, if_pos c, if_neg (by simp)]
            congr 1
            simp [bne, Bool.beq_eq_decide_eq]
          · rw [if_neg c, if_neg c, if_pos rfl]

end Verif
