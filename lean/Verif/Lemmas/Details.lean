import Verif.Spec.Details
import Verif.Lemmas.MsmObject

/-!
# Lemmas about the log lines of single observables
-/

namespace Verif
open Spec Bits Msm RtcmUtil

/-- What a row of cells adds to the log. -/
def rowOut {σ : Type} (next : σ → σ) (L : Nat → σ → List Detail) (σ0 : σ) (l : List Bool) (i n : Nat) : List Detail :=
  (List.range l.length).flatMap (fun b => if l.getD b false = true then L (i + b) (next^[n + (l.take b).count true] σ0) else [])

theorem rowOut_cons {σ : Type} (next : σ → σ) (L : Nat → σ → List Detail) (σ0 : σ) (c : Bool) (l : List Bool) (i n : Nat) :
    rowOut next L σ0 (c :: l) i n =
      (if c = true then L i (next^[n] σ0) else []) ++ rowOut next L σ0 l (i + 1) (n + (if c = true then 1 else 0)) := by
  unfold rowOut
  rw [List.length_cons, List.range_succ_eq_map, List.flatMap_cons, List.flatMap_map]
  congr 1
  apply List.flatMap_congr
  intro b _
  have e : i + b.succ = i + 1 + b := by omega
  simp only [List.getD_cons_succ, List.take_succ_cons, e]
  cases c
  · simp
  · simp only [List.count_cons_self, if_true]
    rw [show n + (List.count true (List.take b l) + 1) = n + 1 + List.count true (List.take b l) by omega]

theorem runRow_log {σ τ : Type} (mk : σ → List Detail → τ) (next : σ → σ) (L : Nat → σ → List Detail) (σ0 : σ) (M cnt : Nat)
    (body : Nat → Bool → τ → Py τ) (hfalse : ∀ i st, i < M → body i false st = .ok st)
    (htrue : ∀ i n log, i < M → n < cnt → body i true (mk (next^[n] σ0) log) = .ok (mk (next^[n + 1] σ0) (log ++ L i (next^[n] σ0))))
    (l : List Bool) (i n : Nat) (log : List Detail) (hi : i + l.length ≤ M) (hn : n + l.count true ≤ cnt) :
    runRow body l i (mk (next^[n] σ0) log) = .ok (mk (next^[n + l.count true] σ0) (log ++ rowOut next L σ0 l i n)) := by
  induction l generalizing i n log with
  | nil => simp [runRow, rowOut]
  | cons c l ih =>
    rw [List.length_cons] at hi
    rw [rowOut_cons]
    cases c with
    | false =>
      rw [runRow, hfalse i _ (by omega), ok_bind, ih (i + 1) n log (by omega) (by simpa using hn)]
      simp
    | true =>
      rw [List.count_cons_self] at hn ⊢
      rw [runRow, htrue i n log (by omega) (by omega), ok_bind, ih (i + 1) (n + 1) _ (by omega) (by omega)]
      simp only [if_true]
      rw [List.append_assoc, show n + 1 + List.count true l = n + (List.count true l + 1) by omega]

/-! ## MSM4 … MSM7 -/

/-- Lines about the cell with index `j`. -/
def cl47 (src : Bare4567) (sc : Scalers) (sat : Nat) (nm : Nat → String) (rng_ok pr_ok : Bool) (i j : Nat) : List Detail :=
  (if rng_ok && !sc.okRng (src.sgn.rng_fine.getD j 0) then [.noFineRange src.atr.gnss sat (nm i)] else []) ++
  (if rng_ok && !sc.okPhs (src.sgn.phase_fine.getD j 0) then [.noFinePhase src.atr.gnss sat (nm i)] else []) ++
  (if pr_ok && !sc.okDpl (src.sgn.phase_rate_fine.getD j 0) then [.noFineDoppler src.atr.gnss sat (nm i)] else [])

theorem bodyLog47_false (src : Bare4567) (sc : Scalers) (nm : Nat → String) (M : Nat) (s : Nat) (rng_ok pr_ok : Bool) (i : Nat)
    (st : Nat × List Detail) (hi : i < M) : bodyLog47 src sc ((List.range M).map nm) s rng_ok pr_ok i false st = .ok st := by
  obtain ⟨j, log⟩ := st
  unfold bodyLog47
  simp only [tupAt_range nm hi, ok_bind, ite_true]
  rfl

theorem bodyLog47_true (src : Bare4567) (sc : Scalers) (nm : Nat → String) (M C : Nat) (s : Nat) (rng_ok pr_ok : Bool)
    (h1 : src.sgn.rng_fine.length = C) (h2 : src.sgn.phase_fine.length = C)
    (h6 : pr_ok = true → src.sgn.phase_rate_fine.length = C) (i j : Nat) (log : List Detail) (hi : i < M) (hj : j < C) :
    bodyLog47 src sc ((List.range M).map nm) s rng_ok pr_ok i true (j, log) = .ok (j + 1, log ++ cl47 src sc s nm rng_ok pr_ok i j) := by
  have t1 := tupAt_ok (h1 ▸ hj) (0 : Int)
  have t2 := tupAt_ok (h2 ▸ hj) (0 : Int)
  unfold bodyLog47 cl47
  simp only [tupAt_range nm hi, ok_bind, t1, t2, Bool.true_eq_false, if_false]
  cases rng_ok <;> cases pr_ok <;> cases c1 : sc.okRng (src.sgn.rng_fine.getD j 0) <;>
    cases c2 : sc.okPhs (src.sgn.phase_fine.getD j 0) <;> cases c3 : sc.okDpl (src.sgn.phase_rate_fine.getD j 0) <;>
  first
  | (simp [pure_ok, ok_bind]; done)
  | (have t6 := tupAt_ok ((h6 rfl) ▸ hj) (0 : Int)
     simp only [t6, pure_ok, ok_bind, c3]
     simp)

/-- Lines about row `a`. -/
def R47 (src : Bare4567) (sc : Scalers) (cells : List Bool) (nm : Nat → String) (st : Nat → Nat) (M a : Nat) : List Detail :=
  let rng_ok := src.sat.rng_ms.getD a 0 != 255
  let r := src.sat.phase_rate_rough.getD a 0
  let is57 := src.atr.is_msm7 || src.atr.is_msm5
  (if rng_ok then [] else [.noCoarseRange src.atr.gnss (st a) ((cells.take (a * M)).count true)]) ++
  (if is57 && !(r % 2 ^ 14 != 0x2000) then [.noCoarseDoppler src.atr.gnss (st a) ((cells.take (a * M)).count true)] else []) ++
  (List.range M).flatMap (fun b => if cells.getD (a * M + b) false = true then
    cl47 src sc (st a) nm rng_ok (is57 && r % 2 ^ 14 != 0x2000) b ((cells.take (a * M + b)).count true) else [])

theorem satLog47_step (src : Bare4567) (sc : Scalers) (cells : List Bool) (nm : Nat → String) (st : Nat → Nat) (N M : Nat)
    (hc : cells.length = N * M)
    (h1 : src.sgn.rng_fine.length = cells.count true) (h2 : src.sgn.phase_fine.length = cells.count true)
    (h6 : (src.atr.is_msm7 || src.atr.is_msm5) = true →
      src.sgn.phase_rate_fine.length = cells.count true ∧ src.sat.phase_rate_rough.length = N)
    (h7 : src.sat.rng_ms.length = N) (a : Nat) (log : List Detail) (ha : a < N) :
    satLog47 src sc ((List.range N).map st) ((List.range M).map nm) (a, (cells.take (a * M)).count true, log)
      (maskInt (slice cells (a * M) M)) =
    .ok (a + 1, (cells.take ((a + 1) * M)).count true, log ++ R47 src sc cells nm st M a) := by
  have t1 := tupAt_ok (h7 ▸ ha) (0 : Nat)
  have hlen := slice_row_length cells (a * M) M (row_bounds hc ha)
  have key : ∀ (ok1 ok2 : Bool) (log : List Detail), (ok2 = true → (src.atr.is_msm7 || src.atr.is_msm5) = true) →
      whileSlots (bodyLog47 src sc ((List.range M).map nm) (st a) ok1 ok2) (maskInt (slice cells (a * M) M)) 0
        ((cells.take (a * M)).count true, log) =
      .ok ((cells.take ((a + 1) * M)).count true, log ++ (List.range M).flatMap (fun b => if cells.getD (a * M + b) false = true then
        cl47 src sc (st a) nm ok1 ok2 b ((cells.take (a * M + b)).count true) else [])) := by
    intro ok1 ok2 log hok
    rw [whileSlots_mask _ _ _ _ (fun b x hb => bodyLog47_false src sc nm M (st a) ok1 ok2 b x (by omega))]
    have := runRow_log (σ := Nat) (τ := Nat × List Detail) Prod.mk (· + 1) (cl47 src sc (st a) nm ok1 ok2)
      ((cells.take (a * M)).count true) M ((slice cells (a * M) M).count true)
      (bodyLog47 src sc ((List.range M).map nm) (st a) ok1 ok2)
      (fun i x hi => bodyLog47_false src sc nm M (st a) ok1 ok2 i x hi)
      (fun i n G hi hn => by
        simp only [iter_succ]
        exact bodyLog47_true src sc nm M _ (st a) ok1 ok2 h1 h2 (fun h => (h6 (hok h)).1) i _ G hi
          (by have := row_total (cells := cells) (M := M) (a := a); omega))
      (slice cells (a * M) M) 0 0 log (by omega) (by omega)
    simp only [iter_succ, Nat.zero_add, Nat.add_zero] at this
    rw [this]
    have e1 : (cells.take (a * M)).count true + (slice cells (a * M) M).count true = (cells.take ((a + 1) * M)).count true := by
      have h := slice_row_count cells (a * M) M M le_rfl
      rw [List.take_of_length_le (l := slice cells (a * M) M) (by omega)] at h
      rw [h, Nat.add_mul, Nat.one_mul]
    rw [e1]
    congr 3
    unfold rowOut
    rw [hlen]
    apply List.flatMap_congr
    intro b hb
    have hb : b < M := by simpa using hb
    rw [slice_row_getD _ _ _ _ hb, iter_succ, Nat.zero_add, Nat.zero_add, slice_row_count _ _ _ _ (by omega)]
  unfold satLog47 R47
  simp only [tupAt_range st ha, ok_bind, t1, pure_ok]
  by_cases c2 : (src.atr.is_msm7 || src.atr.is_msm5) = true
  · have t3 := tupAt_ok ((h6 c2).2 ▸ ha) (0 : Int)
    cases c3 : (src.sat.phase_rate_rough.getD a 0 % 2 ^ 14 != 0x2000)
    · simp only [c2, if_true, ok_bind, t3, c3, Bool.false_eq_true, if_false]
      rw [key _ _ _ (fun _ => c2), ok_bind]
      cases c1 : (src.sat.rng_ms.getD a 0 != 255) <;> simp
    · simp only [c2, if_true, ok_bind, t3, c3]
      rw [key _ _ _ (fun _ => c2), ok_bind]
      cases c1 : (src.sat.rng_ms.getD a 0 != 255) <;> simp
  · simp only [if_neg c2]
    rw [key _ _ _ (by simp), ok_bind]
    rw [Bool.eq_false_iff.2 c2]
    cases c1 : (src.sat.rng_ms.getD a 0 != 255) <;> simp

theorem outerLog (cells : List Bool) (N M : Nat) (R : Nat → List Detail) (f : Nat × Nat × List Detail → Nat → Py (Nat × Nat × List Detail))
    (step : ∀ a log, a < N → f (a, (cells.take (a * M)).count true, log) (maskInt (slice cells (a * M) M)) =
      .ok (a + 1, (cells.take ((a + 1) * M)).count true, log ++ R a)) :
    ∀ n, n ≤ N → ((List.range n).map (fun a => maskInt (slice cells (a * M) M))).foldlM f (0, 0, []) =
      .ok (n, (cells.take (n * M)).count true, (List.range n).flatMap R) := by
  intro n
  induction n with
  | zero => intro _; simp; rfl
  | succ n ih =>
    intro hn
    rw [List.range_succ, List.map_append, List.foldlM_append, ih (by omega), ok_bind]
    simp only [List.map_cons, List.map_nil, List.foldlM_cons, List.foldlM_nil]
    rw [step n _ (by omega), ok_bind]
    simp only [List.flatMap_append, List.flatMap_cons, List.flatMap_nil, List.append_nil]
    rfl

/-! ## MSM1 … MSM3 -/

/-- Lines about the cell with index `j`; `ph` is the value of `ph_ok` before. -/
def cl13 (src : Bare123) (sat : Nat) (nm : Nat → String) (rng_ok : Bool) (i : Nat) (x : Bool × Nat) : List Detail :=
  (if rng_ok && !(src.sgn.rng_fine.getD x.2 0 % 2 ^ 15 != 0x4000) then [.noFineRange src.atr.gnss sat (nm i)] else []) ++
  (if x.1 && rngGood src rng_ok x.2 && src.sgn.phase_fine.getD x.2 0 % 2 ^ 22 == 0x200000 then [.noFinePhase src.atr.gnss sat (nm i)] else [])

theorem bodyLog13_false (src : Bare123) (nm : Nat → String) (M : Nat) (s : Nat) (rng_ok : Bool) (i : Nat)
    (st : Bool × Nat × List Detail) (hi : i < M) : bodyLog13 src ((List.range M).map nm) s rng_ok i false st = .ok st := by
  obtain ⟨ph, j, log⟩ := st
  unfold bodyLog13
  simp only [tupAt_range nm hi, ok_bind, ite_true]
  rfl

theorem bodyLog13_true (src : Bare123) (nm : Nat → String) (M C : Nat) (s : Nat) (rng_ok : Bool) (ph : Bool)
    (h1 : rng_ok = true → src.sgn.rng_fine.length = C) (h2 : ph = true → src.sgn.phase_fine.length = C)
    (i j : Nat) (log : List Detail) (hi : i < M) (hj : j < C) :
    bodyLog13 src ((List.range M).map nm) s rng_ok i true (ph, j, log) =
      .ok ((next13 src rng_ok (ph, j)).1, j + 1, log ++ cl13 src s nm rng_ok i (ph, j)) := by
  unfold bodyLog13 cl13
  simp only [tupAt_range nm hi, ok_bind, next13, rngGood, Bool.true_eq_false, if_false]
  have e4 : ∀ t : ph = true, tupAt src.sgn.phase_fine j = .ok (src.sgn.phase_fine.getD j 0) :=
    fun t => tupAt_ok ((h2 t) ▸ hj) _
  have e1 : rng_ok = true → tupAt src.sgn.rng_fine j = .ok (src.sgn.rng_fine.getD j 0) := fun t => tupAt_ok ((h1 t) ▸ hj) _
  rcases Bool.eq_false_or_eq_true rng_ok with c1 | c1 <;>
  rcases Bool.eq_false_or_eq_true (src.sgn.rng_fine.getD j 0 % 2 ^ 15 != 0x4000) with c2 | c2 <;>
  rcases Bool.eq_false_or_eq_true ph with c3 | c3 <;>
  rcases Bool.eq_false_or_eq_true (src.sgn.phase_fine.getD j 0 % 2 ^ 22 == 0x200000) with c4 | c4 <;>
  simp only [c1, c3, Bool.false_eq_true, false_imp_iff, true_imp_iff] at e1 e4 <;>
  simp only [c1, c2, c3, c4, e1, e4, if_true, if_false, Bool.false_eq_true, pure_ok, ok_bind, Bool.and_true,
    Bool.and_false, Bool.not_true, Bool.not_false, Bool.or_true, Bool.true_or, Bool.false_or, List.append_nil, List.nil_append]

/-- Lines about row `a`. -/
def R13 (src : Bare123) (cells : List Bool) (nm : Nat → String) (st : Nat → Nat) (M a : Nat) : List Detail :=
  let rng_ok := src.atr.is_msm1 || src.atr.is_msm3
  (List.range M).flatMap (fun b => if cells.getD (a * M + b) false = true then
    cl13 src (st a) nm rng_ok b ((src.atr.is_msm2 || src.atr.is_msm3) &&
      decide (∀ c, c < b → cells.getD (a * M + c) false = true → rngGood src rng_ok ((cells.take (a * M + c)).count true) = true),
      (cells.take (a * M + b)).count true) else [])

theorem satLog13_step (src : Bare123) (cells : List Bool) (nm : Nat → String) (st : Nat → Nat) (N M : Nat)
    (hc : cells.length = N * M)
    (h1 : (src.atr.is_msm1 || src.atr.is_msm3) = true → src.sgn.rng_fine.length = cells.count true)
    (h2 : (src.atr.is_msm2 || src.atr.is_msm3) = true → src.sgn.phase_fine.length = cells.count true)
    (h8 : src.sat.rng_rough.length = N) (a : Nat) (log : List Detail) (ha : a < N) :
    satLog13 src ((List.range N).map st) ((List.range M).map nm) (a, (cells.take (a * M)).count true, log)
      (maskInt (slice cells (a * M) M)) =
    .ok (a + 1, (cells.take ((a + 1) * M)).count true, log ++ R13 src cells nm st M a) := by
  have t2 := tupAt_ok (h8 ▸ ha) (0 : Nat)
  have hlen := slice_row_length cells (a * M) M (row_bounds hc ha)
  unfold satLog13 R13
  simp only [tupAt_range st ha, ok_bind, t2]
  generalize hr : (src.atr.is_msm1 || src.atr.is_msm3) = rng_ok
  generalize hp : (src.atr.is_msm2 || src.atr.is_msm3) = ph0
  rw [hr] at h1
  rw [hp] at h2
  rw [whileSlots_mask _ _ _ _ (fun b x hb => bodyLog13_false src nm M (st a) rng_ok b x (by omega))]
  have := runRow_log (σ := Bool × Nat) (τ := Bool × Nat × List Detail) (fun x o => (x.1, x.2, o)) (next13 src rng_ok)
    (cl13 src (st a) nm rng_ok) (ph0, (cells.take (a * M)).count true) M ((slice cells (a * M) M).count true)
    (bodyLog13 src ((List.range M).map nm) (st a) rng_ok)
    (fun i x hi => bodyLog13_false src nm M (st a) rng_ok i x hi)
    (fun i n G hi hn => by
      have hlt : (cells.take (a * M)).count true + n < cells.count true := by
        have := row_total (cells := cells) (M := M) (a := a); omega
      have e := next13_snd src rng_ok n (ph0, (cells.take (a * M)).count true)
      have e1 := next13_fst src rng_ok n (ph0, (cells.take (a * M)).count true)
      rw [Function.iterate_succ_apply']
      generalize (next13 src rng_ok)^[n] (ph0, (cells.take (a * M)).count true) = y at e e1 ⊢
      obtain ⟨y1, y2⟩ := y
      dsimp only at e e1 ⊢
      have hb := bodyLog13_true src nm M _ (st a) rng_ok y1 h1 (fun h => h2 (e1 h)) i y2 G hi (by omega)
      rw [hb]
      rfl)
    (slice cells (a * M) M) 0 0 log (by omega) (by omega)
  simp only [Function.iterate_zero, id, Nat.zero_add, next13_snd] at this
  rw [this, ok_bind]
  have e1 : (cells.take (a * M)).count true + (slice cells (a * M) M).count true = (cells.take ((a + 1) * M)).count true := by
    have h := slice_row_count cells (a * M) M M le_rfl
    rw [List.take_of_length_le (l := slice cells (a * M) M) (by omega)] at h
    rw [h, Nat.add_mul, Nat.one_mul]
  rw [e1]
  simp only [pure_ok]
  congr 4
  unfold rowOut
  rw [hlen]
  apply List.flatMap_congr
  intro b hb
  have hb : b < M := by simpa using hb
  rw [slice_row_getD _ _ _ _ hb, Nat.zero_add, Nat.zero_add]
  split
  · congr 1
    apply Prod.ext
    · rw [Bool.eq_iff_iff, next13_row, Bool.and_eq_true, decide_eq_true_iff]
      apply and_congr_right
      intro _
      apply forall_congr'
      intro c
      apply imp_congr_right
      intro hc
      rw [slice_row_getD _ _ _ _ (by omega), slice_row_count _ _ _ _ (by omega)]
    · rw [next13_snd]
      exact slice_row_count _ _ _ _ (by omega)
  · rfl

/-! ## In terms of the content of the message -/

theorem marked_of (w : Nat) (x : Int) (p : Bool) (hp : p = true ↔ x ≠ -(2 ^ (w - 1))) : marked w (some x) = !p := by
  unfold marked
  rw [Bool.eq_iff_iff, decide_eq_true_iff, Option.some.injEq, Bool.not_eq_true', ← Bool.not_eq_true, hp, not_not]

theorem flatMap_sigs {d : MsmData} (f : Nat → List Detail) :
    d.sigList.flatMap f = (List.range d.nsig).flatMap (fun b => f (d.sigList.getD b 0)) := by
  have h1 : d.sigList = (List.range d.nsig).map (fun b => d.sigList.getD b 0) := setNumbers_range d.sigs
  conv_lhs => rw [h1]
  rw [List.flatMap_map]

theorem R47_eq {d : MsmData} (hw : d.WF) (hr : Ranged d) (hs : d.SignalsKnown) (hk : 4 ≤ d.k) {a : Nat} (ha : a < d.nsat) :
    R47 (src47 d) (scOf d) d.cells (nmOf d) (fun a => d.satList.getD a 0) d.nsig a = d.satReports (d.satList.getD a 0) := by
  have hsc := scSpec47 hw hk
  obtain ⟨w1, w2, w3, w4, w5, w6, w7⟩ := widths47 ⟨hk, hw.k.2⟩
  have l1 := hw.rngMs; have l2 := hw.rngRough; have l3 := hw.rateRough; have l4 := hw.rngFine; have l5 := hw.phsFine
  have l9 := hw.rateFine
  rw [colLen_ne w1] at l1
  rw [colLen_ne w2] at l2
  rw [colLen_ne w3] at l4
  rw [colLen_ne w4] at l5
  have k3 : ¬ d.k ≤ 3 := by omega
  have hst : ∀ s t, d.sticky s t = false := by
    intro s t
    unfold MsmData.sticky
    rw [show (d.k == 3) = false by simp; omega, Bool.false_and]
  have hgn : (src47 d).atr.gnss = gnssLetter d.g := rfl
  have hrough : (d.rough (d.satList.getD a 0)).isSome = (d.rngMs.getD a 0 != 255) := by
    unfold MsmData.rough
    rw [satRow_at ha]
    simp only [Option.bind_eq_bind, getElem?_getD (l1 ▸ ha) 0, getElem?_getD (l2 ▸ ha) 0, Option.bind_some, k3, if_false]
    generalize d.rngMs.getD a 0 = m
    by_cases e : m = 255 <;> simp [e]
  have hrate : (decide (d.k = 5 ∨ d.k = 7) && (d.rateRough.getD a 0 % 2 ^ 14 != 0x2000)) = d.roughRateOk (d.satList.getD a 0) ∧
      (decide (d.k = 5 ∨ d.k = 7) && !(d.rateRough.getD a 0 % 2 ^ 14 != 0x2000)) = marked (msmWidths d.k).rate d.rateRough[a]? := by
    unfold MsmData.roughRateOk
    rw [satRow_at ha]
    by_cases e : d.k = 5 ∨ d.k = 7
    · obtain ⟨v1, v2⟩ := (widths57 hw.k).1 e
      rw [colLen_ne (by omega)] at l3
      have m3 := hr.rate _ (getD_mem (l3 ▸ ha) 0)
      rw [getElem?_getD (l3 ▸ ha) 0]
      have := marked_of (msmWidths d.k).rate (d.rateRough.getD a 0) (d.rateRough.getD a 0 % 2 ^ 14 != 0x2000) (by
        rw [v1] at m3 ⊢
        rw [bne_iff_ne]
        omega)
      dsimp only
      rw [this]
      simp [e]
    · have v1 := (widths57 hw.k).2 e
      rw [v1] at l3
      have : d.rateRough = [] := List.length_eq_zero_iff.1 l3
      rw [this]
      simp [e, marked]
  unfold R47 MsmData.satReports
  rw [is57 hw, hgn, satRow_at ha, flatMap_sigs]
  have hms : (src47 d).sat.rng_ms = d.rngMs := colObj_ne w1 _
  have hpr : decide (d.k = 5 ∨ d.k = 7) = true → (src47 d).sat.phase_rate_rough = d.rateRough := by
    intro h
    exact colObj_ne (by have := ((widths57 hw.k).1 (of_decide_eq_true h)).1; omega) _
  have hpr1 : (decide (d.k = 5 ∨ d.k = 7) && ((src47 d).sat.phase_rate_rough.getD a 0 % 2 ^ 14 != 0x2000)) =
      d.roughRateOk (d.satList.getD a 0) := by
    rw [← hrate.1]
    cases h : decide (d.k = 5 ∨ d.k = 7)
    · rfl
    · rw [hpr h]
  have hpr2 : (decide (d.k = 5 ∨ d.k = 7) && !((src47 d).sat.phase_rate_rough.getD a 0 % 2 ^ 14 != 0x2000)) =
      marked (msmWidths d.k).rate d.rateRough[a]? := by
    rw [← hrate.2]
    cases h : decide (d.k = 5 ∨ d.k = 7)
    · rfl
    · rw [hpr h]
  dsimp only
  rw [hpr1, hpr2, hms, ← hrough]
  refine congrArg₂ (· ++ ·) (congrArg₂ (· ++ ·) ?_ rfl) ?_
  · rw [hrough, getElem?_getD (l1 ▸ ha) 0]
    generalize d.rngMs.getD a 0 = m
    by_cases e : m = 255 <;> simp [e]
  · apply List.flatMap_congr
    intro b hb
    have hb : b < d.nsig := by simpa using hb
    unfold MsmData.cellReports
    rw [cellIdx_at ha hb, sigName_nm hs b hb]
    by_cases hcell : d.cells.getD (a * d.nsig + b) false = true
    swap
    · simp only [if_neg hcell]
    simp only [if_pos hcell]
    rw [show (d.cells.take (a * d.nsig + b)).count true = cidx d a b from rfl]
    have hj := cidx_lt hcell
    generalize cidx d a b = j at hj
    have m4 := hr.fine _ (getD_mem (l4 ▸ hj) 0)
    have m5 := hr.phs _ (getD_mem (l5 ▸ hj) 0)
    unfold cl47
    have e1 : (src47 d).sgn.rng_fine = d.rngFine := colObj_ne w3 _
    have e2 : (src47 d).sgn.phase_fine = d.phsFine := colObj_ne w4 _
    rw [e1, e2, hgn, hst, getElem?_getD (l4 ▸ hj) 0, getElem?_getD (l5 ▸ hj) 0,
      marked_of _ _ _ (hsc.okRng w3 _ m4.1 m4.2), marked_of _ _ _ (hsc.okPhs w4 _ m5.1 m5.2), Bool.not_false, Bool.and_true]
    congr 2
    by_cases e : d.k = 5 ∨ d.k = 7
    · obtain ⟨v1, v2⟩ := (widths57 hw.k).1 e
      rw [colLen_ne (by omega)] at l9
      have m9 := hr.fineRate _ (getD_mem (l9 ▸ hj) 0)
      have e3 : (src47 d).sgn.phase_rate_fine = d.rateFine := colObj_ne (by omega) _
      rw [e3, getElem?_getD (l9 ▸ hj) 0, marked_of _ _ _ (hsc.okDpl (by omega) _ m9.1 m9.2)]
    · have : d.roughRateOk (d.satList.getD a 0) = false := by
        rw [← hrate.1]; simp [e]
      rw [this]; simp

theorem R13_eq {d : MsmData} (hw : d.WF) (hr : Ranged d) (hs : d.SignalsKnown) (hk : d.k ≤ 3) {a : Nat} (ha : a < d.nsat) :
    R13 (src13 d) d.cells (nmOf d) (fun a => d.satList.getD a 0) d.nsig a = d.satReports (d.satList.getD a 0) := by
  have hk1 : 1 ≤ d.k ∧ d.k ≤ 3 := ⟨hw.k.1, hk⟩
  obtain ⟨w2, w2a, w2b, w1a, w1b⟩ := widths13 hk1
  have l1 := hw.rngMs; have l2 := hw.rngRough; have l3 := hw.rateRough; have l4 := hw.rngFine; have l5 := hw.phsFine
  have w0 : (msmWidths d.k).ms = 0 := by
    have : d.k = 1 ∨ d.k = 2 ∨ d.k = 3 := by omega
    rcases this with e | e | e <;> rw [e] <;> decide
  rw [w0] at l1
  rw [(widths57 hw.k).2 (by omega)] at l3
  have e1 : d.rngMs = [] := List.length_eq_zero_iff.1 l1
  have e3 : d.rateRough = [] := List.length_eq_zero_iff.1 l3
  rw [colLen_ne w2] at l2
  have hgn : (src13 d).atr.gnss = gnssLetter d.g := rfl
  have hrough : (d.rough (d.satList.getD a 0)).isSome = true := by
    unfold MsmData.rough
    rw [satRow_at ha]
    simp only [Option.bind_eq_bind, getElem?_getD (l2 ▸ ha) 0, Option.bind_some, hk, if_true, Option.isSome_some]
  have hrate : d.roughRateOk (d.satList.getD a 0) = false := by
    unfold MsmData.roughRateOk
    rw [e3]; rfl
  unfold R13 MsmData.satReports
  rw [e1, e3, flatMap_sigs, (is13 hk1).1, (is13 hk1).2]
  simp only [List.getElem?_nil, reduceCtorEq, if_false, List.nil_append]
  rw [if_neg (by simp [marked]), List.nil_append]
  apply List.flatMap_congr
  intro b hb
  have hb : b < d.nsig := by simpa using hb
  unfold MsmData.cellReports
  rw [cellIdx_at ha hb, sigName_nm hs b hb, hrough, hrate]
  by_cases hcell : d.cells.getD (a * d.nsig + b) false = true
  swap
  · simp only [if_neg hcell]
  simp only [if_pos hcell]
  rw [show (d.cells.take (a * d.nsig + b)).count true = cidx d a b from rfl]
  have hj := cidx_lt hcell
  unfold cl13
  rw [hgn]
  simp only [Bool.true_and, Bool.false_and, Bool.false_eq_true, if_false, List.append_nil]
  congr 1
  · by_cases h2 : d.k = 2
    · rw [w2a h2] at l4
      have : d.rngFine = [] := List.length_eq_zero_iff.1 l4
      rw [this]
      simp [marked, h2]
    · have w3 := w2b h2
      rw [colLen_ne (by omega)] at l4
      have m4 := hr.fine _ (getD_mem (l4 ▸ hj) 0)
      have e4 : (src13 d).sgn.rng_fine = d.rngFine := colObj_ne (by omega) _
      rw [e4, getElem?_getD (l4 ▸ hj) 0, marked_of _ _ (d.rngFine.getD (cidx d a b) 0 % 2 ^ 15 != 0x4000) (by
        rw [w3] at m4 ⊢
        rw [bne_iff_ne]
        omega)]
      simp only [h2, ne_eq, not_false_eq_true, decide_true, Bool.true_and]
  · by_cases h1 : d.k = 1
    · obtain ⟨v1, v2, v3⟩ := w1a h1
      rw [v1] at l5
      have : d.phsFine = [] := List.length_eq_zero_iff.1 l5
      rw [this]
      simp [marked, h1]
    · obtain ⟨v1, v2, v3⟩ := w1b h1
      rw [colLen_ne (by omega)] at l5
      have m5 := hr.phs _ (getD_mem (l5 ▸ hj) 0)
      have hph : ((decide (d.k ≠ 1) && decide (∀ c, c < b → d.cells.getD (a * d.nsig + c) false = true →
          rngGood (src13 d) (decide (d.k ≠ 2)) ((d.cells.take (a * d.nsig + c)).count true) = true)) &&
          rngGood (src13 d) (decide (d.k ≠ 2)) (cidx d a b)) = !d.sticky (d.satList.getD a 0) (d.sigList.getD b 0) := by
        rw [Bool.eq_iff_iff, Bool.not_eq_true', sticky_iff hw hr (by omega) ha hb, Bool.and_eq_true, Bool.and_eq_true,
          decide_eq_true_iff, decide_eq_true_iff]
        constructor
        · rintro ⟨⟨-, h3⟩, h4⟩ c hc hcc
          by_cases e : c = b
          · subst e; exact h4
          · exact h3 c (by omega) hcc
        · intro h3
          exact ⟨⟨h1, fun c hc hcc => h3 c (by omega) hcc⟩, h3 b le_rfl hcell⟩
      have e5 : (src13 d).sgn.phase_fine = d.phsFine := colObj_ne (by omega) _
      have hm := marked_of (msmWidths d.k).phs (d.phsFine.getD (cidx d a b) 0)
        (!(d.phsFine.getD (cidx d a b) 0 % 2 ^ 22 == 0x200000)) (by
          rw [v1] at m5 ⊢
          simp only [Bool.not_eq_true', beq_eq_false_iff_ne, ne_eq]
          omega)
      rw [hph, e5, getElem?_getD (l5 ▸ hj) 0, hm, Bool.not_not]

/-- The records of the conversion of a well formed content. -/
theorem convertLog_known {d : MsmData} (hw : d.WF) (hr : Ranged d) (hs : d.SignalsKnown) : convertLog d.bareObj = .ok d.reports := by
  have hpos := nsat_pos hw
  have hmask : d.hdrObj.sat_mask ≠ 0 := by
    intro h
    have h := (maskInt_zero _).1 h
    have := hpos.1
    unfold MsmData.nsat at this
    omega
  have hsl : maskList d.hdrObj.sat_mask 64 = d.satList := maskList_eq _ _ hw.sats
  have hgl : maskList d.hdrObj.sgn_mask 32 = d.sigList := maskList_eq _ _ hw.sigs
  have hM : bitCount d.hdrObj.sgn_mask = d.nsig := bitCount_maskInt _
  have hN : d.satList.length = d.nsat := setNumbers_length _
  have hslots : (List.range d.nsat).map (fun i => (d.hdrObj.cell_mask >>> (d.nsig * i)) &&& ((1 <<< d.nsig) - 1)) =
      (List.range d.nsat).map (fun a => maskInt (slice d.cells (a * d.nsig) d.nsig)) := by
    apply List.map_congr_left
    intro a _
    exact slots_eq _ _ _
  have hatr : d.attrObj.gnss = gnssLetter d.g := rfl
  have hsat : d.satList = (List.range d.nsat).map (fun a => d.satList.getD a 0) := setNumbers_range d.sats
  have hnm : ((List.range d.nsig).map (fun b => (nmOf d b, d.sigFreq (nmOf d b)))).map (·.1) = (List.range d.nsig).map (nmOf d) := by
    rw [List.map_map]; rfl
  have l4 := hw.rngFine; have l5 := hw.phsFine; have l9 := hw.rateFine
  have l1 := hw.rngMs; have l2 := hw.rngRough; have l3 := hw.rateRough
  have hrep : d.reports = (List.range d.nsat).flatMap (fun a => d.satReports (d.satList.getD a 0)) := by
    unfold MsmData.reports
    conv_lhs => rw [hsat]
    rw [List.flatMap_map]
  unfold convertLog
  dsimp only
  rw [bareObj_atr, if_neg (gnss_ne hw), bareObj_hdr, if_neg hmask]
  simp only [hsl, hgl, hM, hN, hatr]
  rw [sgnMap_eq hs, ok_bind, hslots, hnm]
  by_cases hk : d.k ≤ 3
  · rw [bareObj13 hk]
    dsimp only
    have hk1 : 1 ≤ d.k ∧ d.k ≤ 3 := ⟨hw.k.1, hk⟩
    obtain ⟨w2, w2a, w2b, w1a, w1b⟩ := widths13 hk1
    conv_lhs => rw [hsat]
    unfold obsLog13
    rw [outerLog d.cells d.nsat d.nsig (fun a => d.satReports (d.satList.getD a 0)) _ (fun a log ha => by
      rw [← R13_eq hw hr hs hk ha]
      refine satLog13_step (src13 d) d.cells (nmOf d) (fun a => d.satList.getD a 0) d.nsat d.nsig hw.cells ?_ ?_ ?_ a log ha
      · intro h
        rw [(is13 hk1).1, decide_eq_true_iff] at h
        have := w2b h
        simp only [src13, colObj, if_neg (show (msmWidths d.k).fine ≠ 0 by omega)]
        rw [l4, colLen_ne (by omega)]; rfl
      · intro h
        rw [(is13 hk1).2, decide_eq_true_iff] at h
        obtain ⟨v1, v2, v3⟩ := w1b h
        simp only [src13, colObj, if_neg (show (msmWidths d.k).phs ≠ 0 by omega)]
        rw [l5, colLen_ne (by omega)]; rfl
      · simp only [src13, colObj, if_neg w2]
        rw [l2, colLen_ne w2]) d.nsat le_rfl, ok_bind, hrep]
    rfl
  · rw [bareObj47 (by omega)]
    dsimp only
    obtain ⟨w1, w2, w3, w4, w5, w6, w7⟩ := widths47 (k := d.k) ⟨by omega, hw.k.2⟩
    conv_lhs => rw [hsat]
    unfold obsLog47
    have := outerLog d.cells d.nsat d.nsig (fun a => d.satReports (d.satList.getD a 0))
      (satLog47 (src47 d) (scOf d) ((List.range d.nsat).map (fun a => d.satList.getD a 0)) ((List.range d.nsig).map (nmOf d)))
      (fun a log ha => by
      rw [← R47_eq hw hr hs (by omega) ha]
      refine satLog47_step (src47 d) (scOf d) d.cells (nmOf d) (fun a => d.satList.getD a 0) d.nsat d.nsig hw.cells ?_ ?_ ?_ ?_ a log ha
      · simp only [src47, colObj, if_neg w3]; rw [l4, colLen_ne w3]; rfl
      · simp only [src47, colObj, if_neg w4]; rw [l5, colLen_ne w4]; rfl
      · intro h
        rw [is57 hw, decide_eq_true_iff] at h
        obtain ⟨v1, v2⟩ := (widths57 hw.k).1 h
        simp only [src47, colObj, if_neg (show (msmWidths d.k).rate ≠ 0 by omega),
          if_neg (show (msmWidths d.k).fineRate ≠ 0 by omega)]
        rw [l9, l3, colLen_ne (by omega), colLen_ne (by omega)]
        exact ⟨rfl, rfl⟩
      · simp only [src47, colObj, if_neg w1]; rw [l1, colLen_ne w1]) d.nsat le_rfl
    have hsc : (if ((src47 d).atr.is_msm7 || (src47 d).atr.is_msm6) = true then SCALERS67 else SCALERS45) = scOf d := rfl
    rw [hsc]
    dsimp only
    rw [this, ok_bind, hrep]
    rfl

theorem convertLog_unknown {d : MsmData} (hw : d.WF) (hs : ¬ d.SignalsKnown) : ∃ e, convertLog d.bareObj = .error e := by
  have hpos := nsat_pos hw
  have hmask : d.hdrObj.sat_mask ≠ 0 := by
    intro h
    have h := (maskInt_zero _).1 h
    have := hpos.1
    unfold MsmData.nsat at this
    omega
  have hgl : maskList d.hdrObj.sgn_mask 32 = d.sigList := maskList_eq _ _ hw.sigs
  have hatr : d.attrObj.gnss = gnssLetter d.g := rfl
  have : ∃ t ∈ d.sigList, d.sigName t = none := by
    unfold MsmData.SignalsKnown at hs
    push Not at hs
    obtain ⟨t, ht, h⟩ := hs
    exact ⟨t, ht, by simpa using h⟩
  obtain ⟨t, ht, hn⟩ := this
  obtain ⟨e, he⟩ := mapM_err (signalItem (gnssLetter d.g)) (d.sigList.map (rnxLit (gnssLetter d.g))) none
    (List.mem_map.2 ⟨t, ht, (sigName_eq d t).symm.trans hn⟩) (by
      unfold signalItem crrFrq
      cases rinexCfTab.get? (gnssLetter d.g) <;> exact ⟨.keyError, rfl⟩)
  unfold convertLog
  dsimp only
  rw [bareObj_atr, if_neg (gnss_ne hw), bareObj_hdr, if_neg hmask, hgl, hatr, he]
  exact ⟨e, rfl⟩

end Verif
