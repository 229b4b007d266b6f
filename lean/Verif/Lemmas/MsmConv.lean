import Verif.Lemmas.MsmTab

/-!
# The conversion loops
-/

namespace Verif
open Spec Bits Msm RtcmUtil

theorem tupAt_ok {α : Type} {l : List α} {i : Nat} (h : i < l.length) (dflt : α) : tupAt l i = .ok (l.getD i dflt) := by
  unfold tupAt
  rw [List.getD_eq_getElem?_getD, List.getElem?_eq_getElem h]
  rfl

theorem tupAt_range {α : Type} (f : Nat → α) {n i : Nat} (h : i < n) : tupAt ((List.range n).map f) i = .ok (f i) := by
  unfold tupAt
  rw [List.getElem?_map, List.getElem?_range h]
  rfl

theorem obsOf_congr {nm : Nat → String} {M : Nat} {F G : Nat → ObsRow} (h : ∀ b, b < M → F b = G b) :
    obsOf nm M F = obsOf nm M G := by
  have ht : ∀ {β : Type} (g : ObsRow → β), T nm M (fun b => g (F b)) = T nm M (fun b => g (G b)) := by
    intro β g
    apply List.map_congr_left
    intro b hb
    show (nm b, g (F b)) = (nm b, g (G b))
    rw [h b (by simpa using hb)]
  unfold obsOf
  rw [ht ObsRow.rng, ht ObsRow.phs, ht ObsRow.ltm, ht ObsRow.hca, ht ObsRow.dpl, ht ObsRow.c2n]

/-! ## MSM4 … MSM7 -/

/-- Values of the cell with index `j`. -/
def cv47 (src : Bare4567) (sc : Scalers) (rng_ok : Bool) (rng : Rat) (pr_ok : Bool) (pr : Rat) (j : Nat) : CellVals :=
  { rng := if rng_ok = true ∧ sc.okRng (src.sgn.rng_fine.getD j 0) = true then
      some ((rng + (src.sgn.rng_fine.getD j 0 : Rat) * sc.rng) * CRNG_1MS) else none
    phs := if rng_ok = true ∧ sc.okPhs (src.sgn.phase_fine.getD j 0) = true then
      some ((rng + (src.sgn.phase_fine.getD j 0 : Rat) * sc.phs) * CRNG_1MS) else none
    dpl := if pr_ok = true ∧ sc.okDpl (src.sgn.phase_rate_fine.getD j 0) = true then
      some (pr + (src.sgn.phase_rate_fine.getD j 0 : Rat) * sc.dpl) else none
    ltm := some (sc.ltm (src.sgn.lock_time.getD j 0))
    c2n := some ((src.sgn.c2n.getD j 0 : Rat) * sc.c2n)
    hca := some (src.sgn.hc_indc.getD j 0 != 0) }

theorem body47_false (src : Bare4567) (sc : Scalers) (nm : Nat → String) (M : Nat) (s : Nat) (rng_ok : Bool) (rng : Rat)
    (pr_ok : Bool) (pr : Rat) (i : Nat) (st : Nat × Obs) (hi : i < M) :
    body47 src sc ((List.range M).map nm) s rng_ok rng pr_ok pr i false st = .ok st := by
  obtain ⟨j, obs⟩ := st
  unfold body47
  simp only [tupAt_range nm hi, ok_bind, ite_true]
  rfl

theorem body47_true (src : Bare4567) (sc : Scalers) (nm : Nat → String) (M C : Nat) (hinj : InjOn nm M) (s : Nat) (rng_ok : Bool)
    (rng : Rat) (pr_ok : Bool) (pr : Rat) (h1 : src.sgn.rng_fine.length = C) (h2 : src.sgn.phase_fine.length = C)
    (h3 : src.sgn.lock_time.length = C) (h4 : src.sgn.c2n.length = C) (h5 : src.sgn.hc_indc.length = C)
    (h6 : pr_ok = true → src.sgn.phase_rate_fine.length = C) (i j : Nat) (F : Nat → ObsRow) (hi : i < M) (hj : j < C) :
    body47 src sc ((List.range M).map nm) s rng_ok rng pr_ok pr i true (j, obsOf nm M F) =
      .ok (j + 1, obsOf nm M (Function.update F i (app (F i) s (cv47 src sc rng_ok rng pr_ok pr j)))) := by
  have t1 := tupAt_ok (h1 ▸ hj) (0 : Int)
  have t2 := tupAt_ok (h2 ▸ hj) (0 : Int)
  have t3 := tupAt_ok (h3 ▸ hj) (0 : Nat)
  have t4 := tupAt_ok (h4 ▸ hj) (0 : Nat)
  have t5 := tupAt_ok (h5 ▸ hj) (0 : Nat)
  unfold body47
  rw [obsOf_update]
  simp only [tupAt_range nm hi, ok_bind, t1, t2, t3, t4, t5, obsOf, app, cv47, Bool.true_eq_false, if_false]
  by_cases c1 : rng_ok = true <;> by_cases c2 : sc.okRng (src.sgn.rng_fine.getD j 0) = true <;>
  by_cases c3 : sc.okPhs (src.sgn.phase_fine.getD j 0) = true <;> by_cases c4 : pr_ok = true <;>
  by_cases c5 : sc.okDpl (src.sgn.phase_rate_fine.getD j 0) = true <;>
  simp only [c1, c2, c3, c4, c5, if_true, if_false, Bool.false_eq_true, true_and, and_true, and_false, false_and, pure_ok, ok_bind,
    updIn_T hinj _ hi, setO, T_update_self (nm := nm) (M := M) (fun b => (F b).rng) i,
    T_update_self (nm := nm) (M := M) (fun b => (F b).phs) i, T_update_self (nm := nm) (M := M) (fun b => (F b).dpl) i] <;>
  (have t6 := tupAt_ok ((h6 c4) ▸ hj) (0 : Int)
   simp only [t6, c5, if_true, if_false, Bool.false_eq_true, pure_ok, ok_bind, updIn_T hinj _ hi])

/-- Values of row `a`, column `b`. -/
def V47 (src : Bare4567) (sc : Scalers) (cells : List Bool) (M a b : Nat) : CellVals :=
  if cells.getD (a * M + b) false = true then
    let ms := src.sat.rng_ms.getD a 0
    let r := src.sat.phase_rate_rough.getD a 0
    cv47 src sc (ms != 255) ((((ms <<< 10) + src.sat.rng_rough.getD a 0 : Nat) : Rat) / 1024)
      ((src.atr.is_msm7 || src.atr.is_msm5) && r % 2 ^ 14 != 0x2000) (r : Rat) ((cells.take (a * M + b)).count true)
  else {}

theorem slice_row_getD (cells : List Bool) (o M b : Nat) (hb : b < M) :
    (slice cells o M).getD b false = cells.getD (o + b) false := by
  unfold slice
  simp only [List.getD_eq_getElem?_getD]
  rw [List.getElem?_take_of_lt hb, List.getElem?_drop]

theorem slice_row_count (cells : List Bool) (o M b : Nat) (hb : b ≤ M) :
    (cells.take o).count true + ((slice cells o M).take b).count true = (cells.take (o + b)).count true := by
  unfold slice
  rw [List.take_take, Nat.min_eq_left hb, List.take_add, List.count_append]

theorem slice_row_length (cells : List Bool) (o M : Nat) (h : o + M ≤ cells.length) : (slice cells o M).length = M :=
  slice_length _ _ _ h

theorem iter_succ (n j : Nat) : (fun x : Nat => x + 1)^[n] j = j + n := by
  induction n generalizing j with
  | zero => rfl
  | succ n ih => rw [Function.iterate_succ_apply, ih]; omega

theorem row_bounds {cells : List Bool} {N M a : Nat} (hc : cells.length = N * M) (ha : a < N) : a * M + M ≤ cells.length := by
  rw [hc]
  have : (a + 1) * M ≤ N * M := Nat.mul_le_mul_right M ha
  rw [Nat.add_mul] at this
  omega

theorem row_total {cells : List Bool} {M a : Nat} :
    (cells.take (a * M)).count true + (slice cells (a * M) M).count true ≤ cells.count true := by
  have h1 := slice_row_count cells (a * M) M M le_rfl
  rw [List.take_of_length_le (l := slice cells (a * M) M) (by unfold slice; simp)] at h1
  rw [h1]
  have : cells.count true = (cells.take (a * M + M)).count true + (cells.drop (a * M + M)).count true := by
    rw [← List.count_append, List.take_append_drop]
  omega

theorem sat47_step (src : Bare4567) (sc : Scalers) (cells : List Bool) (nm : Nat → String) (st : Nat → Nat) (N M : Nat)
    (hinj : InjOn nm M) (hc : cells.length = N * M)
    (h1 : src.sgn.rng_fine.length = cells.count true) (h2 : src.sgn.phase_fine.length = cells.count true)
    (h3 : src.sgn.lock_time.length = cells.count true) (h4 : src.sgn.c2n.length = cells.count true)
    (h5 : src.sgn.hc_indc.length = cells.count true)
    (h6 : (src.atr.is_msm7 || src.atr.is_msm5) = true →
      src.sgn.phase_rate_fine.length = cells.count true ∧ src.sat.phase_rate_rough.length = N)
    (h7 : src.sat.rng_ms.length = N) (h8 : src.sat.rng_rough.length = N) (a : Nat) (F : Nat → ObsRow) (ha : a < N) :
    sat47 src sc ((List.range N).map st) ((List.range M).map nm) (a, (cells.take (a * M)).count true, obsOf nm M F)
      (maskInt (slice cells (a * M) M)) =
    .ok (a + 1, (cells.take ((a + 1) * M)).count true, obsOf nm M (fun b => app (F b) (st a) (V47 src sc cells M a b))) := by
  have t1 := tupAt_ok (h7 ▸ ha) (0 : Nat)
  have t2 := tupAt_ok (h8 ▸ ha) (0 : Nat)
  have hlen := slice_row_length cells (a * M) M (row_bounds hc ha)
  have key : ∀ (ok1 : Bool) (r : Rat) (ok2 : Bool) (p : Rat), (ok2 = true → (src.atr.is_msm7 || src.atr.is_msm5) = true) →
      whileSlots (body47 src sc ((List.range M).map nm) (st a) ok1 r ok2 p) (maskInt (slice cells (a * M) M)) 0
        ((cells.take (a * M)).count true, obsOf nm M F) =
      .ok ((cells.take ((a + 1) * M)).count true, obsOf nm M (fun b => app (F b) (st a)
        (if cells.getD (a * M + b) false = true then cv47 src sc ok1 r ok2 p ((cells.take (a * M + b)).count true) else {}))) := by
    intro ok1 r ok2 p hok
    rw [whileSlots_mask _ _ _ _ (fun b x hb => body47_false src sc nm M (st a) ok1 r ok2 p b x (by omega))]
    have := runRow_eq (σ := Nat) (τ := Nat × Obs) Prod.mk (· + 1) (cv47 src sc ok1 r ok2 p) (st a)
      ((cells.take (a * M)).count true) nm M ((slice cells (a * M) M).count true)
      (body47 src sc ((List.range M).map nm) (st a) ok1 r ok2 p)
      (fun i x hi => body47_false src sc nm M (st a) ok1 r ok2 p i x hi)
      (fun i n G hi hn => by
        simp only [iter_succ]
        exact body47_true src sc nm M _ hinj (st a) ok1 r ok2 p h1 h2 h3 h4 h5 (fun h => (h6 (hok h)).1) i _ G hi
          (by have := row_total (cells := cells) (M := M) (a := a); omega))
      (slice cells (a * M) M) 0 0 F (by omega) (by omega)
    simp only [Function.iterate_zero, id, iter_succ, Nat.zero_add, Nat.zero_le, true_and, Nat.sub_zero, Nat.add_zero] at this
    rw [this]
    have e1 : (cells.take (a * M)).count true + (slice cells (a * M) M).count true = (cells.take ((a + 1) * M)).count true := by
      have h := slice_row_count cells (a * M) M M le_rfl
      rw [List.take_of_length_le (l := slice cells (a * M) M) (by omega)] at h
      rw [h, Nat.add_mul, Nat.one_mul]
    rw [e1]
    congr 2
    apply obsOf_congr
    intro b hb
    rw [slice_row_getD _ _ _ _ hb, slice_row_count _ _ _ _ (by omega)]
    split
    · rfl
    · rfl
  unfold sat47
  simp only [tupAt_range st ha, ok_bind, t1, t2, pure_ok]
  by_cases c1 : (src.sat.rng_ms.getD a 0 != 255) = true <;> by_cases c2 : (src.atr.is_msm7 || src.atr.is_msm5) = true
  · have t3 := tupAt_ok ((h6 c2).2 ▸ ha) (0 : Int)
    by_cases c3 : (src.sat.phase_rate_rough.getD a 0 % 2 ^ 14 != 0x2000) = true
    · simp only [c1, c2, if_true, ok_bind, t3, c3]
      rw [key _ _ _ _ (fun _ => c2), ok_bind]
      simp only [V47, c1, c2, c3, Bool.and_self]
    · simp only [c1, c2, if_true, ok_bind, t3, if_neg c3]
      rw [key _ _ _ _ (fun _ => c2), ok_bind]
      simp only [V47, c1, c2, Bool.eq_false_iff.2 c3, Bool.and_false]
      rfl
  · simp only [c1, if_true, ok_bind, if_neg c2]
    rw [key _ _ _ _ (by simp), ok_bind]
    simp only [V47, c1, Bool.eq_false_iff.2 c2, Bool.false_and]
    rfl
  · have t3 := tupAt_ok ((h6 c2).2 ▸ ha) (0 : Int)
    by_cases c3 : (src.sat.phase_rate_rough.getD a 0 % 2 ^ 14 != 0x2000) = true
    · simp only [if_neg c1, c2, if_true, ok_bind, t3, c3]
      rw [key _ _ _ _ (fun _ => c2), ok_bind]
      simp only [V47, Bool.eq_false_iff.2 c1, c2, c3, Bool.and_self]
      rfl
    · simp only [if_neg c1, c2, if_true, ok_bind, t3, if_neg c3]
      rw [key _ _ _ _ (fun _ => c2), ok_bind]
      simp only [V47, Bool.eq_false_iff.2 c1, c2, Bool.eq_false_iff.2 c3, Bool.and_false]
      rfl
  · simp only [if_neg c1, ok_bind, if_neg c2]
    rw [key _ _ _ _ (by simp), ok_bind]
    simp only [V47, Bool.eq_false_iff.2 c1, Bool.eq_false_iff.2 c2, Bool.false_and]
    rfl

/-! ## MSM1 … MSM3 -/

/-- Observations without phase rates and CNR. -/
def cut13 (o : Obs) : Obs := { o with dpl := [], c2n := [] }

/-- The fine range of the cell does not switch phases off. -/
def rngGood (src : Bare123) (rng_ok : Bool) (j : Nat) : Bool := !rng_ok || src.sgn.rng_fine.getD j 0 % 2 ^ 15 != 0x4000

/-- Values of the cell with index `j`; `ph` is the value of `ph_ok` before. -/
def cv13 (src : Bare123) (sc : Scalers) (rng : Rat) (rng_ok : Bool) (x : Bool × Nat) : CellVals :=
  let j := x.2
  let ok : Bool := x.1 && rngGood src rng_ok j && !(src.sgn.phase_fine.getD j 0 % 2 ^ 22 == 0x200000)
  { rng := if rng_ok = true ∧ (src.sgn.rng_fine.getD j 0 % 2 ^ 15 != 0x4000) = true then
      some ((rng + (src.sgn.rng_fine.getD j 0 : Rat) * sc.rng) * CRNG_1MS) else none
    phs := if ok = true then some ((rng + (src.sgn.phase_fine.getD j 0 : Rat) * sc.phs) * CRNG_1MS) else none
    ltm := if ok = true then some (sc.ltm (src.sgn.lock_time.getD j 0)) else none
    hca := if ok = true then some (src.sgn.hc_indc.getD j 0 != 0) else none }

/-- The state after a cell. -/
def next13 (src : Bare123) (rng_ok : Bool) (x : Bool × Nat) : Bool × Nat := (x.1 && rngGood src rng_ok x.2, x.2 + 1)

theorem next13_snd (src : Bare123) (rng_ok : Bool) (n : Nat) (x : Bool × Nat) : ((next13 src rng_ok)^[n] x).2 = x.2 + n := by
  induction n generalizing x with
  | zero => rfl
  | succ n ih => rw [Function.iterate_succ_apply, ih, next13]; dsimp only; omega

theorem next13_fst (src : Bare123) (rng_ok : Bool) (n : Nat) (x : Bool × Nat) (h : ((next13 src rng_ok)^[n] x).1 = true) :
    x.1 = true := by
  induction n generalizing x with
  | zero => exact h
  | succ n ih =>
    rw [Function.iterate_succ_apply] at h
    have := ih _ h
    simp only [next13, Bool.and_eq_true] at this
    exact this.1

theorem next13_row (src : Bare123) (rng_ok : Bool) (ph : Bool) (j : Nat) (row : List Bool) (b : Nat) :
    (((next13 src rng_ok)^[(row.take b).count true] (ph, j)).1 = true) ↔
      (ph = true ∧ ∀ c, c < b → row.getD c false = true → rngGood src rng_ok (j + (row.take c).count true) = true) := by
  induction b with
  | zero => simp
  | succ b ih =>
    have hsplit : row.take (b + 1) = row.take b ++ (row.drop b).take 1 := by rw [List.take_add]
    by_cases hb : row.getD b false = true
    · have h1 : ((row.drop b).take 1).count true = 1 := by
        have hl : b < row.length := by
          by_contra h
          rw [List.getD_eq_getElem?_getD, List.getElem?_eq_none (by omega)] at hb
          simp at hb
        rw [List.getD_eq_getElem?_getD, List.getElem?_eq_getElem hl] at hb
        rw [List.drop_eq_getElem_cons hl]
        simp only [Option.getD_some] at hb
        rw [hb]; rfl
      rw [hsplit, List.count_append, h1, Function.iterate_succ_apply']
      simp only [next13, Bool.and_eq_true]
      rw [ih, next13_snd]
      constructor
      · rintro ⟨⟨h2, h3⟩, h4⟩
        refine ⟨h2, fun c hc hr => ?_⟩
        by_cases e : c = b
        · subst e; exact h4
        · exact h3 c (by omega) hr
      · rintro ⟨h2, h3⟩
        exact ⟨⟨h2, fun c hc hr => h3 c (by omega) hr⟩, h3 b (by omega) hb⟩
    · have h1 : ((row.drop b).take 1).count true = 0 := by
        by_cases hl : b < row.length
        · rw [List.getD_eq_getElem?_getD, List.getElem?_eq_getElem hl] at hb
          rw [List.drop_eq_getElem_cons hl]
          simp only [Option.getD_some, Bool.not_eq_true] at hb
          rw [hb]; rfl
        · rw [List.drop_of_length_le (by omega)]; rfl
      rw [hsplit, List.count_append, h1, Nat.add_zero, ih]
      constructor
      · rintro ⟨h2, h3⟩
        refine ⟨h2, fun c hc hr => ?_⟩
        by_cases e : c = b
        · subst e; exact absurd hr hb
        · exact h3 c (by omega) hr
      · rintro ⟨h2, h3⟩
        exact ⟨h2, fun c hc hr => h3 c (by omega) hr⟩

theorem body13_false (src : Bare123) (sc : Scalers) (nm : Nat → String) (M : Nat) (s : Nat) (rng : Rat) (rng_ok : Bool)
    (i : Nat) (st : Bool × Nat × Obs) (hi : i < M) :
    body13 src sc ((List.range M).map nm) s rng rng_ok i false st = .ok st := by
  obtain ⟨ph, j, obs⟩ := st
  unfold body13
  simp only [tupAt_range nm hi, ok_bind, ite_true]
  rfl

theorem body13_true (src : Bare123) (sc : Scalers) (nm : Nat → String) (M C : Nat) (hinj : InjOn nm M) (s : Nat)
    (rng : Rat) (rng_ok : Bool) (ph : Bool) (h1 : rng_ok = true → src.sgn.rng_fine.length = C)
    (h2 : ph = true → src.sgn.phase_fine.length = C ∧ src.sgn.lock_time.length = C ∧ src.sgn.hc_indc.length = C)
    (i j : Nat) (F : Nat → ObsRow) (hi : i < M) (hj : j < C) :
    body13 src sc ((List.range M).map nm) s rng rng_ok i true (ph, j, cut13 (obsOf nm M F)) =
      .ok ((next13 src rng_ok (ph, j)).1, j + 1,
        cut13 (obsOf nm M (Function.update F i (app (F i) s (cv13 src sc rng rng_ok (ph, j)))))) := by
  unfold body13
  rw [obsOf_update]
  simp only [tupAt_range nm hi, ok_bind, obsOf, app, cv13, cut13, next13, rngGood, Bool.true_eq_false, if_false]
  have e4 : ∀ t : ph = true, tupAt src.sgn.phase_fine j = .ok (src.sgn.phase_fine.getD j 0) ∧
      tupAt src.sgn.lock_time j = .ok (src.sgn.lock_time.getD j 0) ∧ tupAt src.sgn.hc_indc j = .ok (src.sgn.hc_indc.getD j 0) :=
    fun t => ⟨tupAt_ok ((h2 t).1 ▸ hj) _, tupAt_ok ((h2 t).2.1 ▸ hj) _, tupAt_ok ((h2 t).2.2 ▸ hj) _⟩
  have e1 : rng_ok = true → tupAt src.sgn.rng_fine j = .ok (src.sgn.rng_fine.getD j 0) := fun t => tupAt_ok ((h1 t) ▸ hj) _
  rcases Bool.eq_false_or_eq_true rng_ok with c1 | c1 <;>
  rcases Bool.eq_false_or_eq_true (src.sgn.rng_fine.getD j 0 % 2 ^ 15 != 0x4000) with c2 | c2 <;>
  rcases Bool.eq_false_or_eq_true ph with c3 | c3 <;>
  rcases Bool.eq_false_or_eq_true (src.sgn.phase_fine.getD j 0 % 2 ^ 22 == 0x200000) with c4 | c4 <;>
  simp only [c1, c3, Bool.false_eq_true, false_imp_iff, true_imp_iff] at e1 e4 <;>
  simp only [c1, c2, c3, c4, e1, e4, if_true, if_false, Bool.false_eq_true, true_and, and_true, and_false, false_and, pure_ok, ok_bind, updIn_T hinj _ hi, setO, T_update_self (nm := nm) (M := M) (fun b => (F b).rng) i,
    T_update_self (nm := nm) (M := M) (fun b => (F b).phs) i, T_update_self (nm := nm) (M := M) (fun b => (F b).ltm) i,
    T_update_self (nm := nm) (M := M) (fun b => (F b).hca) i, Bool.and_true, Bool.true_and, Bool.false_and, Bool.and_false,
    Bool.not_true, Bool.not_false, Bool.or_true, Bool.true_or, Bool.false_or]

/-- Values of row `a`, column `b`. -/
def V13 (src : Bare123) (sc : Scalers) (cells : List Bool) (M a b : Nat) : CellVals :=
  if cells.getD (a * M + b) false = true then
    let rng_ok := src.atr.is_msm1 || src.atr.is_msm3
    let ph : Bool := (src.atr.is_msm2 || src.atr.is_msm3) &&
      decide (∀ c, c < b → cells.getD (a * M + c) false = true → rngGood src rng_ok ((cells.take (a * M + c)).count true) = true)
    cv13 src sc ((src.sat.rng_rough.getD a 0 : Rat) / 1024) rng_ok (ph, (cells.take (a * M + b)).count true)
  else {}

theorem sat13_step (src : Bare123) (sc : Scalers) (cells : List Bool) (nm : Nat → String) (st : Nat → Nat) (N M : Nat)
    (hinj : InjOn nm M) (hc : cells.length = N * M)
    (h1 : (src.atr.is_msm1 || src.atr.is_msm3) = true → src.sgn.rng_fine.length = cells.count true)
    (h2 : (src.atr.is_msm2 || src.atr.is_msm3) = true → src.sgn.phase_fine.length = cells.count true ∧
      src.sgn.lock_time.length = cells.count true ∧ src.sgn.hc_indc.length = cells.count true)
    (h8 : src.sat.rng_rough.length = N) (a : Nat) (F : Nat → ObsRow) (ha : a < N) :
    sat13 src sc ((List.range N).map st) ((List.range M).map nm) (a, (cells.take (a * M)).count true, cut13 (obsOf nm M F))
      (maskInt (slice cells (a * M) M)) =
    .ok (a + 1, (cells.take ((a + 1) * M)).count true,
      cut13 (obsOf nm M (fun b => app (F b) (st a) (V13 src sc cells M a b)))) := by
  have t2 := tupAt_ok (h8 ▸ ha) (0 : Nat)
  have hlen := slice_row_length cells (a * M) M (row_bounds hc ha)
  unfold sat13
  simp only [tupAt_range st ha, ok_bind, t2]
  generalize hr : (src.atr.is_msm1 || src.atr.is_msm3) = rng_ok
  generalize hp : (src.atr.is_msm2 || src.atr.is_msm3) = ph0
  rw [hr] at h1
  rw [hp] at h2
  generalize hrng : (src.sat.rng_rough.getD a 0 : Rat) / 1024 = r
  rw [whileSlots_mask _ _ _ _ (fun b x hb => body13_false src sc nm M (st a) r rng_ok b x (by omega))]
  have := runRow_eq (σ := Bool × Nat) (τ := Bool × Nat × Obs) (fun x o => (x.1, x.2, cut13 o)) (next13 src rng_ok)
    (cv13 src sc r rng_ok) (st a) (ph0, (cells.take (a * M)).count true) nm M ((slice cells (a * M) M).count true)
    (body13 src sc ((List.range M).map nm) (st a) r rng_ok)
    (fun i x hi => body13_false src sc nm M (st a) r rng_ok i x hi)
    (fun i n G hi hn => by
      have hlt : (cells.take (a * M)).count true + n < cells.count true := by
        have := row_total (cells := cells) (M := M) (a := a); omega
      have e := next13_snd src rng_ok n (ph0, (cells.take (a * M)).count true)
      have e1 := next13_fst src rng_ok n (ph0, (cells.take (a * M)).count true)
      rw [Function.iterate_succ_apply']
      generalize (next13 src rng_ok)^[n] (ph0, (cells.take (a * M)).count true) = y at e e1 ⊢
      obtain ⟨y1, y2⟩ := y
      dsimp only at e e1 ⊢
      have hb := body13_true src sc nm M _ hinj (st a) r rng_ok y1 h1 (fun h => h2 (e1 h)) i y2 G hi (by omega)
      rw [hb]
      rfl)
    (slice cells (a * M) M) 0 0 F (by omega) (by omega)
  simp only [Function.iterate_zero, id, Nat.zero_add, Nat.zero_le, true_and, Nat.sub_zero, next13_snd] at this
  rw [this, ok_bind]
  have e1 : (cells.take (a * M)).count true + (slice cells (a * M) M).count true = (cells.take ((a + 1) * M)).count true := by
    have h := slice_row_count cells (a * M) M M le_rfl
    rw [List.take_of_length_le (l := slice cells (a * M) M) (by omega)] at h
    rw [h, Nat.add_mul, Nat.one_mul]
  rw [e1]
  simp only [pure_ok]
  congr 3
  congr 1
  apply obsOf_congr
  intro b hb
  rw [slice_row_getD _ _ _ _ hb]
  unfold V13
  split
  · congr 1
    simp only [hr, hp, hrng]
    congr 1
    apply Prod.ext
    · rw [Bool.eq_iff_iff, next13_row, Bool.and_eq_true, decide_eq_true_iff]
      apply and_congr_right
      intro _
      apply forall_congr'
      intro c
      apply imp_congr_right
      intro hc
      rw [slice_row_getD _ _ _ _ (by omega), slice_row_count _ _ _ _ (by omega)]
    · rw [next13_snd]
      exact slice_row_count _ _ _ _ (by omega)
  · rfl

/-! ## The loop over the satellites -/

theorem outer (g : Obs → Obs) (cells : List Bool) (nm : Nat → String) (st : Nat → Nat) (N M : Nat)
    (V : Nat → Nat → CellVals) (f : Nat × Nat × Obs → Nat → Py (Nat × Nat × Obs))
    (step : ∀ a F, a < N → f (a, (cells.take (a * M)).count true, g (obsOf nm M F)) (maskInt (slice cells (a * M) M)) =
      .ok (a + 1, (cells.take ((a + 1) * M)).count true, g (obsOf nm M (fun b => app (F b) (st a) (V a b))))) :
    ∀ n, n ≤ N → ((List.range n).map (fun a => maskInt (slice cells (a * M) M))).foldlM f (0, 0, g (obsOf nm M (fun _ => {}))) =
      .ok (n, (cells.take (n * M)).count true,
        g (obsOf nm M (fun b => (List.range n).foldl (fun r a => app r (st a) (V a b)) {}))) := by
  intro n
  induction n with
  | zero => intro _; simp; rfl
  | succ n ih =>
    intro hn
    rw [List.range_succ, List.map_append, List.foldlM_append, ih (by omega), ok_bind]
    simp only [List.map_cons, List.map_nil, List.foldlM_cons, List.foldlM_nil]
    rw [step n _ (by omega), ok_bind]
    simp only [List.foldl_append, List.foldl_cons, List.foldl_nil]
    rfl

/-! ## Deletion -/

/-- The observations without empty entries. -/
def obsDel (nm : Nat → String) (M m : Nat) (F : Nat → ObsRow) : Obs :=
  { rng := Tp nm M (fun b => decide (m ≤ b) || !(F b).rng.isEmpty) (fun b => (F b).rng)
    phs := Tp nm M (fun b => decide (m ≤ b) || !(F b).phs.isEmpty) (fun b => (F b).phs)
    ltm := Tp nm M (fun b => decide (m ≤ b) || !(F b).ltm.isEmpty) (fun b => (F b).ltm)
    hca := Tp nm M (fun b => decide (m ≤ b) || !(F b).hca.isEmpty) (fun b => (F b).hca)
    dpl := Tp nm M (fun b => decide (m ≤ b) || !(F b).dpl.isEmpty) (fun b => (F b).dpl)
    c2n := Tp nm M (fun b => decide (m ≤ b) || !(F b).c2n.isEmpty) (fun b => (F b).c2n) }

theorem obsDel_zero (nm : Nat → String) (M : Nat) (F : Nat → ObsRow) : obsDel nm M 0 F = obsOf nm M F := by
  unfold obsDel obsOf
  simp only [Nat.zero_le, decide_true, Bool.true_or, Tp_true]

theorem del47_all (nm : Nat → String) (M : Nat) (hinj : InjOn nm M) (F : Nat → ObsRow) : ∀ m, m ≤ M →
    ((List.range m).map nm).foldlM del47 (obsOf nm M F) = .ok (obsDel nm M m F) := by
  intro m
  induction m with
  | zero => intro _; rw [obsDel_zero]; rfl
  | succ m ih =>
    intro hm
    rw [List.range_succ, List.map_append, List.foldlM_append, ih (by omega), ok_bind]
    simp only [List.map_cons, List.map_nil, List.foldlM_cons, List.foldlM_nil]
    unfold del47
    simp only [obsDel, delEmpty1_Tp hinj _ m (show m < M by omega), ok_bind]
    rfl

theorem del13_all (nm : Nat → String) (M : Nat) (hinj : InjOn nm M) (F : Nat → ObsRow) : ∀ m, m ≤ M →
    ((List.range m).map nm).foldlM del13 (cut13 (obsOf nm M F)) = .ok (cut13 (obsDel nm M m F)) := by
  intro m
  induction m with
  | zero => intro _; rw [obsDel_zero]; rfl
  | succ m ih =>
    intro hm
    rw [List.range_succ, List.map_append, List.foldlM_append, ih (by omega), ok_bind]
    simp only [List.map_cons, List.map_nil, List.foldlM_cons, List.foldlM_nil]
    unfold del13
    simp only [obsDel, cut13, delEmpty1_Tp hinj _ m (show m < M by omega), ok_bind]
    rfl

/-! ## The whole conversion -/

/-- Rows of the observations. -/
def rowsOf (st : Nat → Nat) (N : Nat) (V : Nat → Nat → CellVals) (b : Nat) : ObsRow :=
  let col {α : Type} (v : CellVals → Option α) : PyDict Nat α :=
    (List.range N).filterMap (fun a => (v (V a b)).map (fun x => (st a, x)))
  { rng := col CellVals.rng, phs := col CellVals.phs, ltm := col CellVals.ltm, hca := col CellVals.hca,
    dpl := col CellVals.dpl, c2n := col CellVals.c2n }

theorem rowsOf_eq (st : Nat → Nat) (N : Nat) (hst : InjOn st N) (V : Nat → Nat → CellVals) (b : Nat) :
    (List.range N).foldl (fun r a => app r (st a) (V a b)) {} = rowsOf st N V b := by
  rw [foldl_app]
  unfold rowsOf
  simp only [foldl_setO st N hst _ N le_rfl]

theorem convertObs47_eq (src : Bare4567) (cells : List Bool) (nm : Nat → String) (st : Nat → Nat) (N M : Nat)
    (hinj : InjOn nm M) (hst : InjOn st N) (hc : cells.length = N * M)
    (h1 : src.sgn.rng_fine.length = cells.count true) (h2 : src.sgn.phase_fine.length = cells.count true)
    (h3 : src.sgn.lock_time.length = cells.count true) (h4 : src.sgn.c2n.length = cells.count true)
    (h5 : src.sgn.hc_indc.length = cells.count true)
    (h6 : (src.atr.is_msm7 || src.atr.is_msm5) = true →
      src.sgn.phase_rate_fine.length = cells.count true ∧ src.sat.phase_rate_rough.length = N)
    (h7 : src.sat.rng_ms.length = N) (h8 : src.sat.rng_rough.length = N) :
    convertObs47 src ((List.range N).map st) ((List.range M).map nm)
      ((List.range N).map (fun a => maskInt (slice cells (a * M) M))) {} =
    .ok (obsDel nm M M (rowsOf st N (V47 src (if src.atr.is_msm7 || src.atr.is_msm6 then SCALERS67 else SCALERS45) cells M))) := by
  unfold convertObs47
  simp only [addEmpty_T hinj]
  have := outer id cells nm st N M _ _ (fun a F ha => sat47_step src
    (if src.atr.is_msm7 || src.atr.is_msm6 then SCALERS67 else SCALERS45) cells nm st N M hinj hc h1 h2 h3 h4 h5 h6 h7 h8 a F ha)
    N le_rfl
  simp only [obsOf, id] at this
  rw [this, ok_bind]
  dsimp only
  simp only [rowsOf_eq st N hst]
  exact del47_all nm M hinj _ M le_rfl

theorem convertObs13_eq (src : Bare123) (cells : List Bool) (nm : Nat → String) (st : Nat → Nat) (N M : Nat)
    (hinj : InjOn nm M) (hst : InjOn st N) (hc : cells.length = N * M)
    (h1 : (src.atr.is_msm1 || src.atr.is_msm3) = true → src.sgn.rng_fine.length = cells.count true)
    (h2 : (src.atr.is_msm2 || src.atr.is_msm3) = true → src.sgn.phase_fine.length = cells.count true ∧
      src.sgn.lock_time.length = cells.count true ∧ src.sgn.hc_indc.length = cells.count true)
    (h8 : src.sat.rng_rough.length = N) :
    convertObs13 src ((List.range N).map st) ((List.range M).map nm)
      ((List.range N).map (fun a => maskInt (slice cells (a * M) M))) {} =
    .ok (cut13 (obsDel nm M M (rowsOf st N (V13 src SCALERS45 cells M)))) := by
  unfold convertObs13
  simp only [addEmpty_T hinj]
  have := outer cut13 cells nm st N M _ _ (fun a F ha => sat13_step src SCALERS45 cells nm st N M hinj hc h1 h2 h8 a F ha)
    N le_rfl
  simp only [obsOf, cut13] at this
  rw [this, ok_bind]
  dsimp only
  simp only [rowsOf_eq st N hst]
  exact del13_all nm M hinj _ M le_rfl

end Verif
