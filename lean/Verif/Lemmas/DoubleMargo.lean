import Verif.Model.MargoDouble
import Verif.Lemmas.DoubleConv
import Verif.Lemmas.MargoFiles
import Verif.Lemmas.ReadText
import Verif.Spec.MargoDouble
import Verif.Props.Double

/-!
# The rows of MARGO files with rounded arithmetic
-/

namespace Verif
open Spec RtcmUtil

theorem PyRel.mapM₂ {α β γ δ : Type} {P : α → β → Prop} {R : γ → δ → Prop} {f : α → Py γ} {g : β → Py δ} (h : ∀ x y, P x y → PyRel R (f x) (g y))
    {l : List α} {l' : List β} (hl : List.Forall₂ P l l') : PyRel (List.Forall₂ R) (l.mapM f) (l'.mapM g) := by
  induction hl with
  | nil => exact List.Forall₂.nil
  | cons hab _ ih =>
    rw [List.mapM_cons, List.mapM_cons]
    exact PyRel.bind (h _ _ hab) (fun a b hab => PyRel.bind ih (fun as bs hs => List.Forall₂.cons hab hs))

theorem PyRel.foldlM₂ {σ τ ι κ : Type} {S : σ → τ → Prop} {P : ι → κ → Prop} {f : σ → ι → Py σ} {g : τ → κ → Py τ}
    (h : ∀ i j s t, P i j → S s t → PyRel S (f s i) (g t j)) {l : List ι} {l' : List κ} (hl : List.Forall₂ P l l') {s : σ} {t : τ}
    (hst : S s t) : PyRel S (l.foldlM f s) (l'.foldlM g t) := by
  induction hl generalizing s t with
  | nil => exact hst
  | cons hab _ ih =>
    rw [List.foldlM_cons, List.foldlM_cons]
    exact PyRel.bind (h _ _ s t hab hst) (fun x y hxy => ih hxy)

namespace Margo
open Msm

/-! ## Frequencies and wave lengths -/

/-- The frequency channels of a table are small. -/
def Channels (c : Controls) : Prop := ∀ s ch, c.glo_lit_tab.get? s = some ch → |ch| ≤ 1000

theorem tiny_size : (2 : Rat) ^ (-1022 : Int) ≤ 1 / 10 ^ 30 := by
  rw [zpow_neg, one_div]
  apply inv_anti₀ (by positivity)
  calc (10 : Rat) ^ 30 ≤ 2 ^ 100 := by norm_num
    _ ≤ 2 ^ 1022 := pow_le_pow_right₀ (by norm_num) (by norm_num)

/-- The carrier frequencies of the tables. -/
theorem cf_range : ∀ p ∈ rinexCfTab, ∀ q ∈ p.2, 1000 ≤ q.2 ∧ q.2 ≤ 2500 ∧ (q.2 * 10000).den = 1 := by decide +kernel

theorem crrFrq_range {g s : String} {f : Rat} (hf : crrFrq g (some s) = .ok f) : 1000 ≤ f ∧ f ≤ 2500 ∧ ∃ n : Int, f = n / 10000 := by
  unfold crrFrq at hf
  cases ht : rinexCfTab.get? g with
  | none => rw [ht] at hf; cases hf
  | some tab =>
    rw [ht] at hf
    dsimp only at hf
    cases hf' : tab.get? s with
    | none => rw [hf'] at hf; cases hf
    | some f' =>
      rw [hf'] at hf
      have e : f' = f := by injection hf
      rw [← e]
      obtain ⟨h1, h2, h3⟩ := cf_range (g, tab) (lookup_mem ht) (s, f') (lookup_mem hf')
      refine ⟨h1, h2, (f' * 10000).num, ?_⟩
      have := Rat.den_eq_one_iff _ |>.1 h3
      rw [this]; ring

/-- Frequencies. -/
def FrqRel (x y : Rat) : Prop := Near 1 x y ∧ 600 ≤ x ∧ x ≤ 2600 ∧ ∃ n : Int, x = n / 10000

theorem frq_of {rnd : Rat → Rat} (h : Nearest rnd) {f : Rat} (hf : 1000 ≤ f ∧ f ≤ 2500 ∧ ∃ n : Int, f = n / 10000) : FrqRel f (rnd f) := by
  obtain ⟨h1, h2, h3⟩ := hf
  refine ⟨h.step (Or.inr ?_), by linarith, by linarith, h3⟩
  rw [abs_of_pos (by linarith)]
  have := tiny_size
  norm_num at this ⊢
  linarith

/-- GLONASS frequencies are doubles. -/
theorem fdma_exact {rnd : Rat → Rat} (h : Nearest rnd) (base step lt : Int) (hb : 0 ≤ base ∧ base ≤ 2000) (hs : 0 ≤ step ∧ step ≤ 16)
    (hl : |lt| ≤ 1000) : rnd (base + rnd (rnd (step / 16) * rnd lt)) = base + (step / 16 : Rat) * lt := by
  have hl' : -1000 ≤ lt ∧ lt ≤ 1000 := abs_le.1 hl
  have e1 : rnd ((step : Rat) / 16) = step / 16 := h.exact (by
    have := double_div step 4 (by rw [abs_of_nonneg hs.1]; omega) (by omega)
    norm_num at this ⊢; exact this)
  have e2 : rnd (lt : Rat) = lt := h.exact (double_int lt (by omega))
  have hm : |step * lt| ≤ 16000 := by
    rw [abs_mul, abs_of_nonneg hs.1]
    calc step * |lt| ≤ 16 * 1000 := mul_le_mul hs.2 hl (abs_nonneg _) (by norm_num)
      _ = 16000 := by norm_num
  have hm' := abs_le.1 hm
  have e3 : rnd ((step : Rat) / 16 * lt) = step / 16 * lt := h.exact (by
    have := double_div (step * lt) 4 (by omega) (by omega)
    have e : ((step * lt : Int) : Rat) / 2 ^ 4 = step / 16 * lt := by push_cast; ring
    rwa [e] at this)
  rw [e1, e2, e3]
  apply h.exact
  have := double_div (base * 16 + step * lt) 4 (by rw [abs_le]; omega) (by omega)
  have e : ((base * 16 + step * lt : Int) : Rat) / 2 ^ 4 = base + step / 16 * lt := by push_cast; ring
  rwa [e] at this

theorem glo_frq (s : String) (n : Int) {fc : Rat} (hfc : crrFrq "R" (some s) = .ok fc)
    (h : (match crrFrq "R" (some s) with | .ok f => decide (f = n) | .error _ => false) = true) : fc = n := by
  rw [hfc] at h
  simpa using h

theorem makeCrrFrq_rel {rnd : Rat → Rat} (h : Nearest rnd) (c : Controls) (hc : Channels c) (g s : String) :
    PyRel (List.Forall₂ FrqRel) (makeCrrFrq c g s) (makeCrrFrqR rnd c g s) := by
  unfold makeCrrFrq makeCrrFrqR
  refine PyRel.same (fun fc hfc => ?_)
  have b1 := crrFrq_range hfc
  refine PyRel.same (fun n hn => ?_)
  have hrep : List.Forall₂ FrqRel (List.replicate n fc) (List.replicate n (rnd fc)) := by
    clear hn
    induction n with
    | zero => exact .nil
    | succ n ih => rw [List.replicate_succ, List.replicate_succ]; exact .cons (frq_of h b1) ih
  refine PyRel.ite (fun _ => hrep) (fun hg => PyRel.ite (fun _ => hrep) (fun hs => ?_))
  have hg : g = "R" := by simpa using hg
  have hs : s ∈ ["1C", "1P", "2C", "2P"] := not_not.1 hs
  subst hg
  -- base frequency and step
  obtain ⟨base, step, hb, hst, ⟨e1, e1'⟩, e2, e2'⟩ : ∃ base step : Int, (1246 ≤ base ∧ base ≤ 1602) ∧ (7 ≤ step ∧ step ≤ 9) ∧ (fc = base ∧ rnd fc = base) ∧
      (if s ∈ ["1C", "1P"] then (5625 / 10000 : Rat) else 4375 / 10000) = step / 16 ∧
      (if s ∈ ["1C", "1P"] then rnd (5625 / 10000) else rnd (4375 / 10000)) = rnd (step / 16) := by
    have hd : ∀ n : Int, (1246 ≤ n ∧ n ≤ 1602) → fc = n → fc = n ∧ rnd fc = n := by
      intro n hn e
      refine ⟨e, ?_⟩
      rw [e]
      exact h.exact (double_int n (by rw [abs_le]; omega))
    have hcases : (s = "1C" ∨ s = "1P") ∨ (s = "2C" ∨ s = "2P") := by
      simp only [List.mem_cons, List.not_mem_nil, or_false] at hs
      tauto
    rcases hcases with hs1 | hs1
    · have hfc' : fc = (1602 : Int) := by
        rcases hs1 with rfl | rfl <;>
        · exact glo_frq _ 1602 hfc (by decide +kernel)
      refine ⟨1602, 9, by omega, by omega, hd _ (by omega) hfc', ?_, ?_⟩
      · rw [if_pos (by simpa using hs1)]; norm_num
      · rw [if_pos (by simpa using hs1)]; norm_num
    · have hfc' : fc = (1246 : Int) := by
        rcases hs1 with rfl | rfl <;>
        · exact glo_frq _ 1246 hfc (by decide +kernel)
      have hno : s ∉ ["1C", "1P"] := by rcases hs1 with rfl | rfl <;> decide
      refine ⟨1246, 7, by omega, by omega, hd _ (by omega) hfc', ?_, ?_⟩
      · rw [if_neg hno]; norm_num
      · rw [if_neg hno]; norm_num
  dsimp only
  rw [e2, e2', e1, ← e1, e1', e1]
  have hz : List.Forall₂ (fun x y : Rat × Nat => x = y ∧ x.1 = base) ((List.replicate n (base : Rat)).zipIdx 1) ((List.replicate n (base : Rat)).zipIdx 1) := by
    rw [List.forall₂_same]
    intro x hx
    refine ⟨rfl, ?_⟩
    obtain ⟨x1, x2⟩ := x
    have := List.mem_zipIdx hx
    obtain ⟨-, -, h3⟩ := this
    rw [h3, List.getElem_replicate]
  refine PyRel.mapM₂ ?_ hz
  rintro ⟨x1, x2⟩ y ⟨rfl, hx⟩
  dsimp only at hx ⊢
  subst hx
  cases hl : c.glo_lit_tab.get? x2 with
  | none => exact rfl
  | some lt =>
    have hlt := hc x2 lt hl
    have := fdma_exact h base step lt (by omega) (by omega) hlt
    show FrqRel _ _
    rw [this]
    have hl1 : |(lt : Rat)| ≤ 1000 := by exact_mod_cast hlt
    rw [abs_le] at hl1
    have hs1 : (7 : Rat) ≤ step ∧ (step : Rat) ≤ 9 := by exact_mod_cast hst
    have hb1 : (1246 : Rat) ≤ base ∧ (base : Rat) ≤ 1602 := by exact_mod_cast hb
    have hp : |(step : Rat) / 16 * lt| ≤ 9 / 16 * 1000 := by
      rw [abs_mul, abs_of_nonneg (by linarith [hs1.1] : (0 : Rat) ≤ step / 16)]
      refine mul_le_mul (by linarith [hs1.2]) (abs_le.2 hl1) (abs_nonneg _) (by norm_num)
    rw [abs_le] at hp
    refine ⟨(Near.refl _).weaken (by omega), by linarith [hb1.1, hp.1], by linarith [hb1.2, hp.2], base * 10000 + step * lt * 625, ?_⟩
    push_cast
    ring

/-- Wave lengths. -/
def LamRel (x y : Rat) : Prop := Near 5 x y ∧ 1 / 10 ≤ x ∧ x ≤ 1 / 2

theorem lam_of {rnd : Rat → Rat} (h : Nearest rnd) {f f' : Rat} (hf : FrqRel f f') :
    LamRel (CRNG_1MS * (1 / 1000) / f) (rnd (rnd (rnd CRNG_1MS * rnd (1 / 1000)) / f')) := by
  obtain ⟨h1, h2, h3, -⟩ := hf
  have ht := tiny_size
  have hC : Near 1 CRNG_1MS (rnd CRNG_1MS) := h.step (Or.inr (by
    unfold CRNG_1MS; rw [abs_of_pos (by norm_num)]; norm_num at ht ⊢; linarith))
  have hm : Near 1 (1 / 1000) (rnd (1 / 1000)) := h.step (Or.inr (by
    rw [abs_of_pos (by norm_num)]; norm_num at ht ⊢; linarith))
  have hp : Near 2 (CRNG_1MS * (1 / 1000)) (rnd CRNG_1MS * rnd (1 / 1000)) := hC.mul hm
  have hc : Near 3 (CRNG_1MS * (1 / 1000)) (rnd (rnd CRNG_1MS * rnd (1 / 1000))) := hp.round h (Or.inr (by
    have := hp.large (b := 1) (by norm_num) (by unfold CRNG_1MS; rw [abs_of_pos (by norm_num)]; norm_num)
    norm_num at ht this ⊢; linarith))
  have hq : Near 4 (CRNG_1MS * (1 / 1000) / f) (rnd (rnd CRNG_1MS * rnd (1 / 1000)) / f') := hc.div h1
  have hlo : 1 / 10 ≤ CRNG_1MS * (1 / 1000) / f := by
    rw [le_div_iff₀ (by linarith)]; unfold CRNG_1MS; norm_num; linarith
  have hhi : CRNG_1MS * (1 / 1000) / f ≤ 1 / 2 := by
    rw [div_le_iff₀ (by linarith)]; unfold CRNG_1MS; norm_num; linarith
  refine ⟨hq.round h (Or.inr ?_), hlo, hhi⟩
  have := hq.large (b := 1 / 10) (by norm_num) (by rw [abs_of_pos (by linarith)]; exact hlo)
  norm_num at ht this ⊢; linarith

theorem makeLambdas_rel {rnd : Rat → Rat} (h : Nearest rnd) (c : Controls) (hc : Channels c) (g s : String) :
    PyRel (List.Forall₂ LamRel) (makeLambdas c g s) (makeLambdasR rnd c g s) := by
  unfold makeLambdas makeLambdasR
  refine PyRel.bind (makeCrrFrq_rel h c hc g s) (fun l l' hl => PyRel.mapM₂ ?_ hl)
  intro x y hxy
  have h0 : x ≠ 0 := by have := hxy.2.1; intro e; rw [e] at this; norm_num at this
  have h0' : y ≠ 0 := fun e => h0 (hxy.1.zero_iff.1 e)
  rw [if_neg h0, if_neg h0']
  exact lam_of h hxy

theorem lamAt_rel {l l' : List Rat} (h : List.Forall₂ LamRel l l') (sat : Nat) : PyRel LamRel (lamAt l sat) (lamAt l' sat) := by
  unfold lamAt
  generalize sat - 1 = i
  induction h generalizing i with
  | nil => exact rfl
  | cons hab _ ih =>
    cases i with
    | zero => exact hab
    | succ i => rw [List.getElem?_cons_succ, List.getElem?_cons_succ]; exact ih i

/-! ## Cells -/

/-- A double that is not small is a multiple of a unit. -/
theorem double_grid {z : Rat} (hz : Double z) (h : 1 / 2 ≤ |z|) : ∃ n : Int, z = n / 2 ^ 54 := by
  obtain ⟨m, e, hm, -, rfl⟩ := hz
  have he : -54 ≤ e := by
    by_contra hlt
    have h1 : (2 : Rat) ^ e ≤ 2 ^ (-55 : Int) := zpow_le_zpow_right₀ (by norm_num) (by omega)
    have h2 : |(m : Rat)| ≤ 2 ^ 53 := by exact_mod_cast hm
    rw [abs_mul, abs_of_pos (by positivity : (0 : Rat) < 2 ^ e)] at h
    have h3 : |(m : Rat)| * 2 ^ e ≤ 2 ^ 53 * 2 ^ (-55 : Int) := mul_le_mul h2 h1 (by positivity) (by positivity)
    have h4 : (2 : Rat) ^ 53 * 2 ^ (-55 : Int) = 1 / 4 := by norm_num
    rw [h4] at h3
    linarith
  obtain ⟨k, rfl⟩ : ∃ k : Nat, e = (k : Int) - 54 := ⟨(e + 54).toNat, by omega⟩
  refine ⟨m * 2 ^ k, ?_⟩
  rw [zpow_sub₀ (by norm_num), zpow_natCast]
  push_cast
  norm_num
  ring

/-- A rate is zero or not tiny. -/
theorem dpl_size {rnd : Rat → Rat} (h : Nearest rnd) {x y : Rat} (hxy : DplRel rnd x y) : y = 0 ∨ 1 / 2 ^ 60 ≤ |y| := by
  have hw := (dplRel_within h hxy).2
  obtain ⟨r, f, hr, hf, rfl, rfl⟩ := hxy
  have ht := tiny_size
  by_cases h0 : 10000 * r + f = 0
  · obtain ⟨hf1, hf2⟩ := abs_le.1 hf
    have hcases : (r = 0 ∧ f = 0) ∨ (r = -1 ∧ f = 10000) ∨ (r = 1 ∧ f = -10000) := by omega
    have hc : |rnd (1 / 10000) - 1 / 10000| ≤ 1 / 10 ^ 15 := by
      have := h.error_of (x := 1 / 10000) (b := 1 / 10000) (by rw [abs_of_pos (by norm_num)])
      refine this.trans ?_
      unfold ulp; norm_num
    have main : ∀ s : Int, (s = 1 ∨ s = -1) → rnd (((-s : Int) : Rat) + rnd (((s * 10000 : Int) : Rat) * rnd (1 / 10000))) = 0 ∨
        1 / 2 ^ 60 ≤ |rnd (((-s : Int) : Rat) + rnd (((s * 10000 : Int) : Rat) * rnd (1 / 10000)))| := by
      intro s hs
      have hs1 : |(s : Rat)| = 1 := by rcases hs with rfl | rfl <;> norm_num
      generalize rnd (1 / 10000) = c at hc
      have hq : |((s * 10000 : Int) : Rat) * c - s| ≤ 1 / 10 ^ 11 := by
        have : ((s * 10000 : Int) : Rat) * c - s = s * (10000 * (c - 1 / 10000)) := by push_cast; ring
        rw [this, abs_mul, hs1, one_mul, abs_mul, abs_of_pos (by norm_num : (0 : Rat) < 10000)]
        calc 10000 * |c - 1 / 10000| ≤ 10000 * (1 / 10 ^ 15) := mul_le_mul_of_nonneg_left hc (by norm_num)
          _ = _ := by norm_num
      generalize ((s * 10000 : Int) : Rat) * c = q at hq
      have hz := h.near q s (by exact_mod_cast double_int s (by rcases hs with rfl | rfl <;> norm_num))
      have hzd := h.double q
      generalize rnd q = z at hz hzd
      have hzs : |z - s| ≤ 1 / 2 := by
        have e : z - s = (z - q) + (q - s) := by ring
        rw [e]
        refine (abs_add_le _ _).trans ?_
        rw [abs_sub_comm (s : Rat) q] at hz
        have : (1 : Rat) / 10 ^ 11 ≤ 1 / 4 := by norm_num
        linarith
      have hz2 : 1 / 2 ≤ |z| := by
        have : |(s : Rat)| ≤ |z| + |z - s| := by
          have e : (s : Rat) = z - (z - s) := by ring
          calc |(s : Rat)| = |z - (z - s)| := by rw [← e]
            _ ≤ _ := abs_sub _ _
        linarith
      obtain ⟨n, rfl⟩ := double_grid hzd hz2
      have e : ((-s : Int) : Rat) + (n : Rat) / 2 ^ 54 = ((n - s * 2 ^ 54 : Int) : Rat) / 2 ^ 54 := by push_cast; field_simp; ring
      rw [e]
      generalize n - s * 2 ^ 54 = j
      by_cases hj : j = 0
      · left; subst hj; simp [h.zero]
      · right
        have hj1 : (1 : Rat) ≤ |(j : Rat)| := by exact_mod_cast Int.one_le_abs hj
        have hj2 : 1 / 2 ^ 54 ≤ |(j : Rat) / 2 ^ 54| := by
          rw [abs_div, abs_of_pos (by positivity : (0 : Rat) < 2 ^ 54)]
          exact div_le_div_of_nonneg_right hj1 (by positivity)
        have hn := h.step (x := (j : Rat) / 2 ^ 54) (Or.inr (by norm_num at ht hj2 ⊢; linarith))
        have := hn.large (by norm_num) hj2
        norm_num at this ⊢
        linarith
    rcases hcases with ⟨rfl, rfl⟩ | ⟨rfl, rfl⟩ | ⟨rfl, rfl⟩
    · left; simp [h.zero]
    · simpa using main 1 (.inl rfl)
    · simpa using main (-1) (.inr rfl)
  · right
    have h1 : (1 : Rat) ≤ |((10000 * r + f : Int) : Rat)| := by exact_mod_cast Int.one_le_abs h0
    have e : ((r : Rat) + f * (1 / 10000)) = ((10000 * r + f : Int) : Rat) / 10000 := by push_cast; ring
    rw [e] at hw
    have h2 : 1 / 10000 ≤ |((10000 * r + f : Int) : Rat) / 10000| := by
      rw [abs_div, abs_of_pos (by positivity : (0 : Rat) < 10000)]
      exact div_le_div_of_nonneg_right h1 (by positivity)
    generalize ((10000 * r + f : Int) : Rat) / 10000 = x at hw h2
    generalize rnd _ = y at hw
    have : |x| ≤ |y| + |y - x| := by
      have e : x = y - (y - x) := by ring
      calc |x| = |y - (y - x)| := by rw [← e]
        _ ≤ _ := abs_sub _ _
    norm_num at hw h2 this ⊢
    linarith

/-- How far values of a kind may be apart. -/
def KindRel (k : ObsKind) (x y : Rat) : Prop := |y - x| ≤ k.tolerance x

/-- Cells of a kind. -/
def CellRel (k : ObsKind) (a b : Cell) : Prop := Option.Rel (KindRel k) a.val b.val ∧ b = ofVal k b.val

theorem CellRel.nan {k : ObsKind} : CellRel k .nan .nan := ⟨.none, rfl⟩

theorem CellRel.num {k : ObsKind} {x y : Rat} (hk : k ≠ .doppler) (h : KindRel k x y) : CellRel k (.num x) (.num y) :=
  ⟨.some h, by unfold ofVal Cell.val; dsimp only; rw [if_neg (fun e => hk e.1)]⟩

theorem rng_near {rnd : Rat → Rat} (h : Nearest rnd) {x y : Rat} (hxy : RngRel rnd x y) : Near 2 x y ∧ |x| ≤ 512 * 299793 ∧ (x = 0 ∨ 1 / 10 ^ 5 ≤ |x|) := by
  obtain ⟨k, hk, rfl, rfl⟩ := hxy
  have ht := tiny_size
  have hC : Near 1 CRNG_1MS (rnd CRNG_1MS) := h.step (Or.inr (by
    unfold CRNG_1MS; rw [abs_of_pos (by norm_num)]; norm_num at ht ⊢; linarith))
  have ha : |(k : Rat) / 2 ^ 31| ≤ 512 := by
    rw [abs_div, abs_of_pos (by positivity : (0 : Rat) < 2 ^ 31), div_le_iff₀ (by positivity)]
    have : |(k : Rat)| ≤ 2 ^ 40 := by exact_mod_cast hk
    linarith
  have hx : |(k : Rat) / 2 ^ 31 * CRNG_1MS| ≤ 512 * 299793 := by
    rw [abs_mul]
    refine mul_le_mul ha ?_ (abs_nonneg _) (by norm_num)
    unfold CRNG_1MS; norm_num [abs_of_pos]
  by_cases hk0 : k = 0
  · subst hk0
    simp only [Int.cast_zero, zero_div, zero_mul, h.zero]
    refine ⟨(Near.refl 0).weaken (by omega), by norm_num, Or.inl trivial⟩
  · have hlo : 1 / 10 ^ 5 ≤ |(k : Rat) / 2 ^ 31 * CRNG_1MS| := by
      have h1 : (1 : Rat) ≤ |(k : Rat)| := by exact_mod_cast Int.one_le_abs hk0
      rw [abs_mul, abs_div, abs_of_pos (by positivity : (0 : Rat) < 2 ^ 31), abs_of_pos (by unfold CRNG_1MS; norm_num : (0 : Rat) < CRNG_1MS)]
      have h2 : (1 : Rat) / 10 ^ 5 ≤ 1 / 2 ^ 31 * CRNG_1MS := by unfold CRNG_1MS; norm_num
      refine h2.trans (mul_le_mul_of_nonneg_right ?_ (by unfold CRNG_1MS; norm_num))
      exact div_le_div_of_nonneg_right h1 (by positivity)
    have hp : Near 1 ((k : Rat) / 2 ^ 31 * CRNG_1MS) (k / 2 ^ 31 * rnd CRNG_1MS) := by
      have := (Near.refl ((k : Rat) / 2 ^ 31)).mul hC
      simpa using this
    refine ⟨hp.round h (Or.inr ?_), hx, Or.inr hlo⟩
    have := hp.large (by norm_num) hlo
    norm_num at ht this ⊢; linarith

theorem phase_close {rnd : Rat → Rat} (h : Nearest rnd) {x y l l' : Rat} (hxy : RngRel rnd x y) (hl : LamRel l l') :
    |rnd (y / l') - x / l| ≤ 1 / 10 ^ 5 := by
  obtain ⟨h1, h2, h3⟩ := rng_near h hxy
  obtain ⟨l1, l2, l3⟩ := hl
  have ht := tiny_size
  have hq : Near 7 (x / l) (y / l') := h1.div l1
  have hz : y / l' = 0 ∨ (2 : Rat) ^ (-1022 : Int) ≤ |y / l'| := by
    rcases h3 with rfl | h3
    · left; rw [hq.zero_iff]; simp
    · right
      have hb : 1 / 10 ^ 5 ≤ |x / l| := by
        rw [abs_div, abs_of_pos (by linarith : (0 : Rat) < l), le_div_iff₀ (by linarith)]
        refine le_trans ?_ h3
        have : (1 : Rat) / 10 ^ 5 * l ≤ 1 / 10 ^ 5 * 1 := mul_le_mul_of_nonneg_left (by linarith) (by positivity)
        linarith
      have := hq.large (by norm_num) hb
      norm_num at ht this ⊢; linarith
  have hn : Near 8 (x / l) (rnd (y / l')) := hq.round h hz
  refine (hn.bound (by norm_num)).trans ?_
  have hb : |x / l| ≤ 512 * 299793 * 10 := by
    rw [abs_div, abs_of_pos (by linarith : (0 : Rat) < l), div_le_iff₀ (by linarith)]
    refine h2.trans ?_
    have : (512 * 299793 * 10 : Rat) * (1 / 10) ≤ 512 * 299793 * 10 * l := mul_le_mul_of_nonneg_left l2 (by norm_num)
    linarith
  have : 2 * ((8 : Nat) : Rat) * ulp * |x / l| ≤ 2 * ((8 : Nat) : Rat) * ulp * (512 * 299793 * 10) :=
    mul_le_mul_of_nonneg_left hb (by unfold ulp; positivity)
  refine this.trans ?_
  unfold ulp; norm_num

theorem doppler_close {rnd : Rat → Rat} (h : Nearest rnd) {x y l l' : Rat} (hxy : DplRel rnd x y) (hl : LamRel l l') :
    |rnd (-y / l') - -x / l| ≤ 1 / 10 ^ 9 := by
  have hw := (dplRel_within h hxy).2
  have hx : |x| ≤ 8195 := by
    obtain ⟨r, f, hr, hf, rfl, -⟩ := hxy
    have hr' : |(r : Rat)| ≤ 2 ^ 13 := by exact_mod_cast hr
    have hf' : |(f : Rat)| ≤ 2 ^ 14 := by exact_mod_cast hf
    rw [abs_le] at hr' hf' ⊢
    constructor <;> linarith
  obtain ⟨l1, l2, l3⟩ := hl
  have hi : |l⁻¹| ≤ 10 := by
    rw [abs_of_pos (inv_pos.2 (by linarith))]
    rw [inv_le_comm₀ (by linarith) (by norm_num)]
    norm_num at l2 ⊢; linarith
  have hii := l1.inv.bound (by norm_num)
  have hii : |l'⁻¹ - l⁻¹| ≤ 2 / 10 ^ 14 := by
    refine hii.trans ?_
    have : 2 * ((5 : Nat) : Rat) * ulp * |l⁻¹| ≤ 2 * ((5 : Nat) : Rat) * ulp * 10 :=
      mul_le_mul_of_nonneg_left hi (by unfold ulp; positivity)
    refine this.trans ?_
    unfold ulp; norm_num
  have hy : |y| ≤ 8196 := by
    rw [abs_le] at hw hx ⊢; constructor <;> linarith
  have e1 : |-y / l' - -x / l| ≤ 8196 * (2 / 10 ^ 14) + 1 / 10 ^ 12 * 10 := by
    have : -y / l' - -x / l = -(y * (l'⁻¹ - l⁻¹) + (y - x) * l⁻¹) := by
      rw [div_eq_mul_inv, div_eq_mul_inv]; ring
    rw [this, abs_neg]
    refine (abs_add_le _ _).trans (add_le_add ?_ ?_)
    · rw [abs_mul]; exact mul_le_mul hy hii (abs_nonneg _) (by norm_num)
    · rw [abs_mul]; exact mul_le_mul hw hi (abs_nonneg _) (by norm_num)
  have hb : |-y / l'| ≤ 10 ^ 5 := by
    rw [div_eq_mul_inv, abs_mul, abs_neg]
    have : |l'⁻¹| ≤ 11 := by
      rw [abs_le] at hii hi ⊢; constructor <;> linarith
    refine (mul_le_mul hy this (abs_nonneg _) (by norm_num)).trans ?_
    norm_num
  have e2 := h.error_of hb
  have e3 : ulp * 10 ^ 5 + 1 / 10 ^ 30 ≤ 1 / 10 ^ 10 := by unfold ulp; norm_num
  calc |rnd (-y / l') - -x / l| = |(rnd (-y / l') - -y / l') + (-y / l' - -x / l)| := by ring_nf
    _ ≤ _ := abs_add_le _ _
    _ ≤ 1 / 10 ^ 9 := by linarith

theorem lock_close {rnd : Rat → Rat} (h : Nearest rnd) (v : Nat) :
    |rnd (rnd (v : Rat) * rnd (1 / 1000)) - (v : Rat) * (1 / 1000)| ≤ |(v : Rat) * (1 / 1000)| / 10 ^ 15 := by
  have ht := tiny_size
  have hm : Near 1 (1 / 1000) (rnd (1 / 1000)) := h.step (Or.inr (by
    rw [abs_of_pos (by norm_num)]; norm_num at ht ⊢; linarith))
  by_cases hv : v = 0
  · subst hv; simp [h.zero]
  · have h1 : (1 : Rat) ≤ v := by exact_mod_cast Nat.one_le_iff_ne_zero.2 hv
    have hn : Near 1 (v : Rat) (rnd v) := h.step (Or.inr (by rw [abs_of_pos (by linarith)]; norm_num at ht ⊢; linarith))
    have hp : Near 2 ((v : Rat) * (1 / 1000)) (rnd v * rnd (1 / 1000)) := hn.mul hm
    have hlo : 1 / 1000 ≤ |(v : Rat) * (1 / 1000)| := by
      rw [abs_of_pos (by linarith)]; linarith
    have hr : Near 3 ((v : Rat) * (1 / 1000)) (rnd (rnd v * rnd (1 / 1000))) := hp.round h (Or.inr (by
      have := hp.large (by norm_num) hlo
      norm_num at ht this ⊢; linarith))
    refine (hr.bound (by norm_num)).trans ?_
    rw [show |(v : Rat) * (1 / 1000)| / 10 ^ 15 = |(v : Rat) * (1 / 1000)| * (1 / 10 ^ 15) by ring, mul_comm]
    refine mul_le_mul_of_nonneg_left ?_ (abs_nonneg _)
    unfold ulp; norm_num

/-! ## Rows -/

/-- Rows of a file: the second letter of the name tells the kind. -/
def RowRel (fn : Txt) (r r' : Row) : Prop :=
  r.1 = r'.1 ∧ ∀ k : ObsKind, fn[1]? = some k.letter → List.Forall₂ (CellRel k) r.2 r'.2

/-- Buffers. -/
def BufRel (d e : PyDict Txt Row) : Prop := List.Forall₂ (fun x y => x.1 = y.1 ∧ RowRel x.1 x.2 y.2) d e

theorem BufRel.set {d e : PyDict Txt Row} (h : BufRel d e) (fn : Txt) {r r' : Row} (hr : RowRel fn r r') : BufRel (d.set fn r) (e.set fn r') := by
  have hm : d.mem fn = e.mem fn := DRel.mem (R := fun _ _ => True) (List.Forall₂.imp (fun _ _ h => ⟨h.1, trivial⟩) h) fn
  unfold PyDict.set
  rw [hm]
  split
  · unfold BufRel
    rw [List.forall₂_map_left_iff, List.forall₂_map_right_iff]
    refine List.Forall₂.imp ?_ h
    rintro ⟨a1, a2⟩ ⟨b1, b2⟩ ⟨h1, h2⟩
    dsimp only at h1 h2 ⊢
    subst h1
    split
    · rename_i he
      have he : a1 = fn := by simpa using he
      subst he
      exact ⟨rfl, hr⟩
    · exact ⟨rfl, h2⟩
  · exact List.rel_append h (.cons ⟨rfl, hr⟩ .nil)

/-- The second letter of a file name. -/
theorem name_letter (gnss sgn postf : String) (k : ObsKind) (h : makeObsFileName gnss (String.ofList [k.letter]) sgn postf ≠ []) :
    (makeObsFileName gnss (String.ofList [k.letter]) sgn postf)[1]? = some k.letter := by
  unfold makeObsFileName at h ⊢
  by_cases h1 : (!ofileLt1.mem gnss) = true
  · rw [if_pos h1] at h; exact absurd rfl h
  · rw [if_neg h1] at h ⊢
    split at h
    · exact absurd rfl h
    · rename_i h2
      rw [if_neg h2]
      have hg : gnss.toList.length = 1 := by
        have hm : ofileLt1.mem gnss = true := by simpa using h1
        unfold PyDict.mem at hm
        obtain ⟨v, hv⟩ := Option.isSome_iff_exists.1 hm
        have := lookup_mem (show PyDict.get? ofileLt1 gnss = some v from hv)
        have key : ∀ p ∈ ofileLt1, p.1.toList.length = 1 := by decide
        exact key _ this
      obtain ⟨a, ha⟩ := List.length_eq_one_iff.1 hg
      rw [ha]
      simp

theorem columns_rel {T : ObsKind} (n : Nat) {f g : Nat → Py Cell} (h : ∀ s, PyRel (CellRel T) (f s) (g s)) :
    PyRel (List.Forall₂ (CellRel T)) (columns n f) (columns n g) := mapM_rel (fun i => h (i + 1)) _

theorem slotLoop_rel {α β : Type} {R : α → β → Prop} (k : ObsKind) (gnss subset : String) (time : Int) (n : Nat)
    {cell : String → PyDict Nat α → Py (Nat → Py Cell)} {cell' : String → PyDict Nat β → Py (Nat → Py Cell)}
    (hcell : ∀ slot o o', DRel R o o' → PyRel (fun f g => ∀ s, PyRel (CellRel k) (f s) (g s)) (cell slot o) (cell' slot o'))
    {rv rv' : PyDict Txt Row} (hrv : BufRel rv rv') {obs : PyDict String (PyDict Nat α)} {obs' : PyDict String (PyDict Nat β)} (ho : D2 R obs obs') :
    PyRel BufRel (slotLoop gnss (String.ofList [k.letter]) subset time n cell rv obs)
      (slotLoop gnss (String.ofList [k.letter]) subset time n cell' rv' obs') := by
  unfold slotLoop
  refine PyRel.foldlM₂ ?_ ho hrv
  rintro ⟨i1, i2⟩ ⟨j1, j2⟩ s t ⟨hij, hR⟩ hst
  dsimp only at hij hR ⊢
  subst hij
  refine PyRel.ite (fun _ => hst) (fun hne => ?_)
  refine PyRel.bind (hcell i1 i2 j2 hR) (fun f g hfg => PyRel.bind (columns_rel n hfg) (fun v v' hv => ?_))
  refine hst.set _ ⟨rfl, ?_⟩
  intro k' hk'
  rw [name_letter gnss i1 subset k hne] at hk'
  have := letter_inj (Option.some.inj hk')
  rw [← this]
  exact hv

theorem cellPlain_rel {R : Rat → Rat → Prop} (k : ObsKind) (hk : k ≠ .doppler) (hR : ∀ x y, R x y → KindRel k x y) (slot : String) (o o' : PyDict Nat Rat) (h : DRel R o o') :
    PyRel (fun f g => ∀ s, PyRel (CellRel k) (f s) (g s)) (cellPlain slot o) (cellPlain slot o') := by
  intro s
  have := h.get s
  dsimp only
  generalize o.get? s = x at this ⊢
  generalize o'.get? s = y at this ⊢
  cases this with
  | none => exact CellRel.nan
  | some h => exact CellRel.num hk (hR _ _ h)

theorem divide_rel {rnd : Rat → Rat} {T : Rat → Rat → Prop} {x y l l' : Rat} (hl : LamRel l l') (h : T (x / l) (rnd (y / l'))) :
    PyRel T (divide x l) (divideR rnd y l') := by
  have h0 : l ≠ 0 := by have := hl.2.1; intro e; rw [e] at this; norm_num at this
  have h0' : l' ≠ 0 := fun e => h0 (hl.1.zero_iff.1 e)
  unfold divide divideR
  rw [if_neg h0, if_neg h0']
  exact h

theorem cellPhase_rel {rnd : Rat → Rat} (h : Nearest rnd) (c : Controls) (hc : Channels c) (gnss : String) (hca : PyDict String (PyDict Nat Bool))
    (slot : String) (o o' : PyDict Nat Rat) (ho : DRel (RngRel rnd) o o') :
    PyRel (fun f g => ∀ s, PyRel (CellRel .phase) (f s) (g s)) (cellPhase c gnss hca slot o) (cellPhaseR rnd c gnss hca slot o') := by
  unfold cellPhase cellPhaseR
  refine PyRel.bind (makeLambdas_rel h c hc gnss slot) (fun l l' hl => ?_)
  intro s
  have := ho.get s
  dsimp only
  generalize o.get? s = x at this ⊢
  generalize o'.get? s = y at this ⊢
  cases this with
  | none => exact CellRel.nan
  | some hv =>
    refine PyRel.ite (fun _ => ?_) (fun _ => CellRel.nan)
    refine PyRel.bind (lamAt_rel hl s) (fun a b hab => ?_)
    refine PyRel.bind (divide_rel (T := KindRel .phase) hab ?_) (fun p q hpq => CellRel.num (by decide) hpq)
    exact phase_close h hv hab

theorem cellDoppler_rel {rnd : Rat → Rat} (h : Nearest rnd) (c : Controls) (hc : Channels c) (gnss : String)
    (slot : String) (o o' : PyDict Nat Rat) (ho : DRel (DplRel rnd) o o') :
    PyRel (fun f g => ∀ s, PyRel (CellRel .doppler) (f s) (g s)) (cellDoppler c gnss slot o) (cellDopplerR rnd c gnss slot o') := by
  unfold cellDoppler cellDopplerR
  refine PyRel.bind (makeLambdas_rel h c hc gnss slot) (fun l l' hl => ?_)
  intro s
  have := ho.get s
  dsimp only
  generalize o.get? s = x at this ⊢
  generalize o'.get? s = y at this ⊢
  cases this with
  | none => exact CellRel.nan
  | some hv =>
    refine PyRel.bind (lamAt_rel hl s) (fun a b hab => ?_)
    rename_i v v'
    have ha : 0 < a := lt_of_lt_of_le (by norm_num) hab.2.1
    have hb : 0 < b ∧ b ≤ 1 := by
      have h1 := hab.1.bound (by norm_num)
      have h2 := hab.2.2
      have h3 := hab.2.1
      rw [abs_of_pos ha] at h1
      unfold ulp at h1
      rw [abs_le] at h1
      norm_num at h1 h2 h3
      constructor <;> linarith
    refine PyRel.bind (divide_rel (T := fun p q => q = rnd (-v' / b) ∧ p = -v / a ∧ KindRel .doppler p q) hab ⟨rfl, rfl, doppler_close h hv hab⟩)
      (fun p q hpq => ?_)
    obtain ⟨hq, hp, hpq⟩ := hpq
    have hval : ∀ (v a p : Rat), p = -v / a → (if isNegZero v a = true then Cell.negZero else Cell.num p).val = some p := by
      intro v a p hp
      split
      · rename_i hz
        have : v = 0 := by simp [isNegZero] at hz; exact hz.1
        rw [hp, this]; simp [Cell.val]
      · rfl
    have hzero : v' = 0 ↔ q = 0 := by
      constructor
      · intro e; rw [hq, e]; simp [h.zero]
      · intro e
        by_contra hne
        have hsz := (dpl_size h hv).resolve_left hne
        have : 1 / 2 ^ 60 ≤ |-v' / b| := by
          rw [abs_div, abs_neg, abs_of_pos hb.1]
          exact hsz.trans (le_div_self (abs_nonneg _) hb.1 hb.2)
        have ht := tiny_size
        have hn := h.step (x := -v' / b) (Or.inr (by norm_num at ht this ⊢; linarith))
        have hz := hn.zero_iff.1 (by rw [← hq, e])
        rw [hz, abs_zero] at this
        norm_num at this
    have e2 : (if isNegZero v' b = true then Cell.negZero else Cell.num q) = ofVal .doppler (some q) := by
      unfold ofVal isNegZero
      dsimp only
      simp [hb.1, hzero]
    show CellRel .doppler _ _
    refine ⟨?_, ?_⟩
    · rw [hval v a p hp, e2]
      have : (ofVal .doppler (some q)).val = some q := by
        unfold ofVal
        dsimp only
        split
        · rename_i e; rw [e.2]; rfl
        · rfl
      rw [this]
      exact .some hpq
    · rw [e2]
      have : (ofVal .doppler (some q)).val = some q := by
        unfold ofVal
        dsimp only
        split
        · rename_i e; rw [e.2]; rfl
        · rfl
      rw [this]

theorem cellLock_rel {rnd : Rat → Rat} (h : Nearest rnd) (slot : String) (o o' : PyDict Nat Nat) (ho : DRel (fun x y => x = y) o o') :
    PyRel (fun f g => ∀ s, PyRel (CellRel .lock) (f s) (g s)) (cellLock slot o) (cellLockR rnd slot o') := by
  intro s
  have := ho.get s
  dsimp only
  generalize o.get? s = x at this ⊢
  generalize o'.get? s = y at this ⊢
  cases this with
  | none => exact CellRel.nan
  | some hv => subst hv; exact CellRel.num (by decide) (lock_close h _)

theorem kind_refl (k : ObsKind) (x : Rat) : KindRel k x x := by
  unfold KindRel ObsKind.tolerance
  rw [sub_self, abs_zero]
  cases k <;> positivity

theorem cellHca_rel (slot : String) (o o' : PyDict Nat Bool) (ho : DRel (fun x y => x = y) o o') :
    PyRel (fun f g => ∀ s, PyRel (CellRel .half) (f s) (g s)) (cellHca slot o) (cellHca slot o') := by
  intro s
  have := ho.get s
  dsimp only
  generalize o.get? s = x at this ⊢
  generalize o'.get? s = y at this ⊢
  cases this with
  | none => exact CellRel.nan
  | some hv => subst hv; exact CellRel.num (by decide) (kind_refl _ _)

theorem d2_of_eq {α : Type} {t u : PyDict String (PyDict Nat α)} (h : t = u) : D2 (fun x y => x = y) t u := by
  subst h
  exact DRel.refl (fun x => DRel.refl (fun _ => rfl) x) t

theorem printBuffer_rel {rnd : Rat → Rat} (h : Nearest rnd) (c : Controls) (hc : Channels c) {p p' : ObservablesMSM} (hp : ObjRel rnd p p') :
    PyRel BufRel (printBuffer c p) (printBufferR rnd c p') := by
  unfold printBuffer printBufferR
  dsimp only
  rw [hp.atr, hp.time, hp.day, ← hp.obs.hca]
  refine PyRel.ite (fun _ => rfl) (fun _ => PyRel.same (fun n _ => ?_))
  refine PyRel.bind (slotLoop_rel .range _ _ _ n (cellPlain_rel .range (by decide) (fun x y hxy => (rngRel_within h hxy).2)) .nil hp.obs.rng) (fun b b' hb => ?_)
  refine PyRel.bind (slotLoop_rel .phase _ _ _ n (cellPhase_rel h c hc _ _) hb hp.obs.phs) (fun b b' hb => ?_)
  refine PyRel.bind (slotLoop_rel .doppler _ _ _ n (cellDoppler_rel h c hc _) hb hp.obs.dpl) (fun b b' hb => ?_)
  refine PyRel.bind (slotLoop_rel .cnr _ _ _ n (cellPlain_rel .cnr (by decide) (fun x y hxy => by subst hxy; exact kind_refl _ _)) hb (d2_of_eq hp.obs.c2n)) (fun b b' hb => ?_)
  have last : ∀ (time : Int) d d', BufRel d d' → PyRel BufRel
      (if c.half_cycle_enable = true then slotLoop p.atr.gnss "A" p.atr.subset time n cellHca d p.obs.hca else pure d)
      (if c.half_cycle_enable = true then slotLoop p.atr.gnss "A" p.atr.subset time n cellHca d' p.obs.hca else pure d') :=
    fun time d d' hd => PyRel.ite (fun _ => slotLoop_rel .half _ _ _ n cellHca_rel hd (d2_of_eq rfl)) (fun _ => hd)
  exact PyRel.ite (fun _ => PyRel.bind (slotLoop_rel .lock _ _ _ n (cellLock_rel h) hb (d2_of_eq hp.obs.ltm)) (last _)) (fun _ => last _ _ _ hb)

end Margo
end Verif
