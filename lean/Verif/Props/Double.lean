import Verif.Lemmas.DoubleConv
import Verif.Props.MsmScaled

/-!
# C66: scaled observables in double precision
-/

namespace Verif
open Spec Bits Msm RtcmUtil

/-! ## Values -/

theorem tiny : (1 : Rat) / 2 ^ 1000 ≤ 1 / 10 ^ 30 := by
  rw [one_div_le_one_div (by positivity) (by positivity)]
  calc (10 : Rat) ^ 30 ≤ 2 ^ 100 := by norm_num
    _ ≤ 2 ^ 1000 := pow_le_pow_right₀ (by norm_num) (by norm_num)

theorem Spec.Nearest.error_of {rnd : Rat → Rat} (h : Nearest rnd) {x b : Rat} (hx : |x| ≤ b) : |rnd x - x| ≤ ulp * b + 1 / 10 ^ 30 :=
  (h.error_le hx).trans (by have := tiny; linarith)

theorem rngRel_within {rnd : Rat → Rat} (h : Nearest rnd) {x y : Rat} (hxy : RngRel rnd x y) : Within (1 / 10 ^ 7) x y := by
  obtain ⟨k, hk, rfl, rfl⟩ := hxy
  refine ⟨h.double _, ?_⟩
  have ha : |(k : Rat) / 2 ^ 31| ≤ 512 := by
    rw [abs_div, abs_of_pos (by positivity : (0 : Rat) < 2 ^ 31), div_le_iff₀ (by positivity)]
    have : |(k : Rat)| ≤ 2 ^ 40 := by exact_mod_cast hk
    linarith
  generalize (k : Rat) / 2 ^ 31 = a at ha ⊢
  have hC : |CRNG_1MS| ≤ 299793 := by unfold CRNG_1MS; norm_num [abs_of_pos]
  have e1 := h.error_of hC
  have hu : ulp * 299793 + 1 / 10 ^ 30 ≤ 1 / 10 ^ 10 := by unfold ulp; norm_num
  have e1 : |rnd CRNG_1MS - CRNG_1MS| ≤ 1 / 10 ^ 10 := e1.trans hu
  have e2 : |a * rnd CRNG_1MS - a * CRNG_1MS| ≤ 512 * (ulp * 299793 + 1 / 10 ^ 30) := by
    rw [← mul_sub, abs_mul]
    exact mul_le_mul ha (h.error_of hC) (abs_nonneg _) (by norm_num)
  have hz : |a * rnd CRNG_1MS| ≤ 512 * 299794 := by
    rw [abs_mul]
    refine mul_le_mul ha ?_ (abs_nonneg _) (by norm_num)
    rw [abs_le] at e1 hC ⊢
    constructor <;> linarith
  have e3 := h.error_of hz
  have : ulp * (512 * 299794) + 1 / 10 ^ 30 + 512 * (ulp * 299793 + 1 / 10 ^ 30) ≤ 1 / 10 ^ 7 := by unfold ulp; norm_num
  calc |rnd (a * rnd CRNG_1MS) - a * CRNG_1MS|
      = |(rnd (a * rnd CRNG_1MS) - a * rnd CRNG_1MS) + (a * rnd CRNG_1MS - a * CRNG_1MS)| := by ring_nf
    _ ≤ _ := abs_add_le _ _
    _ ≤ 1 / 10 ^ 7 := by linarith

theorem dplRel_within {rnd : Rat → Rat} (h : Nearest rnd) {x y : Rat} (hxy : DplRel rnd x y) : Within (1 / 10 ^ 12) x y := by
  obtain ⟨r, f, hr, hf, rfl, rfl⟩ := hxy
  refine ⟨h.double _, ?_⟩
  have hr' : |(r : Rat)| ≤ 8192 := by
    have : |(r : Rat)| ≤ 2 ^ 13 := by exact_mod_cast hr
    linarith
  have hf' : |(f : Rat)| ≤ 16384 := by
    have : |(f : Rat)| ≤ 2 ^ 14 := by exact_mod_cast hf
    linarith
  generalize (r : Rat) = r at hr' ⊢
  generalize (f : Rat) = f at hf' ⊢
  have e1 : |rnd (1 / 10000) - 1 / 10000| ≤ ulp * (1 / 10000) + 1 / 10 ^ 30 := h.error_of (by norm_num [abs_of_pos])
  have e2 : |f * rnd (1 / 10000) - f * (1 / 10000)| ≤ 16384 * (ulp * (1 / 10000) + 1 / 10 ^ 30) := by
    rw [← mul_sub, abs_mul]
    exact mul_le_mul hf' e1 (abs_nonneg _) (by norm_num)
  have h1 : |f * (1 / 10000)| ≤ 16384 / 10000 := by
    rw [abs_mul, abs_of_pos (by norm_num : (0 : Rat) < 1 / 10000)]; linarith
  have b1 : 16384 * (ulp * (1 / 10000) + 1 / 10 ^ 30) ≤ 1 / 10 ^ 15 := by unfold ulp; norm_num
  have h2 : |f * rnd (1 / 10000)| ≤ 2 := by
    rw [abs_le] at e2 h1 ⊢; constructor <;> linarith
  have e3 := h.error_of h2
  have b2 : ulp * 2 + 1 / 10 ^ 30 ≤ 1 / 10 ^ 15 := by unfold ulp; norm_num
  have h3 : |r + rnd (f * rnd (1 / 10000))| ≤ 8195 := by
    rw [abs_le] at hr' e3 h2 ⊢; constructor <;> linarith
  have e4 := h.error_of h3
  have b3 : ulp * 8195 + 1 / 10 ^ 30 ≤ 95 / 10 ^ 14 := by unfold ulp; norm_num
  rw [abs_le] at e2 e3 e4 ⊢
  constructor <;> linarith

/-- Different ranges differ by at least the resolution. -/
theorem rngRel_gap {rnd : Rat → Rat} {x y x' y' : Rat} (h : RngRel rnd x y) (h' : RngRel rnd x' y') (hx : x < x') :
    x + 1 / 10 ^ 4 ≤ x' := by
  obtain ⟨k, -, rfl, -⟩ := h
  obtain ⟨k', -, rfl, -⟩ := h'
  have hC : (0 : Rat) < CRNG_1MS := by unfold CRNG_1MS; norm_num
  have h1 : (k : Rat) / 2 ^ 31 < k' / 2 ^ 31 := lt_of_mul_lt_mul_right hx hC.le
  rw [div_lt_div_iff_of_pos_right (by positivity)] at h1
  have h2 : k + 1 ≤ k' := by exact_mod_cast h1
  have h3 : (k : Rat) + 1 ≤ k' := by exact_mod_cast h2
  have h4 : ((k : Rat) + 1) / 2 ^ 31 * CRNG_1MS ≤ k' / 2 ^ 31 * CRNG_1MS :=
    mul_le_mul_of_nonneg_right (div_le_div_of_nonneg_right h3 (by positivity)) hC.le
  have h5 : ((k : Rat) + 1) / 2 ^ 31 * CRNG_1MS = k / 2 ^ 31 * CRNG_1MS + CRNG_1MS / 2 ^ 31 := by ring
  have h6 : (1 : Rat) / 10 ^ 4 ≤ CRNG_1MS / 2 ^ 31 := by unfold CRNG_1MS; norm_num
  linarith

theorem dplRel_gap {rnd : Rat → Rat} {x y x' y' : Rat} (h : DplRel rnd x y) (h' : DplRel rnd x' y') (hx : x < x') :
    x + 1 / 10 ^ 4 ≤ x' := by
  obtain ⟨r, f, -, -, rfl, -⟩ := h
  obtain ⟨r', f', -, -, rfl, -⟩ := h'
  have h1 : ((r * 10000 + f : Int) : Rat) < (r' * 10000 + f' : Int) := by push_cast; linarith
  have h2 : r * 10000 + f + 1 ≤ r' * 10000 + f' := by exact_mod_cast h1
  have h3 : (r : Rat) * 10000 + f + 1 ≤ r' * 10000 + f' := by exact_mod_cast h2
  linarith

/-! ## Tables -/

theorem get2_rel {α β : Type} {R : α → β → Prop} {t : PyDict String (PyDict Nat α)} {u : PyDict String (PyDict Nat β)} (h : D2 R t u)
    (n : String) (s : Nat) : Option.Rel R (get2 t n s) (get2 u n s) := by
  unfold get2
  have := DRel.get h n
  generalize t.get? n = x at this ⊢
  generalize u.get? n = y at this ⊢
  cases this with
  | none => exact .none
  | some hr => exact hr.get s

theorem sameCells_rel {α β : Type} {R : α → β → Prop} {t : PyDict String (PyDict Nat α)} {u : PyDict String (PyDict Nat β)} (h : D2 R t u) :
    SameCells t u := by
  unfold SameCells
  induction h with
  | nil => rfl
  | cons hab _ ih => rw [List.map_cons, List.map_cons, ih, hab.1, DRel.keys hab.2]

theorem optRel_imp {α β : Type} {R S : α → β → Prop} {a : Option α} {b : Option β} (h : Option.Rel R a b) (hRS : ∀ x y, R x y → S x y) :
    Option.Rel S a b := by
  cases h with
  | none => exact .none
  | some h => exact .some (hRS _ _ h)

/-! ## C66 -/

theorem inDoubles_of {rnd : Rat → Rat} (h : Nearest rnd) {r r' : ObservablesMSM} (hr : ObjRel rnd r r') : InDoubles r r' := by
  refine ⟨hr.atr, hr.aux, ?_, hr.signals.keys.symm, ?_, sameCells_rel hr.obs.rng, ?_, sameCells_rel hr.obs.phs, ?_, sameCells_rel hr.obs.dpl, ?_,
    hr.obs.c2n.symm, hr.obs.ltm.symm, hr.obs.hca.symm⟩
  · have h1 := hr.time
    have h2 := hr.day
    have h3 := hr.sats
    cases e : r.hdr
    cases e' : r'.hdr
    rw [e, e'] at h1 h2 h3
    dsimp only at h1 h2 h3 ⊢
    rw [h1, h2, h3]
  · intro n
    refine optRel_imp (hr.signals.get n) ?_
    rintro x y ⟨hx, rfl⟩
    refine ⟨h.double x, (h.error_of hx).trans ?_⟩
    unfold ulp; norm_num
  · intro n s; exact optRel_imp (get2_rel hr.obs.rng n s) (fun x y => rngRel_within h)
  · intro n s; exact optRel_imp (get2_rel hr.obs.phs n s) (fun x y => rngRel_within h)
  · intro n s; exact optRel_imp (get2_rel hr.obs.dpl n s) (fun x y => dplRel_within h)

/-- **C66** For every byte string, whatever the rounding to nearest: scaled decoding in double precision yields an object exactly if
decoding with exact numbers does. The object has the same satellites and signals, the same lock times, half-cycle flags and carrier to
noise ratios; ranges are within 0.1 µm and rates within 1e-12 m/s of the exact values. -/
theorem C66_double {rnd : Rat → Rat} (h : Nearest rnd) (buf : Bytes) :
    (decodeMsm17R rnd false buf = none ↔ decodeMsm17 false buf = none) ∧
    ∀ r', decodeMsm17R rnd false buf = some (.inr r') → ∃ r, decodeMsm17 false buf = some (.inr r) ∧ InDoubles r r' := by
  have key := decodeMsm17_rel h false buf
  generalize decodeMsm17 false buf = x at key ⊢
  generalize decodeMsm17R rnd false buf = y at key ⊢
  cases key with
  | none => exact ⟨by simp, by simp⟩
  | some hs =>
    refine ⟨by simp, ?_⟩
    rintro r' hr'
    cases hr'
    rename_i a
    cases a with
    | inl b => exact hs.elim
    | inr r => exact ⟨r, rfl, inDoubles_of h hs⟩

/-- **C66** The same against the content of a message MSM4 … MSM7: for each satellite and signal of the message the value in double
precision is present if and only if the content has the value, and is near it. -/
theorem C66_content {rnd : Rat → Rat} (h : Nearest rnd) (d : MsmData) (hw : d.WF) (hk : 4 ≤ d.k) (hs : d.SignalsKnown) (buf : Bytes)
    (hv : ValidFrame buf) (hc : d.CarriedBy buf) : ∃ r', decodeMsm17R rnd false buf = some (.inr r') ∧ r'.hdr.sats = d.satList ∧
      ∀ s ∈ d.satList, ∀ t ∈ d.sigList, ∀ n, d.sigName t = some n →
        Option.Rel (Within (1 / 10 ^ 7)) (d.rngVal s t) (get2 r'.obs.rng n s) ∧
        Option.Rel (Within (1 / 10 ^ 7)) (d.phsVal s t) (get2 r'.obs.phs n s) ∧
        Option.Rel (Within (1 / 10 ^ 12)) (d.dplVal s t) (get2 r'.obs.dpl n s) ∧
        get2 r'.obs.c2n n s = d.c2nVal s t ∧ get2 r'.obs.ltm n s = d.ltmVal s t ∧ get2 r'.obs.hca n s = d.hcaVal s t := by
  have he := C24_scaled d hw hk hs buf hv hc
  obtain ⟨h1, h2⟩ := C66_double h buf
  cases hr : decodeMsm17R rnd false buf with
  | none => rw [h1.1 hr] at he; cases he
  | some x =>
    have key := decodeMsm17_rel h false buf
    rw [hr, he] at key
    cases key with
    | some hx =>
      cases x with
      | inl b => exact hx.elim
      | inr r' =>
        have hI := inDoubles_of h hx
        refine ⟨r', rfl, ?_, ?_⟩
        · exact congrArg ObsHdr.sats hI.hdr
        · intro s hs t ht n hn
          have a := hI.rng n s
          have b := hI.phs n s
          have c := hI.dpl n s
          rw [show get2 d.scaledObj.obs.rng n s = d.rngVal s t from get2_table_at d _ ht hs hn] at a
          rw [show get2 d.scaledObj.obs.phs n s = d.phsVal s t from get2_table_at d _ ht hs hn] at b
          rw [show get2 d.scaledObj.obs.dpl n s = d.dplVal s t from get2_table_at d _ ht hs hn] at c
          refine ⟨a, b, c, ?_, ?_, ?_⟩
          · rw [hI.c2n]; exact get2_table_at d _ ht hs hn
          · rw [hI.ltm]; exact get2_table_at d _ ht hs hn
          · rw [hI.hca]; exact get2_table_at d _ ht hs hn

/-- Values `y`, `y'` in doubles keep the order of the exact values `x`, `x'`. -/
def Ordered (x y x' y' : Option Rat) : Prop :=
  ∀ a b a' b', x = some a → y = some b → x' = some a' → y' = some b' → a < a' → b < b'

/-- Equal exact values are equal in doubles. -/
def Functional (x y x' y' : Option Rat) : Prop :=
  ∀ a b a' b', x = some a → y = some b → x' = some a' → y' = some b' → a = a' → b = b'

/-- **C66** No information is lost: values from any two messages that differ still differ in double precision, in the same order. Equal
ranges are equal in double precision; equal rates need not be, as rough and fine rate may be split in two ways. -/
theorem C66_lossless {rnd : Rat → Rat} (h : Nearest rnd) (buf buf' : Bytes) (r r' q q' : ObservablesMSM)
    (hr : decodeMsm17 false buf = some (.inr r)) (hr' : decodeMsm17R rnd false buf = some (.inr r'))
    (hq : decodeMsm17 false buf' = some (.inr q)) (hq' : decodeMsm17R rnd false buf' = some (.inr q')) (n m : String) (s t : Nat) :
    Ordered (get2 r.obs.rng n s) (get2 r'.obs.rng n s) (get2 q.obs.rng m t) (get2 q'.obs.rng m t) ∧
    Ordered (get2 r.obs.phs n s) (get2 r'.obs.phs n s) (get2 q.obs.phs m t) (get2 q'.obs.phs m t) ∧
    Ordered (get2 r.obs.dpl n s) (get2 r'.obs.dpl n s) (get2 q.obs.dpl m t) (get2 q'.obs.dpl m t) ∧
    Functional (get2 r.obs.rng n s) (get2 r'.obs.rng n s) (get2 q.obs.rng m t) (get2 q'.obs.rng m t) ∧
    Functional (get2 r.obs.phs n s) (get2 r'.obs.phs n s) (get2 q.obs.phs m t) (get2 q'.obs.phs m t) := by
  have key : ∀ {buf : Bytes} {r r' : ObservablesMSM}, decodeMsm17 false buf = some (.inr r) → decodeMsm17R rnd false buf = some (.inr r') →
      ObjRel rnd r r' := by
    intro buf r r' h1 h2
    have := decodeMsm17_rel h false buf
    rw [h1, h2] at this
    cases this with
    | some hx => exact hx
  have k1 := (key hr hr').obs
  have k2 := (key hq hq').obs
  have at_ : ∀ {R : Rat → Rat → Prop} {T U T' U' : PyDict String (PyDict Nat Rat)} {b : Rat}, D2 R T U → D2 R T' U' → b < 1 / 10 ^ 5 →
      (∀ x y, R x y → Within b x y) → (∀ x y x' y', R x y → R x' y' → x < x' → x + 1 / 10 ^ 4 ≤ x') →
      Ordered (get2 T n s) (get2 U n s) (get2 T' m t) (get2 U' m t) := by
    intro R T U T' U' c h1 h2 hc hw hg a b a' b' e1 e2 e3 e4
    have p1 := get2_rel h1 n s
    have p2 := get2_rel h2 m t
    rw [e1, e2] at p1
    rw [e3, e4] at p2
    cases p1 with
    | some p1 =>
      cases p2 with
      | some p2 =>
        have w1 := (hw _ _ p1).2
        have w2 := (hw _ _ p2).2
        rw [abs_le] at w1 w2
        have hc' : c < 1 / 10 ^ 5 := hc
        intro hlt
        have := hg _ _ _ _ p1 p2 hlt
        norm_num at this hc'
        linarith
  have fn : ∀ {T U T' U' : PyDict String (PyDict Nat Rat)}, D2 (RngRel rnd) T U → D2 (RngRel rnd) T' U' →
      Functional (get2 T n s) (get2 U n s) (get2 T' m t) (get2 U' m t) := by
    intro T U T' U' h1 h2 a b a' b' e1 e2 e3 e4 e
    have p1 := get2_rel h1 n s
    have p2 := get2_rel h2 m t
    rw [e1, e2] at p1
    rw [e3, e4] at p2
    cases p1 with
    | some p1 =>
      cases p2 with
      | some p2 =>
        obtain ⟨k, -, ha, hb⟩ := p1
        obtain ⟨k', -, ha', hb'⟩ := p2
        have hC : CRNG_1MS ≠ 0 := by unfold CRNG_1MS; norm_num
        rw [ha, ha'] at e
        have e := mul_right_cancel₀ hC e
        rw [hb, hb', e]
  exact ⟨at_ k1.rng k2.rng (by norm_num) (fun x y => rngRel_within h) (fun x y x' y' => rngRel_gap),
    at_ k1.phs k2.phs (by norm_num) (fun x y => rngRel_within h) (fun x y x' y' => rngRel_gap),
    at_ k1.dpl k2.dpl (by norm_num) (fun x y => dplRel_within h) (fun x y x' y' => dplRel_gap), fn k1.rng k2.rng, fn k1.phs k2.phs⟩

/-- The IEEE rounding is a rounding to nearest, so that the theorems apply to it. -/
example (buf : Bytes) := C66_double ieee_nearest buf

/-- The literal 0.0001 and the speed of light per millisecond are not doubles: rounding has an effect. -/
example : ieee (1 / 10000) = 7378697629483821 / 2 ^ 66 ∧ ieee CRNG_1MS = 2575197605394907 / 2 ^ 33 := by
  decide +kernel

/-- Satellite 11 of `exMsm5`: 8191 + 16383 · 0.0001 m/s in double precision is 8192.6383 as Python prints it, not the exact value. -/
example : exMsm5.dplVal 11 2 = some (8191 + 16383 / 10000) ∧
    ieee (ieee 8191 + ieee (ieee 16383 * ieee (1 / 10000))) = 4503950536506501 / 2 ^ 39 ∧
    (4503950536506501 / 2 ^ 39 : Rat) ≠ 8191 + 16383 / 10000 := by
  decide +kernel

/-- The hypotheses of `C66_content` are met by the frame that encodes `exMsm5`. -/
example : ∃ r', decodeMsm17R ieee false exMsm5.toFrame = some (.inr r') ∧ r'.hdr.sats = [3, 11] := by
  have hw : exMsm5.WF := by decide +kernel
  have hr : exMsm5.InRange := by unfold MsmData.InRange; decide +kernel
  obtain ⟨r', h1, h2, -⟩ := C66_content ieee_nearest exMsm5 hw (by decide) (by decide +kernel) _ (msm_frame hw hr).1 (msm_frame hw hr).2
  exact ⟨r', h1, h2.trans (by decide +kernel)⟩

end Verif
