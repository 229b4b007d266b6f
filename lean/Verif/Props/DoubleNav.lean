import Verif.Lemmas.Double
import Verif.Model.BaseDouble
import Verif.Model.EphDouble
import Verif.Props.Base
import Verif.Spec.NavDouble

/-!
# C68: base station data and ephemerides in double precision
-/

namespace Verif
open Spec Bits

namespace Nav

theorem tiny : (2 : Rat) ^ (-1022 : Int) ≤ 1 / 10 ^ 11 := by
  calc (2 : Rat) ^ (-1022 : Int) ≤ 2 ^ (-40 : Int) := zpow_le_zpow_right₀ (by norm_num) (by norm_num)
    _ ≤ _ := by norm_num

theorem tiny' : (1 : Rat) / 2 ^ 1000 ≤ 1 / 1024 := by
  rw [one_div, one_div]
  apply inv_anti₀ (by norm_num)
  calc (1024 : Rat) = 2 ^ 10 := by norm_num
    _ ≤ 2 ^ 1000 := pow_le_pow_right₀ (by norm_num) (by norm_num)

/-- A product of an integer and a literal in double precision. -/
theorem prod_near {rnd : Rat → Rat} (h : Nearest rnd) (n : Int) (hn : |n| ≤ 2 ^ 40) (L : Rat) (hL : 1 / 10 ^ 10 ≤ L) :
    Near 2 (n * L) (rnd (rnd n * rnd L)) := by
  have hs : (2 : Rat) ^ (-1022 : Int) ≤ 1 / 10 ^ 11 := tiny
  have h0 : (0 : Rat) < L := lt_of_lt_of_le (by norm_num) hL
  have e1 : rnd n = n := h.exact (double_int n (le_trans hn (by norm_num)))
  have e2 : Near 1 L (rnd L) := h.step (Or.inr (by rw [abs_of_pos h0]; exact le_trans hs (le_trans (by norm_num) hL)))
  rw [e1]
  have e3 : Near 1 (n * L) (n * rnd L) := by simpa using (Near.refl (n : Rat)).mul e2
  refine e3.round h ?_
  by_cases hz : n = 0
  · left; simp [hz]
  · right
    have hb := e3.large (by norm_num) (b := 1 / 10 ^ 10) (by
      rw [abs_mul, abs_of_pos h0]
      have : (1 : Rat) ≤ |(n : Rat)| := by exact_mod_cast Int.one_le_abs hz
      calc 1 / 10 ^ 10 ≤ 1 * L := by rw [one_mul]; exact hL
        _ ≤ _ := mul_le_mul_of_nonneg_right this h0.le)
    exact le_trans hs (le_trans (by norm_num) hb)

theorem prod_within {rnd : Rat → Rat} (h : Nearest rnd) (n : Int) (hn : |n| ≤ 2 ^ 40) (L : Rat) (hL : 1 / 10 ^ 10 ≤ L) :
    |rnd (rnd n * rnd L) - n * L| ≤ 4 * ulp * |(n : Rat)| * L := by
  have := (prod_near h n hn L hL).bound (by norm_num)
  have h0 : (0 : Rat) < L := lt_of_lt_of_le (by norm_num) hL
  rw [abs_mul, abs_of_pos h0] at this
  calc _ ≤ _ := this
    _ = _ := by push_cast; ring

/-- The integer is recovered by rounding to a multiple of the unit. -/
theorem prod_snap {rnd : Rat → Rat} (h : Nearest rnd) (n : Int) (hn : |n| ≤ 2 ^ 40) (L : Rat) (hL : 1 / 10 ^ 10 ≤ L) :
    snapTo L (rnd (rnd n * rnd L)) = n * L := by
  have h0 : (0 : Rat) < L := lt_of_lt_of_le (by norm_num) hL
  unfold snapTo
  congr 2
  have hw := prod_within h n hn L hL
  generalize rnd (rnd n * rnd L) = y at hw ⊢
  have hn' : |(n : Rat)| ≤ 2 ^ 40 := by exact_mod_cast hn
  have hy : |y / L - n| < 1 / 2 := by
    have : y / L - n = (y - n * L) / L := by field_simp
    rw [this, abs_div, abs_of_pos h0, div_lt_iff₀ h0]
    calc _ ≤ _ := hw
      _ ≤ 4 * ulp * 2 ^ 40 * L := by
        apply mul_le_mul_of_nonneg_right _ h0.le
        exact mul_le_mul_of_nonneg_left hn' (by unfold ulp; norm_num)
      _ < _ := by
        apply mul_lt_mul_of_pos_right _ h0
        unfold ulp; norm_num
  rw [round_eq, Int.floor_eq_iff]
  rw [abs_lt] at hy
  constructor <;> linarith [hy.1, hy.2]

/-- Values that fit into fields of at most `W` bits. -/
theorem fits_small {W : Nat} : ∀ {L : List Spec.Field} {vs : List Int}, (∀ f ∈ L, f.width ≤ W) → FitsAll L vs → ∀ v ∈ vs, |v| ≤ 2 ^ W
  | [], vs, _, h => by
    cases h
    intro v hv
    cases hv
  | f :: L, vs, hw, h => by
    unfold FitsAll at h
    split at h
    · exact fits_small (fun g hg => hw g (by simp [hg])) h
    · obtain ⟨v, vs', rfl, h1, h2⟩ := h
      intro x hx
      rcases List.mem_cons.1 hx with rfl | hx
      · have hf := hw f (by simp)
        obtain ⟨k, w⟩ := f
        simp only at hf
        have p1 : (2 : Int) ^ w ≤ 2 ^ W := by exact_mod_cast Nat.pow_le_pow_right (by omega) hf
        have p2 : (2 : Int) ^ (w - 1) ≤ 2 ^ W := by exact_mod_cast Nat.pow_le_pow_right (by omega) (by omega)
        rw [abs_le]
        cases k <;> simp only [Field.Fits] at h1
        · constructor <;> omega
        · constructor <;> omega
        · constructor <;> omega
      · exact fits_small (fun g hg => hw g (by simp [hg])) h2 x hx

theorem encodes_fits : ∀ {L : List Spec.Field} {vs : List Int} {bits : List Bool}, Encodes L vs bits → FitsAll L vs
  | [], _, _, h => h.1
  | f :: L, vs, bits, h => by
    unfold Encodes at h
    unfold FitsAll
    split at h
    · rename_i hk
      obtain ⟨p, rest, -, -, h⟩ := h
      rw [if_pos hk]
      exact encodes_fits h
    · rename_i hk
      obtain ⟨v, vs', rest, h1, h2, -, h3⟩ := h
      rw [if_neg hk]
      exact ⟨v, vs', h1, h2, encodes_fits h3⟩

/-! ### The number of announcements -/

theorem count_eq {rnd : Rat → Rat} (h : Nearest rnd) (len : Nat) (h1 : 9 ≤ len) (h2 : len < 2 ^ 40) :
    Base.countR rnd len = ((8 * len - 70) / 29 : Nat) := by
  unfold Base.countR
  obtain ⟨n, hn⟩ : ∃ n, n = 8 * len - 70 := ⟨_, rfl⟩
  have e : (8 * (len : Int) - 70 : Int) = (n : Int) := by omega
  rw [e, ← hn]
  have hn2 : n < 2 ^ 43 := by omega
  clear hn e
  obtain ⟨q, hq⟩ : ∃ q, q = n / 29 := ⟨_, rfl⟩
  have a1 : 29 * q ≤ n := by omega
  have a2 : n + 1 ≤ 29 * (q + 1) := by omega
  rw [← hq]
  clear hq
  have b1 : (29 : Rat) * q ≤ n := by exact_mod_cast a1
  have b2 : (n : Rat) + 1 ≤ 29 * (q + 1) := by exact_mod_cast a2
  have b3 : (n : Rat) ≤ 2 ^ 43 := by exact_mod_cast hn2.le
  have b0 : (0 : Rat) ≤ n := by positivity
  rw [Int.floor_eq_iff]
  constructor
  · have hd : Double ((q : Int) : Rat) := double_int q (by rw [abs_of_nonneg (by positivity)]; omega)
    have := h.mono (x := ((q : Int) : Rat)) (y := (((n : Int)) : Rat) / 29) (by
      rw [le_div_iff₀ (by norm_num)]
      push_cast
      linarith)
    rw [h.exact hd] at this
    exact_mod_cast this
  · have := h.error_le (x := (((n : Int)) : Rat) / 29) (b := 2 ^ 43) (by
      push_cast
      rw [abs_of_nonneg (by positivity), div_le_iff₀ (by norm_num)]
      linarith)
    rw [abs_le] at this
    have c : ulp * 2 ^ 43 + 1 / 2 ^ 1000 < (1 : Rat) / 29 := by
      have := tiny'
      have : ulp * 2 ^ 43 = (1 : Rat) / 1024 := by unfold ulp; norm_num
      linarith
    generalize (1 : Rat) / 2 ^ 1000 = z at this c
    have d : (((n : Int)) : Rat) / 29 ≤ q + 1 - 1 / 29 := by
      rw [div_le_iff₀ (by norm_num)]
      push_cast
      linarith
    push_cast at this d ⊢
    linarith [this.2]

theorem bind_same {α β : Type} {x : Py α} {f g : α → Py β} (h : ∀ a, x = .ok a → f a = g a) : (x >>= f) = (x >>= g) := by
  cases x with
  | error e => rfl
  | ok a => exact h a rfl

theorem decode1013_eq {rnd : Rat → Rat} (h : Nearest rnd) (buf : Bytes) (hl : buf.length < 2 ^ 40) : Base.decode1013R rnd buf = Base.decode1013 buf := by
  unfold Base.decode1013R Base.decode1013
  refine bind_same fun msgNum _ => ?_
  refine bind_same fun bsID _ => ?_
  refine bind_same fun mjd _ => ?_
  refine bind_same fun sec _ => ?_
  refine bind_same fun nm _ => ?_
  refine bind_same fun leap hleap => ?_
  have hlen : 12 ≤ buf.length := by
    rw [gbu_eq] at hleap
    split at hleap
    · omega
    · cases hleap
  dsimp only
  rw [count_eq h _ (by omega) hl]
  have e : (if nm ≠ 0 then (nm : Int) else (((8 * buf.length - 70) / 29 : Nat) : Int)) =
      ((if nm ≠ 0 then nm else (8 * buf.length - 70) / 29 : Nat) : Int) := by split <;> rfl
  rw [e]
  generalize (if nm ≠ 0 then nm else (8 * buf.length - 70) / 29 : Nat) = N
  rw [Int.toNat_natCast]
  refine bind_same fun so _ => ?_
  obtain ⟨sh, o⟩ := so
  dsimp only
  unfold Base.lengthCheck
  by_cases ho : o - 24 = 70 + 29 * N
  · rw [if_neg (by omega), ho, if_neg (fun h => h rfl)]
  · rw [if_pos (by omega), if_pos ho]
    rfl

/-! ### Objects -/

/-- All transmitted integers of a quantity are small. -/
def SmallBase : Base.BareObj → Prop
  | .rp o => |o.refPoint_X| ≤ 2 ^ 38 ∧ |o.refPoint_Y| ≤ 2 ^ 38 ∧ |o.refPoint_Z| ≤ 2 ^ 38
  | .rph o => |o.rp.refPoint_X| ≤ 2 ^ 38 ∧ |o.rp.refPoint_Y| ≤ 2 ^ 38 ∧ |o.rp.refPoint_Z| ≤ 2 ^ 38 ∧ |o.height| ≤ 2 ^ 38
  | .sp o => ∀ kv ∈ o.shedule, |kv.2.2| ≤ 2 ^ 17
  | .glbs o => ∀ kv ∈ o.correction, |kv.2| ≤ 2 ^ 17
  | _ => True

theorem width_1013 (id mjd sec leap : Int) (ann : List (Int × Int × Int)) : ∀ f ∈ (BaseMsg.m1013 id mjd sec leap ann).layout, f.width ≤ 17 := by
  intro f hf
  rcases List.mem_append.1 hf with hf | hf
  · exact (by decide : ∀ f ∈ ([U 12, U 12, U 16, U 17, U 5, U 8] : List Spec.Field), f.width ≤ 17) f hf
  · obtain ⟨a, -, hf⟩ := List.mem_flatMap.1 hf
    exact (by decide : ∀ f ∈ ([U 12, U 1, U 16] : List Spec.Field), f.width ≤ 17) f hf

theorem width_1230 (id al : Int) (a b c d : Option Int) : ∀ f ∈ (BaseMsg.m1230 id al a b c d).layout, f.width ≤ 17 := by
  have hb : ∀ b : Option Int, ∀ f ∈ biasLayout b, f.width ≤ 17 := by
    intro b f hf
    cases b with
    | none => cases hf
    | some x =>
      simp only [biasLayout, List.mem_singleton] at hf
      subst hf
      decide
  have happ : ∀ {a b : List Spec.Field}, (∀ f ∈ a, f.width ≤ 17) → (∀ f ∈ b, f.width ≤ 17) → ∀ f ∈ a ++ b, f.width ≤ 17 := by
    intro a b ha hb f hf
    rcases List.mem_append.1 hf with hf | hf
    · exact ha f hf
    · exact hb f hf
  exact happ (happ (happ (happ (by decide) (hb _)) (hb _)) (hb _)) (hb _)

theorem dict_set_mem {α : Type} {P : α → Prop} {d : PyDict Int α} {k : Int} {v : α} (hd : ∀ kv ∈ d, P kv.2) (hv : P v) : ∀ kv ∈ d.set k v, P kv.2 := by
  unfold PyDict.set
  split
  · intro kv hkv
    obtain ⟨p, hp, rfl⟩ := List.mem_map.1 hkv
    split
    · exact hv
    · exact hd p hp
  · intro kv hkv
    rcases List.mem_append.1 hkv with h | h
    · exact hd kv h
    · rw [List.mem_singleton.1 h]
      exact hv

theorem small_base {buf : Bytes} {o : Base.BareObj} (h : Base.decodeBare buf = .ok o) : SmallBase o := by
  obtain ⟨m, -, hc, rfl⟩ := (decodeBare_iff _ _).1 h
  obtain ⟨-, -, -, bits, -, -, -, -, -, -, he⟩ := hc
  have hf := encodes_fits he
  clear he h
  cases m with
  | m1005 p =>
    have hv := fits_small (W := 38) (by
      have : ∀ f ∈ layout1005, f.width ≤ 38 := by decide
      exact this) hf
    exact ⟨hv p.x (by simp [BaseMsg.vals, refVals]), hv p.y (by simp [BaseMsg.vals, refVals]), hv p.z (by simp [BaseMsg.vals, refVals])⟩
  | m1006 p x =>
    have hv := fits_small (W := 38) (by
      have : ∀ f ∈ layout1005 ++ [U 16], f.width ≤ 38 := by decide
      exact this) hf
    exact ⟨hv p.x (by simp [BaseMsg.vals, refVals]), hv p.y (by simp [BaseMsg.vals, refVals]), hv p.z (by simp [BaseMsg.vals, refVals]),
      hv x (by simp [BaseMsg.vals, refVals])⟩
  | m1007 id d u => trivial
  | m1008 id d u s => trivial
  | m1033 id d u s r fw n => trivial
  | m1029 id mjd sec n t => trivial
  | m1013 id mjd sec leap ann =>
    have hv := fits_small (width_1013 _ _ _ _ _) hf
    have ha : ∀ a ∈ ann, |a.2.2| ≤ 2 ^ 17 := by
      intro a ha
      apply hv
      simp only [BaseMsg.vals, List.mem_append, List.mem_flatMap]
      exact Or.inr ⟨a, ha, by simp⟩
    have key : ∀ (ann : List (Int × Int × Int)) (d : PyDict Int (Int × Int)), (∀ a ∈ ann, |a.2.2| ≤ 2 ^ 17) → (∀ kv ∈ d, |kv.2.2| ≤ 2 ^ 17) →
        ∀ kv ∈ ann.foldl (fun d a => d.set a.1 (a.2.1, a.2.2)) d, |kv.2.2| ≤ 2 ^ 17 := by
      intro ann
      induction ann with
      | nil => intro d _ hd; exact hd
      | cons a ann ih =>
        intro d h1 h2
        exact ih _ (fun b hb => h1 b (by simp [hb])) (dict_set_mem (P := fun x : Int × Int => |x.2| ≤ 2 ^ 17) h2 (h1 a (by simp)))
    exact key ann [] ha (by intro kv h; cases h)
  | m1230 id al a b c d =>
    have hv := fits_small (width_1230 _ _ _ _ _ _) hf
    have hb : ∀ x : Option Int, (∀ v ∈ biasVals x, v ∈ (BaseMsg.m1230 id al a b c d).vals) → |x.getD 0| ≤ 2 ^ 17 := by
      intro x hx
      cases x with
      | none => simp
      | some v => exact hv v (hx v (by simp [biasVals]))
    intro kv hkv
    simp only [gloTable, List.mem_cons, List.not_mem_nil, or_false] at hkv
    rcases hkv with rfl | rfl | rfl | rfl
    · exact hb a (fun v hv => by simp [BaseMsg.vals, hv])
    · exact hb b (fun v hv => by simp [BaseMsg.vals, hv])
    · exact hb c (fun v hv => by simp [BaseMsg.vals, hv])
    · exact hb d (fun v hv => by simp [BaseMsg.vals, hv])

theorem decodeBareR_eq {rnd : Rat → Rat} (h : Nearest rnd) (buf : Bytes) (hl : buf.length < 2 ^ 40) : Base.decodeBareR rnd buf = Base.decodeBare buf := by
  unfold Base.decodeBareR
  rw [decode1013_eq h buf hl]
  cases hn : Base.getMsgNum buf with
  | error e => unfold Base.decodeBare; rw [hn]; rfl
  | ok n =>
    rw [ok_bind]
    split
    · rename_i h13
      unfold Base.decodeBare
      rw [hn, ok_bind, h13]
      rfl
    · rfl

theorem le40 {n : Int} {k : Nat} (h : |n| ≤ 2 ^ k) (hk : k ≤ 40) : |n| ≤ 2 ^ 40 :=
  le_trans h (by exact_mod_cast Nat.pow_le_pow_right (by omega) hk)

theorem scaleRP_snap {rnd : Rat → Rat} (h : Nearest rnd) (o : BaseRP Int Int Int)
    (hx : |o.refPoint_X| ≤ 2 ^ 38) (hy : |o.refPoint_Y| ≤ 2 ^ 38) (hz : |o.refPoint_Z| ≤ 2 ^ 38) :
    Base.scaleRP o = (Base.scaleRPR rnd o).map snapRP := by
  unfold Base.scaleRP Base.scaleRPR
  cases Base.qcIndex o.QC_bias with
  | error e => rfl
  | ok q =>
    show Except.ok _ = Except.ok _
    unfold snapRP Base.mulR Base.e4
    dsimp only
    rw [prod_snap h _ (le40 hx (by omega)) _ (by norm_num), prod_snap h _ (le40 hy (by omega)) _ (by norm_num),
      prod_snap h _ (le40 hz (by omega)) _ (by norm_num)]

theorem scale_snap {rnd : Rat → Rat} (h : Nearest rnd) (o : Base.BareObj) (ho : SmallBase o) :
    Base.scale o = (Base.scaleR rnd o).map snapBase := by
  cases o with
  | rp o =>
    obtain ⟨hx, hy, hz⟩ := ho
    unfold Base.scale Base.scaleR
    dsimp only
    rw [scaleRP_snap h o hx hy hz]
    cases Base.scaleRPR rnd o <;> rfl
  | rph o =>
    obtain ⟨hx, hy, hz, hh⟩ := ho
    unfold Base.scale Base.scaleR
    dsimp only
    rw [scaleRP_snap h o.rp hx hy hz]
    cases Base.scaleRPR rnd o.rp with
    | error e => rfl
    | ok r =>
      show Except.ok _ = Except.ok _
      unfold snapBase Base.mulR Base.e4
      dsimp only
      rw [prod_snap h _ (le40 hh (by omega)) _ (by norm_num)]
  | ad o => unfold Base.scale Base.scaleR; dsimp only; cases Base.scaleAD o <;> rfl
  | adsn o => unfold Base.scale Base.scaleR; dsimp only; cases Base.scaleADSN o <;> rfl
  | adsnrc o => unfold Base.scale Base.scaleR; dsimp only; cases Base.scaleADSNRC o <;> rfl
  | ts o => unfold Base.scale Base.scaleR; dsimp only; cases Base.scaleTS o <;> rfl
  | sp o =>
    show Except.ok _ = Except.ok _
    unfold snapBase Base.scaleSP Base.scaleSPR Base.mulR
    dsimp only
    rw [List.map_map]
    congr 3
    apply List.map_congr_left
    intro kv hkv
    dsimp only [Function.comp]
    rw [prod_snap h _ (le40 (ho kv hkv) (by omega)) _ (by norm_num)]
  | glbs o =>
    show Except.ok _ = Except.ok _
    unfold snapBase Base.scaleGLBS Base.scaleGLBSR Base.mulR
    dsimp only
    rw [List.map_map]
    congr 3
    apply List.map_congr_left
    intro kv hkv
    dsimp only [Function.comp]
    rw [show (1 / 5 : Rat) = 2 / 10 by norm_num, prod_snap h _ (le40 (ho kv hkv) (by omega)) _ (by norm_num)]

theorem prod_double {rnd : Rat → Rat} (h : Nearest rnd) {n : Int} {k : Nat} (hn : |n| ≤ 2 ^ k) (hk : k ≤ 40) {L : Rat} (hL : 1 / 10 ^ 10 ≤ L) {t : Rat}
    (ht : 4 * ulp * 2 ^ k * L ≤ t) : Within t (n * L) (rnd (rnd n * rnd L)) := by
  refine ⟨h.double _, le_trans (prod_within h n (le40 hn hk) L hL) (le_trans ?_ ht)⟩
  have h0 : (0 : Rat) < L := lt_of_lt_of_le (by norm_num) hL
  have hn' : |(n : Rat)| ≤ 2 ^ k := by exact_mod_cast hn
  exact mul_le_mul_of_nonneg_right (mul_le_mul_of_nonneg_left hn' (by unfold ulp; norm_num)) h0.le

theorem scale_near {rnd : Rat → Rat} (h : Nearest rnd) (o : Base.BareObj) (ho : SmallBase o) {r r' : Base.ScaledObj} (hr : Base.scale o = .ok r)
    (hr' : Base.scaleR rnd o = .ok r') : List.Forall₂ (Within (baseTolerance r)) (quantities r) (quantities r') := by
  have c38 : ∀ n : Int, |n| ≤ 2 ^ 38 → Within (2 / 10 ^ 8) (n * Base.e4) (Base.mulR rnd n Base.e4) :=
    fun n hn => prod_double h hn (by omega) (by unfold Base.e4; norm_num) (by unfold ulp Base.e4; norm_num)
  cases o with
  | rp o =>
    obtain ⟨hx, hy, hz⟩ := ho
    unfold Base.scale Base.scaleRP at hr
    unfold Base.scaleR Base.scaleRPR at hr'
    dsimp only at hr hr'
    cases hq : Base.qcIndex o.QC_bias with
    | error e => rw [hq] at hr; cases hr
    | ok q =>
      rw [hq] at hr hr'
      cases hr
      cases hr'
      exact .cons (c38 _ hx) (.cons (c38 _ hy) (.cons (c38 _ hz) .nil))
  | rph o =>
    obtain ⟨hx, hy, hz, hh⟩ := ho
    unfold Base.scale Base.scaleRP at hr
    unfold Base.scaleR Base.scaleRPR at hr'
    dsimp only at hr hr'
    cases hq : Base.qcIndex o.rp.QC_bias with
    | error e => rw [hq] at hr; cases hr
    | ok q =>
      rw [hq] at hr hr'
      cases hr
      cases hr'
      exact .cons (c38 _ hx) (.cons (c38 _ hy) (.cons (c38 _ hz) (.cons (c38 _ hh) .nil)))
  | ad o =>
    obtain ⟨x, -, e⟩ := bind_ok hr
    obtain ⟨x', -, e'⟩ := bind_ok hr'
    cases e; cases e'; exact .nil
  | adsn o =>
    obtain ⟨x, -, e⟩ := bind_ok hr
    obtain ⟨x', -, e'⟩ := bind_ok hr'
    cases e; cases e'; exact .nil
  | adsnrc o =>
    obtain ⟨x, -, e⟩ := bind_ok hr
    obtain ⟨x', -, e'⟩ := bind_ok hr'
    cases e; cases e'; exact .nil
  | ts o =>
    obtain ⟨x, -, e⟩ := bind_ok hr
    obtain ⟨x', -, e'⟩ := bind_ok hr'
    cases e; cases e'; exact .nil
  | sp o =>
    cases hr
    cases hr'
    unfold quantities Base.scaleSP Base.scaleSPR baseTolerance
    dsimp only
    rw [List.map_map, List.map_map, List.forall₂_map_left_iff, List.forall₂_map_right_iff, List.forall₂_same]
    intro kv hkv
    exact prod_double h (ho kv hkv) (by omega) (by norm_num) (by unfold ulp; norm_num)
  | glbs o =>
    cases hr
    cases hr'
    unfold quantities Base.scaleGLBS Base.scaleGLBSR baseTolerance
    dsimp only
    rw [List.map_map, List.map_map, List.forall₂_map_left_iff, List.forall₂_map_right_iff, List.forall₂_same]
    intro kv hkv
    exact prod_double h (ho kv hkv) (by omega) (by norm_num) (by unfold ulp; norm_num)

end Nav

/-- **C68** Base station messages in double precision: the bare output is the same. In scaled mode the same byte strings are decoded, and the
exact object is obtained by replacing each quantity by the nearest multiple of its unit. -/
theorem C68_base {rnd : Rat → Rat} (h : Nearest rnd) (buf : Bytes) (hl : buf.length < 2 ^ 40) :
    Base.subDecodeR rnd true buf = Base.subDecode true buf ∧
      Base.subDecode false buf = (Base.subDecodeR rnd false buf).map (Option.map (Sum.map id snapBase)) := by
  unfold Base.subDecodeR Base.subDecode Base.decodeR Base.decode
  rw [Nav.decodeBareR_eq h buf hl]
  refine ⟨rfl, ?_⟩
  cases Base.getMsgNum buf with
  | error e => rfl
  | ok n =>
    cases hb : Base.decodeBare buf with
    | error e => rfl
    | ok o =>
      simp only [ok_bind]
      rw [if_neg Bool.false_ne_true, if_neg Bool.false_ne_true, Nav.scale_snap h o (Nav.small_base hb)]
      cases Base.scaleR rnd o <;> rfl

/-- **C68** All quantities of a base station object are doubles near the exact values: coordinates within 20 nm, intervals within 20 ps, biases within
20 pm. -/
theorem C68_base_near {rnd : Rat → Rat} (h : Nearest rnd) (buf : Bytes) (hl : buf.length < 2 ^ 40) (o' : Base.ScaledObj)
    (ho : Base.subDecodeR rnd false buf = .ok (some (.inr o'))) :
    ∃ o, Base.subDecode false buf = .ok (some (.inr o)) ∧ List.Forall₂ (Within (baseTolerance o)) (quantities o) (quantities o') := by
  have h2 := (C68_base h buf hl).2
  rw [ho] at h2
  refine ⟨snapBase o', h2, ?_⟩
  unfold Base.subDecodeR Base.decodeR at ho
  unfold Base.subDecode Base.decode at h2
  rw [Nav.decodeBareR_eq h buf hl] at ho
  cases hn : Base.getMsgNum buf with
  | error e => rw [hn] at ho; cases ho
  | ok n =>
    rw [hn] at ho h2
    cases hb : Base.decodeBare buf with
    | error e => rw [hb] at ho; cases ho
    | ok o =>
      rw [hb] at ho h2
      simp only [ok_bind] at ho h2
      rw [if_neg Bool.false_ne_true] at ho h2
      cases hr' : Base.scaleR rnd o with
      | error e => rw [hr'] at ho; cases ho
      | ok r' =>
        cases hr : Base.scale o with
        | error e => rw [hr] at h2; cases h2
        | ok r =>
          rw [hr'] at ho
          rw [hr] at h2
          cases ho
          have : r = snapBase o' := by
            simpa [Except.map, pure, Except.pure, bind, Except.bind] using h2
          rw [← this]
          exact Nav.scale_near h o (Nav.small_base hb) hr hr'

namespace Nav

theorem pow2R_eq {rnd : Rat → Rat} (h : Nearest rnd) {x : Int} (hx : |x| ≤ 2 ^ 40) {k : Nat} (hk : k ≤ 1074) : Eph.pow2R rnd x k = Eph.pow2 x k := by
  unfold Eph.pow2R Eph.pow2 Eph.mulR
  have hx' : |x| ≤ 2 ^ 53 := le_trans hx (by norm_num)
  have e1 : rnd (1 / 2 ^ k) = 1 / 2 ^ k := h.exact (by simpa using double_div 1 k (by norm_num) hk)
  rw [h.exact (double_int x hx'), e1, mul_one_div, h.exact (double_div x k hx' hk)]

theorem width_eph (o : Eph.Obj Int) : ∀ f ∈ fieldsOf (tableOf o), f.width ≤ 40 := by
  have key : ∀ T ∈ [T1019, T1020, T1041, T1042, T1044, T1045, T1046], ∀ f ∈ fieldsOf T, f.width ≤ 40 := by decide
  exact key (tableOf o) (by cases o <;> simp [tableOf])

/-- Exact scaling but for the group delays of BeiDou. -/
def tgdR (rnd : Rat → Rat) : Eph.Obj Int → Eph.Obj PyNum
  | .bds e => .bds { Eph.scale1042 e with TGD1 := .flt (Eph.mulR rnd e.TGD1 (1 / 10 ^ 10)), TGD2 := .flt (Eph.mulR rnd e.TGD2 (1 / 10 ^ 10)) }
  | o => Eph.scale o

/-- Ephemerides other than BeiDou are scaled without rounding; those of BeiDou only round the group delays. -/
theorem scaleEph {rnd : Rat → Rat} (h : Nearest rnd) (o : Eph.Obj Int) (hv : ∀ v ∈ valsOf o, |v| ≤ 2 ^ 40) :
    Eph.scaleR rnd o = tgdR rnd o := by
  have hp : ∀ v ∈ valsOf o, ∀ k ≤ 1074, Eph.pow2R rnd v k = Eph.pow2 v k := fun v hv' k hk => pow2R_eq h (hv v hv') hk
  clear hv
  cases o with
  | gps e => unfold valsOf vals1019 at hp; simp [tgdR, Eph.scaleR, Eph.scale, Eph.scale1019R, Eph.scale1019, hp]
  | glo e => unfold valsOf vals1020 at hp; simp [tgdR, Eph.scaleR, Eph.scale, Eph.scale1020R, Eph.scale1020, hp]
  | galf e => unfold valsOf vals1045 at hp; simp [tgdR, Eph.scaleR, Eph.scale, Eph.scale1045R, Eph.scale1045, hp]
  | gali e => unfold valsOf vals1046 at hp; simp [tgdR, Eph.scaleR, Eph.scale, Eph.scale1046R, Eph.scale1046, hp]
  | bds e => unfold valsOf vals1042 at hp; simp [tgdR, Eph.scaleR, Eph.scale1042R, Eph.scale1042, hp]
  | navic e => unfold valsOf vals1041 at hp; simp [tgdR, Eph.scaleR, Eph.scale, Eph.scale1041R, Eph.scale1041, hp]
  | qzs e => unfold valsOf vals1044 at hp; simp [tgdR, Eph.scaleR, Eph.scale, Eph.scale1044R, Eph.scale1044, hp]

theorem small_eph {buf : Bytes} {o : Eph.Obj Int} (h : Eph.decodeBare buf = .ok o) : ∀ v ∈ valsOf o, |v| ≤ 2 ^ 40 := by
  apply fits_small (width_eph o)
  apply C30_range buf o _ h
  intro e he
  subst he
  cases hn : Eph.getMsgNum buf with
  | error x =>
    unfold Eph.decodeBare at h
    rw [hn] at h
    cases h
  | ok n =>
    have := C31_partial buf false (Eph.scale1044 e)
    apply this
    unfold Eph.subDecode Eph.decode
    rw [hn, ok_bind, h]
    rfl

theorem snap_tgd {rnd : Rat → Rat} (h : Nearest rnd) (o : Eph.Obj Int) (hv : ∀ v ∈ valsOf o, |v| ≤ 2 ^ 40) : snapEph (tgdR rnd o) = Eph.scale o := by
  cases o with
  | bds e =>
    unfold snapEph tgdR Eph.scale snapNum Eph.mulR
    dsimp only
    rw [prod_snap h _ (hv e.TGD1 (by simp [valsOf, vals1042])) _ le_rfl, prod_snap h _ (hv e.TGD2 (by simp [valsOf, vals1042])) _ le_rfl]
    rfl
  | gps e => rfl
  | glo e => rfl
  | galf e => rfl
  | gali e => rfl
  | navic e => rfl
  | qzs e => rfl

theorem subDecodeEph {rnd : Rat → Rat} (h : Nearest rnd) (buf : Bytes) :
    (Eph.subDecodeR rnd false buf = none ∧ Eph.subDecode false buf = none) ∨
    ∃ o, (∀ v ∈ valsOf o, |v| ≤ 2 ^ 40) ∧ Eph.subDecodeR rnd false buf = some (tgdR rnd o) ∧ Eph.subDecode false buf = some (Eph.scale o) := by
  unfold Eph.subDecodeR Eph.subDecode Eph.decodeR Eph.decode
  cases Eph.getMsgNum buf with
  | error e => exact Or.inl ⟨rfl, rfl⟩
  | ok n =>
    cases hb : Eph.decodeBare buf with
    | error e => exact Or.inl ⟨rfl, rfl⟩
    | ok o =>
      have hv := small_eph hb
      refine Or.inr ⟨o, hv, ?_, rfl⟩
      rw [← scaleEph h o hv]
      rfl

end Nav

/-- **C68** Ephemerides in double precision: the bare output is the same. In scaled mode the same byte strings are decoded to the same objects, but for
the two group delays of BeiDou, where the exact value is the multiple of 0.1 ns nearest to the double. -/
theorem C68_eph {rnd : Rat → Rat} (h : Nearest rnd) (buf : Bytes) :
    Eph.subDecodeR rnd true buf = Eph.subDecode true buf ∧ Eph.subDecode false buf = (Eph.subDecodeR rnd false buf).map snapEph := by
  refine ⟨rfl, ?_⟩
  rcases Nav.subDecodeEph h buf with ⟨h1, h2⟩ | ⟨o, hv, h1, h2⟩
  · rw [h1, h2]; rfl
  · rw [h1, h2, Option.map_some, Nav.snap_tgd h o hv]

/-- **C68** The group delays of BeiDou are doubles with a relative error of at most 2^-51; all other attributes are exact. -/
theorem C68_tgd {rnd : Rat → Rat} (h : Nearest rnd) (buf : Bytes) (e' : EphBDS PyNum) (ho : Eph.subDecodeR rnd false buf = some (.bds e')) :
    ∃ e a1 a2 b1 b2, Eph.subDecode false buf = some (.bds e) ∧ e' = { e with TGD1 := e'.TGD1, TGD2 := e'.TGD2 } ∧
      e.TGD1 = .flt a1 ∧ e'.TGD1 = .flt b1 ∧ Within (|a1| / 2 ^ 51) a1 b1 ∧ e.TGD2 = .flt a2 ∧ e'.TGD2 = .flt b2 ∧ Within (|a2| / 2 ^ 51) a2 b2 := by
  rcases Nav.subDecodeEph h buf with ⟨h1, h2⟩ | ⟨o, hv, h1, h2⟩
  · rw [h1] at ho
    cases ho
  · rw [h1] at ho
    cases o with
    | bds e =>
      cases ho
      have key : ∀ n : Int, |n| ≤ 2 ^ 40 → Within (|(n : Rat) * (1 / 10 ^ 10)| / 2 ^ 51) (n * (1 / 10 ^ 10)) (Eph.mulR rnd n (1 / 10 ^ 10)) := by
        intro n hn
        refine ⟨h.double _, le_trans (Nav.prod_within h n hn _ le_rfl) (le_of_eq ?_)⟩
        rw [abs_mul, abs_of_pos (by norm_num : (0 : Rat) < 1 / 10 ^ 10)]
        unfold ulp
        norm_num
        ring
      exact ⟨_, _, _, _, _, h2, rfl, rfl, rfl, key _ (hv _ (by simp [valsOf, vals1042])), rfl, rfl, key _ (hv _ (by simp [valsOf, vals1042]))⟩
    | gps e => cases ho
    | glo e => cases ho
    | galf e => cases ho
    | gali e => cases ho
    | navic e => cases ho
    | qzs e => cases ho

/-- The frame of a reference point is decoded in double precision; coordinates of the largest magnitude are recovered. -/
example : ∃ o', Base.subDecodeR ieee false (messageFrame (BaseMsg.m1005 sampleRef).layout (BaseMsg.m1005 sampleRef).vals) = .ok (some (.inr (.rp o'))) ∧
    snapRP o' = refScaled 1005 sampleRef := by
  have hf : FitsAll (BaseMsg.m1005 sampleRef).layout (BaseMsg.m1005 sampleRef).vals := by decide
  have hc := (C33_C37_encodable _ hf).1
  have hd : Base.decode (messageFrame (BaseMsg.m1005 sampleRef).layout (BaseMsg.m1005 sampleRef).vals) false =
      .ok (.inr (.rp (refScaled 1005 sampleRef))) :=
    (C33_C37_scaled_iff _ _).2 ⟨.m1005 sampleRef, textOf, by trivial, hc, (by intro t ht; cases ht), rfl⟩
  have hl : (messageFrame (BaseMsg.m1005 sampleRef).layout (BaseMsg.m1005 sampleRef).vals).length < 2 ^ 40 := by decide +kernel
  have hg : Base.getMsgNum (messageFrame (BaseMsg.m1005 sampleRef).layout (BaseMsg.m1005 sampleRef).vals) = .ok 1005 := by decide +kernel
  have h2 := (C68_base ieee_nearest _ hl).2
  unfold Base.subDecode at h2
  rw [hg, ok_bind, hd] at h2
  clear hd hl hg hc hf
  generalize refScaled 1005 sampleRef = R at h2 ⊢
  generalize Base.subDecodeR ieee false _ = x at h2 ⊢
  cases x with
  | error e => cases h2
  | ok x =>
    cases x with
    | none => cases h2
    | some x =>
      cases x with
      | inl b => cases h2
      | inr o =>
        cases o with
        | rp o' =>
          refine ⟨o', rfl, ?_⟩
          cases h2
          rfl
        | rph o' => cases h2
        | ad o' => cases h2
        | adsn o' => cases h2
        | adsnrc o' => cases h2
        | sp o' => cases h2
        | ts o' => cases h2
        | glbs o' => cases h2

/-- A coordinate of 0.3 mm and a group delay of 0.3 ns in double precision: not the exact values, but the code is recovered. -/
example : ieee (ieee 3 * ieee (1 / 10000)) ≠ 3 / 10000 ∧ snapTo (1 / 10000) (ieee (ieee 3 * ieee (1 / 10000))) = 3 / 10000 ∧
    ieee (ieee 3 * ieee (1 / 10 ^ 10)) ≠ 3 / 10 ^ 10 := by
  refine ⟨by decide +kernel, ?_, by decide +kernel⟩
  have := Nav.prod_snap ieee_nearest 3 (by norm_num) (1 / 10000) (by norm_num)
  rw [show ((3 : Int) : Rat) = 3 by norm_num] at this
  rw [this]
  norm_num

end Verif
