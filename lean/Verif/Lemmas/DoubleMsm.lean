import Verif.Model.MsmDouble
import Verif.Lemmas.Double
import Verif.Lemmas.MsmIff
import Verif.Lemmas.MsmScaled
import Mathlib.Data.List.Forall2

/-!
# The scaled conversion with rounded arithmetic runs in step with the exact one
-/

namespace Verif

/-! ## Related results and tables -/

/-- Both raise the same exception or both return related values. -/
def PyRel {α β : Type} (S : α → β → Prop) : Py α → Py β → Prop
  | .ok x, .ok y => S x y
  | .error e, .error e' => e = e'
  | _, _ => False

namespace PyRel
variable {α β γ δ : Type} {S : α → β → Prop} {T : γ → δ → Prop}

theorem pure {x : α} {y : β} (h : S x y) : PyRel S (Pure.pure x) (Pure.pure y) := h

theorem refl (a : Py α) : PyRel (fun x y => x = y) a a := by
  cases a <;> exact rfl

theorem bind {a : Py α} {b : Py β} {f : α → Py γ} {g : β → Py δ} (h : PyRel S a b) (hfg : ∀ x y, S x y → PyRel T (f x) (g y)) :
    PyRel T (a >>= f) (b >>= g) := by
  cases a <;> cases b
  · exact h
  · exact h.elim
  · exact h.elim
  · exact hfg _ _ h

/-- The same statement in both. -/
theorem same {a : Py α} {f : α → Py γ} {g : α → Py δ} (hfg : ∀ x, a = .ok x → PyRel T (f x) (g x)) :
    PyRel T (a >>= f) (a >>= g) := by
  cases a
  · exact rfl
  · exact hfg _ rfl

theorem ite {c : Prop} [Decidable c] {a a' : Py α} {b b' : Py β} (h : c → PyRel S a b) (h' : ¬ c → PyRel S a' b') :
    PyRel S (if c then a else a') (if c then b else b') := by
  by_cases hc : c
  · rw [if_pos hc, if_pos hc]; exact h hc
  · rw [if_neg hc, if_neg hc]; exact h' hc

theorem foldlM {σ τ ι : Type} {S : σ → τ → Prop} {f : σ → ι → Py σ} {g : τ → ι → Py τ}
    (h : ∀ i s t, S s t → PyRel S (f s i) (g t i)) (l : List ι) {s : σ} {t : τ} (hst : S s t) :
    PyRel S (l.foldlM f s) (l.foldlM g t) := by
  induction l generalizing s t with
  | nil => exact hst
  | cons i l ih =>
    rw [List.foldlM_cons, List.foldlM_cons]
    exact bind (h i s t hst) (fun x y hxy => ih hxy)

/-- `if c: f = A; if ok(f): … K else: K` -/
theorem branch {α δ δ' σ τ γ γ' : Type} {R : δ → δ' → Prop} {S : σ → τ → Prop} {T : γ → γ' → Prop} {c : Prop} [Decidable c]
    {A : Py α} {p : α → Prop} [DecidablePred p] {U : α → Py δ} {U' : α → Py δ'} {mk : δ → σ} {mk' : δ' → τ} {z w : σ} {z' w' : τ}
    {K : σ → Py γ} {K' : τ → Py γ'} (hU : ∀ f, A = .ok f → PyRel R (U f) (U' f)) (hmk : ∀ d d', R d d' → S (mk d) (mk' d'))
    (hz : S z z') (hw : S w w') (hK : ∀ o o', S o o' → PyRel T (K o) (K' o')) :
    PyRel T (if c then (A >>= fun f => if p f then (U f >>= fun d => (Pure.pure (mk d) >>= K)) else (Pure.pure z >>= K)) else (Pure.pure w >>= K))
      (if c then (A >>= fun f => if p f then (U' f >>= fun d => (Pure.pure (mk' d) >>= K')) else (Pure.pure z' >>= K')) else (Pure.pure w' >>= K')) :=
  ite (fun _ => same (fun f hf => ite (fun _ => bind (hU f hf) (fun d d' h => hK _ _ (hmk d d' h))) (fun _ => hK _ _ hz)))
    (fun _ => hK _ _ hw)

theorem branch1 {α σ τ γ γ' : Type} {S : σ → τ → Prop} {T : γ → γ' → Prop} {c : Prop} [Decidable c]
    {A : Py α} {mk : α → σ} {mk' : α → τ} {w : σ} {w' : τ} {K : σ → Py γ} {K' : τ → Py γ'}
    (hmk : ∀ f, A = .ok f → S (mk f) (mk' f)) (hw : S w w') (hK : ∀ o o', S o o' → PyRel T (K o) (K' o')) :
    PyRel T (if c then (A >>= fun f => (Pure.pure (mk f) >>= K)) else (Pure.pure w >>= K))
      (if c then (A >>= fun f => (Pure.pure (mk' f) >>= K')) else (Pure.pure w' >>= K')) :=
  ite (fun _ => same (fun f hf => hK _ _ (hmk f hf))) (fun _ => hK _ _ hw)

theorem branch2 {α σ τ γ γ' : Type} {S : σ → τ → Prop} {T : γ → γ' → Prop} {c : Prop} [Decidable c]
    {A : Py α} {p : α → Prop} [DecidablePred p] {mk : α → σ} {mk' : α → τ} {z w : σ} {z' w' : τ} {K : σ → Py γ} {K' : τ → Py γ'}
    (hmk : ∀ f, A = .ok f → S (mk f) (mk' f)) (hz : S z z') (hw : S w w') (hK : ∀ o o', S o o' → PyRel T (K o) (K' o')) :
    PyRel T (if c then (A >>= fun f => if p f then (Pure.pure (mk f) >>= K) else (Pure.pure z >>= K)) else (Pure.pure w >>= K))
      (if c then (A >>= fun f => if p f then (Pure.pure (mk' f) >>= K') else (Pure.pure z' >>= K')) else (Pure.pure w' >>= K')) :=
  ite (fun _ => same (fun f hf => ite (fun _ => hK _ _ (hmk f hf)) (fun _ => hK _ _ hz))) (fun _ => hK _ _ hw)

theorem mono {S' : α → β → Prop} {a : Py α} {b : Py β} (h : PyRel S a b) (hS : ∀ x y, S x y → S' x y) : PyRel S' a b := by
  cases a <;> cases b
  · exact h
  · exact h.elim
  · exact h.elim
  · exact hS _ _ h

end PyRel

/-- Tables with the same keys in the same order and related values. -/
def DRel {κ α β : Type} (R : α → β → Prop) (d : PyDict κ α) (e : PyDict κ β) : Prop :=
  List.Forall₂ (fun x y => x.1 = y.1 ∧ R x.2 y.2) d e

namespace DRel
variable {κ α β : Type} [BEq κ] {R : α → β → Prop} {d : PyDict κ α} {e : PyDict κ β}

omit [BEq κ] in
theorem nil : DRel R ([] : PyDict κ α) ([] : PyDict κ β) := List.Forall₂.nil

theorem get (h : DRel R d e) (k : κ) : Option.Rel R (d.get? k) (e.get? k) := by
  unfold PyDict.get?
  induction h with
  | nil => exact .none
  | cons hab h ih =>
    rename_i a b _ _
    obtain ⟨a1, a2⟩ := a
    obtain ⟨b1, b2⟩ := b
    obtain ⟨h1, h2⟩ := hab
    dsimp only at h1 h2
    subst h1
    rw [List.lookup_cons, List.lookup_cons]
    cases hk : k == a1
    · exact ih
    · exact .some h2

theorem mem (h : DRel R d e) (k : κ) : d.mem k = e.mem k := by
  have := h.get k
  unfold PyDict.get? at this
  unfold PyDict.mem
  generalize List.lookup k d = x at this ⊢
  generalize List.lookup k e = y at this ⊢
  cases this <;> rfl

theorem set (h : DRel R d e) (k : κ) {x : α} {y : β} (hxy : R x y) : DRel R (d.set k x) (e.set k y) := by
  unfold PyDict.set
  rw [h.mem k]
  split
  · unfold DRel
    rw [List.forall₂_map_left_iff, List.forall₂_map_right_iff]
    refine List.Forall₂.imp ?_ h
    rintro ⟨a1, a2⟩ ⟨b1, b2⟩ ⟨h1, h2⟩
    dsimp only at h1 h2 ⊢
    subst h1
    split
    · exact ⟨rfl, hxy⟩
    · exact ⟨rfl, h2⟩
  · exact List.rel_append h (.cons ⟨rfl, hxy⟩ .nil)

omit [BEq κ] in
theorem filter (h : DRel R d e) (p : κ → Bool) : DRel R (d.filter (fun x => p x.1)) (e.filter (fun x => p x.1)) := by
  induction h with
  | nil => exact List.Forall₂.nil
  | cons hab h ih =>
    rename_i a b _ _
    rw [List.filter_cons, List.filter_cons, hab.1]
    split
    · exact .cons hab ih
    · exact ih

omit [BEq κ] in
theorem length (h : DRel R d e) : d.length = e.length := List.Forall₂.length_eq h

omit [BEq κ] in
theorem keys (h : DRel R d e) : d.map (·.1) = e.map (·.1) := by
  induction h with
  | nil => rfl
  | cons hab h ih => rw [List.map_cons, List.map_cons, hab.1, ih]

omit [BEq κ] in
theorem imp {R' : α → β → Prop} (h : DRel R d e) (hR : ∀ x y, R x y → R' x y) : DRel R' d e :=
  List.Forall₂.imp (fun _ _ hab => ⟨hab.1, hR _ _ hab.2⟩) h

omit [BEq κ] in
theorem refl {R : α → α → Prop} (h : ∀ x, R x x) (d : PyDict κ α) : DRel R d d :=
  List.forall₂_same.2 (fun x _ => ⟨rfl, h x.2⟩)

omit [BEq κ] in
theorem eq {d e : PyDict κ α} (h : DRel (fun x y => x = y) d e) : d = e := by
  induction h with
  | nil => rfl
  | cons hab h ih => rw [ih, Prod.ext hab.1 hab.2]

end DRel

namespace Msm
open Spec Bits RtcmUtil

abbrev D2 {α β : Type} (R : α → β → Prop) : PyDict String (PyDict Nat α) → PyDict String (PyDict Nat β) → Prop := DRel (DRel R)

theorem updIn_rel {α β : Type} {R : α → β → Prop} {d : PyDict String (PyDict Nat α)} {e : PyDict String (PyDict Nat β)}
    (h : D2 R d e) (sgn : String) (sat : Nat) {x : α} {y : β} (hxy : R x y) : PyRel (D2 R) (updIn d sgn sat x) (updIn e sgn sat y) := by
  unfold updIn
  have := h.get sgn
  generalize d.get? sgn = x at this ⊢
  generalize e.get? sgn = y at this ⊢
  cases this with
  | none => exact rfl
  | some hr => exact h.set sgn (hr.set sat hxy)

theorem addEmpty_rel {α β : Type} {R : α → β → Prop} {d : PyDict String (PyDict Nat α)} {e : PyDict String (PyDict Nat β)}
    (h : D2 R d e) (l : List String) : D2 R (addEmpty d l) (addEmpty e l) := by
  unfold addEmpty
  induction l generalizing d e with
  | nil => exact h
  | cons s l ih => rw [List.foldl_cons, List.foldl_cons]; exact ih (h.set s .nil)

theorem delEmpty1_rel {α β : Type} {R : α → β → Prop} {d : PyDict String (PyDict Nat α)} {e : PyDict String (PyDict Nat β)}
    (h : D2 R d e) (s : String) : PyRel (D2 R) (delEmpty1 d s) (delEmpty1 e s) := by
  unfold delEmpty1
  have := h.get s
  generalize d.get? s = x at this ⊢
  generalize e.get? s = y at this ⊢
  cases this with
  | none => exact rfl
  | some hr =>
    show D2 R _ _
    rw [hr.length]
    split
    · exact h.filter (fun k => k != s)
    · exact h

theorem whileSlots_rel {σ τ : Type} {S : σ → τ → Prop} {f : Nat → Bool → σ → Py σ} {g : Nat → Bool → τ → Py τ}
    (h : ∀ i b s t, S s t → PyRel S (f i b s) (g i b t)) (slots i : Nat) {s : σ} {t : τ} (hst : S s t) :
    PyRel S (whileSlots f slots i s) (whileSlots g slots i t) := by
  induction slots using Nat.strongRecOn generalizing i s t with
  | ind slots ih =>
    rw [whileSlots, whileSlots]
    by_cases h0 : slots = 0
    · rw [if_pos h0, if_pos h0]; exact hst
    · rw [if_neg h0, if_neg h0]
      refine PyRel.bind (h _ _ _ _ hst) (fun x y hxy => ih _ ?_ _ hxy)
      rw [Nat.shiftRight_eq_div_pow]; omega

/-! ## Related values -/

/-- Ranges: `x` is the exact value, `y` the rounded one. -/
def RngRel (rnd : Rat → Rat) (x y : Rat) : Prop :=
  ∃ k : Int, |k| ≤ 2 ^ 40 ∧ x = k / 2 ^ 31 * CRNG_1MS ∧ y = rnd (k / 2 ^ 31 * rnd CRNG_1MS)

/-- Rates. -/
def DplRel (rnd : Rat → Rat) (x y : Rat) : Prop :=
  ∃ r f : Int, |r| ≤ 2 ^ 13 ∧ |f| ≤ 2 ^ 14 ∧ x = r + f * (1 / 10000) ∧ y = rnd (r + rnd (f * rnd (1 / 10000)))

/-- Observations. -/
structure ObsRel (rnd : Rat → Rat) (o o' : Obs) : Prop where
  rng : D2 (RngRel rnd) o.rng o'.rng
  phs : D2 (RngRel rnd) o.phs o'.phs
  dpl : D2 (DplRel rnd) o.dpl o'.dpl
  c2n : o.c2n = o'.c2n
  ltm : o.ltm = o'.ltm
  hca : o.hca = o'.hca

/-- A range from its parts: `m / 1024` ms and `f` units of `2 ^ -p` ms. -/
theorem rngRel_of {rnd : Rat → Rat} (h : Nearest rnd) (m : Nat) (f : Int) (p : Nat) (hm : m ≤ 2 ^ 18) (hf : |f| ≤ 2 ^ 23)
    (hp : 24 ≤ p) (hp' : p ≤ 31) :
    RngRel rnd (((m : Rat) / 1024 + (f : Rat) * (1 / 2 ^ p)) * CRNG_1MS)
      (rnd (rnd (rnd (rnd (m : Rat) / 1024) + rnd (rnd (f : Rat) * rnd (1 / 2 ^ p))) * rnd CRNG_1MS)) := by
  have e1 : rnd (m : Rat) = m := h.exact (by
    have := double_int m (by rw [abs_of_nonneg (by omega)]; have : (m : Int) ≤ 2 ^ 18 := by exact_mod_cast hm
                             omega)
    exact_mod_cast this)
  have e2 : rnd ((m : Rat) / 1024) = m / 1024 := h.exact (by
    have := double_div m 10 (by rw [abs_of_nonneg (by omega)]; have : (m : Int) ≤ 2 ^ 18 := by exact_mod_cast hm
                                omega) (by omega)
    norm_num at this ⊢
    exact_mod_cast this)
  have e3 : rnd (f : Rat) = f := h.exact (double_int f (by omega))
  have e4 : rnd (1 / 2 ^ p : Rat) = 1 / 2 ^ p := h.exact (by
    have := double_div 1 p (by norm_num) (by omega)
    rwa [Int.cast_one] at this)
  have e5 : rnd ((f : Rat) * (1 / 2 ^ p)) = f * (1 / 2 ^ p) := h.exact (by
    have := double_div f p (by omega) (by omega)
    rwa [div_eq_mul_one_div] at this)
  have hs : ((m : Rat) / 1024 + (f : Rat) * (1 / 2 ^ p)) = ((m * 2 ^ 21 + f * 2 ^ (31 - p) : Int) : Rat) / 2 ^ 31 := by
    have e : (2 : Rat) ^ 31 = 2 ^ p * 2 ^ (31 - p) := by rw [← pow_add]; congr 1; omega
    have hp0 : (0 : Rat) < 2 ^ p := by positivity
    have hq0 : (0 : Rat) < 2 ^ (31 - p) := by positivity
    rw [eq_div_iff (by positivity), add_mul]
    push_cast
    have a : (m : Rat) / 1024 * 2 ^ 31 = m * 2 ^ 21 := by ring
    have b : (f : Rat) * (1 / 2 ^ p) * 2 ^ 31 = f * 2 ^ (31 - p) := by rw [e]; field_simp
    rw [a, b]
    norm_num
  have hk : |((m : Int) * 2 ^ 21 + f * 2 ^ (31 - p))| ≤ 2 ^ 40 := by
    have hq : (2 : Int) ^ (31 - p) ≤ 2 ^ 7 := pow_le_pow_right₀ (by norm_num) (by omega)
    have hq0 : (0 : Int) < 2 ^ (31 - p) := by positivity
    have hm' : (m : Int) ≤ 2 ^ 18 := by exact_mod_cast hm
    have hm0 : (0 : Int) ≤ m := by omega
    have b1 : |f * 2 ^ (31 - p)| ≤ 2 ^ 23 * 2 ^ 7 := by
      rw [abs_mul, abs_of_pos hq0]
      exact mul_le_mul hf hq hq0.le (by norm_num)
    rw [abs_le] at b1 ⊢
    omega
  rw [e1, e2, e3, e4, e5, hs]
  have e6 : rnd (((m * 2 ^ 21 + f * 2 ^ (31 - p) : Int) : Rat) / 2 ^ 31) = ((m * 2 ^ 21 + f * 2 ^ (31 - p) : Int) : Rat) / 2 ^ 31 :=
    h.exact (double_div _ 31 (by omega) (by omega))
  rw [e6]
  exact ⟨_, hk, rfl, rfl⟩

/-! ## Sizes of the transmitted integers -/

structure Sized47 (s : Bare4567) : Prop where
  ms : ∀ x ∈ s.sat.rng_ms, x ≤ 255
  rough : ∀ x ∈ s.sat.rng_rough, x ≤ 1023
  rate : ∀ x ∈ s.sat.phase_rate_rough, |x| ≤ 2 ^ 13
  fine : ∀ x ∈ s.sgn.rng_fine, |x| ≤ 2 ^ 23
  phs : ∀ x ∈ s.sgn.phase_fine, |x| ≤ 2 ^ 23
  fineRate : ∀ x ∈ s.sgn.phase_rate_fine, |x| ≤ 2 ^ 14
  c2n : ∀ x ∈ s.sgn.c2n, x ≤ 1023

structure Sized13 (s : Bare123) : Prop where
  rough : ∀ x ∈ s.sat.rng_rough, x ≤ 1023
  fine : ∀ x ∈ s.sgn.rng_fine, |x| ≤ 2 ^ 23
  phs : ∀ x ∈ s.sgn.phase_fine, |x| ≤ 2 ^ 23

theorem tupAt_mem {α : Type} {l : List α} {i : Nat} {x : α} (h : tupAt l i = .ok x) : x ∈ l := by
  unfold tupAt at h
  split at h
  · rename_i y hy
    cases h
    exact List.mem_of_getElem? hy
  · cases h

/-- The scalers in use. -/
structure ScOk (sc : Scalers) : Prop where
  rng : ∃ p, 24 ≤ p ∧ p ≤ 31 ∧ sc.rng = 1 / 2 ^ p
  phs : ∃ p, 24 ≤ p ∧ p ≤ 31 ∧ sc.phs = 1 / 2 ^ p
  dpl : sc.dpl = 1 / 10000
  c2n : ∃ p, p ≤ 4 ∧ sc.c2n = 1 / 2 ^ p

theorem scOk67 : ScOk SCALERS67 := ⟨⟨29, by omega, by omega, rfl⟩, ⟨31, by omega, by omega, rfl⟩, rfl, ⟨4, by omega, by norm_num [SCALERS67]⟩⟩
theorem scOk45 : ScOk SCALERS45 := ⟨⟨24, by omega, by omega, rfl⟩, ⟨29, by omega, by omega, rfl⟩, rfl, ⟨0, by omega, by norm_num [SCALERS45]⟩⟩

theorem c2n_exact {rnd : Rat → Rat} (h : Nearest rnd) {sc : Scalers} (hsc : ScOk sc) {c : Nat} (hc : c ≤ 1023) :
    rnd (rnd (c : Rat) * rnd sc.c2n) = c * sc.c2n := by
  obtain ⟨p, hp, he⟩ := hsc.c2n
  rw [he]
  have hc' : |(c : Int)| ≤ 2 ^ 53 := by rw [abs_of_nonneg (by omega)]; omega
  have e1 : rnd (c : Rat) = c := h.exact (by exact_mod_cast double_int c hc')
  have e2 : rnd (1 / 2 ^ p : Rat) = 1 / 2 ^ p := h.exact (by
    have := double_div 1 p (by norm_num) (by omega)
    rwa [Int.cast_one] at this)
  rw [e1, e2]
  apply h.exact
  have := double_div c p hc' (by omega)
  rw [div_eq_mul_one_div] at this
  exact_mod_cast this

/-- The state of `_convert_obs47` in both. -/
def St47 (rnd : Rat → Rat) (s t : Nat × Obs) : Prop := s.1 = t.1 ∧ ObsRel rnd s.2 t.2

theorem body47_rel {rnd : Rat → Rat} (h : Nearest rnd) {src : Bare4567} (hs : Sized47 src) {sc : Scalers} (hsc : ScOk sc)
    (sgn_map : List String) (sat : Nat) (rng_ok : Bool) (m : Nat) (hm : m ≤ 2 ^ 18) (phase_rate_ok : Bool) (r : Int) (hr : |r| ≤ 2 ^ 13)
    (i : Nat) (b : Bool) (s t : Nat × Obs) (hst : St47 rnd s t) :
    PyRel (St47 rnd) (body47 src sc sgn_map sat rng_ok ((m : Rat) / 1024) phase_rate_ok r i b s)
      (body47R rnd src (scalersR rnd sc) sgn_map sat rng_ok (rnd (rnd m / 1024)) phase_rate_ok (rnd r) i b t) := by
  obtain ⟨j, o⟩ := s
  obtain ⟨j', o'⟩ := t
  obtain ⟨h1, ho⟩ := hst
  dsimp only at h1 ho
  subst h1
  unfold body47 body47R
  dsimp only
  refine PyRel.same (fun sgn _ => ?_)
  refine PyRel.ite (fun _ => ⟨rfl, ho⟩) (fun _ => ?_)
  have hr' : rnd (r : Rat) = r := h.exact (double_int r (by omega))
  -- range
  refine PyRel.branch (S := ObsRel rnd) (fun f hf => updIn_rel ho.rng sgn sat ?_) (fun d e hde => { ho with rng := hde }) ho ho ?_
  · obtain ⟨p, hp, hp', he⟩ := hsc.rng
    have := rngRel_of h m f p hm (hs.fine f (tupAt_mem hf)) hp hp'
    rw [← he] at this
    exact this
  intro o o' ho
  -- phase
  refine PyRel.branch (S := ObsRel rnd) (fun f hf => updIn_rel ho.phs sgn sat ?_) (fun d e hde => { ho with phs := hde }) ho ho ?_
  · obtain ⟨p, hp, hp', he⟩ := hsc.phs
    have := rngRel_of h m f p hm (hs.phs f (tupAt_mem hf)) hp hp'
    rw [← he] at this
    exact this
  intro o o' ho
  -- rate
  refine PyRel.branch (S := ObsRel rnd) (R := D2 (DplRel rnd)) (fun f hf => updIn_rel ho.dpl sgn sat ?_) (fun d e hde => { ho with dpl := hde }) ho ho ?_
  · have hf' := hs.fineRate f (tupAt_mem hf)
    refine ⟨r, f, hr, hf', by rw [hsc.dpl], ?_⟩
    have : rnd (f : Rat) = f := h.exact (double_int f (by omega))
    show rnd (rnd r + rnd (rnd f * rnd sc.dpl)) = _
    rw [this, hr', hsc.dpl]
  intro o o' ho
  refine PyRel.same (fun t _ => ?_)
  rw [ho.ltm]
  refine PyRel.same (fun d _ => ?_)
  refine PyRel.same (fun c hc => ?_)
  have e : rnd (rnd (c : Rat) * (scalersR rnd sc).c2n) = c * sc.c2n := c2n_exact h hsc (hs.c2n c (tupAt_mem hc))
  rw [e, ho.c2n]
  refine PyRel.same (fun d' _ => ?_)
  refine PyRel.same (fun hh _ => ?_)
  rw [ho.hca]
  refine PyRel.same (fun d'' _ => ?_)
  exact ⟨rfl, { ho with c2n := rfl, ltm := rfl, hca := rfl }⟩

def St47o (rnd : Rat → Rat) (s t : Nat × Nat × Obs) : Prop := s.1 = t.1 ∧ s.2.1 = t.2.1 ∧ ObsRel rnd s.2.2 t.2.2

theorem sat47_rel {rnd : Rat → Rat} (h : Nearest rnd) {src : Bare4567} (hs : Sized47 src) {sc : Scalers} (hsc : ScOk sc)
    (sat_list : List Nat) (sgn_map : List String) (slots : Nat) (s t : Nat × Nat × Obs) (hst : St47o rnd s t) :
    PyRel (St47o rnd) (sat47 src sc sat_list sgn_map s slots) (sat47R rnd src (scalersR rnd sc) sat_list sgn_map t slots) := by
  obtain ⟨i, j, o⟩ := s
  obtain ⟨i', j', o'⟩ := t
  obtain ⟨h1, h2, ho⟩ := hst
  dsimp only at h1 h2 ho
  subst h1 h2
  unfold sat47 sat47R
  dsimp only
  refine PyRel.same (fun sat _ => ?_)
  refine PyRel.same (fun ms hms => ?_)
  refine PyRel.branch1 (S := fun x y => ∃ m : Nat, m ≤ 2 ^ 18 ∧ x = (m : Rat) / 1024 ∧ y = rnd (rnd m / 1024)) ?_ ?_ ?_
  · intro rough hrough
    have a := hs.ms ms (tupAt_mem hms)
    have b := hs.rough rough (tupAt_mem hrough)
    refine ⟨_, ?_, rfl, rfl⟩
    rw [Nat.shiftLeft_eq]; omega
  · exact ⟨0, by omega, by simp, by simp [h.zero]⟩
  rintro x y ⟨m, hm, rfl, rfl⟩
  have z : ∃ r : Int, |r| ≤ 2 ^ 13 ∧ (0 : Rat) = r ∧ (0 : Rat) = rnd r := ⟨0, by norm_num, by norm_num, by norm_num [h.zero]⟩
  refine PyRel.branch2 (S := fun (x y : Bool × Rat) => x.1 = y.1 ∧ ∃ r : Int, |r| ≤ 2 ^ 13 ∧ x.2 = (r : Rat) ∧ y.2 = rnd r) ?_ ⟨rfl, z⟩ ⟨rfl, z⟩ ?_
  · intro r hr
    exact ⟨rfl, r, hs.rate r (tupAt_mem hr), rfl, rfl⟩
  rintro ⟨x1, x2⟩ ⟨y1, y2⟩ ⟨h3, r, hr, h4, h5⟩
  dsimp only at h3 h4 h5
  subst h3 h4 h5
  dsimp only
  refine PyRel.bind (whileSlots_rel (S := St47 rnd) (fun i b s t hst => body47_rel h hs hsc sgn_map sat _ m hm _ r hr i b s t hst)
    slots 0 (s := (j, o)) (t := (j, o')) ⟨rfl, ho⟩) ?_
  rintro ⟨a, b⟩ ⟨c, d⟩ ⟨h6, h7⟩
  exact PyRel.pure ⟨rfl, h6, h7⟩

theorem del47_rel {rnd : Rat → Rat} (sgn : String) (o o' : Obs) (ho : ObsRel rnd o o') :
    PyRel (ObsRel rnd) (del47 o sgn) (del47 o' sgn) := by
  unfold del47
  refine PyRel.bind (delEmpty1_rel ho.dpl sgn) (fun d1 e1 h1 => ?_)
  refine PyRel.bind (delEmpty1_rel ho.rng sgn) (fun d2 e2 h2 => ?_)
  rw [ho.c2n, ho.ltm, ho.hca]
  refine PyRel.same (fun d3 _ => ?_)
  refine PyRel.bind (delEmpty1_rel ho.phs sgn) (fun d4 e4 h4 => ?_)
  refine PyRel.same (fun d5 _ => ?_)
  refine PyRel.same (fun d6 _ => ?_)
  exact PyRel.pure ⟨h2, h4, h1, rfl, rfl, rfl⟩

theorem convertObs47_rel {rnd : Rat → Rat} (h : Nearest rnd) {src : Bare4567} (hs : Sized47 src) (sat_list : List Nat)
    (sgn_map : List String) (slots : List Nat) :
    PyRel (ObsRel rnd) (convertObs47 src sat_list sgn_map slots {}) (convertObs47R rnd src sat_list sgn_map slots {}) := by
  unfold convertObs47 convertObs47R
  dsimp only
  have hsc : ∃ sc, ScOk sc ∧ (if (src.atr.is_msm7 || src.atr.is_msm6) = true then SCALERS67 else SCALERS45) = sc ∧
      (if (src.atr.is_msm7 || src.atr.is_msm6) = true then scalersR rnd SCALERS67 else scalersR rnd SCALERS45) = scalersR rnd sc := by
    split
    · exact ⟨_, scOk67, rfl, rfl⟩
    · exact ⟨_, scOk45, rfl, rfl⟩
  obtain ⟨sc, hsc, e1, e2⟩ := hsc
  rw [e1, e2]
  refine PyRel.bind (PyRel.foldlM (S := St47o rnd) (fun i s t hst => sat47_rel h hs hsc sat_list sgn_map i s t hst) slots
    ⟨rfl, rfl, addEmpty_rel .nil _, addEmpty_rel .nil _, addEmpty_rel .nil _, rfl, rfl, rfl⟩) ?_
  rintro ⟨a, b, o⟩ ⟨c, d, o'⟩ ⟨-, -, ho⟩
  exact PyRel.foldlM (fun s o o' ho => del47_rel s o o' ho) sgn_map ho

/-! ## MSM1 … MSM3 -/

def St13 (rnd : Rat → Rat) (s t : Bool × Nat × Obs) : Prop := s.1 = t.1 ∧ s.2.1 = t.2.1 ∧ ObsRel rnd s.2.2 t.2.2

theorem body13_rel {rnd : Rat → Rat} (h : Nearest rnd) {src : Bare123} (hs : Sized13 src) {sc : Scalers} (hsc : ScOk sc)
    (sgn_map : List String) (sat : Nat) (m : Nat) (hm : m ≤ 2 ^ 18) (rng_ok : Bool)
    (i : Nat) (b : Bool) (s t : Bool × Nat × Obs) (hst : St13 rnd s t) :
    PyRel (St13 rnd) (body13 src sc sgn_map sat ((m : Rat) / 1024) rng_ok i b s)
      (body13R rnd src (scalersR rnd sc) sgn_map sat (rnd (rnd m / 1024)) rng_ok i b t) := by
  obtain ⟨q, j, o⟩ := s
  obtain ⟨q', j', o'⟩ := t
  obtain ⟨h1, h2, ho⟩ := hst
  dsimp only at h1 h2 ho
  subst h1 h2
  unfold body13 body13R
  dsimp only
  refine PyRel.same (fun sgn _ => ?_)
  refine PyRel.ite (fun _ => ⟨rfl, rfl, ho⟩) (fun _ => ?_)
  refine PyRel.branch (S := fun x y => x.1 = y.1 ∧ ObsRel rnd x.2 y.2) (R := D2 (RngRel rnd)) (fun f hf => updIn_rel ho.rng sgn sat ?_)
    (fun d e hde => ⟨rfl, { ho with rng := hde }⟩) ⟨rfl, ho⟩ ⟨rfl, ho⟩ ?_
  · obtain ⟨p, hp, hp', he⟩ := hsc.rng
    have := rngRel_of h m f p hm (hs.fine f (tupAt_mem hf)) hp hp'
    rw [← he] at this
    exact this
  rintro ⟨q, o⟩ ⟨q', o'⟩ ⟨h3, ho⟩
  dsimp only at h3 ho
  subst h3
  dsimp only
  refine PyRel.ite (fun _ => ?_) (fun _ => PyRel.bind (PyRel.pure ho) (fun o o' ho => PyRel.pure ⟨rfl, rfl, ho⟩))
  refine PyRel.same (fun f hf => ?_)
  refine PyRel.ite (fun _ => PyRel.bind (PyRel.pure ho) (fun o o' ho => PyRel.pure ⟨rfl, rfl, ho⟩)) (fun _ => ?_)
  have hv : RngRel rnd (((m : Rat) / 1024 + (f : Rat) * sc.phs) * CRNG_1MS)
      (rnd (rnd (rnd (rnd (m : Rat) / 1024) + rnd (rnd (f : Rat) * (scalersR rnd sc).phs)) * crngR rnd)) := by
    obtain ⟨p, hp, hp', he⟩ := hsc.phs
    have := rngRel_of h m f p hm (hs.phs f (tupAt_mem hf)) hp hp'
    rw [← he] at this
    exact this
  refine PyRel.bind (updIn_rel ho.phs sgn sat hv) (fun d e hde => ?_)
  refine PyRel.same (fun t _ => ?_)
  rw [ho.ltm]
  refine PyRel.same (fun d' _ => ?_)
  refine PyRel.same (fun hh _ => ?_)
  rw [ho.hca]
  refine PyRel.same (fun d'' _ => ?_)
  exact PyRel.pure ⟨rfl, rfl, { ho with phs := hde, ltm := rfl, hca := rfl }⟩

theorem sat13_rel {rnd : Rat → Rat} (h : Nearest rnd) {src : Bare123} (hs : Sized13 src) {sc : Scalers} (hsc : ScOk sc)
    (sat_list : List Nat) (sgn_map : List String) (slots : Nat) (s t : Nat × Nat × Obs) (hst : St47o rnd s t) :
    PyRel (St47o rnd) (sat13 src sc sat_list sgn_map s slots) (sat13R rnd src (scalersR rnd sc) sat_list sgn_map t slots) := by
  obtain ⟨i, j, o⟩ := s
  obtain ⟨i', j', o'⟩ := t
  obtain ⟨h1, h2, ho⟩ := hst
  dsimp only at h1 h2 ho
  subst h1 h2
  unfold sat13 sat13R
  dsimp only
  refine PyRel.same (fun sat _ => ?_)
  refine PyRel.same (fun m hm => ?_)
  have hm' : m ≤ 2 ^ 18 := by have := hs.rough m (tupAt_mem hm); omega
  refine PyRel.bind (whileSlots_rel (S := St13 rnd) (fun i b s t hst => body13_rel h hs hsc sgn_map sat m hm' _ i b s t hst)
    slots 0 (s := (_, j, o)) (t := (_, j, o')) ⟨rfl, rfl, ho⟩) ?_
  rintro ⟨a, b, o⟩ ⟨c, d, o'⟩ ⟨h6, h7, h8⟩
  exact PyRel.pure ⟨rfl, h7, h8⟩

theorem del13_rel {rnd : Rat → Rat} (sgn : String) (o o' : Obs) (ho : ObsRel rnd o o') :
    PyRel (ObsRel rnd) (del13 o sgn) (del13 o' sgn) := by
  unfold del13
  refine PyRel.bind (delEmpty1_rel ho.rng sgn) (fun d2 e2 h2 => ?_)
  refine PyRel.bind (delEmpty1_rel ho.phs sgn) (fun d4 e4 h4 => ?_)
  rw [ho.ltm, ho.hca]
  refine PyRel.same (fun d5 _ => ?_)
  refine PyRel.same (fun d6 _ => ?_)
  exact PyRel.pure ⟨h2, h4, ho.dpl, ho.c2n, rfl, rfl⟩

theorem convertObs13_rel {rnd : Rat → Rat} (h : Nearest rnd) {src : Bare123} (hs : Sized13 src) (sat_list : List Nat)
    (sgn_map : List String) (slots : List Nat) :
    PyRel (ObsRel rnd) (convertObs13 src sat_list sgn_map slots {}) (convertObs13R rnd src sat_list sgn_map slots {}) := by
  unfold convertObs13 convertObs13R
  dsimp only
  refine PyRel.bind (PyRel.foldlM (S := St47o rnd) (fun i s t hst => sat13_rel h hs scOk45 sat_list sgn_map i s t hst) slots
    ⟨rfl, rfl, addEmpty_rel .nil _, addEmpty_rel .nil _, .nil, rfl, rfl, rfl⟩) ?_
  rintro ⟨a, b, o⟩ ⟨c, d, o'⟩ ⟨-, -, ho⟩
  exact PyRel.foldlM (fun s o o' ho => del13_rel s o o' ho) sgn_map ho

end Msm
end Verif
