import Verif.Lemmas.Msm
import Verif.Spec.MsmScaled

/-!
# Tables of observables
-/

namespace Verif
open Spec Bits Msm

/-! ## Dictionaries over a list of distinct names -/

/-- The dictionary `{nm 0: f 0, …, nm (M-1): f (M-1)}`. -/
def T {κ β : Type} (nm : Nat → κ) (M : Nat) (f : Nat → β) : PyDict κ β := (List.range M).map (fun b => (nm b, f b))

/-- Distinct names. -/
def InjOn {κ : Type} (nm : Nat → κ) (M : Nat) : Prop := ∀ a b, a < M → b < M → nm a = nm b → a = b

section
variable {κ β : Type} [BEq κ] [LawfulBEq κ] {nm : Nat → κ} {M : Nat}

theorem lookup_map_mem {l : List Nat} (f : Nat → β) (hinj : ∀ a ∈ l, ∀ b ∈ l, nm a = nm b → a = b) {b : Nat} (hb : b ∈ l) :
    List.lookup (nm b) (l.map (fun b => (nm b, f b))) = some (f b) := by
  induction l with
  | nil => simp at hb
  | cons x l ih =>
    rw [List.map_cons, List.lookup_cons]
    by_cases h : nm b = nm x
    · have : b = x := hinj b hb x (by simp) h
      subst this
      simp
    · have hne : (nm b == nm x) = false := by simpa using h
      rw [hne]
      apply ih (fun a ha c hc => hinj a (by simp [ha]) c (by simp [hc]))
      rcases List.mem_cons.1 hb with rfl | hb
      · exact absurd rfl h
      · exact hb

theorem lookup_none_iff (d : PyDict κ β) (k : κ) : List.lookup k d = none ↔ ∀ p ∈ d, p.1 ≠ k := by
  induction d with
  | nil => simp
  | cons p d ih =>
    obtain ⟨a, v⟩ := p
    rw [List.lookup_cons]
    by_cases h : k = a
    · subst h; simp
    · have hne : (k == a) = false := by simpa using h
      rw [hne]
      simp only [ih, List.mem_cons, forall_eq_or_imp]
      constructor
      · intro h2; exact ⟨fun e => h e.symm, h2⟩
      · intro h2; exact h2.2

theorem get_T (hinj : InjOn nm M) (f : Nat → β) {b : Nat} (hb : b < M) : (T nm M f).get? (nm b) = some (f b) := by
  unfold PyDict.get? T
  apply lookup_map_mem
  · intro a ha c hc h; exact hinj a c (by simpa using ha) (by simpa using hc) h
  · simpa using hb

theorem set_T (hinj : InjOn nm M) (f : Nat → β) {b : Nat} (hb : b < M) (e : β) :
    (T nm M f).set (nm b) e = T nm M (Function.update f b e) := by
  unfold PyDict.set PyDict.mem
  have := get_T hinj f hb
  unfold PyDict.get? at this
  rw [this, Option.isSome_some, if_pos rfl]
  unfold T
  rw [List.map_map]
  apply List.map_congr_left
  intro c hc
  have hc : c < M := by simpa using hc
  simp only [Function.comp]
  by_cases h : c = b
  · subst h; simp
  · have h2 : nm c ≠ nm b := fun e => h (hinj c b hc hb e)
    rw [if_neg (by simpa using h2), Function.update_of_ne h]

theorem set_new (d : PyDict κ β) (k : κ) (v : β) (h : ∀ p ∈ d, p.1 ≠ k) : d.set k v = d ++ [(k, v)] := by
  unfold PyDict.set PyDict.mem
  rw [(lookup_none_iff d k).2 h]
  rfl

theorem foldl_set_new (f : Nat → β) (hinj : InjOn nm M) : ∀ m, m ≤ M →
    (List.range m).foldl (fun (d : PyDict κ β) b => d.set (nm b) (f b)) [] = (List.range m).map (fun b => (nm b, f b)) := by
  intro m
  induction m with
  | zero => intro _; rfl
  | succ m ih =>
    intro hm
    rw [List.range_succ, List.foldl_append, ih (by omega), List.map_append]
    simp only [List.foldl_cons, List.foldl_nil, List.map_cons, List.map_nil]
    apply set_new
    intro p hp
    simp only [List.mem_map, List.mem_range] at hp
    obtain ⟨c, hc, rfl⟩ := hp
    intro h
    have := hinj c m (by omega) (by omega) h
    omega

end

theorem addEmpty_T {α : Type} {nm : Nat → String} {M : Nat} (hinj : InjOn nm M) :
    addEmpty (α := α) [] ((List.range M).map nm) = T nm M (fun _ => []) := by
  unfold addEmpty
  rw [List.foldl_map]
  exact foldl_set_new (fun _ => []) hinj M le_rfl

theorem updIn_T {α : Type} {nm : Nat → String} {M : Nat} (hinj : InjOn nm M) (f : Nat → PyDict Nat α) {b : Nat} (hb : b < M)
    (s : Nat) (v : α) : updIn (T nm M f) (nm b) s v = .ok (T nm M (Function.update f b ((f b).set s v))) := by
  unfold updIn
  rw [get_T hinj f hb]
  simp only
  rw [set_T hinj f hb]

theorem T_update_self {κ β : Type} {nm : Nat → κ} {M : Nat} (f : Nat → β) (b : Nat) : T nm M (Function.update f b (f b)) = T nm M f := by
  rw [Function.update_eq_self]

/-! ## Deletion of empty entries -/

/-- The entries of `T` that satisfy `p`. -/
def Tp {κ β : Type} (nm : Nat → κ) (M : Nat) (p : Nat → Bool) (f : Nat → β) : PyDict κ β :=
  ((List.range M).filter p).map (fun b => (nm b, f b))

theorem Tp_true {κ β : Type} (nm : Nat → κ) (M : Nat) (f : Nat → β) : Tp nm M (fun _ => true) f = T nm M f := by
  unfold Tp T; simp

theorem delEmpty1_Tp {α : Type} {nm : Nat → String} {M : Nat} (hinj : InjOn nm M) (f : Nat → PyDict Nat α) (m : Nat)
    (hm : m < M) :
    delEmpty1 (Tp nm M (fun b => decide (m ≤ b) || !(f b).isEmpty) f) (nm m) =
      .ok (Tp nm M (fun b => decide (m + 1 ≤ b) || !(f b).isEmpty) f) := by
  unfold delEmpty1
  have hget : (Tp nm M (fun b => decide (m ≤ b) || !(f b).isEmpty) f).get? (nm m) = some (f m) := by
    unfold PyDict.get? Tp
    apply lookup_map_mem
    · intro a ha c hc h
      simp only [List.mem_filter, List.mem_range] at ha hc
      exact hinj a c ha.1 hc.1 h
    · simp [hm]
  rw [hget]
  simp only
  congr 1
  by_cases h0 : (f m).length = 0
  · rw [if_pos h0]
    unfold Tp
    rw [List.filter_map, List.filter_filter]
    congr 1
    apply List.filter_congr
    intro b hb
    have hb : b < M := by simpa using hb
    simp only [Function.comp]
    by_cases e : b = m
    · subst e
      have : (f b).isEmpty = true := by rw [List.isEmpty_iff, ← List.length_eq_zero_iff]; exact h0
      simp [this]
    · have h2 : (nm b != nm m) = true := by
        rw [bne_iff_ne]; intro h; exact e (hinj b m hb hm h)
      rw [h2, Bool.true_and]
      congr 1
      rw [decide_eq_decide]
      omega
  · rw [if_neg h0]
    unfold Tp
    congr 1
    apply List.filter_congr
    intro b hb
    by_cases e : b = m
    · subst e
      have : (f b).isEmpty = false := by
        rw [Bool.eq_false_iff]; intro h; rw [List.isEmpty_iff] at h; rw [h] at h0; exact h0 rfl
      simp [this]
    · congr 1
      rw [decide_eq_decide]
      omega

/-! ## Rows of observables -/

/-- Values of one cell. -/
structure CellVals where
  rng : Option Rat := none
  phs : Option Rat := none
  ltm : Option Nat := none
  hca : Option Bool := none
  dpl : Option Rat := none
  c2n : Option Rat := none

/-- The dictionaries `{satellite: value}` of one signal. -/
structure ObsRow where
  rng : PyDict Nat Rat := []
  phs : PyDict Nat Rat := []
  ltm : PyDict Nat Nat := []
  hca : PyDict Nat Bool := []
  dpl : PyDict Nat Rat := []
  c2n : PyDict Nat Rat := []

/-- Store a value if there is one. -/
def setO {α : Type} (e : PyDict Nat α) (s : Nat) : Option α → PyDict Nat α
  | none => e
  | some v => e.set s v

/-- Store the values of one cell. -/
def app (r : ObsRow) (s : Nat) (v : CellVals) : ObsRow :=
  { rng := setO r.rng s v.rng, phs := setO r.phs s v.phs, ltm := setO r.ltm s v.ltm, hca := setO r.hca s v.hca,
    dpl := setO r.dpl s v.dpl, c2n := setO r.c2n s v.c2n }

theorem app_empty (r : ObsRow) (s : Nat) : app r s {} = r := rfl

/-- All observations from the rows of the signals. -/
def obsOf (nm : Nat → String) (M : Nat) (F : Nat → ObsRow) : Obs :=
  { rng := T nm M (fun b => (F b).rng), phs := T nm M (fun b => (F b).phs), ltm := T nm M (fun b => (F b).ltm),
    hca := T nm M (fun b => (F b).hca), dpl := T nm M (fun b => (F b).dpl), c2n := T nm M (fun b => (F b).c2n) }

theorem update_comp {β γ : Type} (F : Nat → β) (g : β → γ) (i : Nat) (x : β) :
    (fun b => g (Function.update F i x b)) = Function.update (fun b => g (F b)) i (g x) := by
  funext b
  by_cases h : b = i
  · subst h; simp
  · simp [Function.update_of_ne h]

theorem obsOf_update (nm : Nat → String) (M : Nat) (F : Nat → ObsRow) (i : Nat) (r : ObsRow) :
    obsOf nm M (Function.update F i r) =
      { rng := T nm M (Function.update (fun b => (F b).rng) i r.rng), phs := T nm M (Function.update (fun b => (F b).phs) i r.phs),
        ltm := T nm M (Function.update (fun b => (F b).ltm) i r.ltm), hca := T nm M (Function.update (fun b => (F b).hca) i r.hca),
        dpl := T nm M (Function.update (fun b => (F b).dpl) i r.dpl),
        c2n := T nm M (Function.update (fun b => (F b).c2n) i r.c2n) } := by
  unfold obsOf
  simp only [update_comp F ObsRow.rng, update_comp F ObsRow.phs, update_comp F ObsRow.ltm, update_comp F ObsRow.hca,
    update_comp F ObsRow.dpl, update_comp F ObsRow.c2n]

theorem foldl_setO {α : Type} (st : Nat → Nat) (N : Nat) (hinj : InjOn st N) (v : Nat → Option α) : ∀ n, n ≤ N →
    (List.range n).foldl (fun e a => setO e (st a) (v a)) ([] : PyDict Nat α) =
      (List.range n).filterMap (fun a => (v a).map (fun x => (st a, x))) := by
  intro n
  induction n with
  | zero => intro _; rfl
  | succ n ih =>
    intro hn
    rw [List.range_succ, List.foldl_append, ih (by omega), List.filterMap_append]
    simp only [List.foldl_cons, List.foldl_nil, List.filterMap_cons, List.filterMap_nil]
    cases hv : v n with
    | none => simp [setO]
    | some x =>
      simp only [setO, Option.map_some]
      apply set_new
      intro p hp
      simp only [List.mem_filterMap, List.mem_range, Option.map_eq_some_iff] at hp
      obtain ⟨a, ha, y, -, rfl⟩ := hp
      intro h
      have := hinj a n (by omega) (by omega) h
      omega

theorem foldl_app (st : Nat → Nat) (V : Nat → CellVals) (n : Nat) :
    (List.range n).foldl (fun r a => app r (st a) (V a)) {} =
      { rng := (List.range n).foldl (fun e a => setO e (st a) (V a).rng) [],
        phs := (List.range n).foldl (fun e a => setO e (st a) (V a).phs) [],
        ltm := (List.range n).foldl (fun e a => setO e (st a) (V a).ltm) [],
        hca := (List.range n).foldl (fun e a => setO e (st a) (V a).hca) [],
        dpl := (List.range n).foldl (fun e a => setO e (st a) (V a).dpl) [],
        c2n := (List.range n).foldl (fun e a => setO e (st a) (V a).c2n) [] } := by
  induction n with
  | zero => rfl
  | succ n ih =>
    simp only [List.range_succ, List.foldl_append, List.foldl_cons, List.foldl_nil]
    rw [ih]
    rfl

/-! ## The loop over the bits of one row -/

/-- The loop over the entries of a mask. -/
def runRow {σ : Type} (body : Nat → Bool → σ → Py σ) : List Bool → Nat → σ → Py σ
  | [], _, st => .ok st
  | b :: l, i, st => do
    let st ← body i b st
    runRow body l (i + 1) st

theorem runRow_zero {σ : Type} (body : Nat → Bool → σ → Py σ) (l : List Bool) (i : Nat) (st : σ)
    (hf : ∀ b st, b < i + l.length → body b false st = .ok st) (h0 : maskInt l = 0) : runRow body l i st = .ok st := by
  induction l generalizing i with
  | nil => rfl
  | cons b l ih =>
    have hb : b = false := by
      cases b with
      | false => rfl
      | true => simp [maskInt] at h0
    subst hb
    have h1 : maskInt l = 0 := by simpa [maskInt] using h0
    rw [runRow, hf i st (by simp), ok_bind]
    exact ih (i + 1) (fun b st hb => hf b st (by simp; omega)) h1

theorem whileSlots_mask {σ : Type} (body : Nat → Bool → σ → Py σ) (l : List Bool) (i : Nat) (st : σ)
    (hf : ∀ b st, b < i + l.length → body b false st = .ok st) :
    whileSlots body (maskInt l) i st = runRow body l i st := by
  induction l generalizing i st with
  | nil => rw [whileSlots]; rfl
  | cons b l ih =>
    by_cases h0 : maskInt (b :: l) = 0
    · rw [runRow_zero body _ i st hf h0, whileSlots, if_pos h0]
    · rw [whileSlots, if_neg h0, runRow]
      have h1 : (maskInt (b :: l) &&& 1 != 0) = b := by
        rw [Nat.and_one_is_mod]
        simp only [maskInt]
        cases b
        · simp
        · simp
      have h2 : maskInt (b :: l) >>> 1 = maskInt l := by
        rw [Nat.shiftRight_eq_div_pow]
        simp only [maskInt]
        cases b <;> simp <;> omega
      rw [h1, h2]
      congr 1
      funext st
      exact ih (i + 1) st (fun b st hb => hf b st (by simp; omega))

theorem runRow_eq {σ τ : Type} (mk : σ → Obs → τ) (next : σ → σ) (val : σ → CellVals) (s : Nat) (σ0 : σ) (nm : Nat → String)
    (M cnt : Nat) (body : Nat → Bool → τ → Py τ) (hfalse : ∀ i st, i < M → body i false st = .ok st)
    (htrue : ∀ i n F, i < M → n < cnt → body i true (mk (next^[n] σ0) (obsOf nm M F)) =
      .ok (mk (next^[n + 1] σ0) (obsOf nm M (Function.update F i (app (F i) s (val (next^[n] σ0)))))))
    (l : List Bool) (i n : Nat) (F : Nat → ObsRow) (hi : i + l.length ≤ M) (hn : n + l.count true ≤ cnt) :
    runRow body l i (mk (next^[n] σ0) (obsOf nm M F)) =
      .ok (mk (next^[n + l.count true] σ0) (obsOf nm M (fun b =>
        if i ≤ b ∧ l.getD (b - i) false = true then app (F b) s (val (next^[n + (l.take (b - i)).count true] σ0)) else F b))) := by
  induction l generalizing i n F with
  | nil => simp [runRow]
  | cons c l ih =>
    rw [List.length_cons] at hi
    cases c with
    | false =>
      rw [runRow, hfalse i _ (by omega), ok_bind, ih (i + 1) n F (by omega) (by simpa using hn)]
      refine congrArg Except.ok (congr (congrArg mk (congrArg (fun n => next^[n] σ0) ?_)) (congrArg (obsOf nm M) ?_))
      · simp
      · funext b
        by_cases hb : i ≤ b
        · by_cases e : b = i
          · subst e; simp
          · obtain ⟨m, rfl⟩ : ∃ m, b = i + 1 + m := ⟨b - i - 1, by omega⟩
            rw [show i + 1 + m - (i + 1) = m by omega, show i + 1 + m - i = m + 1 by omega]
            simp [hb]
        · rw [if_neg (by omega), if_neg (by omega)]
    | true =>
      have hn' : n + 1 + l.count true ≤ cnt := by simp at hn; omega
      rw [runRow, htrue i n F (by omega) (by omega), ok_bind, ih (i + 1) (n + 1) _ (by omega) hn']
      refine congrArg Except.ok (congr (congrArg mk (congrArg (fun n => next^[n] σ0) ?_)) (congrArg (obsOf nm M) ?_))
      · rw [List.count_cons_self]; omega
      · funext b
        by_cases hb : i ≤ b
        · by_cases e : b = i
          · subst e; simp
          · obtain ⟨m, rfl⟩ : ∃ m, b = i + 1 + m := ⟨b - i - 1, by omega⟩
            rw [show i + 1 + m - (i + 1) = m by omega, show i + 1 + m - i = m + 1 by omega, Function.update_of_ne e]
            simp only [List.getD_cons_succ, List.take_succ_cons, List.count_cons_self]
            rw [show n + ((l.take m).count true + 1) = n + 1 + (l.take m).count true by omega]
            simp [hb]
        · rw [if_neg (by omega), if_neg (by omega), Function.update_of_ne (by omega)]

end Verif
