import Verif.Lemmas.Args
import Verif.Lemmas.Layout

/-!
# Lemmas about the command line: how the classified words are used up
-/

namespace Verif
namespace Args
open Spec.Cmd

/-! ## One option -/

/-- An option with its value, as classified words. -/
inductive TokGives : Setting → Txt → List Tok → Prop
  | separate {s : Setting} {f : Found} (v : Txt) (h1 : f.act = .store (storeOf s)) (h2 : f.arg = none) : TokGives s v [.opt f, .plain v]
  | attached {s : Setting} {f : Found} {v : Txt} (h1 : f.act = .store (storeOf s)) (h2 : f.arg = some v) : TokGives s v [.opt f]

theorem storeOf_surj (x : Store) : ∃ s, x = storeOf s := by
  cases x
  · exact ⟨.format, rfl⟩
  · exact ⟨.ini, rfl⟩
  · exact ⟨.ext, rfl⟩

theorem explicit_store (rest : List Tok) (acts : List Taken) (long eq : Bool) (s : Store) (e : Txt) :
    explicit rest acts long eq (.store s) e = .ok (acts ++ [(.store s, [e])], false, rest) := by
  cases e <;> rfl

theorem following_head {acts : List Taken} {rest rest' : List Tok} {a : Act} {acts' : List Taken} {x : Bool}
    (h : following acts rest a = .ok (acts', x, rest')) : ∃ l, acts' = acts ++ l := by
  cases a with
  | store s =>
    simp only [following] at h
    split at h
    · simp only [Except.ok.injEq, Prod.mk.injEq] at h
      exact ⟨_, h.1.symm⟩
    · simp at h
  | help => simp only [following, Except.ok.injEq, Prod.mk.injEq] at h; exact ⟨_, h.1.symm⟩
  | version => simp only [following, Except.ok.injEq, Prod.mk.injEq] at h; exact ⟨_, h.1.symm⟩

theorem explicit_grow {rest rest' : List Tok} {acts acts' : List Taken} {long eq : Bool} {a : Act} {e : Txt} {x : Bool}
    (h : explicit rest acts long eq a e = .ok (acts', x, rest')) : ∃ l, acts' = acts ++ l := by
  induction e using List.twoStepInduction generalizing acts long eq a with
  | nil =>
    cases a with
    | store s => rw [explicit_store] at h; simp only [Except.ok.injEq, Prod.mk.injEq] at h; exact ⟨_, h.1.symm⟩
    | help => simp [explicit] at h
    | version => simp [explicit] at h
  | singleton c =>
    cases a with
    | store s => rw [explicit_store] at h; simp only [Except.ok.injEq, Prod.mk.injEq] at h; exact ⟨_, h.1.symm⟩
    | help | version =>
      simp only [explicit] at h
      split at h
      · simp at h
      split at h
      · simp at h
      split at h
      · simp only [Except.ok.injEq, Prod.mk.injEq] at h
        exact ⟨_, h.1.symm⟩
      · obtain ⟨l, rfl⟩ := following_head h
        exact ⟨_, by rw [List.append_assoc]⟩
  | cons_cons c d ds ih1 ih2 =>
    cases a with
    | store s => rw [explicit_store] at h; simp only [Except.ok.injEq, Prod.mk.injEq] at h; exact ⟨_, h.1.symm⟩
    | help | version =>
      rw [explicit] at h
      rotate_left
      · simp
      dsimp only at h
      split at h
      · simp at h
      split at h
      · simp at h
      split at h
      · simp only [Except.ok.injEq, Prod.mk.injEq] at h
        exact ⟨_, h.1.symm⟩
      · split at h
        · obtain ⟨l, rfl⟩ := ih1 h
          exact ⟨_, by rw [List.append_assoc]⟩
        · obtain ⟨l, rfl⟩ := ih2 d h
          exact ⟨_, by rw [List.append_assoc]⟩

/-- The first action of a flag is the flag itself. -/
theorem explicit_flag {rest rest' : List Tok} {acts' : List Taken} {long eq : Bool} {a : Act} {e : Txt} {x : Bool}
    (ha : a = .help ∨ a = .version) (h : explicit rest [] long eq a e = .ok (acts', x, rest')) :
    long = false ∧ ∃ l, acts' = (a, []) :: l := by
  cases e with
  | nil => rcases ha with rfl | rfl <;> simp [explicit] at h
  | cons c cs =>
    rcases ha with rfl | rfl <;>
    · rw [explicit] at h
      rotate_left
      · simp
      split at h
      · simp at h
      · rename_i hl
        refine ⟨by simpa using hl, ?_⟩
        split at h
        · simp at h
        · split at h
          · simp only [Except.ok.injEq, Prod.mk.injEq] at h
            exact ⟨[], h.1.symm⟩
          · split at h
            · obtain ⟨l, rfl⟩ := following_head h
              exact ⟨l, rfl⟩
            · split at h
              · obtain ⟨l, rfl⟩ := explicit_grow h
                exact ⟨l, rfl⟩
              · obtain ⟨l, rfl⟩ := explicit_grow h
                exact ⟨l, rfl⟩

theorem takeActions_flag {st : State} {a : Act} {as : List Txt} {l : List Taken} (ha : a = .help ∨ a = .version) :
    takeActions st ((a, as) :: l) = .error (if a = .help then .help else .version) := by
  rcases ha with rfl | rfl <;> rfl

theorem consumeOptional_eq (st : State) (f : Found) (rest : List Tok) : consumeOptional st f rest =
    match chain f rest with
    | .error x => .error x
    | .ok (acts, extra, rest) =>
      match takeActions { st with extras := st.extras || extra } acts with
      | .error x => .error x
      | .ok st => .ok (st, rest) := rfl

theorem chain_flag {f : Found} {rest rest' : List Tok} {acts : List Taken} {x : Bool} (ha : f.act = .help ∨ f.act = .version)
    (h : chain f rest = .ok (acts, x, rest')) : (f.arg = none ∨ f.name.take 2 ≠ ['-', '-']) ∧ ∃ l, acts = (f.act, []) :: l := by
  unfold chain at h
  cases hf : f.arg with
  | none =>
    rw [hf] at h
    dsimp only at h
    refine ⟨.inl rfl, ?_⟩
    rcases ha with ha | ha <;>
    · rw [ha] at h ⊢
      simp only [following, Except.ok.injEq, Prod.mk.injEq] at h
      exact ⟨[], h.1.symm⟩
  | some e =>
    rw [hf] at h
    dsimp only at h
    obtain ⟨h1, h2⟩ := explicit_flag ha h
    exact ⟨.inr (by simpa using h1), h2⟩

theorem takeStore_err {st : State} {s : Store} {v : Txt} {x : Exit} (h : takeStore st s v = .error x) : x = .error := by
  cases s with
  | format =>
    simp only [takeStore] at h
    split at h
    · simp at h
    · simpa using h.symm
  | ini => simp [takeStore] at h
  | ext => simp [takeStore] at h

/-- An option with a value does what it should. -/
theorem consume_gives (st : State) {s : Setting} {v : Txt} {f : Found} {K : List Tok} (h : TokGives s v (.opt f :: K)) (ks : List Tok) :
    consumeOptional st f (K ++ ks) =
      match takeStore st (storeOf s) v with
      | .error x => .error x
      | .ok st' => .ok (st', ks) := by
  rw [consumeOptional_eq]
  have hst : ({ st with extras := st.extras || false } : State) = st := by simp
  cases h with
  | separate v h1 h2 =>
    have : chain f ([.plain v] ++ ks) = .ok ([(.store (storeOf s), [v])], false, ks) := by
      unfold chain; rw [h2, h1]; rfl
    rw [this]
    dsimp only
    rw [hst]
    simp only [takeActions, List.headD_cons]
    cases takeStore st (storeOf s) v <;> rfl
  | attached h1 h2 =>
    have : chain f ([] ++ ks) = .ok ([(.store (storeOf s), [v])], false, ks) := by
      unfold chain; rw [h2, h1]; dsimp only; rw [explicit_store]; rfl
    rw [this]
    dsimp only
    rw [hst]
    simp only [takeActions, List.headD_cons]
    cases takeStore st (storeOf s) v <;> rfl

/-- Only options with values let the program go on. -/
theorem consume_ok {st st' : State} {f : Found} {ks ks' : List Tok} (h : consumeOptional st f ks = .ok (st', ks')) :
    ∃ s v K, TokGives s v (.opt f :: K) ∧ ks = K ++ ks' ∧ takeStore st (storeOf s) v = .ok st' := by
  rcases ha : f.act with _ | _ | x
  · exfalso
    rw [consumeOptional_eq] at h
    cases hc : chain f ks with
    | error x => rw [hc] at h; simp at h
    | ok p =>
      obtain ⟨acts, x, r⟩ := p
      rw [hc] at h
      obtain ⟨_, l, rfl⟩ := chain_flag (.inl ha) hc
      dsimp only at h
      rw [takeActions_flag (.inl ha)] at h
      simp at h
  · exfalso
    rw [consumeOptional_eq] at h
    cases hc : chain f ks with
    | error x => rw [hc] at h; simp at h
    | ok p =>
      obtain ⟨acts, x, r⟩ := p
      rw [hc] at h
      obtain ⟨_, l, rfl⟩ := chain_flag (.inr ha) hc
      dsimp only at h
      rw [takeActions_flag (.inr ha)] at h
      simp at h
  · obtain ⟨s, rfl⟩ := storeOf_surj x
    have finish : ∀ v K k, TokGives s v (.opt f :: K) → ks = K ++ k → ∃ s v K, TokGives s v (.opt f :: K) ∧ ks = K ++ ks' ∧
        takeStore st (storeOf s) v = .ok st' := by
      intro v K k hg hk
      rw [hk, consume_gives st hg] at h
      cases ht : takeStore st (storeOf s) v with
      | error x => rw [ht] at h; simp at h
      | ok s2 =>
        rw [ht] at h
        simp only [Except.ok.injEq, Prod.mk.injEq] at h
        obtain ⟨rfl, rfl⟩ := h
        exact ⟨s, v, K, hg, hk, ht⟩
    cases hf : f.arg with
    | some v => exact finish v [] ks (.attached ha hf) rfl
    | none =>
      rw [consumeOptional_eq] at h
      unfold chain at h
      rw [hf, ha] at h
      dsimp only [following] at h
      match ks, h, finish with
      | .plain v :: k, h, finish => exact finish v [.plain v] k (.separate v ha hf) rfl
      | [], h, _ => simp at h
      | .dashes :: _, h, _ => simp at h
      | .opt _ :: _, h, _ => simp at h
      | .unknown :: _, h, _ => simp at h

/-- Only flags end the program with code 0. -/
theorem consume_exit {st : State} {f : Found} {ks : List Tok} {x : Exit} (h : consumeOptional st f ks = .error x) (hx : x ≠ .error) :
    (f.act = .help ∨ f.act = .version) ∧ (f.arg = none ∨ f.name.take 2 ≠ ['-', '-']) := by
  rcases ha : f.act with _ | _ | s
  · refine ⟨.inl rfl, ?_⟩
    rw [consumeOptional_eq] at h
    cases hc : chain f ks with
    | error y =>
      rw [hc] at h
      simp only [Except.error.injEq] at h
      subst h
      by_contra hcon
      simp only [not_or, not_not] at hcon
      obtain ⟨h1, h2⟩ := hcon
      unfold chain at hc
      cases hf : f.arg with
      | none => exact h1 hf
      | some e =>
        rw [hf, ha, h2] at hc
        cases e with
        | nil => simp [explicit] at hc; exact hx hc.symm
        | cons c cs => simp [explicit] at hc; exact hx hc.symm
    | ok p =>
      obtain ⟨acts, y, r⟩ := p
      exact (chain_flag (.inl ha) hc).1
  · refine ⟨.inr rfl, ?_⟩
    rw [consumeOptional_eq] at h
    cases hc : chain f ks with
    | error y =>
      rw [hc] at h
      simp only [Except.error.injEq] at h
      subst h
      by_contra hcon
      simp only [not_or, not_not] at hcon
      obtain ⟨h1, h2⟩ := hcon
      unfold chain at hc
      cases hf : f.arg with
      | none => exact h1 hf
      | some e =>
        rw [hf, ha, h2] at hc
        cases e with
        | nil => simp [explicit] at hc; exact hx hc.symm
        | cons c cs => simp [explicit] at hc; exact hx hc.symm
    | ok p =>
      obtain ⟨acts, y, r⟩ := p
      exact (chain_flag (.inr ha) hc).1
  · exfalso
    obtain ⟨s, rfl⟩ := storeOf_surj s
    have finish : ∀ v K k, TokGives s v (.opt f :: K) → ks = K ++ k → False := by
      intro v K k hg hk
      rw [hk, consume_gives st hg] at h
      cases ht : takeStore st (storeOf s) v with
      | error y =>
        rw [ht] at h
        simp only [Except.error.injEq] at h
        subst h
        exact hx (takeStore_err ht)
      | ok s2 => rw [ht] at h; simp at h
    cases hf : f.arg with
    | some v => exact finish v [] ks (.attached ha hf) rfl
    | none =>
      have he : ∀ y, chain f ks = .error y → y = .error → False := by
        intro y hc hy
        rw [consumeOptional_eq, hc] at h
        simp only [Except.error.injEq] at h
        exact hx (h ▸ hy)
      have hc : chain f ks = following [] ks (.store (storeOf s)) := by unfold chain; rw [hf, ha]
      match ks, he, hc, finish with
      | .plain v :: k, _, _, finish => exact finish v [.plain v] k (.separate v ha hf) rfl
      | [], he, hc, _ => exact he .error hc rfl
      | .dashes :: _, he, hc, _ => exact he .error hc rfl
      | .opt _ :: _, he, hc, _ => exact he .error hc rfl
      | .unknown :: _, he, hc, _ => exact he .error hc rfl

theorem consume_flag (st : State) {f : Found} (ha : f.act = .help ∨ f.act = .version) (hf : f.arg = none) (ks : List Tok) :
    consumeOptional st f ks = .error (if f.act = .help then .help else .version) := by
  rw [consumeOptional_eq]
  unfold chain
  rw [hf]
  rcases ha with ha | ha <;> rw [ha] <;> rfl

/-! ## Sequences of options -/

inductive TokOptions : List (Setting × Txt) → List Tok → Prop
  | nil : TokOptions [] []
  | cons {s v K l ks} (h : TokGives s v K) (t : TokOptions l ks) : TokOptions ((s, v) :: l) (K ++ ks)

/-- The values are stored one after the other. -/
def takeAll : State → List (Setting × Txt) → Res State
  | st, [] => .ok st
  | st, (s, v) :: l =>
    match takeStore st (storeOf s) v with
    | .error x => .error x
    | .ok st => takeAll st l

theorem takeAll_append (st : State) (l m : List (Setting × Txt)) : takeAll st (l ++ m) =
    match takeAll st l with
    | .error x => .error x
    | .ok st => takeAll st m := by
  induction l generalizing st with
  | nil => rfl
  | cons p l ih =>
    obtain ⟨s, v⟩ := p
    rw [List.cons_append, takeAll, takeAll]
    cases takeStore st (storeOf s) v with
    | error x => rfl
    | ok st => exact ih st

theorem takeStore_keep {st st' : State} {s : Store} {v : Txt} (h : takeStore st s v = .ok st') :
    st'.source = st.source ∧ st'.extras = st.extras ∧
      ∀ src, takeStore { st with source := src } s v = .ok { st' with source := src } := by
  cases s with
  | format =>
    simp only [takeStore] at h
    split at h
    · rename_i hm
      simp only [Except.ok.injEq] at h
      subst h
      exact ⟨rfl, rfl, fun src => by simp [takeStore, hm]⟩
    · simp at h
  | ini => simp only [takeStore, Except.ok.injEq] at h; subst h; exact ⟨rfl, rfl, fun _ => rfl⟩
  | ext => simp only [takeStore, Except.ok.injEq] at h; subst h; exact ⟨rfl, rfl, fun _ => rfl⟩

theorem takeAll_keep {st st' : State} {l : List (Setting × Txt)} (h : takeAll st l = .ok st') :
    st'.source = st.source ∧ st'.extras = st.extras ∧
      ∀ src, takeAll { st with source := src } l = .ok { st' with source := src } := by
  induction l generalizing st with
  | nil =>
    simp only [takeAll, Except.ok.injEq] at h
    subst h
    exact ⟨rfl, rfl, fun _ => rfl⟩
  | cons p l ih =>
    obtain ⟨s, v⟩ := p
    rw [takeAll] at h
    cases hs : takeStore st (storeOf s) v with
    | error x => rw [hs] at h; simp at h
    | ok st1 =>
      rw [hs] at h
      obtain ⟨h1, h2, h3⟩ := takeStore_keep hs
      obtain ⟨h4, h5, h6⟩ := ih h
      refine ⟨h4.trans h1, h5.trans h2, fun src => ?_⟩
      rw [takeAll, h3 src]
      exact h6 src

/-- The values of the settings after all. -/
theorem takeAll_value {st st' : State} {l : List (Setting × Txt)} (h : takeAll st l = .ok st') :
    (∀ v, (Setting.format, v) ∈ l → v ∈ formats) ∧ st'.format = (last .format l).getD st.format ∧
      st'.ini = (last .ini l).or st.ini ∧ st'.ext = (last .ext l).getD st.ext := by
  induction l using List.reverseRecOn generalizing st' with
  | nil =>
    simp only [takeAll, Except.ok.injEq] at h
    subst h
    simp [last]
  | append_singleton l p ih =>
    obtain ⟨s, v⟩ := p
    rw [takeAll_append] at h
    cases hl : takeAll st l with
    | error x => rw [hl] at h; simp at h
    | ok st1 =>
      rw [hl] at h
      obtain ⟨h1, h2, h3, h4⟩ := ih hl
      simp only [takeAll] at h
      cases hs : takeStore st1 (storeOf s) v with
      | error x => rw [hs] at h; simp at h
      | ok st2 =>
        rw [hs] at h
        simp only [Except.ok.injEq] at h
        subst h
        cases s with
        | format =>
          simp only [storeOf, takeStore] at hs
          split at hs
          · rename_i hm
            simp only [Except.ok.injEq] at hs
            subst hs
            refine ⟨?_, ?_, ?_, ?_⟩
            · intro w hw
              rcases List.mem_append.mp hw with hw | hw
              · exact h1 w hw
              · simp only [List.mem_singleton, Prod.mk.injEq, true_and] at hw
                rw [hw]; exact hm
            · simp [last]
            · rw [h3]; simp [last]
            · rw [h4]; simp [last]
          · simp at hs
        | ini =>
          simp only [storeOf, takeStore, Except.ok.injEq] at hs
          subst hs
          refine ⟨?_, ?_, ?_, ?_⟩
          · intro w hw
            rcases List.mem_append.mp hw with hw | hw
            · exact h1 w hw
            · simp at hw
          · dsimp only; rw [h2]; simp [last]
          · simp [last]
          · dsimp only; rw [h4]; simp [last]
        | ext =>
          simp only [storeOf, takeStore, Except.ok.injEq] at hs
          subst hs
          refine ⟨?_, ?_, ?_, ?_⟩
          · intro w hw
            rcases List.mem_append.mp hw with hw | hw
            · exact h1 w hw
            · simp at hw
          · dsimp only; rw [h2]; simp [last]
          · dsimp only; rw [h3]; simp [last]
          · simp [last]

theorem takeAll_total (st : State) {l : List (Setting × Txt)} (h : ∀ v, (Setting.format, v) ∈ l → v ∈ formats) :
    ∃ st', takeAll st l = .ok st' := by
  induction l generalizing st with
  | nil => exact ⟨st, rfl⟩
  | cons p l ih =>
    obtain ⟨s, v⟩ := p
    have hs : ∃ st1, takeStore st (storeOf s) v = .ok st1 := by
      cases s with
      | format =>
        have : v ∈ choices := h v (by simp)
        exact ⟨_, if_pos this⟩
      | ini => exact ⟨_, rfl⟩
      | ext => exact ⟨_, rfl⟩
    obtain ⟨st1, hs⟩ := hs
    obtain ⟨st2, h2⟩ := ih st1 (fun w hw => h w (by simp [hw]))
    exact ⟨st2, by rw [takeAll, hs]; exact h2⟩

/-! ## The loop -/

/-- What classification gives: after `--` there are only plain words, before it no plain word is `--`. -/
def Wf : List Tok → Prop
  | [] => True
  | .dashes :: ks => ∃ ts : List Txt, ks = ts.map .plain
  | .plain t :: ks => t ≠ ['-', '-'] ∧ Wf ks
  | .opt _ :: ks => Wf ks
  | .unknown :: ks => Wf ks

theorem texts_plain (ts : List Txt) : texts (ts.map .plain) = ts := by
  induction ts with
  | nil => rfl
  | cons t ts ih => simp [texts, ih]

theorem any_plain (ts : List Txt) : (ts.map Tok.plain).any Tok.isOption = false := by
  induction ts with
  | nil => rfl
  | cons t ts ih => rw [List.map_cons, List.any_cons, ih]; rfl

/-- Without options there are plain words, and possibly `--` with plain words. -/
theorem wf_plain {ks : List Tok} (hw : Wf ks) (h : ks.any Tok.isOption = false) :
    ∃ ps : List Txt, ['-', '-'] ∉ ps ∧ (ks = ps.map .plain ∨ ∃ more : List Txt, ks = ps.map .plain ++ .dashes :: more.map .plain) := by
  induction ks with
  | nil => exact ⟨[], by simp, .inl rfl⟩
  | cons k ks ih =>
    rw [List.any_cons, Bool.or_eq_false_iff] at h
    cases k with
    | plain t =>
      obtain ⟨ps, hp, h1⟩ := ih hw.2 h.2
      refine ⟨t :: ps, by simp only [List.mem_cons, not_or]; exact ⟨fun e => hw.1 e.symm, hp⟩, ?_⟩
      rcases h1 with rfl | ⟨more, rfl⟩
      · left; rfl
      · right; exact ⟨more, rfl⟩
    | dashes =>
      obtain ⟨ts, rfl⟩ := hw
      exact ⟨[], by simp, .inr ⟨ts, rfl⟩⟩
    | opt f => simp [Tok.isOption] at h
    | unknown => simp [Tok.isOption] at h

theorem wf_run {ks : List Tok} (hw : Wf ks) : ∃ ps : List Txt, ['-', '-'] ∉ ps ∧ ks.takeWhile Tok.isPlain = ps.map .plain ∧
    Wf (ks.dropWhile Tok.isPlain) ∧ ks = ps.map .plain ++ ks.dropWhile Tok.isPlain := by
  induction ks with
  | nil => exact ⟨[], by simp, rfl, trivial, rfl⟩
  | cons k ks ih =>
    cases k with
    | plain t =>
      obtain ⟨ps, h0, h1, h2, h3⟩ := ih hw.2
      refine ⟨t :: ps, by simp only [List.mem_cons, not_or]; exact ⟨fun e => hw.1 e.symm, h0⟩, ?_, ?_, ?_⟩
      · rw [List.takeWhile_cons_of_pos rfl, h1]; rfl
      · rw [List.dropWhile_cons_of_pos rfl]; exact h2
      · rw [List.dropWhile_cons_of_pos rfl, List.map_cons, List.cons_append, ← h3]
    | dashes => exact ⟨[], by simp, rfl, hw, rfl⟩
    | opt f => exact ⟨[], by simp, rfl, hw, rfl⟩
    | unknown => exact ⟨[], by simp, rfl, hw, rfl⟩

theorem wf_append {K ks : List Tok} (h : Wf (K ++ ks)) (hd : Tok.dashes ∉ K) : Wf ks := by
  induction K with
  | nil => exact h
  | cons k K ih =>
    have hd' : Tok.dashes ∉ K := fun e => hd (by simp [e])
    cases k with
    | plain t => exact ih h.2 hd'
    | dashes => simp at hd
    | opt f => exact ih h hd'
    | unknown => exact ih h hd'

theorem TokGives.nodash {s : Setting} {v : Txt} {K : List Tok} (h : TokGives s v K) : Tok.dashes ∉ K ∧ 1 ≤ K.length := by
  cases h <;> simp

theorem TokOptions.nodash {l : List (Setting × Txt)} {K : List Tok} (h : TokOptions l K) : Tok.dashes ∉ K := by
  induction h with
  | nil => simp
  | cons h _ ih => simp only [List.mem_append, not_or]; exact ⟨h.nodash.1, ih⟩

theorem loop_opt (n : Nat) (st : State) (f : Found) (ks : List Tok) : loop (n + 1) st (.opt f :: ks) =
    match consumeOptional st f ks with
    | .error x => .error x
    | .ok (st, ks) => loop n st ks := rfl

theorem loop_unknown (n : Nat) (st : State) (ks : List Tok) : loop (n + 1) st (.unknown :: ks) = loop n { st with extras := true } ks := rfl

theorem loop_plain (n : Nat) (st : State) (t : Txt) (ks : List Tok) (h : ks.any Tok.isOption = true) :
    loop (n + 1) st (.plain t :: ks) =
      match st.source with
      | none => loop n { st with source := some (sourceValue ((Tok.plain t :: ks).takeWhile Tok.isPlain)) } (ks.dropWhile Tok.isPlain)
      | some _ => loop n { st with extras := true } (ks.dropWhile Tok.isPlain) := by
  have h' : (Tok.plain t :: ks).any Tok.isOption = true := by rw [List.any_cons, h, Bool.or_true]
  have : loop (n + 1) st (.plain t :: ks) = if (Tok.plain t :: ks).any Tok.isOption = true then
      (match st.source with
      | none => loop n { st with source := some (sourceValue ((Tok.plain t :: ks).takeWhile Tok.isPlain)) } (ks.dropWhile Tok.isPlain)
      | some _ => loop n { st with extras := true } (ks.dropWhile Tok.isPlain))
      else .ok (finish st (.plain t :: ks)) := rfl
  rw [this, if_pos h']

theorem loop_end (n : Nat) (st : State) (ks : List Tok) (h : ks.any Tok.isOption = false) : loop n st ks = .ok (finish st ks) := by
  cases n with
  | zero => rfl
  | succ n => unfold loop; rw [if_neg (by simp [h])]

/-- The cases of the loop. -/
theorem loop_cases {ks : List Tok} (hw : Wf ks) : ks.any Tok.isOption = false ∨ (∃ f k, ks = .opt f :: k) ∨ (∃ k, ks = .unknown :: k) ∨
    ∃ t k, ks = .plain t :: k ∧ k.any Tok.isOption = true := by
  match ks, hw with
  | [], _ => left; rfl
  | .opt f :: k, _ => right; left; exact ⟨f, k, rfl⟩
  | .unknown :: k, _ => right; right; left; exact ⟨k, rfl⟩
  | .plain t :: k, _ =>
    cases h : k.any Tok.isOption with
    | false => left; rw [List.any_cons, h]; rfl
    | true => right; right; right; exact ⟨t, k, rfl, h⟩
  | .dashes :: k, hw =>
    left
    obtain ⟨ts, rfl⟩ := hw
    rw [List.any_cons, any_plain]; rfl

/-- After the sources only options are possible. -/
theorem loop_after {n : Nat} {st st' : State} {ks : List Tok} (hn : ks.length ≤ n) (hw : Wf ks) (h : loop n st ks = .ok st')
    (he : st'.extras = false) {src : List Txt} (hs : st.source = some src) :
    st.extras = false ∧ ∃ l, TokOptions l ks ∧ takeAll st l = .ok st' := by
  have hend : ks.any Tok.isOption = false → st.extras = false ∧ ∃ l, TokOptions l ks ∧ takeAll st l = .ok st' := by
    intro hany
    rw [loop_end n st ks hany] at h
    simp only [Except.ok.injEq] at h
    subst h
    have hf : finish st ks = { st with extras := st.extras || !ks.isEmpty } := by unfold finish; rw [hs]
    rw [hf] at he ⊢
    simp only [Bool.or_eq_false_iff, Bool.not_eq_eq_eq_not, Bool.not_false, List.isEmpty_iff] at he
    obtain ⟨he, rfl⟩ := he
    refine ⟨he, [], .nil, ?_⟩
    simp [takeAll]
  induction n generalizing st ks with
  | zero =>
    have : ks = [] := List.length_eq_zero_iff.mp (by omega)
    subst this
    exact hend rfl
  | succ n ih =>
    have ih' : ∀ {st : State} {ks : List Tok}, ks.length ≤ n → Wf ks → loop n st ks = .ok st' → st.source = some src →
        st.extras = false ∧ ∃ l, TokOptions l ks ∧ takeAll st l = .ok st' := by
      intro st ks h1 h2 h3 h4
      refine ih h1 h2 h3 h4 ?_
      intro hany
      rw [loop_end n st ks hany] at h3
      simp only [Except.ok.injEq] at h3
      subst h3
      have hf : finish st ks = { st with extras := st.extras || !ks.isEmpty } := by unfold finish; rw [h4]
      rw [hf] at he ⊢
      simp only [Bool.or_eq_false_iff, Bool.not_eq_eq_eq_not, Bool.not_false, List.isEmpty_iff] at he
      obtain ⟨he, rfl⟩ := he
      refine ⟨he, [], .nil, ?_⟩
      simp [takeAll]
    rcases loop_cases hw with hany | ⟨f, ks, rfl⟩ | ⟨ks, rfl⟩ | ⟨t, ks, rfl, hany⟩
    · exact hend hany
    · rw [loop_opt] at h
      cases hc : consumeOptional st f ks with
      | error x => rw [hc] at h; simp at h
      | ok p =>
        obtain ⟨st1, ks1⟩ := p
        rw [hc] at h
        obtain ⟨s, v, K, hg, rfl, ht⟩ := consume_ok hc
        obtain ⟨k1, k2, _⟩ := takeStore_keep ht
        have hK : Tok.dashes ∉ K := fun e => hg.nodash.1 (by simp [e])
        obtain ⟨h1, l, h2, h3⟩ := ih' (by simp at hn; omega) (wf_append (K := K) hw hK) h (k1.trans hs)
        refine ⟨k2 ▸ h1, (s, v) :: l, .cons hg h2, ?_⟩
        rw [takeAll, ht]; exact h3
    · rw [loop_unknown] at h
      obtain ⟨h1, _⟩ := ih' (st := { st with extras := true }) (ks := ks) (by simp at hn; omega) hw h hs
      simp at h1
    · rw [loop_plain _ _ _ _ hany, hs] at h
      obtain ⟨ps, _, _, h2, _⟩ := wf_run (ks := ks) hw.2
      have hlen := (List.dropWhile_suffix Tok.isPlain (l := ks)).length_le
      obtain ⟨h1, _⟩ := ih' (st := { st with source := some src, extras := true }) (by simp at hn; omega) h2 h rfl
      simp at h1

theorem texts_dashes (ps more : List Txt) : texts (ps.map Tok.plain ++ .dashes :: more.map .plain) = ps ++ ['-', '-'] :: more := by
  induction ps with
  | nil => simp [texts, texts_plain]
  | cons p ps ih => simp [texts, ih]

theorem finish_plain {st : State} (hs : st.source = none) {ps : List Txt} (hp : ['-', '-'] ∉ ps) (hne : ps ≠ []) :
    finish st (ps.map .plain) = { st with source := some ps } := by
  obtain ⟨p, ps, rfl⟩ := List.exists_cons_of_ne_nil hne
  have hsv : sourceValue ((p :: ps).map .plain) = p :: ps := by rw [sourceValue, texts_plain, List.erase_of_not_mem hp]
  unfold finish
  rw [hs, hsv]
  rfl

theorem finish_dashes {st : State} (hs : st.source = none) {ps more : List Txt} (hp : ['-', '-'] ∉ ps) (hne : ps ++ more ≠ []) :
    finish st (ps.map .plain ++ .dashes :: more.map .plain) = { st with source := some (ps ++ more) } := by
  have hsv : sourceValue (ps.map Tok.plain ++ .dashes :: more.map .plain) = ps ++ more := by
    rw [sourceValue, texts_dashes, List.erase_append_right _ hp]; simp
  unfold finish
  rw [hs, hsv]
  cases ps with
  | cons p ps => rfl
  | nil =>
    cases more with
    | nil => simp at hne
    | cons m more => rfl

theorem finish_bare {st : State} (hs : st.source = none) : (finish st [.dashes]).extras = true := by
  unfold finish
  rw [hs]
  simp [List.dropWhile, Tok.isDashes]

/-- Options, sources, options or `--` and sources. -/
theorem loop_before {n : Nat} {st st' : State} {ks : List Tok} (hn : ks.length ≤ n) (hw : Wf ks) (h : loop n st ks = .ok st')
    (he : st'.extras = false) (hs : st.source = none) {src : List Txt} (hs' : st'.source = some src) :
    st.extras = false ∧ ∃ l1 K1 ps st1, TokOptions l1 K1 ∧ ['-', '-'] ∉ ps ∧ takeAll st l1 = .ok st1 ∧
      ((∃ l2 K2, ps ≠ [] ∧ ks = K1 ++ ps.map .plain ++ K2 ∧ TokOptions l2 K2 ∧
          takeAll { st1 with source := some ps } l2 = .ok st') ∨
        (∃ more : List Txt, ps ++ more ≠ [] ∧ ks = K1 ++ ps.map .plain ++ .dashes :: more.map .plain ∧
          st' = { st1 with source := some (ps ++ more) })) := by
  induction n generalizing st ks with
  | zero =>
    have : ks = [] := List.length_eq_zero_iff.mp (by omega)
    subst this
    simp only [loop, finish, hs, Except.ok.injEq] at h
    subst h
    simp at hs'
  | succ n ih =>
    have hend : ∀ st : State, st.source = none → finish st ks = st' → ks.any Tok.isOption = false →
        st.extras = false ∧ ∃ l1 K1 ps st1, TokOptions l1 K1 ∧ ['-', '-'] ∉ ps ∧ takeAll st l1 = .ok st1 ∧
      ((∃ l2 K2, ps ≠ [] ∧ ks = K1 ++ ps.map .plain ++ K2 ∧ TokOptions l2 K2 ∧
          takeAll { st1 with source := some ps } l2 = .ok st') ∨
        (∃ more : List Txt, ps ++ more ≠ [] ∧ ks = K1 ++ ps.map .plain ++ .dashes :: more.map .plain ∧
          st' = { st1 with source := some (ps ++ more) })) := by
      intro st hs h hany
      obtain ⟨ps, hp, hk⟩ := wf_plain hw hany
      rcases hk with rfl | ⟨more, rfl⟩
      · cases ps with
        | nil =>
          simp only [finish, hs, List.map_nil, List.dropWhile_nil] at h
          subst h
          simp at hs'
        | cons p ps =>
          have hf := finish_plain (st := st) hs hp (List.cons_ne_nil p ps)
          rw [hf] at h
          subst h
          refine ⟨he, [], [], p :: ps, st, .nil, hp, rfl, .inl ⟨[], [], by simp, by simp, .nil, rfl⟩⟩
      · by_cases hne : ps ++ more = []
        · exfalso
          rw [List.append_eq_nil_iff] at hne
          obtain ⟨rfl, rfl⟩ := hne
          have := finish_bare (st := st) hs
          rw [show ([] : List Txt).map Tok.plain ++ Tok.dashes :: ([] : List Txt).map Tok.plain = [.dashes] from rfl] at h
          rw [h, he] at this
          simp at this
        · rw [finish_dashes hs hp hne] at h
          subst h
          exact ⟨he, [], [], ps, st, .nil, hp, rfl, .inr ⟨more, hne, by simp, rfl⟩⟩
    rcases loop_cases hw with hany | ⟨f, ks, rfl⟩ | ⟨ks, rfl⟩ | ⟨t, ks, rfl, hany⟩
    · rw [loop_end _ _ _ hany] at h
      simp only [Except.ok.injEq] at h
      exact hend st hs h hany
    · rw [loop_opt] at h
      cases hc : consumeOptional st f ks with
      | error x => rw [hc] at h; simp at h
      | ok p =>
        obtain ⟨st1, ks1⟩ := p
        rw [hc] at h
        obtain ⟨s, v, K, hg, rfl, ht⟩ := consume_ok hc
        obtain ⟨k1, k2, _⟩ := takeStore_keep ht
        have hK : Tok.dashes ∉ K := fun e => hg.nodash.1 (by simp [e])
        obtain ⟨h1, l1, K1, ps, st2, h2, h3, h4, h5⟩ := ih (by simp at hn; omega) (wf_append (K := K) hw hK) h (k1.trans hs)
        refine ⟨k2 ▸ h1, (s, v) :: l1, (.opt f :: K) ++ K1, ps, st2, .cons hg h2, h3, ?_, ?_⟩
        · rw [takeAll, ht]; exact h4
        · rcases h5 with ⟨l2, K2, a, rfl, c, d⟩ | ⟨more, a, rfl, c⟩
          · exact .inl ⟨l2, K2, a, by simp, c, d⟩
          · exact .inr ⟨more, a, by simp, c⟩
    · rw [loop_unknown] at h
      obtain ⟨h1, _⟩ := ih (st := { st with extras := true }) (ks := ks) (by simp at hn; omega) hw h hs
      simp at h1
    · rw [loop_plain _ _ _ _ hany, hs] at h
      dsimp only at h
      obtain ⟨ps, hp, htk, h2, h3⟩ := wf_run hw
      have hdrop : (Tok.plain t :: ks).dropWhile Tok.isPlain = ks.dropWhile Tok.isPlain := List.dropWhile_cons_of_pos rfl
      rw [hdrop] at h2 h3
      have hlen := (List.dropWhile_suffix Tok.isPlain (l := ks)).length_le
      have hsv : sourceValue (ps.map .plain) = ps := by rw [sourceValue, texts_plain, List.erase_of_not_mem hp]
      rw [htk, hsv] at h
      obtain ⟨h1, l, h4, h5⟩ := loop_after (by simp at hn; omega) h2 h he (src := ps) rfl
      refine ⟨h1, [], [], ps, st, .nil, hp, rfl, .inl ⟨l, _, ?_, ?_, h4, h5⟩⟩
      · rintro rfl
        rw [List.takeWhile_cons_of_pos rfl] at htk
        simp at htk
      · rw [List.nil_append]; exact h3

/-! ## The loop, the other way round -/

theorem loop_options {l : List (Setting × Txt)} {K : List Tok} (h : TokOptions l K) {st st1 : State} (ht : takeAll st l = .ok st1)
    {n : Nat} {ks : List Tok} (hn : (K ++ ks).length ≤ n) : ∃ m, ks.length ≤ m ∧ loop n st (K ++ ks) = loop m st1 ks := by
  induction h generalizing n st with
  | nil =>
    simp only [takeAll, Except.ok.injEq] at ht
    subst ht
    exact ⟨n, hn, rfl⟩
  | @cons s v K l K2 hg _ ih =>
    rw [takeAll] at ht
    cases hs : takeStore st (storeOf s) v with
    | error x => rw [hs] at ht; simp at ht
    | ok st2 =>
      rw [hs] at ht
      have hK : ∃ f K', K = .opt f :: K' := by cases hg <;> exact ⟨_, _, rfl⟩
      obtain ⟨f, K', rfl⟩ := hK
      cases n with
      | zero => simp at hn
      | succ n =>
        obtain ⟨m, h1, h2⟩ := ih ht (n := n) (by simp at hn ⊢; omega)
        refine ⟨m, h1, ?_⟩
        rw [List.append_assoc, List.cons_append, loop_opt, consume_gives st hg, hs]
        exact h2

theorem takeWhile_plains (ps : List Txt) {ks : List Tok} (hk : ∀ t k, ks ≠ .plain t :: k) :
    (ps.map Tok.plain ++ ks).takeWhile Tok.isPlain = ps.map .plain ∧ (ps.map Tok.plain ++ ks).dropWhile Tok.isPlain = ks := by
  induction ps with
  | nil =>
    match ks, hk with
    | [], _ => exact ⟨rfl, rfl⟩
    | .plain t :: k, hk => exact absurd rfl (hk t k)
    | .dashes :: k, _ => exact ⟨rfl, rfl⟩
    | .opt f :: k, _ => exact ⟨rfl, rfl⟩
    | .unknown :: k, _ => exact ⟨rfl, rfl⟩
  | cons p ps ih =>
    rw [List.map_cons, List.cons_append, List.takeWhile_cons_of_pos rfl, List.dropWhile_cons_of_pos rfl, ih.1]
    exact ⟨rfl, ih.2⟩

/-- Plain words before an option are the sources. -/
theorem loop_run {st : State} (hs : st.source = none) {ps : List Txt} (hp : ['-', '-'] ∉ ps) (hne : ps ≠ []) {f : Found} {ks : List Tok}
    {n : Nat} (hn : (ps.map Tok.plain ++ .opt f :: ks).length ≤ n) :
    ∃ m, (Tok.opt f :: ks).length ≤ m ∧ loop n st (ps.map .plain ++ .opt f :: ks) = loop m { st with source := some ps } (.opt f :: ks) := by
  obtain ⟨p, qs, rfl⟩ := List.exists_cons_of_ne_nil hne
  cases n with
  | zero => simp at hn
  | succ n =>
    refine ⟨n, by simp at hn ⊢; omega, ?_⟩
    obtain ⟨h1, h2⟩ := takeWhile_plains (p :: qs) (ks := .opt f :: ks) (by simp)
    obtain ⟨_, h3⟩ := takeWhile_plains qs (ks := .opt f :: ks) (by simp)
    have hany : (qs.map Tok.plain ++ .opt f :: ks).any Tok.isOption = true := by simp [Tok.isOption]
    rw [List.map_cons, List.cons_append] at h1 ⊢
    rw [loop_plain _ _ _ _ hany, hs]
    dsimp only
    rw [h1, h3, ← List.map_cons (f := Tok.plain), sourceValue, texts_plain, List.erase_of_not_mem hp]

/-- Flags are the only reason for exit code 0. -/
theorem loop_exit {n : Nat} {st : State} {ks : List Tok} {x : Exit} (h : loop n st ks = .error x) (hx : x ≠ .error) :
    ∃ f, Tok.opt f ∈ ks ∧ (f.act = .help ∨ f.act = .version) ∧ (f.arg = none ∨ f.name.take 2 ≠ ['-', '-']) := by
  induction n generalizing st ks with
  | zero => simp [loop] at h
  | succ n ih =>
    cases hany : ks.any Tok.isOption with
    | false => rw [loop_end _ _ _ hany] at h; simp at h
    | true =>
      match ks, h, hany with
      | .opt f :: ks, h, _ =>
        rw [loop_opt] at h
        cases hc : consumeOptional st f ks with
        | error y =>
          rw [hc] at h
          simp only [Except.error.injEq] at h
          subst h
          exact ⟨f, by simp, consume_exit hc hx⟩
        | ok p =>
          obtain ⟨st1, ks1⟩ := p
          rw [hc] at h
          obtain ⟨s, v, K, hg, rfl, ht⟩ := consume_ok hc
          obtain ⟨g, h1, h2⟩ := ih h
          exact ⟨g, by simp [h1], h2⟩
      | .unknown :: ks, h, _ =>
        rw [loop_unknown] at h
        obtain ⟨g, h1, h2⟩ := ih h
        exact ⟨g, by simp [h1], h2⟩
      | .plain t :: ks, h, hany =>
        have hany' : ks.any Tok.isOption = true := by
          rw [List.any_cons] at hany; simpa [Tok.isOption] using hany
        rw [loop_plain _ _ _ _ hany'] at h
        have hsub := (List.dropWhile_suffix Tok.isPlain (l := ks)).subset
        split at h
        · obtain ⟨g, h1, h2⟩ := ih h
          exact ⟨g, List.mem_cons_of_mem _ (hsub h1), h2⟩
        · obtain ⟨g, h1, h2⟩ := ih h
          exact ⟨g, List.mem_cons_of_mem _ (hsub h1), h2⟩
      | .dashes :: ks, h, hany =>
        have e : loop (n + 1) st (.dashes :: ks) = if (Tok.dashes :: ks).any Tok.isOption = true then
          (match st.source with
          | none => loop n { st with source := some (sourceValue []) } (.dashes :: ks)
          | some _ => loop n { st with extras := true } (.dashes :: ks))
          else .ok (finish st (.dashes :: ks)) := rfl
        rw [e, if_pos hany] at h
        split at h
        · exact ih h
        · exact ih h
      | [], _, hany => simp at hany

/-! ## Classification of a command line -/

theorem classify_dash (ts : List Txt) : classify (['-', '-'] :: ts) = .ok (.dashes :: ts.map .plain) := rfl

theorem classify_cons {t : Txt} (ht : t ≠ ['-', '-']) (ts : List Txt) : classify (t :: ts) =
    match parseOptional t with
    | .error x => .error x
    | .ok k =>
      match classify ts with
      | .error x => .error x
      | .ok ks => .ok (k :: ks) := by
  rw [classify, if_neg ht]
  rfl

theorem classify_inv {t : Txt} (ht : t ≠ ['-', '-']) {ts : List Txt} {ks : List Tok} (h : classify (t :: ts) = .ok ks) :
    ∃ k ks', ks = k :: ks' ∧ parseOptional t = .ok k ∧ classify ts = .ok ks' := by
  rw [classify_cons ht] at h
  cases h1 : parseOptional t with
  | error x => rw [h1] at h; simp at h
  | ok k =>
    rw [h1] at h
    cases h2 : classify ts with
    | error x => rw [h2] at h; simp at h
    | ok ks' =>
      rw [h2] at h
      simp only [Except.ok.injEq] at h
      exact ⟨k, ks', h.symm, rfl, rfl⟩

theorem not_plain_dashes : ¬ Plain ['-', '-'] := by
  rintro (h | h | ⟨h, _⟩)
  · simp at h
  · simp at h
  · exact h (.long (m := "--help".toList) (by simp) ⟨['h', 'e', 'l', 'p'], rfl⟩ (by simp))

theorem classify_wf {ws : List Txt} {ks : List Tok} (h : classify ws = .ok ks) : Wf ks := by
  induction ws generalizing ks with
  | nil => simp only [classify, Except.ok.injEq] at h; subst h; trivial
  | cons t ts ih =>
    by_cases ht : t = ['-', '-']
    · subst ht
      rw [classify_dash] at h
      simp only [Except.ok.injEq] at h
      subst h
      exact ⟨ts, rfl⟩
    · obtain ⟨k, ks', rfl, h1, h2⟩ := classify_inv ht h
      have := ih h2
      cases k with
      | plain s => exact ⟨(read_plain ht h1).1 ▸ ht, this⟩
      | dashes => exact absurd h1 (read_dashes ht)
      | opt f => exact this
      | unknown => exact this

theorem classify_append {ws : List Txt} {K : List Tok} (h : classify ws = .ok K) (hd : ['-', '-'] ∉ ws) (rest : List Txt) :
    classify (ws ++ rest) =
      match classify rest with
      | .error x => .error x
      | .ok ks => .ok (K ++ ks) := by
  induction ws generalizing K with
  | nil =>
    simp only [classify, Except.ok.injEq] at h
    subst h
    rw [List.nil_append]
    cases classify rest <;> rfl
  | cons t ts ih =>
    simp only [List.mem_cons, not_or] at hd
    have ht : t ≠ ['-', '-'] := fun e => hd.1 e.symm
    obtain ⟨k, ks', rfl, h1, h2⟩ := classify_inv ht h
    rw [List.cons_append, classify_cons ht, h1, ih h2 hd.2]
    cases classify rest <;> rfl

theorem classify_split {ws : List Txt} {K ks : List Tok} (h : classify ws = .ok (K ++ ks)) (hd : Tok.dashes ∉ K) :
    ∃ ws1 ws2, ws = ws1 ++ ws2 ∧ classify ws1 = .ok K ∧ classify ws2 = .ok ks ∧ ['-', '-'] ∉ ws1 := by
  induction K generalizing ws with
  | nil => exact ⟨[], ws, rfl, rfl, h, by simp⟩
  | cons k K ih =>
    simp only [List.mem_cons, not_or] at hd
    cases ws with
    | nil => simp [classify] at h
    | cons t ts =>
      have ht : t ≠ ['-', '-'] := by
        rintro rfl
        rw [classify_dash] at h
        simp only [Except.ok.injEq, List.cons_append, List.cons.injEq] at h
        exact hd.1 h.1
      obtain ⟨k', ks', he, h1, h2⟩ := classify_inv ht h
      simp only [List.cons_append, List.cons.injEq] at he
      obtain ⟨rfl, rfl⟩ := he
      obtain ⟨ws1, ws2, rfl, h3, h4, h5⟩ := ih h2 hd.2
      refine ⟨t :: ws1, ws2, rfl, ?_, h4, ?_⟩
      · rw [classify_cons ht, h1, h3]
      · simp only [List.mem_cons, not_or]; exact ⟨fun e => ht e.symm, h5⟩

theorem classify_plain {ps : List Txt} (h : ∀ w ∈ ps, Plain w) : classify ps = .ok (ps.map .plain) ∧ ['-', '-'] ∉ ps := by
  induction ps with
  | nil => exact ⟨rfl, by simp⟩
  | cons p ps ih =>
    obtain ⟨h1, h2⟩ := ih (fun w hw => h w (by simp [hw]))
    have hp := h p (by simp)
    have hne : p ≠ ['-', '-'] := by rintro rfl; exact not_plain_dashes hp
    refine ⟨?_, ?_⟩
    · rw [classify_cons hne, plain_read hne hp, h1]; rfl
    · simp only [List.mem_cons, not_or]; exact ⟨fun e => hne e.symm, h2⟩

theorem classify_plain_inv {ws ps : List Txt} (h : classify ws = .ok (ps.map .plain)) : ws = ps ∧ ∀ w ∈ ps, Plain w := by
  induction ws generalizing ps with
  | nil =>
    simp only [classify, Except.ok.injEq] at h
    have : ps = [] := by simpa using h.symm
    subst this
    simp
  | cons t ts ih =>
    by_cases ht : t = ['-', '-']
    · subst ht
      rw [classify_dash] at h
      cases ps <;> simp at h
    · obtain ⟨k, ks', he, h1, h2⟩ := classify_inv ht h
      cases ps with
      | nil => simp at he
      | cons p ps =>
        simp only [List.map_cons, List.cons.injEq] at he
        obtain ⟨rfl, rfl⟩ := he
        obtain ⟨rfl, h3⟩ := ih h2
        obtain ⟨rfl, h4⟩ := read_plain ht h1
        refine ⟨rfl, fun w hw => ?_⟩
        simp only [List.mem_cons] at hw
        rcases hw with rfl | hw
        · exact h4
        · exact h3 w hw

theorem classify_dash_inv {ws : List Txt} {ks : List Tok} (h : classify ws = .ok (.dashes :: ks)) :
    ∃ more : List Txt, ws = ['-', '-'] :: more ∧ ks = more.map .plain := by
  cases ws with
  | nil => simp [classify] at h
  | cons t ts =>
    by_cases ht : t = ['-', '-']
    · subst ht
      rw [classify_dash] at h
      simp only [Except.ok.injEq, List.cons.injEq, true_and] at h
      exact ⟨ts, rfl, h.symm⟩
    · obtain ⟨k, ks', he, h1, h2⟩ := classify_inv ht h
      simp only [List.cons.injEq] at he
      rw [← he.1] at h1
      exact absurd h1 (read_dashes ht)

theorem bare_ne {s : Setting} {n : Txt} (h : Bare s n) : n ≠ ['-', '-'] := by
  rintro rfl
  obtain ⟨f, hf, _⟩ := bare_read h
  have h0 : parseOptional ['-', '-'] = .error .error := by decide
  rw [h0] at hf
  simp at hf

theorem attached_ne {s : Setting} {v n : Txt} (h : Attached s v n) : n ≠ ['-', '-'] := by
  rintro rfl
  obtain ⟨f, hf, _⟩ := attached_read h
  have h0 : parseOptional ['-', '-'] = .error .error := by decide
  rw [h0] at hf
  simp at hf

theorem options_classify {l : List (Setting × Txt)} {ws : List Txt} (h : Options l ws) :
    ∃ K, TokOptions l K ∧ classify ws = .ok K ∧ ['-', '-'] ∉ ws := by
  induction h with
  | nil => exact ⟨[], .nil, rfl, by simp⟩
  | @cons s v ws l rest hg _ ih =>
    obtain ⟨K, h1, h2, h3⟩ := ih
    rcases gives_iff.mp hg with ⟨n, rfl, hb, hp⟩ | ⟨w, rfl, ha⟩
    · obtain ⟨f, hf, h4, h5⟩ := bare_read hb
      have hv : v ≠ ['-', '-'] := by rintro rfl; exact not_plain_dashes hp
      refine ⟨_, .cons (.separate v h4 h5) h1, ?_, ?_⟩
      · simp only [List.cons_append, List.nil_append]
        rw [classify_cons (bare_ne hb), hf, classify_cons hv, plain_read hv hp, h2]
      · simp only [List.cons_append, List.nil_append, List.mem_cons, not_or]
        exact ⟨fun e => bare_ne hb e.symm, fun e => hv e.symm, h3⟩
    · obtain ⟨f, hf, h4, h5⟩ := attached_read ha
      refine ⟨_, .cons (.attached h4 h5) h1, ?_, ?_⟩
      · simp only [List.cons_append, List.nil_append]
        rw [classify_cons (attached_ne ha), hf, h2]
      · simp only [List.cons_append, List.nil_append, List.mem_cons, not_or]
        exact ⟨fun e => attached_ne ha e.symm, h3⟩

theorem storeOf_inj {a b : Setting} (h : storeOf a = storeOf b) : a = b := by
  cases a <;> cases b <;> first | rfl | simp [storeOf] at h

theorem means_bare {f : Found} {w : Txt} (h : Means f w) {s : Setting} (h1 : f.act = .store (storeOf s)) (h2 : f.arg = none) : Bare s w := by
  cases h with
  | bare hb =>
    simp only [Act.store.injEq] at h1
    exact storeOf_inj h1 ▸ hb
  | attached ha => simp at h2
  | flag hf _ _ => simp only at h1; rcases hf with rfl | rfl <;> simp at h1

theorem means_attached {f : Found} {w v : Txt} (h : Means f w) {s : Setting} (h1 : f.act = .store (storeOf s)) (h2 : f.arg = some v) :
    Attached s v w := by
  cases h with
  | bare hb => simp at h2
  | attached ha =>
    simp only [Act.store.injEq] at h1
    simp only [Option.some.injEq] at h2
    subst h2
    exact storeOf_inj h1 ▸ ha
  | flag hf _ _ => simp only at h1; rcases hf with rfl | rfl <;> simp at h1

theorem classify_options {l : List (Setting × Txt)} {K : List Tok} (h : TokOptions l K) {ws : List Txt} (hc : classify ws = .ok K) :
    Options l ws := by
  induction h generalizing ws with
  | nil =>
    cases ws with
    | nil => exact .nil
    | cons t ts =>
      by_cases ht : t = ['-', '-']
      · subst ht; rw [classify_dash] at hc; simp at hc
      · obtain ⟨k, ks', he, _⟩ := classify_inv ht hc
        simp at he
  | @cons s v K l K2 hg _ ih =>
    obtain ⟨ws1, ws2, rfl, h1, h2, h3⟩ := classify_split hc hg.nodash.1
    refine .cons (gives_iff.mpr ?_) (ih h2)
    cases hg with
    | @separate f _ ha hb =>
      left
      obtain ⟨wa, wb, rfl, h4, h5, h6⟩ := classify_split (K := [.opt f]) h1 (by simp)
      obtain ⟨rfl, h7⟩ := classify_plain_inv (ps := [v]) h5
      have : ∃ w, wa = [w] := by
        cases wa with
        | nil => simp [classify] at h4
        | cons w wa =>
          simp only [List.mem_cons, not_or] at h6
          obtain ⟨k, ks', he, _, h8⟩ := classify_inv (fun e => h6.1 e.symm) h4
          simp only [List.cons.injEq] at he
          obtain ⟨_, rfl⟩ := he
          cases wa with
          | nil => exact ⟨w, rfl⟩
          | cons w' wa =>
            simp only [List.mem_cons, not_or] at h6
            obtain ⟨k, ks', he, _⟩ := classify_inv (fun e => h6.2.1 e.symm) h8
            simp at he
      obtain ⟨w, rfl⟩ := this
      simp only [List.mem_singleton] at h6
      have hw : w ≠ ['-', '-'] := fun e => h6 e.symm
      obtain ⟨k, ks', he, h8, _⟩ := classify_inv hw h4
      simp only [List.cons.injEq] at he
      rw [← he.1] at h8
      exact ⟨w, rfl, means_bare (read_opt hw h8) ha hb, h7 v (by simp)⟩
    | @attached f _ ha hb =>
      right
      cases ws1 with
      | nil => simp [classify] at h1
      | cons w wa =>
        simp only [List.mem_cons, not_or] at h3
        have hw : w ≠ ['-', '-'] := fun e => h3.1 e.symm
        obtain ⟨k, ks', he, h7, h8⟩ := classify_inv hw h1
        simp only [List.cons.injEq] at he
        obtain ⟨rfl, rfl⟩ := he
        have hwa : wa = [] := by
          cases wa with
          | nil => rfl
          | cons w' wa =>
            simp only [List.mem_cons, not_or] at h3
            obtain ⟨k, ks', he, _⟩ := classify_inv (fun e => h3.2.1 e.symm) h8
            simp at he
        subst hwa
        exact ⟨w, rfl, means_attached (read_opt hw h7) ha hb⟩

/-- The words before `--`. -/
theorem classify_mem {ws : List Txt} {ks : List Tok} (h : classify ws = .ok ks) {f : Found} (hf : Tok.opt f ∈ ks) :
    ∃ w ∈ ws.takeWhile (· ≠ ['-', '-']), w ≠ ['-', '-'] ∧ parseOptional w = .ok (.opt f) := by
  induction ws generalizing ks with
  | nil => simp only [classify, Except.ok.injEq] at h; subst h; simp at hf
  | cons t ts ih =>
    by_cases ht : t = ['-', '-']
    · subst ht
      rw [classify_dash] at h
      simp only [Except.ok.injEq] at h
      subst h
      simp at hf
    · obtain ⟨k, ks', rfl, h1, h2⟩ := classify_inv ht h
      rw [List.takeWhile_cons_of_pos (by simpa using ht)]
      simp only [List.mem_cons] at hf
      rcases hf with rfl | hf
      · exact ⟨t, by simp, ht, h1⟩
      · obtain ⟨w, h3, h4⟩ := ih h2 hf
        exact ⟨w, List.mem_cons_of_mem _ h3, h4⟩

theorem classify_error {ws : List Txt} {x : Exit} (h : classify ws = .error x) :
    x = .error ∧ ∃ w ∈ ws.takeWhile (· ≠ ['-', '-']), Ambiguous w := by
  induction ws with
  | nil => simp [classify] at h
  | cons t ts ih =>
    by_cases ht : t = ['-', '-']
    · subst ht
      rw [classify_dash] at h
      simp at h
    · rw [classify_cons ht] at h
      rw [List.takeWhile_cons_of_pos (by simpa using ht)]
      cases h1 : parseOptional t with
      | error y =>
        rw [h1] at h
        simp only [Except.error.injEq] at h
        subst h
        obtain ⟨h2, h3⟩ := read_error ht h1
        exact ⟨h2, t, by simp, h3⟩
      | ok k =>
        rw [h1] at h
        cases h2 : classify ts with
        | error y =>
          rw [h2] at h
          simp only [Except.error.injEq] at h
          subst h
          obtain ⟨h3, w, h4, h5⟩ := ih h2
          exact ⟨h3, w, List.mem_cons_of_mem _ h4, h5⟩
        | ok ks => rw [h2] at h; simp at h

end Args
end Verif
