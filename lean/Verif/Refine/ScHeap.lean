import Verif.Refine.MsmDecode
import Verif.Model.MsmDouble
import Verif.Lemmas.Dict

/-!
# Dictionaries of dictionaries on the heap

The tables of observables (`rv.obs.rng` and so on): a dictionary with an entry per signal, which refers to a dictionary with an entry
per satellite.
-/

namespace Verif
namespace PyCore
namespace Refine
open Verif.Msm

open Rounding (rnd)
variable [Rounding]

/-! ## Dictionaries whose keys are encoded -/

section
variable {κ α : Type} [BEq κ] [LawfulBEq κ] [DecidableEq κ] (e : κ → Val) (f : κ → α → Val)

/-- A dictionary with encoded keys and values. -/
def encD (d : PyDict κ α) : List (Val × Val) := d.map (fun p => (e p.1, f p.1 p.2))

/-- The encoding of keys keeps them apart. -/
def KeyEnc : Prop := ∀ a b, keyEq (e a) (e b) = (a == b)

variable {e} (he : KeyEnc e)
include he

theorem encD_get (d : PyDict κ α) (k : κ) : dictGet (encD e f d) (e k) = (d.get? k).map (f k) := by
  induction d with
  | nil => rfl
  | cons p d ih =>
    obtain ⟨x, v⟩ := p
    unfold encD at *
    rw [List.map_cons, dictGet, he, PyDict.get?_cons]
    by_cases hx : x = k
    · subst hx
      rw [beq_self_eq_true, if_pos rfl, if_pos rfl]; rfl
    · have h1 : (x == k) = false := by simpa using hx
      rw [h1, if_neg Bool.false_ne_true, if_neg (fun h => hx h.symm)]
      exact ih

theorem encD_set_new (d : PyDict κ α) (k : κ) (w : Val) (hk : k ∉ d.keys) :
    dictSet (encD e f d) (e k) w = encD e f d ++ [(e k, w)] := by
  induction d with
  | nil => rfl
  | cons p d ih =>
    obtain ⟨x, v⟩ := p
    unfold encD at *
    have hx : x ≠ k := fun h => hk (by subst h; exact List.mem_cons_self)
    have h1 : (x == k) = false := by simpa using hx
    rw [List.map_cons, dictSet, he, h1, if_neg Bool.false_ne_true, ih (fun h => hk (List.mem_cons_of_mem _ h))]
    rfl

theorem encD_set (d : PyDict κ α) (hn : d.keys.Nodup) (k : κ) (v : α) :
    dictSet (encD e f d) (e k) (f k v) = encD e f (d.set k v) := by
  by_cases hk : k ∈ d.keys
  · have hm : d.mem k = true := by rw [PyDict.mem_eq]; exact (PyDict.get?_isSome_iff d k).2 hk
    unfold PyDict.set
    rw [hm, if_pos rfl]
    clear hm
    induction d with
    | nil => cases hk
    | cons p d ih =>
      obtain ⟨x, u⟩ := p
      unfold encD at *
      have hn' : x ∉ PyDict.keys d ∧ (PyDict.keys d).Nodup := List.nodup_cons.1 hn
      rw [List.map_cons, dictSet, he, List.map_cons, List.map_cons]
      by_cases hx : x = k
      · subst hx
        simp only [beq_self_eq_true, if_true]
        congr 1
        rw [List.map_map]
        apply List.map_congr_left
        intro q hq
        have : q.1 ≠ x := fun h => hn'.1 (h ▸ List.mem_map_of_mem hq)
        have h1 : (q.1 == x) = false := by simpa using this
        simp only [Function.comp, h1, Bool.false_eq_true, if_false]
      · have h1 : (x == k) = false := by simpa using hx
        simp only [h1, Bool.false_eq_true, if_false]
        rw [ih hn'.2 ((List.mem_cons.1 hk).resolve_left (fun h => hx h.symm))]
  · rw [encD_set_new f he d k (f k v) hk]
    unfold PyDict.set
    have hm : d.mem k = false := by
      rw [PyDict.mem_eq, Bool.eq_false_iff]
      exact fun h => hk ((PyDict.get?_isSome_iff d k).1 h)
    rw [hm, if_neg Bool.false_ne_true]
    unfold encD
    rw [List.map_append]; rfl

theorem encD_del (d : PyDict κ α) (hn : d.keys.Nodup) (k : κ) :
    dictDel (encD e f d) (e k) = encD e f (d.filter (fun p => p.1 != k)) := by
  induction d with
  | nil => rfl
  | cons p d ih =>
    obtain ⟨x, u⟩ := p
    unfold encD at *
    have hn' : x ∉ PyDict.keys d ∧ (PyDict.keys d).Nodup := List.nodup_cons.1 hn
    rw [List.map_cons, dictDel, he, List.filter_cons]
    by_cases hx : x = k
    · subst hx
      simp only [beq_self_eq_true, if_true, bne_self_eq_false, Bool.false_eq_true, if_false]
      congr 1
      symm
      rw [List.filter_eq_self]
      intro q hq
      have : q.1 ≠ x := fun h => hn'.1 (h ▸ List.mem_map_of_mem hq)
      simpa using this
    · have h1 : (x == k) = false := by simpa using hx
      have h2 : (x != k) = true := by simpa using hx
      simp only [h1, h2, Bool.false_eq_true, if_false, if_true]
      rw [ih hn'.2]; rfl
end

theorem keyEnc_str : KeyEnc Val.str := fun _ _ => rfl
theorem keyEnc_nat : KeyEnc (fun x : Nat => Val.int x) := by
  intro a b
  show ((a : Int) == (b : Int)) = (a == b)
  exact natCast_beq a b

/-! ## Tables -/

/-- The tables of observables. -/
inductive Tab where
  | rng | phs | ltm | hca | dpl | c2n
  deriving DecidableEq

/-- Name of the attribute. -/
def Tab.id : Tab → Ident
  | .rng => n!"rng" | .phs => n!"phs" | .ltm => n!"ltm" | .hca => n!"hca" | .dpl => n!"dpl" | .c2n => n!"c2n"

/-- A table. -/
abbrev VTab := PyDict String (PyDict Nat Val)

/-- The dictionary of one signal as an object. -/
def inner (d : PyDict Nat Val) : Obj := .dict (encD (fun x : Nat => .int x) (fun _ v => v) d)

/-- Addresses of the tables in the heap: `A t` the dictionary of signals of table `t`, `ad t s` the dictionary of signal `s` in it. Objects below
`B` other than the dictionaries of signals do not change; the dictionaries of signals `sgns` have different addresses, all of them from `B` on. -/
structure Addr where
  A : Tab → Nat
  ad : Tab → String → Nat
  B : Nat
  F : Heap
  sgns : List String
  hA : ∀ t, A t < B
  injA : ∀ t t', A t = A t' → t = t'
  had : ∀ t s, B ≤ ad t s
  inj : ∀ t s t' s', s ∈ sgns → s' ∈ sgns → ad t s = ad t' s' → t = t' ∧ s = s'

variable (D : Addr)

/-- Dictionary of the signals of a table as an object. -/
def Addr.outer (t : Tab) (d : VTab) : Obj := .dict (encD .str (fun s _ => .ref (D.ad t s)) d)

/-- Objects below `B` are as in `F`, except the tables. -/
def Addr.Frame (h : Heap) : Prop := D.B ≤ h.length ∧ ∀ a, a < D.B → (∀ t, a ≠ D.A t) → h[a]? = D.F[a]?

/-- The heap holds the tables. -/
structure Addr.Inv (h : Heap) (T : Tab → VTab) : Prop where
  frame : D.Frame h
  out : ∀ t, h[D.A t]? = some (D.outer t (T t))
  keys : ∀ t, ∀ s ∈ (T t).keys, s ∈ D.sgns
  nodup : ∀ t, (T t).keys.Nodup
  ent : ∀ t, ∀ p ∈ T t, h[D.ad t p.1]? = some (inner p.2) ∧ p.2.keys.Nodup

variable {D} {h : Heap} {T : Tab → VTab}

theorem Addr.Frame.app (hi : D.Frame h) (L : List Obj) : D.Frame (h ++ L) := by
  refine ⟨by rw [List.length_append]; have := hi.1; omega, fun a ha hn => ?_⟩
  rw [List.getElem?_append_left (by have := hi.1; omega)]
  exact hi.2 a ha hn

theorem Addr.Frame.set (hi : D.Frame h) {c : Nat} (o : Obj) (hc : D.B ≤ c ∨ ∃ t, c = D.A t) : D.Frame (h.set c o) := by
  refine ⟨by rw [List.length_set]; exact hi.1, fun a ha hn => ?_⟩
  rw [List.getElem?_set_ne, hi.2 a ha hn]
  rintro rfl
  rcases hc with hc | ⟨t, hc⟩
  · omega
  · exact hn t hc

theorem getElem?_lt {α : Type} {l : List α} {a : Nat} {o : α} (hs : l[a]? = some o) : a < l.length := (List.getElem?_eq_some_iff.1 hs).1

theorem Addr.Inv.app (hi : D.Inv h T) (L : List Obj) : D.Inv (h ++ L) T := by
  refine ⟨hi.frame.app L, fun t => ?_, hi.keys, hi.nodup, fun t p hp => ⟨?_, (hi.ent t p hp).2⟩⟩
  · rw [List.getElem?_append_left (getElem?_lt (hi.out t)), hi.out]
  · rw [List.getElem?_append_left (getElem?_lt (hi.ent t p hp).1), (hi.ent t p hp).1]

/-- Where a signal of a table is. -/
theorem Addr.Inv.get (hi : D.Inv h T) (t : Tab) (s : String) :
    dictGet (encD .str (fun s _ => .ref (D.ad t s)) (T t)) (.str s) = ((T t).get? s).map (fun _ => .ref (D.ad t s)) := by
  rw [encD_get _ keyEnc_str]

theorem Addr.Inv.entry (hi : D.Inv h T) {t : Tab} {s : String} {d : PyDict Nat Val} (hg : (T t).get? s = some d) :
    h[D.ad t s]? = some (inner d) ∧ d.keys.Nodup ∧ s ∈ D.sgns :=
  ⟨(hi.ent t _ (PyDict.mem_of_get? hg)).1, (hi.ent t _ (PyDict.mem_of_get? hg)).2,
    hi.keys t s ((PyDict.get?_isSome_iff _ _).1 (by rw [hg]; rfl))⟩

theorem mem_set {κ α : Type} [BEq κ] [LawfulBEq κ] [DecidableEq κ] {d : PyDict κ α} {k : κ} {v : α} {p : κ × α} (hp : p ∈ d.set k v) :
    p = (k, v) ∨ (p ∈ d ∧ p.1 ≠ k) := by
  unfold PyDict.set at hp
  split at hp
  · rw [List.mem_map] at hp
    obtain ⟨q, hq, rfl⟩ := hp
    by_cases h : q.1 = k
    · left; rw [if_pos (by simpa using h), h]
    · right; rw [if_neg (by simpa using h)]; exact ⟨hq, h⟩
  · rename_i hm
    rcases List.mem_append.1 hp with hp | hp
    · right
      refine ⟨hp, fun h => hm ?_⟩
      rw [PyDict.mem_eq]
      exact (PyDict.get?_isSome_iff d k).2 (h ▸ List.mem_map_of_mem hp)
    · left; simpa using hp

/-- `table[s].update({sat: v})`. -/
theorem Addr.Inv.upd (hi : D.Inv h T) {t : Tab} {s : String} {d : PyDict Nat Val} (hg : (T t).get? s = some d) (sat : Nat) (v : Val) :
    D.Inv (h.set (D.ad t s) (inner (d.set sat v))) (Function.update T t ((T t).set s (d.set sat v))) := by
  obtain ⟨h1, h2, h3⟩ := hi.entry hg
  have hmem : s ∈ (T t).keys := (PyDict.get?_isSome_iff _ _).1 (by rw [hg]; rfl)
  have hks : ((T t).set s (d.set sat v)).keys = (T t).keys := by
    rw [PyDict.keys_set, if_pos (by rw [PyDict.mem_eq, hg]; rfl)]
  refine ⟨hi.frame.set _ (.inl (D.had t s)), fun t' => ?_, fun t' x hx => ?_, fun t' => ?_, fun t' p hp => ?_⟩
  · rw [List.getElem?_set_ne (by have := D.hA t'; have := D.had t s; omega), hi.out]
    by_cases ht : t' = t
    · subst ht
      rw [Function.update_self]
      unfold Addr.outer
      rw [← encD_set _ keyEnc_str _ (hi.nodup t')]
      congr 2
      rw [encD_set _ keyEnc_str _ (hi.nodup t')]
      unfold encD
      have : ∀ e : VTab, e.map (fun p => (Val.str p.1, Val.ref (D.ad t' p.1))) = e.keys.map (fun s => (Val.str s, Val.ref (D.ad t' s))) := by
        intro e; unfold PyDict.keys; rw [List.map_map]; rfl
      rw [this, this, hks]
    · rw [Function.update_of_ne ht]
  · by_cases ht : t' = t
    · subst ht
      rw [Function.update_self, hks] at hx
      exact hi.keys t' x hx
    · rw [Function.update_of_ne ht] at hx; exact hi.keys t' x hx
  · by_cases ht : t' = t
    · subst ht; rw [Function.update_self, hks]; exact hi.nodup t'
    · rw [Function.update_of_ne ht]; exact hi.nodup t'
  · by_cases ht : t' = t
    · subst ht
      rw [Function.update_self] at hp
      rcases mem_set hp with rfl | ⟨hp, hne⟩
      · exact ⟨List.getElem?_set_self (getElem?_lt h1), PyDict.nodup_set h2 _ _⟩
      · refine ⟨?_, (hi.ent t' p hp).2⟩
        rw [List.getElem?_set_ne, (hi.ent t' p hp).1]
        intro he
        exact hne (D.inj _ _ _ _ h3 (hi.keys t' _ (List.mem_map_of_mem hp)) he).2.symm
    · rw [Function.update_of_ne ht] at hp
      refine ⟨?_, (hi.ent t' p hp).2⟩
      rw [List.getElem?_set_ne, (hi.ent t' p hp).1]
      intro he
      exact ht (D.inj _ _ _ _ h3 (hi.keys t' _ (List.mem_map_of_mem hp)) he).1.symm

/-- `table.update({s: {}})`. -/
theorem Addr.Inv.add (hi : D.Inv h T) {t : Tab} {s : String} (hs : s ∈ D.sgns) (hk : s ∉ (T t).keys) (hl : h.length = D.ad t s) (o : Obj) :
    D.Inv ((h ++ [.dict [], o]).set (D.A t) (.dict (dictSet (encD .str (fun s _ => .ref (D.ad t s)) (T t)) (.str s) (.ref h.length))))
      (Function.update T t ((T t).set s [])) := by
  have hks : ((T t).set s []).keys = (T t).keys ++ [s] := by
    rw [PyDict.keys_set, if_neg]
    rw [PyDict.mem_eq]
    exact fun h => hk ((PyDict.get?_isSome_iff _ _).1 h)
  have hi' := hi.app [.dict [], o]
  have hlen : h.length < (h ++ [.dict [], o]).length := by rw [List.length_append]; simp
  refine ⟨hi'.frame.set _ (.inr ⟨t, rfl⟩), fun t' => ?_, fun t' x hx => ?_, fun t' => ?_, fun t' p hp => ?_⟩
  · by_cases ht : t' = t
    · subst ht
      rw [List.getElem?_set_self (getElem?_lt (hi'.out t')), Function.update_self, hl]
      unfold Addr.outer
      rw [← encD_set _ keyEnc_str _ (hi.nodup t')]
    · rw [Function.update_of_ne ht, List.getElem?_set_ne (fun he => ht (D.injA _ _ he).symm), hi'.out]
  · by_cases ht : t' = t
    · subst ht
      rw [Function.update_self, hks] at hx
      rcases List.mem_append.1 hx with hx | hx
      · exact hi.keys t' x hx
      · rw [List.mem_singleton] at hx; exact hx ▸ hs
    · rw [Function.update_of_ne ht] at hx; exact hi.keys t' x hx
  · by_cases ht : t' = t
    · subst ht; rw [Function.update_self]; exact PyDict.nodup_set (hi.nodup t') _ _
    · rw [Function.update_of_ne ht]; exact hi.nodup t'
  · have hB : ∀ t' s', D.A t ≠ D.ad t' s' := fun t' s' => by have := D.hA t; have := D.had t' s'; omega
    by_cases ht : t' = t
    · subst ht
      rw [Function.update_self] at hp
      rcases mem_set hp with rfl | ⟨hp, hne⟩
      · refine ⟨?_, List.nodup_nil⟩
        rw [List.getElem?_set_ne (hB _ _), ← hl]
        exact append_getElem0 h _
      · refine ⟨?_, (hi.ent t' p hp).2⟩
        rw [List.getElem?_set_ne (hB _ _), (hi'.ent t' p hp).1]
    · rw [Function.update_of_ne ht] at hp
      refine ⟨?_, (hi.ent t' p hp).2⟩
      rw [List.getElem?_set_ne (hB _ _), (hi'.ent t' p hp).1]

/-- `del table[s]`. -/
theorem Addr.Inv.del (hi : D.Inv h T) (t : Tab) (s : String) :
    D.Inv (h.set (D.A t) (.dict (dictDel (encD .str (fun s _ => .ref (D.ad t s)) (T t)) (.str s))))
      (Function.update T t ((T t).filter (fun p => p.1 != s))) := by
  refine ⟨hi.frame.set _ (.inr ⟨t, rfl⟩), fun t' => ?_, fun t' x hx => ?_, fun t' => ?_, fun t' p hp => ?_⟩
  · by_cases ht : t' = t
    · subst ht
      rw [List.getElem?_set_self (getElem?_lt (hi.out t')), Function.update_self]
      unfold Addr.outer
      rw [encD_del _ keyEnc_str _ (hi.nodup t')]
    · rw [Function.update_of_ne ht, List.getElem?_set_ne (fun he => ht (D.injA _ _ he).symm), hi.out]
  · by_cases ht : t' = t
    · subst ht
      rw [Function.update_self] at hx
      obtain ⟨p, hp, rfl⟩ := List.mem_map.1 hx
      exact hi.keys t' _ (List.mem_map_of_mem (List.mem_of_mem_filter hp))
    · rw [Function.update_of_ne ht] at hx; exact hi.keys t' x hx
  · by_cases ht : t' = t
    · subst ht; rw [Function.update_self]
      exact (hi.nodup t').sublist (List.Sublist.map _ List.filter_sublist)
    · rw [Function.update_of_ne ht]; exact hi.nodup t'
  · have hB : ∀ t' s', D.A t ≠ D.ad t' s' := fun t' s' => by have := D.hA t; have := D.had t' s'; omega
    rw [List.getElem?_set_ne (hB _ _)]
    by_cases ht : t' = t
    · subst ht
      rw [Function.update_self] at hp
      exact hi.ent t' p (List.mem_of_mem_filter hp)
    · rw [Function.update_of_ne ht] at hp
      exact hi.ent t' p hp

end Refine
end PyCore
end Verif
