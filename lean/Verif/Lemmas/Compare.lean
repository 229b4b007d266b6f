import Verif.Spec.Compare
import Verif.Lemmas.Layout
import Mathlib.Tactic.Linarith
import Mathlib.Data.List.Nodup
import Mathlib.Tactic.NormNum
import Mathlib.Algebra.Order.Field.Basic
import Mathlib.Algebra.Order.Field.Rat

namespace Verif
namespace Cmp
open Spec

theorem agree_of_children {R : Fl → Fl → Prop} {A B : Val} (h : SameNode R (some A) (some B))
    (hc : ∀ s, (child A s = none ∧ child B s = none) ∨ ∃ a b, child A s = some a ∧ child B s = some b ∧ Agree R a b) :
    Agree R A B := by
  intro p
  cases p with
  | nil => exact h
  | cons s p =>
    rcases hc s with ⟨h1, h2⟩ | ⟨a, b, h1, h2, h3⟩
    · simp [nodeAt, h1, h2, SameNode]
    · simp only [nodeAt, h1, h2, Option.bind_some]
      exact h3 p

theorem lookup_asdictFields (fs : List (String × Val)) (s : String) :
    List.lookup (PyKey.str s) (asdictFields fs) = (List.lookup s fs).map asdict := by
  induction fs with
  | nil => simp [asdictFields]
  | cons q fs ih =>
    obtain ⟨k, v⟩ := q
    rw [asdictFields, List.lookup_cons, List.lookup_cons]
    by_cases hk : s = k
    · subst hk; simp
    · have h1 : (PyKey.str s == PyKey.str k) = false := by simp [hk]
      have h2 : (s == k) = false := by simp [hk]
      rw [h1, h2]
      exact ih

theorem lookup_asdictFields_int (fs : List (String × Val)) (i : Int) :
    List.lookup (PyKey.int i) (asdictFields fs) = none := by
  induction fs with
  | nil => simp [asdictFields]
  | cons q fs ih =>
    obtain ⟨k, v⟩ := q
    rw [asdictFields, List.lookup_cons]
    have h1 : (PyKey.int i == PyKey.str k) = false := by simp
    rw [h1]
    exact ih

theorem lookup_asdictDict (d : List (PyKey × Val)) (k : PyKey) :
    List.lookup k (asdictDict d) = (List.lookup k d).map asdict := by
  induction d with
  | nil => simp [asdictDict]
  | cons q d ih =>
    obtain ⟨k', v⟩ := q
    rw [asdictDict, List.lookup_cons, List.lookup_cons]
    cases hk : (k == k') with
    | true => simp
    | false => exact ih

theorem getElem_asdictList (l : List Val) (n : Nat) : (asdictList l)[n]? = (l[n]?).map asdict := by
  induction l generalizing n with
  | nil => simp [asdictList]
  | cons v l ih =>
    rw [asdictList]
    cases n with
    | zero => simp
    | succ n => simpa using ih n

theorem child_asdict (v : Val) (s : Step) : child (asdict v) s = (child v s).map asdict := by
  cases v <;> cases s <;> simp only [asdict, child, Option.map_none, getElem_asdictList, lookup_asdictDict]
  case obj.key c fs k =>
    cases k with
    | int i => simp only [lookup_asdictFields_int, child, Option.map_none]
    | str s => simp only [lookup_asdictFields, child]

theorem nodeAt_asdict (p : List Step) : ∀ v, nodeAt (asdict v) p = (nodeAt v p).map asdict := by
  induction p with
  | nil => intro v; rfl
  | cons s p ih =>
    intro v
    rw [nodeAt, nodeAt, child_asdict]
    cases child v s with
    | none => rfl
    | some w => exact ih w

theorem sameNode_asdict {R : Fl → Fl → Prop} {a b : Option Val} (h : SameNode R (a.map asdict) (b.map asdict)) : SameNode R a b := by
  cases a with
  | none => cases b with
    | none => trivial
    | some b => cases b <;> simp [SameNode, asdict] at h
  | some a =>
    cases b with
    | none => cases a <;> simp [SameNode, asdict] at h
    | some b => cases a <;> cases b <;> simp_all [SameNode, asdict]

theorem sameNode_map_asdict {R : Fl → Fl → Prop} {a b : Option Val} (h : SameNode R a b) :
    SameNode R (a.map asdict) (b.map asdict) := by
  cases a with
  | none => cases b with
    | none => trivial
    | some b => cases b <;> simp [SameNode] at h
  | some a =>
    cases b with
    | none => cases a <;> simp [SameNode] at h
    | some b => cases a <;> cases b <;> simp_all [SameNode, asdict]

theorem agree_asdict {R : Fl → Fl → Prop} {A B : Val} (h : Agree R (asdict A) (asdict B)) : Agree R A B := by
  intro p
  have := h p
  rw [nodeAt_asdict, nodeAt_asdict] at this
  exact sameNode_asdict this

theorem compareItems_true {K : Classes} {tol : Rat} {e : List (PyKey × Val)} :
    ∀ {d : List (PyKey × Val)}, compareItems K tol d e = .ok true →
      ∀ q ∈ d, ∃ w, List.lookup q.1 e = some w ∧ compareVal K tol q.2 w = .ok true
  | [], _, q, hq => by simp at hq
  | (k, v) :: rest, h, q, hq => by
    rw [compareItems] at h
    split at h
    · exact absurd h (by simp)
    · next w he =>
      obtain ⟨eq, h1, h2⟩ := bind_ok h
      cases eq with
      | false => simp [pure, Except.pure] at h2
      | true =>
        rcases List.mem_cons.1 hq with rfl | hq
        · exact ⟨w, he, h1⟩
        · exact compareItems_true h2 q hq

theorem compareSeq_nil {K : Classes} {tol : Rat} : ∀ {l m : List Val}, compareSeq K tol l m = .ok true →
    l.length = m.length ∧ ∀ (n : Nat) a b, l[n]? = some a → m[n]? = some b → compareVal K tol a b = .ok true
  | [], [], _ => ⟨rfl, by intro n a b h; simp at h⟩
  | a :: as, b :: bs, h => by
    rw [compareSeq] at h
    obtain ⟨eq, h1, h2⟩ := bind_ok h
    cases eq with
    | false => simp [pure, Except.pure] at h2
    | true =>
      obtain ⟨hl, hn⟩ := compareSeq_nil h2
      refine ⟨by simp [hl], ?_⟩
      intro n x y hx hy
      cases n with
      | zero =>
        simp at hx hy
        subst hx; subst hy
        exact h1
      | succ n => exact hn n x y (by simpa using hx) (by simpa using hy)
  | a :: as, [], h => by
    rw [compareSeq] at h
    obtain ⟨eq, h1, h2⟩ := bind_ok h
    cases eq with
    | false => simp [pure, Except.pure] at h2
    | true => cases a <;> simp [compareVal, isInstanceOf] at h1
  | [], b :: bs, h => by
    rw [compareSeq] at h
    obtain ⟨eq, h1, h2⟩ := bind_ok h
    cases eq with
    | false => simp [pure, Except.pure] at h2
    | true => cases b <;> simp [compareVal, isInstanceOf] at h1

/-- What the code requires of two floats. -/
def codeClose (tol : Rat) (x y : Fl) : Prop := compareFloat tol x y = true

theorem mem_lookup {κ α : Type} [BEq κ] [LawfulBEq κ] {d : List (κ × α)} {k : κ} {v : α} (h : List.lookup k d = some v) : (k, v) ∈ d := by
  induction d with
  | nil => simp at h
  | cons q d ih =>
    obtain ⟨k', v'⟩ := q
    rw [List.lookup_cons] at h
    split at h
    · next hk =>
      have := Option.some.inj h
      subst this
      have := eq_of_beq hk
      subst this
      exact List.mem_cons_self
    · exact List.mem_cons_of_mem _ (ih h)

theorem size_pos : ∀ v, 0 < size v
  | .obj _ _ => by rw [size]; omega
  | .list _ => by rw [size]; omega
  | .tuple _ => by rw [size]; omega
  | .dict _ => by rw [size]; omega
  | .none => by rw [size]; omega
  | .bool _ => by rw [size]; omega
  | .int _ => by rw [size]; omega
  | .flt _ => by rw [size]; omega
  | .str _ => by rw [size]; omega

theorem size_getElem : ∀ {l : List Val} {n : Nat} {a : Val}, l[n]? = some a → size a ≤ sizeList l
  | [], n, a, h => by simp at h
  | v :: vs, 0, a, h => by simp at h; subst h; rw [sizeList]; omega
  | v :: vs, n + 1, a, h => by
    have := size_getElem (l := vs) (n := n) (a := a) (by simpa using h)
    rw [sizeList]; omega

theorem agree_dict {K : Classes} {tol : Rat} {N : Nat}
    (ih : ∀ A B, size A + size B < N → compareVal K tol A B = .ok true → Agree (codeClose tol) A B)
    {d e : List (PyKey × Val)} (hN : sizeDict d + sizeDict e < N) (h : compareDict K tol d e = .ok true) :
    Agree (codeClose tol) (.dict d) (.dict e) := by
  rw [compareDict] at h
  split at h
  · exact absurd h (by simp)
  · next hk =>
    simp only [Bool.not_eq_true', Bool.not_eq_false, sameKeys, Bool.and_eq_true, List.all_eq_true] at hk
    apply agree_of_children (by trivial)
    intro s
    cases s with
    | index n => left; exact ⟨rfl, rfl⟩
    | key k =>
      cases hd : List.lookup k d with
      | none =>
        left
        refine ⟨hd, ?_⟩
        show List.lookup k e = none
        cases he : List.lookup k e with
        | none => rfl
        | some w =>
          have := hk.2 _ (mem_lookup he)
          simp [PyDict.mem, hd] at this
      | some v =>
        right
        obtain ⟨w, hw, hc⟩ := compareItems_true h _ (mem_lookup hd)
        refine ⟨v, w, hd, hw, ih v w ?_ hc⟩
        have h1 := size_get d k v hd
        have h2 := size_get e k w hw
        omega

theorem agree_seq {K : Classes} {tol : Rat} {N : Nat}
    (ih : ∀ A B, size A + size B < N → compareVal K tol A B = .ok true → Agree (codeClose tol) A B)
    {l m : List Val} (hN : sizeList l + sizeList m < N) (h : compareSeq K tol l m = .ok true) (n : Nat) :
    (l[n]? = none ∧ m[n]? = none) ∨ ∃ a b, l[n]? = some a ∧ m[n]? = some b ∧ Agree (codeClose tol) a b := by
  obtain ⟨hl, hn⟩ := compareSeq_nil h
  cases ha : l[n]? with
  | none =>
    left
    refine ⟨rfl, ?_⟩
    rw [List.getElem?_eq_none_iff] at ha ⊢
    omega
  | some a =>
    right
    cases hb : m[n]? with
    | none =>
      rw [List.getElem?_eq_none_iff] at hb
      have := (List.getElem?_eq_some_iff.1 ha).1
      omega
    | some b =>
      have h1 := size_getElem ha
      have h2 := size_getElem hb
      exact ⟨a, b, rfl, rfl, ih a b (by omega) (hn n a b ha hb)⟩

/-- `__compare` accepts only values that agree. -/
theorem compareVal_agree {K : Classes} {tol : Rat} : ∀ (N : Nat) (A B : Val), size A + size B < N →
    compareVal K tol A B = .ok true → Agree (codeClose tol) A B
  | 0, _, _, h, _ => absurd h (by omega)
  | N + 1, A, B, hN, h => by
    have ih := compareVal_agree (K := K) (tol := tol) N
    unfold compareVal at h
    split at h
    · exact absurd h (by simp)
    · split at h
      · next c fa d fb hi =>
        apply agree_asdict
        rw [asdict, asdict]
        refine agree_dict ih ?_ h
        rw [size_fields, size_fields]
        simp only [size] at hN
        omega
      · next i j hi =>
        have := Except.ok.inj h
        refine agree_of_children ?_ (fun s => by left; cases s <;> exact ⟨rfl, rfl⟩)
        simpa [SameNode] using this
      · next i j hi =>
        have := Except.ok.inj h
        refine agree_of_children ?_ (fun s => by left; cases s <;> exact ⟨rfl, rfl⟩)
        simpa [SameNode] using this
      · next i j hi =>
        have := Except.ok.inj h
        refine agree_of_children ?_ (fun s => by left; cases s <;> exact ⟨rfl, rfl⟩)
        have := of_decide_eq_true this
        simpa [SameNode] using this.symm
      · next i j hi =>
        have := Except.ok.inj h
        refine agree_of_children ?_ (fun s => by left; cases s <;> exact ⟨rfl, rfl⟩)
        simpa [SameNode] using this
      · next i j hi =>
        have := Except.ok.inj h
        refine agree_of_children ?_ (fun s => by left; cases s <;> exact ⟨rfl, rfl⟩)
        simpa [SameNode, codeClose] using this
      · next d e hi =>
        simp only [size] at hN
        exact agree_dict ih (by omega) h
      · next l m hi =>
        simp only [size] at hN
        refine agree_of_children (by trivial) (fun s => ?_)
        cases s with
        | index n => exact agree_seq ih (by omega) h n
        | key k => left; exact ⟨rfl, rfl⟩
      · next l m hi =>
        simp only [size] at hN
        refine agree_of_children (by trivial) (fun s => ?_)
        cases s with
        | index n => exact agree_seq ih (by omega) h n
        | key k => left; exact ⟨rfl, rfl⟩
      · exact absurd h (by simp)

theorem compareVal_sound {K : Classes} {tol : Rat} {A B : Val} (h : compareVal K tol A B = .ok true) :
    Agree (codeClose tol) A B := compareVal_agree (size A + size B + 1) A B (by omega) h

theorem compareFields_true {K : Classes} {tol : Rat} {refs : Val} : ∀ {fs : List (String × Val)},
    (∀ q ∈ fs, isDataclass q.2 = false) → compareFields K fs refs tol = .ok true →
    ∀ q ∈ fs, ∃ w, getattr refs q.1 = .ok w ∧ compareVal K tol q.2 w = .ok true
  | [], _, _, q, hq => by simp at hq
  | (k, v) :: rest, hf, h, q, hq => by
    rw [compareFields] at h
    obtain ⟨w, hw, h⟩ := bind_ok h
    obtain ⟨eq, h1, h2⟩ := bind_ok h
    have h1' : compareVal K tol v w = .ok eq := by
      have := hf (k, v) List.mem_cons_self
      cases v with
      | obj c fs => simp [isDataclass] at this
      | _ => exact h1
    cases eq with
    | false => simp [pure, Except.pure] at h2
    | true =>
      rcases List.mem_cons.1 hq with rfl | hq
      · exact ⟨w, hw, h1'⟩
      · exact compareFields_true (fun q hq => hf q (List.mem_cons_of_mem _ hq)) h2 q hq

end Cmp
end Verif

namespace Verif
namespace Cmp
open Spec

/-! ## Reflexivity -/

theorem plain_child {v w : Val} {s : Step} (h : Plain v) (hs : child v s = some w) : Plain w := by
  have e : ∀ p, nodeAt v (s :: p) = nodeAt w p := by intro p; simp [nodeAt, hs]
  exact ⟨fun p hp => h.noNone (s :: p) (by rw [e, hp]), fun p b hp => h.noInf (s :: p) b (by rw [e, hp]),
    fun p d hp => h.keys (s :: p) d (by rw [e, hp]), fun p c fs hp => h.names (s :: p) c fs (by rw [e, hp])⟩

theorem keys_asdictDict (d : List (PyKey × Val)) : (asdictDict d).map Prod.fst = d.map Prod.fst := by
  induction d with
  | nil => simp [asdictDict]
  | cons q d ih => obtain ⟨k, v⟩ := q; simp [asdictDict, ih]

theorem keys_asdictFields (d : List (String × Val)) : (asdictFields d).map Prod.fst = (d.map Prod.fst).map PyKey.str := by
  induction d with
  | nil => simp [asdictFields]
  | cons q d ih => obtain ⟨k, v⟩ := q; simp [asdictFields, ih]

theorem plain_asdict {v : Val} (h : Plain v) : Plain (asdict v) := by
  constructor
  · intro p hp
    rw [nodeAt_asdict] at hp
    cases hn : nodeAt v p with
    | none => simp [hn] at hp
    | some w =>
      rw [hn] at hp
      cases w <;> simp [asdict] at hp
      exact h.noNone p hn
  · intro p b hp
    rw [nodeAt_asdict] at hp
    cases hn : nodeAt v p with
    | none => simp [hn] at hp
    | some w =>
      rw [hn] at hp
      cases w <;> simp [asdict] at hp
      subst hp
      exact h.noInf p b hn
  · intro p d hp
    rw [nodeAt_asdict] at hp
    cases hn : nodeAt v p with
    | none => simp [hn] at hp
    | some w =>
      rw [hn] at hp
      cases w <;> simp [asdict] at hp
      · subst hp
        rw [keys_asdictDict]
        exact h.keys p _ hn
      · subst hp
        rw [keys_asdictFields]
        exact List.Nodup.map (fun a b hab => PyKey.str.inj hab) (h.names p _ _ hn)
  · intro p c fs hp
    rw [nodeAt_asdict] at hp
    cases hn : nodeAt v p with
    | none => simp [hn] at hp
    | some w =>
      rw [hn] at hp
      cases w <;> simp [asdict] at hp

theorem lookup_of_nodup {κ α : Type} [BEq κ] [LawfulBEq κ] : ∀ {d : List (κ × α)}, (d.map Prod.fst).Nodup → ∀ q ∈ d, List.lookup q.1 d = some q.2
  | [], _, q, hq => by simp at hq
  | (k, v) :: rest, h, q, hq => by
    rw [List.map_cons, List.nodup_cons] at h
    rcases List.mem_cons.1 hq with rfl | hq
    · simp
    · have hne : q.1 ≠ k := by
        intro e
        have h1 : k ∉ rest.map Prod.fst := h.1
        have h2 : q.1 ∈ rest.map Prod.fst := List.mem_map_of_mem hq
        exact h1 (e ▸ h2)
      rw [List.lookup_cons, show (q.1 == k) = false by simp [hne]]
      exact lookup_of_nodup h.2 q hq

theorem compareItems_refl {K : Classes} {tol : Rat} {e : List (PyKey × Val)} :
    ∀ {d : List (PyKey × Val)}, (∀ q ∈ d, List.lookup q.1 e = some q.2 ∧ compareVal K tol q.2 q.2 = .ok true) →
      compareItems K tol d e = .ok true
  | [], _ => by rw [compareItems]
  | (k, v) :: rest, h => by
    unfold compareItems
    have h0 := h (k, v) List.mem_cons_self
    split
    · next he =>
      have := h0.1
      unfold PyDict.get? at he
      rw [he] at this
      exact absurd this (by simp)
    · next w he =>
      have := h0.1
      unfold PyDict.get? at he
      rw [he] at this
      have := Option.some.inj this
      subst this
      rw [h0.2]
      exact compareItems_refl (fun q hq => h q (List.mem_cons_of_mem _ hq))

theorem compareSeq_refl {K : Classes} {tol : Rat} : ∀ {l : List Val}, (∀ a ∈ l, compareVal K tol a a = .ok true) →
    compareSeq K tol l l = .ok true
  | [], _ => by rw [compareSeq]
  | a :: as, h => by
    rw [compareSeq, h a List.mem_cons_self]
    exact compareSeq_refl (fun q hq => h q (List.mem_cons_of_mem _ hq))

theorem size_memList : ∀ {l : List Val} {a : Val}, a ∈ l → size a < sizeList l
  | v :: vs, a, h => by
    rw [sizeList]
    rcases List.mem_cons.1 h with rfl | h
    · omega
    · have := size_memList h; omega

theorem size_memDict : ∀ {l : List (PyKey × Val)} {q : PyKey × Val}, q ∈ l → size q.2 < sizeDict l
  | (k, v) :: vs, q, h => by
    rw [sizeDict]
    rcases List.mem_cons.1 h with rfl | h
    · dsimp only; omega
    · have := size_memDict h; omega

theorem size_memFields : ∀ {l : List (String × Val)} {q : String × Val}, q ∈ l → size q.2 < sizeFields l
  | (k, v) :: vs, q, h => by
    rw [sizeFields]
    rcases List.mem_cons.1 h with rfl | h
    · dsimp only; omega
    · have := size_memFields h; omega

theorem compareDict_refl {K : Classes} {tol : Rat} {N : Nat}
    (ih : ∀ A, size A < N → Plain A → compareVal K tol A A = .ok true)
    {d : List (PyKey × Val)} (hp : Plain (.dict d)) (hN : sizeDict d < N) : compareDict K tol d d = .ok true := by
  have hk := hp.keys [] d rfl
  have hl := lookup_of_nodup hk
  rw [compareDict]
  have hs : sameKeys d d = true := by
    simp only [sameKeys, Bool.and_eq_true, List.all_eq_true]
    have : ∀ q ∈ d, PyDict.mem d q.1 = true := by
      intro q hq
      simp [PyDict.mem, hl q hq]
    exact ⟨this, this⟩
  rw [hs]
  refine compareItems_refl (fun q hq => ⟨hl q hq, ih q.2 ?_ ?_⟩)
  · have := size_memDict hq
    omega
  · exact plain_child (s := .key q.1) hp (hl q hq)

/-- `__compare` of a value with itself. -/
theorem compareVal_refl {K : Classes} {tol : Rat} (ht : 0 < tol) : ∀ (N : Nat) (A : Val), size A < N → Plain A →
    compareVal K tol A A = .ok true
  | 0, _, h, _ => absurd h (by omega)
  | N + 1, A, hN, hp => by
    have ih := compareVal_refl (K := K) ht N
    unfold compareVal
    cases A with
    | none => exact absurd rfl (hp.noNone [])
    | bool b => simp [isInstanceOf]
    | int i => simp [isInstanceOf]
    | str s => simp [isInstanceOf]
    | flt x =>
      cases x with
      | nan => simp [isInstanceOf, compareFloat]
      | inf b => exact absurd rfl (hp.noInf [] b)
      | fin x => simp [isInstanceOf, compareFloat, ht]
    | list l =>
      have h1 : compareSeq K tol l l = .ok true := by
        refine compareSeq_refl (fun a ha => ih a ?_ ?_)
        · have := size_memList ha
          simp only [size] at hN; omega
        · obtain ⟨n, hn⟩ := List.mem_iff_getElem?.1 ha
          exact plain_child (s := .index n) hp hn
      simpa [isInstanceOf] using h1
    | tuple l =>
      have h1 : compareSeq K tol l l = .ok true := by
        refine compareSeq_refl (fun a ha => ih a ?_ ?_)
        · have := size_memList ha
          simp only [size] at hN; omega
        · obtain ⟨n, hn⟩ := List.mem_iff_getElem?.1 ha
          exact plain_child (s := .index n) hp hn
      simpa [isInstanceOf] using h1
    | dict d =>
      have h1 : compareDict K tol d d = .ok true := by
        refine compareDict_refl ih hp ?_
        simp only [size] at hN; omega
      simpa [isInstanceOf] using h1
    | obj c fs =>
      have h1 : compareDict K tol (asdictFields fs) (asdictFields fs) = .ok true := by
        refine compareDict_refl ih ?_ ?_
        · have := plain_asdict hp
          rwa [asdict] at this
        · simp only [size] at hN
          rw [size_fields]; omega
      simpa [isInstanceOf] using h1

theorem compareFields_refl {K : Classes} {tol : Rat} (ht : 0 < tol) (N : Nat)
    (ih : ∀ (c : String) (fs : List (String × Val)) (tol : Rat), 0 < tol → sizeFields fs < N → Plain (.obj c fs) →
      (∀ p c' fs', p ≠ [] → nodeAt (.obj c fs) p = some (.obj c' fs') → K.methods c' = true) →
      compare K (.obj c fs) (.obj c fs) tol = .ok true)
    {c : String} {gs : List (String × Val)} : ∀ {fs : List (String × Val)}, (∀ q ∈ fs, List.lookup q.1 gs = some q.2) →
      Plain (.obj c gs) → sizeFields fs < N + 1 → 
      (∀ p c' fs', p ≠ [] → nodeAt (.obj c gs) p = some (.obj c' fs') → K.methods c' = true) →
      compareFields K fs (.obj c gs) tol = .ok true
  | [], _, _, _, _ => by rw [compareFields]
  | (k, v) :: rest, hl, hp, hN, hm => by
    have h0 : List.lookup k gs = some v := hl (k, v) List.mem_cons_self
    have hg : getattr (.obj c gs) k = .ok v := by simp [getattr, PyDict.get?, h0]
    have hc : child (.obj c gs) (.key (.str k)) = some v := h0
    have hr := compareFields_refl ht N ih (fs := rest) (fun q hq => hl q (List.mem_cons_of_mem _ hq)) hp
      (by simp only [sizeFields] at hN; omega) hm
    have hv : (match v with
        | .obj c fs' => if K.methods c then compare K (.obj c fs') v DEF_FLOAT_CMP_TOLR else pure false
        | value => compareVal K tol value v) = .ok true := by
      cases v with
      | obj c' fs' =>
        have hm' := hm [.key (.str k)] c' fs' (by simp) (by simp [nodeAt, hc])
        dsimp only
        rw [hm', if_pos rfl]
        refine ih c' fs' _ (by unfold DEF_FLOAT_CMP_TOLR; norm_num) ?_ (plain_child hp hc) ?_
        · simp only [sizeFields, size] at hN; omega
        · intro p c'' fs'' hpne hn
          refine hm (.key (.str k) :: p) c'' fs'' (by simp) ?_
          rw [nodeAt, hc]
          exact hn
      | _ => exact compareVal_refl ht _ _ (Nat.lt_succ_self _) (plain_child hp hc)
    have fin : ∀ r : Py Bool, r = .ok true →
        (r >>= fun eq => if !eq then pure false else compareFields K rest (.obj c gs) tol) = .ok true := by
      intro r e
      rw [e, ok_bind]
      exact hr
    rw [compareFields, hg, ok_bind]
    exact fin _ hv

theorem compare_refl {K : Classes} : ∀ (N : Nat) (c : String) (fs : List (String × Val)) (tol : Rat), 0 < tol → sizeFields fs < N →
    Plain (.obj c fs) → (∀ p c' fs', p ≠ [] → nodeAt (.obj c fs) p = some (.obj c' fs') → K.methods c' = true) →
    compare K (.obj c fs) (.obj c fs) tol = .ok true
  | 0, _, _, _, _, h, _, _ => absurd h (by omega)
  | N + 1, c, fs, tol, ht, hN, hp, hm => by
    rw [compare]
    have hi : isInstanceOf K (.obj c fs) (.obj c fs) = true := by simp [isInstanceOf]
    rw [hi]
    exact compareFields_refl ht N (compare_refl N) (lookup_of_nodup (hp.names [] c fs rfl)) hp hN hm

end Cmp
end Verif
