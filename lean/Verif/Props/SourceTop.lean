import Verif.Props.SourceEph
import Verif.Props.SourceMsm
import Verif.Props.SourceScaled
import Verif.Props.SourceBase
import Verif.Props.SourceFramer
import Verif.Props.Decoder
import Verif.Lemmas.FamilyDouble
import Verif.Refine.Assembly
import Verif.Spec.TopText
import Verif.PyCore.Fuel
import Verif.Source.ConverterTop

/-!
Claims about the text of the decoding part of decoder_top.py and about the decoder that a strategy of converter_top.py puts together.
-/

namespace Verif
open Spec PyCore Refine Framer Decoder
open Rounding (rnd)

/-- **C96** the statements of `strategyText` are those of the text of the four strategies. -/
theorem C96_text : Src.decoding = [("MARGO", strategyText false false), ("JSON", strategyText true false), ("JSON-B", strategyText true true),
    ("JARGO", strategyText true false)] := rfl

section
variable [Rounding]

theorem clsIdent_self (c : Cls) : subclass src (clsIdent c) (clsIdent c) = true := by cases c <;> rfl

/-- The entry of the registry for a family of messages. -/
structure EntryOf (h : Heap) (bare : Bool) (f : Family) (e : IoEntry) : Prop where
  io : IoAt h e
  isOf : match f with
    | .msm47 => e.spec = spec47 bare ∧ e.nums = msmNums [1074, 1075, 1076, 1077] ∧ e.fn = n!"SubdecoderMSM4567.decode" ∧ Msm47Sub h e.sub bare
    | .msm13 => e.spec = spec13 bare ∧ e.nums = msmNums [1071, 1072, 1073] ∧ e.fn = n!"SubdecoderMSM123.decode" ∧ Msm13Sub h e.sub bare
    | .eph => e.spec = specEph ∧ e.nums = ephNums ∧ e.fn = n!"SubdecoderEph.decode" ∧ EphSub h e.sub bare
    | .base => e.spec = specBase ∧ e.nums = baseNums ∧ e.fn = n!"SubdecoderBaseStationData.decode" ∧ BaseSub h e.sub bare

/-- The message numbers of a specification, with the classes. -/
theorem spec_family (f : Family) (S : Bool → List (Nat × Ident)) (L : List Nat) (hl : ∀ x ∈ L, 1005 ≤ x ∧ x < 1231)
    (h : ∀ i < 226, ∀ b, (((S b).map (·.1)).contains (1005 + i) && L.contains (1005 + i)) = decide (family (1005 + i) = some f) ∧
      (family (1005 + i) = some f → (S b).lookup (1005 + i) = (declared b (1005 + i)).map clsIdent)) (b : Bool) (k : Nat) :
    (((S b).map (·.1)).contains k && L.contains k) = decide (family k = some f) ∧ (family k = some f → (S b).lookup k = (declared b k).map clsIdent) := by
  by_cases hr : k < 1005 ∨ 1231 ≤ k
  · rw [family_none hr, contains_false hl hr]
    simp
  · exact range_nat (P := fun k => (((S b).map (·.1)).contains k && L.contains k) = decide (family k = some f) ∧
      (family k = some f → (S b).lookup k = (declared b k).map clsIdent)) 1005 226 (fun i hi => h i hi b) k (by omega) (by omega)

theorem EntryOf.wants {h : Heap} {bare : Bool} {f : Family} {e : IoEntry} (he : EntryOf h bare f e) (k : Nat) :
    e.wants (some k) = decide (family k = some f) ∧ (family k = some f → e.spec.lookup k = (declared bare k).map clsIdent) := by
  have h1 := he.isOf
  unfold IoEntry.wants
  rw [Option.any_some, Option.any_some]
  cases f with
  | msm47 => obtain ⟨h1, h2, -⟩ := h1; rw [h1, h2]; exact spec_family .msm47 spec47 _ (by decide +kernel) (by decide +kernel) bare k
  | msm13 => obtain ⟨h1, h2, -⟩ := h1; rw [h1, h2]; exact spec_family .msm13 spec13 _ (by decide +kernel) (by decide +kernel) bare k
  | eph => obtain ⟨h1, h2, -⟩ := h1; rw [h1, h2]; exact spec_family .eph (fun _ => specEph) _ (by decide +kernel) (by decide +kernel) bare k
  | base => obtain ⟨h1, h2, -⟩ := h1; rw [h1, h2]; exact spec_family .base (fun _ => specBase) _ (by decide +kernel) (by decide +kernel) bare k

/-- An object of the heap has a class. -/
def HasClass (h : Heap) (b : Nat) (c : Cls) : Prop := ∃ fs, h[b]? = some (.inst (clsIdent c) fs)

theorem bareHeap_class (G : Heap) (o : Msm.Bare) (T : List Obj) : HasClass (msmHeap G o T) (G.length + 2) (PyObj.msmBare o).cls := by
  have ha : ∀ L k, (G ++ L)[G.length + k]? = L[k]? := append_getElem G
  cases o with
  | m123 o => exact ⟨_, ha _ _⟩
  | m4567 o => exact ⟨_, ha _ _⟩

theorem ephObj_class {h : Heap} {b : Nat} {e : Eph.Obj PyNum} (hb : h[b]? = some (ephObj numVal e)) : HasClass h b (PyObj.eph e).cls := by
  cases e <;> exact ⟨_, hb⟩

theorem showsBase_class {β ν σ : Type} {fb : β → Val} {fn : ν → Val} {fq : σ → Val} {h : Heap} {b : Nat} {o : Base.Obj β ν σ}
    (hb : ShowsBase fb fn fq h b o) : HasClass h b (baseCls o) := by
  cases o with
  | sp o => obtain ⟨d, hb, -⟩ := hb; exact ⟨_, hb⟩
  | glbs o => obtain ⟨d, e, hb, -⟩ := hb; exact ⟨_, hb⟩
  | rp o => exact ⟨_, hb⟩
  | rph o => exact ⟨_, hb⟩
  | ad o => exact ⟨_, hb⟩
  | adsn o => exact ⟨_, hb⟩
  | adsnrc o => exact ⟨_, hb⟩
  | ts o => exact ⟨_, hb⟩

/-- What the sub-decoder of a family returns. -/
theorem EntryOf.result {h : Heap} {bare : Bool} {f : Family} {e : IoEntry} (he : EntryOf h bare f e) {msg : Bytes} {k : Nat} (hk : numberIn msg = some k) :
    ∃ N, ∀ n, match familyDecodeR rnd bare f msg with
      | none => ∃ t, callFn src (n + N) e.fn [.ref e.sub, .bytes msg] h = (.ok .none, h ++ t)
      | some o => ∃ b t, callFn src (n + N) e.fn [.ref e.sub, .bytes msg] h = (.ok (.ref b), h ++ t) ∧ h.length ≤ b ∧ HasClass (h ++ t) b o.cls := by
  have msm : ∀ fn, MsmSub h e.sub bare fn → ∃ N, ∀ n, match (Msm.decodeMsm17R rnd bare msg).map msmObj with
      | none => ∃ t, callFn src (n + N) fn [.ref e.sub, .bytes msg] h = (.ok .none, h ++ t)
      | some o => ∃ b t, callFn src (n + N) fn [.ref e.sub, .bytes msg] h = (.ok (.ref b), h ++ t) ∧ h.length ≤ b ∧ HasClass (h ++ t) b o.cls := by
    intro fn hs
    cases bare with
    | true =>
      refine ⟨6, fun n => ?_⟩
      have := msmSub_bare hs msg n
      unfold Msm.decodeMsm17R
      cases hv : Msm.decode msg with
      | error e => rw [hv] at this; exact this
      | ok o =>
        rw [hv] at this
        obtain ⟨T, hT⟩ := this
        obtain ⟨t, ht, -⟩ := msmHeap_ext h o T
        exact ⟨_, t, by rw [hT, ht], by omega, by rw [← ht]; exact bareHeap_class h o T⟩
    | false =>
      obtain ⟨N, hN⟩ := msmSub_scaled hs msg
      refine ⟨N, fun n => ?_⟩
      have := hN n
      rcases hv : Msm.decodeMsm17R rnd false msg with _ | (b | o)
      · rw [hv] at this; exact this
      · exfalso
        unfold Msm.decodeMsm17R at hv
        cases hm : Msm.decode msg with
        | error e => rw [hm] at hv; cases hv
        | ok o =>
          rw [hm] at hv
          dsimp only at hv
          rw [if_neg (by decide)] at hv
          rcases hc : Msm.convertR rnd (some o) with e | _ | r
          all_goals (rw [hc] at hv; cases hv)
      · rw [hv] at this
        obtain ⟨t, r, b, h1, h2, h3⟩ := this
        exact ⟨r, t, h1, h2, _, h3.rv⟩
  have h1 := he.isOf
  cases f with
  | msm47 => obtain ⟨-, -, h1, h2⟩ := h1; rw [h1]; exact msm _ (.inl ⟨rfl, h2⟩)
  | msm13 => obtain ⟨-, -, h1, h2⟩ := h1; rw [h1]; exact msm _ (.inr ⟨rfl, h2⟩)
  | eph =>
    obtain ⟨-, -, h1, fs, d, l, h2, h3, h4, h5⟩ := h1
    rw [h1]
    refine ⟨6, fun n => ?_⟩
    have := ephSub_src n ⟨l, h5⟩ bare h2 h3 h4 msg
    unfold familyDecodeR
    dsimp only
    cases hv : Eph.subDecodeR rnd bare msg with
    | none => rw [hv] at this; exact this
    | some o =>
      rw [hv] at this
      obtain ⟨b, t, h6, h7, h8⟩ := this
      exact ⟨b, t, h6, h7, ephObj_class h8⟩
  | base =>
    obtain ⟨-, -, h1, fs, d, l, h2, h3, h4, h5⟩ := h1
    rw [h1]
    refine ⟨6, fun n => ?_⟩
    have := baseSub_src n ⟨l, h5⟩ bare h2 h3 h4 msg
    unfold familyDecodeR
    dsimp only
    have hl : 5 ≤ msg.length := by
      unfold numberIn at hk
      by_contra hc
      rw [if_pos (by omega)] at hk
      cases hk
    rw [baseSub_ok hl] at this ⊢
    cases hv : Base.decodeR rnd msg bare with
    | error e => rw [hv] at this; exact this
    | ok o =>
      rw [hv] at this
      obtain ⟨b, t, h6, h7, h8⟩ := this
      refine ⟨b, t, h6, h7, ?_⟩
      cases o with
      | inl o => exact showsBase_class h8
      | inr o => exact showsBase_class h8

/-! ## The decoder in the heap -/

/-- The families that a strategy registers, in this order. -/
def familiesOf (all : Bool) : List Family := if all then [.msm47, .msm13, .eph, .base] else [.msm47, .msm13]

theorem mem_familiesOf (all : Bool) (f : Family) : f ∈ familiesOf all ↔ familyOn (!all) f = true := by
  cases all <;> cases f <;> decide

theorem familiesOf_nodup (all : Bool) : (familiesOf all).Nodup := by cases all <;> decide

/-- In the heap, `a` is a decoder with everything registered. -/
def Ready (all bare : Bool) (a : Nat) (x y : Int) (p : Parser) (h : Heap) : Prop :=
  ∃ (d : Nat) (es : List (Family × IoEntry)), h[a]? = some (topObj (.ref d) (.int x) (.int y) p) ∧ h[d]? = some (registryObj (es.map (·.2))) ∧
    es.map (·.1) = familiesOf all ∧ ∀ e ∈ es, EntryOf h bare e.1 e.2

/-- Only objects of the class `DecoderTop` are different. -/
def Keeps (h h' : Heap) : Prop := ∀ (b : Nat) (o : Obj), h[b]? = some o → (∀ d x y p, o ≠ topObj d x y p) → h'[b]? = some o

theorem EntryOf.keep {h h' : Heap} (hk : Keeps h h') {bare : Bool} {f : Family} {e : IoEntry} (he : EntryOf h bare f e) : EntryOf h' bare f e := by
  have hi : ∀ {b : Nat} {c : Ident} {fs : List (Ident × Val)}, c ≠ n!"DecoderTop" → h[b]? = some (.inst c fs) → h'[b]? = some (.inst c fs) := by
    intro b c fs hc hb
    refine hk _ _ hb (fun d x y p ho => ?_)
    unfold topObj at ho
    injection ho with h1
    exact hc h1
  refine ⟨⟨hi (by decide) he.io.io, hk _ _ he.io.spec (by intro d x y p; simp [topObj]), hk _ _ he.io.nums (by intro d x y p; simp [topObj])⟩, ?_⟩
  have h1 := he.isOf
  cases f with
  | msm47 => obtain ⟨h1, h2, h3, fs, h4, h5⟩ := h1; exact ⟨h1, h2, h3, fs, hi (by decide) h4, h5⟩
  | msm13 => obtain ⟨h1, h2, h3, fs, h4, h5⟩ := h1; exact ⟨h1, h2, h3, fs, hi (by decide) h4, h5⟩
  | eph => obtain ⟨h1, h2, h3, fs, d, l, h4, h5, h6, h7⟩ := h1; exact ⟨h1, h2, h3, fs, d, l, hi (by decide) h4, h5, h6, hi (by decide) h7⟩
  | base => obtain ⟨h1, h2, h3, fs, d, l, h4, h5, h6, h7⟩ := h1; exact ⟨h1, h2, h3, fs, d, l, hi (by decide) h4, h5, h6, hi (by decide) h7⟩

theorem keeps_append (h t : Heap) : Keeps h (h ++ t) := fun _ _ hb _ => by
  rw [List.getElem?_append_left (List.getElem?_eq_some_iff.1 hb).1]; exact hb

theorem keeps_set {h : Heap} {a : Nat} {d x y : Val} {p : Parser} (ha : h[a]? = some (topObj d x y p)) (T : Obj) : Keeps h (h.set a T) := fun b o hb ho => by
  have := get_set_top ha hb ho T []
  rwa [List.append_nil] at this

theorem Ready.append {all bare : Bool} {a : Nat} {x y : Int} {p : Parser} {h : Heap} (hr : Ready all bare a x y p h) (t : Heap) : Ready all bare a x y p (h ++ t) := by
  obtain ⟨d, es, h1, h2, h3, h4⟩ := hr
  refine ⟨d, es, ?_, keeps_append h t _ _ h2 (by intro d x y p; simp [topObj, registryObj]), h3, fun e he => (h4 e he).keep (keeps_append h t)⟩
  rw [List.getElem?_append_left (List.getElem?_eq_some_iff.1 h1).1]; exact h1

theorem Ready.set {all bare : Bool} {a : Nat} {x y : Int} {p : Parser} {h : Heap} (hr : Ready all bare a x y p h) :
    ∃ d, h[a]? = some (topObj (.ref d) (.int x) (.int y) p) ∧ ∀ x' y' p', Ready all bare a x' y' p' (h.set a (topObj (.ref d) (.int x') (.int y') p')) := by
  obtain ⟨d, es, h1, h2, h3, h4⟩ := hr
  refine ⟨d, h1, fun x' y' p' => ⟨d, es, ?_, keeps_set h1 _ _ _ h2 (by intro d x y p; simp [topObj, registryObj]), h3, fun e he => (h4 e he).keep (keeps_set h1 _)⟩⟩
  rw [List.getElem?_set_self (List.getElem?_eq_some_iff.1 h1).1]

/-- The same of the part of the heap that existed when the decoder was put together. -/
def ReadyIn (all bare : Bool) (a K : Nat) (x y : Int) (p : Parser) (h : Heap) : Prop := K ≤ h.length ∧ Ready all bare a x y p (h.take K)

theorem ReadyIn.ready {all bare : Bool} {a K : Nat} {x y : Int} {p : Parser} {h : Heap} (hr : ReadyIn all bare a K x y p h) : Ready all bare a x y p h := by
  have := hr.2.append (h.drop K)
  rwa [List.take_append_drop] at this

theorem ReadyIn.set {all bare : Bool} {a K : Nat} {x y : Int} {p : Parser} {h : Heap} (hr : ReadyIn all bare a K x y p h) {d : Nat}
    (hd : h[a]? = some (topObj (.ref d) (.int x) (.int y) p)) (x' y' : Int) (p' : Parser) (t : Heap) :
    ReadyIn all bare a K x' y' p' (h.set a (topObj (.ref d) (.int x') (.int y') p') ++ t) := by
  obtain ⟨h1, h2⟩ := hr
  refine ⟨by rw [List.length_append, List.length_set]; omega, ?_⟩
  obtain ⟨d', h3, h4⟩ := h2.set
  have h5 : d' = d := by
    have h6 := (List.getElem?_eq_some_iff.1 h3).1
    rw [List.length_take] at h6
    rw [List.getElem?_take_of_lt (by omega), hd] at h3
    unfold topObj at h3
    simp only [Option.some.injEq, Obj.inst.injEq, List.cons.injEq, Prod.mk.injEq, Val.ref.injEq] at h3
    exact h3.2.1.2.symm
  subst h5
  rw [List.take_append_of_le_length (by rw [List.length_set]; omega), List.take_set]
  exact h4 x' y' p'

theorem ReadyIn.other {all bare : Bool} {a K : Nat} {x y : Int} {p : Parser} {h h' : Heap} (hr : ReadyIn all bare a K x y p h) (hl : K ≤ h'.length)
    (ho : ∀ b, b < K → h'[b]? = h[b]?) : ReadyIn all bare a K x y p h' := by
  refine ⟨hl, ?_⟩
  have : h'.take K = h.take K := by
    apply List.ext_getElem?
    intro i
    by_cases hi : i < K
    · rw [List.getElem?_take_of_lt hi, List.getElem?_take_of_lt hi, ho i hi]
    · rw [List.getElem?_eq_none (by rw [List.length_take]; omega), List.getElem?_eq_none (by rw [List.length_take]; omega)]
  rw [this]
  exact hr.2

theorem supported_iff (all : Bool) (msg : Bytes) :
    supported all msg = true ↔ ∃ k f, numberIn msg = some k ∧ family k = some f ∧ familyOn (!all) f = true := by
  unfold supported
  cases hn : numberIn msg with
  | none => simp
  | some k =>
    cases hf : family k with
    | none =>
      constructor
      · intro h; simp [hf] at h
      · rintro ⟨k', f, h1, h2, -⟩
        cases h1
        rw [hf] at h2
        cases h2
    | some f =>
      constructor
      · intro h; exact ⟨k, f, rfl, hf, by simpa [hf] using h⟩
      · rintro ⟨k', f', h1, h2, h3⟩
        cases h1
        rw [hf] at h2
        cases h2
        simpa [hf] using h3

/-- A message that is not supported: nothing happens. -/
theorem Ready.unsupported {all bare : Bool} {a : Nat} {x y : Int} {p : Parser} {h : Heap} (hr : Ready all bare a x y p h) {msg : Bytes}
    (hs : supported all msg = false) (n : Nat) : callFn src (n + 5) n!"DecoderTop.decode" [.ref a, .bytes msg] h = (.ok .none, h) := by
  obtain ⟨d, es, h1, h2, h3, h4⟩ := hr
  refine topDecode_none n h1 h2 (fun e he => ?_) msg (fun e he => ?_)
  · obtain ⟨e', he', rfl⟩ := List.mem_map.1 he
    exact (h4 e' he').io
  · obtain ⟨e', he', rfl⟩ := List.mem_map.1 he
    rw [mnum_eq]
    cases hk : numberIn msg with
    | none => rfl
    | some k =>
      rw [((h4 e' he').wants k).1, decide_eq_false_iff_not]
      intro hf
      rw [Bool.eq_false_iff] at hs
      refine hs ((supported_iff all msg).2 ⟨k, e'.1, hk, hf, (mem_familiesOf all _).1 ?_⟩)
      rw [← h3]
      exact List.mem_map_of_mem he'

/-- A supported message: `decode` of the sub-decoder of its family is called in the heap with the first counter advanced. -/
theorem Ready.dispatch {all bare : Bool} {a d : Nat} {x y : Int} {p : Parser} {h : Heap} (hr : Ready all bare a x y p h)
    (hd : h[a]? = some (topObj (.ref d) (.int x) (.int y) p)) {msg : Bytes} {k : Nat} {f : Family}
    (hk : numberIn msg = some k) (hf : family k = some f) (hs : familyOn (!all) f = true) :
    ∃ e, EntryOf (h.set a (topObj (.ref d) (.int (x + 1)) (.int y) p)) bare f e ∧ ∃ N, ∀ n, match familyDecodeR rnd bare f msg with
      | none => ∃ t, callFn src (n + N) e.fn [.ref e.sub, .bytes msg] (h.set a (topObj (.ref d) (.int (x + 1)) (.int y) p)) =
            (.ok .none, h.set a (topObj (.ref d) (.int (x + 1)) (.int y) p) ++ t) ∧
          callFn src (n + N + 2) n!"DecoderTop.decode" [.ref a, .bytes msg] h = (.ok .none, h.set a (topObj (.ref d) (.int (x + 1)) (.int y) p) ++ t)
      | some o => ∃ b t, callFn src (n + N) e.fn [.ref e.sub, .bytes msg] (h.set a (topObj (.ref d) (.int (x + 1)) (.int y) p)) =
            (.ok (.ref b), h.set a (topObj (.ref d) (.int (x + 1)) (.int y) p) ++ t) ∧
          callFn src (n + N + 2) n!"DecoderTop.decode" [.ref a, .bytes msg] h = (.ok (.ref b), h.set a (topObj (.ref d) (.int (x + 1)) (.int (y + 1)) p) ++ t) ∧
          h.length ≤ b ∧ HasClass (h.set a (topObj (.ref d) (.int (x + 1)) (.int y) p) ++ t) b o.cls := by
  obtain ⟨d', es, h1, h2, h3, h4⟩ := hr
  obtain rfl : d' = d := by
    rw [hd] at h1
    unfold topObj at h1
    simp only [Option.some.injEq, Obj.inst.injEq, List.cons.injEq, Prod.mk.injEq, Val.ref.injEq] at h1
    exact h1.2.1.2.symm
  have hm0 : f ∈ es.map (·.1) := by rw [h3]; exact (mem_familiesOf all f).2 hs
  obtain ⟨⟨f', e⟩, hm, rfl⟩ := List.mem_map.1 hm0
  obtain ⟨pre, post, rfl⟩ := List.append_of_mem hm
  have hnd : ∀ e' ∈ pre, e'.1 ≠ f' := by
    have := familiesOf_nodup all
    rw [← h3, List.map_append, List.nodup_append] at this
    intro e' he' hc
    exact this.2.2 _ (List.mem_map_of_mem he') f' (by rw [List.map_cons]; exact List.mem_cons_self) hc
  have hpre : ∀ e' ∈ pre.map (·.2), e'.wants (some k) = false := by
    intro e1 h5
    obtain ⟨e', he', rfl⟩ := List.mem_map.1 h5
    rw [((h4 e' (List.mem_append_left _ he')).wants k).1, decide_eq_false_iff_not, hf]
    intro hc
    exact hnd e' he' (Option.some.inj hc).symm
  have hio : ∀ e' ∈ pre.map (·.2), IoAt h e' := by
    intro e1 h5
    obtain ⟨e', he', rfl⟩ := List.mem_map.1 h5
    exact (h4 e' (List.mem_append_left _ he')).io
  have he := h4 (f', e) hm
  dsimp only at he hf ⊢
  have hw := he.wants k
  rw [hf] at hw
  have hl := hw.2 rfl
  have hw : e.wants (some k) = true := by rw [hw.1]; simp
  have he1 := he.keep (keeps_set hd (topObj (.ref d') (.int (x + 1)) (.int y) p))
  rw [List.map_append, List.map_cons] at h2
  have hk' : mnum msg = some k := by rw [mnum_eq, hk]
  refine ⟨e, he1, ?_⟩
  obtain ⟨N, hN⟩ := he1.result hk
  refine ⟨N + 3, fun n => ?_⟩
  have := hN (n + 3)
  rw [show n + 3 + N = n + N + 3 by omega] at this
  cases ho : familyDecodeR rnd bare f' msg with
  | none =>
    rw [ho] at this
    obtain ⟨t, ht⟩ := this
    obtain ⟨c, hc⟩ := declared_some (b := bare) hf
    rw [hc] at hl
    exact ⟨t, ht, topDecode_nothing (n + N) hd h2 hio he.io msg hk' hpre hw hl ht⟩
  | some o =>
    rw [ho] at this
    obtain ⟨b, t, ht, hb, fs, hfs⟩ := this
    have hc := (familyDecodeR_class hk hf ho)
    rw [hc] at hl
    rw [List.length_set] at hb
    exact ⟨b, t, ht, topDecode_some (n + N) hd h2 hio he.io msg hk' hpre hw hl ht hfs (clsIdent_self _), hb, fs, hfs⟩

theorem feed_snoc (c : Bytes) : ∀ (cs : List Bytes) {p q q' : Parser} {ms out : List Bytes}, Reachable p → feed p cs = pure (q, ms) →
    catchMessage q c = pure (q', out) → feed p (cs ++ [c]) = pure (q', ms ++ out)
  | [], p, q, q', ms, out, _, h1, h2 => by
    have h3 := pureD_inj h1
    simp only [Prod.mk.injEq] at h3
    obtain ⟨rfl, rfl⟩ := h3
    rw [List.nil_append, feed, h2, pure_bind]
    simp only [feed, pure_bind, List.append_nil, List.nil_append]
  | c1 :: cs, p, q, q', ms, out, hp, h1, h2 => by
    obtain ⟨p1, ms1, hc, hp1⟩ := C09_total p hp c1
    obtain ⟨outs, -, q2, -, h3, -⟩ := catchAll_feed 0 .none .none .none cs [.list []] p1 (by decide) hp1
    rw [feed, hc, pure_bind] at h1
    dsimp only at h1
    rw [h3, pure_bind] at h1
    have h4 := pureD_inj h1
    simp only [Prod.mk.injEq] at h4
    obtain ⟨rfl, rfl⟩ := h4
    have h5 := feed_snoc c cs hp1 h3 h2
    rw [List.cons_append, feed, hc, pure_bind]
    dsimp only
    rw [h5, pure_bind, List.append_assoc]

instance : Inhabited IoEntry := ⟨⟨0, 0, 0, [], [], "", n!"decode", 0⟩⟩

theorem ready_start {all bare : Bool} {h0 h : Heap} {a : Nat} (hs : BlockReturns (strategyText all bare) h0 (.ref a) h) :
    Ready all bare a 0 0 Parser.init h ∧ ∃ t, h = h0 ++ t ∧ h0.length ≤ a := by
  obtain ⟨N, hN⟩ := hs
  obtain ⟨l, hl⟩ := hN (N + 3) (by omega)
  cases all with
  | true =>
    obtain ⟨l', hl'⟩ := assembleAll_src N h0 bare
    rw [hl] at hl'
    simp only [Prod.mk.injEq, Except.ok.injEq, Flow.ret.injEq, Val.ref.injEq, St.mk.injEq] at hl'
    obtain ⟨rfl, -, rfl⟩ := hl'
    have ha : ∀ L k, (h0 ++ L)[h0.length + k]? = L[k]? := append_getElem h0
    refine ⟨⟨_, [(.msm47, (allEntries bare h0.length)[0]!), (.msm13, (allEntries bare h0.length)[1]!), (.eph, (allEntries bare h0.length)[2]!),
      (.base, (allEntries bare h0.length)[3]!)], append_getElem0 h0 _, ha _ 1, rfl, ?_⟩, _, rfl, le_refl _⟩
    intro e he
    simp only [List.mem_cons, List.not_mem_nil, or_false] at he
    rcases he with rfl | rfl | rfl | rfl
    · exact ⟨⟨ha _ 10, ha _ 13, ha _ 15⟩, rfl, rfl, rfl, _, ha _ 9, rfl⟩
    · exact ⟨⟨ha _ 3, ha _ 6, ha _ 8⟩, rfl, rfl, rfl, _, ha _ 2, rfl⟩
    · exact ⟨⟨ha _ 18, ha _ 19, ha _ 21⟩, rfl, rfl, rfl, _, _, _, ha _ 16, rfl, rfl, ha _ 17⟩
    · exact ⟨⟨ha _ 24, ha _ 25, ha _ 27⟩, rfl, rfl, rfl, _, _, _, ha _ 22, rfl, rfl, ha _ 23⟩
  | false =>
    obtain ⟨l', hl'⟩ := assembleMsm_src N h0 bare
    rw [hl] at hl'
    simp only [Prod.mk.injEq, Except.ok.injEq, Flow.ret.injEq, Val.ref.injEq, St.mk.injEq] at hl'
    obtain ⟨rfl, -, rfl⟩ := hl'
    have ha : ∀ L k, (h0 ++ L)[h0.length + k]? = L[k]? := append_getElem h0
    refine ⟨⟨_, [(.msm47, (msmEntries bare h0.length)[0]!), (.msm13, (msmEntries bare h0.length)[1]!)], append_getElem0 h0 _, ha _ 1, rfl, ?_⟩, _, rfl, le_refl _⟩
    intro e he
    simp only [List.mem_cons, List.not_mem_nil, or_false] at he
    rcases he with rfl | rfl
    · exact ⟨⟨ha _ 10, ha _ 13, ha _ 15⟩, rfl, rfl, rfl, _, ha _ 9, rfl⟩
    · exact ⟨⟨ha _ 3, ha _ 6, ha _ 8⟩, rfl, rfl, rfl, _, ha _ 2, rfl⟩

theorem countP_snoc {α : Type} (q : α → Bool) (l : List α) (x : α) : (l ++ [x]).countP q = l.countP q + if q x then 1 else 0 := by
  rw [List.countP_append, List.countP_singleton]

theorem ends_unique {f : Ident} {args : List Val} {h : Heap} {r r' : Except Exc Val × Heap} (h1 : Ends f args h (fun x => x = r)) {k : Nat}
    (h2 : ∀ n, k ≤ n → callFn src n f args h = r') : r = r' := by
  obtain ⟨N, hN⟩ := h1
  rw [← hN (N + k) (by omega), h2 (N + k) (by omega)]

/-- A call of `catch_message` of a decoder. -/
theorem ReadyIn.catch {all bare : Bool} {a K : Nat} {x y : Int} {p : Parser} {h : Heap} (hr : ReadyIn all bare a K x y p h) (hp : Reachable p) (c : Bytes) :
    ∃ p1 ms r h', catchMessage p c = pure (p1, ms) ∧ Reachable p1 ∧ ReadyIn all bare a K x y p1 h' ∧ h'[r]? = some (.list (ms.map .bytes)) ∧
      (∀ b, b < h.length → b ≠ a → h'[b]? = h[b]?) ∧
      ∃ k, ∀ n, k ≤ n → callFn src n n!"DecoderTop.catch_message" [.ref a, .bytes c] h = (.ok (.ref r), h') := by
  obtain ⟨d, hd, -⟩ := hr.ready.set
  obtain ⟨p1, ms, hc, hp1⟩ := C09_total p hp c
  have ha := (List.getElem?_eq_some_iff.1 hd).1
  refine ⟨p1, ms, h.length, h.set a (topObj (.ref d) (.int x) (.int y) p1) ++ [Obj.list (ms.map .bytes), Obj.list [.bytes p.tail, .bytes c]], hc, hp1,
    hr.set hd _ _ _ _, ?_, ?_, p.tail.length + c.length + 6, fun n hn => ?_⟩
  · have := append_getElem0 (h.set a (topObj (.ref d) (.int x) (.int y) p1)) [Obj.list (ms.map .bytes), Obj.list [.bytes p.tail, .bytes c]]
    rwa [List.length_set] at this
  · intro b hb hba
    rw [List.getElem?_append_left (by rw [List.length_set]; exact hb), List.getElem?_set_ne (fun h => hba h.symm)]
  · obtain ⟨n, rfl⟩ : ∃ n', n = n' + 1 := ⟨n - 1, by omega⟩
    have := catch_src n h a ha (.ref d) (.int x) (.int y) p p1 c ms hc (by omega)
    rw [set_self hd, List.set_append_left _ _ ha] at this
    exact this

/-- The object that `decode` of a decoder returns for a supported message. -/
def supportedDecode (all bare : Bool) (msg : Bytes) : Option PyObj :=
  (numberIn msg).bind (fun k => (family k).bind (fun f => if familyOn (!all) f then familyDecodeR rnd bare f msg else none))

/-- A call of `decode` of a decoder. -/
theorem ReadyIn.decode {all bare : Bool} {a K : Nat} {x y : Int} {p : Parser} {h : Heap} (hr : ReadyIn all bare a K x y p h) (msg : Bytes) :
    ∃ N, ∀ n, ∃ v h', callFn src (n + N) n!"DecoderTop.decode" [.ref a, .bytes msg] h = (.ok v, h') ∧
      ReadyIn all bare a K (x + if supported all msg then 1 else 0) (y + if supported all msg && !noneVal v then 1 else 0) p h' ∧ OnlyCounts a h h' ∧
      match supportedDecode all bare msg with
      | none => v = .none ∧ (supported all msg = false → h' = h)
      | some o => supported all msg = true ∧ ∃ b, v = .ref b ∧ h.length ≤ b ∧ HasClass h' b o.cls := by
  obtain ⟨d, hd, -⟩ := hr.ready.set
  have ha := (List.getElem?_eq_some_iff.1 hd).1
  have hoc : ∀ x' y' t, OnlyCounts a h (h.set a (topObj (.ref d) (.int x') (.int y') p) ++ t) := by
    intro x' y' t
    refine ⟨fun b hb hba => ?_, n!"DecoderTop", _, _, hd, set_top_self hd _ _, fun i h1 h2 => ?_⟩
    · rw [List.getElem?_append_left (by rw [List.length_set]; exact hb), List.getElem?_set_ne (fun h => hba h.symm)]
    · simp only [List.lookup_cons, List.lookup_nil, beq_eq_false_iff_ne.2 h1, beq_eq_false_iff_ne.2 h2]
  cases hs : supported all msg with
  | false =>
    refine ⟨5, fun n => ⟨_, _, hr.ready.unsupported hs n, ?_, ?_, ?_⟩⟩
    · rw [if_neg (by decide), if_neg (by decide), add_zero, add_zero]
      exact hr
    · have := hoc x y []
      rwa [set_self hd, List.append_nil] at this
    · have h1 : supportedDecode all bare msg = none := by
        unfold supportedDecode
        cases hk : numberIn msg with
        | none => rfl
        | some k =>
          rw [Option.bind_some]
          cases hf : family k with
          | none => rfl
          | some f =>
            rw [Option.bind_some]
            refine if_neg (fun hc => ?_)
            rw [(supported_iff all msg).2 ⟨k, f, hk, hf, hc⟩] at hs
            cases hs
      rw [h1]
      exact ⟨rfl, fun _ => rfl⟩
  | true =>
    obtain ⟨k, f, hk, hf, hon⟩ := (supported_iff all msg).1 hs
    obtain ⟨e, -, N, hN⟩ := hr.ready.dispatch hd hk hf hon
    refine ⟨N + 2, fun n => ?_⟩
    have h1 : supportedDecode all bare msg = familyDecodeR rnd bare f msg := by
      unfold supportedDecode
      rw [hk, Option.bind_some, hf, Option.bind_some, if_pos hon]
    have := hN n
    rw [h1]
    cases ho : familyDecodeR rnd bare f msg with
    | none =>
      rw [ho] at this
      obtain ⟨t, -, h2⟩ := this
      refine ⟨_, _, h2, ?_, hoc _ _ _, rfl, fun h => by cases h⟩
      have h3 : noneVal .none = true := rfl
      rw [h3, if_pos rfl, if_neg (by decide), add_zero]
      exact hr.set hd _ _ _ _
    | some o =>
      rw [ho] at this
      obtain ⟨b, t, -, h2, h3, h4⟩ := this
      refine ⟨_, _, h2, ?_, hoc _ _ _, rfl, b, rfl, h3, ?_⟩
      · have h5 : noneVal (.ref b) = false := rfl
        rw [h5, if_pos rfl, if_pos (by decide)]
        exact hr.set hd _ _ _ _
      · obtain ⟨fs, h4⟩ := h4
        refine ⟨fs, ?_⟩
        rw [List.getElem?_append_right (by rw [List.length_set]; exact h3), List.length_set] at h4 ⊢
        exact h4

/-- What holds whenever the decoder is in use. -/
theorem inUse_inv {all bare : Bool} {a K : Nat} {fed got : List Bytes} {dec : List (Bytes × Val)} {h : Heap} (hu : InUse all bare a K fed got dec h) :
    ∃ p, ReadyIn all bare a K (dec.countP (fun m => supported all m.1) : Nat) (dec.countP (fun m => supported all m.1 && !noneVal m.2) : Nat) p h ∧ Reachable p ∧
      feed Parser.init fed = pure (p, got) := by
  induction hu with
  | start hs hK =>
    refine ⟨Parser.init, ⟨le_of_eq hK, ?_⟩, .init, rfl⟩
    rw [hK, List.take_length]
    exact (ready_start hs).1
  | @caught fed got dec h h' r ms c hu hc hr ih =>
    obtain ⟨p, h1, h2, h3⟩ := ih
    obtain ⟨p1, ms1, r1, h1', e1, e2, e3, e4, -, k, e5⟩ := h1.catch h2 c
    have := ends_unique hc e5
    simp only [Prod.mk.injEq, Except.ok.injEq, Val.ref.injEq] at this
    obtain ⟨rfl, rfl⟩ := this
    rw [hr] at e4
    simp only [Option.some.injEq, Obj.list.injEq] at e4
    have hj : Function.Injective (fun b : Bytes => Val.bytes b) := fun x y e => by injection e
    obtain rfl := (List.map_injective_iff.2 hj) e4
    exact ⟨p1, e3, e2, feed_snoc c fed .init h3 e1⟩
  | @decoded fed got dec h h' v m hu hd ih =>
    obtain ⟨p, h1, h2, h3⟩ := ih
    obtain ⟨N, hN⟩ := h1.decode m
    obtain ⟨N', hN'⟩ := hd
    obtain ⟨v1, h1', e1, e2, -⟩ := hN N'
    have := hN' (N' + N) (by omega)
    rw [e1] at this
    simp only [Prod.mk.injEq, Except.ok.injEq] at this
    obtain ⟨rfl, rfl⟩ := this
    refine ⟨p, ?_, h2, h3⟩
    rw [countP_snoc, countP_snoc]
    push_cast
    exact e2
  | other hu hl ho ih =>
    obtain ⟨p, h1, h2, h3⟩ := ih
    exact ⟨p, h1.other hl ho, h2, h3⟩

/-! ## Claims -/

/-- A call with some fuel that does not run out of it shows the result of the call. -/
theorem ends_of_fuel {f : Ident} {args : List Val} {h : Heap} {n : Nat} {r : Except Exc Val × Heap} (hr : callFn src n f args h = r) (hd : r.1 ≠ .error .diverge) :
    Ends f args h (fun x => x = r) :=
  ⟨n, fun m hm => by rw [callFn_mono src hm (by rw [hr]; exact hd), hr]⟩

/-- A call that comes to an end has one result. -/
theorem Ends.result {f : Ident} {args : List Val} {h : Heap} {post : Except Exc Val × Heap → Prop} (he : Ends f args h post)
    (hd : ∀ r, post r → r.1 ≠ .error .diverge) : ∃ r, post r ∧ Ends f args h (fun x => x = r) := by
  obtain ⟨N, hN⟩ := he
  exact ⟨_, hN N (le_refl _), ends_of_fuel rfl (hd _ (hN N (le_refl _)))⟩

/-- **C96** the decoding part of every strategy, executed in any heap, returns a new decoder: no sub-decoder is refused. No object that exists is changed. -/
theorem C96_assembled (all bare : Bool) (h0 : Heap) :
    ∃ a h, BlockReturns (strategyText all bare) h0 (.ref a) h ∧ h0.length ≤ a ∧ ∃ t, h = h0 ++ t := by
  cases all with
  | true =>
    refine ⟨h0.length, h0 ++ allObjects bare h0.length, ⟨3, fun n hn => ?_⟩, le_refl _, _, rfl⟩
    obtain ⟨n, rfl⟩ : ∃ n', n = n' + 3 := ⟨n - 3, by omega⟩
    exact assembleAll_src n h0 bare
  | false =>
    refine ⟨h0.length, h0 ++ msmObjects bare h0.length, ⟨3, fun n hn => ?_⟩, le_refl _, _, rfl⟩
    obtain ⟨n, rfl⟩ : ∃ n', n = n' + 3 := ⟨n - 3, by omega⟩
    exact assembleMsm_src n h0 bare

section
variable {all bare : Bool} {a K : Nat} {fed got : List Bytes} {dec : List (Bytes × Val)} {h : Heap} (hu : InUse all bare a K fed got dec h)
include hu

/-- **C96** of a decoder in use, `catch_message` comes to an end for every chunk and returns a list of `bytes`; no object but the decoder is changed, and the decoder stays
in use. -/
theorem C96_catch (c : Bytes) : ∃ ms r h', Ends n!"DecoderTop.catch_message" [.ref a, .bytes c] h (fun res => res = (.ok (.ref r), h')) ∧
    h'[r]? = some (.list (ms.map .bytes)) ∧ (∀ b, b < h.length → b ≠ a → h'[b]? = h[b]?) ∧ InUse all bare a K (fed ++ [c]) (got ++ ms) dec h' := by
  obtain ⟨p, h1, h2, -⟩ := inUse_inv hu
  obtain ⟨p1, ms, r, h', -, -, -, e4, e5, k, e6⟩ := h1.catch h2 c
  exact ⟨ms, r, h', ⟨k, e6⟩, e4, e5, .caught c hu ⟨k, e6⟩ e4⟩

/-- **C96** whatever the decoder has been used for in between, what `catch_message` has returned are the messages of the stream, and `parse_errors` is the number of those
that discarded bytes separate from the message before. -/
theorem C96_messages : got = messages fed.flatten ∧ Returns n!"DecoderTop.parse_errors" [.ref a] h (.int (dirtyGaps (scan [] fed.flatten).segs)) := by
  obtain ⟨p, h1, -, h3⟩ := inUse_inv hu
  obtain ⟨st, f1, f2, -⟩ := feed_init fed
  rw [f1] at h3
  have h4 := pureD_inj h3
  simp only [Prod.mk.injEq] at h4
  obtain ⟨rfl, rfl⟩ := h4
  obtain ⟨d, hd, -⟩ := h1.ready.set
  refine ⟨rfl, ?_⟩
  rw [← f2]
  exact Ends.of_call 1 (fun n => parse_errors_src n h a _ _ _ st hd)

/-- **C96** a stream of valid frames, cut in any way: `catch_message` has returned the frames, each once and in order, and no error is counted. -/
theorem C96_clean (fs : List Bytes) (hv : ∀ f ∈ fs, ValidFrame f) (hc : fed.flatten = fs.flatten) :
    got = fs ∧ Returns n!"DecoderTop.parse_errors" [.ref a] h (.int 0) := by
  obtain ⟨p, h1, -, h3⟩ := inUse_inv hu
  obtain ⟨st, e1, e2, -⟩ := C05_clean fs hv fed hc
  rw [e1] at h3
  have h4 := pureD_inj h3
  simp only [Prod.mk.injEq] at h4
  obtain ⟨rfl, rfl⟩ := h4
  obtain ⟨d, hd, -⟩ := h1.ready.set
  refine ⟨rfl, ?_⟩
  have := Ends.of_call 1 (fun n => parse_errors_src n h a _ _ _ st hd) (post := fun r => r = (.ok (.int st.parsErrCnt), h))
  rw [e2] at this
  exact this

/-- **C97** of a decoder in use, `decode` comes to an end for every byte string and never raises; it returns `None` or a new object of the class that is declared for the number
of the message. No object that exists is changed, but for the two counters. With a message that is not supported nothing is changed at all. The decoder stays in use. -/
theorem C97_decode (m : Bytes) : ∃ v h', Ends n!"DecoderTop.decode" [.ref a, .bytes m] h (fun res => res = (.ok v, h')) ∧ OnlyCounts a h h' ∧
    (supported all m = false → v = .none ∧ h' = h) ∧
    (v = .none ∨ ∃ b k c fs, v = .ref b ∧ h.length ≤ b ∧ numberIn m = some k ∧ declared bare k = some c ∧ h'[b]? = some (.inst (clsIdent c) fs)) ∧
    InUse all bare a K fed got (dec ++ [(m, v)]) h' := by
  obtain ⟨p, h1, -, -⟩ := inUse_inv hu
  obtain ⟨N, hN⟩ := h1.decode m
  obtain ⟨v, h', e1, -, e3, e4⟩ := hN 0
  have he := ends_of_fuel e1 (by simp)
  refine ⟨v, h', he, e3, ?_, ?_, .decoded m hu he⟩
  · intro hs
    cases ho : supportedDecode all bare m with
    | none => rw [ho] at e4; exact ⟨e4.1, e4.2 hs⟩
    | some o => rw [ho] at e4; rw [hs] at e4; cases e4.1
  · cases ho : supportedDecode all bare m with
    | none => rw [ho] at e4; exact .inl e4.1
    | some o =>
      rw [ho] at e4
      obtain ⟨-, b, e5, e6, fs, e7⟩ := e4
      unfold supportedDecode at ho
      obtain ⟨k, hk, ho⟩ := Option.bind_eq_some_iff.1 ho
      obtain ⟨f, hf, ho⟩ := Option.bind_eq_some_iff.1 ho
      have ho : familyDecodeR rnd bare f m = some o := by
        split at ho
        · exact ho
        · cases ho
      exact .inr ⟨b, k, _, fs, e5, e6, hk, (familyDecodeR_class hk hf ho), e7⟩

/-- **C97** `dec_attempts` is the number of supported messages that have been given to `decode`, `dec_errors` the number of those for which it has returned `None`. -/
theorem C97_counters : Returns n!"DecoderTop.dec_attempts" [.ref a] h (.int (dec.countP (fun x => supported all x.1))) ∧
    Returns n!"DecoderTop.dec_errors" [.ref a] h (.int (dec.countP (fun x => supported all x.1 && noneVal x.2))) := by
  obtain ⟨p, h1, -, -⟩ := inUse_inv hu
  obtain ⟨d, hd, -⟩ := h1.ready.set
  unfold topObj at hd
  have hs : (dec.countP (fun x => supported all x.1) : Int) - (dec.countP (fun x => supported all x.1 && !noneVal x.2) : Int) =
      (dec.countP (fun x => supported all x.1 && noneVal x.2) : Int) := by
    clear h1 hd hu
    induction dec with
    | nil => rfl
    | cons x dec ih =>
      rw [List.countP_cons, List.countP_cons, List.countP_cons]
      push_cast
      cases supported all x.1 <;> cases noneVal x.2 <;> simp <;> omega
  constructor
  · refine Ends.of_call 1 (fun n => ?_)
    pycall Look.fn_DecoderTop_dec_attempts Src.fn_DecoderTop_dec_attempts
    pyexec [hd]
  · refine Ends.of_call 1 (fun n => ?_)
    pycall Look.fn_DecoderTop_dec_errors Src.fn_DecoderTop_dec_errors
    pyexec [hd]
    rw [hs]

end

/-- A decoder in use: put together in the empty heap, and every use of it is possible. -/
theorem inUse_exists (all bare : Bool) : ∃ a h, InUse all bare a h.length [] [] [] h := by
  obtain ⟨a, h, h1, -⟩ := C96_assembled all bare []
  exact ⟨a, h, .start h1 rfl⟩

example (all bare : Bool) (c m : Bytes) : ∃ a K ms v h, InUse all bare a K [c] ms [(m, v)] h := by
  obtain ⟨a, h, h1⟩ := inUse_exists all bare
  obtain ⟨ms, r, h2, -, -, -, h3⟩ := C96_catch h1 c
  obtain ⟨v, h4, -, -, -, -, h5⟩ := C97_decode h3 m
  exact ⟨a, _, _, v, h4, h5⟩

end

/-- Numbers that are supported and that are not. -/
example : supported true ([0xD3, 0, 19, 0x3E, 0xD0] ++ List.replicate 20 0) = true ∧ supported false ([0xD3, 0, 19, 0x3E, 0xD0] ++ List.replicate 20 0) = false ∧
    supported false ([0xD3, 0, 19, 0x43, 0x50] ++ List.replicate 20 0) = true ∧ supported true [0xD3, 0, 2, 0x43] = false := by decide

end Verif
