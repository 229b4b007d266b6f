import Verif.Props.SourceTop
import Verif.Props.EndToEnd

/-!
Claims about what `DecoderTop.decode` delivers, from the text of the strategies of converter_top.py to the attributes of the object that is returned.
-/

namespace Verif
open Spec PyCore Refine Framer Decoder Run

/-- The heaps are the same but for the counters of decoders. -/
def SameView (h h' : Heap) : Prop :=
  ∀ b : Nat, h'[b]? = h[b]? ∨ ∃ d x y x' y' p, h[b]? = some (topObj d x y p) ∧ h'[b]? = some (topObj d x' y' p)

/-- The name is not that of a counter. -/
def Safe (x : String) : Prop := identOf x ≠ n!"_DecoderTop__dec_attempts" ∧ identOf x ≠ n!"_DecoderTop__dec_succeeded"

instance (x : String) : Decidable (Safe x) := by unfold Safe; infer_instance

theorem attrVal_same {h h' : Heap} (hs : SameView h h') {x : String} (hx : Safe x) (b : Nat) : h'[b]?.bind (attrVal · x) = h[b]?.bind (attrVal · x) := by
  rcases hs b with e | ⟨d, y1, y2, y3, y4, p, e1, e2⟩
  · rw [e]
  · rw [e1, e2]
    unfold topObj
    simp only [Option.bind_some, attrVal, List.lookup_cons, List.lookup_nil, beq_eq_false_iff_ne.2 hx.1, beq_eq_false_iff_ne.2 hx.2]

theorem pathVal_same {h h' : Heap} (hs : SameView h h') : ∀ (xs : List String) (v : Val), (∀ x ∈ xs, Safe x) → pathVal h' v xs = pathVal h v xs
  | [], _, _ => rfl
  | x :: xs, v, hx => by
    cases v with
    | ref a =>
      change (h'[a]?.bind (attrVal · x)).bind (pathVal h' · xs) = (h[a]?.bind (attrVal · x)).bind (pathVal h · xs)
      rw [attrVal_same hs (hx x List.mem_cons_self)]
      congr 1
      funext v
      exact pathVal_same hs xs v (fun y hy => hx y (List.mem_cons_of_mem _ hy))
    | _ => rfl

theorem itemVal_same {h h' : Heap} (hs : SameView h h') (v k : Val) : itemVal h' v k = itemVal h v k := by
  cases v with
  | ref a =>
    unfold itemVal
    dsimp only
    rcases hs a with e | ⟨d, y1, y2, y3, y4, p, e1, e2⟩
    · rw [e]
    · rw [e1, e2]; rfl
  | _ => rfl

theorem itemVal_same' {h h' : Heap} (hs : SameView h h') (k : Val) : (fun v => itemVal h' v k) = fun v => itemVal h v k := by
  funext v; exact itemVal_same hs v k

theorem shownBy_same {d : MsmData} {h h' : Heap} {v : Val} (hs : SameView h h') (hd : d.ShownBy h v) : d.ShownBy h' v := by
  have key : ∀ p ∈ d.headAttrs ++ (if d.k ≤ 3 then d.attrs13 else d.attrs47), ∀ x ∈ p.1, Safe x := by
    have h1 : ∀ q ∈ d.headAttrs.map (·.1), ∀ x ∈ q, Safe x := by unfold MsmData.headAttrs; simp only [List.map_cons, List.map_nil]; decide
    have h2 : ∀ q ∈ d.attrs13.map (·.1), ∀ x ∈ q, Safe x := by unfold MsmData.attrs13; simp only [List.map_cons, List.map_nil]; decide
    have h3 : ∀ q ∈ d.attrs47.map (·.1), ∀ x ∈ q, Safe x := by
      unfold MsmData.attrs47 MsmData.attrs13; simp only [List.map_cons, List.map_nil, List.cons_append, List.nil_append]; decide
    intro p hp
    rcases List.mem_append.1 hp with hp | hp
    · exact h1 _ (List.mem_map_of_mem hp)
    · split at hp
      · exact h2 _ (List.mem_map_of_mem hp)
      · exact h3 _ (List.mem_map_of_mem hp)
  intro p hp
  rw [pathVal_same hs _ _ (key p hp)]
  exact hd p hp

theorem headShown_same {d : MsmData} {h h' : Heap} {v : Val} (hs : SameView h h') (hd : d.HeadShown h v) : d.HeadShown h' v where
  attrs := by
    have key : ∀ q ∈ d.scaledAttrs.map (·.1), ∀ x ∈ q, Safe x := by unfold MsmData.scaledAttrs; simp only [List.map_cons, List.map_nil]; decide
    intro p hp
    rw [pathVal_same hs _ _ (key _ (List.mem_map_of_mem hp))]
    exact hd.attrs p hp
  codes := by
    have key : ∀ q ∈ d.codedAttrs.map (·.1), Safe q := by unfold MsmData.codedAttrs; simp only [List.map_cons, List.map_nil]; decide
    intro p hp
    have h1 := key _ (List.mem_map_of_mem hp)
    rw [pathVal_same hs _ _ (by
      intro x hx
      simp only [List.mem_cons, List.not_mem_nil, or_false] at hx
      rcases hx with rfl | rfl
      · decide
      · exact h1), itemVal_same' hs, itemVal_same' hs]
    exact hd.codes p hp
  signals := by
    intro n w
    rw [pathVal_same hs _ _ (by decide), itemVal_same' hs]
    exact hd.signals n w

theorem tableShown_same {d : MsmData} {h h' : Heap} {v : Val} (hs : SameView h h') {x : String} (hx : Safe x) {val : Nat → Nat → Option Val}
    (hd : d.TableShown h v x val) : d.TableShown h' v x val := by
  intro n s w
  unfold entryVal
  rw [pathVal_same hs _ _ (by
      intro y hy
      simp only [List.mem_cons, List.not_mem_nil, or_false] at hy
      rcases hy with rfl | rfl
      · decide
      · exact hx), itemVal_same' hs, itemVal_same' hs]
  exact hd n s w

theorem entryVal_same {h h' : Heap} (hs : SameView h h') {x : String} (hx : Safe x) (v : Val) (n : String) (s : Nat) :
    entryVal h' v x n s = entryVal h v x n s := by
  unfold entryVal
  rw [pathVal_same hs _ _ (by
      intro y hy
      simp only [List.mem_cons, List.not_mem_nil, or_false] at hy
      rcases hy with rfl | rfl
      · decide
      · exact hx), itemVal_same' hs, itemVal_same' hs]

theorem scaledShown_same {d : MsmData} {h h' : Heap} {v : Val} (hs : SameView h h') (hd : d.ScaledShown h v) : d.ScaledShown h' v where
  head := headShown_same hs hd.head
  rng := tableShown_same hs (by decide) hd.rng
  phs := tableShown_same hs (by decide) hd.phs
  dpl := tableShown_same hs (by decide) hd.dpl
  c2n := tableShown_same hs (by decide) hd.c2n
  ltm := tableShown_same hs (by decide) hd.ltm
  hca := tableShown_same hs (by decide) hd.hca

theorem isOfClass_same {h h' : Heap} {v : Val} (hs : SameView h h') {c : String} (hd : IsOfClass h v c) : IsOfClass h' v c := by
  obtain ⟨a, fs, rfl, h1⟩ := hd
  rcases hs a with e | ⟨d, y1, y2, y3, y4, p, e1, e2⟩
  · exact ⟨a, fs, rfl, by rw [e, h1]⟩
  · rw [e1] at h1
    unfold topObj at h1
    simp only [Option.some.injEq, Obj.inst.injEq] at h1
    exact ⟨a, _, rfl, by rw [e2, ← h1.1]; rfl⟩

theorem baseAttrs_safe (fb fc fq : Int → Val) (f : List UInt8 → String) (m : BaseMsg) : ∀ p ∈ m.attrs fb fc fq f, Safe p.1 := by
  have key : ∀ q ∈ (m.attrs fb fc fq f).map (·.1), Safe q := by
    cases m <;> simp only [BaseMsg.attrs, BaseMsg.plainAttrs, refAttrs, antennaAttrs, textAttrs, List.map_cons, List.map_nil, List.cons_append, List.nil_append] <;> decide
  exact fun p hp => key _ (List.mem_map_of_mem hp)

theorem entryOf_same {h h' : Heap} (hs : SameView h h') {x : String} (hx : Safe x) (v k : Val) : entryOf h' v x k = entryOf h v x k := by
  unfold entryOf
  rw [pathVal_same hs _ _ (by intro y hy; rw [List.mem_singleton.1 hy]; exact hx), itemVal_same' hs]

theorem tables_same {m : BaseMsg} {fb ft fv fx : Int → Val} {h h' : Heap} {v : Val} (hs : SameView h h') (hd : m.Tables fb ft fv fx h v) :
    m.Tables fb ft fv fx h' v := by
  cases m with
  | m1013 => intro k; rw [entryOf_same hs (by decide)]; exact hd k
  | m1230 => intro k hk; rw [entryOf_same hs (by decide), entryOf_same hs (by decide)]; exact hd k hk
  | _ => trivial

theorem heldBare_same {m : BaseMsg} {h h' : Heap} {v : Val} (hs : SameView h h') (hd : m.HeldBare h v) : m.HeldBare h' v := by
  refine ⟨isOfClass_same hs hd.1, fun p hp => ?_, tables_same hs hd.2.2⟩
  rw [pathVal_same hs _ _ (by intro y hy; rw [List.mem_singleton.1 hy]; exact baseAttrs_safe _ _ _ _ m p hp)]
  exact hd.2.1 p hp

theorem heldScaled_same {m : BaseMsg} {f : List UInt8 → String} {h h' : Heap} {v : Val} (hs : SameView h h') (hd : m.HeldScaled f h v) : m.HeldScaled f h' v := by
  refine ⟨isOfClass_same hs hd.1, fun p hp => ?_, tables_same hs hd.2.2⟩
  rw [pathVal_same hs _ _ (by intro y hy; rw [List.mem_singleton.1 hy]; exact baseAttrs_safe _ _ _ _ m p hp)]
  exact hd.2.1 p hp

theorem sameView_set [Rounding] {h : Heap} {a : Nat} {d x y : Val} {p : Parser} (ha : h[a]? = some (topObj d x y p)) (x1 y1 x2 y2 : Val) (t : Heap) :
    SameView (h.set a (topObj d x1 y1 p) ++ t) (h.set a (topObj d x2 y2 p) ++ t) := by
  intro b
  by_cases hb : b = a
  · subst hb
    exact .inr ⟨d, x1, y1, x2, y2, p, set_top_self ha _ _, set_top_self ha _ _⟩
  · left
    by_cases hl : b < h.length
    · rw [List.getElem?_append_left (by rw [List.length_set]; exact hl), List.getElem?_append_left (by rw [List.length_set]; exact hl),
        List.getElem?_set_ne (fun h => hb h.symm), List.getElem?_set_ne (fun h => hb h.symm)]
    · rw [List.getElem?_append_right (by rw [List.length_set]; omega), List.getElem?_append_right (by rw [List.length_set]; omega), List.length_set, List.length_set]

/-- An object whose named attributes are the given values. -/
def NamedAttrs (names : List String) (vals : List Val) (h : Heap) (v : Val) : Prop := names.map (fun x => pathVal h v [x]) = vals.map some

theorem namedAttrs_same {names : List String} {vals : List Val} (hn : ∀ x ∈ names, Safe x) {h h' : Heap} {v : Val} (hs : SameView h h') (hd : NamedAttrs names vals h v) :
    NamedAttrs names vals h' v := by
  unfold NamedAttrs at hd ⊢
  rw [← hd]
  exact List.map_congr_left (fun x hx => pathVal_same hs _ _ (by intro y hy; rw [List.mem_singleton.1 hy]; exact hn x hx))

theorem namesOf_safe {ν : Type} (o : Eph.Obj ν) : ∀ x ∈ namesOf o, Safe x := by
  cases o <;> (dsimp only [namesOf]; decide +kernel)

theorem named_of_attrs {names : List String} {vals : List Val} {h : Heap} {b : Nat} {x : Obj} (hb : h[b]? = some x)
    (hx : names.map (attrVal x) = vals.map some) : NamedAttrs names vals h (.ref b) := by
  unfold NamedAttrs
  rw [← hx]
  refine List.map_congr_left (fun y _ => ?_)
  change (h[b]?.bind (attrVal · y)).bind (fun v => some v) = _
  rw [hb, Option.bind_some]
  cases attrVal x y <;> rfl

/-- Messages of a content: number and family. -/
theorem msm_family {d : MsmData} (hw : d.WF) {m : Bytes} (hc : d.CarriedBy m) (all : Bool) :
    ∃ f, numberIn m = some d.number ∧ family d.number = some f ∧ familyOn (!all) f = true ∧ (f = .msm13 ∨ f = .msm47) := by
  rcases family_msm hw with h | h
  · exact ⟨_, number_msm hw hc, h, by cases all <;> rfl, .inl rfl⟩
  · exact ⟨_, number_msm hw hc, h, by cases all <;> rfl, .inr rfl⟩

section
variable [Rounding]

section
variable {all bare : Bool} {a K : Nat} {fed got : List Bytes} {dec : List (Bytes × Val)} {h : Heap} (hu : InUse all bare a K fed got dec h)
  {m : Bytes} {k : Nat} {f : Family} (hk : numberIn m = some k) (hf : family k = some f) (hon : familyOn (!all) f = true)
include hu hk hf hon

/-- What the sub-decoder delivers is delivered. -/
theorem deliver {prop : Heap → Val → Prop} (hP : ∀ h h' v, SameView h h' → prop h v → prop h' v)
    (hs : ∀ g e, EntryOf g bare f e → Ends e.fn [.ref e.sub, .bytes m] g (fun r => ∃ b t, r = (.ok (.ref b), g ++ t) ∧ g.length ≤ b ∧ prop (g ++ t) (.ref b))) :
    Delivers a h m prop := by
  obtain ⟨p, h1, -, -⟩ := inUse_inv hu
  obtain ⟨d, hd, -⟩ := h1.ready.set
  obtain ⟨e, he, N, hN⟩ := h1.ready.dispatch hd hk hf hon
  obtain ⟨N', hN'⟩ := hs _ e he
  have h2 := hN N'
  obtain ⟨b, t, h3, h4, h5⟩ := hN' (N' + N) (by omega)
  cases ho : familyDecodeR Rounding.rnd bare f m with
  | none =>
    rw [ho] at h2
    obtain ⟨t', h6, -⟩ := h2
    rw [h3] at h6
    simp at h6
  | some o =>
    rw [ho] at h2
    obtain ⟨b', t', h6, h7, h8, -⟩ := h2
    rw [h3] at h6
    simp only [Prod.mk.injEq, Except.ok.injEq, Val.ref.injEq, List.append_cancel_left_eq] at h6
    obtain ⟨rfl, rfl⟩ := h6
    exact ⟨b, _, ends_of_fuel h7 (by simp), h8, hP _ _ _ (sameView_set hd _ _ _ _ _) h5⟩

/-- What the sub-decoder delivers or refuses. -/
theorem deliver_or {prop : Heap → Val → Prop} (hP : ∀ h h' v, SameView h h' → prop h v → prop h' v)
    (hs : ∀ g e, EntryOf g bare f e → Ends e.fn [.ref e.sub, .bytes m] g (fun r => (∃ t, r = (.ok .none, g ++ t)) ∨
      ∃ b t, r = (.ok (.ref b), g ++ t) ∧ prop (g ++ t) (.ref b))) : Refuses a h m ∨ Delivers a h m prop := by
  obtain ⟨p, h1, -, -⟩ := inUse_inv hu
  obtain ⟨d, hd, -⟩ := h1.ready.set
  obtain ⟨e, he, N, hN⟩ := h1.ready.dispatch hd hk hf hon
  obtain ⟨N', hN'⟩ := hs _ e he
  have h2 := hN N'
  cases ho : familyDecodeR Rounding.rnd bare f m with
  | none =>
    rw [ho] at h2
    obtain ⟨t', -, h7⟩ := h2
    exact .inl ⟨_, ends_of_fuel h7 (by simp)⟩
  | some o =>
    rw [ho] at h2
    obtain ⟨b', t', h6, h7, h8, -⟩ := h2
    rcases hN' (N' + N) (by omega) with ⟨t, h3⟩ | ⟨b, t, h3, h5⟩
    · rw [h3] at h6
      simp at h6
    · rw [h3] at h6
      simp only [Prod.mk.injEq, Except.ok.injEq, Val.ref.injEq, List.append_cancel_left_eq] at h6
      obtain ⟨rfl, rfl⟩ := h6
      exact .inr ⟨b, _, ends_of_fuel h7 (by simp), h8, hP _ _ _ (sameView_set hd _ _ _ _ _) h5⟩

/-- What the sub-decoder refuses is refused. -/
theorem refuse (hs : ∀ g e, EntryOf g bare f e → Ends e.fn [.ref e.sub, .bytes m] g (fun r => ∃ t, r = (.ok .none, g ++ t))) : Refuses a h m := by
  obtain ⟨p, h1, -, -⟩ := inUse_inv hu
  obtain ⟨d, hd, -⟩ := h1.ready.set
  obtain ⟨e, he, N, hN⟩ := h1.ready.dispatch hd hk hf hon
  obtain ⟨N', hN'⟩ := hs _ e he
  have h2 := hN N'
  obtain ⟨t, h3⟩ := hN' (N' + N) (by omega)
  cases ho : familyDecodeR Rounding.rnd bare f m with
  | none =>
    rw [ho] at h2
    obtain ⟨t', h6, h7⟩ := h2
    exact ⟨_, ends_of_fuel h7 (by simp)⟩
  | some o =>
    rw [ho] at h2
    obtain ⟨b', t', h6, -⟩ := h2
    rw [h3] at h6
    simp at h6

end

theorem EntryOf.msm {g : Heap} {bare : Bool} {f : Family} {e : IoEntry} (he : EntryOf g bare f e) (hf : f = .msm13 ∨ f = .msm47) : MsmSub g e.sub bare e.fn := by
  have h1 := he.isOf
  rcases hf with rfl | rfl
  · exact .inr ⟨h1.2.2.1, h1.2.2.2⟩
  · exact .inl ⟨h1.2.2.1, h1.2.2.2⟩

theorem EntryOf.eph {g : Heap} {bare : Bool} {e : IoEntry} (he : EntryOf g bare .eph e) : e.fn = n!"SubdecoderEph.decode" ∧ EphSub g e.sub bare := he.isOf.2.2

theorem EntryOf.base {g : Heap} {bare : Bool} {e : IoEntry} (he : EntryOf g bare .base e) : e.fn = n!"SubdecoderBaseStationData.decode" ∧ BaseSub g e.sub bare :=
  he.isOf.2.2

section
variable {all : Bool} {a K : Nat} {fed got : List Bytes} {dec : List (Bytes × Val)} {h : Heap}

/-! ## Claims: multiple signal messages -/

/-- **C98** mode of transmitted integers: of every frame that carries an MSM4 … MSM7 content a decoder in use delivers a new object whose named attributes are the
transmitted integers. -/
theorem C98_bare (hu : InUse all true a K fed got dec h) (d : MsmData) (hw : d.WF) (hk : 4 ≤ d.k) (m : Bytes) (hv : ValidFrame m) (hc : d.CarriedBy m) :
    Delivers a h m d.ShownBy := by
  obtain ⟨f, h1, h2, h3, h4⟩ := msm_family hw hc all
  exact deliver hu h1 h2 h3 (fun _ _ _ => shownBy_same) (fun g e he => C90_bare g e.sub e.fn (he.msm h4) d hw hk m hv hc)

/-- **C98** conversely: what is delivered of a valid frame with the number of a multiple signal message shows a content that the frame carries. -/
theorem C98_sound_bare (hu : InUse all true a K fed got dec h) (m : Bytes) (hv : ValidFrame m) (k : Nat) (hk : numberIn m = some k)
    (hf : family k = some .msm13 ∨ family k = some .msm47) :
    Refuses a h m ∨ Delivers a h m (fun h' v => ∃ d : MsmData, d.WF ∧ d.CarriedBy m ∧ d.ShownBy h' v) := by
  have key : ∀ f, family k = some f → f = .msm13 ∨ f = .msm47 → _ := fun f h1 h2 =>
    deliver_or hu hk h1 (by rcases h2 with rfl | rfl <;> cases all <;> rfl) (prop := fun h' v => ∃ d : MsmData, d.WF ∧ d.CarriedBy m ∧ d.ShownBy h' v)
      (fun _ _ _ hs ⟨d, e1, e2, e3⟩ => ⟨d, e1, e2, shownBy_same hs e3⟩) (fun g e he => by
        obtain ⟨N, hN⟩ := C90_sound g e.sub e.fn (he.msm h2) m hv
        refine ⟨N, fun n hn => ?_⟩
        rcases hN n hn with h3 | ⟨d, b, t, e1, e2, e3, e4⟩
        · exact .inl h3
        · exact .inr ⟨b, t, e3, d, e1, e2, e4⟩)
  rcases hf with h1 | h1
  · exact key _ h1 (.inl rfl)
  · exact key _ h1 (.inr rfl)

/-! ## Claims: base station data -/

/-- **C99** mode of transmitted integers with all messages: of every buffer that carries a base station message (of 1013 those that announce something) a decoder in use
delivers a new object that holds every field as it was transmitted. -/
theorem C99_bare (hu : InUse true true a K fed got dec h) (m : Bytes) (b : BaseMsg) (hm : b.isEmptySchedule = false) (hc : b.CarriedBy m) :
    Delivers a h m b.HeldBare := by
  obtain ⟨h1, h2⟩ := number_base hc
  exact deliver hu h1 h2 rfl (fun _ _ _ => heldBare_same) (fun g e he => by rw [he.base.1]; exact C94_carried g e.sub he.base.2 m b hm hc)

/-! ## Claims: ephemerides and MSM1 … MSM3 -/

/-- **C100** mode of transmitted integers: of every message that carries an ephemeris of a type other than QZSS a decoder in use delivers a new object, and each named
attribute of it is the integer of its field. (Missing: QZSS, C100_qzss_violated.) -/
theorem C100_eph_bare_partial (hu : InUse true true a K fed got dec h) (m : Bytes) (o : Eph.Obj Int) (hq : ∀ e, o ≠ .qzs e) (hn : NumOk o) (hc : CarriesEph m o) :
    Delivers a h m (NamedAttrs (namesOf o) ((valsOf o).map .int)) :=
  deliver hu (number_eph hn hc) (family_eph o) rfl (fun _ _ _ => namedAttrs_same (namesOf_safe o)) (fun g e he => by
    rw [he.eph.1]
    obtain ⟨N, hN⟩ := C88_bare_partial g e.sub he.eph.2 m o hq hn hc
    refine ⟨N, fun n hn => ?_⟩
    obtain ⟨b, t, x, h1, h2, h3, h4⟩ := hN n hn
    exact ⟨b, t, h1, h2, named_of_attrs h3 (by rw [List.map_map]; exact h4)⟩)

/-- **C100** violated: every QZSS ephemeris is refused. -/
theorem C100_qzss_violated {bare : Bool} (hu : InUse true bare a K fed got dec h) (m : Bytes) (e : EphQZS Int) (hn : NumOk (.qzs e)) (hc : CarriesEph m (.qzs e)) :
    Refuses a h m :=
  refuse hu (number_eph hn hc) (family_eph _) rfl (fun g i he => by rw [he.eph.1]; exact C88_qzss_violated g i.sub bare he.eph.2 m e hn hc)

/-- **C100** MSM1 … MSM3, mode of transmitted integers. (Missing: the MSM2 and MSM3 contents whose length is estimated wrongly, C100_msm_violated.) -/
theorem C100_msm_bare_partial (hu : InUse all true a K fed got dec h) (d : MsmData) (hw : d.WF) (hk : d.k ≤ 3) (hE : d.k = 1 ∨ LengthEstimateRight d)
    (m : Bytes) (hv : ValidFrame m) (hc : d.CarriedBy m) : Delivers a h m d.ShownBy := by
  obtain ⟨f, h1, h2, h3, h4⟩ := msm_family hw hc all
  exact deliver hu h1 h2 h3 (fun _ _ _ => shownBy_same) (fun g e he => C91_bare_partial g e.sub e.fn (he.msm h4) d hw hk hE m hv hc)

/-- **C100** violated: every frame that carries an MSM2 or MSM3 content with eight or more cells is refused. -/
theorem C100_msm_violated (hu : InUse all true a K fed got dec h) (d : MsmData) (hw : d.WF) (hk : d.k = 2 ∨ d.k = 3) (hn : 8 ≤ d.ncell ∨ ¬ LengthEstimateRight d)
    (m : Bytes) (hv : ValidFrame m) (hc : d.CarriedBy m) : Refuses a h m := by
  obtain ⟨f, h1, h2, h3, h4⟩ := msm_family hw hc all
  exact refuse hu h1 h2 h3 (fun g e he => C91_violated g e.sub e.fn (he.msm h4) d hw hk hn m hv hc)

end

/-- A decoder that has been used: put together in the empty heap, given any chunk and any message. -/
theorem inUse_some (all bare : Bool) (c x : Bytes) : ∃ a K ms v h, InUse all bare a K [c] ms [(x, v)] h := by
  obtain ⟨a, h, h1⟩ := inUse_exists all bare
  obtain ⟨ms, r, h2, -, -, -, h3⟩ := C96_catch h1 c
  obtain ⟨v, h4, -, -, -, -, h5⟩ := C97_decode h3 x
  exact ⟨a, _, _, v, h4, h5⟩

end

/-! ## Claims: exact arithmetic -/

section
attribute [local instance] exactArith
variable {all : Bool} {a K : Nat} {fed got : List Bytes} {dec : List (Bytes × Val)} {h : Heap}

/-- **C98** mode of scaled values: if all signals have RINEX codes, the object shows the header and the observables in physical units. -/
theorem C98_scaled (hu : InUse all false a K fed got dec h) (d : MsmData) (hw : d.WF) (hk : 4 ≤ d.k) (hs : d.SignalsKnown) (m : Bytes) (hv : ValidFrame m)
    (hc : d.CarriedBy m) : Delivers a h m d.ScaledShown := by
  obtain ⟨f, h1, h2, h3, h4⟩ := msm_family hw hc all
  exact deliver hu h1 h2 h3 (fun _ _ _ => scaledShown_same) (fun g e he => C92_scaled g e.sub e.fn (he.msm h4) d hw hk hs m hv hc)

/-- **C98** a message with a signal that has no RINEX code is refused in the mode of scaled values. -/
theorem C98_unknown (hu : InUse all false a K fed got dec h) (d : MsmData) (hw : d.WF) (hk : 4 ≤ d.k) (hs : ∃ t ∈ d.sigList, d.sigName t = none) (m : Bytes)
    (hv : ValidFrame m) (hc : d.CarriedBy m) : Refuses a h m := by
  obtain ⟨f, h1, h2, h3, h4⟩ := msm_family hw hc all
  exact refuse hu h1 h2 h3 (fun g e he => C92_unknown g e.sub e.fn (he.msm h4) d hw hk hs m hv hc)

/-- **C98** the same for scaled values. -/
theorem C98_sound_scaled (hu : InUse all false a K fed got dec h) (m : Bytes) (hv : ValidFrame m) (k : Nat) (hk : numberIn m = some k)
    (hf : family k = some .msm13 ∨ family k = some .msm47) :
    Refuses a h m ∨ Delivers a h m (fun h' v => ∃ d : MsmData, d.WF ∧ d.CarriedBy m ∧ d.SignalsKnown ∧ d.HeadShown h' v ∧ (4 ≤ d.k → d.ScaledShown h' v)) := by
  have key : ∀ f, family k = some f → f = .msm13 ∨ f = .msm47 → _ := fun f h1 h2 =>
    deliver_or hu hk h1 (by rcases h2 with rfl | rfl <;> cases all <;> rfl)
      (prop := fun h' v => ∃ d : MsmData, d.WF ∧ d.CarriedBy m ∧ d.SignalsKnown ∧ d.HeadShown h' v ∧ (4 ≤ d.k → d.ScaledShown h' v))
      (fun _ _ _ hs ⟨d, e1, e2, e3, e4, e5⟩ => ⟨d, e1, e2, e3, headShown_same hs e4, fun hk => scaledShown_same hs (e5 hk)⟩) (fun g e he => by
        obtain ⟨N, hN⟩ := C92_sound g e.sub e.fn (he.msm h2) m hv
        refine ⟨N, fun n hn => ?_⟩
        rcases hN n hn with h3 | ⟨d, b, t, e1, e2, e3, e4, -, e5, e6⟩
        · exact .inl h3
        · exact .inr ⟨b, t, e4, d, e1, e2, e3, e5, e6⟩)
  rcases hf with h1 | h1
  · exact key _ h1 (.inl rfl)
  · exact key _ h1 (.inr rfl)

/-- **C99** mode of scaled values: texts must be UTF-8 and not empty. -/
theorem C99_scaled (hu : InUse true false a K fed got dec h) (m : Bytes) (b : BaseMsg) (hm : b.isEmptySchedule = false) (hc : b.CarriedBy m)
    (f : List UInt8 → String) (hf : ∀ t ∈ b.texts, t ≠ [] ∧ t = utf8 (f t)) : Delivers a h m (b.HeldScaled f) := by
  obtain ⟨h1, h2⟩ := number_base hc
  exact deliver hu h1 h2 rfl (fun _ _ _ => heldScaled_same) (fun g e he => by rw [he.base.1]; exact C95_carried g e.sub he.base.2 m b hm hc f hf)

/-- **C99** any other buffer with the number of a base station message is refused. -/
theorem C99_other_bare (hu : InUse true true a K fed got dec h) (m : Bytes) (k : Nat) (hk : numberIn m = some k) (hf : family k = some .base)
    (hno : ∀ b : BaseMsg, b.CarriedBy m → b.isEmptySchedule = true) : Refuses a h m := by
  have hl : 5 ≤ m.length := by
    unfold numberIn at hk
    by_contra hc
    rw [if_pos (by omega)] at hk
    cases hk
  exact refuse hu hk hf rfl (fun g e he => by rw [he.base.1]; exact C94_other g e.sub he.base.2 m hl hno)

/-- **C99** the same for scaled values: those with a text that is empty or not UTF-8 are refused, too. -/
theorem C99_other_scaled (hu : InUse true false a K fed got dec h) (m : Bytes) (k : Nat) (hk : numberIn m = some k) (hf : family k = some .base)
    (hno : ∀ b : BaseMsg, b.CarriedBy m → b.isEmptySchedule = true ∨ ∃ t ∈ b.texts, t = [] ∨ ∀ s, t ≠ utf8 s) : Refuses a h m := by
  have hl : 5 ≤ m.length := by
    unfold numberIn at hk
    by_contra hc
    rw [if_pos (by omega)] at hk
    cases hk
  exact refuse hu hk hf rfl (fun g e he => by rw [he.base.1]; exact C95_other g e.sub he.base.2 m hl hno)

/-- **C100** mode of scaled values: each named attribute is the integer of its field times the resolution of the standard. (Missing: QZSS.) -/
theorem C100_eph_scaled_partial (hu : InUse true false a K fed got dec h) (m : Bytes) (o : Eph.Obj Int) (hq : ∀ e, o ≠ .qzs e) (hn : NumOk o) (hc : CarriesEph m o) :
    Delivers a h m (NamedAttrs (namesOf o) ((scaledVals (tableOf o) (valsOf o)).map pyNumVal)) :=
  deliver hu (number_eph hn hc) (family_eph o) rfl (fun _ _ _ => namedAttrs_same (namesOf_safe o)) (fun g e he => by
    rw [he.eph.1]
    obtain ⟨N, hN⟩ := C88_scaled_partial g e.sub he.eph.2 m o hq hn hc
    refine ⟨N, fun n hn => ?_⟩
    obtain ⟨b, t, x, h1, h2, h3, h4⟩ := hN n hn
    exact ⟨b, t, h1, h2, named_of_attrs h3 (by rw [List.map_map]; exact h4)⟩)

/-- **C100** MSM1 … MSM3, mode of scaled values. (Missing: those contents, and MSM3 with an invalid pseudorange.) -/
theorem C100_msm_scaled_partial (hu : InUse all false a K fed got dec h) (d : MsmData) (hw : d.WF) (hk : d.k ≤ 3) (hs : d.SignalsKnown)
    (h3 : d.k = 3 → ∀ x ∈ d.rngFine, x ≠ -(2 ^ 14)) (hE : LengthEstimateRight d) (m : Bytes) (hv : ValidFrame m) (hc : d.CarriedBy m) :
    Delivers a h m d.ScaledShown := by
  obtain ⟨f, h1, h2, h4, h5⟩ := msm_family hw hc all
  exact deliver hu h1 h2 h4 (fun _ _ _ => scaledShown_same) (fun g e he => C93_scaled_partial g e.sub e.fn (he.msm h5) d hw hk hs h3 hE m hv hc)

/-- **C100** violated: MSM3 in the mode of scaled values. A pseudorange that is marked invalid takes away the phases of all later signals of the satellite. -/
theorem C100_scaled_violated (hu : InUse all false a K fed got dec h) (d : MsmData) (hw : d.WF) (hk : d.k = 3) (hs : d.SignalsKnown) (hE : LengthEstimateRight d)
    (m : Bytes) (hv : ValidFrame m) (hc : d.CarriedBy m) (s t u : Nat) (n : String) (hss : s ∈ d.satList) (ht : t ∈ d.sigList) (hu' : u ∈ d.sigList)
    (hn : d.sigName t = some n) (hut : d.sigCol u ≤ d.sigCol t) (hbad : d.rngBad s u = true) : Delivers a h m (fun h' v => entryVal h' v "phs" n s = none) := by
  obtain ⟨f, h1, h2, h4, h5⟩ := msm_family hw hc all
  exact deliver hu h1 h2 h4 (fun _ _ _ hsv e => by rwa [entryVal_same hsv (by decide)])
    (fun g e he => C93_violated g e.sub e.fn (he.msm h5) d hw hk hs hE m hv hc s t u n hss ht hu' hn hut hbad)

/-! ## Concrete cases -/

/-- The content `exMsm5` of C21, as integers and scaled; the MSM3 content of C25, where the phase of signal 1P of satellite 5 is missing though it is transmitted. -/
example (c x : Bytes) : ∃ a h, Delivers a h exMsm5.toFrame exMsm5.ShownBy ∧ ∃ K ms v, InUse true true a K [c] ms [(x, v)] h := by
  obtain ⟨a, K, ms, v, h, hu⟩ := inUse_some true true c x
  have h1 : exMsm5.WF := by decide +kernel
  have h2 : exMsm5.InRange := by unfold MsmData.InRange; decide +kernel
  exact ⟨a, h, C98_bare hu exMsm5 h1 (by decide) _ (msm_frame h1 h2).1 (msm_frame h1 h2).2, K, ms, v, hu⟩
example (c x : Bytes) : ∃ a h, Delivers a h exMsm5.toFrame exMsm5.ScaledShown ∧ Delivers a h exSticky.toFrame (fun h' v => entryVal h' v "phs" "1P" 5 = none) ∧
    exSticky.phsVal 5 3 ≠ none ∧ ∃ K ms v, InUse false false a K [c] ms [(x, v)] h := by
  obtain ⟨a, K, ms, v, h, hu⟩ := inUse_some false false c x
  have h1 : exMsm5.WF := by decide +kernel
  have h2 : exMsm5.InRange := by unfold MsmData.InRange; decide +kernel
  have h3 : exSticky.WF := by decide +kernel
  have h4 : exSticky.InRange := by unfold MsmData.InRange; decide +kernel
  exact ⟨a, h, C98_scaled hu exMsm5 h1 (by decide) (by decide +kernel) _ (msm_frame h1 h2).1 (msm_frame h1 h2).2,
    C100_scaled_violated hu exSticky h3 (by decide) (by decide +kernel) (by decide +kernel) _ (msm_frame h3 h4).1 (msm_frame h3 h4).2 5 3 2 "1P"
      (by decide +kernel) (by decide +kernel) (by decide +kernel) (by decide +kernel) (by decide +kernel) (by decide +kernel), by decide +kernel, K, ms, v, hu⟩

/-- A base station with extreme coordinates is delivered, an ephemeris of GLONASS, too, that of a QZSS satellite is refused. -/
example (c x : Bytes) : ∃ a h, Delivers a h (messageFrame exRefMsg.layout exRefMsg.vals) exRefMsg.HeldBare ∧
    Delivers a h ([0xD3, 0, 45] ++ bytesOfBits 45 (encode (fieldsOf T1020) (vals1020 sampleGlo)) ++ [1, 2, 3])
      (NamedAttrs (namesOf (.glo sampleGlo)) ((valsOf (.glo sampleGlo)).map .int)) ∧
    Refuses a h ([0xD3, 0, 61] ++ bytesOfBits 61 (encode (fieldsOf T1044) (vals1044 sampleQzs) ++ [false, false, false]) ++ [1, 2, 3]) ∧
    ∃ K ms v, InUse true true a K [c] ms [(x, v)] h := by
  obtain ⟨a, K, ms, v, h, hu⟩ := inUse_some true true c x
  refine ⟨a, h, C99_bare hu _ exRefMsg rfl (C33_C37_encodable _ (by decide +kernel)).1, C100_eph_bare_partial hu _ (.glo sampleGlo) (by intro e; simp) rfl ?_,
    C100_qzss_violated hu _ sampleQzs rfl ?_, K, ms, v, hu⟩
  · exact ⟨[0xD3, 0, 45], _, [1, 2, 3], encode (fieldsOf T1020) (vals1020 sampleGlo), [], rfl, rfl, rfl, by decide +kernel, encodes_encode (by decide)⟩
  · exact ⟨[0xD3, 0, 61], _, [1, 2, 3], encode (fieldsOf T1044) (vals1044 sampleQzs), [false, false, false], rfl, rfl, rfl,
      by decide +kernel, encodes_encode (by decide)⟩

end

end Verif
