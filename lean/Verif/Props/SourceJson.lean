import Verif.Props.SourceDeliver
import Verif.Props.EndToEndScaled
import Verif.Lemmas.JsonDouble
import Verif.Refine.JsonMsm
import Verif.Refine.JsonData
import Verif.Spec.JsonText

/-!
Claims about the text of the JSON serialiser: what is written for the objects that a decoder in use delivers.
-/

namespace Verif
open Spec PyCore Refine Framer Decoder Run
open Rounding (rnd)

section
variable [Rounding]

/-! ## Objects in the heap -/

/-- In the heap, `b` is an object with the given attributes. -/
def ObjAt (h : Heap) (b : Nat) : PyObj → Prop
  | .msm o => ∃ t, ObsAt h b t o
  | .msmBare o => BareHeld h b o
  | .eph e => h[b]? = some (ephObj numVal e)
  | .baseBare o => BareShown o h b
  | .baseScaled o => ScaledBase o h b

/-- Objects with the given property are in the other heap too. -/
def KeptIn (h g : Heap) : Prop := ∀ (b : Nat) (o : Obj), (∀ d x y p, o ≠ topObj d x y p) → h[b]? = some o → g[b]? = some o

theorem SameView.kept {h g : Heap} (hs : SameView h g) : KeptIn h g := by
  intro b o ho hb
  rcases hs b with e | ⟨d, x, y, x', y', p, e1, -⟩
  · rw [e, hb]
  · rw [hb] at e1
    exact absurd (Option.some.inj e1) (ho _ _ _ _)

theorem kept_of_ext {h g : Heap} (hs : ∀ (b : Nat) (o : Obj), h[b]? = some o → g[b]? = some o) : KeptIn h g := fun b o _ hb => hs b o hb

/-- An object of another class. -/
theorem KeptIn.inst {h g : Heap} (hs : KeptIn h g) {b : Nat} {c : Ident} {fs : Fields} (hc : c ≠ n!"DecoderTop") (hb : h[b]? = some (.inst c fs)) :
    g[b]? = some (.inst c fs) := hs b _ (by intro d x y p e; injection e with e; exact hc e) hb

theorem KeptIn.dict {h g : Heap} (hs : KeptIn h g) {b : Nat} {l : List (Val × Val)} (hb : h[b]? = some (.dict l)) : g[b]? = some (.dict l) :=
  hs b _ (by intro d x y p e; cases e) hb

theorem KeptIn.parts {h g : Heap} (hs : KeptIn h g) {o : Nat} {K : BareKind} {x : Msm.Attributes} {hd : Msm.BareHdr} {sat sgn : Fields}
    (h1 : K.bd ≠ n!"DecoderTop") (h2 : K.sat ≠ n!"DecoderTop") (h3 : K.sgn ≠ n!"DecoderTop") (ho : PartsAt h o K x hd sat sgn) : PartsAt g o K x hd sat sgn := by
  obtain ⟨aA, aH, aT, aG, e1, e2, e3, e4, e5⟩ := ho
  exact ⟨aA, aH, aT, aG, hs.inst h1 e1, hs.inst (by decide) e2, hs.inst (by decide) e3, hs.inst h2 e4, hs.inst h3 e5⟩

theorem KeptIn.base {β ν σ : Type} {fb : β → Val} {fn : ν → Val} {fq : σ → Val} {h g : Heap} (hs : KeptIn h g) {b : Nat} {o : Base.Obj β ν σ}
    (ho : ShowsBase fb fn fq h b o) : ShowsBase fb fn fq g b o := by
  cases o with
  | sp o => obtain ⟨d, e1, e2, e3⟩ := ho; exact ⟨d, hs.inst (by decide) e1, hs.dict e2, e3⟩
  | glbs o => obtain ⟨d, e, e1, e2, e3, e4⟩ := ho; exact ⟨d, e, hs.inst (by decide) e1, hs.dict e2, hs.dict e3, e4⟩
  | rp o => exact hs.inst (by decide) ho
  | rph o => exact hs.inst (by decide) ho
  | ad o => exact hs.inst (by decide) ho
  | adsn o => exact hs.inst (by decide) ho
  | adsnrc o => exact hs.inst (by decide) ho
  | ts o => exact hs.inst (by decide) ho

theorem KeptIn.obj {h g : Heap} (hs : KeptIn h g) {b : Nat} : ∀ {o : PyObj}, ObjAt h b o → ObjAt g b o
  | .msm o, ⟨t, ho⟩ => ⟨t,
    { rv := hs.inst (by decide) ho.rv
      obs := hs.inst (by decide) ho.obs
      atr := hs.inst (by decide) ho.atr
      tab := fun t => by
        obtain ⟨ad, e1, e2⟩ := ho.tab t
        exact ⟨ad, hs.dict e1, fun p hp => hs.dict (e2 p hp)⟩
      hdr := by
        obtain ⟨k, e1, e2⟩ := ho.hdr
        exact ⟨k, hs.inst (by decide) e1, hs.dict e2⟩
      aux := hs.inst (by decide) ho.aux
      steer := hs.dict ho.steer
      ext := hs.dict ho.ext
      indc := hs.dict ho.indc
      intr := hs.dict ho.intr }⟩
  | .msmBare (.m123 o), ho => hs.parts (by decide) (by decide) (by decide) ho
  | .msmBare (.m4567 o), ho => hs.parts (by decide) (by decide) (by decide) ho
  | .eph e, ho => by
    cases e <;> exact hs.inst (by decide) ho
  | .baseBare o, ho => hs.base ho
  | .baseScaled o, ho => hs.base ho

theorem msmHeap_held (G : Heap) (o : Msm.Bare) (T : List Obj) : BareHeld (msmHeap G o T) (G.length + 2) o := by
  have ha : ∀ L k, (G ++ L)[G.length + k]? = L[k]? := append_getElem G
  cases o with
  | m123 o => exact ⟨G.length + 1, G.length + 4, G.length + 5, G.length + 6, ha _ _, ha _ _, ha _ _, ha _ _, ha _ _⟩
  | m4567 o => exact ⟨G.length + 1, G.length + 4, G.length + 5, G.length + 6, ha _ _, ha _ _, ha _ _, ha _ _, ha _ _⟩

/-- The object that the sub-decoder of a family returns. -/
theorem EntryOf.shows {h : Heap} {bare : Bool} {f : Family} {e : IoEntry} (he : EntryOf h bare f e) {msg : Bytes} {k : Nat} (hk : numberIn msg = some k)
    {o : PyObj} (ho : familyDecodeR rnd bare f msg = some o) :
    Ends e.fn [.ref e.sub, .bytes msg] h (fun r => ∃ b t, r = (.ok (.ref b), h ++ t) ∧ h.length ≤ b ∧ ObjAt (h ++ t) b o) := by
  have msm : ∀ fn, MsmSub h e.sub bare fn → (Msm.decodeMsm17R rnd bare msg).map msmObj = some o →
      Ends fn [.ref e.sub, .bytes msg] h (fun r => ∃ b t, r = (.ok (.ref b), h ++ t) ∧ h.length ≤ b ∧ ObjAt (h ++ t) b o) := by
    intro fn hs hv
    rw [Option.map_eq_some_iff] at hv
    obtain ⟨x, hv, rfl⟩ := hv
    cases bare with
    | true =>
      refine Ends.of_call 6 (fun n => ?_)
      have := msmSub_bare hs msg n
      unfold Msm.decodeMsm17R at hv
      cases hm : Msm.decode msg with
      | error e => rw [hm] at hv; cases hv
      | ok o =>
        rw [hm] at hv this
        cases hv
        obtain ⟨T, hT⟩ := this
        obtain ⟨t, ht, -⟩ := msmHeap_ext h o T
        exact ⟨_, t, by rw [hT, ht], by omega, by rw [← ht]; exact msmHeap_held h o T⟩
    | false =>
      obtain ⟨N, hN⟩ := msmSub_scaled hs msg
      refine Ends.of_call N (fun n => ?_)
      have := hN n
      rw [hv] at this
      cases x with
      | inl b =>
        exfalso
        unfold Msm.decodeMsm17R at hv
        cases hm : Msm.decode msg with
        | error e => rw [hm] at hv; cases hv
        | ok o =>
          rw [hm] at hv
          dsimp only at hv
          rw [if_neg (by decide)] at hv
          rcases hc : Msm.convertR rnd (some o) with e | _ | r
          all_goals (rw [hc] at hv; cases hv)
      | inr o =>
        obtain ⟨t, r, b, h1, h2, h3⟩ := this
        exact ⟨r, t, h1, h2, _, h3⟩
  have h1 := he.isOf
  cases f with
  | msm47 => obtain ⟨-, -, h1, h2⟩ := h1; rw [h1]; exact msm _ (.inl ⟨rfl, h2⟩) ho
  | msm13 => obtain ⟨-, -, h1, h2⟩ := h1; rw [h1]; exact msm _ (.inr ⟨rfl, h2⟩) ho
  | eph =>
    obtain ⟨-, -, h1, fs, d, l, h2, h3, h4, h5⟩ := h1
    rw [h1]
    refine Ends.of_call 6 (fun n => ?_)
    have := ephSub_src n ⟨l, h5⟩ bare h2 h3 h4 msg
    unfold familyDecodeR at ho
    dsimp only at ho
    rw [Option.map_eq_some_iff] at ho
    obtain ⟨x, hv, rfl⟩ := ho
    rw [hv] at this
    exact this
  | base =>
    obtain ⟨-, -, h1, fs, d, l, h2, h3, h4, h5⟩ := h1
    rw [h1]
    refine Ends.of_call 6 (fun n => ?_)
    have := baseSub_src n ⟨l, h5⟩ bare h2 h3 h4 msg
    unfold familyDecodeR at ho
    dsimp only at ho
    cases hv : Base.subDecodeR rnd bare msg with
    | error e => rw [hv] at ho; cases ho
    | ok x =>
      rw [hv] at ho this
      dsimp only at ho
      rw [Option.map_eq_some_iff] at ho
      obtain ⟨y, rfl, rfl⟩ := ho
      obtain ⟨b, t, h6, h7, h8⟩ := this
      refine ⟨b, t, h6, h7, ?_⟩
      cases y with
      | inl o => exact h8
      | inr o => exact h8

/-- What a decoder in use delivers. -/
theorem deliver_obj {all bare : Bool} {a K : Nat} {fed got : List Bytes} {dec : List (Bytes × Val)} {h : Heap} (hu : InUse all bare a K fed got dec h)
    {m : Bytes} {k : Nat} {f : Family} (hk : numberIn m = some k) (hf : family k = some f) (hon : familyOn (!all) f = true)
    {o : PyObj} (ho : familyDecodeR rnd bare f m = some o) {prop : Heap → Val → Prop} (hp : ∀ g b, ObjAt g b o → prop g (.ref b)) : Delivers a h m prop := by
  obtain ⟨b, h', h1, h2, b', e, h3⟩ := deliver hu hk hf hon (prop := fun g v => ∃ b, v = .ref b ∧ ObjAt g b o)
    (fun _ _ _ hs ⟨b, h1, h2⟩ => ⟨b, h1, hs.kept.obj h2⟩) (fun g e he => by
      obtain ⟨N, hN⟩ := he.shows hk ho
      refine ⟨N, fun n hn => ?_⟩
      obtain ⟨b, t, h1, h2, h3⟩ := hN n hn
      exact ⟨b, t, h1, h2, b, rfl, h3⟩)
  cases e
  exact ⟨b, h', h1, h2, hp _ _ h3⟩

/-! ## Serialisation -/

/-- What the serialiser returns for an object. -/
theorem obj_value {hdr aux pretty : Bool} {Q : Val → Prop} {o : PyObj}
    (hq : Q (.json (Json.objVal ⟨hdr, aux, pretty⟩ o) (Json.Controls.indent ⟨hdr, aux, pretty⟩))) {h : Heap} {b : Nat} (ho : ObjAt h b o) :
    ∃ b' c fs, Val.ref b = .ref b' ∧ h[b']? = some (.inst c fs) ∧ ∀ (g : Heap) (a : Nat), (∀ (b : Nat) (o : Obj), h[b]? = some o → g[b]? = some o) → IsCore hdr aux pretty g a →
      Ends (serialiser c) [.ref a, .ref b] g (fun res => ∃ x t, res = (.ok x, g ++ t) ∧ Q x) := by
  have key : ∀ (g : Heap) (x : Except Exc Val × Heap) (t : Heap),
      x = (.ok (.json (Json.objVal ⟨hdr, aux, pretty⟩ o) (Json.Controls.indent ⟨hdr, aux, pretty⟩)), g ++ t) →
      ∃ v t, x = (.ok v, g ++ t) ∧ Q v := fun g x t hx => ⟨_, t, hx, hq⟩
  cases o with
  | msm o =>
    obtain ⟨t, ho⟩ := ho
    refine ⟨b, _, _, rfl, ho.rv, fun g a hg hc => Ends.of_call 2 (fun n => ?_)⟩
    obtain ⟨t', ho⟩ := (kept_of_ext hg).obj (o := .msm o) ⟨t, ho⟩
    obtain ⟨T, hT⟩ := msm_json n (c := ⟨hdr, aux, pretty⟩) hc ho
    exact key g _ T hT
  | msmBare o =>
    have hcls : ∃ c fs, h[b]? = some (.inst c fs) ∧ serialiser c = n!"JSONCore.BareObservablesMSMtoPrintBuffer" := by
      cases o <;> (obtain ⟨aA, aH, aT, aG, e1, -⟩ := ho; exact ⟨_, _, e1, rfl⟩)
    obtain ⟨c, fs, h1, h2⟩ := hcls
    refine ⟨b, c, fs, rfl, h1, fun g a hg hc => ?_⟩
    rw [h2]
    refine Ends.of_call 2 (fun n => ?_)
    obtain ⟨T, hT⟩ := bare_json n (c := ⟨hdr, aux, pretty⟩) hc ((kept_of_ext hg).obj (o := .msmBare o) ho)
    exact key g _ T hT
  | eph e =>
    have hcls : ∃ c fs, h[b]? = some (.inst c fs) ∧ serialiser c = n!"JSONCore.dataClassToPrintBuffer" := by
      cases e <;> exact ⟨_, _, ho, rfl⟩
    obtain ⟨c, fs, h1, h2⟩ := hcls
    refine ⟨b, c, fs, rfl, h1, fun g a hg hc => ?_⟩
    rw [h2]
    refine Ends.of_call 2 (fun n => ?_)
    obtain ⟨T, hT⟩ := eph_json n (c := ⟨hdr, aux, pretty⟩) hc ((kept_of_ext hg).obj (o := .eph e) ho)
    exact key g _ T hT
  | baseBare o =>
    obtain ⟨fs, h1⟩ := showsBase_class ho
    have h2 : serialiser (clsIdent (baseCls o)) = n!"JSONCore.dataClassToPrintBuffer" := by cases o <;> rfl
    refine ⟨b, _, fs, rfl, h1, fun g a hg hc => ?_⟩
    rw [h2]
    refine Ends.of_call 2 (fun n => ?_)
    obtain ⟨T, hT⟩ := base_json written_bare n (c := ⟨hdr, aux, pretty⟩) hc ((kept_of_ext hg).obj (o := .baseBare o) ho)
    exact key g _ T hT
  | baseScaled o =>
    obtain ⟨fs, h1⟩ := showsBase_class ho
    have h2 : serialiser (clsIdent (baseCls o)) = n!"JSONCore.dataClassToPrintBuffer" := by cases o <;> rfl
    refine ⟨b, _, fs, rfl, h1, fun g a hg hc => ?_⟩
    rw [h2]
    refine Ends.of_call 2 (fun n => ?_)
    obtain ⟨T, hT⟩ := base_json written_scaled n (c := ⟨hdr, aux, pretty⟩) hc ((kept_of_ext hg).obj (o := .baseScaled o) ho)
    exact key g _ T hT

/-- What is written for an object. -/
theorem obj_written {hdr aux pretty : Bool} {prop : (Rat → List Char) → JV → Prop} {o : PyObj}
    (hp : ∀ fr : Rat → List Char, prop fr (jv fr (Json.objVal ⟨hdr, aux, pretty⟩ o))) {h : Heap} {b : Nat} (ho : ObjAt h b o) :
    WrittenAs hdr aux pretty prop h (.ref b) :=
  obj_value (Q := IsJsonText pretty prop) ⟨_, rfl, fun fr hfr => ⟨_, hp fr, Json.dumps_denotes fr hfr _ _⟩⟩ ho

/-- Number and family of a frame with an outcome. -/
theorem outcome_some {m : Mode} {msg : Bytes} {o : PyObj} (h : outcome m msg = some o) :
    ∃ k f, numberIn msg = some k ∧ family k = some f ∧ familyOn m.obsOnly f = true ∧ familyDecode m.bare f msg = some o := by
  unfold outcome at h
  cases hk : numberIn msg with
  | none => rw [hk] at h; cases h
  | some k =>
    rw [hk] at h
    dsimp only at h
    cases hf : family k with
    | none => rw [hf] at h; cases h
    | some f =>
      rw [hf] at h
      dsimp only at h
      by_cases hon : familyOn m.obsOnly f = true
      · rw [if_pos hon] at h
        exact ⟨k, f, rfl, hf, hon, h⟩
      · rw [if_neg hon] at h
        cases h

/-- An accepted schedule announces something. -/
theorem sp_announces {c : Content} (ha : c.Accepted) {s : BaseSP Int Int} (h : PyObj.baseBare (.sp s) = c.bareObj) : s.Nm ≠ 0 := by
  cases c with
  | eph e => unfold Content.bareObj at h; injection h
  | msm d => unfold Content.bareObj at h; injection h
  | base m =>
    have h : PyObj.baseBare (.sp s) = .baseBare (Spec.bareObj m) := h
    injection h with h
    have ha := (acceptable_iff m).1 ha
    cases m with
    | m1013 id mjd sec leap ann =>
      unfold Spec.bareObj at h
      injection h with h
      rw [h]
      dsimp only
      cases ann with
      | nil => cases ha
      | cons x ann => rw [List.length_cons]; omega
    | _ => unfold Spec.bareObj at h; injection h

/-- The transmitted integers do not depend on the arithmetic. -/
theorem familyR_bare {f : Family} {msg : Bytes} {c : Content} (hw : c.WellFormed) (ha : c.Accepted) (h : familyDecode true f msg = some c.bareObj) :
    familyDecodeR rnd true f msg = some c.bareObj := by
  cases f with
  | msm13 => rw [← h]; exact congrArg (Option.map msmObj) (msmR_bare rnd msg)
  | msm47 => rw [← h]; exact congrArg (Option.map msmObj) (msmR_bare rnd msg)
  | eph => exact h
  | base =>
    unfold familyDecode at h
    unfold familyDecodeR
    dsimp only at h ⊢
    cases hv : Base.subDecode true msg with
    | error e => rw [hv] at h; cases h
    | ok x =>
      rw [hv] at h
      dsimp only at h
      rw [Option.map_eq_some_iff] at h
      obtain ⟨y, rfl, hy⟩ := h
      have hs : Base.subDecodeR rnd true msg = .ok (some y) := by
        unfold Base.subDecode at hv
        obtain ⟨k, hk, hv⟩ := bind_ok hv
        cases hd : Base.decode msg true with
        | error e => rw [hd] at hv; cases hv
        | ok z =>
          rw [hd] at hv
          cases hv
          unfold Base.decode at hd
          obtain ⟨o, ho, hd⟩ := bind_ok hd
          cases hd
          unfold Base.subDecodeR Base.decodeR
          rw [hk, ok_bind, Base.decodeBareR_of_ok rnd ho ?_]
          · rfl
          · rintro s rfl
            exact sp_announces ha hy
      rw [hs]
      exact congrArg some hy

/-! ## Claims -/

theorem truth_inst {h : Heap} {k : Nat} {c : Ident} {fs : Fields} (hk : h[k]? = some (.inst c fs)) (L : List (Ident × Val)) :
    truth src (.ref k) ⟨L, h⟩ = (.ok true, ⟨L, h⟩) := by
  unfold truth
  pyexec [hk]

/-- **C106** `JSONCore(controls)` has the given controls. -/
theorem C106_core (hdr aux pretty : Bool) (h : Heap) (a k : Nat) (ha : h[a]? = some (.inst n!"JSONCore" []))
    (hk : h[k]? = some (.inst n!"JSONControls" [(n!"enable_hdr_data", .bool hdr), (n!"enable_aux_data", .bool aux), (n!"enable_pretty_view", .bool pretty)])) :
    Ends n!"JSONCore.__init__" [.ref a, .ref k] h (fun res => ∃ h', res = (.ok .none, h') ∧ IsCore hdr aux pretty h' a) := by
  have hne : a ≠ k := by rintro rfl; rw [ha] at hk; cases hk
  refine Ends.of_call 2 (fun n => ⟨h.set a (.inst n!"JSONCore" [(n!"ctrls", .ref k)]), ?_, k, ?_, ?_⟩)
  · pycall Look.fn_JSONCore_P_init_P Src.fn_JSONCore_P_init_P
    pyexec [ha, truth_inst hk]
  · rw [List.getElem?_set_self (List.getElem?_eq_some_iff.1 ha).1]
  · rw [List.getElem?_set_ne hne, hk]

/-- **C106** without controls everything is off. -/
theorem C106_default (h : Heap) (a : Nat) (ha : h[a]? = some (.inst n!"JSONCore" [])) :
    Ends n!"JSONCore.__init__" [.ref a, .none] h (fun res => ∃ h', res = (.ok .none, h') ∧ IsCore false false false h' a) := by
  have hi : ∀ (n : Nat) (G : Heap), callFn src (n + 1) n!"JSONControls.__init__" [.ref G.length] (G ++ [.inst n!"JSONControls" []]) = (.ok .none,
      G ++ [.inst n!"JSONControls" [(n!"enable_hdr_data", .bool false), (n!"enable_aux_data", .bool false), (n!"enable_pretty_view", .bool false)]]) := by
    intro n G
    pycall Look.fn_JSONControls_P_init_P Src.fn_JSONControls_P_init_P
    pynew
  have hl := (List.getElem?_eq_some_iff.1 ha).1
  refine Ends.of_call 2 (fun n => ⟨(h ++ [Obj.inst n!"JSONControls" [(n!"enable_hdr_data", .bool false), (n!"enable_aux_data", .bool false),
    (n!"enable_pretty_view", .bool false)]]).set a (.inst n!"JSONCore" [(n!"ctrls", .ref h.length)]), ?_, h.length, ?_, ?_⟩)
  · have g1 : ∀ X, (h ++ X)[a]? = _ := fun X => heap_old ha X
    pycall Look.fn_JSONCore_P_init_P Src.fn_JSONCore_P_init_P
    pyexec [ha, hi, g1]
  · rw [List.getElem?_set_self (by rw [List.length_append]; omega)]
  · rw [List.getElem?_set_ne (by omega), append_getElem0]
    rfl

/-- **C106** mode of transmitted integers: what a decoder in use delivers of the frame of a well-formed content is written as the JSON value with all fields of the content as
transmitted, in every arithmetic of floats. (Missing: contents that are not `Accepted`, of which nothing is delivered: C52_violated.) -/
theorem C106_bare_partial {a K : Nat} {fed got : List Bytes} {dec : List (Bytes × Val)} {h : Heap} (hu : InUse true true a K fed got dec h)
    (c : Content) (hw : c.WellFormed) (ha : c.Accepted) (hdr aux pretty : Bool) :
    Delivers a h c.frame (WrittenAs hdr aux pretty (fun _ w => c.BareJson hdr aux w)) := by
  obtain ⟨k, f, h1, h2, h3, h4⟩ := outcome_some (outcome_bare hw ha)
  exact deliver_obj hu h1 h2 (by cases f <;> rfl) (familyR_bare hw ha h4)
    (fun g b ho => obj_written (fun fr => Json.content_bare fr ⟨hdr, aux, pretty⟩ c hw) ho)

end

/-- **C106** physical units, exact arithmetic: what is delivered of the frame of a well-formed content is written as the JSON value of the content. (Missing: contents that
are not `AcceptedScaled`, C52_violated and the claims named there.) -/
theorem C106_scaled_partial {a K : Nat} {fed got : List Bytes} {dec : List (Bytes × Val)} {h : Heap}
    (hu : @InUse exactArith true false a K fed got dec h) (c : Content) (hw : c.WellFormed) (ha : c.AcceptedScaled) (hdr aux pretty : Bool) :
    @Delivers exactArith a h c.frame (@WrittenAs exactArith hdr aux pretty (fun fr w => c.ScaledJson fr hdr aux w)) := by
  let _ := exactArith
  obtain ⟨o, ho, hs⟩ := outcome_scaled hw ha
  obtain ⟨k, f, h1, h2, h3, h4⟩ := outcome_some ho
  refine deliver_obj hu h1 h2 (by cases f <;> rfl) (o := o) ?_
    (fun g b hb => obj_written (fun fr => Json.content_scaled fr ⟨hdr, aux, pretty⟩ c hw o hs) hb)
  show familyDecodeR id false f c.frame = some o
  rw [familyDecodeR_id]
  exact h4

/-- Number and family of a frame. -/
theorem content_family {c : Content} (hw : c.WellFormed) : ∃ f, numberIn c.frame = some c.number ∧ family c.number = some f := by
  have hc := frame_carries hw
  cases c with
  | eph e => exact ⟨_, number_eph hw.2.2 (carries_eph hc), family_eph e⟩
  | base m => exact ⟨_, number_base hc⟩
  | msm d =>
    rcases family_msm hw.2.2 with h | h
    · exact ⟨_, number_msm hw.2.2 hc, h⟩
    · exact ⟨_, number_msm hw.2.2 hc, h⟩

theorem family_rel {rnd : Rat → Rat} (h : Nearest rnd) (bare : Bool) (f : Family) (msg : Bytes) (hl : msg.length < 2 ^ 40) :
    Option.Rel (ORel rnd) (familyDecode bare f msg) (familyDecodeR rnd bare f msg) := by
  cases f with
  | msm13 => exact msm_rel h bare msg
  | msm47 => exact msm_rel h bare msg
  | eph => exact eph_rel h bare msg
  | base =>
    have := base_rel h bare msg hl
    unfold familyDecode familyDecodeR
    dsimp only
    cases h1 : Base.subDecode bare msg with
    | error e =>
      cases h2 : Base.subDecodeR rnd bare msg with
      | error e => exact .none
      | ok x => rw [h1, h2] at this; exact this.elim
    | ok y =>
      cases h2 : Base.subDecodeR rnd bare msg with
      | error e => rw [h1, h2] at this; exact this.elim
      | ok x => rw [h1, h2] at this; exact this

/-- **C106** physical units in double precision: the value that is written differs from the exact one only in numbers, by at most the tolerance of the member they are in. -/
theorem C106_double_partial {rnd : Rat → Rat} (hr : Nearest rnd) {a K : Nat} {fed got : List Bytes} {dec : List (Bytes × Val)} {h : Heap}
    (hu : @InUse (doubleArith hr) true false a K fed got dec h) (c : Content) (hw : c.WellFormed) (ha : c.AcceptedScaled) (hdr aux pretty : Bool) :
    @Delivers (doubleArith hr) a h c.frame (@WrittenAs (doubleArith hr) hdr aux pretty (fun fr w => c.DoubleJson fr hdr aux w)) := by
  let _ := doubleArith hr
  obtain ⟨o, ho, hs⟩ := outcome_scaled hw ha
  obtain ⟨k, f, h1, h2, h3, h4⟩ := outcome_some ho
  have h5 := family_rel hr false f c.frame (frame_short (frame_valid hw))
  have h4 : familyDecode false f c.frame = some o := h4
  rw [h4] at h5
  cases h6 : familyDecodeR rnd false f c.frame with
  | none => rw [h6] at h5; cases h5
  | some o' =>
    rw [h6] at h5
    cases h5 with
    | some h5 =>
      exact deliver_obj hu h1 h2 (by cases f <;> rfl) (o := o') h6
        (fun g b hb => obj_written (fun fr => ⟨_, Json.content_scaled fr ⟨hdr, aux, pretty⟩ c hw o hs, Json.near_json hr ⟨hdr, aux, pretty⟩ h5⟩) hb)

/-- What the sub-decoder refuses, a decoder in use refuses. -/
theorem refuse_none [Rounding] {all bare : Bool} {a K : Nat} {fed got : List Bytes} {dec : List (Bytes × Val)} {h : Heap} (hu : InUse all bare a K fed got dec h)
    {m : Bytes} {k : Nat} {f : Family} (hk : numberIn m = some k) (hf : family k = some f) (hon : familyOn (!all) f = true)
    (ho : familyDecodeR Rounding.rnd bare f m = none) : Refuses a h m := by
  obtain ⟨p, h1, -, -⟩ := inUse_inv hu
  obtain ⟨d, hd, -⟩ := h1.ready.set
  obtain ⟨e, he, N, hN⟩ := h1.ready.dispatch hd hk hf hon
  have h2 := hN 0
  rw [ho] at h2
  obtain ⟨t', -, h7⟩ := h2
  exact ⟨_, ends_of_fuel h7 (by simp)⟩

/-- **C106** is violated: of the frame of a well-formed content that is not `Accepted` nothing is delivered, and so nothing is written, in both modes. -/
theorem C106_violated (bare : Bool) {a K : Nat} {fed got : List Bytes} {dec : List (Bytes × Val)} {h : Heap}
    (hu : @InUse exactArith true bare a K fed got dec h) (c : Content) (hw : c.WellFormed) (ha : ¬c.Accepted) : @Refuses exactArith a h c.frame := by
  let _ := exactArith
  obtain ⟨f, h1, h2⟩ := content_family hw
  refine refuse_none hu h1 h2 (by cases f <;> rfl) ?_
  show familyDecodeR id bare f c.frame = none
  rw [familyDecodeR_id]
  have := outcome_refused hw ha (if bare then .jsonB else .json)
  unfold outcome at this
  rw [h1] at this
  dsimp only at this
  rw [h2] at this
  dsimp only at this
  rw [if_pos (by cases bare <;> cases f <;> rfl)] at this
  rw [← this]
  cases bare <;> rfl

/-! ## The hypotheses are met -/

/-- A well-formed content that is not accepted: a schedule without announcements. -/
example : (Content.base (.m1013 7 60000 3600 18 [])).WellFormed ∧ ¬(Content.base (.m1013 7 60000 3600 18 [])).Accepted :=
  ⟨⟨by simp only [Content.layout, Content.vals]; decide, by decide +kernel, by simp⟩, fun h => Bool.noConfusion ((@acceptable_iff exactArith (.m1013 7 60000 3600 18 [])).1 h)⟩


/-- Decoders in use and a `JSONCore` in a heap that keeps the objects, for contents of each kind. -/
example [Rounding] (f x : Bytes) (hdr aux pretty : Bool) : ∃ a K ms v h, InUse true true a K [f] ms [(x, v)] h ∧
    (∀ c ∈ exContents, Delivers a h c.frame (WrittenAs hdr aux pretty (fun _ w => c.BareJson hdr aux w))) ∧
    exContents.map Content.number = [1095, 1020, 1006, 1083, 1095] := by
  obtain ⟨a, K, ms, v, h, hu⟩ := inUse_some true true f x
  exact ⟨a, K, ms, v, h, hu, fun c hc => C106_bare_partial hu c (exContents_ok c hc).1 (exContents_ok c hc).2 hdr aux pretty, rfl⟩

example [Rounding] (h : Heap) (hdr aux pretty : Bool) : ∃ g a, (∀ (b : Nat) (o : Obj), h[b]? = some o → g[b]? = some o) ∧ IsCore hdr aux pretty g a :=
  ⟨h ++ [.inst n!"JSONCore" [(n!"ctrls", .ref (h.length + 1))],
      .inst n!"JSONControls" [(n!"enable_hdr_data", .bool hdr), (n!"enable_aux_data", .bool aux), (n!"enable_pretty_view", .bool pretty)]], h.length,
    fun _ _ hb => heap_old hb _, h.length + 1, append_getElem0 _ _, append_getElem _ _ _⟩

/-- A value that is written: with header in one line, from the specification. -/
example : Content.BareJson true false (.base (.m1006 sampleRef 65535)) (BaseMsg.json bareStyle (.m1006 sampleRef 65535)) ∧
    ∃ l, BaseMsg.json bareStyle (.m1006 sampleRef 65535) = jObj (l ++ [("height", jInt 65535)]) ∧ l.length = 12 := ⟨rfl, _, rfl, rfl⟩

/-- Physical units. -/
example (hdr aux pretty : Bool) :
    ∃ a h, @Delivers exactArith a h (Content.base (.m1006 sampleRef 65535)).frame
      (@WrittenAs exactArith hdr aux pretty (fun fr w => (Content.base (.m1006 sampleRef 65535)).ScaledJson fr hdr aux w)) := by
  let _ := exactArith
  obtain ⟨a, h, hu⟩ := inUse_exists true false
  have hc := exContents_ok (.base (.m1006 sampleRef 65535)) (by simp [exContents])
  exact ⟨a, h, C106_scaled_partial hu _ hc.1 ⟨hc.2, by intro t ht; cases ht⟩ hdr aux pretty⟩

example {rnd : Rat → Rat} (hr : Nearest rnd) (hdr aux pretty : Bool) :
    ∃ a h, @Delivers (doubleArith hr) a h (Content.base (.m1006 sampleRef 65535)).frame
      (@WrittenAs (doubleArith hr) hdr aux pretty (fun fr w => (Content.base (.m1006 sampleRef 65535)).DoubleJson fr hdr aux w)) := by
  let _ := doubleArith hr
  obtain ⟨a, h, hu⟩ := inUse_exists true false
  have hc := exContents_ok (.base (.m1006 sampleRef 65535)) (by simp [exContents])
  exact ⟨a, h, C106_double_partial hr hu _ hc.1 ⟨hc.2, by intro t ht; cases ht⟩ hdr aux pretty⟩

end Verif
