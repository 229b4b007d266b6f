import Verif.Props.Decoder
import Verif.Lemmas.ExactArith

/-!
The results of the sub-decoders with roundings, and their classes.
-/

namespace Verif
open Spec Decoder

/-- The result of the sub-decoder of a family, with roundings. -/
def familyDecodeR (rnd : Rat → Rat) (bare : Bool) (f : Family) (msg : Bytes) : Option PyObj :=
  match f with
  | .msm13 | .msm47 => (Msm.decodeMsm17R rnd bare msg).map msmObj
  | .eph => (Eph.subDecodeR rnd bare msg).map PyObj.eph
  | .base => match Base.subDecodeR rnd bare msg with
    | .ok x => x.map baseObj
    | .error _ => none

theorem familyDecodeR_id : familyDecodeR id = familyDecode := by
  funext b f m
  unfold familyDecodeR familyDecode
  rw [Msm.decodeMsm17R_id, Eph.subDecodeR_id, Base.subDecodeR_id]
  cases f <;> rfl

theorem msmR_bare (rnd : Rat → Rat) (msg : Bytes) : Msm.decodeMsm17R rnd true msg = Msm.decodeMsm17 true msg := by
  unfold Msm.decodeMsm17R Msm.decodeMsm17
  cases Msm.decode msg with
  | error e => rfl
  | ok b =>
    dsimp only
    rw [if_pos rfl, if_pos rfl]

theorem msmR_class {rnd : Rat → Rat} {bare : Bool} {msg : Bytes} {n : Nat} {o : PyObj} (hn : numberIn msg = some n)
    (hf : family n = some .msm13 ∨ family n = some .msm47) (h : (Msm.decodeMsm17R rnd bare msg).map msmObj = some o) : declared bare n = some o.cls := by
  cases bare with
  | true => rw [msmR_bare] at h; exact (msm_typed hn hf h).1
  | false =>
    rw [Option.map_eq_some_iff] at h
    obtain ⟨x, hx, rfl⟩ := h
    have : declared false n = some .observablesMSM := by
      unfold declared
      rcases hf with hf | hf <;> rw [hf] <;> rfl
    rw [this]
    unfold Msm.decodeMsm17R at hx
    cases hm : Msm.decode msg with
    | error e => rw [hm] at hx; cases hx
    | ok b =>
      rw [hm] at hx
      dsimp only at hx
      rw [if_neg (by decide)] at hx
      rcases hc : Msm.convertR rnd (some b) with e | _ | r
      all_goals (rw [hc] at hx; cases hx)
      rfl

theorem ephR_class {rnd : Rat → Rat} {bare : Bool} {msg : Bytes} {n : Nat} {e : Eph.Obj PyNum} (hn : numberIn msg = some n)
    (h : Eph.subDecodeR rnd bare msg = some e) : declared bare n = some (ephCls e) := by
  cases bare with
  | true => exact (eph_typed hn (by rw [← h]; rfl)).1
  | false =>
    unfold Eph.subDecodeR Eph.decodeR at h
    cases hg : Eph.getMsgNum msg with
    | error e => rw [hg] at h; cases h
    | ok k =>
      cases hd : Eph.decodeBare msg with
      | error e => rw [hg, hd] at h; cases h
      | ok o =>
        rw [hg, hd] at h
        cases h
        have h1 : Eph.subDecode false msg = some (Eph.scale o) := by
          unfold Eph.subDecode Eph.decode
          rw [hg, hd]
          rfl
        rw [(eph_typed hn h1).1]
        cases o <;> rfl

theorem base_scaleR_class {rnd : Rat → Rat} {o : Base.BareObj} {s : Base.ScaledObj} (h : Base.scaleR rnd o = .ok s) : baseCls s = baseCls o := by
  cases o with
  | rp o => obtain ⟨_, -, h⟩ := bind_ok h; cases h; rfl
  | rph o => obtain ⟨_, -, h⟩ := bind_ok h; cases h; rfl
  | ad o => obtain ⟨_, -, h⟩ := bind_ok h; cases h; rfl
  | adsn o => obtain ⟨_, -, h⟩ := bind_ok h; cases h; rfl
  | adsnrc o => obtain ⟨_, -, h⟩ := bind_ok h; cases h; rfl
  | sp o => cases h; rfl
  | ts o => obtain ⟨_, -, h⟩ := bind_ok h; cases h; rfl
  | glbs o => cases h; rfl

theorem ite_ok {α : Type} {c : Prop} [Decidable c] {e : PyErr} {t : Py α} {v : α} (h : (if c then Except.error e else t) = Except.ok v) : t = .ok v := by
  by_cases hc : c
  · rw [if_pos hc] at h
    cases h
  · rw [if_neg hc] at h
    exact h

theorem baseR_class {rnd : Rat → Rat} {bare : Bool} {msg : Bytes} {n : Nat} {x : Base.BareObj ⊕ Base.ScaledObj} (hn : numberIn msg = some n)
    (hf : family n = some .base) (h : Base.subDecodeR rnd bare msg = .ok (some x)) : declared bare n = some (baseObj x).cls := by
  unfold Base.subDecodeR at h
  obtain ⟨m, hm, h⟩ := bind_ok h
  cases hd : Base.decodeR rnd msg bare with
  | error e => rw [hd] at h; cases h
  | ok y =>
    rw [hd] at h
    cases h
    unfold Base.decodeR at hd
    obtain ⟨b, hb, hd⟩ := bind_ok hd
    have hdecl : declared true n = some (baseCls b) := by
      unfold Base.decodeBareR at hb
      rw [hm, ok_bind] at hb
      by_cases h13 : m = 1013
      · rw [if_pos h13] at hb
        subst h13
        have hg := hm
        unfold Base.getMsgNum at hg
        rw [gbu_num, hn] at hg
        have hg : n = 1013 := by simpa using hg
        unfold Base.decode1013R at hb
        obtain ⟨_, -, hb⟩ := bind_ok hb
        obtain ⟨_, -, hb⟩ := bind_ok hb
        obtain ⟨_, -, hb⟩ := bind_ok hb
        obtain ⟨_, -, hb⟩ := bind_ok hb
        obtain ⟨_, -, hb⟩ := bind_ok hb
        obtain ⟨_, -, hb⟩ := bind_ok hb
        obtain ⟨⟨_, _⟩, -, hb⟩ := bind_ok hb
        dsimp only at hb
        have hb := ite_ok hb
        obtain ⟨_, -, hb⟩ := bind_ok hb
        cases hb
        rw [hg]
        rfl
      · rw [if_neg h13] at hb
        refine (base_typed (x := .inl b) hn ?_).1
        unfold Base.subDecode Base.decode
        rw [hm, hb]
        rfl
    cases bare with
    | true =>
      simp only [if_true] at hd
      cases hd
      exact hdecl
    | false =>
      simp only [Bool.false_eq_true, if_false] at hd
      obtain ⟨s, hs, hd⟩ := bind_ok hd
      cases hd
      have e : declared false n = declared true n := by
        unfold declared
        rw [hf]
      rw [e, hdecl]
      exact congrArg some (base_scaleR_class hs).symm

theorem familyDecodeR_class {rnd : Rat → Rat} {bare : Bool} {msg : Bytes} {n : Nat} {f : Family} {o : PyObj} (hn : numberIn msg = some n)
    (hf : family n = some f) (h : familyDecodeR rnd bare f msg = some o) : declared bare n = some o.cls := by
  cases f with
  | msm13 => exact msmR_class hn (Or.inl hf) h
  | msm47 => exact msmR_class hn (Or.inr hf) h
  | eph =>
    simp only [familyDecodeR, Option.map_eq_some_iff] at h
    obtain ⟨e, he, rfl⟩ := h
    exact ephR_class hn he
  | base =>
    simp only [familyDecodeR] at h
    split at h
    · rename_i x hx
      simp only [Option.map_eq_some_iff] at h
      obtain ⟨y, rfl, rfl⟩ := h
      exact baseR_class hn hf hx
    · cases h

end Verif
