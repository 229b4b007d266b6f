import Verif.Model.Decoder
import Verif.Spec.Decoder
import Verif.Props.Eph
import Verif.Props.Base
import Verif.Props.RtcmUtil

/-!
# Lemmas about the message dispatcher
-/

namespace Verif
namespace Decoder
open Spec Bits

theorem gbu_num (msg : Bytes) : gbu msg 24 12 = match numberIn msg with
    | some n => .ok n
    | none => .error .bitsError := by
  unfold numberIn
  by_cases h : msg.length < 5
  · rw [if_pos h]
    unfold gbu
    rw [getbitu_eq, if_neg (by omega)]
  · rw [if_neg h, gbu_ok (by omega) (by omega) (by omega)]
    rfl

theorem mnum_eq (msg : Bytes) : Framer.mnum msg = numberIn msg := by
  unfold Framer.mnum
  rw [gbu_num]
  cases numberIn msg <;> rfl

theorem numberIn_lt {msg : Bytes} {n : Nat} (h : numberIn msg = some n) : n < 4096 := by
  unfold numberIn at h
  split_ifs at h with hl
  cases h
  have := natOfBits_lt (((bitsOf msg).drop 24).take 12)
  have h2 : (((bitsOf msg).drop 24).take 12).length ≤ 12 := by simp
  calc _ < 2 ^ _ := this
    _ ≤ 2 ^ 12 := Nat.pow_le_pow_right (by omega) h2

/-! ## Typing of the sub-decoders -/

/-- All results satisfy `P`. -/
def Post {α : Type} (P : α → Prop) (x : Py α) : Prop := ∀ a, x = .ok a → P a

theorem post_bind {α β : Type} {P : β → Prop} {x : Py α} {f : α → Py β} (h : ∀ a, Post P (f a)) : Post P (x >>= f) := by
  intro b hb
  obtain ⟨a, -, ha⟩ := bind_ok hb
  exact h a b ha

theorem post_error {α : Type} {P : α → Prop} {e : PyErr} : Post P (.error e) := by
  intro a h; cases h

theorem post_pure {α : Type} {P : α → Prop} {a : α} (h : P a) : Post P (pure a) := by
  intro b hb; cases hb; exact h

theorem post_ite {α : Type} {P : α → Prop} {c : Prop} [Decidable c] {x y : Py α} (hx : Post P x) (hy : Post P y) :
    Post P (if c then x else y) := by
  split <;> assumption

theorem extract123_atr (buf : Bytes) (atr : Msm.Attributes) (hdr : Msm.BareHdr) (o : Nat) :
    Post (fun x => x.1.atr = atr) (Msm.extract123 buf atr hdr o) := by
  unfold Msm.extract123
  dsimp only
  repeat' first
    | (with_reducible apply post_bind; intro)
    | with_reducible apply post_ite
    | with_reducible exact post_error
    | exact post_pure rfl

theorem extract4567_atr (buf : Bytes) (atr : Msm.Attributes) (hdr : Msm.BareHdr) (o : Nat) :
    Post (fun x => x.1.atr = atr) (Msm.extract4567 buf atr hdr o) := by
  unfold Msm.extract4567
  dsimp only
  repeat' first
    | (with_reducible apply post_bind; intro)
    | with_reducible apply post_ite
    | with_reducible exact post_error
    | exact post_pure rfl

theorem msm_decode_atr {buf : Bytes} {b : Msm.Bare} (h : Msm.decode buf = .ok b) :
    b.atr = Msm.attributes buf ∧
      (if ((Msm.attributes buf).is_msm1 || (Msm.attributes buf).is_msm2 || (Msm.attributes buf).is_msm3) = true then
        ∃ x, b = .m123 x else ∃ x, b = .m4567 x) := by
  unfold Msm.decode at h
  dsimp only at h
  split_ifs at h ⊢ with c1 c2
  · obtain ⟨⟨hdr, off⟩, -, h⟩ := bind_ok h
    dsimp only at h
    split_ifs at h
    · cases h
      exact ⟨rfl, _, rfl⟩
    · obtain ⟨⟨x, off⟩, h1, h⟩ := bind_ok h
      cases h
      exact ⟨extract123_atr _ _ _ _ _ h1, _, rfl⟩
  · obtain ⟨⟨hdr, off⟩, -, h⟩ := bind_ok h
    dsimp only at h
    split_ifs at h
    · cases h
      exact ⟨rfl, _, rfl⟩
    · obtain ⟨⟨x, off⟩, h1, h⟩ := bind_ok h
      cases h
      exact ⟨extract4567_atr _ _ _ _ _ h1, _, rfl⟩

theorem convert_atr (b : Msm.Bare) : Post (fun x => ∀ r, x = some r → r.atr = b.atr) (Msm.convert (some b)) := by
  unfold Msm.convert
  dsimp only
  split
  · apply post_pure; intro r hr; cases hr
  · split
    · apply post_pure; intro r hr; cases hr; rfl
    · apply post_bind; intro
      cases b <;> (apply post_bind; intro; apply post_pure; intro r hr; cases hr; rfl)

theorem msm_subset (n : Nat) (h : 1071 ≤ n ∧ n ≤ 1137) :
    (family n = some .msm13 → ((Msm.subsetOf (some n)).2 = "MSM1" ∨ (Msm.subsetOf (some n)).2 = "MSM2" ∨
      (Msm.subsetOf (some n)).2 = "MSM3")) ∧ (family n = some .msm47 → (Msm.subsetOf (some n)).2 ≠ "MSM1" ∧
      (Msm.subsetOf (some n)).2 ≠ "MSM2" ∧ (Msm.subsetOf (some n)).2 ≠ "MSM3") := by
  have key : ∀ k < 67, (family (1071 + k) = some .msm13 → ((Msm.subsetOf (some (1071 + k))).2 = "MSM1" ∨
      (Msm.subsetOf (some (1071 + k))).2 = "MSM2" ∨ (Msm.subsetOf (some (1071 + k))).2 = "MSM3")) ∧
      (family (1071 + k) = some .msm47 → (Msm.subsetOf (some (1071 + k))).2 ≠ "MSM1" ∧
      (Msm.subsetOf (some (1071 + k))).2 ≠ "MSM2" ∧ (Msm.subsetOf (some (1071 + k))).2 ≠ "MSM3") := by decide +kernel
  obtain ⟨k, rfl⟩ := Nat.exists_eq_add_of_le h.1
  exact key k (by omega)

/-- Type and number of the objects of the MSM decoder. -/
theorem msm_typed {bare : Bool} {msg : Bytes} {n : Nat} {o : PyObj} (hn : numberIn msg = some n)
    (hf : family n = some .msm13 ∨ family n = some .msm47) (h : (Msm.decodeMsm17 bare msg).map msmObj = some o) :
    declared bare n = some o.cls ∧ recorded o = some (n : Int) := by
  have hlt := numberIn_lt hn
  have hatr : Msm.attributes msg = { gnss := (Msm.subsetOf (some n)).1, subset := (Msm.subsetOf (some n)).2, msg_number := some n } := by
    unfold Msm.attributes Msm.getMsgNum
    rw [gbu_num, hn]
    rfl
  have key := msm_subset n (by unfold family at hf; split_ifs at hf <;> simp_all <;> omega)
  simp only [Option.map_eq_some_iff] at h
  obtain ⟨x, hx, rfl⟩ := h
  unfold Msm.decodeMsm17 at hx
  cases hd : Msm.decode msg with
  | error e => rw [hd] at hx; cases hx
  | ok b =>
    rw [hd] at hx
    dsimp only at hx
    obtain ⟨h1, h2⟩ := msm_decode_atr hd
    rw [hatr] at h1 h2
    simp only [Msm.Attributes.is_msm1, Msm.Attributes.is_msm2, Msm.Attributes.is_msm3, Bool.or_eq_true, beq_iff_eq] at h2
    cases bare with
    | true =>
      simp only [if_true] at hx
      cases hx
      unfold declared msmObj recorded
      rcases hf with hf | hf
      · rw [if_pos (by rw [or_assoc]; exact key.1 hf)] at h2
        obtain ⟨y, rfl⟩ := h2
        rw [hf]
        refine ⟨rfl, ?_⟩
        dsimp only
        rw [h1]
        simp
      · rw [if_neg (by obtain ⟨a, b, c⟩ := key.2 hf; exact fun h => h.elim (fun h => h.elim a b) c)] at h2
        obtain ⟨y, rfl⟩ := h2
        rw [hf]
        refine ⟨rfl, ?_⟩
        dsimp only
        rw [h1]
        simp
    | false =>
      simp only [Bool.false_eq_true, if_false] at hx
      split at hx
      · cases hx
      · cases hx
      · rename_i r hr
        cases hx
        have := convert_atr b _ hr r rfl
        unfold declared msmObj recorded
        rw [h1] at this
        rcases hf with hf | hf <;> (rw [hf]; refine ⟨rfl, ?_⟩; dsimp only; rw [this]; simp)

/-- Type and number of the objects of the ephemeris decoder. -/
theorem eph_typed {bare : Bool} {msg : Bytes} {n : Nat} {e : Eph.Obj PyNum} (hn : numberIn msg = some n)
    (h : Eph.subDecode bare msg = some e) :
    declared bare n = some (ephCls e) ∧ recorded (.eph e) = some (n : Int) := by
  unfold Eph.subDecode Eph.decode at h
  split at h
  case h_2 => cases h
  rename_i e' he
  cases h
  obtain ⟨m, hm, he⟩ := bind_ok he
  obtain ⟨o, ho, he⟩ := bind_ok he
  have hq : ∀ x, o ≠ .qzs x := by
    rintro x rfl
    apply C31_partial msg true (x.map .int)
    unfold Eph.subDecode Eph.decode
    rw [hm, ok_bind, ho]
    rfl
  obtain ⟨h1, h2, h3⟩ := (C30_iff msg o hq).1 ho
  have hnum : (n : Int) = ephNum o := by
    have h5 : ¬ msg.length < 5 := by
      intro hl
      unfold numberIn at hn
      rw [if_pos hl] at hn; cases hn
    unfold numberIn at hn
    rw [if_neg h5] at hn
    unfold NumOk at h2
    rw [← h3] at h2
    have e1 : (readAll (fieldsOf (tableOf o)) ((bitsOf msg).drop 24)).head? =
        some ((natOfBits (((bitsOf msg).drop 24).take 12) : Nat) : Int) := by
      cases o <;> rfl
    rw [e1] at h2
    cases hn
    exact Option.some.inj h2
  have hnum' : n = ephNum o := by exact_mod_cast hnum
  have hc : ∀ b : Bool, declared b (ephNum o) = some (ephCls o) := by
    intro b; cases o <;> cases b <;> (simp only [ephNum, ephCls]; decide)
  unfold NumOk at h2
  rw [← hnum] at h2
  subst hnum'
  cases bare with
  | true =>
    simp only [if_true] at he
    cases he
    rw [hc]
    cases o <;> exact ⟨rfl, h2⟩
  | false =>
    simp only [Bool.false_eq_true, if_false] at he
    cases he
    rw [hc]
    cases o <;> exact ⟨rfl, h2⟩

theorem base_scale_typed {b : Base.BareObj} {s : Base.ScaledObj} (h : Base.scale b = .ok s) :
    baseCls s = baseCls b ∧ recorded (.baseScaled s) = recorded (.baseBare b) := by
  cases b with
  | rp o =>
    obtain ⟨x, hx, h⟩ := bind_ok h; cases h
    unfold Base.scaleRP at hx
    obtain ⟨y, -, hx⟩ := bind_ok hx
    cases hx
    exact ⟨rfl, rfl⟩
  | rph o =>
    obtain ⟨x, hx, h⟩ := bind_ok h; cases h
    unfold Base.scaleRP at hx
    obtain ⟨y, -, hx⟩ := bind_ok hx
    cases hx
    exact ⟨rfl, rfl⟩
  | ad o =>
    obtain ⟨x, hx, h⟩ := bind_ok h; cases h
    unfold Base.scaleAD at hx
    obtain ⟨y, -, hx⟩ := bind_ok hx
    cases hx
    exact ⟨rfl, rfl⟩
  | adsn o =>
    obtain ⟨x, hx, h⟩ := bind_ok h; cases h
    unfold Base.scaleADSN Base.scaleAD at hx
    obtain ⟨a, ha, hx⟩ := bind_ok hx
    obtain ⟨y, -, hx⟩ := bind_ok hx
    cases hx
    obtain ⟨y, -, ha⟩ := bind_ok ha
    cases ha
    exact ⟨rfl, rfl⟩
  | adsnrc o =>
    obtain ⟨x, hx, h⟩ := bind_ok h; cases h
    unfold Base.scaleADSNRC Base.scaleADSN Base.scaleAD at hx
    obtain ⟨a, ha, hx⟩ := bind_ok hx
    obtain ⟨y, -, hx⟩ := bind_ok hx
    obtain ⟨y, -, hx⟩ := bind_ok hx
    obtain ⟨y, -, hx⟩ := bind_ok hx
    cases hx
    obtain ⟨a, hb, ha⟩ := bind_ok ha
    obtain ⟨y, -, ha⟩ := bind_ok ha
    cases ha
    obtain ⟨y, -, hb⟩ := bind_ok hb
    cases hb
    exact ⟨rfl, rfl⟩
  | sp o => cases h; exact ⟨rfl, rfl⟩
  | ts o =>
    obtain ⟨x, hx, h⟩ := bind_ok h; cases h
    unfold Base.scaleTS at hx
    obtain ⟨y, -, hx⟩ := bind_ok hx
    cases hx
    exact ⟨rfl, rfl⟩
  | glbs o => cases h; exact ⟨rfl, rfl⟩

/-- Type and number of the objects of the base station decoder. -/
theorem base_typed {bare : Bool} {msg : Bytes} {n : Nat} {x : Base.BareObj ⊕ Base.ScaledObj} (hn : numberIn msg = some n)
    (h : Base.subDecode bare msg = .ok (some x)) :
    declared bare n = some (baseObj x).cls ∧ recorded (baseObj x) = some (n : Int) := by
  unfold Base.subDecode at h
  obtain ⟨m, hm, h⟩ := bind_ok h
  cases hd : Base.decode msg bare with
  | error e => rw [hd] at h; cases h
  | ok y =>
    rw [hd] at h
    cases h
    unfold Base.decode at hd
    obtain ⟨b, hb, hd⟩ := bind_ok hd
    obtain ⟨m, -, hc, rfl⟩ := (decodeBare_iff msg b).1 hb
    have hg := carried_num hc
    rw [gbu_num, hn] at hg
    have hg : n = msgNumOf m := by simpa using hg
    have hdecl : ∀ b, declared b n = some (baseCls (bareObj m)) := by
      intro b; rw [hg]; cases m <;> cases b <;> (simp only [msgNumOf, bareObj, baseCls]; decide)
    have hrec : recorded (.baseBare (bareObj m)) = some (n : Int) := by
      rw [hg]; cases m <;> rfl
    cases bare with
    | true =>
      simp only [if_true] at hd
      cases hd
      exact ⟨hdecl _, hrec⟩
    | false =>
      simp only [Bool.false_eq_true, if_false] at hd
      obtain ⟨s, hs, hd⟩ := bind_ok hd
      cases hd
      obtain ⟨h1, h2⟩ := base_scale_typed hs
      exact ⟨by rw [hdecl]; exact congrArg some h1.symm, by rw [← hrec]; exact h2⟩

/-! ## The loop -/

/-- The class that the sub-decoder declares for the number if it is responsible. -/
def resp (dec : SubDecoder) (num : Option Nat) : Option Cls :=
  num.bind (fun n => if dec.actualMessages.contains n then dec.ioSpec.get? n else none)

/-- One attempt, decoder_top.py:207-213. -/
def attempt (dec : SubDecoder) (cls : Cls) (msg : Bytes) (a s : Nat) : (Nat × Nat) × Py (Option PyObj) :=
  match dec.run msg with
  | .error e => ((a + 1, s), .error e)
  | .ok none => ((a + 1, s), .error .decoderDecode)
  | .ok (some rv) =>
    if isInstance rv cls then ((a + 1, s + 1), .ok (some rv)) else ((a + 1, s), .error .decoderDecode)

theorem decodeLoop_cons (num : Option Nat) (msg : Bytes) (a s : Nat) (dec : SubDecoder) (rest : List SubDecoder) :
    decodeLoop num msg a s (dec :: rest) = match resp dec num with
      | none => decodeLoop num msg a s rest
      | some cls => attempt dec cls msg a s := rfl

theorem decodeLoop_perm (num : Option Nat) (msg : Bytes) (a s : Nat) {l l' : List SubDecoder} (h : l.Perm l')
    (hd : l.Pairwise (fun x y => resp x num = none ∨ resp y num = none)) :
    decodeLoop num msg a s l = decodeLoop num msg a s l' := by
  induction h with
  | nil => rfl
  | cons x _ ih =>
    rw [List.pairwise_cons] at hd
    rw [decodeLoop_cons, decodeLoop_cons, ih hd.2]
  | swap x y l =>
    rw [List.pairwise_cons, List.pairwise_cons] at hd
    have := hd.1 x (by simp)
    simp only [decodeLoop_cons]
    rcases this with h | h <;> rw [h]
  | trans h1 _ ih1 ih2 =>
    rw [ih1 hd]
    refine ih2 (h1.pairwise hd ?_)
    intro x y h; exact h.symm

theorem isInstance_self (o : PyObj) : isInstance o o.cls = true := by simp [isInstance]

end Decoder
end Verif
