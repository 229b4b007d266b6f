import Verif.Lemmas.DoubleMsm
import Verif.Props.MsmScaled

/-!
# `convert` with rounded arithmetic
-/

namespace Verif
namespace Msm
open Spec Bits RtcmUtil

/-- Scaled objects. -/
structure ObjRel (rnd : Rat → Rat) (r r' : ObservablesMSM) : Prop where
  atr : r'.atr = r.atr
  aux : r'.aux = r.aux
  time : r'.hdr.time = r.hdr.time
  day : r'.hdr.day = r.hdr.day
  sats : r'.hdr.sats = r.hdr.sats
  signals : DRel (fun x y => |x| ≤ 2500 ∧ y = rnd x) r.hdr.signals r'.hdr.signals
  obs : ObsRel rnd r.obs r'.obs

def Sized : Bare → Prop
  | .m123 b => Sized13 b
  | .m4567 b => Sized47 b

theorem lookup_mem {κ α : Type} [BEq κ] [LawfulBEq κ] {d : PyDict κ α} {k : κ} {v : α} (h : d.get? k = some v) : (k, v) ∈ d := by
  unfold PyDict.get? at h
  rw [List.lookup_eq_some_iff] at h
  obtain ⟨l1, l2, rfl, -⟩ := h
  simp

theorem mapM_rel {α β γ : Type} {R : β → γ → Prop} {f : α → Py β} {g : α → Py γ} (h : ∀ x, PyRel R (f x) (g x)) (l : List α) :
    PyRel (List.Forall₂ R) (l.mapM f) (l.mapM g) := by
  induction l with
  | nil => exact List.Forall₂.nil
  | cons x l ih =>
    rw [List.mapM_cons, List.mapM_cons]
    exact PyRel.bind (h x) (fun a b hab => PyRel.bind ih (fun as bs hs => List.Forall₂.cons hab hs))

/-- Each carrier frequency of the tables is below 2500 MHz. -/
theorem cf_bound : ∀ p ∈ rinexCfTab, ∀ q ∈ p.2, |q.2| ≤ 2500 := by decide +kernel

theorem signalItem_bound {g : String} {s : Option String} {p : String × Rat} (h : signalItem g s = .ok p) : |p.2| ≤ 2500 := by
  unfold signalItem at h
  obtain ⟨f, hf, h⟩ := bind_ok h
  cases s with
  | none => cases h
  | some s =>
    have : p.2 = f := by cases h; rfl
    rw [this]
    unfold crrFrq at hf
    cases ht : rinexCfTab.get? g with
    | none => rw [ht] at hf; cases hf
    | some tab =>
      rw [ht] at hf
      dsimp only at hf
      cases hf' : tab.get? s with
      | none => rw [hf'] at hf; cases hf
      | some f' =>
        rw [hf'] at hf
        have e : f' = f := by injection hf
        have h1 : (g, tab) ∈ rinexCfTab := lookup_mem ht
        have h2 : (s, f') ∈ tab := lookup_mem hf'
        rw [← e]
        exact cf_bound (g, tab) h1 (s, f') h2

theorem signalItem_rel (rnd : Rat → Rat) (g : String) (s : Option String) :
    PyRel (fun x y => x.1 = y.1 ∧ |x.2| ≤ 2500 ∧ y.2 = rnd x.2) (signalItem g s) (signalItemR rnd g s) := by
  unfold signalItemR
  cases h : signalItem g s with
  | error e => exact rfl
  | ok p => exact ⟨rfl, signalItem_bound h, rfl⟩

theorem signals_rel {rnd : Rat → Rat} {l l' : List (String × Rat)} (h : List.Forall₂ (fun x y => x.1 = y.1 ∧ |x.2| ≤ 2500 ∧ y.2 = rnd x.2) l l') :
    ∀ {d d' : PyDict String Rat}, DRel (fun x y => |x| ≤ 2500 ∧ y = rnd x) d d' →
      DRel (fun x y => |x| ≤ 2500 ∧ y = rnd x) (l.foldl (fun d p => d.set p.1 p.2) d) (l'.foldl (fun d p => d.set p.1 p.2) d') := by
  induction h with
  | nil => intro d d' h; exact h
  | cons hab _ ih =>
    rename_i a b _ _
    intro d d' h
    rw [List.foldl_cons, List.foldl_cons]
    apply ih
    rw [← hab.1]
    exact h.set _ hab.2

theorem convert_rel {rnd : Rat → Rat} (h : Nearest rnd) (b : Bare) (hb : b.hdr.sat_mask ≠ 0 → Sized b) :
    PyRel (Option.Rel (ObjRel rnd)) (convert (some b)) (convertR rnd (some b)) := by
  unfold convert convertR
  dsimp only
  refine PyRel.ite (fun _ => PyRel.pure .none) (fun _ => ?_)
  refine PyRel.ite (fun _ => ?_) (fun h0 => ?_)
  · exact PyRel.pure (.some ⟨rfl, rfl, rfl, rfl, rfl, .nil, .nil, .nil, .nil, rfl, rfl, rfl⟩)
  have hb := hb h0
  refine PyRel.bind (mapM_rel (signalItem_rel rnd b.atr.gnss) _) ?_
  intro items items' hi
  have hmap : items.map (·.1) = items'.map (·.1) := by
    clear h0 hb
    induction hi with
    | nil => rfl
    | cons hab _ ih => rw [List.map_cons, List.map_cons, hab.1, ih]
  rw [hmap]
  have hsig : DRel (fun x y => |x| ≤ 2500 ∧ y = rnd x) (items.foldl (fun d p => d.set p.1 p.2) ([] : PyDict String Rat))
    (items'.foldl (fun d p => d.set p.1 p.2) ([] : PyDict String Rat)) := signals_rel hi .nil
  cases b with
  | m4567 b =>
    refine PyRel.bind (convertObs47_rel h hb _ _ _) (fun o o' ho => ?_)
    exact PyRel.pure (.some ⟨rfl, rfl, rfl, rfl, rfl, hsig, ho⟩)
  | m123 b =>
    refine PyRel.bind (convertObs13_rel h hb _ _ _) (fun o o' ho => ?_)
    exact PyRel.pure (.some ⟨rfl, rfl, rfl, rfl, rfl, hsig, ho⟩)

/-! ## Sizes of decoded integers -/

theorem colU_range (bits : List Bool) (o w n : Nat) (x : Nat) (h : x ∈ colU bits o w n) : x < 2 ^ w := by
  unfold colU natCol at h
  simp only [List.mem_map] at h
  obtain ⟨i, -, rfl⟩ := h
  refine lt_of_lt_of_le (natOfBits_lt _) (Nat.pow_le_pow_right (by norm_num) ?_)
  unfold slice; simp

theorem colObj_all {α : Type} [OfNat α 0] {p : α → Prop} (w : Nat) {l : List α} (h0 : p 0) (h : ∀ x ∈ l, p x) :
    ∀ x ∈ colObj w l, p x := by
  unfold colObj
  split
  · intro x hx; rw [List.mem_singleton] at hx; subst hx; exact h0
  · exact h

theorem widths_le (k : Nat) (hk : 1 ≤ k ∧ k ≤ 7) : (msmWidths k).ms ≤ 8 ∧ (msmWidths k).rough ≤ 10 ∧ (msmWidths k).rate ≤ 14 ∧
    (msmWidths k).fine ≤ 20 ∧ (msmWidths k).phs ≤ 24 ∧ (msmWidths k).fineRate ≤ 15 ∧ (msmWidths k).cnr ≤ 10 := by
  have : k = 1 ∨ k = 2 ∨ k = 3 ∨ k = 4 ∨ k = 5 ∨ k = 6 ∨ k = 7 := by omega
  rcases this with rfl | rfl | rfl | rfl | rfl | rfl | rfl <;> decide

theorem abs_of_range {x : Int} {w v : Nat} (h : -(2 ^ (w - 1) : Int) ≤ x ∧ x < 2 ^ (w - 1)) (hw : w ≤ v) : |x| ≤ 2 ^ (v - 1) := by
  have : (2 : Int) ^ (w - 1) ≤ 2 ^ (v - 1) := pow_le_pow_right₀ (by norm_num) (by omega)
  rw [abs_le]; omega

theorem sized_carried {d : MsmData} (hw : d.WF) {buf : Bytes} (hc : d.CarriedBy buf) : Sized d.bareObj := by
  have hr := ranged_carried hw hc
  have hd := (carried_good hw hc).2
  have hk := hw.k
  obtain ⟨w1, w2, w3, w4, w5, w6, w7⟩ := widths_le d.k hk
  have hms : ∀ x ∈ d.rngMs, x ≤ 255 := by
    intro x hx
    rw [hd] at hx
    have := colU_range _ _ _ _ x hx
    have : 2 ^ (msmWidths d.k).ms ≤ 2 ^ 8 := Nat.pow_le_pow_right (by norm_num) w1
    omega
  have hro : ∀ x ∈ d.rngRough, x ≤ 1023 := by
    intro x hx
    rw [hd] at hx
    have := colU_range _ _ _ _ x hx
    have : 2 ^ (msmWidths d.k).rough ≤ 2 ^ 10 := Nat.pow_le_pow_right (by norm_num) w2
    omega
  have hcn : ∀ x ∈ d.cnr, x ≤ 1023 := by
    intro x hx
    rw [hd] at hx
    have := colU_range _ _ _ _ x hx
    have : 2 ^ (msmWidths d.k).cnr ≤ 2 ^ 10 := Nat.pow_le_pow_right (by norm_num) w7
    omega
  have hfi : ∀ x ∈ d.rngFine, |x| ≤ 2 ^ 23 := fun x hx => (abs_of_range (hr.fine x hx) (v := 24) (by omega))
  have hph : ∀ x ∈ d.phsFine, |x| ≤ 2 ^ 23 := fun x hx => (abs_of_range (hr.phs x hx) (v := 24) (by omega))
  have hra : ∀ x ∈ d.rateRough, |x| ≤ 2 ^ 13 := fun x hx => (abs_of_range (hr.rate x hx) (v := 14) (by omega))
  have hfr : ∀ x ∈ d.rateFine, |x| ≤ 2 ^ 14 := fun x hx => (abs_of_range (hr.fineRate x hx) (v := 15) (by omega))
  unfold MsmData.bareObj
  dsimp only
  split
  · exact ⟨colObj_all _ (by norm_num) hro, colObj_all _ (by norm_num) hfi, colObj_all _ (by norm_num) hph⟩
  · exact ⟨colObj_all _ (by norm_num) hms, colObj_all _ (by norm_num) hro, colObj_all _ (by norm_num) hra, colObj_all _ (by norm_num) hfi,
      colObj_all _ (by norm_num) hph, colObj_all _ (by norm_num) hfr, colObj_all _ (by norm_num) hcn⟩

theorem sized_decode {buf : Bytes} {b : Bare} (h : decode buf = .ok b) (hs : b.hdr.sat_mask ≠ 0) : Sized b := by
  obtain ⟨d, hw, hc, rfl⟩ := C21_C22_sound buf b h hs
  exact sized_carried hw hc

/-- Results of `decode_msm17`. -/
def SumRel (rnd : Rat → Rat) : Bare ⊕ ObservablesMSM → Bare ⊕ ObservablesMSM → Prop
  | .inl b, .inl b' => b' = b
  | .inr r, .inr r' => ObjRel rnd r r'
  | _, _ => False

theorem decodeMsm17_rel {rnd : Rat → Rat} (h : Nearest rnd) (isBare : Bool) (buf : Bytes) :
    Option.Rel (SumRel rnd) (decodeMsm17 isBare buf) (decodeMsm17R rnd isBare buf) := by
  unfold decodeMsm17 decodeMsm17R
  cases hd : decode buf with
  | error e => exact .none
  | ok b =>
    dsimp only
    cases isBare
    · rw [if_neg Bool.false_ne_true, if_neg Bool.false_ne_true]
      have := convert_rel h b (sized_decode hd)
      generalize convert (some b) = x at this ⊢
      generalize convertR rnd (some b) = y at this ⊢
      cases x <;> cases y
      · exact .none
      · exact this.elim
      · exact this.elim
      · rename_i x y
        have this : Option.Rel (ObjRel rnd) x y := this
        cases this with
        | none => exact .none
        | some hr => exact .some hr
    · exact .some rfl

/-! ## The copy is exact: without rounding it is the original -/

theorem signalItemR_id : signalItemR id = signalItem := by
  funext g s
  unfold signalItemR
  cases signalItem g s <;> rfl

theorem convertR_id : convertR id = convert := by
  funext src
  unfold convertR convert
  rw [signalItemR_id]
  rfl

theorem decodeMsm17R_id : decodeMsm17R id = decodeMsm17 := by
  funext a b
  unfold decodeMsm17R decodeMsm17
  rw [convertR_id]
  rfl

end Msm
end Verif
