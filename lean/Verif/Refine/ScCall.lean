import Verif.Refine.ScDecode

/-! # `Bare2Scaled.convert`, sub_decoders/RTCM_MSM.py:382-445, of a message decoded before -/

namespace Verif
namespace PyCore
namespace Refine
open Verif.Msm Verif.RtcmUtil

open Rounding (rnd)
variable [Rounding]

/-- The outcome of `convert` and that of its model. -/
def ConvSim (m : Py (Option ObservablesMSM)) (run : Except Exc Val × Heap) (H : Heap) (aA : Nat) : Prop :=
  match m with
  | .ok none => ∃ t, run = (.ok .none, H ++ t)
  | .ok (some o) => ∃ t, run = (.ok (.ref (H.length + 1)), H ++ t) ∧ ObsAt (H ++ t) (H.length + 1) aA o
  | .error _ => ∃ c t, run = (.error (.py c), H ++ t) ∧ catches src c n!"Exception" = true

theorem obsAt_empty (H : Heap) (aA : Nat) (x : Attributes) (hd : BareHdr) (s1 s2 s3 : Val) 
    (hA' : ∀ X, (H ++ X)[aA]? = some (.inst n!"Attributes" (atrF x))) :
    ObsAt (H ++ (headObjs H.length aA s1 s2 s3 (.ref (H.length + 17)) (.tup []) x hd ++ [.dict []])) (H.length + 1) aA
      { hdr := { time := timeOf x hd, day := dayOf x hd, sats := [], signals := [] }
        aux := { rs_id := hd.rs_id, MMB := hd.MMB, IODS := hd.IODS, clk_steer := (hd.clk_steer, unpackClkSteer hd.clk_steer),
                 clk_ext := (hd.clk_ext, unpackClkExt hd.clk_ext), smth_indc := (hd.smth_indc, unpackSmthIndc hd.smth_indc),
                 smth_intr := (hd.smth_intr, unpackSmthIntr hd.smth_intr) }
        atr := x } where
  rv := append_getElem ..
  obs := by rw [Nat.add_assoc, append_getElem]; rfl
  atr := hA' _
  tab t := ⟨fun _ => 0, by rw [Nat.add_assoc, append_getElem]; cases t <;> rfl, fun p hp => by
    rw [show obsV _ t = [] from obsV_empty t] at hp; cases hp⟩
  hdr := ⟨H.length + 17, by rw [Nat.add_assoc, append_getElem]; rfl, append_getElem ..⟩
  aux := by rw [Nat.add_assoc, append_getElem]; rfl
  steer := by rw [Nat.add_assoc, append_getElem]; rfl
  ext := by rw [Nat.add_assoc, append_getElem]; rfl
  indc := by rw [Nat.add_assoc, append_getElem]; rfl
  intr := by rw [Nat.add_assoc, append_getElem]; rfl

/-- The observables with the cells `o`. -/
def obsOf (x : Attributes) (hd : BareHdr) (items : List (String × Rat)) (o : Obs) : ObservablesMSM :=
  { hdr := { time := timeOf x hd, day := dayOf x hd, sats := maskList hd.sat_mask 64, signals := items.foldl (fun d p => d.set p.1 p.2) [] }
    obs := o
    aux := { rs_id := hd.rs_id, MMB := hd.MMB, IODS := hd.IODS, clk_steer := (hd.clk_steer, unpackClkSteer hd.clk_steer),
             clk_ext := (hd.clk_ext, unpackClkExt hd.clk_ext), smth_indc := (hd.smth_indc, unpackSmthIndc hd.smth_indc),
             smth_intr := (hd.smth_intr, unpackSmthIntr hd.smth_intr) }
    atr := x }

theorem convert_eq47 (m : Bare4567) (hx : ¬ m.atr.gnss = "") (h0 : ¬ m.hdr.sat_mask = 0) : convertR rnd (some (.m4567 m)) =
    match ((maskList m.hdr.sgn_mask 32).map (rnxLit m.atr.gnss)).mapM (signalItemR rnd m.atr.gnss) with
    | .error e => .error e
    | .ok items =>
      match convertObs47R rnd m (maskList m.hdr.sat_mask 64) (items.map (·.1)) (slotsOf m.hdr (maskList m.hdr.sat_mask 64).length) {} with
      | .error e => .error e
      | .ok o => .ok (some (obsOf m.atr m.hdr items o)) := by
  unfold convertR
  dsimp only
  rw [if_neg (show ¬ (Bare.m4567 m).atr.gnss = "" from hx), if_neg (show ¬ (Bare.m4567 m).hdr.sat_mask = 0 from h0)]
  have e1 : (Bare.m4567 m).hdr = m.hdr := rfl
  have e2 : (Bare.m4567 m).atr = m.atr := rfl
  rw [e1, e2]
  cases hv : ((maskList m.hdr.sgn_mask 32).map (rnxLit m.atr.gnss)).mapM (signalItemR rnd m.atr.gnss) with
  | error e => rfl
  | ok items =>
    rw [except_ok_bind]
    dsimp only
    unfold slotsOf
    cases ho : convertObs47R rnd m (maskList m.hdr.sat_mask 64) (items.map (·.1)) ((List.range (maskList m.hdr.sat_mask 64).length).map
      (fun i => (m.hdr.cell_mask >>> (bitCount m.hdr.sgn_mask * i)) &&& ((1 <<< bitCount m.hdr.sgn_mask) - 1))) {} with
    | error e => rfl
    | ok o => rfl

theorem convert_eq13 (m : Bare123) (hx : ¬ m.atr.gnss = "") (h0 : ¬ m.hdr.sat_mask = 0) : convertR rnd (some (.m123 m)) =
    match ((maskList m.hdr.sgn_mask 32).map (rnxLit m.atr.gnss)).mapM (signalItemR rnd m.atr.gnss) with
    | .error e => .error e
    | .ok items =>
      match convertObs13R rnd m (maskList m.hdr.sat_mask 64) (items.map (·.1)) (slotsOf m.hdr (maskList m.hdr.sat_mask 64).length) {} with
      | .error e => .error e
      | .ok o => .ok (some (obsOf m.atr m.hdr items o)) := by
  unfold convertR
  dsimp only
  rw [if_neg (show ¬ (Bare.m123 m).atr.gnss = "" from hx), if_neg (show ¬ (Bare.m123 m).hdr.sat_mask = 0 from h0)]
  have e1 : (Bare.m123 m).hdr = m.hdr := rfl
  have e2 : (Bare.m123 m).atr = m.atr := rfl
  rw [e1, e2]
  cases hv : ((maskList m.hdr.sgn_mask 32).map (rnxLit m.atr.gnss)).mapM (signalItemR rnd m.atr.gnss) with
  | error e => rfl
  | ok items =>
    rw [except_ok_bind]
    dsimp only
    unfold slotsOf
    cases ho : convertObs13R rnd m (maskList m.hdr.sat_mask 64) (items.map (·.1)) ((List.range (maskList m.hdr.sat_mask 64).length).map
      (fun i => (m.hdr.cell_mask >>> (bitCount m.hdr.sgn_mask * i)) &&& ((1 <<< bitCount m.hdr.sgn_mask) - 1))) {} with
    | error e => rfl
    | ok o => rfl

section
variable {H : Heap} {b aA aH aT aG : Nat}

theorem convert47_src (m : Bare4567) (hb : BareAt H n!"BareObservablesMSM4567" b aA aH aT aG m.atr m.hdr) (hlt : b < H.length ∧ aA < H.length ∧ aT < H.length ∧ aG < H.length)
    (hT : ∀ X, (H ++ X)[aT]? = some (.inst n!"_BareObservablesSatDataMSM4567" (sat47F m.sat)))
    (hG : ∀ X, (H ++ X)[aG]? = some (.inst n!"_BareObservablesSignalDataMSM4567" (sgn47F m.sgn)))
    (n : Nat) (hn : ∀ s ∈ slotsOf m.hdr (maskList m.hdr.sat_mask 64).length, s < n + 3) (s1 s2 s3 : Val) :
    ConvSim (convertR rnd (some (.m4567 m))) (callFn src (n + 5) n!"Bare2Scaled.convert" [.ref H.length, .ref b] (H ++ [scObj s1 s2 s3])) H aA := by
  by_cases hx : m.atr.gnss = ""
  · unfold convertR
    dsimp only
    rw [if_pos (show (Bare.m4567 m).atr.gnss = "" from hx)]
    exact ⟨_, convert_unknown hb (n + 1) _ hx⟩
  by_cases h0 : m.hdr.sat_mask = 0
  · unfold convertR
    dsimp only
    rw [if_neg (show ¬ (Bare.m4567 m).atr.gnss = "" from hx), if_pos (show (Bare.m4567 m).hdr.sat_mask = 0 from h0)]
    exact ⟨_, convert_no_sats hb n s1 s2 s3 hx h0, obsAt_empty H aA m.atr m.hdr s1 s2 s3 hb.atr⟩
  rw [convert_eq47 m hx h0]
  have h1 := convert_to_cells hb n s1 s2 s3 hx h0
  cases hv : ((maskList m.hdr.sgn_mask 32).map (rnxLit m.atr.gnss)).mapM (signalItemR rnd m.atr.gnss) with
  | error e =>
    rw [hv] at h1
    obtain ⟨t, h1⟩ := h1
    exact ⟨_, t, h1, catchesAny e⟩
  | ok items =>
    rw [hv] at h1
    have h1 : callFn src (n + 5) n!"Bare2Scaled.convert" [.ref H.length, .ref b] (H ++ [scObj s1 s2 s3]) = _ := h1
    rw [conv_last47 n H.length b _ m.hdr _ _ _ (append_getElem0 ..) rfl (hb.bd _)] at h1
    have hr := convObs47_src (N := n + 2) (h := H ++ cellObjs H.length aA m.atr m.hdr items)
      (D := tabAddr H.length (H ++ cellObjs H.length aA m.atr m.hdr items) (items.map (·.1)) 12 off47 cell_hS off47_lt off47_inj)
      (C := ⟨H.length, b, H.length + 1, aA, aH, aT, aG, .none, .none, (scalersR rnd SCALERS45), m, maskList m.hdr.sat_mask 64, items.map (·.1),
        slotsOf m.hdr (maskList m.hdr.sat_mask 64).length⟩)
      ⟨cell_self, cell_low hlt.1 (hb.bd _), cell_low hlt.2.1 (hb.atr _), cell_low hlt.2.2.1 (hT _), cell_low hlt.2.2.2 (hG _), cell_rv⟩
      hn rfl (tabAddr_lay (names_nodup (maskList_nodup _ _) hv)) cell_inv
    dsimp only
    cases ho : convertObs47R rnd m (maskList m.hdr.sat_mask 64) (items.map (·.1)) (slotsOf m.hdr (maskList m.hdr.sat_mask 64).length) {} with
    | error e =>
      rw [ho] at hr
      obtain ⟨c, h, hr, hc, hf⟩ := hr
      obtain ⟨t, rfl⟩ := cell_ext hf
      rw [hr] at h1
      exact ⟨c, t, h1, hc⟩
    | ok o =>
      rw [ho] at hr
      obtain ⟨h, hr, hi⟩ := hr
      obtain ⟨t, rfl⟩ := cell_ext hi.frame
      rw [hr] at h1
      exact ⟨t, h1, cell_obs m.atr hlt.2.1 hb.atr hi⟩

theorem convert13_src (m : Bare123) (hb : BareAt H n!"BareObservablesMSM123" b aA aH aT aG m.atr m.hdr) (hlt : b < H.length ∧ aA < H.length ∧ aT < H.length ∧ aG < H.length)
    (hT : ∀ X, (H ++ X)[aT]? = some (.inst n!"_BareObservablesSatDataMSM123" (sat13F m.sat)))
    (hG : ∀ X, (H ++ X)[aG]? = some (.inst n!"_BareObservablesSignalDataMSM123" (sgn13F m.sgn)))
    (n : Nat) (hn : ∀ s ∈ slotsOf m.hdr (maskList m.hdr.sat_mask 64).length, s < n + 3) (s1 s2 s3 : Val) :
    ConvSim (convertR rnd (some (.m123 m))) (callFn src (n + 5) n!"Bare2Scaled.convert" [.ref H.length, .ref b] (H ++ [scObj s1 s2 s3])) H aA := by
  by_cases hx : m.atr.gnss = ""
  · unfold convertR
    dsimp only
    rw [if_pos (show (Bare.m123 m).atr.gnss = "" from hx)]
    exact ⟨_, convert_unknown hb (n + 1) _ hx⟩
  by_cases h0 : m.hdr.sat_mask = 0
  · unfold convertR
    dsimp only
    rw [if_neg (show ¬ (Bare.m123 m).atr.gnss = "" from hx), if_pos (show (Bare.m123 m).hdr.sat_mask = 0 from h0)]
    exact ⟨_, convert_no_sats hb n s1 s2 s3 hx h0, obsAt_empty H aA m.atr m.hdr s1 s2 s3 hb.atr⟩
  rw [convert_eq13 m hx h0]
  have h1 := convert_to_cells hb n s1 s2 s3 hx h0
  cases hv : ((maskList m.hdr.sgn_mask 32).map (rnxLit m.atr.gnss)).mapM (signalItemR rnd m.atr.gnss) with
  | error e =>
    rw [hv] at h1
    obtain ⟨t, h1⟩ := h1
    exact ⟨_, t, h1, catchesAny e⟩
  | ok items =>
    rw [hv] at h1
    have h1 : callFn src (n + 5) n!"Bare2Scaled.convert" [.ref H.length, .ref b] (H ++ [scObj s1 s2 s3]) = _ := h1
    rw [conv_last13 n H.length b _ m.hdr _ _ _ (append_getElem0 ..) rfl (hb.bd _)] at h1
    have hr := convObs13_src (N := n + 2) (h := H ++ cellObjs H.length aA m.atr m.hdr items)
      (D := tabAddr H.length (H ++ cellObjs H.length aA m.atr m.hdr items) (items.map (·.1)) 8 off13 cell_hS off13_lt off13_inj)
      (C := ⟨H.length, b, H.length + 1, aA, aH, aT, aG, m, maskList m.hdr.sat_mask 64, items.map (·.1),
        slotsOf m.hdr (maskList m.hdr.sat_mask 64).length⟩)
      ⟨cell_self, cell_low hlt.1 (hb.bd _), cell_low hlt.2.1 (hb.atr _), cell_low hlt.2.2.1 (hT _), cell_low hlt.2.2.2 (hG _), cell_rv⟩
      hn rfl (tabAddr_lay (names_nodup (maskList_nodup _ _) hv)) cell_inv
    dsimp only
    cases ho : convertObs13R rnd m (maskList m.hdr.sat_mask 64) (items.map (·.1)) (slotsOf m.hdr (maskList m.hdr.sat_mask 64).length) {} with
    | error e =>
      rw [ho] at hr
      obtain ⟨c, h, hr, hc, hf⟩ := hr
      obtain ⟨t, rfl⟩ := cell_ext hf
      rw [hr] at h1
      exact ⟨c, t, h1, hc⟩
    | ok o =>
      rw [ho] at hr
      obtain ⟨h, hr, hi⟩ := hr
      obtain ⟨t, rfl⟩ := cell_ext hi.frame
      rw [hr] at h1
      exact ⟨t, h1, cell_obs m.atr hlt.2.1 hb.atr hi⟩
end

/-- `convert` of a decoded message. -/
theorem convert_src (G : Heap) (T : List Obj) (m : Bare) (n : Nat)
    (hn : ∀ s ∈ slotsOf m.hdr (maskList m.hdr.sat_mask 64).length, s < n + 3) (s1 s2 s3 : Val) :
    ConvSim (convertR rnd (some m)) (callFn src (n + 5) n!"Bare2Scaled.convert" [.ref (msmHeap G m T).length, .ref (G.length + 2)]
      (msmHeap G m T ++ [scObj s1 s2 s3])) (msmHeap G m T) (G.length + 1) := by
  cases m with
  | m4567 m =>
    have hl : (msmHeap G (.m4567 m) T).length = G.length + (7 + T.length) := bareHeap_length ..
    have e : ∀ X, msmHeap G (.m4567 m) T ++ X = bareHeap G true K47 (atrF m.atr) (hdrF m.hdr) (sat47F m.sat) (sgn47F m.sgn) (T ++ X) := fun X => bareHeap_append ..
    exact convert47_src (aA := G.length + 1) (aH := G.length + 4) (aT := G.length + 5) (aG := G.length + 6) m
      ⟨.inl rfl, fun X => by rw [e]; exact bareHeap_bd .., fun X => by rw [e]; exact bareHeap_atr .., fun X => by rw [e]; exact bareHeap_hdr ..⟩
      (by rw [hl]; omega) (fun X => by rw [e]; exact bareHeap_sat ..) (fun X => by rw [e]; exact bareHeap_sgn ..) n hn s1 s2 s3
  | m123 m =>
    have hl : (msmHeap G (.m123 m) T).length = G.length + (7 + T.length) := bareHeap_length ..
    have e : ∀ X, msmHeap G (.m123 m) T ++ X = bareHeap G true K13 (atrF m.atr) (hdrF m.hdr) (sat13F m.sat) (sgn13F m.sgn) (T ++ X) := fun X => bareHeap_append ..
    exact convert13_src (aA := G.length + 1) (aH := G.length + 4) (aT := G.length + 5) (aG := G.length + 6) m
      ⟨.inr rfl, fun X => by rw [e]; exact bareHeap_bd .., fun X => by rw [e]; exact bareHeap_atr .., fun X => by rw [e]; exact bareHeap_hdr ..⟩
      (by rw [hl]; omega) (fun X => by rw [e]; exact bareHeap_sat ..) (fun X => by rw [e]; exact bareHeap_sgn ..) n hn s1 s2 s3

end Refine
end PyCore
end Verif
