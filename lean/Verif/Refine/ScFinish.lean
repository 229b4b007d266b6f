import Verif.Refine.ScSlots
import Verif.Props.RtcmUtil

/-! # `Bare2Scaled.convert`, sub_decoders/RTCM_MSM.py:382-445: the whole function -/

namespace Verif
namespace PyCore
namespace Refine
open Verif.Msm Verif.RtcmUtil

open Rounding (rnd)
variable [Rounding]

/-- Position of a table among the objects. -/
def Tab.pos : Tab → Nat
  | .rng => 2 | .phs => 3 | .ltm => 4 | .hca => 5 | .dpl => 6 | .c2n => 7

theorem Tab.pos_inj (t t' : Tab) (h : t.pos = t'.pos) : t = t' := by cases t <;> cases t' <;> first | rfl | cases h

/-- The observables `o` are in the heap at `r`. -/
structure ObsAt (h : Heap) (r at' : Nat) (o : ObservablesMSM) : Prop where
  rv : h[r]? = some (.inst n!"ObservablesMSM" [(n!"obs", .ref (r + 1)), (n!"hdr", .ref (r + 8)), (n!"aux", .ref (r + 10)), (n!"atr", .ref at')])
  obs : h[r + 1]? = some (.inst n!"_ObservablesObs" (obsF (r + 1)))
  atr : h[at']? = some (.inst n!"Attributes" (atrF o.atr))
  tab : ∀ t, ∃ ad : String → Nat, h[r + t.pos]? = some (.dict (encD .str (fun s _ => .ref (ad s)) (obsV o.obs t))) ∧
    ∀ p ∈ obsV o.obs t, h[ad p.1]? = some (inner p.2)
  hdr : ∃ g, h[r + 8]? = some (.inst n!"_ObservablesHdrMSM" (ohdrF (.ref g) (natTup o.hdr.sats) (.int o.hdr.time) (.int o.hdr.day))) ∧
    h[g]? = some (.dict (encD .str (fun _ v => .flt v) o.hdr.signals))
  aux : h[r + 10]? = some (.inst n!"_ObservablesAuxMSM" (oauxF (.int o.aux.rs_id) (.int o.aux.MMB) (.int o.aux.IODS) (r + 10)))
  steer : h[r + 11]? = some (codeD (.int o.aux.clk_steer.1) (.str o.aux.clk_steer.2))
  ext : h[r + 12]? = some (codeD (.int o.aux.clk_ext.1) (.str o.aux.clk_ext.2))
  indc : h[r + 13]? = some (codeD (.int o.aux.smth_indc.1) (.str o.aux.smth_indc.2))
  intr : h[r + 14]? = some (codeD (.int o.aux.smth_intr.1) (.str o.aux.smth_intr.2))

/-! ## Addresses of the tables -/

theorem idxOf_inj {l : List String} {a b : String} (ha : a ∈ l) (hb : b ∈ l) (h : l.idxOf a = l.idxOf b) : a = b := by
  have h1 := List.idxOf_lt_length_of_mem ha
  have h2 := List.idxOf_lt_length_of_mem hb
  have e1 := List.getElem_idxOf h1
  have e2 := List.getElem_idxOf h2
  rw [← e1, ← e2]
  congr 1

/-- Addresses of the tables: those of the signals are behind the heap `F`, `w` objects for each signal. -/
def tabAddr (S : Nat) (F : Heap) (sgns : List String) (w : Nat) (off : Tab → Nat) (hS : S + 9 ≤ F.length) (ho : ∀ t, off t < w)
    (hoi : ∀ t t', off t = off t' → t = t') : Addr where
  A t := S + 1 + t.pos
  ad t s := F.length + w * sgns.idxOf s + off t
  B := F.length
  F := F
  sgns := sgns
  hA t := by
    have : t.pos ≤ 7 := by cases t <;> decide
    omega
  injA t t' h := Tab.pos_inj t t' (by omega)
  had t s := by omega
  inj t s t' s' hs hs' h := by
    have h1 := ho t
    have h2 := ho t'
    have e1 : w * sgns.idxOf s + off t = w * sgns.idxOf s' + off t' := by omega
    have hw : 0 < w := by omega
    have q1 : (w * sgns.idxOf s + off t) / w = sgns.idxOf s := by
      rw [Nat.mul_add_div hw, Nat.div_eq_of_lt h1, Nat.add_zero]
    have q2 : (w * sgns.idxOf s' + off t') / w = sgns.idxOf s' := by
      rw [Nat.mul_add_div hw, Nat.div_eq_of_lt h2, Nat.add_zero]
    have hi : sgns.idxOf s = sgns.idxOf s' := by rw [← q1, ← q2, e1]
    exact ⟨hoi t t' (by rw [hi] at e1; omega), idxOf_inj hs hs' hi⟩

theorem tabAddr_lay {S : Nat} {F : Heap} {sgns : List String} {w : Nat} {off : Tab → Nat} {hS : S + 9 ≤ F.length} {ho : ∀ t, off t < w}
    {hoi : ∀ t t', off t = off t' → t = t'} (hn : sgns.Nodup) : Lay (tabAddr S F sgns w off hS ho hoi) F.length w off where
  nodup := hn
  ad pre s post he t := by
    show F.length + w * sgns.idxOf s + off t = _
    have he : sgns = pre ++ s :: post := he
    have hs : s ∉ pre := by
      rw [he, List.nodup_append] at hn
      exact fun h => hn.2.2 s h s List.mem_cons_self rfl
    rw [he, List.idxOf_append, if_neg hs, List.idxOf_cons_self, Nat.zero_add]

/-! ## Names of signals -/

theorem items_names {g : String} : ∀ {sgns : List (Option String)} {items : List (String × Rat)}, sgns.mapM (signalItemR rnd g) = .ok items →
    sgns = (items.map (·.1)).map some
  | [], items, h => by cases h; rfl
  | s :: sgns, items, h => by
    rw [List.mapM_cons] at h
    cases h1 : signalItemR rnd g s with
    | error e => rw [h1] at h; cases h
    | ok p =>
      rw [h1, except_ok_bind] at h
      cases h2 : sgns.mapM (signalItemR rnd g) with
      | error e => rw [h2] at h; cases h
      | ok ps =>
        rw [h2, except_ok_bind] at h
        cases h
        rw [List.map_cons, List.map_cons, ← items_names h2]
        congr 1
        rw [signalItemR_def] at h1
        cases h3 : crrFrq g s with
        | error e => rw [h3] at h1; cases h1
        | ok f =>
          rw [h3, except_ok_bind] at h1
          cases s with
          | none => cases h1
          | some s => cases h1; rfl

theorem maskList_nodup (mask k : Nat) : (maskList mask k).Nodup := by
  unfold maskList
  exact List.Nodup.map (fun a b h => by omega) (List.nodup_range.filter _)

theorem names_nodup {g : String} {codes : List Nat} (hc : codes.Nodup) {items : List (String × Rat)}
    (h : (codes.map (rnxLit g)).mapM (signalItemR rnd g) = .ok items) : (items.map (·.1)).Nodup := by
  have h1 := items_names h
  have h2 : (codes.map (rnxLit g)).Nodup := by
    rw [List.nodup_map_iff_inj_on hc]
    intro a ha b hb hab
    have hm : rnxLit g a ∈ (items.map (·.1)).map some := h1 ▸ List.mem_map_of_mem ha
    obtain ⟨s, -, hs⟩ := List.mem_map.1 hm
    exact (C29_signals _ _ _ _ _ hs.symm (hab ▸ hs.symm)).1 rfl
  rw [h1] at h2
  exact List.Nodup.of_map _ h2

/-! ## The function -/

/-- The objects before the cells are converted. -/
def cellObjs (S aA : Nat) (x : Attributes) (hd : BareHdr) (items : List (String × Rat)) : List Obj :=
  headObjs S aA (strTup (items.map (·.1))) (natTup (slotsOf hd (maskList hd.sat_mask 64).length)) (natTup (maskList hd.sat_mask 64)) (.ref (S + 20))
    (natTup (maskList hd.sat_mask 64)) x hd ++ [.iter [], .iter [], .iter [], sigObj items, .iter []]

section
variable {H : Heap} {K : Ident} {b aA aH aT aG : Nat} {x : Attributes} {hd : BareHdr} (hb : BareAt H K b aA aH aT aG x hd)
include hb

theorem convert_to_cells (n : Nat) (s1 s2 s3 : Val) (hx : x.gnss ≠ "") (h0 : hd.sat_mask ≠ 0) :
    match ((maskList hd.sgn_mask 32).map (rnxLit x.gnss)).mapM (signalItemR rnd x.gnss) with
    | .error e => ∃ t, callFn src (n + 5) n!"Bare2Scaled.convert" [.ref H.length, .ref b] (H ++ [scObj s1 s2 s3]) = (.error (.py (errName e)), H ++ t)
    | .ok items => callFn src (n + 5) n!"Bare2Scaled.convert" [.ref H.length, .ref b] (H ++ [scObj s1 s2 s3]) =
        endCall (execBlock src (n + 4) (callFn src (n + 4)) (Src.fn_Bare2Scaled_convert.body.drop 27)
          ⟨cellLoc H.length b (maskList hd.sat_mask 64).length hd, H ++ cellObjs H.length aA x hd items⟩) := by
  have hc : callFn src (n + 5) n!"Bare2Scaled.convert" [.ref H.length, .ref b] (H ++ [scObj s1 s2 s3]) =
      endCall (execBlock src (n + 4) (callFn src (n + 4)) (Src.fn_Bare2Scaled_convert.body.take 17 ++ Src.fn_Bare2Scaled_convert.body.drop 17)
        ⟨[(n!"self", .ref H.length), (n!"src", .ref b)], H ++ [scObj s1 s2 s3]⟩) :=
    callFn_succ src _ _ _ _ _ _ Look.fn_Bare2Scaled_convert rfl
  have e1 := convert_head hb n (n + 4) (Src.fn_Bare2Scaled_convert.body.drop 17) s1 s2 s3 hx
  have e2 := convert_sats hb n (n + 4) h0 s1 s2 s3 (.ref (H.length + 10)) (.tup [.int 0])
  have e3 := convert_lits hb n (n + 4) (Src.fn_Bare2Scaled_convert.body.drop 23) s1 s2 (natTup (maskList hd.sat_mask 64)) (.ref (H.length + 10))
    (natTup (maskList hd.sat_mask 64)) (.int (maskList hd.sat_mask 64).length)
  have e4 := convert_frqs hb n (n + 4) (Src.fn_Bare2Scaled_convert.body.drop 24) ((maskList hd.sgn_mask 32).map (rnxLit x.gnss)) s2
    (natTup (maskList hd.sat_mask 64)) (.ref (H.length + 10)) (natTup (maskList hd.sat_mask 64)) (.int (maskList hd.sat_mask 64).length)
  unfold convLoc at e2
  rw [hc, e1, e2]
  have e3' := e3.trans e4
  have ed : execBlock src (n + 4) (callFn src (n + 4)) (Src.fn_Bare2Scaled_convert.body.drop 21)
      ⟨convLoc H.length b [(n!"sat_num", .int (maskList hd.sat_mask 64).length)],
        H ++ (headObjs H.length aA s1 s2 (natTup (maskList hd.sat_mask 64)) (.ref (H.length + 10)) (natTup (maskList hd.sat_mask 64)) x hd ++ [.iter []])⟩ = _ := e3'
  clear e3 e4 e3' e1 e2 hc
  unfold convLoc at ed
  rw [ed]
  cases hv : ((maskList hd.sgn_mask 32).map (rnxLit x.gnss)).mapM (signalItemR rnd x.gnss) with
  | error e => exact ⟨_, rfl⟩
  | ok items =>
    have e5 := convert_cells hb n (n + 4) (Src.fn_Bare2Scaled_convert.body.drop 27) (maskList hd.sat_mask 64).length
      (strTup (items.map (·.1))) s2 (natTup (maskList hd.sat_mask 64)) (.ref (H.length + 20)) (natTup (maskList hd.sat_mask 64)) (sigObj items)
    have hs : Val.tup (((maskList hd.sgn_mask 32).map (rnxLit x.gnss)).map optStr) = strTup (items.map (·.1)) := by
      rw [items_names hv, List.map_map]
      rfl
    rw [hs]
    exact congrArg endCall e5

theorem convert_no_sats (n : Nat) (s1 s2 s3 : Val) (hx : x.gnss ≠ "") (h0 : hd.sat_mask = 0) :
    callFn src (n + 5) n!"Bare2Scaled.convert" [.ref H.length, .ref b] (H ++ [scObj s1 s2 s3]) =
      (.ok (.ref (H.length + 1)), H ++ (headObjs H.length aA s1 s2 s3 (.ref (H.length + 17)) (.tup []) x hd ++ [.dict []])) := by
  have hc : callFn src (n + 5) n!"Bare2Scaled.convert" [.ref H.length, .ref b] (H ++ [scObj s1 s2 s3]) =
      endCall (execBlock src (n + 4) (callFn src (n + 4)) (Src.fn_Bare2Scaled_convert.body.take 17 ++ Src.fn_Bare2Scaled_convert.body.drop 17)
        ⟨[(n!"self", .ref H.length), (n!"src", .ref b)], H ++ [scObj s1 s2 s3]⟩) :=
    callFn_succ src _ _ _ _ _ _ Look.fn_Bare2Scaled_convert rfl
  have e1 := convert_head hb n (n + 4) (Src.fn_Bare2Scaled_convert.body.drop 17) s1 s2 s3 hx
  have e2 := convert_empty hb n (n + 4) h0 s1 s2 s3 (.ref (H.length + 10)) (.tup [.int 0])
  unfold convLoc at e2
  rw [hc, e1, e2]
  rfl
end

end Refine
end PyCore
end Verif
