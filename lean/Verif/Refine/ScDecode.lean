import Verif.Refine.ScFinish

/-! # `Bare2Scaled.convert` and `decode_msm17` with output of scaled values -/

namespace Verif
namespace PyCore
namespace Refine
open Verif.Msm Verif.RtcmUtil

open Rounding (rnd)
variable [Rounding]

/-- The last two statements of `convert` (sub_decoders/RTCM_MSM.py:438-445). -/
theorem conv_last47 (n S b k : Nat) (hd : BareHdr) (h0 : Heap) (fs bs : Fields) (hself : h0[S]? = some (.inst n!"Bare2Scaled" fs))
    (hm : fs.lookup n!"_convert_obs47" = none) (hbd : h0[b]? = some (.inst n!"BareObservablesMSM4567" bs)) :
    endCall (execBlock src (n + 4) (callFn src (n + 4)) (Src.fn_Bare2Scaled_convert.body.drop 27) ⟨cellLoc S b k hd, h0⟩) =
    match callFn src (n + 4) n!"Bare2Scaled._convert_obs47" [.ref S, .ref b, .ref (S + 1)] h0 with
    | (.ok _, h) => (.ok (.ref (S + 1)), h)
    | (.error e, h) => (.error e, h) := by
  have s1 : subclass src n!"BareObservablesMSM4567" n!"BareObservablesMSM4567" = true := rfl
  simp only [Src.fn_Bare2Scaled_convert, List.drop_succ_cons, List.drop_zero, cellLoc, convLoc]
  rcases hr : callFn src (n + 4) n!"Bare2Scaled._convert_obs47" [.ref S, .ref b, .ref (S + 1)] h0 with ⟨r | r, h⟩
  · pyexec [hbd, s1, hself, hm, hr]
  · pyexec [hbd, s1, hself, hm, hr]

theorem conv_last13 (n S b k : Nat) (hd : BareHdr) (h0 : Heap) (fs bs : Fields) (hself : h0[S]? = some (.inst n!"Bare2Scaled" fs))
    (hm : fs.lookup n!"_convert_obs13" = none) (hbd : h0[b]? = some (.inst n!"BareObservablesMSM123" bs)) :
    endCall (execBlock src (n + 4) (callFn src (n + 4)) (Src.fn_Bare2Scaled_convert.body.drop 27) ⟨cellLoc S b k hd, h0⟩) =
    match callFn src (n + 4) n!"Bare2Scaled._convert_obs13" [.ref S, .ref b, .ref (S + 1)] h0 with
    | (.ok _, h) => (.ok (.ref (S + 1)), h)
    | (.error e, h) => (.error e, h) := by
  have s1 : subclass src n!"BareObservablesMSM123" n!"BareObservablesMSM4567" = false := rfl
  simp only [Src.fn_Bare2Scaled_convert, List.drop_succ_cons, List.drop_zero, cellLoc, convLoc]
  rcases hr : callFn src (n + 4) n!"Bare2Scaled._convert_obs13" [.ref S, .ref b, .ref (S + 1)] h0 with ⟨r | r, h⟩
  · pyexec [hbd, s1, hself, hm, hr]
  · pyexec [hbd, s1, hself, hm, hr]

theorem off47_lt (t : Tab) : off47 t < 12 := by cases t <;> decide
theorem off47_inj (t t' : Tab) (h : off47 t = off47 t') : t = t' := by cases t <;> cases t' <;> first | rfl | cases h
theorem off13_lt (t : Tab) : off13 t < 8 := by cases t <;> decide
theorem off13_inj (t t' : Tab) (h : off13 t = off13 t') : t = t' := by cases t <;> cases t' <;> first | rfl | cases h

theorem cellObjs_len (S aA : Nat) (x : Attributes) (hd : BareHdr) (items : List (String × Rat)) : (cellObjs S aA x hd items).length = 22 := rfl

section
variable {H : Heap} {aA : Nat} {x : Attributes} {hd : BareHdr} {items : List (String × Rat)} {w : Nat} {off : Tab → Nat}
  {ho : ∀ t, off t < w} {hoi : ∀ t t', off t = off t' → t = t'} {sgns : List String}

theorem cell_hS : H.length + 9 ≤ (H ++ cellObjs H.length aA x hd items).length := by
  rw [List.length_append, cellObjs_len]; omega

theorem cell_low {a : Nat} {o : Obj} (ha : a < H.length) (h : (H ++ cellObjs H.length aA x hd items)[a]? = some o) :
    (tabAddr H.length (H ++ cellObjs H.length aA x hd items) sgns w off cell_hS ho hoi).At a o :=
  ⟨by show a < (H ++ _).length; rw [List.length_append]; omega, fun t => by show a ≠ H.length + 1 + t.pos; omega, h⟩

theorem cell_self : (tabAddr H.length (H ++ cellObjs H.length aA x hd items) sgns w off cell_hS ho hoi).At H.length
    (scObj (strTup (items.map (·.1))) (natTup (slotsOf hd (maskList hd.sat_mask 64).length)) (natTup (maskList hd.sat_mask 64))) :=
  ⟨by show H.length < (H ++ _).length; rw [List.length_append, cellObjs_len]; omega, fun t => by show H.length ≠ H.length + 1 + t.pos; omega,
    append_getElem0 ..⟩

theorem cell_rv : RvAt (tabAddr H.length (H ++ cellObjs H.length aA x hd items) sgns w off cell_hS ho hoi) (H.length + 1) := by
  refine ⟨_, H.length + 2, obsF (H.length + 2), ⟨?_, fun t => ?_, append_getElem ..⟩, rfl, ⟨?_, fun t => ?_, append_getElem ..⟩, ?_⟩
  · show H.length + 1 < (H ++ _).length; rw [List.length_append, cellObjs_len]; omega
  · show H.length + 1 ≠ H.length + 1 + t.pos
    have : 2 ≤ t.pos := by cases t <;> decide
    omega
  · show H.length + 2 < (H ++ _).length; rw [List.length_append, cellObjs_len]; omega
  · show H.length + 2 ≠ H.length + 1 + t.pos
    have : 2 ≤ t.pos := by cases t <;> decide
    omega
  · intro t
    show List.lookup t.id (obsF (H.length + 2)) = some (.ref (H.length + 1 + t.pos))
    cases t <;> (show some (Val.ref _) = some (Val.ref _); congr 2)

theorem obsV_empty (t : Tab) : obsV {} t = [] := by cases t <;> rfl

theorem cell_inv : (tabAddr H.length (H ++ cellObjs H.length aA x hd items) sgns w off cell_hS ho hoi).Inv (H ++ cellObjs H.length aA x hd items) (obsV {}) where
  frame := ⟨Nat.le_refl _, fun _ _ _ => rfl⟩
  out t := by
    rw [obsV_empty]
    show (H ++ cellObjs H.length aA x hd items)[H.length + 1 + t.pos]? = some (.dict [])
    rw [Nat.add_assoc, append_getElem]
    cases t <;> rfl
  keys t s hs := by rw [obsV_empty] at hs; cases hs
  nodup t := by rw [obsV_empty]; exact List.nodup_nil
  ent t p hp := by rw [obsV_empty] at hp; cases hp

/-- The heap after the conversion extends the one before. -/
theorem cell_ext {h : Heap} (hf : (tabAddr H.length (H ++ cellObjs H.length aA x hd items) sgns w off cell_hS ho hoi).Frame h) : ∃ t, h = H ++ t := by
  obtain ⟨h1, h2⟩ := hf
  have h1 : (H ++ cellObjs H.length aA x hd items).length ≤ h.length := h1
  refine ⟨h.drop H.length, List.ext_getElem? fun i => ?_⟩
  by_cases hi : i < H.length
  · have h3 := h2 i (by show i < (H ++ _).length; rw [List.length_append]; omega) (fun t => by show i ≠ H.length + 1 + t.pos; omega)
    have h3 : h[i]? = (H ++ cellObjs H.length aA x hd items)[i]? := h3
    rw [h3, List.getElem?_append_left hi, List.getElem?_append_left hi]
  · rw [List.getElem?_append_right (by omega), List.getElem?_drop]
    congr 1; omega

theorem cell_obs {h : Heap} {o : Obs} (atr : Attributes) (hA : aA < H.length) (hA' : ∀ X, (H ++ X)[aA]? = some (.inst n!"Attributes" (atrF atr)))
    (hi : (tabAddr H.length (H ++ cellObjs H.length aA x hd items) sgns w off cell_hS ho hoi).Inv h (obsV o)) :
    ObsAt h (H.length + 1) aA { hdr := { time := timeOf x hd, day := dayOf x hd, sats := maskList hd.sat_mask 64, signals := items.foldl (fun d p => d.set p.1 p.2) [] }
                                obs := o
                                aux := { rs_id := hd.rs_id, MMB := hd.MMB, IODS := hd.IODS, clk_steer := (hd.clk_steer, unpackClkSteer hd.clk_steer),
                                         clk_ext := (hd.clk_ext, unpackClkExt hd.clk_ext), smth_indc := (hd.smth_indc, unpackSmthIndc hd.smth_indc),
                                         smth_intr := (hd.smth_intr, unpackSmthIntr hd.smth_intr) }
                                atr := atr } := by
  have hf : ∀ k, k < 22 → (∀ t : Tab, k ≠ 1 + t.pos) → h[H.length + k]? = (cellObjs H.length aA x hd items)[k]? := by
    intro k hk ht
    have h3 : h[H.length + k]? = (H ++ cellObjs H.length aA x hd items)[H.length + k]? :=
      hi.frame.2 (H.length + k) (by show _ < (H ++ _).length; rw [List.length_append, cellObjs_len]; omega)
        (fun t => by show _ ≠ H.length + 1 + t.pos; have := ht t; omega)
    rw [h3, append_getElem]
  have hp : ∀ t : Tab, 2 ≤ t.pos ∧ t.pos ≤ 7 := by intro t; cases t <;> decide
  refine ⟨?_, ?_, ?_, ?_, ⟨H.length + 20, ?_, ?_⟩, ?_, ?_, ?_, ?_, ?_⟩
  · exact hf 1 (by decide) (fun t => by have := hp t; omega)
  · exact hf 2 (by decide) (fun t => by have := hp t; omega)
  · have h3 : h[aA]? = (H ++ cellObjs H.length aA x hd items)[aA]? :=
      hi.frame.2 aA (by show _ < (H ++ _).length; rw [List.length_append]; omega) (fun t => by show _ ≠ H.length + 1 + t.pos; omega)
    rw [h3, hA']
  · exact fun t => ⟨_, hi.out t, fun p hp => (hi.ent t p hp).1⟩
  · exact hf 9 (by decide) (fun t => by have := hp t; omega)
  · exact hf 20 (by decide) (fun t => by have := hp t; omega)
  · exact hf 11 (by decide) (fun t => by have := hp t; omega)
  · exact hf 12 (by decide) (fun t => by have := hp t; omega)
  · exact hf 13 (by decide) (fun t => by have := hp t; omega)
  · exact hf 14 (by decide) (fun t => by have := hp t; omega)
  · exact hf 15 (by decide) (fun t => by have := hp t; omega)
end

end Refine
end PyCore
end Verif
