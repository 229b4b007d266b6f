import Verif.Refine.ScCall

/-! # `decode_msm17(False, buf)`, sub_decoders/RTCM_MSM.py:675-728 -/

namespace Verif
namespace PyCore
namespace Refine
open Verif.Msm Verif.RtcmUtil

open Rounding (rnd)
variable [Rounding]

section
variable {G : Heap} {buf : Bytes}

/-- The part of `decode_msm17` behind the decision about the output (sub_decoders/RTCM_MSM.py:706-728). -/
theorem msm17_tail (n : Nat) (m : Bare) (T : List Obj) (v : Val) (hn : ∀ s ∈ slotsOf m.hdr (maskList m.hdr.sat_mask 64).length, s < n + 3) :
    match convertR rnd (some m) with
    | .ok (some o) => ∃ t, endCall (execBlock src (n + 5) (callFn src (n + 5)) (Src.fn_decode_msm17.body.drop 4)
        ⟨[(n!"is_bare_output", .bool false), (n!"buf", .bytes buf), (n!"msm", .ref G.length), (n!"mnum", v)], msmHeap G m T⟩) =
        (.ok (.ref ((msmHeap G m T).length + 1)), msmHeap G m T ++ t) ∧ ObsAt (msmHeap G m T ++ t) ((msmHeap G m T).length + 1) (G.length + 1) o
    | _ => ∃ t, endCall (execBlock src (n + 5) (callFn src (n + 5)) (Src.fn_decode_msm17.body.drop 4)
        ⟨[(n!"is_bare_output", .bool false), (n!"buf", .bytes buf), (n!"msm", .ref G.length), (n!"mnum", v)], msmHeap G m T⟩) =
        (.ok .none, msmHeap G m T ++ t) := by
  have h1 := convert_src G T m n hn (.tup [.str ""]) (.tup [.int 0]) (.tup [.int 0])
  have hi := sc_init (n + 4) (msmHeap G m T)
  have hs : (msmHeap G m T ++ [scObj (.tup [.str ""]) (.tup [.int 0]) (.tup [.int 0])])[(msmHeap G m T).length]? =
      some (.inst n!"Bare2Scaled" [(n!"sgn_map", .tup [.str ""]), (n!"slots_per_sat", .tup [.int 0]), (n!"sat_list", .tup [.int 0])]) := append_getElem0 ..
  have hM : ∃ K x hd sat sgn, msmHeap G m T = bareHeap G true K (atrF x) (hdrF hd) sat sgn T := by
    obtain ⟨K, x, hd, sat, sgn, -, hm⟩ := msmHeap_ready (G := G) m T
    exact ⟨K, x, hd, sat, sgn, hm⟩
  have hd : (msmHeap G m T ++ [scObj (.tup [.str ""]) (.tup [.int 0]) (.tup [.int 0])])[G.length]? =
      some (.inst n!"BareObservablesMSM17Decoder" [(n!"_ready", .bool true), (n!"bd", .ref (G.length + 2))]) := by
    obtain ⟨K, x, hd, sat, sgn, hm⟩ := hM
    rw [hm, bareHeap_append]
    exact bareHeap_self ..
  have hb : callFn src (n + 5) n!"BareObservablesMSM17Decoder.bare_data" [.ref G.length] (msmHeap G m T ++ [scObj (.tup [.str ""]) (.tup [.int 0]) (.tup [.int 0])]) =
      (.ok (.ref (G.length + 2)), msmHeap G m T ++ [scObj (.tup [.str ""]) (.tup [.int 0]) (.tup [.int 0])]) := by
    obtain ⟨K, x, hd, sat, sgn, hm⟩ := hM
    rw [hm, bareHeap_append]
    exact bare_data_src ..
  generalize msmHeap G m T = H at h1 hi hs hd hb ⊢
  generalize scObj (.tup [.str ""]) (.tup [.int 0]) (.tup [.int 0]) = S at h1 hi hs hd hb ⊢
  simp only [Src.fn_decode_msm17, List.drop_succ_cons, List.drop_zero]
  rcases hv : convertR rnd (some m) with e | (_ | o)
  · rw [hv] at h1
    obtain ⟨c, t, h1, hc⟩ := h1
    refine ⟨t, ?_⟩
    cases hc1 : catches src c n!"IndexError"
    · cases hc2 : catches src c n!"ArithmeticError"
      · pyexec [hi, hs, hd, hb, h1, handle_cons, hc, hc1, hc2]
      · pyexec [hi, hs, hd, hb, h1, handle_cons, hc, hc1, hc2]
    · pyexec [hi, hs, hd, hb, h1, handle_cons, hc, hc1]
  · rw [hv] at h1
    obtain ⟨t, h1⟩ := h1
    refine ⟨t, ?_⟩
    pyexec [hi, hs, hd, hb, h1]
  · rw [hv] at h1
    obtain ⟨t, h1, ho⟩ := h1
    refine ⟨t, ?_, ho⟩
    have o1 := ho.rv
    obtain ⟨g, o2, -⟩ := ho.hdr
    have hi2 : ∀ st, cmpOp src .isNot (.ref (H.length + 1)) .none st = (.ok (.bool true), st) := fun _ => rfl
    pyexec [hi, hs, hd, hb, h1, o1, o2, hi2, ohdrF]
    rfl

/-- The slots of a message. -/
def slotList (m : Bare) : List Nat := slotsOf m.hdr (maskList m.hdr.sat_mask 64).length

/-- `decode_msm17(False, buf)` and its model. -/
theorem msm17_scaled_src (n : Nat) (hn : ∀ m, Msm.decode buf = .ok m → ∀ s ∈ slotList m, s < n + 3) :
    match Msm.decodeMsm17R rnd false buf with
    | some (.inr o) => ∃ t r a, callFn src (n + 6) n!"decode_msm17" [.bool false, .bytes buf] G = (.ok (.ref r), G ++ t) ∧ G.length ≤ r ∧ ObsAt (G ++ t) r a o
    | _ => ∃ t, callFn src (n + 6) n!"decode_msm17" [.bool false, .bytes buf] G = (.ok .none, G ++ t) := by
  have hc : callFn src (n + 6) n!"decode_msm17" [.bool false, .bytes buf] G =
      endCall (execBlock src (n + 5) (callFn src (n + 5)) (Src.fn_decode_msm17.body.take 4 ++ Src.fn_decode_msm17.body.drop 4)
        ⟨[(n!"is_bare_output", .bool false), (n!"buf", .bytes buf)], G⟩) :=
    callFn_succ src _ _ _ _ _ _ Look.fn_decode_msm17 rfl
  rw [hc]
  clear hc
  have h1 := msm17_pre (G := G) (buf := buf) (n + 1) (n + 5) false (Src.fn_decode_msm17.body.drop 4)
  unfold decodeMsm17R
  cases hv : Msm.decode buf with
  | error e =>
    rw [hv] at h1
    obtain ⟨l, T, h1⟩ := h1
    rw [h1]
    exact ⟨_, rfl⟩
  | ok m =>
    rw [hv] at h1
    obtain ⟨v, T, h1⟩ := h1
    rw [h1]
    have h2 := msm17_tail (G := G) (buf := buf) n m T v (hn m hv)
    obtain ⟨X, hX⟩ : ∃ X, msmHeap G m T = G ++ X := by
      cases m <;> exact ⟨_, rfl⟩
    dsimp only
    rw [if_neg (by decide)]
    rcases hw : convertR rnd (some m) with e | (_ | o)
    · rw [hw] at h2
      obtain ⟨t, h2⟩ := h2
      exact ⟨X ++ t, by rw [h2, hX, List.append_assoc]⟩
    · rw [hw] at h2
      obtain ⟨t, h2⟩ := h2
      exact ⟨X ++ t, by rw [h2, hX, List.append_assoc]⟩
    · rw [hw] at h2
      obtain ⟨t, h2, ho⟩ := h2
      rw [hX, List.append_assoc] at ho
      refine ⟨X ++ t, _, _, by rw [h2, hX, List.append_assoc], ?_, ho⟩
      rw [List.length_append]
      omega
end

end Refine
end PyCore
end Verif
