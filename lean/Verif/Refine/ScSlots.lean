import Verif.Refine.ScSignals

/-! # `Bare2Scaled.convert`, sub_decoders/RTCM_MSM.py:382-445: cells -/

namespace Verif
namespace PyCore
namespace Refine
open Verif.Msm Verif.RtcmUtil

open Rounding (rnd)
variable [Rounding]

/-- `(src.hdr.cell_mask >> (M * i)) & mask`. -/
def cellE : Expr := .bin .band (.bin .shr (.attr (.attr (.name n!"src") n!"hdr") n!"cell_mask") (.bin .mul (.name n!"M") (.name n!"i"))) (.name n!"mask")

/-- The cells of the satellites. -/
def slotsOf (hd : BareHdr) (k : Nat) : List Nat :=
  (List.range k).map (fun i => (hd.cell_mask >>> (bitCount hd.sgn_mask * i)) &&& ((1 <<< bitCount hd.sgn_mask) - 1))

/-- Locals before the cells are converted. -/
def cellLoc (c b k : Nat) (hd : BareHdr) : Fields :=
  convLoc c b [(n!"sat_num", .int k), (n!"M", .int (bitCount hd.sgn_mask)), (n!"mask", .int ((1 <<< bitCount hd.sgn_mask) - 1 : Nat))]

theorem mask_int (M : Nat) : (1 : Int) * (2 : Int) ^ M - (1 : Int) = (((1 <<< M) - 1 : Nat) : Int) := by
  rw [shl_one_nat]
  have : 1 ≤ 1 <<< M := by rw [Nat.one_shiftLeft]; exact Nat.one_le_two_pow
  omega

section
variable {H : Heap} {K : Ident} {b aA aH aT aG : Nat} {x : Attributes} {hd : BareHdr} (hb : BareAt H K b aA aH aT aG x hd)
include hb

theorem cell_loop (call : CallT) (k : Nat) (L : Fields) (X : List Obj) (h1 : L.lookup n!"src" = some (.ref b))
    (h2 : L.lookup n!"M" = some (.int (bitCount hd.sgn_mask))) (h3 : L.lookup n!"mask" = some (.int ((1 <<< bitCount hd.sgn_mask) - 1 : Nat))) :
    ∃ L', compLoop n!"i" (eval src call (.const (.bool true)) >>= fun c => truth src c) (eval src call cellE)
      ((List.range k).map (fun x : Nat => .int x)) ⟨L, H ++ X⟩ = (.ok ((slotsOf hd k).map (fun x : Nat => .int x)), ⟨L', H ++ X⟩) := by
  obtain ⟨hc, g1, g2, g3⟩ := hb
  have h := comp_ok (x := n!"i") (cond := eval src call (.const (.bool true)) >>= fun c => truth src c) (elt := eval src call cellE)
    (h := H ++ X) (fun x : Nat => .int x) (fun _ => true)
    (fun i => .int ((hd.cell_mask >>> (bitCount hd.sgn_mask * i)) &&& ((1 <<< bitCount hd.sgn_mask) - 1) : Nat))
    (fun L => L.lookup n!"src" = some (.ref b) ∧ L.lookup n!"M" = some (.int (bitCount hd.sgn_mask)) ∧
      L.lookup n!"mask" = some (.int ((1 <<< bitCount hd.sgn_mask) - 1 : Nat))) (by
      rintro L i ⟨k1, k2, k3⟩
      have l1 : (M.bindKey L n!"i" (.int (i : Int))).lookup n!"src" = some (.ref b) := by rw [lookup_bindKey_ne rfl, k1]
      have l2 : (M.bindKey L n!"i" (.int (i : Int))).lookup n!"M" = some (.int (bitCount hd.sgn_mask)) := by rw [lookup_bindKey_ne rfl, k2]
      have l3 : (M.bindKey L n!"i" (.int (i : Int))).lookup n!"mask" = some (.int ((1 <<< bitCount hd.sgn_mask) - 1 : Nat)) := by
        rw [lookup_bindKey_ne rfl, k3]
      have l4 : (M.bindKey L n!"i" (.int (i : Int))).lookup n!"i" = some (.int i) := lookup_bindKey_self ..
      refine ⟨⟨l1, l2, l3⟩, rfl, ?_⟩
      generalize M.bindKey L n!"i" (.int (i : Int)) = L1 at *
      generalize bitCount hd.sgn_mask = m at *
      have e1 : (m : Int) * (i : Int) = ((m * i : Nat) : Int) := by push_cast; rfl
      unfold cellE
      cases hc with
      | inl hc => subst hc; simp only [bdF] at g1; pyexec [l1, l2, l3, l4, g1, g3, hdrF_cell, e1, shr_nat]; rfl
      | inr hc => subst hc; simp only [bdF] at g1; pyexec [l1, l2, l3, l4, g1, g3, hdrF_cell, e1, shr_nat]; rfl) (List.range k) L ⟨h1, h2, h3⟩
  rw [List.filter_true] at h
  unfold slotsOf
  rw [List.map_map]
  exact h

theorem convert_cells (n m : Nat) (rest : List Stmt) (k : Nat) (s1 s2 s3 sig sats : Val) (o : Obj) :
    execBlock src m (callFn src (n + 4)) (
      .assign (.name n!"M") (.call (.attr (.attr (.attr (.name n!"src") n!"hdr") n!"sgn_mask") n!"bit_count") []) ::
      .assign (.name n!"mask") (.bin .sub (.bin .shl (.const (.int 1)) (.name n!"M")) (.const (.int 1))) ::
      .assign (.attr (.name n!"self") n!"slots_per_sat") (.call (.name n!"tuple") [.gen cellE n!"i" (.call (.name n!"range") [.const (.int 0), .name n!"sat_num"]) (.const (.bool true))]) :: rest)
      ⟨convLoc H.length b [(n!"sat_num", .int k)], H ++ (headObjs H.length aA s1 s2 s3 sig sats x hd ++ [.iter [], .iter [], .iter [], o])⟩ =
    execBlock src m (callFn src (n + 4)) rest
      ⟨cellLoc H.length b k hd, H ++ (headObjs H.length aA s1 (natTup (slotsOf hd k)) s3 sig sats x hd ++ [.iter [], .iter [], .iter [], o, .iter []])⟩ := by
  obtain ⟨L', hl⟩ := cell_loop hb (callFn src (n + 4)) k (cellLoc H.length b k hd)
    (headObjs H.length aA s1 s2 s3 sig sats x hd ++ [.iter [], .iter [], .iter [], o]) rfl rfl rfl
  have e0 : rangeVals 0 (k : Int) = (List.range k).map (fun x : Nat => .int x) := by
    simp only [rangeVals, Int.sub_zero, Int.toNat_natCast, Int.zero_add]
  unfold natTup
  unfold cellLoc at *
  generalize (slotsOf hd k).map (fun x : Nat => Val.int x) = vs at *
  generalize cellE = F at *
  have hbc : ((Nat.digits 2 hd.sgn_mask).sum : Int) = (bitCount hd.sgn_mask : Int) := by rw [bitCount_digits]
  generalize hM : bitCount hd.sgn_mask = M at *
  have he := mask_int M
  generalize (((1 <<< M) - 1 : Nat) : Int) = mv at *
  simp only [convLoc, headObjs, rvObjs, scObj, ohdrF, List.cons_append, List.nil_append, Nat.add_assoc, Nat.reduceAdd, List.length_cons, List.length_nil, Nat.zero_add] at hl
  obtain ⟨rfl | rfl, g1, g2, g3⟩ := hb
  all_goals
    simp only [bdF] at g1
    pyexec [g1, g3, hdrF_sgn, hbc, he, e0, hl, convLoc, rvObjs, headObjs, scObj, ohdrF, Nat.add_assoc, List.append_assoc, List.cons_append, List.nil_append, Nat.reduceAdd, append_getElem0, append_set0, append_getElem,
      append_set, List.getElem?_cons_zero, List.getElem?_cons_succ, List.set_cons_zero, List.set_cons_succ]
end

end Refine
end PyCore
end Verif
