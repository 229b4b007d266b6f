import Verif.Refine.ScConvert

/-! # `Bare2Scaled.convert`, sub_decoders/RTCM_MSM.py:382-445: masks -/

namespace Verif
namespace PyCore
namespace Refine
open Verif.Msm Verif.RtcmUtil

open Rounding (rnd)
variable [Rounding]

/-- A comprehension whose condition and elements do not change the state. -/
theorem comp_ok {α : Type} {x : Ident} {cond : M Bool} {elt : M Val} {h : Heap} (enc : α → Val) (f : α → Bool) (g : α → Val) (Q : Fields → Prop)
    (hQ : ∀ L a, Q L → Q (M.bindKey L x (enc a)) ∧ cond ⟨M.bindKey L x (enc a), h⟩ = (.ok (f a), ⟨M.bindKey L x (enc a), h⟩) ∧
      elt ⟨M.bindKey L x (enc a), h⟩ = (.ok (g a), ⟨M.bindKey L x (enc a), h⟩)) :
    ∀ (xs : List α) (L : Fields), Q L → ∃ L', compLoop x cond elt (xs.map enc) ⟨L, h⟩ = (.ok ((xs.filter f).map g), ⟨L', h⟩)
  | [], L, _ => ⟨L, rfl⟩
  | a :: xs, L, hL => by
    obtain ⟨h1, h2, h3⟩ := hQ L a hL
    obtain ⟨L', h4⟩ := comp_ok enc f g Q hQ xs _ h1
    refine ⟨L', ?_⟩
    rw [List.map_cons, compLoop_cons, List.filter_cons]
    cases hf : f a with
    | false =>
      rw [hf] at h2
      pyexec [h2, h4]
    | true =>
      rw [hf] at h2
      pyexec [h2, h3, h4]
      rfl

/-- A comprehension whose elements may raise. -/
theorem comp_py {α β : Type} {x : Ident} {cond : M Bool} {elt : M Val} {h : Heap} (enc : α → Val) (g : α → Py β) (e : β → Val) (Q : Fields → Prop)
    (hQ : ∀ L a, Q L → Q (M.bindKey L x (enc a)) ∧ cond ⟨M.bindKey L x (enc a), h⟩ = (.ok true, ⟨M.bindKey L x (enc a), h⟩) ∧
      elt ⟨M.bindKey L x (enc a), h⟩ = match g a with
        | .ok b => (.ok (e b), ⟨M.bindKey L x (enc a), h⟩)
        | .error er => (.error (.py (errName er)), ⟨M.bindKey L x (enc a), h⟩)) :
    ∀ (xs : List α) (L : Fields), Q L → ∃ L', compLoop x cond elt (xs.map enc) ⟨L, h⟩ = match xs.mapM g with
      | .ok bs => (.ok (bs.map e), ⟨L', h⟩)
      | .error er => (.error (.py (errName er)), ⟨L', h⟩)
  | [], L, _ => ⟨L, rfl⟩
  | a :: xs, L, hL => by
    obtain ⟨h1, h2, h3⟩ := hQ L a hL
    obtain ⟨L', h4⟩ := comp_py enc g e Q hQ xs _ h1
    rw [List.map_cons, List.mapM_cons]
    cases hg : g a with
    | error er =>
      rw [hg] at h3
      refine ⟨M.bindKey L x (enc a), ?_⟩
      rw [compLoop_cons]
      pyexec [h2, h3]
      rfl
    | ok b =>
      rw [hg] at h3
      rw [except_ok_bind]
      refine ⟨L', ?_⟩
      rw [compLoop_cons]
      cases hm : xs.mapM g with
      | error er =>
        rw [hm] at h4
        pyexec [h2, h3, h4]
        rfl
      | ok bs =>
        rw [hm] at h4
        pyexec [h2, h3, h4]
        rfl

/-- `src.hdr.mask & (1 << i)`. -/
def maskCond (F : Ident) : Expr := .bin .band (.attr (.attr (.name n!"src") n!"hdr") F) (.bin .shl (.const (.int 1)) (.name n!"i"))
/-- `(i + 1 for i in range(0, n) if src.hdr.mask & (1 << i))`. -/
def maskGen (F : Ident) (k : Int) : Expr := .gen (.bin .add (.name n!"i") (.const (.int 1))) n!"i" (.call (.name n!"range") [.const (.int 0), .const (.int k)]) (maskCond F)

section
variable {H : Heap} {K : Ident} {b aA aH aT aG : Nat} {x : Attributes} {hd : BareHdr} (hb : BareAt H K b aA aH aT aG x hd)
include hb

theorem mask_gen (call : CallT) (F : Ident) (mask k : Nat) (hF : (hdrF hd).lookup F = some (.int mask)) (L : Fields) (X : List Obj)
    (h1 : L.lookup n!"src" = some (.ref b)) (h2 : L.lookup n!"range" = none) :
    eval src call (maskGen F k) ⟨L, H ++ X⟩ = (.ok (.ref (H.length + X.length)), ⟨L, H ++ (X ++ [Obj.iter ((maskList mask k).map (fun x : Nat => .int x))])⟩) := by
  obtain ⟨hc, g1, g2, g3⟩ := hb
  have e0 : rangeVals 0 (k : Int) = (List.range k).map (fun x : Nat => .int x) := by
    simp only [rangeVals, Int.sub_zero, Int.toNat_natCast, Int.zero_add]
  obtain ⟨L', hl⟩ := comp_ok (x := n!"i") (cond := eval src call (maskCond F) >>= fun c => truth src c)
    (elt := eval src call (.bin .add (.name n!"i") (.const (.int 1)))) (h := H ++ X) (fun x : Nat => .int x) (fun i => mask &&& (1 <<< i) != 0)
    (fun x : Nat => .int (x + 1)) (fun L => L.lookup n!"src" = some (.ref b)) (by
      intro L i hL
      have l1 : (M.bindKey L n!"i" (.int (i : Int))).lookup n!"src" = some (.ref b) := by rw [lookup_bindKey_ne rfl, hL]
      have l2 : (M.bindKey L n!"i" (.int (i : Int))).lookup n!"i" = some (.int i) := lookup_bindKey_self ..
      refine ⟨l1, ?_, ?_⟩
      · have e : (((mask : Int).land ((1 : Int) * 2 ^ i)) != 0) = (mask &&& (1 <<< i) != 0) := by
          rw [shl_one_nat]
          show (((mask &&& (1 <<< i) : Nat) : Int) != (0 : Int)) = _
          rw [Bool.eq_iff_iff]
          simp only [bne_iff_ne, ne_eq]
          norm_cast
        unfold maskCond
        cases hc with
        | inl hc => subst hc; simp only [bdF] at g1; pyexec [l1, l2, g1, g3, hF, e]
        | inr hc => subst hc; simp only [bdF] at g1; pyexec [l1, l2, g1, g3, hF, e]
      · pyexec [l2]) (List.range k) L h1
  have hv : ((List.range k).filter (fun i => mask &&& (1 <<< i) != 0)).map (fun x : Nat => Val.int (x + 1)) = (maskList mask k).map (fun x : Nat => .int x) := by
    unfold maskList
    rw [List.map_map]
    rfl
  rw [hv] at hl
  unfold maskGen
  pyexec [h2, e0, hl, List.append_assoc]

/-- `tuple(i + 1 for i in range(0, n) if src.hdr.mask & (1 << i))`. -/
def maskTup (F : Ident) (k : Int) : Expr := .call (.name n!"tuple") [maskGen F k]

theorem mask_tup (call : CallT) (F : Ident) (mask k : Nat) (hF : (hdrF hd).lookup F = some (.int mask)) (L : Fields) (X : List Obj)
    (h1 : L.lookup n!"src" = some (.ref b)) (h2 : L.lookup n!"range" = none) (h3 : L.lookup n!"tuple" = none) :
    eval src call (maskTup F k) ⟨L, H ++ X⟩ = (.ok (natTup (maskList mask k)), ⟨L, H ++ (X ++ [.iter []])⟩) := by
  have e := mask_gen hb call F mask k hF L X h1 h2
  have e1 : (H ++ (X ++ [Obj.iter ((maskList mask k).map (fun x : Nat => .int x))]))[H.length + X.length]? = some (.iter ((maskList mask k).map (fun x : Nat => .int x))) := by
    rw [append_getElem, heap_last]
  have e2 : (H ++ (X ++ [Obj.iter ((maskList mask k).map (fun x : Nat => .int x))])).set (H.length + X.length) (.iter []) = H ++ (X ++ [.iter []]) := by
    rw [append_set, heap_set]
  unfold natTup
  generalize (maskList mask k).map (fun x : Nat => Val.int x) = vs at *
  unfold maskTup
  generalize maskGen F k = g at e
  pyexec [h3, e, e1, e2]

/-- Locals of `convert`. -/
def convLoc (c b : Nat) (l : Fields) : Fields := (n!"self", .ref c) :: (n!"src", .ref b) :: (n!"rv", .ref (c + 1)) :: l

theorem convert_empty (n m : Nat) (h0 : hd.sat_mask = 0) (s1 s2 s3 sig sats : Val) :
    execBlock src m (callFn src (n + 4)) (Src.fn_Bare2Scaled_convert.body.drop 17)
      ⟨convLoc H.length b [], H ++ headObjs H.length aA s1 s2 s3 sig sats x hd⟩ =
    (.ok (.ret (.ref (H.length + 1))), ⟨convLoc H.length b [], H ++ (headObjs H.length aA s1 s2 s3 (.ref (H.length + 17)) (.tup []) x hd ++ [.dict []])⟩) := by
  simp only [Src.fn_Bare2Scaled_convert, List.drop_succ_cons, List.drop_zero, convLoc]
  have f1 : (hdrF hd).lookup n!"sat_mask" = some (.int 0) := by rw [hdrF_sat, h0]; rfl
  obtain ⟨rfl | rfl, g1, g2, g3⟩ := hb
  all_goals
    simp only [bdF] at g1
    pyexec [g1, g3, f1, rvObjs, headObjs, scObj, ohdrF, Nat.add_assoc, List.append_assoc, List.cons_append, List.nil_append, Nat.reduceAdd, append_getElem0, append_set0, append_getElem,
      append_set, List.getElem?_cons_zero, List.getElem?_cons_succ, List.set_cons_zero, List.set_cons_succ]
    try rfl

theorem convert_sats (n m : Nat) (h0 : hd.sat_mask ≠ 0) (s1 s2 s3 sig sats : Val) :
    execBlock src m (callFn src (n + 4)) (Src.fn_Bare2Scaled_convert.body.drop 17)
      ⟨convLoc H.length b [], H ++ headObjs H.length aA s1 s2 s3 sig sats x hd⟩ =
    execBlock src m (callFn src (n + 4)) (Src.fn_Bare2Scaled_convert.body.drop 21)
      ⟨convLoc H.length b [(n!"sat_num", .int (maskList hd.sat_mask 64).length)],
        H ++ (headObjs H.length aA s1 s2 (natTup (maskList hd.sat_mask 64)) sig (natTup (maskList hd.sat_mask 64)) x hd ++ [.iter []])⟩ := by
  have e : ((hd.sat_mask : Int) == (0 : Int)) = false := by rw [beq_eq_false_iff_ne]; omega
  have hm := mask_tup hb (callFn src (n + 4)) n!"sat_mask" hd.sat_mask 64 (hdrF_sat hd) (convLoc H.length b []) (headObjs H.length aA s1 s2 s3 sig sats x hd) rfl rfl rfl
  show execBlock src m _ (.ite (.cmp .eq (.attr (.attr (.name n!"src") n!"hdr") n!"sat_mask") (.const (.int 0))) [
      .assign (.attr (.attr (.name n!"rv") n!"hdr") n!"sats") (.tuple []),
      .assign (.attr (.attr (.name n!"rv") n!"hdr") n!"signals") (.dict [] []),
      .ret (.name n!"rv")] [] ::
    .assign (.attr (.name n!"self") n!"sat_list") (maskTup n!"sat_mask" 64) ::
    .assign (.name n!"sat_num") (.call (.name n!"len") [.attr (.name n!"self") n!"sat_list"]) ::
    .assign (.attr (.attr (.name n!"rv") n!"hdr") n!"sats") (.attr (.name n!"self") n!"sat_list") :: Src.fn_Bare2Scaled_convert.body.drop 21) _ = _
  generalize Src.fn_Bare2Scaled_convert.body.drop 21 = rest
  generalize maskTup n!"sat_mask" 64 = E at *
  have hl : (maskList hd.sat_mask 64).length = ((maskList hd.sat_mask 64).map (fun x : Nat => Val.int x)).length := by rw [List.length_map]
  rw [hl]
  have ht : natTup (maskList hd.sat_mask 64) = .tup ((maskList hd.sat_mask 64).map (fun x : Nat => Val.int x)) := rfl
  rw [ht] at hm ⊢
  generalize (maskList hd.sat_mask 64).map (fun x : Nat => Val.int x) = vs at hm ⊢
  simp only [convLoc, headObjs, rvObjs, scObj, ohdrF, List.cons_append, List.nil_append, Nat.add_assoc, Nat.reduceAdd] at hm
  obtain ⟨rfl | rfl, g1, g2, g3⟩ := hb
  all_goals
    simp only [bdF] at g1
    pyexec [g1, g3, hdrF_sat, e, hm, convLoc, rvObjs, headObjs, scObj, ohdrF, Nat.add_assoc, List.append_assoc, List.cons_append, List.nil_append, Nat.reduceAdd, append_getElem0, append_set0, append_getElem,
      append_set, List.getElem?_cons_zero, List.getElem?_cons_succ, List.set_cons_zero, List.set_cons_succ]
end

end Refine
end PyCore
end Verif
