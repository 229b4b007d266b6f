import Verif.Refine.ScMasks

/-! # `Bare2Scaled.convert`, sub_decoders/RTCM_MSM.py:382-445: signals and cells -/

namespace Verif
namespace PyCore
namespace Refine
open Verif.Msm Verif.RtcmUtil

open Rounding (rnd)
variable [Rounding]

/-- `MSMT.rnx_lit(src.atr.gnss, s)`. -/
def litE : Expr := .call (.attr (.name n!"MSMT") n!"rnx_lit") [.attr (.attr (.name n!"src") n!"atr") n!"gnss", .name n!"s"]
/-- `MSMT.crr_frq(src.atr.gnss, s)`. -/
def frqE : Expr := .call (.attr (.name n!"MSMT") n!"crr_frq") [.attr (.attr (.name n!"src") n!"atr") n!"gnss", .name n!"s"]

theorem mapList_pairs (l : Fields) (h : Heap) : ∀ items : List (String × Rat),
    M.mapList pairOf (items.map (fun p => .tup [.str p.1, .flt p.2])) ⟨l, h⟩ = (.ok (items.map (fun p => (.str p.1, .flt p.2))), ⟨l, h⟩)
  | [] => rfl
  | p :: items => by
    rw [List.map_cons, M.mapList_cons, pairOf_tup, M.seq_ok]
    show M.seq (M.mapList pairOf _ _) _ = _
    rw [mapList_pairs l h items]
    rfl

theorem pairs_dict (items : List (String × Rat)) : ∀ d : PyDict String Rat, d.keys.Nodup →
    (items.map (fun p => (Val.str p.1, Val.flt p.2))).foldl (fun d p => dictSet d p.1 p.2) (encD .str (fun _ v => .flt v) d) =
    encD .str (fun _ v => .flt v) (items.foldl (fun d p => d.set p.1 p.2) d) := by
  induction items with
  | nil => intro d _; rfl
  | cons p items ih =>
    intro d hd
    rw [List.map_cons, List.foldl_cons, List.foldl_cons]
    have := encD_set (e := Val.str) (fun _ v => Val.flt v) keyEnc_str d hd p.1 p.2
    dsimp only at this ⊢
    rw [this]
    exact ih _ (PyDict.nodup_set hd _ _)

section
variable {H : Heap} {K : Ident} {b aA aH aT aG : Nat} {x : Attributes} {hd : BareHdr} (hb : BareAt H K b aA aH aT aG x hd)
include hb

theorem lit_loop (n : Nat) (codes : List Nat) (L : Fields) (X : List Obj) (h1 : L.lookup n!"src" = some (.ref b)) (h2 : L.lookup n!"MSMT" = none) :
    ∃ L', compLoop n!"s" (eval src (callFn src (n + 4)) (.const (.bool true)) >>= fun c => truth src c) (eval src (callFn src (n + 4)) litE)
      (codes.map (fun x : Nat => .int x)) ⟨L, H ++ X⟩ = (.ok (codes.map (fun c => optStr (rnxLit x.gnss c))), ⟨L', H ++ X⟩) := by
  have e2 : (atrF x).lookup n!"gnss" = some (.str x.gnss) := rfl
  have m4 : findMember src n!"MSMT" n!"rnx_lit" = some (n!"MSMT", .clsMethod n!"MSMT.rnx_lit") := rfl
  obtain ⟨hc, g1, g2, g3⟩ := hb
  have h := comp_ok (x := n!"s") (cond := eval src (callFn src (n + 4)) (.const (.bool true)) >>= fun c => truth src c) (elt := eval src (callFn src (n + 4)) litE)
    (h := H ++ X) (fun x : Nat => .int x) (fun _ => true) (fun c => optStr (rnxLit x.gnss c)) (fun L => L.lookup n!"src" = some (.ref b) ∧ L.lookup n!"MSMT" = none) (by
      rintro L i ⟨hL, hL'⟩
      have l1 : (M.bindKey L n!"s" (.int (i : Int))).lookup n!"src" = some (.ref b) := by rw [lookup_bindKey_ne rfl, hL]
      have l3 : (M.bindKey L n!"s" (.int (i : Int))).lookup n!"MSMT" = none := by rw [lookup_bindKey_ne rfl, hL']
      have l2 : (M.bindKey L n!"s" (.int (i : Int))).lookup n!"s" = some (.int i) := lookup_bindKey_self ..
      refine ⟨⟨l1, l3⟩, rfl, ?_⟩
      unfold litE
      cases hc with
      | inl hc => subst hc; simp only [bdF] at g1; pyexec [l1, l2, l3, g1, g2, e2, getAttr_cls, m4, rnx_lit_src]
      | inr hc => subst hc; simp only [bdF] at g1; pyexec [l1, l2, l3, g1, g2, e2, getAttr_cls, m4, rnx_lit_src]) codes L ⟨h1, h2⟩
  rw [List.filter_true] at h
  exact h

omit hb in
theorem signalItemR_def (g : String) (s : Option String) : signalItemR rnd g s = (crrFrq g s >>= fun f =>
    match s with
    | none => .error .keyError
    | some s => pure (s, rnd f)) := by
  unfold signalItemR signalItem
  cases crrFrq g s with
  | error e => rfl
  | ok f => cases s <;> rfl

theorem frq_loop (n : Nat) (sgns : List (Option String)) (L : Fields) (X : List Obj) (h1 : L.lookup n!"src" = some (.ref b)) (h2 : L.lookup n!"MSMT" = none) :
    ∃ L', compLoop n!"s" (M.pure true) (eval src (callFn src (n + 4)) (.name n!"s") >>= fun a => eval src (callFn src (n + 4)) frqE >>= fun b => M.pure (.tup [a, b]))
      (sgns.map optStr) ⟨L, H ++ X⟩ = match sgns.mapM (signalItemR rnd x.gnss) with
        | .ok items => (.ok (items.map (fun p => .tup [.str p.1, .flt p.2])), ⟨L', H ++ X⟩)
        | .error e => (.error (.py (errName e)), ⟨L', H ++ X⟩) := by
  have e2 : (atrF x).lookup n!"gnss" = some (.str x.gnss) := rfl
  have m4 : findMember src n!"MSMT" n!"crr_frq" = some (n!"MSMT", .clsMethod n!"MSMT.crr_frq") := rfl
  obtain ⟨hc, g1, g2, g3⟩ := hb
  obtain ⟨L', h⟩ := comp_py (x := n!"s") (cond := M.pure true) (elt := eval src (callFn src (n + 4)) (.name n!"s") >>= fun a => eval src (callFn src (n + 4)) frqE >>= fun b => M.pure (.tup [a, b]))
    (h := H ++ X) optStr (signalItemR rnd x.gnss) (fun p => .tup [.str p.1, .flt p.2]) (fun L => L.lookup n!"src" = some (.ref b) ∧ L.lookup n!"MSMT" = none) (by
      rintro L i ⟨hL, hL'⟩
      have l1 : (M.bindKey L n!"s" (optStr i)).lookup n!"src" = some (.ref b) := by rw [lookup_bindKey_ne rfl, hL]
      have l3 : (M.bindKey L n!"s" (optStr i)).lookup n!"MSMT" = none := by rw [lookup_bindKey_ne rfl, hL']
      have l2 : (M.bindKey L n!"s" (optStr i)).lookup n!"s" = some (optStr i) := lookup_bindKey_self ..
      refine ⟨⟨l1, l3⟩, rfl, ?_⟩
      generalize M.bindKey L n!"s" (optStr i) = L1 at *
      have hf := fun h => crr_frq_src (n + 3) x.gnss i h
      rw [signalItemR_def]
      cases hv : crrFrq x.gnss i with
      | error e =>
        simp only [hv] at hf
        rw [except_error_bind]
        unfold frqE
        cases hc with
        | inl hc => subst hc; simp only [bdF] at g1; pyexec [l1, l2, l3, g1, g2, e2, getAttr_cls, m4, hf]
        | inr hc => subst hc; simp only [bdF] at g1; pyexec [l1, l2, l3, g1, g2, e2, getAttr_cls, m4, hf]
      | ok v =>
        simp only [hv] at hf
        rw [except_ok_bind]
        cases i with
        | none =>
          exfalso
          unfold crrFrq at hv
          cases h : rinexCfTab.get? x.gnss <;> rw [h] at hv <;> cases hv
        | some s =>
          dsimp only [optStr] at *
          unfold frqE
          cases hc with
          | inl hc => subst hc; simp only [bdF] at g1; pyexec [l1, l2, l3, g1, g2, e2, getAttr_cls, m4, hf]; rfl
          | inr hc => subst hc; simp only [bdF] at g1; pyexec [l1, l2, l3, g1, g2, e2, getAttr_cls, m4, hf]; rfl) sgns L ⟨h1, h2⟩
  refine ⟨L', ?_⟩
  rw [h]
  cases sgns.mapM (signalItemR rnd x.gnss) <;> rfl

theorem convert_lits (n m : Nat) (rest : List Stmt) (s1 s2 s3 sig sats v : Val) :
    execBlock src m (callFn src (n + 4)) (.assign (.attr (.name n!"self") n!"sgn_map") (maskGen n!"sgn_mask" 32) ::
      .assign (.attr (.name n!"self") n!"sgn_map") (.call (.name n!"tuple") [.gen litE n!"s" (.attr (.name n!"self") n!"sgn_map") (.const (.bool true))]) :: rest)
      ⟨convLoc H.length b [(n!"sat_num", v)], H ++ (headObjs H.length aA s1 s2 s3 sig sats x hd ++ [.iter []])⟩ =
    execBlock src m (callFn src (n + 4)) rest
      ⟨convLoc H.length b [(n!"sat_num", v)], H ++ (headObjs H.length aA (.tup (((maskList hd.sgn_mask 32).map (rnxLit x.gnss)).map optStr)) s2 s3 sig sats x hd ++
        [.iter [], .iter [], .iter []])⟩ := by
  have hm := mask_gen hb (callFn src (n + 4)) n!"sgn_mask" hd.sgn_mask 32 (hdrF_sgn hd) (convLoc H.length b [(n!"sat_num", v)])
    (headObjs H.length aA s1 s2 s3 sig sats x hd ++ [.iter []]) rfl rfl
  obtain ⟨L', hl⟩ := lit_loop hb n (maskList hd.sgn_mask 32) (convLoc H.length b [(n!"sat_num", v)])
    (headObjs H.length aA (.ref (H.length + 18)) s2 s3 sig sats x hd ++ [.iter [], .iter []]) rfl rfl
  rw [List.map_map]
  change _ = _ at hl
  have he : (maskList hd.sgn_mask 32).map (optStr ∘ rnxLit x.gnss) = (maskList hd.sgn_mask 32).map (fun c => optStr (rnxLit x.gnss c)) := rfl
  rw [he]
  generalize (maskList hd.sgn_mask 32).map (fun x : Nat => Val.int x) = vs at *
  generalize (maskList hd.sgn_mask 32).map (fun c => optStr (rnxLit x.gnss c)) = ss at *
  generalize maskGen n!"sgn_mask" 32 = E at *
  generalize litE = F at *
  simp only [convLoc, headObjs, rvObjs, scObj, ohdrF, List.cons_append, List.nil_append, Nat.add_assoc, Nat.reduceAdd, List.length_cons, List.length_nil, Nat.zero_add] at hm hl
  pyexec [hm, hl, convLoc, rvObjs, headObjs, scObj, ohdrF, Nat.add_assoc, List.append_assoc, List.cons_append, List.nil_append, Nat.reduceAdd, append_getElem0, append_set0, append_getElem,
      append_set, List.getElem?_cons_zero, List.getElem?_cons_succ, List.set_cons_zero, List.set_cons_succ]

/-- The signals with their frequencies. -/
def sigObj (items : List (String × Rat)) : Obj := .dict (encD .str (fun _ v => .flt v) (items.foldl (fun d p => d.set p.1 p.2) ([] : PyDict String Rat)))

theorem convert_frqs (n m : Nat) (rest : List Stmt) (sgns : List (Option String)) (s2 s3 sig sats v : Val) :
    execBlock src m (callFn src (n + 4)) (
      .assign (.attr (.attr (.name n!"rv") n!"hdr") n!"signals") (.dictComp (.name n!"s") frqE n!"s" (.attr (.name n!"self") n!"sgn_map")) :: rest)
      ⟨convLoc H.length b [(n!"sat_num", v)], H ++ (headObjs H.length aA (.tup (sgns.map optStr)) s2 s3 sig sats x hd ++ [.iter [], .iter [], .iter []])⟩ =
    match sgns.mapM (signalItemR rnd x.gnss) with
    | .ok items => execBlock src m (callFn src (n + 4)) rest
      ⟨convLoc H.length b [(n!"sat_num", v)], H ++ (headObjs H.length aA (.tup (sgns.map optStr)) s2 s3 (.ref (H.length + 20)) sats x hd ++
        [.iter [], .iter [], .iter [], sigObj items])⟩
    | .error e => (.error (.py (errName e)), ⟨convLoc H.length b [(n!"sat_num", v)],
        H ++ (headObjs H.length aA (.tup (sgns.map optStr)) s2 s3 sig sats x hd ++ [.iter [], .iter [], .iter []])⟩) := by
  obtain ⟨L', hl⟩ := frq_loop hb n sgns (convLoc H.length b [(n!"sat_num", v)])
    (headObjs H.length aA (.tup (sgns.map optStr)) s2 s3 sig sats x hd ++ [.iter [], .iter [], .iter []]) rfl rfl
  generalize frqE = F at *
  simp only [convLoc, headObjs, rvObjs, scObj, ohdrF, List.cons_append, List.nil_append, Nat.add_assoc, Nat.reduceAdd, List.length_cons, List.length_nil, Nat.zero_add] at hl
  cases hv : sgns.mapM (signalItemR rnd x.gnss) with
  | error e =>
    simp only [hv] at hl
    pyexec [hl, eval_dictComp, convLoc, rvObjs, headObjs, scObj, ohdrF, Nat.add_assoc, List.append_assoc, List.cons_append, List.nil_append, Nat.reduceAdd, append_getElem0, append_set0, append_getElem,
      append_set, List.getElem?_cons_zero, List.getElem?_cons_succ, List.set_cons_zero, List.set_cons_succ]
  | ok items =>
    simp only [hv] at hl
    have hp : (items.map (fun p => (Val.str p.1, Val.flt p.2))).foldl (fun d p => dictSet d p.1 p.2) [] = _ := pairs_dict items [] List.nodup_nil
    unfold sigObj
    pyexec [hl, eval_dictComp, mapList_pairs, hp, convLoc, rvObjs, headObjs, scObj, ohdrF, Nat.add_assoc, List.append_assoc, List.cons_append, List.nil_append, Nat.reduceAdd, append_getElem0, append_set0, append_getElem,
      append_set, List.getElem?_cons_zero, List.getElem?_cons_succ, List.set_cons_zero, List.set_cons_succ]

end

end Refine
end PyCore
end Verif
