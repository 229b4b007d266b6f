import Verif.Refine.MargoCells

/-!
# `MargoCore.ObservablesMSMtoPrintBuffer`, printers/margo_printer.py:212-343
-/

namespace Verif
namespace PyCore
namespace Refine
open RtcmUtil Margo

open Rounding (rnd)
variable [Rounding]

/-- The loop over the slots of a table. -/
def slotFor (tmp : Ident) (param : String) (t : Tab) (pre inner : List Stmt) : Stmt :=
  .for (.name tmp) (.call (.attr (.attr (.attr (.name n!"pdata") n!"obs") t.id) n!"items") []) (slotBody tmp param pre inner) []

/-- The beginning of the function. -/
def bufHead : List Stmt := [
    .assign (.name n!"rv") (.call (.name n!"dict") []),
    .assign (.name n!"gnss") (.attr (.attr (.name n!"pdata") n!"atr") n!"gnss"),
    .ite (.not (.cmp .mem (.name n!"gnss") (.call (.attr (.name n!"self") n!"GNSSTUPLE") []))) [.raise (.call (.name n!"AssertionError") [.fstr [.name n!"gnss"]])] [],
    .ite (.cmp .ne (.name n!"gnss") (.const (.str "G"))) [
      .assign (.name n!"time") (.call (.attr (.name n!"self") n!"conv_to_gps_time") [.attr (.attr (.name n!"pdata") n!"hdr") n!"time", .attr (.attr (.name n!"pdata") n!"hdr") n!"day", .attr (.name n!"self") n!"utc_shift", .name n!"gnss"])] [
      .assign (.name n!"time") (.attr (.attr (.name n!"pdata") n!"hdr") n!"time")],
    .assign (.name n!"max_sats") (.call (.attr (.name n!"self") n!"MAX_SATS") [.name n!"gnss"]),
    .assign (.name n!"pattern") (.list [.name n!"time"])]

def plainIn : List Stmt := [.assign (.name n!"value") (.ite inObs obsSat nanC)] ++ [appendCell]
def dopplerIn : List Stmt := [.assign (.name n!"value") (.ite inObs (.bin .div (.neg obsSat) lamSat) nanC)] ++ [appendCell]
def lockIn : List Stmt := [.assign (.name n!"value") (.ite inObs (.bin .mul obsSat (.const (.flt 1 1000))) nanC)] ++ [appendCell]

/-- The body of the function. -/
def bufBody : List Stmt :=
  bufHead ++ ([slotFor n!"$t" "C" .rng [] plainIn] ++ ([slotFor n!"$t2" "L" .phs [lamStmt] phaseIn] ++ ([slotFor n!"$t3" "D" .dpl [lamStmt] dopplerIn] ++
    ([slotFor n!"$t4" "S" .c2n [] plainIn] ++ ([.ite (.attr (.name n!"self") n!"LT_EN") [slotFor n!"$t5" "T" .ltm [] lockIn] []] ++
      ([.ite (.attr (.name n!"self") n!"HC_EN") [slotFor n!"$t6" "A" .hca [] (hcaIn ++ [appendCell])] []] ++ [.ret (.name n!"rv")]))))))

theorem bufBody_eq : Src.fn_MargoCore_ObservablesMSMtoPrintBuffer.body = bufBody := rfl

theorem Runs.done {n : Nat} {call : CallT} {α : Type} {m : Py α} {run : Except Exc Flow × St} {P : α → St → Prop}
    (h : Runs m run (fun x fl st => fl = .next ∧ P x st)) :
    Runs m (M.seq run (after (execBlock src n call []))) (fun x fl st => fl = .next ∧ P x st) := by
  cases m with
  | error e => obtain ⟨st, rfl⟩ := h; exact ⟨st, rfl⟩
  | ok x =>
    obtain ⟨fl, ⟨l, h'⟩, rfl, rfl, hp⟩ := h
    refine ⟨.next, ⟨l, h'⟩, ?_, rfl, hp⟩
    pyexec []

/-- The time of the row. -/
def rowTimeOf (c : Controls) (o : Msm.ObservablesMSM) : Int :=
  if o.atr.gnss ≠ "G" then convToGpsTime o.hdr.time o.hdr.day c.gps_utc_shift o.atr.gnss else o.hdr.time

section
variable {n : Nat} {h : Heap} {a k g : Nat} {c : Controls} (hc : CtrlAt h a k g c) {r at' : Nat} {o : Msm.ObservablesMSM} (ho : ObsAt h r at' o)
include hc ho

theorem head_src :
    Runs (if !ofileLt1.mem o.atr.gnss then .error .assertionError else maxSats o.atr.gnss)
      (execBlock src (n + 3) (callFn src (n + 3)) bufHead ⟨[(n!"self", .ref a), (n!"pdata", .ref r)], h⟩)
      (fun m fl st => fl = .next ∧ SlotInv h a r m o.atr.gnss (rowTimeOf c o) [] st) := by
  have hs : ∀ Y, (h ++ Y)[a]? = _ := heap_old' hc.self
  have hr : ∀ Y, (h ++ Y)[r]? = _ := heap_old' ho.rv
  have ha : ∀ Y, (h ++ Y)[at']? = _ := heap_old' ho.atr
  obtain ⟨gg, hh1, _⟩ := ho.hdr
  have hh : ∀ Y, (h ++ Y)[r + 8]? = _ := heap_old' hh1
  have e1 := memList_str o.atr.gnss margoGnss
  unfold bufHead
  rw [mem_ofile]
  by_cases hg : o.atr.gnss ∈ margoGnss
  · have d1 := decide_eq_true hg
    rw [d1, Bool.not_true, if_neg Bool.false_ne_true]
    have e2 := max_sats_src (n + 2) o.atr.gnss
    have e3 := utc_shift_src hc (n + 2)
    have e4 := conv_gps_src (n + 2) o.hdr.time o.hdr.day c.gps_utc_shift o.atr.gnss
    cases hm : maxSats o.atr.gnss with
    | error e =>
      rw [hm] at e2
      by_cases hG : o.atr.gnss = "G"
      · have b1 : (o.atr.gnss == "G") = true := by rw [hG]; rfl
        apply Exists.intro
        pyexec [hr, ha, hs, hh, e1, d1, atrF, ohdrF, gnsstuple_src, Bool.not_true, Bool.not_false, b1, e2]
        rfl
      · have b1 : (o.atr.gnss == "G") = false := by rw [beq_eq_false_iff_ne]; exact hG
        apply Exists.intro
        pyexec [hr, ha, hs, hh, e1, d1, atrF, ohdrF, gnsstuple_src, Bool.not_true, Bool.not_false, b1, e2, e3, e4]
        rfl
    | ok m =>
      rw [hm] at e2
      by_cases hG : o.atr.gnss = "G"
      · have b1 : (o.atr.gnss == "G") = true := by rw [hG]; rfl
        have ht : rowTimeOf c o = o.hdr.time := by unfold rowTimeOf; rw [if_neg (fun h => h hG)]
        rw [ht]
        refine ⟨.next, ⟨[(n!"self", .ref a), (n!"pdata", .ref r), (n!"rv", .ref h.length), (n!"gnss", .str o.atr.gnss), (n!"time", .int o.hdr.time),
          (n!"max_sats", .int m), (n!"pattern", .ref (h.length + 1))], h ++ [.dict [], .list [.int o.hdr.time]]⟩, ?_, rfl, ?_, ?_, List.nodup_nil, [], [], rfl, .nil⟩
        · pyexec [hr, ha, hs, hh, e1, d1, atrF, ohdrF, gnsstuple_src, Bool.not_true, Bool.not_false, b1, e2, ofModel, List.append_assoc]
          rfl
        · unfold mBase Has; simp; exact ⟨rfl, rfl, rfl, rfl, rfl⟩
        · unfold Free; simp
      · have b1 : (o.atr.gnss == "G") = false := by rw [beq_eq_false_iff_ne]; exact hG
        have ht : rowTimeOf c o = convToGpsTime o.hdr.time o.hdr.day c.gps_utc_shift o.atr.gnss := by unfold rowTimeOf; rw [if_pos hG]
        rw [ht]
        generalize convToGpsTime o.hdr.time o.hdr.day c.gps_utc_shift o.atr.gnss = tm at *
        refine ⟨.next, ⟨[(n!"self", .ref a), (n!"pdata", .ref r), (n!"rv", .ref h.length), (n!"gnss", .str o.atr.gnss), (n!"time", .int tm),
          (n!"max_sats", .int m), (n!"pattern", .ref (h.length + 1))], h ++ [.dict [], .list [.int tm]]⟩, ?_, rfl, ?_, ?_, List.nodup_nil, [], [], rfl, .nil⟩
        · pyexec [hr, ha, hs, hh, e1, d1, atrF, ohdrF, gnsstuple_src, Bool.not_true, Bool.not_false, b1, e2, e3, e4, ofModel, List.append_assoc]
          rfl
        · unfold mBase Has; simp; exact ⟨rfl, rfl, rfl, rfl, rfl⟩
        · unfold Free; simp
  · have d1 := decide_eq_false hg
    rw [d1, Bool.not_false, if_pos rfl]
    apply Exists.intro
    pyexec [hr, ha, hs, e1, d1, atrF, gnsstuple_src, Bool.not_false]
    rfl

theorem print_buffer_body (hone : rnd 1 = 1) :
    Runs (printBufferR rnd c o) (execBlock src (n + 3) (callFn src (n + 3)) bufBody ⟨[(n!"self", .ref a), (n!"pdata", .ref r)], h⟩)
      (fun b fl st => fl = .ret (.ref h.length) ∧ ∃ d Y, st.heap = h ++ .dict d :: .list [.int (rowTimeOf c o)] :: Y ∧ BufIn h.length Y d b) := by
  have hs : ∀ Y, (h ++ Y)[a]? = _ := heap_old' hc.self
  have e0 : printBufferR rnd c o =
      (if !ofileLt1.mem o.atr.gnss then .error .assertionError else maxSats o.atr.gnss : Py Nat) >>= fun m =>
      slotLoop o.atr.gnss "C" o.atr.subset (rowTimeOf c o) m cellPlain [] o.obs.rng >>= fun rv =>
      slotLoop o.atr.gnss "L" o.atr.subset (rowTimeOf c o) m (cellPhaseR rnd c o.atr.gnss o.obs.hca) rv o.obs.phs >>= fun rv =>
      slotLoop o.atr.gnss "D" o.atr.subset (rowTimeOf c o) m (cellDopplerR rnd c o.atr.gnss) rv o.obs.dpl >>= fun rv =>
      slotLoop o.atr.gnss "S" o.atr.subset (rowTimeOf c o) m cellPlain rv o.obs.c2n >>= fun rv =>
      (if c.lock_time_enable then slotLoop o.atr.gnss "T" o.atr.subset (rowTimeOf c o) m (cellLockR rnd) rv o.obs.ltm else pure rv) >>= fun rv =>
      (if c.half_cycle_enable then slotLoop o.atr.gnss "A" o.atr.subset (rowTimeOf c o) m cellHca rv o.obs.hca else pure rv) >>= fun rv =>
      (pure rv : Py (PyDict Txt Row)) := by
    unfold printBufferR
    by_cases hg : (!ofileLt1.mem o.atr.gnss) = true
    · rw [if_pos hg, if_pos hg]; rfl
    · rw [if_neg hg, if_neg hg]
      simp only [bind_pure]
      cases c.lock_time_enable <;> rfl
  rw [e0]
  unfold bufBody
  refine Runs.bind (head_src hc ho) (fun m st1 h1 => ?_)
  refine Runs.bind (mslot_loop hc ho (enc := .flt) rfl rfl rfl (fun slot d ob fn w hd => plain_cells hd) h1) (fun b2 st2 h2 => ?_)
  refine Runs.bind (mslot_loop hc ho (enc := .flt) rfl rfl rfl (fun slot d ob fn w hd => phase_cells hc ho hd) h2) (fun b3 st3 h3 => ?_)
  refine Runs.bind (mslot_loop hc ho (enc := .flt) rfl rfl rfl (fun slot d ob fn w hd => doppler_cells hc hd) h3) (fun b4 st4 h4 => ?_)
  refine Runs.bind (mslot_loop hc ho (enc := .flt) rfl rfl rfl (fun slot d ob fn w hd => plain_cells hd) h4) (fun b5 st5 h5 => ?_)
  refine Runs.bind (P := fun b st => SlotInv h a r m o.atr.gnss (rowTimeOf c o) b st) ?_ (fun b6 st6 h6 => ?_)
  · obtain ⟨loc, H⟩ := st5
    have hi := h5
    obtain ⟨g1, g2, g3, d, Y, hH, g4⟩ := h5
    dsimp only at g1 hH
    subst hH
    have l1 := g1 (n!"self", .ref a) (by unfold mBase; simp)
    dsimp only at l1
    have e1 := lt_en_src hc (n + 2)
    cases hl : c.lock_time_enable with
    | false =>
      rw [hl] at e1
      rw [if_neg Bool.false_ne_true]
      refine ⟨.next, _, ?_, rfl, hi⟩
      pyexec [l1, hs, e1]
    | true =>
      rw [hl] at e1
      rw [if_pos rfl]
      have hsl := mslot_loop hc ho (n := n) (tmp := n!"$t5") (param := "T") (t := .ltm) (enc := fun x : Nat => .int x) rfl rfl rfl
        (fun slot d ob fn w hd => lock_cells hd) hi
      have ex : execBlock src (n + 3) (callFn src (n + 3)) [.ite (.attr (.name n!"self") n!"LT_EN") [slotFor n!"$t5" "T" .ltm [] lockIn] []]
          ⟨loc, h ++ Obj.dict d :: Obj.list [Val.int (rowTimeOf c o)] :: Y⟩ =
          M.seq (execBlock src (n + 3) (callFn src (n + 3)) [slotFor n!"$t5" "T" .ltm [] lockIn] ⟨loc, h ++ Obj.dict d :: Obj.list [Val.int (rowTimeOf c o)] :: Y⟩)
            (after (execBlock src (n + 3) (callFn src (n + 3)) [])) := by
        rw [execBlock_cons, exec_ite]
        have : eval src (callFn src (n + 3)) (.attr (.name n!"self") n!"LT_EN") ⟨loc, h ++ Obj.dict d :: Obj.list [Val.int (rowTimeOf c o)] :: Y⟩ =
          (.ok (.bool true), ⟨loc, h ++ Obj.dict d :: Obj.list [Val.int (rowTimeOf c o)] :: Y⟩) := by pyexec [l1, hs, e1]
        rw [this]
        rfl
      rw [ex]
      exact hsl.done
  refine Runs.bind (P := fun b st => SlotInv h a r m o.atr.gnss (rowTimeOf c o) b st) ?_ (fun b7 st7 h7 => ?_)
  · obtain ⟨loc, H⟩ := st6
    have hi := h6
    obtain ⟨g1, g2, g3, d, Y, hH, g4⟩ := h6
    dsimp only at g1 hH
    subst hH
    have l1 := g1 (n!"self", .ref a) (by unfold mBase; simp)
    dsimp only at l1
    have e1 := hc_en_src hc (n + 2)
    cases hl : c.half_cycle_enable with
    | false =>
      rw [hl] at e1
      rw [if_neg Bool.false_ne_true]
      refine ⟨.next, _, ?_, rfl, hi⟩
      pyexec [l1, hs, e1]
    | true =>
      rw [hl] at e1
      rw [if_pos rfl]
      have hsl := mslot_loop hc ho (n := n) (tmp := n!"$t6") (param := "A") (t := .hca) (enc := .bool) rfl rfl rfl
        (fun slot d ob fn w hd => hca_cells hone hd) hi
      have ex : execBlock src (n + 3) (callFn src (n + 3)) [.ite (.attr (.name n!"self") n!"HC_EN") [slotFor n!"$t6" "A" .hca [] (hcaIn ++ [appendCell])] []]
          ⟨loc, h ++ Obj.dict d :: Obj.list [Val.int (rowTimeOf c o)] :: Y⟩ =
          M.seq (execBlock src (n + 3) (callFn src (n + 3)) [slotFor n!"$t6" "A" .hca [] (hcaIn ++ [appendCell])]
            ⟨loc, h ++ Obj.dict d :: Obj.list [Val.int (rowTimeOf c o)] :: Y⟩) (after (execBlock src (n + 3) (callFn src (n + 3)) [])) := by
        rw [execBlock_cons, exec_ite]
        have : eval src (callFn src (n + 3)) (.attr (.name n!"self") n!"HC_EN") ⟨loc, h ++ Obj.dict d :: Obj.list [Val.int (rowTimeOf c o)] :: Y⟩ =
          (.ok (.bool true), ⟨loc, h ++ Obj.dict d :: Obj.list [Val.int (rowTimeOf c o)] :: Y⟩) := by pyexec [l1, hs, e1]
        rw [this]
        rfl
      rw [ex]
      exact hsl.done
  · obtain ⟨loc, H⟩ := st7
    obtain ⟨g1, g2, g3, d, Y, hH, g4⟩ := h7
    dsimp only at g1 hH
    have l1 := g1 (n!"rv", .ref h.length) (by unfold mBase; simp)
    dsimp only at l1
    refine ⟨.ret (.ref h.length), ⟨loc, H⟩, ?_, rfl, d, Y, hH, g4⟩
    pyexec [l1]
end

end Refine
end PyCore
end Verif
