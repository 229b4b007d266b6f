import Verif.Refine.MargoSlots

/-!
# printers/margo_printer.py:212-343: the cells of the rows and `ObservablesMSMtoPrintBuffer`
-/

namespace Verif
namespace PyCore
namespace Refine
open RtcmUtil Margo

open Rounding (rnd)
variable [Rounding]

section
variable {α : Type} (enc : α → Val) (d : PyDict Nat α)

theorem mem_inner (sat : Nat) (s : St) : memList (.int sat) ((encD (fun x : Nat => Val.int x) (fun _ v => v) (mapD enc d)).map (·.1)) s =
    (.ok (d.get? sat).isSome, s) := by
  induction d with
  | nil => rfl
  | cons p d ih =>
    obtain ⟨x, v⟩ := p
    show memList (.int sat) (.int x :: (encD (fun x : Nat => Val.int x) (fun _ v => v) (mapD enc d)).map (·.1)) s = _
    have e : PyDict.get? ((x, v) :: d) sat = if sat == x then some v else PyDict.get? d sat := by
      unfold PyDict.get?
      rw [List.lookup_cons]
      cases sat == x <;> rfl
    rw [e]
    simp only [memList, pyEq_int]
    by_cases hx : sat = x
    · subst hx
      simp only [beq_self_eq_true, reduceIte, Option.isSome_some]
      rfl
    · have h1 : (sat == x) = false := by simpa using hx
      have h2 : ((sat : Int) == (x : Int)) = false := by simpa using hx
      have h3 : ((x : Int) == (sat : Int)) = false := by simpa using fun h => hx h.symm
      simp only [h1, h2, h3, Bool.false_eq_true, reduceIte]
      exact ih

theorem get_inner (sat : Nat) : dictGet (encD (fun x : Nat => Val.int x) (fun _ v => v) (mapD enc d)) (.int sat) = (d.get? sat).map enc := by
  rw [← dictGet_nat enc d sat]
  congr 1
  unfold encD mapD
  rw [List.map_map]
  rfl
end

/-- `values.append(value)`. -/
def appendCell : Stmt := .expr (.call (.attr (.name n!"values") n!"append") [.name n!"value"])

section
variable {n : Nat} {call : CallT} {h : Heap} {B : List Stmt} {K : Fields} {w : Nat} {f : Nat → Py Cell}

/-- A round that computes `value` and appends it. -/
theorem cell_block (hs : (K.map (·.1)).contains n!"sat" = false) (hv : (n!"values", Val.ref (h.length + w)) ∈ K)
    (hb : ∀ (loc : Fields) (X : Heap) (sat : Nat), Has loc ((n!"sat", .int sat) :: K) → Free loc [n!"range"] → 1 ≤ sat →
      Runs (f sat) (execBlock src n call B ⟨loc, h ++ X⟩)
        (fun x fl st => fl = .next ∧ Has st.loc ((n!"value", cellVal x) :: K) ∧ Free st.loc [n!"range"] ∧ st.heap = h ++ X)) :
    CellRuns n call h (B ++ [appendCell]) K w f := by
  intro loc X vs sat hk hr h1 hx
  have hb := hb _ X sat (hk.put n!"sat" (.int sat) hs) (hr.set n!"sat" (.int sat) rfl) h1
  rw [execBlock_app]
  cases hf : f sat with
  | error e =>
    rw [hf] at hb
    obtain ⟨st, hb⟩ := hb
    rw [hb]
    exact ⟨st, rfl⟩
  | ok x =>
    rw [hf] at hb
    obtain ⟨fl, ⟨l', h'⟩, hb, rfl, g1, g2, g3⟩ := hb
    dsimp only at g1 g2 g3
    subst g3
    have g1 := Has.cons.1 g1
    have l1 := g1.1
    have l2 := g1.2 _ hv
    dsimp only at l2
    rw [hb, M.seq_ok, after_next]
    refine ⟨.next, ⟨l', h ++ X.set w (.list (vs ++ [cellVal x]))⟩, ?_, .inl rfl, g1.2, g2, rfl⟩
    unfold appendCell
    pyexec [l1, l2, append_getElem, hx, append_set]

/-- A round with an expression. -/
theorem cell_expr {E : Expr} (hs : (K.map (·.1)).contains n!"sat" = false) (hn : (K.map (·.1)).contains n!"value" = false)
    (hv : (n!"values", Val.ref (h.length + w)) ∈ K)
    (hb : ∀ (loc : Fields) (X : Heap) (sat : Nat), Has loc ((n!"sat", .int sat) :: K) → 1 ≤ sat →
      eval src call E ⟨loc, h ++ X⟩ = (resOf cellVal (f sat), ⟨loc, h ++ X⟩)) :
    CellRuns n call h ([.assign (.name n!"value") E] ++ [appendCell]) K w f := by
  refine cell_block hs hv (fun loc X sat hk hr h1 => ?_)
  have hb := hb loc X sat hk h1
  cases hf : f sat with
  | error e =>
    rw [hf] at hb
    refine ⟨⟨loc, h ++ X⟩, ?_⟩
    pyexec [hb, resOf]
  | ok x =>
    rw [hf] at hb
    refine ⟨.next, ⟨M.bindKey loc n!"value" (cellVal x), h ++ X⟩, ?_, rfl, (Has.cons.1 hk).2.put _ _ hn, hr.set _ _ rfl, rfl⟩
    pyexec [hb, resOf]
end

/-! ## The cells -/

/-- `sat in obs.keys()`. -/
def inObs : Expr := .cmp .mem (.name n!"sat") (.call (.attr (.name n!"obs") n!"keys") [])
def obsSat : Expr := .index (.name n!"obs") (.name n!"sat")
def nanC : Expr := .const (.str "NaN")
def lamSat : Expr := .index (.name n!"lam") (.bin .sub (.name n!"sat") (.const (.int 1)))

section
variable {n : Nat} {h : Heap} {a k g : Nat} {c : Controls} (hc : CtrlAt h a k g c) {r at' : Nat} {o : Msm.ObservablesMSM} (ho : ObsAt h r at' o)
variable {m : Nat} {slot : String} {fn : Txt} {ob w : Nat}

theorem plain_cells {d : PyDict Nat Rat} (hd : h[ob]? = some (inner' .flt d)) :
    PreRuns (n + 3) (callFn src (n + 3)) h [] ([.assign (.name n!"value") (.ite inObs obsSat nanC)] ++ [appendCell])
      (mSlot a r h.length m o.atr.gnss slot fn ob w) w (cellPlain slot d) := by
  intro loc X hk hr
  refine ⟨.next, ⟨loc, h ++ X⟩, by pyexec [], rfl, [], [], by rw [List.append_nil], hk, hr, ?_⟩
  refine cell_expr rfl rfl (by unfold mSlot; simp) (fun loc X sat hk h1 => ?_)
  have l1 := hk (n!"sat", .int sat) (by simp)
  have l2 := hk (n!"obs", .ref ob) (by unfold mSlot; simp)
  have e1 : ∀ Y, (h ++ Y)[ob]? = _ := heap_old' hd
  unfold inner' inner at e1
  dsimp only at l1 l2
  unfold inObs obsSat nanC
  cases hg : d.get? sat with
  | none => pyexec [l1, l2, e1, mem_inner, hg, Option.isSome_none]; rfl
  | some v => pyexec [l1, l2, e1, mem_inner, get_inner, hg, Option.isSome_some, Option.map_some]; rfl

theorem lock_cells {d : PyDict Nat Nat} (hd : h[ob]? = some (inner' (fun x : Nat => .int x) d)) :
    PreRuns (n + 3) (callFn src (n + 3)) h [] ([.assign (.name n!"value") (.ite inObs (.bin .mul obsSat (.const (.flt 1 1000))) nanC)] ++ [appendCell])
      (mSlot a r h.length m o.atr.gnss slot fn ob w) w (cellLockR rnd slot d) := by
  intro loc X hk hr
  refine ⟨.next, ⟨loc, h ++ X⟩, by pyexec [], rfl, [], [], by rw [List.append_nil], hk, hr, ?_⟩
  refine cell_expr rfl rfl (by unfold mSlot; simp) (fun loc X sat hk h1 => ?_)
  have l1 := hk (n!"sat", .int sat) (by simp)
  have l2 := hk (n!"obs", .ref ob) (by unfold mSlot; simp)
  have e1 : ∀ Y, (h ++ Y)[ob]? = _ := heap_old' hd
  unfold inner' inner at e1
  dsimp only at l1 l2
  unfold inObs obsSat nanC
  have mk : mkRat 1 1000 = (1 / 1000 : Rat) := by norm_num [Rat.mkRat_eq_div]
  cases hg : d.get? sat with
  | none => pyexec [l1, l2, e1, mem_inner, hg, Option.isSome_none]; rfl
  | some v => pyexec [l1, l2, e1, mem_inner, get_inner, hg, Option.isSome_some, Option.map_some, mk]; rfl

/-- `lam = self.make_lambdas(gnss, slot)`. -/
def lamStmt : Stmt := .assign (.name n!"lam") (.call (.attr (.name n!"self") n!"make_lambdas") [.name n!"gnss", .name n!"slot"])

include hc in
theorem lam_pre {loc : Fields} {X : Heap} (hk : Has loc (mSlot a r h.length m o.atr.gnss slot fn ob w)) (hr : Free loc [n!"range"]) :
    Runs (makeLambdasR rnd c o.atr.gnss slot) (execBlock src (n + 3) (callFn src (n + 3)) [lamStmt] ⟨loc, h ++ X⟩)
      (fun lam fl st => fl = .next ∧ ∃ Z, st.heap = h ++ (X ++ Z) ∧ Has st.loc ([(n!"lam", fltTup lam)] ++ mSlot a r h.length m o.atr.gnss slot fn ob w) ∧
        Free st.loc [n!"range"]) := by
  have l1 := hk (n!"self", .ref a) (by unfold mSlot mBase; simp)
  have l2 := hk (n!"gnss", .str o.atr.gnss) (by unfold mSlot mBase; simp)
  have l3 := hk (n!"slot", .str slot) (by unfold mSlot mBase; simp)
  have hs : ∀ Y, (h ++ Y)[a]? = _ := heap_old' hc.self
  obtain ⟨Y, e1⟩ := lambdas_src hc n o.atr.gnss slot X
  dsimp only at l1 l2 l3
  unfold lamStmt
  cases hl : makeLambdasR rnd c o.atr.gnss slot with
  | error e =>
    rw [hl] at e1
    refine ⟨⟨loc, h ++ X ++ Y⟩, ?_⟩
    pyexec [l1, l2, l3, hs, e1, resOf]
  | ok lam =>
    rw [hl] at e1
    refine ⟨.next, ⟨M.bindKey loc n!"lam" (fltTup lam), h ++ X ++ Y⟩, ?_, rfl, Y, List.append_assoc _ _ _, hk.put _ _ rfl, hr.set _ _ rfl⟩
    pyexec [l1, l2, l3, hs, e1, resOf]

theorem lam_index {lam : List Rat} {sat : Nat} (h1 : 1 ≤ sat) (s : St) :
    indexVal src (fltTup lam) (.int ((sat : Int) - 1)) s = (resOf Val.flt (lamAt lam sat), s) := by
  rw [show (sat : Int) - 1 = ((sat - 1 : Nat) : Int) by omega]
  unfold fltTup lamAt
  rw [index_tup, List.getElem?_map]
  cases lam[sat - 1]? <;> rfl

include hc in
theorem doppler_cells {d : PyDict Nat Rat} (hd : h[ob]? = some (inner' .flt d)) :
    PreRuns (n + 3) (callFn src (n + 3)) h [lamStmt] ([.assign (.name n!"value") (.ite inObs (.bin .div (.neg obsSat) lamSat) nanC)] ++ [appendCell])
      (mSlot a r h.length m o.atr.gnss slot fn ob w) w (cellDopplerR rnd c o.atr.gnss slot d) := by
  intro loc X hk hr
  have hp := lam_pre hc (n := n) (X := X) hk hr
  unfold cellDopplerR
  cases hl : makeLambdasR rnd c o.atr.gnss slot with
  | error e =>
    rw [hl] at hp
    exact hp
  | ok lam =>
    rw [hl] at hp
    obtain ⟨fl, st, p1, p2, Z, p3, p4, p5⟩ := hp
    refine ⟨fl, st, p1, p2, _, Z, p3, p4, p5, ?_⟩
    refine cell_expr rfl rfl (by unfold mSlot; simp) (fun loc X sat hk h1 => ?_)
    have l1 := hk (n!"sat", .int sat) (by simp)
    have l2 := hk (n!"obs", .ref ob) (by unfold mSlot; simp)
    have l3 := hk (n!"lam", fltTup lam) (by unfold mSlot; simp)
    have e1 : ∀ Y, (h ++ Y)[ob]? = _ := heap_old' hd
    unfold inner' inner at e1
    dsimp only at l1 l2 l3
    have li := lam_index (lam := lam) h1
    unfold inObs obsSat nanC lamSat
    cases hg : d.get? sat with
    | none => pyexec [l1, l2, e1, mem_inner, hg, Option.isSome_none]; rfl
    | some v =>
      cases hla : lamAt lam sat with
      | error e =>
        rw [hla] at li
        pyexec [l1, l2, l3, e1, mem_inner, get_inner, hg, Option.isSome_some, Option.map_some, li, resOf]
        rfl
      | ok l =>
        rw [hla] at li
        by_cases h0 : l = 0
        · subst h0
          pyexec [l1, l2, l3, e1, mem_inner, get_inner, hg, Option.isSome_some, Option.map_some, li, resOf]
          rfl
        · pyexec [l1, l2, l3, e1, mem_inner, get_inner, hg, Option.isSome_some, Option.map_some, li, resOf, div_ff _ _ _ h0]
          have ed : divideR rnd (-v) l = .ok (rnd (-v / l)) := by unfold divideR; rw [if_neg h0]
          simp only [ed, bind, Except.bind, pure, Except.pure]
          by_cases hz : isNegZero v l = true
          · rw [if_pos hz]
            have : v = 0 := (of_decide_eq_true hz).1
            subst this
            rw [neg_zero, zero_div, Rounding.zero]
            rfl
          · rw [if_neg hz]
            rfl

/-- The body of the loop over the satellites for the ambiguity indicators. -/
def hcaIn : List Stmt := [.ite inObs [.assign (.name n!"value") (.ite obsSat (.const (.flt 1 1)) (.const (.flt 0 1)))] [.assign (.name n!"value") nanC]]

theorem hca_cells (hone : rnd 1 = 1) {d : PyDict Nat Bool} (hd : h[ob]? = some (inner' .bool d)) :
    PreRuns (n + 3) (callFn src (n + 3)) h [] (hcaIn ++ [appendCell]) (mSlot a r h.length m o.atr.gnss slot fn ob w) w (cellHca slot d) := by
  intro loc X hk hr
  refine ⟨.next, ⟨loc, h ++ X⟩, by pyexec [], rfl, [], [], by rw [List.append_nil], hk, hr, ?_⟩
  refine cell_block rfl (by unfold mSlot; simp) (fun loc X sat hk hr h1 => ?_)
  have l1 := hk (n!"sat", .int sat) (by simp)
  have l2 := hk (n!"obs", .ref ob) (by unfold mSlot; simp)
  have e1 : ∀ Y, (h ++ Y)[ob]? = _ := heap_old' hd
  unfold inner' inner at e1
  dsimp only at l1 l2
  unfold hcaIn inObs obsSat nanC
  have m1 : rnd (mkRat 1 1) = 1 := hone
  have m0 : rnd (mkRat 0 1) = 0 := Rounding.zero
  cases hg : d.get? sat with
  | none =>
    refine ⟨.next, ⟨M.bindKey loc n!"value" (cellVal .nan), h ++ X⟩, ?_, rfl, (Has.cons.1 hk).2.put _ _ rfl, hr.set _ _ rfl, rfl⟩
    pyexec [l1, l2, e1, mem_inner, hg, Option.isSome_none]
    rfl
  | some v =>
    refine ⟨.next, ⟨M.bindKey loc n!"value" (cellVal (.num (if v then 1 else 0))), h ++ X⟩, ?_, rfl, (Has.cons.1 hk).2.put _ _ rfl, hr.set _ _ rfl, rfl⟩
    cases v
    · pyexec [l1, l2, e1, mem_inner, get_inner, hg, Option.isSome_some, Option.map_some, m0]
      rfl
    · pyexec [l1, l2, e1, mem_inner, get_inner, hg, Option.isSome_some, Option.map_some, m1]
      rfl

/-- `slot in pdata.obs.hca.keys()`, `sat in pdata.obs.hca[slot].keys()`, `pdata.obs.hca[slot][sat]`. -/
def hcaTab : Expr := .attr (.attr (.name n!"pdata") n!"obs") n!"hca"

/-- The computation of `amb_ok`. -/
def ambStmt : Stmt :=
  .ite (.attr (.name n!"self") n!"HC_EN") [
    .assign (.name n!"amb_ok") (.const (.bool true))] [
    .ite (.cmp .mem (.name n!"slot") (.call (.attr hcaTab n!"keys") [])) [
      .ite (.cmp .mem (.name n!"sat") (.call (.attr (.index hcaTab (.name n!"slot")) n!"keys") [])) [
        .assign (.name n!"amb_ok") (.not (.index (.index hcaTab (.name n!"slot")) (.name n!"sat")))] [
        .assign (.name n!"amb_ok") (.const (.bool false))]] [
      .assign (.name n!"amb_ok") (.const (.bool true))]]

/-- The body of the loop over the satellites for the carrier phase. -/
def phaseIn : List Stmt :=
  [.ite (.not inObs) [.expr (.call (.attr (.name n!"values") n!"append") [nanC]), .cont] [], ambStmt,
    .assign (.name n!"value") (.ite (.name n!"amb_ok") (.bin .div obsSat lamSat) nanC), appendCell]

theorem mem_tab {V : VTab} {ad : String → Nat} (slot : String) (s : St) :
    memList (.str slot) ((encD Val.str (fun s _ => Val.ref (ad s)) V).map (·.1)) s = (.ok (V.get? slot).isSome, s) := by
  have e : (encD Val.str (fun s _ => Val.ref (ad s)) V).map (·.1) = (V.keys).map .str := by
    unfold encD PyDict.keys
    rw [List.map_map, List.map_map]
    rfl
  rw [e, memList_str]
  congr 2
  rw [Bool.eq_iff_iff, decide_eq_true_iff, PyDict.get?_isSome_iff]

theorem get_tab {V : VTab} {ad : String → Nat} (slot : String) :
    dictGet (encD Val.str (fun s _ => Val.ref (ad s)) V) (.str slot) = (V.get? slot).map (fun _ => .ref (ad slot)) :=
  encD_get _ (fun a b => by
    show ((pyEq (.str _) (.str _)).getD false) = _
    rw [pyEq_str, Option.getD_some]) V slot

include hc ho in
theorem amb_src {loc : Fields} {X : Heap} {sat : Nat} {call : CallT} {n' : Nat} (hcall : call = callFn src (n + 3))
    (l1 : loc.lookup n!"self" = some (.ref a)) (l2 : loc.lookup n!"pdata" = some (.ref r))
    (l3 : loc.lookup n!"slot" = some (.str slot)) (l4 : loc.lookup n!"sat" = some (.int sat)) :
    exec src n' call ambStmt ⟨loc, h ++ X⟩ = (.ok .next, ⟨M.bindKey loc n!"amb_ok" (.bool (ambOk c o.obs.hca slot sat)), h ++ X⟩) := by
  subst hcall
  have hs : ∀ Y, (h ++ Y)[a]? = _ := heap_old' hc.self
  have hr : ∀ Y, (h ++ Y)[r]? = _ := heap_old' ho.rv
  have hob : ∀ Y, (h ++ Y)[r + 1]? = _ := heap_old' ho.obs
  obtain ⟨ad, t1, t2⟩ := ho.tab .hca
  have htb : ∀ Y, (h ++ Y)[r + 5]? = _ := heap_old' t1
  have hof : (obsF (r + 1)).lookup n!"hca" = some (.ref (r + 5)) := rfl
  have e1 := hc_en_src hc (n + 2) X
  have hV : (obsV o.obs .hca).get? slot = (o.obs.hca.get? slot).map (mapD .bool) := mapD_get _ _ _
  unfold ambStmt hcaTab ambOk
  cases hh : c.half_cycle_enable with
  | true =>
    rw [hh] at e1
    pyexec [l1, l2, l3, l4, hs, e1]
  | false =>
    rw [hh] at e1
    cases hg : o.obs.hca.get? slot with
    | none =>
      rw [hg] at hV
      pyexec [l1, l2, l3, l4, hs, e1, hr, hob, hof, htb, mem_tab, hV, Option.map_none, Option.isSome_none]
    | some d =>
      rw [hg] at hV
      have hm : (slot, mapD Val.bool d) ∈ obsV o.obs .hca := PyDict.mem_of_get? hV
      have hi : ∀ Y, (h ++ Y)[ad slot]? = _ := heap_old' (t2 _ hm)
      unfold inner at hi
      cases hd : d.get? sat with
      | none =>
        pyexec [l1, l2, l3, l4, hs, e1, hr, hob, hof, htb, mem_tab, get_tab, hV, Option.map_some, Option.isSome_some, hi, mem_inner, hd, Option.isSome_none]
      | some v =>
        pyexec [l1, l2, l3, l4, hs, e1, hr, hob, hof, htb, mem_tab, get_tab, hV, Option.map_some, Option.isSome_some, hi, mem_inner, get_inner, hd]

include hc ho in
theorem phase_cells {d : PyDict Nat Rat} (hd : h[ob]? = some (inner' .flt d)) :
    PreRuns (n + 3) (callFn src (n + 3)) h [lamStmt] phaseIn
      (mSlot a r h.length m o.atr.gnss slot fn ob w) w (cellPhaseR rnd c o.atr.gnss o.obs.hca slot d) := by
  intro loc X hk hr
  have hp := lam_pre hc (n := n) (X := X) hk hr
  unfold cellPhaseR
  cases hl : makeLambdasR rnd c o.atr.gnss slot with
  | error e =>
    rw [hl] at hp
    exact hp
  | ok lam =>
    rw [hl] at hp
    obtain ⟨fl, st, p1, p2, Z, p3, p4, p5⟩ := hp
    refine ⟨fl, st, p1, p2, _, Z, p3, p4, p5, ?_⟩
    intro loc X vs sat hk hr h1 hx
    have hk1 := hk.put n!"sat" (.int sat) rfl
    have hr1 := hr.set n!"sat" (.int sat) rfl
    have hk2 := hk.set n!"sat" (.int sat) rfl
    generalize M.bindKey loc n!"sat" (.int sat) = loc1 at *
    have l1 := hk1 (n!"sat", .int sat) (by simp)
    have l2 := hk1 (n!"obs", .ref ob) (by unfold mSlot; simp)
    have l3 := hk1 (n!"lam", fltTup lam) (by unfold mSlot; simp)
    have l4 := hk1 (n!"values", .ref (h.length + w)) (by unfold mSlot; simp)
    have l5 := hk1 (n!"self", .ref a) (by unfold mSlot mBase; simp)
    have l6 := hk1 (n!"pdata", .ref r) (by unfold mSlot mBase; simp)
    have l7 := hk1 (n!"slot", .str slot) (by unfold mSlot mBase; simp)
    have e1 : ∀ Y, (h ++ Y)[ob]? = _ := heap_old' hd
    unfold inner' inner at e1
    dsimp only at l1 l2 l3 l4 l5 l6 l7 ⊢
    have li := lam_index (lam := lam) h1
    have am := amb_src hc ho (n := n) (X := X) (n' := n + 3) rfl l5 l6 l7 l1
    unfold phaseIn inObs obsSat nanC lamSat appendCell
    cases hg : d.get? sat with
    | none =>
      refine ⟨.cont, ⟨loc1, h ++ X.set w (.list (vs ++ [cellVal .nan]))⟩, ?_, .inr rfl, hk2, hr1, rfl⟩
      pyexec [l1, l2, l4, e1, mem_inner, hg, Option.isSome_none, Bool.not_false, append_getElem, hx, append_set]
      rfl
    | some v =>
      have hk3 := hk2.set n!"amb_ok" (.bool (ambOk c o.obs.hca slot sat)) rfl
      have hr3 := hr1.set n!"amb_ok" (.bool (ambOk c o.obs.hca slot sat)) rfl
      have m1 := (hk1.put n!"amb_ok" (.bool (ambOk c o.obs.hca slot sat)) rfl)
      generalize M.bindKey loc1 n!"amb_ok" (.bool (ambOk c o.obs.hca slot sat)) = loc2 at *
      have q0 := m1 (n!"amb_ok", .bool (ambOk c o.obs.hca slot sat)) (by simp)
      have q1 := m1 (n!"sat", .int sat) (by simp)
      have q2 := m1 (n!"obs", .ref ob) (by unfold mSlot; simp)
      have q3 := m1 (n!"lam", fltTup lam) (by unfold mSlot; simp)
      dsimp only at q0 q1 q2 q3
      cases ha : ambOk c o.obs.hca slot sat with
      | false =>
        rw [ha] at q0
        dsimp only
        rw [if_neg Bool.false_ne_true]
        have hk4 := hk3.put n!"value" (cellVal .nan) rfl
        have hr4 := hr3.set n!"value" (cellVal .nan) rfl
        have z1 := hk4 (n!"value", cellVal .nan) (by simp)
        have z2 := hk4 (n!"values", .ref (h.length + w)) (by unfold mSlot; simp)
        dsimp only at z1 z2
        refine ⟨.next, ⟨M.bindKey loc2 n!"value" (cellVal .nan), h ++ X.set w (.list (vs ++ [cellVal .nan]))⟩, ?_, .inl rfl, (Has.cons.1 hk4).2, hr4, rfl⟩
        simp only [cellVal] at z1 z2
        pyexec [l1, l2, e1, mem_inner, hg, Option.isSome_some, Bool.not_true, am, q0, z1, z2, append_getElem, hx, append_set]
        rfl
      | true =>
        rw [ha] at q0
        dsimp only
        rw [if_pos rfl]
        cases hla : lamAt lam sat with
        | error e =>
          rw [hla] at li
          refine ⟨⟨loc2, h ++ X⟩, ?_⟩
          pyexec [l1, l2, e1, mem_inner, get_inner, hg, Option.isSome_some, Bool.not_true, am, q0, q1, q2, q3, li, resOf, Option.map_some]
        | ok l =>
          rw [hla] at li
          by_cases h0 : l = 0
          · subst h0
            have hz : ∀ p s, binOp .div (.flt p) (.flt 0) s = (.error (.py n!"ZeroDivisionError"), s) := fun p s => by
              show (if (0 : Rat) = 0 then M.throw n!"ZeroDivisionError" else M.pure (.flt (rnd (p / 0))) : M Val) s = _
              rw [if_pos rfl]; rfl
            refine ⟨⟨loc2, h ++ X⟩, ?_⟩
            pyexec [l1, l2, e1, mem_inner, get_inner, hg, Option.isSome_some, Bool.not_true, am, q0, q1, q2, q3, li, resOf, hz, Option.map_some]
            rfl
          · have ed : divideR rnd v l = .ok (rnd (v / l)) := by unfold divideR; rw [if_neg h0]
            simp only [ed, bind, Except.bind, pure, Except.pure]
            have hk4 := hk3.put n!"value" (cellVal (.num (rnd (v / l)))) rfl
            have hr4 := hr3.set n!"value" (cellVal (.num (rnd (v / l)))) rfl
            have z1 := hk4 (n!"value", cellVal (.num (rnd (v / l)))) (by simp)
            have z2 := hk4 (n!"values", .ref (h.length + w)) (by unfold mSlot; simp)
            dsimp only at z1 z2
            refine ⟨.next, ⟨M.bindKey loc2 n!"value" (cellVal (.num (rnd (v / l)))), h ++ X.set w (.list (vs ++ [cellVal (.num (rnd (v / l)))]))⟩, ?_,
              .inl rfl, (Has.cons.1 hk4).2, hr4, rfl⟩
            simp only [cellVal] at z1 z2
            pyexec [l1, l2, e1, mem_inner, get_inner, hg, Option.isSome_some, Bool.not_true, am, q0, q1, q2, q3, li, resOf, div_ff _ _ _ h0, Option.map_some,
              z1, z2, append_getElem, hx, append_set]
            rfl

end

end Refine
end PyCore
end Verif
