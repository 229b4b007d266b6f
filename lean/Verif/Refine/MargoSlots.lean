import Verif.Refine.MargoLeaf
import Verif.Refine.ScFinish

/-!
# printers/margo_printer.py:238-341: the loops over the slots
-/

namespace Verif
namespace PyCore
namespace Refine
open RtcmUtil Margo

open Rounding (rnd)
variable [Rounding]

/-- A cell of a row as a value; the numbers of the semantics have no negative zero. -/
def cellVal : Cell → Val
  | .num x => .flt x
  | .negZero => .flt 0
  | .nan => .str "NaN"

/-- A row as an object. -/
def rowObj (q : Row) : Obj := .list (.int q.1 :: q.2.map cellVal)

/-- The statements do what the model does, with the same exception. -/
def Runs {α : Type} (m : Py α) (run : Except Exc Flow × St) (post : α → Flow → St → Prop) : Prop :=
  match m with
  | .ok x => ∃ fl st, run = (.ok fl, st) ∧ post x fl st
  | .error e => ∃ st, run = (.error (.py (errName e)), st)

/-- The end of a round of a loop. -/
def Goes (fl : Flow) : Prop := fl = .next ∨ fl = .cont

section
variable {n : Nat} {call : CallT} {α σ : Type} {B : List Stmt} {f : σ → α → Py σ} {enc : α → Val} {y : Ident} {P : σ → St → Prop}

/-- A loop `for` over a list. -/
theorem for_runs : ∀ (l : List α), (∀ a ∈ l, ∀ x loc h, P x ⟨loc, h⟩ → Runs (f x a) (execBlock src n call B ⟨M.bindKey loc y (enc a), h⟩) (fun x' fl st => Goes fl ∧ P x' st)) →
    ∀ (x : σ) (st : St), P x st →
      Runs (l.foldlM f x) (forLoop (assign src call (.name y)) (execBlock src n call B) (execBlock src n call []) (l.map enc) st)
        (fun x fl st => fl = .next ∧ P x st) := by
  intro l
  induction l with
  | nil =>
    rintro _ x ⟨loc, h⟩ hP
    refine ⟨.next, ⟨loc, h⟩, ?_, rfl, hP⟩
    pyexec [List.map_nil, forLoop_nil]
  | cons a l ih =>
    rintro hb x ⟨loc, h⟩ hP
    have h1 := hb a List.mem_cons_self x loc h hP
    rw [List.map_cons, forLoop_cons, assign_name, M.setLoc_apply, M.seq_ok, M.bind_apply, List.foldlM_cons]
    cases hf : f x a with
    | error e =>
      rw [hf] at h1
      obtain ⟨st', h1⟩ := h1
      rw [h1]
      exact ⟨st', rfl⟩
    | ok x' =>
      rw [hf] at h1
      obtain ⟨fl, st', h1, h2, h3⟩ := h1
      rw [h1]
      have := ih (fun a ha => hb a (List.mem_cons_of_mem _ ha)) x' st' h3
      rcases h2 with rfl | rfl
      · exact this
      · exact this
end

section
variable {n : Nat} {call : CallT} {α β : Type} {a b : List Stmt} {st : St} {m : Py α} {f : α → Py β} {P : α → St → Prop} {Q : β → Flow → St → Prop}

theorem Runs.bind (h1 : Runs m (execBlock src n call a st) (fun x fl st => fl = .next ∧ P x st))
    (h2 : ∀ x st', P x st' → Runs (f x) (execBlock src n call b st') Q) : Runs (m >>= f) (execBlock src n call (a ++ b) st) Q := by
  rw [execBlock_app]
  cases m with
  | ok x =>
    obtain ⟨fl, st', h, rfl, hp⟩ := h1
    rw [h, M.seq_ok, after_next]
    exact h2 x st' hp
  | error e =>
    obtain ⟨st', h⟩ := h1
    rw [h, M.seq_error]
    exact ⟨st', rfl⟩
end

/-! ## The row -/

section
variable {n : Nat} {call : CallT} {h : Heap}

/-- One round of the loop over the satellites appends the cell of the satellite to the list at `w`. -/
def CellRuns (n : Nat) (call : CallT) (h : Heap) (inner : List Stmt) (K : Fields) (w : Nat) (f : Nat → Py Cell) : Prop :=
  ∀ (loc : Fields) (X : Heap) (vs : List Val) (sat : Nat), Has loc K → Free loc [n!"range"] → 1 ≤ sat → X[w]? = some (.list vs) →
    Runs (f sat) (execBlock src n call inner ⟨M.bindKey loc n!"sat" (.int sat), h ++ X⟩)
      (fun x fl st => Goes fl ∧ Has st.loc K ∧ Free st.loc [n!"range"] ∧ st.heap = h ++ X.set w (.list (vs ++ [cellVal x])))

/-- The head of the loop over the satellites. -/
def satLoop (inner : List Stmt) : Stmt :=
  .for (.name n!"sat") (.call (.name n!"range") [.const (.int 1), .bin .add (.name n!"max_sats") (.const (.int 1))]) inner []

theorem mapM_foldl {α β : Type} (f : α → Py β) (l : List α) (acc : List β) :
    l.foldlM (fun acc a => (f a).bind (fun b => .ok (acc ++ [b]))) acc = (l.mapM f).bind (fun bs => .ok (acc ++ bs)) := by
  induction l generalizing acc with
  | nil =>
    show Except.ok acc = Except.ok (acc ++ [])
    rw [List.append_nil]
  | cons a l ih =>
    rw [List.foldlM_cons, List.mapM_cons]
    cases f a with
    | error e => rfl
    | ok b =>
      show l.foldlM _ (acc ++ [b]) = _
      rw [ih]
      cases l.mapM f with
      | error e => rfl
      | ok bs =>
        show Except.ok (acc ++ [b] ++ bs) = Except.ok (acc ++ b :: bs)
        rw [List.append_assoc]
        rfl

theorem sats_vals (m : Nat) : rangeVals 1 ((m : Int) + 1) = ((List.range m).map (· + 1)).map (fun s : Nat => Val.int s) := by
  unfold rangeVals
  rw [show ((m : Int) + 1 - 1).toNat = m by omega, List.map_map]
  refine List.map_congr_left (fun i _ => ?_)
  show Val.int _ = Val.int _
  push_cast
  rw [Int.add_comm]

theorem columns_map (m : Nat) (f : Nat → Py Cell) : columns m f = ((List.range m).map (· + 1)).mapM f := by
  unfold columns
  generalize List.range m = l
  induction l with
  | nil => rfl
  | cons a l ih => rw [List.map_cons, List.mapM_cons, List.mapM_cons, ih]

theorem sat_loop {inner : List Stmt} {K : Fields} {w m : Nat} {f : Nat → Py Cell} (hf : CellRuns n call h inner K w f)
    {loc : Fields} {X : Heap} {vs : List Val} (hk : Has loc K) (hr : Free loc [n!"range"]) (hm : loc.lookup n!"max_sats" = some (.int m))
    (hx : X[w]? = some (.list vs)) :
    Runs (columns m f) (execBlock src n call [satLoop inner] ⟨loc, h ++ X⟩)
      (fun cs fl st => fl = .next ∧ Has st.loc K ∧ Free st.loc [n!"range"] ∧ st.heap = h ++ X.set w (.list (vs ++ cs.map cellVal))) := by
  have hw : w < X.length := (List.getElem?_eq_some_iff.1 hx).1
  have hr' : loc.lookup n!"range" = none := hr _ List.mem_cons_self
  have hl := for_runs (n := n) (call := call) (B := inner) (y := n!"sat") (enc := fun s : Nat => Val.int s)
    (f := fun acc a => (f a).bind (fun b => .ok (acc ++ [b])))
    (P := fun (acc : List Cell) st => Has st.loc K ∧ Free st.loc [n!"range"] ∧ st.heap = h ++ X.set w (.list (vs ++ acc.map cellVal)))
    ((List.range m).map (· + 1)) (by
      rintro a ha acc loc' H ⟨h1, h2, rfl⟩
      have ha' : 1 ≤ a := by
        obtain ⟨i, _, rfl⟩ := List.mem_map.1 ha
        omega
      have := hf loc' (X.set w (.list (vs ++ acc.map cellVal))) (vs ++ acc.map cellVal) a h1 h2 ha' (by
        rw [List.getElem?_set_self hw])
      cases hfa : f a with
      | error e => rw [hfa] at this; exact this
      | ok b =>
        rw [hfa] at this
        obtain ⟨fl, st, e1, e2, e3, e4, e5⟩ := this
        refine ⟨fl, st, e1, e2, e3, e4, ?_⟩
        rw [e5, List.set_set, List.append_assoc, List.map_append]
        rfl) [] ⟨loc, h ++ X⟩ ⟨hk, hr, by
          show h ++ X = h ++ X.set w (.list (vs ++ []))
          rw [List.append_nil]
          congr 1
          rw [List.getElem?_eq_some_iff] at hx
          obtain ⟨hx1, hx2⟩ := hx
          rw [← hx2, List.set_getElem_self]⟩
  rw [mapM_foldl, ← columns_map] at hl
  have ex : execBlock src n call [satLoop inner] ⟨loc, h ++ X⟩ =
      M.seq (forLoop (assign src call (.name n!"sat")) (execBlock src n call inner) (execBlock src n call [])
        (((List.range m).map (· + 1)).map (fun s : Nat => Val.int s)) ⟨loc, h ++ X⟩) (after (execBlock src n call [])) := by
    rw [← sats_vals]
    unfold satLoop
    pyexec [hr', hm]
  rw [ex]
  cases hc : columns m f with
  | error e =>
    rw [hc] at hl
    obtain ⟨st, hl⟩ := hl
    rw [hl]
    exact ⟨st, rfl⟩
  | ok cs =>
    rw [hc] at hl
    obtain ⟨fl, ⟨l', h'⟩, hl, rfl, e3, e4, e5⟩ := hl
    rw [hl]
    refine ⟨.next, ⟨l', h'⟩, ?_, rfl, e3, e4, ?_⟩
    · pyexec []
    · rw [e5]; rfl

end

/-! ## The dictionary of the rows -/

/-- The dictionary `d` holds the rows `b`; the lists are in `Y`, the objects behind the first `R + 2`. -/
def BufIn (R : Nat) (Y : Heap) (d : List (Val × Val)) (b : PyDict Txt Row) : Prop :=
  List.Forall₂ (fun (p : Val × Val) (q : Txt × Row) => p.1 = .str (String.ofList q.1) ∧ ∃ w, p.2 = .ref (R + 2 + w) ∧ Y[w]? = some (rowObj q.2)) d b

theorem BufIn.app {R : Nat} {Y : Heap} {d : List (Val × Val)} {b : PyDict Txt Row} (hb : BufIn R Y d b) (Z : Heap) : BufIn R (Y ++ Z) d b := by
  refine List.Forall₂.imp ?_ hb
  rintro p q ⟨h1, w, h2, h3⟩
  exact ⟨h1, w, h2, heap_old' h3 Z⟩

theorem keyEq_txt (a b : Txt) : keyEq (.str (String.ofList a)) (.str (String.ofList b)) = (a == b) := by
  show ((pyEq (.str _) (.str _)).getD false) = _
  rw [pyEq_str, Option.getD_some]
  by_cases h : a = b
  · subst h; rw [beq_self_eq_true, beq_self_eq_true]
  · rw [beq_eq_false_iff_ne.2 h, beq_eq_false_iff_ne]
    exact fun e => h (by simpa using congrArg String.toList e)

theorem BufIn.set {R : Nat} {Y : Heap} {k : Txt} {q : Row} {w : Nat} (hw : Y[w]? = some (rowObj q)) :
    ∀ {d : List (Val × Val)} {b : PyDict Txt Row}, BufIn R Y d b → b.keys.Nodup →
      BufIn R Y (dictSet d (.str (String.ofList k)) (.ref (R + 2 + w))) (b.set k q) := by
  intro d b hb
  induction hb with
  | nil =>
    intro _
    exact .cons ⟨rfl, w, rfl, hw⟩ .nil
  | @cons p r d b h1 h2 ih =>
    intro hn
    obtain ⟨p1, p2⟩ := p
    obtain ⟨r1, r2⟩ := r
    obtain ⟨e1, h1⟩ := h1
    dsimp only at e1
    subst e1
    have hn' : r1 ∉ PyDict.keys b ∧ (PyDict.keys b).Nodup := List.nodup_cons.1 hn
    unfold dictSet
    rw [keyEq_txt]
    by_cases hk : r1 = k
    · subst hk
      rw [beq_self_eq_true, if_pos rfl]
      have e : PyDict.set ((r1, r2) :: b) r1 q = (r1, q) :: b := by
        unfold PyDict.set
        have hm : PyDict.mem ((r1, r2) :: b) r1 = true := by
          rw [PyDict.mem_eq]; exact (PyDict.get?_isSome_iff _ _).2 List.mem_cons_self
        rw [if_pos hm, List.map_cons, beq_self_eq_true, if_pos rfl]
        congr 1
        conv_rhs => rw [← List.map_id b]
        refine List.map_congr_left (fun x hx => ?_)
        have : (x.1 == r1) = false := by
          rw [beq_eq_false_iff_ne]
          rintro rfl
          exact hn'.1 (List.mem_map_of_mem hx)
        rw [this, if_neg Bool.false_ne_true]
        rfl
      rw [e]
      exact .cons ⟨rfl, w, rfl, hw⟩ h2
    · have hk1 : (r1 == k) = false := beq_eq_false_iff_ne.2 hk
      rw [hk1, if_neg Bool.false_ne_true]
      have e : PyDict.set ((r1, r2) :: b) k q = (r1, r2) :: PyDict.set b k q := by
        unfold PyDict.set
        have hm : PyDict.mem ((r1, r2) :: b) k = PyDict.mem b k := by
          rw [Bool.eq_iff_iff, PyDict.mem_eq, PyDict.mem_eq, PyDict.get?_isSome_iff, PyDict.get?_isSome_iff]
          show k ∈ r1 :: PyDict.keys b ↔ _
          rw [List.mem_cons]
          exact ⟨fun h => h.resolve_left (fun e => hk e.symm), .inr⟩
        rw [hm]
        by_cases hm' : PyDict.mem b k = true
        · rw [if_pos hm', if_pos hm', List.map_cons]
          dsimp only
          rw [hk1, if_neg Bool.false_ne_true]
        · rw [if_neg hm', if_neg hm']
          rfl
      rw [e]
      exact .cons ⟨rfl, h1⟩ (ih hn'.2)

theorem nodup_set (b : PyDict Txt Row) (k : Txt) (q : Row) (hn : b.keys.Nodup) : (b.set k q).keys.Nodup := by
  unfold PyDict.set
  by_cases hm : b.mem k = true
  · rw [if_pos hm]
    have : PyDict.keys (List.map (fun p : Txt × Row => if p.1 == k then (p.1, q) else p) b) = b.keys := by
      unfold PyDict.keys
      rw [List.map_map]
      refine List.map_congr_left (fun x _ => ?_)
      dsimp only [Function.comp]
      by_cases hx : (x.1 == k) = true
      · rw [if_pos hx]
      · rw [if_neg hx]
    rw [this]
    exact hn
  · rw [if_neg hm]
    have hk : k ∉ b.keys := fun hk => hm (by rw [PyDict.mem_eq]; exact (PyDict.get?_isSome_iff _ _).2 hk)
    unfold PyDict.keys at *
    rw [List.map_append]
    refine List.nodup_append.2 ⟨hn, List.nodup_singleton _, ?_⟩
    rintro x hx y hy rfl
    rw [List.mem_singleton.1 hy] at hx
    exact hk hx

/-! ## The slots -/

/-- The values of the local variables in the loops. -/
def mBase (a r R m : Nat) (gnss : String) : Fields :=
  [(n!"self", .ref a), (n!"pdata", .ref r), (n!"rv", .ref R), (n!"gnss", .str gnss), (n!"max_sats", .int m), (n!"pattern", .ref (R + 1))]

/-- The values of the local variables in the loop over the satellites. -/
def mSlot (a r R m : Nat) (gnss slot : String) (fn : Txt) (ob w : Nat) : Fields :=
  (n!"values", .ref (R + w)) :: (n!"fn", .str (String.ofList fn)) :: (n!"obs", .ref ob) :: (n!"slot", .str slot) :: mBase a r R m gnss

/-- The observables of one slot as an object. -/
def inner' {α : Type} (enc : α → Val) (d : PyDict Nat α) : Obj := inner (mapD enc d)

/-- The body of the loop over the slots. -/
def slotBody (tmp : Ident) (param : String) (pre inner : List Stmt) : List Stmt :=
  [.unpack [.name n!"slot", .name n!"obs"] (.name tmp),
    .assign (.name n!"fn") (.call (.attr (.name n!"self") n!"make_obs_file_name") [.name n!"gnss", .const (.str param), .name n!"slot", .attr (.attr (.name n!"pdata") n!"atr") n!"subset"]),
    .ite (.cmp .eq (.name n!"fn") (.const (.str ""))) [.cont] [],
    .assign (.name n!"values") (.slice (.name n!"pattern") (.const .none) (.const .none))] ++ (pre ++ ([satLoop inner] ++
  [.expr (.call (.attr (.name n!"rv") n!"update") [.dict [.name n!"fn"] [.name n!"values"]])]))

/-- What is before the loop over the satellites prepares the cells. -/
def PreRuns (n : Nat) (call : CallT) (h : Heap) (pre inner : List Stmt) (K : Fields) (w : Nat) (m : Py (Nat → Py Cell)) : Prop :=
  ∀ (loc : Fields) (X : Heap), Has loc K → Free loc [n!"range"] →
    Runs m (execBlock src n call pre ⟨loc, h ++ X⟩)
      (fun f fl st => fl = .next ∧ ∃ K' Z, st.heap = h ++ (X ++ Z) ∧ Has st.loc (K' ++ K) ∧ Free st.loc [n!"range"] ∧
        CellRuns n call h inner (K' ++ K) w f)

section
variable {n : Nat} {h : Heap} {a k g : Nat} {c : Controls} (hc : CtrlAt h a k g c) {r at' : Nat} {o : Msm.ObservablesMSM} (ho : ObsAt h r at' o)

/-- The state between the rounds of the loop over the slots. -/
def SlotInv (h : Heap) (a r m : Nat) (gnss : String) (time : Int) (b : PyDict Txt Row) (st : St) : Prop :=
  Has st.loc (mBase a r h.length m gnss) ∧ Free st.loc [n!"range"] ∧ b.keys.Nodup ∧
    ∃ d Y, st.heap = h ++ .dict d :: .list [.int time] :: Y ∧ BufIn h.length Y d b

theorem Has.appr {loc : Fields} {K' K : Fields} (hk : Has loc (K' ++ K)) : Has loc K := fun p hp => hk p (List.mem_append_right _ hp)

include hc ho

theorem slot_round {tmp : Ident} {param : String} {pre inner : List Stmt} {m : Nat} {time : Int} {slot : String} {ob : Nat}
    {cell : Py (Nat → Py Cell)} {b : PyDict Txt Row} {loc : Fields} {H : Heap}
    (htmp : ((mBase a r h.length m o.atr.gnss).map (·.1)).contains tmp = false) (ht2 : [n!"range"].contains tmp = false)
    (hp : ∀ fn w, PreRuns (n + 3) (callFn src (n + 3)) h pre inner (mSlot a r h.length m o.atr.gnss slot fn ob w) w cell)
    (hi : SlotInv h a r m o.atr.gnss time b ⟨loc, H⟩) :
    Runs (do
        let fn := makeObsFileName o.atr.gnss param slot o.atr.subset
        if fn = [] then pure b
        else
          let f ← cell
          let values ← columns m f
          pure (b.set fn (time, values)))
      (execBlock src (n + 3) (callFn src (n + 3)) (slotBody tmp param pre inner) ⟨M.bindKey loc tmp (.tup [.str slot, .ref ob]), H⟩)
      (fun b fl st => Goes fl ∧ SlotInv h a r m o.atr.gnss time b st) := by
  obtain ⟨h1, h2, h3, d, Y, hH, h4⟩ := hi
  dsimp only at h1 h2 hH
  subst hH
  have hr : ∀ Y, (h ++ Y)[r]? = _ := heap_old' ho.rv
  have ha : ∀ Y, (h ++ Y)[at']? = _ := heap_old' ho.atr
  have hs : ∀ Y, (h ++ Y)[a]? = _ := heap_old' hc.self
  have g0 := h1.set tmp (.tup [.str slot, .ref ob]) htmp
  have t0 : (M.bindKey loc tmp (.tup [.str slot, .ref ob])).lookup tmp = some (.tup [.str slot, .ref ob]) := by
    rw [lookup_bindKey, beq_self_eq_true]; rfl
  have f0 := h2.set tmp (.tup [.str slot, .ref ob]) ht2
  generalize M.bindKey loc tmp (.tup [.str slot, .ref ob]) = loc0 at *
  have g1 := (g0.put n!"slot" (.str slot) rfl).put n!"obs" (.ref ob) rfl
  have f1 := (f0.set n!"slot" (.str slot) rfl).set n!"obs" (.ref ob) rfl
  have e1 := fun Y => obs_file_name_src (n + 1) o.atr.gnss param slot o.atr.subset (h ++ Y)
  generalize hfn : makeObsFileName o.atr.gnss param slot o.atr.subset = fn at *
  have g2 := g1.put n!"fn" (.str (String.ofList fn)) rfl
  have f2 := f1.set n!"fn" (.str (String.ofList fn)) rfl
  have l1 := g1 (n!"self", .ref a) (by unfold mBase; simp)
  have l2 := g1 (n!"gnss", .str o.atr.gnss) (by unfold mBase; simp)
  have l3 := g1 (n!"slot", .str slot) (by unfold mBase; simp)
  have l4 := g1 (n!"pdata", .ref r) (by unfold mBase; simp)
  have l5 := g2 (n!"fn", .str (String.ofList fn)) (by unfold mBase; simp)
  have l6 := g2 (n!"pattern", .ref (h.length + 1)) (by unfold mBase; simp)
  dsimp only at l1 l2 l3 l4 l5 l6 ⊢
  unfold slotBody
  rw [execBlock_app]
  by_cases hf : fn = []
  · rw [if_pos hf]
    have hb : (String.ofList fn == "") = true := by subst hf; rfl
    refine ⟨.cont, ⟨M.bindKey (M.bindKey (M.bindKey loc0 n!"slot" (.str slot)) n!"obs" (.ref ob)) n!"fn" (.str (String.ofList fn)),
      h ++ Obj.dict d :: Obj.list [Val.int time] :: Y⟩, ?_, .inr rfl, ?_⟩
    rotate_left
    · exact ⟨fun p hp => g2 p (List.mem_cons_of_mem _ (List.mem_cons_of_mem _ (List.mem_cons_of_mem _ hp))), f2, h3, d, Y, rfl, h4⟩
    · pyexec [t0, l1, l2, l3, l4, l5, l6, hs, hr, ha, e1, hb, obsF, atrF]
  · rw [if_neg hf]
    have hb : (String.ofList fn == "") = false := by
      rw [beq_eq_false_iff_ne]
      exact fun e => hf (by simpa using congrArg String.toList e)
    have g3 := g2.put n!"values" (.ref (h.length + (Y.length + 1 + 1))) rfl
    have f3 := f2.set n!"values" (.ref (h.length + (Y.length + 1 + 1))) rfl
    have ex : execBlock src (n + 3) (callFn src (n + 3)) [.unpack [.name n!"slot", .name n!"obs"] (.name tmp),
        .assign (.name n!"fn") (.call (.attr (.name n!"self") n!"make_obs_file_name") [.name n!"gnss", .const (.str param), .name n!"slot", .attr (.attr (.name n!"pdata") n!"atr") n!"subset"]),
        .ite (.cmp .eq (.name n!"fn") (.const (.str ""))) [.cont] [],
        .assign (.name n!"values") (.slice (.name n!"pattern") (.const .none) (.const .none))] ⟨loc0, h ++ Obj.dict d :: Obj.list [Val.int time] :: Y⟩ =
        (.ok .next, ⟨M.bindKey (M.bindKey (M.bindKey (M.bindKey loc0 n!"slot" (.str slot)) n!"obs" (.ref ob)) n!"fn" (.str (String.ofList fn)))
          n!"values" (.ref (h.length + (Y.length + 1 + 1))), h ++ (Obj.dict d :: Obj.list [Val.int time] :: (Y ++ [.list [.int time]]))⟩) := by
      pyexec [t0, l1, l2, l3, l4, l5, l6, hs, hr, ha, e1, hb, obsF, atrF, append_getElem, List.getElem?_cons_succ, List.getElem?_cons_zero, List.append_assoc,
        List.cons_append]
    rw [ex, M.seq_ok, after_next]
    generalize M.bindKey (M.bindKey (M.bindKey (M.bindKey loc0 n!"slot" (.str slot)) n!"obs" (.ref ob)) n!"fn" (.str (String.ofList fn)))
          n!"values" (.ref (h.length + (Y.length + 1 + 1))) = loc3 at *
    refine Runs.bind (P := fun f st => ∃ K' Z, st.heap = h ++ ((Obj.dict d :: Obj.list [Val.int time] :: (Y ++ [.list [.int time]])) ++ Z) ∧
      Has st.loc (K' ++ mSlot a r h.length m o.atr.gnss slot fn ob (Y.length + 1 + 1)) ∧ Free st.loc [n!"range"] ∧
        CellRuns (n + 3) (callFn src (n + 3)) h inner (K' ++ mSlot a r h.length m o.atr.gnss slot fn ob (Y.length + 1 + 1)) (Y.length + 1 + 1) f)
      (hp fn (Y.length + 1 + 1) loc3 _ g3 f3) ?_
    rintro f ⟨loc4, H4⟩ ⟨K', Z, hH, g4, f4, hcr⟩
    dsimp only at hH g4 f4
    subst hH
    have l7 := g4.appr (n!"max_sats", .int m) (by unfold mSlot mBase; simp)
    have hsl := sat_loop (X := (Obj.dict d :: Obj.list [Val.int time] :: (Y ++ [.list [.int time]])) ++ Z) (vs := [.int time]) hcr g4 f4 l7 (by
      show (Y ++ [Obj.list [.int time]] ++ Z)[Y.length]? = _
      rw [List.append_assoc, List.getElem?_append_right (Nat.le_refl _), Nat.sub_self]
      rfl)
    refine Runs.bind (P := fun cs st => Has st.loc (mSlot a r h.length m o.atr.gnss slot fn ob (Y.length + 1 + 1)) ∧ Free st.loc [n!"range"] ∧
      st.heap = h ++ (Obj.dict d :: Obj.list [Val.int time] :: (Y ++ (rowObj (time, cs) :: Z)))) ?_ ?_
    · cases hcol : columns m f with
      | error e => rw [hcol] at hsl; exact hsl
      | ok cs =>
        rw [hcol] at hsl
        obtain ⟨fl, st, w1, w2, w3, w4, w5⟩ := hsl
        refine ⟨fl, st, w1, w2, w3.appr, w4, ?_⟩
        rw [w5]
        show h ++ (Obj.dict d :: Obj.list [Val.int time] :: (Y ++ [Obj.list [.int time]] ++ Z).set Y.length _) = _
        rw [List.append_assoc, List.set_append_right _ _ (Nat.le_refl _), Nat.sub_self]
        rfl
    · rintro cs ⟨loc5, H5⟩ ⟨g5, f5, hH⟩
      dsimp only at hH g5 f5
      subst hH
      have l8 := g5 (n!"fn", .str (String.ofList fn)) (by unfold mSlot mBase; simp)
      have l9 := g5 (n!"values", .ref (h.length + (Y.length + 1 + 1))) (by unfold mSlot mBase; simp)
      have l10 := g5 (n!"rv", .ref h.length) (by unfold mSlot mBase; simp)
      dsimp only at l8 l9 l10
      refine ⟨.next, ⟨loc5, h ++ (Obj.dict (dictSet d (.str (String.ofList fn)) (.ref (h.length + (Y.length + 1 + 1)))) :: Obj.list [Val.int time] ::
        (Y ++ (rowObj (time, cs) :: Z) ++ [.dict [(.str (String.ofList fn), .ref (h.length + (Y.length + 1 + 1)))]]))⟩, ?_, .inl rfl, ?_⟩
      · generalize Y ++ (rowObj (time, cs) :: Z) = W
        pyexec [l8, l9, l10, append_getElem0', append_getElem, append_set0', List.getElem?_cons_succ, List.getElem?_cons_zero, List.append_assoc,
          List.cons_append]
        rfl
      · refine ⟨fun p hp => g5 p (by unfold mSlot; simp [hp]), f5, nodup_set _ _ _ h3, _, _, rfl, ?_⟩
        rw [show h.length + (Y.length + 1 + 1) = h.length + 2 + Y.length by omega]
        rw [List.append_assoc]
        refine BufIn.set ?_ (h4.app _) h3
        rw [List.getElem?_append_right (Nat.le_refl _), Nat.sub_self]
        rfl

omit hc ho in
theorem obsF_pos (t : Tab) : (obsF (r + 1)).lookup t.id = some (.ref (r + t.pos)) := by cases t <;> rfl

theorem mslot_loop {tmp : Ident} {param : String} {pre inner : List Stmt} {m : Nat} {time : Int} {α : Type} {enc : α → Val} {t : Tab}
    {tab : PyDict String (PyDict Nat α)} {cell : String → PyDict Nat α → Py (Nat → Py Cell)} {b : PyDict Txt Row} {st : St}
    (htab : obsV o.obs t = mapV enc tab)
    (htmp : ((mBase a r h.length m o.atr.gnss).map (·.1)).contains tmp = false) (ht2 : [n!"range"].contains tmp = false)
    (hp : ∀ slot d ob fn w, h[ob]? = some (inner' enc d) →
      PreRuns (n + 3) (callFn src (n + 3)) h pre inner (mSlot a r h.length m o.atr.gnss slot fn ob w) w (cell slot d))
    (hi : SlotInv h a r m o.atr.gnss time b st) :
    Runs (slotLoop o.atr.gnss param o.atr.subset time m cell b tab)
      (execBlock src (n + 3) (callFn src (n + 3))
        [.for (.name tmp) (.call (.attr (.attr (.attr (.name n!"pdata") n!"obs") t.id) n!"items") []) (slotBody tmp param pre inner) []] st)
      (fun b fl st => fl = .next ∧ SlotInv h a r m o.atr.gnss time b st) := by
  obtain ⟨ad, t1, t2⟩ := ho.tab t
  rw [htab] at t1 t2
  have hl := for_runs (n := n + 3) (call := callFn src (n + 3)) (B := slotBody tmp param pre inner) (y := tmp)
    (enc := fun p : String × PyDict Nat α => Val.tup [.str p.1, .ref (ad p.1)])
    (f := fun rv p => (do
      let fn := makeObsFileName o.atr.gnss param p.1 o.atr.subset
      if fn = [] then pure rv
      else
        let f ← cell p.1 p.2
        let values ← columns m f
        pure (rv.set fn (time, values)) : Py (PyDict Txt Row)))
    (P := SlotInv h a r m o.atr.gnss time) tab (by
      intro p hpm x loc H hx
      have := t2 (p.1, mapD enc p.2) (List.mem_map_of_mem hpm)
      exact slot_round hc ho htmp ht2 (fun fn w => hp p.1 p.2 (ad p.1) fn w this) hx) b st hi
  obtain ⟨loc, H⟩ := st
  obtain ⟨h1, h2, h3, d, Y, hH, h4⟩ := hi
  dsimp only at hH h1 h2
  subst hH
  have hr : ∀ Y, (h ++ Y)[r]? = _ := heap_old' ho.rv
  have hob : ∀ Y, (h ++ Y)[r + 1]? = _ := heap_old' ho.obs
  have htb : ∀ Y, (h ++ Y)[r + t.pos]? = _ := heap_old' t1
  have l1 := h1 (n!"pdata", .ref r) (by unfold mBase; simp)
  dsimp only at l1
  have e : (encD Val.str (fun s _ => Val.ref (ad s)) (mapV enc tab)).map (fun p => Val.tup [p.1, p.2]) =
      tab.map (fun p => Val.tup [.str p.1, .ref (ad p.1)]) := by
    unfold encD mapV mapD
    rw [List.map_map, List.map_map]
    rfl
  have ex : execBlock src (n + 3) (callFn src (n + 3))
        [.for (.name tmp) (.call (.attr (.attr (.attr (.name n!"pdata") n!"obs") t.id) n!"items") []) (slotBody tmp param pre inner) []]
        ⟨loc, h ++ Obj.dict d :: Obj.list [Val.int time] :: Y⟩ =
      M.seq (forLoop (assign src (callFn src (n + 3)) (.name tmp)) (execBlock src (n + 3) (callFn src (n + 3)) (slotBody tmp param pre inner))
        (execBlock src (n + 3) (callFn src (n + 3)) []) (tab.map (fun p => Val.tup [.str p.1, .ref (ad p.1)]))
        ⟨loc, h ++ Obj.dict d :: Obj.list [Val.int time] :: Y⟩) (after (execBlock src (n + 3) (callFn src (n + 3)) [])) := by
    pyexec [l1, hr, hob, htb, obsF_pos, e]
  rw [ex]
  change Runs (slotLoop o.atr.gnss param o.atr.subset time m cell b tab) _ _ at hl
  cases hm : slotLoop o.atr.gnss param o.atr.subset time m cell b tab with
  | error er =>
    rw [hm] at hl
    obtain ⟨st, hl⟩ := hl
    rw [hl]
    exact ⟨st, rfl⟩
  | ok x =>
    rw [hm] at hl
    obtain ⟨fl, ⟨l', h'⟩, hl, rfl, hx⟩ := hl
    rw [hl]
    refine ⟨.next, ⟨l', h'⟩, ?_, rfl, hx⟩
    pyexec []
end

end Refine
end PyCore
end Verif
