import Verif.Refine.RtcmUtil
import Verif.PyCore.RulesDict
import Mathlib.Tactic.NormNum
import Verif.Model.MargoDouble

/-!
# printers/margo_printer.py: the functions that `ObservablesMSMtoPrintBuffer` uses
-/

namespace Verif
namespace PyCore
namespace Refine
open RtcmUtil Margo

open Rounding (rnd)
variable [Rounding]

theorem ofile_src : staticObj src n!"MargoCore" n!"_MargoCore__OFILE_LT1" = some (.dict (ofileLt1.map (fun p => (.str p.1, .str p.2)))) := by rfl
theorem maxSats_src : staticObj src n!"MargoCore" n!"_MargoCore__MAX_SATS" = some (.dict (maxSatsTab.map (fun p => (.str p.1, .int (p.2 : Nat))))) := by rfl

/-- `d.keys()` of a dictionary in a class body. -/
theorem stat_keys {P : Prog} {c a : Ident} {d : List (Val × Val)} (ho : staticObj P c a = some (.dict d)) (s : St) :
    builtinMeth P (.stat c a) n!"keys" [] s = (.ok (.tup (d.map (·.1))), s) := by
  show M.seq (M.ofOption (staticObj P c a) s) _ = _
  rw [ho]
  rfl

theorem memList_str (x : String) (l : List String) (s : St) : memList (.str x) (l.map .str) s = (.ok (decide (x ∈ l)), s) := by
  induction l with
  | nil => rfl
  | cons y l ih =>
    simp only [List.map_cons, memList, pyEq_str]
    by_cases h : y = x
    · subst h
      simp only [beq_self_eq_true, List.mem_cons, true_or, decide_true]; rfl
    · have h1 : (y == x) = false := by simpa using h
      have h2 : (x == y) = false := by simpa using fun e => h e.symm
      have h3 : x ≠ y := fun e => h e.symm
      simp only [h1, h2, List.mem_cons, h3, false_or]
      exact ih

/-- The systems that the printer knows. -/
def margoGnss : List String := ["G", "R", "E", "S", "Q", "B", "I"]

theorem gnsstuple_src (n : Nat) (h : Heap) :
    callFn src (n + 1) n!"MargoCore.GNSSTUPLE" [.cls n!"MargoCore"] h = (.ok (.tup (margoGnss.map .str)), h) := by
  pycall Look.fn_MargoCore_GNSSTUPLE Src.fn_MargoCore_GNSSTUPLE
  pyexec [getAttr_cls, stat_keys ofile_src]
  rfl

theorem mem_ofile (g : String) : ofileLt1.mem g = decide (g ∈ margoGnss) := by
  unfold PyDict.mem
  by_cases hg : g ∈ margoGnss
  · rw [decide_eq_true hg]
    simp only [margoGnss, List.mem_cons, List.not_mem_nil, or_false] at hg
    rcases hg with rfl | rfl | rfl | rfl | rfl | rfl | rfl <;> rfl
  · rw [decide_eq_false hg]
    have : ofileLt1.get? g = none := lookup_none hg
    simpa [PyDict.get?] using this

@[pyrun] theorem cmpOp_isNot_int (P : Prog) (i : Int) (s : St) : cmpOp P .isNot (.int i) .none s = (.ok (.bool true), s) := rfl

theorem max_sats_src (n : Nat) (gnss : String) (h : Heap) :
    callFn src (n + 1) n!"MargoCore.MAX_SATS" [.cls n!"MargoCore", .str gnss] h = ofModel (fun k : Nat => .int k) h (maxSats gnss) := by
  pycall Look.fn_MargoCore_MAX_SATS Src.fn_MargoCore_MAX_SATS
  have e := dictGet_str (fun k : Nat => Val.int k) maxSatsTab gnss
  unfold maxSats getAssert
  cases hg : maxSatsTab.get? gnss with
  | none =>
    pyexec [getAttr_cls, stat_get maxSats_src, e, hg, Option.map_none, Option.getD_none, errName, Bool.not_false]

  | some k =>
    pyexec [getAttr_cls, stat_get maxSats_src, e, hg, Option.map_some, Option.getD_some, Bool.not_true]

theorem obs_file_name_src (n : Nat) (gnss param sgn postf : String) (h : Heap) :
    callFn src (n + 2) n!"MargoCore.make_obs_file_name" [.cls n!"MargoCore", .str gnss, .str param, .str sgn, .str postf] h =
      (.ok (.str (String.ofList (makeObsFileName gnss param sgn postf))), h) := by
  pycall Look.fn_MargoCore_make_obs_file_name Src.fn_MargoCore_make_obs_file_name
  unfold makeObsFileName
  rw [mem_ofile]
  have m1 := memList_str gnss margoGnss
  by_cases hg : gnss ∈ margoGnss
  · have g1 := decide_eq_true hg
    rw [g1]
    by_cases h2 : sgn.toList.length = 2
    · have b2 : ((sgn.toList.length : Int) == 2) = true := by rw [h2]; rfl
      by_cases h1 : param.toList.length = 1
      · have b1 : ((param.toList.length : Int) == 1) = true := by rw [h1]; rfl
        rw [if_neg (by decide), if_neg (by omega)]
        by_cases h5 : 5 < postf.toList.length
        · have b5 : decide ((5 : Int) < (postf.toList.length : Int)) = true := decide_eq_true (by omega)
          have sl : ∀ s, sliceVal (.str postf) (.int 0) (.int 5) s = (.ok (.str (String.ofList (postf.toList.take 5))), s) := fun s => slice_text s postf 5
          pyexec [getAttr_cls, gnsstuple_src, m1, g1, b1, b2, b5, Bool.not_true, sl]
          have e : gnss ++ param ++ sgn ++ "_" ++ String.ofList (postf.toList.take 5) ++ ".obs" =
              String.ofList (gnss.toList ++ param.toList ++ sgn.toList ++ ['_'] ++ postf.toList.take 5 ++ ['.', 'o', 'b', 's']) := by
            apply String.toList_inj.1
            simp only [String.toList_append, String.toList_ofList]
            rfl
          rw [e]
        · have b5 : decide ((5 : Int) < (postf.toList.length : Int)) = false := decide_eq_false (by omega)
          pyexec [getAttr_cls, gnsstuple_src, m1, g1, b1, b2, b5, Bool.not_true]
          have e : gnss ++ param ++ sgn ++ "_" ++ postf ++ ".obs" =
              String.ofList (gnss.toList ++ param.toList ++ sgn.toList ++ ['_'] ++ postf.toList.take 5 ++ ['.', 'o', 'b', 's']) := by
            apply String.toList_inj.1
            rw [List.take_of_length_le (by omega)]
            simp only [String.toList_append, String.toList_ofList]
            rfl
          rw [e]
      · have b1 : ((param.toList.length : Int) == 1) = false := by rw [beq_eq_false_iff_ne]; omega
        rw [if_neg (by decide), if_pos (by omega)]
        pyexec [getAttr_cls, gnsstuple_src, m1, g1, b1, b2, Bool.not_true, Bool.not_false]
    · have b2 : ((sgn.toList.length : Int) == 2) = false := by rw [beq_eq_false_iff_ne]; omega
      rw [if_neg (by decide), if_pos (by omega)]
      pyexec [getAttr_cls, gnsstuple_src, m1, g1, b2, Bool.not_true, Bool.not_false]
  · have g1 := decide_eq_false hg
    rw [if_pos (by rw [g1]; rfl)]
    pyexec [getAttr_cls, gnsstuple_src, m1, g1, Bool.not_false]

theorem conv_gps_src (n : Nat) (time day shift : Int) (gnss : String) (h : Heap) :
    callFn src (n + 1) n!"MargoCore.conv_to_gps_time" [.cls n!"MargoCore", .int time, .int day, .int shift, .str gnss] h =
      (.ok (.int (convToGpsTime time day shift gnss)), h) := by
  pycall Look.fn_MargoCore_conv_to_gps_time Src.fn_MargoCore_conv_to_gps_time
  unfold convToGpsTime
  by_cases hB : gnss = "B"
  · subst hB
    by_cases ht : 604800000 ≤ time + 14000
    · have b1 := decide_eq_true ht
      rw [if_pos rfl]
      dsimp only
      rw [if_pos ht]
      pyexec [b1]
    · have b1 := decide_eq_false ht
      rw [if_pos rfl]
      dsimp only
      rw [if_neg ht]
      pyexec [b1]
  · have b0 : (gnss == "B") = false := by simpa using hB
    rw [if_neg hB]
    by_cases hR : gnss = "R"
    · subst hR
      by_cases ht : time + day * 86400000 - (10800 - shift) * 1000 < 0
      · have b1 := decide_eq_true ht
        rw [if_pos rfl]
        dsimp only
        rw [if_pos ht]
        pyexec [b1]
      · have b1 := decide_eq_false ht
        rw [if_pos rfl]
        dsimp only
        rw [if_neg ht]
        pyexec [b1]
    · have b2 : (gnss == "R") = false := by simpa using hR
      rw [if_neg hR]
      pyexec [b0, b2]

/-! ## Frequencies and wave lengths -/

/-- What a function of the model says about a result. -/
def resOf {β : Type} (g : β → Val) : Py β → Except Exc Val
  | .ok b => .ok (g b)
  | .error e => .error (.py (errName e))

/-- What a function of the model says about the elements of a list. -/
def resList {β : Type} (g : β → Val) : Py (List β) → Except Exc (List Val)
  | .ok bs => .ok (bs.map g)
  | .error e => .error (.py (errName e))

/-- The elements of a comprehension. -/
theorem comp_elems {α β : Type} {G : List (Ident × Val) → Prop} {f : α → Py β} {enc : α → Val} {g : β → Val} {x : Ident} {cond : M Bool} {elt : M Val}
    {h : Heap} (hG : ∀ L v, G L → G (M.bindKey L x v)) (hc : ∀ L, cond ⟨L, h⟩ = (.ok true, ⟨L, h⟩))
    (he : ∀ L a, G L → elt ⟨M.bindKey L x (enc a), h⟩ = (resOf g (f a), ⟨M.bindKey L x (enc a), h⟩)) :
    ∀ (l : List α) L, G L → ∃ L', compLoop x cond elt (l.map enc) ⟨L, h⟩ =
      (resList g (l.mapM f), ⟨L', h⟩) := by
  intro l
  induction l with
  | nil => exact fun L _ => ⟨L, rfl⟩
  | cons a l ih =>
    intro L hL
    rw [List.map_cons, compLoop_cons, M.setLoc_apply, M.seq_ok, M.bind_apply, hc, M.seq_ok, M.choose_true, M.bind_apply, he L a hL, List.mapM_cons]
    cases hf : f a with
    | error e => exact ⟨_, rfl⟩
    | ok b =>
      obtain ⟨L', e1⟩ := ih _ (hG L (enc a) hL)
      refine ⟨L', ?_⟩
      show M.seq (compLoop x cond elt (l.map enc) ⟨M.bindKey L x (enc a), h⟩) _ = _
      rw [e1]
      cases l.mapM f <;> rfl

theorem append_getElem0' (G L : Heap) : (G ++ L)[G.length]? = L[0]? := by
  rw [List.getElem?_append_right (Nat.le_refl _), Nat.sub_self]
theorem append_set0' (G L : Heap) (o : Obj) : (G ++ L).set G.length o = G ++ L.set 0 o := by
  rw [List.set_append_right _ _ (Nat.le_refl _), Nat.sub_self]
theorem heap_old' {h : Heap} {a : Nat} {o : Obj} (ha : h[a]? = some o) (t : Heap) : (h ++ t)[a]? = some o := by
  rw [List.getElem?_append_left (List.getElem?_eq_some_iff.1 ha).1, ha]

/-- Parameters of the printer. -/
structure CtrlAt (h : Heap) (a k g : Nat) (c : Controls) : Prop where
  self : h[a]? = some (.inst n!"MargoCore" [(n!"ctrl", .ref k)])
  ctrl : h[k]? = some (.inst n!"MargoControls" [(n!"half_cycle_enable", .bool c.half_cycle_enable), (n!"lock_time_enable", .bool c.lock_time_enable),
    (n!"gps_utc_shift", .int c.gps_utc_shift), (n!"glo_lit_tab", .ref g)])
  lit : h[g]? = some (.dict (c.glo_lit_tab.map (fun p => (.int (p.1 : Nat), .int p.2))))

theorem zipIdx_enum (l : List Rat) (k : Nat) :
    ((l.map Val.flt).zipIdx k).map (fun p => Val.tup [.int (1 + (p.2 : Int)), p.1]) =
      (l.zipIdx (k + 1)).map (fun p => Val.tup [.int (p.2 : Nat), .flt p.1]) := by
  induction l generalizing k with
  | nil => rfl
  | cons x l ih =>
    simp only [List.map_cons, List.zipIdx_cons, ih (k + 1)]
    congr 3
    push_cast
    rw [Int.add_comm]

section
variable {h : Heap} {a k g : Nat} {c : Controls} (hc : CtrlAt h a k g c)
include hc

theorem literals_src (n : Nat) (X : Heap) : callFn src (n + 1) n!"MargoCore.literals" [.ref a] (h ++ X) = (.ok (.ref g), h ++ X) := by
  have h1 : ∀ Y, (h ++ Y)[a]? = _ := heap_old' hc.self
  have h2 : ∀ Y, (h ++ Y)[k]? = _ := heap_old' hc.ctrl
  pycall Look.fn_MargoCore_literals Src.fn_MargoCore_literals
  pyexec [h1, h2]

theorem utc_shift_src (n : Nat) (X : Heap) :
    callFn src (n + 1) n!"MargoCore.utc_shift" [.ref a] (h ++ X) = (.ok (.int c.gps_utc_shift), h ++ X) := by
  have h1 : ∀ Y, (h ++ Y)[a]? = _ := heap_old' hc.self
  have h2 : ∀ Y, (h ++ Y)[k]? = _ := heap_old' hc.ctrl
  pycall Look.fn_MargoCore_utc_shift Src.fn_MargoCore_utc_shift
  pyexec [h1, h2]

theorem hc_en_src (n : Nat) (X : Heap) :
    callFn src (n + 1) n!"MargoCore.HC_EN" [.ref a] (h ++ X) = (.ok (.bool c.half_cycle_enable), h ++ X) := by
  have h1 : ∀ Y, (h ++ Y)[a]? = _ := heap_old' hc.self
  have h2 : ∀ Y, (h ++ Y)[k]? = _ := heap_old' hc.ctrl
  pycall Look.fn_MargoCore_HC_EN Src.fn_MargoCore_HC_EN
  pyexec [h1, h2]

theorem lt_en_src (n : Nat) (X : Heap) :
    callFn src (n + 1) n!"MargoCore.LT_EN" [.ref a] (h ++ X) = (.ok (.bool c.lock_time_enable), h ++ X) := by
  have h1 : ∀ Y, (h ++ Y)[a]? = _ := heap_old' hc.self
  have h2 : ∀ Y, (h ++ Y)[k]? = _ := heap_old' hc.ctrl
  pycall Look.fn_MargoCore_LT_EN Src.fn_MargoCore_LT_EN
  pyexec [h1, h2]

/-- The tuple of the frequencies. -/
def fltTup (l : List Rat) : Val := .tup (l.map .flt)

/-- What `make_crr_frq` does to the frequency of satellite `p.2`. -/
def frqOf (c : Controls) (df : Rat) (p : Rat × Nat) : Py Rat :=
  match c.glo_lit_tab.get? p.2 with
  | none => .error .keyError
  | some lt => pure (rnd (p.1 + rnd (df * rnd lt)))

omit hc in
theorem mk_err1 {gnss sgn : String} {e : PyErr} (hf : crrFrq gnss (some sgn) = .error e) : makeCrrFrqR rnd c gnss sgn = .error e := by
  unfold makeCrrFrqR; rw [hf]; rfl
omit hc in
theorem mk_err2 {gnss sgn : String} {f : Rat} {e : PyErr} (hf : crrFrq gnss (some sgn) = .ok f) (hm : maxSats gnss = .error e) :
    makeCrrFrqR rnd c gnss sgn = .error e := by
  unfold makeCrrFrqR; rw [hf, hm]; rfl
omit hc in
theorem mk_plain {gnss sgn : String} {f : Rat} {m : Nat} (hf : crrFrq gnss (some sgn) = .ok f) (hm : maxSats gnss = .ok m)
    (hp : gnss ≠ "R" ∨ sgn ∉ ["1C", "1P", "2C", "2P"]) : makeCrrFrqR rnd c gnss sgn = .ok (List.replicate m (rnd f)) := by
  unfold makeCrrFrqR
  rw [hf, hm]
  simp only [bind, Except.bind]
  by_cases h1 : gnss ≠ "R"
  · rw [if_pos h1]; rfl
  · rw [if_neg h1, if_pos (hp.resolve_left h1)]; rfl
omit hc in
theorem mk_glo {sgn : String} {f df : Rat} {m : Nat} (hf : crrFrq "R" (some sgn) = .ok f) (hm : maxSats "R" = .ok m)
    (hp : sgn ∈ ["1C", "1P", "2C", "2P"]) (hd : df = if sgn ∈ ["1C", "1P"] then rnd (5625 / 10000) else rnd (4375 / 10000)) :
    makeCrrFrqR rnd c "R" sgn = ((List.replicate m (rnd f)).zipIdx 1).mapM (frqOf c df) := by
  unfold makeCrrFrqR
  rw [hf, hm]
  simp only [bind, Except.bind]
  rw [if_neg (fun h => h rfl), if_neg (fun h => h hp), hd]
  rfl

/-- The element of the comprehension in `make_crr_frq`. -/
def frqElt : Expr :=
  .bin .add (.index (.name n!"$g") (.const (.int 1))) (.bin .mul (.name n!"df") (.index (.name n!"LT") (.index (.name n!"$g") (.const (.int 0)))))

theorem frq_gen (n : Nat) (X : Heap) (df : Rat) (fs : List Rat) (L : List (Ident × Val)) (l1 : L.lookup n!"df" = some (.flt df))
    (l2 : L.lookup n!"LT" = some (.ref g)) :
    ∃ L', compLoop n!"$g" (eval src (callFn src n) (.const (.bool true)) >>= fun c => truth src c) (eval src (callFn src n) frqElt)
        ((fs.zipIdx 1).map (fun p => Val.tup [.int (p.2 : Nat), .flt p.1])) ⟨L, h ++ X⟩ =
      (resList Val.flt ((fs.zipIdx 1).mapM (frqOf c df)), ⟨L', h ++ X⟩) := by
  have h1 : ∀ Y, (h ++ Y)[g]? = _ := heap_old' hc.lit
  refine comp_elems (G := fun L => L.lookup n!"df" = some (.flt df) ∧ L.lookup n!"LT" = some (.ref g)) ?_ ?_ ?_ _ L ⟨l1, l2⟩
  · rintro L v ⟨h1, h2⟩
    rw [lookup_bindKey, lookup_bindKey]
    exact ⟨h1, h2⟩
  · intro L; pyexec []
  · rintro L ⟨fc, sat⟩ ⟨l1, l2⟩
    have b1 : (M.bindKey L n!"$g" (Val.tup [.int (sat : Nat), .flt fc])).lookup n!"$g" = some (.tup [.int (sat : Nat), .flt fc]) := by
      rw [lookup_bindKey]; rfl
    have b2 : (M.bindKey L n!"$g" (Val.tup [.int (sat : Nat), .flt fc])).lookup n!"df" = some (.flt df) := by rw [lookup_bindKey]; exact l1
    have b3 : (M.bindKey L n!"$g" (Val.tup [.int (sat : Nat), .flt fc])).lookup n!"LT" = some (.ref g) := by rw [lookup_bindKey]; exact l2
    have i0 : ∀ s, indexVal src (Val.tup [.int (sat : Nat), .flt fc]) (.int 0) s = (.ok (.int (sat : Nat)), s) := fun s => rfl
    have i1 : ∀ s, indexVal src (Val.tup [.int (sat : Nat), .flt fc]) (.int 1) s = (.ok (.flt fc), s) := fun s => rfl
    have e := dictGet_nat Val.int c.glo_lit_tab sat
    unfold frqOf frqElt
    dsimp only
    cases hl : c.glo_lit_tab.get? sat with
    | none => pyexec [b1, b2, b3, i0, i1, h1, e, hl, Option.map_none, resOf, errName]
    | some lt => pyexec [b1, b2, b3, i0, i1, h1, e, hl, Option.map_some, resOf]; rfl

omit hc in
theorem get_end2 (h X : Heap) (o : Obj) : (h ++ X ++ [o])[h.length + X.length]? = some o := by
  rw [← List.length_append]; exact List.getElem?_concat_length
omit hc in
theorem set_end2 (h X : Heap) (o o' : Obj) : (h ++ X ++ [o]).set (h.length + X.length) o' = h ++ X ++ [o'] := by
  rw [← List.length_append, List.set_append_right _ _ (Nat.le_refl _), Nat.sub_self]; rfl
omit hc in
theorem get_end3 (h X Y : Heap) (o : Obj) : (h ++ X ++ Y ++ [o])[h.length + X.length + Y.length]? = some o := by
  rw [← List.length_append, ← List.length_append]; exact List.getElem?_concat_length
omit hc in
theorem set_end3 (h X Y : Heap) (o o' : Obj) : (h ++ X ++ Y ++ [o]).set (h.length + X.length + Y.length) o' = h ++ X ++ Y ++ [o'] := by
  rw [← List.length_append, ← List.length_append, List.set_append_right _ _ (Nat.le_refl _), Nat.sub_self]; rfl
omit hc in
theorem cmpOp_notMem' (x y : Val) (s : St) :
    cmpOp src .notMem x y s = M.seq (memberVals src y s) (fun vs => memList x vs >>= fun r => M.pure (.bool (!r))) := rfl

theorem crr_frqs_src (n : Nat) (gnss sgn : String) (X : Heap) :
    ∃ Y, callFn src (n + 2) n!"MargoCore.make_crr_frq" [.ref a, .str gnss, .str sgn] (h ++ X) =
      (resOf fltTup (makeCrrFrqR rnd c gnss sgn), h ++ X ++ Y) := by
  have h1 : ∀ Y, (h ++ Y)[a]? = _ := heap_old' hc.self
  have c1 := crr_frq_src n gnss (some sgn)
  have c2 := max_sats_src n gnss
  have c3 := literals_src hc n
  have m1 := memList_str sgn ["1C", "1P", "2C", "2P"]
  have m2 := memList_str sgn ["1C", "1P"]
  simp only [List.map_cons, List.map_nil] at m1 m2
  pycall Look.fn_MargoCore_make_crr_frq Src.fn_MargoCore_make_crr_frq
  simp only [optStr] at c1
  cases hf : crrFrq gnss (some sgn) with
  | error e =>
    rw [hf] at c1
    refine ⟨[], ?_⟩
    rw [mk_err1 hf, List.append_nil]
    pyexec [getAttr_cls, c1, h1]
    rfl
  | ok fc =>
    rw [hf] at c1
    cases hm : maxSats gnss with
    | error e =>
      rw [hm] at c2
      refine ⟨[], ?_⟩
      rw [mk_err2 hf hm, List.append_nil]
      pyexec [getAttr_cls, c1, c2, h1]
      rfl
    | ok m =>
      rw [hm] at c2
      have er : (List.replicate m [Val.flt (rnd fc)]).flatten = (List.replicate m (rnd fc)).map .flt := by
        rw [List.flatten_replicate_singleton, List.map_replicate]
      have ez := zipIdx_enum (List.replicate m (rnd fc)) 0
      by_cases hR : gnss = "R"
      · subst hR
        by_cases hs : sgn ∈ ["1C", "1P", "2C", "2P"]
        · have d1 := decide_eq_true hs
          by_cases hs2 : sgn ∈ ["1C", "1P"]
          · have d2 := decide_eq_true hs2
            rw [mk_glo hf hm hs (df := rnd (mkRat 9 16)) (by rw [if_pos hs2]; congr 1; norm_num [Rat.mkRat_eq_div])]
            obtain ⟨L', e1⟩ := frq_gen hc (n + 1) X (rnd (mkRat 9 16)) (List.replicate m (rnd fc)) [(n!"self", .ref a), (n!"gnss", .str "R"), (n!"sgn", .str sgn),
              (n!"frq", .tup ((List.replicate m (rnd fc)).map .flt)), (n!"df", .flt (rnd (mkRat 9 16))), (n!"LT", .ref g)] rfl rfl
            unfold frqElt at e1
            cases hmm : ((List.replicate m (rnd fc)).zipIdx 1).mapM (frqOf c (rnd (mkRat 9 16))) with
            | error e =>
              rw [hmm] at e1
              refine ⟨[], ?_⟩
              rw [List.append_nil]
              pyexec [getAttr_cls, c1, c2, c3, h1, er, m1, d1, Bool.not_true, Bool.not_false, cmpOp_notMem', m2, d2, ez, e1, resList]
              rfl
            | ok bs =>
              rw [hmm] at e1
              refine ⟨[.iter []], ?_⟩
              pyexec [getAttr_cls, c1, c2, c3, h1, er, m1, d1, Bool.not_true, Bool.not_false, cmpOp_notMem', m2, d2, ez, e1, resList, get_end2, set_end2, get_end3, set_end3]
              rfl
          · have d2 := decide_eq_false hs2
            rw [mk_glo hf hm hs (df := rnd (mkRat 7 16)) (by rw [if_neg hs2]; congr 1; norm_num [Rat.mkRat_eq_div])]
            obtain ⟨L', e1⟩ := frq_gen hc (n + 1) X (rnd (mkRat 7 16)) (List.replicate m (rnd fc)) [(n!"self", .ref a), (n!"gnss", .str "R"), (n!"sgn", .str sgn),
              (n!"frq", .tup ((List.replicate m (rnd fc)).map .flt)), (n!"df", .flt (rnd (mkRat 7 16))), (n!"LT", .ref g)] rfl rfl
            unfold frqElt at e1
            cases hmm : ((List.replicate m (rnd fc)).zipIdx 1).mapM (frqOf c (rnd (mkRat 7 16))) with
            | error e =>
              rw [hmm] at e1
              refine ⟨[], ?_⟩
              rw [List.append_nil]
              pyexec [getAttr_cls, c1, c2, c3, h1, er, m1, d1, Bool.not_true, Bool.not_false, cmpOp_notMem', m2, d2, ez, e1, resList]
              rfl
            | ok bs =>
              rw [hmm] at e1
              refine ⟨[.iter []], ?_⟩
              pyexec [getAttr_cls, c1, c2, c3, h1, er, m1, d1, Bool.not_true, Bool.not_false, cmpOp_notMem', m2, d2, ez, e1, resList, get_end2, set_end2, get_end3, set_end3]
              rfl
        · have d1 := decide_eq_false hs
          refine ⟨[], ?_⟩
          rw [mk_plain hf hm (.inr hs), List.append_nil]
          pyexec [getAttr_cls, c1, c2, h1, er, m1, d1, Bool.not_true, Bool.not_false, cmpOp_notMem']
          rfl
      · have bR : (gnss == "R") = false := by simpa using hR
        refine ⟨[], ?_⟩
        rw [mk_plain hf hm (.inl hR), List.append_nil]
        pyexec [getAttr_cls, c1, c2, h1, er, bR, Bool.not_false]
        rfl

/-- The wave length of a frequency. -/
def lamOf (f : Rat) : Py Rat := if f = 0 then .error .zeroDivision else pure (rnd (rnd (rnd CRNG_1MS * rnd (1 / 1000)) / f))

/-- The element of the comprehension in `make_lambdas`. -/
def lamElt : Expr := .bin .div (.bin .mul (.attr (.name n!"MSMT") n!"CRNG_1MS") (.const (.flt 1 1000))) (.name n!"f")

omit hc in
theorem lam_gen (n : Nat) (H : Heap) (fs : List Rat) (L : List (Ident × Val)) (l1 : L.lookup n!"MSMT" = none) :
    ∃ L', compLoop n!"f" (eval src (callFn src n) (.const (.bool true)) >>= fun c => truth src c) (eval src (callFn src n) lamElt)
        (fs.map Val.flt) ⟨L, H⟩ = (resList Val.flt (fs.mapM lamOf), ⟨L', H⟩) := by
  refine comp_elems (G := fun L => L.lookup n!"MSMT" = none) ?_ ?_ ?_ _ L l1
  · rintro L v h1
    rw [lookup_bindKey]
    exact h1
  · intro L; pyexec []
  · rintro L f l1
    have b1 : (M.bindKey L n!"f" (Val.flt f)).lookup n!"f" = some (.flt f) := by rw [lookup_bindKey]; rfl
    have b2 : (M.bindKey L n!"f" (Val.flt f)).lookup n!"MSMT" = none := by rw [lookup_bindKey]; exact l1
    have cr : ∀ s, getAttr src (callFn src n) (.cls n!"MSMT") n!"CRNG_1MS" s = (.ok (.flt (rnd CRNG_1MS)), s) := by
      intro s; with_unfolding_all rfl
    unfold lamOf lamElt
    by_cases h0 : f = 0
    · subst h0
      have hd : ∀ p s, binOp .div (.flt p) (.flt 0) s = (.error (.py n!"ZeroDivisionError"), s) := fun p s => by
        show (if (0 : Rat) = 0 then M.throw n!"ZeroDivisionError" else M.pure (.flt (rnd (p / 0))) : M Val) s = _
        rw [if_pos rfl]; rfl
      rw [if_pos rfl]
      pyexec [b1, b2, cr, hd, resOf, errName]
    · rw [if_neg h0]
      have m : mkRat 1 1000 = (1 / 1000 : Rat) := by norm_num [Rat.mkRat_eq_div]
      rw [← m]
      pyexec [b1, b2, cr, div_ff _ _ _ h0, resOf]
      rfl

theorem lambdas_src (n : Nat) (gnss sgn : String) (X : Heap) :
    ∃ Y, callFn src (n + 3) n!"MargoCore.make_lambdas" [.ref a, .str gnss, .str sgn] (h ++ X) =
      (resOf fltTup (makeLambdasR rnd c gnss sgn), h ++ X ++ Y) := by
  have h1 : ∀ Y, (h ++ Y)[a]? = _ := heap_old' hc.self
  obtain ⟨Y, c1⟩ := crr_frqs_src hc n gnss sgn X
  pycall Look.fn_MargoCore_make_lambdas Src.fn_MargoCore_make_lambdas
  cases hf : makeCrrFrqR rnd c gnss sgn with
  | error e =>
    rw [hf] at c1
    refine ⟨Y, ?_⟩
    have : makeLambdasR rnd c gnss sgn = .error e := by unfold makeLambdasR; rw [hf]; rfl
    rw [this]
    pyexec [h1, c1, resOf]
  | ok fs =>
    rw [hf] at c1
    have e0 : makeLambdasR rnd c gnss sgn = fs.mapM lamOf := by unfold makeLambdasR; rw [hf]; rfl
    rw [e0]
    obtain ⟨L', e1⟩ := lam_gen (n + 2) (h ++ X ++ Y) fs [(n!"self", .ref a), (n!"gnss", .str gnss), (n!"sgn", .str sgn),
      (n!"frequencies", fltTup fs)] rfl
    simp only [fltTup] at e1
    unfold lamElt at e1
    cases hmm : fs.mapM lamOf with
    | error e =>
      rw [hmm] at e1
      refine ⟨Y, ?_⟩
      pyexec [h1, c1, resOf, e1, resList, fltTup]
    | ok bs =>
      rw [hmm] at e1
      refine ⟨Y ++ [.iter []], ?_⟩
      pyexec [h1, c1, resOf, e1, resList, fltTup, get_end2, set_end2, get_end3, set_end3]
      rw [← List.append_assoc]

end

end Refine
end PyCore
end Verif
