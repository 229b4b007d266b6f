import Verif.Refine.MsmHeap

/-!
# `BareObservablesMSM17Decoder` and its model: the objects and the header
-/

namespace Verif
namespace PyCore
namespace Refine

open Rounding (rnd)
variable [Rounding]

/-- A tuple of numbers. -/
def natTup (l : List Nat) : Val := .tup (l.map (fun x : Nat => .int x))
/-- A tuple of numbers. -/
def intTup (l : List Int) : Val := .tup (l.map .int)

/-- `Attributes` as an object. -/
def atrF (a : Msm.Attributes) : Fields :=
  [(n!"gnss", .str a.gnss), (n!"subset", .str a.subset), (n!"msg_number", optVal (fun x : Nat => .int x) a.msg_number)]
/-- `_BareObservablesHdrMSM` as an object. -/
def hdrF (h : Msm.BareHdr) : Fields :=
  [(n!"rs_id", .int h.rs_id), (n!"time", .int h.time), (n!"MMB", .int h.MMB), (n!"IODS", .int h.IODS),
    (n!"clk_steer", .int h.clk_steer), (n!"clk_ext", .int h.clk_ext), (n!"smth_indc", .int h.smth_indc),
    (n!"smth_intr", .int h.smth_intr), (n!"sat_mask", .int h.sat_mask), (n!"sgn_mask", .int h.sgn_mask),
    (n!"cell_mask", .int h.cell_mask)]
/-- `_BareObservablesSatDataMSM4567` as an object. -/
def sat47F (s : Msm.BareSat4567) : Fields :=
  [(n!"rng_ms", natTup s.rng_ms), (n!"ext_info", natTup s.ext_info), (n!"rng_rough", natTup s.rng_rough),
    (n!"phase_rate_rough", intTup s.phase_rate_rough)]
/-- `_BareObservablesSignalDataMSM4567` as an object. -/
def sgn47F (s : Msm.BareSgn4567) : Fields :=
  [(n!"rng_fine", intTup s.rng_fine), (n!"phase_fine", intTup s.phase_fine), (n!"lock_time", natTup s.lock_time),
    (n!"hc_indc", natTup s.hc_indc), (n!"c2n", natTup s.c2n), (n!"phase_rate_fine", intTup s.phase_rate_fine)]
/-- `_BareObservablesSatDataMSM123` as an object. -/
def sat13F (s : Msm.BareSat123) : Fields := [(n!"rng_rough", natTup s.rng_rough)]
/-- `_BareObservablesSignalDataMSM123` as an object. -/
def sgn13F (s : Msm.BareSgn123) : Fields :=
  [(n!"rng_fine", intTup s.rng_fine), (n!"phase_fine", intTup s.phase_fine), (n!"lock_time", natTup s.lock_time),
    (n!"hc_indc", natTup s.hc_indc)]

/-- Classes of the parts of messages MSM4 to MSM7. -/
def K47 : BareKind where
  bd := n!"BareObservablesMSM4567"
  sat := n!"_BareObservablesSatDataMSM4567"
  sgn := n!"_BareObservablesSignalDataMSM4567"
/-- Classes of the parts of messages MSM1 to MSM3. -/
def K13 : BareKind where
  bd := n!"BareObservablesMSM123"
  sat := n!"_BareObservablesSatDataMSM123"
  sgn := n!"_BareObservablesSignalDataMSM123"

/-! ## `clear` and `__init__` -/

/-- Several assignments to attributes. -/
def setAll (fs ps : Fields) : Fields := ps.foldl (fun fs p => M.bindKey fs p.1 p.2) fs

macro "clear_src" l:term:max d:term:max ha:term:max : tactic =>
  `(tactic| (pycall $l $d
             have hr := fun o => List.getElem?_set_self (a := o) (List.getElem?_eq_some_iff.1 $ha).1
             pyexec [$ha:term, hr, List.set_set]
             rfl))

section
variable (n a : Nat) (h : Heap) (fs : Fields)

theorem atr_clear (ha : h[a]? = some (.inst n!"Attributes" fs)) : callFn src (n + 1) n!"Attributes.clear" [.ref a] h =
    (.ok .none, h.set a (.inst n!"Attributes" (setAll fs (atrF ⟨"", "", some 0⟩)))) := by
  clear_src Look.fn_Attributes_clear Src.fn_Attributes_clear ha
theorem hdr_clear (ha : h[a]? = some (.inst n!"_BareObservablesHdrMSM" fs)) :
    callFn src (n + 1) n!"_BareObservablesHdrMSM.clear" [.ref a] h =
    (.ok .none, h.set a (.inst n!"_BareObservablesHdrMSM" (setAll fs (hdrF {})))) := by
  clear_src Look.fn_BareObservablesHdrMSM_clear Src.fn_BareObservablesHdrMSM_clear ha
theorem sat47_clear (ha : h[a]? = some (.inst n!"_BareObservablesSatDataMSM4567" fs)) :
    callFn src (n + 1) n!"_BareObservablesSatDataMSM4567.clear" [.ref a] h =
    (.ok .none, h.set a (.inst n!"_BareObservablesSatDataMSM4567" (setAll fs (sat47F {})))) := by
  clear_src Look.fn_BareObservablesSatDataMSM4567_clear Src.fn_BareObservablesSatDataMSM4567_clear ha
theorem sgn47_clear (ha : h[a]? = some (.inst n!"_BareObservablesSignalDataMSM4567" fs)) :
    callFn src (n + 1) n!"_BareObservablesSignalDataMSM4567.clear" [.ref a] h =
    (.ok .none, h.set a (.inst n!"_BareObservablesSignalDataMSM4567" (setAll fs (sgn47F {})))) := by
  clear_src Look.fn_BareObservablesSignalDataMSM4567_clear Src.fn_BareObservablesSignalDataMSM4567_clear ha
theorem sat13_clear (ha : h[a]? = some (.inst n!"_BareObservablesSatDataMSM123" fs)) :
    callFn src (n + 1) n!"_BareObservablesSatDataMSM123.clear" [.ref a] h =
    (.ok .none, h.set a (.inst n!"_BareObservablesSatDataMSM123" (setAll fs (sat13F {})))) := by
  clear_src Look.fn_BareObservablesSatDataMSM123_clear Src.fn_BareObservablesSatDataMSM123_clear ha
theorem sgn13_clear (ha : h[a]? = some (.inst n!"_BareObservablesSignalDataMSM123" fs)) :
    callFn src (n + 1) n!"_BareObservablesSignalDataMSM123.clear" [.ref a] h =
    (.ok .none, h.set a (.inst n!"_BareObservablesSignalDataMSM123" (setAll fs (sgn13F {})))) := by
  clear_src Look.fn_BareObservablesSignalDataMSM123_clear Src.fn_BareObservablesSignalDataMSM123_clear ha

macro "init_src" l:term:max d:term:max c:term:max : tactic =>
  `(tactic| (pycall $l $d
             pyexec [heap_last, $c:term, heap_set]
             rfl))

theorem atr_init : callFn src (n + 2) n!"Attributes.__init__" [.ref h.length] (h ++ [.inst n!"Attributes" []]) =
    (.ok .none, h ++ [.inst n!"Attributes" (atrF ⟨"", "", some 0⟩)]) := by
  init_src Look.fn_Attributes_P_init_P Src.fn_Attributes_P_init_P (atr_clear n _ _ _ (heap_last h _))
theorem hdr_init : callFn src (n + 2) n!"_BareObservablesHdrMSM.__init__" [.ref h.length] (h ++ [.inst n!"_BareObservablesHdrMSM" []]) =
    (.ok .none, h ++ [.inst n!"_BareObservablesHdrMSM" (hdrF {})]) := by
  init_src Look.fn_BareObservablesHdrMSM_P_init_P Src.fn_BareObservablesHdrMSM_P_init_P (hdr_clear n _ _ _ (heap_last h _))
theorem sat47_init : callFn src (n + 2) n!"_BareObservablesSatDataMSM4567.__init__" [.ref h.length]
    (h ++ [.inst n!"_BareObservablesSatDataMSM4567" []]) =
    (.ok .none, h ++ [.inst n!"_BareObservablesSatDataMSM4567" (sat47F {})]) := by
  init_src Look.fn_BareObservablesSatDataMSM4567_P_init_P Src.fn_BareObservablesSatDataMSM4567_P_init_P
    (sat47_clear n _ _ _ (heap_last h _))
theorem sgn47_init : callFn src (n + 2) n!"_BareObservablesSignalDataMSM4567.__init__" [.ref h.length]
    (h ++ [.inst n!"_BareObservablesSignalDataMSM4567" []]) =
    (.ok .none, h ++ [.inst n!"_BareObservablesSignalDataMSM4567" (sgn47F {})]) := by
  init_src Look.fn_BareObservablesSignalDataMSM4567_P_init_P Src.fn_BareObservablesSignalDataMSM4567_P_init_P
    (sgn47_clear n _ _ _ (heap_last h _))
theorem sat13_init : callFn src (n + 2) n!"_BareObservablesSatDataMSM123.__init__" [.ref h.length]
    (h ++ [.inst n!"_BareObservablesSatDataMSM123" []]) =
    (.ok .none, h ++ [.inst n!"_BareObservablesSatDataMSM123" (sat13F {})]) := by
  init_src Look.fn_BareObservablesSatDataMSM123_P_init_P Src.fn_BareObservablesSatDataMSM123_P_init_P
    (sat13_clear n _ _ _ (heap_last h _))
theorem sgn13_init : callFn src (n + 2) n!"_BareObservablesSignalDataMSM123.__init__" [.ref h.length]
    (h ++ [.inst n!"_BareObservablesSignalDataMSM123" []]) =
    (.ok .none, h ++ [.inst n!"_BareObservablesSignalDataMSM123" (sgn13F {})]) := by
  init_src Look.fn_BareObservablesSignalDataMSM123_P_init_P Src.fn_BareObservablesSignalDataMSM123_P_init_P
    (sgn13_clear n _ _ _ (heap_last h _))

end

/-! ## The message -/

/-- The message and its parts as `BareObservablesMSM4567()` and `BareObservablesMSM123()` create them at an address. -/
def newBare (b : Nat) (K : BareKind) (sat sgn : Fields) : List Obj :=
  [.inst K.bd [(n!"atr", .ref (b + 1)), (n!"hdr", .ref (b + 2)), (n!"sat", .ref (b + 3)), (n!"sgn", .ref (b + 4))],
    .inst n!"Attributes" (atrF ⟨"", "", some 0⟩), .inst n!"_BareObservablesHdrMSM" (hdrF {}), .inst K.sat sat, .inst K.sgn sgn]

theorem last1 (h : Heap) (L : List Obj) (o : Obj) : (h ++ L) ++ [o] = h ++ (L ++ [o]) := List.append_assoc ..

theorem bd47_init (n : Nat) (h : Heap) : callFn src (n + 3) n!"BareObservablesMSM4567.__init__" [.ref h.length]
    (h ++ [.inst n!"BareObservablesMSM4567" []]) = (.ok .none, h ++ newBare h.length K47 (sat47F {}) (sgn47F {})) := by
  pycall Look.fn_BareObservablesMSM4567_P_init_P Src.fn_BareObservablesMSM4567_P_init_P
  have e1 := atr_init n (h ++ [.inst n!"BareObservablesMSM4567" []])
  have e2 := fun o1 o2 => hdr_init n (h ++ [o1, o2])
  have e3 := fun o1 o2 o3 => sat47_init n (h ++ [o1, o2, o3])
  have e4 := fun o1 o2 o3 o4 => sgn47_init n (h ++ [o1, o2, o3, o4])
  simp only [List.length_append, List.length_cons, List.length_nil, Nat.zero_add, last1, List.cons_append, List.nil_append, Nat.reduceAdd] at e1 e2 e3 e4
  pyexec [last1, List.cons_append, List.nil_append, Nat.reduceAdd, e1, e2, e3, e4, append_getElem0, append_set0, append_getElem,
    append_set, List.getElem?_cons_zero, List.getElem?_cons_succ, List.set_cons_zero, List.set_cons_succ]
  rfl

theorem bd13_init (n : Nat) (h : Heap) : callFn src (n + 3) n!"BareObservablesMSM123.__init__" [.ref h.length]
    (h ++ [.inst n!"BareObservablesMSM123" []]) = (.ok .none, h ++ newBare h.length K13 (sat13F {}) (sgn13F {})) := by
  pycall Look.fn_BareObservablesMSM123_P_init_P Src.fn_BareObservablesMSM123_P_init_P
  have e1 := atr_init n (h ++ [.inst n!"BareObservablesMSM123" []])
  have e2 := fun o1 o2 => hdr_init n (h ++ [o1, o2])
  have e3 := fun o1 o2 o3 => sat13_init n (h ++ [o1, o2, o3])
  have e4 := fun o1 o2 o3 o4 => sgn13_init n (h ++ [o1, o2, o3, o4])
  simp only [List.length_append, List.length_cons, List.length_nil, Nat.zero_add, last1, List.cons_append, List.nil_append, Nat.reduceAdd] at e1 e2 e3 e4
  pyexec [last1, List.cons_append, List.nil_append, Nat.reduceAdd, e1, e2, e3, e4, append_getElem0, append_set0, append_getElem,
    append_set, List.getElem?_cons_zero, List.getElem?_cons_succ, List.set_cons_zero, List.set_cons_succ]
  rfl

theorem newBare_clear {h : Heap} {b k : Nat} {K : BareKind} {sat sgn : Fields} {o : Obj} (ho : (newBare b K sat sgn)[k]? = some o) :
    (h ++ newBare b K sat sgn).set (h.length + k) o = h ++ newBare b K sat sgn := by
  rw [append_set]
  congr 1
  exact List.ext_getElem? fun i => by
    by_cases hi : i = k
    · subst hi
      rw [List.getElem?_set_self (List.getElem?_eq_some_iff.1 ho).1, ho]
    · rw [List.getElem?_set_ne (Ne.symm hi)]

theorem bd47_clear (n : Nat) (h : Heap) : callFn src (n + 2) n!"BareObservablesMSM4567.clear" [.ref h.length]
    (h ++ newBare h.length K47 (sat47F {}) (sgn47F {})) = (.ok .none, h ++ newBare h.length K47 (sat47F {}) (sgn47F {})) := by
  pycall Look.fn_BareObservablesMSM4567_clear Src.fn_BareObservablesMSM4567_clear
  have g0 : (h ++ newBare h.length K47 (sat47F {}) (sgn47F {}))[h.length]? = _ := append_getElem0 ..
  have g1 : (h ++ newBare h.length K47 (sat47F {}) (sgn47F {}))[h.length + 1]? = _ := append_getElem ..
  have g2 : (h ++ newBare h.length K47 (sat47F {}) (sgn47F {}))[h.length + 2]? = _ := append_getElem ..
  have g3 : (h ++ newBare h.length K47 (sat47F {}) (sgn47F {}))[h.length + 3]? = _ := append_getElem ..
  have g4 : (h ++ newBare h.length K47 (sat47F {}) (sgn47F {}))[h.length + 4]? = _ := append_getElem ..
  have c1 := atr_clear n _ _ _ g1
  have c2 := hdr_clear n _ _ _ g2
  have c3 := sat47_clear n _ _ _ g3
  have c4 := sgn47_clear n _ _ _ g4
  rw [newBare_clear rfl] at c1 c2 c3 c4
  generalize hh : h ++ newBare h.length K47 (sat47F {}) (sgn47F {}) = H at *
  simp only [newBare, List.getElem?_cons_zero, List.getElem?_cons_succ] at g0 g1 g2 g3 g4
  pyexec [g0, g1, g2, g3, g4, c1, c2, c3, c4, K47, atrF, hdrF, sat47F, sgn47F]

theorem bd13_clear (n : Nat) (h : Heap) : callFn src (n + 2) n!"BareObservablesMSM123.clear" [.ref h.length]
    (h ++ newBare h.length K13 (sat13F {}) (sgn13F {})) = (.ok .none, h ++ newBare h.length K13 (sat13F {}) (sgn13F {})) := by
  pycall Look.fn_BareObservablesMSM123_clear Src.fn_BareObservablesMSM123_clear
  have g0 : (h ++ newBare h.length K13 (sat13F {}) (sgn13F {}))[h.length]? = _ := append_getElem0 ..
  have g1 : (h ++ newBare h.length K13 (sat13F {}) (sgn13F {}))[h.length + 1]? = _ := append_getElem ..
  have g2 : (h ++ newBare h.length K13 (sat13F {}) (sgn13F {}))[h.length + 2]? = _ := append_getElem ..
  have g3 : (h ++ newBare h.length K13 (sat13F {}) (sgn13F {}))[h.length + 3]? = _ := append_getElem ..
  have g4 : (h ++ newBare h.length K13 (sat13F {}) (sgn13F {}))[h.length + 4]? = _ := append_getElem ..
  have c1 := atr_clear n _ _ _ g1
  have c2 := hdr_clear n _ _ _ g2
  have c3 := sat13_clear n _ _ _ g3
  have c4 := sgn13_clear n _ _ _ g4
  rw [newBare_clear rfl] at c1 c2 c3 c4
  generalize hh : h ++ newBare h.length K13 (sat13F {}) (sgn13F {}) = H at *
  simp only [newBare, List.getElem?_cons_zero, List.getElem?_cons_succ] at g0 g1 g2 g3 g4
  pyexec [g0, g1, g2, g3, g4, c1, c2, c3, c4, K13, atrF, hdrF, sat13F, sgn13F]

/-! ## Properties -/

section
variable (n a : Nat) (h : Heap) (x : Msm.Attributes) (ha : h[a]? = some (.inst n!"Attributes" (atrF x)))
include ha
theorem is_msm7_src : callFn src (n + 1) n!"Attributes.is_msm7" [.ref a] h = (.ok (.bool x.is_msm7), h) := by
  pycall Look.fn_Attributes_is_msm7 Src.fn_Attributes_is_msm7
  pyexec [ha, atrF, Msm.Attributes.is_msm7]
theorem is_msm6_src : callFn src (n + 1) n!"Attributes.is_msm6" [.ref a] h = (.ok (.bool x.is_msm6), h) := by
  pycall Look.fn_Attributes_is_msm6 Src.fn_Attributes_is_msm6
  pyexec [ha, atrF, Msm.Attributes.is_msm6]
theorem is_msm5_src : callFn src (n + 1) n!"Attributes.is_msm5" [.ref a] h = (.ok (.bool x.is_msm5), h) := by
  pycall Look.fn_Attributes_is_msm5 Src.fn_Attributes_is_msm5
  pyexec [ha, atrF, Msm.Attributes.is_msm5]
theorem is_msm4_src : callFn src (n + 1) n!"Attributes.is_msm4" [.ref a] h = (.ok (.bool x.is_msm4), h) := by
  pycall Look.fn_Attributes_is_msm4 Src.fn_Attributes_is_msm4
  pyexec [ha, atrF, Msm.Attributes.is_msm4]
theorem is_msm3_src : callFn src (n + 1) n!"Attributes.is_msm3" [.ref a] h = (.ok (.bool x.is_msm3), h) := by
  pycall Look.fn_Attributes_is_msm3 Src.fn_Attributes_is_msm3
  pyexec [ha, atrF, Msm.Attributes.is_msm3]
theorem is_msm2_src : callFn src (n + 1) n!"Attributes.is_msm2" [.ref a] h = (.ok (.bool x.is_msm2), h) := by
  pycall Look.fn_Attributes_is_msm2 Src.fn_Attributes_is_msm2
  pyexec [ha, atrF, Msm.Attributes.is_msm2]
theorem is_msm1_src : callFn src (n + 1) n!"Attributes.is_msm1" [.ref a] h = (.ok (.bool x.is_msm1), h) := by
  pycall Look.fn_Attributes_is_msm1 Src.fn_Attributes_is_msm1
  pyexec [ha, atrF, Msm.Attributes.is_msm1]
end

theorem msmClass : BitsClass n!"BareObservablesMSM17Decoder" := ⟨rfl, rfl, rfl, rfl, rfl⟩

theorem msm_num_src (n a : Nat) (buf : Bytes) (h : Heap) (fs : Fields)
    (ha : h[a]? = some (.inst n!"BareObservablesMSM17Decoder" fs)) (hf : fs.lookup n!"getbitu" = none) :
    callFn src (n + 3) n!"BareObservablesMSM17Decoder.get_msg_num" [.ref a, .bytes buf] h =
      (.ok (optVal (fun x : Nat => .int x) (Msm.getMsgNum buf)), h) := by
  have h1 : callFn src (n + 2) n!"BareObservablesMSM17Decoder.get_msg_num$undecorated" [.ref a, .bytes buf] h =
      ofModel (fun x : Nat => .int x) h (Bits.gbu buf 24 12) := by
    pycall Look.fn_BareObservablesMSM17Decoder_get_msg_num_undecorated Src.fn_BareObservablesMSM17Decoder_get_msg_num_undecorated
    have h2 := getbitu_src n _ msmClass buf 24 12 h
    unfold Bits.gbu
    push_cast
    cases hv : Bits.getbitu buf 24 12 with
    | error e => rw [hv] at h2; pyexec [ha, hf, h2, msmClass.getbitu]
    | ok v => rw [hv] at h2; pyexec [ha, hf, h2, msmClass.getbitu]
  pycall Look.fn_BareObservablesMSM17Decoder_get_msg_num Src.fn_BareObservablesMSM17Decoder_get_msg_num
  unfold Msm.getMsgNum Bits.catchBits
  generalize Bits.gbu buf 24 12 = p at h1 ⊢
  cases p with
  | error e =>
    pyexec [h1, handle_cons, catchesBits, catchesAny]
    cases e <;> pyexec [reduceCtorEq, decide_true, decide_false, optVal]
  | ok v => pyexec [h1, optVal]

theorem bitCount_digits : ∀ n : Nat, (Nat.digits 2 n).sum = Msm.bitCount n := by
  intro n
  induction n using Nat.strongRecOn with
  | ind n ih =>
    unfold Msm.bitCount
    by_cases hn : n = 0
    · subst hn; rfl
    · rw [if_neg hn, ← ih (n / 2) (by omega), Nat.digits_def' (by decide) (by omega), List.sum_cons]


end Refine
end PyCore
end Verif
