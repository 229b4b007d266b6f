import Verif.Refine.Top
import Verif.Refine.MsmHeap
import Verif.Refine.EphDecode
import Verif.Spec.TopText

/-!
# The constructors of the sub-decoders and of their interfaces: decoder_top.py:47-128, RTCM_MSM.py:734-738, 748-752, RTCM_EPH.py:726-731, RTCM_BASE.py:435-440
-/

namespace Verif
namespace PyCore
namespace Refine
open Framer Spec

open Rounding (rnd)
variable [Rounding]

@[pyrun] theorem refMeth_fromkeys (P : Prog) (s : St) (a : Nat) (d : List (Val × Val)) (l v : Val) :
    refMeth P a n!"fromkeys" [l, v] (.dict d) s =
      M.seq (elements P l s) (fun ks => M.alloc (.dict (ks.foldl (fun d k => dictSet d k v) [])) >>= fun b => M.pure (.ref b)) := by
  show (elements P l >>= _) s = _
  rw [M.bind_apply]

/-- The numbers of multiple signal messages with the given last digits, as decoder_top.py:50-51 lists them. -/
def msmNums (L : List Nat) : List Nat := (List.range 7).flatMap (fun i => L.map (fun m => m + i * 10))

/-- `dict.fromkeys`. -/
def specOf (L : List Nat) (c : Ident) : List (Nat × Ident) := L.map (fun n => (n, c))

def spec47 (bare : Bool) : List (Nat × Ident) := specOf (msmNums [1074, 1075, 1076, 1077]) (if bare then n!"BareObservablesMSM4567" else n!"ObservablesMSM")
def spec13 (bare : Bool) : List (Nat × Ident) := specOf (msmNums [1071, 1072, 1073]) (if bare then n!"BareObservablesMSM123" else n!"ObservablesMSM")

def specObj (S : List (Nat × Ident)) : Obj := .dict (S.map (fun p => (Val.int p.1, Val.cls p.2)))

theorem heap_assoc (H L M : Heap) : H ++ L ++ M = H ++ (L ++ M) := List.append_assoc ..
theorem heap_cons (o : Obj) (L M : Heap) : (o :: L) ++ M = o :: (L ++ M) := rfl
theorem heap_nil (M : Heap) : [] ++ M = M := rfl
theorem heap_length (H L : Heap) : (H ++ L).length = H.length + L.length := List.length_append

/-- Execution with a heap that has new objects at its end. -/
syntax "pynew" (" [" (Lean.Parser.Tactic.simpLemma),* "]")? : tactic
macro_rules
  | `(tactic| pynew) => `(tactic| pynew [])
  | `(tactic| pynew [$ls,*]) => `(tactic| pyexec [heap_assoc, heap_cons, heap_nil, heap_length, append_getElem0, append_set0, append_getElem, append_set,
      List.getElem?_cons_zero, List.getElem?_cons_succ, List.set_cons_zero, List.set_cons_succ, List.length_cons, List.length_nil, Nat.zero_add, Nat.reduceAdd, Nat.add_assoc, Bool.not_true, Bool.not_false, $ls,*])

theorem range7 : rangeVals 0 7 = [.int 0, .int 1, .int 2, .int 3, .int 4, .int 5, .int 6] := rfl

theorem make47_src (n : Nat) (H : Heap) (bare : Bool) :
    callFn src (n + 1) n!"SubDecoderInterface.__make_MSM47O_spec" [.bool bare] H =
      (.ok (.ref (H.length + 2)), H ++ [.list ((msmNums [1074, 1075, 1076, 1077]).map (fun n : Nat => Val.int n)), .dict [], specObj (spec47 bare)]) := by
  pycall Look.fn_SubDecoderInterface_P_make_MSM47O_spec Src.fn_SubDecoderInterface_P_make_MSM47O_spec
  cases bare <;> (pynew [range7, forLoop_cons]; rfl)

theorem make13_src (n : Nat) (H : Heap) (bare : Bool) :
    callFn src (n + 1) n!"SubDecoderInterface.__make_MSM13O_spec" [.bool bare] H =
      (.ok (.ref (H.length + 2)), H ++ [.list ((msmNums [1071, 1072, 1073]).map (fun n : Nat => Val.int n)), .dict [], specObj (spec13 bare)]) := by
  pycall Look.fn_SubDecoderInterface_P_make_MSM13O_spec Src.fn_SubDecoderInterface_P_make_MSM13O_spec
  cases bare <;> (pynew [range7, forLoop_cons]; rfl)

def specEph : List (Nat × Ident) :=
  [(1045, n!"EphGALF"), (1046, n!"EphGALI"), (1020, n!"EphGLO"), (1019, n!"EphGPS"), (1044, n!"EphQZS"), (1042, n!"EphBDS"), (1041, n!"EphNAVIC")]

theorem makeEph_src (n : Nat) (H : Heap) (bare : Bool) :
    callFn src (n + 1) n!"SubDecoderInterface.__make_EPH_spec" [.bool bare] H = (.ok (.ref H.length), H ++ [specObj specEph]) := by
  pycall Look.fn_SubDecoderInterface_P_make_EPH_spec Src.fn_SubDecoderInterface_P_make_EPH_spec
  cases bare <;> (pynew; rfl)

def specBase : List (Nat × Ident) :=
  [(1005, n!"BaseRP"), (1006, n!"BaseRPH"), (1007, n!"BaseAD"), (1008, n!"BaseADSN"), (1033, n!"BaseADSNRC"), (1013, n!"BaseSP"), (1029, n!"BaseTS"),
    (1230, n!"BaseGLBS")]

theorem makeBase_src (n : Nat) (H : Heap) (bare : Bool) :
    callFn src (n + 1) n!"SubDecoderInterface.__make_BASE_spec" [.bool bare] H = (.ok (.ref H.length), H ++ [specObj specBase]) := by
  pycall Look.fn_SubDecoderInterface_P_make_BASE_spec Src.fn_SubDecoderInterface_P_make_BASE_spec
  cases bare <;> (pynew; rfl)

/-- `SubDecoderInterface.__init__` before the sub-decoder sets `decode` and `actual_messages`. -/
def ioNew (spec set : Nat) (subset : String) : Obj :=
  .inst n!"SubDecoderInterface" [(n!"decode", .fn n!"SubDecoderInterface.default_decode"), (n!"io_spec", .ref spec), (n!"subset", .str subset), (n!"actual_messages", .ref set)]

theorem subsets_obj : staticObj src n!"SubDecoderInterface" n!"_RTCM_MSG_SUBSETS" = some (.dict [(.str "LEGO", .fn n!"SubDecoderInterface.__make_LEGO_spec"),
    (.str "MSM13O", .fn n!"SubDecoderInterface.__make_MSM13O_spec"), (.str "MSM47O", .fn n!"SubDecoderInterface.__make_MSM47O_spec"),
    (.str "EPH", .fn n!"SubDecoderInterface.__make_EPH_spec"), (.str "BASE", .fn n!"SubDecoderInterface.__make_BASE_spec")]) := rfl

theorem subsets_get (k : String) (s : St) : builtinMeth src (.stat n!"SubDecoderInterface" n!"_RTCM_MSG_SUBSETS") n!"get" [.str k] s =
    (.ok ((dictGet [(.str "LEGO", .fn n!"SubDecoderInterface.__make_LEGO_spec"),
    (.str "MSM13O", .fn n!"SubDecoderInterface.__make_MSM13O_spec"), (.str "MSM47O", .fn n!"SubDecoderInterface.__make_MSM47O_spec"),
    (.str "EPH", .fn n!"SubDecoderInterface.__make_EPH_spec"), (.str "BASE", .fn n!"SubDecoderInterface.__make_BASE_spec")] (.str k)).getD .none), s) := rfl
theorem subset47 (s : St) : builtinMeth src (.stat n!"SubDecoderInterface" n!"_RTCM_MSG_SUBSETS") n!"get" [.str "MSM47O"] s =
    (.ok (.fn n!"SubDecoderInterface.__make_MSM47O_spec"), s) := rfl
theorem subset13 (s : St) : builtinMeth src (.stat n!"SubDecoderInterface" n!"_RTCM_MSG_SUBSETS") n!"get" [.str "MSM13O"] s =
    (.ok (.fn n!"SubDecoderInterface.__make_MSM13O_spec"), s) := rfl
theorem subsetEph (s : St) : builtinMeth src (.stat n!"SubDecoderInterface" n!"_RTCM_MSG_SUBSETS") n!"get" [.str "EPH"] s =
    (.ok (.fn n!"SubDecoderInterface.__make_EPH_spec"), s) := rfl
theorem subsetBase (s : St) : builtinMeth src (.stat n!"SubDecoderInterface" n!"_RTCM_MSG_SUBSETS") n!"get" [.str "BASE"] s =
    (.ok (.fn n!"SubDecoderInterface.__make_BASE_spec"), s) := rfl

theorem io47_src (n : Nat) (H : Heap) (bare : Bool) :
    callFn src (n + 2) n!"SubDecoderInterface.__init__" [.ref H.length, .str "MSM47O", .bool bare] (H ++ [.inst n!"SubDecoderInterface" []]) =
      (.ok .none, H ++ [ioNew (H.length + 3) (H.length + 4) "MSM47O", .list ((msmNums [1074, 1075, 1076, 1077]).map (fun n : Nat => Val.int n)), .dict [],
        specObj (spec47 bare), .set []]) := by
  pycall Look.fn_SubDecoderInterface_P_init_P Src.fn_SubDecoderInterface_P_init_P
  pynew [subset47, make47_src, getAttr_cls]
  rfl

theorem io13_src (n : Nat) (H : Heap) (bare : Bool) :
    callFn src (n + 2) n!"SubDecoderInterface.__init__" [.ref H.length, .str "MSM13O", .bool bare] (H ++ [.inst n!"SubDecoderInterface" []]) =
      (.ok .none, H ++ [ioNew (H.length + 3) (H.length + 4) "MSM13O", .list ((msmNums [1071, 1072, 1073]).map (fun n : Nat => Val.int n)), .dict [],
        specObj (spec13 bare), .set []]) := by
  pycall Look.fn_SubDecoderInterface_P_init_P Src.fn_SubDecoderInterface_P_init_P
  pynew [subset13, make13_src, getAttr_cls]
  rfl

theorem ioEph_src (n : Nat) (H : Heap) (bare : Bool) :
    callFn src (n + 2) n!"SubDecoderInterface.__init__" [.ref H.length, .str "EPH", .bool bare] (H ++ [.inst n!"SubDecoderInterface" []]) =
      (.ok .none, H ++ [ioNew (H.length + 1) (H.length + 2) "EPH", specObj specEph, .set []]) := by
  pycall Look.fn_SubDecoderInterface_P_init_P Src.fn_SubDecoderInterface_P_init_P
  pynew [subsetEph, makeEph_src, getAttr_cls]
  rfl

theorem ioBase_src (n : Nat) (H : Heap) (bare : Bool) :
    callFn src (n + 2) n!"SubDecoderInterface.__init__" [.ref H.length, .str "BASE", .bool bare] (H ++ [.inst n!"SubDecoderInterface" []]) =
      (.ok .none, H ++ [ioNew (H.length + 1) (H.length + 2) "BASE", specObj specBase, .set []]) := by
  pycall Look.fn_SubDecoderInterface_P_init_P Src.fn_SubDecoderInterface_P_init_P
  pynew [subsetBase, makeBase_src, getAttr_cls]
  rfl

/-- The interface when the sub-decoder has been made. -/
def ioObj (fn : Ident) (sub spec set : Nat) (subset : String) : Obj :=
  .inst n!"SubDecoderInterface" [(n!"decode", .bound fn (.ref sub)), (n!"io_spec", .ref spec), (n!"subset", .str subset), (n!"actual_messages", .ref set)]

def setObj (L : List Nat) : Obj := .set (L.map (fun n : Nat => Val.int n))

def sub47Obj (bare : Bool) (io : Nat) : Obj := .inst n!"SubdecoderMSM4567" [(n!"_SubdecoderMSM4567__bare_data", .bool bare), (n!"io", .ref io)]
def sub13Obj (bare : Bool) (io : Nat) : Obj := .inst n!"SubdecoderMSM123" [(n!"_SubdecoderMSM123__bare_data", .bool bare), (n!"io", .ref io)]

/-- The objects that `SubdecoderMSM4567(bare)` leaves at address `k`. -/
def made47 (bare : Bool) (k : Nat) : Heap :=
  [sub47Obj bare (k + 1), ioObj n!"SubdecoderMSM4567.decode" k (k + 4) (k + 6) "MSM47O", .list ((msmNums [1074, 1075, 1076, 1077]).map (fun n : Nat => Val.int n)), .dict [],
    specObj (spec47 bare), .set [], setObj (msmNums [1074, 1075, 1076, 1077])]

theorem keys47 (bare : Bool) : setOf (((spec47 bare).map (fun p => (Val.int p.1, Val.cls p.2))).map (fun x => x.1)) =
    (msmNums [1074, 1075, 1076, 1077]).map (fun n : Nat => Val.int n) := by cases bare <;> rfl
theorem keys13 (bare : Bool) : setOf (((spec13 bare).map (fun p => (Val.int p.1, Val.cls p.2))).map (fun x => x.1)) =
    (msmNums [1071, 1072, 1073]).map (fun n : Nat => Val.int n) := by cases bare <;> rfl

theorem sub47_init_src (n : Nat) (H : Heap) (bare : Bool) :
    callFn src (n + 3) n!"SubdecoderMSM4567.__init__" [.ref H.length, .bool bare] (H ++ [.inst n!"SubdecoderMSM4567" []]) = (.ok .none, H ++ made47 bare H.length) := by
  have h1 := io47_src n (H ++ [.inst n!"SubdecoderMSM4567" [(n!"_SubdecoderMSM4567__bare_data", .bool bare)]]) bare
  simp only [heap_assoc, heap_cons, heap_nil, heap_length, List.length_cons, List.length_nil, Nat.zero_add, Nat.reduceAdd, Nat.add_assoc] at h1
  pycall Look.fn_SubdecoderMSM4567_P_init_P Src.fn_SubdecoderMSM4567_P_init_P
  pynew [h1, getAttr_cls, ioNew, specObj, keys47]
  rfl

def made13 (bare : Bool) (k : Nat) : Heap :=
  [sub13Obj bare (k + 1), ioObj n!"SubdecoderMSM123.decode" k (k + 4) (k + 6) "MSM13O", .list ((msmNums [1071, 1072, 1073]).map (fun n : Nat => Val.int n)), .dict [],
    specObj (spec13 bare), .set [], setObj (msmNums [1071, 1072, 1073])]

theorem sub13_init_src (n : Nat) (H : Heap) (bare : Bool) :
    callFn src (n + 3) n!"SubdecoderMSM123.__init__" [.ref H.length, .bool bare] (H ++ [.inst n!"SubdecoderMSM123" []]) = (.ok .none, H ++ made13 bare H.length) := by
  have h1 := io13_src n (H ++ [.inst n!"SubdecoderMSM123" [(n!"_SubdecoderMSM123__bare_data", .bool bare)]]) bare
  simp only [heap_assoc, heap_cons, heap_nil, heap_length, List.length_cons, List.length_nil, Nat.zero_add, Nat.reduceAdd, Nat.add_assoc] at h1
  pycall Look.fn_SubdecoderMSM123_P_init_P Src.fn_SubdecoderMSM123_P_init_P
  pynew [h1, getAttr_cls, ioNew, specObj, keys13]
  rfl

def ephNums : List Nat := [1019, 1020, 1041, 1042, 1044, 1045, 1046]
def baseNums : List Nat := [1005, 1006, 1007, 1008, 1033, 1013, 1029, 1230]

def ephDecObj : Obj := .inst n!"EphemerisDecoder" [(n!"msgList", .tup (ephNums.map (fun n : Nat => Val.int n)))]
def baseDecObj : Obj := .inst n!"BaseStationDataDecoder" [(n!"msgList", .tup (baseNums.map (fun n : Nat => Val.int n)))]

theorem ephDec_init_src (n : Nat) (H : Heap) :
    callFn src (n + 1) n!"EphemerisDecoder.__init__" [.ref H.length] (H ++ [.inst n!"EphemerisDecoder" []]) = (.ok .none, H ++ [ephDecObj]) := by
  pycall Look.fn_EphemerisDecoder_P_init_P Src.fn_EphemerisDecoder_P_init_P
  pynew
  rfl

theorem baseDec_init_src (n : Nat) (H : Heap) :
    callFn src (n + 1) n!"BaseStationDataDecoder.__init__" [.ref H.length] (H ++ [.inst n!"BaseStationDataDecoder" []]) = (.ok .none, H ++ [baseDecObj]) := by
  pycall Look.fn_BaseStationDataDecoder_P_init_P Src.fn_BaseStationDataDecoder_P_init_P
  pynew
  rfl

def subEphObj (bare : Bool) (dec io : Nat) : Obj := .inst n!"SubdecoderEph" [(n!"_SubdecoderEph__bare_data", .bool bare), (n!"decoder", .ref dec), (n!"io", .ref io)]
def subBaseObj (bare : Bool) (dec io : Nat) : Obj :=
  .inst n!"SubdecoderBaseStationData" [(n!"_SubdecoderBaseStationData__is_bare_data", .bool bare), (n!"decoder", .ref dec), (n!"io", .ref io)]

def madeEph (bare : Bool) (k : Nat) : Heap :=
  [subEphObj bare (k + 1) (k + 2), ephDecObj, ioObj n!"SubdecoderEph.decode" k (k + 3) (k + 5) "EPH", specObj specEph, .set [], setObj ephNums]
def madeBase (bare : Bool) (k : Nat) : Heap :=
  [subBaseObj bare (k + 1) (k + 2), baseDecObj, ioObj n!"SubdecoderBaseStationData.decode" k (k + 3) (k + 5) "BASE", specObj specBase, .set [], setObj baseNums]

theorem keysEph : setOf (ephNums.map (fun n : Nat => Val.int n)) = ephNums.map (fun n : Nat => Val.int n) := rfl
theorem keysBase : setOf (baseNums.map (fun n : Nat => Val.int n)) = baseNums.map (fun n : Nat => Val.int n) := rfl

theorem subEph_init_src (n : Nat) (H : Heap) (bare : Bool) :
    callFn src (n + 3) n!"SubdecoderEph.__init__" [.ref H.length, .bool bare] (H ++ [.inst n!"SubdecoderEph" []]) = (.ok .none, H ++ madeEph bare H.length) := by
  have h0 := ephDec_init_src (n + 1) (H ++ [.inst n!"SubdecoderEph" [(n!"_SubdecoderEph__bare_data", .bool bare)]])
  have h1 := ioEph_src n (H ++ [.inst n!"SubdecoderEph" [(n!"_SubdecoderEph__bare_data", .bool bare), (n!"decoder", .ref (H.length + 1))], ephDecObj]) bare
  simp only [heap_assoc, heap_cons, heap_nil, heap_length, List.length_cons, List.length_nil, Nat.zero_add, Nat.reduceAdd, Nat.add_assoc] at h0 h1
  pycall Look.fn_SubdecoderEph_P_init_P Src.fn_SubdecoderEph_P_init_P
  unfold ephDecObj at h0 h1
  pynew [h0, h1, getAttr_cls, ioNew, specObj, keysEph]
  rfl

theorem subBase_init_src (n : Nat) (H : Heap) (bare : Bool) :
    callFn src (n + 3) n!"SubdecoderBaseStationData.__init__" [.ref H.length, .bool bare] (H ++ [.inst n!"SubdecoderBaseStationData" []]) = (.ok .none, H ++ madeBase bare H.length) := by
  have h0 := baseDec_init_src (n + 1) (H ++ [.inst n!"SubdecoderBaseStationData" [(n!"_SubdecoderBaseStationData__is_bare_data", .bool bare)]])
  have h1 := ioBase_src n (H ++ [.inst n!"SubdecoderBaseStationData" [(n!"_SubdecoderBaseStationData__is_bare_data", .bool bare), (n!"decoder", .ref (H.length + 1))], baseDecObj]) bare
  simp only [heap_assoc, heap_cons, heap_nil, heap_length, List.length_cons, List.length_nil, Nat.zero_add, Nat.reduceAdd, Nat.add_assoc] at h0 h1
  pycall Look.fn_SubdecoderBaseStationData_P_init_P Src.fn_SubdecoderBaseStationData_P_init_P
  unfold baseDecObj at h0 h1
  pynew [h0, h1, getAttr_cls, ioNew, specObj, keysBase]
  rfl

/-- `register_decoder` with an interface that is ready: it is entered in the registry under its name. -/
theorem register_src (n : Nat) {h : Heap} {a b d set spec sub : Nat} {x y : Val} {p : Parser} {fn : Ident} {s : String} {D : List (Val × Val)} {v : Val} {L : List Val}
    (ha : h[a]? = some (topObj (.ref d) x y p)) (hd : h[d]? = some (.dict D)) (hb : h[b]? = some (ioObj fn sub spec set s)) (hs : h[set]? = some (.set (v :: L))) :
    callFn src (n + 1) n!"DecoderTop.register_decoder" [.ref a, .ref b] h =
      (.ok (.bool true), (h ++ [Obj.dict [(.str s, .ref b)]]).set d (.dict (dictSet D (.str s) (.ref b)))) := by
  unfold topObj at ha
  unfold ioObj at hb
  have hi : subclass src n!"SubDecoderInterface" n!"SubDecoderInterface" = true := rfl
  have hq : pyEq (.bound fn (.ref sub)) (.fn n!"SubDecoderInterface.default_decode") = some false := rfl
  have hl : ∀ t, lenObj (.set (v :: L)) t = (.ok (.int ((v :: L).length : Int)), t) := fun _ => rfl
  have hz : ((((L.length + 1 : Nat) : Int)) == 0) = false := by
    rw [beq_eq_false_iff_ne]
    omega
  pycall Look.fn_DecoderTop_register_decoder Src.fn_DecoderTop_register_decoder
  pyexec [ha, hd, hb, hs, hi, getAttr_cls, heap_old ha, heap_old hd, heap_old hb, heap_last, Bool.not_true, hq, hl, List.length_cons, hz]
  rfl

/-- The sub-decoders that a strategy makes when the first object is at address `k`. -/
def allEntries (bare : Bool) (k : Nat) : List IoEntry := [
  ⟨k + 10, k + 13, k + 15, spec47 bare, msmNums [1074, 1075, 1076, 1077], "MSM47O", n!"SubdecoderMSM4567.decode", k + 9⟩,
  ⟨k + 3, k + 6, k + 8, spec13 bare, msmNums [1071, 1072, 1073], "MSM13O", n!"SubdecoderMSM123.decode", k + 2⟩,
  ⟨k + 18, k + 19, k + 21, specEph, ephNums, "EPH", n!"SubdecoderEph.decode", k + 16⟩,
  ⟨k + 24, k + 25, k + 27, specBase, baseNums, "BASE", n!"SubdecoderBaseStationData.decode", k + 22⟩]

/-- The objects. -/
def allObjects (bare : Bool) (k : Nat) : Heap :=
  topObj (.ref (k + 1)) (.int 0) (.int 0) Parser.init :: registryObj (allEntries bare k) :: (made13 bare (k + 2) ++ made47 bare (k + 9) ++ madeEph bare (k + 16) ++ madeBase bare (k + 22) ++
    [.dict [(.str "MSM47O", .ref (k + 10))], .dict [(.str "MSM13O", .ref (k + 3))], .dict [(.str "EPH", .ref (k + 18))], .dict [(.str "BASE", .ref (k + 24))]])

theorem top_new_src (n : Nat) (H : Heap) : callFn src (n + 1) n!"DecoderTop.__init__" [.ref H.length] (H ++ [.inst n!"DecoderTop" []]) =
    (.ok .none, H ++ [topObj (.ref (H.length + 1)) (.int 0) (.int 0) Parser.init, .dict []]) := by
  have := top_init_src n (H ++ [.inst n!"DecoderTop" []]) H.length (by simp)
  simpa [heap_assoc, append_set0, append_set, List.set_cons_zero] using this

/-- The heap between two registrations. -/
def midHeap (H : Heap) (bare : Bool) (D : List (Val × Val)) (E : Heap) : Heap :=
  H ++ (topObj (.ref (H.length + 1)) (.int 0) (.int 0) Parser.init :: .dict D :: (made13 bare (H.length + 2) ++ (made47 bare (H.length + 9) ++ (madeEph bare (H.length + 16) ++
    (madeBase bare (H.length + 22) ++ E)))))

theorem mid_register (n : Nat) (H : Heap) (bare : Bool) (D : List (Val × Val)) (E : Heap) (b set spec sub : Nat) (fn : Ident) (s : String) (v : Val) (L : List Val)
    (hb : (midHeap H bare D E)[H.length + b]? = some (ioObj fn sub spec (H.length + set) s))
    (hs : (midHeap H bare D E)[H.length + set]? = some (.set (v :: L))) :
    callFn src (n + 1) n!"DecoderTop.register_decoder" [.ref H.length, .ref (H.length + b)] (midHeap H bare D E) =
      (.ok (.bool true), midHeap H bare (dictSet D (.str s) (.ref (H.length + b))) (E ++ [.dict [(.str s, .ref (H.length + b))]])) := by
  have h1 : (midHeap H bare D E)[H.length]? = some (topObj (.ref (H.length + 1)) (.int 0) (.int 0) Parser.init) := append_getElem0 ..
  have h2 : (midHeap H bare D E)[H.length + 1]? = some (.dict D) := append_getElem ..
  rw [register_src n h1 h2 hb hs]
  congr 1
  unfold midHeap
  rw [heap_assoc, append_set, heap_cons, heap_cons, List.set_cons_succ, List.set_cons_zero, heap_assoc, heap_assoc, heap_assoc, heap_assoc]

theorem reg1 (n : Nat) (H : Heap) (bare : Bool) (D : List (Val × Val)) (E : Heap) :
    callFn src (n + 1) n!"DecoderTop.register_decoder" [.ref H.length, .ref (H.length + 10)] (midHeap H bare D E) =
      (.ok (.bool true), midHeap H bare (dictSet D (.str "MSM47O") (.ref (H.length + 10))) (E ++ [.dict [(.str "MSM47O", .ref (H.length + 10))]])) :=
  mid_register n H bare D E 10 15 _ _ _ _ _ _ (append_getElem ..) (append_getElem ..)
theorem reg2 (n : Nat) (H : Heap) (bare : Bool) (D : List (Val × Val)) (E : Heap) :
    callFn src (n + 1) n!"DecoderTop.register_decoder" [.ref H.length, .ref (H.length + 3)] (midHeap H bare D E) =
      (.ok (.bool true), midHeap H bare (dictSet D (.str "MSM13O") (.ref (H.length + 3))) (E ++ [.dict [(.str "MSM13O", .ref (H.length + 3))]])) :=
  mid_register n H bare D E 3 8 _ _ _ _ _ _ (append_getElem ..) (append_getElem ..)
theorem reg3 (n : Nat) (H : Heap) (bare : Bool) (D : List (Val × Val)) (E : Heap) :
    callFn src (n + 1) n!"DecoderTop.register_decoder" [.ref H.length, .ref (H.length + 18)] (midHeap H bare D E) =
      (.ok (.bool true), midHeap H bare (dictSet D (.str "EPH") (.ref (H.length + 18))) (E ++ [.dict [(.str "EPH", .ref (H.length + 18))]])) :=
  mid_register n H bare D E 18 21 _ _ _ _ _ _ (append_getElem ..) (append_getElem ..)
theorem reg4 (n : Nat) (H : Heap) (bare : Bool) (D : List (Val × Val)) (E : Heap) :
    callFn src (n + 1) n!"DecoderTop.register_decoder" [.ref H.length, .ref (H.length + 24)] (midHeap H bare D E) =
      (.ok (.bool true), midHeap H bare (dictSet D (.str "BASE") (.ref (H.length + 24))) (E ++ [.dict [(.str "BASE", .ref (H.length + 24))]])) :=
  mid_register n H bare D E 24 27 _ _ _ _ _ _ (append_getElem ..) (append_getElem ..)

theorem mid0 (H : Heap) (bare : Bool) (D : List (Val × Val)) (E : Heap) :
    (midHeap H bare D E)[H.length]? = some (topObj (.ref (H.length + 1)) (.int 0) (.int 0) Parser.init) := append_getElem0 ..
theorem mid2 (H : Heap) (bare : Bool) (D : List (Val × Val)) (E : Heap) : (midHeap H bare D E)[H.length + 2]? = some (sub13Obj bare (H.length + 3)) := append_getElem ..
theorem mid9 (H : Heap) (bare : Bool) (D : List (Val × Val)) (E : Heap) : (midHeap H bare D E)[H.length + 9]? = some (sub47Obj bare (H.length + 10)) := append_getElem ..
theorem mid16 (H : Heap) (bare : Bool) (D : List (Val × Val)) (E : Heap) :
    (midHeap H bare D E)[H.length + 16]? = some (subEphObj bare (H.length + 17) (H.length + 18)) := append_getElem ..
theorem mid22 (H : Heap) (bare : Bool) (D : List (Val × Val)) (E : Heap) :
    (midHeap H bare D E)[H.length + 22]? = some (subBaseObj bare (H.length + 23) (H.length + 24)) := append_getElem ..

/-- The four constructors. -/
theorem assembled_new (n : Nat) (H : Heap) (bare : Bool) (S : List Stmt) :
    execBlock src (n + 3) (callFn src (n + 3)) (
      .assign (.name n!"decoder") (.call (.name n!"DecoderTop") []) ::
      .assign (.name n!"msm123") (.call (.name n!"SubdecoderMSM123") [.const (.bool bare)]) ::
      .assign (.name n!"msm4567") (.call (.name n!"SubdecoderMSM4567") [.const (.bool bare)]) ::
      .assign (.name n!"eph") (.call (.name n!"SubdecoderEph") [.const (.bool bare)]) ::
      .assign (.name n!"base") (.call (.name n!"SubdecoderBaseStationData") [.const (.bool bare)]) :: S) ⟨[], H⟩ =
    execBlock src (n + 3) (callFn src (n + 3)) S ⟨[(n!"decoder", .ref H.length), (n!"msm123", .ref (H.length + 2)), (n!"msm4567", .ref (H.length + 9)),
      (n!"eph", .ref (H.length + 16)), (n!"base", .ref (H.length + 22))], midHeap H bare [] []⟩ := by
  have h1 := top_new_src (n + 2) H
  have h2 := sub13_init_src n (H ++ [topObj (.ref (H.length + 1)) (.int 0) (.int 0) Parser.init, .dict []]) bare
  have h3 := sub47_init_src n (H ++ [topObj (.ref (H.length + 1)) (.int 0) (.int 0) Parser.init, .dict []] ++ made13 bare (H.length + 2)) bare
  have h4 := subEph_init_src n (H ++ [topObj (.ref (H.length + 1)) (.int 0) (.int 0) Parser.init, .dict []] ++ made13 bare (H.length + 2) ++ made47 bare (H.length + 9)) bare
  have h5 := subBase_init_src n (H ++ [topObj (.ref (H.length + 1)) (.int 0) (.int 0) Parser.init, .dict []] ++ made13 bare (H.length + 2) ++ made47 bare (H.length + 9) ++
    madeEph bare (H.length + 16)) bare
  have l1 : ∀ k, (made13 bare k).length = 7 := fun _ => rfl
  have l2 : ∀ k, (made47 bare k).length = 7 := fun _ => rfl
  have l3 : ∀ k, (madeEph bare k).length = 6 := fun _ => rfl
  simp only [heap_assoc, heap_cons, heap_nil, heap_length, List.length_cons, List.length_nil, Nat.zero_add, Nat.reduceAdd, Nat.add_assoc, l1, l2, l3] at h1 h2 h3 h4 h5
  pynew [h1, h2, h3, h4, h5, l1, l2, l3, getAttr_cls]
  unfold midHeap
  rw [List.append_nil]

theorem assembleAll_src (n : Nat) (H : Heap) (bare : Bool) :
    ∃ l, execBlock src (n + 3) (callFn src (n + 3)) (strategyText true bare) ⟨[], H⟩ = (.ok (.ret (.ref H.length)), ⟨l, H ++ allObjects bare H.length⟩) := by
  have := assembled_new n H bare [registerSub n!"msm4567", registerSub n!"msm123", registerSub n!"eph", registerSub n!"base", .ret (.name n!"decoder")]
  change ∃ l, execBlock src (n + 3) (callFn src (n + 3)) (_ :: _ :: _ :: _ :: _ :: [registerSub n!"msm4567", registerSub n!"msm123", registerSub n!"eph", registerSub n!"base",
    .ret (.name n!"decoder")]) _ = _
  erw [this]
  unfold registerSub
  pyexec [mid0, mid2, mid9, mid16, mid22, topObj, sub13Obj, sub47Obj, subEphObj, subBaseObj, reg1 (n + 2), reg2 (n + 2), reg3 (n + 2), reg4 (n + 2), Bool.not_true, heap_nil]
  exact ⟨_, rfl⟩

/-! ## Multiple signal messages only -/

/-- The sub-decoders. -/
def msmEntries (bare : Bool) (k : Nat) : List IoEntry := [
  ⟨k + 10, k + 13, k + 15, spec47 bare, msmNums [1074, 1075, 1076, 1077], "MSM47O", n!"SubdecoderMSM4567.decode", k + 9⟩,
  ⟨k + 3, k + 6, k + 8, spec13 bare, msmNums [1071, 1072, 1073], "MSM13O", n!"SubdecoderMSM123.decode", k + 2⟩]

/-- The objects. -/
def msmObjects (bare : Bool) (k : Nat) : Heap :=
  topObj (.ref (k + 1)) (.int 0) (.int 0) Parser.init :: registryObj (msmEntries bare k) :: (made13 bare (k + 2) ++ made47 bare (k + 9) ++
    [.dict [(.str "MSM47O", .ref (k + 10))], .dict [(.str "MSM13O", .ref (k + 3))]])

def msmMid (H : Heap) (bare : Bool) (D : List (Val × Val)) (E : Heap) : Heap :=
  H ++ (topObj (.ref (H.length + 1)) (.int 0) (.int 0) Parser.init :: .dict D :: (made13 bare (H.length + 2) ++ (made47 bare (H.length + 9) ++ E)))

theorem msmMid_register (n : Nat) (H : Heap) (bare : Bool) (D : List (Val × Val)) (E : Heap) (b set spec sub : Nat) (fn : Ident) (s : String) (v : Val) (L : List Val)
    (hb : (msmMid H bare D E)[H.length + b]? = some (ioObj fn sub spec (H.length + set) s))
    (hs : (msmMid H bare D E)[H.length + set]? = some (.set (v :: L))) :
    callFn src (n + 1) n!"DecoderTop.register_decoder" [.ref H.length, .ref (H.length + b)] (msmMid H bare D E) =
      (.ok (.bool true), msmMid H bare (dictSet D (.str s) (.ref (H.length + b))) (E ++ [.dict [(.str s, .ref (H.length + b))]])) := by
  have h1 : (msmMid H bare D E)[H.length]? = some (topObj (.ref (H.length + 1)) (.int 0) (.int 0) Parser.init) := append_getElem0 ..
  have h2 : (msmMid H bare D E)[H.length + 1]? = some (.dict D) := append_getElem ..
  rw [register_src n h1 h2 hb hs]
  congr 1
  unfold msmMid
  rw [heap_assoc, append_set, heap_cons, heap_cons, List.set_cons_succ, List.set_cons_zero, heap_assoc, heap_assoc]

theorem msmReg1 (n : Nat) (H : Heap) (bare : Bool) (D : List (Val × Val)) (E : Heap) :
    callFn src (n + 1) n!"DecoderTop.register_decoder" [.ref H.length, .ref (H.length + 10)] (msmMid H bare D E) =
      (.ok (.bool true), msmMid H bare (dictSet D (.str "MSM47O") (.ref (H.length + 10))) (E ++ [.dict [(.str "MSM47O", .ref (H.length + 10))]])) :=
  msmMid_register n H bare D E 10 15 _ _ _ _ _ _ (append_getElem ..) (append_getElem ..)
theorem msmReg2 (n : Nat) (H : Heap) (bare : Bool) (D : List (Val × Val)) (E : Heap) :
    callFn src (n + 1) n!"DecoderTop.register_decoder" [.ref H.length, .ref (H.length + 3)] (msmMid H bare D E) =
      (.ok (.bool true), msmMid H bare (dictSet D (.str "MSM13O") (.ref (H.length + 3))) (E ++ [.dict [(.str "MSM13O", .ref (H.length + 3))]])) :=
  msmMid_register n H bare D E 3 8 _ _ _ _ _ _ (append_getElem ..) (append_getElem ..)
theorem msmMid0 (H : Heap) (bare : Bool) (D : List (Val × Val)) (E : Heap) :
    (msmMid H bare D E)[H.length]? = some (topObj (.ref (H.length + 1)) (.int 0) (.int 0) Parser.init) := append_getElem0 ..
theorem msmMid2 (H : Heap) (bare : Bool) (D : List (Val × Val)) (E : Heap) : (msmMid H bare D E)[H.length + 2]? = some (sub13Obj bare (H.length + 3)) := append_getElem ..
theorem msmMid9 (H : Heap) (bare : Bool) (D : List (Val × Val)) (E : Heap) : (msmMid H bare D E)[H.length + 9]? = some (sub47Obj bare (H.length + 10)) := append_getElem ..

theorem msm_new (n : Nat) (H : Heap) (bare : Bool) (S : List Stmt) :
    execBlock src (n + 3) (callFn src (n + 3)) (
      .assign (.name n!"decoder") (.call (.name n!"DecoderTop") []) ::
      .assign (.name n!"msm123") (.call (.name n!"SubdecoderMSM123") [.const (.bool bare)]) ::
      .assign (.name n!"msm4567") (.call (.name n!"SubdecoderMSM4567") [.const (.bool bare)]) :: S) ⟨[], H⟩ =
    execBlock src (n + 3) (callFn src (n + 3)) S ⟨[(n!"decoder", .ref H.length), (n!"msm123", .ref (H.length + 2)), (n!"msm4567", .ref (H.length + 9))], msmMid H bare [] []⟩ := by
  have h1 := top_new_src (n + 2) H
  have h2 := sub13_init_src n (H ++ [topObj (.ref (H.length + 1)) (.int 0) (.int 0) Parser.init, .dict []]) bare
  have h3 := sub47_init_src n (H ++ [topObj (.ref (H.length + 1)) (.int 0) (.int 0) Parser.init, .dict []] ++ made13 bare (H.length + 2)) bare
  have l1 : ∀ k, (made13 bare k).length = 7 := fun _ => rfl
  simp only [heap_assoc, heap_cons, heap_nil, heap_length, List.length_cons, List.length_nil, Nat.zero_add, Nat.reduceAdd, Nat.add_assoc, l1] at h1 h2 h3
  pynew [h1, h2, h3, l1, getAttr_cls]
  unfold msmMid
  rw [List.append_nil]

theorem assembleMsm_src (n : Nat) (H : Heap) (bare : Bool) :
    ∃ l, execBlock src (n + 3) (callFn src (n + 3)) (strategyText false bare) ⟨[], H⟩ = (.ok (.ret (.ref H.length)), ⟨l, H ++ msmObjects bare H.length⟩) := by
  have := msm_new n H bare [registerSub n!"msm4567", registerSub n!"msm123", .ret (.name n!"decoder")]
  change ∃ l, execBlock src (n + 3) (callFn src (n + 3)) (_ :: _ :: _ :: [registerSub n!"msm4567", registerSub n!"msm123", .ret (.name n!"decoder")]) _ = _
  erw [this]
  unfold registerSub
  pyexec [msmMid0, msmMid2, msmMid9, topObj, sub13Obj, sub47Obj, msmReg1 (n + 2), msmReg2 (n + 2), Bool.not_true, heap_nil]
  exact ⟨_, rfl⟩

end Refine
end PyCore
end Verif
