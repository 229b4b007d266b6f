import Verif.Refine.BaseSim
import Verif.Refine.ScHeap
import Verif.Refine.MsmExtract

/-!
# Objects of gnss_types/base_station.py on the heap
-/

namespace Verif
namespace PyCore
namespace Refine
open Base

open Rounding (rnd)
variable [Rounding]

section
variable {β ν σ : Type} (fb : β → Val) (fn : ν → Val) (fq : σ → Val)

/-- `BaseRP`. -/
def rpFields (o : BaseRP β ν σ) : List (Ident × Val) :=
  [(n!"msgNum", .int o.msgNum),
   (n!"bsID", .int o.bsID),
   (n!"ITRF_Year", .int o.ITRF_Year),
   (n!"GPS_OK", fb o.GPS_OK),
   (n!"GLO_OK", fb o.GLO_OK),
   (n!"GAL_OK", fb o.GAL_OK),
   (n!"isVirtual", fb o.isVirtual),
   (n!"refPoint_X", fn o.refPoint_X),
   (n!"singleOsc", fb o.singleOsc),
   (n!"refPoint_Y", fn o.refPoint_Y),
   (n!"QC_bias", fq o.QC_bias),
   (n!"refPoint_Z", fn o.refPoint_Z)]

/-- `BaseRPH`. -/
def rphFields (o : BaseRPH β ν σ) : List (Ident × Val) := rpFields fb fn fq o.rp ++ [(n!"height", fn o.height)]

/-- `BaseAD`. -/
def adFields (o : BaseAD) : List (Ident × Val) :=
  [(n!"msgNum", .int o.msgNum),
   (n!"bsID", .int o.bsID),
   (n!"descrLength", .int o.descrLength),
   (n!"descr", .str o.descr),
   (n!"setupID", .int o.setupID)]

/-- `BaseADSN`. -/
def adsnFields (o : BaseADSN) : List (Ident × Val) :=
  adFields o.ad ++ [(n!"serialNumberLength", .int o.serialNumberLength), (n!"serialNumber", .str o.serialNumber)]

/-- `BaseADSNRC`. -/
def adsnrcFields (o : BaseADSNRC) : List (Ident × Val) :=
  adsnFields o.adsn ++
    [(n!"rcvDescriptorLength", .int o.rcvDescriptorLength), (n!"rcvDescriptor", .str o.rcvDescriptor),
     (n!"rcvFWVersionLength", .int o.rcvFWVersionLength), (n!"rcvFWVersion", .str o.rcvFWVersion),
     (n!"rcvSerNumLength", .int o.rcvSerNumLength), (n!"rcvSerNum", .str o.rcvSerNum)]

/-- `BaseSP`; the schedule is a dictionary. -/
def spFields (o : BaseSP β ν) (d : Nat) : List (Ident × Val) :=
  [(n!"msgNum", .int o.msgNum),
   (n!"bsID", .int o.bsID),
   (n!"modifiedJulianDay", .int o.modifiedJulianDay),
   (n!"daySec", .int o.daySec),
   (n!"Nm", .int o.Nm),
   (n!"leapSec", .int o.leapSec),
   (n!"shedule", .ref d)]

/-- The schedule. -/
def schedDict (d : PyDict Int (β × ν)) : List (Val × Val) := encD .int (fun _ p => .tup [fb p.1, fn p.2]) d

/-- `BaseTS`. -/
def tsFields (o : BaseTS) : List (Ident × Val) :=
  [(n!"msgNum", .int o.msgNum),
   (n!"bsID", .int o.bsID),
   (n!"modifiedJulianDay", .int o.modifiedJulianDay),
   (n!"daySec", .int o.daySec),
   (n!"charNum", .int o.charNum),
   (n!"unitsNum", .int o.unitsNum),
   (n!"message", .str o.message)]

/-- `BaseGLBS`; validity and correction are dictionaries. -/
def glbsFields (o : BaseGLBS β ν) (d e : Nat) : List (Ident × Val) :=
  [(n!"msgNum", .int o.msgNum),
   (n!"bsID", .int o.bsID),
   (n!"isCorrected", fb o.isCorrected),
   (n!"validity", .ref d),
   (n!"correction", .ref e)]

/-- The keys of the dictionaries. -/
def biasKeys : List String := ["1C", "1P", "2C", "2P"]

/-- At `b` in the heap there is an object of the model. -/
def ShowsBase (h : Heap) (b : Nat) : Base.Obj β ν σ → Prop
  | .rp o => h[b]? = some (.inst n!"BaseRP" (rpFields fb fn fq o))
  | .rph o => h[b]? = some (.inst n!"BaseRPH" (rphFields fb fn fq o))
  | .ad o => h[b]? = some (.inst n!"BaseAD" (adFields o))
  | .adsn o => h[b]? = some (.inst n!"BaseADSN" (adsnFields o))
  | .adsnrc o => h[b]? = some (.inst n!"BaseADSNRC" (adsnrcFields o))
  | .sp o => ∃ d, h[b]? = some (.inst n!"BaseSP" (spFields o d)) ∧ h[d]? = some (.dict (schedDict fb fn o.shedule)) ∧
      o.shedule.keys.Nodup
  | .ts o => h[b]? = some (.inst n!"BaseTS" (tsFields o))
  | .glbs o => ∃ d e, h[b]? = some (.inst n!"BaseGLBS" (glbsFields fb o d e)) ∧ h[d]? = some (.dict (encD .str (fun _ v => fb v) o.validity)) ∧
      h[e]? = some (.dict (encD .str (fun _ v => fn v) o.correction)) ∧ d ≠ e ∧ o.validity.keys = biasKeys ∧ o.correction.keys = biasKeys

end

/-- Bare objects. -/
def BareShown (o : BareObj) (h : Heap) (b : Nat) : Prop := ShowsBase .int .int .int h b o

/-- Scaled objects. -/
def ScaledBase (o : ScaledObj) (h : Heap) (b : Nat) : Prop := ShowsBase .bool .flt .str h b o

/-- `bs.x, offset = self.getbitu(buf, offset, w), offset + w` -/
def uI (x : Ident) (w : Nat) : BItem := .fld ⟨x, .u, w, [w]⟩
/-- `bs.x, offset = self.getbits(buf, offset, w), offset + w` -/
def sI (x : Ident) (w : Nat) : BItem := .fld ⟨x, .s, w, [w]⟩

/-- A new `BaseRP`. -/
def rpNew : List (Ident × Val) := rpFields (fun x : Int => .int x) (fun x : Int => .int x) (fun x : Int => .int x) ⟨0, 0, 0, 0, 0, 0, 0, 0, 0, 0, 0, 0⟩

/-- The fields of 1005 and 1006, sub_decoders/RTCM_BASE.py:70-81. -/
def rpItems : List BItem :=
  [uI n!"bsID" 12, uI n!"ITRF_Year" 6, uI n!"GPS_OK" 1, uI n!"GLO_OK" 1, uI n!"GAL_OK" 1, uI n!"isVirtual" 1, sI n!"refPoint_X" 38,
   .fld ⟨n!"singleOsc", .u, 1, [1, 1]⟩, sI n!"refPoint_Y" 38, uI n!"QC_bias" 2, sI n!"refPoint_Z" 38]

theorem rpItems_ok : ∀ i ∈ rpItems, i.Ok := by
  intro i hi
  simp only [rpItems, uI, sI, List.mem_cons, List.not_mem_nil, or_false] at hi
  rcases hi with rfl | rfl | rfl | rfl | rfl | rfl | rfl | rfl | rfl | rfl | rfl <;> (intro e; cases e)

/-- The local variables after the first statements. -/
def baseLoc (a : Nat) (buf : Bytes) (r o num : Nat) : List (Ident × Val) :=
  [(n!"self", .ref a), (n!"buf", .bytes buf), (n!"offset", .int o), (n!"msgNum", .int num), (n!"bs", .ref r)]

theorem baseLoc_ok (a : Nat) (buf : Bytes) (r o num : Nat) : BLoc (baseLoc a buf r o num) a buf r o :=
  ⟨rfl, rfl, rfl, rfl, by
    intro x hx
    simp only [baseGlobs, List.mem_cons, List.not_mem_nil, or_false] at hx
    rcases hx with rfl | rfl | rfl | rfl | rfl | rfl | rfl | rfl | rfl <;> rfl⟩

/-- `self.getbitu(buf, offset, w)` -/
def getU (w : Int) : Expr := .call (.attr (.name n!"self") n!"getbitu") [.name n!"buf", .name n!"offset", .const (.int w)]

theorem getU_src (n : Nat) {H : Heap} {a : Nat} {v : Val} (ha : H[a]? = some (.inst n!"BaseStationDataDecoder" [(n!"msgList", v)]))
    (l : List (Ident × Val)) (buf : Bytes) (o w : Nat) (h1 : l.lookup n!"self" = some (.ref a)) (h2 : l.lookup n!"buf" = some (.bytes buf))
    (h3 : l.lookup n!"offset" = some (.int o)) :
    eval src (callFn src (n + 2)) (getU w) ⟨l, H⟩ = match Bits.gbu buf o w with
      | .ok v => (.ok (.int v), ⟨l, H⟩)
      | .error e => (.error (.py (errName e)), ⟨l, H⟩) := by
  have h := read_call n n!"BaseStationDataDecoder" [(n!"msgList", v)] .u (baseSelfObj v) (by intro hk; cases hk) a l H ha h1 buf o w
    (.name n!"buf") (.name n!"offset") (by pyexec [h2]) (by pyexec [h3])
  unfold getU
  refine h.trans ?_
  simp only [Kind.read]
  cases Bits.gbu buf o w <;> rfl

theorem basePrefix_src (n k : Nat) {h : Heap} {a : Nat} {v : Val} (ha : h[a]? = some (.inst n!"BaseStationDataDecoder" [(n!"msgList", v)]))
    (buf : Bytes) (R : List Stmt) :
    execBlock src k (callFn src (n + 2)) (.assign (.name n!"offset") (.const (.int 24)) ::
      .unpack [.name n!"msgNum", .name n!"offset"] (.tuple [getU 12, .bin .add (.name n!"offset") (.const (.int 12))]) :: R)
      ⟨[(n!"self", .ref a), (n!"buf", .bytes buf)], h⟩ = match Bits.gbu buf 24 12 with
        | .ok x => execBlock src k (callFn src (n + 2)) R
            ⟨[(n!"self", .ref a), (n!"buf", .bytes buf), (n!"offset", .int (36 : Nat)), (n!"msgNum", .int (x : Nat))], h⟩
        | .error e => (.error (.py (errName e)), ⟨[(n!"self", .ref a), (n!"buf", .bytes buf), (n!"offset", .int 24)], h⟩) := by
  have hg := getU_src n ha [(n!"self", .ref a), (n!"buf", .bytes buf), (n!"offset", .int 24)] buf 24 12 rfl rfl rfl
  have e1 : (24 : Int) + (12 : Int) = ((36 : Nat) : Int) := rfl
  cases hv : Bits.gbu buf 24 12 with
  | error e =>
    rw [hv] at hg
    have hg : eval src (callFn src (n + 2)) (getU 12) ⟨[(n!"self", .ref a), (n!"buf", .bytes buf), (n!"offset", .int 24)], h⟩ = _ := hg
    pyexec [hg]
  | ok x =>
    rw [hv] at hg
    have hg : eval src (callFn src (n + 2)) (getU 12) ⟨[(n!"self", .ref a), (n!"buf", .bytes buf), (n!"offset", .int 24)], h⟩ = _ := hg
    pyexec [hg, e1]

/-- The common fields of 1005 and 1006 in the model. -/
def rpRead (k : BaseRP Int Int Int → Py BareObj) (buf : Bytes) (msgNum : Nat) : Py BareObj := do
  let bsID ← Bits.gbu buf 36 12
  let ITRF_Year ← Bits.gbu buf 48 6
  let GPS_OK ← Bits.gbu buf 54 1
  let GLO_OK ← Bits.gbu buf 55 1
  let GAL_OK ← Bits.gbu buf 56 1
  let isVirtual ← Bits.gbu buf 57 1
  let refPoint_X ← Bits.gbs buf 58 38
  let singleOsc ← Bits.gbu buf 96 1
  let refPoint_Y ← Bits.gbs buf 98 38
  let QC_bias ← Bits.gbu buf 136 2
  let refPoint_Z ← Bits.gbs buf 138 38
  k ⟨msgNum, bsID, ITRF_Year, GPS_OK, GLO_OK, GAL_OK, isVirtual, refPoint_X, singleOsc, refPoint_Y, QC_bias, refPoint_Z⟩

theorem rpRead_sim {Φ : BareObj → Heap → Nat → Prop} (n k : Nat) {h : Heap} {a : Nat} {v : Val}
    (ha : h[a]? = some (.inst n!"BaseStationDataDecoder" [(n!"msgList", v)])) {buf : Bytes} {c : Ident} (rest : List Stmt) (x : Nat)
    (ext : List (Ident × Val)) (m : BaseRP Int Int Int → Py BareObj) 
    (hs : ∀ (o : BaseRP Int Int Int) (l : List (Ident × Val)), BLoc l a buf h.length 176 → 
      Post Φ h (execBlock src k (callFn src (n + 2)) rest ⟨l, h ++ [.inst c (rpFields .int .int .int o ++ ext)]⟩) (m o)) :
    Post Φ h (execBlock src k (callFn src (n + 2)) (rpItems.flatMap BItem.stmts ++ rest)
      ⟨baseLoc a buf h.length 36 x, h ++ [.inst c (M.bindKey (rpNew ++ ext) n!"msgNum" (.int x))]⟩) (rpRead m buf x) := by
  refine items_sim (t := []) n k ha rest rpItems rpItems_ok (baseLoc_ok a buf h.length 36 x) ?_
  unfold rpItems uI sI rpRead
  refine BSim.u _ _ _ _ _ _ _ _ rfl fun v1 => ?_
  refine BSim.u _ _ _ _ _ _ _ _ rfl fun v2 => ?_
  refine BSim.u _ _ _ _ _ _ _ _ rfl fun v3 => ?_
  refine BSim.u _ _ _ _ _ _ _ _ rfl fun v4 => ?_
  refine BSim.u _ _ _ _ _ _ _ _ rfl fun v5 => ?_
  refine BSim.u _ _ _ _ _ _ _ _ rfl fun v6 => ?_
  refine BSim.s _ _ _ _ _ _ _ _ rfl fun v7 => ?_
  refine BSim.u _ _ _ _ _ _ _ _ rfl fun v8 => ?_
  refine BSim.s _ _ _ _ _ _ _ _ rfl fun v9 => ?_
  refine BSim.u _ _ _ _ _ _ _ _ rfl fun v10 => ?_
  refine BSim.s _ _ _ _ _ _ _ _ rfl fun v11 => ?_
  refine BSim.done fun l' _ hl => ?_
  exact hs _ l' hl

theorem block_ite (k : Nat) (call : CallT) (c : Expr) (A B R : List Stmt) (s : St) (b : Bool) (hc : eval src call c s = (.ok (.bool b), s)) :
    execBlock src k call (.ite c A B :: R) s = execBlock src k call ((if b then A else B) ++ R) s := by
  rw [execBlock_app, execBlock_cons]
  cases b <;> pyexec [hc]

theorem decode10056_src (n : Nat) {h : Heap} {a : Nat} (ha : BaseSelf h a) (buf : Bytes) :
    Builds BareShown h (callFn src (n + 3) n!"BaseStationDataDecoder.__decode10056" [.ref a, .bytes buf] h) (decode10056 buf) := by
  obtain ⟨v, ha⟩ := ha
  rw [callFn_succ src _ _ _ _ _ _ Look.fn_BaseStationDataDecoder_P_decode10056 rfl]
  have hbody : Src.fn_BaseStationDataDecoder_P_decode10056.body =
      .assign (.name n!"offset") (.const (.int 24)) ::
      .unpack [.name n!"msgNum", .name n!"offset"] (.tuple [getU 12, .bin .add (.name n!"offset") (.const (.int 12))]) ::
      .assign (.name n!"bs") (.ite (.cmp .eq (.name n!"msgNum") (.const (.int 1005))) (.call (.name n!"BaseRP") []) (.call (.name n!"BaseRPH") [])) ::
      .assign (.attr (.name n!"bs") n!"msgNum") (.name n!"msgNum") ::
      (rpItems.flatMap BItem.stmts ++
      [.ite (.call (.name n!"isinstance") [.name n!"bs", .name n!"BaseRPH"])
        ([uI n!"height" 16].flatMap BItem.stmts ++ [(baseEnd (.const (.int 168))).head (by decide)]) [(baseEnd (.const (.int 152))).head (by decide)],
       .ret (.name n!"bs")]) := rfl
  rw [hbody]
  generalize hR : ([.ite _ _ _, .ret _] : List Stmt) = R
  change Post BareShown h (execBlock src (n + 2) (callFn src (n + 2)) _ ⟨[(n!"self", .ref a), (n!"buf", .bytes buf)], h⟩) _
  rw [basePrefix_src n _ ha buf]
  have hm : decode10056 buf = Bits.gbu buf 24 12 >>= fun x => if x = 1005 then
      rpRead (fun bs => Base.lengthCheck 152 152 buf.length >>= fun _ => pure (.rp bs)) buf x
    else rpRead (fun bs => Bits.gbu buf 176 16 >>= fun height => Base.lengthCheck 168 168 buf.length >>= fun _ => pure (.rph ⟨bs, height⟩)) buf x := by
    unfold decode10056 rpRead
    refine congrArg (Bits.gbu buf 24 12 >>= ·) (funext fun x => ?_)
    by_cases hx : x = 1005 <;> simp only [hx, if_true, if_false]
  rw [hm]
  cases hv : Bits.gbu buf 24 12 with
  | error e => exact ⟨[], by rw [List.append_nil]; rfl⟩
  | ok x =>
    show Post BareShown h _ (if x = 1005 then _ else _)
    by_cases hx : x = 1005
    · have e2 : ((x : Int) == (1005 : Int)) = true := by rw [beq_iff_eq]; omega
      have hnew : ∀ s, M.mapList fieldVal (dataFields src n!"BaseRP") s = (.ok rpNew, s) := fun _ => rfl
      rw [if_pos hx]
      generalize hQ : rpItems.flatMap BItem.stmts ++ R = Q
      dsimp only
      pyexec [e2, hnew, heap_set, List.contains_cons, Bool.or_true, Bool.true_or, heap_last]
      subst hQ
      refine rpRead_sim n (n + 2) ha R x [] _ fun o l hl => ?_
      rw [← hR, block_ite _ _ _ _ _ _ _ false (by
        pyexec [hl.glob n!"isinstance" (by decide), hl.glob n!"BaseRPH" (by decide), hl.bs, heap_last]
        rfl)]
      exact baseEnd_src n (n + 2) ha (.const (.int 152)) [] 152 hl (by omega) (by rw [eval_const]; rfl) (Base.Obj.rp o) (by
        unfold BareShown ShowsBase
        rw [heap_last, List.append_nil])
    · have e2 : ((x : Int) == (1005 : Int)) = false := by rw [beq_eq_false_iff_ne]; omega
      have hnew : ∀ s, M.mapList fieldVal (dataFields src n!"BaseRPH") s = (.ok (rpNew ++ [(n!"height", .int 0)]), s) := fun _ => rfl
      rw [if_neg hx]
      generalize hQ : rpItems.flatMap BItem.stmts ++ R = Q
      dsimp only
      pyexec [e2, hnew, heap_set, List.contains_cons, Bool.or_true, Bool.true_or, heap_last]
      subst hQ
      refine rpRead_sim n (n + 2) ha R x [(n!"height", .int 0)] _ fun o l hl => ?_
      rw [← hR, block_ite _ _ _ _ _ _ _ true (by
        pyexec [hl.glob n!"isinstance" (by decide), hl.glob n!"BaseRPH" (by decide), hl.bs, heap_last]
        rfl)]
      rw [if_pos rfl, List.append_assoc]
      refine items_sim (t := []) n (n + 2) ha _ [uI n!"height" 16] (by
        intro i hi
        rw [List.mem_singleton] at hi
        subst hi
        intro e
        cases e) hl ?_
      refine BSim.u _ _ _ _ _ _ _ _ rfl fun y => ?_
      refine BSim.done fun l' _ hl' => ?_
      exact baseEnd_src n (n + 2) ha (.const (.int 168)) [] 168 (o := 192) hl' (by omega) (by rw [eval_const]; rfl) (Base.Obj.rph ⟨o, y⟩) (by
        unfold BareShown ShowsBase
        rw [heap_last]
        rfl)

end Refine
end PyCore
end Verif
