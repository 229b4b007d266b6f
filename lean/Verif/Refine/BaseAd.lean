import Verif.Refine.BaseObj

/-!
# The text of `__decode10078_1033` and `__decode1029`
-/

namespace Verif
namespace PyCore
namespace Refine
open Base

open Rounding (rnd)
variable [Rounding]

theorem BLoc.bindOther {l : List (Ident × Val)} {a : Nat} {buf : Bytes} {r o : Nat} (hl : BLoc l a buf r o) (y : Ident) (v : Val)
    (h1 : (n!"self" == y) = false) (h2 : (n!"buf" == y) = false) (h3 : (n!"bs" == y) = false) (h4 : (n!"offset" == y) = false)
    (h5 : ∀ x ∈ baseGlobs, (x == y) = false) : BLoc (M.bindKey l y v) a buf r o :=
  ⟨(lookup_bind_ne h1).trans hl.self, (lookup_bind_ne h2).trans hl.buf, (lookup_bind_ne h3).trans hl.bs, (lookup_bind_ne h4).trans hl.off,
    fun x hx => (lookup_bind_ne (h5 x hx)).trans (hl.glob x hx)⟩

theorem bitem_text_ok (lf f : Ident) : (BItem.text n!"symb" lf f).Ok := Or.inl rfl
theorem bitem_u_ok (f : Ident) (w : Nat) : (uI f w).Ok := fun e => nomatch e

/-- A new `BaseAD`. -/
def adNew : List (Ident × Val) := adFields ⟨0, 0, 0, "", 0⟩
/-- Further fields of a new `BaseADSN`. -/
def adsnExt : List (Ident × Val) := [(n!"serialNumberLength", .int 0), (n!"serialNumber", .str "")]
/-- Further fields of a new `BaseADSNRC`. -/
def adsnrcExt : List (Ident × Val) := [(n!"rcvDescriptorLength", .int 0), (n!"rcvDescriptor", .str ""), (n!"rcvFWVersionLength", .int 0),
  (n!"rcvFWVersion", .str ""), (n!"rcvSerNumLength", .int 0), (n!"rcvSerNum", .str "")]

/-- sub_decoders/RTCM_BASE.py:127-135 -/
def adItems : List BItem := [uI n!"bsID" 12, .text n!"symb" n!"descrLength" n!"descr", uI n!"setupID" 8]
/-- sub_decoders/RTCM_BASE.py:142-150 -/
def adsnItems : List BItem := [.text n!"symb" n!"serialNumberLength" n!"serialNumber"]
/-- sub_decoders/RTCM_BASE.py:159-184 -/
def adsnrcItems : List BItem := [.text n!"symb" n!"rcvDescriptorLength" n!"rcvDescriptor", .text n!"symb" n!"rcvFWVersionLength" n!"rcvFWVersion",
  .text n!"symb" n!"rcvSerNumLength" n!"rcvSerNum"]

theorem adItems_ok : ∀ i ∈ adItems, i.Ok := by
  intro i hi
  simp only [adItems, List.mem_cons, List.not_mem_nil, or_false] at hi
  rcases hi with rfl | rfl | rfl
  · exact bitem_u_ok _ _
  · exact bitem_text_ok _ _
  · exact bitem_u_ok _ _
theorem adsnItems_ok : ∀ i ∈ adsnItems, i.Ok := by
  intro i hi
  simp only [adsnItems, List.mem_cons, List.not_mem_nil, or_false] at hi
  subst hi
  exact bitem_text_ok _ _
theorem adsnrcItems_ok : ∀ i ∈ adsnrcItems, i.Ok := by
  intro i hi
  simp only [adsnrcItems, List.mem_cons, List.not_mem_nil, or_false] at hi
  rcases hi with rfl | rfl | rfl <;> exact bitem_text_ok _ _

/-- The first part of the model. -/
def adRead (k : BaseAD → Nat → Py BareObj) (buf : Bytes) (msgNum : Nat) : Py BareObj :=
  Bits.gbu buf 36 12 >>= fun bsID => Bits.gbu buf 48 8 >>= fun descrLength => readHex buf descrLength (48 + 8) "" >>= fun r =>
  Bits.gbu buf r.2 8 >>= fun setupID => k ⟨msgNum, bsID, descrLength, PyStr.strip r.1, setupID⟩ (r.2 + 8)

/-- The second part of the model. -/
def adsnRead (k : BaseADSN → Nat → Py BareObj) (buf : Bytes) (ad : BaseAD) (o : Nat) : Py BareObj :=
  Bits.gbu buf o 8 >>= fun n => readHex buf n (o + 8) "" >>= fun r => k ⟨ad, n, PyStr.strip r.1⟩ r.2

/-- The third part of the model. -/
def adsnrcRead (k : BaseADSNRC → Nat → Py BareObj) (buf : Bytes) (ad : BaseADSN) (o : Nat) : Py BareObj :=
  Bits.gbu buf o 8 >>= fun n => readHex buf n (o + 8) "" >>= fun r =>
  Bits.gbu buf r.2 8 >>= fun n' => readHex buf n' (r.2 + 8) "" >>= fun r' =>
  Bits.gbu buf r'.2 8 >>= fun n'' => readHex buf n'' (r'.2 + 8) "" >>= fun r'' =>
  k ⟨ad, n, PyStr.strip r.1, n', PyStr.strip r'.1, n'', PyStr.strip r''.1⟩ r''.2

section
variable {Φ : BareObj → Heap → Nat → Prop} (n k : Nat) {h : Heap} {a : Nat} {v : Val}
    (ha : h[a]? = some (.inst n!"BaseStationDataDecoder" [(n!"msgList", v)])) {buf : Bytes} {c : Ident} (rest : List Stmt) (x : Nat)
    (ext : List (Ident × Val))

include ha in
theorem adRead_sim (m : BaseAD → Nat → Py BareObj)
    (hs : ∀ (o : BaseAD) (p : Nat) (l : List (Ident × Val)), BLoc l a buf h.length p → 24 ≤ p → 0 ≤ o.descrLength → 
      Post Φ h (execBlock src k (callFn src (n + 2)) rest ⟨l, h ++ [.inst c (adFields o ++ ext)]⟩) (m o p)) :
    Post Φ h (execBlock src k (callFn src (n + 2)) (adItems.flatMap BItem.stmts ++ rest)
      ⟨baseLoc a buf h.length 36 x, h ++ [.inst c (M.bindKey (adNew ++ ext) n!"msgNum" (.int x))]⟩) (adRead m buf x) := by
  refine items_sim (t := []) n k ha rest adItems adItems_ok (baseLoc_ok a buf h.length 36 x) ?_
  unfold adItems uI adRead
  refine BSim.u _ _ _ _ _ _ _ _ rfl fun v1 => ?_
  refine BSim.text 48 _ _ _ _ _ _ fun v2 y o' ho => ?_
  refine BSim.u _ _ _ _ _ _ _ _ rfl fun v3 => ?_
  refine BSim.done fun l' _ hl => ?_
  exact hs ⟨x, v1, v2, PyStr.strip y, v3⟩ _ l' hl (by simp only []; omega) (by simp)

include ha in
theorem adsnRead_sim (m : BaseADSN → Nat → Py BareObj) (ad : BaseAD) (l : List (Ident × Val)) (o : Nat) (hl : BLoc l a buf h.length o) (ho : 24 ≤ o)
    (hs : ∀ (o : BaseADSN) (p : Nat) (l : List (Ident × Val)), BLoc l a buf h.length p → 24 ≤ p → o.ad = ad → 0 ≤ o.serialNumberLength → 
      Post Φ h (execBlock src k (callFn src (n + 2)) rest ⟨l, h ++ [.inst c (adsnFields o ++ ext)]⟩) (m o p)) :
    Post Φ h (execBlock src k (callFn src (n + 2)) (adsnItems.flatMap BItem.stmts ++ rest)
      ⟨l, h ++ [.inst c (adFields ad ++ (adsnExt ++ ext))]⟩) (adsnRead m buf ad o) := by
  refine items_sim (t := []) n k ha rest adsnItems adsnItems_ok hl ?_
  unfold adsnItems adsnRead
  refine BSim.text o _ _ _ _ _ _ fun v2 y o' ho' => ?_
  refine BSim.done fun l' _ hl => ?_
  exact hs ⟨ad, v2, PyStr.strip y⟩ _ l' hl (by omega) rfl (by simp)

include ha in
theorem adsnrcRead_sim (m : BaseADSNRC → Nat → Py BareObj) (ad : BaseADSN) (l : List (Ident × Val)) (o : Nat) (hl : BLoc l a buf h.length o) (ho : 24 ≤ o)
    (hs : ∀ (o : BaseADSNRC) (p : Nat) (l : List (Ident × Val)), BLoc l a buf h.length p → 24 ≤ p → o.adsn = ad → 0 ≤ o.rcvDescriptorLength → 
      0 ≤ o.rcvFWVersionLength → 0 ≤ o.rcvSerNumLength →
      Post Φ h (execBlock src k (callFn src (n + 2)) rest ⟨l, h ++ [.inst c (adsnrcFields o)]⟩) (m o p)) :
    Post Φ h (execBlock src k (callFn src (n + 2)) (adsnrcItems.flatMap BItem.stmts ++ rest)
      ⟨l, h ++ [.inst c (adsnFields ad ++ adsnrcExt)]⟩) (adsnrcRead m buf ad o) := by
  refine items_sim (t := []) n k ha rest adsnrcItems adsnrcItems_ok hl ?_
  unfold adsnrcItems adsnrcRead
  refine BSim.text o _ _ _ _ _ _ fun v1 y1 o1 ho1 => ?_
  refine BSim.text o1 _ _ _ _ _ _ fun v2 y2 o2 ho2 => ?_
  refine BSim.text o2 _ _ _ _ _ _ fun v3 y3 o3 ho3 => ?_
  refine BSim.done fun l' _ hl => ?_
  exact hs ⟨ad, v1, PyStr.strip y1, v2, PyStr.strip y2, v3, PyStr.strip y3⟩ _ l' hl (by omega) rfl (by simp) (by simp) (by simp)

end

/-- `40 + 8 * bs.descrLength` -/
def adLen : Expr := .bin .add (.const (.int 40)) (.bin .mul (.const (.int 8)) (.attr (.name n!"bs") n!"descrLength"))
/-- `48 + 8 * (bs.descrLength + bs.serialNumberLength)` -/
def adsnLen : Expr := .bin .add (.const (.int 48)) (.bin .mul (.const (.int 8)) (.bin .add (.attr (.name n!"bs") n!"descrLength") (.attr (.name n!"bs") n!"serialNumberLength")))
/-- `72 + 8 * strLen` -/
def adsnrcLen : Expr := .bin .add (.const (.int 72)) (.bin .mul (.const (.int 8)) (.name n!"strLen"))

/-- sub_decoders/RTCM_BASE.py:186-189 -/
def adsnrcEnd : List Stmt :=
  .assign (.name n!"strLen") (.bin .add (.bin .add (.attr (.name n!"bs") n!"descrLength") (.attr (.name n!"bs") n!"serialNumberLength")) (.attr (.name n!"bs") n!"rcvDescriptorLength")) ::
  .aug (.name n!"strLen") .add (.bin .add (.attr (.name n!"bs") n!"rcvFWVersionLength") (.attr (.name n!"bs") n!"rcvSerNumLength")) ::
  baseEnd adsnrcLen

/-- sub_decoders/RTCM_BASE.py:152-189 -/
def adsnrcRest : List Stmt := .ite (.not (.call (.name n!"isinstance") [.name n!"bs", .name n!"BaseADSNRC"])) (baseEnd adsnLen) [] ::
  (adsnrcItems.flatMap BItem.stmts ++ adsnrcEnd)

/-- sub_decoders/RTCM_BASE.py:137-189 -/
def adsnRest : List Stmt := .ite (.not (.call (.name n!"isinstance") [.name n!"bs", .tuple [.name n!"BaseADSN", .name n!"BaseADSNRC"]])) (baseEnd adLen) [] ::
  (adsnItems.flatMap BItem.stmts ++ adsnrcRest)

/-- The end of the model for 1007. -/
def adFin (buf : Bytes) (ad : BaseAD) (o : Nat) : Py BareObj :=
  Base.lengthCheck (40 + 8 * ad.descrLength.toNat) (o - 24) buf.length >>= fun _ => pure (.ad ad)
/-- The end of the model for 1008. -/
def adsnFin (buf : Bytes) (ad : BaseADSN) (o : Nat) : Py BareObj :=
  Base.lengthCheck (48 + 8 * (ad.ad.descrLength.toNat + ad.serialNumberLength.toNat)) (o - 24) buf.length >>= fun _ => pure (.adsn ad)
/-- The end of the model for 1033. -/
def adsnrcFin (buf : Bytes) (ad : BaseADSNRC) (o : Nat) : Py BareObj :=
  Base.lengthCheck (72 + 8 * (ad.adsn.ad.descrLength.toNat + ad.adsn.serialNumberLength.toNat + ad.rcvDescriptorLength.toNat +
    (ad.rcvFWVersionLength.toNat + ad.rcvSerNumLength.toNat))) (o - 24) buf.length >>= fun _ => pure (.adsnrc ad)

theorem decode10078_eq (buf : Bytes) : decode10078_1033 buf = Bits.gbu buf 24 12 >>= fun x =>
    if x = 1007 then adRead (adFin buf) buf x
    else if x = 1008 then adRead (fun ad => adsnRead (adsnFin buf) buf ad) buf x
    else adRead (fun ad => adsnRead (fun adsn => adsnrcRead (adsnrcFin buf) buf adsn) buf ad) buf x := by
  unfold decode10078_1033 adRead
  refine congrArg (Bits.gbu buf 24 12 >>= ·) (funext fun x => ?_)
  by_cases hx : x = 1007
  · simp only [hx, if_true]; rfl
  · by_cases hy : x = 1008
    · simp only [hy, if_true]; rfl
    · simp only [hx, hy, if_false]; rfl

theorem decode10078_src (n : Nat) {h : Heap} {a : Nat} (ha : BaseSelf h a) (buf : Bytes) :
    Builds BareShown h (callFn src (n + 3) n!"BaseStationDataDecoder.__decode10078_1033" [.ref a, .bytes buf] h) (decode10078_1033 buf) := by
  obtain ⟨v, ha⟩ := ha
  rw [callFn_succ src _ _ _ _ _ _ Look.fn_BaseStationDataDecoder_P_decode10078_1033 rfl]
  have hbody : Src.fn_BaseStationDataDecoder_P_decode10078_1033.body =
      .assign (.name n!"offset") (.const (.int 24)) ::
      .unpack [.name n!"msgNum", .name n!"offset"] (.tuple [getU 12, .bin .add (.name n!"offset") (.const (.int 12))]) ::
      .ite (.cmp .eq (.name n!"msgNum") (.const (.int 1007))) [.assign (.name n!"bs") (.call (.name n!"BaseAD") [])]
        [.ite (.cmp .eq (.name n!"msgNum") (.const (.int 1008))) [.assign (.name n!"bs") (.call (.name n!"BaseADSN") [])]
          [.assign (.name n!"bs") (.call (.name n!"BaseADSNRC") [])]] ::
      .assign (.attr (.name n!"bs") n!"msgNum") (.name n!"msgNum") ::
      (adItems.flatMap BItem.stmts ++ adsnRest) := rfl
  rw [hbody, decode10078_eq]
  change Post BareShown h (execBlock src (n + 2) (callFn src (n + 2)) _ ⟨[(n!"self", .ref a), (n!"buf", .bytes buf)], h⟩) _
  rw [basePrefix_src n _ ha buf]
  cases hv : Bits.gbu buf 24 12 with
  | error e => exact ⟨[], by rw [List.append_nil]; rfl⟩
  | ok x =>
    show Post BareShown h _ (if x = 1007 then _ else _)
    generalize hQ : adItems.flatMap BItem.stmts ++ adsnRest = Q
    dsimp only
    by_cases hx : x = 1007
    · have e1 : ((x : Int) == (1007 : Int)) = true := by rw [beq_iff_eq]; omega
      have hnew : ∀ s, M.mapList fieldVal (dataFields src n!"BaseAD") s = (.ok (adNew ++ []), s) := fun _ => rfl
      rw [if_pos hx]
      pyexec [e1, hnew, heap_set, List.contains_cons, Bool.or_true, Bool.true_or, heap_last]
      subst hQ
      refine adRead_sim n (n + 2) ha adsnRest x [] _ fun o p l hl hp h0 => ?_
      unfold adsnRest
      rw [block_ite _ _ _ _ _ _ _ true (by
        pyexec [hl.glob n!"isinstance" (by decide), hl.glob n!"BaseADSN" (by decide), hl.glob n!"BaseADSNRC" (by decide), hl.bs, heap_last]
        rfl)]
      have e3 : (8 : Int) * o.descrLength = ((8 * o.descrLength.toNat : Nat) : Int) := by omega
      have e4 : (40 : Int) + ((8 * o.descrLength.toNat : Nat) : Int) = ((40 + 8 * o.descrLength.toNat : Nat) : Int) := by omega
      exact baseEnd_src n (n + 2) ha adLen _ _ hl hp (by
        unfold adLen
        pyexec [hl.bs, heap_last, adFields, List.cons_append, List.nil_append, e3, e4]) (Base.Obj.ad o) (by
        unfold BareShown ShowsBase
        rw [heap_last]
        rfl)
    · have e1 : ((x : Int) == (1007 : Int)) = false := by rw [beq_eq_false_iff_ne]; omega
      rw [if_neg hx]
      by_cases hy : x = 1008
      · have e2 : ((x : Int) == (1008 : Int)) = true := by rw [beq_iff_eq]; omega
        rw [if_pos hy]
        have hnew : ∀ s, M.mapList fieldVal (dataFields src n!"BaseADSN") s = (.ok (adNew ++ (adsnExt ++ [])), s) := fun _ => rfl
        pyexec [e1, e2, hnew, heap_set, List.contains_cons, Bool.or_true, Bool.true_or, heap_last]
        subst hQ
        refine adRead_sim n (n + 2) ha adsnRest x (adsnExt ++ []) _ fun o p l hl hp h0 => ?_
        unfold adsnRest
        rw [block_ite _ _ _ _ _ _ _ false (by
        pyexec [hl.glob n!"isinstance" (by decide), hl.glob n!"BaseADSN" (by decide), hl.glob n!"BaseADSNRC" (by decide), hl.bs, heap_last]
        rfl), if_neg (by decide), List.nil_append]
        refine adsnRead_sim n (n + 2) ha adsnrcRest [] _ o l p hl hp fun o' p' l' hl' hp' h1 h2 => ?_
        subst h1
        unfold adsnrcRest
        rw [block_ite _ _ _ _ _ _ _ true (by
        pyexec [hl'.glob n!"isinstance" (by decide), hl'.glob n!"BaseADSN" (by decide), hl'.glob n!"BaseADSNRC" (by decide), hl'.bs, heap_last]
        rfl), if_pos rfl]
        have e3 : o'.ad.descrLength + o'.serialNumberLength = ((o'.ad.descrLength.toNat + o'.serialNumberLength.toNat : Nat) : Int) := by omega
        have e4 : (8 : Int) * ((o'.ad.descrLength.toNat + o'.serialNumberLength.toNat : Nat) : Int) =
          ((8 * (o'.ad.descrLength.toNat + o'.serialNumberLength.toNat) : Nat) : Int) := by omega
        have e5 : (48 : Int) + ((8 * (o'.ad.descrLength.toNat + o'.serialNumberLength.toNat) : Nat) : Int) =
          ((48 + 8 * (o'.ad.descrLength.toNat + o'.serialNumberLength.toNat) : Nat) : Int) := by omega
        exact baseEnd_src n (n + 2) ha adsnLen _ _ hl' hp' (by
          unfold adsnLen
          pyexec [hl'.bs, heap_last, adsnFields, adFields, List.cons_append, List.nil_append, e3, e4, e5]) (Base.Obj.adsn o') (by
        unfold BareShown ShowsBase
        rw [heap_last]
        rfl)
      · have e2 : ((x : Int) == (1008 : Int)) = false := by rw [beq_eq_false_iff_ne]; omega
        rw [if_neg hy]
        have hnew : ∀ s, M.mapList fieldVal (dataFields src n!"BaseADSNRC") s = (.ok (adNew ++ (adsnExt ++ adsnrcExt)), s) := fun _ => rfl
        pyexec [e1, e2, hnew, heap_set, List.contains_cons, Bool.or_true, Bool.true_or, heap_last]
        subst hQ
        refine adRead_sim n (n + 2) ha adsnRest x (adsnExt ++ adsnrcExt) _ fun o p l hl hp h0 => ?_
        unfold adsnRest
        rw [block_ite _ _ _ _ _ _ _ false (by
        pyexec [hl.glob n!"isinstance" (by decide), hl.glob n!"BaseADSN" (by decide), hl.glob n!"BaseADSNRC" (by decide), hl.bs, heap_last]
        rfl), if_neg (by decide), List.nil_append]
        refine adsnRead_sim n (n + 2) ha adsnrcRest adsnrcExt _ o l p hl hp fun o' p' l' hl' hp' h1 h2 => ?_
        subst h1
        unfold adsnrcRest
        rw [block_ite _ _ _ _ _ _ _ false (by
        pyexec [hl'.glob n!"isinstance" (by decide), hl'.glob n!"BaseADSN" (by decide), hl'.glob n!"BaseADSNRC" (by decide), hl'.bs, heap_last]
        rfl), if_neg (by decide), List.nil_append]
        refine adsnrcRead_sim n (n + 2) ha adsnrcEnd _ o' l' p' hl' hp' fun o3 p3 l3 hl3 hp3 h3 h4 h5 h6 => ?_
        subst h3
        have e3 : o3.adsn.ad.descrLength + o3.adsn.serialNumberLength + o3.rcvDescriptorLength =
          ((o3.adsn.ad.descrLength.toNat + o3.adsn.serialNumberLength.toNat + o3.rcvDescriptorLength.toNat : Nat) : Int) := by omega
        have e4 : o3.rcvFWVersionLength + o3.rcvSerNumLength = ((o3.rcvFWVersionLength.toNat + o3.rcvSerNumLength.toNat : Nat) : Int) := by omega
        have e5 : ((o3.adsn.ad.descrLength.toNat + o3.adsn.serialNumberLength.toNat + o3.rcvDescriptorLength.toNat : Nat) : Int) +
          ((o3.rcvFWVersionLength.toNat + o3.rcvSerNumLength.toNat : Nat) : Int) = ((o3.adsn.ad.descrLength.toNat + o3.adsn.serialNumberLength.toNat +
            o3.rcvDescriptorLength.toNat + (o3.rcvFWVersionLength.toNat + o3.rcvSerNumLength.toNat) : Nat) : Int) := rfl
        have hb : ∀ v, BLoc (M.bindKey l3 n!"strLen" v) a buf h.length p3 := fun v => hl3.bindOther _ _ rfl rfl rfl rfl (by decide)
        unfold adsnrcEnd
        generalize hE : baseEnd adsnrcLen = E
        pyexec [hl3.bs, (hb _).bs, heap_last, adsnrcFields, adsnFields, adFields, List.cons_append, List.nil_append, e3, e4, e5, lookup_bind_eq, bindKey_bindKey]
        subst hE
        have e6 : ∀ x : Nat, (8 : Int) * (x : Int) = ((8 * x : Nat) : Int) := fun x => rfl
        have e7 : ∀ x : Nat, (72 : Int) + (x : Int) = ((72 + x : Nat) : Int) := fun x => rfl
        exact baseEnd_src n (n + 2) ha adsnrcLen [] _ (hb _) hp3 (by
          unfold adsnrcLen
          pyexec [lookup_bind_eq, e6, e7]) (Base.Obj.adsnrc o3) (by
        unfold BareShown ShowsBase
        rw [heap_last]
        rfl)

/-- sub_decoders/RTCM_BASE.py:268-284 -/
def tsItems : List BItem := [uI n!"msgNum" 12, uI n!"bsID" 12, uI n!"modifiedJulianDay" 16, uI n!"daySec" 17, uI n!"charNum" 7,
  .text n!"msg" n!"unitsNum" n!"message"]

theorem tsItems_ok : ∀ i ∈ tsItems, i.Ok := by
  intro i hi
  simp only [tsItems, List.mem_cons, List.not_mem_nil, or_false] at hi
  rcases hi with rfl | rfl | rfl | rfl | rfl | rfl
  iterate 5 exact bitem_u_ok _ _
  exact Or.inr rfl

/-- The local variables after the first statements. -/
def baseLoc2 (a : Nat) (buf : Bytes) (r o : Nat) : List (Ident × Val) :=
  [(n!"self", .ref a), (n!"buf", .bytes buf), (n!"bs", .ref r), (n!"offset", .int o)]

theorem baseLoc2_ok (a : Nat) (buf : Bytes) (r o : Nat) : BLoc (baseLoc2 a buf r o) a buf r o :=
  ⟨rfl, rfl, rfl, rfl, by
    intro x hx
    simp only [baseGlobs, List.mem_cons, List.not_mem_nil, or_false] at hx
    rcases hx with rfl | rfl | rfl | rfl | rfl | rfl | rfl | rfl | rfl <;> rfl⟩

/-- `72 + 8 * bs.unitsNum` -/
def tsLen : Expr := .bin .add (.const (.int 72)) (.bin .mul (.const (.int 8)) (.attr (.name n!"bs") n!"unitsNum"))

/-- The fields of the model. -/
def tsRead (k : BaseTS → Nat → Py BareObj) (buf : Bytes) : Py BareObj :=
  Bits.gbu buf 24 12 >>= fun v1 => Bits.gbu buf 36 12 >>= fun v2 => Bits.gbu buf 48 16 >>= fun v3 => Bits.gbu buf 64 17 >>= fun v4 =>
  Bits.gbu buf 81 7 >>= fun v5 => Bits.gbu buf 88 8 >>= fun v6 => readHex buf v6 (88 + 8) "" >>= fun r =>
  k ⟨v1, v2, v3, v4, v5, v6, PyStr.strip r.1⟩ r.2

theorem tsRead_sim {Φ : BareObj → Heap → Nat → Prop} (n k : Nat) {h : Heap} {a : Nat} {v : Val}
    (ha : h[a]? = some (.inst n!"BaseStationDataDecoder" [(n!"msgList", v)])) {buf : Bytes} {c : Ident} (rest : List Stmt)
    (m : BaseTS → Nat → Py BareObj)
    (hs : ∀ (o : BaseTS) (p : Nat) (l : List (Ident × Val)), BLoc l a buf h.length p → 24 ≤ p → 0 ≤ o.unitsNum →
      Post Φ h (execBlock src k (callFn src (n + 2)) rest ⟨l, h ++ [.inst c (tsFields o)]⟩) (m o p)) :
    Post Φ h (execBlock src k (callFn src (n + 2)) (tsItems.flatMap BItem.stmts ++ rest)
      ⟨baseLoc2 a buf h.length 24, h ++ [.inst c (tsFields ⟨0, 0, 0, 0, 0, 0, ""⟩)]⟩) (tsRead m buf) := by
  refine items_sim (t := []) n k ha _ tsItems tsItems_ok (baseLoc2_ok a buf h.length 24) ?_
  unfold tsItems uI tsRead
  refine BSim.u _ _ _ _ _ _ _ _ rfl fun v1 => ?_
  refine BSim.u _ _ _ _ _ _ _ _ rfl fun v2 => ?_
  refine BSim.u _ _ _ _ _ _ _ _ rfl fun v3 => ?_
  refine BSim.u _ _ _ _ _ _ _ _ rfl fun v4 => ?_
  refine BSim.u _ _ _ _ _ _ _ _ rfl fun v5 => ?_
  refine BSim.text 88 _ _ _ _ _ _ fun v6 y o' ho => ?_
  refine BSim.done fun l' _ hl => ?_
  exact hs ⟨v1, v2, v3, v4, v5, v6, PyStr.strip y⟩ _ l' hl (by omega) (by simp)

theorem decode1029_src (n : Nat) {h : Heap} {a : Nat} (ha : BaseSelf h a) (buf : Bytes) :
    Builds BareShown h (callFn src (n + 3) n!"BaseStationDataDecoder.__decode1029" [.ref a, .bytes buf] h) (decode1029 buf) := by
  obtain ⟨v, ha⟩ := ha
  rw [callFn_succ src _ _ _ _ _ _ Look.fn_BaseStationDataDecoder_P_decode1029 rfl]
  have hbody : Src.fn_BaseStationDataDecoder_P_decode1029.body =
      .assign (.name n!"bs") (.call (.name n!"BaseTS") []) ::
      .assign (.name n!"offset") (.const (.int 24)) ::
      (tsItems.flatMap BItem.stmts ++ baseEnd tsLen) := rfl
  have hnew : ∀ s, M.mapList fieldVal (dataFields src n!"BaseTS") s = (.ok (tsFields ⟨0, 0, 0, 0, 0, 0, ""⟩), s) := fun _ => rfl
  have hm : decode1029 buf = tsRead (fun o p => Base.lengthCheck (72 + 8 * o.unitsNum.toNat) (p - 24) buf.length >>= fun _ => pure (.ts o)) buf := rfl
  rw [hbody, hm]
  change Post BareShown h (execBlock src (n + 2) (callFn src (n + 2)) _ ⟨[(n!"self", .ref a), (n!"buf", .bytes buf)], h⟩) _
  generalize hQ : tsItems.flatMap BItem.stmts ++ baseEnd tsLen = Q
  pyexec [hnew, heap_set]
  subst hQ
  refine tsRead_sim n (n + 2) ha (baseEnd tsLen) _ fun o p l hl hp h0 => ?_
  have e6 : (8 : Int) * o.unitsNum = ((8 * o.unitsNum.toNat : Nat) : Int) := by omega
  have e7 : ∀ x : Nat, (72 : Int) + (x : Int) = ((72 + x : Nat) : Int) := fun x => rfl
  have hE : eval src (callFn src (n + 2)) tsLen ⟨l, h ++ [.inst n!"BaseTS" (tsFields o)]⟩ =
      (.ok (.int (72 + 8 * o.unitsNum.toNat : Nat)), ⟨l, h ++ [.inst n!"BaseTS" (tsFields o)]⟩) := by
    unfold tsLen tsFields
    pyexec [hl.bs, heap_last, e6, e7]
  have hP : BareShown (.ts o) (h ++ [.inst n!"BaseTS" (tsFields o)]) h.length := heap_last _ _
  exact baseEnd_src n (n + 2) ha tsLen [] (72 + 8 * o.unitsNum.toNat) hl hp hE (Base.Obj.ts o) hP

end Refine
end PyCore
end Verif
