import Verif.Refine.BaseAd
import Verif.Lemmas.BaseText

/-!
# The text of `__decode1013`
-/

namespace Verif
namespace PyCore
namespace Refine
open Base

open Rounding (rnd)
variable [Rounding]

@[pyrun] theorem builtin_floor (P : Prog) (s : St) (q : Rat) : builtinFn P n!"math.floor" [.flt q] s = (.ok (.int q.floor), s) := rfl

@[pyrun] theorem getAttr_floor (P : Prog) (call : CallT) (s : St) : getAttr P call (.builtin n!"math") n!"floor" s = (.ok (.builtin n!"math.floor"), s) := rfl

theorem div_ii (a b : Int) (s : St) (hb : b ≠ 0) : binOp .div (.int a) (.int b) s = (.ok (.flt (rnd ((a : Rat) / (b : Rat)))), s) := by
  show (if b = 0 then M.throw n!"ZeroDivisionError" else M.pure (.flt (rnd ((a : Rat) / (b : Rat)))) : M Val) s = _
  rw [if_neg hb]; rfl

theorem keyEnc_int : KeyEnc Val.int := fun _ _ => rfl

/-- `x, offset = self.getbitu(buf, offset, w), offset + w` -/
def rdStmt (x : Ident) (w : Int) : Stmt := .unpack [.name x, .name n!"offset"] (.tuple [getU w, .bin .add (.name n!"offset") (.const (.int w))])

theorem rd_src (n m : Nat) {H : Heap} {a r o : Nat} {v : Val} {buf : Bytes} {l : List (Ident × Val)}
    (ha : H[a]? = some (.inst n!"BaseStationDataDecoder" [(n!"msgList", v)])) (hl : BLoc l a buf r o) (x : Ident) (w : Nat) :
    exec src m (callFn src (n + 2)) (rdStmt x w) ⟨l, H⟩ = match Bits.gbu buf o w with
      | .ok v => (.ok .next, ⟨M.bindKey (M.bindKey l x (.int v)) n!"offset" (.int (o + w : Nat)), H⟩)
      | .error e => (.error (.py (errName e)), ⟨l, H⟩) := by
  have hg := getU_src n ha l buf o w hl.self hl.buf hl.off
  have e1 : (o : Int) + (w : Int) = ((o + w : Nat) : Int) := by omega
  unfold rdStmt
  cases hv : Bits.gbu buf o w with
  | error e =>
    rw [hv] at hg
    dsimp only at hg
    pyexec [hg]
  | ok u =>
    rw [hv] at hg
    dsimp only at hg
    pyexec [hg, hl.off, e1]

/-- sub_decoders/RTCM_BASE.py:244-247 -/
def schedBody : List Stmt := [rdStmt n!"ID" 12, rdStmt n!"isPeriodic" 1, rdStmt n!"period" 16,
  .expr (.call (.attr (.attr (.name n!"bs") n!"shedule") n!"update") [.dict [.name n!"ID"] [.tuple [.name n!"isPeriodic", .name n!"period"]]])]

theorem sched_loop (n m : Nat) {h : Heap} {a : Nat} {v : Val} (ha : h[a]? = some (.inst n!"BaseStationDataDecoder" [(n!"msgList", v)]))
    {buf : Bytes} {c : Ident} {fs : List (Ident × Val)} (hc : c = n!"BaseSP") (hfs : fs.lookup n!"shedule" = some (.ref (h.length + 1))) :
    ∀ (vs : List Val) (o : Nat) (d : PyDict Int (Int × Int)) (t : Heap) (l : List (Ident × Val)), BLoc l a buf h.length o → d.keys.Nodup →
    match readShedule buf vs.length o d with
    | .ok q => ∃ l' t', forLoop (assign src (callFn src (n + 2)) (.name n!"_")) (execBlock src m (callFn src (n + 2)) schedBody)
          (execBlock src m (callFn src (n + 2)) []) vs ⟨l, h ++ .inst c fs :: .dict (schedDict .int .int d) :: t⟩ =
            (.ok .next, ⟨l', h ++ .inst c fs :: .dict (schedDict .int .int q.1) :: t'⟩) ∧ Keeps l l' ∧
          l'.lookup n!"offset" = some (.int q.2) ∧ q.1.keys.Nodup ∧ o ≤ q.2
    | .error e => ∃ l' t', forLoop (assign src (callFn src (n + 2)) (.name n!"_")) (execBlock src m (callFn src (n + 2)) schedBody)
          (execBlock src m (callFn src (n + 2)) []) vs ⟨l, h ++ .inst c fs :: .dict (schedDict .int .int d) :: t⟩ = (.error (.py (errName e)), ⟨l', h ++ t'⟩)
  | [], o, d, t, l, hl, hd => ⟨l, t, by pyexec, .refl l, hl.off, hd, Nat.le_refl _⟩
  | u :: vs, o, d, t, l, hl, hd => by
    have ha' := heap_old ha (.inst c fs :: .dict (schedDict .int .int d) :: t)
    have k0 : Keeps l (M.bindKey l n!"_" u) := (Keeps.refl l).bind (by decide) _
    have hl0 : BLoc (M.bindKey l n!"_" u) a buf h.length o := k0.loc hl (by rw [lookup_bind_ne rfl, hl.off])
    have r1 := rd_src n m ha' hl0 n!"ID" 12
    have c1 : ((12 : Nat) : Int) = 12 := rfl
    have c2 : ((1 : Nat) : Int) = 1 := rfl
    have c3 : ((16 : Nat) : Int) = 16 := rfl
    rw [c1] at r1
    rw [forLoop_cons]
    simp only [List.length_cons, readShedule]
    cases hv1 : Bits.gbu buf o 12 with
    | error e =>
      rw [hv1] at r1
      dsimp only at r1
      refine ⟨M.bindKey l n!"_" u, .inst c fs :: .dict (schedDict .int .int d) :: t, ?_⟩
      unfold schedBody
      pyexec [r1]
    | ok v1 =>
      rw [hv1] at r1
      dsimp only at r1
      have k1 := k0.bind (show n!"ID" ∈ readVars by decide) (.int (v1 : Int))
      have k1' := k1.bind (show n!"offset" ∈ readVars by decide) (.int (o + 12 : Nat))
      have hl1 := k1'.loc hl lookup_bind_eq
      have r2 := rd_src n m ha' hl1 n!"isPeriodic" 1
      rw [c2] at r2
      show (match (Bits.gbu buf (o + 12) 1 >>= fun v2 => _ : Py (PyDict Int (Int × Int) × Nat)) with | .ok q => _ | .error e => _)
      cases hv2 : Bits.gbu buf (o + 12) 1 with
      | error e =>
        rw [hv2] at r2
        dsimp only at r2
        refine ⟨M.bindKey (M.bindKey (M.bindKey l n!"_" u) n!"ID" (.int (v1 : Int))) n!"offset" (.int (o + 12 : Nat)),
          .inst c fs :: .dict (schedDict .int .int d) :: t, ?_⟩
        unfold schedBody
        pyexec [r1, r2]
      | ok v2 =>
        rw [hv2] at r2
        dsimp only at r2
        have k2 := k1'.bind (show n!"isPeriodic" ∈ readVars by decide) (.int (v2 : Int))
        have k2' := k2.bind (show n!"offset" ∈ readVars by decide) (.int (o + 12 + 1 : Nat))
        have hl2 := k2'.loc hl lookup_bind_eq
        have r3 := rd_src n m ha' hl2 n!"period" 16
        rw [c3] at r3
        show (match (Bits.gbu buf (o + 12 + 1) 16 >>= fun v3 => _ : Py (PyDict Int (Int × Int) × Nat)) with | .ok q => _ | .error e => _)
        cases hv3 : Bits.gbu buf (o + 12 + 1) 16 with
        | error e =>
          rw [hv3] at r3
          dsimp only at r3
          refine ⟨M.bindKey (M.bindKey (M.bindKey (M.bindKey (M.bindKey l n!"_" u) n!"ID" (.int (v1 : Int))) n!"offset" (.int (o + 12 : Nat)))
            n!"isPeriodic" (.int (v2 : Int))) n!"offset" (.int (o + 12 + 1 : Nat)),
            .inst c fs :: .dict (schedDict .int .int d) :: t, ?_⟩
          unfold schedBody
          pyexec [r1, r2, r3]
        | ok v3 =>
          rw [hv3] at r3
          dsimp only at r3
          have k3 := k2'.bind (show n!"period" ∈ readVars by decide) (.int (v3 : Int))
          have k3' := k3.bind (show n!"offset" ∈ readVars by decide) (.int (o + 12 + 1 + 16 : Nat))
          have hl3 := k3'.loc hl lookup_bind_eq
          generalize hL : M.bindKey _ n!"offset" (.int (o + 12 + 1 + 16 : Nat)) = L at r3 k3' hl3
          have L1 : L.lookup n!"ID" = some (.int (v1 : Int)) := by
            rw [← hL]; repeat rw [lookup_bind_ne rfl]
            exact lookup_bind_eq
          have L2 : L.lookup n!"isPeriodic" = some (.int (v2 : Int)) := by
            rw [← hL]; repeat rw [lookup_bind_ne rfl]
            exact lookup_bind_eq
          have L3 : L.lookup n!"period" = some (.int (v3 : Int)) := by
            rw [← hL]; repeat rw [lookup_bind_ne rfl]
            exact lookup_bind_eq
          have hset : dictSet (schedDict .int .int d) (.int v1) (.tup [.int v2, .int v3]) = schedDict .int .int (d.set v1 (v2, v3)) := encD_set (f := fun _ (p : Int × Int) => .tup [.int p.1, .int p.2]) keyEnc_int d hd (v1 : Int) ((v2 : Int), (v3 : Int))
          have ih := sched_loop n m ha (buf := buf) hc hfs vs (o + 12 + 1 + 16) (d.set v1 (v2, v3))
            (t ++ [.dict [(.int v1, .tup [.int v2, .int v3])]]) L hl3 (PyDict.nodup_set hd _ _)
          have hstep : M.seq (assign src (callFn src (n + 2)) (.name n!"_") u ⟨l, h ++ .inst c fs :: .dict (schedDict .int .int d) :: t⟩)
              (fun _ => execBlock src m (callFn src (n + 2)) schedBody >>= loopNext (forLoop (assign src (callFn src (n + 2)) (.name n!"_"))
                (execBlock src m (callFn src (n + 2)) schedBody) (execBlock src m (callFn src (n + 2)) []) vs)) =
              forLoop (assign src (callFn src (n + 2)) (.name n!"_")) (execBlock src m (callFn src (n + 2)) schedBody)
                (execBlock src m (callFn src (n + 2)) []) vs
                ⟨L, h ++ .inst c fs :: .dict (schedDict .int .int (d.set v1 (v2, v3))) :: (t ++ [.dict [(.int v1, .tup [.int v2, .int v3])]])⟩ := by
            generalize hF : forLoop _ _ _ vs = F
            subst hc
            unfold schedBody
            pyexec [r1, r2, r3, L1, L2, L3, hl3.bs, append_getElem0, append_getElem, append_set, List.getElem?_cons_zero, List.getElem?_cons_succ, hfs,
              List.append_assoc, List.cons_append, heap_last, List.set_cons_succ, List.set_cons_zero, List.foldl_cons, List.foldl_nil, hset]
          rw [hstep]
          change (match readShedule buf vs.length (o + 12 + 1 + 16) (d.set v1 (v2, v3)) with | .ok q => _ | .error e => _)
          cases hw : readShedule buf vs.length (o + 12 + 1 + 16) (d.set v1 (v2, v3)) with
          | error e =>
            rw [hw] at ih
            obtain ⟨l', t', ih⟩ := ih
            exact ⟨l', t', by rw [← ih]⟩
          | ok q =>
            rw [hw] at ih
            obtain ⟨l', t', ih, j1, j2, j3, j4⟩ := ih
            exact ⟨l', t', by rw [← ih], k3'.trans j1, j2, j3, by omega⟩

/-- sub_decoders/RTCM_BASE.py:228-236 -/
def spItems : List BItem := [uI n!"msgNum" 12, uI n!"bsID" 12, uI n!"modifiedJulianDay" 16, uI n!"daySec" 17, uI n!"Nm" 5, uI n!"leapSec" 8]

theorem spItems_ok : ∀ i ∈ spItems, i.Ok := by
  intro i hi
  simp only [spItems, List.mem_cons, List.not_mem_nil, or_false] at hi
  rcases hi with rfl | rfl | rfl | rfl | rfl | rfl <;> exact bitem_u_ok _ _

/-- The fields of the model. -/
def spRead (k : Nat → Nat → Nat → Nat → Nat → Nat → Py BareObj) (buf : Bytes) : Py BareObj :=
  Bits.gbu buf 24 12 >>= fun v1 => Bits.gbu buf 36 12 >>= fun v2 => Bits.gbu buf 48 16 >>= fun v3 => Bits.gbu buf 64 17 >>= fun v4 =>
  Bits.gbu buf 81 5 >>= fun v5 => Bits.gbu buf 86 8 >>= fun v6 => k v1 v2 v3 v4 v5 v6

/-- The object with an empty schedule. -/
def spObj (v1 v2 v3 v4 v5 v6 : Nat) : BaseSP Int Int := ⟨v1, v2, v3, v4, v5, v6, []⟩

theorem spRead_sim {Φ : BareObj → Heap → Nat → Prop} (n k : Nat) {h : Heap} {a : Nat} {v : Val}
    (ha : h[a]? = some (.inst n!"BaseStationDataDecoder" [(n!"msgList", v)])) {buf : Bytes} {c : Ident} (t : Heap) (d : Nat) (rest : List Stmt)
    (m : Nat → Nat → Nat → Nat → Nat → Nat → Py BareObj)
    (hs : ∀ (v1 v2 v3 v4 v5 v6 : Nat) (l : List (Ident × Val)), BLoc l a buf h.length 94 → 12 ≤ buf.length →
      Post Φ h (execBlock src k (callFn src (n + 2)) rest ⟨l, h ++ .inst c (spFields (spObj v1 v2 v3 v4 v5 v6) d) :: t⟩) (m v1 v2 v3 v4 v5 v6)) :
    Post Φ h (execBlock src k (callFn src (n + 2)) (spItems.flatMap BItem.stmts ++ rest)
      ⟨baseLoc2 a buf h.length 24, h ++ .inst c (spFields (spObj 0 0 0 0 0 0) d) :: t⟩) (spRead m buf) := by
  refine items_sim (t := t) n k ha _ spItems spItems_ok (baseLoc2_ok a buf h.length 24) ?_
  unfold spItems uI spRead
  refine BSim.u _ _ _ _ _ _ _ _ rfl fun v1 => ?_
  refine BSim.u _ _ _ _ _ _ _ _ rfl fun v2 => ?_
  refine BSim.u _ _ _ _ _ _ _ _ rfl fun v3 => ?_
  refine BSim.u _ _ _ _ _ _ _ _ rfl fun v4 => ?_
  refine BSim.u _ _ _ _ _ _ _ _ rfl fun v5 => ?_
  refine BSim.uv _ _ _ _ _ _ _ _ rfl fun v6 hv => ?_
  refine BSim.done fun l' _ hl => ?_
  have := (gbu_inv hv).2.1
  dsimp only [List.foldl_cons, List.foldl_nil] at this
  exact hs v1 v2 v3 v4 v5 v6 l' hl (by omega)

/-- `70 + 29 * Nm` -/
def spLen : Expr := .bin .add (.const (.int 70)) (.bin .mul (.const (.int 29)) (.name n!"Nm"))

/-- sub_decoders/RTCM_BASE.py:238-250 -/
def spRest : List Stmt :=
  .ite (.cmp .ne (.attr (.name n!"bs") n!"Nm") (.const (.int 0))) [
      .assign (.name n!"Nm") (.attr (.name n!"bs") n!"Nm")] [
      .assign (.name n!"Nm") (.call (.attr (.name n!"math") n!"floor") [.bin .div (.bin .sub (.bin .mul (.const (.int 8)) (.call (.name n!"len") [.name n!"buf"])) (.const (.int 70))) (.const (.int 29))])] ::
  .for (.name n!"_") (.call (.name n!"range") [.name n!"Nm"]) schedBody [] ::
  baseEnd spLen

/-- The end of the model. -/
def spFin (buf : Bytes) (v1 v2 v3 v4 v5 v6 : Nat) (N : Int) : Py BareObj :=
  readShedule buf N.toNat 94 [] >>= fun q => lengthCheckI (70 + 29 * N) (q.2 - 24) buf.length >>= fun _ =>
    pure (.sp ⟨v1, v2, v3, v4, v5, v6, q.1⟩)

theorem spTail (n : Nat) {h : Heap} {a : Nat} {v : Val} (ha : h[a]? = some (.inst n!"BaseStationDataDecoder" [(n!"msgList", v)]))
    {buf : Bytes} (v1 v2 v3 v4 v5 v6 : Nat) (N : Int) (l : List (Ident × Val)) (hl : BLoc l a buf h.length 94) (hN : l.lookup n!"Nm" = some (.int N)) :
    Post BareShown h (execBlock src (n + 2) (callFn src (n + 2)) (.for (.name n!"_") (.call (.name n!"range") [.name n!"Nm"]) schedBody [] :: baseEnd spLen)
      ⟨l, h ++ [.inst n!"BaseSP" (spFields (spObj v1 v2 v3 v4 v5 v6) (h.length + 1)), .dict []]⟩) (spFin buf v1 v2 v3 v4 v5 v6 N) := by
  have hfor : ∀ R s, execBlock src (n + 2) (callFn src (n + 2)) (.for (.name n!"_") (.call (.name n!"range") [.name n!"Nm"]) schedBody [] :: R) ⟨l, s⟩ =
      M.seq (forLoop (assign src (callFn src (n + 2)) (.name n!"_")) (execBlock src (n + 2) (callFn src (n + 2)) schedBody)
        (execBlock src (n + 2) (callFn src (n + 2)) []) (rangeVals 0 N) ⟨l, s⟩) (after (execBlock src (n + 2) (callFn src (n + 2)) R)) := by
    intro R s
    pyexec [hN, hl.glob n!"range" (by decide)]
  have hs := sched_loop n (n + 2) ha (buf := buf) (fs := spFields (spObj v1 v2 v3 v4 v5 v6) (h.length + 1)) rfl rfl (rangeVals 0 N) 94 [] [] l hl
    List.nodup_nil
  rw [show (rangeVals 0 N).length = N.toNat by simp [rangeVals]] at hs
  rw [hfor]
  unfold spFin
  cases hw : readShedule buf N.toNat 94 [] with
  | error e =>
    rw [hw] at hs
    obtain ⟨l', t', hs⟩ := hs
    have hs : forLoop _ _ _ _ ⟨l, h ++ [.inst n!"BaseSP" (spFields (spObj v1 v2 v3 v4 v5 v6) (h.length + 1)), .dict []]⟩ = _ := hs
    rw [hs]
    exact ⟨t', rfl⟩
  | ok q =>
    rw [hw] at hs
    obtain ⟨l', t', hs, k1, k2, k3, k4⟩ := hs
    have hs : forLoop _ _ _ _ ⟨l, h ++ [.inst n!"BaseSP" (spFields (spObj v1 v2 v3 v4 v5 v6) (h.length + 1)), .dict []]⟩ = _ := hs
    rw [hs]
    have hl' := k1.loc hl k2
    have hN' : l'.lookup n!"Nm" = some (.int N) := (k1 _ (by decide)).trans hN
    refine baseEndI_src n (n + 2) ha spLen [] (70 + 29 * N) hl' (by omega) ?_ (Base.Obj.sp ⟨v1, v2, v3, v4, v5, v6, q.1⟩) ?_
    · unfold spLen
      pyexec [hN']
    · refine ⟨h.length + 1, ?_, ?_, k3⟩
      · rw [append_getElem0]; rfl
      · rw [append_getElem]; rfl

theorem decode1013_src (n : Nat) {h : Heap} {a : Nat} (ha : BaseSelf h a) (buf : Bytes) :
    Builds BareShown h (callFn src (n + 3) n!"BaseStationDataDecoder.__decode1013" [.ref a, .bytes buf] h) (decode1013R rnd buf) := by
  obtain ⟨v, ha⟩ := ha
  rw [callFn_succ src _ _ _ _ _ _ Look.fn_BaseStationDataDecoder_P_decode1013 rfl]
  have hbody : Src.fn_BaseStationDataDecoder_P_decode1013.body =
      .assign (.name n!"bs") (.call (.name n!"BaseSP") []) ::
      .assign (.name n!"offset") (.const (.int 24)) ::
      (spItems.flatMap BItem.stmts ++ spRest) := rfl
  have hnew : ∀ l H, M.mapList fieldVal (dataFields src n!"BaseSP") ⟨l, H⟩ = (.ok (spFields (spObj 0 0 0 0 0 0) H.length), ⟨l, H ++ [.dict []]⟩) :=
    fun _ _ => rfl
  have hm : decode1013R rnd buf = spRead (fun v1 v2 v3 v4 v5 v6 => spFin buf v1 v2 v3 v4 v5 v6 (if v5 ≠ 0 then v5 else countR rnd buf.length)) buf := by
    unfold decode1013R spRead spFin
    iterate 4
      refine bind_congr fun _ => ?_
    refine bind_congr fun v5 => ?_
    refine bind_congr fun _ => ?_
    refine bind_congr fun q => ?_
    unfold lengthCheckI
    obtain ⟨sh, off⟩ := q
    dsimp only
    generalize (if v5 ≠ 0 then (v5 : Int) else countR rnd buf.length) = N
    by_cases hc : 70 + 29 * N ≠ ((off - 24 : Nat) : Int)
    · rw [if_pos hc, if_pos hc]
      rfl
    · rw [if_neg hc, if_neg hc]
  rw [hbody, hm]
  change Post BareShown h (execBlock src (n + 2) (callFn src (n + 2)) _ ⟨[(n!"self", .ref a), (n!"buf", .bytes buf)], h⟩) _
  generalize hQ : spItems.flatMap BItem.stmts ++ spRest = Q
  pyexec [hnew, heap_set, List.append_assoc, List.cons_append, List.nil_append, append_set0, List.set_cons_zero, List.length_append, List.length_cons, List.length_nil]
  subst hQ
  refine spRead_sim n (n + 2) ha [.dict []] (h.length + 1) spRest _ fun v1 v2 v3 v4 v5 v6 l hl hb => ?_
  unfold spRest
  generalize hE : (.for (.name n!"_") (.call (.name n!"range") [.name n!"Nm"]) schedBody [] :: baseEnd spLen : List Stmt) = E
  have hb : ∀ v, BLoc (M.bindKey l n!"Nm" v) a buf h.length 94 := fun v => hl.bindOther _ _ rfl rfl rfl rfl (by decide)
  by_cases h5 : v5 = 0
  · subst h5
    rw [if_neg (by omega)]
    have e5 : (((0 : Nat) : Int) == (0 : Int)) = true := rfl
    have hD : ∀ s, binOp .div (.int ((8 : Int) * (buf.length : Int) - (70 : Int))) (.int 29) s =
        (.ok (.flt (rnd ((((8 : Int) * (buf.length : Int) - (70 : Int) : Int) : Rat) / ((29 : Int) : Rat)))), s) := fun s => div_ii _ _ s (by decide)
    have hF : (rnd ((((8 : Int) * (buf.length : Int) - (70 : Int) : Int) : Rat) / ((29 : Int) : Rat))).floor = countR rnd buf.length := rfl
    have h2 := spTail n ha (buf := buf) v1 v2 v3 v4 0 v6 _ _ (hb (.int (countR rnd buf.length))) lookup_bind_eq
    rw [hE] at h2
    unfold spFields spObj at h2 ⊢
    pyexec [hl.bs, append_getElem0, List.getElem?_cons_zero, hl.glob n!"math" (by decide), hl.glob n!"len" (by decide), hl.buf, hD, hF, e5, Bool.not_true]
    exact h2
  · have e5 : ((v5 : Int) == (0 : Int)) = false := by rw [beq_eq_false_iff_ne]; omega
    rw [if_pos h5]
    have h2 := spTail n ha (buf := buf) v1 v2 v3 v4 v5 v6 v5 _ (hb (.int v5)) lookup_bind_eq
    rw [hE] at h2
    unfold spFields spObj at h2 ⊢
    pyexec [hl.bs, append_getElem0, List.getElem?_cons_zero, e5, Bool.not_false]
    exact h2

end Refine
end PyCore
end Verif
