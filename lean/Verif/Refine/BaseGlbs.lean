import Verif.Refine.BaseSp

/-!
# The text of `__decode1230`
-/

namespace Verif
namespace PyCore
namespace Refine
open Base

open Rounding (rnd)
variable [Rounding]

/-- The object while it is read. -/
def glbsObj (v1 v2 v3 : Nat) : BaseGLBS Int Int := ⟨v1, v2, v3, [], []⟩

/-- A dictionary of biases. -/
def biasDict (d : PyDict String Int) : Obj := .dict (encD .str (fun _ v => .int v) d)

/-- The heap while the object is read. -/
def glbsHeap (h : Heap) (fs : List (Ident × Val)) (d e : PyDict String Int) : Heap :=
  h ++ [.inst n!"BaseGLBS" fs, .dict [], .dict [], biasDict d, biasDict e]

section
variable (h : Heap) (fs : List (Ident × Val)) (d e d' : PyDict String Int)
theorem glbs_get0 : (glbsHeap h fs d e)[h.length]? = some (.inst n!"BaseGLBS" fs) := append_getElem0 ..
theorem glbs_get3 : (glbsHeap h fs d e)[h.length + 3]? = some (.dict (encD .str (fun _ v => .int v) d)) := append_getElem ..
theorem glbs_get4 : (glbsHeap h fs d e)[h.length + 4]? = some (.dict (encD .str (fun _ v => .int v) e)) := append_getElem ..
theorem glbs_set3 : (glbsHeap h fs d e).set (h.length + 3) (.dict (encD .str (fun _ v => .int v) d')) = glbsHeap h fs d' e := append_set ..
theorem glbs_set4 : (glbsHeap h fs d e).set (h.length + 4) (.dict (encD .str (fun _ v => .int v) d')) = glbsHeap h fs d d' := append_set ..
end

theorem biasKeys_nodup : biasKeys.Nodup := by decide

theorem glbsPost_src (n : Nat) (h : Heap) (v1 v2 v3 : Nat) (h1 : v1 ≠ 1230) :
    callFn src (n + 1) n!"BaseGLBS.__post_init__" [.ref h.length]
        (h ++ [.inst n!"BaseGLBS" (glbsFields .int (glbsObj v1 v2 v3) (h.length + 1) (h.length + 2)), .dict [], .dict []]) =
      (.ok .none, glbsHeap h (glbsFields .int (glbsObj v1 v2 v3) (h.length + 3) (h.length + 4)) zeroDict zeroDict) := by
  pycall Look.fn_BaseGLBS_P_post_init_P Src.fn_BaseGLBS_P_post_init_P
  have e1 : ((v1 : Int) == (1230 : Int)) = false := by rw [beq_eq_false_iff_ne]; omega
  have e2 : makeDict [.str "1C", .str "1P", .str "2C", .str "2P"] [.int 0, .int 0, .int 0, .int 0] = encD .str (fun _ v => .int v) zeroDict := rfl
  unfold glbsFields glbsObj glbsHeap biasDict
  pyexec [append_getElem0, List.getElem?_cons_zero, e1, e2, Bool.not_false, List.append_assoc, List.cons_append, List.nil_append, append_set0, List.set_cons_zero,
    List.length_append, List.length_cons, List.length_nil, List.contains_cons, Bool.or_true, Bool.true_or]

/-- sub_decoders/RTCM_BASE.py:310-353, one block -/
def biasStmt (mask : Int) (key : String) : Stmt :=
  .ite (.bin .band (.name n!"validity") (.const (.int mask))) [
      .unpack [.index (.attr (.name n!"bs") n!"correction") (.const (.str key)), .name n!"offset"] (.tuple [.call (.attr (.name n!"self") n!"getbits") [.name n!"buf", .name n!"offset", .const (.int 16)], .bin .add (.name n!"offset") (.const (.int 16))]),
      .ite (.cmp .eq (.index (.attr (.name n!"bs") n!"correction") (.const (.str key))) (.neg (.const (.int 32768)))) [
        .expr (.call (.attr (.name n!"logger") n!"warning") [.fstr [.attr (.name n!"bs") n!"msgNum"]])] [],
      .assign (.index (.attr (.name n!"bs") n!"validity") (.const (.str key))) (.const (.int 1)),
      .aug (.name n!"N") .add (.const (.int 1))] []

theorem band_nat (a b : Nat) : Int.land (a : Int) (b : Int) = ((a &&& b : Nat) : Int) := rfl

theorem keys_set_mem {κ α : Type} [DecidableEq κ] (d : PyDict κ α) (k : κ) (v : α) (h : k ∈ d.keys) : (d.set k v).keys = d.keys := by
  rw [PyDict.keys_set, if_pos]
  rw [PyDict.mem_eq]
  exact (PyDict.get?_isSome_iff d k).2 h

theorem bias_src (n m : Nat) {h : Heap} {a : Nat} {v : Val} (ha : h[a]? = some (.inst n!"BaseStationDataDecoder" [(n!"msgList", v)]))
    {buf : Bytes} (v1 v2 v3 V : Nat) (mask : Nat) (key : String) (st : PyDict String Int × PyDict String Int × Nat × Nat)
    (l : List (Ident × Val)) (hl : BLoc l a buf h.length st.2.2.1) (hV : l.lookup n!"validity" = some (.int V)) (hN : l.lookup n!"N" = some (.int st.2.2.2))
    (h1 : st.1.keys = biasKeys) (h2 : st.2.1.keys = biasKeys) (hk : key ∈ biasKeys) (ho : 24 ≤ st.2.2.1) :
    match readBias buf (V &&& mask != 0) key st with
    | .ok q => ∃ l', exec src m (callFn src (n + 2)) (biasStmt mask key)
          ⟨l, glbsHeap h (glbsFields .int (glbsObj v1 v2 v3) (h.length + 3) (h.length + 4)) st.2.1 st.1⟩ =
          (.ok .next, ⟨l', glbsHeap h (glbsFields .int (glbsObj v1 v2 v3) (h.length + 3) (h.length + 4)) q.2.1 q.1⟩) ∧
          BLoc l' a buf h.length q.2.2.1 ∧ l'.lookup n!"validity" = some (.int V) ∧ l'.lookup n!"N" = some (.int q.2.2.2) ∧
          q.1.keys = biasKeys ∧ q.2.1.keys = biasKeys ∧ 24 ≤ q.2.2.1
    | .error e => ∃ l' t, exec src m (callFn src (n + 2)) (biasStmt mask key)
          ⟨l, glbsHeap h (glbsFields .int (glbsObj v1 v2 v3) (h.length + 3) (h.length + 4)) st.2.1 st.1⟩ =
          (.error (.py (errName e)), ⟨l', h ++ t⟩) := by
  obtain ⟨C, W, o, N⟩ := st
  dsimp only at *
  have eb : (((V &&& mask : Nat) : Int) != 0) = (V &&& mask != 0) := by
    rw [Bool.eq_iff_iff, bne_iff_ne, bne_iff_ne]; omega
  unfold readBias
  cases hc : (V &&& mask != 0) with
  | false =>
    rw [if_neg (by decide)]
    rw [hc] at eb
    refine ⟨l, ?_, hl, hV, hN, h1, h2, ho⟩
    unfold biasStmt
    pyexec [hV, band_nat, eb]
  | true =>
    rw [if_pos rfl]
    rw [hc] at eb
    have ha' : (glbsHeap h (glbsFields .int (glbsObj v1 v2 v3) (h.length + 3) (h.length + 4)) W C)[a]? = _ := heap_old ha _
    have hr := read_call n n!"BaseStationDataDecoder" [(n!"msgList", v)] .s (baseSelfObj v) (by intro hk; cases hk) a l _ ha' hl.self buf o 16
      (.name n!"buf") (.name n!"offset") (by pyexec [hl.buf]) (by pyexec [hl.off])
    have e8 : (Const.int ((16 : Nat) : Int)) = Const.int 16 := rfl
    simp only [Kind.name, Kind.read, e8] at hr
    cases hv : Bits.gbs buf o 16 with
    | error e =>
      rw [hv] at hr
      refine ⟨l, [.inst n!"BaseGLBS" (glbsFields .int (glbsObj v1 v2 v3) (h.length + 3) (h.length + 4)), .dict [], .dict [], biasDict W, biasDict C], ?_⟩
      unfold biasStmt
      change eval src _ _ _ = (Except.error (Exc.py (errName e)), _) at hr
      pyexec [hV, band_nat, eb, hr]
      rfl
    | ok x =>
      rw [hv] at hr
      change eval src _ _ _ = (Except.ok (Val.int x), _) at hr
      have n1 : C.keys.Nodup := by rw [h1]; exact biasKeys_nodup
      have n2 : W.keys.Nodup := by rw [h2]; exact biasKeys_nodup
      have s1 : dictSet (encD .str (fun _ v => .int v) C) (.str key) (.int x) = encD .str (fun _ v => .int v) (C.set key x) :=
        encD_set (f := fun _ v => .int v) keyEnc_str C n1 key x
      have s2 : dictSet (encD .str (fun _ v => .int v) W) (.str key) (.int 1) = encD .str (fun _ v => .int v) (W.set key 1) :=
        encD_set (f := fun _ v => .int v) keyEnc_str W n2 key 1
      have s3 : dictGet (encD .str (fun _ v => .int v) (C.set key x)) (.str key) = some (.int x) := by
        rw [encD_get (f := fun _ v => .int v) keyEnc_str, PyDict.get?_set, if_pos rfl]; rfl
      have e9 : (o : Int) + (16 : Int) = ((o + 16 : Nat) : Int) := by omega
      have e10 : (N : Int) + (1 : Int) = ((N + 1 : Nat) : Int) := by omega
      have hl1 := hl.setOff (o + 16)
      have hb : ∀ v, BLoc (M.bindKey (M.bindKey l n!"offset" (.int (o + 16 : Nat))) n!"N" v) a buf h.length (o + 16) :=
        fun v => hl1.bindOther _ _ rfl rfl rfl rfl (by decide)
      have hN1 : (M.bindKey l n!"offset" (.int (o + 16 : Nat))).lookup n!"N" = some (.int N) := (lookup_bind_ne rfl).trans hN
      refine ⟨M.bindKey (M.bindKey l n!"offset" (.int (o + 16 : Nat))) n!"N" (.int (N + 1 : Nat)), ?_, hb _, ?_, lookup_bind_eq, ?_, ?_, ?_⟩
      · unfold biasStmt
        unfold glbsFields at *
        by_cases hx : x = -32768
        · have ex : (x == -32768) = true := by rw [beq_iff_eq]; exact hx
          pyexec [hV, band_nat, eb, hr, hl.bs, hl.off, hl1.bs, hl1.off, hl1.glob n!"logger" (by decide), glbs_get0, glbs_get3, glbs_get4, glbs_set3, glbs_set4, s1, s2, s3, e9, e10, hN1, ex]
        · have ex : (x == -32768) = false := by rw [beq_eq_false_iff_ne]; exact hx
          pyexec [hV, band_nat, eb, hr, hl.bs, hl.off, hl1.bs, hl1.off, hl1.glob n!"logger" (by decide), glbs_get0, glbs_get3, glbs_get4, glbs_set3, glbs_set4, s1, s2, s3, e9, e10, hN1, ex]
      · rw [lookup_bind_ne rfl, lookup_bind_ne rfl, hV]
      · exact (keys_set_mem C key x (by rw [h1]; exact hk)).trans h1
      · exact (keys_set_mem W key 1 (by rw [h2]; exact hk)).trans h2
      · dsimp only; omega

/-- sub_decoders/RTCM_BASE.py:304-306 -/
def glbsItems : List BItem := [uI n!"msgNum" 12, uI n!"bsID" 12, .fld ⟨n!"isCorrected", .u, 1, [1, 3]⟩]

theorem glbsItems_ok : ∀ i ∈ glbsItems, i.Ok := by
  intro i hi
  simp only [glbsItems, uI, List.mem_cons, List.not_mem_nil, or_false] at hi
  rcases hi with rfl | rfl | rfl <;> (intro e; cases e)

/-- `32 + 16 * N` -/
def glbsLen : Expr := .bin .add (.const (.int 32)) (.bin .mul (.const (.int 16)) (.name n!"N"))

/-- sub_decoders/RTCM_BASE.py:310-356 -/
def glbsRest : List Stmt := biasStmt 8 "1C" :: biasStmt 4 "1P" :: biasStmt 2 "2C" :: biasStmt 1 "2P" :: baseEnd glbsLen

/-- The end of the model. -/
def glbsFin (buf : Bytes) (v1 v2 v3 : Nat) (st : PyDict String Int × PyDict String Int × Nat × Nat) : Py BareObj :=
  Base.lengthCheck (32 + 16 * st.2.2.2) (st.2.2.1 - 24) buf.length >>= fun _ => pure (.glbs ⟨v1, v2, v3, st.2.1, st.1⟩)

/-- What holds between the blocks. -/
structure GlbsLoc (l : List (Ident × Val)) (a : Nat) (buf : Bytes) (r V : Nat) (st : PyDict String Int × PyDict String Int × Nat × Nat) : Prop where
  loc : BLoc l a buf r st.2.2.1
  val : l.lookup n!"validity" = some (.int V)
  num : l.lookup n!"N" = some (.int st.2.2.2)
  key1 : st.1.keys = biasKeys
  key2 : st.2.1.keys = biasKeys
  off : 24 ≤ st.2.2.1

theorem bias_sim (n : Nat) {h : Heap} {a : Nat} {v : Val} (ha : h[a]? = some (.inst n!"BaseStationDataDecoder" [(n!"msgList", v)]))
    {buf : Bytes} (v1 v2 v3 V : Nat) (mask : Nat) (key : String) (st : PyDict String Int × PyDict String Int × Nat × Nat)
    (l : List (Ident × Val)) (hl : GlbsLoc l a buf h.length V st) (hk : key ∈ biasKeys) (rest : List Stmt)
    (k : PyDict String Int × PyDict String Int × Nat × Nat → Py BareObj)
    (hs : ∀ st l, GlbsLoc l a buf h.length V st → Post BareShown h (execBlock src (n + 2) (callFn src (n + 2)) rest
      ⟨l, glbsHeap h (glbsFields .int (glbsObj v1 v2 v3) (h.length + 3) (h.length + 4)) st.2.1 st.1⟩) (k st)) :
    Post BareShown h (execBlock src (n + 2) (callFn src (n + 2)) (biasStmt mask key :: rest)
      ⟨l, glbsHeap h (glbsFields .int (glbsObj v1 v2 v3) (h.length + 3) (h.length + 4)) st.2.1 st.1⟩)
      (readBias buf (V &&& mask != 0) key st >>= k) := by
  have h1 := bias_src n (n + 2) ha v1 v2 v3 V mask key st l hl.loc hl.val hl.num hl.key1 hl.key2 hk hl.off
  rw [execBlock_cons]
  cases hw : readBias buf (V &&& mask != 0) key st with
  | error e =>
    rw [hw] at h1
    obtain ⟨l', t, h1⟩ := h1
    rw [h1]
    exact ⟨t, rfl⟩
  | ok q =>
    rw [hw] at h1
    obtain ⟨l', h1, j1, j2, j3, j4, j5, j6⟩ := h1
    rw [h1]
    exact hs q l' ⟨j1, j2, j3, j4, j5, j6⟩

theorem decode1230_src (n : Nat) {h : Heap} {a : Nat} (ha : BaseSelf h a) (buf : Bytes) :
    Builds BareShown h (callFn src (n + 3) n!"BaseStationDataDecoder.__decode1230" [.ref a, .bytes buf] h) (decode1230 buf) := by
  obtain ⟨v, ha⟩ := ha
  rw [callFn_succ src _ _ _ _ _ _ Look.fn_BaseStationDataDecoder_P_decode1230 rfl]
  have hbody : Src.fn_BaseStationDataDecoder_P_decode1230.body =
      .assign (.name n!"bs") (.call (.name n!"BaseGLBS") []) ::
      .assign (.name n!"offset") (.const (.int 24)) ::
      (glbsItems.flatMap BItem.stmts ++ (rdStmt n!"validity" 4 :: .assign (.name n!"N") (.const (.int 0)) :: glbsRest)) := rfl
  have hnew : ∀ l H, M.mapList fieldVal (dataFields src n!"BaseGLBS") ⟨l, H⟩ =
      (.ok (glbsFields .int (glbsObj 0 0 0) H.length (H.length + 1)), ⟨l, H ++ [.dict []] ++ [.dict []]⟩) := by
    intro l H
    show (_, _) = (_, _)
    rw [show (glbsFields .int (glbsObj 0 0 0) H.length (H.length + 1)) = glbsFields .int (glbsObj 0 0 0) H.length (H ++ [PyCore.Obj.dict []]).length by
      rw [List.length_append]; rfl]
    rfl
  have hpost := glbsPost_src (n + 1) h 0 0 0 (by decide)
  have hm : decode1230 buf = Bits.gbu buf 24 12 >>= fun v1 => Bits.gbu buf 36 12 >>= fun v2 => Bits.gbu buf 48 1 >>= fun v3 => Bits.gbu buf 52 4 >>= fun V =>
      readBias buf (V &&& 8 != 0) "1C" (zeroDict, zeroDict, 56, 0) >>= fun st => readBias buf (V &&& 4 != 0) "1P" st >>= fun st =>
      readBias buf (V &&& 2 != 0) "2C" st >>= fun st => readBias buf (V &&& 1 != 0) "2P" st >>= fun st => glbsFin buf v1 v2 v3 st := rfl
  rw [hbody, hm]
  change Post BareShown h (execBlock src (n + 2) (callFn src (n + 2)) _ ⟨[(n!"self", .ref a), (n!"buf", .bytes buf)], h⟩) _
  generalize hR : (rdStmt n!"validity" 4 :: .assign (.name n!"N") (.const (.int 0)) :: glbsRest : List Stmt) = R
  generalize hQ : glbsItems.flatMap BItem.stmts ++ R = Q
  pyexec [hnew, hpost, heap_set, List.append_assoc, List.cons_append, List.nil_append, append_set0, List.set_cons_zero, List.length_append, List.length_cons, List.length_nil]
  subst hQ
  refine items_sim (t := [.dict [], .dict [], biasDict zeroDict, biasDict zeroDict]) n (n + 2) ha R glbsItems glbsItems_ok (baseLoc2_ok a buf h.length 24) ?_
  unfold glbsItems uI
  refine BSim.u _ _ _ _ _ _ _ _ rfl fun v1 => ?_
  refine BSim.u _ _ _ _ _ _ _ _ rfl fun v2 => ?_
  refine BSim.u _ _ _ _ _ _ _ _ rfl fun v3 => ?_
  refine BSim.done fun l _ hl => ?_
  subst hR
  change BLoc l a buf h.length 52 at hl
  change Post BareShown h (execBlock src (n + 2) (callFn src (n + 2)) _
    ⟨l, glbsHeap h (glbsFields .int (glbsObj v1 v2 v3) (h.length + 3) (h.length + 4)) zeroDict zeroDict⟩) _
  have ha' : (glbsHeap h (glbsFields .int (glbsObj v1 v2 v3) (h.length + 3) (h.length + 4)) zeroDict zeroDict)[a]? = _ := heap_old ha _
  have r1 := rd_src n (n + 2) ha' hl n!"validity" 4
  have c1 : ((4 : Nat) : Int) = 4 := rfl
  rw [c1] at r1
  cases hv : Bits.gbu buf 52 4 with
  | error e =>
    rw [hv] at r1
    dsimp only at r1
    refine ⟨[.inst n!"BaseGLBS" (glbsFields .int (glbsObj v1 v2 v3) (h.length + 3) (h.length + 4)), .dict [], .dict [], biasDict zeroDict, biasDict zeroDict], ?_⟩
    pyexec [r1]
    rfl
  | ok V =>
    rw [hv] at r1
    dsimp only at r1
    have hl1 : BLoc (M.bindKey (M.bindKey l n!"validity" (.int V)) n!"offset" (.int (52 + 4 : Nat))) a buf h.length (52 + 4) :=
      (hl.bindOther _ _ rfl rfl rfl rfl (by decide)).setOff _
    have hl2 : GlbsLoc (M.bindKey (M.bindKey (M.bindKey l n!"validity" (.int V)) n!"offset" (.int (52 + 4 : Nat))) n!"N" (.int (0 : Nat))) a buf h.length V
        (zeroDict, zeroDict, 56, 0) :=
      ⟨hl1.bindOther _ _ rfl rfl rfl rfl (by decide), by rw [lookup_bind_ne rfl, lookup_bind_ne rfl, lookup_bind_eq], lookup_bind_eq, rfl, rfl, by decide⟩
    have hstep : execBlock src (n + 2) (callFn src (n + 2)) (rdStmt n!"validity" 4 :: .assign (.name n!"N") (.const (.int 0)) :: glbsRest)
        ⟨l, glbsHeap h (glbsFields .int (glbsObj v1 v2 v3) (h.length + 3) (h.length + 4)) zeroDict zeroDict⟩ =
        execBlock src (n + 2) (callFn src (n + 2)) glbsRest
          ⟨M.bindKey (M.bindKey (M.bindKey l n!"validity" (.int V)) n!"offset" (.int (52 + 4 : Nat))) n!"N" (.int (0 : Nat)),
            glbsHeap h (glbsFields .int (glbsObj v1 v2 v3) (h.length + 3) (h.length + 4)) zeroDict zeroDict⟩ := by
      generalize glbsRest = G
      pyexec [r1]
      rfl
    rw [hstep]
    unfold glbsRest
    refine bias_sim n ha v1 v2 v3 V 8 "1C" _ _ hl2 (by decide) _ _ fun st l hl => ?_
    refine bias_sim n ha v1 v2 v3 V 4 "1P" _ _ hl (by decide) _ _ fun st l hl => ?_
    refine bias_sim n ha v1 v2 v3 V 2 "2C" _ _ hl (by decide) _ _ fun st l hl => ?_
    refine bias_sim n ha v1 v2 v3 V 1 "2P" _ _ hl (by decide) _ _ fun st l hl => ?_
    have e6 : ∀ x : Nat, (16 : Int) * (x : Int) = ((16 * x : Nat) : Int) := fun x => rfl
    have e7 : ∀ x : Nat, (32 : Int) + (x : Int) = ((32 + x : Nat) : Int) := fun x => rfl
    refine baseEnd_src n (n + 2) ha glbsLen [] (32 + 16 * st.2.2.2) hl.loc hl.off ?_ (Base.Obj.glbs ⟨v1, v2, (v3 : Int), st.2.1, st.1⟩) ?_
    · unfold glbsLen
      pyexec [hl.num, e6, e7]
    · exact ⟨h.length + 3, h.length + 4, glbs_get0 _ _ _ _, glbs_get3 _ _ _ _, glbs_get4 _ _ _ _, by omega, hl.key2, hl.key1⟩

end Refine
end PyCore
end Verif
