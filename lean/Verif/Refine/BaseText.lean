import Verif.Refine.BaseScale

/-!
# The text of `__scale10078_1033` and `__scale1029` of sub_decoders/RTCM_BASE.py
-/

namespace Verif
namespace PyCore
namespace Refine
open Base

open Rounding (rnd)
variable [Rounding]

/-- `bytes` wants natural numbers. -/
def natOf : Val → M Nat
  | .int (.ofNat n) => M.pure n
  | _ => M.stuck

@[pyrun] theorem builtin_bytes (P : Prog) (s : St) (v : Val) :
    builtinFn P n!"bytes" [v] s = M.seq (elements P v s) (fun vs => M.mapList natOf vs >>= fun ns => M.ofPy errName (PyStr.toBytes ns) >>= fun b => M.pure (.bytes b)) := by
  have : (fun v => match v with | .int (.ofNat n) => M.pure n | _ => M.stuck : Val → M Nat) = natOf := by
    funext v
    cases v <;> rfl
  rw [← this, ← M.bind_apply]
  rfl

@[pyrun] theorem meth_split (P : Prog) (x : String) (l : List (Ident × Val)) (h : Heap) : builtinMeth P (.str x) n!"split" [.str " "] ⟨l, h⟩ =
    (.ok (.ref h.length), ⟨l, h ++ [.list ((PyStr.splitBlank x.toList).map (fun w => .str (String.ofList w)))]⟩) := rfl

@[pyrun] theorem meth_decode (P : Prog) (s : St) (b : Bytes) : builtinMeth P (.bytes b) n!"decode" [.str "utf-8"] s =
    M.seq (M.ofPy errName (PyStr.utf8Decode b) s) (fun x => M.pure (.str x)) := by
  rw [← M.bind_apply]
  rfl

@[pyrun] theorem builtin_int16 (P : Prog) (s : St) (w : List Char) : builtinFn P n!"int" [.str (String.ofList w), .int 16] s =
    M.seq (M.ofPy errName (PyStr.int16 w) s) (fun n : Nat => M.pure (Val.int n)) := by
  show (M.ofPy errName (PyStr.int16 (String.ofList w).toList) >>= fun n : Nat => M.pure (Val.int n)) s = _
  rw [String.toList_ofList, M.bind_apply]

@[pyrun] theorem ofPy_ok {α : Type} (x : α) (s : St) : M.ofPy errName (.ok x) s = (.ok x, s) := rfl
@[pyrun] theorem ofPy_error {α : Type} (e : PyErr) (s : St) : M.ofPy (α := α) errName (.error e) s = (.error (.py (errName e)), s) := rfl

theorem natOf_list (ns : List Nat) (s : St) : M.mapList natOf (ns.map (fun n : Nat => Val.int n)) s = (.ok ns, s) := by
  induction ns with
  | nil => rfl
  | cons n ns ih =>
    rw [List.map_cons]
    show (M.bind (natOf _) fun b => M.bind (M.mapList natOf (ns.map (fun n : Nat => Val.int n))) fun bs => M.pure (b :: bs)) s = _
    change M.bind (M.mapList natOf (ns.map (fun n : Nat => Val.int n))) (fun bs => M.pure (n :: bs)) s = _
    unfold M.bind
    rw [ih]
    rfl

/-- `int(s, 16)` -/
def hexElt : Expr := .call (.name n!"int") [.name n!"s", .const (.int 16)]

theorem comp_hex (n : Nat) (H : Heap) : ∀ (ws : List (List Char)) (l : List (Ident × Val)), l.lookup n!"int" = none →
    ∃ l', compLoop n!"s" (eval src (callFn src n) (.const (.bool true)) >>= fun c => truth src c) (eval src (callFn src n) hexElt)
      (ws.map (fun w => Val.str (String.ofList w))) ⟨l, H⟩ = match ws.mapM PyStr.int16 with
      | .ok ns => (.ok (ns.map (fun n : Nat => Val.int n)), ⟨l', H⟩)
      | .error e => (.error (.py (errName e)), ⟨l', H⟩)
  | [], l, _ => ⟨l, rfl⟩
  | w :: ws, l, hl => by
    have hl2 : (M.bindKey l n!"s" (.str (String.ofList w))).lookup n!"int" = none := by
      rw [lookup_bind_ne (by decide)]
      exact hl
    obtain ⟨l', ih⟩ := comp_hex n H ws _ hl2
    have hs : (M.bindKey l n!"s" (.str (String.ofList w))).lookup n!"s" = some (.str (String.ofList w)) := lookup_bind_eq
    rw [List.mapM_cons, List.map_cons]
    cases hw : PyStr.int16 w with
    | error e =>
      refine ⟨M.bindKey l n!"s" (.str (String.ofList w)), ?_⟩
      rw [compLoop_cons]
      unfold hexElt
      pyexec [hl2, hs, hw]
      rfl
    | ok v =>
      refine ⟨l', ?_⟩
      rw [compLoop_cons]
      unfold hexElt at ih ⊢
      pyexec [hl2, hs, hw]
      rw [ih]
      cases ws.mapM PyStr.int16 <;> rfl

/-- `symbols = obj.f.split(" ")`, `bs.f = bytes([int(s, 16) for s in symbols]).decode("utf-8")`,
sub_decoders/RTCM_BASE.py:198-199, 205-206, 211-219, 294-295. -/
def hexStmts (obj f : Ident) : List Stmt :=
  [.assign (.name n!"symbols") (.call (.attr (.attr (.name obj) f) n!"split") [.const (.str " ")]),
   .assign (.attr (.name n!"bs") f) (.call (.attr (.call (.name n!"bytes") [.listComp hexElt n!"s" (.name n!"symbols") (.const (.bool true))]) n!"decode") [.const (.str "utf-8")])]

theorem hexStmts_src (n m : Nat) {α : Type} {Φ : α → Heap → Nat → Prop} {h J : Heap} {c c' : Ident} {fs gs : List (Ident × Val)} {l : List (Ident × Val)}
    {obj f : Ident} {p : Nat} {x : String} {R : List Stmt} {k : String → Py α} (hobj : l.lookup obj = some (.ref p)) (hbs : l.lookup n!"bs" = some (.ref h.length))
    (hint : l.lookup n!"int" = none) (hby : l.lookup n!"bytes" = none) (hp : (h ++ .inst c fs :: J)[p]? = some (.inst c' gs)) (hf : gs.lookup f = some (.str x))
    (hk : ∀ y u J', Post Φ h (execBlock src m (callFn src n) R ⟨M.bindKey l n!"symbols" u, h ++ .inst c (M.bindKey fs f (.str y)) :: J'⟩) (k y)) :
    Post Φ h (execBlock src m (callFn src n) (hexStmts obj f ++ R) ⟨l, h ++ .inst c fs :: J⟩) (PyStr.hexTextDecode x >>= k) := by
  unfold hexStmts
  rw [List.cons_append, List.cons_append, List.nil_append]
  obtain ⟨H, hH⟩ : ∃ H, H = h ++ .inst c fs :: J := ⟨_, rfl⟩
  rw [← hH] at hp ⊢
  have hb : H[h.length]? = some (.inst c fs) := by rw [hH, append_getElem0]; rfl
  have h1 : (M.bindKey l n!"symbols" (.ref H.length)).lookup n!"symbols" = some (.ref H.length) := lookup_bind_eq
  have h2 : (M.bindKey l n!"symbols" (.ref H.length)).lookup n!"bs" = some (.ref h.length) := by rw [lookup_bind_ne (by decide)]; exact hbs
  have h3 : (M.bindKey l n!"symbols" (.ref H.length)).lookup n!"int" = none := by rw [lookup_bind_ne (by decide)]; exact hint
  have h4 : (M.bindKey l n!"symbols" (.ref H.length)).lookup n!"bytes" = none := by rw [lookup_bind_ne (by decide)]; exact hby
  have hc := comp_hex n (H ++ [.list ((PyStr.splitBlank x.toList).map (fun w => .str (String.ofList w)))]) (PyStr.splitBlank x.toList) _ h3
  obtain ⟨l', hc⟩ := hc
  unfold PyStr.hexTextDecode
  cases hm : (PyStr.splitBlank x.toList).mapM PyStr.int16 with
  | error e =>
    rw [hm] at hc
    pyexec [hobj, hp, hf, h1, h2, h3, h4, heap_last, hc]
    rw [hH, List.append_assoc]
    exact Post.error _
  | ok ns =>
    rw [hm] at hc
    change Post _ _ _ ((PyStr.toBytes ns >>= PyStr.utf8Decode) >>= k)
    have hN := natOf_list ns
    cases ht : PyStr.toBytes ns with
    | error e =>
      pyexec [hobj, hp, hf, h1, h2, h3, h4, heap_last, hc, append_getElem, List.append_assoc, List.cons_append, List.nil_append, List.getElem?_cons_succ, List.getElem?_cons_zero, hN, ht]
      rw [hH]
      simp only [List.append_assoc]
      exact Post.error _
    | ok b =>
      change Post _ _ _ (PyStr.utf8Decode b >>= k)
      cases hu : PyStr.utf8Decode b with
      | error e =>
        pyexec [hobj, hp, hf, h1, h2, h3, h4, heap_last, hc, append_getElem, List.append_assoc, List.cons_append, List.nil_append, List.getElem?_cons_succ, List.getElem?_cons_zero, hN, ht, hu]
        rw [hH]
        simp only [List.append_assoc]
        exact Post.error _
      | ok y =>
        pyexec [hobj, hp, hf, h1, h2, h3, h4, heap_last, hc, append_getElem, List.append_assoc, List.cons_append, List.nil_append, List.getElem?_cons_succ, List.getElem?_cons_zero, hN, ht, hu, heap_old hb]
        rw [hH, List.append_assoc, List.cons_append, append_set0, List.set_cons_zero]
        exact hk y _ _

@[pyrun] theorem getAttr_deepcopy (P : Prog) (call : CallT) (s : St) : getAttr P call (.builtin n!"copy") n!"deepcopy" s = (.ok (.builtin n!"copy.deepcopy"), s) := rfl
@[pyrun] theorem builtin_deepcopy (P : Prog) (s : St) (v : Val) : builtinFn P n!"copy.deepcopy" [v] s = deepCopy v s := rfl

theorem deepCopy_inst {l : List (Ident × Val)} {h h' : Heap} {a : Nat} {c : Ident} {fs gs : List (Ident × Val)} (ha : h[a]? = some (.inst c fs))
    (hn : (refsOf fs).Nodup) (hc : M.mapList copyField fs ⟨l, h⟩ = (.ok gs, ⟨l, h'⟩)) :
    deepCopy (.ref a) ⟨l, h⟩ = (.ok (.ref h'.length), ⟨l, h' ++ [.inst c gs]⟩) := by
  unfold deepCopy
  dsimp only
  rw [M.bind_apply]
  pyexec [ha]
  rw [if_pos hn, M.bind_apply, hc]
  rfl

theorem deepcopy_src (n : Nat) {h h' : Heap} {a : Nat} {c : Ident} {fs gs : List (Ident × Val)} (ha : h[a]? = some (.inst c fs))
    (hn : (refsOf fs).Nodup) (hc : ∀ l, M.mapList copyField fs ⟨l, h⟩ = (.ok gs, ⟨l, h'⟩)) :
    callFn src (n + 1) n!"DataClassMethods.deepcopy" [.ref a] h = (.ok (.ref h'.length), h' ++ [.inst c gs]) := by
  pycall Look.fn_DataClassMethods_deepcopy Src.fn_DataClassMethods_deepcopy
  pyexec [deepCopy_inst ha hn (hc _)]

theorem scaleTS_src (n : Nat) (v : Val) {h : Heap} {a : Nat} {o : BaseTS} (ha : BareShown (.ts o) h a) :
    Builds ScaledBase h (callFn src (n + 2) n!"BaseStationDataDecoder.__scale1029" [v, .ref a] h) (Base.scaleR rnd (.ts o)) := by
  have ha : h[a]? = some (.inst n!"BaseTS" (tsFields o)) := ha
  rw [callFn_succ src _ _ _ _ _ _ Look.fn_BaseStationDataDecoder_P_scale1029 rfl]
  have hdc := deepcopy_src n (h' := h) (gs := tsFields o) ha (show ([] : List Nat).Nodup from List.nodup_nil) (fun _ => rfl)
  have hbody : Src.fn_BaseStationDataDecoder_P_scale1029.body = .assign (.name n!"bs") (.call (.attr (.name n!"ibs") n!"deepcopy") []) ::
    (hexStmts n!"ibs" n!"message" ++ [.ret (.name n!"bs")]) := rfl
  rw [hbody]
  change Post _ _ (execBlock _ _ _ _ ⟨[(n!"cls", v), (n!"ibs", .ref a)], h⟩) _
  have hx := hexStmts_src (n + 1) (n + 1) (Φ := ScaledBase) (h := h) (J := []) (c := n!"BaseTS") (fs := tsFields o) (gs := tsFields o)
    (l := [(n!"cls", v), (n!"ibs", .ref a), (n!"bs", .ref h.length)]) (obj := n!"ibs") (f := n!"message") (x := o.message) (R := [.ret (.name n!"bs")])
    (k := fun y => .ok (.ts { o with message := y })) rfl rfl rfl rfl (heap_old ha _) rfl (by
      intro y u J'
      pyexec
      refine ⟨h.length, _, rfl, le_refl _, ?_⟩
      change (h ++ _)[h.length]? = _
      rw [append_getElem0]
      rfl)
  have hlk : (tsFields o).lookup n!"deepcopy" = none := rfl
  generalize hexStmts n!"ibs" n!"message" ++ [.ret (.name n!"bs")] = R at hx ⊢
  have hm : Base.scaleR rnd (.ts o) = PyStr.hexTextDecode o.message >>= fun y => .ok (.ts { o with message := y }) := by
    unfold Base.scaleR scaleTS
    dsimp only
    cases PyStr.hexTextDecode o.message <;> rfl
  rw [hm]
  generalize tsFields o = fs at *
  pyexec [ha, hlk, hdc]
  exact hx

/-- The end of `__scale10078_1033`, sub_decoders/RTCM_BASE.py:211-221. -/
def adTail4 : List Stmt :=
  hexStmts n!"bs" n!"rcvDescriptor" ++ (hexStmts n!"bs" n!"rcvFWVersion" ++ (hexStmts n!"bs" n!"rcvSerNum" ++ [.ret (.name n!"bs")]))
/-- sub_decoders/RTCM_BASE.py:208-221. -/
def adTail3 : List Stmt :=
  .ite (.not (.call (.name n!"isinstance") [.name n!"bs", .name n!"BaseADSNRC"])) [
      .ret (.name n!"bs")] [] :: adTail4
/-- sub_decoders/RTCM_BASE.py:201-221. -/
def adTail1 : List Stmt :=
  .ite (.not (.call (.name n!"isinstance") [.name n!"bs", .tuple [.name n!"BaseADSN", .name n!"BaseADSNRC"]])) [
      .ret (.name n!"bs")] [] :: (hexStmts n!"bs" n!"serialNumber" ++ adTail3)

/-- The local variables. -/
def adLoc (v : Val) (a b : Nat) (u : Val) : List (Ident × Val) := [(n!"cls", v), (n!"ibs", .ref a), (n!"bs", .ref b), (n!"symbols", u)]

theorem adFirst_src (n : Nat) (v : Val) {h : Heap} {a : Nat} {c m : Ident} {fs : List (Ident × Val)} {x : String} {k : String → Py ScaledObj} (ha : h[a]? = some (.inst c fs))
    (hn : refsOf fs = []) (hc : ∀ l, M.mapList copyField fs ⟨l, h⟩ = (.ok fs, ⟨l, h⟩)) (hlk : fs.lookup n!"deepcopy" = none)
    (hmem : findMember src c n!"deepcopy" = some (m, .method n!"DataClassMethods.deepcopy"))
    (hx : fs.lookup n!"descr" = some (.str x))
    (hk : ∀ y u J', Post ScaledBase h (execBlock src (n + 1) (callFn src (n + 1)) adTail1 ⟨adLoc v a h.length u, h ++ .inst c (M.bindKey fs n!"descr" (.str y)) :: J'⟩) (k y)) :
    Builds ScaledBase h (callFn src (n + 2) n!"BaseStationDataDecoder.__scale10078_1033" [v, .ref a] h) (PyStr.hexTextDecode x >>= k) := by
  rw [callFn_succ src _ _ _ _ _ _ Look.fn_BaseStationDataDecoder_P_scale10078_1033 rfl]
  have hdc := deepcopy_src n (h' := h) (gs := fs) ha (by rw [hn]; exact List.nodup_nil) hc
  have hbody : Src.fn_BaseStationDataDecoder_P_scale10078_1033.body = .assign (.name n!"bs") (.call (.attr (.name n!"ibs") n!"deepcopy") []) ::
    (hexStmts n!"ibs" n!"descr" ++ adTail1) := rfl
  rw [hbody]
  change Post _ _ (execBlock _ _ _ _ ⟨[(n!"cls", v), (n!"ibs", .ref a)], h⟩) _
  have hx := hexStmts_src (n + 1) (n + 1) (Φ := ScaledBase) (h := h) (J := []) (c := c) (fs := fs) (gs := fs)
    (l := [(n!"cls", v), (n!"ibs", .ref a), (n!"bs", .ref h.length)]) (obj := n!"ibs") (f := n!"descr") (x := x) (R := adTail1)
    (k := k) rfl rfl rfl rfl (heap_old ha _) hx hk
  generalize hexStmts n!"ibs" n!"descr" ++ adTail1 = R at hx ⊢
  pyexec [ha, hlk, hmem, hdc]
  exact hx

theorem scaleAD_src (n : Nat) (v : Val) {h : Heap} {a : Nat} {o : BaseAD} (ha : BareShown (.ad o) h a) :
    Builds ScaledBase h (callFn src (n + 2) n!"BaseStationDataDecoder.__scale10078_1033" [v, .ref a] h) (Base.scaleR rnd (.ad o)) := by
  have ha : h[a]? = some (.inst n!"BaseAD" (adFields o)) := ha
  have hm : Base.scaleR rnd (.ad o) = PyStr.hexTextDecode o.descr >>= fun y => .ok (.ad { o with descr := y }) := by
    unfold Base.scaleR scaleAD
    dsimp only
    cases PyStr.hexTextDecode o.descr <;> rfl
  rw [hm]
  refine adFirst_src n v ha rfl (fun _ => rfl) rfl Look.mem_BaseAD_deepcopy rfl ?_
  intro y u J'
  unfold adTail1 adLoc
  generalize hexStmts n!"bs" n!"serialNumber" ++ adTail3 = R
  have h1 : subclass src n!"BaseAD" n!"BaseADSN" = false := rfl
  have h2 : subclass src n!"BaseAD" n!"BaseADSNRC" = false := rfl
  pyexec [append_getElem0, List.getElem?_cons_zero, h1, h2, Bool.or_false, Bool.not_false]
  refine ⟨h.length, _, rfl, le_refl _, ?_⟩
  change (h ++ _)[h.length]? = _
  rw [append_getElem0]
  rfl

theorem adTail1_src (n : Nat) (v : Val) {h J : Heap} {a : Nat} {c : Ident} {fs : List (Ident × Val)} {x : String} {k : String → Py ScaledObj} {u : Val}
    (hsub : (subclass src c n!"BaseADSN" || subclass src c n!"BaseADSNRC") = true) (hx : fs.lookup n!"serialNumber" = some (.str x))
    (hk : ∀ y u J', Post ScaledBase h (execBlock src (n + 1) (callFn src (n + 1)) adTail3 ⟨adLoc v a h.length u, h ++ .inst c (M.bindKey fs n!"serialNumber" (.str y)) :: J'⟩) (k y)) :
    Post ScaledBase h (execBlock src (n + 1) (callFn src (n + 1)) adTail1 ⟨adLoc v a h.length u, h ++ .inst c fs :: J⟩) (PyStr.hexTextDecode x >>= k) := by
  have hx := hexStmts_src (n + 1) (n + 1) (Φ := ScaledBase) (h := h) (J := J) (c := c) (fs := fs) (gs := fs)
    (l := adLoc v a h.length u) (obj := n!"bs") (f := n!"serialNumber") (x := x) (R := adTail3)
    (k := k) rfl rfl rfl rfl (by rw [append_getElem0]; rfl) hx (fun y u J => hk y u J)
  unfold adTail1
  generalize hexStmts n!"bs" n!"serialNumber" ++ adTail3 = R at *
  unfold adLoc at *
  pyexec [append_getElem0, List.getElem?_cons_zero, hsub, Bool.not_true]
  exact hx

theorem scaleADSN_src (n : Nat) (v : Val) {h : Heap} {a : Nat} {o : BaseADSN} (ha : BareShown (.adsn o) h a) :
    Builds ScaledBase h (callFn src (n + 2) n!"BaseStationDataDecoder.__scale10078_1033" [v, .ref a] h) (Base.scaleR rnd (.adsn o)) := by
  have ha : h[a]? = some (.inst n!"BaseADSN" (adsnFields o)) := ha
  have hm : Base.scaleR rnd (.adsn o) = PyStr.hexTextDecode o.ad.descr >>= fun y => PyStr.hexTextDecode o.serialNumber >>= fun z =>
      .ok (.adsn { o with ad := { o.ad with descr := y }, serialNumber := z }) := by
    unfold Base.scaleR scaleADSN scaleAD
    dsimp only
    cases PyStr.hexTextDecode o.ad.descr with
    | error e => rfl
    | ok y => cases PyStr.hexTextDecode o.serialNumber <;> rfl
  rw [hm]
  refine adFirst_src n v ha rfl (fun _ => rfl) rfl Look.mem_BaseADSN_deepcopy rfl ?_
  intro y u J'
  refine adTail1_src n v rfl rfl ?_
  intro z u J'
  unfold adTail3 adLoc
  generalize adTail4 = R
  have h2 : subclass src n!"BaseADSN" n!"BaseADSNRC" = false := rfl
  pyexec [append_getElem0, List.getElem?_cons_zero, h2, Bool.not_false]
  refine ⟨h.length, _, rfl, le_refl _, ?_⟩
  change (h ++ _)[h.length]? = _
  rw [append_getElem0]
  rfl

theorem scaleADSNRC_src (n : Nat) (v : Val) {h : Heap} {a : Nat} {o : BaseADSNRC} (ha : BareShown (.adsnrc o) h a) :
    Builds ScaledBase h (callFn src (n + 2) n!"BaseStationDataDecoder.__scale10078_1033" [v, .ref a] h) (Base.scaleR rnd (.adsnrc o)) := by
  have ha : h[a]? = some (.inst n!"BaseADSNRC" (adsnrcFields o)) := ha
  have hm : Base.scaleR rnd (.adsnrc o) = PyStr.hexTextDecode o.adsn.ad.descr >>= fun y => PyStr.hexTextDecode o.adsn.serialNumber >>= fun z =>
      PyStr.hexTextDecode o.rcvDescriptor >>= fun p => PyStr.hexTextDecode o.rcvFWVersion >>= fun q => PyStr.hexTextDecode o.rcvSerNum >>= fun r =>
      .ok (.adsnrc { o with adsn := { o.adsn with ad := { o.adsn.ad with descr := y }, serialNumber := z }, rcvDescriptor := p, rcvFWVersion := q, rcvSerNum := r }) := by
    unfold Base.scaleR scaleADSNRC scaleADSN scaleAD
    dsimp only
    cases PyStr.hexTextDecode o.adsn.ad.descr with
    | error e => rfl
    | ok y =>
      cases PyStr.hexTextDecode o.adsn.serialNumber with
      | error e => rfl
      | ok z =>
        cases PyStr.hexTextDecode o.rcvDescriptor with
        | error e => rfl
        | ok p =>
          cases PyStr.hexTextDecode o.rcvFWVersion with
          | error e => rfl
          | ok q => cases PyStr.hexTextDecode o.rcvSerNum <;> rfl
  rw [hm]
  refine adFirst_src n v ha rfl (fun _ => rfl) rfl Look.mem_BaseADSNRC_deepcopy rfl ?_
  intro y u J'
  refine adTail1_src n v rfl rfl ?_
  intro z u J'
  unfold adTail3
  have h2 : subclass src n!"BaseADSNRC" n!"BaseADSNRC" = true := rfl
  have hx := hexStmts_src (n + 1) (n + 1) (Φ := ScaledBase) (h := h) (J := J') (c := n!"BaseADSNRC")
    (fs := M.bindKey (M.bindKey (adsnrcFields o) n!"descr" (.str y)) n!"serialNumber" (.str z))
    (gs := M.bindKey (M.bindKey (adsnrcFields o) n!"descr" (.str y)) n!"serialNumber" (.str z))
    (l := adLoc v a h.length u) (obj := n!"bs") (f := n!"rcvDescriptor") (x := o.rcvDescriptor)
    (R := hexStmts n!"bs" n!"rcvFWVersion" ++ (hexStmts n!"bs" n!"rcvSerNum" ++ [.ret (.name n!"bs")]))
    (k := fun p => PyStr.hexTextDecode o.rcvFWVersion >>= fun q => PyStr.hexTextDecode o.rcvSerNum >>= fun r =>
      .ok (.adsnrc { o with adsn := { o.adsn with ad := { o.adsn.ad with descr := y }, serialNumber := z }, rcvDescriptor := p, rcvFWVersion := q, rcvSerNum := r }))
    rfl rfl rfl rfl (by rw [append_getElem0]; rfl) rfl (by
      intro p u J'
      refine hexStmts_src (n + 1) (n + 1) (p := h.length) rfl rfl rfl rfl (by rw [append_getElem0]; rfl) rfl ?_
      intro q u J'
      refine hexStmts_src (n + 1) (n + 1) (p := h.length) rfl rfl rfl rfl (by rw [append_getElem0]; rfl) rfl ?_
      intro r u J'
      change Post _ _ (execBlock _ _ _ _ ⟨adLoc v a h.length u, _⟩) _
      unfold adLoc
      pyexec
      refine ⟨h.length, _, rfl, le_refl _, ?_⟩
      change (h ++ _)[h.length]? = _
      rw [append_getElem0]
      rfl)
  change Post _ _ (execBlock _ _ _ adTail4 _) _ at hx
  generalize adTail4 = R at *
  generalize M.bindKey (M.bindKey (adsnrcFields o) n!"descr" (.str y)) n!"serialNumber" (.str z) = fs at *
  unfold adLoc at *
  pyexec [append_getElem0, List.getElem?_cons_zero, h2, Bool.not_true]
  exact hx

end Refine
end PyCore
end Verif
