import Verif.Refine.EphDecode

/-!
# The methods of `EphemerisDecoder` that scale messages and their models
-/

namespace Verif
namespace PyCore
namespace Refine

open Rounding (rnd)
variable [Rounding]

/-- Numbers of the model as values. -/
def numVal : PyNum → Val
  | .int x => .int x
  | .flt x => .flt x

/-- The statement. -/
def scStmt (p : Ident × Sc) : Stmt := .assign (.attr (.name n!"eph") p.1) (p.2.expr p.1)

/-- The fields that are computed. -/
def scaleFields (gs : List (Ident × Val)) : List (Ident × Sc) → List (Ident × Val) → Option (List (Ident × Val))
  | [], fs => some fs
  | (f, sc) :: ss, fs =>
    match gs.lookup f with
    | some (.int x) => scaleFields gs ss (M.bindKey fs f (sc.val x))
    | _ => none

/-- The state in which the fields of an object are computed from the fields of another one. -/
structure ScFrame (c c' : Ident) (gs : List (Ident × Val)) (L : List (Ident × Val)) (H : List (Ident × Val) → Heap) : Prop where
  src : ∃ q, L.lookup n!"ie" = some (.ref q) ∧ ∀ fs, (H fs)[q]? = some (.inst c' gs)
  obj : ∃ r, L.lookup n!"eph" = some (.ref r) ∧ (∀ fs, (H fs)[r]? = some (.inst c fs)) ∧
    ∀ fs fs', (H fs).set r (.inst c fs') = H fs'

theorem neg_succ_lit (k : Nat) : -((k + 1 : Nat) : Int) = Int.negSucc k := rfl

theorem sc_eval (call : CallT) {c c' gs L H} (F : ScFrame c c' gs L H) (f : Ident) (sc : Sc) (fs : List (Ident × Val)) (x : Int)
    (hx : gs.lookup f = some (.int x)) : eval src call (sc.expr f) ⟨L, H fs⟩ = (.ok (sc.val x), ⟨L, H fs⟩) := by
  obtain ⟨q, hq, hqt⟩ := F.src
  have h2 : (2 : Int) ≠ 0 := by decide
  cases sc with
  | pow k =>
    unfold Sc.expr Sc.val
    pyexec [hq, hqt, hx, neg_succ_lit, binOp_pow_neg _ _ _ h2]
    rfl
  | dec =>
    unfold Sc.expr Sc.val
    pyexec [hq, hqt, hx]
    have e : mkRat 1 10000000000 = (1 : Rat) / 10 ^ 10 := by rw [Rat.mkRat_eq_div]; norm_num
    rw [e]
    rfl
  | _ =>
    unfold Sc.expr Sc.val
    pyexec [hq, hqt, hx]

theorem scale_steps (m : Nat) (call : CallT) {c c' gs L H} (F : ScFrame c c' gs L H) (rest : List Stmt) : ∀ (ss : List (Ident × Sc))
    (fs fs' : List (Ident × Val)), scaleFields gs ss fs = some fs' →
    execBlock src m call (ss.map scStmt ++ rest) ⟨L, H fs⟩ = execBlock src m call rest ⟨L, H fs'⟩
  | [], fs, fs', h => by
    cases h
    rfl
  | (f, sc) :: ss, fs, fs', h => by
    simp only [scaleFields] at h
    split at h
    · rename_i x hx
      obtain ⟨r, hr, hrt, hset⟩ := F.obj
      have h1 := sc_eval call F f sc fs x hx
      rw [← scale_steps m call F rest ss _ fs' h]
      simp only [List.map_cons, List.cons_append]
      rw [scStmt]
      pyexec [h1, hr, hrt, hset]
    · cases h

theorem navic_scale_model (e : EphNAVIC Int) :
    scaleFields (navicFields .int e) navicScale navicNew = some (navicFields numVal (Eph.scale1041R rnd e)) := by
  simp only [navicNew, navicFields, navicScale, scaleFields, M.bindKey_cons, M.bindKey_nil, List.lookup_cons, ident_beq, Nat.reduceBEq, beq_self_eq_true,
    reduceIte, Bool.false_eq_true]
  rfl

theorem scale1041_src (n : Nat) {h : Heap} {q : Nat} (e : EphNAVIC Int) (hq : h[q]? = some (.inst n!"EphNAVIC" (navicFields .int e))) :
    callFn src (n + 1) n!"EphemerisDecoder.__scale1041" [.cls n!"EphemerisDecoder", .ref q] h =
      (.ok (.ref h.length), h ++ [.inst n!"EphNAVIC" (navicFields numVal (Eph.scale1041R rnd e))]) := by
  rw [callFn_succ src _ _ _ _ _ _ Look.fn_EphemerisDecoder_P_scale1041 rfl]
  have hbody : Src.fn_EphemerisDecoder_P_scale1041.body =
      .assign (.name n!"eph") (.call (.attr (.name n!"mEph") n!"EphNAVIC") []) :: (navicScale.map scStmt ++ [.ret (.name n!"eph")]) := rfl
  have hnew : ∀ s, M.mapList fieldVal (dataFields src n!"EphNAVIC") s = (.ok navicNew, s) := fun _ => rfl
  have hF : ScFrame n!"EphNAVIC" n!"EphNAVIC" (navicFields .int e)
      [(n!"cls", .cls n!"EphemerisDecoder"), (n!"ie", .ref q), (n!"eph", .ref h.length)] (fun fs => h ++ [.inst n!"EphNAVIC" fs]) :=
    ⟨⟨q, rfl, fun _ => heap_old hq _⟩, ⟨h.length, rfl, fun _ => heap_last _ _, fun _ _ => heap_set _ _ _⟩⟩
  have h1 := scale_steps n (callFn src n) hF [.ret (.name n!"eph")] navicScale _ _ (navic_scale_model e)
  show endCall (execBlock src n (callFn src n) Src.fn_EphemerisDecoder_P_scale1041.body
    ⟨[(n!"cls", .cls n!"EphemerisDecoder"), (n!"ie", .ref q)], h⟩) = _
  rw [hbody]
  pyexec [hnew, heap_set, List.contains_cons, Bool.or_true, Bool.true_or, h1]

theorem bds_scale_model (e : EphBDS Int) :
    scaleFields (bdsFields .int e) bdsScale bdsNew = some (bdsFields numVal (Eph.scale1042R rnd e)) := by
  simp only [bdsNew, bdsFields, bdsScale, scaleFields, M.bindKey_cons, M.bindKey_nil, List.lookup_cons, ident_beq, Nat.reduceBEq, beq_self_eq_true,
    reduceIte, Bool.false_eq_true]
  rfl

theorem scale1042_src (n : Nat) {h : Heap} {q : Nat} (e : EphBDS Int) (hq : h[q]? = some (.inst n!"EphBDS" (bdsFields .int e))) :
    callFn src (n + 1) n!"EphemerisDecoder.__scale1042" [.cls n!"EphemerisDecoder", .ref q] h =
      (.ok (.ref h.length), h ++ [.inst n!"EphBDS" (bdsFields numVal (Eph.scale1042R rnd e))]) := by
  rw [callFn_succ src _ _ _ _ _ _ Look.fn_EphemerisDecoder_P_scale1042 rfl]
  have hbody : Src.fn_EphemerisDecoder_P_scale1042.body =
      .assign (.name n!"eph") (.call (.attr (.name n!"mEph") n!"EphBDS") []) :: (bdsScale.map scStmt ++ [.ret (.name n!"eph")]) := rfl
  have hnew : ∀ s, M.mapList fieldVal (dataFields src n!"EphBDS") s = (.ok bdsNew, s) := fun _ => rfl
  have hF : ScFrame n!"EphBDS" n!"EphBDS" (bdsFields .int e)
      [(n!"cls", .cls n!"EphemerisDecoder"), (n!"ie", .ref q), (n!"eph", .ref h.length)] (fun fs => h ++ [.inst n!"EphBDS" fs]) :=
    ⟨⟨q, rfl, fun _ => heap_old hq _⟩, ⟨h.length, rfl, fun _ => heap_last _ _, fun _ _ => heap_set _ _ _⟩⟩
  have h1 := scale_steps n (callFn src n) hF [.ret (.name n!"eph")] bdsScale _ _ (bds_scale_model e)
  show endCall (execBlock src n (callFn src n) Src.fn_EphemerisDecoder_P_scale1042.body
    ⟨[(n!"cls", .cls n!"EphemerisDecoder"), (n!"ie", .ref q)], h⟩) = _
  rw [hbody]
  pyexec [hnew, heap_set, List.contains_cons, Bool.or_true, Bool.true_or, h1]

theorem qzs_scale_model (e : EphQZS Int) :
    scaleFields (qzsFields .int e) qzsScale qzsNew = some (qzsFields numVal (Eph.scale1044R rnd e)) := by
  simp only [qzsNew, qzsFields, qzsScale, scaleFields, M.bindKey_cons, M.bindKey_nil, List.lookup_cons, ident_beq, Nat.reduceBEq, beq_self_eq_true,
    reduceIte, Bool.false_eq_true]
  rfl

theorem scale1044_src (n : Nat) {h : Heap} {q : Nat} (e : EphQZS Int) (hq : h[q]? = some (.inst n!"EphQZS" (qzsFields .int e))) :
    callFn src (n + 1) n!"EphemerisDecoder.__scale1044" [.cls n!"EphemerisDecoder", .ref q] h =
      (.ok (.ref h.length), h ++ [.inst n!"EphQZS" (qzsFields numVal (Eph.scale1044R rnd e))]) := by
  rw [callFn_succ src _ _ _ _ _ _ Look.fn_EphemerisDecoder_P_scale1044 rfl]
  have hbody : Src.fn_EphemerisDecoder_P_scale1044.body =
      .assign (.name n!"eph") (.call (.attr (.name n!"mEph") n!"EphQZS") []) :: (qzsScale.map scStmt ++ [.ret (.name n!"eph")]) := rfl
  have hnew : ∀ s, M.mapList fieldVal (dataFields src n!"EphQZS") s = (.ok qzsNew, s) := fun _ => rfl
  have hF : ScFrame n!"EphQZS" n!"EphQZS" (qzsFields .int e)
      [(n!"cls", .cls n!"EphemerisDecoder"), (n!"ie", .ref q), (n!"eph", .ref h.length)] (fun fs => h ++ [.inst n!"EphQZS" fs]) :=
    ⟨⟨q, rfl, fun _ => heap_old hq _⟩, ⟨h.length, rfl, fun _ => heap_last _ _, fun _ _ => heap_set _ _ _⟩⟩
  have h1 := scale_steps n (callFn src n) hF [.ret (.name n!"eph")] qzsScale _ _ (qzs_scale_model e)
  show endCall (execBlock src n (callFn src n) Src.fn_EphemerisDecoder_P_scale1044.body
    ⟨[(n!"cls", .cls n!"EphemerisDecoder"), (n!"ie", .ref q)], h⟩) = _
  rw [hbody]
  pyexec [hnew, heap_set, List.contains_cons, Bool.or_true, Bool.true_or, h1]

theorem galf_scale_model (e : EphGALF Int) :
    scaleFields (galfFields .int e) galfScale galfNew = some (galfFields numVal (Eph.scale1045R rnd e)) := by
  simp only [galfNew, galfFields, galfScale, scaleFields, M.bindKey_cons, M.bindKey_nil, List.lookup_cons, ident_beq, Nat.reduceBEq, beq_self_eq_true,
    reduceIte, Bool.false_eq_true]
  rfl

theorem scale1045_src (n : Nat) {h : Heap} {q : Nat} (e : EphGALF Int) (hq : h[q]? = some (.inst n!"EphGALF" (galfFields .int e))) :
    callFn src (n + 1) n!"EphemerisDecoder.__scale1045" [.cls n!"EphemerisDecoder", .ref q] h =
      (.ok (.ref h.length), h ++ [.inst n!"EphGALF" (galfFields numVal (Eph.scale1045R rnd e))]) := by
  rw [callFn_succ src _ _ _ _ _ _ Look.fn_EphemerisDecoder_P_scale1045 rfl]
  have hbody : Src.fn_EphemerisDecoder_P_scale1045.body =
      .assign (.name n!"eph") (.call (.attr (.name n!"mEph") n!"EphGALF") []) :: (galfScale.map scStmt ++ [.ret (.name n!"eph")]) := rfl
  have hnew : ∀ s, M.mapList fieldVal (dataFields src n!"EphGALF") s = (.ok galfNew, s) := fun _ => rfl
  have hF : ScFrame n!"EphGALF" n!"EphGALF" (galfFields .int e)
      [(n!"cls", .cls n!"EphemerisDecoder"), (n!"ie", .ref q), (n!"eph", .ref h.length)] (fun fs => h ++ [.inst n!"EphGALF" fs]) :=
    ⟨⟨q, rfl, fun _ => heap_old hq _⟩, ⟨h.length, rfl, fun _ => heap_last _ _, fun _ _ => heap_set _ _ _⟩⟩
  have h1 := scale_steps n (callFn src n) hF [.ret (.name n!"eph")] galfScale _ _ (galf_scale_model e)
  show endCall (execBlock src n (callFn src n) Src.fn_EphemerisDecoder_P_scale1045.body
    ⟨[(n!"cls", .cls n!"EphemerisDecoder"), (n!"ie", .ref q)], h⟩) = _
  rw [hbody]
  pyexec [hnew, heap_set, List.contains_cons, Bool.or_true, Bool.true_or, h1]

theorem gali_scale_model (e : EphGALI Int) :
    scaleFields (galiFields .int e) galiScale galiNew = some (galiFields numVal (Eph.scale1046R rnd e)) := by
  simp only [galiNew, galiFields, galiScale, scaleFields, M.bindKey_cons, M.bindKey_nil, List.lookup_cons, ident_beq, Nat.reduceBEq, beq_self_eq_true,
    reduceIte, Bool.false_eq_true]
  rfl

theorem scale1046_src (n : Nat) {h : Heap} {q : Nat} (e : EphGALI Int) (hq : h[q]? = some (.inst n!"EphGALI" (galiFields .int e))) :
    callFn src (n + 1) n!"EphemerisDecoder.__scale1046" [.cls n!"EphemerisDecoder", .ref q] h =
      (.ok (.ref h.length), h ++ [.inst n!"EphGALI" (galiFields numVal (Eph.scale1046R rnd e))]) := by
  rw [callFn_succ src _ _ _ _ _ _ Look.fn_EphemerisDecoder_P_scale1046 rfl]
  have hbody : Src.fn_EphemerisDecoder_P_scale1046.body =
      .assign (.name n!"eph") (.call (.attr (.name n!"mEph") n!"EphGALI") []) :: (galiScale.map scStmt ++ [.ret (.name n!"eph")]) := rfl
  have hnew : ∀ s, M.mapList fieldVal (dataFields src n!"EphGALI") s = (.ok galiNew, s) := fun _ => rfl
  have hF : ScFrame n!"EphGALI" n!"EphGALI" (galiFields .int e)
      [(n!"cls", .cls n!"EphemerisDecoder"), (n!"ie", .ref q), (n!"eph", .ref h.length)] (fun fs => h ++ [.inst n!"EphGALI" fs]) :=
    ⟨⟨q, rfl, fun _ => heap_old hq _⟩, ⟨h.length, rfl, fun _ => heap_last _ _, fun _ _ => heap_set _ _ _⟩⟩
  have h1 := scale_steps n (callFn src n) hF [.ret (.name n!"eph")] galiScale _ _ (gali_scale_model e)
  show endCall (execBlock src n (callFn src n) Src.fn_EphemerisDecoder_P_scale1046.body
    ⟨[(n!"cls", .cls n!"EphemerisDecoder"), (n!"ie", .ref q)], h⟩) = _
  rw [hbody]
  pyexec [hnew, heap_set, List.contains_cons, Bool.or_true, Bool.true_or, h1]

theorem gps_scale_model (e : EphGPS Int) :
    (scaleFields (gpsFields .int e) gpsScale1 gpsNew).bind (scaleFields (gpsFields .int e) gpsScale2) =
      some (gpsFields numVal (Eph.scale1019R rnd e)) := by
  simp only [gpsNew, gpsFields, gpsScale1, gpsScale2, scaleFields, M.bindKey_cons, M.bindKey_nil, List.lookup_cons, ident_beq, Nat.reduceBEq, beq_self_eq_true,
    reduceIte, Bool.false_eq_true, Option.bind_some]
  rfl

theorem heap_last2 (h : Heap) (d o : Obj) : (h ++ [d] ++ [o])[h.length + 1]? = some o := by simp
theorem heap_set2 (h : Heap) (d o o' : Obj) : (h ++ [d] ++ [o]).set (h.length + 1) o' = h ++ [d] ++ [o'] := by simp

/-- The dictionary that `__scale1019` makes and does not use. -/
def l2Codes : Obj := .dict [(.int 0, .str "RS"), (.int 1, .str "P"), (.int 2, .str "CA"), (.int 3, .str "L2C")]

theorem scale1019_src (n : Nat) {h : Heap} {q : Nat} (e : EphGPS Int) (hq : h[q]? = some (.inst n!"EphGPS" (gpsFields .int e))) :
    callFn src (n + 1) n!"EphemerisDecoder.__scale1019" [.cls n!"EphemerisDecoder", .ref q] h =
      (.ok (.ref (h.length + 1)), h ++ [l2Codes] ++ [.inst n!"EphGPS" (gpsFields numVal (Eph.scale1019R rnd e))]) := by
  rw [callFn_succ src _ _ _ _ _ _ Look.fn_EphemerisDecoder_P_scale1019 rfl]
  obtain ⟨fs1, hs1, hs2⟩ := Option.bind_eq_some_iff.1 (gps_scale_model e)
  have hbody : ∃ a b, Src.fn_EphemerisDecoder_P_scale1019.body =
      .assign (.name n!"_L2_Codes") (.dict [.const (.int 0), .const (.int 1), .const (.int 2), .const (.int 3)] [.const (.str "RS"), .const (.str "P"), .const (.str "CA"), .const (.str "L2C")]) ::
      .assign (.name n!"ura") (.name n!"EphemerisDecoder.__scale1019.ura") ::
      .assign (.name n!"eph") (.call (.attr (.name n!"mEph") n!"EphGPS") []) :: (gpsScale1.map scStmt ++ 
      [.ite (.name n!"decorate") a (gpsScale2.map scStmt ++ b), .ret (.name n!"eph")]) ∧ b = [] := ⟨_, _, rfl, rfl⟩
  obtain ⟨a, b, hbody, rfl⟩ := hbody
  have hnew : ∀ s, M.mapList fieldVal (dataFields src n!"EphGPS") s = (.ok gpsNew, s) := fun _ => rfl
  have hF : ScFrame n!"EphGPS" n!"EphGPS" (gpsFields .int e)
      [(n!"cls", .cls n!"EphemerisDecoder"), (n!"ie", .ref q), (n!"decorate", .bool false), (n!"_L2_Codes", .ref h.length),
        (n!"ura", .fn n!"EphemerisDecoder.__scale1019.ura"), (n!"eph", .ref (h.length + 1))] (fun fs => h ++ [l2Codes] ++ [.inst n!"EphGPS" fs]) :=
    ⟨⟨q, rfl, fun _ => heap_old (heap_old hq _) _⟩, ⟨h.length + 1, rfl, fun _ => heap_last2 _ _ _, fun _ _ => heap_set2 _ _ _ _⟩⟩
  have h1 := scale_steps n (callFn src n) hF [.ite (.name n!"decorate") a (gpsScale2.map scStmt ++ []), .ret (.name n!"eph")] gpsScale1 _ _ hs1
  have h2 := scale_steps n (callFn src n) hF [] gpsScale2 _ _ hs2
  show endCall (execBlock src n (callFn src n) Src.fn_EphemerisDecoder_P_scale1019.body
    ⟨[(n!"cls", .cls n!"EphemerisDecoder"), (n!"ie", .ref q), (n!"decorate", .bool false)], h⟩) = _
  rw [hbody]
  have hd : ∀ call l, eval src call (.dict [.const (.int 0), .const (.int 1), .const (.int 2), .const (.int 3)] [.const (.str "RS"), .const (.str "P"), .const (.str "CA"), .const (.str "L2C")]) ⟨l, h⟩ =
    (.ok (.ref h.length), ⟨l, h ++ [l2Codes]⟩) := fun _ _ => rfl
  pyexec [hd, hnew, heap_set2, List.contains_cons, Bool.or_true, Bool.true_or, h1, h2, Look.glob_EphemerisDecoder_P_scale1019_ura]

theorem glo_scale_model (e : EphGLO Int) :
    ((scaleFields (gloFields .int e) gloScale1 gloNew).bind (fun fs => scaleFields (gloFields .int e) gloScale2
      (M.bindKey fs n!"tk" (numVal (Eph.scale1020R rnd e).tk)))) = some (gloFields numVal (Eph.scale1020R rnd e)) := by
  simp only [gloNew, gloFields, gloScale1, gloScale2, scaleFields, M.bindKey_cons, M.bindKey_nil, List.lookup_cons, ident_beq, Nat.reduceBEq, beq_self_eq_true,
    reduceIte, Bool.false_eq_true, Option.bind_some]
  rfl

theorem scale1020_src (n : Nat) {h : Heap} {q : Nat} (e : EphGLO Int) (hq : h[q]? = some (.inst n!"EphGLO" (gloFields .int e))) :
    callFn src (n + 1) n!"EphemerisDecoder.__scale1020" [.cls n!"EphemerisDecoder", .ref q] h =
      (.ok (.ref h.length), h ++ [.inst n!"EphGLO" (gloFields numVal (Eph.scale1020R rnd e))]) := by
  rw [callFn_succ src _ _ _ _ _ _ Look.fn_EphemerisDecoder_P_scale1020 rfl]
  obtain ⟨fs1, hs1, hs2⟩ := Option.bind_eq_some_iff.1 (glo_scale_model e)
  have hbody : Src.fn_EphemerisDecoder_P_scale1020.body =
      .assign (.name n!"eph") (.call (.attr (.name n!"mEph") n!"EphGLO") []) :: (gloScale1.map scStmt ++ 
      (.assign (.name n!"tk_h") (.bin .mul (.const (.int 3600)) (.bin .band (.bin .shr (.attr (.name n!"ie") n!"tk") (.const (.int 7))) (.const (.int 31)))) ::
      .assign (.name n!"tk_m") (.bin .mul (.const (.int 60)) (.bin .band (.bin .shr (.attr (.name n!"ie") n!"tk") (.const (.int 1))) (.const (.int 63)))) ::
      .assign (.name n!"tk_s") (.bin .mul (.const (.int 30)) (.bin .band (.attr (.name n!"ie") n!"tk") (.const (.int 1)))) ::
      .assign (.attr (.name n!"eph") n!"tk") (.bin .add (.bin .add (.name n!"tk_h") (.name n!"tk_m")) (.name n!"tk_s")) ::
      (gloScale2.map scStmt ++ [.ret (.name n!"eph")]))) := rfl
  have hnew : ∀ s, M.mapList fieldVal (dataFields src n!"EphGLO") s = (.ok gloNew, s) := fun _ => rfl
  have hF : ∀ l, ScFrame n!"EphGLO" n!"EphGLO" (gloFields .int e)
      ((n!"cls", .cls n!"EphemerisDecoder") :: (n!"ie", .ref q) :: (n!"eph", .ref h.length) :: l) (fun fs => h ++ [.inst n!"EphGLO" fs]) :=
    fun _ => ⟨⟨q, rfl, fun _ => heap_old hq _⟩, ⟨h.length, rfl, fun _ => heap_last _ _, fun _ _ => heap_set _ _ _⟩⟩
  have h1 := fun l rest => scale_steps n (callFn src n) (hF l) rest gloScale1 _ _ hs1
  have h2 := fun l => scale_steps n (callFn src n) (hF l) [.ret (.name n!"eph")] gloScale2 _ _ hs2
  have htk : (gloFields Val.int e).lookup n!"tk" = some (.int e.tk) := rfl
  have e1 : Int.land (e.tk / (2 : Int) ^ 7) (31 : Int) = e.tk / 2 ^ 7 % 2 ^ 5 := land_mask _ 5
  have e2 : Int.land (e.tk / (2 : Int) ^ 1) (63 : Int) = e.tk / 2 ^ 1 % 2 ^ 6 := land_mask _ 6
  have e3 : Int.land e.tk (1 : Int) = e.tk % 2 ^ 1 := land_mask _ 1
  have e4 : Val.int ((3600 : Int) * (e.tk / 2 ^ 7 % 2 ^ 5) + (60 : Int) * (e.tk / 2 ^ 1 % 2 ^ 6) + (30 : Int) * (e.tk % 2 ^ 1)) = numVal (Eph.scale1020R rnd e).tk := rfl
  show endCall (execBlock src n (callFn src n) Src.fn_EphemerisDecoder_P_scale1020.body
    ⟨[(n!"cls", .cls n!"EphemerisDecoder"), (n!"ie", .ref q)], h⟩) = _
  rw [hbody]
  pyexec [hnew, heap_set, heap_last, List.contains_cons, Bool.or_true, Bool.true_or, h1, heap_old hq, htk, e1, e2, e3, e4, h2]

end Refine
end PyCore
end Verif
