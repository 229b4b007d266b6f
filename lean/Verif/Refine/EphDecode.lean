import Verif.Refine.EphData

/-!
# The methods of `EphemerisDecoder` that read messages and their models
-/

namespace Verif
namespace PyCore
namespace Refine

open Rounding (rnd)
variable [Rounding]

/-- A decoder object as its constructor makes it, sub_decoders/RTCM_EPH.py:40-42. -/
def EphSelf (h : Heap) (a : Nat) : Prop := ∃ l, h[a]? = some (.inst n!"EphemerisDecoder" [(n!"msgList", l)])

theorem ephClass : BitsClass n!"EphemerisDecoder" := ⟨rfl, rfl, rfl, rfl, rfl⟩

theorem heap_last (h : Heap) (o : Obj) : (h ++ [o])[h.length]? = some o := by simp
theorem heap_set (h : Heap) (o o' : Obj) : (h ++ [o]).set h.length o' = h ++ [o'] := by simp
theorem heap_old {h : Heap} {a : Nat} {o : Obj} (ha : h[a]? = some o) (t : Heap) : (h ++ t)[a]? = some o := by
  rw [List.getElem?_append_left (List.getElem?_eq_some_iff.1 ha).1, ha]

theorem lengthCheck_src (n : Nat) (x y z : Nat) (h : Heap) :
    callFn src (n + 1) n!"EphemerisDecoder.__length_check" [.int x, .int y, .int z] h =
      ofModel (fun _ => .none) h (Eph.lengthCheck x y z) := by
  pycall Look.fn_EphemerisDecoder_P_length_check Src.fn_EphemerisDecoder_P_length_check
  unfold Eph.lengthCheck
  by_cases h1 : y = x
  · have e1 : ((y : Int) == (x : Int)) = true := by rw [beq_iff_eq]; omega
    have e2 : ((y : Int) + (7 : Int)) / (2 : Int) ^ 3 = (((y + 7) >>> 3 : Nat) : Int) := by
      rw [Nat.shiftRight_eq_div_pow]; push_cast; rfl
    by_cases h2 : z < 6 + ((y + 7) >>> 3)
    · have e3 : ((z : Int) < (6 : Int) + (((y + 7) >>> 3 : Nat) : Int)) := by omega
      rw [if_neg (by omega), if_pos h2]
      pyexec [e1, e2, e3, decide_true, Bool.not_true]
      rfl
    · have e3 : ¬ ((z : Int) < (6 : Int) + (((y + 7) >>> 3 : Nat) : Int)) := by omega
      rw [if_neg (by omega), if_neg h2]
      pyexec [e1, e2, e3, decide_false, Bool.not_true]
  · have e1 : ((y : Int) == (x : Int)) = false := by rw [beq_eq_false_iff_ne]; omega
    rw [if_pos h1]
    pyexec [e1, Bool.not_false]
    rfl

/-- The end of a method that reads a message. -/
def ephEnd (len : Nat) : List Stmt :=
  [.expr (.call (.attr (.name n!"self") n!"_EphemerisDecoder__length_check")
      [.const (.int len), .bin .sub (.name n!"offset") (.const (.int 24)), .call (.name n!"len") [.name n!"buf"]]),
    .ret (.name n!"eph")]

/-- Local variables of a method that reads a message. -/
def ephLoc (a : Nat) (buf : Bytes) (r : Nat) (o : Nat) : List (Ident × Val) :=
  [(n!"self", .ref a), (n!"buf", .bytes buf), (n!"eph", .ref r), (n!"offset", .int o)]

theorem ephFrame {h : Heap} {a : Nat} {l : Val} (ha : h[a]? = some (.inst n!"EphemerisDecoder" [(n!"msgList", l)])) (buf : Bytes)
    (c : Ident) :
    Frame n!"EphemerisDecoder" [(n!"msgList", l)] buf n!"eph" c (ephLoc a buf h.length) (fun fs => h ++ [.inst c fs]) where
  selfObj := ⟨ephClass, rfl, rfl⟩
  self := ⟨a, fun _ => rfl, fun _ => heap_old ha _⟩
  buf _ := rfl
  off _ := rfl
  setOff _ _ := rfl
  obj := ⟨h.length, fun _ => rfl, fun _ => heap_last _ _, fun _ _ => heap_set _ _ _⟩

/-- What a method that reads a message has read. -/
def ephRead (buf : Bytes) (ss : List Step) (fs : List (Ident × Val)) (len : Nat) : Py (List (Ident × Val)) := do
  let r ← readFields buf ss 24 fs
  Eph.lengthCheck len (r.1 - 24) buf.length
  pure r.2

theorem readFields_ge (buf : Bytes) : ∀ (ss : List Step) (o : Nat) (fs : List (Ident × Val)) (r : Nat × List (Ident × Val)),
    readFields buf ss o fs = .ok r → o ≤ r.1
  | [], o, fs, r, h => by
    cases h
    exact Nat.le_refl _
  | s :: ss, o, fs, r, h => by
    simp only [readFields] at h
    cases hv : s.kind.read buf o s.width with
    | error e => rw [hv] at h; cases h
    | ok v =>
      rw [hv] at h
      refine Nat.le_trans ?_ (readFields_ge buf ss _ _ r h)
      clear h hv
      generalize s.adds = as
      induction as generalizing o with
      | nil => exact Nat.le_refl _
      | cons a as ih => exact Nat.le_trans (Nat.le_add_right o a) (ih (o + a))

/-- The result of a method that makes objects: nothing of the old heap is changed, and on success the result is a new object. -/
def Makes {α : Type} (f : α → Obj) (h : Heap) (r : Except Exc Val × Heap) : Py α → Prop
  | .ok v => ∃ a t, r = (.ok (.ref a), h ++ t) ∧ h.length ≤ a ∧ (h ++ t)[a]? = some (f v)
  | .error e => ∃ t, r = (.error (.py (errName e)), h ++ t)

/-- The same for the body of a method. -/
def BodyMakes (h : Heap) (c : Ident) (r : Except Exc Flow × St) : Py (List (Ident × Val)) → Prop
  | .ok fs' => ∃ l, r = (.ok (.ret (.ref h.length)), ⟨l, h ++ [.inst c fs']⟩)
  | .error e => ∃ l o, r = (.error (.py (errName e)), ⟨l, h ++ [o]⟩)

theorem makes_of_body {α : Type} (f : α → List (Ident × Val)) (h : Heap) (c : Ident) (r : Except Exc Flow × St) (p : Py α) (p' : Py (List (Ident × Val)))
    (hp : (f <$> p) = p')
    (hr : BodyMakes h c r p') :
    Makes (fun a => .inst c (f a)) h (endCall r) p := by
  subst hp
  cases p with
  | ok v =>
    obtain ⟨l, rfl⟩ := hr
    exact ⟨h.length, [.inst c (f v)], rfl, Nat.le_refl _, heap_last _ _⟩
  | error e =>
    obtain ⟨l, o, rfl⟩ := hr
    exact ⟨[o], rfl⟩

theorem ephBody_src (n m : Nat) {h : Heap} {a : Nat} (ha : EphSelf h a) (buf : Bytes) (c : Ident) (ss : List Step)
    (fs : List (Ident × Val)) (len : Nat) :
    BodyMakes h c (execBlock src m (callFn src (n + 2)) (ss.map (Step.stmt n!"eph") ++ ephEnd len)
      ⟨ephLoc a buf h.length 24, h ++ [.inst c fs]⟩) (ephRead buf ss fs len) := by
  obtain ⟨l, ha⟩ := ha
  have h1 := steps_src n m (ephFrame ha buf c) (ephEnd len) ss 24 fs (fun _ _ _ => ⟨rfl, rfl⟩)
  unfold ephRead
  cases hr : readFields buf ss 24 fs with
  | error e =>
    rw [hr] at h1
    obtain ⟨o', fs', h1⟩ := h1
    exact ⟨_, _, h1⟩
  | ok r =>
    obtain ⟨o, fs'⟩ := r
    have hge : 24 ≤ o := readFields_ge buf ss 24 fs _ hr
    rw [hr] at h1
    dsimp only at h1
    have e1 : (o : Int) - (24 : Int) = ((o - 24 : Nat) : Int) := by omega
    have hl := lengthCheck_src (n + 1) len (o - 24) buf.length (h ++ [.inst c fs'])
    show BodyMakes h c _ (do Eph.lengthCheck len (o - 24) buf.length; pure fs' : Py _)
    rw [h1]
    cases hc : Eph.lengthCheck len (o - 24) buf.length with
    | error e =>
      rw [hc] at hl
      refine ⟨ephLoc a buf h.length o, .inst c fs', ?_⟩
      unfold ephEnd ephLoc
      pyexec [heap_old ha, instAttr_none _ _ _ _ _ _ (show n!"_EphemerisDecoder__length_check" ≠ n!"__class__" by decide),
        Look.mem_EphemerisDecoder_EphemerisDecoder_P_length_check, e1, hl]
    | ok u =>
      rw [hc] at hl
      refine ⟨ephLoc a buf h.length o, ?_⟩
      unfold ephEnd ephLoc
      pyexec [heap_old ha, instAttr_none _ _ _ _ _ _ (show n!"_EphemerisDecoder__length_check" ≠ n!"__class__" by decide),
        Look.mem_EphemerisDecoder_EphemerisDecoder_P_length_check, e1, hl]

theorem chain_u {α β : Type} (o o' : Nat) (buf : Bytes) (f : α → β) (k : Nat → Py α) (g : Nat × List (Ident × Val) → Py β) (x : Ident)
    (w : Nat) (adds : List Nat) (ss : List Step) (fs : List (Ident × Val)) (ho : adds.foldl (· + ·) o = o')
    (h : ∀ v : Nat, f <$> k v = readFields buf ss o' (M.bindKey fs x (.int v)) >>= g) :
    f <$> (Bits.gbu buf o w >>= k) = readFields buf (⟨x, .u, w, adds⟩ :: ss) o fs >>= g := by
  subst ho
  simp only [readFields, Kind.read]
  cases hv : Bits.gbu buf o w with
  | error e => rfl
  | ok v => exact h v

theorem chain_s {α β : Type} (o o' : Nat) (buf : Bytes) (f : α → β) (k : Int → Py α) (g : Nat × List (Ident × Val) → Py β) (x : Ident)
    (w : Nat) (adds : List Nat) (ss : List Step) (fs : List (Ident × Val)) (ho : adds.foldl (· + ·) o = o')
    (h : ∀ v : Int, f <$> k v = readFields buf ss o' (M.bindKey fs x (.int v)) >>= g) :
    f <$> (Bits.gbs buf o w >>= k) = readFields buf (⟨x, .s, w, adds⟩ :: ss) o fs >>= g := by
  subst ho
  simp only [readFields, Kind.read]
  cases hv : Bits.gbs buf o w with
  | error e => rfl
  | ok v => exact h v

theorem chain_S {α β : Type} (o o' : Nat) (buf : Bytes) (f : α → β) (k : Int → Py α) (g : Nat × List (Ident × Val) → Py β) (x : Ident)
    (w : Nat) (adds : List Nat) (ss : List Step) (fs : List (Ident × Val)) (ho : adds.foldl (· + ·) o = o')
    (h : ∀ v : Int, f <$> k v = readFields buf ss o' (M.bindKey fs x (.int v)) >>= g) :
    f <$> (Bits.gbS buf o w >>= k) = readFields buf (⟨x, .S, w, adds⟩ :: ss) o fs >>= g := by
  subst ho
  simp only [readFields, Kind.read]
  cases hv : Bits.gbS buf o w with
  | error e => rfl
  | ok v => exact h v

theorem chain_end {α : Type} (f : α → List (Ident × Val)) (e : α) (len o bl : Nat) (fs : List (Ident × Val)) (buf : Bytes) (h : f e = fs) :
    (f <$> (do Eph.lengthCheck len (o - 24) bl; pure e) : Py (List (Ident × Val))) =
      readFields buf [] o fs >>= fun r => (do
        Eph.lengthCheck len (r.1 - 24) bl
        pure r.2) := by
  subst h
  show _ = (Eph.lengthCheck len (o - 24) bl >>= fun _ => pure (f e))
  cases Eph.lengthCheck len (o - 24) bl <;> rfl

theorem gps_model (buf : Bytes) :
    (gpsFields Val.int <$> Eph.decode1019 buf) = ephRead buf gpsSteps gpsNew 488 := by
  unfold Eph.decode1019 ephRead gpsSteps
  dsimp only [Nat.reduceAdd]
  refine chain_u 24 36 _ _ _ _ _ _ _ _ _ rfl (fun _ => ?_)
  refine chain_u 36 42 _ _ _ _ _ _ _ _ _ rfl (fun _ => ?_)
  refine chain_u 42 52 _ _ _ _ _ _ _ _ _ rfl (fun _ => ?_)
  refine chain_u 52 56 _ _ _ _ _ _ _ _ _ rfl (fun _ => ?_)
  refine chain_u 56 58 _ _ _ _ _ _ _ _ _ rfl (fun _ => ?_)
  refine chain_s 58 72 _ _ _ _ _ _ _ _ _ rfl (fun _ => ?_)
  refine chain_u 72 80 _ _ _ _ _ _ _ _ _ rfl (fun _ => ?_)
  refine chain_u 80 96 _ _ _ _ _ _ _ _ _ rfl (fun _ => ?_)
  refine chain_s 96 104 _ _ _ _ _ _ _ _ _ rfl (fun _ => ?_)
  refine chain_s 104 120 _ _ _ _ _ _ _ _ _ rfl (fun _ => ?_)
  refine chain_s 120 142 _ _ _ _ _ _ _ _ _ rfl (fun _ => ?_)
  refine chain_u 142 152 _ _ _ _ _ _ _ _ _ rfl (fun _ => ?_)
  refine chain_s 152 168 _ _ _ _ _ _ _ _ _ rfl (fun _ => ?_)
  refine chain_s 168 184 _ _ _ _ _ _ _ _ _ rfl (fun _ => ?_)
  refine chain_s 184 216 _ _ _ _ _ _ _ _ _ rfl (fun _ => ?_)
  refine chain_s 216 232 _ _ _ _ _ _ _ _ _ rfl (fun _ => ?_)
  refine chain_u 232 264 _ _ _ _ _ _ _ _ _ rfl (fun _ => ?_)
  refine chain_s 264 280 _ _ _ _ _ _ _ _ _ rfl (fun _ => ?_)
  refine chain_u 280 312 _ _ _ _ _ _ _ _ _ rfl (fun _ => ?_)
  refine chain_u 312 328 _ _ _ _ _ _ _ _ _ rfl (fun _ => ?_)
  refine chain_s 328 344 _ _ _ _ _ _ _ _ _ rfl (fun _ => ?_)
  refine chain_s 344 376 _ _ _ _ _ _ _ _ _ rfl (fun _ => ?_)
  refine chain_s 376 392 _ _ _ _ _ _ _ _ _ rfl (fun _ => ?_)
  refine chain_s 392 424 _ _ _ _ _ _ _ _ _ rfl (fun _ => ?_)
  refine chain_s 424 440 _ _ _ _ _ _ _ _ _ rfl (fun _ => ?_)
  refine chain_s 440 472 _ _ _ _ _ _ _ _ _ rfl (fun _ => ?_)
  refine chain_s 472 496 _ _ _ _ _ _ _ _ _ rfl (fun _ => ?_)
  refine chain_s 496 504 _ _ _ _ _ _ _ _ _ rfl (fun _ => ?_)
  refine chain_u 504 510 _ _ _ _ _ _ _ _ _ rfl (fun _ => ?_)
  refine chain_u 510 511 _ _ _ _ _ _ _ _ _ rfl (fun _ => ?_)
  refine chain_u 511 512 _ _ _ _ _ _ _ _ _ rfl (fun _ => ?_)
  refine chain_end _ _ _ _ _ _ _ ?_
  simp only [gpsNew, gpsFields, M.bindKey_cons, M.bindKey_nil, ident_beq, Nat.reduceBEq, reduceIte, Bool.false_eq_true]

theorem decode1019_src (n : Nat) {h : Heap} {a : Nat} (ha : EphSelf h a) (buf : Bytes) :
    Makes (fun e => .inst n!"EphGPS" (gpsFields .int e)) h
      (callFn src (n + 3) n!"EphemerisDecoder.__decode1019" [.ref a, .bytes buf] h) (Eph.decode1019 buf) := by
  rw [callFn_succ src _ _ _ _ _ _ Look.fn_EphemerisDecoder_P_decode1019 rfl]
  refine makes_of_body _ h n!"EphGPS" _ _ _ (gps_model buf) ?_
  have hb := ephBody_src n (n + 2) ha buf n!"EphGPS" gpsSteps gpsNew 488
  have e : execBlock src (n + 2) (callFn src (n + 2)) Src.fn_EphemerisDecoder_P_decode1019.body
      ⟨[(n!"self", .ref a), (n!"buf", .bytes buf)], h⟩ =
      execBlock src (n + 2) (callFn src (n + 2)) (gpsSteps.map (Step.stmt n!"eph") ++ ephEnd 488)
        ⟨ephLoc a buf h.length 24, h ++ [.inst n!"EphGPS" gpsNew]⟩ := by
    have hbody : Src.fn_EphemerisDecoder_P_decode1019.body =
        .assign (.name n!"eph") (.call (.attr (.name n!"mEph") n!"EphGPS") []) :: .assign (.name n!"offset") (.const (.int 24)) ::
          (gpsSteps.map (Step.stmt n!"eph") ++ ephEnd 488) := rfl
    have hnew : ∀ s, M.mapList fieldVal (dataFields src n!"EphGPS") s = (.ok gpsNew, s) := fun _ => rfl
    rw [hbody]
    pyexec [hnew, heap_set, List.contains_cons, Bool.or_true, Bool.true_or]
    rfl
  rw [← e] at hb
  exact hb

theorem glo_model (buf : Bytes) :
    (gloFields Val.int <$> Eph.decode1020 buf) = ephRead buf gloSteps gloNew 360 := by
  unfold Eph.decode1020 ephRead gloSteps
  dsimp only [Nat.reduceAdd]
  refine chain_u 24 36 _ _ _ _ _ _ _ _ _ rfl (fun _ => ?_)
  refine chain_u 36 42 _ _ _ _ _ _ _ _ _ rfl (fun _ => ?_)
  refine chain_u 42 47 _ _ _ _ _ _ _ _ _ rfl (fun _ => ?_)
  refine chain_u 47 48 _ _ _ _ _ _ _ _ _ rfl (fun _ => ?_)
  refine chain_u 48 49 _ _ _ _ _ _ _ _ _ rfl (fun _ => ?_)
  refine chain_u 49 51 _ _ _ _ _ _ _ _ _ rfl (fun _ => ?_)
  refine chain_u 51 63 _ _ _ _ _ _ _ _ _ rfl (fun _ => ?_)
  refine chain_u 63 64 _ _ _ _ _ _ _ _ _ rfl (fun _ => ?_)
  refine chain_u 64 65 _ _ _ _ _ _ _ _ _ rfl (fun _ => ?_)
  refine chain_u 65 72 _ _ _ _ _ _ _ _ _ rfl (fun _ => ?_)
  refine chain_S 72 96 _ _ _ _ _ _ _ _ _ rfl (fun _ => ?_)
  refine chain_S 96 123 _ _ _ _ _ _ _ _ _ rfl (fun _ => ?_)
  refine chain_S 123 128 _ _ _ _ _ _ _ _ _ rfl (fun _ => ?_)
  refine chain_S 128 152 _ _ _ _ _ _ _ _ _ rfl (fun _ => ?_)
  refine chain_S 152 179 _ _ _ _ _ _ _ _ _ rfl (fun _ => ?_)
  refine chain_S 179 184 _ _ _ _ _ _ _ _ _ rfl (fun _ => ?_)
  refine chain_S 184 208 _ _ _ _ _ _ _ _ _ rfl (fun _ => ?_)
  refine chain_S 208 235 _ _ _ _ _ _ _ _ _ rfl (fun _ => ?_)
  refine chain_S 235 240 _ _ _ _ _ _ _ _ _ rfl (fun _ => ?_)
  refine chain_u 240 241 _ _ _ _ _ _ _ _ _ rfl (fun _ => ?_)
  refine chain_S 241 252 _ _ _ _ _ _ _ _ _ rfl (fun _ => ?_)
  refine chain_u 252 254 _ _ _ _ _ _ _ _ _ rfl (fun _ => ?_)
  refine chain_u 254 255 _ _ _ _ _ _ _ _ _ rfl (fun _ => ?_)
  refine chain_S 255 277 _ _ _ _ _ _ _ _ _ rfl (fun _ => ?_)
  refine chain_S 277 282 _ _ _ _ _ _ _ _ _ rfl (fun _ => ?_)
  refine chain_u 282 287 _ _ _ _ _ _ _ _ _ rfl (fun _ => ?_)
  refine chain_u 287 288 _ _ _ _ _ _ _ _ _ rfl (fun _ => ?_)
  refine chain_u 288 292 _ _ _ _ _ _ _ _ _ rfl (fun _ => ?_)
  refine chain_u 292 303 _ _ _ _ _ _ _ _ _ rfl (fun _ => ?_)
  refine chain_u 303 305 _ _ _ _ _ _ _ _ _ rfl (fun _ => ?_)
  refine chain_u 305 306 _ _ _ _ _ _ _ _ _ rfl (fun _ => ?_)
  refine chain_u 306 317 _ _ _ _ _ _ _ _ _ rfl (fun _ => ?_)
  refine chain_S 317 349 _ _ _ _ _ _ _ _ _ rfl (fun _ => ?_)
  refine chain_u 349 354 _ _ _ _ _ _ _ _ _ rfl (fun _ => ?_)
  refine chain_S 354 376 _ _ _ _ _ _ _ _ _ rfl (fun _ => ?_)
  refine chain_u 376 384 _ _ _ _ _ _ _ _ _ rfl (fun _ => ?_)
  refine chain_end _ _ _ _ _ _ _ ?_
  simp only [gloNew, gloFields, M.bindKey_cons, M.bindKey_nil, ident_beq, Nat.reduceBEq, reduceIte, Bool.false_eq_true]

theorem decode1020_src (n : Nat) {h : Heap} {a : Nat} (ha : EphSelf h a) (buf : Bytes) :
    Makes (fun e => .inst n!"EphGLO" (gloFields .int e)) h
      (callFn src (n + 3) n!"EphemerisDecoder.__decode1020" [.ref a, .bytes buf] h) (Eph.decode1020 buf) := by
  rw [callFn_succ src _ _ _ _ _ _ Look.fn_EphemerisDecoder_P_decode1020 rfl]
  refine makes_of_body _ h n!"EphGLO" _ _ _ (glo_model buf) ?_
  have hb := ephBody_src n (n + 2) ha buf n!"EphGLO" gloSteps gloNew 360
  have e : execBlock src (n + 2) (callFn src (n + 2)) Src.fn_EphemerisDecoder_P_decode1020.body
      ⟨[(n!"self", .ref a), (n!"buf", .bytes buf)], h⟩ =
      execBlock src (n + 2) (callFn src (n + 2)) (gloSteps.map (Step.stmt n!"eph") ++ ephEnd 360)
        ⟨ephLoc a buf h.length 24, h ++ [.inst n!"EphGLO" gloNew]⟩ := by
    have hbody : Src.fn_EphemerisDecoder_P_decode1020.body =
        .assign (.name n!"eph") (.call (.attr (.name n!"mEph") n!"EphGLO") []) :: .assign (.name n!"offset") (.const (.int 24)) ::
          (gloSteps.map (Step.stmt n!"eph") ++ ephEnd 360) := rfl
    have hnew : ∀ s, M.mapList fieldVal (dataFields src n!"EphGLO") s = (.ok gloNew, s) := fun _ => rfl
    rw [hbody]
    pyexec [hnew, heap_set, List.contains_cons, Bool.or_true, Bool.true_or]
    rfl
  rw [← e] at hb
  exact hb

theorem navic_model (buf : Bytes) :
    (navicFields Val.int <$> Eph.decode1041 buf) = ephRead buf navicSteps navicNew 482 := by
  unfold Eph.decode1041 ephRead navicSteps
  dsimp only [Nat.reduceAdd]
  refine chain_u 24 36 _ _ _ _ _ _ _ _ _ rfl (fun _ => ?_)
  refine chain_u 36 42 _ _ _ _ _ _ _ _ _ rfl (fun _ => ?_)
  refine chain_u 42 52 _ _ _ _ _ _ _ _ _ rfl (fun _ => ?_)
  refine chain_s 52 74 _ _ _ _ _ _ _ _ _ rfl (fun _ => ?_)
  refine chain_s 74 90 _ _ _ _ _ _ _ _ _ rfl (fun _ => ?_)
  refine chain_s 90 98 _ _ _ _ _ _ _ _ _ rfl (fun _ => ?_)
  refine chain_u 98 102 _ _ _ _ _ _ _ _ _ rfl (fun _ => ?_)
  refine chain_u 102 118 _ _ _ _ _ _ _ _ _ rfl (fun _ => ?_)
  refine chain_s 118 126 _ _ _ _ _ _ _ _ _ rfl (fun _ => ?_)
  refine chain_s 126 148 _ _ _ _ _ _ _ _ _ rfl (fun _ => ?_)
  refine chain_u 148 166 _ _ _ _ _ _ _ _ _ rfl (fun _ => ?_)
  refine chain_u 166 167 _ _ _ _ _ _ _ _ _ rfl (fun _ => ?_)
  refine chain_u 167 168 _ _ _ _ _ _ _ _ _ rfl (fun _ => ?_)
  refine chain_s 168 183 _ _ _ _ _ _ _ _ _ rfl (fun _ => ?_)
  refine chain_s 183 198 _ _ _ _ _ _ _ _ _ rfl (fun _ => ?_)
  refine chain_s 198 213 _ _ _ _ _ _ _ _ _ rfl (fun _ => ?_)
  refine chain_s 213 228 _ _ _ _ _ _ _ _ _ rfl (fun _ => ?_)
  refine chain_s 228 243 _ _ _ _ _ _ _ _ _ rfl (fun _ => ?_)
  refine chain_s 243 258 _ _ _ _ _ _ _ _ _ rfl (fun _ => ?_)
  refine chain_s 258 272 _ _ _ _ _ _ _ _ _ rfl (fun _ => ?_)
  refine chain_s 272 304 _ _ _ _ _ _ _ _ _ rfl (fun _ => ?_)
  refine chain_u 304 320 _ _ _ _ _ _ _ _ _ rfl (fun _ => ?_)
  refine chain_u 320 352 _ _ _ _ _ _ _ _ _ rfl (fun _ => ?_)
  refine chain_u 352 384 _ _ _ _ _ _ _ _ _ rfl (fun _ => ?_)
  refine chain_s 384 416 _ _ _ _ _ _ _ _ _ rfl (fun _ => ?_)
  refine chain_s 416 448 _ _ _ _ _ _ _ _ _ rfl (fun _ => ?_)
  refine chain_s 448 470 _ _ _ _ _ _ _ _ _ rfl (fun _ => ?_)
  refine chain_s 470 506 _ _ _ _ _ _ _ _ _ rfl (fun _ => ?_)
  refine chain_end _ _ _ _ _ _ _ ?_
  simp only [navicNew, navicFields, M.bindKey_cons, M.bindKey_nil, ident_beq, Nat.reduceBEq, reduceIte, Bool.false_eq_true]

theorem decode1041_src (n : Nat) {h : Heap} {a : Nat} (ha : EphSelf h a) (buf : Bytes) :
    Makes (fun e => .inst n!"EphNAVIC" (navicFields .int e)) h
      (callFn src (n + 3) n!"EphemerisDecoder.__decode1041" [.ref a, .bytes buf] h) (Eph.decode1041 buf) := by
  rw [callFn_succ src _ _ _ _ _ _ Look.fn_EphemerisDecoder_P_decode1041 rfl]
  refine makes_of_body _ h n!"EphNAVIC" _ _ _ (navic_model buf) ?_
  have hb := ephBody_src n (n + 2) ha buf n!"EphNAVIC" navicSteps navicNew 482
  have e : execBlock src (n + 2) (callFn src (n + 2)) Src.fn_EphemerisDecoder_P_decode1041.body
      ⟨[(n!"self", .ref a), (n!"buf", .bytes buf)], h⟩ =
      execBlock src (n + 2) (callFn src (n + 2)) (navicSteps.map (Step.stmt n!"eph") ++ ephEnd 482)
        ⟨ephLoc a buf h.length 24, h ++ [.inst n!"EphNAVIC" navicNew]⟩ := by
    have hbody : Src.fn_EphemerisDecoder_P_decode1041.body =
        .assign (.name n!"eph") (.call (.attr (.name n!"mEph") n!"EphNAVIC") []) :: .assign (.name n!"offset") (.const (.int 24)) ::
          (navicSteps.map (Step.stmt n!"eph") ++ ephEnd 482) := rfl
    have hnew : ∀ s, M.mapList fieldVal (dataFields src n!"EphNAVIC") s = (.ok navicNew, s) := fun _ => rfl
    rw [hbody]
    pyexec [hnew, heap_set, List.contains_cons, Bool.or_true, Bool.true_or]
    rfl
  rw [← e] at hb
  exact hb

theorem bds_model (buf : Bytes) :
    (bdsFields Val.int <$> Eph.decode1042 buf) = ephRead buf bdsSteps bdsNew 511 := by
  unfold Eph.decode1042 ephRead bdsSteps
  dsimp only [Nat.reduceAdd]
  refine chain_u 24 36 _ _ _ _ _ _ _ _ _ rfl (fun _ => ?_)
  refine chain_u 36 42 _ _ _ _ _ _ _ _ _ rfl (fun _ => ?_)
  refine chain_u 42 55 _ _ _ _ _ _ _ _ _ rfl (fun _ => ?_)
  refine chain_u 55 59 _ _ _ _ _ _ _ _ _ rfl (fun _ => ?_)
  refine chain_s 59 73 _ _ _ _ _ _ _ _ _ rfl (fun _ => ?_)
  refine chain_u 73 78 _ _ _ _ _ _ _ _ _ rfl (fun _ => ?_)
  refine chain_u 78 95 _ _ _ _ _ _ _ _ _ rfl (fun _ => ?_)
  refine chain_s 95 106 _ _ _ _ _ _ _ _ _ rfl (fun _ => ?_)
  refine chain_s 106 128 _ _ _ _ _ _ _ _ _ rfl (fun _ => ?_)
  refine chain_s 128 152 _ _ _ _ _ _ _ _ _ rfl (fun _ => ?_)
  refine chain_u 152 157 _ _ _ _ _ _ _ _ _ rfl (fun _ => ?_)
  refine chain_s 157 175 _ _ _ _ _ _ _ _ _ rfl (fun _ => ?_)
  refine chain_s 175 191 _ _ _ _ _ _ _ _ _ rfl (fun _ => ?_)
  refine chain_s 191 223 _ _ _ _ _ _ _ _ _ rfl (fun _ => ?_)
  refine chain_s 223 241 _ _ _ _ _ _ _ _ _ rfl (fun _ => ?_)
  refine chain_u 241 273 _ _ _ _ _ _ _ _ _ rfl (fun _ => ?_)
  refine chain_s 273 291 _ _ _ _ _ _ _ _ _ rfl (fun _ => ?_)
  refine chain_u 291 323 _ _ _ _ _ _ _ _ _ rfl (fun _ => ?_)
  refine chain_u 323 340 _ _ _ _ _ _ _ _ _ rfl (fun _ => ?_)
  refine chain_s 340 358 _ _ _ _ _ _ _ _ _ rfl (fun _ => ?_)
  refine chain_s 358 390 _ _ _ _ _ _ _ _ _ rfl (fun _ => ?_)
  refine chain_s 390 408 _ _ _ _ _ _ _ _ _ rfl (fun _ => ?_)
  refine chain_s 408 440 _ _ _ _ _ _ _ _ _ rfl (fun _ => ?_)
  refine chain_s 440 458 _ _ _ _ _ _ _ _ _ rfl (fun _ => ?_)
  refine chain_s 458 490 _ _ _ _ _ _ _ _ _ rfl (fun _ => ?_)
  refine chain_s 490 514 _ _ _ _ _ _ _ _ _ rfl (fun _ => ?_)
  refine chain_s 514 524 _ _ _ _ _ _ _ _ _ rfl (fun _ => ?_)
  refine chain_s 524 534 _ _ _ _ _ _ _ _ _ rfl (fun _ => ?_)
  refine chain_u 534 535 _ _ _ _ _ _ _ _ _ rfl (fun _ => ?_)
  refine chain_end _ _ _ _ _ _ _ ?_
  simp only [bdsNew, bdsFields, M.bindKey_cons, M.bindKey_nil, ident_beq, Nat.reduceBEq, reduceIte, Bool.false_eq_true]

theorem decode1042_src (n : Nat) {h : Heap} {a : Nat} (ha : EphSelf h a) (buf : Bytes) :
    Makes (fun e => .inst n!"EphBDS" (bdsFields .int e)) h
      (callFn src (n + 3) n!"EphemerisDecoder.__decode1042" [.ref a, .bytes buf] h) (Eph.decode1042 buf) := by
  rw [callFn_succ src _ _ _ _ _ _ Look.fn_EphemerisDecoder_P_decode1042 rfl]
  refine makes_of_body _ h n!"EphBDS" _ _ _ (bds_model buf) ?_
  have hb := ephBody_src n (n + 2) ha buf n!"EphBDS" bdsSteps bdsNew 511
  have e : execBlock src (n + 2) (callFn src (n + 2)) Src.fn_EphemerisDecoder_P_decode1042.body
      ⟨[(n!"self", .ref a), (n!"buf", .bytes buf)], h⟩ =
      execBlock src (n + 2) (callFn src (n + 2)) (bdsSteps.map (Step.stmt n!"eph") ++ ephEnd 511)
        ⟨ephLoc a buf h.length 24, h ++ [.inst n!"EphBDS" bdsNew]⟩ := by
    have hbody : Src.fn_EphemerisDecoder_P_decode1042.body =
        .assign (.name n!"eph") (.call (.attr (.name n!"mEph") n!"EphBDS") []) :: .assign (.name n!"offset") (.const (.int 24)) ::
          (bdsSteps.map (Step.stmt n!"eph") ++ ephEnd 511) := rfl
    have hnew : ∀ s, M.mapList fieldVal (dataFields src n!"EphBDS") s = (.ok bdsNew, s) := fun _ => rfl
    rw [hbody]
    pyexec [hnew, heap_set, List.contains_cons, Bool.or_true, Bool.true_or]
    rfl
  rw [← e] at hb
  exact hb

theorem qzs_model (buf : Bytes) :
    (qzsFields Val.int <$> Eph.decode1044 buf) = ephRead buf qzsSteps qzsNew 485 := by
  unfold Eph.decode1044 ephRead qzsSteps
  dsimp only [Nat.reduceAdd]
  refine chain_u 24 36 _ _ _ _ _ _ _ _ _ rfl (fun _ => ?_)
  refine chain_u 36 40 _ _ _ _ _ _ _ _ _ rfl (fun _ => ?_)
  refine chain_u 40 56 _ _ _ _ _ _ _ _ _ rfl (fun _ => ?_)
  refine chain_s 56 64 _ _ _ _ _ _ _ _ _ rfl (fun _ => ?_)
  refine chain_s 64 80 _ _ _ _ _ _ _ _ _ rfl (fun _ => ?_)
  refine chain_s 80 102 _ _ _ _ _ _ _ _ _ rfl (fun _ => ?_)
  refine chain_u 102 110 _ _ _ _ _ _ _ _ _ rfl (fun _ => ?_)
  refine chain_s 110 126 _ _ _ _ _ _ _ _ _ rfl (fun _ => ?_)
  refine chain_s 126 142 _ _ _ _ _ _ _ _ _ rfl (fun _ => ?_)
  refine chain_s 142 174 _ _ _ _ _ _ _ _ _ rfl (fun _ => ?_)
  refine chain_s 174 190 _ _ _ _ _ _ _ _ _ rfl (fun _ => ?_)
  refine chain_u 190 222 _ _ _ _ _ _ _ _ _ rfl (fun _ => ?_)
  refine chain_s 222 238 _ _ _ _ _ _ _ _ _ rfl (fun _ => ?_)
  refine chain_u 238 270 _ _ _ _ _ _ _ _ _ rfl (fun _ => ?_)
  refine chain_u 270 286 _ _ _ _ _ _ _ _ _ rfl (fun _ => ?_)
  refine chain_s 286 302 _ _ _ _ _ _ _ _ _ rfl (fun _ => ?_)
  refine chain_s 302 334 _ _ _ _ _ _ _ _ _ rfl (fun _ => ?_)
  refine chain_s 334 350 _ _ _ _ _ _ _ _ _ rfl (fun _ => ?_)
  refine chain_s 350 382 _ _ _ _ _ _ _ _ _ rfl (fun _ => ?_)
  refine chain_s 382 398 _ _ _ _ _ _ _ _ _ rfl (fun _ => ?_)
  refine chain_s 398 430 _ _ _ _ _ _ _ _ _ rfl (fun _ => ?_)
  refine chain_s 430 454 _ _ _ _ _ _ _ _ _ rfl (fun _ => ?_)
  refine chain_s 454 468 _ _ _ _ _ _ _ _ _ rfl (fun _ => ?_)
  refine chain_u 468 470 _ _ _ _ _ _ _ _ _ rfl (fun _ => ?_)
  refine chain_u 470 480 _ _ _ _ _ _ _ _ _ rfl (fun _ => ?_)
  refine chain_u 480 484 _ _ _ _ _ _ _ _ _ rfl (fun _ => ?_)
  refine chain_u 484 490 _ _ _ _ _ _ _ _ _ rfl (fun _ => ?_)
  refine chain_s 490 498 _ _ _ _ _ _ _ _ _ rfl (fun _ => ?_)
  refine chain_u 498 506 _ _ _ _ _ _ _ _ _ rfl (fun _ => ?_)
  refine chain_u 506 507 _ _ _ _ _ _ _ _ _ rfl (fun _ => ?_)
  refine chain_end _ _ _ _ _ _ _ ?_
  simp only [qzsNew, qzsFields, M.bindKey_cons, M.bindKey_nil, ident_beq, Nat.reduceBEq, reduceIte, Bool.false_eq_true]

theorem decode1044_src (n : Nat) {h : Heap} {a : Nat} (ha : EphSelf h a) (buf : Bytes) :
    Makes (fun e => .inst n!"EphQZS" (qzsFields .int e)) h
      (callFn src (n + 3) n!"EphemerisDecoder.__decode1044" [.ref a, .bytes buf] h) (Eph.decode1044 buf) := by
  rw [callFn_succ src _ _ _ _ _ _ Look.fn_EphemerisDecoder_P_decode1044 rfl]
  refine makes_of_body _ h n!"EphQZS" _ _ _ (qzs_model buf) ?_
  have hb := ephBody_src n (n + 2) ha buf n!"EphQZS" qzsSteps qzsNew 485
  have e : execBlock src (n + 2) (callFn src (n + 2)) Src.fn_EphemerisDecoder_P_decode1044.body
      ⟨[(n!"self", .ref a), (n!"buf", .bytes buf)], h⟩ =
      execBlock src (n + 2) (callFn src (n + 2)) (qzsSteps.map (Step.stmt n!"eph") ++ ephEnd 485)
        ⟨ephLoc a buf h.length 24, h ++ [.inst n!"EphQZS" qzsNew]⟩ := by
    have hbody : Src.fn_EphemerisDecoder_P_decode1044.body =
        .assign (.name n!"eph") (.call (.attr (.name n!"mEph") n!"EphQZS") []) :: .assign (.name n!"offset") (.const (.int 24)) ::
          (qzsSteps.map (Step.stmt n!"eph") ++ ephEnd 485) := rfl
    have hnew : ∀ s, M.mapList fieldVal (dataFields src n!"EphQZS") s = (.ok qzsNew, s) := fun _ => rfl
    rw [hbody]
    pyexec [hnew, heap_set, List.contains_cons, Bool.or_true, Bool.true_or]
    rfl
  rw [← e] at hb
  exact hb

theorem galf_model (buf : Bytes) :
    (galfFields Val.int <$> Eph.decode1045 buf) = ephRead buf galfSteps galfNew 496 := by
  unfold Eph.decode1045 ephRead galfSteps
  dsimp only [Nat.reduceAdd]
  refine chain_u 24 36 _ _ _ _ _ _ _ _ _ rfl (fun _ => ?_)
  refine chain_u 36 42 _ _ _ _ _ _ _ _ _ rfl (fun _ => ?_)
  refine chain_u 42 54 _ _ _ _ _ _ _ _ _ rfl (fun _ => ?_)
  refine chain_u 54 64 _ _ _ _ _ _ _ _ _ rfl (fun _ => ?_)
  refine chain_u 64 72 _ _ _ _ _ _ _ _ _ rfl (fun _ => ?_)
  refine chain_s 72 86 _ _ _ _ _ _ _ _ _ rfl (fun _ => ?_)
  refine chain_u 86 100 _ _ _ _ _ _ _ _ _ rfl (fun _ => ?_)
  refine chain_s 100 106 _ _ _ _ _ _ _ _ _ rfl (fun _ => ?_)
  refine chain_s 106 127 _ _ _ _ _ _ _ _ _ rfl (fun _ => ?_)
  refine chain_s 127 158 _ _ _ _ _ _ _ _ _ rfl (fun _ => ?_)
  refine chain_s 158 174 _ _ _ _ _ _ _ _ _ rfl (fun _ => ?_)
  refine chain_s 174 190 _ _ _ _ _ _ _ _ _ rfl (fun _ => ?_)
  refine chain_s 190 222 _ _ _ _ _ _ _ _ _ rfl (fun _ => ?_)
  refine chain_s 222 238 _ _ _ _ _ _ _ _ _ rfl (fun _ => ?_)
  refine chain_u 238 270 _ _ _ _ _ _ _ _ _ rfl (fun _ => ?_)
  refine chain_s 270 286 _ _ _ _ _ _ _ _ _ rfl (fun _ => ?_)
  refine chain_u 286 318 _ _ _ _ _ _ _ _ _ rfl (fun _ => ?_)
  refine chain_u 318 332 _ _ _ _ _ _ _ _ _ rfl (fun _ => ?_)
  refine chain_s 332 348 _ _ _ _ _ _ _ _ _ rfl (fun _ => ?_)
  refine chain_s 348 380 _ _ _ _ _ _ _ _ _ rfl (fun _ => ?_)
  refine chain_s 380 396 _ _ _ _ _ _ _ _ _ rfl (fun _ => ?_)
  refine chain_s 396 428 _ _ _ _ _ _ _ _ _ rfl (fun _ => ?_)
  refine chain_s 428 444 _ _ _ _ _ _ _ _ _ rfl (fun _ => ?_)
  refine chain_s 444 476 _ _ _ _ _ _ _ _ _ rfl (fun _ => ?_)
  refine chain_s 476 500 _ _ _ _ _ _ _ _ _ rfl (fun _ => ?_)
  refine chain_s 500 510 _ _ _ _ _ _ _ _ _ rfl (fun _ => ?_)
  refine chain_u 510 512 _ _ _ _ _ _ _ _ _ rfl (fun _ => ?_)
  refine chain_u 512 520 _ _ _ _ _ _ _ _ _ rfl (fun _ => ?_)
  refine chain_end _ _ _ _ _ _ _ ?_
  simp only [galfNew, galfFields, M.bindKey_cons, M.bindKey_nil, ident_beq, Nat.reduceBEq, reduceIte, Bool.false_eq_true]

theorem decode1045_src (n : Nat) {h : Heap} {a : Nat} (ha : EphSelf h a) (buf : Bytes) :
    Makes (fun e => .inst n!"EphGALF" (galfFields .int e)) h
      (callFn src (n + 3) n!"EphemerisDecoder.__decode1045" [.ref a, .bytes buf] h) (Eph.decode1045 buf) := by
  rw [callFn_succ src _ _ _ _ _ _ Look.fn_EphemerisDecoder_P_decode1045 rfl]
  refine makes_of_body _ h n!"EphGALF" _ _ _ (galf_model buf) ?_
  have hb := ephBody_src n (n + 2) ha buf n!"EphGALF" galfSteps galfNew 496
  have e : execBlock src (n + 2) (callFn src (n + 2)) Src.fn_EphemerisDecoder_P_decode1045.body
      ⟨[(n!"self", .ref a), (n!"buf", .bytes buf)], h⟩ =
      execBlock src (n + 2) (callFn src (n + 2)) (galfSteps.map (Step.stmt n!"eph") ++ ephEnd 496)
        ⟨ephLoc a buf h.length 24, h ++ [.inst n!"EphGALF" galfNew]⟩ := by
    have hbody : Src.fn_EphemerisDecoder_P_decode1045.body =
        .assign (.name n!"eph") (.call (.attr (.name n!"mEph") n!"EphGALF") []) :: .assign (.name n!"offset") (.const (.int 24)) ::
          (galfSteps.map (Step.stmt n!"eph") ++ ephEnd 496) := rfl
    have hnew : ∀ s, M.mapList fieldVal (dataFields src n!"EphGALF") s = (.ok galfNew, s) := fun _ => rfl
    rw [hbody]
    pyexec [hnew, heap_set, List.contains_cons, Bool.or_true, Bool.true_or]
    rfl
  rw [← e] at hb
  exact hb

theorem gali_model (buf : Bytes) :
    (galiFields Val.int <$> Eph.decode1046 buf) = ephRead buf galiSteps galiNew 504 := by
  unfold Eph.decode1046 ephRead galiSteps
  dsimp only [Nat.reduceAdd]
  refine chain_u 24 36 _ _ _ _ _ _ _ _ _ rfl (fun _ => ?_)
  refine chain_u 36 42 _ _ _ _ _ _ _ _ _ rfl (fun _ => ?_)
  refine chain_u 42 54 _ _ _ _ _ _ _ _ _ rfl (fun _ => ?_)
  refine chain_u 54 64 _ _ _ _ _ _ _ _ _ rfl (fun _ => ?_)
  refine chain_u 64 72 _ _ _ _ _ _ _ _ _ rfl (fun _ => ?_)
  refine chain_s 72 86 _ _ _ _ _ _ _ _ _ rfl (fun _ => ?_)
  refine chain_u 86 100 _ _ _ _ _ _ _ _ _ rfl (fun _ => ?_)
  refine chain_s 100 106 _ _ _ _ _ _ _ _ _ rfl (fun _ => ?_)
  refine chain_s 106 127 _ _ _ _ _ _ _ _ _ rfl (fun _ => ?_)
  refine chain_s 127 158 _ _ _ _ _ _ _ _ _ rfl (fun _ => ?_)
  refine chain_s 158 174 _ _ _ _ _ _ _ _ _ rfl (fun _ => ?_)
  refine chain_s 174 190 _ _ _ _ _ _ _ _ _ rfl (fun _ => ?_)
  refine chain_s 190 222 _ _ _ _ _ _ _ _ _ rfl (fun _ => ?_)
  refine chain_s 222 238 _ _ _ _ _ _ _ _ _ rfl (fun _ => ?_)
  refine chain_u 238 270 _ _ _ _ _ _ _ _ _ rfl (fun _ => ?_)
  refine chain_s 270 286 _ _ _ _ _ _ _ _ _ rfl (fun _ => ?_)
  refine chain_u 286 318 _ _ _ _ _ _ _ _ _ rfl (fun _ => ?_)
  refine chain_u 318 332 _ _ _ _ _ _ _ _ _ rfl (fun _ => ?_)
  refine chain_s 332 348 _ _ _ _ _ _ _ _ _ rfl (fun _ => ?_)
  refine chain_s 348 380 _ _ _ _ _ _ _ _ _ rfl (fun _ => ?_)
  refine chain_s 380 396 _ _ _ _ _ _ _ _ _ rfl (fun _ => ?_)
  refine chain_s 396 428 _ _ _ _ _ _ _ _ _ rfl (fun _ => ?_)
  refine chain_s 428 444 _ _ _ _ _ _ _ _ _ rfl (fun _ => ?_)
  refine chain_s 444 476 _ _ _ _ _ _ _ _ _ rfl (fun _ => ?_)
  refine chain_s 476 500 _ _ _ _ _ _ _ _ _ rfl (fun _ => ?_)
  refine chain_s 500 510 _ _ _ _ _ _ _ _ _ rfl (fun _ => ?_)
  refine chain_s 510 520 _ _ _ _ _ _ _ _ _ rfl (fun _ => ?_)
  refine chain_u 520 522 _ _ _ _ _ _ _ _ _ rfl (fun _ => ?_)
  refine chain_u 522 523 _ _ _ _ _ _ _ _ _ rfl (fun _ => ?_)
  refine chain_u 523 525 _ _ _ _ _ _ _ _ _ rfl (fun _ => ?_)
  refine chain_u 525 528 _ _ _ _ _ _ _ _ _ rfl (fun _ => ?_)
  refine chain_end _ _ _ _ _ _ _ ?_
  simp only [galiNew, galiFields, M.bindKey_cons, M.bindKey_nil, ident_beq, Nat.reduceBEq, reduceIte, Bool.false_eq_true]

theorem decode1046_src (n : Nat) {h : Heap} {a : Nat} (ha : EphSelf h a) (buf : Bytes) :
    Makes (fun e => .inst n!"EphGALI" (galiFields .int e)) h
      (callFn src (n + 3) n!"EphemerisDecoder.__decode1046" [.ref a, .bytes buf] h) (Eph.decode1046 buf) := by
  rw [callFn_succ src _ _ _ _ _ _ Look.fn_EphemerisDecoder_P_decode1046 rfl]
  refine makes_of_body _ h n!"EphGALI" _ _ _ (gali_model buf) ?_
  have hb := ephBody_src n (n + 2) ha buf n!"EphGALI" galiSteps galiNew 504
  have e : execBlock src (n + 2) (callFn src (n + 2)) Src.fn_EphemerisDecoder_P_decode1046.body
      ⟨[(n!"self", .ref a), (n!"buf", .bytes buf)], h⟩ =
      execBlock src (n + 2) (callFn src (n + 2)) (galiSteps.map (Step.stmt n!"eph") ++ ephEnd 504)
        ⟨ephLoc a buf h.length 24, h ++ [.inst n!"EphGALI" galiNew]⟩ := by
    have hbody : Src.fn_EphemerisDecoder_P_decode1046.body =
        .assign (.name n!"eph") (.call (.attr (.name n!"mEph") n!"EphGALI") []) :: .assign (.name n!"offset") (.const (.int 24)) ::
          (galiSteps.map (Step.stmt n!"eph") ++ ephEnd 504) := rfl
    have hnew : ∀ s, M.mapList fieldVal (dataFields src n!"EphGALI") s = (.ok galiNew, s) := fun _ => rfl
    rw [hbody]
    pyexec [hnew, heap_set, List.contains_cons, Bool.or_true, Bool.true_or]
    rfl
  rw [← e] at hb
  exact hb

end Refine
end PyCore
end Verif
