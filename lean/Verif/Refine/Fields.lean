import Verif.Refine.RtcmUtil

/-!
# Sequences of statements that read the fields of a message

`eph.f, offset = self.getbitu(buf, offset, w), offset + w`, many times.
-/

namespace Verif
namespace PyCore
namespace Refine

open Rounding (rnd)
variable [Rounding]

/-- How a field is read. -/
inductive Kind where
  | u
  | s
  | S

/-- The name of the method. -/
def Kind.name : Kind → Ident
  | .u => n!"getbitu"
  | .s => n!"getbits"
  | .S => n!"getbitS"

/-- The model of the method. -/
def Kind.read (k : Kind) (buf : Bytes) (o w : Nat) : Py Int :=
  match k with
  | .u => do
    let v ← Bits.gbu buf o w
    pure (v : Int)
  | .s => Bits.gbs buf o w
  | .S => Bits.gbS buf o w

/-- One statement: field, method, width and what is added to the offset. -/
structure Step where
  field : Ident
  kind : Kind
  width : Nat
  adds : List Nat

/-- The statement, for an object in the variable `ov`. -/
def Step.stmt (ov : Ident) (s : Step) : Stmt :=
  .unpack [.attr (.name ov) s.field, .name n!"offset"]
    (.tuple [.call (.attr (.name n!"self") s.kind.name) [.name n!"buf", .name n!"offset", .const (.int s.width)],
      s.adds.foldl (fun e a => .bin .add e (.const (.int a))) (.name n!"offset")])

/-- The fields that are read, and the offset behind them. -/
def readFields (buf : Bytes) : List Step → Nat → List (Ident × Val) → Py (Nat × List (Ident × Val))
  | [], o, fs => pure (o, fs)
  | s :: ss, o, fs => do
    let v ← s.kind.read buf o s.width
    readFields buf ss (s.adds.foldl (· + ·) o) (M.bindKey fs s.field (.int v))

/-- A decoder object on the heap. -/
structure SelfObj (C : Ident) (fs : List (Ident × Val)) : Prop where
  bits : BitsClass C
  noU : fs.lookup n!"getbitu" = none
  noS : fs.lookup n!"getbits" = none

/-- A decoder object that has the method `getbitS`, too. -/
def HasS (C : Ident) (fs : List (Ident × Val)) : Prop :=
  C = n!"EphemerisDecoder" ∧ fs.lookup n!"getbitS" = none

/-- The state in which the fields of an object are read: local variables for an offset and heap for the fields read so far. -/
structure Frame (C : Ident) (sfs : List (Ident × Val)) (buf : Bytes) (ov c : Ident) (L : Nat → List (Ident × Val))
    (H : List (Ident × Val) → Heap) : Prop where
  selfObj : SelfObj C sfs
  self : ∃ a, (∀ o, (L o).lookup n!"self" = some (.ref a)) ∧ ∀ fs, (H fs)[a]? = some (.inst C sfs)
  buf : ∀ o, (L o).lookup n!"buf" = some (.bytes buf)
  off : ∀ o, (L o).lookup n!"offset" = some (.int o)
  setOff : ∀ o o' : Nat, M.bindKey (L o) n!"offset" (.int o') = L o'
  obj : ∃ r, (∀ o, (L o).lookup ov = some (.ref r)) ∧ (∀ fs, (H fs)[r]? = some (.inst c fs)) ∧
    ∀ fs fs', (H fs).set r (.inst c fs') = H fs'

theorem getbitS_src (n : Nat) (a : Nat) (fs : List (Ident × Val)) (h : Heap) (hs : SelfObj n!"EphemerisDecoder" fs)
    (ha : h[a]? = some (.inst n!"EphemerisDecoder" fs)) (buf : Bytes) (o w : Nat) :
    callFn src (n + 2) n!"EphemerisDecoder.getbitS" [.ref a, .bytes buf, .int o, .int w] h = ofModel .int h (Bits.gbS buf o w) := by
  pycall Look.fn_EphemerisDecoder_getbitS Src.fn_EphemerisDecoder_getbitS
  unfold Bits.gbS Bits.getbitS
  by_cases hw : (w : Int) < 1
  · have hk : (w : Int) - 1 = Int.negSucc 0 := by omega
    pyexec [hw, hk, errName]
  · have hk : (w : Int) - 1 = ((w - 1 : Nat) : Int) := by omega
    have hk2 : ((w : Int) - 1).toNat = w - 1 := by omega
    simp only [if_neg hw, hk2]
    have e4 : (1 : Int) * (2 : Int) ^ (w - 1) - (1 : Int) = ((1 <<< (w - 1) - 1 : Nat) : Int) := by
      rw [Nat.one_shiftLeft, Nat.cast_sub Nat.one_le_two_pow]; push_cast; ring
    cases hv : Bits.getbitu buf o w with
    | error e =>
      pyexec [hk, ha, hs.noU, instAttr_none _ _ _ _ _ _ (show n!"getbitu" ≠ n!"__class__" by decide), hs.bits.getbitu,
        getbitu_src n _ hs.bits, hv]
      rfl
    | ok v =>
      pyexec [hk, ha, hs.noU, instAttr_none _ _ _ _ _ _ (show n!"getbitu" ≠ n!"__class__" by decide), hs.bits.getbitu,
        getbitu_src n _ hs.bits, hv]
      have e1 : Int.land (v : Int) ((1 : Int) * (2 : Int) ^ (w - 1)) = ((v &&& 1 <<< (w - 1) : Nat) : Int) := by
        rw [show (1 : Int) * (2 : Int) ^ (w - 1) = ((1 <<< (w - 1) : Nat) : Int) by rw [Nat.one_shiftLeft]; push_cast; ring]
        rfl
      have e2 : Int.land (v : Int) ((1 : Int) * (2 : Int) ^ (w - 1) - (1 : Int)) = ((v &&& (1 <<< (w - 1) - 1) : Nat) : Int) := by
        rw [e4]
        rfl
      show _ = ofModel Val.int h (Except.ok
        (if v &&& 1 <<< (w - 1) = 0 then ((v &&& 1 <<< (w - 1) - 1 : Nat) : Int) else -((v &&& 1 <<< (w - 1) - 1 : Nat) : Int)))
      rw [e1, e2]
      generalize (v &&& 1 <<< (w - 1)) = m
      generalize (v &&& (1 <<< (w - 1) - 1)) = q
      by_cases hm : m = 0
      · have hm' : ((m : Int) == (0 : Int)) = true := by rw [beq_iff_eq]; omega
        rw [hm', if_pos hm]
        pyexec [ofModel]
      · have hm' : ((m : Int) == (0 : Int)) = false := by rw [beq_eq_false_iff_ne]; omega
        rw [hm', if_neg hm]
        pyexec [ofModel]

/-- Outcome of a read in a method. -/
def readVal (h : Heap) (r : Py Int) : Except Exc Val × Heap := ofModel .int h r

theorem eval_adds (call : CallT) (st : St) : ∀ (adds : List Nat) (e : Expr) (o : Nat), eval src call e st = (.ok (.int o), st) →
    eval src call (adds.foldl (fun e a => .bin .add e (.const (.int a))) e) st =
      (.ok (.int ((adds.foldl (· + ·) o : Nat) : Int)), st)
  | [], e, o, he => he
  | a :: as, e, o, he => by
    refine eval_adds call st as _ (o + a) ?_
    pyexec [he, Nat.cast_add]

/-- A read by a method of the decoder. -/
theorem read_call (n : Nat) (C : Ident) (sfs : List (Ident × Val)) (k : Kind) (hs : SelfObj C sfs) (hk : k = .S → HasS C sfs)
    (a : Nat) (L : List (Ident × Val)) (h : Heap) (ha : h[a]? = some (.inst C sfs))
    (hself : L.lookup n!"self" = some (.ref a)) (buf : Bytes) (o w : Nat) (eb eo : Expr)
    (hb : eval src (callFn src (n + 2)) eb ⟨L, h⟩ = (.ok (.bytes buf), ⟨L, h⟩))
    (ho : eval src (callFn src (n + 2)) eo ⟨L, h⟩ = (.ok (.int o), ⟨L, h⟩)) :
    eval src (callFn src (n + 2)) (.call (.attr (.name n!"self") k.name) [eb, eo, .const (.int w)]) ⟨L, h⟩ =
      match k.read buf o w with
      | .ok v => (.ok (.int v), ⟨L, h⟩)
      | .error e => (.error (.py (errName e)), ⟨L, h⟩) := by
  cases k with
  | u =>
    simp only [Kind.name, Kind.read, Bits.gbu]
    cases hv : Bits.getbitu buf o w with
    | error e =>
      pyexec [hself, ha, hs.noU, instAttr_none _ _ _ _ _ _ (show n!"getbitu" ≠ n!"__class__" by decide), hs.bits.getbitu, hb, ho,
        getbitu_src (n + 1) _ hs.bits, hv]
      rfl
    | ok v =>
      pyexec [hself, ha, hs.noU, instAttr_none _ _ _ _ _ _ (show n!"getbitu" ≠ n!"__class__" by decide), hs.bits.getbitu, hb, ho,
        getbitu_src (n + 1) _ hs.bits, hv]
      rfl
  | s =>
    simp only [Kind.name, Kind.read, Bits.gbs]
    cases hv : Bits.getbits buf o w with
    | error e =>
      pyexec [hself, ha, hs.noS, instAttr_none _ _ _ _ _ _ (show n!"getbits" ≠ n!"__class__" by decide), hs.bits.getbits, hb, ho,
        getbits_src n _ hs.bits, hv]
    | ok v =>
      pyexec [hself, ha, hs.noS, instAttr_none _ _ _ _ _ _ (show n!"getbits" ≠ n!"__class__" by decide), hs.bits.getbits, hb, ho,
        getbits_src n _ hs.bits, hv]
  | S =>
    obtain ⟨hC, hnS⟩ := hk rfl
    subst hC
    simp only [Kind.name, Kind.read]
    have hg := getbitS_src n a sfs h hs ha buf o w
    cases hv : Bits.gbS buf o w with
    | error e =>
      rw [hv] at hg
      pyexec [hself, ha, hnS, instAttr_none _ _ _ _ _ _ (show n!"getbitS" ≠ n!"__class__" by decide), 
        Look.mem_EphemerisDecoder_getbitS, hb, ho, hg]
    | ok v =>
      rw [hv] at hg
      pyexec [hself, ha, hnS, instAttr_none _ _ _ _ _ _ (show n!"getbitS" ≠ n!"__class__" by decide), 
        Look.mem_EphemerisDecoder_getbitS, hb, ho, hg]

theorem step_src (n m : Nat) {C sfs buf ov c L H} (F : Frame C sfs buf ov c L H) (s : Step) (hk : s.kind = .S → HasS C sfs)
    (o : Nat) (fs : List (Ident × Val)) :
    exec src m (callFn src (n + 2)) (s.stmt ov) ⟨L o, H fs⟩ =
      match s.kind.read buf o s.width with
      | .ok v => (.ok .next, ⟨L (s.adds.foldl (· + ·) o), H (M.bindKey fs s.field (.int v))⟩)
      | .error e => (.error (.py (errName e)), ⟨L o, H fs⟩) := by
  obtain ⟨a, ha, hat⟩ := F.self
  obtain ⟨r, hr, hrt, hset⟩ := F.obj
  have hoff : ∀ fs, eval src (callFn src (n + 2)) (.name n!"offset") ⟨L o, H fs⟩ = (.ok (.int o), ⟨L o, H fs⟩) := by
    intro fs
    pyexec [F.off]
  have h1 := read_call n C sfs s.kind F.selfObj hk a (L o) (H fs) (hat fs) (ha o) buf o s.width (.name n!"buf") (.name n!"offset")
    (by pyexec [F.buf]) (hoff fs)
  have h2 := eval_adds (callFn src (n + 2)) ⟨L o, H fs⟩ s.adds _ o (hoff fs)
  unfold Step.stmt
  cases hv : s.kind.read buf o s.width with
  | error e =>
    rw [hv] at h1
    pyexec [h1]
  | ok v =>
    rw [hv] at h1
    pyexec [h1, h2, hr, hrt, hset, F.setOff]

theorem steps_src (n m : Nat) {C sfs buf ov c L H} (F : Frame C sfs buf ov c L H) (rest : List Stmt) : ∀ (ss : List Step) (o : Nat)
    (fs : List (Ident × Val)), (∀ s ∈ ss, s.kind = .S → HasS C sfs) →
    match readFields buf ss o fs with
    | .ok (o', fs') => execBlock src m (callFn src (n + 2)) (ss.map (Step.stmt ov) ++ rest) ⟨L o, H fs⟩ =
        execBlock src m (callFn src (n + 2)) rest ⟨L o', H fs'⟩
    | .error e => ∃ o' fs', execBlock src m (callFn src (n + 2)) (ss.map (Step.stmt ov) ++ rest) ⟨L o, H fs⟩ =
        (.error (.py (errName e)), ⟨L o', H fs'⟩)
  | [], o, fs, _ => rfl
  | s :: ss, o, fs, hk => by
    have h1 := step_src n m F s (hk s (List.mem_cons_self ..)) o fs
    simp only [readFields, List.map_cons, List.cons_append]
    cases hv : s.kind.read buf o s.width with
    | error e =>
      rw [hv] at h1
      refine ⟨o, fs, ?_⟩
      pyexec [h1]
    | ok v =>
      rw [hv] at h1
      have ih := steps_src n m F rest ss (s.adds.foldl (· + ·) o) (M.bindKey fs s.field (.int v))
        (fun t ht => hk t (List.mem_cons_of_mem _ ht))
      have e : execBlock src m (callFn src (n + 2)) (s.stmt ov :: (ss.map (Step.stmt ov) ++ rest)) ⟨L o, H fs⟩ =
          execBlock src m (callFn src (n + 2)) (ss.map (Step.stmt ov) ++ rest)
            ⟨L (s.adds.foldl (· + ·) o), H (M.bindKey fs s.field (.int v))⟩ := by
        pyexec [h1]
      rw [e]
      exact ih

end Refine
end PyCore
end Verif
