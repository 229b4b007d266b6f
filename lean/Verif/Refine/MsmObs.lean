import Verif.Refine.MsmHdr

/-!
# `BareObservablesMSM17Decoder.__extract_observables4567`, `…123` and their models
-/

namespace Verif
namespace PyCore
namespace Refine

open Rounding (rnd)
variable [Rounding]

theorem lookup_bindKey_ne {x y : Ident} (hxy : (x == y) = false) (v : Val) : ∀ L : Fields, (M.bindKey L y v).lookup x = L.lookup x
  | [] => by simp only [M.bindKey_nil, List.lookup_cons, hxy, List.lookup_nil]
  | (z, u) :: L => by
    rw [M.bindKey_cons]
    by_cases hz : z = y
    · subst hz
      simp only [beq_self_eq_true, if_true, List.lookup_cons, hxy]
    · have hz' : (z == y) = false := by rw [beq_eq_false_iff_ne]; exact hz
      simp only [hz', Bool.false_eq_true, if_false, List.lookup_cons, lookup_bindKey_ne hxy v L]

theorem lookup_bindKey_self (x : Ident) (v : Val) : ∀ L : Fields, (M.bindKey L x v).lookup x = some v
  | [] => by simp only [M.bindKey_nil, List.lookup_cons, beq_self_eq_true]
  | (z, u) :: L => by
    rw [M.bindKey_cons]
    by_cases hz : z = x
    · subst hz
      simp only [beq_self_eq_true, if_true, List.lookup_cons]
    · have hz' : (z == x) = false := by rw [beq_eq_false_iff_ne]; exact hz
      have hz2 : (x == z) = false := by rw [beq_eq_false_iff_ne]; exact Ne.symm hz
      simp only [hz', Bool.false_eq_true, if_false, List.lookup_cons, hz2, lookup_bindKey_self x v L]

/-- Local variables that are used in the elements of a tuple. -/
structure RangeLoc (L : Fields) (a : Nat) (buf : Bytes) (o b : Nat) : Prop where
  self : L.lookup n!"self" = some (.ref a)
  buf : L.lookup n!"buf" = some (.bytes buf)
  offset : L.lookup n!"offset" = some (.int o)
  bits : L.lookup n!"bits" = some (.int b)

/-- The element of a tuple. -/
def rangeElt (k : Kind) : Expr :=
  .call (.attr (.name n!"self") k.name) [.name n!"buf", .bin .add (.name n!"offset") (.bin .mul (.name n!"i") (.name n!"bits")),
    .name n!"bits"]

section
variable (n : Nat) (C : Ident) (sfs : Fields) (k : Kind) (hs : SelfObj C sfs) (hk : k ≠ .S)
    (a : Nat) (h : Heap) (ha : h[a]? = some (.inst C sfs)) (buf : Bytes) (o b : Nat)
include hs hk ha

theorem range_elt (L : Fields) (hL : RangeLoc L a buf o b) (i : Nat) (hi : L.lookup n!"i" = some (.int i)) :
    eval src (callFn src (n + 2)) (rangeElt k) ⟨L, h⟩ =
      match k.read buf (o + i * b) b with
      | .ok v => (.ok (.int v), ⟨L, h⟩)
      | .error e => (.error (.py (errName e)), ⟨L, h⟩) := by
  unfold rangeElt
  have e1 : (o : Int) + (i : Int) * (b : Int) = ((o + i * b : Nat) : Int) := by push_cast; rfl
  cases k with
  | S => exact absurd rfl hk
  | u =>
    simp only [Kind.name, Kind.read, Bits.gbu]
    generalize hoi : o + i * b = oi at *
    have h2 := getbitu_src (n + 1) _ hs.bits buf oi b h
    cases hv : Bits.getbitu buf oi b with
    | error e =>
      rw [hv] at h2
      pyexec [hL.self, ha, hs.noU, hs.bits.getbitu, hL.buf, hL.offset, hL.bits, hi, e1, h2]
      rfl
    | ok v =>
      rw [hv] at h2
      pyexec [hL.self, ha, hs.noU, hs.bits.getbitu, hL.buf, hL.offset, hL.bits, hi, e1, h2]
      rfl
  | s =>
    simp only [Kind.name, Kind.read, Bits.gbs]
    generalize hoi : o + i * b = oi at *
    have h2 := getbits_src n _ hs.bits buf oi b h
    cases hv : Bits.getbits buf oi b with
    | error e =>
      rw [hv] at h2
      pyexec [hL.self, ha, hs.noS, hs.bits.getbits, hL.buf, hL.offset, hL.bits, hi, e1, h2]
    | ok v =>
      rw [hv] at h2
      pyexec [hL.self, ha, hs.noS, hs.bits.getbits, hL.buf, hL.offset, hL.bits, hi, e1, h2]

theorem range_loop : ∀ (xs : List Nat) (L : Fields), RangeLoc L a buf o b →
    match xs.mapM (fun i => k.read buf (o + i * b) b) with
    | .ok vs => ∃ L', compLoop n!"i" (eval src (callFn src (n + 2)) (.const (.bool true)) >>= fun c => truth src c)
        (eval src (callFn src (n + 2)) (rangeElt k)) (xs.map (fun x : Nat => .int x)) ⟨L, h⟩ = (.ok (vs.map .int), ⟨L', h⟩)
    | .error e => ∃ L', compLoop n!"i" (eval src (callFn src (n + 2)) (.const (.bool true)) >>= fun c => truth src c)
        (eval src (callFn src (n + 2)) (rangeElt k)) (xs.map (fun x : Nat => .int x)) ⟨L, h⟩ = (.error (.py (errName e)), ⟨L', h⟩)
  | [], L, _ => ⟨L, rfl⟩
  | x :: xs, L, hL => by
    have hL' : RangeLoc (M.bindKey L n!"i" (.int x)) a buf o b :=
      ⟨by rw [lookup_bindKey_ne rfl, hL.self], by rw [lookup_bindKey_ne rfl, hL.buf], by rw [lookup_bindKey_ne rfl, hL.offset],
        by rw [lookup_bindKey_ne rfl, hL.bits]⟩
    have h1 := range_elt n C sfs k hs hk a h ha buf o b _ hL' x (lookup_bindKey_self ..)
    have ih := range_loop xs _ hL'
    rw [List.mapM_cons, List.map_cons]
    cases hv : k.read buf (o + x * b) b with
    | error e =>
      rw [hv] at h1
      refine ⟨M.bindKey L n!"i" (.int x), ?_⟩
      rw [compLoop_cons]
      pyexec [h1]
    | ok v =>
      rw [hv] at h1
      rw [except_ok_bind]
      cases hvs : xs.mapM (fun i => k.read buf (o + i * b) b) with
      | error e =>
        rw [hvs] at ih
        obtain ⟨L', ih⟩ := ih
        refine ⟨L', ?_⟩
        rw [compLoop_cons]
        pyexec [h1, ih]
      | ok vs =>
        rw [hvs] at ih
        obtain ⟨L', ih⟩ := ih
        refine ⟨L', ?_⟩
        rw [compLoop_cons]
        pyexec [h1, ih]
        rfl

/-- `tuple(self.getbitu(buf, offset + i * bits, bits) for i in range(0, N))`, sub_decoders/RTCM_MSM.py:189-191. -/
def tupleE (k : Kind) (nv : Ident) : Expr :=
  .call (.name n!"tuple") [.gen (rangeElt k) n!"i" (.call (.name n!"range") [.const (.int 0), .name nv]) (.const (.bool true))]

/-- The elements of a tuple. -/
def tupRead (k : Kind) (buf : Bytes) (o b N : Nat) : Py (List Int) := (List.range N).mapM (fun i => k.read buf (o + i * b) b)

theorem range_tuple (L : Fields) (hL : RangeLoc L a buf o b) (nv : Ident) (N : Nat) (hN : L.lookup nv = some (.int N))
    (h1 : L.lookup n!"tuple" = none) (h2 : L.lookup n!"range" = none) :
    eval src (callFn src (n + 2)) (tupleE k nv) ⟨L, h⟩ =
      match tupRead k buf o b N with
      | .ok vs => (.ok (.tup (vs.map .int)), ⟨L, h ++ [.iter []]⟩)
      | .error e => (.error (.py (errName e)), ⟨L, h⟩) := by
  have e0 : rangeVals 0 (N : Int) = (List.range N).map (fun x : Nat => .int x) := by
    simp only [rangeVals, Int.sub_zero, Int.toNat_natCast, Int.zero_add]
  have hl := range_loop n C sfs k hs hk a h ha buf o b (List.range N) L hL
  unfold tupleE tupRead
  cases hv : (List.range N).mapM (fun i => k.read buf (o + i * b) b) with
  | error e =>
    rw [hv] at hl
    obtain ⟨L', hl⟩ := hl
    pyexec [h1, h2, hN, e0, hl]
  | ok vs =>
    rw [hv] at hl
    obtain ⟨L', hl⟩ := hl
    pyexec [h1, h2, hN, e0, hl, heap_last, heap_set]
end

/-! ## Groups of statements -/

/-- Data of satellites or of signals. -/
inductive Part where
  | sat
  | sgn

/-- The name of the attribute. -/
def Part.attr : Part → Ident
  | .sat => n!"sat"
  | .sgn => n!"sgn"

/-- The variable with the number of elements. -/
def Part.num : Part → Ident
  | .sat => n!"Nsat"
  | .sgn => n!"Ncell"

/-- A tuple that is read: the condition with its value, if there is one; part, field and kind. -/
structure Item where
  cond : Option (Expr × Bool)
  part : Part
  field : Ident
  kind : Kind

/-- `bits = next(bw)`, the tuple, `offset += bits * N`. -/
def Item.body (it : Item) : List Stmt :=
  [.assign (.name n!"bits") (.call (.name n!"next") [.name n!"bw"]),
    .assign (.attr (.attr (.attr (.name n!"self") n!"bd") it.part.attr) it.field) (tupleE it.kind it.part.num),
    .aug (.name n!"offset") .add (.bin .mul (.name n!"bits") (.name it.part.num))]

/-- The statements of an item. -/
def Item.stmts (it : Item) : List Stmt :=
  match it.cond with
  | none => it.body
  | some (c, _) => [.ite c it.body []]

/-- The item is read. -/
def Item.active (it : Item) : Bool :=
  match it.cond with
  | none => true
  | some (_, b) => b

/-- What the items read: offset behind them, data of satellites and of signals. -/
def readItems (buf : Bytes) (Nsat Ncell : Nat) : List Item → List Nat → Nat → Fields → Fields → Py (Nat × Fields × Fields)
  | [], _, o, sat, sgn => pure (o, sat, sgn)
  | it :: its, ws, o, sat, sgn =>
    if it.active then
      match ws with
      | [] => .error .valueError
      | w :: ws =>
        match it.part with
        | .sat => do
          let vs ← tupRead it.kind buf o w Nsat
          readItems buf Nsat Ncell its ws (o + w * Nsat) (M.bindKey sat it.field (.tup (vs.map .int))) sgn
        | .sgn => do
          let vs ← tupRead it.kind buf o w Ncell
          readItems buf Nsat Ncell its ws (o + w * Ncell) sat (M.bindKey sgn it.field (.tup (vs.map .int)))
    else readItems buf Nsat Ncell its ws o sat sgn

/-- Local variables. -/
def obsLoc (G : Heap) (buf : Bytes) (o Nsat Nsgn Ncell est : Nat) (l : Fields) : Fields :=
  (n!"self", .ref G.length) :: (n!"buf", .bytes buf) :: (n!"offset", .int o) :: (n!"Nsat", .int Nsat) :: (n!"Nsgn", .int Nsgn) ::
    (n!"Ncell", .int Ncell) :: (n!"est_len", .int est) :: (n!"bw", .ref (G.length + 7)) :: l

/-- The generator of widths. -/
def widths (ws : List Nat) : Obj := .iter (ws.map (fun w : Nat => .int w))

section
variable {G : Heap} {r : Bool} {K : BareKind} {atr hdr : Fields} {buf : Bytes} {Nsat Nsgn Ncell est : Nat}

theorem body_src (n m : Nat) (it : Item) (hk : it.kind ≠ .S) (o w : Nat) (ws : List Nat) (sat sgn : Fields) (T : List Obj) (l : Fields)
    (hl : l = [] ∨ ∃ i, l = [(n!"bits", i)]) :
    match it.part with
    | .sat => match tupRead it.kind buf o w Nsat with
      | .ok vs => execBlock src m (callFn src (n + 2)) it.body
          ⟨obsLoc G buf o Nsat Nsgn Ncell est l, bareHeap G r K atr hdr sat sgn (widths (w :: ws) :: T)⟩ =
            (.ok .next, ⟨obsLoc G buf (o + w * Nsat) Nsat Nsgn Ncell est [(n!"bits", .int w)],
              bareHeap G r K atr hdr (M.bindKey sat it.field (.tup (vs.map .int))) sgn (widths ws :: (T ++ [.iter []]))⟩)
      | .error e => execBlock src m (callFn src (n + 2)) it.body
          ⟨obsLoc G buf o Nsat Nsgn Ncell est l, bareHeap G r K atr hdr sat sgn (widths (w :: ws) :: T)⟩ =
            (.error (.py (errName e)), ⟨obsLoc G buf o Nsat Nsgn Ncell est [(n!"bits", .int w)],
              bareHeap G r K atr hdr sat sgn (widths ws :: T)⟩)
    | .sgn => match tupRead it.kind buf o w Ncell with
      | .ok vs => execBlock src m (callFn src (n + 2)) it.body
          ⟨obsLoc G buf o Nsat Nsgn Ncell est l, bareHeap G r K atr hdr sat sgn (widths (w :: ws) :: T)⟩ =
            (.ok .next, ⟨obsLoc G buf (o + w * Ncell) Nsat Nsgn Ncell est [(n!"bits", .int w)],
              bareHeap G r K atr hdr sat (M.bindKey sgn it.field (.tup (vs.map .int))) (widths ws :: (T ++ [.iter []]))⟩)
      | .error e => execBlock src m (callFn src (n + 2)) it.body
          ⟨obsLoc G buf o Nsat Nsgn Ncell est l, bareHeap G r K atr hdr sat sgn (widths (w :: ws) :: T)⟩ =
            (.error (.py (errName e)), ⟨obsLoc G buf o Nsat Nsgn Ncell est [(n!"bits", .int w)],
              bareHeap G r K atr hdr sat sgn (widths ws :: T)⟩) := by
  have hn : l.lookup n!"next" = none := by rcases hl with rfl | ⟨i, rfl⟩ <;> rfl
  have hb : M.bindKey l n!"bits" (.int w) = [(n!"bits", .int w)] := by rcases hl with rfl | ⟨i, rfl⟩ <;> rfl
  have hap := fun (sat sgn : Fields) (o : Obj) => bareHeap_append G r K atr hdr sat sgn (widths ws :: T) [o]
  simp only [List.cons_append] at hap
  have hL : RangeLoc (obsLoc G buf o Nsat Nsgn Ncell est [(n!"bits", .int w)]) G.length buf o w := ⟨rfl, rfl, rfl, rfl⟩
  have hh : widths (w :: ws) = .iter (.int w :: ws.map (fun w : Nat => .int w)) := rfl
  obtain ⟨cond, part, F, k⟩ := it
  cases part with
  | sat =>
    have ht := range_tuple n _ _ k (msmSelf G r) hk G.length (bareHeap G r K atr hdr sat sgn (widths ws :: T)) (bareHeap_self ..)
      buf o w _ hL n!"Nsat" Nsat rfl rfl rfl
    dsimp only
    unfold Item.body
    dsimp only [Part.attr, Part.num]
    generalize htu : tupleE k n!"Nsat" = tu at ht ⊢
    cases hv : tupRead k buf o w Nsat with
    | error e =>
      rw [hv] at ht
      unfold obsLoc at ht ⊢
      rw [hh]
      unfold widths at *
      pyexec [hn, hb, ht]
    | ok vs =>
      rw [hv] at ht
      unfold obsLoc at ht ⊢
      rw [hh]
      unfold widths at *
      have e1 : ((o + w * Nsat : Nat) : Int) = (o : Int) + (w : Int) * (Nsat : Int) := by push_cast; rfl
      rw [e1]
      pyexec [hn, hb, ht, hap]
  | sgn =>
    have ht := range_tuple n _ _ k (msmSelf G r) hk G.length (bareHeap G r K atr hdr sat sgn (widths ws :: T)) (bareHeap_self ..)
      buf o w _ hL n!"Ncell" Ncell rfl rfl rfl
    dsimp only
    unfold Item.body
    dsimp only [Part.attr, Part.num]
    generalize htu : tupleE k n!"Ncell" = tu at ht ⊢
    cases hv : tupRead k buf o w Ncell with
    | error e =>
      rw [hv] at ht
      unfold obsLoc at ht ⊢
      rw [hh]
      unfold widths at *
      pyexec [hn, hb, ht]
    | ok vs =>
      rw [hv] at ht
      unfold obsLoc at ht ⊢
      rw [hh]
      unfold widths at *
      have e1 : ((o + w * Ncell : Nat) : Int) = (o : Int) + (w : Int) * (Ncell : Int) := by push_cast; rfl
      rw [e1]
      pyexec [hn, hb, ht, hap]

end

end Refine
end PyCore
end Verif
