import Verif.Refine.MsmObs

/-!
# `BareObservablesMSM17Decoder`: observables
-/

namespace Verif
namespace PyCore
namespace Refine

open Rounding (rnd)
variable [Rounding]

section
variable {G : Heap} {r : Bool} {K : BareKind} {atr hdr : Fields} {buf : Bytes} {Nsat Nsgn Ncell est : Nat}

/-- Local variables behind `bw`. -/
def BitsLoc (l : Fields) : Prop := l = [] ∨ ∃ i, l = [(n!"bits", i)]

/-- The condition of an item has the value that the item names. -/
def Item.CondOk (n : Nat) (G : Heap) (r : Bool) (K : BareKind) (atr hdr : Fields) (buf : Bytes) (Nsat Nsgn Ncell est : Nat) (it : Item) : Prop :=
  ∀ c b, it.cond = some (c, b) → ∀ o l sat sgn T, BitsLoc l →
    eval src (callFn src (n + 2)) c ⟨obsLoc G buf o Nsat Nsgn Ncell est l, bareHeap G r K atr hdr sat sgn T⟩ =
      (.ok (.bool b), ⟨obsLoc G buf o Nsat Nsgn Ncell est l, bareHeap G r K atr hdr sat sgn T⟩)

theorem execBlock_app (m : Nat) (call : CallT) (b : List Stmt) : ∀ (a : List Stmt) (s : St),
    execBlock src m call (a ++ b) s = M.seq (execBlock src m call a s) (after (execBlock src m call b))
  | [], s => by rw [List.nil_append]; pyexec
  | st :: a, s => by
    rw [List.cons_append, execBlock_cons, execBlock_cons]
    rcases h : exec src m call st s with ⟨r, s'⟩
    cases r with
    | error e => rfl
    | ok f =>
      cases f with
      | next => exact execBlock_app m call b a s'
      | ret v => rfl
      | brk => rfl
      | cont => rfl

/-- Execution of one item. -/
theorem item_src (n m : Nat) (rest : List Stmt) (it : Item)
    (hc : it.CondOk n G r K atr hdr buf Nsat Nsgn Ncell est) (ha : it.active = true) (o : Nat) (l sat sgn : Fields) (T : List Obj)
    (hl : BitsLoc l) :
    execBlock src m (callFn src (n + 2)) (it.stmts ++ rest) ⟨obsLoc G buf o Nsat Nsgn Ncell est l, bareHeap G r K atr hdr sat sgn T⟩ =
      M.seq (execBlock src m (callFn src (n + 2)) it.body ⟨obsLoc G buf o Nsat Nsgn Ncell est l, bareHeap G r K atr hdr sat sgn T⟩)
        (after (execBlock src m (callFn src (n + 2)) rest)) := by
  obtain ⟨cond, part, F, k⟩ := it
  match cond, ha with
  | none, ha => exact execBlock_app ..
  | some (c, true), ha =>
    have := hc c true rfl o l sat sgn T hl
    simp only [Item.stmts, List.cons_append, List.nil_append]
    generalize Item.body _ = b
    pyexec [this]

theorem items_src (n m : Nat) (rest : List Stmt) : ∀ (its : List Item) (ws : List Nat) (o : Nat) (sat sgn : Fields) (T : List Obj) (l : Fields),
    (∀ it ∈ its, it.kind ≠ .S ∧ it.CondOk n G r K atr hdr buf Nsat Nsgn Ncell est) → BitsLoc l →
    (its.filter Item.active).length ≤ ws.length →
    match readItems buf Nsat Ncell its ws o sat sgn with
    | .ok (o', sat', sgn') => ∃ (l' : Fields) (T' : List Obj), BitsLoc l' ∧
        execBlock src m (callFn src (n + 2)) (its.flatMap Item.stmts ++ rest)
          ⟨obsLoc G buf o Nsat Nsgn Ncell est l, bareHeap G r K atr hdr sat sgn (widths ws :: T)⟩ =
        execBlock src m (callFn src (n + 2)) rest ⟨obsLoc G buf o' Nsat Nsgn Ncell est l',
          bareHeap G r K atr hdr sat' sgn' (widths (ws.drop (its.filter Item.active).length) :: T')⟩
    | .error e => ∃ (l' sat' sgn' : Fields) (T' : List Obj),
        execBlock src m (callFn src (n + 2)) (its.flatMap Item.stmts ++ rest)
          ⟨obsLoc G buf o Nsat Nsgn Ncell est l, bareHeap G r K atr hdr sat sgn (widths ws :: T)⟩ =
        (.error (.py (errName e)), ⟨l', bareHeap G r K atr hdr sat' sgn' T'⟩)
  | [], ws, o, sat, sgn, T, l, _, hl, _ => ⟨l, T, hl, rfl⟩
  | it :: its, ws, o, sat, sgn, T, l, hi, hl, hw => by
    have hi' := fun i hm => hi i (List.mem_cons_of_mem _ hm)
    obtain ⟨hk, hc⟩ := hi it (List.mem_cons_self ..)
    simp only [List.flatMap_cons, List.append_assoc]
    unfold readItems
    by_cases ha : it.active = true
    · rw [if_pos ha]
      have hf : ((it :: its).filter Item.active).length = (its.filter Item.active).length + 1 := by
        rw [List.filter_cons_of_pos ha, List.length_cons]
      rw [hf] at hw ⊢
      cases ws with
      | nil => exact absurd hw (by simp)
      | cons w ws =>
        have hw' : (its.filter Item.active).length ≤ ws.length := by simpa using hw
        have hb := body_src (G := G) (r := r) (K := K) (atr := atr) (hdr := hdr) (buf := buf) (Nsat := Nsat) (Nsgn := Nsgn)
          (Ncell := Ncell) (est := est) n m it hk o w ws sat sgn T l hl
        have hx := item_src n m (its.flatMap Item.stmts ++ rest) it hc ha o l sat sgn (widths (w :: ws) :: T) hl
        rw [hx]
        clear hx
        rw [List.drop_succ_cons]
        cases hp : it.part with
        | sat =>
          rw [hp] at hb
          dsimp only at hb ⊢
          cases hv : tupRead it.kind buf o w Nsat with
          | error e =>
            rw [hv] at hb
            rw [hb]
            exact ⟨_, _, _, _, rfl⟩
          | ok vs =>
            rw [hv] at hb
            rw [hb]
            exact items_src n m rest its ws _ _ _ _ _ hi' (Or.inr ⟨_, rfl⟩) hw'
        | sgn =>
          rw [hp] at hb
          dsimp only at hb ⊢
          cases hv : tupRead it.kind buf o w Ncell with
          | error e =>
            rw [hv] at hb
            rw [hb]
            exact ⟨_, _, _, _, rfl⟩
          | ok vs =>
            rw [hv] at hb
            rw [hb]
            exact items_src n m rest its ws _ _ _ _ _ hi' (Or.inr ⟨_, rfl⟩) hw'
    · rw [if_neg ha]
      have hf : ((it :: its).filter Item.active) = (its.filter Item.active) := by
        rw [List.filter_cons_of_neg ha]
      rw [hf] at hw ⊢
      have hx : execBlock src m (callFn src (n + 2)) (it.stmts ++ (its.flatMap Item.stmts ++ rest))
          ⟨obsLoc G buf o Nsat Nsgn Ncell est l, bareHeap G r K atr hdr sat sgn (widths ws :: T)⟩ =
          execBlock src m (callFn src (n + 2)) (its.flatMap Item.stmts ++ rest)
          ⟨obsLoc G buf o Nsat Nsgn Ncell est l, bareHeap G r K atr hdr sat sgn (widths ws :: T)⟩ := by
        obtain ⟨cond, part, F, k⟩ := it
        match cond, ha with
        | none, ha => exact absurd rfl ha
        | some (c, true), ha => exact absurd rfl ha
        | some (c, false), ha =>
          have := hc c false rfl o l sat sgn (widths ws :: T) hl
          simp only [Item.stmts, List.cons_append, List.nil_append]
          pyexec [this]
      rw [hx]
      exact items_src n m rest its ws _ _ _ _ _ hi' hl hw

end

/-! ## MSM4 to MSM7 -/

/-- `self.bd.atr.is_msm5 or self.bd.atr.is_msm7` -/
def cond57 : Expr :=
  .or (.attr (.attr (.attr (.name n!"self") n!"bd") n!"atr") n!"is_msm5") (.attr (.attr (.attr (.name n!"self") n!"bd") n!"atr") n!"is_msm7")

/-- The tuples of messages MSM4 to MSM7, sub_decoders/RTCM_MSM.py:187-250. -/
def items47 (b : Bool) : List Item :=
  [⟨none, .sat, n!"rng_ms", .u⟩, ⟨some (cond57, b), .sat, n!"ext_info", .u⟩, ⟨none, .sat, n!"rng_rough", .u⟩,
    ⟨some (cond57, b), .sat, n!"phase_rate_rough", .s⟩, ⟨none, .sgn, n!"rng_fine", .s⟩, ⟨none, .sgn, n!"phase_fine", .s⟩,
    ⟨none, .sgn, n!"lock_time", .u⟩, ⟨none, .sgn, n!"hc_indc", .u⟩, ⟨none, .sgn, n!"c2n", .u⟩,
    ⟨some (cond57, b), .sgn, n!"phase_rate_fine", .s⟩]

/-- The last statements, sub_decoders/RTCM_MSM.py:252-259. -/
def obsTail : List Stmt :=
  [.assign (.name n!"Nbytes") (.bin .shr (.bin .add (.name n!"offset") (.const (.int 7))) (.const (.int 3))),
    .ite (.cmp .ne (.call (.name n!"len") [.name n!"buf"]) (.bin .add (.name n!"Nbytes") (.const (.int 3)))) [
      .raise (.call (.name n!"ExceptionBareDataStructure") [.fstr [.name n!"Nbytes", .call (.name n!"len") [.name n!"buf"]]])] [],
    .ret (.name n!"offset")]

theorem body47_eq (b : Bool) : Src.fn_BareObservablesMSM17Decoder_P_extract_observables4567.body =
    Src.fn_BareObservablesMSM17Decoder_P_extract_observables4567.body.take 6 ++ ((items47 b).flatMap Item.stmts ++ obsTail) := rfl

section
variable (buf : Bytes) (o w N : Nat)

theorem mapM_cast (f : Nat → Py Nat) : ∀ xs : List Nat, xs.mapM (fun i => f i >>= fun v => (pure (v : Int) : Py Int)) =
    xs.mapM f >>= fun v => pure (v.map (fun x : Nat => (x : Int)))
  | [] => rfl
  | x :: xs => by
    rw [List.mapM_cons, List.mapM_cons]
    cases f x with
    | error e => rfl
    | ok v =>
      simp only [bind_assoc, pure_bind, mapM_cast f xs, List.map_cons, except_ok_bind]

theorem tupRead_u (f : List Int → Py α) : (tupRead .u buf o w N >>= f) = Msm.tupleU buf o w N >>= fun v => f (v.map (fun x : Nat => (x : Int))) := by
  unfold tupRead Msm.tupleU tupleOfRange
  simp only [Kind.read, mapM_cast, bind_assoc, pure_bind]
theorem tupRead_s (f : List Int → Py α) : (tupRead .s buf o w N >>= f) = Msm.tupleS buf o w N >>= f := rfl
theorem natTup_eq (v : List Nat) : intTup (v.map (fun x : Nat => (x : Int))) = natTup v := by
  unfold natTup intTup; rw [List.map_map]; rfl
theorem intTup_eq (v : List Int) : Val.tup (v.map .int) = intTup v := rfl
end

/-- The tuples of messages MSM4 to MSM7 in the model. -/
def part47 (buf : Bytes) (Nsat Ncell : Nat) (b : Bool) (w0 wE w2 wP w4 w5 w6 w7 w8 wR : Nat) (offset : Nat) :
    Py (Msm.BareSat4567 × Msm.BareSgn4567 × Nat) := do
  let rng_ms ← Msm.tupleU buf offset w0 Nsat
  let offset := offset + w0 * Nsat
  let (ext_info, offset) ← if b then do let x ← Msm.tupleU buf offset wE Nsat; pure (x, offset + wE * Nsat) else pure ([0], offset)
  let rng_rough ← Msm.tupleU buf offset w2 Nsat
  let offset := offset + w2 * Nsat
  let (phase_rate_rough, offset) ← if b then do let x ← Msm.tupleS buf offset wP Nsat; pure (x, offset + wP * Nsat) else pure ([0], offset)
  let rng_fine ← Msm.tupleS buf offset w4 Ncell
  let offset := offset + w4 * Ncell
  let phase_fine ← Msm.tupleS buf offset w5 Ncell
  let offset := offset + w5 * Ncell
  let lock_time ← Msm.tupleU buf offset w6 Ncell
  let offset := offset + w6 * Ncell
  let hc_indc ← Msm.tupleU buf offset w7 Ncell
  let offset := offset + w7 * Ncell
  let c2n ← Msm.tupleU buf offset w8 Ncell
  let offset := offset + w8 * Ncell
  let (phase_rate_fine, offset) ← if b then do let x ← Msm.tupleS buf offset wR Ncell; pure (x, offset + wR * Ncell) else pure ([0], offset)
  pure ({ rng_ms, ext_info, rng_rough, phase_rate_rough }, { rng_fine, phase_fine, lock_time, hc_indc, c2n, phase_rate_fine }, offset)

theorem part57_eq (buf : Bytes) (Nsat Ncell : Nat) (w0 wE w2 wP w4 w5 w6 w7 w8 wR : Nat) (o : Nat) :
    readItems buf Nsat Ncell (items47 true) [w0, wE, w2, wP, w4, w5, w6, w7, w8, wR] o (sat47F {}) (sgn47F {}) =
      part47 buf Nsat Ncell true w0 wE w2 wP w4 w5 w6 w7 w8 wR o >>= fun x => pure (x.2.2, sat47F x.1, sgn47F x.2.1) := by
  simp only [items47, readItems, Item.active, part47, tupRead_u, tupRead_s, reduceIte, bind_assoc, pure_bind, intTup_eq, sat47F, sgn47F,
    M.bindKey_cons, ident_beq, Bool.false_eq_true, Nat.reduceBEq]
  simp only [natTup_eq]

theorem part46_eq (buf : Bytes) (Nsat Ncell : Nat) (w0 wE w2 wP w4 w5 w6 w7 w8 wR : Nat) (o : Nat) :
    readItems buf Nsat Ncell (items47 false) [w0, w2, w4, w5, w6, w7, w8] o (sat47F {}) (sgn47F {}) =
      part47 buf Nsat Ncell false w0 wE w2 wP w4 w5 w6 w7 w8 wR o >>= fun x => pure (x.2.2, sat47F x.1, sgn47F x.2.1) := by
  simp only [items47, readItems, Item.active, part47, tupRead_u, tupRead_s, reduceIte, bind_assoc, pure_bind, intTup_eq, sat47F, sgn47F,
    M.bindKey_cons, ident_beq, Bool.false_eq_true, Nat.reduceBEq]
  simp only [natTup_eq]

/-- The last check. -/
def final47 (buf : Bytes) (x : Msm.Attributes) (hd : Msm.BareHdr) (y : Msm.BareSat4567 × Msm.BareSgn4567 × Nat) : Py (Msm.Bare4567 × Nat) :=
  if buf.length ≠ (y.2.2 + 7) >>> 3 + 3 then .error .bareData else pure ({ atr := x, hdr := hd, sat := y.1, sgn := y.2.1 }, y.2.2)

theorem extract47_eq (buf : Bytes) (x : Msm.Attributes) (hd : Msm.BareHdr) (o : Nat) (b : Bool) (ws : List Nat) (est : Nat)
    (w0 wE w2 wP w4 w5 w6 w7 w8 wR : Nat)
    (hb : (x.is_msm5 || x.is_msm7) = b) (hp : Msm.plan4567 x o (Msm.bitCount hd.sat_mask) (Msm.bitCount hd.cell_mask) = (est, ws))
    (hw : ws = if b then [w0, wE, w2, wP, w4, w5, w6, w7, w8, wR] else [w0, w2, w4, w5, w6, w7, w8]) :
    Msm.extract4567 buf x hd o =
      if Msm.bitCount hd.sat_mask = 0 ∨ Msm.bitCount hd.sgn_mask = 0 ∨ Msm.bitCount hd.cell_mask = 0 then .error .bareData
      else if est ≠ buf.length then .error .bareData
      else part47 buf (Msm.bitCount hd.sat_mask) (Msm.bitCount hd.cell_mask) b w0 wE w2 wP w4 w5 w6 w7 w8 wR o >>= final47 buf x hd := by
  unfold Msm.extract4567
  dsimp only
  rw [hp]
  dsimp only
  rw [hb]
  congr 1
  congr 1
  subst hw
  cases b with
  | true => simp only [part47, final47, reduceIte, bind_assoc, pure_bind, Msm.nextW, except_ok_bind]
  | false => simp only [part47, final47, reduceIte, bind_assoc, pure_bind, Msm.nextW, except_ok_bind, Bool.false_eq_true]

end Refine
end PyCore
end Verif
