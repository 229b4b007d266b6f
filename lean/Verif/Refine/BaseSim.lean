import Verif.Refine.BaseItems

/-!
# Simulation of the methods of `BaseStationDataDecoder` by their models
-/

namespace Verif
namespace PyCore
namespace Refine

open Rounding (rnd)
variable [Rounding]

/-- The result of a method that makes an object: nothing of the old heap is changed, and on success the result is a new object that satisfies `Φ`. -/
def Builds {α : Type} (Φ : α → Heap → Nat → Prop) (h : Heap) (r : Except Exc Val × Heap) : Py α → Prop
  | .ok v => ∃ b t, r = (.ok (.ref b), h ++ t) ∧ h.length ≤ b ∧ Φ v (h ++ t) b
  | .error e => ∃ t, r = (.error (.py (errName e)), h ++ t)

/-- The same for the end of the body of a method. -/
def Post {α : Type} (Φ : α → Heap → Nat → Prop) (h : Heap) (r : Except Exc Flow × St) (m : Py α) : Prop := Builds Φ h (endCall r) m

theorem Post.error {α : Type} {Φ : α → Heap → Nat → Prop} {h : Heap} {e : PyErr} {l : List (Ident × Val)} (t : Heap) :
    Post Φ h (.error (.py (errName e)), ⟨l, h ++ t⟩) (.error e) := ⟨t, rfl⟩

/-- What is read, and the rest of the model. -/
def BSim {α : Type} (Ψ : Nat × List (Ident × Val) → Py α → Prop) (p : Py (Nat × List (Ident × Val))) (m : Py α) : Prop :=
  match p with
  | .ok q => Ψ q m
  | .error e => m = .error e

section
variable {α : Type} {Ψ : Nat × List (Ident × Val) → Py α → Prop} {buf : Bytes}

theorem BSim.done {o : Nat} {fs : List (Ident × Val)} {m : Py α} (h : Ψ (o, fs) m) : BSim Ψ (readBItems buf [] o fs) m := h

theorem BSim.u (o o' : Nat) (k : Nat → Py α) (x : Ident) (w : Nat) (adds : List Nat) (is : List BItem) (fs : List (Ident × Val))
    (ho : adds.foldl (· + ·) o = o') (h : ∀ v : Nat, BSim Ψ (readBItems buf is o' (M.bindKey fs x (.int v))) (k v)) :
    BSim Ψ (readBItems buf (.fld ⟨x, .u, w, adds⟩ :: is) o fs) (Bits.gbu buf o w >>= k) := by
  subst ho
  simp only [readBItems, Kind.read]
  cases hv : Bits.gbu buf o w with
  | error e => exact rfl
  | ok v => exact h v

theorem BSim.uv (o o' : Nat) (k : Nat → Py α) (x : Ident) (w : Nat) (adds : List Nat) (is : List BItem) (fs : List (Ident × Val))
    (ho : adds.foldl (· + ·) o = o') (h : ∀ v : Nat, Bits.gbu buf o w = .ok v → BSim Ψ (readBItems buf is o' (M.bindKey fs x (.int v))) (k v)) :
    BSim Ψ (readBItems buf (.fld ⟨x, .u, w, adds⟩ :: is) o fs) (Bits.gbu buf o w >>= k) := by
  subst ho
  simp only [readBItems, Kind.read]
  cases hv : Bits.gbu buf o w with
  | error e => exact rfl
  | ok v => exact h v hv

theorem BSim.s (o o' : Nat) (k : Int → Py α) (x : Ident) (w : Nat) (adds : List Nat) (is : List BItem) (fs : List (Ident × Val))
    (ho : adds.foldl (· + ·) o = o') (h : ∀ v : Int, BSim Ψ (readBItems buf is o' (M.bindKey fs x (.int v))) (k v)) :
    BSim Ψ (readBItems buf (.fld ⟨x, .s, w, adds⟩ :: is) o fs) (Bits.gbs buf o w >>= k) := by
  subst ho
  simp only [readBItems, Kind.read]
  cases hv : Bits.gbs buf o w with
  | error e => exact rfl
  | ok v => exact h v

theorem readHex_ge (buf : Bytes) : ∀ (n o : Nat) (x : String) (r : String × Nat), Base.readHex buf n o x = .ok r → o ≤ r.2
  | 0, o, x, r, h => by cases h; exact Nat.le_refl _
  | n + 1, o, x, r, h => by
    simp only [Base.readHex] at h
    cases hv : Bits.gbu buf o 8 with
    | error e => rw [hv] at h; cases h
    | ok v =>
      rw [hv] at h
      exact Nat.le_trans (Nat.le_add_right _ _) (readHex_ge buf n _ _ r h)

theorem BSim.text (o : Nat) (k : Nat → String × Nat → Py α) (sv lf f : Ident) (is : List BItem) (fs : List (Ident × Val))
    (h : ∀ (v : Nat) (x : String) (o' : Nat), o ≤ o' →
      BSim Ψ (readBItems buf is o' (M.bindKey (M.bindKey fs lf (.int v)) f (.str (PyStr.strip x)))) (k v (x, o'))) :
    BSim Ψ (readBItems buf (.text sv lf f :: is) o fs) (Bits.gbu buf o 8 >>= fun v => Base.readHex buf v (o + 8) "" >>= k v) := by
  simp only [readBItems]
  cases hv : Bits.gbu buf o 8 with
  | error e => exact rfl
  | ok v =>
    show BSim Ψ (Base.readHex buf v (o + 8) "" >>= _) (Base.readHex buf v (o + 8) "" >>= _)
    cases hw : Base.readHex buf v (o + 8) "" with
    | error e => exact rfl
    | ok r =>
      exact h v r.1 r.2 (Nat.le_trans (Nat.le_add_right _ _) (readHex_ge buf v _ _ _ hw))

end

theorem items_sim {α : Type} {Φ : α → Heap → Nat → Prop} (n k : Nat) {h : Heap} {a : Nat} {v : Val}
    (ha : h[a]? = some (.inst n!"BaseStationDataDecoder" [(n!"msgList", v)])) {buf : Bytes} {c : Ident} {t : Heap} (rest : List Stmt)
    (is : List BItem) {o : Nat} {fs l : List (Ident × Val)} {m : Py α} (hk : ∀ i ∈ is, i.Ok) (hl : BLoc l a buf h.length o)
    (hs : BSim (fun q m => ∀ l', Keeps l l' → BLoc l' a buf h.length q.1 →
      Post Φ h (execBlock src k (callFn src (n + 2)) rest ⟨l', h ++ .inst c q.2 :: t⟩) m) (readBItems buf is o fs) m) :
    Post Φ h (execBlock src k (callFn src (n + 2)) (is.flatMap BItem.stmts ++ rest) ⟨l, h ++ .inst c fs :: t⟩) m := by
  have h1 := bitems_src n k ha buf c t rest is o fs l hk hl
  cases hr : readBItems buf is o fs with
  | error e =>
    rw [hr] at h1 hs
    obtain ⟨l', fs', h1⟩ := h1
    have hs : m = .error e := hs
    rw [h1, hs]
    exact Post.error _
  | ok q =>
    rw [hr] at h1 hs
    obtain ⟨l', h1, h2, h3⟩ := h1
    rw [h1]
    exact hs l' h2 h3

theorem baseLengthCheck_src (n : Nat) (x y z : Nat) (h : Heap) :
    callFn src (n + 1) n!"BaseStationDataDecoder.__length_check" [.int x, .int y, .int z] h =
      ofModel (fun _ => .none) h (Base.lengthCheck x y z) := by
  pycall Look.fn_BaseStationDataDecoder_P_length_check Src.fn_BaseStationDataDecoder_P_length_check
  unfold Base.lengthCheck
  by_cases h1 : y = x
  · have e1 : ((y : Int) == (x : Int)) = true := by rw [beq_iff_eq]; omega
    have e2 : (6 : Int) + ((y : Int) + (7 : Int)) / (2 : Int) ^ 3 = ((6 + ((y + 7) >>> 3) : Nat) : Int) := by
      rw [Nat.shiftRight_eq_div_pow]; push_cast; rfl
    rw [if_neg (by omega)]
    dsimp only
    by_cases h2 : 6 + ((y + 7) >>> 3) = z
    · have e3 : (((6 + ((y + 7) >>> 3) : Nat) : Int) == (z : Int)) = true := by rw [beq_iff_eq]; omega
      rw [if_neg (by omega)]
      pyexec [e1, e2, e3, Bool.not_true]
    · have e3 : (((6 + ((y + 7) >>> 3) : Nat) : Int) == (z : Int)) = false := by rw [beq_eq_false_iff_ne]; omega
      rw [if_pos h2]
      pyexec [e1, e2, e3, Bool.not_true, Bool.not_false]
      rfl
  · have e1 : ((y : Int) == (x : Int)) = false := by rw [beq_eq_false_iff_ne]; omega
    rw [if_pos h1]
    pyexec [e1, Bool.not_false]
    rfl

/-- The check of the length when the expected length is an integer. -/
def lengthCheckI (x : Int) (y z : Nat) : Py Unit := if x ≠ y then .error .baseDecoder else Base.lengthCheck y y z

theorem lengthCheckI_nat (x y z : Nat) : lengthCheckI x y z = Base.lengthCheck x y z := by
  unfold lengthCheckI
  by_cases h : x = y
  · subst h
    rw [if_neg (by simp)]
  · rw [if_pos (by exact_mod_cast h)]
    unfold Base.lengthCheck
    rw [if_pos (fun e => h e.symm)]

theorem baseLengthCheckI_src (n : Nat) (x : Int) (y z : Nat) (h : Heap) :
    callFn src (n + 1) n!"BaseStationDataDecoder.__length_check" [.int x, .int y, .int z] h =
      ofModel (fun _ => .none) h (lengthCheckI x y z) := by
  unfold lengthCheckI
  by_cases h1 : x = y
  · subst h1
    rw [if_neg (by simp)]
    exact baseLengthCheck_src n y y z h
  · rw [if_pos h1]
    pycall Look.fn_BaseStationDataDecoder_P_length_check Src.fn_BaseStationDataDecoder_P_length_check
    have e1 : ((y : Int) == x) = false := by rw [beq_eq_false_iff_ne]; exact fun e => h1 e.symm
    pyexec [e1, Bool.not_false]
    rfl

/-- The end of a method that reads a message. -/
def baseEnd (E : Expr) : List Stmt :=
  [.expr (.call (.attr (.name n!"self") n!"_BaseStationDataDecoder__length_check")
      [E, .bin .sub (.name n!"offset") (.const (.int 24)), .call (.name n!"len") [.name n!"buf"]]),
    .ret (.name n!"bs")]

theorem baseEndI_src {α : Type} {Φ : α → Heap → Nat → Prop} (n k : Nat) {h : Heap} {a : Nat} {v : Val}
    (ha : h[a]? = some (.inst n!"BaseStationDataDecoder" [(n!"msgList", v)])) {buf : Bytes} {t : Heap} (E : Expr) (R : List Stmt) (x : Int)
    {o : Nat} {l : List (Ident × Val)} (hl : BLoc l a buf h.length o) (ho : 24 ≤ o)
    (hE : eval src (callFn src (n + 2)) E ⟨l, h ++ t⟩ = (.ok (.int x), ⟨l, h ++ t⟩)) (r : α) (hr : Φ r (h ++ t) h.length) :
    Post Φ h (execBlock src k (callFn src (n + 2)) (baseEnd E ++ R) ⟨l, h ++ t⟩)
      (lengthCheckI x (o - 24) buf.length >>= fun _ => pure r) := by
  have e1 : (o : Int) - (24 : Int) = ((o - 24 : Nat) : Int) := by omega
  have hc := baseLengthCheckI_src (n + 1) x (o - 24) buf.length (h ++ t)
  have g1 : l.lookup n!"len" = none := hl.glob _ (by decide)
  unfold baseEnd
  rw [List.cons_append, List.cons_append]
  cases hv : lengthCheckI x (o - 24) buf.length with
  | error e =>
    rw [hv] at hc
    refine ⟨t, ?_⟩
    pyexec [hl.self, heap_old ha, instAttr_none _ _ _ _ _ _ (show n!"_BaseStationDataDecoder__length_check" ≠ n!"__class__" by decide),
      Look.mem_BaseStationDataDecoder_BaseStationDataDecoder_P_length_check, hE, hl.off, e1, g1, hl.buf, hc]
  | ok u =>
    rw [hv] at hc
    refine ⟨h.length, t, ?_, Nat.le_refl _, hr⟩
    pyexec [hl.self, heap_old ha, instAttr_none _ _ _ _ _ _ (show n!"_BaseStationDataDecoder__length_check" ≠ n!"__class__" by decide),
      Look.mem_BaseStationDataDecoder_BaseStationDataDecoder_P_length_check, hE, hl.off, e1, g1, hl.buf, hc, hl.bs]

theorem baseEnd_src {α : Type} {Φ : α → Heap → Nat → Prop} (n k : Nat) {h : Heap} {a : Nat} {v : Val}
    (ha : h[a]? = some (.inst n!"BaseStationDataDecoder" [(n!"msgList", v)])) {buf : Bytes} {t : Heap} (E : Expr) (R : List Stmt) (x : Nat)
    {o : Nat} {l : List (Ident × Val)} (hl : BLoc l a buf h.length o) (ho : 24 ≤ o)
    (hE : eval src (callFn src (n + 2)) E ⟨l, h ++ t⟩ = (.ok (.int x), ⟨l, h ++ t⟩)) (r : α) (hr : Φ r (h ++ t) h.length) :
    Post Φ h (execBlock src k (callFn src (n + 2)) (baseEnd E ++ R) ⟨l, h ++ t⟩)
      (Base.lengthCheck x (o - 24) buf.length >>= fun _ => pure r) := by
  have := baseEndI_src n k ha E R x hl ho hE r hr
  rwa [lengthCheckI_nat] at this

end Refine
end PyCore
end Verif
