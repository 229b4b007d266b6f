import Verif.Refine.EphDecode
import Verif.Refine.MsmHeap
import Verif.PyCore.RulesDict
import Verif.Model.BaseDouble

/-!
# Sequences of statements of `BaseStationDataDecoder` that read fields and texts
-/

namespace Verif
namespace PyCore
namespace Refine

open Rounding (rnd)
variable [Rounding]

@[pyrun] theorem builtin_hex (P : Prog) (s : St) (v : Nat) : builtinFn P n!"hex" [.int v] s = (.ok (.str (PyStr.hex v)), s) := rfl
@[pyrun] theorem meth_strip (P : Prog) (s : St) (x : String) : builtinMeth P (.str x) n!"strip" [] s = (.ok (.str (PyStr.strip x)), s) := rfl

theorem bindKey_bindKey (l : List (Ident × Val)) (x : Ident) (u v : Val) : M.bindKey (M.bindKey l x u) x v = M.bindKey l x v := by
  induction l with
  | nil => simp [M.bindKey_nil, M.bindKey_cons]
  | cons p l ih =>
    obtain ⟨y, w⟩ := p
    rw [M.bindKey_cons, M.bindKey_cons]
    by_cases h : (y == x) = true
    · rw [if_pos h, if_pos h, M.bindKey_cons, if_pos h]
    · rw [if_neg h, if_neg h, M.bindKey_cons, if_neg h, ih]

theorem bindKey_same (l : List (Ident × Val)) (x : Ident) (v : Val) (h : l.lookup x = some v) : M.bindKey l x v = l := by
  induction l with
  | nil => cases h
  | cons p l ih =>
    obtain ⟨y, w⟩ := p
    rw [M.bindKey_cons]
    rw [List.lookup_cons] at h
    by_cases hy : y = x
    · subst hy
      rw [beq_self_eq_true] at h ⊢
      rw [if_pos rfl]
      cases h
      rfl
    · have h1 : (x == y) = false := by simpa using fun e => hy e.symm
      have h2 : ¬ (y == x) = true := by simpa using hy
      rw [h1] at h
      rw [if_neg h2, ih h]

theorem lookup_bind_ne {l : List (Ident × Val)} {x y : Ident} {v : Val} (h : (y == x) = false) : (M.bindKey l x v).lookup y = l.lookup y := by
  rw [lookup_bindKey, h]; rfl
theorem lookup_bind_eq {l : List (Ident × Val)} {x : Ident} {v : Val} : (M.bindKey l x v).lookup x = some v := by
  rw [lookup_bindKey, beq_self_eq_true]; rfl

theorem baseClass : BitsClass n!"BaseStationDataDecoder" := ⟨rfl, rfl, rfl, rfl, rfl⟩

/-- A decoder object as its constructor makes it, sub_decoders/RTCM_BASE.py:40-42. -/
def BaseSelf (h : Heap) (a : Nat) : Prop := ∃ l, h[a]? = some (.inst n!"BaseStationDataDecoder" [(n!"msgList", l)])

theorem baseSelfObj (l : Val) : SelfObj n!"BaseStationDataDecoder" [(n!"msgList", l)] := ⟨baseClass, rfl, rfl⟩

/-- Part of a message: a field, or a text with its length. -/
inductive BItem where
  | fld (s : Step)
  | text (sv lf f : Ident)

/-- One round of a loop that reads a text. -/
def hexBody (sv : Ident) : List Stmt :=
  [.aug (.name sv) .add (.bin .add (.call (.name n!"hex") [.call (.attr (.name n!"self") n!"getbitu") [.name n!"buf", .name n!"offset", .const (.int 8)]]) (.const (.str " "))),
   .aug (.name n!"offset") .add (.const (.int 8))]

/-- The statements. -/
def BItem.stmts : BItem → List Stmt
  | .fld s => [s.stmt n!"bs"]
  | .text sv lf f =>
    [(⟨lf, .u, 8, [8]⟩ : Step).stmt n!"bs",
     .assign (.name sv) (.const (.str "")),
     .for (.name n!"_") (.call (.name n!"range") [.attr (.name n!"bs") lf]) (hexBody sv) [],
     .assign (.attr (.name n!"bs") f) (.call (.attr (.name sv) n!"strip") [])]

/-- What is read. -/
def readBItems (buf : Bytes) : List BItem → Nat → List (Ident × Val) → Py (Nat × List (Ident × Val))
  | [], o, fs => pure (o, fs)
  | .fld s :: is, o, fs => do
    let v ← s.kind.read buf o s.width
    readBItems buf is (s.adds.foldl (· + ·) o) (M.bindKey fs s.field (.int v))
  | .text _ lf f :: is, o, fs => do
    let v ← Bits.gbu buf o 8
    let r ← Base.readHex buf v (o + 8) ""
    readBItems buf is r.2 (M.bindKey (M.bindKey fs lf (.int v)) f (.str (PyStr.strip r.1)))

/-- The global names that the methods use. -/
def baseGlobs : List Ident := [n!"hex", n!"range", n!"len", n!"isinstance", n!"BaseRPH", n!"BaseADSN", n!"BaseADSNRC", n!"math", n!"logger"]

/-- The local variables of a method that reads a message. -/
structure BLoc (l : List (Ident × Val)) (a : Nat) (buf : Bytes) (r o : Nat) : Prop where
  self : l.lookup n!"self" = some (.ref a)
  buf : l.lookup n!"buf" = some (.bytes buf)
  bs : l.lookup n!"bs" = some (.ref r)
  off : l.lookup n!"offset" = some (.int o)
  glob : ∀ x ∈ baseGlobs, l.lookup x = none

/-- The variables that reading changes. -/
def readVars : List Ident := [n!"offset", n!"_", n!"symb", n!"msg", n!"ID", n!"isPeriodic", n!"period"]

/-- The other variables are as before. -/
def Keeps (l l' : List (Ident × Val)) : Prop := ∀ x, x ∉ readVars → l'.lookup x = l.lookup x

theorem Keeps.refl (l : List (Ident × Val)) : Keeps l l := fun _ _ => rfl
theorem Keeps.trans {l l' l'' : List (Ident × Val)} (h : Keeps l l') (h' : Keeps l' l'') : Keeps l l'' :=
  fun x hx => (h' x hx).trans (h x hx)
theorem Keeps.bind {l l' : List (Ident × Val)} (h : Keeps l l') {y : Ident} (hy : y ∈ readVars) (v : Val) : Keeps l (M.bindKey l' y v) := by
  intro x hx
  rw [lookup_bind_ne]
  · exact h x hx
  · have : x ≠ y := fun e => hx (e ▸ hy)
    simpa using this

theorem Keeps.loc {l l' : List (Ident × Val)} (h : Keeps l l') {a : Nat} {buf : Bytes} {r o o' : Nat} (hl : BLoc l a buf r o)
    (ho : l'.lookup n!"offset" = some (.int o')) : BLoc l' a buf r o' :=
  ⟨(h _ (by decide)).trans hl.self, (h _ (by decide)).trans hl.buf, (h _ (by decide)).trans hl.bs, ho,
    fun x hx => (h x (by revert x; decide)).trans (hl.glob x hx)⟩

theorem BLoc.setOff {l : List (Ident × Val)} {a : Nat} {buf : Bytes} {r o : Nat} (hl : BLoc l a buf r o) (o' : Nat) :
    BLoc (M.bindKey l n!"offset" (.int o')) a buf r o' :=
  ((Keeps.refl l).bind (by decide) _).loc hl lookup_bind_eq

theorem hex_loop (n m : Nat) {C : Ident} {sfs : List (Ident × Val)} (hs : SelfObj C sfs) (a r : Nat) (h : Heap) (ha : h[a]? = some (.inst C sfs))
    (buf : Bytes) (sv : Ident) (hsv : sv = n!"symb" ∨ sv = n!"msg") : ∀ (vs : List Val) (o : Nat) (x : String) (l : List (Ident × Val)),
    BLoc l a buf r o → l.lookup sv = some (.str x) →
    match Base.readHex buf vs.length o x with
    | .ok q => ∃ l', forLoop (assign src (callFn src (n + 2)) (.name n!"_")) (execBlock src m (callFn src (n + 2)) (hexBody sv))
          (execBlock src m (callFn src (n + 2)) []) vs ⟨l, h⟩ = (.ok .next, ⟨l', h⟩) ∧ Keeps l l' ∧
          l'.lookup n!"offset" = some (.int q.2) ∧ l'.lookup sv = some (.str q.1)
    | .error e => ∃ l', forLoop (assign src (callFn src (n + 2)) (.name n!"_")) (execBlock src m (callFn src (n + 2)) (hexBody sv))
          (execBlock src m (callFn src (n + 2)) []) vs ⟨l, h⟩ = (.error (.py (errName e)), ⟨l', h⟩)
  | [], o, x, l, hl, h4 => ⟨l, by pyexec, .refl l, hl.off, h4⟩
  | v :: vs, o, x, l, hl, h4 => by
    have n1 : (sv == n!"_") = false := by rcases hsv with rfl | rfl <;> rfl
    have n2 : (n!"offset" == sv) = false := by rcases hsv with rfl | rfl <;> rfl
    have n4 : (sv == n!"offset") = false := by rcases hsv with rfl | rfl <;> rfl
    have n3 : sv ∈ readVars := by rcases hsv with rfl | rfl <;> decide
    have k0 : Keeps l (M.bindKey l n!"_" v) := (Keeps.refl l).bind (by decide) _
    have hl0 : BLoc (M.bindKey l n!"_" v) a buf r o := k0.loc hl (by rw [lookup_bind_ne rfl, hl.off])
    have g4 : (M.bindKey l n!"_" v).lookup sv = some (.str x) := by rw [lookup_bind_ne n1, h4]
    have g6 : (M.bindKey l n!"_" v).lookup n!"hex" = none := hl0.glob _ (by decide)
    have hr := read_call n C sfs .u hs (by intro hk; cases hk) a (M.bindKey l n!"_" v) h ha hl0.self buf o 8 (.name n!"buf") (.name n!"offset")
      (by pyexec [hl0.buf]) (by pyexec [hl0.off])
    have e8 : (Const.int ((8 : Nat) : Int)) = Const.int 8 := rfl
    simp only [Kind.name, Kind.read, e8] at hr
    rw [forLoop_cons]
    simp only [List.length_cons, Base.readHex]
    unfold hexBody at *
    cases hv : Bits.gbu buf o 8 with
    | error e =>
      rw [hv] at hr
      refine ⟨M.bindKey l n!"_" v, ?_⟩
      change eval src _ _ _ = (Except.error (Exc.py (errName e)), _) at hr
      pyexec [g4, hr, g6]
    | ok b =>
      rw [hv] at hr
      change eval src _ _ _ = (Except.ok (Val.int (b : Int)), _) at hr
      have k1 : Keeps l (M.bindKey (M.bindKey l n!"_" v) sv (.str (x ++ (PyStr.hex b ++ " ")))) := k0.bind n3 _
      have hl1 : BLoc (M.bindKey (M.bindKey l n!"_" v) sv (.str (x ++ (PyStr.hex b ++ " ")))) a buf r o :=
        k1.loc hl (by rw [lookup_bind_ne n2, hl0.off])
      have e9 : (o : Int) + (8 : Int) = ((o + 8 : Nat) : Int) := by omega
      have k2 := k1.bind (show n!"offset" ∈ readVars by decide) (.int (o + 8 : Nat))
      have ih := hex_loop n m hs a r h ha buf sv hsv vs (o + 8) (x ++ (PyStr.hex b ++ " "))
        (M.bindKey (M.bindKey (M.bindKey l n!"_" v) sv (.str (x ++ (PyStr.hex b ++ " ")))) n!"offset" (.int (o + 8 : Nat)))
        (hl1.setOff _) (by rw [lookup_bind_ne n4, lookup_bind_eq])
      change (match Base.readHex buf vs.length (o + 8) (x ++ (PyStr.hex b ++ " ")) with | .ok r => _ | .error e => _)
      unfold hexBody at ih
      cases hw : Base.readHex buf vs.length (o + 8) (x ++ (PyStr.hex b ++ " ")) with
      | error e =>
        rw [hw] at ih
        obtain ⟨l', ih⟩ := ih
        refine ⟨l', ?_⟩
        rw [← ih]
        pyexec [g4, hr, g6, hl1.off, e9]
      | ok q =>
        rw [hw] at ih
        obtain ⟨l', ih, j1, j2, j3⟩ := ih
        refine ⟨l', ?_, k2.trans j1, j2, j3⟩
        rw [← ih]
        pyexec [g4, hr, g6, hl1.off, e9]

theorem baseFrame {h : Heap} {a : Nat} {v : Val} (ha : h[a]? = some (.inst n!"BaseStationDataDecoder" [(n!"msgList", v)])) {buf : Bytes} {o : Nat}
    (c : Ident) (t : Heap) {l : List (Ident × Val)} (hl : BLoc l a buf h.length o) :
    Frame n!"BaseStationDataDecoder" [(n!"msgList", v)] buf n!"bs" c (fun o => M.bindKey l n!"offset" (.int o)) (fun fs => h ++ .inst c fs :: t) where
  selfObj := baseSelfObj v
  self := ⟨a, fun o => (hl.setOff o).self, fun _ => heap_old ha _⟩
  buf o := (hl.setOff o).buf
  off o := (hl.setOff o).off
  setOff _ _ := bindKey_bindKey ..
  obj := ⟨h.length, fun o => (hl.setOff o).bs, fun _ => append_getElem0 _ _, fun _ _ => append_set0 _ _ _⟩

/-- One field. -/
theorem fld_src (n m : Nat) {h : Heap} {a : Nat} {v : Val} (ha : h[a]? = some (.inst n!"BaseStationDataDecoder" [(n!"msgList", v)])) {buf : Bytes}
    {o : Nat} (c : Ident) (t : Heap) {l : List (Ident × Val)} (hl : BLoc l a buf h.length o) (s : Step) (hk : s.kind ≠ .S) (fs : List (Ident × Val)) :
    exec src m (callFn src (n + 2)) (s.stmt n!"bs") ⟨l, h ++ .inst c fs :: t⟩ =
      match s.kind.read buf o s.width with
      | .ok v => (.ok .next, ⟨M.bindKey l n!"offset" (.int (s.adds.foldl (· + ·) o : Nat)), h ++ .inst c (M.bindKey fs s.field (.int v)) :: t⟩)
      | .error e => (.error (.py (errName e)), ⟨l, h ++ .inst c fs :: t⟩) := by
  have h1 := step_src n m (baseFrame ha c t hl) s (fun e => absurd e hk) o fs
  rw [bindKey_same _ _ _ hl.off] at h1
  exact h1

/-- Names of variables for texts, and no field read by `getbitS`. -/
def BItem.Ok : BItem → Prop
  | .fld s => s.kind ≠ .S
  | .text sv _ _ => sv = n!"symb" ∨ sv = n!"msg"

theorem bitems_src (n m : Nat) {h : Heap} {a : Nat} {v : Val} (ha : h[a]? = some (.inst n!"BaseStationDataDecoder" [(n!"msgList", v)])) (buf : Bytes)
    (c : Ident) (t : Heap) (rest : List Stmt) : ∀ (is : List BItem) (o : Nat) (fs l : List (Ident × Val)), (∀ i ∈ is, i.Ok) → BLoc l a buf h.length o →
    match readBItems buf is o fs with
    | .ok q => ∃ l', execBlock src m (callFn src (n + 2)) (is.flatMap BItem.stmts ++ rest) ⟨l, h ++ .inst c fs :: t⟩ =
        execBlock src m (callFn src (n + 2)) rest ⟨l', h ++ .inst c q.2 :: t⟩ ∧ Keeps l l' ∧ BLoc l' a buf h.length q.1
    | .error e => ∃ l' fs', execBlock src m (callFn src (n + 2)) (is.flatMap BItem.stmts ++ rest) ⟨l, h ++ .inst c fs :: t⟩ =
        (.error (.py (errName e)), ⟨l', h ++ .inst c fs' :: t⟩)
  | [], o, fs, l, _, hl => ⟨l, rfl, .refl l, hl⟩
  | .fld s :: is, o, fs, l, hk, hl => by
    have h1 := fld_src n m ha c t hl s (hk _ (List.mem_cons_self ..)) fs
    simp only [List.flatMap_cons, BItem.stmts, List.cons_append, List.nil_append, readBItems]
    cases hv : s.kind.read buf o s.width with
    | error e =>
      rw [hv] at h1
      exact ⟨l, fs, by pyexec [h1]⟩
    | ok x =>
      rw [hv] at h1
      have ih := bitems_src n m ha buf c t rest is (s.adds.foldl (· + ·) o) (M.bindKey fs s.field (.int x)) _
        (fun i hi => hk i (List.mem_cons_of_mem _ hi)) (hl.setOff (s.adds.foldl (· + ·) o))
      have e : execBlock src m (callFn src (n + 2)) (s.stmt n!"bs" :: (is.flatMap BItem.stmts ++ rest)) ⟨l, h ++ .inst c fs :: t⟩ =
          execBlock src m (callFn src (n + 2)) (is.flatMap BItem.stmts ++ rest)
            ⟨M.bindKey l n!"offset" (.int (s.adds.foldl (· + ·) o : Nat)), h ++ .inst c (M.bindKey fs s.field (.int x)) :: t⟩ := by
        pyexec [h1]
      rw [e]
      change (match readBItems buf is (s.adds.foldl (· + ·) o) (M.bindKey fs s.field (.int x)) with | .ok q => _ | .error e => _)
      cases hw : readBItems buf is (s.adds.foldl (· + ·) o) (M.bindKey fs s.field (.int x)) with
      | error e =>
        rw [hw] at ih
        exact ih
      | ok q =>
        rw [hw] at ih
        obtain ⟨l', j1, j2, j3⟩ := ih
        exact ⟨l', j1, ((Keeps.refl l).bind (by decide) _).trans j2, j3⟩
  | .text sv lf f :: is, o, fs, l, hk, hl => by
    have hsv : sv = n!"symb" ∨ sv = n!"msg" := hk _ (List.mem_cons_self ..)
    have n2 : (n!"offset" == sv) = false := by rcases hsv with rfl | rfl <;> rfl
    have n3 : sv ∈ readVars := by rcases hsv with rfl | rfl <;> decide
    have h1 := fld_src n m ha c t hl ⟨lf, .u, 8, [8]⟩ (fun e => nomatch e) fs
    simp only [List.flatMap_cons, BItem.stmts, List.cons_append, List.nil_append, readBItems]
    dsimp only [Kind.read] at h1
    cases hv : Bits.gbu buf o 8 with
    | error e =>
      rw [hv] at h1
      change exec src m _ _ _ = (Except.error (Exc.py (errName e)), _) at h1
      exact ⟨l, fs, by pyexec [h1]⟩
    | ok x =>
      rw [hv] at h1
      change exec src m _ _ _ = (Except.ok Flow.next, ⟨M.bindKey l n!"offset" (.int (o + 8 : Nat)), h ++ .inst c (M.bindKey fs lf (.int (x : Nat))) :: t⟩) at h1
      have hl1 := hl.setOff (o + 8)
      have k1 : Keeps l (M.bindKey (M.bindKey l n!"offset" (.int (o + 8 : Nat))) sv (.str "")) := ((Keeps.refl l).bind (by decide) _).bind n3 _
      have hl2 : BLoc (M.bindKey (M.bindKey l n!"offset" (.int (o + 8 : Nat))) sv (.str "")) a buf h.length (o + 8) :=
        k1.loc hl (by rw [lookup_bind_ne n2, hl1.off])
      have hf : (M.bindKey fs lf (.int (x : Nat))).lookup lf = some (.int (x : Nat)) := lookup_bind_eq
      have hlp := hex_loop n m (baseSelfObj v) a h.length (h ++ .inst c (M.bindKey fs lf (.int (x : Nat))) :: t) (heap_old ha _) buf sv hsv
        (rangeVals 0 (x : Nat)) (o + 8) "" _ hl2 lookup_bind_eq
      have el : (rangeVals 0 (x : Nat)).length = x := by simp [rangeVals]
      rw [el] at hlp
      have g1 : (M.bindKey (M.bindKey l n!"offset" (.int (o + 8 : Nat))) sv (.str "")).lookup n!"range" = none := hl2.glob _ (by decide)
      change (match (Base.readHex buf x (o + 8) "" >>= fun r => readBItems buf is r.2 (M.bindKey (M.bindKey fs lf (.int (x : Nat))) f (.str (PyStr.strip r.1)))) with
        | .ok q => _ | .error e => _)
      cases hw : Base.readHex buf x (o + 8) "" with
      | error e =>
        rw [hw] at hlp
        obtain ⟨l', hlp⟩ := hlp
        exact ⟨l', M.bindKey fs lf (.int (x : Nat)), by pyexec [h1, g1, hl2.bs, append_getElem0, List.getElem?_cons_zero, hf, hlp]⟩
      | ok q =>
        rw [hw] at hlp
        obtain ⟨l', hlp, j1, j2, j3⟩ := hlp
        have hl3 : BLoc l' a buf h.length q.2 := (k1.trans j1).loc hl j2
        have ih := bitems_src n m ha buf c t rest is q.2 (M.bindKey (M.bindKey fs lf (.int (x : Nat))) f (.str (PyStr.strip q.1))) l'
          (fun i hi => hk i (List.mem_cons_of_mem _ hi)) hl3
        have e : execBlock src m (callFn src (n + 2)) ((⟨lf, .u, 8, [8]⟩ : Step).stmt n!"bs" ::
              .assign (.name sv) (.const (.str "")) ::
              .for (.name n!"_") (.call (.name n!"range") [.attr (.name n!"bs") lf]) (hexBody sv) [] ::
              .assign (.attr (.name n!"bs") f) (.call (.attr (.name sv) n!"strip") []) :: (is.flatMap BItem.stmts ++ rest)) ⟨l, h ++ .inst c fs :: t⟩ =
            execBlock src m (callFn src (n + 2)) (is.flatMap BItem.stmts ++ rest)
              ⟨l', h ++ .inst c (M.bindKey (M.bindKey fs lf (.int (x : Nat))) f (.str (PyStr.strip q.1))) :: t⟩ := by
          pyexec [h1, g1, hl2.bs, append_getElem0, List.getElem?_cons_zero, hf, hlp, j3, hl3.bs, append_set0, List.set_cons_zero]
        rw [e]
        change (match readBItems buf is q.2 (M.bindKey (M.bindKey fs lf (.int (x : Nat))) f (.str (PyStr.strip q.1))) with | .ok q => _ | .error e => _)
        cases hz : readBItems buf is q.2 (M.bindKey (M.bindKey fs lf (.int (x : Nat))) f (.str (PyStr.strip q.1))) with
        | error e =>
          rw [hz] at ih
          exact ih
        | ok z =>
          rw [hz] at ih
          obtain ⟨l'', i1, i2, i3⟩ := ih
          exact ⟨l'', i1, (k1.trans j1).trans i2, i3⟩

end Refine
end PyCore
end Verif
