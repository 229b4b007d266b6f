import Verif.Refine.Framer
import Verif.PyCore.RulesDict
import Verif.PyCore.RulesMore

/-!
# decoder_top.py, the decoding part: `DecoderTop.decode` finds the sub-decoder and counts
-/

namespace Verif
namespace PyCore
namespace Refine
open Framer

open Rounding (rnd)
variable [Rounding]

/-- A registered sub-decoder: the addresses of the interface object, of its specification and its set of messages, the contents of these, and the
method `decode` with its object. -/
structure IoEntry where
  addr : Nat
  specAddr : Nat
  setAddr : Nat
  spec : List (Nat × Ident)
  nums : List Nat
  subset : String
  fn : Ident
  sub : Nat

/-- The interface object is in the heap, as `SubDecoderInterface.__init__` (decoder_top.py:120-128) and the constructor of the sub-decoder leave it. -/
structure IoAt (h : Heap) (e : IoEntry) : Prop where
  io : h[e.addr]? = some (.inst n!"SubDecoderInterface" [(n!"decode", .bound e.fn (.ref e.sub)), (n!"io_spec", .ref e.specAddr),
    (n!"subset", .str e.subset), (n!"actual_messages", .ref e.setAddr)])
  spec : h[e.specAddr]? = some (.dict (e.spec.map (fun p => (Val.int p.1, Val.cls p.2))))
  nums : h[e.setAddr]? = some (.set (e.nums.map (fun n : Nat => Val.int n)))

/-- A message number. -/
def numVal' (num : Option Nat) : Val := optVal (fun x : Nat => .int x) num

/-- Whether the sub-decoder is used for a message number. -/
def IoEntry.wants (e : IoEntry) (num : Option Nat) : Bool :=
  num.any (fun n => (e.spec.map (·.1)).contains n) && num.any (fun n => e.nums.contains n)

theorem memList_num (num : Option Nat) (L : List Nat) (s : St) :
    memList (numVal' num) (L.map (fun n : Nat => Val.int n)) s = (.ok (num.any (fun n => L.contains n)), s) := by
  induction L with
  | nil => cases num <;> rfl
  | cons x L ih =>
    cases num with
    | none => exact ih
    | some n =>
      rw [List.map_cons, memList]
      change (match (some (((x : Int) == (n : Int))) : Option Bool) with | some true => _ | some false => _ | none => _ : M Bool) s = _
      by_cases e : x = n
      · have e1 : ((x : Int) == (n : Int)) = true := by rw [beq_iff_eq]; omega
        subst e
        rw [e1]
        simp [M.pure]
      · have e1 : ((x : Int) == (n : Int)) = false := by rw [beq_eq_false_iff_ne]; omega
        rw [e1]
        dsimp only
        rw [ih]
        have : (n == x) = false := by rw [beq_eq_false_iff_ne]; exact fun h => e h.symm
        simp only [Option.any_some, List.contains_cons, this, Bool.false_or]

theorem dictGet_spec (S : List (Nat × Ident)) (n : Nat) :
    dictGet (S.map (fun p => (Val.int p.1, Val.cls p.2))) (.int n) = (S.lookup n).map .cls := by
  induction S with
  | nil => rfl
  | cons p S ih =>
    obtain ⟨k, c⟩ := p
    rw [List.map_cons, dictGet, List.lookup_cons]
    change (if ((some ((k : Int) == (n : Int)) : Option Bool).getD false) = true then _ else _) = _
    rw [Option.getD_some]
    by_cases e : n = k
    · subst e
      simp
    · have e1 : ((k : Int) == (n : Int)) = false := by rw [beq_eq_false_iff_ne]; omega
      have e2 : (n == k) = false := by rw [beq_eq_false_iff_ne]; exact e
      rw [e1, e2, if_neg (by decide), ih]

/-- The local variables in the loop. -/
def topLoc (a : Nat) (msg : Bytes) (num : Option Nat) (dv rv : Val) : List (Ident × Val) :=
  [(n!"self", .ref a), (n!"msg", .bytes msg), (n!"num", numVal' num), (n!"dec", dv), (n!"rv", rv)]

/-- decoder_top.py:205-214 -/
def topBody : List Stmt :=
  [.ite (.and (.cmp .mem (.name n!"num") (.call (.attr (.attr (.name n!"dec") n!"io_spec") n!"keys") [])) (.cmp .mem (.name n!"num") (.attr (.name n!"dec") n!"actual_messages"))) [
        .aug (.attr (.name n!"self") n!"_DecoderTop__dec_attempts") .add (.const (.int 1)),
        .assign (.name n!"rv") (.call (.attr (.name n!"dec") n!"decode") [.name n!"msg"]),
        .ite (.not (.call (.name n!"isinstance") [.name n!"rv", .index (.attr (.name n!"dec") n!"io_spec") (.name n!"num")])) [
          .raise (.call (.name n!"ExceptionDecoderDecode") [.fstr [.attr (.name n!"dec") n!"subset", .name n!"num"]])] [],
        .aug (.attr (.name n!"self") n!"_DecoderTop__dec_succeeded") .add (.const (.int 1)),
        .brk] []]

/-- The condition of the loop. -/
theorem wants_src (n : Nat) (call : CallT) {h : Heap} {e : IoEntry} (he : IoAt h e) (a : Nat) (msg : Bytes) (num : Option Nat) (rv : Val)
    (A B : List Stmt) :
    exec src n call (.ite (.and (.cmp .mem (.name n!"num") (.call (.attr (.attr (.name n!"dec") n!"io_spec") n!"keys") [])) (.cmp .mem (.name n!"num") (.attr (.name n!"dec") n!"actual_messages"))) A B)
      ⟨topLoc a msg num (.ref e.addr) rv, h⟩ =
    (if e.wants num then execBlock src n call A ⟨topLoc a msg num (.ref e.addr) rv, h⟩ else execBlock src n call B ⟨topLoc a msg num (.ref e.addr) rv, h⟩) := by
  have e1 : ∀ s, memList (numVal' num) (((e.spec.map (fun p => (Val.int p.1, Val.cls p.2))).map (·.1))) s =
      (.ok (num.any (fun n => (e.spec.map (·.1)).contains n)), s) := by
    intro s
    have : ((e.spec.map (fun p => (Val.int p.1, Val.cls p.2))).map (·.1)) = (e.spec.map (·.1)).map (fun n : Nat => Val.int n) := by
      simp [List.map_map, Function.comp_def]
    rw [this, memList_num]
  unfold IoEntry.wants
  cases hx : num.any (fun n => (e.spec.map (·.1)).contains n) <;> cases hy : num.any (fun n => e.nums.contains n) <;>
    (pyexec [topLoc, he.io, he.spec, he.nums, e1, hx, memList_num, hy]; rfl)

theorem get_set_top {h : Heap} {a : Nat} {d x y : Val} {p : Parser} (ha : h[a]? = some (topObj d x y p)) {b : Nat} {o : Obj} (hb : h[b]? = some o)
    (ho : ∀ d x y p, o ≠ topObj d x y p) (T : Obj) (t : Heap) : (h.set a T ++ t)[b]? = some o := by
  have hab : a ≠ b := by
    rintro rfl
    rw [ha] at hb
    cases hb
    exact ho _ _ _ _ rfl
  have hl := (List.getElem?_eq_some_iff.1 hb).1
  rw [List.getElem?_append_left (by rw [List.length_set]; exact hl), List.getElem?_set_ne hab, hb]

theorem IoAt.set_top {h : Heap} {e : IoEntry} (he : IoAt h e) {a : Nat} {d x y : Val} {p : Parser} (ha : h[a]? = some (topObj d x y p)) (T : Obj) (t : Heap) :
    IoAt (h.set a T ++ t) e :=
  ⟨get_set_top ha he.io (by intro d x y p; simp [topObj]) T t, get_set_top ha he.spec (by intro d x y p; simp [topObj]) T t,
    get_set_top ha he.nums (by intro d x y p; simp [topObj]) T t⟩

theorem set_top_self {h : Heap} {a : Nat} {o : Obj} (ha : h[a]? = some o) (T : Obj) (t : Heap) : (h.set a T ++ t)[a]? = some T := by
  have hl := (List.getElem?_eq_some_iff.1 ha).1
  rw [List.getElem?_append_left (by rw [List.length_set]; exact hl), List.getElem?_set_self hl]

/-- A sub-decoder that is not used for the message. -/
theorem top_skip (n : Nat) (call : CallT) {h : Heap} {e : IoEntry} (he : IoAt h e) (a : Nat) (msg : Bytes) (num : Option Nat) (dv : Val) (O : M Flow)
    (hw : e.wants num = false) (vs : List Val) :
    forLoop (assign src call (.name n!"dec")) (execBlock src n call topBody) O (.ref e.addr :: vs) ⟨topLoc a msg num dv .none, h⟩ =
      forLoop (assign src call (.name n!"dec")) (execBlock src n call topBody) O vs ⟨topLoc a msg num (.ref e.addr) .none, h⟩ := by
  rw [forLoop_cons, assign_name]
  have h1 : M.setLoc n!"dec" (.ref e.addr) ⟨topLoc a msg num dv .none, h⟩ = (.ok (), ⟨topLoc a msg num (.ref e.addr) .none, h⟩) := rfl
  rw [h1, M.seq_ok]
  unfold topBody
  rw [M.bind_apply, execBlock_cons, wants_src n call he, hw, if_neg (by decide), execBlock_nil]
  rfl

/-- All of them. -/
theorem top_skips (n : Nat) (call : CallT) {h : Heap} (a : Nat) (msg : Bytes) (num : Option Nat) (O : M Flow) (vs : List Val) :
    ∀ (es : List IoEntry) (dv : Val), (∀ e ∈ es, IoAt h e) → (∀ e ∈ es, e.wants num = false) →
    ∃ dv', forLoop (assign src call (.name n!"dec")) (execBlock src n call topBody) O (es.map (fun e => .ref e.addr) ++ vs) ⟨topLoc a msg num dv .none, h⟩ =
      forLoop (assign src call (.name n!"dec")) (execBlock src n call topBody) O vs ⟨topLoc a msg num dv' .none, h⟩
  | [], dv, _, _ => ⟨dv, rfl⟩
  | e :: es, dv, h1, h2 => by
    obtain ⟨dv', h3⟩ := top_skips n call a msg num O vs es (.ref e.addr) (fun e' he' => h1 e' (List.mem_cons_of_mem _ he'))
      (fun e' he' => h2 e' (List.mem_cons_of_mem _ he'))
    refine ⟨dv', ?_⟩
    rw [List.map_cons, List.cons_append, top_skip n call (h1 e (by simp)) a msg num dv O (h2 e (by simp)), h3]

@[pyrun] theorem builtin_isinstance_none (P : Prog) (s : St) (b : Ident) : builtinFn P n!"isinstance" [.none, .cls b] s = (.ok (.bool false), s) := rfl

section
variable (n : Nat) (call : CallT) {h : Heap} {e : IoEntry} (he : IoAt h e) {a : Nat} {d : Val} {x y : Int} {p : Parser}
  (ha : h[a]? = some (topObj d (.int x) (.int y) p)) (msg : Bytes) {k : Nat} (dv : Val) (O : M Flow) (hw : e.wants (some k) = true) (vs : List Val)

include he ha hw

theorem hit_start (R : Except Exc Flow × St)
    (hR : M.seq (execBlock src n call [
        .assign (.name n!"rv") (.call (.attr (.name n!"dec") n!"decode") [.name n!"msg"]),
        .ite (.not (.call (.name n!"isinstance") [.name n!"rv", .index (.attr (.name n!"dec") n!"io_spec") (.name n!"num")])) [
          .raise (.call (.name n!"ExceptionDecoderDecode") [.fstr [.attr (.name n!"dec") n!"subset", .name n!"num"]])] [],
        .aug (.attr (.name n!"self") n!"_DecoderTop__dec_succeeded") .add (.const (.int 1)),
        .brk] ⟨topLoc a msg (some k) (.ref e.addr) .none, h.set a (topObj d (.int (x + 1)) (.int y) p)⟩) (after (M.pure .next)) = R) :
    forLoop (assign src call (.name n!"dec")) (execBlock src n call topBody) O (.ref e.addr :: vs) ⟨topLoc a msg (some k) dv .none, h⟩ =
      M.seq R (loopNext (forLoop (assign src call (.name n!"dec")) (execBlock src n call topBody) O vs)) := by
  rw [forLoop_cons, assign_name]
  have h1 : M.setLoc n!"dec" (.ref e.addr) ⟨topLoc a msg (some k) dv .none, h⟩ = (.ok (), ⟨topLoc a msg (some k) (.ref e.addr) .none, h⟩) := rfl
  rw [h1, M.seq_ok, M.bind_apply]
  congr 1
  unfold topBody
  rw [execBlock_cons, wants_src n call he, hw, if_pos rfl, execBlock_cons]
  have h2 : exec src n call (.aug (.attr (.name n!"self") n!"_DecoderTop__dec_attempts") .add (.const (.int 1))) ⟨topLoc a msg (some k) (.ref e.addr) .none, h⟩ =
      (.ok .next, ⟨topLoc a msg (some k) (.ref e.addr) .none, h.set a (topObj d (.int (x + 1)) (.int y) p)⟩) := by
    pyexec [topLoc, ha, topObj]
  rw [h2, M.seq_ok, after_next, ← hR]
  congr 1

theorem hit_error {c : Ident} {t : Heap}
    (hc : call e.fn [.ref e.sub, .bytes msg] (h.set a (topObj d (.int (x + 1)) (.int y) p)) = (.error (.py c), h.set a (topObj d (.int (x + 1)) (.int y) p) ++ t)) :
    ∃ l, forLoop (assign src call (.name n!"dec")) (execBlock src n call topBody) O (.ref e.addr :: vs) ⟨topLoc a msg (some k) dv .none, h⟩ =
      (.error (.py c), ⟨l, h.set a (topObj d (.int (x + 1)) (.int y) p) ++ t⟩) := by
  have h1 := he.set_top ha (topObj d (.int (x + 1)) (.int y) p) []
  rw [List.append_nil] at h1
  refine ⟨topLoc a msg (some k) (.ref e.addr) .none, ?_⟩
  rw [hit_start n call he ha msg dv O hw vs _ rfl]
  pyexec [topLoc, h1.io, hc]

theorem hit_none {t : Heap} {cl : Ident} (hs : e.spec.lookup k = some cl)
    (hc : call e.fn [.ref e.sub, .bytes msg] (h.set a (topObj d (.int (x + 1)) (.int y) p)) = (.ok .none, h.set a (topObj d (.int (x + 1)) (.int y) p) ++ t)) :
    ∃ l, forLoop (assign src call (.name n!"dec")) (execBlock src n call topBody) O (.ref e.addr :: vs) ⟨topLoc a msg (some k) dv .none, h⟩ =
      (.error (.py n!"ExceptionDecoderDecode"), ⟨l, h.set a (topObj d (.int (x + 1)) (.int y) p) ++ t⟩) := by
  have h1 := he.set_top ha (topObj d (.int (x + 1)) (.int y) p) []
  have h2 := he.set_top ha (topObj d (.int (x + 1)) (.int y) p) t
  rw [List.append_nil] at h1
  have h3 := dictGet_spec e.spec k
  rw [hs] at h3
  refine ⟨topLoc a msg (some k) (.ref e.addr) .none, ?_⟩
  rw [hit_start n call he ha msg dv O hw vs _ rfl]
  pyexec [topLoc, h1.io, hc, h2.io, h2.spec, numVal', optVal, h3, Bool.not_false]

theorem hit_ok {t : Heap} {cl : Ident} (hs : e.spec.lookup k = some cl) {b : Nat} {c : Ident} {fs : List (Ident × Val)}
    (hc : call e.fn [.ref e.sub, .bytes msg] (h.set a (topObj d (.int (x + 1)) (.int y) p)) = (.ok (.ref b), h.set a (topObj d (.int (x + 1)) (.int y) p) ++ t))
    (hb : (h.set a (topObj d (.int (x + 1)) (.int y) p) ++ t)[b]? = some (.inst c fs)) (hi : subclass src c cl = true) :
    forLoop (assign src call (.name n!"dec")) (execBlock src n call topBody) O (.ref e.addr :: vs) ⟨topLoc a msg (some k) dv .none, h⟩ =
      (.ok .next, ⟨topLoc a msg (some k) (.ref e.addr) (.ref b), (h.set a (topObj d (.int (x + 1)) (.int y) p) ++ t).set a (topObj d (.int (x + 1)) (.int (y + 1)) p)⟩) := by
  have h1 := he.set_top ha (topObj d (.int (x + 1)) (.int y) p) []
  have h2 := he.set_top ha (topObj d (.int (x + 1)) (.int y) p) t
  rw [List.append_nil] at h1
  have h3 := dictGet_spec e.spec k
  rw [hs] at h3
  have h4 := set_top_self ha (topObj d (.int (x + 1)) (.int y) p) t
  rw [hit_start n call he ha msg dv O hw vs _ rfl]
  have h5 := h1.io
  have h6 := h2.io
  have h7 := h2.spec
  unfold topObj at hc hb h4 h5 h6 h7 ⊢
  pyexec [topLoc, h5, hc, h6, h7, numVal', optVal, h3, hb, hi, Bool.not_true, h4]

end

@[pyrun] theorem refMeth_values (P : Prog) (s : St) (a : Nat) (d : List (Val × Val)) : refMeth P a n!"values" [] (.dict d) s = (.ok (.tup (d.map (fun x => x.2))), s) := rfl

/-- The registry of sub-decoders, in the order of registration. -/
def registryObj (es : List IoEntry) : Obj := .dict (es.map (fun e => (.str e.subset, .ref e.addr)))

/-- decoder_top.py:193-218 up to the loop. -/
theorem undecorated_eq (n : Nat) {h : Heap} {a d : Nat} {x y : Int} {p : Parser} (ha : h[a]? = some (topObj (.ref d) (.int x) (.int y) p))
    {es : List IoEntry} (hd : h[d]? = some (registryObj es)) (msg : Bytes) :
    callFn src (n + 4) n!"DecoderTop.decode$undecorated" [.ref a, .bytes msg] h =
      endCall (M.seq (forLoop (assign src (callFn src (n + 3)) (.name n!"dec")) (execBlock src (n + 3) (callFn src (n + 3)) topBody)
          (execBlock src (n + 3) (callFn src (n + 3)) [.expr (.call (.attr (.name n!"logger") n!"info") [.fstr [.name n!"num"]])])
          (es.map (fun e => .ref e.addr)) ⟨topLoc a msg (mnum msg) .none .none, h⟩)
        (after (execBlock src (n + 3) (callFn src (n + 3)) [.ret (.name n!"rv")]))) := by
  have hm : (es.map (fun e => (Val.str e.subset, Val.ref e.addr))).map (fun x => x.2) = es.map (fun e => Val.ref e.addr) := by
    simp [List.map_map, Function.comp_def]
  unfold topObj at ha
  unfold registryObj at hd
  pycall Look.fn_DecoderTop_decode_undecorated Src.fn_DecoderTop_decode_undecorated
  pyexec [ha, hd, mnum_src n msg h, getAttr_cls, hm]
  rfl

/-- No sub-decoder supports the number (or there is none): nothing happens. -/
theorem topDecode_none (n : Nat) {h : Heap} {a d : Nat} {x y : Int} {p : Parser} (ha : h[a]? = some (topObj (.ref d) (.int x) (.int y) p))
    {es : List IoEntry} (hd : h[d]? = some (registryObj es)) (hes : ∀ e ∈ es, IoAt h e) (msg : Bytes) (hw : ∀ e ∈ es, e.wants (mnum msg) = false) :
    callFn src (n + 5) n!"DecoderTop.decode" [.ref a, .bytes msg] h = (.ok .none, h) := by
  have h1 := undecorated_eq n ha hd msg
  obtain ⟨dv, h2⟩ := top_skips (n + 3) (callFn src (n + 3)) a msg (mnum msg)
    (execBlock src (n + 3) (callFn src (n + 3)) [.expr (.call (.attr (.name n!"logger") n!"info") [.fstr [.name n!"num"]])]) [] es .none hes hw
  rw [List.append_nil] at h2
  rw [h2, forLoop_nil] at h1
  have h3 : callFn src (n + 4) n!"DecoderTop.decode$undecorated" [.ref a, .bytes msg] h = (.ok .none, h) := by
    rw [h1]
    pyexec [topLoc]
  pycall Look.fn_DecoderTop_decode Src.fn_DecoderTop_decode
  pyexec [h3]

section
variable (n : Nat) {h : Heap} {a d : Nat} {x y : Int} {p : Parser} (ha : h[a]? = some (topObj (.ref d) (.int x) (.int y) p))
    {pre post : List IoEntry} {e : IoEntry} (hd : h[d]? = some (registryObj (pre ++ e :: post))) (hes : ∀ e ∈ pre, IoAt h e) (he : IoAt h e)
    (msg : Bytes) {k : Nat} (hk : mnum msg = some k) (hpre : ∀ e ∈ pre, e.wants (some k) = false) (hw : e.wants (some k) = true)
    {cl : Ident} (hs : e.spec.lookup k = some cl)

include ha hd hes he hk hpre hw

theorem hit_loop : ∃ dv, callFn src (n + 4) n!"DecoderTop.decode$undecorated" [.ref a, .bytes msg] h =
      endCall (M.seq (forLoop (assign src (callFn src (n + 3)) (.name n!"dec")) (execBlock src (n + 3) (callFn src (n + 3)) topBody)
          (execBlock src (n + 3) (callFn src (n + 3)) [.expr (.call (.attr (.name n!"logger") n!"info") [.fstr [.name n!"num"]])])
          (.ref e.addr :: post.map (fun e => .ref e.addr)) ⟨topLoc a msg (some k) dv .none, h⟩)
        (after (execBlock src (n + 3) (callFn src (n + 3)) [.ret (.name n!"rv")]))) := by
  have h1 := undecorated_eq n ha hd msg
  obtain ⟨dv, h2⟩ := top_skips (n + 3) (callFn src (n + 3)) a msg (mnum msg)
    (execBlock src (n + 3) (callFn src (n + 3)) [.expr (.call (.attr (.name n!"logger") n!"info") [.fstr [.name n!"num"]])])
    (.ref e.addr :: post.map (fun e => .ref e.addr)) pre .none hes (by rw [hk]; exact hpre)
  rw [List.map_append, List.map_cons, h2, hk] at h1
  exact ⟨dv, h1⟩

theorem topDecode_error {c : Ident} (hc1 : catches src c n!"Exception" = true) {t : Heap}
    (hc : callFn src (n + 3) e.fn [.ref e.sub, .bytes msg] (h.set a (topObj (.ref d) (.int (x + 1)) (.int y) p)) =
      (.error (.py c), h.set a (topObj (.ref d) (.int (x + 1)) (.int y) p) ++ t)) :
    callFn src (n + 5) n!"DecoderTop.decode" [.ref a, .bytes msg] h = (.ok .none, h.set a (topObj (.ref d) (.int (x + 1)) (.int y) p) ++ t) := by
  obtain ⟨dv, h1⟩ := hit_loop n ha hd hes he msg hk hpre hw
  obtain ⟨l, h2⟩ := hit_error (n + 3) (callFn src (n + 3)) he ha msg dv
    (execBlock src (n + 3) (callFn src (n + 3)) [.expr (.call (.attr (.name n!"logger") n!"info") [.fstr [.name n!"num"]])]) hw
    (post.map (fun e => .ref e.addr)) hc
  rw [h2, M.seq_error, endCall_error] at h1
  pycall Look.fn_DecoderTop_decode Src.fn_DecoderTop_decode
  cases hc2 : catches src c n!"ExceptionDecoderDecode" <;> pyexec [h1, handle_cons, hc1, hc2]

include hs

theorem topDecode_nothing {t : Heap}
    (hc : callFn src (n + 3) e.fn [.ref e.sub, .bytes msg] (h.set a (topObj (.ref d) (.int (x + 1)) (.int y) p)) =
      (.ok .none, h.set a (topObj (.ref d) (.int (x + 1)) (.int y) p) ++ t)) :
    callFn src (n + 5) n!"DecoderTop.decode" [.ref a, .bytes msg] h = (.ok .none, h.set a (topObj (.ref d) (.int (x + 1)) (.int y) p) ++ t) := by
  obtain ⟨dv, h1⟩ := hit_loop n ha hd hes he msg hk hpre hw
  obtain ⟨l, h2⟩ := hit_none (n + 3) (callFn src (n + 3)) he ha msg dv
    (execBlock src (n + 3) (callFn src (n + 3)) [.expr (.call (.attr (.name n!"logger") n!"info") [.fstr [.name n!"num"]])]) hw
    (post.map (fun e => .ref e.addr)) hs hc
  rw [h2, M.seq_error, endCall_error] at h1
  have hc2 : catches src n!"ExceptionDecoderDecode" n!"ExceptionDecoderDecode" = true := rfl
  pycall Look.fn_DecoderTop_decode Src.fn_DecoderTop_decode
  pyexec [h1, handle_cons, hc2]

theorem topDecode_some {t : Heap} {b : Nat} {c : Ident} {fs : List (Ident × Val)}
    (hc : callFn src (n + 3) e.fn [.ref e.sub, .bytes msg] (h.set a (topObj (.ref d) (.int (x + 1)) (.int y) p)) =
      (.ok (.ref b), h.set a (topObj (.ref d) (.int (x + 1)) (.int y) p) ++ t))
    (hb : (h.set a (topObj (.ref d) (.int (x + 1)) (.int y) p) ++ t)[b]? = some (.inst c fs)) (hi : subclass src c cl = true) :
    callFn src (n + 5) n!"DecoderTop.decode" [.ref a, .bytes msg] h =
      (.ok (.ref b), h.set a (topObj (.ref d) (.int (x + 1)) (.int (y + 1)) p) ++ t) := by
  obtain ⟨dv, h1⟩ := hit_loop n ha hd hes he msg hk hpre hw
  have h2 := hit_ok (n + 3) (callFn src (n + 3)) he ha msg dv
    (execBlock src (n + 3) (callFn src (n + 3)) [.expr (.call (.attr (.name n!"logger") n!"info") [.fstr [.name n!"num"]])]) hw
    (post.map (fun e => .ref e.addr)) hs hc hb hi
  have hl := (List.getElem?_eq_some_iff.1 ha).1
  rw [List.set_append_left _ _ (by rw [List.length_set]; exact hl), List.set_set] at h2
  have h3 : callFn src (n + 4) n!"DecoderTop.decode$undecorated" [.ref a, .bytes msg] h =
      (.ok (.ref b), h.set a (topObj (.ref d) (.int (x + 1)) (.int (y + 1)) p) ++ t) := by
    rw [h1, h2]
    pyexec [topLoc]
  pycall Look.fn_DecoderTop_decode Src.fn_DecoderTop_decode
  pyexec [h3]

end

end Refine
end PyCore
end Verif
