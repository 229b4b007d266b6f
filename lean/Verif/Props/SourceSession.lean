import Verif.Props.SourceJson
import Verif.Spec.SessionText

/-!
Claims about a conversion at the level of the text: from the bytes of a file to the JSON texts.
-/

namespace Verif
open Spec PyCore Refine Framer Decoder Run
open Rounding (rnd)

section
variable [Rounding]

/-- The decoder is an object of the class `DecoderTop`, and its objects are in the heap. -/
theorem inUse_top {all bare : Bool} {a K : Nat} {fed got : List Bytes} {dec : List (Bytes × Val)} {h : Heap} (hu : InUse all bare a K fed got dec h) :
    K ≤ h.length ∧ ∃ d x y p, h[a]? = some (topObj d x y p) := by
  obtain ⟨p, h1, -, -⟩ := inUse_inv hu
  obtain ⟨d, hd, -⟩ := h1.ready.set
  exact ⟨h1.1, _, _, _, _, hd⟩

/-- What is not the decoder stays. -/
theorem inUse_kept {all bare : Bool} {a K : Nat} {fed got : List Bytes} {dec : List (Bytes × Val)} {h h' : Heap} (hu : InUse all bare a K fed got dec h)
    (hs : ∀ b, b < h.length → b ≠ a → h'[b]? = h[b]?) : KeptIn h h' := by
  obtain ⟨-, d, x, y, p, ha⟩ := inUse_top hu
  intro b o ho hb
  rw [hs b (List.getElem?_eq_some_iff.1 hb).1 ?_]
  · exact hb
  · rintro rfl
    rw [ha] at hb
    injection hb with hb
    exact ho _ _ _ _ hb.symm

theorem KeptIn.core {hdr aux pretty : Bool} {h g : Heap} (hs : KeptIn h g) {s : Nat} (hc : IsCore hdr aux pretty h s) : IsCore hdr aux pretty g s := by
  obtain ⟨k, h1, h2⟩ := hc
  exact ⟨k, hs.inst (by decide) h1, hs.inst (by decide) h2⟩

/-- The text of the object. -/
def TextOf (hdr aux pretty : Bool) (o : PyObj) (x : Val) : Prop := x = .json (Json.objVal ⟨hdr, aux, pretty⟩ o) (Json.Controls.indent ⟨hdr, aux, pretty⟩)

theorem TextOf.isText {hdr aux pretty : Bool} {o : PyObj} {x : Val} (h : TextOf hdr aux pretty o x) :
    IsJsonText pretty (fun fr w => w = jv fr (Json.objVal ⟨hdr, aux, pretty⟩ o)) x :=
  ⟨_, h, fun fr hfr => ⟨_, rfl, Json.dumps_denotes fr hfr _ _⟩⟩

/-- What one message is to a decoder and a serialiser. -/
theorem session_message {all bare : Bool} {a K : Nat} {fed got : List Bytes} {dec : List (Bytes × Val)} {h : Heap} (hu : InUse all bare a K fed got dec h)
    {hdr aux pretty : Bool} {s : Nat} (hc : IsCore hdr aux pretty h s) (m : Bytes) :
    match supportedDecode all bare m with
    | none => ∃ h1, Ends n!"DecoderTop.decode" [.ref a, .bytes m] h (fun res => res = (.ok .none, h1)) ∧ IsCore hdr aux pretty h1 s ∧
        InUse all bare a K fed got (dec ++ [(m, .none)]) h1
    | some o => supported all m = true ∧ ∃ b h1 c fs x h2, Ends n!"DecoderTop.decode" [.ref a, .bytes m] h (fun res => res = (.ok (.ref b), h1)) ∧
        h1[b]? = some (.inst c fs) ∧ Ends (serialiser c) [.ref s, .ref b] h1 (fun res => res = (.ok x, h2)) ∧
        TextOf hdr aux pretty o x ∧ IsCore hdr aux pretty h2 s ∧
        InUse all bare a K fed got (dec ++ [(m, .ref b)]) h2 := by
  obtain ⟨p, h1, -, -⟩ := inUse_inv hu
  obtain ⟨N, hN⟩ := h1.decode m
  obtain ⟨v, h', e1, -, e3, e4⟩ := hN 0
  have he := ends_of_fuel e1 (by simp)
  have hk : IsCore hdr aux pretty h' s := (inUse_kept hu e3.1).core hc
  cases ho : supportedDecode all bare m with
  | none =>
    rw [ho] at e4
    obtain ⟨rfl, -⟩ := e4
    exact ⟨h', he, hk, .decoded m hu he⟩
  | some o =>
    rw [ho] at e4
    obtain ⟨hsup, b, rfl, -, -⟩ := e4
    unfold supportedDecode at ho
    obtain ⟨k, hk1, ho⟩ := Option.bind_eq_some_iff.1 ho
    obtain ⟨f, hf, ho⟩ := Option.bind_eq_some_iff.1 ho
    have hon : familyOn (!all) f = true := by
      by_cases hon : familyOn (!all) f = true
      · exact hon
      · rw [if_neg hon] at ho; cases ho
    rw [if_pos hon] at ho
    obtain ⟨b', h'', e5, -, e6⟩ := deliver_obj hu hk1 hf hon ho
      (prop := fun h v => ∃ b' c fs, v = .ref b' ∧ h[b']? = some (.inst c fs) ∧ ∀ (g : Heap) (a : Nat), (∀ (b : Nat) (o : Obj), h[b]? = some o → g[b]? = some o) →
        IsCore hdr aux pretty g a → Ends (serialiser c) [.ref a, v] g (fun res => ∃ x t, res = (.ok x, g ++ t) ∧ TextOf hdr aux pretty o x)) (fun g b hb => obj_value (Q := TextOf hdr aux pretty o) rfl hb)
    obtain ⟨N1, hN1⟩ := he
    have := ends_unique e5 hN1
    simp only [Prod.mk.injEq, Except.ok.injEq, Val.ref.injEq] at this
    obtain ⟨rfl, rfl⟩ := this
    obtain ⟨b1, c, fs, e7, e8, e9⟩ := e6
    cases e7
    obtain ⟨r, ⟨x, t, rfl, hx⟩, hr⟩ := Ends.result (e9 h'' s (fun _ _ h => h) hk) (by rintro r ⟨x, t, rfl, -⟩; simp)
    have hl := (inUse_top (InUse.decoded m hu e5)).1
    refine ⟨hsup, b', h'', c, fs, x, h'' ++ t, e5, e8, hr, hx, ?_, .other (.decoded m hu e5) (by rw [List.length_append]; omega) (fun b hb => ?_)⟩
    · exact (kept_of_ext (fun b o hb => heap_old hb t)).core hk
    · rw [List.getElem?_append_left (by omega)]

/-- What the messages of a chunk are. -/
theorem session_messages {all bare : Bool} {a K : Nat} {fed got : List Bytes} {hdr aux pretty : Bool} {s : Nat} (ms : List Bytes) :
    ∀ {dec : List (Bytes × Val)} {h : Heap}, InUse all bare a K fed got dec h → IsCore hdr aux pretty h s →
    ∃ xs h' l, Written a s ms h xs h' ∧ IsCore hdr aux pretty h' s ∧ InUse all bare a K fed got (dec ++ l) h' ∧ l.map Prod.fst = ms ∧
      l.countP (fun x => supported all x.1 && noneVal x.2) + xs.length = ms.countP (supported all) ∧
      List.Forall₂ (TextOf hdr aux pretty) (ms.filterMap (supportedDecode all bare)) xs := by
  induction ms with
  | nil => exact fun {dec h} hu hc => ⟨[], h, [], .done, hc, by rw [List.append_nil]; exact hu, rfl, rfl, .nil⟩
  | cons m ms ih =>
    intro dec h hu hc
    have h1 := session_message hu hc m
    cases ho : supportedDecode all bare m with
    | none =>
      rw [ho] at h1
      obtain ⟨h1, e1, e2, e3⟩ := h1
      obtain ⟨xs, h', l, f1, f2, f3, f4, f5, f6⟩ := ih e3 e2
      refine ⟨xs, h', (m, .none) :: l, .nothing e1 f1, f2, by rw [List.append_assoc] at f3; exact f3, by rw [List.map_cons, f4], ?_, ?_⟩
      · rw [List.countP_cons, List.countP_cons, ← f5]
        dsimp only
        cases supported all m <;> simp [noneVal] <;> omega
      · rw [List.filterMap_cons, ho]; exact f6
    | some o =>
      rw [ho] at h1
      obtain ⟨hsup, b, h1, c, fs, x, h2, e1, e2, e3, e4, e5, e6⟩ := h1
      obtain ⟨xs, h', l, f1, f2, f3, f4, f5, f6⟩ := ih e6 e5
      refine ⟨x :: xs, h', (m, .ref b) :: l, .object e1 e2 e3 f1, f2, by rw [List.append_assoc] at f3; exact f3, by rw [List.map_cons, f4], ?_, ?_⟩
      · rw [List.countP_cons, List.countP_cons, ← f5, hsup]
        simp [noneVal]
        omega
      · rw [List.filterMap_cons, ho]; exact .cons e4 f6

/-- What the chunks of a file are. -/
theorem session_chunks {all bare : Bool} {a K : Nat} {hdr aux pretty : Bool} {s : Nat} (cs : List Bytes) :
    ∀ {fed got : List Bytes} {dec : List (Bytes × Val)} {h : Heap}, InUse all bare a K fed got dec h → IsCore hdr aux pretty h s →
    ∃ xs h' l ms, Session a s cs h xs h' ∧ IsCore hdr aux pretty h' s ∧ InUse all bare a K (fed ++ cs) (got ++ ms) (dec ++ l) h' ∧ l.map Prod.fst = ms ∧
      l.countP (fun x => supported all x.1 && noneVal x.2) + xs.length = ms.countP (supported all) ∧
      List.Forall₂ (TextOf hdr aux pretty) (ms.filterMap (supportedDecode all bare)) xs := by
  induction cs with
  | nil => exact fun {fed got dec h} hu hc => ⟨[], h, [], [], .done, hc, by rw [List.append_nil, List.append_nil, List.append_nil]; exact hu, rfl, rfl, .nil⟩
  | cons c cs ih =>
    intro fed got dec h hu hc
    obtain ⟨ms, r, h1, e1, e2, e3, e4⟩ := C96_catch hu c
    obtain ⟨xs, h2, l, f1, f2, f3, f4, f5, f6⟩ := session_messages ms e4 ((inUse_kept hu e3).core hc)
    obtain ⟨ys, h3, l', ms', g1, g2, g3, g4, g5, g6⟩ := ih f3 f2
    rw [List.append_assoc, List.append_assoc, List.append_assoc] at g3
    refine ⟨xs ++ ys, h3, l ++ l', ms ++ ms', .chunk e1 e2 f1 g1, g2, g3, by rw [List.map_append, f4, g4], ?_, ?_⟩
    · rw [List.countP_append, List.countP_append, List.length_append]; omega
    · rw [List.filterMap_append]; exact List.rel_append f6 g6

theorem ends_same {f : Ident} {args : List Val} {h : Heap} {r r' : Except Exc Val × Heap} (h1 : Ends f args h (fun x => x = r))
    (h2 : Ends f args h (fun x => x = r')) : r = r' := by
  obtain ⟨N, hN⟩ := h2
  exact ends_unique h1 hN

theorem written_unique {a s : Nat} {ms : List Bytes} {h h' : Heap} {xs : List Val} (hw : Written a s ms h xs h') :
    ∀ {ys : List Val} {g : Heap}, Written a s ms h ys g → ys = xs ∧ g = h' := by
  induction hw with
  | done => intro ys g hy; cases hy; exact ⟨rfl, rfl⟩
  | nothing hd hw ih =>
    intro ys g hy
    cases hy with
    | nothing hd' hw' =>
      have := ends_same hd hd'
      simp only [Prod.mk.injEq, true_and] at this
      subst this
      exact ih hw'
    | object hd' hb hs hw' =>
      have := ends_same hd hd'
      simp at this
  | object hd hb hs hw ih =>
    intro ys g hy
    cases hy with
    | nothing hd' hw' =>
      have := ends_same hd hd'
      simp at this
    | object hd' hb' hs' hw' =>
      have := ends_same hd hd'
      simp only [Prod.mk.injEq, Except.ok.injEq, Val.ref.injEq] at this
      obtain ⟨rfl, rfl⟩ := this
      rw [hb] at hb'
      simp only [Option.some.injEq, Obj.inst.injEq] at hb'
      obtain ⟨rfl, rfl⟩ := hb'
      have := ends_same hs hs'
      simp only [Prod.mk.injEq, Except.ok.injEq] at this
      obtain ⟨rfl, rfl⟩ := this
      obtain ⟨rfl, rfl⟩ := ih hw'
      exact ⟨rfl, rfl⟩

theorem session_unique {a s : Nat} {cs : List Bytes} {h h' : Heap} {xs : List Val} (hw : Session a s cs h xs h') :
    ∀ {ys : List Val} {g : Heap}, Session a s cs h ys g → ys = xs ∧ g = h' := by
  induction hw with
  | done => intro ys g hy; cases hy; exact ⟨rfl, rfl⟩
  | chunk hc hr hw hn ih =>
    intro ys g hy
    cases hy with
    | chunk hc' hr' hw' hn' =>
      have := ends_same hc hc'
      simp only [Prod.mk.injEq, Except.ok.injEq, Val.ref.injEq] at this
      obtain ⟨rfl, rfl⟩ := this
      rw [hr] at hr'
      simp only [Option.some.injEq, Obj.list.injEq] at hr'
      have hj : Function.Injective (fun b : Bytes => Val.bytes b) := fun x y e => by injection e
      obtain rfl := (List.map_injective_iff.2 hj) hr'
      obtain ⟨rfl, rfl⟩ := written_unique hw hw'
      obtain ⟨rfl, rfl⟩ := ih hn'
      exact ⟨rfl, rfl⟩

theorem jsonText_mono {pretty : Bool} {p q : (Rat → List Char) → JV → Prop} (hpq : ∀ fr w, p fr w → q fr w) {x : Val} (h : IsJsonText pretty p x) :
    IsJsonText pretty q x := by
  obtain ⟨j, e, h⟩ := h
  refine ⟨j, e, fun fr hfr => ?_⟩
  obtain ⟨w, h1, h2⟩ := h fr hfr
  exact ⟨w, hpq _ _ h1, h2⟩

theorem forall_two_trans {α β γ : Type} {r : α → β → Prop} {q : β → γ → Prop} {p : α → γ → Prop} (h : ∀ a b c, r a b → q b c → p a c) {l : List α} {m : List β}
    {n : List γ} (h1 : List.Forall₂ r l m) (h2 : List.Forall₂ q m n) : List.Forall₂ p l n := by
  induction h1 generalizing n with
  | nil => cases h2; exact .nil
  | cons hx _ ih =>
    cases h2 with
    | cons hy h2 => exact .cons (h _ _ _ hx hy) (ih h2)

/-- **C107** the bytes of a file, whatever they are and however they are cut into chunks: the calls come to an end without an exception, with one result. Every text is JSON.
The messages are those of the stream; every supported message is written or counted as an error. -/
theorem C107_run {all bare : Bool} {a K : Nat} {h : Heap} (hu : InUse all bare a K [] [] [] h) {hdr aux pretty : Bool} {s : Nat}
    (hc : IsCore hdr aux pretty h s) (chunks : List Bytes) :
    ∃ xs h', Session a s chunks h xs h' ∧ (∀ ys g, Session a s chunks h ys g → ys = xs ∧ g = h') ∧
      (∀ x ∈ xs, IsJsonText pretty (fun _ _ => True) x) ∧
      ∃ errors, errors + xs.length = (messages chunks.flatten).countP (supported all) ∧
        Returns n!"DecoderTop.dec_attempts" [.ref a] h' (.int ((messages chunks.flatten).countP (supported all))) ∧
        Returns n!"DecoderTop.dec_errors" [.ref a] h' (.int errors) ∧
        Returns n!"DecoderTop.parse_errors" [.ref a] h' (.int (dirtyGaps (scan [] chunks.flatten).segs)) := by
  obtain ⟨xs, h', l, ms, e1, -, e3, e4, e5, e6⟩ := session_chunks chunks hu hc
  rw [List.nil_append, List.nil_append, List.nil_append] at e3
  obtain ⟨f1, f2⟩ := C96_messages e3
  obtain ⟨g1, g2⟩ := C97_counters e3
  rw [← f1]
  have hl : l.countP (fun x => supported all x.1) = ms.countP (supported all) := by rw [← e4, List.countP_map]; rfl
  rw [hl] at g1
  refine ⟨xs, h', e1, fun ys g hy => session_unique e1 hy, ?_, _, e5, g1, g2, f2⟩
  clear e1 e5
  generalize ms.filterMap (supportedDecode all bare) = os at e6
  induction e6 with
  | nil => intro x hx; cases hx
  | cons hx _ ih =>
    intro y hy
    rcases List.mem_cons.1 hy with rfl | hy
    · exact jsonText_mono (fun _ _ _ => trivial) hx.isText
    · exact ih y hy

theorem forall_two_same {α β γ : Type} {r : α → β → Prop} {q : α → γ → Prop} {p : β → γ → Prop} (h : ∀ a b c, r a b → q a c → p b c) {l : List α} {m : List β}
    {n : List γ} (h1 : List.Forall₂ r l m) (h2 : List.Forall₂ q l n) : List.Forall₂ p m n := by
  induction h1 generalizing n with
  | nil => cases h2; exact .nil
  | cons hx _ ih =>
    cases h2 with
    | cons hy h2 => exact .cons (h _ _ _ hx hy) (ih h2)

/-- **C112** the texts do not depend on how the bytes are cut into chunks, nor on what else is in the heap: two conversions of the same bytes give equal texts in every arithmetic of
floats, and equal counts. -/
theorem C112_json {all bare : Bool} {a K a' K' : Nat} {h h' : Heap} (hu : InUse all bare a K [] [] [] h) (hu' : InUse all bare a' K' [] [] [] h') {hdr aux pretty : Bool}
    {s s' : Nat} (hc : IsCore hdr aux pretty h s) (hc' : IsCore hdr aux pretty h' s') {chunks chunks' : List Bytes} (hf : chunks'.flatten = chunks.flatten)
    {xs ys : List Val} {g g' : Heap} (hx : Session a s chunks h xs g) (hy : Session a' s' chunks' h' ys g') :
    ys = xs ∧ ∀ f ∈ [n!"DecoderTop.dec_attempts", n!"DecoderTop.dec_errors", n!"DecoderTop.parse_errors"], ∃ v, Returns f [.ref a] g v ∧ Returns f [.ref a'] g' v := by
  obtain ⟨xs1, g1, l, ms, e1, -, e3, e4, e5, e6⟩ := session_chunks chunks hu hc
  obtain ⟨xs2, g2, l', ms', f1, -, f3, f4, f5, f6⟩ := session_chunks chunks' hu' hc'
  obtain ⟨rfl, rfl⟩ := session_unique e1 hx
  obtain ⟨rfl, rfl⟩ := session_unique f1 hy
  rw [List.nil_append, List.nil_append, List.nil_append] at e3 f3
  obtain ⟨a1, a2⟩ := C96_messages e3
  obtain ⟨b1, b2⟩ := C96_messages f3
  obtain ⟨a3, a4⟩ := C97_counters e3
  obtain ⟨b3, b4⟩ := C97_counters f3
  rw [hf] at b1 b2
  have hm : ms' = ms := by rw [a1, b1]
  subst hm
  have hl : l.countP (fun x => supported all x.1) = ms'.countP (supported all) := by rw [← e4, List.countP_map]; rfl
  have hl' : l'.countP (fun x => supported all x.1) = ms'.countP (supported all) := by rw [← f4, List.countP_map]; rfl
  have hxy := forall_two_same (p := fun x y : Val => y = x) (fun o x y (h1 : TextOf hdr aux pretty o x) (h2 : TextOf hdr aux pretty o y) => h2.trans h1.symm) e6 f6
  have hys : ys = xs := by
    clear e1 e5 e6 f1 f5 f6 hx hy
    induction hxy with
    | nil => rfl
    | cons h1 _ ih => rw [h1, ih]
  subst hys
  rw [hl] at a3
  rw [hl'] at b3
  have he : l'.countP (fun x => supported all x.1 && noneVal x.2) = l.countP (fun x => supported all x.1 && noneVal x.2) := by omega
  rw [he] at b4
  refine ⟨rfl, fun f hf => ?_⟩
  simp only [List.mem_cons, List.not_mem_nil, or_false] at hf
  rcases hf with rfl | rfl | rfl
  · exact ⟨_, a3, b3⟩
  · exact ⟨_, a4, b4⟩
  · exact ⟨_, a2, b2⟩

/-- The objects of the frames among noise and other frames. -/
theorem pieces_decoded {all bare : Bool} {prop : Content → PyObj → Prop} {ps : List Piece} (hp : ∀ p ∈ ps, p.Ok)
    (hcs : ∀ c ∈ contentsOf ps, ∃ o, supportedDecode all bare c.frame = some o ∧ prop c o) :
    List.Forall₂ prop (contentsOf ps) ((ps.map Piece.frame).filterMap (supportedDecode all bare)) ∧
      (ps.map Piece.frame).countP (supported all) = (contentsOf ps).length := by
  induction ps with
  | nil => exact ⟨.nil, rfl⟩
  | cons p ps ih =>
    obtain ⟨gap, item⟩ := p
    cases item with
    | inl c =>
      have hc : contentsOf (⟨gap, .inl c⟩ :: ps) = c :: contentsOf ps := rfl
      rw [hc] at hcs ⊢
      obtain ⟨h1, h2⟩ := ih (fun q hq => hp q (by simp [hq])) (fun x hx => hcs x (by simp [hx]))
      obtain ⟨o, ho, h3⟩ := hcs c (by simp)
      have hs : supported all c.frame = true := by
        unfold supportedDecode at ho
        unfold supported
        obtain ⟨k, hk, ho⟩ := Option.bind_eq_some_iff.1 ho
        obtain ⟨f, hf, ho⟩ := Option.bind_eq_some_iff.1 ho
        rw [hk]
        dsimp only
        rw [hf]
        dsimp only
        by_cases hon : familyOn (!all) f = true
        · exact hon
        · rw [if_neg hon] at ho; cases ho
      have ef : Piece.frame ⟨gap, .inl c⟩ = c.frame := rfl
      rw [List.map_cons, List.filterMap_cons, List.countP_cons, h2, ef, ho, if_pos hs]
      exact ⟨.cons h3 h1, rfl⟩
    | inr f =>
      have hc : contentsOf (⟨gap, .inr f⟩ :: ps) = contentsOf ps := rfl
      rw [hc] at hcs ⊢
      obtain ⟨h1, h2⟩ := ih (fun q hq => hp q (by simp [hq])) hcs
      have hno := ((hp _ (List.mem_cons_self)).2).2
      have hs : supported all f = false := by
        unfold supported
        cases hn : numberIn f with
        | none => rfl
        | some n => dsimp only; rw [hno n hn]
      have ho : supportedDecode all bare f = none := by
        unfold supportedDecode
        cases hn : numberIn f with
        | none => rfl
        | some n => rw [Option.bind_some, hno n hn]; rfl
      have ef : Piece.frame ⟨gap, .inr f⟩ = f := rfl
      rw [List.map_cons, List.filterMap_cons, List.countP_cons, h2, ef, ho, hs]
      exact ⟨h1, rfl⟩

/-- Frames of contents among noise and other frames, converted. -/
theorem session_pieces {all bare : Bool} {a K : Nat} {h : Heap} (hu : InUse all bare a K [] [] [] h) {hdr aux pretty : Bool} {s : Nat}
    (hc : IsCore hdr aux pretty h s) {prop : Content → (Rat → List Char) → JV → Prop} (ps : List Piece) (hp : ∀ p ∈ ps, p.Ok)
    (hcs : ∀ c ∈ contentsOf ps, ∃ o, supportedDecode all bare c.frame = some o ∧ ∀ fr : Rat → List Char, prop c fr (jv fr (Json.objVal ⟨hdr, aux, pretty⟩ o)))
    (last : Bytes) (hl : (0xD3 : UInt8) ∉ last) (chunks : List Bytes) (hch : chunks.flatten = (ps.map (fun p => p.gap ++ p.frame)).flatten ++ last) :
    ∃ xs h', Session a s chunks h xs h' ∧ (∀ ys g, Session a s chunks h ys g → ys = xs ∧ g = h') ∧
      List.Forall₂ (fun c x => IsJsonText pretty (prop c) x) (contentsOf ps) xs ∧
      Returns n!"DecoderTop.dec_attempts" [.ref a] h' (.int (contentsOf ps).length) ∧ Returns n!"DecoderTop.dec_errors" [.ref a] h' (.int 0) ∧
      Returns n!"DecoderTop.parse_errors" [.ref a] h' (.int ((ps.drop 1).countP (fun p => p.gap ≠ []))) := by
  obtain ⟨xs, h', l, ms, e1, -, e3, e4, e5, e6⟩ := session_chunks chunks hu hc
  rw [List.nil_append, List.nil_append, List.nil_append] at e3
  obtain ⟨f1, f2⟩ := C96_messages e3
  obtain ⟨g1, g2⟩ := C97_counters e3
  have hm : l.countP (fun x => supported all x.1) = ms.countP (supported all) := by rw [← e4, List.countP_map]; rfl
  rw [hm] at g1
  obtain ⟨m1, m2⟩ := pieces_messages hp last hl
  rw [← hch] at m1 m2
  rw [m1] at f1
  subst f1
  obtain ⟨p1, p2⟩ := pieces_decoded hp hcs
  rw [p2] at g1 e5
  rw [m2] at f2
  have hlen : (contentsOf ps).length = xs.length := by rw [p1.length_eq, e6.length_eq]
  have h0 : l.countP (fun x => supported all x.1 && noneVal x.2) = 0 := by omega
  rw [h0] at g2
  refine ⟨xs, h', e1, fun ys g hy => session_unique e1 hy, ?_, g1, g2, f2⟩
  exact forall_two_trans (p := fun c x => IsJsonText pretty (prop c) x) (fun c o x h1 h2 => jsonText_mono (fun fr w e => by rw [e]; exact h1 fr) h2.isText) p1 e6

/-- **C107** mode of transmitted integers: a file with the frames of well-formed contents, among noise without the byte 0xD3 and valid frames of other messages, cut in any way:
there is one text for every content, in order, and it is JSON for the content as transmitted, in every arithmetic of floats. (Missing: contents that are not `Accepted`: C106_violated.) -/
theorem C107_bare_partial {a K : Nat} {h : Heap} (hu : InUse true true a K [] [] [] h) {hdr aux pretty : Bool} {s : Nat} (hc : IsCore hdr aux pretty h s)
    (ps : List Piece) (hp : ∀ p ∈ ps, p.Ok) (ha : ∀ c ∈ contentsOf ps, c.Accepted) (last : Bytes) (hl : (0xD3 : UInt8) ∉ last) (chunks : List Bytes)
    (hch : chunks.flatten = (ps.map (fun p => p.gap ++ p.frame)).flatten ++ last) :
    ∃ xs h', Session a s chunks h xs h' ∧ (∀ ys g, Session a s chunks h ys g → ys = xs ∧ g = h') ∧
      List.Forall₂ (fun c x => IsJsonText pretty (fun _ w => c.BareJson hdr aux w) x) (contentsOf ps) xs ∧
      Returns n!"DecoderTop.dec_attempts" [.ref a] h' (.int (contentsOf ps).length) ∧ Returns n!"DecoderTop.dec_errors" [.ref a] h' (.int 0) ∧
      Returns n!"DecoderTop.parse_errors" [.ref a] h' (.int ((ps.drop 1).countP (fun p => p.gap ≠ []))) := by
  refine session_pieces hu hc (prop := fun c _ w => c.BareJson hdr aux w) ps hp (fun c hcm => ?_) last hl chunks hch
  have hw := contents_wf hp c hcm
  obtain ⟨k, f, h1, h2, h3, h4⟩ := outcome_some (outcome_bare hw (ha c hcm))
  refine ⟨c.bareObj, ?_, fun fr => Json.content_bare fr ⟨hdr, aux, pretty⟩ c hw⟩
  unfold supportedDecode
  rw [h1, Option.bind_some, h2, Option.bind_some, if_pos (by cases f <;> rfl)]
  exact familyR_bare hw (ha c hcm) h4

end

/-- **C107** physical units, exact arithmetic: there is one text for every content, in order, and it is JSON for the content. (Missing: contents that are not `AcceptedScaled`.) -/
theorem C107_scaled_partial {a K : Nat} {h : Heap} (hu : @InUse exactArith true false a K [] [] [] h) {hdr aux pretty : Bool} {s : Nat}
    (hc : IsCore hdr aux pretty h s) (ps : List Piece) (hp : ∀ p ∈ ps, p.Ok) (ha : ∀ c ∈ contentsOf ps, c.AcceptedScaled) (last : Bytes)
    (hl : (0xD3 : UInt8) ∉ last) (chunks : List Bytes) (hch : chunks.flatten = (ps.map (fun p => p.gap ++ p.frame)).flatten ++ last) :
    ∃ xs h', @Session exactArith a s chunks h xs h' ∧ (∀ ys g, @Session exactArith a s chunks h ys g → ys = xs ∧ g = h') ∧
      List.Forall₂ (fun c x => IsJsonText pretty (fun fr w => c.ScaledJson fr hdr aux w) x) (contentsOf ps) xs ∧
      @Returns exactArith n!"DecoderTop.dec_attempts" [.ref a] h' (.int (contentsOf ps).length) ∧
      @Returns exactArith n!"DecoderTop.dec_errors" [.ref a] h' (.int 0) ∧
      @Returns exactArith n!"DecoderTop.parse_errors" [.ref a] h' (.int ((ps.drop 1).countP (fun p => p.gap ≠ []))) := by
  let _ := exactArith
  refine session_pieces hu hc (prop := fun c fr w => c.ScaledJson fr hdr aux w) ps hp (fun c hcm => ?_) last hl chunks hch
  have hw := contents_wf hp c hcm
  obtain ⟨o, ho, hs⟩ := outcome_scaled hw (ha c hcm)
  obtain ⟨k, f, h1, h2, h3, h4⟩ := outcome_some ho
  refine ⟨o, ?_, fun fr => Json.content_scaled fr ⟨hdr, aux, pretty⟩ c hw o hs⟩
  unfold supportedDecode
  rw [h1, Option.bind_some, h2, Option.bind_some, if_pos (by cases f <;> rfl)]
  show familyDecodeR id false f c.frame = some o
  rw [familyDecodeR_id]
  exact h4

/-- **C107** physical units in double precision: the values differ from the exact ones only in numbers, by at most the tolerance of the member they are in. -/
theorem C107_double_partial {rnd : Rat → Rat} (hr : Nearest rnd) {a K : Nat} {h : Heap} (hu : @InUse (doubleArith hr) true false a K [] [] [] h)
    {hdr aux pretty : Bool} {s : Nat} (hc : IsCore hdr aux pretty h s) (ps : List Piece) (hp : ∀ p ∈ ps, p.Ok)
    (ha : ∀ c ∈ contentsOf ps, c.AcceptedScaled) (last : Bytes) (hl : (0xD3 : UInt8) ∉ last) (chunks : List Bytes)
    (hch : chunks.flatten = (ps.map (fun p => p.gap ++ p.frame)).flatten ++ last) :
    ∃ xs h', @Session (doubleArith hr) a s chunks h xs h' ∧ (∀ ys g, @Session (doubleArith hr) a s chunks h ys g → ys = xs ∧ g = h') ∧
      List.Forall₂ (fun c x => IsJsonText pretty (fun fr w => c.DoubleJson fr hdr aux w) x) (contentsOf ps) xs ∧
      @Returns (doubleArith hr) n!"DecoderTop.dec_attempts" [.ref a] h' (.int (contentsOf ps).length) ∧
      @Returns (doubleArith hr) n!"DecoderTop.dec_errors" [.ref a] h' (.int 0) ∧
      @Returns (doubleArith hr) n!"DecoderTop.parse_errors" [.ref a] h' (.int ((ps.drop 1).countP (fun p => p.gap ≠ []))) := by
  let _ := doubleArith hr
  refine session_pieces hu hc (prop := fun c fr w => c.DoubleJson fr hdr aux w) ps hp (fun c hcm => ?_) last hl chunks hch
  have hw := contents_wf hp c hcm
  obtain ⟨o, ho, hs⟩ := outcome_scaled hw (ha c hcm)
  obtain ⟨k, f, h1, h2, h3, h4⟩ := outcome_some ho
  have h5 := family_rel hr false f c.frame (frame_short (frame_valid hw))
  have h4 : familyDecode false f c.frame = some o := h4
  rw [h4] at h5
  cases h6 : familyDecodeR rnd false f c.frame with
  | none => rw [h6] at h5; cases h5
  | some o' =>
    rw [h6] at h5
    cases h5 with
    | some h5 =>
      refine ⟨o', ?_, fun fr => ⟨_, Json.content_scaled fr ⟨hdr, aux, pretty⟩ c hw o hs, Json.near_json hr ⟨hdr, aux, pretty⟩ h5⟩⟩
      unfold supportedDecode
      rw [h1, Option.bind_some, h2, Option.bind_some, if_pos (by cases f <;> rfl)]
      exact h6

/-! ## The hypotheses are met -/

/-- A new decoder and a `JSONCore` in one heap. -/
theorem inUse_core [Rounding] (all bare hdr aux pretty : Bool) : ∃ a K h s, InUse all bare a K [] [] [] h ∧ IsCore hdr aux pretty h s := by
  obtain ⟨a, h, hu⟩ := inUse_exists all bare
  refine ⟨a, h.length, h ++ [.inst n!"JSONCore" [(n!"ctrls", .ref (h.length + 1))],
      .inst n!"JSONControls" [(n!"enable_hdr_data", .bool hdr), (n!"enable_aux_data", .bool aux), (n!"enable_pretty_view", .bool pretty)]], h.length,
    .other hu (by rw [List.length_append]; omega) (fun b hb => List.getElem?_append_left hb), h.length + 1, append_getElem0 _ _, append_getElem _ _ _⟩

/-- A file with frames of five contents of four numbers between noise, cut after the seventh byte. -/
example [Rounding] (hdr aux pretty : Bool) : ∃ a h s xs h', IsCore hdr aux pretty h s ∧
    Session a s [((exContents.map (fun c => ⟨[1, 2], .inl c⟩)).map (fun p : Piece => p.gap ++ p.frame)).flatten.take 7,
      ((exContents.map (fun c => ⟨[1, 2], .inl c⟩)).map (fun p : Piece => p.gap ++ p.frame)).flatten.drop 7] h xs h' ∧ xs.length = 5 ∧
    Returns n!"DecoderTop.parse_errors" [.ref a] h' (.int 4) := by
  obtain ⟨a, K, h, s, hu, hc⟩ := inUse_core true true hdr aux pretty
  have hcs : contentsOf (exContents.map (fun c => ⟨[1, 2], .inl c⟩)) = exContents := rfl
  obtain ⟨xs, h', h1, -, h2, -, -, h3⟩ := C107_bare_partial hu hc (exContents.map (fun c => ⟨[1, 2], .inl c⟩))
    (by
      intro p hp
      obtain ⟨c, hc, rfl⟩ := List.mem_map.1 hp
      exact ⟨(by decide : (0xD3 : UInt8) ∉ ([1, 2] : List UInt8)), (exContents_ok c hc).1⟩)
    (by rw [hcs]; exact fun c hc => (exContents_ok c hc).2) [] (by simp)
    [((exContents.map (fun c => ⟨[1, 2], .inl c⟩)).map (fun p : Piece => p.gap ++ p.frame)).flatten.take 7,
      ((exContents.map (fun c => ⟨[1, 2], .inl c⟩)).map (fun p : Piece => p.gap ++ p.frame)).flatten.drop 7]
    (by rw [List.append_nil, List.flatten_cons, List.flatten_cons, List.flatten_nil, List.append_nil, List.take_append_drop])
  exact ⟨a, h, s, xs, h', hc, h1, h2.length_eq.symm, h3⟩

/-- Physical units: the station description between two bytes of noise. -/
example : (⟨[1], .inl (.base (.m1006 sampleRef 65535))⟩ : Piece).Ok ∧ (Content.base (.m1006 sampleRef 65535)).AcceptedScaled :=
  ⟨⟨by decide, (exContents_ok _ (by simp [exContents])).1⟩, (exContents_ok _ (by simp [exContents])).2, by intro t ht; cases ht⟩

/-- C112: any bytes in one chunk, and byte by byte, with two decoders. -/
example [Rounding] (hdr aux pretty : Bool) (bytes : Bytes) : ∃ a h s xs g a' h' s' g', Session a s [bytes] h xs g ∧ Session a' s' (bytes.map (fun b => [b])) h' xs g' := by
  obtain ⟨a, K, h, s, hu, hc⟩ := inUse_core true true hdr aux pretty
  obtain ⟨xs, g, h1, -⟩ := C107_run hu hc [bytes]
  obtain ⟨ys, g', h2, -⟩ := C107_run hu hc (bytes.map (fun b => [b]))
  have hf : (bytes.map (fun b => [b])).flatten = [bytes].flatten := by
    rw [List.flatten_cons, List.flatten_nil, List.append_nil, ← List.flatMap_def]
    exact List.flatMap_singleton' bytes
  obtain ⟨rfl, -⟩ := C112_json hu hu hc hc hf h1 h2
  exact ⟨a, h, s, _, g, a, h, s, g', h1, h2⟩

end Verif
