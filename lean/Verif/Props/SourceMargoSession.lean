import Verif.Props.SourceMargo
import Verif.Props.SourceSession
import Verif.Props.Program
import Verif.Spec.MargoSession

/-!
Claims about a conversion at the level of the text: from the bytes of a file to the MARGO rows.
-/

namespace Verif
open Spec PyCore Refine Framer Decoder Run Msm
open Rounding (rnd)

/-- Rows of the model are those of a message. -/
def RowsFor (R : ObsKind → Rat → Rat → Prop) (m : MargoSettings) (g : Nat) (t : Int) (p : ObservablesMSM) (rows : PyDict Txt Margo.Row) : Prop :=
  List.Forall₂ (fun ks r => r.1 = margoName g ks.1 ks.2 p.atr.subset ∧ r.2.1 = t ∧
    List.Forall₂ (Option.Rel (R ks.1)) (margoCols m g p ks.1 ks.2) (r.2.2.map Margo.Cell.val)) (margoPlan m p) rows

section
variable [Rounding]

theorem KeptIn.trans' {h g k : Heap} (h1 : KeptIn h g) (h2 : KeptIn g k) : KeptIn h k := fun b o ho hb => h2 b o ho (h1 b o ho hb)

theorem KeptIn.margo {c : MargoSetup} {h g : Heap} (hs : KeptIn h g) {s : Nat} (hc : IsMargo c h s) : IsMargo c g s := by
  obtain ⟨k, l, h1, h2, h3⟩ := hc
  exact ⟨k, l, hs.inst (by decide) h1, hs.inst (by decide) h2, hs.dict h3⟩

theorem KeptIn.rows {R : ObsKind → Rat → Rat → Prop} {m : MargoSettings} {n : Nat} {t : Int} {p : ObservablesMSM} {h g : Heap} (hs : KeptIn h g) {v : Val}
    (hr : RowsAre R m n t p h v) : RowsAre R m n t p g v := by
  obtain ⟨b, d, h1, h2, h3⟩ := hr
  refine ⟨b, d, h1, hs.dict h2, h3.imp ?_⟩
  rintro ks e ⟨e1, w, l, e2, e3, e4⟩
  exact ⟨e1, w, l, e2, hs w _ (by intro d x y p e; cases e) e3, e4⟩

/-- The value is the dictionary of the rows of the model. -/
def TableIs (rows : PyDict Txt Margo.Row) (h : Heap) (v : Val) : Prop :=
  ∃ b d, v = .ref b ∧ h[b]? = some (.dict d) ∧
    List.Forall₂ (fun (r : Txt × Margo.Row) (e : Val × Val) => e.1 = .str (String.ofList r.1) ∧ ∃ w, e.2 = .ref w ∧ h[w]? = some (rowObj r.2)) rows d

theorem KeptIn.table {h g : Heap} (hs : KeptIn h g) {rows : PyDict Txt Margo.Row} {v : Val} (ht : TableIs rows h v) : TableIs rows g v := by
  obtain ⟨b, d, h1, h2, h3⟩ := ht
  refine ⟨b, d, h1, hs.dict h2, h3.imp ?_⟩
  rintro r e ⟨e1, w, e2, e3⟩
  exact ⟨e1, w, e2, hs w _ (by intro d x y p e; cases e) e3⟩

theorem table_of_buf {h Y : Heap} {d : List (Val × Val)} {o : Obj} {rows : PyDict Txt Margo.Row} (hb : BufIn h.length Y d rows) :
    TableIs rows (h ++ .dict d :: o :: Y) (.ref h.length) := by
  refine ⟨_, d, rfl, append_getElem0 _ _, List.Forall₂.flip (hb.imp ?_)⟩
  rintro e r ⟨e1, w, e2, e3⟩
  refine ⟨e1, _, e2, ?_⟩
  rw [List.getElem?_append_right (by omega), show h.length + 2 + w - h.length = w + 2 by omega]
  exact e3

/-- The value shows the rows of the model. -/
def ShowsRows (c : MargoSetup) (rows : PyDict Txt Margo.Row) (h : Heap) (v : Val) : Prop :=
  ∀ (R : ObsKind → Rat → Rat → Prop) (g : Nat) (t : Int) (p : ObservablesMSM), RowsFor R c.settings g t p rows → RowsAre R c.settings g t p h v

theorem obj_shown {c : MargoSetup} {o : ObservablesMSM} {rows : PyDict Txt Margo.Row} (hone : rnd 1 = 1) (hb : Margo.printBufferR rnd c.ctl o = .ok rows)
    {h : Heap} {b : Nat} (ho : ObjAt h b (.msm o)) : PrintedAs c (fun h v => ShowsRows c rows h v ∧ TableIs rows h v) h (.ref b) := by
  obtain ⟨a', ho'⟩ := ho
  refine ⟨b, _, rfl, ho'.rv, fun G a hg hc => Ends.of_call 4 (fun n => ?_)⟩
  obtain ⟨a', ho⟩ := (kept_of_ext hg).obj (o := .msm o) ⟨a', ho'⟩
  obtain ⟨k, l, hc⟩ := IsMargo.at hc
  have := print_buffer_call hc ho hone n
  rw [hb] at this
  obtain ⟨d, Y, h1, h2⟩ := this
  exact ⟨_, _, h1, fun R g t p hr => rows_shown hr h2, table_of_buf h2⟩

/-- The object is printed, and what is printed. -/
def Tabled (c : MargoSetup) (o : PyObj) (h : Heap) (v : Val) : Prop :=
  ∃ p rows, o = .msm p ∧ Margo.printBufferR rnd c.ctl p = .ok rows ∧ ShowsRows c rows h v ∧ TableIs rows h v

theorem KeptIn.tabled {c : MargoSetup} {o : PyObj} {h g : Heap} (hs : KeptIn h g) {v : Val} (ht : Tabled c o h v) : Tabled c o g v := by
  obtain ⟨p, rows, h1, h2, h3, h4⟩ := ht
  exact ⟨p, rows, h1, h2, fun R n t p hr => hs.rows (h3 R n t p hr), hs.table h4⟩

/-- The message is printed if it is decoded. -/
def Tabulable (c : MargoSetup) (all bare : Bool) (m : Bytes) : Prop :=
  ∀ o, supportedDecode all bare m = some o → ∃ p rows, o = .msm p ∧ Margo.printBufferR rnd c.ctl p = .ok rows

/-- What one message is to a decoder and a printer. -/
theorem margo_message (hone : rnd 1 = 1) {all bare : Bool} {a K : Nat} {fed got : List Bytes} {dec : List (Bytes × Val)} {h : Heap} (hu : InUse all bare a K fed got dec h)
    {c : MargoSetup} {s : Nat} (hc : IsMargo c h s) (m : Bytes) (hm : Tabulable c all bare m) :
    match supportedDecode all bare m with
    | none => ∃ h1, Ends n!"DecoderTop.decode" [.ref a, .bytes m] h (fun res => res = (.ok .none, h1)) ∧ KeptIn h h1 ∧
        InUse all bare a K fed got (dec ++ [(m, .none)]) h1
    | some o => supported all m = true ∧ ∃ b h1 fs x h2, Ends n!"DecoderTop.decode" [.ref a, .bytes m] h (fun res => res = (.ok (.ref b), h1)) ∧
        h1[b]? = some (.inst n!"ObservablesMSM" fs) ∧ Ends n!"MargoCore.ObservablesMSMtoPrintBuffer" [.ref s, .ref b] h1 (fun res => res = (.ok x, h2)) ∧
        Tabled c o h2 x ∧ KeptIn h h2 ∧ InUse all bare a K fed got (dec ++ [(m, .ref b)]) h2 := by
  obtain ⟨p, h1, -, -⟩ := inUse_inv hu
  obtain ⟨N, hN⟩ := h1.decode m
  obtain ⟨v, h', e1, -, e3, e4⟩ := hN 0
  have he := ends_of_fuel e1 (by simp)
  have hk := inUse_kept hu e3.1
  cases ho : supportedDecode all bare m with
  | none =>
    rw [ho] at e4
    obtain ⟨rfl, -⟩ := e4
    exact ⟨h', he, hk, .decoded m hu he⟩
  | some o =>
    obtain ⟨q, rows, rfl, hrows⟩ := hm o ho
    rw [ho] at e4
    obtain ⟨hsup, b, rfl, -, -⟩ := e4
    unfold supportedDecode at ho
    obtain ⟨k, hk1, ho⟩ := Option.bind_eq_some_iff.1 ho
    obtain ⟨f, hf, ho⟩ := Option.bind_eq_some_iff.1 ho
    have hon : familyOn (!all) f = true := by
      by_cases hon : familyOn (!all) f = true
      · exact hon
      · rw [if_neg hon] at ho; cases ho
    rw [if_pos hon] at ho
    obtain ⟨b', h'', e5, -, e6⟩ := deliver_obj hu hk1 hf hon ho (prop := PrintedAs c (fun h v => ShowsRows c rows h v ∧ TableIs rows h v)) (fun g b hb => obj_shown hone hrows hb)
    obtain ⟨N1, hN1⟩ := he
    have := ends_unique e5 hN1
    simp only [Prod.mk.injEq, Except.ok.injEq, Val.ref.injEq] at this
    obtain ⟨rfl, rfl⟩ := this
    obtain ⟨b1, fs, e7, e8, e9⟩ := e6
    cases e7
    obtain ⟨r, ⟨x, t, rfl, hx⟩, hr⟩ := Ends.result (e9 h'' s (fun _ _ h => h) (hk.margo hc)) (by rintro r ⟨x, t, rfl, -⟩; simp)
    have hl := (inUse_top (InUse.decoded m hu e5)).1
    refine ⟨hsup, b', h'', fs, x, h'' ++ t, e5, e8, hr, ⟨q, rows, rfl, hrows, hx⟩, ?_,
      .other (.decoded m hu e5) (by rw [List.length_append]; omega) (fun b hb => ?_)⟩
    · exact hk.trans' (kept_of_ext (fun b o hb => heap_old hb t))
    · rw [List.getElem?_append_left (by omega)]

theorem tabled_kept {c : MargoSetup} {h g : Heap} (hs : KeptIn h g) {os : List PyObj} {xs : List Val} (hx : List.Forall₂ (fun o x => Tabled c o h x) os xs) :
    List.Forall₂ (fun o x => Tabled c o g x) os xs := hx.imp (fun _ _ ht => hs.tabled ht)

/-- What the messages of a chunk are. -/
theorem margo_messages (hone : rnd 1 = 1) {all bare : Bool} {a K : Nat} {fed got : List Bytes} {c : MargoSetup} {s : Nat} (ms : List Bytes) :
    ∀ {dec : List (Bytes × Val)} {h : Heap}, InUse all bare a K fed got dec h → IsMargo c h s → (∀ m ∈ ms, Tabulable c all bare m) →
    ∃ xs h' l, Tabulated a s ms h xs h' ∧ KeptIn h h' ∧ InUse all bare a K fed got (dec ++ l) h' ∧ l.map Prod.fst = ms ∧
      l.countP (fun x => supported all x.1 && noneVal x.2) + xs.length = ms.countP (supported all) ∧
      List.Forall₂ (fun o x => Tabled c o h' x) (ms.filterMap (supportedDecode all bare)) xs := by
  induction ms with
  | nil => exact fun {dec h} hu hc _ => ⟨[], h, [], .done, fun _ _ _ h => h, by rw [List.append_nil]; exact hu, rfl, rfl, .nil⟩
  | cons m ms ih =>
    intro dec h hu hc hm
    have h1 := margo_message hone hu hc m (hm m (by simp))
    have hm' : ∀ m ∈ ms, Tabulable c all bare m := fun m h => hm m (by simp [h])
    cases ho : supportedDecode all bare m with
    | none =>
      rw [ho] at h1
      obtain ⟨h1, e1, e2, e3⟩ := h1
      obtain ⟨xs, h', l, f1, f2, f3, f4, f5, f6⟩ := ih e3 (e2.margo hc) hm'
      refine ⟨xs, h', (m, .none) :: l, .nothing e1 f1, e2.trans' f2, by rw [List.append_assoc] at f3; exact f3, by rw [List.map_cons, f4], ?_, ?_⟩
      · rw [List.countP_cons, List.countP_cons, ← f5]
        dsimp only
        cases supported all m <;> simp [noneVal] <;> omega
      · rw [List.filterMap_cons, ho]; exact f6
    | some o =>
      rw [ho] at h1
      obtain ⟨hsup, b, h1, fs, x, h2, e1, e2, e3, e4, e5, e6⟩ := h1
      obtain ⟨xs, h', l, f1, f2, f3, f4, f5, f6⟩ := ih e6 (e5.margo hc) hm'
      refine ⟨x :: xs, h', (m, .ref b) :: l, .object e1 e2 e3 f1, e5.trans' f2, by rw [List.append_assoc] at f3; exact f3, by rw [List.map_cons, f4], ?_, ?_⟩
      · rw [List.countP_cons, List.countP_cons, ← f5, hsup]
        simp [noneVal]
        omega
      · rw [List.filterMap_cons, ho]; exact .cons (f2.tabled e4) f6

/-- A message that is caught is one of the stream however it goes on. -/
theorem got_messages {all bare : Bool} {a K : Nat} (cs : List Bytes) : ∀ {fed got : List Bytes} {dec : List (Bytes × Val)} {h : Heap},
    InUse all bare a K fed got dec h → ∀ m ∈ got, m ∈ messages (fed ++ cs).flatten := by
  induction cs with
  | nil => intro fed got dec h hu m hm; rw [List.append_nil, ← (C96_messages hu).1]; exact hm
  | cons c cs ih =>
    intro fed got dec h hu m hm
    obtain ⟨ms, r, h1, -, -, -, e4⟩ := C96_catch hu c
    have := ih e4 m (List.mem_append_left _ hm)
    rw [List.append_assoc] at this
    exact this

/-- What the chunks of a file are, if the messages in them are printed. -/
theorem margo_chunks (hone : rnd 1 = 1) {all bare : Bool} {a K : Nat} {c : MargoSetup} {s : Nat} (cs : List Bytes) :
    ∀ {fed got : List Bytes} {dec : List (Bytes × Val)} {h : Heap}, InUse all bare a K fed got dec h → IsMargo c h s →
    (∀ m ∈ messages (fed ++ cs).flatten, Tabulable c all bare m) →
    ∃ xs h' l ms, MargoSession a s cs h xs h' ∧ KeptIn h h' ∧ InUse all bare a K (fed ++ cs) (got ++ ms) (dec ++ l) h' ∧ l.map Prod.fst = ms ∧
      l.countP (fun x => supported all x.1 && noneVal x.2) + xs.length = ms.countP (supported all) ∧
      List.Forall₂ (fun o x => Tabled c o h' x) (ms.filterMap (supportedDecode all bare)) xs := by
  induction cs with
  | nil => exact fun {fed got dec h} hu hc _ => ⟨[], h, [], [], .done, fun _ _ _ h => h, by rw [List.append_nil, List.append_nil, List.append_nil]; exact hu, rfl, rfl, .nil⟩
  | cons ch cs ih =>
    intro fed got dec h hu hc hm
    obtain ⟨ms, r, h1, e1, e2, e3, e4⟩ := C96_catch hu ch
    have k1 := inUse_kept hu e3
    have hm' : ∀ m ∈ messages ((fed ++ [ch]) ++ cs).flatten, Tabulable c all bare m := by rw [List.append_assoc]; exact hm
    obtain ⟨xs, h2, l, f1, f2, f3, f4, f5, f6⟩ := margo_messages hone ms e4 (k1.margo hc)
      (fun m h => hm' m (got_messages cs e4 m (List.mem_append_right _ h)))
    obtain ⟨ys, h3, l', ms', g1, g2, g3, g4, g5, g6⟩ := ih f3 (f2.margo (k1.margo hc)) hm'
    rw [List.append_assoc, List.append_assoc, List.append_assoc] at g3
    refine ⟨xs ++ ys, h3, l ++ l', ms ++ ms', .chunk e1 e2 f1 g1, (k1.trans' f2).trans' g2, g3, by rw [List.map_append, f4, g4], ?_, ?_⟩
    · rw [List.countP_append, List.countP_append, List.length_append]; omega
    · rw [List.filterMap_append]; exact List.rel_append (tabled_kept g2 f6) g6

theorem tabulated_unique {a s : Nat} {ms : List Bytes} {h h' : Heap} {xs : List Val} (hw : Tabulated a s ms h xs h') :
    ∀ {ys : List Val} {g : Heap}, Tabulated a s ms h ys g → ys = xs ∧ g = h' := by
  induction hw with
  | done => intro ys g hy; cases hy; exact ⟨rfl, rfl⟩
  | nothing hd hw ih =>
    intro ys g hy
    cases hy with
    | nothing hd' hw' =>
      have := ends_same hd hd'
      simp only [Prod.mk.injEq, true_and] at this
      subst this
      exact ih hw'
    | object hd' hb hs hw' =>
      have := ends_same hd hd'
      simp at this
  | object hd hb hs hw ih =>
    intro ys g hy
    cases hy with
    | nothing hd' hw' =>
      have := ends_same hd hd'
      simp at this
    | object hd' hb' hs' hw' =>
      have := ends_same hd hd'
      simp only [Prod.mk.injEq, Except.ok.injEq, Val.ref.injEq] at this
      obtain ⟨rfl, rfl⟩ := this
      have := ends_same hs hs'
      simp only [Prod.mk.injEq, Except.ok.injEq] at this
      obtain ⟨rfl, rfl⟩ := this
      obtain ⟨rfl, rfl⟩ := ih hw'
      exact ⟨rfl, rfl⟩

theorem margo_unique {a s : Nat} {cs : List Bytes} {h h' : Heap} {xs : List Val} (hw : MargoSession a s cs h xs h') :
    ∀ {ys : List Val} {g : Heap}, MargoSession a s cs h ys g → ys = xs ∧ g = h' := by
  induction hw with
  | done => intro ys g hy; cases hy; exact ⟨rfl, rfl⟩
  | chunk hc hr hw hn ih =>
    intro ys g hy
    cases hy with
    | chunk hc' hr' hw' hn' =>
      have := ends_same hc hc'
      simp only [Prod.mk.injEq, Except.ok.injEq, Val.ref.injEq] at this
      obtain ⟨rfl, rfl⟩ := this
      rw [hr] at hr'
      simp only [Option.some.injEq, Obj.list.injEq] at hr'
      have hj : Function.Injective (fun b : Bytes => Val.bytes b) := fun x y e => by injection e
      obtain rfl := (List.map_injective_iff.2 hj) hr'
      obtain ⟨rfl, rfl⟩ := tabulated_unique hw hw'
      obtain ⟨rfl, rfl⟩ := ih hn'
      exact ⟨rfl, rfl⟩

/-- The message is decoded to an object that is printed with the rows of the content. -/
def Printable (R : ObsKind → Rat → Rat → Prop) (c : MargoSetup) (d : MsmData) (m : Bytes) : Prop :=
  ∃ p rows t, supportedDecode false false m = some (.msm p) ∧ Margo.printBufferR rnd c.ctl p = .ok rows ∧
    (ValidTime c.leap d.g d.scaledObj → t = gpsTimeOfWeek c.leap d.g d.scaledObj.hdr.time d.scaledObj.hdr.day) ∧ RowsFor R c.settings d.g t d.scaledObj rows

theorem supported_of {all bare : Bool} {m : Bytes} {o : PyObj} (ho : supportedDecode all bare m = some o) : supported all m = true := by
  unfold supportedDecode at ho
  unfold supported
  obtain ⟨k, hk, ho⟩ := Option.bind_eq_some_iff.1 ho
  obtain ⟨f, hf, ho⟩ := Option.bind_eq_some_iff.1 ho
  rw [hk]
  dsimp only
  rw [hf]
  dsimp only
  by_cases hon : familyOn (!all) f = true
  · exact hon
  · rw [if_neg hon] at ho; cases ho

theorem not_supported {all bare : Bool} {m : Bytes} (h : supported all m = false) : supportedDecode all bare m = none := by
  cases ho : supportedDecode all bare m with
  | none => rfl
  | some o => rw [supported_of ho] at h; cases h

/-- What is no observation message is not for a decoder of observations. -/
theorem other_content {c : Content} (hw : c.WellFormed) (hc : ∀ d, c ≠ .msm d) : supported false c.frame = false := by
  have hf := frame_carries hw
  unfold supported
  cases c with
  | eph e =>
    rw [number_eph hw.2.2 (carries_eph hf)]
    dsimp only
    rw [family_eph e]
    rfl
  | base m =>
    obtain ⟨h1, h2⟩ := number_base hf
    rw [h1]
    dsimp only
    rw [h2]
    rfl
  | msm d => exact absurd rfl (hc d)

theorem other_frame {all : Bool} {gap f : Bytes} (hp : (⟨gap, .inr f⟩ : Piece).Ok) : supported all f = false := by
  have hno := hp.2.2
  unfold supported
  cases hn : numberIn f with
  | none => rfl
  | some n => dsimp only; rw [hno n hn]

/-- The objects of the frames among noise and other frames. -/
def MargoDecoded (R : ObsKind → Rat → Rat → Prop) (c : MargoSetup) (ps : List Piece) : Prop :=
  List.Forall₂ (fun d o => ∃ p rows t, o = .msm p ∧ Margo.printBufferR rnd c.ctl p = .ok rows ∧
    (ValidTime c.leap d.g d.scaledObj → t = gpsTimeOfWeek c.leap d.g d.scaledObj.hdr.time d.scaledObj.hdr.day) ∧ RowsFor R c.settings d.g t d.scaledObj rows)
    (msmsOf ps) ((ps.map Piece.frame).filterMap (supportedDecode false false)) ∧
    (ps.map Piece.frame).countP (supported false) = (msmsOf ps).length ∧ ∀ m ∈ ps.map Piece.frame, Tabulable c false false m

theorem margo_decoded {R : ObsKind → Rat → Rat → Prop} {c : MargoSetup} {ps : List Piece} (hp : ∀ p ∈ ps, p.Ok)
    (hd : ∀ d ∈ msmsOf ps, Printable R c d (Content.msm d).frame) : MargoDecoded R c ps := by
  induction ps with
  | nil => exact ⟨.nil, rfl, fun m hm => by cases hm⟩
  | cons p ps ih =>
    have hp' : ∀ q ∈ ps, q.Ok := fun q hq => hp q (by simp [hq])
    have skip : msmsOf (p :: ps) = msmsOf ps → supported false p.frame = false → MargoDecoded R c (p :: ps) := fun e hs => by
      obtain ⟨h1, h2, h3⟩ := ih hp' (by rw [← e]; exact hd)
      have hn := not_supported (bare := false) hs
      unfold MargoDecoded
      rw [e, List.map_cons, List.filterMap_cons, List.countP_cons, hn, h2, hs]
      refine And.intro h1 (And.intro rfl (fun m hm => ?_))
      rcases List.mem_cons.1 hm with rfl | hm
      · intro o ho; rw [hn] at ho; cases ho
      · exact h3 m hm
    obtain ⟨gap, item⟩ := p
    cases item with
    | inl x =>
      have hw : x.WellFormed := (hp _ List.mem_cons_self).2
      cases x with
      | msm d =>
        have e : msmsOf (⟨gap, .inl (.msm d)⟩ :: ps) = d :: msmsOf ps := rfl
        unfold MargoDecoded
        rw [e] at hd ⊢
        obtain ⟨h1, h2, h3⟩ := ih hp' (fun x hx => hd x (by simp [hx]))
        obtain ⟨p, rows, t, e1, e2, e3, e4⟩ := hd d (by simp)
        have ef : Piece.frame ⟨gap, .inl (.msm d)⟩ = (Content.msm d).frame := rfl
        rw [List.map_cons, List.filterMap_cons, List.countP_cons, h2, ef, e1, if_pos (supported_of e1)]
        refine ⟨.cons ⟨p, rows, t, rfl, e2, e3, e4⟩ h1, rfl, fun m hm => ?_⟩
        rcases List.mem_cons.1 hm with rfl | hm
        · intro o ho
          rw [e1] at ho
          cases ho
          exact ⟨p, rows, rfl, e2⟩
        · exact h3 m hm
      | eph e => exact skip rfl (other_content hw (by intro d h; cases h))
      | base e => exact skip rfl (other_content hw (by intro d h; cases h))
    | inr f => exact skip rfl (other_frame (hp _ List.mem_cons_self))

/-- Frames of contents among noise and other frames, converted. -/
theorem margo_pieces (hone : rnd 1 = 1) {R : ObsKind → Rat → Rat → Prop} {a K : Nat} {h : Heap} (hu : InUse false false a K [] [] [] h) {c : MargoSetup} {s : Nat}
    (hc : IsMargo c h s) (ps : List Piece) (hp : ∀ p ∈ ps, p.Ok) (hd : ∀ d ∈ msmsOf ps, Printable R c d (Content.msm d).frame)
    (last : Bytes) (hl : (0xD3 : UInt8) ∉ last) (chunks : List Bytes) (hch : chunks.flatten = (ps.map (fun p => p.gap ++ p.frame)).flatten ++ last) :
    ∃ xs h', MargoSession a s chunks h xs h' ∧ (∀ ys g, MargoSession a s chunks h ys g → ys = xs ∧ g = h') ∧
      List.Forall₂ (fun d x => PrintsRows R c d.g d.scaledObj h' x) (msmsOf ps) xs ∧
      Returns n!"DecoderTop.dec_attempts" [.ref a] h' (.int (msmsOf ps).length) ∧ Returns n!"DecoderTop.dec_errors" [.ref a] h' (.int 0) ∧
      Returns n!"DecoderTop.parse_errors" [.ref a] h' (.int ((ps.drop 1).countP (fun p => p.gap ≠ []))) := by
  obtain ⟨m1, m2⟩ := pieces_messages hp last hl
  rw [← hch] at m1 m2
  obtain ⟨p1, p2, p3⟩ := margo_decoded hp hd
  obtain ⟨xs, h', l, ms, e1, -, e3, e4, e5, e6⟩ := margo_chunks hone chunks hu hc (by rw [List.nil_append, m1]; exact p3)
  rw [List.nil_append, List.nil_append, List.nil_append] at e3
  obtain ⟨f1, f2⟩ := C96_messages e3
  obtain ⟨g1, g2⟩ := C97_counters e3
  have hm : l.countP (fun x => supported false x.1) = ms.countP (supported false) := by rw [← e4, List.countP_map]; rfl
  rw [hm] at g1
  rw [m1] at f1
  subst f1
  rw [p2] at g1 e5
  rw [m2] at f2
  have hlen : (msmsOf ps).length = xs.length := by rw [p1.length_eq, e6.length_eq]
  have h0 : l.countP (fun x => supported false x.1 && noneVal x.2) = 0 := by omega
  rw [h0] at g2
  refine ⟨xs, h', e1, fun ys g hy => margo_unique e1 hy, ?_, g1, g2, f2⟩
  refine forall_two_trans (p := fun (d : MsmData) x => PrintsRows R c d.g d.scaledObj h' x) ?_ p1 e6
  rintro d o x ⟨p, rows, t, rfl, a1, a2, a3⟩ ⟨q, rows', b1, b2, b3⟩
  cases b1
  rw [a1] at b2
  cases b2
  exact ⟨t, a2, b3.1 R _ t _ a3⟩

end

/-- The observation messages of the file are MSM4 … MSM7 whose signals have RINEX codes. -/
def Spec.Observed (ps : List Piece) : Prop := ∀ d ∈ msmsOf ps, 4 ≤ d.k ∧ d.SignalsKnown

/-- **C110** in exact arithmetic: a file with the frames of well-formed contents, among noise without the byte 0xD3 and valid frames of other messages, cut in any way, is given to a
decoder of observations, and what it decodes to a `MargoCore`: the calls come to an end with one result, which is a dictionary for every observation message, in order, with exactly
the rows of the message. All of them are in the heap at the end. Every observation message is an attempt, none is an error. -/
theorem C110_run {a K : Nat} {h : Heap} (hu : @InUse exactArith false false a K [] [] [] h) {c : MargoSetup} {s : Nat} (hc : IsMargo c h s)
    (ps : List Piece) (hp : ∀ p ∈ ps, p.Ok) (ho : Observed ps) (hC : (∃ d ∈ msmsOf ps, d.g = 1) → c.Tuned) (last : Bytes) (hl : (0xD3 : UInt8) ∉ last)
    (chunks : List Bytes) (hch : chunks.flatten = (ps.map (fun p => p.gap ++ p.frame)).flatten ++ last) :
    ∃ xs h', @MargoSession exactArith a s chunks h xs h' ∧ (∀ ys g, @MargoSession exactArith a s chunks h ys g → ys = xs ∧ g = h') ∧
      List.Forall₂ (fun d x => PrintsRows (fun _ x y => y = x) c d.g d.scaledObj h' x) (msmsOf ps) xs ∧
      @Returns exactArith n!"DecoderTop.dec_attempts" [.ref a] h' (.int (msmsOf ps).length) ∧
      @Returns exactArith n!"DecoderTop.dec_errors" [.ref a] h' (.int 0) ∧
      @Returns exactArith n!"DecoderTop.parse_errors" [.ref a] h' (.int ((ps.drop 1).countP (fun p => p.gap ≠ []))) := by
  let _ := exactArith
  refine margo_pieces rfl hu hc ps hp (fun d hd => ?_) last hl chunks hch
  have hwf := contents_wf hp _ ((msms_contents ps d).1 hd)
  have hw : d.WF := hwf.2.2
  have hv := frame_valid hwf
  have hca : d.CarriedBy (Content.msm d).frame := frame_carries hwf
  obtain ⟨hk, hs⟩ := ho d hd
  obtain ⟨f, h1, h2, h3, h4⟩ := msm_family hw hca false
  have hdec := C24_scaled d hw hk hs _ hv hca
  have hR := regular_scaled hw hs hv hca (estimate_high hk) hdec
  refine ⟨d.scaledObj, _, _, ?_, Margo.printBuffer_ok c.ctl hR (fun e => hC ⟨d, hd, e⟩), Margo.row_time c.ctl hw.g, ?_⟩
  · unfold supportedDecode
    rw [h1, Option.bind_some, h2, Option.bind_some, if_pos h3]
    show familyDecodeR id false f _ = _
    rw [familyDecodeR_id]
    rcases h4 with rfl | rfl <;> (show (decodeMsm17 false _).map msmObj = _; rw [hdec]; rfl)
  · unfold RowsFor
    rw [Margo.mrows_plan, List.forall₂_map_right_iff]
    refine List.forall₂_same.2 (fun ks _ => ⟨rfl, rfl, ?_⟩)
    unfold margoCols
    rw [List.map_map, List.forall₂_map_left_iff, List.forall₂_map_right_iff]
    refine List.forall₂_same.2 (fun i _ => ?_)
    show Option.Rel _ _ (Margo.cellOf _ _ _ _ _ _).val
    rw [Margo.val_cellOf, setup_settings]
    cases margoCell c.settings d.g d.scaledObj ks.1 ks.2 (i + 1) with
    | none => exact .none
    | some x => exact .some rfl

/-- **C110** in double precision: the same, and a number differs from the exact one by at most the tolerance of its kind. -/
theorem C110_double {rnd : Rat → Rat} (hr : Nearest rnd) {a K : Nat} {h : Heap} (hu : @InUse (doubleArith hr) false false a K [] [] [] h) {c : MargoSetup} {s : Nat}
    (hc : IsMargo c h s) (ps : List Piece) (hp : ∀ p ∈ ps, p.Ok) (ho : Observed ps) (hC : (∃ d ∈ msmsOf ps, d.g = 1) → c.Tuned) (hM : c.Moderate) (last : Bytes)
    (hl : (0xD3 : UInt8) ∉ last) (chunks : List Bytes) (hch : chunks.flatten = (ps.map (fun p => p.gap ++ p.frame)).flatten ++ last) :
    ∃ xs h', @MargoSession (doubleArith hr) a s chunks h xs h' ∧ (∀ ys g, @MargoSession (doubleArith hr) a s chunks h ys g → ys = xs ∧ g = h') ∧
      List.Forall₂ (fun d x => PrintsRows (fun k x y => |y - x| ≤ k.tolerance x) c d.g d.scaledObj h' x) (msmsOf ps) xs ∧
      @Returns (doubleArith hr) n!"DecoderTop.dec_attempts" [.ref a] h' (.int (msmsOf ps).length) ∧
      @Returns (doubleArith hr) n!"DecoderTop.dec_errors" [.ref a] h' (.int 0) ∧
      @Returns (doubleArith hr) n!"DecoderTop.parse_errors" [.ref a] h' (.int ((ps.drop 1).countP (fun p => p.gap ≠ []))) := by
  let _ := doubleArith hr
  refine margo_pieces (hr.keeps ⟨1, 0, by norm_num, by norm_num, by norm_num⟩) hu hc ps hp (fun d hd => ?_) last hl chunks hch
  have hwf := contents_wf hp _ ((msms_contents ps d).1 hd)
  have hw : d.WF := hwf.2.2
  have hv := frame_valid hwf
  have hca : d.CarriedBy (Content.msm d).frame := frame_carries hwf
  obtain ⟨hk, hs⟩ := ho d hd
  obtain ⟨f, h1, h2, h3, h4⟩ := msm_family hw hca false
  have hdec := C24_scaled d hw hk hs _ hv hca
  have hR := regular_scaled hw hs hv hca (estimate_high hk) hdec
  obtain ⟨p', e1, e2⟩ := Msm.decoded_rel hr hdec
  obtain ⟨rows, t, e3, e4, e5⟩ := Margo.rows_rel hr c.ctl hM e2 hR (fun e => hC ⟨d, hd, e⟩)
  refine ⟨p', rows, t, ?_, e3, e4, List.Forall₂.imp ?_ e5⟩
  · unfold supportedDecode
    rw [h1, Option.bind_some, h2, Option.bind_some, if_pos h3]
    rcases h4 with rfl | rfl <;> (show (decodeMsm17R rnd false _).map msmObj = _; rw [e1]; rfl)
  · rintro ks r ⟨a1, a2, a3, -⟩
    exact ⟨a1, a2, a3⟩

/-- What is printed for the message `m`: the rows of an object `p` with the header of a content that `m` carries, and the object is that of the
content, unless it is an MSM3 with a fine pseudorange marked invalid (see C25). -/
def Spec.TabledFor [Rounding] (R : ObsKind → Rat → Rat → Prop) (c : MargoSetup) (h : Heap) (m : Bytes) (v : Val) : Prop :=
  supported false m = true ∧ ∃ (d : MsmData) (p : ObservablesMSM), d.WF ∧ d.CarriedBy m ∧ (d.SignalsKnown ∧ LengthEstimateRight d) ∧ p.hdr = d.scaledObj.hdr ∧ p.atr = d.scaledObj.atr ∧
    ((d.k = 3 → ∀ x ∈ d.rngFine, x ≠ -(2 ^ 14)) → p = d.scaledObj) ∧ PrintsRows R c d.g p h v

/-- An observation message that must be printed: it carries a content with known signals, and is not an MSM2 or MSM3 of a length that
the decoder takes for wrong (see C22). -/
def Spec.MustPrint (m : Bytes) : Prop :=
  supported false m = true ∧ ∃ d : MsmData, d.WF ∧ d.CarriedBy m ∧ d.SignalsKnown ∧ LengthEstimateRight d

section
variable [Rounding]

/-- Whatever is decoded is printed. -/
def AllPrinted (R : ObsKind → Rat → Rat → Prop) (c : MargoSetup) : Prop :=
  ∀ m o, ValidFrame m → supportedDecode false false m = some o → ∃ (d : MsmData) (q p : ObservablesMSM) (rows : PyDict Txt Margo.Row) (t : Int),
    o = .msm p ∧ Margo.printBufferR rnd c.ctl p = .ok rows ∧ d.WF ∧ d.CarriedBy m ∧ (d.SignalsKnown ∧ LengthEstimateRight d) ∧ q.hdr = d.scaledObj.hdr ∧ q.atr = d.scaledObj.atr ∧
    ((d.k = 3 → ∀ x ∈ d.rngFine, x ≠ -(2 ^ 14)) → q = d.scaledObj) ∧ (ValidTime c.leap d.g q → t = gpsTimeOfWeek c.leap d.g q.hdr.time q.hdr.day) ∧ RowsFor R c.settings d.g t q rows

theorem printed_list {R : ObsKind → Rat → Rat → Prop} {c : MargoSetup} (hA : AllPrinted R c) {h : Heap} (ms : List Bytes) (hv : ∀ m ∈ ms, ValidFrame m) :
    ∀ {xs : List Val}, List.Forall₂ (fun o x => Tabled c o h x) (ms.filterMap (supportedDecode false false)) xs →
      List.Forall₂ (TabledFor R c h) (ms.filter (fun m => (supportedDecode false false m).isSome)) xs := by
  induction ms with
  | nil => intro xs hx; cases hx; exact .nil
  | cons m ms ih =>
    intro xs hx
    have ih := @ih (fun m h => hv m (by simp [h]))
    rw [List.filterMap_cons] at hx
    rw [List.filter_cons]
    cases ho : supportedDecode false false m with
    | none =>
      rw [ho] at hx
      rw [Option.isSome_none, if_neg Bool.false_ne_true]
      exact ih hx
    | some o =>
      rw [ho] at hx
      rw [Option.isSome_some, if_pos rfl]
      cases hx with
      | cons h1 h2 =>
        refine .cons ?_ (ih h2)
        obtain ⟨d, q, p, rows, t, rfl, e2, e3, e4, e5, e6, e7, e8, e9, e10⟩ := hA m o (hv m (by simp)) ho
        obtain ⟨p', rows', f1, f2, f3, -⟩ := h1
        cases f1
        rw [e2] at f2
        cases f2
        exact ⟨supported_of ho, d, q, e3, e4, e5, e6, e7, e8, t, e9, f3 R _ t _ e10⟩

/-- Any bytes, converted. -/
theorem margo_total (hone : rnd 1 = 1) {R : ObsKind → Rat → Rat → Prop} {a K : Nat} {h : Heap} (hu : InUse false false a K [] [] [] h) {c : MargoSetup} {s : Nat}
    (hc : IsMargo c h s) (hA : AllPrinted R c)
    (hB : ∀ m, ValidFrame m → MustPrint m → (supportedDecode false false m).isSome = true) (chunks : List Bytes) :
    ∃ xs h', MargoSession a s chunks h xs h' ∧ (∀ ys g, MargoSession a s chunks h ys g → ys = xs ∧ g = h') ∧
      (∃ keep : Bytes → Bool, (∀ m ∈ messages chunks.flatten, keep m = true ↔ MustPrint m) ∧ List.Forall₂ (TabledFor R c h') ((messages chunks.flatten).filter keep) xs) ∧
      ∃ errors, errors + xs.length = (messages chunks.flatten).countP (supported false) ∧
        Returns n!"DecoderTop.dec_attempts" [.ref a] h' (.int ((messages chunks.flatten).countP (supported false))) ∧
        Returns n!"DecoderTop.dec_errors" [.ref a] h' (.int errors) ∧
        Returns n!"DecoderTop.parse_errors" [.ref a] h' (.int (dirtyGaps (scan [] chunks.flatten).segs)) := by
  obtain ⟨xs, h', l, ms, e1, -, e3, e4, e5, e6⟩ := margo_chunks hone chunks hu hc (fun m hm o ho => by
    rw [List.nil_append] at hm
    obtain ⟨d, q, p, rows, t, f1, f2, -⟩ := hA m o (messages_valid _ m hm) ho
    exact ⟨p, rows, f1, f2⟩)
  rw [List.nil_append, List.nil_append, List.nil_append] at e3
  obtain ⟨f1, f2⟩ := C96_messages e3
  obtain ⟨g1, g2⟩ := C97_counters e3
  have hl : l.countP (fun x => supported false x.1) = ms.countP (supported false) := by rw [← e4, List.countP_map]; rfl
  rw [hl] at g1
  have hv : ∀ m ∈ ms, ValidFrame m := by rw [f1]; exact messages_valid _
  rw [← f1]
  refine ⟨xs, h', e1, fun ys g hy => margo_unique e1 hy, ⟨_, fun m hm => ⟨fun hk => ?_, fun hp => hB m (hv m hm) hp⟩, printed_list hA ms hv e6⟩, _, e5, g1, g2, f2⟩
  obtain ⟨o, ho⟩ := Option.isSome_iff_exists.1 hk
  obtain ⟨d, q, p, rows, t, -, -, a3, a4, a5, -⟩ := hA m o (hv m hm) ho
  exact ⟨supported_of ho, d, a3, a4, a5⟩

end

/-- What is decoded in exact arithmetic. -/
theorem decoded_regular {m : Bytes} (hv : ValidFrame m) {f : Family} {k : Nat} (hk : numberIn m = some k) (hf : family k = some f) (hon : familyOn true f = true) {o : PyObj}
    (ho : familyDecode false f m = some o) : ∃ (d : MsmData) (q : ObservablesMSM), o = .msm q ∧ decodeMsm17 false m = some (.inr q) ∧ Regular d.g q ∧ d.WF ∧ d.CarriedBy m ∧
      (d.SignalsKnown ∧ LengthEstimateRight d) ∧ q.hdr = d.scaledObj.hdr ∧ q.atr = d.scaledObj.atr ∧ ((d.k = 3 → ∀ x ∈ d.rngFine, x ≠ -(2 ^ 14)) → q = d.scaledObj) := by
  have hx : ∃ q, o = .msm q ∧ decodeMsm17 false m = some (.inr q) := by
    have key : (decodeMsm17 false m).map msmObj = some o → ∃ q, o = .msm q ∧ decodeMsm17 false m = some (.inr q) := by
      intro h
      obtain ⟨x, hx, he⟩ := Option.map_eq_some_iff.1 h
      cases x with
      | inr q => cases he; exact ⟨q, rfl, hx⟩
      | inl b =>
        rcases (C24_C27_scaled_iff m hv _).1 hx with ⟨d, -, -, -, h4⟩ | ⟨-, h4⟩
        · split at h4 <;> cases h4
        · cases h4
    cases f with
    | msm13 => exact key ho
    | msm47 => exact key ho
    | eph => cases hon
    | base => cases hon
  obtain ⟨q, rfl, hq⟩ := hx
  rcases (C24_C27_scaled_iff m hv _).1 hq with ⟨d, h1, h2, h3, h4⟩ | ⟨-, h4⟩
  · split at h4
    · rename_i hs
      obtain ⟨p, e1, e2, e3⟩ := C40_decoded d h1 hs h3 m hv h2
      rw [hq] at e1
      cases e1
      cases h4
      refine ⟨d, _, rfl, hq, e2, h1, h2, ⟨hs, h3⟩, rfl, rfl, fun hn => ?_⟩
      by_cases hk : d.k ≤ 3
      · rw [C25_partial d h1 hk hs hn h3 m hv h2] at hq
        exact (Sum.inr.inj (Option.some.inj hq)).symm
      · exact e3 (by omega)
    · cases h4
  · cases h4

/-- A message that must be printed is decoded. -/
theorem must_decode {m : Bytes} (hv : ValidFrame m) (h : MustPrint m) : ∃ k f o, numberIn m = some k ∧ family k = some f ∧ familyOn true f = true ∧ familyDecode false f m = some o := by
  obtain ⟨hs, d, h1, h2, h3, h4⟩ := h
  have hd := (C24_C27_scaled_iff m hv _).2 (.inl ⟨d, h1, h2, h4, rfl⟩)
  rw [if_pos h3] at hd
  unfold supported at hs
  cases hk : numberIn m with
  | none => rw [hk] at hs; cases hs
  | some k =>
    rw [hk] at hs
    dsimp only at hs
    cases hf : family k with
    | none => rw [hf] at hs; cases hs
    | some f =>
      rw [hf] at hs
      cases f with
      | msm13 => exact ⟨k, _, _, rfl, hf, hs, show (decodeMsm17 false m).map msmObj = some _ by rw [hd]; rfl⟩
      | msm47 => exact ⟨k, _, _, rfl, hf, hs, show (decodeMsm17 false m).map msmObj = some _ by rw [hd]; rfl⟩
      | eph => cases hs
      | base => cases hs

/-- Exact arithmetic: whatever is decoded is printed. -/
theorem all_printed {c : MargoSetup} (hC : c.Tuned) : @AllPrinted exactArith (fun _ x y => y = x) c := by
  let _ := exactArith
  intro m o hv ho
  unfold supportedDecode at ho
  obtain ⟨k, hk, ho⟩ := Option.bind_eq_some_iff.1 ho
  obtain ⟨f, hf, ho⟩ := Option.bind_eq_some_iff.1 ho
  by_cases hon : familyOn (!false) f = true
  swap
  · rw [if_neg hon] at ho; cases ho
  rw [if_pos hon] at ho
  change familyDecodeR id false f m = some o at ho
  rw [familyDecodeR_id] at ho
  obtain ⟨d, q, rfl, -, e2, e3, e4, e5, e6, e7, e8⟩ := decoded_regular hv hk hf hon ho
  refine ⟨d, q, q, _, _, rfl, Margo.printBuffer_ok c.ctl e2 (fun _ => hC), e3, e4, e5, e6, e7, e8, Margo.row_time c.ctl e3.g, ?_⟩
  unfold RowsFor
  rw [Margo.mrows_plan, List.forall₂_map_right_iff]
  refine List.forall₂_same.2 (fun ks _ => ⟨rfl, rfl, ?_⟩)
  unfold margoCols
  rw [List.map_map, List.forall₂_map_left_iff, List.forall₂_map_right_iff]
  refine List.forall₂_same.2 (fun i _ => ?_)
  show Option.Rel _ _ (Margo.cellOf _ _ _ _ _ _).val
  rw [Margo.val_cellOf, setup_settings]
  cases margoCell c.settings d.g q ks.1 ks.2 (i + 1) with
  | none => exact .none
  | some x => exact .some rfl

/-- **C111** in exact arithmetic: whatever the bytes of the file and however they are cut into chunks, the calls come to an end without an exception, with one result. Of
the messages in the stream every observation message is printed or counted as an error, in order, and it is printed if and only if
it must be (`MustPrint`); what is printed for a message are the rows of a
content that the message carries. -/
theorem C111_run {a K : Nat} {h : Heap} (hu : @InUse exactArith false false a K [] [] [] h) {c : MargoSetup} (hC : c.Tuned) {s : Nat} (hc : IsMargo c h s)
    (chunks : List Bytes) :
    ∃ xs h', @MargoSession exactArith a s chunks h xs h' ∧ (∀ ys g, @MargoSession exactArith a s chunks h ys g → ys = xs ∧ g = h') ∧
      (∃ keep : Bytes → Bool, (∀ m ∈ messages chunks.flatten, keep m = true ↔ MustPrint m) ∧ List.Forall₂ (@TabledFor exactArith (fun _ x y => y = x) c h') ((messages chunks.flatten).filter keep) xs) ∧
      ∃ errors, errors + xs.length = (messages chunks.flatten).countP (supported false) ∧
        @Returns exactArith n!"DecoderTop.dec_attempts" [.ref a] h' (.int ((messages chunks.flatten).countP (supported false))) ∧
        @Returns exactArith n!"DecoderTop.dec_errors" [.ref a] h' (.int errors) ∧
        @Returns exactArith n!"DecoderTop.parse_errors" [.ref a] h' (.int (dirtyGaps (scan [] chunks.flatten).segs)) := by
  let _ := exactArith
  refine margo_total rfl hu hc (all_printed hC) (fun m hv hm => ?_) chunks
  · obtain ⟨k, f, o, h1, h2, h3, h4⟩ := must_decode hv hm
    unfold supportedDecode
    rw [h1, Option.bind_some, h2, Option.bind_some]
    show (if familyOn true f = true then familyDecodeR id false f m else none).isSome = true
    rw [if_pos h3, familyDecodeR_id, h4]
    rfl

/-- Double precision: whatever is decoded is printed. -/
theorem all_printed_double {rnd : Rat → Rat} (hr : Nearest rnd) {c : MargoSetup} (hC : c.Tuned) (hM : c.Moderate) : @AllPrinted (doubleArith hr) (fun k x y => |y - x| ≤ k.tolerance x) c := by
  let _ := doubleArith hr
  intro m o hv ho
  unfold supportedDecode at ho
  obtain ⟨k, hk, ho⟩ := Option.bind_eq_some_iff.1 ho
  obtain ⟨f, hf, ho⟩ := Option.bind_eq_some_iff.1 ho
  by_cases hon : familyOn (!false) f = true
  swap
  · rw [if_neg hon] at ho; cases ho
  rw [if_pos hon] at ho
  change familyDecodeR rnd false f m = some o at ho
  have h5 := family_rel hr false f m (frame_short hv)
  cases h6 : familyDecode false f m with
  | none => rw [h6, ho] at h5; cases h5
  | some o' =>
    obtain ⟨d, q, rfl, e1, e2, e3, e4, e5, e6, e7, e8⟩ := decoded_regular hv hk hf hon h6
    obtain ⟨p', a1, a2⟩ := Msm.decoded_rel hr e1
    have ho' : o = .msm p' := by
      cases f with
      | msm13 => change (decodeMsm17R rnd false m).map msmObj = some o at ho; rw [a1] at ho; cases ho; rfl
      | msm47 => change (decodeMsm17R rnd false m).map msmObj = some o at ho; rw [a1] at ho; cases ho; rfl
      | eph => cases hon
      | base => cases hon
    obtain ⟨rows, t, b1, b2, b3⟩ := Margo.rows_rel hr c.ctl hM a2 e2 (fun _ => hC)
    refine ⟨d, q, p', rows, t, ho', b1, e3, e4, e5, e6, e7, e8, b2, List.Forall₂.imp ?_ b3⟩
    rintro ks r ⟨a1, a2, a3, -⟩
    exact ⟨a1, a2, a3⟩

/-- **C111** in double precision: the same, with numbers within the tolerance of their kind. -/
theorem C111_double {rnd : Rat → Rat} (hr : Nearest rnd) {a K : Nat} {h : Heap} (hu : @InUse (doubleArith hr) false false a K [] [] [] h) {c : MargoSetup} (hC : c.Tuned)
    (hM : c.Moderate) {s : Nat} (hc : IsMargo c h s) (chunks : List Bytes) :
    ∃ xs h', @MargoSession (doubleArith hr) a s chunks h xs h' ∧ (∀ ys g, @MargoSession (doubleArith hr) a s chunks h ys g → ys = xs ∧ g = h') ∧
      (∃ keep : Bytes → Bool, (∀ m ∈ messages chunks.flatten, keep m = true ↔ MustPrint m) ∧ List.Forall₂ (@TabledFor (doubleArith hr) (fun k x y => |y - x| ≤ k.tolerance x) c h') ((messages chunks.flatten).filter keep) xs) ∧
      ∃ errors, errors + xs.length = (messages chunks.flatten).countP (supported false) ∧
        @Returns (doubleArith hr) n!"DecoderTop.dec_attempts" [.ref a] h' (.int ((messages chunks.flatten).countP (supported false))) ∧
        @Returns (doubleArith hr) n!"DecoderTop.dec_errors" [.ref a] h' (.int errors) ∧
        @Returns (doubleArith hr) n!"DecoderTop.parse_errors" [.ref a] h' (.int (dirtyGaps (scan [] chunks.flatten).segs)) := by
  let _ := doubleArith hr
  refine margo_total (hr.keeps ⟨1, 0, by norm_num, by norm_num, by norm_num⟩) hu hc (all_printed_double hr hC hM) (fun m hv hm => ?_) chunks
  · obtain ⟨k, f, o, h1, h2, h3, h4⟩ := must_decode hv hm
    have h5 := family_rel hr false f m (frame_short hv)
    unfold supportedDecode
    rw [h1, Option.bind_some, h2, Option.bind_some]
    show (if familyOn true f = true then familyDecodeR rnd false f m else none).isSome = true
    rw [if_pos h3]
    rw [h4] at h5
    generalize familyDecodeR rnd false f m = z at h5
    cases h5
    rfl

section
variable [Rounding]

/-- The two values are dictionaries with the same names in the same order, and under each name are lists with the same elements. -/
def Spec.SameTable (h h' : Heap) (v v' : Val) : Prop :=
  ∃ b b' d d', v = .ref b ∧ v' = .ref b' ∧ h[b]? = some (.dict d) ∧ h'[b']? = some (.dict d') ∧
    List.Forall₂ (fun e e' => e'.1 = e.1 ∧ ∃ w w' l, e.2 = .ref w ∧ e'.2 = .ref w' ∧ h[w]? = some (.list l) ∧ h'[w']? = some (.list l)) d d'

theorem same_table {rows : PyDict Txt Margo.Row} {h h' : Heap} {v v' : Val} (h1 : TableIs rows h v) (h2 : TableIs rows h' v') : SameTable h h' v v' := by
  obtain ⟨b, d, rfl, e2, e3⟩ := h1
  obtain ⟨b', d', rfl, f2, f3⟩ := h2
  refine ⟨b, b', d, d', rfl, rfl, e2, f2, forall_two_same ?_ e3 f3⟩
  rintro r e e' ⟨a1, w, a2, a3⟩ ⟨b1, w', b2, b3⟩
  exact ⟨by rw [a1, b1], w, w', _, a2, b2, a3, b3⟩

theorem margo_cut (hone : rnd 1 = 1) {R : ObsKind → Rat → Rat → Prop} {c : MargoSetup} (hA : AllPrinted R c) {a K a' K' : Nat} {h h' : Heap}
    (hu : InUse false false a K [] [] [] h) (hu' : InUse false false a' K' [] [] [] h') {s s' : Nat} (hc : IsMargo c h s) (hc' : IsMargo c h' s')
    {chunks chunks' : List Bytes} (hf : chunks'.flatten = chunks.flatten) {xs ys : List Val} {g g' : Heap} (hx : MargoSession a s chunks h xs g)
    (hy : MargoSession a' s' chunks' h' ys g') :
    List.Forall₂ (SameTable g g') xs ys ∧
      ∀ f ∈ [n!"DecoderTop.dec_attempts", n!"DecoderTop.dec_errors", n!"DecoderTop.parse_errors"], ∃ v, Returns f [.ref a] g v ∧ Returns f [.ref a'] g' v := by
  have hT : ∀ cs : List Bytes, ∀ m ∈ messages (([] : List Bytes) ++ cs).flatten, Tabulable c false false m := fun cs m hm o ho => by
    obtain ⟨d, q, p, rows, t, f1, f2, -⟩ := hA m o (messages_valid _ m hm) ho
    exact ⟨p, rows, f1, f2⟩
  obtain ⟨xs1, g1, l, ms, e1, -, e3, e4, e5, e6⟩ := margo_chunks hone chunks hu hc (hT _)
  obtain ⟨xs2, g2, l', ms', f1, -, f3, f4, f5, f6⟩ := margo_chunks hone chunks' hu' hc' (hT _)
  obtain ⟨rfl, rfl⟩ := margo_unique e1 hx
  obtain ⟨rfl, rfl⟩ := margo_unique f1 hy
  rw [List.nil_append, List.nil_append, List.nil_append] at e3 f3
  obtain ⟨a1, a2⟩ := C96_messages e3
  obtain ⟨b1, b2⟩ := C96_messages f3
  obtain ⟨a3, a4⟩ := C97_counters e3
  obtain ⟨b3, b4⟩ := C97_counters f3
  rw [hf] at b1 b2
  have hm : ms' = ms := by rw [a1, b1]
  subst hm
  have hl : l.countP (fun x => supported false x.1) = ms'.countP (supported false) := by rw [← e4, List.countP_map]; rfl
  have hl' : l'.countP (fun x => supported false x.1) = ms'.countP (supported false) := by rw [← f4, List.countP_map]; rfl
  have hxy : List.Forall₂ (SameTable g g') xs ys := forall_two_same (fun o x y h1 h2 => by
    obtain ⟨p, rows, rfl, c1, -, c2⟩ := h1
    obtain ⟨p', rows', d0, d1, -, d2⟩ := h2
    cases d0
    rw [c1] at d1
    cases d1
    exact same_table c2 d2) e6 f6
  have hlen := hxy.length_eq
  rw [hl] at a3
  rw [hl'] at b3
  have he : l'.countP (fun x => supported false x.1 && noneVal x.2) = l.countP (fun x => supported false x.1 && noneVal x.2) := by omega
  rw [he] at b4
  refine ⟨hxy, fun f hf => ?_⟩
  simp only [List.mem_cons, List.not_mem_nil, or_false] at hf
  rcases hf with rfl | rfl | rfl
  · exact ⟨_, a3, b3⟩
  · exact ⟨_, a4, b4⟩
  · exact ⟨_, a2, b2⟩

end

/-- **C112** the MARGO rows, in exact arithmetic: they do not depend on how the bytes are cut into chunks, nor on what else is in the heap. -/
theorem C112_margo {c : MargoSetup} (hC : c.Tuned) {a K a' K' : Nat} {h h' : Heap}
    (hu : @InUse exactArith false false a K [] [] [] h) (hu' : @InUse exactArith false false a' K' [] [] [] h') {s s' : Nat} (hc : IsMargo c h s) (hc' : IsMargo c h' s')
    {chunks chunks' : List Bytes} (hf : chunks'.flatten = chunks.flatten) {xs ys : List Val} {g g' : Heap} (hx : @MargoSession exactArith a s chunks h xs g)
    (hy : @MargoSession exactArith a' s' chunks' h' ys g') :
    List.Forall₂ (SameTable g g') xs ys ∧ ∀ f ∈ [n!"DecoderTop.dec_attempts", n!"DecoderTop.dec_errors", n!"DecoderTop.parse_errors"],
      ∃ v, @Returns exactArith f [.ref a] g v ∧ @Returns exactArith f [.ref a'] g' v :=
  @margo_cut exactArith rfl _ c (all_printed hC) _ _ _ _ _ _ hu hu' _ _ hc hc' _ _ hf _ _ _ _ hx hy

/-- **C112** the MARGO rows, in double precision: the same numbers. -/
theorem C112_margo_double {rnd : Rat → Rat} (hr : Nearest rnd) {c : MargoSetup} (hC : c.Tuned) (hM : c.Moderate) {a K a' K' : Nat} {h h' : Heap}
    (hu : @InUse (doubleArith hr) false false a K [] [] [] h) (hu' : @InUse (doubleArith hr) false false a' K' [] [] [] h') {s s' : Nat} (hc : IsMargo c h s)
    (hc' : IsMargo c h' s') {chunks chunks' : List Bytes} (hf : chunks'.flatten = chunks.flatten) {xs ys : List Val} {g g' : Heap}
    (hx : @MargoSession (doubleArith hr) a s chunks h xs g) (hy : @MargoSession (doubleArith hr) a' s' chunks' h' ys g') :
    List.Forall₂ (SameTable g g') xs ys ∧ ∀ f ∈ [n!"DecoderTop.dec_attempts", n!"DecoderTop.dec_errors", n!"DecoderTop.parse_errors"],
      ∃ v, @Returns (doubleArith hr) f [.ref a] g v ∧ @Returns (doubleArith hr) f [.ref a'] g' v :=
  @margo_cut (doubleArith hr) (hr.keeps ⟨1, 0, by norm_num, by norm_num, by norm_num⟩) _ c (all_printed_double hr hC hM) _ _ _ _ _ _ hu hu' _ _ hc hc' _ _ hf _ _ _ _ hx hy

/-! ## The hypotheses are met -/

/-- A new decoder of observations and a `MargoCore` in one heap. -/
theorem inUse_margo [Rounding] (all bare : Bool) (c : MargoSetup) : ∃ a K h s, InUse all bare a K [] [] [] h ∧ IsMargo c h s := by
  obtain ⟨a, h, hu⟩ := inUse_exists all bare
  refine ⟨a, h.length, h ++ [.inst n!"MargoCore" [(n!"ctrl", .ref (h.length + 1))],
      .inst n!"MargoControls" [(n!"half_cycle_enable", .bool c.half), (n!"lock_time_enable", .bool c.lock), (n!"gps_utc_shift", .int c.leap),
        (n!"glo_lit_tab", .ref (h.length + 2))], .dict (c.table.map (fun p => (.int (p.1 : Nat), .int p.2)))], h.length,
    .other hu (by rw [List.length_append]; omega) (fun b hb => List.getElem?_append_left hb), h.length + 1, h.length + 2,
    append_getElem0 _ _, append_getElem _ _ _, append_getElem _ _ _⟩

/-- Noise, an observation message of Galileo, a station description and an observation message of GLONASS. -/
def exFile : List Piece := [⟨[1, 2], .inl (.msm exMsm5)⟩, ⟨[], .inl (.base (.m1006 sampleRef 65535))⟩, ⟨[7], .inl (.msm exGlo5)⟩]

theorem exFile_ok : (∀ p ∈ exFile, p.Ok) ∧ Observed exFile := by
  have hg : (Content.msm exGlo5).WellFormed :=
    ⟨by simp only [Content.layout, Content.vals]; decide +kernel, by decide +kernel, (by decide +kernel : exGlo5.WF)⟩
  have h5 := (exContents_ok (.msm exMsm5) (by simp [exContents])).1
  have hb := (exContents_ok (.base (.m1006 sampleRef 65535)) (by simp [exContents])).1
  constructor
  · simp only [exFile, List.mem_cons, List.not_mem_nil, or_false, forall_eq_or_imp, forall_eq]
    exact ⟨⟨by decide, h5⟩, ⟨by decide, hb⟩, ⟨by decide, hg⟩⟩
  · have e : msmsOf exFile = [exMsm5, exGlo5] := rfl
    unfold Observed
    rw [e]
    simp only [List.mem_cons, List.not_mem_nil, or_false, forall_eq_or_imp, forall_eq]
    exact ⟨⟨by decide, by decide +kernel⟩, ⟨by decide, by decide +kernel⟩⟩

/-- The file, cut after the seventh byte: two dictionaries; the frame after noise is counted. -/
example : ∃ a h s xs h', IsMargo exSetup h s ∧
    @MargoSession exactArith a s [((exFile.map (fun p : Piece => p.gap ++ p.frame)).flatten ++ [5]).take 7, ((exFile.map (fun p : Piece => p.gap ++ p.frame)).flatten ++ [5]).drop 7] h xs h' ∧
    xs.length = 2 ∧ @Returns exactArith n!"DecoderTop.dec_attempts" [.ref a] h' (.int 2) ∧ @Returns exactArith n!"DecoderTop.parse_errors" [.ref a] h' (.int 1) := by
  obtain ⟨a, K, h, s, hu, hc⟩ := @inUse_margo exactArith false false exSetup
  obtain ⟨xs, h', h1, -, h2, h3, -, h4⟩ := C110_run hu hc exFile exFile_ok.1 exFile_ok.2 (fun _ => exSetup_tuned) [5] (by decide)
    [((exFile.map (fun p : Piece => p.gap ++ p.frame)).flatten ++ [5]).take 7, ((exFile.map (fun p : Piece => p.gap ++ p.frame)).flatten ++ [5]).drop 7]
    (by rw [List.flatten_cons, List.flatten_cons, List.flatten_nil, List.append_nil, List.take_append_drop])
  exact ⟨a, h, s, xs, h', hc, h1, h2.length_eq.symm, h3, h4⟩

/-- Double precision. -/
example {rnd : Rat → Rat} (hr : Nearest rnd) : ∃ a h s xs h', IsMargo exSetup h s ∧
    @MargoSession (doubleArith hr) a s [(exFile.map (fun p : Piece => p.gap ++ p.frame)).flatten ++ [5]] h xs h' ∧ xs.length = 2 := by
  obtain ⟨a, K, h, s, hu, hc⟩ := @inUse_margo (doubleArith hr) false false exSetup
  obtain ⟨xs, h', h1, -, h2, -⟩ := C110_double hr hu hc exFile exFile_ok.1 exFile_ok.2 (fun _ => exSetup_tuned) exSetup_moderate [5] (by decide)
    [(exFile.map (fun p : Piece => p.gap ++ p.frame)).flatten ++ [5]] (by rw [List.flatten_cons, List.flatten_nil, List.append_nil])
  exact ⟨a, h, s, xs, h', hc, h1, h2.length_eq.symm⟩

/-- C111: any bytes. -/
example (bytes : Bytes) : ∃ a h s xs h', IsMargo exSetup h s ∧ @MargoSession exactArith a s [bytes, bytes] h xs h' := by
  obtain ⟨a, K, h, s, hu, hc⟩ := @inUse_margo exactArith false false exSetup
  obtain ⟨xs, h', h1, -⟩ := C111_run hu exSetup_tuned hc [bytes, bytes]
  exact ⟨a, h, s, xs, h', hc, h1⟩

/-- C111, in double precision. -/
example {rnd : Rat → Rat} (hr : Nearest rnd) (bytes : Bytes) : ∃ a h s xs h', IsMargo exSetup h s ∧ @MargoSession (doubleArith hr) a s [bytes] h xs h' := by
  obtain ⟨a, K, h, s, hu, hc⟩ := @inUse_margo (doubleArith hr) false false exSetup
  obtain ⟨xs, h', h1, -⟩ := C111_double hr hu exSetup_tuned exSetup_moderate hc [bytes]
  exact ⟨a, h, s, xs, h', hc, h1⟩

/-- A message that must be printed. -/
example : MustPrint (Content.msm exMsm5).frame :=
  ⟨by decide +kernel, exMsm5, (exContents_ok (.msm exMsm5) (by simp [exContents])).1.2.2, frame_carries (exContents_ok (.msm exMsm5) (by simp [exContents])).1,
    by decide +kernel, by decide, by decide⟩

/-- C112: any bytes, in one chunk and in two. -/
example (x y : Bytes) : ∃ a h s xs ys g g', @MargoSession exactArith a s [x ++ y] h xs g ∧ @MargoSession exactArith a s [x, y] h ys g' ∧ List.Forall₂ (SameTable g g') xs ys := by
  obtain ⟨a, K, h, s, hu, hc⟩ := @inUse_margo exactArith false false exSetup
  obtain ⟨xs, g, h1, -⟩ := C111_run hu exSetup_tuned hc [x ++ y]
  obtain ⟨ys, g', h2, -⟩ := C111_run hu exSetup_tuned hc [x, y]
  exact ⟨a, h, s, xs, ys, g, g', h1, h2, (C112_margo exSetup_tuned hu hu hc hc (by simp) h1 h2).1⟩

/-- C112, in double precision. -/
example {rnd : Rat → Rat} (hr : Nearest rnd) (x y : Bytes) : ∃ a h s xs ys g g', @MargoSession (doubleArith hr) a s [x ++ y] h xs g ∧
    @MargoSession (doubleArith hr) a s [x, y] h ys g' ∧ List.Forall₂ (SameTable g g') xs ys := by
  obtain ⟨a, K, h, s, hu, hc⟩ := @inUse_margo (doubleArith hr) false false exSetup
  obtain ⟨xs, g, h1, -⟩ := C111_double hr hu exSetup_tuned exSetup_moderate hc [x ++ y]
  obtain ⟨ys, g', h2, -⟩ := C111_double hr hu exSetup_tuned exSetup_moderate hc [x, y]
  exact ⟨a, h, s, xs, ys, g, g', h1, h2, (C112_margo_double hr exSetup_tuned exSetup_moderate hu hu hc hc (by simp) h1 h2).1⟩

end Verif
