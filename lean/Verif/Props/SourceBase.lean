import Verif.Props.SourceText
import Verif.Refine.Base
import Verif.Props.Base
import Verif.Spec.BaseNames
import Verif.Spec.Arithmetic
import Verif.Lemmas.ExactArith

/-!
Claims about the text of `sub_decoders/RTCM_BASE.py`.
-/

namespace Verif
open Spec PyCore Refine
open Rounding (rnd)

section
variable [Rounding]

/-- In the heap, `a` is a sub-decoder of base station data as `SubdecoderBaseStationData.__init__` (sub_decoders/RTCM_BASE.py:435-440) leaves
it: an object with a decoder of its own and the mode; the attribute `io` is not used by the method. -/
def BaseSub (h : Heap) (a : Nat) (bare : Bool) : Prop :=
  ∃ fs d l, h[a]? = some (.inst n!"SubdecoderBaseStationData" fs) ∧ fs.lookup n!"decoder" = some (.ref d) ∧
    fs.lookup n!"_SubdecoderBaseStationData__is_bare_data" = some (.bool bare) ∧ h[d]? = some (.inst n!"BaseStationDataDecoder" [(n!"msgList", l)])

theorem attrs_held {h : Heap} {b : Nat} {c : Ident} {fs : List (Ident × Val)} (hb : h[b]? = some (.inst c fs)) {L : List (String × Val)}
    (hL : L.map (fun p => fs.lookup (identOf p.1)) = L.map (fun p => some p.2)) : ∀ p ∈ L, pathVal h (.ref b) [p.1] = some p.2 := by
  intro p hp
  have h1 := List.map_inj_left.1 hL p hp
  change (h[b]?.bind (attrVal · p.1)).bind (fun v => some v) = _
  rw [hb]
  change (fs.lookup (identOf p.1)).bind (fun v => some v) = _
  rw [h1]
  rfl

theorem of_class {h : Heap} {b : Nat} {c : Ident} {fs : List (Ident × Val)} (hb : h[b]? = some (.inst c fs)) {x : String} (hx : identOf x = c) :
    IsOfClass h (.ref b) x := ⟨b, fs, rfl, hx ▸ hb⟩

theorem entry_held {h : Heap} {b d : Nat} {c : Ident} {fs : List (Ident × Val)} {D : List (Val × Val)} {x : String} (hb : h[b]? = some (.inst c fs))
    (hx : fs.lookup (identOf x) = some (.ref d)) (hd : h[d]? = some (.dict D)) (k : Val) : entryOf h (.ref b) x k = dictGet D k := by
  unfold entryOf
  have : pathVal h (.ref b) [x] = some (.ref d) := by
    change (h[b]?.bind (attrVal · x)).bind (fun v => some v) = _
    rw [hb]
    change (fs.lookup (identOf x)).bind (fun v => some v) = _
    rw [hx]
    rfl
  rw [this]
  change itemVal h (.ref d) k = _
  unfold itemVal
  dsimp only
  rw [hd]

theorem foldl_set_get {α : Type} (f : Int × Int × Int → α) (k : Int) : ∀ (ann : List (Int × Int × Int)) (d : PyDict Int α),
    (ann.foldl (fun d a => d.set a.1 (f a)) d).get? k = (((ann.filter (fun x => x.1 == k)).getLast?).map f).or (d.get? k)
  | [], d => rfl
  | a :: ann, d => by
    rw [List.foldl_cons, foldl_set_get f k ann, PyDict.get?_set, List.filter_cons]
    by_cases e : a.1 = k
    · rw [if_pos e.symm, if_pos (by rw [beq_iff_eq]; exact e)]
      cases ann.filter (fun x => x.1 == k) with
      | nil => rfl
      | cons y l => rw [List.getLast?_cons_cons]; cases hl : (y :: l).getLast? with
        | none => simp at hl
        | some z => rfl
    · rw [if_neg (fun e' => e e'.symm), if_neg (by rw [beq_iff_eq]; exact e)]

/-- All attributes one by one. -/
macro "attr_by_attr" : tactic => `(tactic| (
  simp only [BaseMsg.attrs, refAttrs, antennaAttrs, textAttrs, BaseMsg.plainAttrs, List.map_append, List.map_cons, List.map_nil, List.cons_append,
    List.nil_append, String.reduceAppend]
  repeat' (first | exact rfl | refine congrArg₂ List.cons ?_ ?_)))

theorem held_bare {m : BaseMsg} {h : Heap} {b : Nat} (hb : BareShown (bareObj m) h b) : m.HeldBare h (.ref b) := by
  cases m with
  | m1005 p => exact ⟨of_class hb (by dsimp only [BaseMsg.className]; rfl), attrs_held hb (by attr_by_attr), trivial⟩
  | m1006 p x => exact ⟨of_class hb (by dsimp only [BaseMsg.className]; rfl), attrs_held hb (by attr_by_attr), trivial⟩
  | m1007 id d u => exact ⟨of_class hb (by dsimp only [BaseMsg.className]; rfl), attrs_held hb (by attr_by_attr), trivial⟩
  | m1008 id d u s => exact ⟨of_class hb (by dsimp only [BaseMsg.className]; rfl), attrs_held hb (by attr_by_attr), trivial⟩
  | m1033 id d u s r f n => exact ⟨of_class hb (by dsimp only [BaseMsg.className]; rfl), attrs_held hb (by attr_by_attr), trivial⟩
  | m1013 id mjd sec leap ann =>
    obtain ⟨d, h1, h2, h3⟩ := hb
    refine ⟨of_class h1 (by dsimp only [BaseMsg.className]; rfl), attrs_held h1 (by attr_by_attr), ?_⟩
    intro k
    rw [entry_held h1 (by rfl) h2]
    unfold schedDict
    rw [encD_get _ keyEnc_int]
    dsimp only
    rw [foldl_set_get (fun a => (a.2.1, a.2.2))]
    cases (ann.filter (fun x => x.1 == k)).getLast? <;> rfl
  | m1029 id mjd sec n t => exact ⟨of_class hb (by dsimp only [BaseMsg.className]; rfl), attrs_held hb (by attr_by_attr), trivial⟩
  | m1230 id al a' b' c' d' =>
    obtain ⟨d, e, h1, h2, h3, h4, h5, h6⟩ := hb
    refine ⟨of_class h1 (by dsimp only [BaseMsg.className]; rfl), attrs_held h1 (by attr_by_attr), ?_⟩
    intro k hk
    rw [entry_held h1 (by rfl) h2, entry_held h1 (by rfl) h3]
    simp only [List.mem_cons, List.not_mem_nil, or_false] at hk
    rcases hk with rfl | rfl | rfl | rfl <;> exact ⟨rfl, rfl⟩

theorem held_scaled {f : List UInt8 → String} {m : BaseMsg} {h : Heap} {b : Nat} (hb : ScaledBase (scaledObj f m) h b) : m.HeldScaled f h (.ref b) := by
  cases m with
  | m1005 p => exact ⟨of_class hb (by dsimp only [BaseMsg.className]; rfl), attrs_held hb (by attr_by_attr), trivial⟩
  | m1006 p x => exact ⟨of_class hb (by dsimp only [BaseMsg.className]; rfl), attrs_held hb (by attr_by_attr), trivial⟩
  | m1007 id d u => exact ⟨of_class hb (by dsimp only [BaseMsg.className]; rfl), attrs_held hb (by attr_by_attr), trivial⟩
  | m1008 id d u s => exact ⟨of_class hb (by dsimp only [BaseMsg.className]; rfl), attrs_held hb (by attr_by_attr), trivial⟩
  | m1033 id d u s r f n => exact ⟨of_class hb (by dsimp only [BaseMsg.className]; rfl), attrs_held hb (by attr_by_attr), trivial⟩
  | m1013 id mjd sec leap ann =>
    obtain ⟨d, h1, h2, h3⟩ := hb
    refine ⟨of_class h1 (by dsimp only [BaseMsg.className]; rfl), attrs_held h1 (by attr_by_attr), ?_⟩
    intro k
    rw [entry_held h1 (by rfl) h2]
    unfold schedDict
    rw [encD_get _ keyEnc_int]
    dsimp only
    rw [foldl_set_get (fun a => (decide (a.2.1 = 1), (a.2.2 : Rat) / 10))]
    cases (ann.filter (fun x => x.1 == k)).getLast? <;> rfl
  | m1029 id mjd sec n t => exact ⟨of_class hb (by dsimp only [BaseMsg.className]; rfl), attrs_held hb (by attr_by_attr), trivial⟩
  | m1230 id al a' b' c' d' =>
    obtain ⟨d, e, h1, h2, h3, h4, h5, h6⟩ := hb
    refine ⟨of_class h1 (by dsimp only [BaseMsg.className]; rfl), attrs_held h1 (by attr_by_attr), ?_⟩
    intro k hk
    rw [entry_held h1 (by rfl) h2, entry_held h1 (by rfl) h3]
    have e1 : ∀ x : Option Int, some (Val.bool x.isSome) = some (flagVal (biasBit x)) := by intro x; cases x <;> rfl
    have e2 : ∀ x : Option Int, some (Val.flt ((x.getD 0 : Int) * (1 / 5) : Rat)) = some (Val.flt ((x.getD 0 : Int) / 5 : Rat)) := by
      intro x
      rw [mul_one_div]
    simp only [List.mem_cons, List.not_mem_nil, or_false] at hk
    rcases hk with rfl | rfl | rfl | rfl <;> exact ⟨e1 _, e2 _⟩

theorem baseNum_ok {buf : Bytes} (hl : 5 ≤ buf.length) : ∃ n, Base.getMsgNum buf = .ok n :=
  ⟨_, gbu_ok (by decide) (by decide) (by omega)⟩

theorem baseSub_ok {buf : Bytes} (hl : 5 ≤ buf.length) (bare : Bool) :
    Base.subDecodeR rnd bare buf = match Base.decodeR rnd buf bare with | .ok o => .ok (some o) | .error _ => .ok none := by
  obtain ⟨n, hn⟩ := baseNum_ok hl
  unfold Base.subDecodeR
  rw [hn]
  rfl

/-- **C94** the text of `SubdecoderBaseStationData.decode` never raises if the buffer has a message number, and changes no object that exists: it
returns `None` or a new object, in both modes. -/
theorem C94_total (h : Heap) (a : Nat) (bare : Bool) (ha : BaseSub h a bare) (buf : Bytes) (hl : 5 ≤ buf.length) :
    Ends n!"SubdecoderBaseStationData.decode" [.ref a, .bytes buf] h (fun r => ∃ t,
      r = (.ok .none, h ++ t) ∨ ∃ b, r = (.ok (.ref b), h ++ t) ∧ h.length ≤ b) := by
  obtain ⟨fs, d, l, h1, hf1, hf2, h2⟩ := ha
  refine Ends.of_call 6 (fun n => ?_)
  have := baseSub_src n ⟨l, h2⟩ bare h1 hf1 hf2 buf
  rw [baseSub_ok hl] at this
  cases hd : Base.decodeR rnd buf bare with
  | error e => rw [hd] at this; obtain ⟨t, e⟩ := this; exact ⟨t, .inl e⟩
  | ok o => rw [hd] at this; obtain ⟨b, t, e, hb, -⟩ := this; exact ⟨t, .inr ⟨b, e, hb⟩⟩

/-- **C94** a buffer that is too short for a message number: `ExceptionBitsError`, and nothing changes. -/
theorem C94_short (h : Heap) (a : Nat) (bare : Bool) (ha : BaseSub h a bare) (buf : Bytes) (hl : buf.length < 5) :
    Raises n!"SubdecoderBaseStationData.decode" [.ref a, .bytes buf] h n!"ExceptionBitsError" := by
  obtain ⟨fs, d, l, h1, hf1, hf2, h2⟩ := ha
  refine Ends.of_call 6 (fun n => ?_)
  have := baseSub_src n ⟨l, h2⟩ bare h1 hf1 hf2 buf
  have hn : Base.getMsgNum buf = .error .bitsError := by
    unfold Base.getMsgNum
    rw [gbu_eq, if_neg (by omega)]
  unfold Base.subDecodeR at this
  rw [hn] at this
  exact this

theorem acceptable_iff (m : BaseMsg) : Acceptable m ↔ m.isEmptySchedule = false := by
  cases m with
  | m1013 id mjd sec leap ann => cases ann <;> simp [Acceptable, BaseMsg.isEmptySchedule]
  | _ => exact ⟨fun _ => rfl, fun _ => trivial⟩

/-- **C94** bare mode, every content: from a buffer that carries a base station message (1005, 1006, 1007, 1008, 1013, 1029, 1033, 1230; of 1013
those that announce something) the text builds a new object that holds every field of the message as it was transmitted. -/
theorem C94_carried (h : Heap) (a : Nat) (ha : BaseSub h a true) (buf : Bytes) (m : BaseMsg) (hm : m.isEmptySchedule = false) (hc : m.CarriedBy buf) :
    Ends n!"SubdecoderBaseStationData.decode" [.ref a, .bytes buf] h (fun r => ∃ b t, r = (.ok (.ref b), h ++ t) ∧ h.length ≤ b ∧
      m.HeldBare (h ++ t) (.ref b)) := by
  obtain ⟨fs, d, l, h1, hf1, hf2, h2⟩ := ha
  refine Ends.of_call 6 (fun n => ?_)
  have := baseSub_src n ⟨l, h2⟩ true h1 hf1 hf2 buf
  have hd : Base.decodeR rnd buf true = .ok (.inl (bareObj m)) := by
    have h3 := (C33_C37_bare_iff buf _).2 ⟨m, (acceptable_iff m).2 hm, hc, rfl⟩
    unfold Base.decode at h3
    obtain ⟨o, h4, h5⟩ := bind_ok h3
    cases h5
    unfold Base.decodeR
    rw [Base.decodeBareR_of_ok rnd h4]
    · rfl
    · intro s hs
      cases m with
      | m1013 id mjd sec leap ann =>
        cases hs
        cases ann with
        | nil => cases hm
        | cons x ann => simp; omega
      | _ => cases hs
  unfold Base.subDecodeR Base.getMsgNum at this
  rw [carried_num hc, hd] at this
  obtain ⟨b, t, e, hb, hs⟩ := this
  exact ⟨b, t, e, hb, held_bare hs⟩

end

section
attribute [local instance] exactArith

theorem exactBase : Base.decodeR rnd = Base.decode := Base.decodeR_id

/-- **C94** with exact arithmetic, any other buffer gives `None` in bare mode. -/
theorem C94_other (h : Heap) (a : Nat) (ha : BaseSub h a true) (buf : Bytes) (hl : 5 ≤ buf.length)
    (hno : ∀ m : BaseMsg, m.CarriedBy buf → m.isEmptySchedule = true) :
    Ends n!"SubdecoderBaseStationData.decode" [.ref a, .bytes buf] h (fun r => ∃ t, r = (.ok .none, h ++ t)) := by
  obtain ⟨fs, d, l, h1, hf1, hf2, h2⟩ := ha
  refine Ends.of_call 6 (fun n => ?_)
  have := baseSub_src n ⟨l, h2⟩ true h1 hf1 hf2 buf
  rw [baseSub_ok hl, exactBase] at this
  cases hd : Base.decode buf true with
  | error e => rw [hd] at this; exact this
  | ok o =>
    obtain ⟨m, ha, hc⟩ : ∃ m, Acceptable m ∧ m.CarriedBy buf := by
      cases o with
      | inl o => obtain ⟨m, ha, hc, -⟩ := (C33_C37_bare_iff buf o).1 hd; exact ⟨m, ha, hc⟩
      | inr o =>
        unfold Base.decode at hd
        obtain ⟨b, -, h2⟩ := bind_ok hd
        cases h2
    rw [acceptable_iff, hno m hc] at ha
    cases ha

/-- **C95** scaled mode with exact arithmetic, every content: from a buffer that carries a base station message (of 1013 those that announce something) with texts that are
neither empty nor anything else than UTF-8 the text builds a new object that holds the message in physical units, flags as truth values and the
texts as characters. -/
theorem C95_carried (h : Heap) (a : Nat) (ha : BaseSub h a false) (buf : Bytes) (m : BaseMsg) (hm : m.isEmptySchedule = false) (hc : m.CarriedBy buf)
    (f : List UInt8 → String) (hf : ∀ t ∈ m.texts, t ≠ [] ∧ t = utf8 (f t)) :
    Ends n!"SubdecoderBaseStationData.decode" [.ref a, .bytes buf] h (fun r => ∃ b t, r = (.ok (.ref b), h ++ t) ∧ h.length ≤ b ∧
      m.HeldScaled f (h ++ t) (.ref b)) := by
  obtain ⟨fs, d, l, h1, hf1, hf2, h2⟩ := ha
  refine Ends.of_call 6 (fun n => ?_)
  have := baseSub_src n ⟨l, h2⟩ false h1 hf1 hf2 buf
  unfold Base.subDecodeR Base.getMsgNum at this
  rw [carried_num hc, exactBase, (C33_C37_scaled_iff buf _).2 ⟨m, f, (acceptable_iff m).2 hm, hc, fun t ht => ⟨(hf t ht).1, (isUtf8Of_iff _ _).2 (hf t ht).2⟩, rfl⟩]
    at this
  obtain ⟨b, t, e, hb, hs⟩ := this
  exact ⟨b, t, e, hb, held_scaled hs⟩

/-- **C95** any other buffer gives `None` in scaled mode: those that carry no message, schedules that announce nothing, and messages with a text that is
empty or not UTF-8. -/
theorem C95_other (h : Heap) (a : Nat) (ha : BaseSub h a false) (buf : Bytes) (hl : 5 ≤ buf.length)
    (hno : ∀ m : BaseMsg, m.CarriedBy buf → m.isEmptySchedule = true ∨ ∃ t ∈ m.texts, t = [] ∨ ∀ s, t ≠ utf8 s) :
    Ends n!"SubdecoderBaseStationData.decode" [.ref a, .bytes buf] h (fun r => ∃ t, r = (.ok .none, h ++ t)) := by
  obtain ⟨fs, d, l, h1, hf1, hf2, h2⟩ := ha
  refine Ends.of_call 6 (fun n => ?_)
  have := baseSub_src n ⟨l, h2⟩ false h1 hf1 hf2 buf
  rw [baseSub_ok hl, exactBase] at this
  cases hd : Base.decode buf false with
  | error e => rw [hd] at this; exact this
  | ok o =>
    obtain ⟨m, f, ha, hc, hf⟩ : ∃ (m : BaseMsg) (f : List UInt8 → String), Acceptable m ∧ m.CarriedBy buf ∧ ∀ t ∈ m.texts, t ≠ [] ∧ IsUtf8Of t (f t) := by
      cases o with
      | inr o => obtain ⟨m, f, ha, hc, hf, -⟩ := (C33_C37_scaled_iff buf o).1 hd; exact ⟨m, f, ha, hc, hf⟩
      | inl o =>
        unfold Base.decode at hd
        obtain ⟨b, -, h2⟩ := bind_ok hd
        rw [if_neg (by decide)] at h2
        obtain ⟨c, -, h3⟩ := bind_ok h2
        cases h3
    rcases hno m hc with he | ⟨t, ht, he | he⟩
    · rw [acceptable_iff, he] at ha
      cases ha
    · exact absurd he (hf t ht).1
    · exact absurd ((isUtf8Of_iff _ _).1 (hf t ht).2) (he _)

end

/-! ## Cases -/

/-- An object as the constructor leaves it, with the decoder that it refers to: the text of `BaseStationDataDecoder.__init__` fills the decoder. -/
def exBaseHeap (bare : Bool) : Heap :=
  [.inst n!"BaseStationDataDecoder"
    [(n!"msgList", .tup [.int 1005, .int 1006, .int 1007, .int 1008, .int 1033, .int 1013, .int 1029, .int 1230])],
   .inst n!"SubdecoderBaseStationData" [(n!"_SubdecoderBaseStationData__is_bare_data", .bool bare), (n!"decoder", .ref 0), (n!"io", .none)]]

example [Rounding] : (callFn src 1 n!"BaseStationDataDecoder.__init__" [.ref 0] [.inst n!"BaseStationDataDecoder" []]).2 = (exBaseHeap true).take 1 := by rfl
example (bare : Bool) : BaseSub (exBaseHeap bare) 1 bare := ⟨_, 0, _, rfl, rfl, rfl, rfl⟩

/-- Messages of the kinds in the theorems: with extreme coordinates, with a text, with two announcements. -/
def exRefMsg : BaseMsg := .m1006 sampleRef 65535
def exTextMsg : BaseMsg := .m1029 23 51943 54240 6 (utf8 "Привет")
def exPlanMsg : BaseMsg := .m1013 7 60000 86399 18 [(1005, 1, 300), (1077, 0, 10)]

example : ∀ m ∈ [exRefMsg, exTextMsg, exPlanMsg], m.isEmptySchedule = false ∧ m.CarriedBy (messageFrame m.layout m.vals) ∧
    ∃ f : List UInt8 → String, ∀ t ∈ m.texts, t ≠ [] ∧ t = utf8 (f t) := by
  intro m hm
  simp only [List.mem_cons, List.not_mem_nil, or_false] at hm
  rcases hm with rfl | rfl | rfl
  · exact ⟨rfl, (C33_C37_encodable _ (by decide +kernel)).1, fun _ => "", by simp [BaseMsg.texts, exRefMsg]⟩
  · refine ⟨rfl, (C33_C37_encodable _ (by decide +kernel)).1, fun _ => "Привет", fun t ht => ?_⟩
    have : t = utf8 "Привет" := by simpa [BaseMsg.texts, exTextMsg] using ht
    subst this
    exact ⟨by decide +kernel, rfl⟩
  · exact ⟨rfl, (C33_C37_encodable _ (by decide +kernel)).1, fun _ => "", by simp [BaseMsg.texts, exPlanMsg]⟩

attribute [local instance] exactArith

/-- The text executed: the height in metres, a flag, and the announced interval of message 1005. -/
example : (match callFn src 6 n!"SubdecoderBaseStationData.decode" [.ref 1, .bytes (messageFrame exRefMsg.layout exRefMsg.vals)] (exBaseHeap false) with
    | (.ok v, h) => match pathVal h v ["height"], pathVal h v ["GPS_OK"] with
      | some (.flt x), some (.bool y) => x == 65535 / 10000 && y
      | _, _ => false
    | _ => false) = true := by decide +kernel
example : (match callFn src 6 n!"SubdecoderBaseStationData.decode" [.ref 1, .bytes (messageFrame exPlanMsg.layout exPlanMsg.vals)] (exBaseHeap true) with
    | (.ok v, h) => match entryOf h v "shedule" (.int 1005) with
      | some (.tup [.int x, .int y]) => x == 1 && y == 300
      | _ => false
    | _ => false) = true := by decide +kernel

/-- Buffers that carry nothing: an empty message with number 0. -/
example : ∀ m : BaseMsg, m.CarriedBy [0xD3, 0, 2, 0, 0, 1, 2, 3] → m.isEmptySchedule = true := by
  intro m hc
  have := carried_num hc
  have e : Bits.gbu [0xD3, 0, 2, 0, 0, 1, 2, 3] 24 12 = .ok 0 := by decide +kernel
  rw [e] at this
  cases m <;> simp [msgNumOf] at this

end Verif
