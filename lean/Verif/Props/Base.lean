import Verif.Lemmas.Base
import Verif.Lemmas.Pack
import Verif.Props.Eph

/-!
# C33–C38: base station messages
-/

namespace Verif
open Spec Bits Base PyStr

/-! ## Common characterisation -/

/-- **C33, C34, C35, C36, C37** Complete characterisation of bare decoding: a byte string is decoded iff it consists of
a header, exactly the encoding of a message content (filled up to a byte boundary) and three bytes; the object holds that
content. The only well-formed contents that are rejected are those of 1013 without announcements. -/
theorem C33_C37_bare_iff (buf : Bytes) (o : BareObj) :
    Base.decode buf true = .ok (.inl o) ↔ ∃ m, Acceptable m ∧ m.CarriedBy buf ∧ o = bareObj m := by
  rw [← decodeBare_iff]
  unfold Base.decode
  constructor
  · intro h
    obtain ⟨b, h1, h2⟩ := bind_ok h
    cases h2
    exact h1
  · intro h; rw [h]; rfl

theorem scale_ad (f : List UInt8 → String) {d : List UInt8} (n id u : Int) (h0 : d ≠ []) (h1 : IsUtf8Of d (f d)) :
    scaleAD (adObj hexText n id d u) = .ok (adObj f n id d u) := by
  unfold scaleAD adObj
  rw [hexTextDecode_hexText d h0, (utf8Decode_iff d (f d)).2 h1]; rfl

theorem scale_adsn (f : List UInt8 → String) {d s : List UInt8} (n id u : Int) (h0 : d ≠ []) (h1 : IsUtf8Of d (f d))
    (h2 : s ≠ []) (h3 : IsUtf8Of s (f s)) :
    scaleADSN (adsnObj hexText n id d u s) = .ok (adsnObj f n id d u s) := by
  unfold scaleADSN adsnObj
  rw [scale_ad f n id u h0 h1, ok_bind, hexTextDecode_hexText s h2, (utf8Decode_iff s (f s)).2 h3]; rfl

theorem fits_quarter {buf : Bytes} {m : BaseMsg} {p : RefPoint} (h : m.CarriedBy buf)
    (hm : m = .m1005 p ∨ ∃ x, m = .m1006 p x) : 0 ≤ p.quarter ∧ p.quarter < 4 := by
  obtain ⟨hl, hr⟩ := (carriedBy_iff _ _).1 h
  have : p = refAt (bitsOf buf) := by
    rcases hm with rfl | ⟨x, rfl⟩
    · exact (refAt_eq hr).2
    · simp only [BaseMsg.layout, BaseMsg.vals] at hr
      rw [readAt_split (by rfl)] at hr
      exact (refAt_eq hr.1).2
  rw [this]
  simp only [refAt]
  have h := natOfBits_lt (slice (bitsOf buf) 136 2)
  have hl : (slice (bitsOf buf) 136 2).length ≤ 2 := by simp [slice]
  have := Nat.pow_le_pow_right (n := 2) (by omega) hl
  omega

theorem scale_rp (n : Int) (p : RefPoint) (hq : 0 ≤ p.quarter ∧ p.quarter < 4) :
    scaleRP (refObj n p) = .ok (refScaled n p) := by
  unfold scaleRP
  have e : qcIndex p.quarter = .ok (quarterText p.quarter) := by
    have : p.quarter = 0 ∨ p.quarter = 1 ∨ p.quarter = 2 ∨ p.quarter = 3 := by omega
    rcases this with h | h | h | h <;> rw [h] <;> decide
  have e2 : qcIndex (refObj n p).QC_bias = .ok (quarterText p.quarter) := e
  rw [e2, ok_bind]
  simp only [refObj, refScaled, e4, pure_ok, mul_one_div]
  rfl

theorem dict_set_map {α β : Type} (g : α → β) (d : PyDict Int α) (k : Int) (v : α) :
    (d.set k v).map (fun kv => (kv.1, g kv.2)) = PyDict.set (d.map (fun kv => (kv.1, g kv.2))) k (g v) := by
  have hm : PyDict.mem (d.map (fun kv => (kv.1, g kv.2))) k = PyDict.mem d k := by
    unfold PyDict.mem
    induction d with
    | nil => rfl
    | cons p d ih =>
      rw [List.map_cons, List.lookup_cons, show List.lookup k (p :: d) = match k == p.1 with
        | true => some p.2 | false => List.lookup k d from List.lookup_cons]
      cases k == p.1
      · exact ih
      · rfl
  unfold PyDict.set
  rw [hm]
  split
  · rw [List.map_map, List.map_map]
    apply List.map_congr_left
    intro p _
    simp only [Function.comp]
    split <;> simp_all
  · simp

theorem scale_sched (ann : List (Int × Int × Int)) (d : PyDict Int (Int × Int)) :
    (ann.foldl (fun d a => d.set a.1 (a.2.1, a.2.2)) d).map
      (fun kv => (kv.1, ((1 == kv.2.1 : Bool), (kv.2.2 : Rat) * (1 / 10 : Rat)))) =
    ann.foldl (fun (d : PyDict Int (Bool × Rat)) a => d.set a.1 (decide (a.2.1 = 1), (a.2.2 : Rat) / 10))
      (d.map (fun kv => (kv.1, ((1 == kv.2.1 : Bool), (kv.2.2 : Rat) * (1 / 10 : Rat))))) := by
  induction ann generalizing d with
  | nil => rfl
  | cons a ann ih =>
    rw [List.foldl_cons, ih, List.foldl_cons]
    congr 1
    have := dict_set_map (fun x : Int × Int => ((1 == x.1 : Bool), (x.2 : Rat) * (1 / 10 : Rat))) d a.1 (a.2.1, a.2.2)
    rw [this]
    congr 2
    · rw [Bool.eq_iff_iff]; simp; omega
    · simp only [mul_one_div]

/-- A text that has a Unicode reading. -/
def TextOk (t : List UInt8) : Prop := t ≠ [] ∧ ∃ s, IsUtf8Of t s

/-- The Unicode reading. -/
noncomputable def textOf (t : List UInt8) : String := open Classical in if h : ∃ s, IsUtf8Of t s then h.choose else ""

theorem textOf_spec {t : List UInt8} (h : TextOk t) : IsUtf8Of t (textOf t) := by
  unfold textOf
  rw [dif_pos h.2]
  exact h.2.choose_spec

theorem decode_text_iff (t : List UInt8) (s : String) : hexTextDecode (hexText t) = .ok s ↔ t ≠ [] ∧ IsUtf8Of t s := by
  by_cases h : t = []
  · subst h
    rw [hexTextDecode_empty]; simp
  · rw [hexTextDecode_hexText t h, utf8Decode_iff]; simp [h]

theorem scale_ok (f : List UInt8 → String) {m : BaseMsg} {buf : Bytes} (hc : m.CarriedBy buf)
    (h : ∀ t ∈ m.texts, t ≠ [] ∧ IsUtf8Of t (f t)) : scale (bareObj m) = .ok (scaledObj f m) := by
  cases m with
  | m1005 p => simp only [bareObj, scale, scale_rp _ p (fits_quarter hc (.inl rfl)), ok_bind]; rfl
  | m1006 p x =>
    simp only [bareObj, scale, scale_rp _ p (fits_quarter hc (.inr ⟨x, rfl⟩)), ok_bind, scaledObj, e4, mul_one_div]; rfl
  | m1007 id d u =>
    simp only [BaseMsg.texts, List.mem_cons, List.not_mem_nil, or_false, forall_eq] at h
    simp only [bareObj, scale, scale_ad f _ _ _ h.1 h.2, ok_bind]; rfl
  | m1008 id d u s =>
    simp only [BaseMsg.texts, List.mem_cons, List.not_mem_nil, or_false, forall_eq_or_imp, forall_eq] at h
    simp only [bareObj, scale, scale_adsn f _ _ _ h.1.1 h.1.2 h.2.1 h.2.2, ok_bind]; rfl
  | m1033 id d u s r fw n =>
    simp only [BaseMsg.texts, List.mem_cons, List.not_mem_nil, or_false, forall_eq_or_imp, forall_eq] at h
    obtain ⟨h1, h2, h3, h4, h5⟩ := h
    simp only [bareObj, scale, scaleADSNRC, adsnrcObj, scale_adsn f _ _ _ h1.1 h1.2 h2.1 h2.2, ok_bind,
      (decode_text_iff _ _).2 h3, (decode_text_iff _ _).2 h4, (decode_text_iff _ _).2 h5]
    rfl
  | m1013 id mjd sec leap ann =>
    simp only [bareObj, scale, scaleSP, scaledObj, pure_ok, scale_sched]
    rfl
  | m1029 id mjd sec n t =>
    simp only [BaseMsg.texts, List.mem_cons, List.not_mem_nil, or_false, forall_eq] at h
    simp only [bareObj, scale, scaleTS, tsObj, (decode_text_iff _ _).2 h, ok_bind]
    rfl
  | m1230 id al a b c d =>
    simp only [bareObj, scale, scaleGLBS, scaledObj, pure_ok, gloTable, List.map_cons, List.map_nil]
    have e : ∀ x : Option Int, (biasBit x == 1) = x.isSome := by intro x; cases x <;> rfl
    rw [e, e, e, e]
    norm_num
    rfl

theorem texts_of_scale {m : BaseMsg} {r : ScaledObj} (h : scale (bareObj m) = .ok r) : ∀ t ∈ m.texts, TextOk t := by
  have key : ∀ {t : List UInt8} {s : String}, hexTextDecode (hexText t) = .ok s → TextOk t := by
    intro t s hs
    obtain ⟨h1, h2⟩ := (decode_text_iff t s).1 hs
    exact ⟨h1, s, h2⟩
  have kad : ∀ {n id d u x}, scaleAD (adObj hexText n id d u) = .ok x → TextOk d := by
    intro n id d u x hx
    obtain ⟨s, hs, _⟩ := bind_ok hx
    exact key hs
  have kadsn : ∀ {n id d u s x}, scaleADSN (adsnObj hexText n id d u s) = .ok x → TextOk d ∧ TextOk s := by
    intro n id d u s x hx
    obtain ⟨y, hy, hx⟩ := bind_ok hx
    obtain ⟨z, hz, hx⟩ := bind_ok hx
    exact ⟨kad hy, key hz⟩
  cases m <;> simp only [BaseMsg.texts, List.mem_cons, List.not_mem_nil, or_false, forall_eq_or_imp, forall_eq,
    IsEmpty.forall_iff, implies_true]
  case m1007 =>
    obtain ⟨y, hy, _⟩ := bind_ok h
    exact kad hy
  case m1008 =>
    obtain ⟨y, hy, _⟩ := bind_ok h
    exact kadsn hy
  case m1033 =>
    obtain ⟨y, hy, _⟩ := bind_ok h
    obtain ⟨a, ha, hy⟩ := bind_ok hy
    obtain ⟨b, hb, hy⟩ := bind_ok hy
    obtain ⟨c, hc, hy⟩ := bind_ok hy
    obtain ⟨d, hd, hy⟩ := bind_ok hy
    exact ⟨(kadsn ha).1, (kadsn ha).2, key hb, key hc, key hd⟩
  case m1029 =>
    obtain ⟨y, hy, _⟩ := bind_ok h
    obtain ⟨a, ha, hy⟩ := bind_ok hy
    exact key ha

/-- **C33, C34, C35, C36, C37** Complete characterisation of scaled decoding: as in bare mode, and every text is not empty
and the UTF-8 code of a Unicode text; the object holds those texts and the quantities in physical units. -/
theorem C33_C37_scaled_iff (buf : Bytes) (r : ScaledObj) :
    Base.decode buf false = .ok (.inr r) ↔ ∃ m, ∃ f : List UInt8 → String, Acceptable m ∧ m.CarriedBy buf ∧
      (∀ t ∈ m.texts, t ≠ [] ∧ IsUtf8Of t (f t)) ∧ r = scaledObj f m := by
  unfold Base.decode
  constructor
  · intro h
    obtain ⟨b, h1, h2⟩ := bind_ok h
    obtain ⟨m, ha, hc, rfl⟩ := (decodeBare_iff _ _).1 h1
    rw [if_neg (by decide)] at h2
    obtain ⟨r', h3, h4⟩ := bind_ok h2
    cases h4
    have ht := texts_of_scale h3
    have hf : ∀ t ∈ m.texts, t ≠ [] ∧ IsUtf8Of t (textOf t) := fun t hm => ⟨(ht t hm).1, textOf_spec (ht t hm)⟩
    rw [scale_ok textOf hc hf] at h3
    cases h3
    exact ⟨m, textOf, ha, hc, hf, rfl⟩
  · rintro ⟨m, f, ha, hc, hf, rfl⟩
    rw [(decodeBare_iff _ _).2 ⟨m, ha, hc, rfl⟩, ok_bind, if_neg (by decide), scale_ok f hc hf]
    rfl

/-- Every content whose values fit is carried by its encoded frame, which is a valid RTCM3 frame. -/
theorem C33_C37_encodable (m : BaseMsg) (h : FitsAll m.layout m.vals) :
    m.CarriedBy (messageFrame m.layout m.vals) ∧
    (layoutWidth m.layout ≤ 8184 → ValidFrame (messageFrame m.layout m.vals)) :=
  ⟨carries_messageFrame h, validFrame_messageFrame h⟩

/-! ## C33 -/

/-- A reference point with extreme values. -/
def sampleRef : RefPoint :=
  { station := 4095, year := 63, gps := 1, glo := 0, gal := 1, virtual := 0, x := -137438953472, osc := 1,
    y := 137438953471, quarter := 3, z := -1 }

/-- **C33** bare mode, every content. -/
theorem C33_bare (buf : Bytes) (p : RefPoint) :
    ((BaseMsg.m1005 p).CarriedBy buf → Base.decode buf true = .ok (.inl (.rp (refObj 1005 p)))) ∧
    (∀ h, (BaseMsg.m1006 p h).CarriedBy buf → Base.decode buf true = .ok (.inl (.rph ⟨refObj 1006 p, h⟩))) :=
  ⟨fun hc => (C33_C37_bare_iff _ _).2 ⟨_, by exact trivial, hc, rfl⟩, fun _ hc => (C33_C37_bare_iff _ _).2 ⟨_, by exact trivial, hc, rfl⟩⟩

/-- **C33** scaled mode, every content. -/
theorem C33_scaled (buf : Bytes) (p : RefPoint) :
    ((BaseMsg.m1005 p).CarriedBy buf → Base.decode buf false = .ok (.inr (.rp (refScaled 1005 p)))) ∧
    (∀ h, (BaseMsg.m1006 p h).CarriedBy buf →
      Base.decode buf false = .ok (.inr (.rph ⟨refScaled 1006 p, (h : Rat) / 10000⟩))) :=
  ⟨fun hc => (C33_C37_scaled_iff _ _).2 ⟨_, fun _ => "", by exact trivial, hc, by simp [BaseMsg.texts], rfl⟩,
   fun _ hc => (C33_C37_scaled_iff _ _).2 ⟨_, fun _ => "", by exact trivial, hc, by simp [BaseMsg.texts], rfl⟩⟩

/-- **C33** frames of any other length are rejected in both modes. -/
theorem C33_length (buf : Bytes) (bare : Bool)
    (h : (Base.getMsgNum buf = .ok 1005 ∧ buf.length ≠ 25) ∨ (Base.getMsgNum buf = .ok 1006 ∧ buf.length ≠ 27)) :
    Base.subDecode bare buf = .ok none := by
  have hd : ∀ o, decodeBare buf ≠ .ok o := by
    intro o ho
    obtain ⟨m, _, hc, rfl⟩ := (decodeBare_iff _ _).1 ho
    have hn := carried_num hc
    have hl := ((carriedBy_iff _ _).1 hc).1
    unfold Base.getMsgNum at h
    rw [hn] at h
    cases m <;> simp only [msgNumOf, Except.ok.injEq, Nat.reduceEqDiff, false_and, true_and, or_false, false_or] at h
    · rw [w1005] at hl; exact h hl
    · rw [w1006] at hl; exact h hl
  have he : ∃ e, decodeBare buf = .error e := by
    cases hx : decodeBare buf with
    | error e => exact ⟨e, rfl⟩
    | ok o => exact absurd hx (hd o)
  obtain ⟨e, he⟩ := he
  unfold Base.subDecode Base.decode
  rw [he]
  rcases h with h | h <;> (rw [h.1]; rfl)

example : (BaseMsg.m1006 sampleRef 65535).CarriedBy
    (messageFrame (BaseMsg.m1006 sampleRef 65535).layout (BaseMsg.m1006 sampleRef 65535).vals) :=
  (C33_C37_encodable _ (by decide)).1

example : refScaled 1005 sampleRef =
    { msgNum := 1005, bsID := 4095, ITRF_Year := 63, GPS_OK := true, GLO_OK := false, GAL_OK := true, isVirtual := false,
      refPoint_X := -137438953472 / 10000, singleOsc := true, refPoint_Y := 137438953471 / 10000, QC_bias := "RESERVED",
      refPoint_Z := -1 / 10000 } := by
  simp [refScaled, sampleRef, quarterText]

/-! ## C34 -/

/-- **C34** bare mode: the bytes of every text in hexadecimal form, all lengths. -/
theorem C34_bare (buf : Bytes) (id u : Int) (d s r f n : List UInt8) :
    ((BaseMsg.m1007 id d u).CarriedBy buf → Base.decode buf true = .ok (.inl (.ad (adObj hexText 1007 id d u)))) ∧
    ((BaseMsg.m1008 id d u s).CarriedBy buf →
      Base.decode buf true = .ok (.inl (.adsn (adsnObj hexText 1008 id d u s)))) ∧
    ((BaseMsg.m1033 id d u s r f n).CarriedBy buf →
      Base.decode buf true = .ok (.inl (.adsnrc (adsnrcObj hexText 1033 id d u s r f n)))) :=
  ⟨fun hc => (C33_C37_bare_iff _ _).2 ⟨_, by exact trivial, hc, rfl⟩, fun hc => (C33_C37_bare_iff _ _).2 ⟨_, by exact trivial, hc, rfl⟩,
   fun hc => (C33_C37_bare_iff _ _).2 ⟨_, by exact trivial, hc, rfl⟩⟩

theorem isUtf8Of_iff (t : List UInt8) (s : String) : IsUtf8Of t s ↔ t = utf8 s := by
  unfold IsUtf8Of utf8
  constructor
  · intro h; rw [h]; simp
  · rintro rfl; ext1; simp

theorem utf8_inj {s s' : String} (h : utf8 s = utf8 s') : s = s' := by
  have h1 := (isUtf8Of_iff _ s).2 rfl
  have h2 := (isUtf8Of_iff _ s').2 h
  unfold IsUtf8Of at h1 h2
  rw [← String.toByteArray_inj]
  exact h1.trans h2.symm

theorem utf8_ok {s : String} (h : s ≠ "") : utf8 s ≠ [] ∧ IsUtf8Of (utf8 s) (textOf (utf8 s)) := by
  have hne : utf8 s ≠ [] := fun h' => h (utf8_inj (h'.trans (by rfl)))
  exact ⟨hne, textOf_spec ⟨hne, s, (isUtf8Of_iff _ _).2 rfl⟩⟩

theorem textOf_utf8 (s : String) : textOf (utf8 s) = s := by
  have hx : ∃ s', IsUtf8Of (utf8 s) s' := ⟨s, (isUtf8Of_iff _ _).2 rfl⟩
  unfold textOf
  rw [dif_pos hx]
  exact (utf8_inj ((isUtf8Of_iff _ _).1 hx.choose_spec)).symm

theorem utf8_length (s : String) : (utf8 s).length = s.utf8ByteSize := by
  unfold utf8
  rw [Array.length_toList]
  rfl

/-- **C34, partial**: scaled mode returns the strings themselves provided that none of them is empty. Missing: messages
with an empty string, which are rejected (`C34_violated`). `d`, `s`, `r`, `f`, `n` are the transmitted Unicode strings. -/
theorem C34_partial (buf : Bytes) (id u : Int) (d s r f n : String) (hd : d ≠ "") (hs : s ≠ "") (hr : r ≠ "")
    (hf : f ≠ "") (hn : n ≠ "") :
    ((BaseMsg.m1007 id (utf8 d) u).CarriedBy buf → Base.decode buf false = .ok (.inr (.ad
      { msgNum := 1007, bsID := id, descrLength := d.utf8ByteSize, descr := d, setupID := u }))) ∧
    ((BaseMsg.m1008 id (utf8 d) u (utf8 s)).CarriedBy buf → Base.decode buf false = .ok (.inr (.adsn
      { ad := { msgNum := 1008, bsID := id, descrLength := d.utf8ByteSize, descr := d, setupID := u },
        serialNumberLength := s.utf8ByteSize, serialNumber := s }))) ∧
    ((BaseMsg.m1033 id (utf8 d) u (utf8 s) (utf8 r) (utf8 f) (utf8 n)).CarriedBy buf →
      Base.decode buf false = .ok (.inr (.adsnrc
      { adsn := { ad := { msgNum := 1033, bsID := id, descrLength := d.utf8ByteSize, descr := d, setupID := u },
                  serialNumberLength := s.utf8ByteSize, serialNumber := s },
        rcvDescriptorLength := r.utf8ByteSize, rcvDescriptor := r, rcvFWVersionLength := f.utf8ByteSize,
        rcvFWVersion := f, rcvSerNumLength := n.utf8ByteSize, rcvSerNum := n }))) := by
  have ho := fun s h => (utf8_ok (s := s) h)
  have key : ∀ m : BaseMsg, Acceptable m → m.CarriedBy buf → (∀ t ∈ m.texts, t ≠ [] ∧ IsUtf8Of t (textOf t)) →
      Base.decode buf false = .ok (.inr (scaledObj textOf m)) :=
    fun m h1 h2 h3 => (C33_C37_scaled_iff _ _).2 ⟨m, textOf, h1, h2, h3, rfl⟩
  refine ⟨fun hc => ?_, fun hc => ?_, fun hc => ?_⟩
  · rw [key _ (by exact trivial) hc (by
      simp only [BaseMsg.texts, List.mem_cons, List.not_mem_nil, or_false, forall_eq]; exact ho d hd)]
    simp only [scaledObj, adObj, textOf_utf8, utf8_length]
  · rw [key _ (by exact trivial) hc (by
      simp only [BaseMsg.texts, List.mem_cons, List.not_mem_nil, or_false, forall_eq_or_imp, forall_eq]
      exact ⟨ho d hd, ho s hs⟩)]
    simp only [scaledObj, adObj, adsnObj, textOf_utf8, utf8_length]
  · rw [key _ (by exact trivial) hc (by
      simp only [BaseMsg.texts, List.mem_cons, List.not_mem_nil, or_false, forall_eq_or_imp, forall_eq]
      exact ⟨ho d hd, ho s hs, ho r hr, ho f hf, ho n hn⟩)]
    simp only [scaledObj, adObj, adsnObj, adsnrcObj, textOf_utf8, utf8_length]

/-- **C34, C35 are violated**: a message with an empty text is decoded in bare mode, but never in scaled mode (`int("",
16)` raises `ValueError`), whatever its other contents. -/
theorem C34_C35_violated (buf : Bytes) (m : BaseMsg) (hc : m.CarriedBy buf) (h : [] ∈ m.texts) :
    Base.subDecode true buf = .ok (some (.inl (bareObj m))) ∧ Base.subDecode false buf = .ok none := by
  have ha : Acceptable m := by cases m <;> first | (simp [BaseMsg.texts] at h; done) | trivial
  have hb := (decodeBare_iff _ _).2 ⟨m, ha, hc, rfl⟩
  have hn := carried_num hc
  unfold Base.subDecode Base.decode Base.getMsgNum
  rw [hb, hn]
  refine ⟨rfl, ?_⟩
  rw [ok_bind, ok_bind, if_neg (by decide)]
  cases hs : scale (bareObj m) with
  | error e => rfl
  | ok r => exact absurd rfl (texts_of_scale hs [] h).1

/-- A 1008 message with empty serial number, as sent by many receivers. -/
def sampleNoSerial : BaseMsg := .m1008 7 (utf8 "ADVNULLANTENNA") 0 []

example : FitsAll sampleNoSerial.layout sampleNoSerial.vals ∧ [] ∈ sampleNoSerial.texts := by
  decide +kernel

example : FitsAll (BaseMsg.m1008 7 (utf8 "TRM59800.00") 0 (utf8 "4711")).layout
    (BaseMsg.m1008 7 (utf8 "TRM59800.00") 0 (utf8 "4711")).vals := by
  decide +kernel

/-! ## C35 -/

/-- **C35, partial**: every Unicode string except the empty one is returned in scaled mode. Missing: the empty string
(`C34_C35_violated`). -/
theorem C35_partial (buf : Bytes) (id mjd sec n : Int) (t : String) (ht : t ≠ "")
    (hc : (BaseMsg.m1029 id mjd sec n (utf8 t)).CarriedBy buf) :
    Base.decode buf false = .ok (.inr (.ts {
      msgNum := 1029, bsID := id, modifiedJulianDay := mjd, daySec := sec,
      charNum := n, unitsNum := t.utf8ByteSize, message := t })) := by
  rw [(C33_C37_scaled_iff _ _).2 ⟨_, textOf, by exact trivial, hc, by
      simp only [BaseMsg.texts, List.mem_cons, List.not_mem_nil, or_false, forall_eq]; exact utf8_ok ht, rfl⟩]
  simp only [scaledObj, tsObj, textOf_utf8, utf8_length]

/-- **C35** bytes that are not the UTF-8 code of any text give no object in scaled mode. -/
theorem C35_invalid (buf : Bytes) (id mjd sec n : Int) (t : List UInt8) (ht : ∀ s, t ≠ utf8 s)
    (hc : (BaseMsg.m1029 id mjd sec n t).CarriedBy buf) : Base.subDecode false buf = .ok none := by
  have hb := (decodeBare_iff _ _).2 ⟨_, by exact trivial, hc, rfl⟩
  have hn := carried_num hc
  unfold Base.subDecode Base.decode Base.getMsgNum
  rw [hb, hn, ok_bind, ok_bind, if_neg (by decide)]
  cases hs : scale (bareObj (BaseMsg.m1029 id mjd sec n t)) with
  | error e => rfl
  | ok r =>
    obtain ⟨_, s, h⟩ := texts_of_scale hs t (by simp [BaseMsg.texts])
    exact absurd ((isUtf8Of_iff t s).1 h) (ht s)

/-- **C35** in bare mode the bytes are returned for any text. -/
theorem C35_bare (buf : Bytes) (id mjd sec n : Int) (t : List UInt8)
    (hc : (BaseMsg.m1029 id mjd sec n t).CarriedBy buf) :
    Base.decode buf true = .ok (.inl (.ts (tsObj hexText id mjd sec n t))) :=
  (C33_C37_bare_iff _ _).2 ⟨_, by exact trivial, hc, rfl⟩

example : FitsAll (BaseMsg.m1029 23 51943 54240 6 (utf8 "Привет")).layout
    (BaseMsg.m1029 23 51943 54240 6 (utf8 "Привет")).vals := by decide +kernel

/-- Not UTF-8: a lonely continuation byte. -/
example : ∀ s, [0x80] ≠ utf8 s := by
  intro s h
  have := (utf8Decode_iff [0x80] s).2 ((isUtf8Of_iff _ s).2 h)
  exact absurd this (by
    have e : utf8Decode [0x80] = .error .unicodeError := by decide +kernel
    rw [e]; simp)

/-! ## C36 -/

theorem foldl_set_distinct {α : Type} (l : List (Int × α)) (d : PyDict Int α)
    (h : (d.map (·.1) ++ l.map (·.1)).Nodup) :
    l.foldl (fun (d : PyDict Int α) a => d.set a.1 a.2) d = d ++ l := by
  induction l generalizing d with
  | nil => simp
  | cons a l ih =>
    rw [List.foldl_cons]
    have hm : PyDict.mem d a.1 = false := by
      unfold PyDict.mem
      rw [Option.isSome_eq_false_iff, Option.isNone_iff_eq_none, List.lookup_eq_none_iff]
      intro p hp
      have := List.nodup_append.1 h
      have := this.2.2 p.1 (List.mem_map_of_mem hp) a.1 (by simp)
      simpa using fun h => this h.symm
    have hs : PyDict.set d a.1 a.2 = d ++ [a] := by unfold PyDict.set; rw [hm]; rfl
    rw [hs, ih _ (by simpa using h)]
    simp

/-- **C36, partial**: with at least one announcement and distinct message numbers, all announcements are returned, in
order, in both modes. Missing: messages without announcements, which are rejected (`C36_violated`). -/
theorem C36_partial (buf : Bytes) (id mjd sec leap : Int) (ann : List (Int × Int × Int)) (hne : ann ≠ [])
    (hd : (ann.map (·.1)).Nodup) (hc : (BaseMsg.m1013 id mjd sec leap ann).CarriedBy buf) :
    Base.decode buf true = .ok (.inl (.sp {
      msgNum := 1013, bsID := id, modifiedJulianDay := mjd, daySec := sec,
      Nm := ann.length, leapSec := leap, shedule := ann })) ∧
    Base.decode buf false = .ok (.inr (.sp {
      msgNum := 1013, bsID := id, modifiedJulianDay := mjd, daySec := sec,
      Nm := ann.length, leapSec := leap,
      shedule := ann.map (fun a => (a.1, (decide (a.2.1 = 1), (a.2.2 : Rat) / 10))) })) := by
  constructor
  · rw [(C33_C37_bare_iff _ _).2 ⟨_, by exact hne, hc, rfl⟩]
    have := foldl_set_distinct ann [] (by simpa using hd)
    simp only [List.nil_append] at this
    simp only [bareObj]
    exact congrArg (fun s => Except.ok (Sum.inl (Obj.sp {
      msgNum := 1013, bsID := id, modifiedJulianDay := mjd,
      daySec := sec, Nm := ann.length, leapSec := leap, shedule := s }))) this
  · rw [(C33_C37_scaled_iff _ _).2 ⟨_, fun _ => "", by exact hne, hc, by simp [BaseMsg.texts], rfl⟩]
    have := foldl_set_distinct (ann.map (fun a => (a.1, (decide (a.2.1 = 1), (a.2.2 : Rat) / 10)))) []
      (by simpa [Function.comp_def] using hd)
    rw [List.foldl_map] at this
    simp only [List.nil_append] at this
    simp only [scaledObj]
    exact congrArg (fun s => Except.ok (Sum.inr (Obj.sp {
      msgNum := 1013, bsID := id, modifiedJulianDay := mjd,
      daySec := sec, Nm := ann.length, leapSec := leap, shedule := s }))) this

/-- **C36 is violated** for messages without announcements: they are rejected, whatever their other contents. -/
theorem C36_violated (buf : Bytes) (bare : Bool) (id mjd sec leap : Int)
    (hc : (BaseMsg.m1013 id mjd sec leap []).CarriedBy buf) : Base.subDecode bare buf = .ok none := by
  have hn := carried_num hc
  have he : ∀ o, decodeBare buf ≠ .ok o := by
    intro o ho
    unfold decodeBare Base.getMsgNum at ho
    rw [hn, ok_bind] at ho
    obtain ⟨id', mjd', sec', leap', ann, hne, hc', _⟩ := (dec1013_iff _ _ hn).1 ho
    have h1 := (carried1013 _ _ _ _ _ _).1 hc
    have h2 := (carried1013 _ _ _ _ _ _).1 hc'
    have : ann.length = ([] : List (Int × Int × Int)).length := h2.2.2.2.2.2.1.symm.trans h1.2.2.2.2.2.1
    exact hne (by simpa using this)
  unfold Base.subDecode Base.decode Base.getMsgNum
  rw [hn, ok_bind]
  cases hx : decodeBare buf with
  | error e => rfl
  | ok o => exact absurd hx (he o)

example : FitsAll (BaseMsg.m1013 1 60000 86400 18 []).layout (BaseMsg.m1013 1 60000 86400 18 []).vals := by
  decide +kernel

example : FitsAll (BaseMsg.m1013 1 60000 86400 18 [(1005, 1, 100), (1077, 0, 10)]).layout
    (BaseMsg.m1013 1 60000 86400 18 [(1005, 1, 100), (1077, 0, 10)]).vals := by decide +kernel

/-! ## C37 -/

/-- **C37** for every combination of present biases: a present bias is assigned to its own signal with validity 1, the
signals without bias have validity 0 and correction 0. Biases are transmitted in the order 1C, 1P, 2C, 2P. -/
theorem C37_bias (buf : Bytes) (id al : Int) (a b c d : Option Int)
    (hc : (BaseMsg.m1230 id al a b c d).CarriedBy buf) :
    Base.decode buf true = .ok (.inl (.glbs {
      msgNum := 1230, bsID := id, isCorrected := al,
      validity := [("1C", biasBit a), ("1P", biasBit b), ("2C", biasBit c), ("2P", biasBit d)],
      correction := [("1C", a.getD 0), ("1P", b.getD 0), ("2C", c.getD 0), ("2P", d.getD 0)] })) ∧
    Base.decode buf false = .ok (.inr (.glbs {
      msgNum := 1230, bsID := id, isCorrected := al = 1,
      validity := [("1C", a.isSome), ("1P", b.isSome), ("2C", c.isSome), ("2P", d.isSome)],
      correction := [("1C", (a.getD 0 : Int) * (1 / 5)), ("1P", (b.getD 0 : Int) * (1 / 5)),
        ("2C", (c.getD 0 : Int) * (1 / 5)), ("2P", (d.getD 0 : Int) * (1 / 5))] })) :=
  ⟨(C33_C37_bare_iff _ _).2 ⟨_, by exact trivial, hc, rfl⟩,
   (C33_C37_scaled_iff _ _).2 ⟨_, fun _ => "", by exact trivial, hc, by simp [BaseMsg.texts], rfl⟩⟩

example : FitsAll (BaseMsg.m1230 5 1 (some (-32768)) none (some 32767) none).layout
    (BaseMsg.m1230 5 1 (some (-32768)) none (some 32767) none).vals := by decide +kernel

/-! ## C38 -/

/-- **C38** exact condition under which a base station message that is decoded in bare mode is also decoded in scaled
mode. -/
theorem C38_iff (buf : Bytes) (m : BaseMsg) (ha : Acceptable m) (hc : m.CarriedBy buf) :
    (∃ r, Base.decode buf false = .ok (.inr r)) ↔ ∀ t ∈ m.texts, t ≠ [] ∧ ∃ s, t = utf8 s := by
  constructor
  · rintro ⟨r, h⟩ t ht
    unfold Base.decode at h
    rw [(decodeBare_iff _ _).2 ⟨m, ha, hc, rfl⟩, ok_bind, if_neg (by decide)] at h
    obtain ⟨r', h3, _⟩ := bind_ok h
    obtain ⟨h1, s, h2⟩ := texts_of_scale h3 t ht
    exact ⟨h1, s, (isUtf8Of_iff _ _).1 h2⟩
  · intro h
    have h' : ∀ t ∈ m.texts, TextOk t := fun t ht => ⟨(h t ht).1, (h t ht).2.choose,
      (isUtf8Of_iff _ _).2 (h t ht).2.choose_spec⟩
    exact ⟨_, (C33_C37_scaled_iff _ _).2 ⟨m, textOf, ha, hc, fun t ht => ⟨(h' t ht).1, textOf_spec (h' t ht)⟩, rfl⟩⟩

/-- **C38 is violated**: there is a valid frame that is decoded in bare mode and not in scaled mode. -/
theorem C38_violated : ∃ buf, ValidFrame buf ∧ (∃ o, Base.subDecode true buf = .ok (some o)) ∧
    Base.subDecode false buf = .ok none := by
  have hf : FitsAll sampleNoSerial.layout sampleNoSerial.vals := by decide +kernel
  obtain ⟨h1, h2⟩ := C33_C37_encodable sampleNoSerial hf
  obtain ⟨h3, h4⟩ := C34_C35_violated _ _ h1 (by simp [sampleNoSerial, BaseMsg.texts])
  exact ⟨_, h2 (by decide +kernel), ⟨_, h3⟩, h4⟩

/-- **C38, partial**: ephemeris messages, and base station messages without texts (1005, 1006, 1013, 1230). Missing: an
empty or non-UTF-8 text in 1007, 1008, 1029, 1033 (see `C38_iff` for the exact condition). -/
theorem C38_partial (buf : Bytes) :
    (∀ e, Eph.subDecode true buf = some e → ∃ e', Eph.subDecode false buf = some e') ∧
    (∀ o n, Base.decode buf true = .ok (.inl o) → Base.getMsgNum buf = .ok n → n ∈ [1005, 1006, 1013, 1230] →
      ∃ r, Base.decode buf false = .ok (.inr r)) := by
  constructor
  · intro e h
    unfold Eph.subDecode Eph.decode at h ⊢
    cases h1 : Eph.getMsgNum buf with
    | error e => rw [h1] at h; cases h
    | ok n =>
      rw [h1] at h
      cases h2 : Eph.decodeBare buf with
      | error e => rw [h2] at h; cases h
      | ok o => exact ⟨_, rfl⟩
  · intro o n h hn hmem
    obtain ⟨m, ha, hc, rfl⟩ := (C33_C37_bare_iff _ _).1 h
    unfold Base.getMsgNum at hn
    rw [carried_num hc] at hn
    cases hn
    refine (C38_iff buf m ha hc).2 ?_
    cases m <;> simp [msgNumOf] at hmem <;> simp [BaseMsg.texts]

end Verif
