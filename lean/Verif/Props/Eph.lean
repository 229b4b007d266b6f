import Verif.Lemmas.Eph
import Verif.Spec.Pack
import Mathlib.Tactic.NormNum
import Mathlib.Tactic.Linarith
import Mathlib.Tactic.FieldSimp
import Mathlib.Algebra.Order.Ring.Rat

/-!
# C30, C31, C32: ephemeris messages
-/

namespace Verif
open Spec Bits Eph

/-- Bytes of the shortest frame that can hold the message: 3 header bytes, payload, 3 CRC bytes. -/
def minFrame {ν : Type} (o : Eph.Obj ν) : Nat := 6 + (layoutWidth (fieldsOf (tableOf o)) + 7) / 8

theorem minFrame_eq {ν : Type} (o : Eph.Obj ν) : minFrame o = match o with
    | .gps _ => 67 | .glo _ => 51 | .navic _ => 67 | .bds _ => 70 | .qzs _ => 67 | .galf _ => 68 | .gali _ => 69 := by
  cases o <;> (unfold minFrame; simp only [tableOf]; decide)

theorem map_ok {α β : Type} {x : Py α} {f : α → β} {b : β} (h : (do let a ← x; pure (f a) : Py β) = .ok b) :
    ∃ a, x = .ok a ∧ b = f a := by
  obtain ⟨a, h1, h2⟩ := bind_ok h
  cases h2
  exact ⟨a, h1, rfl⟩

theorem getMsgNum_eq (buf : Bytes) (h : 5 ≤ buf.length) :
    Eph.getMsgNum buf = .ok (natOfBits (((bitsOf buf).drop 24).take 12)) := by
  unfold Eph.getMsgNum
  rw [gbu_ok (by omega) (by omega) (by omega)]; rfl

/-- **C30** Complete characterisation of ephemeris decoding (all types but QZSS): decoding a byte string
returns an object iff the string is long enough for the message, and the bits after the 24 header bits, read
field by field according to the RTCM layout, denote exactly the attributes of the object, the first of which is
the message number of its type. -/
theorem C30_iff (buf : Bytes) (o : Eph.Obj Int) (hq : ∀ e, o ≠ .qzs e) :
    Eph.decodeBare buf = .ok o ↔
      minFrame o ≤ buf.length ∧ NumOk o ∧ readAll (fieldsOf (tableOf o)) ((bitsOf buf).drop 24) = valsOf o := by
  constructor
  · intro h
    unfold decodeBare at h
    obtain ⟨n, hn, h⟩ := bind_ok h
    have hn' : natOfBits (((bitsOf buf).drop 24).take 12) = n := by
      unfold Eph.getMsgNum at hn
      rw [gbu_eq] at hn
      split at hn
      · cases hn; rfl
      · cases hn
    have fin : ∀ (o : Eph.Obj Int), n = ephNum o →
        readAll (fieldsOf (tableOf o)) ((bitsOf buf).drop 24) = valsOf o → NumOk o := by
      intro o h1 h2
      unfold NumOk
      rw [← h2, ← h1, ← hn']
      cases o <;> rfl
    split_ifs at h with c1 c2 c3 c4 c5 c6 c7
    · obtain ⟨e, he, rfl⟩ := map_ok h
      have := (dec1019_iff buf e).1 he
      exact ⟨by rw [minFrame_eq]; exact this.1, fin _ c1 this.2, this.2⟩
    · obtain ⟨e, he, rfl⟩ := map_ok h
      have := (dec1020_iff buf e).1 he
      exact ⟨by rw [minFrame_eq]; exact this.1, fin _ c2 this.2, this.2⟩
    · obtain ⟨e, he, rfl⟩ := map_ok h
      have := (dec1041_iff buf e).1 he
      exact ⟨by rw [minFrame_eq]; exact this.1, fin _ c3 this.2, this.2⟩
    · obtain ⟨e, he, rfl⟩ := map_ok h
      have := (dec1042_iff buf e).1 he
      exact ⟨by rw [minFrame_eq]; exact this.1, fin _ c4 this.2, this.2⟩
    · obtain ⟨e, he, rfl⟩ := map_ok h
      exact absurd he (dec1044_err buf e)
    · obtain ⟨e, he, rfl⟩ := map_ok h
      have := (dec1045_iff buf e).1 he
      exact ⟨by rw [minFrame_eq]; exact this.1, fin _ c6 this.2, this.2⟩
    · obtain ⟨e, he, rfl⟩ := map_ok h
      have := (dec1046_iff buf e).1 he
      exact ⟨by rw [minFrame_eq]; exact this.1, fin _ c7 this.2, this.2⟩
  · rintro ⟨hl, hnum, hr⟩
    have h5 : 5 ≤ buf.length := le_trans (by unfold minFrame; omega) hl
    have hn : natOfBits (((bitsOf buf).drop 24).take 12) = ephNum o := by
      unfold NumOk at hnum
      rw [← hr] at hnum
      have h2 : (readAll (fieldsOf (tableOf o)) ((bitsOf buf).drop 24)).head?
          = some ((natOfBits (((bitsOf buf).drop 24).take 12) : Nat) : Int) := by cases o <;> rfl
      rw [h2] at hnum
      simpa using hnum
    unfold decodeBare
    rw [getMsgNum_eq buf h5, ok_bind, hn]
    rw [minFrame_eq] at hl
    cases o with
    | gps e => rw [(dec1019_iff buf e).2 ⟨hl, hr⟩]; rfl
    | glo e => rw [(dec1020_iff buf e).2 ⟨hl, hr⟩]; rfl
    | navic e => rw [(dec1041_iff buf e).2 ⟨hl, hr⟩]; rfl
    | bds e => rw [(dec1042_iff buf e).2 ⟨hl, hr⟩]; rfl
    | qzs e => exact absurd rfl (hq e)
    | galf e => rw [(dec1045_iff buf e).2 ⟨hl, hr⟩]; rfl
    | gali e => rw [(dec1046_iff buf e).2 ⟨hl, hr⟩]; rfl

/-- The frame has a 3-byte header, the payload carries the encoded message (with any reserved bits) and possibly
more bits, and 3 bytes follow. -/
structure CarriesEph (buf : Bytes) (o : Eph.Obj Int) : Prop where
  ex : ∃ hdr payload crc : Bytes, ∃ bits tail : List Bool, hdr.length = 3 ∧ crc.length = 3 ∧
    buf = hdr ++ payload ++ crc ∧ bitsOf payload = bits ++ tail ∧
    Encodes (fieldsOf (tableOf o)) (valsOf o) bits

theorem CarriesEph.facts {buf : Bytes} {o : Eph.Obj Int} (h : CarriesEph buf o) :
    minFrame o ≤ buf.length ∧ readAll (fieldsOf (tableOf o)) ((bitsOf buf).drop 24) = valsOf o := by
  obtain ⟨hdr, payload, crc, bits, tail, h1, h2, rfl, h3, h4⟩ := h.ex
  have hlen := congrArg List.length h3
  rw [bitsOf_length, List.length_append, h4.length] at hlen
  constructor
  · simp only [minFrame, List.length_append, h1, h2]; omega
  · rw [bitsOf_append, bitsOf_append, h3, List.append_assoc, List.drop_left' (by rw [bitsOf_length, h1]),
      List.append_assoc]
    exact h4.read _

/-- **C30** Encoding then decoding returns the content, for every content, any reserved bits, any trailing bits. -/
theorem C30_roundtrip (buf : Bytes) (o : Eph.Obj Int) (hq : ∀ e, o ≠ .qzs e) (hn : NumOk o)
    (h : CarriesEph buf o) : Eph.decodeBare buf = .ok o :=
  (C30_iff buf o hq).2 ⟨h.facts.1, hn, h.facts.2⟩

/-- **C30** as seen through the sub-decoder in bare mode. -/
theorem C30_subDecode (buf : Bytes) (o : Eph.Obj Int) (hq : ∀ e, o ≠ .qzs e) (hn : NumOk o)
    (h : CarriesEph buf o) : Eph.subDecode true buf = some (o.map .int) := by
  have h5 : 5 ≤ buf.length := le_trans (by unfold minFrame; omega) h.facts.1
  unfold Eph.subDecode Eph.decode
  rw [getMsgNum_eq buf h5, ok_bind, C30_roundtrip buf o hq hn h]
  rfl

/-- **C30** decoded values are always in the range of their fields. -/
theorem C30_range (buf : Bytes) (o : Eph.Obj Int) (hq : ∀ e, o ≠ .qzs e) (h : Eph.decodeBare buf = .ok o) :
    FitsAll (fieldsOf (tableOf o)) (valsOf o) := by
  obtain ⟨h1, _, h3⟩ := (C30_iff buf o hq).1 h
  rw [← h3]
  apply readAll_fits
  · cases o <;> (simp only [tableOf]; decide)
  · have : layoutWidth (fieldsOf (tableOf o)) ≤ 8 * (minFrame o - 6) := by unfold minFrame; omega
    have h6 : 6 ≤ minFrame o := by unfold minFrame; omega
    rw [List.length_drop, bitsOf_length]; omega

/-- A GLONASS ephemeris with extreme field values. -/
def sampleGlo : EphGLO Int :=
  { msgNum := 1020, satNum := 24, frqSloNum := 13, tk := 4095, tb := 95, xn := -67108863, dotXn := 8388607,
    dotDotXn := -15, yn := 1, dotYn := -1, dotDotYn := 0, zn := 67108863, dotZn := -8388607, dotDotZn := 7,
    gamma_n := -1023, Cn := 1, BnMSB := 0, AlmHAI := 1, P := 3, P1 := 2, P2 := 1, P3 := 0, P4 := 1, ln3 := 0,
    tauN := -2097151, delta_tauN := 15, En := 31, Ft := 9, Nt := 1461, M := 1, auxDataOK := 1, Na := 1400,
    tauC := -2147483647, N4 := 7, tauGPS := 2097151, ln5 := 1 }

instance decFitsAll : (L : List Spec.Field) → (vs : List Int) → Decidable (FitsAll L vs)
  | [], vs => by unfold FitsAll; infer_instance
  | f :: L, vs => by
    unfold FitsAll
    split
    · exact decFitsAll L vs
    · match vs with
      | [] => exact isFalse (by rintro ⟨_, _, h, _⟩; cases h)
      | v :: vs =>
        match decFitsAll L vs, (inferInstance : Decidable (f.Fits v)) with
        | isTrue h1, isTrue h2 => exact isTrue ⟨v, vs, rfl, h2, h1⟩
        | isFalse h1, _ => exact isFalse (by rintro ⟨_, _, h, _, h2⟩; cases h; exact h1 h2)
        | _, isFalse h1 => exact isFalse (by rintro ⟨_, _, h, h2, _⟩; cases h; exact h1 h2)

example : FitsAll (fieldsOf (tableOf (.glo sampleGlo))) (valsOf (.glo sampleGlo)) ∧ NumOk (.glo sampleGlo) := by
  constructor
  · simp only [tableOf]; decide
  · rfl

example : CarriesEph ([0xD3, 0, 45] ++ bytesOfBits 45 (encode (fieldsOf T1020) (vals1020 sampleGlo)) ++ [1, 2, 3])
    (.glo sampleGlo) :=
  ⟨[0xD3, 0, 45], _, [1, 2, 3], encode (fieldsOf T1020) (vals1020 sampleGlo), [], rfl, rfl, rfl, by decide +kernel,
    encodes_encode (by decide)⟩

/-! ## C31 -/

/-- **C31 is violated**: a 1044 message is never decoded, whatever it contains (the decoder advances 8 bits after
the 10-bit field DF456, so its own length check always fails). -/
theorem C31_violated (buf : Bytes) (bare : Bool) (h : Eph.getMsgNum buf = .ok 1044) :
    Eph.subDecode bare buf = none := by
  unfold Eph.subDecode Eph.decode decodeBare
  rw [h]
  cases h44 : decode1044 buf with
  | ok e => exact absurd h44 (dec1044_err buf e)
  | error e => simp [ok_bind, h44, err_bind]

/-- **C31 is violated**, in terms of the claim: every well-formed QZSS ephemeris message is refused. -/
theorem C31_violated_wellformed (buf : Bytes) (bare : Bool) (e : EphQZS Int) (hn : NumOk (.qzs e))
    (h : CarriesEph buf (.qzs e)) : Eph.subDecode bare buf = none := by
  apply C31_violated
  have h5 : 5 ≤ buf.length := le_trans (by unfold minFrame; omega) h.facts.1
  rw [getMsgNum_eq buf h5]
  unfold NumOk at hn
  rw [← h.facts.2] at hn
  have h2 : (readAll (fieldsOf (tableOf (.qzs e))) ((bitsOf buf).drop 24)).head?
      = some ((natOfBits (((bitsOf buf).drop 24).take 12) : Nat) : Int) := rfl
  rw [h2] at hn
  have h3 : natOfBits (((bitsOf buf).drop 24).take 12) = 1044 := by
    simp only [ephNum, Option.some.injEq] at hn
    exact_mod_cast hn
  rw [h3]

/-- **C31** (partial: what is missing is the claim itself, success) no wrong QZSS ephemeris is ever produced. -/
theorem C31_partial (buf : Bytes) (bare : Bool) (e : EphQZS PyNum) : Eph.subDecode bare buf ≠ some (.qzs e) := by
  unfold Eph.subDecode Eph.decode
  intro h
  split at h
  · rename_i o ho
    cases h
    obtain ⟨n, hn, ho⟩ := bind_ok ho
    obtain ⟨o', ho', ho⟩ := bind_ok ho
    have : ∃ e', o' = .qzs e' := by
      cases bare
      · simp only [Bool.false_eq_true, if_false] at ho
        cases ho' : o' <;> rw [ho'] at ho <;> first | exact ⟨_, rfl⟩ | (cases ho; done)
      · simp only [if_true] at ho
        cases ho' : o' <;> rw [ho'] at ho <;> first | exact ⟨_, rfl⟩ | (cases ho; done)
    obtain ⟨e', rfl⟩ := this
    unfold decodeBare at ho'
    obtain ⟨n, hn, ho'⟩ := bind_ok ho'
    split_ifs at ho'
    all_goals (obtain ⟨x, hx, hx2⟩ := map_ok ho'; first | cases hx2 | skip)
    exact dec1044_err buf _ hx
  · cases h

/-- A QZSS ephemeris. -/
def sampleQzs : EphQZS Int :=
  { msgNum := 1044, satNum := 3, weekNum := 500, tc := 900, af0 := -1000, af1 := 10, af2 := -1, te := 900,
    delta_n := 12, m0 := -5, e := 7, sqrt_a := 11, w := -3, i0 := 4, i_dot := -2, omega0 := 1, omega_dot := -9,
    crs := 1, crc := 2, cuc := 3, cus := 4, cic := 5, cis := 6, IODE := 9, IODC := 777, Fit := 1, L2_Codes := 2,
    SVH := 0, URA := 1, TGD := -7 }

example : FitsAll (fieldsOf T1044) (vals1044 sampleQzs) ∧ NumOk (.qzs sampleQzs) ∧
    layoutWidth (fieldsOf T1044) = 485 := by
  refine ⟨by decide, rfl, by decide⟩

example : CarriesEph ([0xD3, 0, 61] ++ bytesOfBits 61
      (encode (fieldsOf T1044) (vals1044 sampleQzs) ++ [false, false, false]) ++ [1, 2, 3]) (.qzs sampleQzs) :=
  ⟨[0xD3, 0, 61], _, [1, 2, 3], encode (fieldsOf T1044) (vals1044 sampleQzs), [false, false, false], rfl, rfl, rfl,
    by decide +kernel, encodes_encode (by decide)⟩

/-! ## C32 -/

theorem pow2_eq (x : Int) (k : Nat) : pow2 x k = Res.apply (.p k) x := by
  simp only [pow2, Res.apply, PyNum.flt.injEq]
  rw [div_eq_mul_inv, one_div, inv_pow]

/-- **C32** every attribute of the scaled object is the transmitted integer with the resolution of its data field
applied, for every object with a representable GLONASS time field. -/
theorem C32_scale (o : Eph.Obj Int) (h : ∀ e, o = .glo e → 0 ≤ e.tk ∧ e.tk < 4096) :
    valsOf (Eph.scale o) = scaledVals (tableOf o) (valsOf o) := by
  cases o with
  | glo e =>
    obtain ⟨h1, h2⟩ := h e rfl
    have htk : (3600 * (e.tk / 2 ^ 7 % 2 ^ 5) + 60 * (e.tk / 2 ^ 1 % 2 ^ 6) + 30 * (e.tk % 2 ^ 1))
        = (3600 * (e.tk / 128) + 60 * (e.tk % 128 / 2) + 30 * (e.tk % 2)) := by omega
    have htb : e.tb * 15 * 60 = e.tb * 900 := by omega
    simp only [valsOf, Eph.scale, scale1020, vals1020, pow2_eq, htk, htb]
    rfl
  | bds e =>
    have : ∀ x : Int, PyNum.flt ((x : Rat) * (1 / 10 ^ 10)) = Res.apply (.d 10) x := by
      intro x; simp only [Res.apply, PyNum.flt.injEq]; norm_num
    simp only [valsOf, Eph.scale, scale1042, vals1042, pow2_eq, this]
    rfl
  | gps e => simp only [valsOf, Eph.scale, scale1019, vals1019, pow2_eq]; rfl
  | navic e => simp only [valsOf, Eph.scale, scale1041, vals1041, pow2_eq]; rfl
  | qzs e => simp only [valsOf, Eph.scale, scale1044, vals1044, pow2_eq]; rfl
  | galf e => simp only [valsOf, Eph.scale, scale1045, vals1045, pow2_eq]; rfl
  | gali e => simp only [valsOf, Eph.scale, scale1046, vals1046, pow2_eq]; rfl

/-- The type of the object is kept by scaling. -/
theorem C32_type (o : Eph.Obj Int) : ephNum (Eph.scale o) = ephNum o ∧ tableOf (Eph.scale o) = tableOf o := by
  cases o <;> exact ⟨rfl, rfl⟩

/-- A GLONASS tk code denotes a time: minutes below 60. -/
def TkValid (x : Int) : Prop := 0 ≤ x ∧ x < 4096 ∧ x % 128 / 2 < 60

theorem apply_inj (r : Res) (x y : Int) (hr : ∀ k, r = .sec k → k ≠ 0)
    (ht : r = .tk → TkValid x ∧ TkValid y) (h : r.apply x = r.apply y) : x = y := by
  cases r with
  | raw => simpa [Res.apply] using h
  | sec k =>
    have := hr k rfl
    simp only [Res.apply, PyNum.int.injEq] at h
    exact Int.eq_of_mul_eq_mul_right this h
  | p k =>
    simp only [Res.apply, PyNum.flt.injEq] at h
    have := mul_right_cancel₀ (by positivity) h
    exact_mod_cast this
  | d k =>
    simp only [Res.apply, PyNum.flt.injEq] at h
    have := mul_right_cancel₀ (by positivity) h
    exact_mod_cast this
  | chan => simp only [Res.apply, PyNum.int.injEq] at h; omega
  | tk =>
    obtain ⟨⟨h1, h2, h3⟩, h4, h5, h6⟩ := ht rfl
    simp only [Res.apply, PyNum.int.injEq] at h
    omega

theorem zipWith_inj (rs : List Res) (xs ys : List Int) (hx : xs.length = rs.length) (hy : ys.length = rs.length)
    (h : List.zipWith Res.apply rs xs = List.zipWith Res.apply rs ys)
    (hr : ∀ r ∈ rs, ∀ k, r = .sec k → k ≠ 0)
    (ht : ∀ i : Nat, rs[i]? = some Res.tk → (∀ x, xs[i]? = some x → TkValid x) ∧ (∀ y, ys[i]? = some y → TkValid y)) :
    xs = ys := by
  induction rs generalizing xs ys with
  | nil => cases xs <;> cases ys <;> simp_all
  | cons r rs ih =>
    cases xs with
    | nil => simp at hx
    | cons x xs =>
      cases ys with
      | nil => simp at hy
      | cons y ys =>
        simp only [List.zipWith_cons_cons, List.cons.injEq] at h
        have h0 := ht 0
        simp only [List.getElem?_cons_zero, Option.some.injEq] at h0
        have hxy : x = y := apply_inj r x y (hr r (by simp))
          (fun hr => ⟨(h0 hr).1 x rfl, (h0 hr).2 y rfl⟩) h.1
        rw [hxy, ih xs ys (by simpa using hx) (by simpa using hy) h.2 (fun r hr' => hr r (by simp [hr']))
          (fun i hi => by simpa using ht (i + 1) (by simpa using hi))]

/-- **C32** scaling loses nothing: two bare objects whose scaled objects are equal are equal (GLONASS tk codes being
valid times). -/
theorem C32_injective (o o' : Eph.Obj Int) (ht : ∀ e, o = .glo e → TkValid e.tk) (ht' : ∀ e, o' = .glo e → TkValid e.tk)
    (h : Eph.scale o = Eph.scale o') : o = o' := by
  have e1 := C32_scale o (fun e he => ⟨(ht e he).1, (ht e he).2.1⟩)
  have e2 := C32_scale o' (fun e he => ⟨(ht' e he).1, (ht' e he).2.1⟩)
  rw [h] at e1
  have e3 := e1.symm.trans e2
  cases o <;> cases o' <;> (try (cases h; done))
  case glo.glo e e' =>
    have hx := zipWith_inj (resOf T1020) (vals1020 e) (vals1020 e') (by rfl) (by rfl) e3
      (by intro r hr k hk; revert hr; subst hk; simp [resOf, T1020]; omega) (by
        have hi : ∀ i : Nat, (resOf T1020)[i]? = some Res.tk → i = 6 := by
          intro i h
          have hlt : i < 36 := by
            rw [List.getElem?_eq_some_iff] at h
            obtain ⟨h, _⟩ := h
            simpa [resOf, T1020] using h
          revert h; revert i; decide
        intro i h
        have := hi i h
        subst this
        constructor
        · intro x hx; cases hx; exact ht e rfl
        · intro x hx; cases hx; exact ht' e' rfl)
    rw [vals1020_inj hx]
  all_goals
    have noTk : ∀ T : List (Spec.Field × Res), (Res.tk ∈ resOf T → False) → ∀ (i : Nat) (A B : Prop),
        (resOf T)[i]? = some Res.tk → A ∧ B := by
      intro T hT i A B h
      exact (hT (List.mem_of_getElem? h)).elim
  case gps.gps e e' =>
    rw [vals1019_inj (zipWith_inj (resOf T1019) (vals1019 e) (vals1019 e') (by rfl) (by rfl) e3
      (by intro r hr k hk; revert hr; subst hk; simp [resOf, T1019]; omega)
      (fun i h => noTk T1019 (by decide) i _ _ h))]
  case navic.navic e e' =>
    rw [vals1041_inj (zipWith_inj (resOf T1041) (vals1041 e) (vals1041 e') (by rfl) (by rfl) e3
      (by intro r hr k hk; revert hr; subst hk; simp [resOf, T1041]; omega)
      (fun i h => noTk T1041 (by decide) i _ _ h))]
  case bds.bds e e' =>
    rw [vals1042_inj (zipWith_inj (resOf T1042) (vals1042 e) (vals1042 e') (by rfl) (by rfl) e3
      (by intro r hr k hk; revert hr; subst hk; simp [resOf, T1042]; omega)
      (fun i h => noTk T1042 (by decide) i _ _ h))]
  case qzs.qzs e e' =>
    rw [vals1044_inj (zipWith_inj (resOf T1044) (vals1044 e) (vals1044 e') (by rfl) (by rfl) e3
      (by intro r hr k hk; revert hr; subst hk; simp [resOf, T1044]; omega)
      (fun i h => noTk T1044 (by decide) i _ _ h))]
  case galf.galf e e' =>
    rw [vals1045_inj (zipWith_inj (resOf T1045) (vals1045 e) (vals1045 e') (by rfl) (by rfl) e3
      (by intro r hr k hk; revert hr; subst hk; simp [resOf, T1045, TGal]; omega)
      (fun i h => noTk T1045 (by decide) i _ _ h))]
  case gali.gali e e' =>
    rw [vals1046_inj (zipWith_inj (resOf T1046) (vals1046 e) (vals1046 e') (by rfl) (by rfl) e3
      (by intro r hr k hk; revert hr; subst hk; simp [resOf, T1046, TGal]; omega)
      (fun i h => noTk T1046 (by decide) i _ _ h))]

/-- Without valid minutes the documented conversion of tk is ambiguous: codes 120 (60 min) and 128 (1 h). -/
example : Eph.scale (.glo { sampleGlo with tk := 120 }) = Eph.scale (.glo { sampleGlo with tk := 128 }) := by decide +kernel

/-- IEEE double precision numbers (normal and subnormal). -/
def IsDouble (r : Rat) : Prop :=
  ∃ (m : Int) (e : Nat), |m| < 2 ^ 53 ∧ e ≤ 1074 ∧ r = m / 2 ^ e

theorem fits_abs (f : Spec.Field) (v : Int) (h : f.Fits v) (hw : f.width ≤ 32) : |v| < 2 ^ 53 := by
  obtain ⟨k, w⟩ := f
  simp only at hw
  have p1 : (2 : Int) ^ w ≤ 2 ^ 32 := by exact_mod_cast Nat.pow_le_pow_right (by omega) hw
  have p2 : (2 : Int) ^ (w - 1) ≤ 2 ^ 32 := by exact_mod_cast Nat.pow_le_pow_right (by omega) (by omega)
  rw [abs_lt]
  cases k <;> simp only [Field.Fits] at h
  · constructor <;> omega
  · constructor <;> omega
  · constructor <;> omega

theorem isDouble_zip (T : List (Spec.Field × Res)) (vs : List Int) (hf : FitsAll (fieldsOf T) vs)
    (hT : ∀ p ∈ T, p.1.width ≤ 32 ∧ ∀ k, p.2 = .p k → k ≤ 1074) :
    ∀ x ∈ List.zip (resOf T) (scaledVals T vs), ∀ k r, x.1 = .p k → x.2 = .flt r → IsDouble r := by
  induction T generalizing vs with
  | nil => simp [resOf]
  | cons p T ih =>
    unfold fieldsOf at hf
    rw [List.map_cons] at hf
    unfold FitsAll at hf
    split at hf
    · rename_i hk
      have : resOf (p :: T) = resOf T := by simp [resOf, hk]
      intro x hx
      refine ih vs hf (fun q hq => hT q (by simp [hq])) x ?_
      unfold scaledVals at hx ⊢
      rwa [this] at hx
    · rename_i hk
      obtain ⟨v, vs', rfl, h1, h2⟩ := hf
      have : resOf (p :: T) = p.2 :: resOf T := by simp [resOf, hk]
      intro x hx
      unfold scaledVals at hx
      rw [this, List.zipWith_cons_cons, List.zip_cons_cons, List.mem_cons] at hx
      rcases hx with rfl | hx
      · intro k r h3 h4
        simp only at h3 h4
        rw [h3] at h4
        simp only [Res.apply, PyNum.flt.injEq] at h4
        refine ⟨v, k, fits_abs p.1 v h1 (hT p (by simp)).1, (hT p (by simp)).2 k h3, ?_⟩
        rw [← h4, one_div, inv_pow, div_eq_mul_inv]
      · exact ih vs' h2 (fun q hq => hT q (by simp [hq])) x hx

/-- **C32** all scaled values with a binary resolution are exactly representable as IEEE doubles, so that the exact
rational of the model is the float of the program (only the BeiDou TGD, resolution 1e-10, is rounded). -/
theorem C32_exact (o : Eph.Obj Int) (h : FitsAll (fieldsOf (tableOf o)) (valsOf o)) :
    ∀ x ∈ List.zip (resOf (tableOf o)) (scaledVals (tableOf o) (valsOf o)), ∀ k r,
      x.1 = .p k → x.2 = .flt r → IsDouble r := by
  apply isDouble_zip _ _ h
  have key : ∀ T ∈ [T1019, T1020, T1041, T1042, T1044, T1045, T1046], ∀ p ∈ T, p.1.width ≤ 32 ∧
      (match p.2 with | .p k => decide (k ≤ 1074) | _ => true) = true := by decide
  intro p hp
  have := key (tableOf o) (by cases o <;> simp [tableOf]) p hp
  refine ⟨this.1, fun k hk => ?_⟩
  have h2 := this.2
  rw [hk] at h2
  simpa using h2

example : TkValid 3000 ∧ ¬ TkValid 120 := by unfold TkValid; omega

end Verif
