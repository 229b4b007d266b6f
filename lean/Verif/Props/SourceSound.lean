import Verif.Props.SourceMargoSession
import Verif.Lemmas.Lossless

/-!
Claims about a conversion at the level of the text: whatever the bytes of the file are, what is written for a message is a content that the message carries.
-/

namespace Verif
open Spec PyCore Refine Framer Decoder Run
open Rounding (rnd)

/-- The message carries the content: its fields are those of the content, and the number is that of its type. (An ephemeris: the message is long enough, and the bits after the header, read
as the table of its type says, are its fields; see C30.) -/
def Spec.CarriedIn (m : Bytes) : Content → Prop
  | .eph e => minFrame e ≤ m.length ∧ NumOk e ∧ readAll (fieldsOf (tableOf e)) ((bitsOf m).drop 24) = valsOf e
  | .base b => b.CarriedBy m
  | .msm d => d.WF ∧ d.CarriedBy m

/-- A schedule (1013) that announces a message twice. -/
def Spec.Repeats (c : Content) : Prop := ∃ id mjd sec leap ann, c = .base (.m1013 id mjd sec leap ann) ∧ ¬ (ann.map (·.1)).Nodup

/-- What the program does not show as it is: a schedule that announces a message twice, and an MSM3 with a fine pseudorange marked invalid (see C25). -/
def Spec.Spoiled (c : Content) : Prop := Repeats c ∨ ∃ d : MsmData, c = .msm d ∧ d.k = 3 ∧ ∃ x ∈ d.rngFine, x = -(2 ^ 14)

/-- A content that is delivered in physical units: it is `Accepted`, its texts are UTF-8 and not empty (see C34, C35), its signals have codes (see C27). -/
def Spec.Shown (c : Content) : Prop :=
  c.Accepted ∧ match c with
    | .eph _ => True
    | .base m => ∀ t ∈ m.texts, t ≠ [] ∧ ∃ s, t = utf8 s
    | .msm d => d.SignalsKnown

/-- Ephemerides that are decoded. -/
theorem sound_eph {m : Bytes} {bare : Bool} {e : Eph.Obj PyNum} (h : Eph.subDecode bare m = some e) :
    ∃ o : Eph.Obj Int, CarriedIn m (.eph o) ∧ (Content.eph o).Accepted ∧ FitsAll (fieldsOf (tableOf o)) (valsOf o) ∧ e = if bare then o.map .int else Eph.scale o := by
  unfold Eph.subDecode at h
  cases hn : Eph.getMsgNum m with
  | error x => rw [hn] at h; cases h
  | ok n =>
    rw [hn, ok_bind] at h
    unfold Eph.decode at h
    cases hd : Eph.decodeBare m with
    | error x => rw [hd] at h; cases h
    | ok o =>
      rw [hd, ok_bind] at h
      have hq : ∀ x, o ≠ .qzs x := by
        rintro x rfl
        unfold Eph.decodeBare at hd
        obtain ⟨n, hn, hd⟩ := bind_ok hd
        split_ifs at hd
        all_goals (obtain ⟨y, hy, hy2⟩ := map_ok hd; cases hy2)
        exact dec1044_err m _ hy
      refine ⟨o, (C30_iff m o hq).1 hd, hq, C30_range m o hq hd, ?_⟩
      cases bare <;> cases h <;> rfl

/-- What is decoded as transmitted integers is carried by the message. -/
theorem sound_bare {m : Bytes} (hv : ValidFrame m) {f : Family} {o : PyObj} (h : familyDecode true f m = some o) : ∃ c, CarriedIn m c ∧ c.Accepted ∧ o = c.bareObj := by
  have msm : (Msm.decodeMsm17 true m).map msmObj = some o → ∃ c, CarriedIn m c ∧ c.Accepted ∧ o = c.bareObj := by
    intro h
    obtain ⟨x, hx, rfl⟩ := Option.map_eq_some_iff.1 h
    unfold Msm.decodeMsm17 at hx
    cases hd : Msm.decode m with
    | error e => rw [hd] at hx; cases hx
    | ok b =>
      rw [hd] at hx
      cases hx
      obtain ⟨d, h1, h2, h3, rfl⟩ := (C21_C22_bare_iff m hv b).1 hd
      exact ⟨.msm d, ⟨h1, h2⟩, h3, rfl⟩
  cases f with
  | msm13 => exact msm h
  | msm47 => exact msm h
  | eph =>
    obtain ⟨e, he, rfl⟩ := Option.map_eq_some_iff.1 (show (Eph.subDecode true m).map PyObj.eph = some o from h)
    obtain ⟨i, h1, h0, -, rfl⟩ := sound_eph he
    exact ⟨.eph i, h1, h0, rfl⟩
  | base =>
    unfold familyDecode at h
    dsimp only at h
    cases hs : Base.subDecode true m with
    | error e => rw [hs] at h; cases h
    | ok x =>
      rw [hs] at h
      obtain ⟨y, rfl, rfl⟩ := Option.map_eq_some_iff.1 h
      unfold Base.subDecode at hs
      obtain ⟨k, hk, hs⟩ := bind_ok hs
      cases hd : Base.decode m true with
      | error e => rw [hd] at hs; cases hs
      | ok z =>
        rw [hd] at hs
        cases hs
        cases y with
        | inl b =>
          obtain ⟨w, h1, h2, rfl⟩ := (C33_C37_bare_iff m b).1 hd
          exact ⟨.base w, h2, h1, rfl⟩
        | inr r =>
          unfold Base.decode at hd
          obtain ⟨b, hb, hd⟩ := bind_ok hd
          cases hd

/-- What is decoded in physical units is carried by the message. -/
theorem sound_scaled {m : Bytes} (hv : ValidFrame m) {f : Family} {o : PyObj} (h : familyDecode false f m = some o) :
    ∃ c, CarriedIn m c ∧ Shown c ∧ (¬ Spoiled c → c.Scaled o) := by
  have msm : (Msm.decodeMsm17 false m).map msmObj = some o → ∃ c, CarriedIn m c ∧ Shown c ∧ (¬ Spoiled c → c.Scaled o) := by
    intro h
    obtain ⟨x, hx, rfl⟩ := Option.map_eq_some_iff.1 h
    rcases (C24_C27_scaled_iff m hv _).1 hx with ⟨d, h1, h2, h3, h4⟩ | ⟨-, h4⟩
    swap
    · cases h4
    split at h4
    swap
    · cases h4
    rename_i hs
    refine ⟨.msm d, ⟨h1, h2⟩, ⟨h3, hs⟩, fun hn => ?_⟩
    by_cases hk : d.k ≤ 3
    · rw [C25_partial d h1 hk hs (fun e x hx hx' => hn (.inr ⟨d, rfl, e, x, hx, hx'⟩)) h3 m hv h2] at hx
      cases hx
      rfl
    · obtain ⟨p, e1, -, e3⟩ := C40_decoded d h1 hs h3 m hv h2
      rw [e1] at hx
      cases hx
      rw [e3 (by omega)]
      rfl
  cases f with
  | msm13 => exact msm h
  | msm47 => exact msm h
  | eph =>
    obtain ⟨e, he, rfl⟩ := Option.map_eq_some_iff.1 (show (Eph.subDecode false m).map PyObj.eph = some o from h)
    obtain ⟨i, h1, h0, h2, rfl⟩ := sound_eph he
    exact ⟨.eph i, h1, ⟨h0, trivial⟩, fun _ => ⟨_, (C32_type i).1, C32_scale i (tk_range h2), rfl⟩⟩
  | base =>
    unfold familyDecode at h
    dsimp only at h
    cases hs : Base.subDecode false m with
    | error e => rw [hs] at h; cases h
    | ok x =>
      rw [hs] at h
      obtain ⟨y, rfl, rfl⟩ := Option.map_eq_some_iff.1 h
      unfold Base.subDecode at hs
      obtain ⟨k, hk, hs⟩ := bind_ok hs
      cases hd : Base.decode m false with
      | error e => rw [hd] at hs; cases hs
      | ok z =>
        rw [hd] at hs
        cases hs
        cases y with
        | inr r =>
          obtain ⟨w, g, h1, h2, h3, rfl⟩ := (C33_C37_scaled_iff m r).1 hd
          exact ⟨.base w, h2, ⟨h1, fun t ht => ⟨(h3 t ht).1, _, (isUtf8Of_iff _ _).1 (h3 t ht).2⟩⟩, fun _ => ⟨g, h3, rfl⟩⟩
        | inl b =>
          unfold Base.decode at hd
          obtain ⟨b, hb, hd⟩ := bind_ok hd
          rw [if_neg (by decide)] at hd
          obtain ⟨r', h3, h4⟩ := bind_ok hd
          cases h4

/-! ## A message carries at most one content -/

theorem read_res (n : Nat) (X : List Field) (b : List Bool) : readAll (R n :: X) b = readAll X (b.drop n) := rfl
theorem read_u (n : Nat) (X : List Field) (b : List Bool) : readAll (U n :: X) b = (natOfBits (b.take n) : Int) :: readAll X (b.drop n) := rfl

/-- Texts read from the same place are the same, and so is the place behind them. -/
theorem text_step {d d' : List UInt8} {X X' : List Field} {vx vx' : List Int} {b : List Bool} (h : readAll (textLayout d ++ X) b = textVals d ++ vx)
    (h' : readAll (textLayout d' ++ X') b = textVals d' ++ vx') : d = d' ∧ ∃ b', readAll X b' = vx ∧ readAll X' b' = vx' := by
  unfold textLayout textVals at h h'
  rw [List.cons_append, List.cons_append, read_u, List.cons.injEq] at h h'
  have hl : d.length = d'.length := by have := h.1.symm.trans h'.1; omega
  have hm : d'.map (fun _ => U 8) = d.map (fun _ => U 8) := by rw [List.map_const', List.map_const', hl]
  rw [readAll_append] at h h'
  rw [hm] at h'
  have hn : (readAll (d.map (fun _ => U 8)) (b.drop 8)).length = d.length := by
    rw [readAll_length, List.filter_eq_self.2, List.length_map]
    intro f hf
    obtain ⟨x, -, rfl⟩ := List.mem_map.1 hf
    rfl
  obtain ⟨h1, h2⟩ := List.append_inj h.2 (by rw [hn, List.length_map])
  obtain ⟨h3, h4⟩ := List.append_inj h'.2 (by rw [hn, List.length_map, hl])
  refine ⟨?_, _, h2, h4⟩
  refine List.map_injective_iff.2 (fun x y e => ?_) (h1.symm.trans h3)
  exact UInt8.toNat_inj.1 (by have e : (x.toNat : Int) = y.toNat := e; omega)

theorem text_end {d d' : List UInt8} {b : List Bool} (h : readAll (textLayout d) b = textVals d) (h' : readAll (textLayout d') b = textVals d') : d = d' :=
  (text_step (X := []) (X' := []) (vx := []) (vx' := []) (by simpa using h) (by simpa using h')).1

/-- The same for a bias. -/
theorem bias_step {a a' : Option Int} (e : biasBit a = biasBit a') {X X' : List Field} {vx vx' : List Int} {b : List Bool}
    (h : readAll (biasLayout a ++ X) b = biasVals a ++ vx) (h' : readAll (biasLayout a' ++ X') b = biasVals a' ++ vx') :
    a = a' ∧ ∃ b', readAll X b' = vx ∧ readAll X' b' = vx' := by
  cases a <;> cases a'
  · exact ⟨rfl, b, h, h'⟩
  · simp [biasBit] at e
  · simp [biasBit] at e
  · obtain ⟨h1, h2⟩ := List.cons.inj h
    obtain ⟨h3, h4⟩ := List.cons.inj h'
    exact ⟨congrArg some (h1.symm.trans h3), _, h2, h4⟩

theorem bias_end {a a' : Option Int} (e : biasBit a = biasBit a') {b : List Bool}
    (h : readAll (biasLayout a) b = biasVals a) (h' : readAll (biasLayout a') b = biasVals a') : a = a' :=
  (bias_step e (X := []) (X' := []) (vx := []) (vx' := []) (by simpa using h) (by simpa using h')).1

theorem ann_inj : ∀ {a a' : List (Int × Int × Int)}, a.flatMap (fun a => [a.1, a.2.1, a.2.2]) = a'.flatMap (fun a => [a.1, a.2.1, a.2.2]) → a = a'
  | [], [], _ => rfl
  | [], _ :: _, h => by simp at h
  | _ :: _, [], h => by simp at h
  | x :: a, y :: a', h => by
    simp only [List.flatMap_cons, List.cons_append, List.nil_append, List.cons.injEq] at h
    rw [ann_inj h.2.2.2, Prod.ext h.1 (Prod.ext h.2.1 h.2.2.1)]

theorem base_unique {m m' : BaseMsg} {buf : Bytes} (h : m.CarriedBy buf) (h' : m'.CarriedBy buf) : m = m' := by
  have hn := (number_base h).1.symm.trans (number_base h').1
  replace h := ((carriesExact_iff buf m.layout m.vals (layout_ok m)).1 h).2
  replace h' := ((carriesExact_iff buf m'.layout m'.vals (layout_ok m')).1 h').2
  generalize (bitsOf buf).drop 24 = b at h h'
  cases m <;> cases m' <;> first | (exfalso; simp [Content.number] at hn; done) | skip
  case m1005.m1005 p q =>
    have := h.symm.trans h'
    simp only [BaseMsg.vals, refVals, List.cons.injEq, and_true, true_and] at this
    cases p; cases q; simp_all
  case m1006.m1006 p _ q _ =>
    have := h.symm.trans h'
    simp only [BaseMsg.vals, refVals, List.cons_append, List.nil_append, List.cons.injEq, and_true, true_and] at this
    cases p; cases q; simp_all
  all_goals simp only [BaseMsg.layout, BaseMsg.vals, List.cons_append, List.nil_append, List.append_assoc, read_u, read_res, List.cons.injEq] at h h'
  case m1007.m1007 =>
    obtain ⟨e1, e2, e3⟩ := h
    obtain ⟨f1, f2, f3⟩ := h'
    obtain ⟨rfl, b', g1, g2⟩ := text_step e3 f3
    have := g1.symm.trans g2
    simp_all
  case m1008.m1008 =>
    obtain ⟨e1, e2, e3⟩ := h
    obtain ⟨f1, f2, f3⟩ := h'
    obtain ⟨rfl, b', g1, g2⟩ := text_step e3 f3
    rw [read_u, List.cons.injEq] at g1 g2
    obtain rfl := text_end g1.2 g2.2
    simp_all
  case m1033.m1033 =>
    obtain ⟨e1, e2, e3⟩ := h
    obtain ⟨f1, f2, f3⟩ := h'
    obtain ⟨rfl, b', g1, g2⟩ := text_step e3 f3
    rw [read_u, List.cons.injEq] at g1 g2
    obtain ⟨rfl, b', g3, g4⟩ := text_step g1.2 g2.2
    obtain ⟨rfl, b', g3, g4⟩ := text_step g3 g4
    obtain ⟨rfl, b', g3, g4⟩ := text_step g3 g4
    obtain rfl := text_end g3 g4
    have := g1.1.symm.trans g2.1
    have := e2.symm.trans f2
    simp_all
  case m1013.m1013 ann _ _ _ _ ann' =>
    obtain ⟨-, e2, e3, e4, e5, e6, e7⟩ := h
    obtain ⟨-, f2, f3, f4, f5, f6, f7⟩ := h'
    have hl : ann.length = ann'.length := by have := e5.symm.trans f5; omega
    have hm : ∀ a : List (Int × Int × Int), a.flatMap (fun _ => [U 12, U 1, U 16]) = (List.replicate a.length [U 12, U 1, U 16]).flatten := by
      intro a; rw [List.flatMap_def, List.map_const']
    rw [hm, hl, ← hm] at e7
    obtain rfl := ann_inj (e7.symm.trans f7)
    rw [e2.symm.trans f2, e3.symm.trans f3, e4.symm.trans f4, e6.symm.trans f6]
  case m1029.m1029 =>
    obtain ⟨-, e2, e3, e4, e5, e6⟩ := h
    obtain ⟨-, f2, f3, f4, f5, f6⟩ := h'
    obtain rfl := text_end e6 f6
    rw [e2.symm.trans f2, e3.symm.trans f3, e4.symm.trans f4, e5.symm.trans f5]
  case m1230.m1230 =>
    obtain ⟨-, e2, e3, e4, e5, e6, e7, e8⟩ := h
    obtain ⟨-, f2, f3, f4, f5, f6, f7, f8⟩ := h'
    obtain ⟨rfl, b', g3, g4⟩ := bias_step (e4.symm.trans f4) e8 f8
    obtain ⟨rfl, b', g3, g4⟩ := bias_step (e5.symm.trans f5) g3 g4
    obtain ⟨rfl, b', g3, g4⟩ := bias_step (e6.symm.trans f6) g3 g4
    obtain rfl := bias_end (e7.symm.trans f7) g3 g4
    rw [e2.symm.trans f2, e3.symm.trans f3]

theorem number_carried {m : Bytes} {c : Content} (h : CarriedIn m c) : numberIn m = some c.number := by
  cases c with
  | base b => exact (number_base h).1
  | msm d => exact number_msm h.1 h.2
  | eph e =>
    obtain ⟨h1, hn, h2⟩ := h
    have hl : 5 ≤ m.length := le_trans (by unfold minFrame; omega) h1
    unfold numberIn
    rw [if_neg (by omega)]
    unfold NumOk at hn
    rw [← h2] at hn
    have : natOfBits (((bitsOf m).drop 24).take 12) = ephNum e := by
      have hT : ∃ L, fieldsOf (tableOf e) = U 12 :: L := by cases e <;> exact ⟨_, rfl⟩
      obtain ⟨L, hL⟩ := hT
      rw [hL, read_u] at hn
      exact_mod_cast Option.some.inj hn
    rw [this]
    rfl

/-- **C113** "a content that the message carries" is *the* content: a message carries at most one. -/
theorem C113_unique {m : Bytes} {c c' : Content} (h : CarriedIn m c) (h' : CarriedIn m c') : c = c' := by
  have hn : c.number = c'.number := Option.some.inj ((number_carried h).symm.trans (number_carried h'))
  cases c <;> cases c'
  case eph.eph e e' =>
    have ht : fieldsOf (tableOf e) = fieldsOf (tableOf e') := by
      cases e <;> cases e' <;> first | rfl | (exfalso; simp [Content.number, ephNum] at hn)
    rw [Lossless.vals_inj hn (h.2.2.symm.trans (by rw [ht]; exact h'.2.2))]
  case base.base => rw [base_unique h h']
  case msm.msm d d' =>
    have hg : d.g = d'.g ∧ d.k = d'.k := by
      have hn : d.number = d'.number := hn
      have := h.1.k; have := h.1.g; have := h'.1.k; have := h'.1.g
      unfold MsmData.number at hn
      omega
    rw [(carried_good h.1 h.2).2, (carried_good h'.1 h'.2).2, hg.1, hg.2]
  case eph.base e m => cases e <;> cases m <;> simp [Content.number, ephNum] at hn
  case base.eph m e => cases e <;> cases m <;> simp [Content.number, ephNum] at hn
  case eph.msm e d =>
    have := Lossless.number_msm_range (d := d) h'.1
    have hn : ephNum e = d.number := hn
    cases e <;> simp only [ephNum] at hn <;> omega
  case msm.eph d e =>
    have := Lossless.number_msm_range (d := d) h.1
    have hn : d.number = ephNum e := hn
    cases e <;> simp only [ephNum] at hn <;> omega
  case base.msm m d =>
    have h1 := (number_base h).2
    have := Lossless.number_msm_range (d := d) h'.1
    have hn : (Content.base m).number = d.number := hn
    cases m <;> simp only [Content.number] at hn <;> omega
  case msm.base d m =>
    have := Lossless.number_msm_range (d := d) h.1
    have hn : d.number = (Content.base m).number := hn
    cases m <;> simp only [Content.number] at hn <;> omega
/-- The frame of a content carries it. -/
theorem C113_frame {c : Content} (h : c.WellFormed) : CarriedIn c.frame c := by
  have hc := frame_carries h
  cases c with
  | eph e =>
    obtain ⟨h1, h2⟩ := (carries_eph hc).facts
    exact ⟨h1, h.2.2, h2⟩
  | base m => exact hc
  | msm d => exact ⟨h.2.2, hc⟩

/-! ## What is written -/

/-- A message that carries an accepted content is decoded. -/
theorem taken_bare {m : Bytes} (hv : ValidFrame m) {c : Content} (h : CarriedIn m c) (ha : c.Accepted) :
    ∃ f, family c.number = some f ∧ familyDecode true f m = some c.bareObj := by
  cases c with
  | eph e =>
    refine ⟨.eph, family_eph e, ?_⟩
    have hd := (C30_iff m e ha).2 h
    have h5 : 5 ≤ m.length := le_trans (by unfold minFrame; omega) h.1
    show (Eph.subDecode true m).map PyObj.eph = _
    unfold Eph.subDecode Eph.decode
    rw [getMsgNum_eq m h5, ok_bind, hd]
    rfl
  | base b =>
    refine ⟨.base, (number_base h).2, ?_⟩
    have hd := (C33_C37_bare_iff m (Spec.bareObj b)).2 ⟨b, ha, h, rfl⟩
    have hs : Base.subDecode true m = .ok (some (.inl (Spec.bareObj b))) := by
      unfold Base.subDecode Base.getMsgNum
      rw [carried_num h, ok_bind, hd]
      rfl
    show (match Base.subDecode true m with
      | .ok x => x.map baseObj
      | .error _ => none) = _
    rw [hs]
    rfl
  | msm d =>
    have hd : (Msm.decodeMsm17 true m).map msmObj = some (Content.msm d).bareObj := by
      unfold Msm.decodeMsm17
      rw [(C21_C22_bare_iff m hv d.bareObj).2 ⟨d, h.1, h.2, ha, rfl⟩]
      rfl
    rcases family_msm h.1 with hf | hf <;> exact ⟨_, hf, hd⟩

/-- The same in physical units. -/
theorem taken_scaled {m : Bytes} (hv : ValidFrame m) {c : Content} (h : CarriedIn m c) (ha : Shown c) :
    ∃ f o, family c.number = some f ∧ familyDecode false f m = some o := by
  obtain ⟨ha, hs⟩ := ha
  cases c with
  | eph e =>
    refine ⟨.eph, .eph (Eph.scale e), family_eph e, ?_⟩
    have hd := (C30_iff m e ha).2 h
    have h5 : 5 ≤ m.length := le_trans (by unfold minFrame; omega) h.1
    show (Eph.subDecode false m).map PyObj.eph = _
    unfold Eph.subDecode Eph.decode
    rw [getMsgNum_eq m h5, ok_bind, hd]
    rfl
  | base b =>
    refine ⟨.base, .baseScaled (scaledObj textOf b), (number_base h).2, ?_⟩
    have hf : ∀ t ∈ b.texts, t ≠ [] ∧ IsUtf8Of t (textOf t) := by
      intro t ht
      obtain ⟨h3, s, rfl⟩ := hs t ht
      refine ⟨h3, ?_⟩
      rw [textOf_utf8]
      exact (isUtf8Of_iff _ _).2 rfl
    have hd := (C33_C37_scaled_iff m (scaledObj textOf b)).2 ⟨b, textOf, ha, h, hf, rfl⟩
    have hs : Base.subDecode false m = .ok (some (.inr (scaledObj textOf b))) := by
      unfold Base.subDecode Base.getMsgNum
      rw [carried_num h, ok_bind, hd]
      rfl
    show (match Base.subDecode false m with
      | .ok x => x.map baseObj
      | .error _ => none) = _
    rw [hs]
    rfl
  | msm d =>
    have hd := (C24_C27_scaled_iff m hv _).2 (.inl ⟨d, h.1, h.2, ha, rfl⟩)
    rw [if_pos hs] at hd
    have hd : ∃ o, (Msm.decodeMsm17 false m).map msmObj = some o := ⟨_, by rw [hd]; rfl⟩
    obtain ⟨o, hd⟩ := hd
    rcases family_msm h.1 with hf | hf <;> exact ⟨_, o, hf, hd⟩

theorem Spec.not_repeats {b : BaseMsg} (h : ¬ Repeats (.base b)) : ∀ id mjd sec leap ann, b = .m1013 id mjd sec leap ann → (ann.map (·.1)).Nodup := by
  rintro id mjd sec leap ann rfl
  by_contra hn
  exact h ⟨id, mjd, sec, leap, ann, rfl, hn⟩

theorem json_bare (fr : Rat → List Char) (c : Json.Controls) {x : Content} (h : ¬ Repeats x) : x.BareJson c.enable_hdr_data c.enable_aux_data (jv fr (Json.objVal c x.bareObj)) := by
  cases x with
  | eph e =>
    have := Json.ephFields_json fr (e.map .int)
    have hn : namesOf (e.map PyNum.int) = namesOf e := by cases e <;> rfl
    have hv : (valsOf (e.map PyNum.int)).map (jNum fr) = (valsOf e).map jInt := by cases e <;> rfl
    rw [hn, hv] at this
    exact this
  | base m => exact Json.baseBare_json fr m (not_repeats h)
  | msm d => exact Json.bareVal_json fr c d

theorem json_scaled (fr : Rat → List Char) (c : Json.Controls) {x : Content} (h : ¬ Repeats x) {o : PyObj} (ho : x.Scaled o) :
    x.ScaledJson fr c.enable_hdr_data c.enable_aux_data (jv fr (Json.objVal c o)) := by
  cases x with
  | eph e =>
    obtain ⟨e', h1, h2, rfl⟩ := ho
    have := Json.ephFields_json fr e'
    rw [Json.names_num (e := e') h1, h2] at this
    exact this
  | base m =>
    obtain ⟨f, hf, rfl⟩ := ho
    exact ⟨f, fun t ht => (hf t ht).2, Json.baseScaled_json fr f m (not_repeats h)⟩
  | msm d => cases ho; exact Json.msmVal_json fr c d

section
variable [Rounding]

theorem text_mono {hdr aux pretty : Bool} {o : PyObj} {x : Val} (h : TextOf hdr aux pretty o x) {p : (Rat → List Char) → JV → Prop}
    (hp : ∀ fr, p fr (jv fr (Json.objVal ⟨hdr, aux, pretty⟩ o))) : IsJsonText pretty p x :=
  jsonText_mono (fun fr w e => by rw [e]; exact hp fr) h.isText

theorem written_list {all bare hdr aux pretty : Bool} {P : Bytes → Val → Prop}
    (hP : ∀ m o x, ValidFrame m → supportedDecode all bare m = some o → TextOf hdr aux pretty o x → P m x) (ms : List Bytes) (hv : ∀ m ∈ ms, ValidFrame m) :
    ∀ {xs : List Val}, List.Forall₂ (TextOf hdr aux pretty) (ms.filterMap (supportedDecode all bare)) xs →
      List.Forall₂ (fun m x => supported all m = true ∧ P m x) (ms.filter (fun m => (supportedDecode all bare m).isSome)) xs := by
  induction ms with
  | nil => intro xs hx; cases hx; exact .nil
  | cons m ms ih =>
    intro xs hx
    have ih := @ih (fun m h => hv m (by simp [h]))
    rw [List.filterMap_cons] at hx
    rw [List.filter_cons]
    cases ho : supportedDecode all bare m with
    | none =>
      rw [ho] at hx
      rw [Option.isSome_none, if_neg Bool.false_ne_true]
      exact ih hx
    | some o =>
      rw [ho] at hx
      rw [Option.isSome_some, if_pos rfl]
      cases hx with
      | cons h1 h2 => exact .cons ⟨supported_of ho, hP m o _ (hv m (by simp)) ho h1⟩ (ih h2)

/-- Any bytes, converted. -/
theorem session_sound {all bare : Bool} {a K : Nat} {h : Heap} (hu : InUse all bare a K [] [] [] h) {hdr aux pretty : Bool} {s : Nat} (hc : IsCore hdr aux pretty h s)
    {P : Bytes → Val → Prop} (hP : ∀ m o x, ValidFrame m → supportedDecode all bare m = some o → TextOf hdr aux pretty o x → P m x)
    {Q : Bytes → Prop} (hQ : ∀ m, ValidFrame m → ((supportedDecode all bare m).isSome = true ↔ Q m)) (chunks : List Bytes) :
    ∃ xs h', Session a s chunks h xs h' ∧ (∀ ys g, Session a s chunks h ys g → ys = xs ∧ g = h') ∧
      (∃ keep : Bytes → Bool, (∀ m ∈ messages chunks.flatten, keep m = true ↔ Q m) ∧
        List.Forall₂ (fun m x => supported all m = true ∧ P m x) ((messages chunks.flatten).filter keep) xs) ∧
      ∃ errors, errors + xs.length = (messages chunks.flatten).countP (supported all) ∧ Returns n!"DecoderTop.dec_errors" [.ref a] h' (.int errors) := by
  obtain ⟨xs, h', l, ms, e1, -, e3, e4, e5, e6⟩ := session_chunks chunks hu hc
  rw [List.nil_append, List.nil_append, List.nil_append] at e3
  obtain ⟨f1, f2⟩ := C96_messages e3
  obtain ⟨g1, g2⟩ := C97_counters e3
  have hv : ∀ m ∈ ms, ValidFrame m := by rw [f1]; exact messages_valid _
  rw [← f1]
  exact ⟨xs, h', e1, fun ys g hy => session_unique e1 hy, ⟨_, fun m hm => hQ m (hv m hm), written_list hP ms hv e6⟩, _, e5, g2⟩

theorem decode_parts {all bare : Bool} {m : Bytes} {o : PyObj} (ho : supportedDecode all bare m = some o) :
    ∃ f, familyDecodeR rnd bare f m = some o := by
  unfold supportedDecode at ho
  obtain ⟨k, hk, ho⟩ := Option.bind_eq_some_iff.1 ho
  obtain ⟨f, hf, ho⟩ := Option.bind_eq_some_iff.1 ho
  by_cases hon : familyOn (!all) f = true
  · rw [if_pos hon] at ho; exact ⟨f, ho⟩
  · rw [if_neg hon] at ho; cases ho

end

/-- **C113** in the mode of transmitted integers: whatever the bytes of the file and however they are cut into chunks, what is written is, in the order of the messages, JSON for a
content that the message carries (for a schedule that announces a message twice: JSON). A message is written if and only if it carries an
accepted content. The other supported messages are counted. -/
theorem C113_bare {a K : Nat} {h : Heap} (hu : @InUse exactArith true true a K [] [] [] h) {hdr aux pretty : Bool} {s : Nat} (hc : IsCore hdr aux pretty h s)
    (chunks : List Bytes) :
    ∃ xs h', @Session exactArith a s chunks h xs h' ∧ (∀ ys g, @Session exactArith a s chunks h ys g → ys = xs ∧ g = h') ∧
      (∃ keep : Bytes → Bool, (∀ m ∈ messages chunks.flatten, keep m = true ↔ ∃ c, CarriedIn m c ∧ c.Accepted) ∧
        List.Forall₂ (fun m x => supported true m = true ∧ ∃ c, CarriedIn m c ∧ IsJsonText pretty (fun _ w => ¬ Repeats c → c.BareJson hdr aux w) x)
          ((messages chunks.flatten).filter keep) xs) ∧
      ∃ errors, errors + xs.length = (messages chunks.flatten).countP (supported true) ∧
        @Returns exactArith n!"DecoderTop.dec_errors" [.ref a] h' (.int errors) := by
  let _ := exactArith
  refine session_sound hu hc (fun m o x hv ho hx => ?_) (fun m hv => ⟨fun hm => ?_, fun hm => ?_⟩) chunks
  · obtain ⟨f, ho⟩ := decode_parts ho
    change familyDecodeR id true f m = some o at ho
    rw [familyDecodeR_id] at ho
    obtain ⟨c, h1, -, rfl⟩ := sound_bare hv ho
    exact ⟨c, h1, text_mono hx (fun fr hn => json_bare fr ⟨hdr, aux, pretty⟩ hn)⟩
  · obtain ⟨o, ho⟩ := Option.isSome_iff_exists.1 hm
    obtain ⟨f, ho⟩ := decode_parts ho
    change familyDecodeR id true f m = some o at ho
    rw [familyDecodeR_id] at ho
    obtain ⟨c, h1, h2, -⟩ := sound_bare hv ho
    exact ⟨c, h1, h2⟩
  · obtain ⟨c, h1, h2⟩ := hm
    obtain ⟨f, h3, h4⟩ := taken_bare hv h1 h2
    unfold supportedDecode
    rw [number_carried h1, Option.bind_some, h3, Option.bind_some, if_pos (by cases f <;> rfl)]
    show (familyDecodeR id true f m).isSome = true
    rw [familyDecodeR_id, h4]
    rfl

/-- Transmitted integers are the same in double precision. -/
theorem bare_same {rnd : Rat → Rat} (hr : Nearest rnd) {m : Bytes} (hv : ValidFrame m) (f : Family) : familyDecodeR rnd true f m = familyDecode true f m := by
  cases f with
  | msm13 => exact congrArg (Option.map msmObj) (msmR_bare rnd m)
  | msm47 => exact congrArg (Option.map msmObj) (msmR_bare rnd m)
  | eph => rfl
  | base =>
    have h5 := family_rel hr true .base m (frame_short hv)
    cases h6 : familyDecode true .base m with
    | none =>
      rw [h6] at h5
      generalize familyDecodeR rnd true .base m = z at h5 ⊢
      cases h5
      rfl
    | some o =>
      obtain ⟨c, -, -, hc⟩ := sound_bare hv h6
      have hb : ∃ y, baseObj y = o := by
        unfold familyDecode at h6
        dsimp only at h6
        cases hs : Base.subDecode true m with
        | error e => rw [hs] at h6; cases h6
        | ok x =>
          rw [hs] at h6
          obtain ⟨y, -, hy⟩ := Option.map_eq_some_iff.1 h6
          exact ⟨y, hy⟩
      obtain ⟨y, rfl⟩ := hb
      rw [h6] at h5
      generalize familyDecodeR rnd true .base m = z at h5 ⊢
      cases h5 with
      | some h5 =>
        cases c with
        | eph e => cases y <;> cases hc
        | msm d => cases y <;> cases hc
        | base b =>
          rw [hc] at h5 ⊢
          generalize ho : (Content.base b).bareObj = w at h5 ⊢
          cases h5 with
          | baseBare => rfl
          | msmBare => cases ho
          | msm => cases ho
          | base => cases ho
          | ephBare => cases ho
          | eph => cases ho

/-- **C113** in the mode of transmitted integers, double precision: the same. -/
theorem C113_bare_double {rnd : Rat → Rat} (hr : Nearest rnd) {a K : Nat} {h : Heap} (hu : @InUse (doubleArith hr) true true a K [] [] [] h) {hdr aux pretty : Bool} {s : Nat}
    (hc : IsCore hdr aux pretty h s) (chunks : List Bytes) :
    ∃ xs h', @Session (doubleArith hr) a s chunks h xs h' ∧ (∀ ys g, @Session (doubleArith hr) a s chunks h ys g → ys = xs ∧ g = h') ∧
      (∃ keep : Bytes → Bool, (∀ m ∈ messages chunks.flatten, keep m = true ↔ ∃ c, CarriedIn m c ∧ c.Accepted) ∧
        List.Forall₂ (fun m x => supported true m = true ∧ ∃ c, CarriedIn m c ∧ IsJsonText pretty (fun _ w => ¬ Repeats c → c.BareJson hdr aux w) x)
          ((messages chunks.flatten).filter keep) xs) ∧
      ∃ errors, errors + xs.length = (messages chunks.flatten).countP (supported true) ∧
        @Returns (doubleArith hr) n!"DecoderTop.dec_errors" [.ref a] h' (.int errors) := by
  let _ := doubleArith hr
  refine session_sound hu hc (fun m o x hv ho hx => ?_) (fun m hv => ⟨fun hm => ?_, fun hm => ?_⟩) chunks
  · obtain ⟨f, ho⟩ := decode_parts ho
    change familyDecodeR rnd true f m = some o at ho
    rw [bare_same hr hv] at ho
    obtain ⟨c, h1, -, rfl⟩ := sound_bare hv ho
    exact ⟨c, h1, text_mono hx (fun fr hn => json_bare fr ⟨hdr, aux, pretty⟩ hn)⟩
  · obtain ⟨o, ho⟩ := Option.isSome_iff_exists.1 hm
    obtain ⟨f, ho⟩ := decode_parts ho
    change familyDecodeR rnd true f m = some o at ho
    rw [bare_same hr hv] at ho
    obtain ⟨c, h1, h2, -⟩ := sound_bare hv ho
    exact ⟨c, h1, h2⟩
  · obtain ⟨c, h1, h2⟩ := hm
    obtain ⟨f, h3, h4⟩ := taken_bare hv h1 h2
    unfold supportedDecode
    rw [number_carried h1, Option.bind_some, h3, Option.bind_some, if_pos (by cases f <;> rfl)]
    show (familyDecodeR rnd true f m).isSome = true
    rw [bare_same hr hv, h4]
    rfl

/-- **C113** in physical units, exact arithmetic: a message is written if and only if it carries a content that is `Shown`, as JSON for this content, unless it is
`Spoiled`. -/
theorem C113_scaled {a K : Nat} {h : Heap} (hu : @InUse exactArith true false a K [] [] [] h) {hdr aux pretty : Bool} {s : Nat} (hc : IsCore hdr aux pretty h s)
    (chunks : List Bytes) :
    ∃ xs h', @Session exactArith a s chunks h xs h' ∧ (∀ ys g, @Session exactArith a s chunks h ys g → ys = xs ∧ g = h') ∧
      (∃ keep : Bytes → Bool, (∀ m ∈ messages chunks.flatten, keep m = true ↔ ∃ c, CarriedIn m c ∧ Shown c) ∧
        List.Forall₂ (fun m x => supported true m = true ∧ ∃ c, CarriedIn m c ∧ IsJsonText pretty (fun fr w => ¬ Spoiled c → c.ScaledJson fr hdr aux w) x)
          ((messages chunks.flatten).filter keep) xs) ∧
      ∃ errors, errors + xs.length = (messages chunks.flatten).countP (supported true) ∧
        @Returns exactArith n!"DecoderTop.dec_errors" [.ref a] h' (.int errors) := by
  let _ := exactArith
  refine session_sound hu hc (fun m o x hv ho hx => ?_) (fun m hv => ⟨fun hm => ?_, fun hm => ?_⟩) chunks
  · obtain ⟨f, ho⟩ := decode_parts ho
    change familyDecodeR id false f m = some o at ho
    rw [familyDecodeR_id] at ho
    obtain ⟨c, h1, -, h2⟩ := sound_scaled hv ho
    exact ⟨c, h1, text_mono hx (fun fr hn => json_scaled fr ⟨hdr, aux, pretty⟩ (fun hr => hn (.inl hr)) (h2 hn))⟩
  · obtain ⟨o, ho⟩ := Option.isSome_iff_exists.1 hm
    obtain ⟨f, ho⟩ := decode_parts ho
    change familyDecodeR id false f m = some o at ho
    rw [familyDecodeR_id] at ho
    obtain ⟨c, h1, h2, -⟩ := sound_scaled hv ho
    exact ⟨c, h1, h2⟩
  · obtain ⟨c, h1, h2⟩ := hm
    obtain ⟨f, o, h3, h4⟩ := taken_scaled hv h1 h2
    unfold supportedDecode
    rw [number_carried h1, Option.bind_some, h3, Option.bind_some, if_pos (by cases f <;> rfl)]
    show (familyDecodeR id false f m).isSome = true
    rw [familyDecodeR_id, h4]
    rfl

/-- **C113** in physical units, double precision: the same, with numbers within the tolerance of the member they are in. -/
theorem C113_double {rnd : Rat → Rat} (hr : Nearest rnd) {a K : Nat} {h : Heap} (hu : @InUse (doubleArith hr) true false a K [] [] [] h) {hdr aux pretty : Bool} {s : Nat}
    (hc : IsCore hdr aux pretty h s) (chunks : List Bytes) :
    ∃ xs h', @Session (doubleArith hr) a s chunks h xs h' ∧ (∀ ys g, @Session (doubleArith hr) a s chunks h ys g → ys = xs ∧ g = h') ∧
      (∃ keep : Bytes → Bool, (∀ m ∈ messages chunks.flatten, keep m = true ↔ ∃ c, CarriedIn m c ∧ Shown c) ∧
        List.Forall₂ (fun m x => supported true m = true ∧ ∃ c, CarriedIn m c ∧ IsJsonText pretty (fun fr w => ¬ Spoiled c → c.DoubleJson fr hdr aux w) x)
          ((messages chunks.flatten).filter keep) xs) ∧
      ∃ errors, errors + xs.length = (messages chunks.flatten).countP (supported true) ∧
        @Returns (doubleArith hr) n!"DecoderTop.dec_errors" [.ref a] h' (.int errors) := by
  let _ := doubleArith hr
  refine session_sound hu hc (fun m o x hv ho hx => ?_) (fun m hv => ⟨fun hm => ?_, fun hm => ?_⟩) chunks
  · obtain ⟨f, ho⟩ := decode_parts ho
    change familyDecodeR rnd false f m = some o at ho
    have h5 := family_rel hr false f m (frame_short hv)
    rw [ho] at h5
    cases h6 : familyDecode false f m with
    | none => rw [h6] at h5; cases h5
    | some o' =>
      rw [h6] at h5
      cases h5 with
      | some h5 =>
        obtain ⟨c, h1, -, h2⟩ := sound_scaled hv h6
        exact ⟨c, h1, text_mono hx (fun fr hn =>
          ⟨_, json_scaled fr ⟨hdr, aux, pretty⟩ (fun hr => hn (.inl hr)) (h2 hn), Json.near_json hr ⟨hdr, aux, pretty⟩ h5⟩)⟩
  · obtain ⟨o, ho⟩ := Option.isSome_iff_exists.1 hm
    obtain ⟨f, ho⟩ := decode_parts ho
    change familyDecodeR rnd false f m = some o at ho
    have h5 := family_rel hr false f m (frame_short hv)
    rw [ho] at h5
    cases h6 : familyDecode false f m with
    | none => rw [h6] at h5; cases h5
    | some o' =>
      obtain ⟨c, h1, h2, -⟩ := sound_scaled hv h6
      exact ⟨c, h1, h2⟩
  · obtain ⟨c, h1, h2⟩ := hm
    obtain ⟨f, o, h3, h4⟩ := taken_scaled hv h1 h2
    have h5 := family_rel hr false f m (frame_short hv)
    unfold supportedDecode
    rw [number_carried h1, Option.bind_some, h3, Option.bind_some, if_pos (by cases f <;> rfl)]
    show (familyDecodeR rnd false f m).isSome = true
    rw [h4] at h5
    generalize familyDecodeR rnd false f m = z at h5
    cases h5
    rfl

/-! ## The hypotheses are met -/

/-- Any bytes, transmitted integers. -/
example (hdr aux pretty : Bool) (bytes : Bytes) : ∃ a h s xs h', IsCore hdr aux pretty h s ∧ @Session exactArith a s [bytes] h xs h' := by
  obtain ⟨a, K, h, s, hu, hc⟩ := @inUse_core exactArith true true hdr aux pretty
  obtain ⟨xs, h', h1, -⟩ := C113_bare hu hc [bytes]
  exact ⟨a, h, s, xs, h', hc, h1⟩

/-- Any bytes, transmitted integers, double precision. -/
example {rnd : Rat → Rat} (hr : Nearest rnd) (hdr aux pretty : Bool) (bytes : Bytes) :
    ∃ a h s xs h', IsCore hdr aux pretty h s ∧ @Session (doubleArith hr) a s [bytes] h xs h' := by
  obtain ⟨a, K, h, s, hu, hc⟩ := @inUse_core (doubleArith hr) true true hdr aux pretty
  obtain ⟨xs, h', h1, -⟩ := C113_bare_double hr hu hc [bytes]
  exact ⟨a, h, s, xs, h', hc, h1⟩

/-- Any bytes, physical units. -/
example (hdr aux pretty : Bool) (bytes : Bytes) : ∃ a h s xs h', IsCore hdr aux pretty h s ∧ @Session exactArith a s [bytes] h xs h' := by
  obtain ⟨a, K, h, s, hu, hc⟩ := @inUse_core exactArith true false hdr aux pretty
  obtain ⟨xs, h', h1, -⟩ := C113_scaled hu hc [bytes]
  exact ⟨a, h, s, xs, h', hc, h1⟩

/-- Any bytes, double precision. -/
example {rnd : Rat → Rat} (hr : Nearest rnd) (hdr aux pretty : Bool) (bytes : Bytes) :
    ∃ a h s xs h', IsCore hdr aux pretty h s ∧ @Session (doubleArith hr) a s [bytes] h xs h' := by
  obtain ⟨a, K, h, s, hu, hc⟩ := @inUse_core (doubleArith hr) true false hdr aux pretty
  obtain ⟨xs, h', h1, -⟩ := C113_double hr hu hc [bytes]
  exact ⟨a, h, s, xs, h', hc, h1⟩

/-- A message, the content that it carries, and that it is not spoiled. -/
example : CarriedIn (Content.msm exMsm5).frame (.msm exMsm5) ∧ ¬ Spoiled (.msm exMsm5) := by
  have hw := (exContents_ok (.msm exMsm5) (by simp [exContents])).1
  refine ⟨⟨hw.2.2, frame_carries hw⟩, ?_⟩
  rintro (⟨_, _, _, _, _, h, -⟩ | ⟨d, h, h3, -⟩)
  · cases h
  · cases h
    exact absurd h3 (by decide)

/-- It is delivered. -/
example : Shown (.msm exMsm5) := ⟨⟨fun h => absurd h (by decide), fun h => absurd h (by decide)⟩, by show exMsm5.SignalsKnown; decide +kernel⟩

/-- It carries no other. -/
example (c : Content) (h : CarriedIn (Content.msm exMsm5).frame c) : c = .msm exMsm5 :=
  C113_unique h (C113_frame (exContents_ok (.msm exMsm5) (by simp [exContents])).1)

end Verif
