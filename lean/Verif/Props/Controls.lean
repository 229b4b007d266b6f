import Verif.Lemmas.Controls

/-!
# C47: failed control updates leave the previous controls in force
-/

namespace Verif
open Ctl Spec Run Conv

/-- One call of the manager of controls. -/
inductive Ctl.Call where
  | init (order : List Txt → List Txt) (f : IniFile)
  | update (order : List Txt → List Txt) (f : IniFile)

/-- The state after a call, whether it returned or raised. -/
def Ctl.Manager.call (m : Manager) : Call → Manager
  | .init o f => (m.initFromFile o f).1
  | .update o f => (m.updateFromFile o f).1

/-- The state after a sequence of calls on a new object. -/
def Ctl.after (cs : List Call) : Manager := cs.foldl Manager.call {}

theorem makeMARGO_cases (o : List Txt → List Txt) (m : Manager) :
    (∃ e, m.makeMARGO o = (m, .error e)) ∨ m.makeMARGO o = (m, .ok false) ∨
      ∃ c, m.makeMARGO o = ({ m with margo := c }, .ok true) ∧ MargoValid m.ini c := by
  unfold Manager.makeMARGO
  cases h : makeMargo o m.iniOk m.ini with
  | error e => exact .inl ⟨e, rfl⟩
  | ok r =>
    cases r with
    | none => exact .inr (.inl rfl)
    | some c => exact .inr (.inr ⟨c, rfl, (makeMargo_valid h).2⟩)

theorem makeJSON_cases (m : Manager) :
    (∃ e, m.makeJSON = (m, .error e)) ∨ m.makeJSON = (m, .ok false) ∨
      ∃ c, m.makeJSON = ({ m with json := c }, .ok true) ∧ JsonValid m.ini c := by
  unfold Manager.makeJSON
  cases h : makeJson m.iniOk m.ini with
  | error e => exact .inl ⟨e, rfl⟩
  | ok r =>
    cases r with
    | none => exact .inr (.inl rfl)
    | some c => exact .inr (.inr ⟨c, rfl, (makeJson_valid h).2⟩)

theorem readIni_cases (m : Manager) (f : IniFile) : ∃ i r, m.readIni f = ({ m with ini := i }, r) := by
  unfold Manager.readIni
  dsimp only
  split
  · exact ⟨_, _, rfl⟩
  · exact ⟨_, _, rfl⟩

/-- **C47, updates.** Whatever the configuration file is, an update leaves a group of controls exactly as it was, or replaces it by controls
that are completely defined by the configuration in force; controls that were not available do not become available. -/
theorem C47_update (order : List Txt → List Txt) (m : Manager) (f : IniFile) :
    ((m.updateFromFile order f).1.MARGO = m.MARGO ∨
      m.MARGO ≠ none ∧ ∃ c, (m.updateFromFile order f).1.MARGO = some c ∧ MargoValid (m.updateFromFile order f).1.ini c) ∧
    ((m.updateFromFile order f).1.JSON = m.JSON ∨
      m.JSON ≠ none ∧ ∃ c, (m.updateFromFile order f).1.JSON = some c ∧ JsonValid (m.updateFromFile order f).1.ini c) := by
  unfold Manager.updateFromFile
  split
  · exact ⟨.inl rfl, .inl rfl⟩
  · obtain ⟨i, r, hr⟩ := readIni_cases m f
    rw [hr]
    cases r with
    | error e => exact ⟨.inl rfl, .inl rfl⟩
    | ok b =>
      cases b with
      | false => exact ⟨.inl rfl, .inl rfl⟩
      | true =>
        dsimp only
        by_cases hm : m.margoOk = true
        · rw [if_pos hm]
          rcases makeMARGO_cases order { m with ini := i } with ⟨e, he⟩ | he | ⟨c, he, hv⟩
          · rw [he]
            exact ⟨.inl rfl, .inl rfl⟩
          · rw [he]
            dsimp only
            by_cases hj : m.jsonOk = true
            · rw [if_pos hj]
              rcases makeJSON_cases { m with ini := i } with ⟨e, he⟩ | he | ⟨c, he, hv⟩ <;> rw [he]
              · exact ⟨.inl rfl, .inl rfl⟩
              · exact ⟨.inl rfl, .inl rfl⟩
              · refine ⟨.inl rfl, .inr ⟨by simp [Manager.JSON, hj], c, by simp [Manager.JSON, hj], hv⟩⟩
            · rw [if_neg hj]
              exact ⟨.inl rfl, .inl rfl⟩
          · rw [he]
            dsimp only
            by_cases hj : m.jsonOk = true
            · rw [if_pos hj]
              rcases makeJSON_cases { m with ini := i, margo := c } with ⟨e, he⟩ | he | ⟨c', he, hv'⟩ <;> rw [he]
              · exact ⟨.inr ⟨by simp [Manager.MARGO, hm], c, by simp [Manager.MARGO, hm], hv⟩, .inl rfl⟩
              · exact ⟨.inr ⟨by simp [Manager.MARGO, hm], c, by simp [Manager.MARGO, hm], hv⟩, .inl rfl⟩
              · exact ⟨.inr ⟨by simp [Manager.MARGO, hm], c, by simp [Manager.MARGO, hm], hv⟩,
                  .inr ⟨by simp [Manager.JSON, hj], c', by simp [Manager.JSON, hj], hv'⟩⟩
            · rw [if_neg hj]
              exact ⟨.inr ⟨by simp [Manager.MARGO, hm], c, by simp [Manager.MARGO, hm], hv⟩, .inl rfl⟩
        · rw [if_neg hm]
          dsimp only
          by_cases hj : m.jsonOk = true
          · rw [if_pos hj]
            rcases makeJSON_cases { m with ini := i } with ⟨e, he⟩ | he | ⟨c, he, hv⟩ <;> rw [he]
            · exact ⟨.inl rfl, .inl rfl⟩
            · exact ⟨.inl rfl, .inl rfl⟩
            · refine ⟨.inl rfl, .inr ⟨by simp [Manager.JSON, hj], c, by simp [Manager.JSON, hj], hv⟩⟩
          · rw [if_neg hj]
            exact ⟨.inl rfl, .inl rfl⟩

/-- Controls in use are defined completely by some configuration. -/
def Ctl.Sound (m : Manager) : Prop :=
  (∀ c, m.MARGO = some c → ∃ ini, MargoValid ini c) ∧ (∀ c, m.JSON = some c → ∃ ini, JsonValid ini c)

theorem sound_update (order : List Txt → List Txt) (m : Manager) (f : IniFile) (h : Sound m) : Sound (m.updateFromFile order f).1 := by
  obtain ⟨h1, h2⟩ := C47_update order m f
  constructor
  · intro c hc
    rcases h1 with h1 | ⟨_, c', h1, hv⟩
    · exact h.1 c (h1 ▸ hc)
    · rw [h1] at hc
      exact ⟨_, Option.some.inj hc ▸ hv⟩
  · intro c hc
    rcases h2 with h1 | ⟨_, c', h1, hv⟩
    · exact h.2 c (h1 ▸ hc)
    · rw [h1] at hc
      exact ⟨_, Option.some.inj hc ▸ hv⟩

theorem sound_init (order : List Txt → List Txt) (m : Manager) (f : IniFile) (h : Sound m) : Sound (m.initFromFile order f).1 := by
  unfold Manager.initFromFile
  obtain ⟨i, r, hr⟩ := readIni_cases m f
  rw [hr]
  cases r with
  | error e => exact h
  | ok b =>
    cases b with
    | false => exact h
    | true =>
      dsimp only
      rw [if_pos rfl]
      rcases makeMARGO_cases order { m with ini := i, iniOk := true } with ⟨e, he⟩ | he | ⟨c, he, hv⟩
      · rw [he]; exact h
      · rw [he]
        dsimp only
        rcases makeJSON_cases { m with ini := i, iniOk := true, margoOk := false } with ⟨e, he⟩ | he | ⟨c, he, hv⟩ <;> rw [he]
        · exact ⟨by intro c hc; simp [Manager.MARGO] at hc, h.2⟩
        · exact ⟨by intro c hc; simp [Manager.MARGO] at hc, by intro c hc; simp [Manager.JSON] at hc⟩
        · refine ⟨by intro c hc; simp [Manager.MARGO] at hc, ?_⟩
          intro c' hc
          simp only [Manager.JSON, if_true, Option.some.injEq] at hc
          exact ⟨_, hc ▸ hv⟩
      · rw [he]
        dsimp only
        have hM : ∀ c', some c = some c' → ∃ ini, MargoValid ini c' := by
          intro c' hc'
          exact ⟨_, Option.some.inj hc' ▸ hv⟩
        rcases makeJSON_cases { m with ini := i, iniOk := true, margoOk := true, margo := c } with ⟨e, he⟩ | he | ⟨c', he, hv'⟩ <;> rw [he]
        · exact ⟨hM, h.2⟩
        · exact ⟨hM, by intro c hc; simp [Manager.JSON] at hc⟩
        · refine ⟨hM, ?_⟩
          intro c'' hc
          simp only [Manager.JSON, if_true, Option.some.injEq] at hc
          exact ⟨_, hc ▸ hv'⟩

theorem sound_after (cs : List Call) : ∀ m, Sound m → Sound (cs.foldl Manager.call m) := by
  induction cs with
  | nil => exact fun m h => h
  | cons c cs ih =>
    intro m h
    rw [List.foldl_cons]
    refine ih _ ?_
    cases c with
    | init o f => exact sound_init o m f h
    | update o f => exact sound_update o m f h

/-- **C47, availability.** After any sequence of initialisations and updates, successful or not, controls that are available are defined
completely by a configuration; both groups are handed out only together. -/
theorem C47_available (cs : List Call) :
    (∀ c, (after cs).MARGO = some c → ∃ ini, MargoValid ini c) ∧ (∀ c, (after cs).JSON = some c → ∃ ini, JsonValid ini c) ∧
    ∀ b, (after cs).boxed = some b ↔ (after cs).MARGO = some b.margo ∧ (after cs).JSON = some b.json := by
  have hs : Sound (after cs) := sound_after cs {} ⟨by intro c h; simp [Manager.MARGO] at h, by intro c h; simp [Manager.JSON] at h⟩
  refine ⟨hs.1, hs.2, ?_⟩
  intro b
  obtain ⟨bm, bj⟩ := b
  simp only [Manager.boxed, Manager.MARGO, Manager.JSON]
  cases (after cs).jsonOk <;> cases (after cs).margoOk <;> simp

/-- **C47, initialisation.** Controls are available after the initialisation of a new object only if the file was read and defines
them completely. -/
theorem C47_init (order : List Txt → List Txt) (f : IniFile) :
    (∀ c, (({} : Manager).initFromFile order f).1.MARGO = some c → ∃ ini, f = .parsed ini ∧ MargoValid (({} : Ini).merge ini) c) ∧
    (∀ c, (({} : Manager).initFromFile order f).1.JSON = some c → ∃ ini, f = .parsed ini ∧ JsonValid (({} : Ini).merge ini) c) := by
  cases f with
  | missing => simp [Manager.initFromFile, Manager.readIni, Ini.read, Manager.MARGO, Manager.JSON]
  | broken b => simp [Manager.initFromFile, Manager.readIni, Ini.read, Manager.MARGO, Manager.JSON]
  | parsed b =>
    have hr : ({} : Manager).readIni (.parsed b) = ({ ini := ({} : Ini).merge b }, .ok ((({} : Ini).merge b).sects.length != 0)) := rfl
    unfold Manager.initFromFile
    rw [hr]
    dsimp only
    split
    · next hok =>
      rw [hok]
      rcases makeMARGO_cases order { ini := ({} : Ini).merge b, iniOk := true } with ⟨e, he⟩ | he | ⟨c, he, hv⟩
      · rw [he]; simp [Manager.MARGO, Manager.JSON]
      · rw [he]
        dsimp only
        rcases makeJSON_cases { ini := ({} : Ini).merge b, iniOk := true } with ⟨e, he⟩ | he | ⟨c, he, hv⟩ <;> rw [he]
        · simp [Manager.MARGO, Manager.JSON]
        · simp [Manager.MARGO, Manager.JSON]
        · refine ⟨by simp [Manager.MARGO], ?_⟩
          intro c' hc
          simp only [Manager.JSON, if_true, Option.some.injEq] at hc
          exact ⟨b, rfl, hc ▸ hv⟩
      · rw [he]
        dsimp only
        have hM : ∀ c', some c = some c' → ∃ ini, IniFile.parsed b = .parsed ini ∧ MargoValid (({} : Ini).merge ini) c' := by
          intro c' hc'
          exact ⟨b, rfl, Option.some.inj hc' ▸ hv⟩
        rcases makeJSON_cases { ini := ({} : Ini).merge b, iniOk := true, margoOk := true, margo := c } with
          ⟨e, he⟩ | he | ⟨c', he, hv'⟩ <;> rw [he]
        · exact ⟨hM, by simp [Manager.JSON]⟩
        · exact ⟨hM, by simp [Manager.JSON]⟩
        · refine ⟨hM, ?_⟩
          intro c'' hc
          simp only [Manager.JSON, if_true, Option.some.injEq] at hc
          exact ⟨b, rfl, hc ▸ hv'⟩
    · simp [Manager.MARGO, Manager.JSON]

/-! ### Complete configurations are taken over -/

theorem mem_keys_of_get {κ α : Type} [BEq κ] [LawfulBEq κ] [DecidableEq κ] {d : PyDict κ α} {k : κ} {v : α} (h : d.get? k = some v) : k ∈ d.keys :=
  List.mem_map.2 ⟨(k, v), PyDict.mem_of_get? h, rfl⟩

theorem get_of_mem_keys {κ α : Type} [BEq κ] [LawfulBEq κ] [DecidableEq κ] {d : PyDict κ α} {k : κ} (h : k ∈ d.keys) : ∃ v, d.get? k = some v := by
  induction d with
  | nil => simp [PyDict.keys] at h
  | cons e d ih =>
    obtain ⟨k', v'⟩ := e
    unfold PyDict.get?
    rw [List.lookup_cons]
    by_cases hk : k == k'
    · rw [hk]; exact ⟨v', rfl⟩
    · have hk' : (k == k') = false := by simpa using hk
      rw [hk']
      refine ih ?_
      rcases List.mem_cons.1 h with rfl | h
      · simp at hk
      · exact h

theorem options_get (ini : Ini) (key : Txt) : (ini.options "LITERALS".toList).get? key = optionText ini "LITERALS" (String.ofList key) := by
  unfold Ini.options
  rw [PyDict.get?_append]
  unfold optionText PyDict.get?
  have e : (String.ofList key).toList = key := String.toList_ofList
  rw [e]
  generalize List.lookup _ ini.sects = o
  cases o <;> rfl

/-- Keys that are in lower case are found as they are stored. -/
theorem key_lower {ini : Ini} (hl : LowerKeys ini) {key : Txt} (h : key ∈ (ini.options "LITERALS".toList).keys) : key.map Char.toLower = key := by
  unfold PyDict.keys Ini.options at h
  rw [List.map_append, List.mem_append] at h
  rcases h with h | h
  · obtain ⟨o, ho, rfl⟩ := List.mem_map.1 h
    cases hs : ini.sects.get? "LITERALS".toList with
    | none => rw [hs] at ho; simp at ho
    | some opts =>
      rw [hs] at ho
      exact hl.1 _ (PyDict.mem_of_get? hs) o ho
  · obtain ⟨o, ho, rfl⟩ := List.mem_map.1 h
    exact hl.2 o ho

/-- The loop over the keys returns if all of them are readable; every satellite among them is in the mask. -/
theorem literalLoop_total {ini : Ini} : ∀ (ks : List Txt) (mask : Nat) (lt : PyDict Nat Int),
    (∀ k ∈ ks, ∃ sat : Int, LiteralKey k sat ∧ (1 ≤ sat ∧ sat ≤ 24 → ∃ v, ini.getInt "LITERALS".toList k = .ok (some v))) →
    ∃ mask' lt', literalLoop ini ks mask lt = .ok (mask', lt') ∧ (∀ i, mask.testBit i = true → mask'.testBit i = true) ∧
      ∀ k ∈ ks, ∀ sat : Nat, LiteralKey k sat → 1 ≤ sat ∧ sat ≤ 24 → mask'.testBit (sat - 1) = true
  | [], mask, lt, _ => ⟨mask, lt, rfl, fun _ h => h, by simp⟩
  | k :: ks, mask, lt, h => by
    obtain ⟨sat, hk, hv⟩ := h k List.mem_cons_self
    have hi := (literalKey_iff k sat).2 hk
    have ht : ∀ k' ∈ ks, _ := fun k' hk' => h k' (List.mem_cons_of_mem _ hk')
    rw [literalLoop, hi]
    dsimp only
    by_cases hs : 0 < sat ∧ sat ≤ 24
    · rw [if_pos hs]
      obtain ⟨v, hv⟩ := hv ⟨by omega, hs.2⟩
      rw [hv]
      dsimp only
      obtain ⟨mask', lt', e, hm, hks⟩ := literalLoop_total ks (mask ||| (1 <<< (sat.toNat - 1))) (lt.set sat.toNat v) ht
      refine ⟨mask', lt', e, ?_, ?_⟩
      · intro i hi
        exact hm i (by rw [Nat.testBit_or, hi, Bool.true_or])
      · intro k' hk' sat' hsat' hr
        rcases List.mem_cons.1 hk' with rfl | hk'
        · have : (sat' : Int) = sat := by
            have := (literalKey_iff k' sat').2 hsat'
            rw [hi] at this
            exact (Option.some.inj this).symm
          refine hm _ ?_
          have e2 : sat.toNat = sat' := by omega
          rw [e2, Nat.testBit_or, Nat.testBit_shiftLeft]
          simp
        · exact hks k' hk' sat' hsat' hr
    · rw [if_neg hs]
      obtain ⟨mask', lt', e, hm, hks⟩ := literalLoop_total ks mask lt ht
      refine ⟨mask', lt', e, hm, ?_⟩
      intro k' hk' sat' hsat' hr
      rcases List.mem_cons.1 hk' with rfl | hk'
      · have : (sat' : Int) = sat := by
          have := (literalKey_iff k' sat').2 hsat'
          rw [hi] at this
          exact (Option.some.inj this).symm
        omega
      · exact hks k' hk' sat' hsat' hr

/-- A mask with the bits 0 to 23 and no others. -/
theorem mask_full {mask : Nat} (h : ∀ i, mask.testBit i = true ↔ i < 24) : mask = 0xFFFFFF := by
  apply Nat.eq_of_testBit_eq
  intro i
  have e : (0xFFFFFF : Nat) = 2 ^ 24 - 1 := by norm_num
  rw [e, Nat.testBit_two_pow_sub_one]
  rcases Bool.eq_false_or_eq_true (mask.testBit i) with h1 | h1
  · rw [h1]; exact (decide_eq_true ((h i).1 h1)).symm
  · rw [h1]
    symm
    apply decide_eq_false
    intro h2
    rw [(h i).2 h2] at h1
    exact absurd h1 (by simp)

theorem makeMargo_total {order : List Txt → List Txt} {ini : Ini} {shift : Int} {hca lock : Bool} (ho : ∀ l x, x ∈ order l ↔ x ∈ l)
    (hl : LowerKeys ini) (hs : Section ini "LITERALS" ∧ Section ini "TIME" ∧ Section ini "MARGO")
    (h1 : ∃ t, OptionValue ini "TIME" "gps2utc" t ∧ IntText t shift)
    (h2 : ∃ t, OptionValue ini "MARGO" "hca" t ∧ BoolText t hca)
    (h3 : ∃ t, OptionValue ini "MARGO" "lock_time" t ∧ BoolText t lock) (h4 : LiteralsReadable ini) :
    ∃ c, makeMargo order true ini = .ok (some c) ∧ c.gps_utc_shift = shift ∧ c.half_cycle_enable = hca ∧ c.lock_time_enable = lock := by
  obtain ⟨mask, lt, e, -, hm⟩ := literalLoop_total (ini := ini) (order (ini.options "LITERALS".toList).keys) 0 [] (by
    intro k hk
    have hk := (ho _ _).1 hk
    have hlow := key_lower hl hk
    obtain ⟨t, ht⟩ := get_of_mem_keys hk
    rw [options_get] at ht
    obtain ⟨sat, hsat, hv⟩ := h4.keys _ _ ht
    rw [String.toList_ofList] at hsat
    refine ⟨sat, hsat, fun hr => ?_⟩
    obtain ⟨t', v, hv, hi⟩ := hv hr
    refine ⟨v, getInt_some.2 ⟨t', get_value.2 ?_, hi⟩⟩
    rw [hlow]
    exact hv)
  have hinv := literalLoop_inv (litInv_init ini) e
  have hmask : mask = 0xFFFFFF := mask_full (by
    intro i
    constructor
    · intro hi
      rw [hinv.bits, Option.isSome_iff_exists] at hi
      obtain ⟨v, hv⟩ := hi
      have := (hinv.from_ _ _ hv).2.1
      omega
    · intro hi
      obtain ⟨key, t, ht, hk⟩ := h4.all ((i + 1 : Nat) : Int) (by omega)
      have hmem : key.toList ∈ (ini.options "LITERALS".toList).keys := by
        refine mem_keys_of_get (v := t) ?_
        rw [options_get, String.ofList_toList, ht]
      exact hm _ ((ho _ _).2 hmem) (i + 1) hk (by omega))
  have hs1 := (hasSection_iff ini "LITERALS").2 hs.1
  have hs2 := (hasSection_iff ini "TIME").2 hs.2.1
  have hs3 := (hasSection_iff ini "MARGO").2 hs.2.2
  have g1 : ini.getInt "TIME".toList "GPS2UTC".toList = .ok (some shift) := by
    obtain ⟨t, ht, hv⟩ := h1
    exact getInt_some.2 ⟨t, (get_value' (by decide)).2 ht, hv⟩
  have g2 : ini.getBoolean "MARGO".toList "HCA".toList = .ok (some hca) := by
    obtain ⟨t, ht, hv⟩ := h2
    exact getBoolean_some.2 ⟨t, (get_value' (by decide)).2 ht, hv⟩
  have g3 : ini.getBoolean "MARGO".toList "LOCK_TIME".toList = .ok (some lock) := by
    obtain ⟨t, ht, hv⟩ := h3
    exact getBoolean_some.2 ⟨t, (get_value' (by decide)).2 ht, hv⟩
  refine ⟨{ half_cycle_enable := hca, lock_time_enable := lock, gps_utc_shift := shift, glo_lit_tab := lt }, ?_, rfl, rfl, rfl⟩
  unfold makeMargo
  rw [hs1, hs2, hs3]
  simp only [Bool.not_true, Bool.false_eq_true, if_false]
  rw [e, ok_bind]
  dsimp only
  rw [if_pos hmask, g1, ok_bind]
  dsimp only
  rw [g2, ok_bind]
  dsimp only
  rw [g3, ok_bind]

theorem makeJson_total {ini : Ini} {c : Json.Controls} (h : JsonValid ini c) : makeJson true ini = .ok (some c) := by
  have hs := (hasSection_iff ini "JSON").2 h.sections
  have g1 : ini.getBoolean "JSON".toList "ENABLE_HDR_DATA".toList = .ok (some c.enable_hdr_data) := by
    obtain ⟨t, ht, hv⟩ := h.hdr
    exact getBoolean_some.2 ⟨t, (get_value' (by decide)).2 ht, hv⟩
  have g2 : ini.getBoolean "JSON".toList "ENABLE_AUX_DATA".toList = .ok (some c.enable_aux_data) := by
    obtain ⟨t, ht, hv⟩ := h.aux
    exact getBoolean_some.2 ⟨t, (get_value' (by decide)).2 ht, hv⟩
  have g3 : ini.getBoolean "JSON".toList "ENABLE_PRETTY_VIEW".toList = .ok (some c.enable_pretty_view) := by
    obtain ⟨t, ht, hv⟩ := h.pretty
    exact getBoolean_some.2 ⟨t, (get_value' (by decide)).2 ht, hv⟩
  unfold makeJson
  rw [hs]
  simp only [Bool.not_true, Bool.false_eq_true, if_false]
  rw [g1, ok_bind]
  dsimp only
  rw [g2, ok_bind]
  dsimp only
  rw [g3, ok_bind]

/-- **C47, complete updates are taken over.** If controls are available, and the configuration after reading the file is complete, then
the update replaces both groups by what the configuration says and raises nothing. The enumeration order of the set of keys is arbitrary. -/
theorem C47_effective {order : List Txt → List Txt} {m : Manager} {b : Ini} {shift : Int} {hca lock : Bool} {cj : Json.Controls}
    (ho : ∀ l x, x ∈ order l ↔ x ∈ l) (hok : m.iniOk = true) (hm : m.MARGO ≠ none) (hj : m.JSON ≠ none) (hl : LowerKeys (m.ini.merge b))
    (hs : Section (m.ini.merge b) "LITERALS" ∧ Section (m.ini.merge b) "TIME" ∧ Section (m.ini.merge b) "MARGO")
    (h1 : ∃ t, OptionValue (m.ini.merge b) "TIME" "gps2utc" t ∧ IntText t shift)
    (h2 : ∃ t, OptionValue (m.ini.merge b) "MARGO" "hca" t ∧ BoolText t hca)
    (h3 : ∃ t, OptionValue (m.ini.merge b) "MARGO" "lock_time" t ∧ BoolText t lock) (h4 : LiteralsReadable (m.ini.merge b))
    (h5 : JsonValid (m.ini.merge b) cj) :
    (m.updateFromFile order (.parsed b)).2 = .ok () ∧
    ∃ c, (m.updateFromFile order (.parsed b)).1.boxed = some ⟨c, cj⟩ ∧ MargoValid (m.ini.merge b) c ∧ c.gps_utc_shift = shift ∧
      c.half_cycle_enable = hca ∧ c.lock_time_enable = lock := by
  obtain ⟨c, hc, e1, e2, e3⟩ := makeMargo_total ho hl hs h1 h2 h3 h4
  have hjt := makeJson_total h5
  have hmo : m.margoOk = true := by
    cases h : m.margoOk
    · simp [Manager.MARGO, h] at hm
    · rfl
  have hjo : m.jsonOk = true := by
    cases h : m.jsonOk
    · simp [Manager.JSON, h] at hj
    · rfl
  have hlen : ((m.ini.merge b).sects.length != 0) = true := by
    obtain ⟨o, ho⟩ := h5.sections
    have := List.length_pos_of_mem ho
    simp; intro h; rw [h] at this; simp at this
  have hr : m.readIni (.parsed b) = ({ m with ini := m.ini.merge b }, .ok true) := by
    unfold Manager.readIni Ini.read
    dsimp only
    rw [hlen]
  have hu : m.updateFromFile order (.parsed b) = ({ m with ini := m.ini.merge b, margo := c, json := cj }, .ok ()) := by
    unfold Manager.updateFromFile
    rw [hok, hr]
    simp only [Bool.not_true, Bool.false_eq_true, if_false]
    rw [if_pos hmo]
    unfold Manager.makeMARGO
    dsimp only
    rw [hok, hc]
    dsimp only
    rw [if_pos hjo]
    unfold Manager.makeJSON
    dsimp only
    rw [hjt]
  rw [hu]
  refine ⟨rfl, c, ?_, (makeMargo_valid hc).2, e1, e2, e3⟩
  simp [Manager.boxed, hmo, hjo]

/-! ### Reading a file adds to the configuration -/

theorem lookup_update {κ α : Type} [BEq κ] [LawfulBEq κ] [DecidableEq κ] (b : PyDict κ α) : ∀ (a : PyDict κ α) (k : κ), (b.map Prod.fst).Nodup →
    (a.update b).get? k = (b.get? k).or (a.get? k) := by
  unfold PyDict.update
  induction b with
  | nil => intro a k _; rfl
  | cons e b ih =>
    intro a k hn
    obtain ⟨k', v'⟩ := e
    rw [List.map_cons, List.nodup_cons] at hn
    rw [List.foldl_cons, ih _ k hn.2, PyDict.get?_set]
    by_cases hk : k = k'
    · subst hk
      have : PyDict.get? b k = none := by
        cases h : PyDict.get? b k with
        | none => rfl
        | some v => exact absurd (List.mem_map.2 ⟨_, PyDict.mem_of_get? h, rfl⟩) hn.1
      rw [this]
      simp [PyDict.get?, List.lookup_cons]
    · have h1 : (k == k') = false := by simpa using hk
      have h2 : (k' == k) = false := by simpa using Ne.symm hk
      simp [PyDict.get?, List.lookup_cons, h1, h2, hk, Ne.symm hk]

/-- **C47, reading.** After a file has been read, an option of a section has the value of the file; if the file does not give one, it has
the value it had before. The defaults of the file come after what the sections say. -/
theorem C47_merge (a b : Ini) (hu : UniqueNames b) (s o : Txt) :
    ((a.merge b).sects.get? s).bind (fun d => d.get? o) =
      ((b.sects.get? s).bind (fun d => d.get? o)).or ((a.sects.get? s).bind (fun d => d.get? o)) ∧
    (a.merge b).defaults.get? o = (b.defaults.get? o).or (a.defaults.get? o) := by
  refine ⟨?_, lookup_update _ _ _ hu.2.2⟩
  unfold Ini.merge
  dsimp only
  obtain ⟨h1, h2, -⟩ := hu
  generalize a.sects = d
  revert d
  generalize b.sects = bs at h1 h2
  induction bs with
  | nil => intro d; simp [PyDict.get?]
  | cons e bs ih =>
    intro d
    obtain ⟨k, opts⟩ := e
    rw [List.map_cons, List.nodup_cons] at h1
    rw [List.foldl_cons, ih h1.2 (fun s hs => h2 s (List.mem_cons_of_mem _ hs)), PyDict.get?_set]
    by_cases hk : s = k
    · subst hk
      have hnone : PyDict.get? bs s = none := by
        cases h : PyDict.get? bs s with
        | none => rfl
        | some v => exact absurd (List.mem_map.2 ⟨_, PyDict.mem_of_get? h, rfl⟩) h1.1
      have hthis : PyDict.get? ((s, opts) :: bs) s = some opts := by simp [PyDict.get?]
      rw [hnone, hthis, if_pos rfl]
      simp only [Option.bind_none, Option.none_or, Option.bind_some]
      rw [lookup_update _ _ _ (h2 _ List.mem_cons_self)]
      cases PyDict.get? d s with
      | none => simp [PyDict.get?]
      | some x => rfl
    · have h1 : (s == k) = false := by simpa using hk
      have hthis : PyDict.get? ((k, opts) :: bs) s = PyDict.get? bs s := by simp [PyDict.get?, List.lookup_cons, h1]
      rw [hthis, if_neg hk]

/-! ### What an update cannot do -/

/-- **C47, hazard.** An option in the section `DEFAULT` that is not the number of a satellite is taken for a literal (lines 72-73 of
controls.py are never reached), so the update raises `ValueError`; the conversion then ends before any file is converted, even though
controls are in force. -/
theorem C47_default_raises {order : List Txt → List Txt} {m : Manager} {b : Ini} {key t : Txt} (ho : ∀ l x, x ∈ order l ↔ x ∈ l)
    (hok : m.iniOk = true) (hm : m.MARGO ≠ none) (hs : Section (m.ini.merge b) "LITERALS" ∧ Section (m.ini.merge b) "TIME" ∧
      Section (m.ini.merge b) "MARGO") (hd : (key, t) ∈ (m.ini.merge b).defaults) (hk : ∀ sat, ¬ LiteralKey key sat) :
    ∃ e, (m.updateFromFile order (.parsed b)).2 = .error e ∧ (m.updateFromFile order (.parsed b)).1.MARGO = m.MARGO ∧
      (m.updateFromFile order (.parsed b)).1.JSON = m.JSON := by
  have hloop : ∀ (ks : List Txt) (mask : Nat) (lt : PyDict Nat Int), key ∈ ks →
      ∃ e, literalLoop (m.ini.merge b) ks mask lt = .error e := by
    intro ks
    induction ks with
    | nil => intro _ _ h; simp at h
    | cons k ks ih =>
      intro mask lt h
      rw [literalLoop]
      cases hi : pyInt (stripR k) with
      | none => exact ⟨_, rfl⟩
      | some sat =>
        have hk' : key ∈ ks := by
          rcases List.mem_cons.1 h with rfl | h
          · exact absurd ((literalKey_iff key sat).1 hi) (hk sat)
          · exact h
        dsimp only
        split
        · split
          · exact ⟨_, rfl⟩
          · exact ⟨_, rfl⟩
          · exact ih _ _ hk'
        · exact ih _ _ hk'
  have hmo : m.margoOk = true := by
    cases h : m.margoOk
    · simp [Manager.MARGO, h] at hm
    · rfl
  have hmem : key ∈ ((m.ini.merge b).options "LITERALS".toList).keys := by
    unfold PyDict.keys Ini.options
    rw [List.map_append, List.mem_append]
    exact .inr (List.mem_map.2 ⟨_, hd, rfl⟩)
  obtain ⟨e, he⟩ := hloop (order ((m.ini.merge b).options "LITERALS".toList).keys) 0 [] ((ho _ _).2 hmem)
  have hmk : makeMargo order true (m.ini.merge b) = .error e := by
    unfold makeMargo
    rw [(hasSection_iff _ "LITERALS").2 hs.1, (hasSection_iff _ "TIME").2 hs.2.1, (hasSection_iff _ "MARGO").2 hs.2.2]
    simp only [Bool.not_true, Bool.false_eq_true, if_false]
    rw [he, err_bind]
  have hlen : ((m.ini.merge b).sects.length != 0) = true := by
    obtain ⟨o, ho⟩ := hs.1
    have := List.length_pos_of_mem ho
    simp; intro h; rw [h] at this; simp at this
  have hr : m.readIni (.parsed b) = ({ m with ini := m.ini.merge b }, .ok true) := by
    unfold Manager.readIni Ini.read
    dsimp only
    rw [hlen]
  have hu : m.updateFromFile order (.parsed b) = ({ m with ini := m.ini.merge b }, .error e) := by
    unfold Manager.updateFromFile
    rw [hok, hr]
    simp only [Bool.not_true, Bool.false_eq_true, if_false]
    rw [if_pos hmo]
    unfold Manager.makeMARGO
    dsimp only
    rw [hok, hmk]
  rw [hu]
  exact ⟨e, rfl, rfl, rfl⟩

/-! ### The configuration files of the repository -/

/-- defaults.ini -/
def Ctl.defaultsIni : Ini where
  sects := [("MARGO".toList, [("hca".toList, "false".toList), ("lock_time".toList, "false".toList)]),
    ("JSON".toList, [("enable_pretty_view".toList, "true".toList), ("enable_hdr_data".toList, "true".toList),
      ("enable_aux_data".toList, "true".toList)]),
    ("TIME".toList, [("gps2utc".toList, "18".toList)]),
    ("LITERALS".toList,
    [("r1".toList, "1".toList), ("r2".toList, "-4".toList), ("r3".toList, "5".toList), ("r4".toList, "6".toList),
     ("r5".toList, "1".toList), ("r6".toList, "-4".toList), ("r7".toList, "5".toList), ("r8".toList, "6".toList),
     ("r9".toList, "-2".toList), ("r10".toList, "-7".toList), ("r11".toList, "0".toList), ("r12".toList, "-1".toList),
     ("r13".toList, "-2".toList), ("r14".toList, "-7".toList), ("r15".toList, "0".toList), ("r16".toList, "-1".toList),
     ("r17".toList, "4".toList), ("r18".toList, "-3".toList), ("r19".toList, "3".toList), ("r20".toList, "2".toList),
     ("r21".toList, "4".toList), ("r22".toList, "-3".toList), ("r23".toList, "3".toList), ("r24".toList, "2".toList)])]

/-- addons.ini -/
def Ctl.addonsIni : Ini where
  sects := [("MARGO".toList, [("hca".toList, "true".toList), ("lock_time".toList, "true".toList)]),
    ("JSON".toList, [("enable_pretty_view".toList, "false".toList), ("enable_hdr_data".toList, "false".toList),
      ("enable_aux_data".toList, "false".toList)])]

/-- The literals of defaults.ini. -/
def Ctl.defaultLiterals : PyDict Nat Int :=
  [(1, 1), (2, -4), (3, 5), (4, 6), (5, 1), (6, -4), (7, 5), (8, 6), (9, -2), (10, -7), (11, 0), (12, -1), (13, -2), (14, -7), (15, 0), (16, -1), (17, 4), (18, -3), (19, 3), (20, 2), (21, 4), (22, -3), (23, 3), (24, 2)]

/-- defaults.ini gives the default controls. -/
example : (({} : Manager).initFromFile id (.parsed defaultsIni)).1.boxed =
    some ⟨{ half_cycle_enable := false, lock_time_enable := false, gps_utc_shift := 18, glo_lit_tab := defaultLiterals },
      { enable_hdr_data := true, enable_aux_data := true, enable_pretty_view := true }⟩ := by decide +kernel

/-- addons.ini switches everything over; what it does not mention stays. -/
example : ((({} : Manager).initFromFile id (.parsed defaultsIni)).1.updateFromFile id (.parsed addonsIni)).1.boxed =
    some ⟨{ half_cycle_enable := true, lock_time_enable := true, gps_utc_shift := 18, glo_lit_tab := defaultLiterals },
      { enable_hdr_data := false, enable_aux_data := false, enable_pretty_view := false }⟩ := by decide +kernel

/-- A wrong truth value in an update raises; the controls stay. -/
example : let m := (({} : Manager).initFromFile id (.parsed defaultsIni)).1
    let r := m.updateFromFile id (.parsed { sects := [("MARGO".toList, [("hca".toList, "maybe".toList)])] })
    r.2 = .error .valueError ∧ r.1.boxed = m.boxed ∧ m.boxed ≠ none := by decide +kernel

/-- `C47_update` with a change of one group and `C47_available` with available controls. -/
example : let m := (({} : Manager).initFromFile id (.parsed defaultsIni)).1
    let r := m.updateFromFile id (.parsed { sects := [("JSON".toList, [("enable_aux_data".toList, "OFF".toList)])] })
    r.2 = .ok () ∧ r.1.MARGO = m.MARGO ∧ r.1.JSON ≠ m.JSON := by decide +kernel

/-- `C47_default_raises` applies to a default option with another name. -/
example : let m := (({} : Manager).initFromFile id (.parsed defaultsIni)).1
    (m.updateFromFile id (.parsed { defaults := [("name".toList, "x".toList)] })).2 = .error .valueError := by decide +kernel

/-- The literals of defaults.ini can be read: a condition of `C47_effective`. -/
theorem defaults_readable : LiteralsReadable defaultsIni ∧ LowerKeys defaultsIni := by
  have hall : ∀ o ∈ (defaultsIni.sects.get? "LITERALS".toList).getD [],
      ((pyInt (stripR o.1)).isSome && (pyInt o.2).isSome && !o.2.contains '%') = true := by decide +kernel
  have hfind : ∀ n : Fin 24, ((defaultsIni.sects.get? "LITERALS".toList).getD []).any
      (fun o => pyInt (stripR o.1) == some ((n.1 : Int) + 1) && (((defaultsIni.sects.get? "LITERALS".toList).getD []).get? o.1).isSome)
      = true := by decide +kernel
  have ho : ∀ key, optionText defaultsIni "LITERALS" key = ((defaultsIni.sects.get? "LITERALS".toList).getD []).get? key.toList := by
    intro key
    exact Option.or_none
  refine ⟨⟨?_, ?_⟩, ?_, ?_⟩
  · intro key t h
    rw [ho] at h
    have := hall _ (PyDict.mem_of_get? h)
    rw [Bool.and_eq_true, Bool.and_eq_true, Option.isSome_iff_exists, Option.isSome_iff_exists] at this
    obtain ⟨⟨⟨sat, hs⟩, v, hv⟩, hp⟩ := this
    refine ⟨sat, (literalKey_iff _ _).1 hs, fun _ => ⟨t, v, ⟨t, ?_, expands_plain ?_⟩, (pyInt_iff _ _).1 hv⟩⟩
    · rw [ho, h]
    · simpa using hp
  · intro sat hs
    have := hfind ⟨(sat - 1).toNat, by omega⟩
    rw [List.any_eq_true] at this
    obtain ⟨o, _, ho2⟩ := this
    rw [Bool.and_eq_true, beq_iff_eq, Option.isSome_iff_exists] at ho2
    obtain ⟨hk, t, ht⟩ := ho2
    have e : (((sat - 1).toNat : Nat) : Int) + 1 = sat := by omega
    dsimp only at hk
    rw [e] at hk
    have e2 : (String.ofList o.1).toList = o.1 := String.toList_ofList
    refine ⟨String.ofList o.1, t, ?_, ?_⟩
    · rw [ho, e2, ht]
    · rw [e2]; exact (literalKey_iff _ _).1 hk
  · decide +kernel
  · decide +kernel

/-- **C47, program.** If reading the controls raises, the program ends before any file is touched. -/
theorem C47_main (fr : Rat → Txt) (sh : Shell) (src : Txt → Option Bytes) (o1 o2 : List Txt → List Txt) (dflt extra : IniFile)
    (format : String) (args : List Txt) (ext : Txt) (w : Disk) (ready : Bool) :
    (∀ e, (({} : Manager).initFromFile o1 dflt).2 = .error e →
      Ctl.main fr sh src o1 o2 dflt (some extra) format args ext w ready = some ((w, ready), .error e)) ∧
    (∀ e, (({} : Manager).initFromFile o1 dflt).2 = .ok () →
      ((({} : Manager).initFromFile o1 dflt).1.updateFromFile o2 extra).2 = .error e →
      Ctl.main fr sh src o1 o2 dflt (some extra) format args ext w ready = some ((w, ready), .error e)) ∧
    ((({} : Manager).initFromFile o1 dflt).2 = .ok () →
      ((({} : Manager).initFromFile o1 dflt).1.updateFromFile o2 extra).2 = .ok () →
      Ctl.main fr sh src o1 o2 dflt (some extra) format args ext w ready =
        mainLoop fr src format (after [.init o1 dflt, .update o2 extra]).boxed w ready (makeListOfSourceFiles sh args ext)) := by
  unfold Ctl.main after
  simp only [List.foldl_cons, List.foldl_nil, Manager.call]
  generalize ({} : Manager).initFromFile o1 dflt = r
  obtain ⟨m, r⟩ := r
  refine ⟨?_, ?_, ?_⟩
  · rintro e rfl; rfl
  · rintro e rfl h
    dsimp only at h ⊢
    generalize m.updateFromFile o2 extra = q at h
    obtain ⟨m', q⟩ := q
    subst h; rfl
  · rintro rfl h
    dsimp only at h ⊢
    generalize m.updateFromFile o2 extra = q at h
    obtain ⟨m', q⟩ := q
    subst h; rfl

end Verif
