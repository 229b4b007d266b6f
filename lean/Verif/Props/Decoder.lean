import Verif.Lemmas.Decoder
import Verif.Props.MsmScaled

/-!
# C17, C18, C19: dispatching of messages
-/

namespace Verif
open Spec Decoder

/-- Mode JSON-B yields bare data. -/
def Decoder.Mode.bare (m : Mode) : Bool := m == .jsonB

/-- Mode MARGO decodes observables only. -/
def Decoder.Mode.obsOnly (m : Mode) : Bool := m == .margo

/-- The message number is supported in the mode. -/
def supportedIn (m : Mode) (n : Nat) : Bool :=
  match family n with
  | none => false
  | some f => familyOn m.obsOnly f

/-- The message carries a number that is supported in the mode. -/
def supportedMsg (m : Mode) (msg : Bytes) : Bool :=
  match numberIn msg with
  | none => false
  | some n => supportedIn m n

/-- The decoder objects that a run in a mode can reach: the one created by the strategy, changed by any sequence of calls of
`decode` and `catch_message`. -/
inductive Reach (m : Mode) : DecoderTop → Prop
  | start {d : DecoderTop} (h : strategyDecoder m = .ok (some d)) : Reach m d
  | decode {d : DecoderTop} (msg : Bytes) (h : Reach m d) : Reach m (d.decode msg).1
  | catch {d d' : DecoderTop} (chunk : Bytes) (ms : List Bytes) (h : Reach m d) (hc : returnsD (d.catchMessage chunk) (d', ms)) :
      Reach m d'

/-- The result of the sub-decoder of a family. -/
def familyDecode (bare : Bool) (f : Family) (msg : Bytes) : Option PyObj :=
  match f with
  | .msm13 | .msm47 => (Msm.decodeMsm17 bare msg).map msmObj
  | .eph => (Eph.subDecode bare msg).map PyObj.eph
  | .base => match Base.subDecode bare msg with
    | .ok x => x.map baseObj
    | .error _ => none

/-- The log records of a family of decoders about single observables and fields. -/
def familyDetails (bare : Bool) (f : Family) (msg : Bytes) : List Msm.Detail :=
  match f with
  | .msm13 | .msm47 => Msm.msmDetails bare msg
  | .eph => []
  | .base => Base.baseDetails msg

namespace Decoder

/-- The registered sub-decoders. -/
def s47 (bare : Bool) : SubDecoder :=
  { decode := some (fun buf => pure ((Msm.decodeMsm17 bare buf).map msmObj)), ioSpec := makeMSM47OSpec bare, subset := "MSM47O",
    actualMessages := (makeMSM47OSpec bare).keys, details := Msm.msmDetails bare }
/-- see `s47` -/
def s13 (bare : Bool) : SubDecoder :=
  { decode := some (fun buf => pure ((Msm.decodeMsm17 bare buf).map msmObj)), ioSpec := makeMSM13OSpec bare, subset := "MSM13O",
    actualMessages := (makeMSM13OSpec bare).keys, details := Msm.msmDetails bare }
/-- see `s47` -/
def sEph (bare : Bool) : SubDecoder :=
  { decode := some (fun buf => pure ((Eph.subDecode bare buf).map PyObj.eph)), ioSpec := makeEPHSpec bare, subset := "EPH",
    actualMessages := Eph.msgList }
/-- see `s47` -/
def sBase (bare : Bool) : SubDecoder :=
  { decode := some (fun buf => do return (← Base.subDecode bare buf).map baseObj), ioSpec := makeBASESpec bare, subset := "BASE",
    actualMessages := Base.msgList, details := Base.baseDetails }

/-- The dictionary of sub-decoders of a mode. -/
def registered (m : Mode) : PyDict String SubDecoder :=
  if m.obsOnly then [("MSM47O", s47 m.bare), ("MSM13O", s13 m.bare)]
  else [("MSM47O", s47 m.bare), ("MSM13O", s13 m.bare), ("EPH", sEph m.bare), ("BASE", sBase m.bare)]

theorem strategy_eq (m : Mode) : strategyDecoder m = .ok (some { decoders := registered m }) := by
  cases m <;> rfl

theorem range_nat {P : Nat → Prop} (lo k : Nat) (h : ∀ i < k, P (lo + i)) (n : Nat) (h1 : lo ≤ n) (h2 : n < lo + k) : P n := by
  obtain ⟨i, rfl⟩ := Nat.exists_eq_add_of_le h1
  exact h i (by omega)

theorem contains_false {l : List Nat} {n : Nat} (hl : ∀ x ∈ l, 1005 ≤ x ∧ x < 1231) (h : n < 1005 ∨ 1231 ≤ n) :
    l.contains n = false := by
  rw [Bool.eq_false_iff]
  intro hc
  have := hl n (by simpa using hc)
  omega

theorem family_none {n : Nat} (h : n < 1005 ∨ 1231 ≤ n) : family n = none := by
  unfold family
  rw [if_neg (by omega), if_neg (by omega), if_neg (by omega), if_neg (by omega)]

theorem resp_spec (f : Family) (dec : Bool → SubDecoder) (hl : ∀ b, ∀ x ∈ (dec b).actualMessages, 1005 ≤ x ∧ x < 1231)
    (h : ∀ i < 226, ∀ b, resp (dec b) (some (1005 + i)) = if family (1005 + i) = some f then declared b (1005 + i) else none)
    (b : Bool) (n : Nat) : resp (dec b) (some n) = if family n = some f then declared b n else none := by
  by_cases hr : n < 1005 ∨ 1231 ≤ n
  · rw [family_none hr, if_neg (by simp)]
    unfold resp
    rw [Option.bind_some, contains_false (hl b) hr]
    rfl
  · exact range_nat (P := fun n => resp (dec b) (some n) = if family n = some f then declared b n else none) 1005 226
      (fun i hi => h i hi b) n (by omega) (by omega)

theorem resp47 (b : Bool) (n : Nat) : resp (s47 b) (some n) = if family n = some .msm47 then declared b n else none :=
  resp_spec .msm47 s47 (by decide) (by decide +kernel) b n

theorem resp13 (b : Bool) (n : Nat) : resp (s13 b) (some n) = if family n = some .msm13 then declared b n else none :=
  resp_spec .msm13 s13 (by decide) (by decide +kernel) b n

theorem respEph (b : Bool) (n : Nat) : resp (sEph b) (some n) = if family n = some .eph then declared b n else none :=
  resp_spec .eph sEph (by decide) (by decide +kernel) b n

theorem respBase (b : Bool) (n : Nat) : resp (sBase b) (some n) = if family n = some .base then declared b n else none :=
  resp_spec .base sBase (by decide) (by decide +kernel) b n

/-- The sub-decoder of a family. -/
def ofFamily (b : Bool) : Family → SubDecoder
  | .msm13 => s13 b
  | .msm47 => s47 b
  | .eph => sEph b
  | .base => sBase b

theorem declared_some {b : Bool} {n : Nat} {f : Family} (h : family n = some f) : ∃ c, declared b n = some c := by
  unfold declared
  rw [h]
  cases f <;> dsimp only
  · exact ⟨_, rfl⟩
  · exact ⟨_, rfl⟩
  · split_ifs <;> exact ⟨_, rfl⟩
  · split_ifs <;> exact ⟨_, rfl⟩

theorem reg_loop (m : Mode) (n : Nat) (msg : Bytes) (a s : Nat) :
    decodeLoop (some n) msg a s ((registered m).map (·.2)) =
      match family n with
      | none => ((a, s), .ok none)
      | some f => if familyOn m.obsOnly f then attempt (ofFamily m.bare f) ((declared m.bare n).getD .baseRP) msg a s
        else ((a, s), .ok none) := by
  unfold registered
  cases ho : m.obsOnly <;> simp only [Bool.false_eq_true, if_false, if_true, List.map_cons, List.map_nil, decodeLoop_cons, resp47,
    resp13, respEph, respBase]
  · cases hf : family n with
    | none => simp [decodeLoop]
    | some f =>
      obtain ⟨c, hc⟩ := declared_some (b := m.bare) hf
      cases f <;> simp [hc, familyOn, ofFamily]
  · cases hf : family n with
    | none => simp [decodeLoop]
    | some f =>
      obtain ⟨c, hc⟩ := declared_some (b := m.bare) hf
      cases f <;> simp [hc, familyOn, ofFamily, decodeLoop]

theorem none_loop (msg : Bytes) (a s : Nat) (l : List SubDecoder) : decodeLoop none msg a s l = ((a, s), .ok none) := by
  induction l with
  | nil => rfl
  | cons d l ih => rw [decodeLoop_cons]; exact ih

theorem familyDecode_typed {bare : Bool} {msg : Bytes} {n : Nat} {f : Family} {o : PyObj} (hn : numberIn msg = some n)
    (hf : family n = some f) (h : familyDecode bare f msg = some o) :
    declared bare n = some o.cls ∧ recorded o = some (n : Int) := by
  cases f with
  | msm13 => exact msm_typed hn (Or.inl hf) h
  | msm47 => exact msm_typed hn (Or.inr hf) h
  | eph =>
    simp only [familyDecode, Option.map_eq_some_iff] at h
    obtain ⟨e, he, rfl⟩ := h
    exact eph_typed hn he
  | base =>
    simp only [familyDecode] at h
    split at h
    · rename_i x hx
      simp only [Option.map_eq_some_iff] at h
      obtain ⟨y, rfl, rfl⟩ := h
      exact base_typed hn hx
    · cases h

theorem attempt_eq {bare : Bool} {msg : Bytes} {n : Nat} {f : Family} (hn : numberIn msg = some n) (hf : family n = some f)
    (a s : Nat) :
    ∃ x, attempt (ofFamily bare f) ((declared bare n).getD .baseRP) msg a s =
        ((a + 1, s + if (familyDecode bare f msg).isSome then 1 else 0), x) ∧ catchDecoder x = familyDecode bare f msg := by
  have run : (ofFamily bare f).run msg = .ok (familyDecode bare f msg) ∨
      (familyDecode bare f msg = none ∧ ∃ e, (ofFamily bare f).run msg = .error e) := by
    cases f with
    | msm13 => exact Or.inl rfl
    | msm47 => exact Or.inl rfl
    | eph => exact Or.inl rfl
    | base =>
      simp only [ofFamily, SubDecoder.run, sBase, familyDecode]
      cases hx : Base.subDecode bare msg with
      | ok x => exact Or.inl rfl
      | error e => exact Or.inr ⟨rfl, e, rfl⟩
  unfold attempt
  rcases run with h | ⟨h, e, he⟩
  · rw [h]
    cases hd : familyDecode bare f msg with
    | none => exact ⟨_, rfl, rfl⟩
    | some o =>
      rw [(familyDecode_typed hn hf hd).1]
      dsimp only
      rw [Option.getD_some, isInstance_self]
      exact ⟨_, rfl, rfl⟩
  · rw [he, h]
    exact ⟨_, rfl, rfl⟩

theorem reach_decoders {m : Mode} {d : DecoderTop} (h : Reach m d) : d.decoders = registered m := by
  induction h with
  | start h =>
    rw [strategy_eq] at h
    cases h
    rfl
  | decode msg _ ih => exact ih
  | «catch» chunk ms _ hc ih =>
    rw [← ih]
    unfold DecoderTop.catchMessage returnsD at hc
    rename_i d d' _
    cases hx : (Framer.catchMessage d.parser chunk).run with
    | none =>
      rw [ExceptT.run_bind, hx] at hc
      cases hc
    | some r =>
      rw [ExceptT.run_bind, hx] at hc
      cases r with
      | error e => cases hc
      | ok p => cases hc; rfl

/-- What one call of `decode` does. -/
theorem decode_eq {m : Mode} {d : DecoderTop} (h : d.decoders = registered m) (msg : Bytes) :
    d.decode msg = match numberIn msg with
      | none => (d, none)
      | some n => match family n with
        | none => (d, none)
        | some f =>
          if familyOn m.obsOnly f then
            ({ d with attempts := d.attempts + 1,
                      succeeded := d.succeeded + if (familyDecode m.bare f msg).isSome then 1 else 0 },
              familyDecode m.bare f msg)
          else (d, none) := by
  obtain ⟨decs, p, a, s⟩ := d
  dsimp only at h
  subst h
  unfold DecoderTop.decode
  rw [mnum_eq]
  dsimp only
  cases hn : numberIn msg with
  | none => rw [none_loop]; rfl
  | some n =>
    rw [reg_loop]
    dsimp only
    cases hf : family n with
    | none => rfl
    | some f =>
      dsimp only
      by_cases hon : familyOn m.obsOnly f = true
      · rw [if_pos hon, if_pos hon]
        obtain ⟨x, hx, hc⟩ := attempt_eq (bare := m.bare) hn hf a s
        rw [hx, hc]
      · rw [if_neg hon, if_neg hon]
        rfl

end Decoder

/-- Every mode has a decoder: registration never fails. -/
theorem C17_strategy (m : Mode) : ∃ d, strategyDecoder m = .ok (some d) := ⟨_, strategy_eq m⟩

/-- **C17** `decode` never raises (the model function is total and its result is an `Option`); if it returns an object for any byte
string, then the string contains a message number, that number is supported, the object has exactly the class declared for
this number in this mode, and it records this number. -/
theorem C17_typed (m : Mode) (d : DecoderTop) (h : Reach m d) (msg : Bytes) (o : PyObj) (hd : (d.decode msg).2 = some o) :
    ∃ n, numberIn msg = some n ∧ supportedIn m n = true ∧ declared m.bare n = some o.cls ∧ recorded o = some (n : Int) := by
  rw [decode_eq (reach_decoders h)] at hd
  cases hn : numberIn msg with
  | none => rw [hn] at hd; cases hd
  | some n =>
    rw [hn] at hd
    dsimp only at hd
    cases hf : family n with
    | none => rw [hf] at hd; cases hd
    | some f =>
      rw [hf] at hd
      dsimp only at hd
      by_cases hon : familyOn m.obsOnly f = true
      · rw [if_pos hon] at hd
        obtain ⟨h1, h2⟩ := familyDecode_typed hn hf hd
        exact ⟨n, rfl, by simp only [supportedIn, hf, hon], h1, h2⟩
      · rw [if_neg hon] at hd
        cases hd

/-- An MSM5 frame is decoded to a bare object in mode JSON-B and to a scaled one in the other modes. -/
example : ∃ d, Reach .jsonB d ∧ (d.decode exMsm5.toFrame).2 = some (.msmBare exMsm5.bareObj) := by
  refine ⟨_, .start (strategy_eq .jsonB), ?_⟩
  have hw : exMsm5.WF := by decide +kernel
  have hr : exMsm5.InRange := by unfold MsmData.InRange; decide +kernel
  rw [decode_eq (m := .jsonB) rfl]
  have hn : numberIn exMsm5.toFrame = some 1095 := by decide +kernel
  rw [hn]
  have hf : family 1095 = some .msm47 := by decide
  have ho : familyOn Mode.jsonB.obsOnly .msm47 = true := by decide
  have hb : Mode.jsonB.bare = true := by decide
  dsimp only
  rw [hf]
  dsimp only
  rw [if_pos ho, hb]
  unfold familyDecode
  dsimp only
  rw [(C21_roundtrip exMsm5 hw hr (by decide)).2]
  rfl

/-- **C18** One call: the attempt counter grows by one iff the number is supported, the error count (`dec_errors`) grows by one iff
in addition nothing is returned; for other messages nothing changes and nothing is returned. -/
theorem C18_step (m : Mode) (d : DecoderTop) (h : Reach m d) (msg : Bytes) :
    (d.decode msg).1.attempts = d.attempts + (if supportedMsg m msg then 1 else 0) ∧
    (d.decode msg).1.decErrors = d.decErrors + (if supportedMsg m msg ∧ (d.decode msg).2 = none then 1 else 0) ∧
    (supportedMsg m msg = false → (d.decode msg).2 = none ∧ (d.decode msg).1 = d) ∧
    (d.decode msg).1.parser = d.parser ∧ (d.decode msg).1.decoders = d.decoders := by
  refine and_assoc.1 (and_assoc.1 ⟨?_, rfl, rfl⟩)
  have hk := decode_eq (reach_decoders h) msg
  have idle : supportedMsg m msg = false → d.decode msg = (d, none) →
      ((d.decode msg).1.attempts = d.attempts + (if supportedMsg m msg then 1 else 0) ∧
        (d.decode msg).1.decErrors = d.decErrors + (if supportedMsg m msg ∧ (d.decode msg).2 = none then 1 else 0)) ∧
      (supportedMsg m msg = false → (d.decode msg).2 = none ∧ (d.decode msg).1 = d) := by
    intro h1 h2
    rw [h1, h2]
    simp
  cases hn : numberIn msg with
  | none =>
    rw [hn] at hk
    exact idle (by simp [supportedMsg, hn]) hk
  | some n =>
    rw [hn] at hk
    dsimp only at hk
    cases hf : family n with
    | none =>
      rw [hf] at hk
      exact idle (by simp [supportedMsg, supportedIn, hn, hf]) hk
    | some f =>
      rw [hf] at hk
      dsimp only at hk
      by_cases hon : familyOn m.obsOnly f = true
      · rw [if_pos hon] at hk
        have hs : supportedMsg m msg = true := by simp [supportedMsg, supportedIn, hn, hf, hon]
        rw [hk, hs]
        unfold DecoderTop.decErrors
        cases familyDecode m.bare f msg with
        | none => simp; omega
        | some o => simp
      · rw [if_neg hon] at hk
        exact idle (by simp [supportedMsg, supportedIn, hn, hf, hon]) hk

/-- A sequence of `decode` calls: final object and all results. -/
def decodeAll (d : DecoderTop) : List Bytes → DecoderTop × List (Option PyObj)
  | [] => (d, [])
  | msg :: rest =>
    let (d, r) := d.decode msg
    let (d, rs) := decodeAll d rest
    (d, r :: rs)

/-- **C18** Any sequence of calls: the attempts are the messages with supported number, the errors are those of them for which
nothing was returned; so errors are between 0 and attempts. -/
theorem C18_run (m : Mode) (d : DecoderTop) (h : Reach m d) (msgs : List Bytes) :
    (decodeAll d msgs).1.attempts = d.attempts + msgs.countP (supportedMsg m) ∧
    (decodeAll d msgs).1.decErrors = d.decErrors +
      (msgs.zip (decodeAll d msgs).2).countP (fun p => supportedMsg m p.1 && p.2.isNone) := by
  induction msgs generalizing d with
  | nil => simp [decodeAll]
  | cons msg rest ih =>
    obtain ⟨h1, h2, h3, -, -⟩ := C18_step m d h msg
    obtain ⟨i1, i2⟩ := ih (d.decode msg).1 (.decode msg h)
    unfold decodeAll
    dsimp only
    constructor
    · rw [i1, h1, List.countP_cons]; split <;> omega
    · rw [i2, h2, List.zip_cons_cons, List.countP_cons]
      cases hs : supportedMsg m msg <;> cases hd : (d.decode msg).2 <;> simp <;> omega

theorem C18_bounds (m : Mode) (d : DecoderTop) (h : Reach m d) : 0 ≤ d.decErrors ∧ d.decErrors ≤ d.attempts := by
  have key : d.succeeded ≤ d.attempts := by
    induction h with
    | start h => rw [strategy_eq] at h; cases h; exact Nat.le_refl 0
    | @decode d msg hd ih =>
      rw [decode_eq (reach_decoders hd)]
      cases numberIn msg with
      | none => exact ih
      | some n =>
        dsimp only
        cases family n with
        | none => exact ih
        | some f =>
          dsimp only
          split
          · dsimp only; split <;> omega
          · exact ih
    | @«catch» d d' chunk ms hd hc ih =>
      unfold DecoderTop.catchMessage returnsD at hc
      rw [ExceptT.run_bind] at hc
      cases hx : (Framer.catchMessage d.parser chunk).run with
      | none => rw [hx] at hc; cases hc
      | some r =>
        rw [hx] at hc
        cases r with
        | error e => cases hc
        | ok p => cases hc; exact ih
  unfold DecoderTop.decErrors
  omega

/-- In mode MARGO an ephemeris message is ignored, in mode JSON it is an attempt. -/
example : supportedMsg .margo [0xD3, 0, 0, 0x3F, 0xB0] = false ∧ supportedMsg .json [0xD3, 0, 0, 0x3F, 0xB0] = true ∧
    numberIn [0xD3, 0, 0, 0x3F, 0xB0] = some 1019 := by decide +kernel

/-- **C19** The message sets of the registered sub-decoders are pairwise disjoint. -/
theorem C19_disjoint (m : Mode) (d : DecoderTop) (h : Reach m d) :
    (d.decoders.map (·.2)).Pairwise (fun x y => ∀ n, ¬ (n ∈ x.ioSpec.keys ∧ n ∈ y.ioSpec.keys)) := by
  rw [reach_decoders h]
  have key : ∀ b : Bool, [s47 b, s13 b, sEph b, sBase b].Pairwise (fun x y => ∀ n ∈ x.ioSpec.keys, n ∉ y.ioSpec.keys) := by
    decide +kernel
  unfold registered
  split
  · refine ((key m.bare).sublist (l₁ := [s47 m.bare, s13 m.bare]) ?_).imp ?_
    · exact .cons_cons _ (.cons_cons _ (List.nil_sublist _))
    · intro x y h n hn; exact h n hn.1 hn.2
  · refine (key m.bare).imp ?_
    intro x y h n hn; exact h n hn.1 hn.2

/-- **C19** Each number reaches the decoder of its own family: the result of `decode` is the result of the decoder of the family of
the message number, if the mode supports it. -/
theorem C19_family (m : Mode) (d : DecoderTop) (h : Reach m d) (msg : Bytes) :
    (d.decode msg).2 = (numberIn msg).bind (fun n => (family n).bind (fun f =>
      if familyOn m.obsOnly f then familyDecode m.bare f msg else none)) := by
  rw [decode_eq (reach_decoders h)]
  cases numberIn msg with
  | none => rfl
  | some n =>
    rw [Option.bind_some]
    dsimp only
    cases family n with
    | none => rfl
    | some f => rw [Option.bind_some]; dsimp only; split <;> rfl

/-- **C19** The order of registration is irrelevant: with the sub-decoders in any other order `decode` returns the same result and
changes the counters in the same way. -/
theorem C19_order (m : Mode) (d d' : DecoderTop) (h : Reach m d) (hp : d.decoders.Perm d'.decoders)
    (ha : d'.attempts = d.attempts) (hs : d'.succeeded = d.succeeded) (msg : Bytes) :
    (d'.decode msg).2 = (d.decode msg).2 ∧ (d'.decode msg).1.attempts = (d.decode msg).1.attempts ∧
      (d'.decode msg).1.decErrors = (d.decode msg).1.decErrors := by
  have e : decodeLoop (Framer.mnum msg) msg d.attempts d.succeeded (d.decoders.map (·.2)) =
      decodeLoop (Framer.mnum msg) msg d'.attempts d'.succeeded (d'.decoders.map (·.2)) := by
    rw [ha, hs]
    apply decodeLoop_perm _ _ _ _ (hp.map _)
    refine (C19_disjoint m d h).imp ?_
    intro x y hxy
    cases Framer.mnum msg with
    | none => exact Or.inl rfl
    | some n =>
      by_contra hcon
      rw [not_or] at hcon
      obtain ⟨h1, h2⟩ := hcon
      apply hxy n
      have mem : ∀ z : SubDecoder, ¬ resp z (some n) = none → n ∈ z.ioSpec.keys := by
        intro z hz
        unfold resp at hz
        rw [Option.bind_some] at hz
        split at hz
        · unfold PyDict.get? at hz
          cases hl : List.lookup n z.ioSpec with
          | none => exact absurd hl hz
          | some c =>
            have : (n, c) ∈ z.ioSpec := by
              generalize z.ioSpec = l at hl
              induction l with
              | nil => cases hl
              | cons p l ih =>
                rw [List.lookup_cons] at hl
                split at hl
                · rename_i heq
                  have : n = p.1 := by simpa using heq
                  cases hl
                  rw [this]; simp
                · exact List.mem_cons_of_mem _ (ih hl)
            exact List.mem_map.2 ⟨_, this, rfl⟩
        · exact absurd rfl hz
      exact ⟨mem x h1, mem y h2⟩
  unfold DecoderTop.decode DecoderTop.decErrors
  dsimp only
  rw [e]
  exact ⟨rfl, rfl, rfl⟩

example : ∃ d d' : DecoderTop, Reach .json d ∧ d.decoders.Perm d'.decoders ∧ d.decoders.map (·.1) ≠ d'.decoders.map (·.1) := by
  refine ⟨_, { decoders := (registered .json).reverse }, .start (strategy_eq .json), (List.reverse_perm _).symm, ?_⟩
  decide

end Verif
