import Verif.Lemmas.RunDouble
import Verif.Props.Program

/-!
# C80: the program with exact and with double precision arithmetic
-/

namespace Verif
open Spec Decoder Conv Run

namespace Run
open Framer
variable {fr : Rat → Txt} {j : Json.Controls}

theorem near_createWorkFolder {w w' : Disk} (h : NearDisk fr j w w') (f pfx : Txt) :
    (createWorkFolder w' f pfx).2 = (createWorkFolder w f pfx).2 ∧
      NearDisk fr j (createWorkFolder w f pfx).1 (createWorkFolder w' f pfx).1 := by
  unfold createWorkFolder
  dsimp only
  rw [h.isdir]
  have h1 : NearCall fr j (if w.isdir (workFolder f pfx) then w.rmtree (workFolder f pfx) else (w, true))
      (if w.isdir (workFolder f pfx) then w'.rmtree (workFolder f pfx) else (w', true)) := by
    split
    · exact h.rmtree _
    · exact ⟨h, rfl⟩
  generalize (if w.isdir (workFolder f pfx) then w.rmtree (workFolder f pfx) else (w, true)) = x at h1 ⊢
  generalize (if w.isdir (workFolder f pfx) then w'.rmtree (workFolder f pfx) else (w', true)) = y at h1 ⊢
  obtain ⟨w1, ok⟩ := x
  obtain ⟨w1', ok'⟩ := y
  obtain ⟨h1, h2⟩ := h1
  dsimp only at h1 h2 ⊢
  subst h2
  cases ok'
  · exact ⟨rfl, h1⟩
  · have h3 := h1.makedirs (workFolder f pfx)
    generalize w1.makedirs (workFolder f pfx) = x at h3 ⊢
    generalize w1'.makedirs (workFolder f pfx) = y at h3 ⊢
    obtain ⟨w2, ok⟩ := x
    obtain ⟨w2', ok'⟩ := y
    obtain ⟨h3, h4⟩ := h3
    dsimp only at h3 h4 ⊢
    subst h4
    cases ok' <;> exact ⟨rfl, h3⟩

theorem near_initLogger {w w' : Disk} (h : NearDisk fr j w w') (ready : Bool) (q : Txt) :
    (initLogger w' ready q).2 = (initLogger w ready q).2 ∧ (initLogger w' ready q).1.2 = (initLogger w ready q).1.2 ∧
      NearDisk fr j (initLogger w ready q).1.1 (initLogger w' ready q).1.1 := by
  unfold initLogger
  have h1 := h.openW q
  generalize w.openW q = x at h1 ⊢
  generalize w'.openW q = y at h1 ⊢
  obtain ⟨w1, ok⟩ := x
  obtain ⟨w1', ok'⟩ := y
  obtain ⟨h1, h2⟩ := h1
  dsimp only at h1 h2 ⊢
  subst h2
  cases ok' with
  | false => exact ⟨rfl, rfl, h1⟩
  | true =>
    have h2 := h1.write q (.same logHead)
    dsimp only
    generalize w1.write q logHead = x at h2 ⊢
    generalize w1'.write q logHead = y at h2 ⊢
    unfold init2CH
    rw [h2.fault, h2.calls]
    split
    · exact ⟨rfl, rfl, h2⟩
    · split
      · exact ⟨rfl, rfl, ⟨h2.dirs, rfl, rfl, h2.files⟩⟩
      · exact ⟨rfl, rfl, ⟨h2.dirs, rfl, rfl, h2.files⟩⟩

/-- The converter of a mode. -/
theorem strategy_is (m : Mode) (w : Disk) (wd : Txt) (box : Box) :
    strategy m w wd box = if w.isdir wd then .ok (some { decoder := { decoders := registered m }, printer := startPrinter m wd box })
      else .error .assertionError := by
  unfold strategy
  rw [strategy_eq, ok_bind]
  dsimp only
  rw [strategyPrinter_eq]
  split <;> rfl

theorem strategyR_is (rnd : Rat → Rat) (m : Mode) (w : Disk) (wd : Txt) (box : Box) :
    strategyR rnd m w wd box = if w.isdir wd then
        .ok (some (rounded rnd m { decoder := { decoders := registered m }, printer := startPrinter m wd box }))
      else .error .assertionError := by
  unfold strategyR
  rw [strategyR_eq, ok_bind]
  dsimp only
  rw [strategyPrinter_eq]
  split <;> rfl

/-- Controls with which the files can be compared: a channel for each satellite of GLONASS, none beyond ±1000, all frequencies positive. -/
structure Comparable (j : Json.Controls) (controls : Option Box) : Prop where
  json : ∀ box, controls = some box → box.json = j
  channels : ∀ box, controls = some box → Margo.Channels box.margo
  pos : ∀ box, controls = some box → Margo.ChannelsPos box.margo

theorem near_convertFile {rnd : Rat → Rat} (h : Nearest rnd) (src : Txt → Option Bytes) (format : String) {controls : Option Box}
    (hc : Comparable j controls) {w w' : Disk} (hw : NearDisk fr j w w') (ready : Bool) (f : Txt) :
    ∃ w1 w1' ready1 r, convertFile fr src format controls w ready f = some ((w1, ready1), r) ∧
      convertFileR rnd fr src format controls w' ready f = some ((w1', ready1), r) ∧ NearDisk fr j w1 w1' := by
  unfold convertFile convertFileR
  obtain ⟨a1, a2⟩ := near_createWorkFolder hw f format.toList
  generalize createWorkFolder w f format.toList = x at a1 a2 ⊢
  generalize createWorkFolder w' f format.toList = y at a1 a2 ⊢
  obtain ⟨w1, wf⟩ := x
  obtain ⟨w1', wf'⟩ := y
  dsimp only at a1 a2
  subst a1
  cases wf' with
  | none => exact ⟨_, _, _, _, rfl, rfl, a2⟩
  | some wfld =>
    dsimp only
    obtain ⟨b1, b2, b3⟩ := near_initLogger a2 ready (Disk.join wfld (makeLogFileName f))
    generalize initLogger w1 ready (Disk.join wfld (makeLogFileName f)) = x at b1 b2 b3 ⊢
    generalize initLogger w1' ready (Disk.join wfld (makeLogFileName f)) = y at b1 b2 b3 ⊢
    obtain ⟨⟨w2, ready2⟩, r⟩ := x
    obtain ⟨⟨w2', ready2'⟩, r'⟩ := y
    dsimp only at b1 b2 b3
    subst b1 b2
    cases r' with
    | error e => exact ⟨_, _, _, _, rfl, rfl, b3⟩
    | ok u =>
      dsimp only
      cases controls with
      | none => exact ⟨_, _, _, _, rfl, rfl, b3⟩
      | some box =>
        dsimp only
        have hj := hc.json box rfl
        subst hj
        unfold factory factoryR
        cases hm : modeOf format with
        | none => exact ⟨_, _, _, _, rfl, rfl, b3⟩
        | some m =>
          dsimp only
          rw [strategy_is, strategyR_is, b3.isdir]
          cases hd : w2.isdir wfld with
          | true =>
            simp only [if_true]
            obtain ⟨c1, w3, w3', ok, e1, e2, e3⟩ := near_file h fr (hc.channels box rfl) (hc.pos box rfl) m FILE_CHUNK_LEN (src f)
              { decoder := { decoders := registered m }, printer := startPrinter m wfld box } .init rfl
              (by cases m <;> simp [startPrinter, HasCtrls]) b3
            rw [e1, e2]
            exact ⟨_, _, _, _, rfl, rfl, e3⟩
          | false => exact ⟨_, _, _, _, rfl, rfl, b3⟩

theorem near_mainLoop {rnd : Rat → Rat} (h : Nearest rnd) (src : Txt → Option Bytes) (format : String) {controls : Option Box}
    (hc : Comparable j controls) : ∀ (files : List Txt) {w w' : Disk}, NearDisk fr j w w' → ∀ (ready : Bool),
    ∃ w1 w1' ready1 r, mainLoop fr src format controls w ready files = some ((w1, ready1), r) ∧
      mainLoopR rnd fr src format controls w' ready files = some ((w1', ready1), r) ∧ NearDisk fr j w1 w1'
  | [], _, _, hw, _ => ⟨_, _, _, _, rfl, rfl, hw⟩
  | f :: rest, w, w', hw, ready => by
    obtain ⟨w1, w1', ready1, r, e1, e2, e3⟩ := near_convertFile h src format hc hw ready f
    unfold mainLoop mainLoopR
    rw [e1, e2]
    cases r with
    | error e => exact ⟨_, _, _, _, rfl, rfl, e3⟩
    | ok v =>
      dsimp only
      obtain ⟨w2, w2', ready2, r, f1, f2, f3⟩ := near_mainLoop h src format hc rest e3 ready1
      rw [f1, f2]
      cases r with
      | error e => exact ⟨_, _, _, _, rfl, rfl, f3⟩
      | ok vs => exact ⟨_, _, _, _, rfl, rfl, f3⟩

theorem near_liveLoop {rnd : Rat → Rat} (h : Nearest rnd) (format : String) {controls : Option Box}
    (hc : Comparable j controls) : ∀ (files : List Txt) (src : Txt → Option Bytes) {w w' : Disk}, NearDisk fr j w w' → ∀ (ready : Bool),
    ∃ w1 w1' s1 r, liveLoop fr src format controls w ready files = some ((w1, s1), r) ∧
      liveLoopR rnd fr src format controls w' ready files = some ((w1', s1), r) ∧ NearDisk fr j w1 w1'
  | [], _, _, _, hw, _ => ⟨_, _, _, _, rfl, rfl, hw⟩
  | f :: rest, src, w, w', hw, ready => by
    have hs : leftSources w' src f format.toList = leftSources w src f format.toList := by
      unfold leftSources
      dsimp only
      rw [hw.isdir, (hw.rmtree _).2]
    obtain ⟨w1, w1', ready1, r, e1, e2, e3⟩ := near_convertFile h (leftSources w src f format.toList) format hc hw ready f
    unfold liveLoop liveLoopR
    dsimp only
    rw [hs, e1, e2]
    cases r with
    | error e => exact ⟨_, _, _, _, rfl, rfl, e3⟩
    | ok v =>
      dsimp only
      obtain ⟨w2, w2', ready2, r, f1, f2, f3⟩ := near_liveLoop h format hc rest (leftSources w src f format.toList) e3 ready1
      rw [f1, f2]
      cases r with
      | error e => exact ⟨_, _, _, _, rfl, rfl, f3⟩
      | ok vs => exact ⟨_, _, _, _, rfl, rfl, f3⟩

end Run

namespace Ctl

/-- A channel for each satellite of GLONASS. -/
def AllSats (c : Margo.Controls) : Prop := ∀ s : Nat, 1 ≤ s → s ≤ 24 → ∃ v, List.lookup s c.glo_lit_tab = some v

theorem makeMARGO_sats {order : List Txt → List Txt} {m m' : Manager} {b : Bool} (h : m.makeMARGO order = (m', .ok b))
    (hm : b = false → m.margoOk = true → AllSats m.margo) : (m'.margoOk = true ∨ b = true → AllSats m'.margo) ∧ m'.margoOk = m.margoOk := by
  unfold Manager.makeMARGO at h
  split at h
  · simp at h
  · injection h with h1 h2
    injection h2 with h2
    subst h1 h2
    exact ⟨fun h => hm rfl (h.elim id (by simp)), rfl⟩
  next c hc =>
    injection h with h1 h2
    injection h2 with h2
    subst h1 h2
    refine ⟨fun _ s h1 h24 => ?_, rfl⟩
    obtain ⟨v, hv, -⟩ := (makeMargo_valid hc).2.literals s ⟨h1, h24⟩
    exact ⟨v, hv⟩

theorem makeJSON_margo {m m' : Manager} {r : Py Bool} (h : m.makeJSON = (m', r)) : m'.margo = m.margo ∧ m'.margoOk = m.margoOk := by
  unfold Manager.makeJSON at h
  split at h <;> (injection h with h1 h2; subst h1; exact ⟨rfl, rfl⟩)

theorem readIni_margo {m m' : Manager} {f : IniFile} {r : Py Bool} (h : m.readIni f = (m', r)) :
    m'.margo = m.margo ∧ m'.margoOk = m.margoOk := by
  unfold Manager.readIni at h
  dsimp only at h
  split at h <;> (injection h with h1 h2; subst h1; exact ⟨rfl, rfl⟩)

theorem init_sats {order : List Txt → List Txt} {f : IniFile} {m' : Manager} (h : ({} : Manager).initFromFile order f = (m', .ok ()))
    (ho : m'.margoOk = true) : AllSats m'.margo := by
  unfold Manager.initFromFile at h
  generalize hr : ({} : Manager).readIni f = x at h
  obtain ⟨m1, r⟩ := x
  obtain ⟨a1, a2⟩ := readIni_margo hr
  cases r with
  | error e => simp at h
  | ok ok =>
    dsimp only at h
    cases ok with
    | false =>
      simp only [Bool.false_eq_true, if_false] at h
      injection h with h1
      subst h1
      rw [a2] at ho
      cases ho
    | true =>
      simp only [if_true] at h
      generalize hm : Manager.makeMARGO order { m1 with iniOk := true } = x at h
      obtain ⟨m2, r⟩ := x
      cases r with
      | error e => simp at h
      | ok b =>
        obtain ⟨b1, b2⟩ := makeMARGO_sats hm (by intro _ h; rw [show ({ m1 with iniOk := true } : Manager).margoOk = m1.margoOk from rfl, a2] at h; cases h)
        dsimp only at h
        generalize hj : Manager.makeJSON { m2 with margoOk := b } = x at h
        obtain ⟨m3, r⟩ := x
        obtain ⟨c1, c2⟩ := makeJSON_margo hj
        cases r with
        | error e => simp at h
        | ok b' =>
          dsimp only at h
          injection h with h1
          subst h1
          dsimp only at ho ⊢
          rw [c2] at ho
          rw [c1]
          exact b1 (.inr ho)

theorem update_sats {order : List Txt → List Txt} {f : IniFile} {m m' : Manager} (h : m.updateFromFile order f = (m', .ok ()))
    (hm : m.margoOk = true → AllSats m.margo) (ho : m'.margoOk = true) : AllSats m'.margo := by
  unfold Manager.updateFromFile at h
  split at h
  · injection h with h1
    subst h1
    exact hm ho
  · generalize hr : m.readIni f = x at h
    obtain ⟨m1, r⟩ := x
    obtain ⟨a1, a2⟩ := readIni_margo hr
    rw [← a1, ← a2] at hm
    cases r with
    | error e => simp at h
    | ok ok =>
      cases ok with
      | false =>
        dsimp only at h
        injection h with h1
        subst h1
        exact hm ho
      | true =>
        dsimp only at h
        generalize hx : (if m1.margoOk = true then Manager.makeMARGO order m1 else (m1, .ok false)) = x at h
        obtain ⟨m2, r⟩ := x
        cases r with
        | error e => simp at h
        | ok b =>
          have h2 : m2.margoOk = true → AllSats m2.margo := by
            split at hx
            · obtain ⟨b1, b2⟩ := makeMARGO_sats hx (fun _ => hm)
              exact fun h => b1 (.inl h)
            · injection hx with hx
              subst hx
              exact hm
          dsimp only at h
          generalize hy : (if m2.jsonOk = true then m2.makeJSON else (m2, .ok false)) = y at h
          obtain ⟨m3, r⟩ := y
          cases r with
          | error e => simp at h
          | ok b' =>
            dsimp only at h
            injection h with h1
            subst h1
            split at hy
            · obtain ⟨c1, c2⟩ := makeJSON_margo hy
              rw [c1]
              rw [c2] at ho
              exact h2 ho
            · injection hy with hy
              subst hy
              exact h2 ho

/-- The controls after the program has read its configuration: defaults.ini and the file of option `-i`, if there is one. -/
def Configured (ini : Txt → IniFile) (order1 order2 : List Txt → List Txt) (mgr : Manager) : Prop :=
  ∃ m0, ({} : Manager).initFromFile order1 (ini "defaults.ini".toList) = (m0, .ok ()) ∧
    (mgr = m0 ∨ ∃ p, m0.updateFromFile order2 (ini p) = (mgr, .ok ()))

theorem Configured.sats {ini : Txt → IniFile} {order1 order2 : List Txt → List Txt} {mgr : Manager} (h : Configured ini order1 order2 mgr)
    (ho : mgr.margoOk = true) : AllSats mgr.margo := by
  obtain ⟨m0, h1, rfl | ⟨p, h2⟩⟩ := h
  · exact init_sats h1 ho
  · exact update_sats h2 (init_sats h1) ho

end Ctl

namespace Run
open Ctl

theorem comparable_of {ini : Txt → IniFile} {order1 order2 : List Txt → List Txt} {mgr : Manager} (h : Configured ini order1 order2 mgr)
    (hlit : ∀ b, mgr.boxed = some b → ∀ s v, b.margo.glo_lit_tab.get? s = some v → |v| ≤ 1000) : Comparable mgr.json mgr.boxed := by
  have hb : ∀ b, mgr.boxed = some b → b = ⟨mgr.margo, mgr.json⟩ ∧ mgr.margoOk = true := by
    intro b hb
    unfold Manager.boxed at hb
    split at hb
    · next hc =>
      injection hb with hb
      rw [Bool.and_eq_true] at hc
      exact ⟨hb.symm, hc.2⟩
    · cases hb
  refine ⟨fun b e => by rw [(hb b e).1], fun b e => hlit b e, fun b e s h1 h24 => ?_⟩
  obtain ⟨v, hv⟩ := h.sats (hb b e).2 s h1 h24
  have hv : b.margo.glo_lit_tab.get? s = some v := by rw [(hb b e).1]; exact hv
  have hl := hlit b e s v hv
  have hl : |(v : Rat)| ≤ 1000 := by exact_mod_cast hl
  rw [abs_le] at hl
  exact ⟨v, hv, by linarith, by linarith⟩

end Run

/-! ### The theorems -/

/-- C80, the files: one run of the conversions with exact arithmetic and one with doubles, from the same disk with the same faults. Both end
alike, and the disks correspond. -/
theorem C80_files {rnd : Rat → Rat} (h : Nearest rnd) (fr : Rat → Txt) (src : Txt → Option Bytes) (format : String) (box : Box)
    (hlit : ∀ s, 1 ≤ s → s ≤ 24 → ∃ v, box.margo.glo_lit_tab.get? s = some v)
    (hsmall : ∀ s v, box.margo.glo_lit_tab.get? s = some v → |v| ≤ 1000) (w : Disk) (ready : Bool) (files : List Txt) :
    ∃ w1 w1' ready1 r, mainLoop fr src format (some box) w ready files = some ((w1, ready1), r) ∧
      mainLoopR rnd fr src format (some box) w ready files = some ((w1', ready1), r) ∧ NearDisk fr box.json w1 w1' := by
  refine near_mainLoop h src format ⟨?_, ?_, ?_⟩ files (nearDisk_refl w) ready
  · rintro b ⟨rfl⟩; rfl
  · rintro b ⟨rfl⟩; exact hsmall
  · rintro b ⟨rfl⟩ s h1 h24
    obtain ⟨v, hv⟩ := hlit s h1 h24
    have hl : |(v : Rat)| ≤ 1000 := by exact_mod_cast hsmall s v hv
    rw [abs_le] at hl
    exact ⟨v, hv, by linarith, by linarith⟩

/-- C80, the files as they are at each moment. -/
theorem C80_live {rnd : Rat → Rat} (h : Nearest rnd) (fr : Rat → Txt) (src : Txt → Option Bytes) (format : String) (box : Box)
    (hlit : ∀ s, 1 ≤ s → s ≤ 24 → ∃ v, box.margo.glo_lit_tab.get? s = some v)
    (hsmall : ∀ s v, box.margo.glo_lit_tab.get? s = some v → |v| ≤ 1000) (w : Disk) (ready : Bool) (files : List Txt) :
    ∃ w1 w1' s1 r, liveLoop fr src format (some box) w ready files = some ((w1, s1), r) ∧
      liveLoopR rnd fr src format (some box) w ready files = some ((w1', s1), r) ∧ NearDisk fr box.json w1 w1' := by
  refine near_liveLoop h format ⟨?_, ?_, ?_⟩ files src (nearDisk_refl w) ready
  · rintro b ⟨rfl⟩; rfl
  · rintro b ⟨rfl⟩; exact hsmall
  · rintro b ⟨rfl⟩ s h1 h24
    obtain ⟨v, hv⟩ := hlit s h1 h24
    have hl : |(v : Rat)| ≤ 1000 := by exact_mod_cast hsmall s v hv
    rw [abs_le] at hl
    exact ⟨v, hv, by linarith, by linarith⟩

open Args Ctl in
/-- C80, the program: from any command line, any configuration files whose channels are at most 1000 in size, any file contents, any disk
and any faults, the program with doubles ends as the program with exact arithmetic does: same exit code, same exception or same verdict per
file; and the disks have the same directories and the same files, which differ by rounding only. -/
theorem C80_program {rnd : Rat → Rat} (h : Nearest rnd) (fr : Rat → Txt) (sh : Shell) (src : Txt → Option Bytes) (ini : Txt → IniFile)
    (order1 order2 : List Txt → List Txt)
    (hlit : ∀ mgr b, Configured ini order1 order2 mgr → mgr.boxed = some b → ∀ s v, b.margo.glo_lit_tab.get? s = some v → |v| ≤ 1000)
    (prompt : List Txt) (localArgs : Option Txt) (w : Disk) (ready : Bool) :
    ∃ c w1 w1' ready1 e, command fr sh src ini order1 order2 prompt localArgs w ready = some ((w1, ready1), e) ∧
      commandR rnd fr sh src ini order1 order2 prompt localArgs w ready = some ((w1', ready1), e) ∧ NearDisk fr c w1 w1' := by
  unfold command commandR
  generalize hi : ({} : Manager).initFromFile order1 (ini "defaults.ini".toList) = x
  obtain ⟨m0, r⟩ := x
  cases r with
  | error e => exact ⟨{}, _, _, _, _, rfl, rfl, nearDisk_refl w⟩
  | ok u =>
    dsimp only
    cases parseArgs (argv prompt localArgs) with
    | error x => exact ⟨{}, _, _, _, _, rfl, rfl, nearDisk_refl w⟩
    | ok a =>
      dsimp only
      have main : ∀ m1, Configured ini order1 order2 m1 → ∃ c w1 w1' ready1 e,
          (match mainLoop fr src (String.ofList a.format) m1.boxed w ready (makeListOfSourceFiles sh a.source a.ext) with
            | none => none
            | some (s, .error e) => some (s, Ending.raised e)
            | some (s, .ok vs) => some (s, Ending.finished vs)) = some ((w1, ready1), e) ∧
          (match mainLoopR rnd fr src (String.ofList a.format) m1.boxed w ready (makeListOfSourceFiles sh a.source a.ext) with
            | none => none
            | some (s, .error e) => some (s, Ending.raised e)
            | some (s, .ok vs) => some (s, Ending.finished vs)) = some ((w1', ready1), e) ∧ NearDisk fr c w1 w1' := by
        intro m1 hc
        obtain ⟨w1, w1', ready1, r, e1, e2, e3⟩ := near_mainLoop h src (String.ofList a.format) (comparable_of hc (fun b hb => hlit m1 b hc hb))
          (makeListOfSourceFiles sh a.source a.ext) (nearDisk_refl (fr := fr) w) ready
        rw [e1, e2]
        cases r with
        | error e => exact ⟨_, _, _, _, _, rfl, rfl, e3⟩
        | ok vs => exact ⟨_, _, _, _, _, rfl, rfl, e3⟩
      cases a.ini with
      | none => exact main m0 ⟨m0, hi, .inl rfl⟩
      | some p =>
        dsimp only
        generalize hu : m0.updateFromFile order2 (ini p) = y
        obtain ⟨m1, r⟩ := y
        cases r with
        | error e => exact ⟨{}, _, _, _, _, rfl, rfl, nearDisk_refl w⟩
        | ok u => exact main m1 ⟨m0, hi, .inr ⟨p, hu⟩⟩

open Spec.Cmd Args Ctl in
/-- C80 for the configuration of the repository: no hypothesis on channels. -/
theorem C80_shipped {rnd : Rat → Rat} (h : Nearest rnd) (fr : Rat → Txt) (sh : Shell) (src : Txt → Option Bytes) (ini : Txt → IniFile)
    {order1 : List Txt → List Txt} (order2 : List Txt → List Txt) (ho : ∀ l x, x ∈ order1 l ↔ x ∈ l)
    (hini : ini "defaults.ini".toList = iniFile (some defaultsText)) (prompt : List Txt) (localArgs : Option Txt) (source : List Txt)
    (format ext : Txt) (hcmd : CmdLine source format none ext (argv prompt localArgs)) (w : Disk) (ready : Bool) :
    ∃ w1 w1' ready1 e, command fr sh src ini order1 order2 prompt localArgs w ready = some ((w1, ready1), e) ∧
      commandR rnd fr sh src ini order1 order2 prompt localArgs w ready = some ((w1', ready1), e) ∧
      NearDisk fr { enable_hdr_data := true, enable_aux_data := true, enable_pretty_view := true } w1 w1' := by
  have hp : parseArgs (argv prompt localArgs) = .ok ⟨source, format, none, ext⟩ := (C74_accepted _ _).mpr hcmd
  obtain ⟨i1, c, i2, -, -, -, i6⟩ := C71_defaults ho
  generalize hx : ({} : Manager).initFromFile order1 (iniFile (some defaultsText)) = x at i1 i2
  obtain ⟨m0, r⟩ := x
  dsimp only at i1 i2
  subst i1
  unfold command commandR
  rw [hini, hx, hp]
  dsimp only
  have key : ∀ p ∈ defaultLiterals, |p.2| ≤ 1000 := by decide +kernel
  have hcmp : Comparable { enable_hdr_data := true, enable_aux_data := true, enable_pretty_view := true } m0.boxed := by
    have := comparable_of (ini := ini) (order1 := order1) (order2 := order2) ⟨m0, by rw [hini, hx], .inl rfl⟩ (by
      intro b hb s v hv
      rw [i2] at hb
      injection hb with hb
      subst hb
      have hv : List.lookup s c.glo_lit_tab = some v := hv
      rw [i6] at hv
      obtain ⟨l1, l2, hl, -⟩ := List.lookup_eq_some_iff.1 hv
      exact key (s, v) (by rw [hl]; simp))
    refine ⟨?_, this.channels, this.pos⟩
    intro b hb
    rw [i2] at hb
    injection hb with hb
    subst hb
    rfl
  obtain ⟨w1, w1', ready1, r, e1, e2, e3⟩ := near_mainLoop h src (String.ofList format) hcmp (makeListOfSourceFiles sh source ext)
    (nearDisk_refl (fr := fr) w) ready
  rw [e1, e2]
  cases r with
  | error e => exact ⟨_, _, _, _, rfl, rfl, e3⟩
  | ok vs => exact ⟨_, _, _, _, rfl, rfl, e3⟩

open Args Ctl in
/-- Both runs of the program of C76 exist with IEEE 754 arithmetic, and the files named there correspond. -/
example (fr : Rat → Txt) (hfr : ∀ x, IsNum (fr x)) :
    let sh : Shell := { abspath := id, isfile := fun _ => true, isdir := fun _ => false, glob := fun _ _ => [], input := [] }
    ∃ w', commandR ieee fr sh (fun _ => some exStream.bytes) (fun _ => iniFile (some defaultsText)) id id
        ["-o".toList, "JARGO".toList, "/d/a.rtcm3".toList, "/d/b.rtcm3".toList] none {} false =
          some ((w', false), .finished [.finishedWithoutErrors, .finishedWithoutErrors]) ∧
      (w'.read "/d/b-JARGO/BASE/RefPointHeight-1006.json".toList).isSome ∧ (w'.read "/d/a-JARGO/GLN/RC1C_MSM5.obs".toList).isSome := by
  intro sh
  obtain ⟨w, h1, h2, h3, -⟩ := exProgram fr hfr
  obtain ⟨w1, w1', ready1, e, e1, e2, e3⟩ := C80_shipped ieee_nearest fr sh (fun _ => some exStream.bytes) (fun _ => iniFile (some defaultsText))
    (order1 := id) id (fun _ _ => Iff.rfl) rfl ["-o".toList, "JARGO".toList, "/d/a.rtcm3".toList, "/d/b.rtcm3".toList] none _ _ _
    ((C74_accepted _ ⟨["/d/a.rtcm3".toList, "/d/b.rtcm3".toList], "JARGO".toList, none, "rtcm3".toList⟩).mp (by decide)) {} false
  have h1 := h1.symm.trans e1
  simp only [Option.some.injEq, Prod.mk.injEq] at h1
  obtain ⟨⟨rfl, rfl⟩, rfl⟩ := h1
  refine ⟨w1', e2, ?_, ?_⟩
  · have := e3.read "/d/b-JARGO/BASE/RefPointHeight-1006.json".toList
    generalize w1'.read "/d/b-JARGO/BASE/RefPointHeight-1006.json".toList = y at this ⊢
    generalize w.read "/d/b-JARGO/BASE/RefPointHeight-1006.json".toList = x at this h2
    cases this with
    | some => rfl
    | none => cases h2
  · have := e3.read "/d/a-JARGO/GLN/RC1C_MSM5.obs".toList
    generalize w1'.read "/d/a-JARGO/GLN/RC1C_MSM5.obs".toList = y at this ⊢
    generalize w.read "/d/a-JARGO/GLN/RC1C_MSM5.obs".toList = x at this h3
    cases this with
    | some => rfl
    | none => cases h3

open Ctl in
/-- The hypothesis of `C80_program` is met by the files defaults.ini and addons.ini of the repository. -/
example : ∀ mgr b, Configured (fun p => iniFile (some (if p = "addons.ini".toList then addonsText else defaultsText))) id id mgr →
    mgr.boxed = some b → ∀ s v, b.margo.glo_lit_tab.get? s = some v → |v| ≤ 1000 := by
  have k0 : (({} : Manager).initFromFile id (iniFile (some defaultsText))).1.margo.glo_lit_tab = defaultLiterals := by decide +kernel
  have k1 : ((({} : Manager).initFromFile id (iniFile (some defaultsText))).1.updateFromFile id (iniFile (some addonsText))).1.margo.glo_lit_tab =
    defaultLiterals := by decide +kernel
  have k2 : ((({} : Manager).initFromFile id (iniFile (some defaultsText))).1.updateFromFile id (iniFile (some defaultsText))).1.margo.glo_lit_tab =
    defaultLiterals := by decide +kernel
  have key : ∀ p ∈ defaultLiterals, |p.2| ≤ 1000 := by decide +kernel
  intro mgr b ⟨m0, h0, h⟩ hb s v hv
  dsimp only at h0 h
  rw [if_neg (by decide)] at h0
  rw [h0] at k0 k1 k2
  have hm : mgr.margo.glo_lit_tab = defaultLiterals := by
    rcases h with rfl | ⟨p, h⟩
    · exact k0
    · split at h
      · rw [h] at k1; exact k1
      · rw [h] at k2; exact k2
  unfold Manager.boxed at hb
  split at hb
  · injection hb with hb
    subst hb
    have hv : List.lookup s mgr.margo.glo_lit_tab = some v := hv
    rw [hm] at hv
    obtain ⟨l1, l2, hl, -⟩ := List.lookup_eq_some_iff.1 hv
    exact key (s, v) (by rw [hl]; simp)
  · cases hb

end Verif
