import Verif.Lemmas.FramePrint
import Verif.Props.Run

/-!
# The conversion of a file works in its work folder only
-/

namespace Verif
open Spec Decoder Conv Run Disk

theorem strategy_in {m : Mode} {w : Disk} {d : Txt} {box : Box} {c : Converter} (h : strategy m w d box = .ok (some c)) : c.In d := by
  have h2 := (strategy_cases h).2
  rw [strategyPrinter_eq] at h2
  have e2 : c.printer = startPrinter m d box := by
    split at h2
    · exact (Option.some.inj (Except.ok.inj h2)).symm
    · cases h2
  intro p hp
  rw [e2] at hp
  have hj : ∀ x, Json.Printer.In d { ctrls := x, wd := d } := fun x => ⟨rfl, fun f h => by simp at h⟩
  have hg : ∀ x, Margo.Printer.In d { ctrl := x, wd := d } := fun x => ⟨rfl, fun f h => by simp at h⟩
  cases m <;> simp only [startPrinter, List.mem_cons, List.mem_singleton, List.not_mem_nil, or_false] at hp
  · subst hp; exact hg _
  · subst hp; exact hj _
  · subst hp; exact hj _
  · rcases hp with rfl | rfl
    · exact hj _
    · exact hg _

theorem file_local {d : Txt} (hd : Folder d) {m : Mode} {w0 : Disk} {box : Box} {c : Converter} (h : strategy m w0 d box = .ok (some c))
    (fr : Rat → Txt) {n : Nat} (hn : 0 < n) (content : Option Bytes) :
    (∀ w, ∃ c' w' ok, decodeRtcmFile fr n content c w = some ((c', w'), ok) ∧ Frame d w w') ∧
    ∀ w v, Like d w v → ∃ c1 c2 w' v' ok, decodeRtcmFile fr n content c w = some ((c1, w'), ok) ∧
      decodeRtcmFile fr n content c v = some ((c2, v'), ok) ∧ Like d w' v' ∧ verdictOf c1.statistics = verdictOf c2.statistics := by
  have hin := strategy_in h
  cases content with
  | none =>
    obtain ⟨h1, h2⟩ := conv_release hin
    refine ⟨fun w => ⟨_, _, _, rfl, h1 w⟩, fun w v l => ⟨_, _, _, _, _, rfl, rfl, (h2 w v l).2, rfl⟩⟩
  | some bytes =>
    obtain ⟨h1, h2⟩ := conv_process hd fr (messages bytes) hin
    constructor
    · intro w
      obtain ⟨c', a1, -⟩ := C51_whole m w0 d box c h fr n hn bytes w
      exact ⟨_, _, _, a1, (h1 w).1.trans ((conv_release (h1 w).2).1 _)⟩
    · intro w v l
      obtain ⟨c1, a1, a2, a3, a4, -⟩ := C51_whole m w0 d box c h fr n hn bytes w
      obtain ⟨c2, b1, b2, b3, b4, -⟩ := C51_whole m w0 d box c h fr n hn bytes v
      obtain ⟨e1, e2, l1⟩ := h2 w v l
      obtain ⟨e3, l2⟩ := (conv_release (h1 w).2).2 _ _ l1
      rw [← e2] at b1 b2 b3 b4
      rw [← e1] at b1
      rw [← e3] at b2
      refine ⟨c1, c2, _, _, _, a1, b1, l2, ?_⟩
      unfold verdictOf Converter.statistics DecoderTop.decErrors
      dsimp only
      rw [a2, a3, a4, b2, b3, b4]

theorem factory_eq {format : String} {m : Mode} (hm : modeOf format = some m) (w : Disk) (d : Txt) (box : Box) :
    (w.isdir d = true → ∃ c, factory format w d box = .ok (some c) ∧ strategy m w d box = .ok (some c) ∧
      c = ⟨{ decoders := registered m }, startPrinter m d box⟩) ∧
    (w.isdir d = false → factory format w d box = .error .assertionError) := by
  unfold factory
  rw [hm]
  dsimp only
  unfold strategy
  rw [strategy_eq, ok_bind]
  dsimp only
  rw [strategyPrinter_eq]
  constructor
  · intro h
    rw [if_pos h, ok_bind]
    exact ⟨_, rfl, rfl, rfl⟩
  · intro h
    rw [if_neg (by rw [h]; simp), err_bind]

theorem folder_local (src pfx : Txt) :
    (∀ w, Outside (workFolder src pfx) w (createWorkFolder w src pfx).1) ∧
    ∀ w v, Like (workFolder src pfx) w v → (createWorkFolder w src pfx).2 = (createWorkFolder v src pfx).2 ∧
      Like (workFolder src pfx) (createWorkFolder w src pfx).1 (createWorkFolder v src pfx).1 := by
  unfold createWorkFolder
  generalize workFolder src pfx = d
  have hu : Under d d := .inl rfl
  dsimp only
  constructor
  · intro w
    have hf : Outside d w (if w.isdir d = true then w.rmtree d else (w, true)).1 := by
      split
      · exact frame_rmtree w (fun q h => h)
      · exact .refl _ _
    generalize (if w.isdir d = true then w.rmtree d else (w, true)) = x at hf ⊢
    obtain ⟨w1, ok⟩ := x
    cases ok with
    | false => exact hf
    | true =>
      dsimp only at hf ⊢
      rw [if_pos rfl]
      have hf2 := hf.trans (frame_makedirs w1 hu).toOutside
      generalize w1.makedirs d = y at hf2 ⊢
      obtain ⟨w2, ok⟩ := y
      cases ok <;> exact hf2
  · intro w v l
    have hl : (if w.isdir d = true then w.rmtree d else (w, true)).2 = (if v.isdir d = true then v.rmtree d else (v, true)).2 ∧
        Like d (if w.isdir d = true then w.rmtree d else (w, true)).1 (if v.isdir d = true then v.rmtree d else (v, true)).1 := by
      rw [l.isdir d hu]
      split
      · exact like_rmtree l
      · exact ⟨rfl, l⟩
    generalize (if w.isdir d = true then w.rmtree d else (w, true)) = x at hl ⊢
    generalize (if v.isdir d = true then v.rmtree d else (v, true)) = x' at hl ⊢
    obtain ⟨w1, ok⟩ := x
    obtain ⟨v1, ok'⟩ := x'
    obtain ⟨rfl, l1⟩ := hl
    dsimp only at l1
    cases ok with
    | false => exact ⟨rfl, l1⟩
    | true =>
      dsimp only
      rw [if_pos rfl, if_pos rfl]
      have l2 := like_makedirs (path := d) l1
      generalize w1.makedirs d = y at l2 ⊢
      generalize v1.makedirs d = y' at l2 ⊢
      obtain ⟨w2, ok⟩ := y
      obtain ⟨v2, ok'⟩ := y'
      obtain ⟨rfl, l2⟩ := l2
      cases ok <;> exact ⟨rfl, l2⟩

theorem logger_local {d path : Txt} (hu : Under d path) (ready : Bool) :
    (∀ w, Frame d w (initLogger w ready path).1.1) ∧
    ∀ w v, Like d w v → (initLogger w ready path).2 = (initLogger v ready path).2 ∧
      (initLogger w ready path).1.2 = (initLogger v ready path).1.2 ∧ Like d (initLogger w ready path).1.1 (initLogger v ready path).1.1 := by
  have hi : ∀ w, Frame d w (init2CH w ready).1.1 := by
    intro w
    unfold init2CH
    split
    · exact .refl _ _
    · split <;> exact ⟨⟨rfl, fun _ _ => rfl, fun _ _ => rfl⟩, fun _ h => h⟩
  have hl : ∀ w v, Like d w v → (init2CH w ready).2 = (init2CH v ready).2 ∧ (init2CH w ready).1.2 = (init2CH v ready).1.2 ∧
      Like d (init2CH w ready).1.1 (init2CH v ready).1.1 := by
    intro w v l
    have h0 := l.fault 0
    simp only [Nat.add_zero] at h0
    unfold init2CH
    rw [h0]
    split
    · exact ⟨rfl, rfl, l⟩
    · split <;> exact ⟨rfl, rfl, fault_step l.fault, l.read, l.isdir⟩
  unfold initLogger
  constructor
  · intro w
    have hf := frame_openW w hu
    generalize w.openW path = x at hf ⊢
    obtain ⟨w1, ok⟩ := x
    cases ok with
    | false => exact hf
    | true => exact (hf.trans (frame_write w1 logHead hu)).trans (hi _)
  · intro w v l
    have h1 := like_openW (path := path) l
    generalize w.openW path = x at h1 ⊢
    generalize v.openW path = x' at h1 ⊢
    obtain ⟨w1, ok⟩ := x
    obtain ⟨v1, ok'⟩ := x'
    obtain ⟨rfl, l1⟩ := h1
    cases ok with
    | false => exact ⟨rfl, rfl, l1⟩
    | true => exact hl _ _ (like_write logHead hu l1)

/-- Work folders of the four formats are folders. -/
theorem workFolder_ok {format : String} {m : Mode} (hm : modeOf format = some m) (f : Txt) : Folder (workFolder f format.toList) := by
  unfold workFolder
  refine ⟨by simp, ?_⟩
  have hx : ∀ x ∈ [("MARGO", Mode.margo), ("JSON", .json), ("JSON-B", .jsonB), ("JARGO", .jargo)],
      x.1.toList.getLast? ≠ some '/' ∧ x.1.toList ≠ [] := by decide
  obtain ⟨h1, h2⟩ := hx _ (PyDict.mem_of_get? hm)
  dsimp only at h1 h2
  rw [List.getLast?_append_of_ne_nil _ h2]
  exact h1

/-- The name of a log file has no `/` in front. -/
theorem logName_ok (f : Txt) : (makeLogFileName f).head? ≠ some '/' := by
  have hb : '/' ∉ baseName f := by
    unfold baseName splitSlash
    dsimp only
    rw [List.mem_reverse]
    intro h
    have := List.all_eq_true.1 List.all_takeWhile _ h
    simp at this
  have hs : ∀ p : Txt, ∀ x ∈ (splitext p).1, x ∈ p := by
    intro p x hx
    unfold splitext at hx
    dsimp only at hx
    split at hx
    · exact List.mem_of_mem_take hx
    · exact hx
  unfold makeLogFileName
  cases hh : (splitext (baseName f)).1 with
  | nil => decide
  | cons c cs =>
    simp only [List.cons_append, List.head?_cons, ne_eq, Option.some.injEq]
    rintro rfl
    exact hb (hs _ _ (by rw [hh]; exact List.mem_cons_self))

/-- The conversion after the work folder has been made. -/
def Run.inFolder (fr : Rat → Txt) (src : Txt → Option Bytes) (format : String) (controls : Option Box) (ready : Bool) (fpath wfld : Txt)
    (w : Disk) : Option ((Disk × Bool) × Py Verdict) :=
  match initLogger w ready (Disk.join wfld (makeLogFileName fpath)) with
  | (s, .error e) => some (s, .error e)
  | ((w, ready), .ok ()) =>
    match controls with
    | none => some ((w, deinit ready), .ok .noControls)
    | some box =>
      match factory format w wfld box with
      | .error e => some ((w, ready), .error e)
      | .ok none => some ((w, deinit ready), .ok .noConverter)
      | .ok (some c) =>
        match decodeRtcmFile fr FILE_CHUNK_LEN (src fpath) c w with
        | none => none
        | some ((c, w), ok) => some ((w, deinit ready), .ok (if ok then verdictOf c.statistics else .terminated))

theorem convert_eq (fr : Rat → Txt) (src : Txt → Option Bytes) (format : String) (controls : Option Box) (w : Disk) (ready : Bool) (f : Txt) :
    convertFile fr src format controls w ready f =
      match createWorkFolder w f format.toList with
      | (w, none) => some ((w, ready), .ok .noFolder)
      | (w, some wfld) => inFolder fr src format controls ready f wfld w := rfl

theorem inFolder_local {format : String} {m : Mode} (hm : modeOf format = some m) (fr : Rat → Txt) (src : Txt → Option Bytes)
    (controls : Option Box) (f : Txt) (ready : Bool) :
    (∀ w, ∃ w' ready' r, inFolder fr src format controls ready f (workFolder f format.toList) w = some ((w', ready'), r) ∧
      Frame (workFolder f format.toList) w w') ∧
    ∀ w v, Like (workFolder f format.toList) w v → ∃ w' v' ready' r,
      inFolder fr src format controls ready f (workFolder f format.toList) w = some ((w', ready'), r) ∧
      inFolder fr src format controls ready f (workFolder f format.toList) v = some ((v', ready'), r) ∧
      Like (workFolder f format.toList) w' v' := by
  have hd := workFolder_ok hm f
  have hu : Under (workFolder f format.toList) (Disk.join (workFolder f format.toList) (makeLogFileName f)) := under_join hd (logName_ok f) rfl
  obtain ⟨hl1, hl2⟩ := logger_local hu ready
  unfold inFolder
  constructor
  · intro w1
    have h3 := hl1 w1
    generalize initLogger w1 ready (Disk.join (workFolder f format.toList) (makeLogFileName f)) = y at h3 ⊢
    obtain ⟨⟨w2, ready2⟩, r2⟩ := y
    dsimp only at h3
    cases r2 with
    | error e => exact ⟨_, _, _, rfl, h3⟩
    | ok u =>
      dsimp only
      cases controls with
      | none => exact ⟨_, _, _, rfl, h3⟩
      | some box =>
        dsimp only
        obtain ⟨g1, g2⟩ := factory_eq hm w2 (workFolder f format.toList) box
        cases hdir : w2.isdir (workFolder f format.toList) with
        | false =>
          rw [g2 hdir]
          exact ⟨_, _, _, rfl, h3⟩
        | true =>
          obtain ⟨c, hc1, hc2, -⟩ := g1 hdir
          rw [hc1]
          dsimp only
          obtain ⟨c', w', ok, hw, hfr⟩ := (file_local hd hc2 fr (n := FILE_CHUNK_LEN) (by decide) (src f)).1 w2
          rw [hw]
          exact ⟨_, _, _, rfl, h3.trans hfr⟩
  · intro w1 v1 l1
    have h3 := hl2 w1 v1 l1
    generalize initLogger w1 ready (Disk.join (workFolder f format.toList) (makeLogFileName f)) = y at h3 ⊢
    generalize initLogger v1 ready (Disk.join (workFolder f format.toList) (makeLogFileName f)) = y' at h3 ⊢
    obtain ⟨⟨w2, ready2⟩, r2⟩ := y
    obtain ⟨⟨v2, ready2'⟩, r2'⟩ := y'
    dsimp only at h3
    obtain ⟨rfl, rfl, l2⟩ := h3
    cases r2 with
    | error e => exact ⟨_, _, _, _, rfl, rfl, l2⟩
    | ok u =>
      dsimp only
      cases controls with
      | none => exact ⟨_, _, _, _, rfl, rfl, l2⟩
      | some box =>
        dsimp only
        obtain ⟨g1, g2⟩ := factory_eq hm w2 (workFolder f format.toList) box
        obtain ⟨k1, k2⟩ := factory_eq hm v2 (workFolder f format.toList) box
        have hiso := l2.isdir _ (.inl rfl)
        cases hdir : w2.isdir (workFolder f format.toList) with
        | false =>
          rw [g2 hdir, k2 (hiso ▸ hdir)]
          exact ⟨_, _, _, _, rfl, rfl, l2⟩
        | true =>
          obtain ⟨c, hc1, hc2, e1⟩ := g1 hdir
          obtain ⟨c', hc1', hc2', e2⟩ := k1 (hiso ▸ hdir)
          have e : c' = c := e2.trans e1.symm
          subst e
          rw [hc1, hc1']
          dsimp only
          obtain ⟨c1, c2, w', v', ok, hw, hv, l3, hver⟩ := (file_local hd hc2 fr (n := FILE_CHUNK_LEN) (by decide) (src f)).2 w2 v2 l2
          rw [hw, hv]
          refine ⟨_, _, _, _, rfl, ?_, l3⟩
          dsimp only
          rw [hver]

/-- Conversion of one file: everything outside of the work folder stays, and outcome and products depend on nothing outside of it. -/
theorem convert_local {format : String} {m : Mode} (hm : modeOf format = some m) (fr : Rat → Txt) (src : Txt → Option Bytes)
    (controls : Option Box) (f : Txt) (ready : Bool) :
    (∀ w, ∃ w' ready' r, convertFile fr src format controls w ready f = some ((w', ready'), r) ∧ Outside (workFolder f format.toList) w w') ∧
    ∀ w v, Like (workFolder f format.toList) w v → ∃ w' v' ready' r,
      convertFile fr src format controls w ready f = some ((w', ready'), r) ∧
      convertFile fr src format controls v ready f = some ((v', ready'), r) ∧ Like (workFolder f format.toList) w' v' := by
  obtain ⟨hf1, hf2⟩ := folder_local f format.toList
  obtain ⟨hi1, hi2⟩ := inFolder_local hm fr src controls f ready
  have hsome : ∀ w, (createWorkFolder w f format.toList).2 = none ∨
      (createWorkFolder w f format.toList).2 = some (workFolder f format.toList) := by
    intro w
    cases h : (createWorkFolder w f format.toList).2 with
    | none => exact .inl rfl
    | some x =>
      right
      rw [(createWorkFolder_some (w1 := (createWorkFolder w f format.toList).1) (Prod.ext rfl h)).1]
  constructor
  · intro w
    rw [convert_eq]
    have h1 := hf1 w
    have h2 := hsome w
    generalize createWorkFolder w f format.toList = x at h1 h2 ⊢
    obtain ⟨w1, r1⟩ := x
    dsimp only at h1 h2
    rcases h2 with rfl | rfl
    · exact ⟨_, _, _, rfl, h1⟩
    · obtain ⟨w', ready', r, e, h⟩ := hi1 w1
      exact ⟨_, _, _, e, h1.trans h.toOutside⟩
  · intro w v l
    rw [convert_eq, convert_eq]
    have h1 := hf2 w v l
    have h2 := hsome w
    generalize createWorkFolder w f format.toList = x at h1 h2 ⊢
    generalize createWorkFolder v f format.toList = x' at h1 ⊢
    obtain ⟨w1, r1⟩ := x
    obtain ⟨v1, r1'⟩ := x'
    dsimp only at h1 h2
    obtain ⟨rfl, l1⟩ := h1
    rcases h2 with rfl | rfl
    · exact ⟨_, _, _, _, rfl, rfl, l1⟩
    · exact hi2 w1 v1 l1

/-- Without failures the work folder is empty after `create_work_folder`, if nothing was in it, or if it existed. -/
theorem folder_empty (w : Disk) (hw : ∀ i, w.fault i = false) (src pfx : Txt)
    (h : w.isdir (workFolder src pfx) = true ∨ ∀ q, Under (workFolder src pfx) q → w.read q = none ∧ w.isdir q = false) :
    ∃ w1, createWorkFolder w src pfx = (w1, some (workFolder src pfx)) ∧ (∀ i, w1.fault i = false) ∧
      ∀ q, Under (workFolder src pfx) q → w1.read q = none ∧ w1.isdir q = decide (q = workFolder src pfx) := by
  unfold createWorkFolder
  generalize workFolder src pfx = d at h ⊢
  dsimp only
  have hmk : ∀ v : Disk, (∀ i, v.fault i = false) → (∀ q, Under d q → v.read q = none ∧ v.isdir q = false) →
      (v.makedirs d).2 = true ∧ (∀ i, (v.makedirs d).1.fault i = false) ∧
      ∀ q, Under d q → (v.makedirs d).1.read q = none ∧ (v.makedirs d).1.isdir q = decide (q = d) := by
    intro v hv hq
    refine ⟨by unfold Disk.makedirs; simp [hv], by unfold Disk.makedirs; simp [hv], fun q h => ⟨?_, ?_⟩⟩
    · rw [read_makedirs]; exact (hq q h).1
    · have := (hq q h).2
      unfold Disk.makedirs Disk.isdir at *
      simp only [hv, Bool.false_eq_true, if_false]
      rw [List.contains_cons, this, Bool.or_false]
      by_cases e : q = d <;> simp [e]
  cases hd : w.isdir d with
  | true =>
    rw [if_pos rfl]
    have hok : (w.rmtree d).2 = true := by unfold Disk.rmtree; simp [hw]
    have hfa : ∀ i, (w.rmtree d).1.fault i = false := by
      rw [(frame_rmtree w (fun q h => h)).fault]; exact hw
    obtain ⟨h1, h2, h3⟩ := hmk (w.rmtree d).1 hfa (fun q hq => ⟨((read_rmtree w d q).2 hok).1 hq, ((isdir_rmtree w d q).2 hok).1 hq⟩)
    rw [if_pos hok, if_pos h1]
    exact ⟨_, rfl, h2, h3⟩
  | false =>
    rw [if_neg Bool.false_ne_true]
    dsimp only
    rw [if_pos rfl]
    obtain ⟨h1, h2, h3⟩ := hmk w hw (fun q hq => h.elim (fun h => by rw [hd] at h; cases h) (fun h => h q hq))
    rw [if_pos h1]
    exact ⟨_, rfl, h2, h3⟩

end Verif
