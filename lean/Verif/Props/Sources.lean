import Verif.Model.Sources
import Verif.Props.Program

/-!
# C77, C78: what a run changes outside of its products
-/

namespace Verif
open Spec Spec.Cmd Decoder Conv Run Args Ctl

namespace Run

/-- The extension of a path starts with a dot and contains no slash. -/
theorem splitext_shape (p : Txt) : (splitext p).1 ++ (splitext p).2 = p ∧ '/' ∉ (splitext p).2 ∧
    ((splitext p).2 = [] ∨ (splitext p).2.head? = some '.') := by
  unfold splitext
  dsimp only
  split
  · rename_i h
    unfold splitSlash at h ⊢
    dsimp only at h ⊢
    set base := (p.reverse.takeWhile (· ≠ '/')).reverse with hb
    set ext := (base.reverse.takeWhile (· ≠ '.')).reverse with he
    have h1 : base <:+ p := by
      rw [hb, ← List.reverse_prefix, List.reverse_reverse]
      exact List.takeWhile_prefix _
    have h2 : ext <:+ base := by
      rw [he, ← List.reverse_prefix, List.reverse_reverse]
      exact List.takeWhile_prefix _
    have hns : '/' ∉ base := by
      rw [hb, List.mem_reverse]
      intro hm
      simpa using List.mem_takeWhile_imp hm
    obtain ⟨d, hd⟩ := h1
    obtain ⟨b, hbe⟩ := h2
    have hlast : b.getLast? = some '.' := by
      have hl := h.1
      have hne : base.reverse.dropWhile (· ≠ '.') ≠ [] := by
        intro hn
        have := congrArg List.length (List.takeWhile_append_dropWhile (p := (· ≠ '.')) (l := base.reverse))
        rw [hn, List.append_nil, List.length_reverse] at this
        rw [he, List.length_reverse] at hl
        omega
      have hb2 : b = (base.reverse.dropWhile (· ≠ '.')).reverse := by
        have h3 : base = (base.reverse.dropWhile (· ≠ '.')).reverse ++ ext := by
          rw [he, ← List.reverse_append, List.takeWhile_append_dropWhile, List.reverse_reverse]
        exact List.append_cancel_right (hbe.trans h3)
      rw [hb2, List.getLast?_reverse, List.head?_eq_some_head hne]
      have := List.head_dropWhile_not (· ≠ '.') hne
      simpa using this
    obtain ⟨b', rfl⟩ : ∃ b', b = b' ++ ['.'] := ⟨b.dropLast, (List.dropLast_append_getLast? _ hlast).symm⟩
    have hp : p = (d ++ b') ++ '.' :: ext := by rw [← hd, ← hbe]; simp
    have hl : p.length - ext.length - 1 = (d ++ b').length := by rw [hp]; simp; omega
    have ht : p.take (p.length - ext.length - 1) = d ++ b' := by rw [hl]; nth_rw 1 [hp]; exact List.take_left
    have hdr : p.drop (p.length - ext.length - 1) = '.' :: ext := by rw [hl]; nth_rw 1 [hp]; exact List.drop_left
    refine ⟨List.take_append_drop _ _, ?_, .inr ?_⟩
    · rw [hdr]
      intro hm
      refine hns ?_
      rw [← hbe]
      simp only [List.append_assoc, List.mem_append, List.cons_append, List.nil_append]
      exact .inr hm
    · rw [hdr]; rfl
  · exact ⟨by simp, by simp, .inl rfl⟩

theorem convertFile_congr (fr : Rat → Txt) {src src' : Txt → Option Bytes} (format : String) (controls : Option Box) (w : Disk) (ready : Bool)
    {f : Txt} (h : src f = src' f) : convertFile fr src format controls w ready f = convertFile fr src' format controls w ready f := by
  unfold convertFile
  rw [h]

theorem leftSources_out (w : Disk) (src : Txt → Option Bytes) {f pfx q : Txt} (h : ¬ Under (workFolder f pfx) q) :
    leftSources w src f pfx q = src q := by
  unfold leftSources
  split
  · dsimp only
    rw [if_neg]
    rwa [Disk.gone_iff]
  · rfl

theorem leftSources_in (w : Disk) (src : Txt → Option Bytes) {f pfx q : Txt} (h : Under (workFolder f pfx) q)
    (hd : w.isdir (workFolder f pfx) = true) (hw : ∀ i, w.fault i = false) : leftSources w src f pfx q = none := by
  unfold leftSources
  have : (w.rmtree (workFolder f pfx)).2 = true := by
    unfold Disk.rmtree
    rw [hw]; rfl
  rw [hd, this]
  rw [if_pos (by rfl), if_pos]
  rwa [Disk.gone_iff]

theorem leftSources_or (w : Disk) (src : Txt → Option Bytes) (f pfx q : Txt) : leftSources w src f pfx q = none ∨ leftSources w src f pfx q = src q := by
  unfold leftSources
  split
  · dsimp only
    split
    · exact .inl rfl
    · exact .inr rfl
  · exact .inr rfl

theorem liveLoop_gone (fr : Rat → Txt) (format : String) (controls : Option Box) : ∀ (files : List Txt) (src : Txt → Option Bytes) (w : Disk) (ready : Bool)
    {w' : Disk} {ready' : Bool} {src' : Txt → Option Bytes} {r : Py (List Verdict)},
    liveLoop fr src format controls w ready files = some ((w', ready', src'), r) → ∀ q, src q = none → src' q = none
  | [], src, w, ready, _, _, _, _, h, q, hq => by
    cases h
    exact hq
  | f :: rest, src, w, ready, w', ready', src', r, h, q, hq => by
    unfold liveLoop at h
    dsimp only at h
    have h1 : leftSources w src f format.toList q = none := by
      rcases leftSources_or w src f format.toList q with h | h
      · exact h
      · rw [h]; exact hq
    rcases hc : convertFile fr (leftSources w src f format.toList) format controls w ready f with _ | ⟨⟨w1, ready1⟩, e | v⟩
    · rw [hc] at h; cases h
    · rw [hc] at h; cases h; exact h1
    · rw [hc] at h
      dsimp only at h
      rcases hl : liveLoop fr (leftSources w src f format.toList) format controls w1 ready1 rest with _ | ⟨⟨w2, ready2, src2⟩, e | vs⟩
      · rw [hl] at h; cases h
      · rw [hl] at h; cases h
        exact liveLoop_gone fr format controls rest _ _ _ hl q h1
      · rw [hl] at h; cases h
        exact liveLoop_gone fr format controls rest _ _ _ hl q h1

end Run

/-! ## C77 -/

/-- **C77.** Whatever the command line, the configuration files, the source files and the failures of the file system are, the program
changes nothing but what lies in a folder next to a selected source file whose name is that of the source without extension, a hyphen and the
format. -/
theorem C77_outside (fr : Rat → Txt) (sh : Shell) (src : Txt → Option Bytes) (ini : Txt → IniFile) (order1 order2 : List Txt → List Txt)
    (prompt : List Txt) (localArgs : Option Txt) (w : Disk) (ready : Bool) :
    ∃ w' ready' e, command fr sh src ini order1 order2 prompt localArgs w ready = some ((w', ready'), e) ∧ w'.fault = w.fault ∧
      ∀ q, w'.read q ≠ w.read q ∨ w'.isdir q ≠ w.isdir q → ∃ source format path ext, CmdLine source format path ext (argv prompt localArgs) ∧
        ∃ f ∈ makeListOfSourceFiles sh source ext, ∃ stem tail, f = stem ++ tail ∧ '/' ∉ tail ∧ (tail = [] ∨ tail.head? = some '.') ∧
          Under (stem ++ '-' :: format) q := by
  unfold command
  cases h1 : ({} : Manager).initFromFile order1 (ini "defaults.ini".toList) with
  | mk m r =>
    cases r with
    | error e => exact ⟨_, _, _, rfl, rfl, fun q h => by simp at h⟩
    | ok _ =>
      dsimp only
      cases hp : parseArgs (argv prompt localArgs) with
      | error x => exact ⟨_, _, _, rfl, rfl, fun q h => by simp at h⟩
      | ok r =>
        dsimp only
        obtain ⟨md, hm, -⟩ := C75_format hp
        have main : ∀ m2 : Manager, ∃ w' ready' e,
            (match mainLoop fr src (String.ofList r.format) m2.boxed w ready (makeListOfSourceFiles sh r.source r.ext) with
              | none => none
              | some (s, .error e) => some (s, Ending.raised e)
              | some (s, .ok vs) => some (s, Ending.finished vs)) = some ((w', ready'), e) ∧ w'.fault = w.fault ∧
            ∀ q, w'.read q ≠ w.read q ∨ w'.isdir q ≠ w.isdir q → ∃ source format path ext, CmdLine source format path ext (argv prompt localArgs) ∧
              ∃ f ∈ makeListOfSourceFiles sh source ext, ∃ stem tail, f = stem ++ tail ∧ '/' ∉ tail ∧ (tail = [] ∨ tail.head? = some '.') ∧
                Under (stem ++ '-' :: format) q := by
          intro m2
          obtain ⟨w', ready', res, e, hf, hq⟩ := mainLoop_frame hm fr src m2.boxed (makeListOfSourceFiles sh r.source r.ext) w ready
          have key : ∀ q, w'.read q ≠ w.read q ∨ w'.isdir q ≠ w.isdir q → ∃ source format path ext,
              CmdLine source format path ext (argv prompt localArgs) ∧
              ∃ f ∈ makeListOfSourceFiles sh source ext, ∃ stem tail, f = stem ++ tail ∧ '/' ∉ tail ∧ (tail = [] ∨ tail.head? = some '.') ∧
                Under (stem ++ '-' :: format) q := by
            intro q h
            refine ⟨_, _, _, _, (C74_accepted _ r).mp hp, ?_⟩
            by_contra hn
            push Not at hn
            have hq := hq q (fun g hg => by
              obtain ⟨p1, p2, p3⟩ := splitext_shape g
              have := hn g hg _ _ p1.symm p2 p3
              unfold workFolder
              rw [String.toList_ofList]
              simpa using this)
            rcases h with h | h
            · exact h hq.1
            · exact h hq.2
          rw [e]
          cases res with
          | error x => exact ⟨_, _, _, rfl, hf, key⟩
          | ok vs => exact ⟨_, _, _, rfl, hf, key⟩
        cases hi : r.ini with
        | none => exact main m
        | some p =>
          dsimp only
          cases m.updateFromFile order2 (ini p) with
          | mk m2 r2 =>
            cases r2 with
            | error e => exact ⟨_, _, _, rfl, rfl, fun q h => by simp at h⟩
            | ok _ => exact main m2

/-- The run of the example of C76 changes files, and they lie where the theorem says. -/
example (fr : Rat → Txt) (hfr : ∀ x, IsNum (fr x)) :
    let sh : Shell := { abspath := id, isfile := fun _ => true, isdir := fun _ => false, glob := fun _ _ => [], input := [] }
    ∃ w' ready' e, command fr sh (fun _ => some exStream.bytes) (fun _ => iniFile (some defaultsText)) id id
        ["-o".toList, "JARGO".toList, "/d/a.rtcm3".toList, "/d/b.rtcm3".toList] none {} false = some ((w', ready'), e) ∧
      w'.read "/d/b-JARGO/BASE/RefPointHeight-1006.json".toList ≠ ({} : Disk).read "/d/b-JARGO/BASE/RefPointHeight-1006.json".toList ∧
      w'.read "/d/a.rtcm3".toList = ({} : Disk).read "/d/a.rtcm3".toList := by
  intro sh
  obtain ⟨w', e, h, -, -⟩ := exProgram fr hfr
  obtain ⟨w2, ready2, e2, h2, -, h3⟩ := C77_outside fr sh (fun _ => some exStream.bytes) (fun _ => iniFile (some defaultsText)) id id
    ["-o".toList, "JARGO".toList, "/d/a.rtcm3".toList, "/d/b.rtcm3".toList] none {} false
  rw [e] at h2
  cases h2
  refine ⟨_, _, _, e, ?_, ?_⟩
  · intro hn
    rw [hn] at h
    simp [Disk.read, PyDict.get?_nil] at h
  · by_contra hn
    obtain ⟨source, format, path, ext, hc, f, hf, stem, tail, h4, h5, h6, h7⟩ := h3 _ (.inl hn)
    have hc := (C74_accepted _ ⟨source, format, path, ext⟩).mpr hc
    have hd : parseArgs (argv ["-o".toList, "JARGO".toList, "/d/a.rtcm3".toList, "/d/b.rtcm3".toList] none) =
      .ok ⟨["/d/a.rtcm3".toList, "/d/b.rtcm3".toList], "JARGO".toList, none, "rtcm3".toList⟩ := by decide
    rw [hd] at hc
    simp only [Except.ok.injEq, Request.mk.injEq] at hc
    obtain ⟨rfl, rfl, rfl, rfl⟩ := hc
    have h8 : '-' ∈ "/d/a.rtcm3".toList := by
      rcases h7 with h7 | ⟨t, h7⟩
      · rw [h7]; exact List.mem_append_right _ List.mem_cons_self
      · rw [← h7]; exact List.mem_append_left _ (List.mem_append_left _ (List.mem_append_right _ List.mem_cons_self))
    revert h8
    decide

/-! ## C78 -/

/-- **C78** (partial) Whatever fails, source files outside of the work folders of the run stay as they are. Missing: source files in a work
folder are deleted, see `C78_violated` and `C78_exact`. -/
theorem C78_partial (fr : Rat → Txt) {format : String} {m : Mode} (hm : modeOf format = some m) (controls : Option Box) :
    ∀ (files : List Txt) (src : Txt → Option Bytes) (w : Disk) (ready : Bool), ∃ w' ready' src' r,
      liveLoop fr src format controls w ready files = some ((w', ready', src'), r) ∧
      ∀ q, (∀ f ∈ files, ¬ Under (workFolder f format.toList) q) → src' q = src q
  | [], src, w, ready => ⟨_, _, _, _, rfl, fun _ _ => rfl⟩
  | f :: rest, src, w, ready => by
    unfold liveLoop
    dsimp only
    obtain ⟨w1, ready1, r1, e1, -⟩ := (convert_local hm fr (leftSources w src f format.toList) controls f ready).1 w
    rw [e1]
    cases r1 with
    | error e => exact ⟨_, _, _, _, rfl, fun q hq => leftSources_out w src (hq f List.mem_cons_self)⟩
    | ok v =>
      obtain ⟨w2, ready2, src2, r2, e2, h2⟩ := C78_partial fr hm controls rest (leftSources w src f format.toList) w1 ready1
      dsimp only
      rw [e2]
      have key : ∀ q, (∀ g ∈ f :: rest, ¬ Under (workFolder g format.toList) q) → src2 q = src q := fun q hq =>
        (h2 q (fun g hg => hq g (List.mem_cons_of_mem _ hg))).trans (leftSources_out w src (hq f List.mem_cons_self))
      cases r2 with
      | error e => exact ⟨_, _, _, _, rfl, key⟩
      | ok vs => exact ⟨_, _, _, _, rfl, key⟩

example : ∀ f ∈ ["/d/a.rtcm3".toList, "/d/b.rtcm3".toList], ¬ Under (workFolder f "JSON".toList) "/d/a-JSON.rtcm3".toList := by
  unfold Under; decide +kernel

/-- **C78, agreement.** If no selected source file lies in a work folder of the run, the run is the one with unchangeable source files. -/
theorem C78_agree (fr : Rat → Txt) {format : String} (controls : Option Box) :
    ∀ (files : List Txt) (src src0 : Txt → Option Bytes) (w : Disk) (ready : Bool),
      (∀ f ∈ files, ∀ g ∈ files, ¬ Under (workFolder f format.toList) g) → (∀ f ∈ files, src f = src0 f) →
      (liveLoop fr src format controls w ready files).map (fun r => ((r.1.1, r.1.2.1), r.2)) = mainLoop fr src0 format controls w ready files
  | [], _, _, _, _, _, _ => rfl
  | f :: rest, src, src0, w, ready, hf, hs => by
    unfold liveLoop
    rw [mainLoop_cons]
    dsimp only
    have h1 : ∀ g ∈ f :: rest, leftSources w src f format.toList g = src0 g := fun g hg =>
      (leftSources_out w src (hf f List.mem_cons_self g hg)).trans (hs g hg)
    rw [convertFile_congr fr format controls w ready (h1 f List.mem_cons_self)]
    rcases convertFile fr src0 format controls w ready f with _ | ⟨⟨w1, ready1⟩, e | v⟩
    · rfl
    · rfl
    · dsimp only
      rw [← C78_agree fr controls rest (leftSources w src f format.toList) src0 w1 ready1
        (fun a ha b hb => hf a (List.mem_cons_of_mem _ ha) b (List.mem_cons_of_mem _ hb)) (fun g hg => h1 g (List.mem_cons_of_mem _ hg))]
      rcases liveLoop fr (leftSources w src f format.toList) format controls w1 ready1 rest with _ | ⟨⟨w2, ready2, src2⟩, e | vs⟩ <;> rfl

example : ∀ f ∈ ["/d/a.rtcm3".toList, "/d/b/a.rtcm3".toList], ∀ g ∈ ["/d/a.rtcm3".toList, "/d/b/a.rtcm3".toList],
    ¬ Under (workFolder f "JSON".toList) g := by
  unfold Under; decide +kernel

/-- A source file lies in existing folders. -/
def Spec.Placed (w : Disk) (src : Txt → Option Bytes) : Prop := ∀ q, src q ≠ none → ∀ d, d ++ ['/'] <+: q → w.isdir d = true

/-- **C78, exact condition.** Without failures of the file system a source file is deleted if and only if it lies in a work folder of the run. -/
theorem C78_exact (fr : Rat → Txt) {format : String} {m : Mode} (hm : modeOf format = some m) (controls : Option Box) :
    ∀ (files : List Txt) (src : Txt → Option Bytes) (w : Disk), (∀ i, w.fault i = false) → Placed w src →
      ∃ w' ready' src' vs, liveLoop fr src format controls w false files = some ((w', ready', src'), .ok vs) ∧
        ∀ q, (∀ f ∈ files, q ≠ workFolder f format.toList) → src q ≠ none →
          (src' q = none ↔ ∃ f ∈ files, Under (workFolder f format.toList) q) ∧ (src' q ≠ none → src' q = src q)
  | [], src, w, _, _ => ⟨_, _, _, _, rfl, fun q _ h => ⟨by simp [h], fun _ => rfl⟩⟩
  | f :: rest, src, w, hw, hp => by
    unfold liveLoop
    dsimp only
    obtain ⟨w1, v, e1, f1⟩ := convert_nofault hm fr (leftSources w src f format.toList) controls f w hw
    obtain ⟨w1', ready1, r1, e1', o1⟩ := (convert_local hm fr (leftSources w src f format.toList) controls f false).1 w
    rw [e1] at e1'
    cases e1'
    have hin : ∀ q, workFolder f format.toList ++ ['/'] <+: q → src q ≠ none → leftSources w src f format.toList q = none := fun q hq hs =>
      leftSources_in w src (.inr hq) (hp q hs _ hq) hw
    have hp1 : Placed w1 (leftSources w src f format.toList) := by
      intro q hq d hd
      have hs : src q ≠ none := by
        rcases leftSources_or w src f format.toList q with h | h
        · exact absurd h hq
        · rwa [h] at hq
      rw [o1.isdir d]
      · exact hp q hs d hd
      · intro hu
        refine hq (hin q ?_ hs)
        rcases hu with rfl | hu
        · exact hd
        · exact hu.trans ((List.prefix_append d ['/']).trans hd)
    obtain ⟨w2, ready2, src2, vs, e2, h2⟩ := C78_exact fr hm controls rest (leftSources w src f format.toList) w1 f1 hp1
    rw [e1]
    dsimp only
    rw [e2]
    refine ⟨_, _, _, _, rfl, fun q hne hq => ?_⟩
    by_cases hu : Under (workFolder f format.toList) q
    · have hnone : leftSources w src f format.toList q = none := by
        rcases hu with rfl | hu
        · exact absurd rfl (hne f List.mem_cons_self)
        · exact hin q hu hq
      have h3 : src2 q = none := liveLoop_gone fr format controls rest _ _ _ e2 q hnone
      exact ⟨⟨fun _ => ⟨f, List.mem_cons_self, hu⟩, fun _ => h3⟩, fun h => absurd h3 h⟩
    · have h3 := leftSources_out w src hu
      obtain ⟨a, b⟩ := h2 q (fun g hg => hne g (List.mem_cons_of_mem _ hg)) (by rw [h3]; exact hq)
      rw [h3] at b
      refine ⟨?_, b⟩
      rw [a]
      simp [hu]

/-- The source that cannot be opened: no failure of the file system, but there is no such file any more. -/
theorem Run.convert_missing {format : String} {m : Mode} (hm : modeOf format = some m) (fr : Rat → Txt) {src : Txt → Option Bytes} (box : Box)
    {f : Txt} (w : Disk) (hw : ∀ i, w.fault i = false) (hs : src f = none) :
    ∃ w', convertFile fr src format (some box) w false f = some ((w', false), .ok .terminated) := by
  obtain ⟨w', v, e, -⟩ := convert_nofault hm fr src (some box) f w hw
  refine ⟨w', ?_⟩
  rw [e]
  rw [convert_eq] at e
  obtain ⟨hf1, -⟩ := folder_local f format.toList
  have h1 := hf1 w
  rcases hc : createWorkFolder w f format.toList with ⟨w1, _ | wfld⟩
  · exfalso
    unfold createWorkFolder at hc
    unfold Disk.rmtree Disk.makedirs at hc
    simp [hw] at hc
    split at hc <;> simp [hw] at hc
  · rw [hc] at e
    dsimp only at e
    unfold inFolder at e
    rw [hs] at e
    rcases hl : initLogger w1 false (Disk.join wfld (makeLogFileName f)) with ⟨⟨w2, ready2⟩, x | x⟩
    · rw [hl] at e; simp at e
    · rw [hl] at e
      dsimp only at e
      rcases hfac : factory format w2 wfld box with x | _ | c
      · rw [hfac] at e; simp at e
      · exfalso
        cases hd : w2.isdir wfld with
        | true =>
          obtain ⟨c, hc2, -⟩ := (factory_eq hm w2 wfld box).1 hd
          rw [hfac] at hc2; simp at hc2
        | false =>
          rw [(factory_eq hm w2 wfld box).2 hd] at hfac; simp at hfac
      · rw [hfac] at e
        unfold decodeRtcmFile at e
        dsimp only at e
        simp only [Option.some.injEq, Prod.mk.injEq, Except.ok.injEq] at e
        rw [← e.2]
        simp

/-- **C78 does not hold**: a source file which is selected for conversion, and which lies in the work folder of another one, is deleted before
it is converted. Every run of the program with these two sources, in which the folder of the first exists, has this result. -/
theorem C78_violated (fr : Rat → Txt) {format : String} {m : Mode} (hm : modeOf format = some m) (box : Box) (src : Txt → Option Bytes) (w : Disk)
    (hw : ∀ i, w.fault i = false) (hd : w.isdir ("/d/a-".toList ++ format.toList) = true) :
    ∃ w' src' v, liveLoop fr src format (some box) w false ["/d/a.rtcm3".toList, "/d/a-".toList ++ format.toList ++ "/b.rtcm3".toList] =
      some ((w', false, src'), .ok [v, .terminated]) ∧ src' ("/d/a-".toList ++ format.toList ++ "/b.rtcm3".toList) = none := by
  have hwf : workFolder "/d/a.rtcm3".toList format.toList = "/d/a-".toList ++ format.toList := by
    unfold workFolder
    rw [show (splitext "/d/a.rtcm3".toList).1 = "/d/a".toList by decide]
    rfl
  unfold liveLoop
  dsimp only
  obtain ⟨w1, v, e1, f1⟩ := convert_nofault hm fr (leftSources w src "/d/a.rtcm3".toList format.toList) (some box) "/d/a.rtcm3".toList w hw
  rw [e1]
  dsimp only
  unfold liveLoop
  dsimp only
  have hnone : leftSources w src "/d/a.rtcm3".toList format.toList ("/d/a-".toList ++ format.toList ++ "/b.rtcm3".toList) = none := by
    refine leftSources_in w src ?_ (by rw [hwf]; exact hd) hw
    rw [hwf]
    exact .inr ⟨"b.rtcm3".toList, by simp⟩
  have hnone2 : leftSources w1 (leftSources w src "/d/a.rtcm3".toList format.toList) ("/d/a-".toList ++ format.toList ++ "/b.rtcm3".toList)
      format.toList ("/d/a-".toList ++ format.toList ++ "/b.rtcm3".toList) = none := by
    rcases leftSources_or w1 (leftSources w src "/d/a.rtcm3".toList format.toList) ("/d/a-".toList ++ format.toList ++ "/b.rtcm3".toList)
      format.toList ("/d/a-".toList ++ format.toList ++ "/b.rtcm3".toList) with h | h
    · exact h
    · rw [h]; exact hnone
  obtain ⟨w2, e2⟩ := convert_missing hm fr box w1 f1 hnone2
  rw [e2]
  dsimp only
  unfold liveLoop
  exact ⟨_, _, _, rfl, hnone2⟩

example : Placed { dirs := [[], "/d".toList, "/d/a-JSON".toList] }
    (fun q => if q = "/d/a-JSON/b.rtcm3".toList ∨ q = "/d/a.rtcm3".toList then some [1] else none) ∧
    (∀ f ∈ ["/d/a.rtcm3".toList, "/d/a-JSON/b.rtcm3".toList], "/d/a-JSON/b.rtcm3".toList ≠ workFolder f "JSON".toList) ∧
    (∀ f ∈ ["/d/a.rtcm3".toList, "/d/a-JSON/b.rtcm3".toList], "/d/a.rtcm3".toList ≠ workFolder f "JSON".toList) ∧
    Under (workFolder "/d/a.rtcm3".toList "JSON".toList) "/d/a-JSON/b.rtcm3".toList := by
  refine ⟨?_, by decide +kernel, by decide +kernel, by unfold Under; decide +kernel⟩
  have key : ∀ q ∈ ["/d/a-JSON/b.rtcm3".toList, "/d/a.rtcm3".toList], ∀ n ≤ q.length, (q.take n ++ ['/']).isPrefixOf q = true →
      ({ dirs := [[], "/d".toList, "/d/a-JSON".toList] } : Disk).isdir (q.take n) = true := by decide +kernel
  intro q hq d hd
  have hm : q ∈ ["/d/a-JSON/b.rtcm3".toList, "/d/a.rtcm3".toList] := by
    by_contra hn
    refine hq (if_neg ?_)
    rintro (rfl | rfl)
    · exact hn List.mem_cons_self
    · exact hn (List.mem_cons_of_mem _ List.mem_cons_self)
  obtain ⟨t, ht⟩ := hd
  have ht2 : d = q.take d.length := by rw [← ht]; simp
  rw [ht2]
  refine key q hm d.length (by rw [← ht]; simp) ?_
  rw [← ht2, List.isPrefixOf_iff_prefix]
  exact ⟨t, ht⟩

theorem Run.format_letters {format : String} {m : Mode} (hm : modeOf format = some m) : '.' ∉ format.toList := by
  have hx : ∀ x ∈ [("MARGO", Mode.margo), ("JSON", .json), ("JSON-B", .jsonB), ("JARGO", .jargo)], '.' ∉ x.1.toList := by decide
  exact hx _ (PyDict.mem_of_get? hm)

/-- **C78, directory.** If the sources are files of one directory with one extension without hyphen, no source file of the directory is lost,
whatever fails, and the run is the one with unchangeable source files. -/
theorem C78_directory (fr : Rat → Txt) (src : Txt → Option Bytes) {format : String} {m : Mode} (hm : modeOf format = some m)
    (controls : Option Box) (w : Disk) (ready : Bool) (dir ext : Txt) (names : List Txt) (hdir : dir = [] ∨ dir.getLast? = some '/')
    (he : '/' ∉ ext ∧ '.' ∉ ext) (hy : '-' ∉ ext) (hnames : ∀ n ∈ names, '/' ∉ n ∧ ∃ c ∈ n, c ≠ '.') :
    ∃ w' ready' src' r, liveLoop fr src format controls w ready (names.map (inDir dir ext)) = some ((w', ready', src'), r) ∧
      mainLoop fr src format controls w ready (names.map (inDir dir ext)) = some ((w', ready'), r) ∧
      ∀ n, '/' ∉ n → src' (inDir dir ext n) = src (inDir dir ext n) := by
  have key : ∀ n ∈ names, ∀ n', '/' ∉ n' → ¬ Under (workFolder (inDir dir ext n) format.toList) (inDir dir ext n') := by
    intro n hn n' hn' h
    unfold workFolder inDir at h
    rw [splitext_parts hdir (hnames n hn).1 (hnames n hn).2 he] at h
    rcases h with h | ⟨t, h⟩
    · simp only [List.append_assoc, List.append_cancel_left_eq] at h
      have h1 : ('.' :: ext) <:+ n ++ (['-'] ++ format.toList) := ⟨n', h⟩
      have h2 : ('-' :: format.toList) <:+ n ++ (['-'] ++ format.toList) := ⟨n, by simp⟩
      rcases List.suffix_or_suffix_of_suffix h1 h2 with h3 | h3
      · have h4 : '.' ∈ '-' :: format.toList := h3.subset (by simp)
        simp [format_letters hm] at h4
      · have h4 : '-' ∈ '.' :: ext := h3.subset (by simp)
        simp [hy] at h4
    · simp only [List.append_assoc, List.append_cancel_left_eq] at h
      have h1 : '/' ∈ n' ++ '.' :: ext := by rw [← h]; simp
      simp [hn', he.1] at h1
  obtain ⟨w', ready', src', r, e, h⟩ := C78_partial fr hm controls (names.map (inDir dir ext)) src w ready
  refine ⟨w', ready', src', r, e, ?_, ?_⟩
  · rw [← C78_agree fr controls (names.map (inDir dir ext)) src src w ready ?_ (fun _ _ => rfl), e]
    · rfl
    · intro f hf g hg
      obtain ⟨a, ha, rfl⟩ := List.mem_map.1 hf
      obtain ⟨b, hb, rfl⟩ := List.mem_map.1 hg
      exact key a ha b (hnames b hb).1
  · intro n hn
    refine h _ (fun f hf => ?_)
    obtain ⟨a, ha, rfl⟩ := List.mem_map.1 hf
    exact key a ha n hn

example : ("/d/".toList = [] ∨ "/d/".toList.getLast? = some '/') ∧ ('/' ∉ "rtcm3".toList ∧ '.' ∉ "rtcm3".toList) ∧ '-' ∉ "rtcm3".toList ∧
    ∀ n ∈ ["a".toList, "a-JSON".toList], '/' ∉ n ∧ ∃ c ∈ n, c ≠ '.' := by decide +kernel

end Verif
