import Verif.Lemmas.FrameRun
import Verif.Props.EndToEnd

/-!
# C49, C61: several files in one run
-/

namespace Verif
open Spec Decoder Conv Run Disk

/-! ### Paths -/

theorem under_both {d e q : Txt} (h1 : Under d q) (h2 : Under e q) : Under d e ∨ Under e d := by
  have key : ∀ {d e : Txt}, d ++ ['/'] <+: e ++ ['/'] → Under d e := by
    intro d e h
    rcases List.prefix_concat_iff.1 h with h | h
    · exact .inl (List.append_cancel_right h).symm
    · exact .inr h
  rcases h1 with rfl | h1
  · exact .inr h2
  · rcases h2 with rfl | h2
    · exact .inl (.inr h1)
    · rcases List.prefix_or_prefix_of_prefix h1 h2 with h | h
      · exact .inl (key h)
      · exact .inr (key h)

theorem apart_under {d e q : Txt} (h : Apart d e) (hd : Under d q) : ¬ Under e q :=
  fun he => (under_both hd he).elim h.1 h.2

/-- The extension of a path: directory (empty or with `/` at its end), name and extension. -/
theorem splitext_parts {dir name ext : Txt} (hdir : dir = [] ∨ dir.getLast? = some '/') (hn : '/' ∉ name) (hn2 : ∃ c ∈ name, c ≠ '.')
    (he : '/' ∉ ext ∧ '.' ∉ ext) : splitext (dir ++ name ++ '.' :: ext) = (dir ++ name, '.' :: ext) := by
  have htake : ∀ (p : Char → Bool) (a b : Txt), (∀ c ∈ b, p c = true) → (∀ x, a.getLast? = some x → p x = false) →
      ((a ++ b).reverse.takeWhile p).reverse = b := by
    intro p a b hb ha
    rw [List.reverse_append, List.takeWhile_append_of_pos (by intro c hc; exact hb c (List.mem_reverse.1 hc))]
    have : a.reverse.takeWhile p = [] := by
      cases h : a.reverse with
      | nil => rfl
      | cons x xs =>
        have hx : a.getLast? = some x := by rw [← List.head?_reverse, h]; rfl
        rw [List.takeWhile_cons, ha x hx]
        rfl
    rw [this, List.append_nil, List.reverse_reverse]
  have hbase : (splitSlash (dir ++ name ++ '.' :: ext)).2 = name ++ '.' :: ext := by
    unfold splitSlash
    dsimp only
    rw [List.append_assoc]
    apply htake
    · intro c hc
      have : c ≠ '/' := by
        rintro rfl
        rcases List.mem_append.1 hc with h | h
        · exact hn h
        · rcases List.mem_cons.1 h with h | h
          · simp at h
          · exact he.1 h
      simpa using this
    · intro x hx
      rcases hdir with rfl | h
      · simp at hx
      · rw [h] at hx; cases hx; simp
  have hext : ((name ++ '.' :: ext).reverse.takeWhile (· ≠ '.')).reverse = ext := by
    have h : name ++ '.' :: ext = (name ++ ['.']) ++ ext := by simp
    rw [h]
    apply htake
    · intro c hc
      have : c ≠ '.' := by rintro rfl; exact he.2 hc
      simpa using this
    · intro x hx
      rw [List.getLast?_concat] at hx
      cases hx; simp
  unfold splitext
  dsimp only
  rw [hbase, hext]
  have hl : (name ++ '.' :: ext).length - ext.length - 1 = name.length := by simp; omega
  have hl2 : (dir ++ name ++ '.' :: ext).length - ext.length - 1 = (dir ++ name).length := by simp; omega
  rw [if_pos, hl2, List.take_left, List.drop_left]
  refine ⟨by simp; omega, ?_⟩
  rw [hl, List.take_left, List.any_eq_true]
  obtain ⟨c, hc, hne⟩ := hn2
  exact ⟨c, hc, by simpa using hne⟩

/-! ### The loop over the files -/

theorem mainLoop_frame {format : String} {m : Mode} (hm : modeOf format = some m) (fr : Rat → Txt) (src : Txt → Option Bytes)
    (controls : Option Box) : ∀ (files : List Txt) (w : Disk) (ready : Bool), ∃ w' ready' r,
      mainLoop fr src format controls w ready files = some ((w', ready'), r) ∧ w'.fault = w.fault ∧
      ∀ q, (∀ g ∈ files, ¬ Under (workFolder g format.toList) q) → w'.read q = w.read q ∧ w'.isdir q = w.isdir q
  | [], w, ready => ⟨w, ready, _, rfl, rfl, fun _ _ => ⟨rfl, rfl⟩⟩
  | f :: rest, w, ready => by
    obtain ⟨w1, ready1, r1, e1, hf⟩ := (convert_local hm fr src controls f ready).1 w
    unfold mainLoop
    rw [e1]
    cases r1 with
    | error e =>
      exact ⟨w1, ready1, _, rfl, hf.fault, fun q hq => ⟨hf.read q (hq f List.mem_cons_self), hf.isdir q (hq f List.mem_cons_self)⟩⟩
    | ok v =>
      obtain ⟨w2, ready2, r2, e2, hfa, hq2⟩ := mainLoop_frame hm fr src controls rest w1 ready1
      dsimp only
      rw [e2]
      have key : ∀ q, (∀ g ∈ f :: rest, ¬ Under (workFolder g format.toList) q) → w2.read q = w.read q ∧ w2.isdir q = w.isdir q := by
        intro q hq
        obtain ⟨a, b⟩ := hq2 q (fun g hg => hq g (List.mem_cons_of_mem _ hg))
        have hqf := hq f List.mem_cons_self
        exact ⟨a.trans (hf.read q hqf), b.trans (hf.isdir q hqf)⟩
      cases r2 with
      | error e => exact ⟨w2, ready2, _, rfl, hfa.trans hf.fault, key⟩
      | ok vs => exact ⟨w2, ready2, _, rfl, hfa.trans hf.fault, key⟩

theorem mainLoop_cons (fr : Rat → Txt) (src : Txt → Option Bytes) (format : String) (controls : Option Box) (w : Disk) (ready : Bool)
    (f : Txt) (rest : List Txt) : mainLoop fr src format controls w ready (f :: rest) =
      match convertFile fr src format controls w ready f with
      | none => none
      | some (s, .error e) => some (s, .error e)
      | some ((w, ready), .ok v) =>
        match mainLoop fr src format controls w ready rest with
        | none => none
        | some (s, .error e) => some (s, .error e)
        | some (s, .ok vs) => some (s, .ok (v :: vs)) := rfl

theorem mainLoop_append (fr : Rat → Txt) (src : Txt → Option Bytes) (format : String) (controls : Option Box) (b : List Txt) :
    ∀ (a : List Txt) (w : Disk) (ready : Bool), mainLoop fr src format controls w ready (a ++ b) =
      match mainLoop fr src format controls w ready a with
      | none => none
      | some (s, .error e) => some (s, .error e)
      | some ((w1, ready1), .ok vs) =>
        match mainLoop fr src format controls w1 ready1 b with
        | none => none
        | some (s, .error e) => some (s, .error e)
        | some (s, .ok us) => some (s, .ok (vs ++ us))
  | [], w, ready => by
    rw [List.nil_append]
    have h0 : mainLoop fr src format controls w ready [] = some ((w, ready), .ok []) := rfl
    rw [h0]
    dsimp only
    rcases mainLoop fr src format controls w ready b with _ | ⟨s, e | us⟩ <;> rfl
  | f :: a, w, ready => by
    rw [List.cons_append, mainLoop_cons, mainLoop_cons]
    rcases convertFile fr src format controls w ready f with _ | ⟨⟨w1, ready1⟩, e | v⟩
    · rfl
    · rfl
    · dsimp only
      rw [mainLoop_append fr src format controls b a w1 ready1]
      rcases mainLoop fr src format controls w1 ready1 a with _ | ⟨⟨w2, ready2⟩, e | vs⟩
      · rfl
      · rfl
      · dsimp only
        rcases mainLoop fr src format controls w2 ready2 b with _ | ⟨s, e | us⟩ <;> rfl

/-- **C49, work folder.** The conversion of a file creates, changes and deletes nothing outside of its work folder. -/
theorem C49_frame (fr : Rat → Txt) (src : Txt → Option Bytes) {format : String} {m : Mode} (hm : modeOf format = some m)
    (controls : Option Box) (w : Disk) (ready : Bool) (f : Txt) :
    ∃ w' ready' r, convertFile fr src format controls w ready f = some ((w', ready'), r) ∧
      ∀ q, ¬ Under (workFolder f format.toList) q → w'.read q = w.read q ∧ w'.isdir q = w.isdir q := by
  obtain ⟨w', ready', r, e, h⟩ := (convert_local hm fr src controls f ready).1 w
  exact ⟨w', ready', r, e, fun q hq => ⟨h.read q hq, h.isdir q hq⟩⟩

/-- **C49** (partial) No result is destroyed by a later file whose work folder is apart from that of the file. Missing: work folders of
different source files need not be different, see `C49_violated`. -/
theorem C49_partial (fr : Rat → Txt) (src : Txt → Option Bytes) {format : String} {m : Mode} (hm : modeOf format = some m)
    (controls : Option Box) (w : Disk) (ready : Bool) (before after : List Txt) (f : Txt)
    (hap : ∀ g ∈ after, Apart (workFolder f format.toList) (workFolder g format.toList)) :
    ∃ w1 r1 w2 r2, mainLoop fr src format controls w ready (before ++ [f]) = some (w1, r1) ∧
      mainLoop fr src format controls w ready (before ++ f :: after) = some (w2, r2) ∧
      ∀ q, Under (workFolder f format.toList) q → w2.1.read q = w1.1.read q ∧ w2.1.isdir q = w1.1.isdir q := by
  have e : before ++ f :: after = (before ++ [f]) ++ after := by simp
  rw [e, mainLoop_append fr src format controls after (before ++ [f])]
  obtain ⟨w1, ready1, r1, e1, -, -⟩ := mainLoop_frame hm fr src controls (before ++ [f]) w ready
  rw [e1]
  cases r1 with
  | error e => exact ⟨_, _, _, _, rfl, rfl, fun _ _ => ⟨rfl, rfl⟩⟩
  | ok vs =>
    dsimp only
    obtain ⟨w2, ready2, r2, e2, -, hq⟩ := mainLoop_frame hm fr src controls after w1 ready1
    rw [e2]
    have key : ∀ q, Under (workFolder f format.toList) q → w2.read q = w1.read q ∧ w2.isdir q = w1.isdir q :=
      fun q h => hq q (fun g hg => apart_under (hap g hg) h)
    cases r2 with
    | error e => exact ⟨_, _, _, _, rfl, rfl, key⟩
    | ok us => exact ⟨_, _, _, _, rfl, rfl, key⟩

/-- Paths of files `name.ext` in a directory. -/
def inDir (dir ext : Txt) (name : Txt) : Txt := dir ++ name ++ '.' :: ext

theorem apart_inDir {dir ext n n' pfx : Txt} (hdir : dir = [] ∨ dir.getLast? = some '/') (hn : '/' ∉ n ∧ ∃ c ∈ n, c ≠ '.')
    (hn' : '/' ∉ n' ∧ ∃ c ∈ n', c ≠ '.') (he : '/' ∉ ext ∧ '.' ∉ ext) (hp : '/' ∉ pfx) (hne : n ≠ n') :
    Apart (workFolder (inDir dir ext n) pfx) (workFolder (inDir dir ext n') pfx) := by
  have key : ∀ {n n' : Txt}, ('/' ∉ n ∧ ∃ c ∈ n, c ≠ '.') → ('/' ∉ n' ∧ ∃ c ∈ n', c ≠ '.') → n ≠ n' →
      ¬ Under (workFolder (inDir dir ext n) pfx) (workFolder (inDir dir ext n') pfx) := by
    intro n n' hn hn' hne h
    unfold workFolder inDir at h
    rw [splitext_parts hdir hn.1 hn.2 he, splitext_parts hdir hn'.1 hn'.2 he] at h
    rcases h with h | ⟨t, h⟩
    · exact hne (List.append_cancel_left (List.append_cancel_right (List.append_cancel_right h))).symm
    · simp only [List.append_assoc, List.append_cancel_left_eq] at h
      have h1 : '/' ∈ n' ++ (['-'] ++ pfx) := by
        rw [← h]; simp
      simp only [List.mem_append, List.mem_singleton] at h1
      rcases h1 with h1 | h1 | h1
      · exact hn'.1 h1
      · simp at h1
      · exact hp h1
  exact ⟨key hn hn' hne, key hn' hn (Ne.symm hne)⟩

theorem format_no_slash {format : String} {m : Mode} (hm : modeOf format = some m) : '/' ∉ format.toList := by
  have hx : ∀ x ∈ [("MARGO", Mode.margo), ("JSON", .json), ("JSON-B", .jsonB), ("JARGO", .jargo)], '/' ∉ x.1.toList := by decide
  exact hx _ (PyDict.mem_of_get? hm)

/-- **C49, directory.** Files of one directory with one extension, selected once each, have work folders that are pairwise different and
none of which contains another one: no result is destroyed by a later file. -/
theorem C49_directory (fr : Rat → Txt) (src : Txt → Option Bytes) {format : String} {m : Mode} (hm : modeOf format = some m)
    (controls : Option Box) (w : Disk) (ready : Bool) (dir ext : Txt) (names : List Txt) (hdir : dir = [] ∨ dir.getLast? = some '/')
    (he : '/' ∉ ext ∧ '.' ∉ ext) (hnames : ∀ n ∈ names, '/' ∉ n ∧ ∃ c ∈ n, c ≠ '.') (hnd : names.Nodup)
    (before after : List Txt) (name : Txt) (hsplit : names = before ++ name :: after) :
    ∃ w1 r1 w2 r2, mainLoop fr src format controls w ready ((before ++ [name]).map (inDir dir ext)) = some (w1, r1) ∧
      mainLoop fr src format controls w ready (names.map (inDir dir ext)) = some (w2, r2) ∧
      ∀ q, Under (workFolder (inDir dir ext name) format.toList) q → w2.1.read q = w1.1.read q := by
  subst hsplit
  rw [List.map_append, List.map_append, List.map_cons, List.map_cons, List.map_nil]
  obtain ⟨w1, r1, w2, r2, e1, e2, h⟩ := C49_partial fr src hm controls w ready (before.map (inDir dir ext)) (after.map (inDir dir ext))
    (inDir dir ext name) (by
      intro g hg
      obtain ⟨n', hn', rfl⟩ := List.mem_map.1 hg
      refine apart_inDir hdir (hnames name (by simp)) (hnames n' (by simp [hn'])) he (format_no_slash hm) ?_
      rintro rfl
      rw [List.nodup_append] at hnd
      exact (List.nodup_cons.1 hnd.2.1).1 hn')
  exact ⟨w1, r1, w2, r2, e1, e2, fun q hq => (h q hq).1⟩

/-! ### Independence -/

theorem convert_nofault {format : String} {m : Mode} (hm : modeOf format = some m) (fr : Rat → Txt) (src : Txt → Option Bytes)
    (controls : Option Box) (f : Txt) (w : Disk) (hw : ∀ i, w.fault i = false) :
    ∃ w' v, convertFile fr src format controls w false f = some ((w', false), .ok v) ∧ ∀ i, w'.fault i = false := by
  obtain ⟨w', ready', r, e, hf⟩ := (convert_local hm fr src controls f false).1 w
  have hnf : ∀ i, w'.fault i = false := by rw [hf.fault]; exact hw
  suffices h : ∃ s v, convertFile fr src format controls w false f = some ((s, false), .ok v) by
    obtain ⟨s, v, h⟩ := h
    rw [e] at h
    cases h
    exact ⟨w', v, e, hnf⟩
  obtain ⟨w1, e1, d1, f1⟩ := folder_ok w hw f format.toList
  obtain ⟨w2, e2, d2, -⟩ := logger_ok w1 f1 (Disk.join (workFolder f format.toList) (makeLogFileName f))
  unfold convertFile
  rw [e1]
  dsimp only
  rw [e2]
  dsimp only
  cases controls with
  | none => exact ⟨_, _, rfl⟩
  | some box =>
    dsimp only
    have hd : w2.isdir (workFolder f format.toList) = true := by unfold Disk.isdir; rw [d2]; exact d1
    obtain ⟨c, hc1, hc2, -⟩ := (factory_eq hm w2 (workFolder f format.toList) box).1 hd
    rw [hc1]
    dsimp only
    obtain ⟨c', w', ok, hx, -⟩ := (file_local (workFolder_ok hm f) hc2 fr (n := FILE_CHUNK_LEN) (by decide) (src f)).1 w2
    rw [hx]
    exact ⟨_, _, rfl⟩

theorem mainLoop_nofault {format : String} {m : Mode} (hm : modeOf format = some m) (fr : Rat → Txt) (src : Txt → Option Bytes)
    (controls : Option Box) : ∀ (files : List Txt) (w : Disk), (∀ i, w.fault i = false) →
    ∃ w' vs, mainLoop fr src format controls w false files = some ((w', false), .ok vs) ∧ vs.length = files.length ∧ ∀ i, w'.fault i = false
  | [], w, hw => ⟨w, [], rfl, rfl, hw⟩
  | f :: rest, w, hw => by
    obtain ⟨w1, v, e1, f1⟩ := convert_nofault hm fr src controls f w hw
    obtain ⟨w2, vs, e2, l2, f2⟩ := mainLoop_nofault hm fr src controls rest w1 f1
    refine ⟨w2, v :: vs, ?_, by simp [l2], f2⟩
    rw [mainLoop_cons, e1]
    dsimp only
    rw [e2]

/-- **C61** Without file system failures, converting a file among others gives the same verdict and exactly the same products as
converting it alone, if its work folder is apart from those of the others. -/
theorem C61_batch (fr : Rat → Txt) (src : Txt → Option Bytes) {format : String} {m : Mode} (hm : modeOf format = some m)
    (controls : Option Box) (w : Disk) (hw : ∀ i, w.fault i = false) (before after : List Txt) (f : Txt)
    (hap : ∀ g ∈ before ++ after, Apart (workFolder f format.toList) (workFolder g format.toList)) :
    ∃ w1 v w2 vs us, mainLoop fr src format controls w false [f] = some ((w1, false), .ok [v]) ∧
      mainLoop fr src format controls w false (before ++ f :: after) = some ((w2, false), .ok (vs ++ v :: us)) ∧
      vs.length = before.length ∧ us.length = after.length ∧
      ∀ q, Under (workFolder f format.toList) q → w2.read q = w1.read q ∧ w2.isdir q = w1.isdir q := by
  obtain ⟨wb, vs, eb, lb, fb⟩ := mainLoop_nofault hm fr src controls before w hw
  have hq : ∀ q, (∀ g ∈ before, ¬ Under (workFolder g format.toList) q) → wb.read q = w.read q ∧ wb.isdir q = w.isdir q := by
    obtain ⟨w', ready', r, e, -, h⟩ := mainLoop_frame hm fr src controls before w false
    rw [eb] at e
    cases e
    exact h
  have like : Like (workFolder f format.toList) wb w := by
    refine ⟨fun i => by rw [fb, hw], fun q h => ?_, fun q h => ?_⟩
    · exact (hq q (fun g hg => apart_under (hap g (List.mem_append_left _ hg)) h)).1
    · exact (hq q (fun g hg => apart_under (hap g (List.mem_append_left _ hg)) h)).2
  obtain ⟨wc, w1, ready', r, ec, e1, l1⟩ := (convert_local hm fr src controls f false).2 wb w like
  obtain ⟨wc', v, ec', fc⟩ := convert_nofault hm fr src controls f wb fb
  rw [ec] at ec'
  cases ec'
  obtain ⟨w2, us, e2, l2, -⟩ := mainLoop_nofault hm fr src controls after wc fc
  have hq2 : ∀ q, (∀ g ∈ after, ¬ Under (workFolder g format.toList) q) → w2.read q = wc.read q ∧ w2.isdir q = wc.isdir q := by
    obtain ⟨w', ready', r, e, -, h⟩ := mainLoop_frame hm fr src controls after wc false
    rw [e2] at e
    cases e
    exact h
  refine ⟨w1, v, w2, vs, us, ?_, ?_, lb, l2, fun q h => ?_⟩
  · rw [mainLoop_cons, e1]
    rfl
  · rw [mainLoop_append, eb]
    dsimp only
    rw [mainLoop_cons, ec]
    dsimp only
    rw [e2]
  · obtain ⟨a, b⟩ := hq2 q (fun g hg => apart_under (hap g (List.mem_append_right _ hg)) h)
    exact ⟨a.trans (l1.read q h), b.trans (l1.isdir q h)⟩

/-- **C61, directory.** Files of one directory with one extension are converted as if each one were converted alone. -/
theorem C61_directory (fr : Rat → Txt) (src : Txt → Option Bytes) {format : String} {m : Mode} (hm : modeOf format = some m)
    (controls : Option Box) (w : Disk) (hw : ∀ i, w.fault i = false) (dir ext : Txt) (names : List Txt)
    (hdir : dir = [] ∨ dir.getLast? = some '/') (he : '/' ∉ ext ∧ '.' ∉ ext) (hnames : ∀ n ∈ names, '/' ∉ n ∧ ∃ c ∈ n, c ≠ '.')
    (hnd : names.Nodup) :
    ∃ w2 vs, mainLoop fr src format controls w false (names.map (inDir dir ext)) = some ((w2, false), .ok vs) ∧ vs.length = names.length ∧
      ∀ (i : Nat) (name : Txt), names[i]? = some name → ∃ w1 v, vs[i]? = some v ∧
        mainLoop fr src format controls w false [inDir dir ext name] = some ((w1, false), .ok [v]) ∧
        ∀ q, Under (workFolder (inDir dir ext name) format.toList) q → w2.read q = w1.read q ∧ w2.isdir q = w1.isdir q := by
  obtain ⟨w2, vs, e2, l2, -⟩ := mainLoop_nofault hm fr src controls (names.map (inDir dir ext)) w hw
  refine ⟨w2, vs, e2, by rw [l2, List.length_map], ?_⟩
  intro i name hi
  obtain ⟨hlt, hget⟩ := List.getElem?_eq_some_iff.1 hi
  have hsplit : names = names.take i ++ name :: names.drop (i + 1) := by
    rw [← hget, List.getElem_cons_drop, List.take_append_drop]
  obtain ⟨w1, v, w2', vs1, us, e1, e3, h1, h2, h3⟩ := C61_batch fr src hm controls w hw ((names.take i).map (inDir dir ext))
    ((names.drop (i + 1)).map (inDir dir ext)) (inDir dir ext name) (by
      intro g hg
      rw [← List.map_append] at hg
      obtain ⟨n', hn', rfl⟩ := List.mem_map.1 hg
      have hmem : n' ∈ names := by
        rcases List.mem_append.1 hn' with h | h
        · exact List.mem_of_mem_take h
        · exact List.mem_of_mem_drop h
      refine apart_inDir hdir (hnames name (List.mem_of_getElem? hi)) (hnames n' hmem) he (format_no_slash hm) ?_
      rintro rfl
      rw [hsplit, List.nodup_append] at hnd
      rcases List.mem_append.1 hn' with h | h
      · exact hnd.2.2 _ h _ List.mem_cons_self rfl
      · exact (List.nodup_cons.1 hnd.2.1).1 h)
  have hm2 : (names.take i).map (inDir dir ext) ++ inDir dir ext name :: (names.drop (i + 1)).map (inDir dir ext) =
      names.map (inDir dir ext) := by
    conv_rhs => rw [hsplit]
    rw [List.map_append, List.map_cons]
  rw [hm2, e2] at e3
  cases e3
  refine ⟨w1, v, ?_, e1, h3⟩
  rw [List.length_map, List.length_take] at h1
  have : vs1.length = i := by omega
  rw [List.getElem?_append_right (by omega), this, Nat.sub_self]
  rfl

/-! ### Same work folder -/

/-- **C49, overwriting.** Two source files with the same path up to the extension have the same work folder. If it did not exist before,
then after both have been converted it holds exactly what the second one alone leaves there: every product of the first one is gone. -/
theorem C49_overwritten (fr : Rat → Txt) (src : Txt → Option Bytes) {format : String} {m : Mode} (hm : modeOf format = some m)
    (controls : Option Box) (w : Disk) (hw : ∀ i, w.fault i = false) (f g : Txt) (hst : (splitext f).1 = (splitext g).1)
    (hnew : ∀ q, Under (workFolder g format.toList) q → w.read q = none ∧ w.isdir q = false) :
    workFolder f format.toList = workFolder g format.toList ∧
    ∃ w1 v1 w2 v2, mainLoop fr src format controls w false [g] = some ((w1, false), .ok [v1]) ∧
      mainLoop fr src format controls w false [f, g] = some ((w2, false), .ok [v2, v1]) ∧
      ∀ q, Under (workFolder g format.toList) q → w2.read q = w1.read q := by
  have hfg : workFolder f format.toList = workFolder g format.toList := by unfold workFolder; rw [hst]
  refine ⟨hfg, ?_⟩
  obtain ⟨wf, v2, ef, ff⟩ := convert_nofault hm fr src controls f w hw
  obtain ⟨a, ea, fa, ha⟩ := folder_empty w hw g format.toList (.inr hnew)
  obtain ⟨b, eb, fb, hb⟩ := folder_empty wf ff g format.toList (.inl (by
    obtain ⟨w1, e1, d1, f1⟩ := folder_ok w hw f format.toList
    rw [convert_eq, e1] at ef
    dsimp only at ef
    obtain ⟨w', ready', r, e, hfr⟩ := (inFolder_local hm fr src controls f false).1 w1
    rw [e] at ef
    cases ef
    rw [← hfg]
    exact hfr.grow _ d1))
  have l : Like (workFolder g format.toList) b a :=
    ⟨fun i => by rw [fa, fb], fun q h => by rw [(ha q h).1, (hb q h).1], fun q h => by rw [(ha q h).2, (hb q h).2]⟩
  obtain ⟨w2, w1, ready', r, e2, e1, l1⟩ := (inFolder_local hm fr src controls g false).2 b a l
  obtain ⟨wg, v1, eg, -⟩ := convert_nofault hm fr src controls g w hw
  have eg' := eg
  rw [convert_eq, ea] at eg'
  dsimp only at eg'
  rw [e1] at eg'
  cases eg'
  refine ⟨w1, v1, w2, v2, ?_, ?_, l1.read⟩
  · rw [mainLoop_cons, eg]; rfl
  · rw [mainLoop_cons, ef]
    dsimp only
    rw [mainLoop_cons, convert_eq, eb]
    dsimp only
    rw [e2]
    rfl

/-- Number 1006 only. -/
def exOne : List Content := [.base (.m1006 sampleRef 65535)]

theorem exOne_ok : ∀ c ∈ exOne, c.WellFormed ∧ c.Accepted := by
  intro c hc
  exact exContents_ok c (by rcases List.mem_singleton.1 hc with rfl; simp [exContents])

/-- Product of message 1006 of the file `x.a`. -/
def exProduct : Txt := "x-JSON-B/BASE/RefPointHeight-1006.json".toList

theorem exEmpty_read (fr : Rat → Txt) (src : Txt → Option Bytes) (box : Box) (hb : src "x.b".toList = some []) (s : Disk × Bool)
    (r : Py Run.Verdict) (h : convertFile fr src "JSON-B" (some box) {} false "x.b".toList = some (s, r)) : s.1.read exProduct = none := by
  unfold convertFile at h
  rw [show createWorkFolder {} "x.b".toList "JSON-B".toList =
    ({ dirs := ["x-JSON-B".toList], calls := 1 }, some "x-JSON-B".toList) by rfl] at h
  dsimp only at h
  rw [show initLogger { dirs := ["x-JSON-B".toList], calls := 1 } false (Disk.join "x-JSON-B".toList (makeLogFileName "x.b".toList)) =
    (({ dirs := ["x-JSON-B".toList], files := [("x-JSON-B/x-log.txt".toList, logHead)], calls := 3 }, true), .ok ()) by rfl] at h
  dsimp only at h
  generalize hw : ({ dirs := ["x-JSON-B".toList], files := [("x-JSON-B/x-log.txt".toList, logHead)], calls := 3 } : Disk) = w at h
  have hd : w.isdir "x-JSON-B".toList = true := by subst hw; rfl
  obtain ⟨d, e⟩ := C17_strategy .jsonB
  have hf : factory "JSON-B" w "x-JSON-B".toList box = .ok (some { decoder := d, printer := startPrinter .jsonB "x-JSON-B".toList box }) := by
    change strategy .jsonB w _ box = _
    unfold strategy
    rw [e, strategyPrinter_eq, if_pos hd]
    rfl
  rw [hf, hb] at h
  dsimp only at h
  have hl : decodeRtcmFile fr FILE_CHUNK_LEN (some []) { decoder := d, printer := startPrinter .jsonB "x-JSON-B".toList box } w =
      some (({ decoder := d, printer := startPrinter .jsonB "x-JSON-B".toList box } : Converter).release w, true) := by
    unfold decodeRtcmFile
    dsimp only
    rw [readLoop]
    rfl
  rw [hl] at h
  dsimp only at h
  cases h
  subst hw
  rfl

/-- **C49** is violated: `x.a` and `x.b` are different source files, both are converted without errors, the product of the first one is
there when it has been converted and is gone when the second one has been converted. -/
theorem C49_violated : ∃ src : Txt → Option Bytes, ∀ (fr : Rat → Txt) (box : Box), (∀ x, IsNum (fr x)) →
    ∃ w1 w2, mainLoop fr src "JSON-B" (some box) {} false ["x.a".toList] = some ((w1, false), .ok [.finishedWithoutErrors]) ∧
      mainLoop fr src "JSON-B" (some box) {} false ["x.a".toList, "x.b".toList] =
        some ((w2, false), .ok [.finishedWithoutErrors, .finishedWithoutErrors]) ∧
      (w1.read exProduct).isSome ∧ w2.read exProduct = none := by
  refine ⟨fun f => if f = "x.a".toList then some (exOne.map Content.frame).flatten else some [], fun fr box hfr => ?_⟩
  generalize hs : (fun f => if f = "x.a".toList then some (exOne.map Content.frame).flatten else some []) = src
  have ha : src "x.a".toList = some (exOne.map Content.frame).flatten := by subst hs; exact if_pos rfl
  have hb : src "x.b".toList = some (([] : List Content).map Content.frame).flatten := by subst hs; exact if_neg (by decide)
  obtain ⟨wa, ea, ka⟩ := C52_file_partial fr hfr src box "x.a".toList {} (fun _ => rfl) exOne exOne_ok ha
  obtain ⟨wb, eb, kb⟩ := C52_file_partial fr hfr src box "x.b".toList {} (fun _ => rfl) [] (by simp) hb
  obtain ⟨-, w1, v1, w2, v2, e1, e2, hr⟩ := C49_overwritten fr src (format := "JSON-B") (m := .jsonB) rfl (some box) {} (fun _ => rfl)
    "x.a".toList "x.b".toList (by decide) (fun q _ => ⟨rfl, rfl⟩)
  rw [mainLoop_cons, eb] at e1
  cases e1
  have e3 := e2
  rw [mainLoop_cons, ea] at e3
  dsimp only at e3
  have hv : v2 = .finishedWithoutErrors := by
    generalize mainLoop fr src "JSON-B" (some box) wa false ["x.b".toList] = x at e3
    rcases x with _ | ⟨s, e | us⟩
    · cases e3
    · cases e3
    · cases e3; rfl
  subst hv
  obtain ⟨t, -, ht, -⟩ := ka 1006 ⟨_, List.mem_singleton.2 rfl, rfl⟩
  have hp : Disk.join (workFolder "x.a".toList "JSON-B".toList) (jsonFile 1006).toList = exProduct := by decide +kernel
  rw [hp] at ht
  refine ⟨wa, w2, by rw [mainLoop_cons, ea]; rfl, e2, by rw [ht]; rfl, ?_⟩
  rw [hr exProduct (.inr (by decide))]
  exact exEmpty_read fr src box hb _ _ eb

/-! ### Examples -/

/-- The hypotheses of `C49_directory` and `C61_directory` are met by two files of a directory, one name being a prefix of the other. -/
example : ("data/".toList = [] ∨ "data/".toList.getLast? = some '/') ∧ ('/' ∉ "rtcm".toList ∧ '.' ∉ "rtcm".toList) ∧
    (∀ n ∈ ["a".toList, "a.b".toList], '/' ∉ n ∧ ∃ c ∈ n, c ≠ '.') ∧ ["a".toList, "a.b".toList].Nodup ∧
    ["a".toList, "a.b".toList].map (inDir "data/".toList "rtcm".toList) = ["data/a.rtcm".toList, "data/a.b.rtcm".toList] ∧
    ["a".toList, "a.b".toList].map (fun n => workFolder (inDir "data/".toList "rtcm".toList n) "JSON".toList) =
      ["data/a-JSON".toList, "data/a.b-JSON".toList] := by
  decide

/-- The hypothesis of `C49_partial` and `C61_batch` is met by work folders of different directories, not by those of a file and a file in
its work folder. -/
example : Apart (workFolder "a/x.rtcm".toList "JSON".toList) (workFolder "b/x.rtcm".toList "JSON".toList) ∧
    ¬ Apart (workFolder "a.rtcm".toList "JSON".toList) (workFolder "a-JSON/x.rtcm".toList "JSON".toList) := by
  refine ⟨⟨?_, ?_⟩, fun h => h.1 ?_⟩ <;> unfold Under <;> decide

end Verif
