import Verif.Lemmas.IniMerge

/-!
# C71: configuration files mean what their text says
-/

namespace Verif
open Ctl Spec Run Conv

/-- **C71, format.** A configuration file in the documented format is read as exactly the sections and options that it lists, whatever the
delimiters, the white space, the comments, the empty lines, the letter case of the names of options, and the ends of lines are. -/
theorem C71_format {d : Document} (h : d.OK) {eol : Txt} (he : LineEnd eol) : iniFile (some (d.text eol)) = .parsed d.contents := by
  unfold iniFile
  dsimp only
  rw [readText_document h he]

/-- A document with all kinds of lines: comments, an empty value, a value of two lines, names in capitals, both delimiters. -/
def Ctl.sampleDoc : Document where
  blocks := [
    { before := [.blank [], .comment [] '#' "first".toList], name := "TIME".toList, trail := " ".toList,
      entries := [{ name := "GPS2UTC".toList, delim := ':', value := "18".toList, trail := " ".toList }] },
    { name := "A [b]".toList,
      entries := [{ name := "Two words".toList, sp1 := [], sp2 := [], value := [] },
        { before := [.comment "  ".toList ';' " c".toList], name := "x".toList, value := "a=b".toList,
          more := [{ indent := "\t".toList, text := "[c]".toList }] }] },
    { name := "DEFAULT".toList, entries := [{ name := "Y".toList, value := "%(x)s".toList }] }]
  after := [.blank "  ".toList]

instance (c : Char) : Decidable (WhiteSpace c) := by unfold WhiteSpace; infer_instance
instance (t : Txt) : Decidable (Inline t) := by unfold Inline; infer_instance
instance (t : Txt) : Decidable (Blanks t) := by unfold Blanks; infer_instance
instance (t : Txt) : Decidable (Trimmed t) := by unfold Trimmed; infer_instance
instance (c : Char) : Decidable (CommentMark c) := by unfold CommentMark; infer_instance
instance (c : Char) : Decidable (Delimiter c) := by unfold Delimiter; infer_instance
instance (f : Filler) : Decidable f.OK := by cases f <;> (unfold Filler.OK; infer_instance)

theorem moreOK_iff (m : MoreLine) : m.OK ↔ (Blanks m.indent ∧ m.indent ≠ []) ∧
    (Inline m.text ∧ Trimmed m.text ∧ m.text ≠ [] ∧ ∀ c ∈ m.text.head?, ¬ CommentMark c) ∧ Blanks m.trail :=
  ⟨fun h => ⟨h.1, h.2, h.3⟩, fun h => ⟨h.1, h.2.1, h.2.2⟩⟩
instance (m : MoreLine) : Decidable m.OK := decidable_of_iff' _ (moreOK_iff m)

theorem entryOK_iff (e : Entry) : e.OK ↔ (∀ f ∈ e.before, f.OK) ∧ (Inline e.name ∧ Trimmed e.name ∧ e.name ≠ []) ∧
    (∀ c ∈ e.name.head?, ¬ CommentMark c ∧ c ≠ '[') ∧ (∀ c ∈ e.name, ¬ Delimiter c) ∧
    (Blanks e.sp1 ∧ Blanks e.sp2 ∧ Blanks e.trail) ∧ Delimiter e.delim ∧ (Inline e.value ∧ Trimmed e.value) ∧ ∀ m ∈ e.more, m.OK :=
  ⟨fun h => ⟨h.1, h.2, h.3, h.4, h.5, h.6, h.7, h.8⟩,
    fun ⟨a, b, c, d, e, f, g, h⟩ => ⟨a, b, c, d, e, f, g, h⟩⟩
instance (e : Entry) : Decidable e.OK := decidable_of_iff' _ (entryOK_iff e)

theorem blockOK_iff (b : Block) : b.OK ↔ (∀ f ∈ b.before, f.OK) ∧ (Inline b.name ∧ b.name ≠ []) ∧ Blanks b.trail ∧ (∀ e ∈ b.entries, e.OK) ∧
    (b.entries.map Entry.key).Nodup := ⟨fun h => ⟨h.1, h.2, h.3, h.4, h.5⟩, fun ⟨a, b, c, d, e⟩ => ⟨a, b, c, d, e⟩⟩
instance (b : Block) : Decidable b.OK := decidable_of_iff' _ (blockOK_iff b)

theorem documentOK_iff (d : Document) : d.OK ↔ (∀ b ∈ d.blocks, b.OK) ∧ (∀ f ∈ d.after, f.OK) ∧ (d.blocks.map Block.name).Nodup :=
  ⟨fun h => ⟨h.1, h.2, h.3⟩, fun ⟨a, b, c⟩ => ⟨a, b, c⟩⟩
instance (d : Document) : Decidable d.OK := decidable_of_iff' _ (documentOK_iff d)

/-- `C71_format` applies to the sample. -/
example : sampleDoc.OK := by decide +kernel

example : sampleDoc.contents = { sects := [("TIME".toList, [("gps2utc".toList, "18".toList)]),
    ("A [b]".toList, [("two words".toList, []), ("x".toList, "a=b\n[c]".toList)])], defaults := [("y".toList, "%(x)s".toList)] } := by
  decide +kernel

/-- **C71, adding a file.** Reading a file into a parser that has contents is reading the file on its own and then adding what it says;
this holds for every text, also for one with errors. -/
theorem C71_merge {a : Ini} (ha : Proper a) (f : Option Txt) :
    a.read (iniFile f) = match f with
      | none => (a, .ok ())
      | some t => a.readText t := by
  cases f with
  | none => rfl
  | some t =>
    have h := readText_merge ha t
    dsimp only
    rw [h]
    unfold iniFile
    dsimp only
    cases hr : (({} : Ini).readText t) with
    | mk b e =>
      cases e with
      | ok u => rfl
      | error e =>
        have he : e = .configError := by
          have := congrArg Prod.snd hr
          unfold Ini.readText at this
          dsimp only at this
          split at this
          · cases this; rfl
          · exact absurd this (by simp)
        subst he
        rfl

/-- **C71, names.** Whatever the text is, the contents have unique names, options in lower case, and no section `DEFAULT`. -/
theorem C71_names {a : Ini} (ha : Proper a) (t : Txt) : Proper (a.readText t).1 ∧ Proper ({} : Ini) := by
  refine ⟨readText_proper ha t, ⟨?_, ?_, ?_⟩, ⟨?_, ?_⟩, ?_⟩ <;> simp

/-- Names are unique and in lower case. -/
example : Proper (({} : Ini).readText "[A]\nX=1\nY=2\n[A]\n".toList).1 ∧
    (({} : Ini).readText "[A]\nX=1\nY=2\n[A]\n".toList).1.sects = [("A".toList, [("x".toList, "1".toList), ("y".toList, "2".toList)])] ∧
    (({} : Ini).readText "[A]\nX=1\nY=2\n[A]\n".toList).2 = .error .configError :=
  ⟨(C71_names (C71_names (a := {}) ⟨⟨by simp, by simp, by simp⟩, ⟨by simp, by simp⟩, by simp⟩ []).2 _).1, by decide +kernel, by decide +kernel⟩

theorem empty_proper : Proper ({} : Ini) := ⟨⟨by simp, by simp, by simp⟩, ⟨by simp, by simp⟩, by simp⟩

/-- **C71, overriding.** After a document has been read, an option has the value that the document gives, and otherwise the value that it
had before. -/
theorem C71_override {a : Ini} (ha : Proper a) {d : Document} (h : d.OK) {eol : Txt} (he : LineEnd eol) (s o : Txt) :
    (a.readText (d.text eol)).2 = .ok () ∧
    ((a.readText (d.text eol)).1.sects.get? s).bind (fun x => x.get? o) =
      ((d.contents.sects.get? s).bind (fun x => x.get? o)).or ((a.sects.get? s).bind (fun x => x.get? o)) ∧
    (a.readText (d.text eol)).1.defaults.get? o = (d.contents.defaults.get? o).or (a.defaults.get? o) := by
  have hm := readText_merge ha (d.text eol)
  rw [readText_document h he] at hm
  have hp : Proper d.contents := by
    have := readText_proper empty_proper (d.text eol)
    rw [readText_document h he] at this
    exact this
  rw [hm]
  exact ⟨rfl, C47_merge a d.contents hp.1 s o⟩

/-! ### Updates are never ignored -/

theorem literalLoop_bits {ini : Ini} : ∀ (ks : List Txt) (mask : Nat) (lt : PyDict Nat Int) {mask' : Nat} {lt' : PyDict Nat Int},
    literalLoop ini ks mask lt = .ok (mask', lt') → (∀ i, mask.testBit i = true → mask'.testBit i = true) ∧
      ∀ k ∈ ks, ∀ sat : Nat, LiteralKey k sat → 1 ≤ sat ∧ sat ≤ 24 → mask'.testBit (sat - 1) = true
  | [], mask, lt, mask', lt', h => by
    rw [literalLoop] at h
    cases h
    exact ⟨fun _ h => h, by simp⟩
  | k :: ks, mask, lt, mask', lt', h => by
    rw [literalLoop] at h
    cases hp : pyInt (stripR k) with
    | none => rw [hp] at h; exact absurd h (by simp)
    | some sat =>
      rw [hp] at h
      dsimp only at h
      have huniq : ∀ sat' : Nat, LiteralKey k sat' → (sat' : Int) = sat := by
        intro sat' hk
        have := (literalKey_iff k sat').2 hk
        rw [hp] at this
        exact (Option.some.inj this).symm
      by_cases hr : 0 < sat ∧ sat ≤ 24
      · rw [if_pos hr] at h
        cases hg : ini.getInt "LITERALS".toList k with
        | error e => rw [hg] at h; exact absurd h (by simp)
        | ok v =>
          cases v with
          | none => rw [hg] at h; exact absurd h (by simp)
          | some v =>
            rw [hg] at h
            dsimp only at h
            obtain ⟨h1, h2⟩ := literalLoop_bits ks _ _ h
            refine ⟨fun i hi => h1 i (by rw [Nat.testBit_or, hi, Bool.true_or]), ?_⟩
            intro k' hk' sat' hs hr'
            rcases List.mem_cons.1 hk' with rfl | hk'
            · refine h1 _ ?_
              have e2 : sat.toNat = sat' := by have := huniq sat' hs; omega
              rw [e2, Nat.testBit_or, Nat.testBit_shiftLeft]
              simp
            · exact h2 k' hk' sat' hs hr'
      · rw [if_neg hr] at h
        obtain ⟨h1, h2⟩ := literalLoop_bits ks _ _ h
        refine ⟨h1, ?_⟩
        intro k' hk' sat' hs hr'
        rcases List.mem_cons.1 hk' with rfl | hk'
        · have := huniq sat' hs
          omega
        · exact h2 k' hk' sat' hs hr'

theorem get_not_none {ini : Ini} {s o o' : String} (h : o.toList.map Char.toLower = o'.toList) (hp : optionText ini s o' ≠ none) :
    ini.get s.toList o.toList ≠ .ok none := by
  unfold Ini.get
  rw [raw_lower, h, String.ofList_toList]
  cases ht : optionText ini s o' with
  | none => exact absurd ht hp
  | some t =>
    dsimp only
    intro hc
    obtain ⟨x, _, hx⟩ := bind_ok hc
    exact absurd hx (by simp)

theorem getInt_not_none {ini : Ini} {s o : Txt} (h : ini.get s o ≠ .ok none) : ini.getInt s o ≠ .ok none := by
  unfold Ini.getInt
  cases hg : ini.get s o with
  | error e => simp
  | ok x =>
    cases x with
    | none => exact absurd hg h
    | some t =>
      dsimp only
      split <;> simp

theorem getBoolean_not_none {ini : Ini} {s o : Txt} (h : ini.get s o ≠ .ok none) : ini.getBoolean s o ≠ .ok none := by
  unfold Ini.getBoolean
  cases hg : ini.get s o with
  | error e => simp
  | ok x =>
    cases x with
    | none => exact absurd hg h
    | some t =>
      dsimp only
      split <;> simp

/-- Everything that the MARGO controls need is mentioned, be it readable or not. -/
structure MargoNamed (ini : Ini) : Prop where
  sections : Section ini "LITERALS" ∧ Section ini "TIME" ∧ Section ini "MARGO"
  shift : optionText ini "TIME" "gps2utc" ≠ none
  hca : optionText ini "MARGO" "hca" ≠ none
  lock : optionText ini "MARGO" "lock_time" ≠ none
  literals : ∀ sat : Nat, 1 ≤ sat ∧ sat ≤ 24 → ∃ key, LiteralKey key.toList sat ∧ optionText ini "LITERALS" key ≠ none

structure JsonNamed (ini : Ini) : Prop where
  sections : Section ini "JSON"
  hdr : optionText ini "JSON" "enable_hdr_data" ≠ none
  aux : optionText ini "JSON" "enable_aux_data" ≠ none
  pretty : optionText ini "JSON" "enable_pretty_view" ≠ none

theorem value_named {ini : Ini} {s o : String} {t : Txt} (h : OptionValue ini s o t) : optionText ini s o ≠ none := by
  obtain ⟨r, hr, _⟩ := h
  rw [hr]
  simp

theorem margo_named {ini : Ini} {c : Margo.Controls} (h : MargoValid ini c) : MargoNamed ini := by
  refine ⟨h.sections, ?_, ?_, ?_, ?_⟩
  · obtain ⟨t, ht, _⟩ := h.shift; exact value_named ht
  · obtain ⟨t, ht, _⟩ := h.hca; exact value_named ht
  · obtain ⟨t, ht, _⟩ := h.lock; exact value_named ht
  · intro sat hs
    obtain ⟨v, _, key, t, hk, ht, _⟩ := h.literals sat hs
    exact ⟨key, hk, value_named ht⟩

theorem json_named {ini : Ini} {c : Json.Controls} (h : JsonValid ini c) : JsonNamed ini := by
  refine ⟨h.sections, ?_, ?_, ?_⟩
  · obtain ⟨t, ht, _⟩ := h.hdr; exact value_named ht
  · obtain ⟨t, ht, _⟩ := h.aux; exact value_named ht
  · obtain ⟨t, ht, _⟩ := h.pretty; exact value_named ht

theorem makeMargo_not_none {order : List Txt → List Txt} {ini : Ini} (ho : ∀ l x, x ∈ order l ↔ x ∈ l) (h : MargoNamed ini) :
    makeMargo order true ini ≠ .ok none := by
  intro hc
  have hs1 := (hasSection_iff ini "LITERALS").2 h.sections.1
  have hs2 := (hasSection_iff ini "TIME").2 h.sections.2.1
  have hs3 := (hasSection_iff ini "MARGO").2 h.sections.2.2
  unfold makeMargo at hc
  rw [hs1, hs2, hs3] at hc
  simp only [Bool.not_true, Bool.false_eq_true, if_false] at hc
  obtain ⟨⟨mask, lt⟩, hl, hc⟩ := bind_ok hc
  dsimp only at hc
  obtain ⟨-, hb⟩ := literalLoop_bits _ _ _ hl
  have hinv := literalLoop_inv (litInv_init ini) hl
  have hmask : mask = 0xFFFFFF := mask_full (by
    intro i
    constructor
    · intro hi
      rw [hinv.bits, Option.isSome_iff_exists] at hi
      obtain ⟨v, hv⟩ := hi
      have := (hinv.from_ _ _ hv).2.1
      omega
    · intro hi
      obtain ⟨key, hk, ht⟩ := h.literals (i + 1) (by omega)
      obtain ⟨t, ht⟩ := Option.ne_none_iff_exists'.1 ht
      have hmem : key.toList ∈ (ini.options "LITERALS".toList).keys := by
        refine mem_keys_of_get (v := t) ?_
        rw [options_text, String.ofList_toList, ht]
      exact hb _ ((ho _ _).2 hmem) (i + 1) hk (by omega))
  rw [if_pos hmask] at hc
  obtain ⟨shift, h1, hc⟩ := bind_ok hc
  cases shift with
  | none => exact getInt_not_none (get_not_none (by decide) h.shift) h1
  | some shift =>
  dsimp only at hc
  obtain ⟨hca, h2, hc⟩ := bind_ok hc
  cases hca with
  | none => exact getBoolean_not_none (get_not_none (by decide) h.hca) h2
  | some hca =>
  dsimp only at hc
  obtain ⟨lock, h3, hc⟩ := bind_ok hc
  cases lock with
  | none => exact getBoolean_not_none (get_not_none (by decide) h.lock) h3
  | some lock => exact absurd hc (by simp)

theorem makeJson_not_none {ini : Ini} (h : JsonNamed ini) : makeJson true ini ≠ .ok none := by
  intro hc
  have hs := (hasSection_iff ini "JSON").2 h.sections
  unfold makeJson at hc
  rw [hs] at hc
  simp only [Bool.not_true, Bool.false_eq_true, if_false] at hc
  obtain ⟨hdr, h1, hc⟩ := bind_ok hc
  cases hdr with
  | none => exact getBoolean_not_none (get_not_none (by decide) h.hdr) h1
  | some hdr =>
  dsimp only at hc
  obtain ⟨aux, h2, hc⟩ := bind_ok hc
  cases aux with
  | none => exact getBoolean_not_none (get_not_none (by decide) h.aux) h2
  | some aux =>
  dsimp only at hc
  obtain ⟨pretty, h3, hc⟩ := bind_ok hc
  cases pretty with
  | none => exact getBoolean_not_none (get_not_none (by decide) h.pretty) h3
  | some pretty => exact absurd hc (by simp)

theorem section_iff (ini : Ini) (s : String) : Section ini s ↔ s.toList ∈ ini.sects.keys := by
  rw [← hasSection_iff]
  exact PyDict.mem_keys

theorem section_merge {a b : Ini} (hb : Proper b) {s : String} (h : Section a s) : Section (a.merge b) s := by
  rw [section_iff] at h ⊢
  rw [merge_eq _ _ hb.1.1]
  unfold mergeS
  rw [PyDict.mem_keys_update]
  exact .inl h

theorem option_merge {a b : Ini} (hb : Proper b) {s o : String} (h : optionText a s o ≠ none) : optionText (a.merge b) s o ≠ none := by
  obtain ⟨h1, h2⟩ := C47_merge a b hb.1 s.toList o.toList
  unfold PyDict.get? at h1 h2
  unfold optionText at h ⊢
  have e1 : ((List.lookup s.toList (a.merge b).sects).bind (List.lookup o.toList)) =
      ((List.lookup s.toList b.sects).bind (List.lookup o.toList)).or ((List.lookup s.toList a.sects).bind (List.lookup o.toList)) := h1
  rw [e1, h2]
  rw [Option.ne_none_iff_exists'] at h ⊢
  obtain ⟨t, ht⟩ := h
  generalize (List.lookup s.toList b.sects).bind (List.lookup o.toList) = w at *
  generalize (List.lookup s.toList a.sects).bind (List.lookup o.toList) = x at *
  generalize List.lookup o.toList b.defaults = y at *
  generalize List.lookup o.toList a.defaults = z at *
  cases w <;> cases x <;> cases y <;> cases z <;> simp_all

theorem margo_named_merge {a b : Ini} (hb : Proper b) (h : MargoNamed a) : MargoNamed (a.merge b) :=
  ⟨⟨section_merge hb h.sections.1, section_merge hb h.sections.2.1, section_merge hb h.sections.2.2⟩, option_merge hb h.shift,
    option_merge hb h.hca, option_merge hb h.lock, fun sat hs => by
      obtain ⟨key, hk, ht⟩ := h.literals sat hs
      exact ⟨key, hk, option_merge hb ht⟩⟩

theorem json_named_merge {a b : Ini} (hb : Proper b) (h : JsonNamed a) : JsonNamed (a.merge b) :=
  ⟨section_merge hb h.sections, option_merge hb h.hdr, option_merge hb h.aux, option_merge hb h.pretty⟩

/-- What an initialisation leaves behind if both groups are available. -/
theorem init_boxed {order : List Txt → List Txt} {f : IniFile} {b : Box} (h : (({} : Manager).initFromFile order f).1.boxed = some b) :
    (({} : Manager).initFromFile order f).2 = .ok () ∧ (({} : Manager).initFromFile order f).1 =
      { margo := b.margo, json := b.json, ini := (({} : Ini).read f).1, iniOk := true, margoOk := true, jsonOk := true } ∧
    MargoValid (({} : Ini).read f).1 b.margo ∧ JsonValid (({} : Ini).read f).1 b.json := by
  unfold Manager.initFromFile at h ⊢
  cases hr : ({} : Manager).readIni f with
  | mk m r =>
  rw [hr] at h
  have hm : m = { ini := (({} : Ini).read f).1 } := by
    unfold Manager.readIni at hr
    dsimp only at hr
    split at hr <;> exact (congrArg Prod.fst hr).symm
  subst hm
  cases r with
  | error e => simp [Manager.boxed] at h
  | ok ok =>
    dsimp only at h ⊢
    split at h
    swap
    · simp [Manager.boxed] at h
    next hok =>
    rw [if_pos hok]
    subst hok
    rcases makeMARGO_cases order { ini := (({} : Ini).read f).1, iniOk := true } with ⟨e, he⟩ | he | ⟨c, he, hv⟩
    · rw [he] at h; simp [Manager.boxed] at h
    · rw [he] at h
      dsimp only at h
      rcases makeJSON_cases { ini := (({} : Ini).read f).1, iniOk := true } with ⟨e, he⟩ | he | ⟨c, he, hv⟩ <;> rw [he] at h <;>
        simp [Manager.boxed] at h
    · rw [he] at h ⊢
      dsimp only at h ⊢
      rcases makeJSON_cases { ini := (({} : Ini).read f).1, iniOk := true, margoOk := true, margo := c } with
        ⟨e, he⟩ | he | ⟨c', he, hv'⟩
      · rw [he] at h; simp [Manager.boxed] at h
      · rw [he] at h; simp [Manager.boxed] at h
      · rw [he] at h ⊢
        simp only [Manager.boxed, Bool.and_self, if_true, Option.some.injEq] at h
        subst h
        exact ⟨rfl, rfl, hv, hv'⟩

/-- The contents of the configuration after both files; `none` is a file that cannot be opened. -/
def Spec.configuration (dflt : Txt) (extra : Option Txt) : Ini :=
  match extra with
  | none => (({} : Ini).readText dflt).1
  | some t => ((({} : Ini).readText dflt).1.readText t).1

theorem read_default (t : Txt) : (({} : Ini).read (iniFile (some t))) = ({} : Ini).readText t := C71_merge empty_proper (some t)

/-- **C71, updates are never ignored.** Let the file of defaults define the controls completely. Whatever the text of the second file is,
the program ends with an exception before it touches anything, or it runs with controls that are defined completely by the configuration
after both files. -/
theorem C71_main (fr : Rat → Txt) (sh : Shell) (src : Txt → Option Bytes) {o1 o2 : List Txt → List Txt} (dflt : Txt) (extra : Option Txt)
    (format : String) (args : List Txt) (ext : Txt) (w : Disk) (ready : Bool) (ho : ∀ l x, x ∈ o2 l ↔ x ∈ l)
    (hb : (({} : Manager).initFromFile o1 (iniFile (some dflt))).1.boxed ≠ none) :
    (∃ e, mainText fr sh src o1 o2 (some dflt) (some extra) format args ext w ready = some ((w, ready), .error e)) ∨
    ∃ b : Box, MargoValid (configuration dflt extra) b.margo ∧ JsonValid (configuration dflt extra) b.json ∧
      mainText fr sh src o1 o2 (some dflt) (some extra) format args ext w ready =
        mainLoop fr src format (some b) w ready (makeListOfSourceFiles sh args ext) := by
  obtain ⟨b0, hb⟩ := Option.ne_none_iff_exists'.1 hb
  obtain ⟨i1, i2, i3, i4⟩ := init_boxed hb
  rw [read_default] at i2 i3 i4
  have hp := readText_proper empty_proper dflt
  generalize hm : (({} : Ini).readText dflt).1 = a at i2 i3 i4 hp
  have hread := C71_merge hp extra
  -- the second file
  have hconf : configuration dflt extra = (a.read (iniFile extra)).1 := by
    unfold configuration
    rw [hread, hm]
    cases extra <;> rfl
  have hnamed : MargoNamed (a.read (iniFile extra)).1 ∧ JsonNamed (a.read (iniFile extra)).1 := by
    cases extra with
    | none => exact ⟨margo_named i3, json_named i4⟩
    | some t =>
      rw [hread]
      dsimp only
      rw [readText_merge hp t]
      have hq := readText_proper empty_proper t
      exact ⟨margo_named_merge hq (margo_named i3), json_named_merge hq (json_named i4)⟩
  have hmain : mainText fr sh src o1 o2 (some dflt) (some extra) format args ext w ready =
      match ({ margo := b0.margo, json := b0.json, ini := a, iniOk := true, margoOk := true, jsonOk := true } : Manager).updateFromFile o2
        (iniFile extra) with
      | (_, .error e) => some ((w, ready), .error e)
      | (m, .ok ()) => mainLoop fr src format m.boxed w ready (makeListOfSourceFiles sh args ext) := by
    unfold mainText Ctl.main
    have hpair : ({} : Manager).initFromFile o1 (iniFile (some dflt)) =
        ({ margo := b0.margo, json := b0.json, ini := a, iniOk := true, margoOk := true, jsonOk := true }, .ok ()) :=
      Prod.ext i2 i1
    rw [hpair]
    rfl
  rw [hmain, hconf]
  generalize iniFile extra = f at hnamed
  unfold Manager.updateFromFile Manager.readIni
  dsimp only
  rw [if_neg (by simp)]
  cases hr : (a.read f).2 with
  | error e => exact .inl ⟨e, rfl⟩
  | ok u =>
    dsimp only
    have hlen : ((a.read f).1.sects.length != 0) = true := by
      obtain ⟨opts, hmem⟩ := hnamed.2.sections
      have := List.length_pos_of_mem hmem
      simp
      intro hz
      rw [hz] at this
      simp at this
    rw [hlen]
    dsimp only
    rw [if_pos rfl]
    unfold Manager.makeMARGO
    dsimp only
    cases hmk : makeMargo o2 true (a.read f).1 with
    | error e => exact .inl ⟨e, rfl⟩
    | ok c =>
      cases c with
      | none => exact absurd hmk (makeMargo_not_none ho hnamed.1)
      | some c =>
        dsimp only
        rw [if_pos rfl]
        unfold Manager.makeJSON
        dsimp only
        cases hjs : makeJson true (a.read f).1 with
        | error e => exact .inl ⟨e, rfl⟩
        | ok j =>
          cases j with
          | none => exact absurd hjs (makeJson_not_none hnamed.2)
          | some j =>
            refine .inr ⟨⟨c, j⟩, (makeMargo_valid hmk).2, (makeJson_valid hjs).2, ?_⟩
            dsimp only
            rfl

/-! ### The files of the repository -/

/-- The text of defaults.ini, line by line. -/
def Ctl.defaultsText : Txt := [
    "",
    "#Do not put [DEFAULT] section",
    "",
    "[MARGO]",
    "# Enable half cycle ambiguiti in phase measurements.",
    "# If true an additional file would be generated to provide",
    "# information about ambiguity status of phase measurements.",
    "HCA = false",
    "# Enable/disable generation of additional file",
    "# with 'phase lock time' values  ",
    "LOCK_TIME = false",
    "",
    "[JSON]",
    "# When 'true' nested data structures will be indented with new lines,",
    "# tabs and spaces. That improves readability but spreads files a lot.",
    "# When 'false' all spaces will be delated from JSON lines.  ",
    "ENABLE_PRETTY_VIEW = true",
    "",
    "# When 'true' MSM header data will be added to output",
    "ENABLE_HDR_DATA = true",
    "",
    "# When 'true' some service data (not critical) will be added to output. ",
    "ENABLE_AUX_DATA = true",
    "",
    "",
    "[TIME]",
    "GPS2UTC : 18",
    "",
    "[LITERALS]",
    "R1  : 1",
    "R2  : -4",
    "R3  : 5",
    "R4  : 6",
    "R5  : 1",
    "R6  : -4",
    "R7  : 5",
    "R8  : 6",
    "R9  : -2",
    "R10 : -7",
    "R11 : 0",
    "R12 : -1",
    "R13 : -2",
    "R14 : -7",
    "R15 : 0",
    "R16 : -1",
    "R17 : 4",
    "R18 : -3",
    "R19 : 3",
    "R20 : 2",
    "R21 : 4",
    "R22 : -3",
    "R23 : 3",
    "R24 : 2 ",
    ""].flatMap (fun l : String => l.toList ++ ['\n'])

/-- The text of addons.ini, line by line. -/
def Ctl.addonsText : Txt := [
    "",
    "",
    "[MARGO]",
    "# Enable half cycle ambiguiti in phase measurements.",
    "# If true an additional file would be generated to provide",
    "# information about ambiguity status of phase measurements.",
    "HCA = true",
    "# Enable/disable generation of additional file",
    "# with 'phase lock time' values  ",
    "LOCK_TIME = true",
    "",
    "",
    "[JSON]",
    "# When 'true' nested data structures will be indented with new lines,",
    "# tabs and spaces. That improves readability but spreads files a lot.",
    "# When 'false' all spaces will be delated from JSON lines.  ",
    "ENABLE_PRETTY_VIEW = false",
    "",
    "# When 'true' MSM header data will be added to output",
    "ENABLE_HDR_DATA = false",
    "",
    "# When 'true' some service data (not critical) will be added to output. ",
    "ENABLE_AUX_DATA = false"].flatMap (fun l : String => l.toList ++ ['\n'])

theorem defaults_text : iniFile (some defaultsText) = .parsed defaultsIni := by decide +kernel

theorem addons_text : iniFile (some addonsText) = .parsed addonsIni := by decide +kernel

theorem expands_same {look : Txt → Option Txt} {d : Nat} {t r : Txt} (h : '%' ∉ t) (he : Expands look d t r) : r = t := by
  induction he with
  | nil => rfl
  | char _ _ ih => rw [List.mem_cons, not_or] at h; rw [ih h.2]
  | percent _ _ => simp at h
  | plain _ _ _ _ _ _ => simp at h
  | nested _ _ _ _ _ _ _ _ => simp at h

theorem defaults_init {order : List Txt → List Txt} (ho : ∀ l x, x ∈ order l ↔ x ∈ l) :
    ∃ c, makeMargo order true defaultsIni = .ok (some c) ∧ c.gps_utc_shift = 18 ∧ c.half_cycle_enable = false ∧
      c.lock_time_enable = false := by
  refine makeMargo_total ho defaults_readable.2 ?_ ?_ ?_ ?_ defaults_readable.1
  · exact ⟨(section_iff _ _).2 (by decide +kernel), (section_iff _ _).2 (by decide +kernel), (section_iff _ _).2 (by decide +kernel)⟩
  · exact ⟨"18".toList, ⟨"18".toList, by decide +kernel, expands_plain (by decide)⟩, (pyInt_iff _ _).1 (by decide +kernel)⟩
  · exact ⟨"false".toList, ⟨"false".toList, by decide +kernel, expands_plain (by decide)⟩, by unfold BoolText; decide +kernel⟩
  · exact ⟨"false".toList, ⟨"false".toList, by decide +kernel, expands_plain (by decide)⟩, by unfold BoolText; decide +kernel⟩

theorem defaults_json : makeJson true defaultsIni =
    .ok (some { enable_hdr_data := true, enable_aux_data := true, enable_pretty_view := true }) := by decide +kernel

theorem defaults_literals {c : Margo.Controls} (h : MargoValid defaultsIni c) (sat : Nat) :
    List.lookup sat c.glo_lit_tab = List.lookup sat defaultLiterals := by
  have hall : ∀ o ∈ (defaultsIni.sects.get? "LITERALS".toList).getD [], ('%' ∉ o.2) ∧
      (pyInt (stripR o.1)).bind (fun n => List.lookup n.toNat defaultLiterals) = pyInt o.2 := by decide +kernel
  have hkeys : ∀ o ∈ defaultLiterals, 1 ≤ o.1 ∧ o.1 ≤ 24 := by decide +kernel
  by_cases hs : 1 ≤ sat ∧ sat ≤ 24
  · obtain ⟨v, hv, key, t, hk, ⟨r, hr, he⟩, ht⟩ := h.literals sat hs
    have ho : optionText defaultsIni "LITERALS" key = ((defaultsIni.sects.get? "LITERALS".toList).getD []).get? key.toList := Option.or_none
    rw [ho] at hr
    obtain ⟨h1, h2⟩ := hall _ (PyDict.mem_of_get? hr)
    dsimp only at h1 h2
    rw [expands_same h1 he] at ht
    rw [(literalKey_iff _ _).2 hk, (pyInt_iff _ _).2 ht] at h2
    rw [hv]
    exact h2.symm
  · have e1 : List.lookup sat c.glo_lit_tab = none := by
      cases hl : List.lookup sat c.glo_lit_tab with
      | none => rfl
      | some v => exact absurd (h.others sat v hl) hs
    have e2 : List.lookup sat defaultLiterals = none := by
      cases hl : List.lookup sat defaultLiterals with
      | none => rfl
      | some v => exact absurd (hkeys _ (PyDict.mem_of_get? (d := defaultLiterals) hl)) hs
    rw [e1, e2]

/-- **C71, defaults.ini.** The file of defaults gives complete controls: 18 seconds, no additional MARGO files, JSON with all data in the
pretty view, and the channels of defaults.ini. The enumeration order of the set of keys is arbitrary. -/
theorem C71_defaults {order : List Txt → List Txt} (ho : ∀ l x, x ∈ order l ↔ x ∈ l) :
    (({} : Manager).initFromFile order (iniFile (some defaultsText))).2 = .ok () ∧
    ∃ c, (({} : Manager).initFromFile order (iniFile (some defaultsText))).1.boxed =
        some ⟨c, { enable_hdr_data := true, enable_aux_data := true, enable_pretty_view := true }⟩ ∧
      c.half_cycle_enable = false ∧ c.lock_time_enable = false ∧ c.gps_utc_shift = 18 ∧
      ∀ sat : Nat, List.lookup sat c.glo_lit_tab = List.lookup sat defaultLiterals := by
  obtain ⟨c, hc, h1, h2, h3⟩ := defaults_init ho
  have hl := fun sat => defaults_literals (makeMargo_valid hc).2 sat
  have hm : ({} : Ini).merge defaultsIni = defaultsIni := by decide +kernel
  have hr : ({} : Manager).readIni (.parsed defaultsIni) = ({ ini := defaultsIni }, .ok true) := by
    have : ({} : Manager).readIni (.parsed defaultsIni) =
      ({ ini := ({} : Ini).merge defaultsIni }, .ok ((({} : Ini).merge defaultsIni).sects.length != 0)) := rfl
    rw [this, hm]
    have : (defaultsIni.sects.length != 0) = true := by decide +kernel
    rw [this]
  have hi : ({} : Manager).initFromFile order (iniFile (some defaultsText)) =
      ({ ini := defaultsIni, iniOk := true, margoOk := true, margo := c, jsonOk := true,
         json := { enable_hdr_data := true, enable_aux_data := true, enable_pretty_view := true } }, .ok ()) := by
    rw [defaults_text]
    unfold Manager.initFromFile
    rw [hr]
    dsimp only
    rw [if_pos rfl]
    unfold Manager.makeMARGO
    dsimp only
    rw [hc]
    dsimp only
    unfold Manager.makeJSON
    dsimp only
    rw [defaults_json]
  rw [hi]
  exact ⟨rfl, c, rfl, h2, h3, h1, hl⟩

/-- **C71, shipped defaults.** With the defaults.ini of the repository, every second file either ends the program with an exception before
anything is touched, or takes effect completely. -/
theorem C71_shipped (fr : Rat → Txt) (sh : Shell) (src : Txt → Option Bytes) {o1 o2 : List Txt → List Txt} (extra : Option Txt)
    (format : String) (args : List Txt) (ext : Txt) (w : Disk) (ready : Bool) (h1 : ∀ l x, x ∈ o1 l ↔ x ∈ l) (h2 : ∀ l x, x ∈ o2 l ↔ x ∈ l) :
    (∃ e, mainText fr sh src o1 o2 (some defaultsText) (some extra) format args ext w ready = some ((w, ready), .error e)) ∨
    ∃ b : Box, MargoValid (configuration defaultsText extra) b.margo ∧ JsonValid (configuration defaultsText extra) b.json ∧
      mainText fr sh src o1 o2 (some defaultsText) (some extra) format args ext w ready =
        mainLoop fr src format (some b) w ready (makeListOfSourceFiles sh args ext) := by
  refine C71_main fr sh src defaultsText extra format args ext w ready h2 ?_
  obtain ⟨-, c, hc, -⟩ := C71_defaults h1
  rw [hc]
  simp

/-- The file addons.ini takes effect; a wrong value, a line without delimiter and an unknown reference end the program; a reference to
another option is resolved. -/
example : let run := fun t : String => (({} : Manager).initFromFile id (iniFile (some defaultsText))).1.updateFromFile id (iniFile (some t.toList))
    ((({} : Manager).initFromFile id (iniFile (some defaultsText))).1.updateFromFile id (iniFile (some addonsText))).1.boxed =
      some ⟨{ half_cycle_enable := true, lock_time_enable := true, gps_utc_shift := 18, glo_lit_tab := defaultLiterals },
        { enable_hdr_data := false, enable_aux_data := false, enable_pretty_view := false }⟩ ∧
    (run "[MARGO]\nHCA = maybe").2 = .error .valueError ∧ (run "[MARGO]\nHCA").2 = .error .configError ∧
    (run "[MARGO]\nHCA = %(x)s").2 = .error .configError ∧
    (run "[TIME]\nGPS2UTC : %(new)s\nNew: 1\n").2 = .ok () ∧
    (run "[TIME]\nGPS2UTC : %(new)s\nNew: 1\n").1.boxed.map (fun b => b.margo.gps_utc_shift) = some 1 := by decide +kernel

end Verif
