import Verif.Model.Opath
import Verif.Props.Program

/-!
# C79: `make_opath` tells where the products are
-/

namespace Verif
open Spec Decoder Conv Run

/-- The directory part of a path as `os.path.abspath` returns it: it ends with one slash, it consists of slashes, or it is missing. -/
def Spec.DirPart (dir : Txt) : Prop := dir = [] ∨ (∀ c ∈ dir, c = '/') ∨ ∃ d, dir = d ++ ['/'] ∧ d ≠ [] ∧ d.getLast? ≠ some '/'

namespace Run

theorem DirPart.last {dir : Txt} (h : DirPart dir) : dir = [] ∨ dir.getLast? = some '/' := by
  rcases h with h | h | ⟨d, rfl, -, -⟩
  · exact .inl h
  · rcases List.eq_nil_or_concat dir with rfl | ⟨d, c, rfl⟩
    · exact .inl rfl
    · right
      rw [List.concat_eq_append, List.getLast?_concat, h c (by simp)]
  · exact .inr List.getLast?_concat

theorem splitSlash_parts {dir name : Txt} (hdir : dir = [] ∨ dir.getLast? = some '/') (hn : '/' ∉ name) : splitSlash (dir ++ name) = (dir, name) := by
  have hbase : ((dir ++ name).reverse.takeWhile (· ≠ '/')).reverse = name := by
    rw [List.reverse_append, List.takeWhile_append_of_pos (by
      intro c hc
      have : c ≠ '/' := by rintro rfl; exact hn (List.mem_reverse.1 hc)
      simpa using this)]
    have : List.takeWhile (fun x => decide (x ≠ '/')) dir.reverse = [] := by
      rcases hdir with rfl | h
      · rfl
      · obtain ⟨d, rfl⟩ : ∃ d, dir = d ++ ['/'] := ⟨dir.dropLast, (List.dropLast_append_getLast? _ h).symm⟩
        simp
    rw [this]; simp
  unfold splitSlash
  dsimp only
  rw [hbase]
  simp

theorem splitext_dir {dir name : Txt} (hdir : dir = [] ∨ dir.getLast? = some '/') (hn : '/' ∉ name) :
    (splitext (dir ++ name)).1 = dir ++ (splitext name).1 := by
  unfold splitext
  have h0 := splitSlash_parts (dir := []) (.inl rfl) hn
  rw [List.nil_append] at h0
  rw [splitSlash_parts hdir hn, h0]
  dsimp only
  have hle : ((name.reverse.takeWhile (· ≠ '.')).reverse).length ≤ name.length := by
    rw [List.length_reverse, ← List.length_reverse (as := name)]
    exact (List.takeWhile_prefix _).length_le
  split
  · rename_i h
    dsimp only
    rw [List.length_append, show dir.length + name.length - ((name.reverse.takeWhile (· ≠ '.')).reverse).length - 1 =
      dir.length + (name.length - ((name.reverse.takeWhile (· ≠ '.')).reverse).length - 1) by omega, List.take_append]
    simp
  · rfl

theorem stem_noslash {name : Txt} (hn : '/' ∉ name) : '/' ∉ (splitext name).1 := by
  unfold splitext
  dsimp only
  split
  · exact fun h => hn (List.mem_of_mem_take h)
  · exact hn

theorem join_dirPart {dir : Txt} (h : DirPart dir) {x : Txt} (hx : x.head? ≠ some '/') :
    Disk.join (if dir.all (· = '/') then dir else Json.rstripSlash dir) x = dir ++ x := by
  by_cases ha : dir.all (· = '/') = true
  · rw [if_pos ha]
    unfold Disk.join
    rw [if_neg hx, if_pos (DirPart.last h)]
  · rw [if_neg ha]
    rcases h with rfl | h | ⟨d, rfl, h1, h2⟩
    · simp at ha
    · exact absurd (List.all_eq_true.2 (fun c hc => by simpa using h c hc)) ha
    · have : Json.rstripSlash (d ++ ['/']) = d := by
        unfold Json.rstripSlash
        obtain ⟨d', c, rfl⟩ := (List.eq_nil_or_concat d).resolve_left h1
        rw [List.concat_eq_append, List.getLast?_concat] at h2
        have : c ≠ '/' := fun hc => h2 (by rw [hc])
        simp [this]
      rw [this]
      unfold Disk.join
      rw [if_neg hx, if_neg (by simp [h1, h2])]
      simp

end Run

/-- **C79** For a source with a path as `os.path.abspath` returns it, `make_opath` tells the folder in which the program puts the products
with this format, the log file in it, and for each number the file of the messages with this number. -/
theorem C79_paths {dir name : Txt} (hdir : DirPart dir) (hn : '/' ∉ name) (n : Nat) (format : String) :
    (Json.makeOpath (dir ++ name) n format.toList).2 = (workFolder (dir ++ name) format.toList, logPath (dir ++ name) format) ∧
    (Json.JSON_SPEC.mem (n : Int) = true →
      (Json.makeOpath (dir ++ name) n format.toList).1 = Disk.join (workFolder (dir ++ name) format.toList) (jsonFile n).toList) := by
  have hl := DirPart.last hdir
  have hstem := stem_noslash hn
  have hodir : Disk.join (if dir.all (· = '/') then dir else Json.rstripSlash dir) ((splitext name).1 ++ '-' :: format.toList) =
      workFolder (dir ++ name) format.toList := by
    rw [join_dirPart hdir]
    · unfold workFolder
      rw [splitext_dir hl hn]
      simp
    · generalize (splitext name).1 = s at hstem
      cases s with
      | nil => simp
      | cons c s =>
        intro h
        simp at h
        exact hstem (by simp [h])
  have hlog : (splitext name).1 ++ '-' :: "log.txt".toList = makeLogFileName (dir ++ name) := by
    unfold makeLogFileName baseName
    rw [splitSlash_parts hl hn]
    rfl
  constructor
  · unfold Json.makeOpath Json.pathSplit logPath
    dsimp only
    rw [splitSlash_parts hl hn]
    dsimp only
    rw [hodir, hlog]
  · intro hmem
    obtain ⟨row, hrow⟩ : ∃ row, Json.JSON_SPEC.get? (n : Int) = some row := by
      cases h : Json.JSON_SPEC.get? (n : Int) with
      | some row => exact ⟨row, rfl⟩
      | none =>
        unfold PyDict.mem at hmem
        unfold PyDict.get? at h
        rw [h] at hmem
        cases hmem
    unfold Json.makeOpath Json.pathSplit
    dsimp only
    rw [splitSlash_parts hl hn, hrow]
    dsimp only
    rw [hodir, ← Json.path_of (workFolder (dir ++ name) format.toList) n row hrow]
    rfl

/-- A source in a directory and one at the root. -/
example : Json.makeOpath "/d/e.f/day.rtcm3".toList 1087 "JSON-B".toList =
      ("/d/e.f/day-JSON-B/MSM7/GLN-MSM7-1087.json".toList, "/d/e.f/day-JSON-B".toList, "/d/e.f/day-JSON-B/day-log.txt".toList) ∧
    Json.makeOpath "/day.rtcm3".toList 1234 "JSON".toList =
      ("/day-JSON/UNDEF/msg1234.json".toList, "/day-JSON".toList, "/day-JSON/day-log.txt".toList) := by decide +kernel

example : DirPart "/d/e.f/".toList ∧ DirPart "/".toList ∧ '/' ∉ "day.rtcm3".toList ∧ Json.JSON_SPEC.mem 1087 = true :=
  ⟨.inr (.inr ⟨"/d/e.f".toList, by decide⟩), .inr (.inl (by decide)), by decide, by decide +kernel⟩

/-- With two slashes at the end of the directory the path that is told has one of them only (`os.path.split` removes both). -/
example : (Json.makeOpath "/d//day.rtcm3".toList 1087 "JSON".toList).2.1 = "/d/day-JSON".toList ∧
    workFolder "/d//day.rtcm3".toList "JSON".toList = "/d//day-JSON".toList := by decide +kernel

namespace Run

theorem undef_path {dir name : Txt} (hdir : DirPart dir) (hn : '/' ∉ name) (n : Nat) (format : String)
    (h : Json.JSON_SPEC.mem (n : Int) = false) :
    (Json.makeOpath (dir ++ name) n format.toList).1 =
      Disk.join (Disk.join (workFolder (dir ++ name) format.toList) "UNDEF".toList) ("msg".toList ++ (toString (n : Int)).toList ++ ".json".toList) := by
  have hw := congrArg Prod.fst (C79_paths hdir hn n format).1
  dsimp only at hw
  rw [← hw]
  have hnone : Json.JSON_SPEC.get? (n : Int) = none := by
    unfold PyDict.mem at h
    unfold PyDict.get?
    simpa using h
  unfold Json.makeOpath
  rw [hnone]

theorem jsonFile_head (n : Nat) : (jsonFile n).toList.head? ≠ some 'U' := by
  unfold jsonFile
  split
  · simp
  · simp
  · unfold msmName
    split <;> simp

end Run

/-- **C79, found.** In the formats JSON and JSON-B a run that converts streams of convertible contents leaves, for each number in the
contents of a source, the array of the values of the contents with this number at the path that `make_opath` tells, and for a number
that is not in the table of the printer nothing at this path if the work folder was new or replaced an old one. -/
theorem C79_found (fr : Rat → Txt) (hfr : ∀ x, IsNum (fr x)) (src : Txt → Option Bytes) (format : String)
    (hformat : format = "JSON" ∨ format = "JSON-B") (box : Box) (hch : Margo.ChannelsPos box.margo) (w : Disk) (hw : ∀ i, w.fault i = false)
    (files : List Txt) (hap : files.Pairwise (fun f g => Apart (workFolder f format.toList) (workFolder g format.toList)))
    (hsplit : ∀ f ∈ files, ∃ dir name, f = dir ++ name ∧ DirPart dir ∧ '/' ∉ name) (st : Txt → Stream)
    (hst : ∀ f ∈ files, (st f).Ok ∧ src f = some (st f).bytes ∧ Convertible format box.margo.gps_utc_shift (st f).pieces) :
    ∃ w', mainLoop fr src format (some box) w false files = some ((w', false), .ok (files.map (fun _ => .finishedWithoutErrors))) ∧
      ∀ f ∈ files,
        (∀ c ∈ contentsOf (st f).pieces, ∃ t vs, w'.read (Json.makeOpath f c.number format.toList).1 = some t ∧
          JsonText (fileJson (className (format = "JSON-B") c.number) vs) t ∧
          List.Forall₂ (fun c v => (format = "JSON" → c.ScaledJson fr box.json.enable_hdr_data box.json.enable_aux_data v) ∧
              (format = "JSON-B" → c.BareJson box.json.enable_hdr_data box.json.enable_aux_data v))
            ((contentsOf (st f).pieces).filter (·.number = c.number)) vs) ∧
        (Clear w (workFolder f format.toList) → ∀ n : Nat, Json.JSON_SPEC.mem (n : Int) = false →
          w'.read (Json.makeOpath f n format.toList).1 = none) := by
  obtain ⟨m, hm⟩ : ∃ m, modeOf format = some m := by
    rcases hformat with rfl | rfl
    · exact ⟨.json, rfl⟩
    · exact ⟨.jsonB, rfl⟩
  obtain ⟨w', e, h1, -⟩ := C76_files fr hfr src hm box hch w hw files hap st hst
  refine ⟨w', e, fun f hf => ?_⟩
  obtain ⟨hp, hc⟩ := h1 f hf
  obtain ⟨dir, name, rfl, hdir, hn⟩ := hsplit f hf
  constructor
  · intro c hcm
    have hwf : c.WellFormed := contents_wf (hst _ hf).1.1 c hcm
    obtain ⟨row, hrow⟩ := number_row hwf
    have hmem : Json.JSON_SPEC.mem (c.number : Int) = true := by
      unfold PyDict.mem
      unfold PyDict.get? at hrow
      rw [hrow]; rfl
    rw [(C79_paths hdir hn c.number format).2 hmem]
    rcases hformat with rfl | rfl
    · obtain ⟨t, vs, r, j, h⟩ := hp.2.1 rfl c.number ⟨c, hcm, rfl⟩
      exact ⟨t, vs, r, j, h.imp (fun _ _ h => ⟨fun _ => h, fun e => absurd e (by decide)⟩)⟩
    · obtain ⟨t, vs, r, j, h⟩ := hp.1 rfl c.number ⟨c, hcm, rfl⟩
      exact ⟨t, vs, r, j, h.imp (fun _ _ h => ⟨fun e => absurd e (by decide), fun _ => h⟩)⟩
  · intro hclear n hno
    rw [undef_path hdir hn n format hno]
    have hwd := workFolder_ok hm (dir ++ name)
    by_contra hne
    have hjj : Disk.join (Disk.join (workFolder (dir ++ name) format.toList) "UNDEF".toList) ("msg".toList ++ (toString (n : Int)).toList ++ ".json".toList) =
        Disk.join (workFolder (dir ++ name) format.toList) ("UNDEF".toList ++ '/' :: ("msg".toList ++ (toString (n : Int)).toList ++ ".json".toList)) :=
      Disk.join_join _ _ _ (by decide) (by decide) (by decide) (by simp)
    rcases hc hclear _ (Disk.under_join_join hwd (by decide) (by simp)) hne with h | ⟨-, c, hcm, h⟩ | ⟨h, -⟩ | ⟨h, -⟩
    · have := congrArg List.getLast? h
      unfold logPath at this
      rw [join_getLast _ _ (by simp), join_getLast _ _ (by unfold makeLogFileName; simp)] at this
      unfold makeLogFileName at this
      rw [List.getLast?_append_of_ne_nil _ (by decide), List.getLast?_append_of_ne_nil _ (by decide)] at this
      exact absurd this (by decide)
    · rw [hjj] at h
      have hh := jsonFile_head c.number
      have hs : (jsonFile c.number).toList.head? ≠ some '/' := by
        obtain ⟨row, hrow⟩ := number_row (contents_wf (hst _ hf).1.1 c hcm)
        rw [← Json.file_of _ row hrow]
        obtain ⟨a1, a2, -⟩ := Json.spec_names _ (PyDict.mem_of_get? hrow)
        rw [List.head?_append_of_ne_nil _ a2]
        exact a1
      have := Disk.join_inj (by simp) hs h
      rw [← this] at hh
      exact hh (by simp)
    · rcases hformat with rfl | rfl <;> exact absurd h (by decide)
    · rcases hformat with rfl | rfl <;> exact absurd h (by decide)

/-- Two files with the stream of the example of C76: the file of the reference point is at the path told, and nothing is at the path told
for an unsupported number. -/
example (fr : Rat → Txt) (hfr : ∀ x, IsNum (fr x)) : ∃ w',
    mainLoop fr (fun _ => some exStream.bytes) "JSON" (some ⟨{}, {}⟩) {} false ["/d/a.rtcm3".toList, "/b.rtcm3".toList] =
      some ((w', false), .ok [.finishedWithoutErrors, .finishedWithoutErrors]) ∧
    (w'.read (Json.makeOpath "/b.rtcm3".toList 1006 "JSON".toList).1).isSome ∧
    w'.read (Json.makeOpath "/d/a.rtcm3".toList 1012 "JSON".toList).1 = none := by
  have hleap : ({} : Margo.Controls).gps_utc_shift = 18 := rfl
  obtain ⟨w', e, h⟩ := C79_found fr hfr (fun _ => some exStream.bytes) "JSON" (.inl rfl) ⟨{}, {}⟩ Margo.default_pos {} (fun _ => rfl)
    ["/d/a.rtcm3".toList, "/b.rtcm3".toList] (by unfold Apart Under; decide +kernel) (by
      intro f hf
      simp only [List.mem_cons, List.not_mem_nil, or_false] at hf
      rcases hf with rfl | rfl
      · exact ⟨"/d/".toList, "a.rtcm3".toList, by decide, .inr (.inr ⟨"/d".toList, by decide⟩), by decide⟩
      · exact ⟨"/".toList, "b.rtcm3".toList, by decide, .inr (.inl (by decide)), by decide⟩)
    (fun _ => exStream) (fun _ _ => ⟨exStream_ok.1, rfl, hleap ▸ exStream_ok.2 _⟩)
  refine ⟨w', e, ?_, ?_⟩
  · obtain ⟨t, vs, r, -⟩ := (h "/b.rtcm3".toList (by simp)).1 (.base (.m1006 sampleRef 65535)) (by simp [exStream, contentsOf])
    have r : w'.read (Json.makeOpath "/b.rtcm3".toList 1006 "JSON".toList).1 = some t := r
    rw [r]; rfl
  · exact (h "/d/a.rtcm3".toList (by simp)).2 (.inr (fun _ _ => rfl)) 1012 (by decide +kernel)

end Verif
