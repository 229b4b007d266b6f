import Verif.Lemmas.Fresh
import Verif.Props.Lossless
import Verif.Props.PrintReport
import Verif.Props.Files
import Mathlib.Algebra.BigOperators.Group.Finset.Basic

/-!
# C70: failures of the file system in the modes JSON and JSON-B

The calls that create a folder or open a file may fail at any time (`Disk.fault`). Then the messages of a number are missing up to the
first one for which the file could be opened, nothing else is missing, and the number of printing errors in the report is exactly the
number of missing messages.
-/

namespace Verif
open Spec Decoder Conv Run

namespace Json

theorem ofNumber_cons (n : Int) (o : PyObj) (l : List PyObj) :
    ofNumber n (o :: l) = if objNum o = some n then o :: ofNumber n l else ofNumber n l := by
  unfold ofNumber
  by_cases h : objNum o = some n
  · rw [if_pos h, List.filter_cons_of_pos (by simp [h])]
  · rw [if_neg h, List.filter_cons_of_neg (by simp [h])]

/-- An object whose file is open is printed. -/
theorem print_open (fr : Rat → Txt) (p : Printer) (w : Disk) (o : PyObj) {n : Int} {row : SpecRow} {path : Txt} (hn : objNum o = some n)
    (hr : JSON_SPEC.get? n = some row) (hg : p.ofiles.get? n = some path) :
    p.print fr w o = ((p, w.write path (lineText fr p.ctrls o)), .ok ()) := by
  unfold Printer.print
  dsimp only
  rw [hn, Option.bind_some, hr]
  dsimp only [Option.map_some]
  unfold Printer.append
  rw [if_pos (by rw [PyDict.mem_eq, hg]; rfl)]
  unfold Printer.writeTo
  rw [hg]
  rfl

/-- Of each number the objects that were printed are the last ones, and all of them if the file was open before. -/
theorem printAll_suffix (fr : Rat → Txt) (n : Int) (objs : List PyObj) : ∀ (p : Printer) (w : Disk),
    ofNumber n (printAll fr p w objs).2 <:+ ofNumber n objs ∧
    (∀ path row, p.ofiles.get? n = some path → JSON_SPEC.get? n = some row → ofNumber n (printAll fr p w objs).2 = ofNumber n objs) := by
  induction objs with
  | nil => intro p w; exact ⟨List.suffix_rfl, fun _ _ _ _ => rfl⟩
  | cons o rest ih =>
    intro p w
    have hopen : ∀ path row, p.ofiles.get? n = some path → JSON_SPEC.get? n = some row →
        ofNumber n (printAll fr p w (o :: rest)).2 = ofNumber n (o :: rest) := by
      intro path row hg hr
      by_cases ho : objNum o = some n
      · unfold printAll
        rw [print_open fr p w o ho hr hg]
        dsimp only
        rw [ofNumber_cons, ofNumber_cons, if_pos ho, if_pos ho, (ih p _).2 path row hg hr]
      · unfold printAll
        rcases print_cases fr p w o with ⟨w', h1, -⟩ | ⟨k, row', hk, hr', ⟨path', hg', h1⟩ | ⟨hg', w', -, h1⟩⟩
        · rw [h1]
          dsimp only
          rw [ofNumber_cons, if_neg ho, (ih p _).2 path row hg hr]
        · rw [h1]
          dsimp only
          rw [ofNumber_cons, ofNumber_cons, if_neg ho, if_neg ho, (ih p _).2 path row hg hr]
        · rw [h1]
          dsimp only
          rw [ofNumber_cons, ofNumber_cons, if_neg ho, if_neg ho]
          refine (ih _ _).2 path row ?_ hr
          dsimp only
          rw [PyDict.get?_set, if_neg (by intro he; subst he; exact ho hk)]
          exact hg
    refine ⟨?_, hopen⟩
    unfold printAll
    rcases print_cases fr p w o with ⟨w', h1, -⟩ | ⟨k, row', hk, hr', ⟨path', hg', h1⟩ | ⟨hg', w', -, h1⟩⟩
    · rw [h1]
      dsimp only
      rw [ofNumber_cons]
      split
      · exact (ih p w').1.trans (List.suffix_cons _ _)
      · exact (ih p w').1
    · rw [h1]
      dsimp only
      rw [ofNumber_cons, ofNumber_cons]
      split
      · rename_i ho
        rw [hk] at ho
        cases ho
        rw [(ih p _).2 path' row' hg' hr']
      · exact (ih p _).1
    · rw [h1]
      dsimp only
      rw [ofNumber_cons, ofNumber_cons]
      split
      · rename_i ho
        rw [hk] at ho
        cases ho
        rw [(ih _ _).2 (pathOf p.wd row') row' (by dsimp only; rw [PyDict.get?_set, if_pos rfl]) hr']
      · exact (ih _ _).1

/-- A path that belongs to no printed object is as before. -/
theorem printAll_unprinted (fr : Rat → Txt) (q : Txt) (objs : List PyObj) : ∀ {p : Printer} {w : Disk} {H : List PyObj} (_ : Inv fr p w H),
    (∀ o ∈ (printAll fr p w objs).2, ∀ n row, objNum o = some n → JSON_SPEC.get? n = some row → q ≠ pathOf p.wd row) →
    (printAll fr p w objs).1.2.read q = w.read q := by
  induction objs with
  | nil => intro p w H _ _; rfl
  | cons o rest ih =>
    intro p w H h
    obtain ⟨h1, h2, h3, h4⟩ := h.step o
    have h3 := h3 q
    have h5 : (p.print fr w o).2 ≠ .ok () → (p.print fr w o).1.2.read q = w.read q := by
      rcases print_cases fr p w o with ⟨w', e, h6⟩ | ⟨k, row', -, -, ⟨path', -, e⟩ | ⟨-, w', -, e⟩⟩
      · rw [e]; exact fun _ => h6 q
      · rw [e]; exact fun h => absurd rfl h
      · rw [e]; exact fun h => absurd rfl h
    unfold printAll
    cases hp : p.print fr w o with
    | mk s r =>
      obtain ⟨p', w'⟩ := s
      rw [hp] at h1 h2 h3 h4 h5
      dsimp only at h1 h2 h3 h4 h5
      cases r with
      | ok u =>
        cases u
        rcases h4 with ⟨-, h4⟩ | ⟨h4, -⟩
        · dsimp only
          intro hq
          rw [ih h4 (by rw [h1]; exact fun o ho => hq o (by simp [ho])), h3 (hq o (by simp))]
        · cases h4
      | error e =>
        rcases h4 with ⟨h4, -⟩ | ⟨-, h4⟩
        · cases h4
        · dsimp only
          intro hq
          rw [ih h4 (by rw [h1]; exact hq), h5 (by simp)]

/-- Numbers of objects, counted number by number. -/
theorem sum_ofNumber (l : List PyObj) (hl : ∀ o ∈ l, ∃ n : Nat, n < 4096 ∧ objNum o = some (n : Int)) :
    ∑ k ∈ Finset.range 4096, (ofNumber (k : Int) l).length = l.length := by
  induction l with
  | nil => simp [ofNumber]
  | cons o l ih =>
    obtain ⟨n, hn, ho⟩ := hl o (by simp)
    have h1 : ∀ k ∈ Finset.range 4096, (ofNumber (k : Int) (o :: l)).length = (ofNumber (k : Int) l).length + if k = n then 1 else 0 := by
      intro k _
      rw [ofNumber_cons, ho]
      by_cases hk : k = n
      · subst hk; simp
      · rw [if_neg (by simpa using fun h => hk h.symm), if_neg hk]; rfl
    rw [Finset.sum_congr rfl h1, Finset.sum_add_distrib, ih (fun o h => hl o (by simp [h])), Finset.sum_ite_eq' (Finset.range 4096) n,
      if_pos (Finset.mem_range.2 hn), List.length_cons]

end Json

namespace Run

/-- Each decoded object has a number of 12 bits, which is in the table of the printer. -/
theorem outcome_declared {m : Mode} {msg : Bytes} {o : PyObj} (ho : outcome m msg = some o) :
    ∃ n : Nat, n < 4096 ∧ Json.objNum o = some (n : Int) ∧ declared m.bare n = some o.cls := by
  have hd : ∃ d, Reach m d ∧ (d.decode msg).2 = some o := by
    refine ⟨{ decoders := registered m }, .start (strategy_eq m), ?_⟩
    obtain ⟨c', e1, -⟩ := decode_outcome (c := { decoder := { decoders := registered m } }) (m := m) rfl msg
    have := congrArg Prod.snd e1
    rw [ho] at this
    exact this
  obtain ⟨d, hd1, hd2⟩ := hd
  obtain ⟨n, h1, -, h3, h4⟩ := C17_typed m d hd1 msg o hd2
  refine ⟨n, ?_, Json.objNum_of_recorded h4, h3⟩
  unfold numberIn at h1
  split at h1
  · cases h1
  · cases h1
    refine lt_of_lt_of_le (natOfBits_lt _) ?_
    have : (((bitsOf msg).drop 24).take 12).length ≤ 12 := by rw [List.length_take]; omega
    exact Nat.pow_le_pow_right (by decide) this

end Run

/-- What is left of the output when failures have cost, of each message number, the first `lost` objects: the file of the number holds
the others, or, if there are none, is as it was before. Nothing else is changed. -/
def Spec.HoldsAfter (fr : Rat → Txt) (c : Json.Controls) (bare : Bool) (wd : Txt) (w w' : Disk) (lost : Nat → Nat) (objs : List PyObj) : Prop :=
  (∀ k, lost k ≤ (objs.filter (fun o => Json.objNum o == some (k : Int))).length ∧
    let rest := (objs.filter (fun o => Json.objNum o == some (k : Int))).drop (lost k)
    (rest = [] → (declared bare k).isSome → w'.read (Disk.join wd (jsonFile k).toList) = w.read (Disk.join wd (jsonFile k).toList)) ∧
    (rest ≠ [] → ∃ t, w'.read (Disk.join wd (jsonFile k).toList) = some t ∧
      JsonText (fileJson (className bare k) (rest.map (fun o => jv fr (Json.objVal c o)))) t)) ∧
  ∀ q, (∀ k, (declared bare k).isSome → q ≠ Disk.join wd (jsonFile k).toList) → w'.read q = w.read q

/-- **C70** Conversion in a JSON mode when calls that create folders and open files fail at arbitrary times: it ends regularly, of each
message number the first objects are missing and all others are in the file of the number, which is a well-formed JSON array, nothing
else is changed, and the number of printing errors is exactly the number of missing objects. -/
theorem C70_failures {m : Mode} (hm : m = .json ∨ m = .jsonB) (w0 : Disk) (wd : Txt) (box : Box) (c : Converter)
    (h : strategy m w0 wd box = .ok (some c)) (fr : Rat → Txt) (hfr : ∀ x, IsNum (fr x)) (n : Nat) (hn : 0 < n) (w : Disk) (bytes : Bytes) :
    ∃ c' w' lost, decodeRtcmFile fr n (some bytes) c w = some ((c', w'), true) ∧
      HoldsAfter fr box.json m.bare wd w w' lost ((messages bytes).filterMap (outcome m)) ∧
      c'.statistics.printing_errors = ((∑ k ∈ Finset.range 4096, lost k : Nat) : Int) ∧
      ∀ k, 4096 ≤ k → lost k = 0 := by
  obtain ⟨c', a1, a2⟩ := json_run hm h fr n hn bytes w
  have hi := Json.Inv.init fr box.json wd w
  have hobj : ∀ o ∈ (messages bytes).filterMap (outcome m), ∃ k : Nat, k < 4096 ∧ Json.objNum o = some (k : Int) ∧
      declared m.bare k = some o.cls := by
    intro o ho
    obtain ⟨msg, -, h2⟩ := List.mem_filterMap.1 ho
    exact outcome_declared h2
  generalize hobjs : (messages bytes).filterMap (outcome m) = objs at a1 a2 hobj ⊢
  have hsub : ∀ o ∈ (Json.printAll fr { ctrls := box.json, wd := wd } w objs).2, o ∈ objs := fun o ho => Json.printAll_sub fr objs ho
  have hsuf : ∀ k : Int, _ := fun k => (Json.printAll_suffix fr k objs { ctrls := box.json, wd := wd } w).1
  have hun := fun q => Json.printAll_unprinted fr q objs hi
  have hfiles := fun k o l => C45_files fr hfr box.json wd w objs k o l
  obtain ⟨h1, h2, h3⟩ := hi.all objs
  rw [List.nil_append] at h3
  generalize Json.printAll fr { ctrls := box.json, wd := wd } w objs = R at a1 a2 hsub hsuf hun hfiles h1 h2 h3
  have hrest : ∀ q, (∀ (k : Nat) row, Json.JSON_SPEC.get? (k : Int) = some row → Json.ofNumber (k : Int) R.2 ≠ [] → q ≠ Json.pathOf wd row) →
      (R.1.1.close R.1.2).2.read q = w.read q := by
    intro q hq
    rw [h3.close.2 q, hun q]
    · intro o ho k row hk hr
      obtain ⟨k', -, e, -⟩ := hobj o (hsub o ho)
      rw [hk] at e
      cases e
      exact hq k' row hr (List.ne_nil_of_mem (List.mem_filter.2 ⟨ho, by simp [hk]⟩))
    · intro k row hr hne
      rw [h1]
      obtain ⟨o, ho⟩ := List.exists_mem_of_ne_nil _ hne
      obtain ⟨o1, o2⟩ := List.mem_filter.1 ho
      obtain ⟨k', -, e, -⟩ := hobj o (hsub o o1)
      have e2 : Json.objNum o = some k := by simpa using o2
      rw [e2] at e
      cases e
      exact hq k' row hr hne
  have hlen : ∀ k : Int, (Json.ofNumber k R.2).length ≤ (Json.ofNumber k objs).length := fun k => (hsuf k).length_le
  have hdrop : ∀ k : Int, (Json.ofNumber k objs).drop ((Json.ofNumber k objs).length - (Json.ofNumber k R.2).length) = Json.ofNumber k R.2 :=
    fun k => (List.suffix_iff_eq_drop.1 (hsuf k)).symm
  refine ⟨c', _, fun k => (Json.ofNumber (k : Int) objs).length - (Json.ofNumber (k : Int) R.2).length, a1, ⟨?_, ?_⟩, ?_, ?_⟩
  · intro k
    refine ⟨Nat.sub_le _ _, ?_⟩
    have hk := hdrop (k : Int)
    unfold Json.ofNumber at hk
    dsimp only
    unfold Json.ofNumber
    rw [hk]
    constructor
    · intro h0 hd
      obtain ⟨cls, hd⟩ := Option.isSome_iff_exists.1 hd
      obtain ⟨row, r1, r2, -⟩ := C46_named wd m.bare k cls hd
      rw [← r2]
      refine hrest _ ?_
      intro k' row' hr' hne he
      have := Json.path_inj wd r1 hr' he
      rw [← this] at hne
      exact hne h0
    · intro hne
      obtain ⟨o, l, hol⟩ := List.exists_cons_of_ne_nil hne
      obtain ⟨row, t, r1, r2, -, r4⟩ := hfiles k o l hol
      have ho : o ∈ R.2.filter (fun x => Json.objNum x == some (k : Int)) := by rw [hol]; simp
      obtain ⟨o1, o2⟩ := List.mem_filter.1 ho
      obtain ⟨k', -, e, hd⟩ := hobj o (hsub o o1)
      have e2 : Json.objNum o = some (k : Int) := by simpa using o2
      rw [e2] at e
      obtain rfl : k = k' := by simpa using e
      obtain ⟨row', r1', r2', r3'⟩ := C46_named wd m.bare k _ hd
      rw [r1] at r1'
      cases r1'
      rw [r2'] at r2
      refine ⟨t, r2, ?_⟩
      rw [hol]
      rw [r3'] at r4
      exact r4
  · intro q hq
    refine hrest q ?_
    intro k row hr hne
    obtain ⟨o, ho⟩ := List.exists_mem_of_ne_nil _ hne
    obtain ⟨o1, o2⟩ := List.mem_filter.1 ho
    obtain ⟨k', -, e, hd⟩ := hobj o (hsub o o1)
    have e2 : Json.objNum o = some (k : Int) := by simpa using o2
    rw [e2] at e
    obtain rfl : k = k' := by simpa using e
    rw [Json.path_of wd k row hr]
    exact hq k (by rw [hd]; rfl)
  · rw [a2]
    dsimp only
    have s1 := Json.sum_ofNumber objs (fun o ho => let ⟨k, h1, h2, _⟩ := hobj o ho; ⟨k, h1, h2⟩)
    have s2 := Json.sum_ofNumber R.2 (fun o ho => let ⟨k, h1, h2, _⟩ := hobj o (hsub o ho); ⟨k, h1, h2⟩)
    have s3 : (∑ k ∈ Finset.range 4096, ((Json.ofNumber (k : Int) objs).length - (Json.ofNumber (k : Int) R.2).length)) + R.2.length = objs.length := by
      rw [← s1, ← s2, ← Finset.sum_add_distrib]
      refine Finset.sum_congr rfl (fun k _ => ?_)
      have := hlen k
      omega
    omega
  · intro k hk
    have : Json.ofNumber (k : Int) objs = [] := by
      unfold Json.ofNumber
      rw [List.filter_eq_nil_iff]
      intro o ho
      obtain ⟨k', h1, e, -⟩ := hobj o ho
      rw [e]
      simp
      omega
    dsimp only
    rw [this]
    simp

/-- What a conversion of a file has done when `main` reports that it finished without errors: the mode, the configured objects and the
state in which it was started. -/
theorem Run.convert_finished {format : String} {m : Mode} (hm : modeOf format = some m) {fr : Rat → Txt} {src : Txt → Option Bytes}
    {controls : Option Box} {w w' : Disk} {ready ready' : Bool} {f : Txt} {v : Verdict}
    (hv : v = .finishedWithoutErrors ∨ v = .finishedWithErrors)
    (h : convertFile fr src format controls w ready f = some ((w', ready'), .ok v)) :
    ∃ box w2 c c' bytes, controls = some box ∧ src f = some bytes ∧ strategy m w2 (workFolder f format.toList) box = .ok (some c) ∧
      decodeRtcmFile fr FILE_CHUNK_LEN (some bytes) c w2 = some ((c', w'), true) ∧ v = verdictOf c'.statistics := by
  rw [convert_eq] at h
  cases hc : createWorkFolder w f format.toList with
  | mk w1 r1 =>
    rw [hc] at h
    cases r1 with
    | none =>
      simp only [Option.some.injEq, Prod.mk.injEq, Except.ok.injEq] at h
      rcases hv with rfl | rfl <;> cases h.2
    | some wfld =>
      obtain ⟨rfl, -⟩ := createWorkFolder_some hc
      dsimp only at h
      unfold inFolder at h
      generalize initLogger w1 ready (Disk.join (workFolder f format.toList) (makeLogFileName f)) = y at h
      obtain ⟨⟨w2, ready2⟩, r2⟩ := y
      cases r2 with
      | error e => simp at h
      | ok u =>
        cases u
        dsimp only at h
        cases controls with
        | none =>
          simp only [Option.some.injEq, Prod.mk.injEq, Except.ok.injEq] at h
          rcases hv with rfl | rfl <;> cases h.2
        | some box =>
          dsimp only at h
          obtain ⟨g1, g2⟩ := factory_eq hm w2 (workFolder f format.toList) box
          cases hdir : w2.isdir (workFolder f format.toList) with
          | false => rw [g2 hdir] at h; simp at h
          | true =>
            obtain ⟨c, hc1, hc2, -⟩ := g1 hdir
            rw [hc1] at h
            dsimp only at h
            cases hd : decodeRtcmFile fr FILE_CHUNK_LEN (src f) c w2 with
            | none => rw [hd] at h; cases h
            | some x =>
              obtain ⟨⟨c', w3⟩, ok⟩ := x
              rw [hd] at h
              simp only [Option.some.injEq, Prod.mk.injEq, Except.ok.injEq] at h
              obtain ⟨⟨rfl, -⟩, h⟩ := h
              cases ok with
              | false =>
                rw [if_neg Bool.false_ne_true] at h
                rcases hv with rfl | rfl <;> cases h
              | true =>
                rw [if_pos rfl] at h
                cases hs : src f with
                | none =>
                  rw [hs] at hd
                  unfold decodeRtcmFile at hd
                  simp at hd
                | some bytes =>
                  rw [hs] at hd
                  exact ⟨box, w2, c, c', bytes, rfl, rfl, hc2, hd, h.symm⟩

/-- **C70** (partial) Full statement: in every mode, if `main` reports that the conversion of a file finished without errors, then the
output is complete. Missing: the modes with MARGO, see `C70_violated`. If `main` reports that the conversion of a file in mode JSON or JSON-B finished without errors, then, whatever calls of the
file system failed, every supported message in the file was decoded and every decoded message is in the output: the file of each message number
that occurs is the JSON array of all objects with this number, in order. -/
theorem C70_partial {format : String} (hf : format = "JSON" ∨ format = "JSON-B") (fr : Rat → Txt) (hfr : ∀ x, IsNum (fr x))
    (src : Txt → Option Bytes) (controls : Option Box) (w w' : Disk) (ready ready' : Bool) (f : Txt)
    (h : convertFile fr src format controls w ready f = some ((w', ready'), .ok .finishedWithoutErrors)) :
    ∃ m box bytes, modeOf format = some m ∧ controls = some box ∧ src f = some bytes ∧
      (∀ msg ∈ messages bytes, supportedMsg m msg = true → (outcome m msg).isSome) ∧
      ∀ k : Nat, (∃ o ∈ (messages bytes).filterMap (outcome m), Json.objNum o = some (k : Int)) →
        ∃ t, w'.read (Disk.join (workFolder f format.toList) (jsonFile k).toList) = some t ∧
          JsonText (fileJson (className m.bare k) ((((messages bytes).filterMap (outcome m)).filter
            (fun o => Json.objNum o == some (k : Int))).map (fun o => jv fr (Json.objVal box.json o)))) t := by
  have hm : ∃ m, modeOf format = some m ∧ (m = .json ∨ m = .jsonB) := by
    rcases hf with rfl | rfl
    · exact ⟨.json, rfl, .inl rfl⟩
    · exact ⟨.jsonB, rfl, .inr rfl⟩
  obtain ⟨m, hm, hj⟩ := hm
  obtain ⟨box, w2, c, c', bytes, b1, b2, b3, b4, b5⟩ := convert_finished hm (.inl rfl) h
  obtain ⟨c1, w1, lost, a1, a2, a3, a4⟩ := C70_failures hj w2 _ box c b3 fr hfr FILE_CHUNK_LEN (by decide) w2 bytes
  obtain ⟨c2, d1, d2⟩ := json_run hj b3 fr FILE_CHUNK_LEN (by decide) bytes w2
  rw [b4] at a1 d1
  simp only [Option.some.injEq, Prod.mk.injEq] at a1 d1
  obtain ⟨⟨rfl, rfl⟩, -⟩ := a1
  obtain ⟨⟨rfl, -⟩, -⟩ := d1
  have hv : c'.statistics.printing_errors = 0 ∧ c'.statistics.decoding_errors = 0 := by
    unfold verdictOf at b5
    split at b5
    · cases b5
    · rename_i hne
      simp only [ne_eq, not_or, not_not] at hne
      exact ⟨hne.1, hne.2.1⟩
  refine ⟨m, box, bytes, hm, b1, b2, ?_, ?_⟩
  · have hcnt := hv.2
    rw [d2] at hcnt
    dsimp only at hcnt
    have hle : ∀ l : List Bytes, (l.filterMap (outcome m)).length ≤ l.countP (supportedMsg m) ∧
        ((l.filterMap (outcome m)).length = l.countP (supportedMsg m) → ∀ msg ∈ l, supportedMsg m msg = true → (outcome m msg).isSome) := by
      intro l
      induction l with
      | nil => exact ⟨Nat.le_refl _, fun _ msg h => by cases h⟩
      | cons x l ih =>
        rw [List.filterMap_cons, List.countP_cons]
        cases ho : outcome m x with
        | none =>
          dsimp only
          constructor
          · exact Nat.le_trans ih.1 (Nat.le_add_right _ _)
          · intro he msg hmsg hs
            have h0 := ih.1
            cases hx : supportedMsg m x with
            | true => rw [hx, if_pos rfl] at he; omega
            | false =>
              rw [hx, if_neg Bool.false_ne_true] at he
              rcases List.mem_cons.1 hmsg with rfl | hmsg
              · rw [hx] at hs; cases hs
              · exact ih.2 (by omega) msg hmsg hs
        | some o =>
          dsimp only
          rw [outcome_supported ho, if_pos rfl, List.length_cons]
          refine ⟨by have := ih.1; omega, fun he msg hmsg hs => ?_⟩
          rcases List.mem_cons.1 hmsg with rfl | hmsg
          · rw [ho]; rfl
          · exact ih.2 (by omega) msg hmsg hs
    exact (hle (messages bytes)).2 (by have := (hle (messages bytes)).1; omega)
  · rintro k ⟨o, ho, hk⟩
    have hsum := hv.1
    rw [a3] at hsum
    have hz : lost k = 0 := by
      by_cases h4 : 4096 ≤ k
      · exact a4 k h4
      · have := (Finset.sum_eq_zero_iff.1 (by exact_mod_cast hsum)) k (Finset.mem_range.2 (by omega))
        exact this
    obtain ⟨-, -, r3⟩ := a2.1 k
    rw [hz, List.drop_zero] at r3
    exact r3 (List.ne_nil_of_mem (List.mem_filter.2 ⟨ho, by simp [hk]⟩))

/-- Two messages 1007 when the first call fails: the first message is missing, the second is printed. -/
example (fr : Rat → Txt) : (Json.printAll fr { ctrls := {}, wd := "out".toList } { dirs := ["out".toList], fault := fun i => i == 0 }
    [exAD 1, exAD 2]).2 = [exAD 2] := by rfl

/-- The hypothesis of `C70_partial` is met by a file with five messages. -/
example (fr : Rat → Txt) (hfr : ∀ x, IsNum (fr x)) (box : Box) (f : Txt) : ∃ w',
    convertFile fr (fun _ => some (exContents.map Content.frame).flatten) "JSON-B" (some box) {} false f =
      some ((w', false), .ok .finishedWithoutErrors) := by
  obtain ⟨w', h, -⟩ := C52_file_partial fr hfr (fun _ => some (exContents.map Content.frame).flatten) box f {} (fun _ => rfl) exContents
    exContents_ok rfl
  exact ⟨w', h⟩

/-! ## MARGO -/

namespace Margo

/-- Printing rows when no further file can be created: nothing is written and nothing is raised. -/
theorem printRows_faulty (rows : PyDict Txt Row) : ∀ (p : Printer) (w : Disk), p.ofiles = [] → (∀ i, w.calls ≤ i → w.fault i = true) →
    (∀ r ∈ rows, ∃ g k slot u, Named g k slot u r) → ∃ w', p.printRows w rows = ((p, w'), .ok ()) ∧ w'.files = w.files := by
  induction rows with
  | nil => intro p w _ _ _; exact ⟨w, rfl, rfl⟩
  | cons r rows ih =>
    intro p w hp hw hr
    obtain ⟨g, k, slot, u, hn⟩ := hr r (by simp)
    have e1 : ∀ l, ∃ w', p.append w r.1 l = ((p, w'), .ok ()) ∧ (∀ i, w'.calls ≤ i → w'.fault i = true) ∧ w'.files = w.files := by
      intro l
      unfold Printer.append Printer.createOfile
      have hc := hn.chars.1
      rw [hp, hc]
      simp only [ok_bind, dir_ok g hn.lt]
      have hmem : PyDict.mem ([] : PyDict Txt Txt) r.1 = false := rfl
      rw [hmem]
      simp only [Bool.false_eq_true, if_false]
      have hf := hw w.calls (Nat.le_refl _)
      refine ⟨{ w with calls := w.calls + 1 }, ?_, fun i hi => hw i (by dsimp only at hi; omega), rfl⟩
      cases hd : w.isdir (Disk.join p.wd (margoDir g).toList) with
      | true => simp [Disk.openW, hf]
      | false => simp [Disk.makedirs, hf]
    obtain ⟨f, row⟩ := r
    unfold Printer.printRows
    have hcs := hn.chars.2.1
    dsimp only at hcs
    rw [hcs, ok_bind, format_ok]
    dsimp only
    obtain ⟨w', e, e2, e3⟩ := e1 (formatObsString row k.format.1 k.format.2)
    dsimp only at e
    rw [e]
    obtain ⟨w2, e4, e5⟩ := ih p w' hp e2 (fun r' hr' => hr r' (by simp [hr']))
    exact ⟨w2, e4, e5.trans e3⟩

end Margo

/-- A file system on which only the first three calls that create something succeed. -/
def threeCalls : Disk := { fault := fun i => decide (3 ≤ i) }

/-- **C70** is violated by MARGO: a file with one message that contains observables is converted on a file system where the work folder
and the log file can be created but no other file. `main` reports that the conversion finished without errors; there is no file besides the
log file. -/
theorem C70_violated : ∃ bytes o, ValidFrame bytes ∧ Msm.decodeMsm17 false bytes = some (.inr o) ∧ slotsOf o .cnr ≠ [] ∧
    ∀ (fr : Rat → Txt) (box : Box) (f : Txt), ∃ w', convertFile fr (fun _ => some bytes) "MARGO" (some box) threeCalls false f =
      some ((w', false), .ok .finishedWithoutErrors) ∧ ∀ q, q ≠ logPath f "MARGO" → w'.read q = none := by
  have hwf : (Content.msm exMsm5).WellFormed := (exContents_ok _ (by simp [exContents])).1
  have hacc : (Content.msm exMsm5).AcceptedScaled := ⟨(exContents_ok _ (by simp [exContents])).2, by decide +kernel, by decide +kernel⟩
  have hv := frame_valid hwf
  obtain ⟨hout, hreg⟩ := outcome_margo_msm hwf hacc
  have hdec := C24_scaled exMsm5 hwf.2.2 (by decide) hacc.2.1 _ hv (frame_carries hwf)
  refine ⟨(Content.msm exMsm5).frame, exMsm5.scaledObj, hv, hdec, by decide +kernel, ?_⟩
  intro fr box f
  generalize (Content.msm exMsm5).frame = bytes at hout hv
  obtain ⟨w1, w2, e1, e2, e3, e4, e5⟩ : ∃ w1 w2, createWorkFolder threeCalls f "MARGO".toList = (w1, some (workFolder f "MARGO".toList)) ∧
      initLogger w1 false (logPath f "MARGO") = ((w2, true), .ok ()) ∧ w2.isdir (workFolder f "MARGO".toList) = true ∧
      (∀ i, w2.calls ≤ i → w2.fault i = true) ∧ ∀ q, q ≠ logPath f "MARGO" → w2.read q = none := by
    refine ⟨{ dirs := [workFolder f "MARGO".toList], fault := threeCalls.fault, calls := 1 },
      { dirs := [workFolder f "MARGO".toList], files := [(logPath f "MARGO", logHead)], fault := threeCalls.fault, calls := 3 }, ?_, ?_, ?_, ?_, ?_⟩
    · rfl
    · unfold initLogger init2CH Disk.openW Disk.write
      simp [threeCalls, PyDict.set, PyDict.get?, PyDict.mem]
    · simp [Disk.isdir]
    · intro i hi
      simpa [threeCalls] using hi
    · intro q hq
      simp [Disk.read, PyDict.get?, List.lookup, beq_eq_false_iff_ne.2 hq]
  obtain ⟨c, c1, c2, c3⟩ := (factory_eq (format := "MARGO") rfl w2 (workFolder f "MARGO".toList) box).1 e3
  obtain ⟨c', a1, a2, a3, a4, -⟩ := C51_whole .margo w2 _ box c c2 fr FILE_CHUNK_LEN (by decide) bytes w2
  have hmsg : messages bytes = [bytes] := by
    have := (messages_clean [bytes] (by simpa using hv)).1
    simpa using this
  obtain ⟨w3, p1, p2⟩ := Margo.printRows_faulty _ { ctrl := box.margo, wd := workFolder f "MARGO".toList } w2 rfl e4
    (fun r hr => (Margo.mrows_named box.margo (t := _) hreg (fun h => absurd h (by decide)) (kindsOf (Margo.settings box.margo)) r hr).imp
      (fun g h => h.imp (fun k h => h.imp (fun s h => h.imp (fun u h => h.1)))))
  have hp : Margo.Printer.print { ctrl := box.margo, wd := workFolder f "MARGO".toList } w2 (.msm exMsm5.scaledObj) =
      (({ ctrl := box.margo, wd := workFolder f "MARGO".toList }, w3), .ok ()) := by
    unfold Margo.Printer.print
    dsimp only
    rw [Margo.printBuffer_ok box.margo hreg (fun h => absurd h (by decide))]
    exact p1
  obtain ⟨c4, d1, d2, d3, d4, d5⟩ := decode_outcome (m := .margo) (c := c) (by rw [c3]) bytes
  rw [hout] at d1 d5
  have hpr : c4.printer = startPrinter .margo (workFolder f "MARGO".toList) box := by rw [d2, c3]
  have hprint : c4.print fr w2 (.msm exMsm5.scaledObj) =
      (({ c4 with printer := { startPrinter .margo (workFolder f "MARGO".toList) box with attempts := 1, succeeded := 1 } }, w3), .ok ()) := by
    unfold Converter.print PrinterTop.print
    rw [hpr]
    unfold startPrinter printLoop
    dsimp only
    rw [if_pos (show (SubPrinter.handles _ _) = true from rfl)]
    unfold Impl.print
    dsimp only
    rw [hp]
    rfl
  have hproc : processMsgs fr c w2 (messages bytes) =
      (({ c4 with printer := { startPrinter .margo (workFolder f "MARGO".toList) box with attempts := 1, succeeded := 1 } }, w3), .ok ()) := by
    rw [hmsg, process_cons, d1]
    dsimp only
    rw [hprint]
    rfl
  rw [hproc] at a1 a2 a3 a4
  dsimp only at a1 a2 a3 a4
  refine ⟨w3, ?_, fun q hq => ?_⟩
  · rw [convert_eq, e1]
    dsimp only
    unfold inFolder
    rw [show Disk.join (workFolder f "MARGO".toList) (makeLogFileName f) = logPath f "MARGO" from rfl, e2]
    dsimp only
    rw [c1]
    dsimp only
    rw [a1]
    have hs : verdictOf c'.statistics = .finishedWithoutErrors := by
      unfold verdictOf Converter.statistics DecoderTop.decErrors PrinterTop.errors
      dsimp only
      rw [a2, a3, a4, d4, d5, c3, outcome_supported hout]
      rfl
    dsimp only
    rw [show decide ((Except.ok () : Py Unit) = Except.ok ()) = true from rfl, if_pos rfl, hs]
    rfl
  · have := e5 q hq
    unfold Disk.read at this ⊢
    rw [p2, this]

end Verif
