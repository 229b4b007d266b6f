import Verif.Lemmas.Lossless
import Verif.Lemmas.Fresh
import Verif.Lemmas.RunFiles
import Verif.Props.EndToEnd

/-!
# C69: what the JSON files say is unambiguous, and in mode JSON-B nothing is lost
-/

namespace Verif
open Spec Decoder Conv Run

/-- **C69** A text denotes at most one JSON value. -/
theorem C69_unambiguous (v v' : JV) (t : Txt) (h : JsonText v t) (h' : JsonText v' t) : v = v' := h.unique h'

/-- A text that denotes a value. -/
example : JsonText (.arr [.num "1".toList, .str "a\"".toList]) "[1, \"a\\\"\"] ".toList := by
  refine .mk (a := []) (t := "[1, \"a\\\"\"]".toList) (b := " ".toList) (by intro c h; cases h) ?_ (by intro c h; left; simpa using h)
  refine .arr (t := "1, \"a\\\"\"".toList) (.cons (t := "1".toList) (u := " \"a\\\"\"".toList) ?_ (.one ?_))
  · exact .mk (a := []) (t := "1".toList) (b := []) (by intro c h; cases h)
      (.num ⟨[], "1".toList, [], [], rfl, .inl rfl, .inr ⟨'1', [], rfl, by decide, by decide, by intro c h; cases h⟩, .inl rfl, .inl rfl⟩)
      (by intro c h; cases h)
  · exact .mk (a := " ".toList) (t := "\"a\\\"\"".toList) (b := []) (by intro c h; left; simpa using h)
      (.str (t := "a\\\"".toList) (.plain 'a' (by decide) (by decide) (by decide) (.esc '"' '"' (by decide) .nil))) (by intro c h; cases h)

namespace Lossless

theorem forall₂_unique {α β : Type} {P : α → β → Prop} {Q : α → Prop} (hP : ∀ a a' b, Q a → Q a' → P a b → P a' b → a = a')
    {l l' : List α} {vs : List β} (hq : ∀ a ∈ l, Q a) (hq' : ∀ a ∈ l', Q a) (h : List.Forall₂ P l vs) (h' : List.Forall₂ P l' vs) :
    l = l' := by
  induction h generalizing l' with
  | nil => cases h'; rfl
  | @cons a v l vs h1 h2 ih =>
    cases h' with
    | @cons a' _ l' _ h1' h2' =>
      rw [hP a a' v (hq a (by simp)) (hq' a' (by simp)) h1 h1',
        ih (fun x hx => hq x (by simp [hx])) (fun x hx => hq' x (by simp [hx])) h2']

end Lossless

/-- **C69** Two lists of well-formed contents of which the files of a number other than 1041 are the same, header data enabled, have the
same contents with this number, in the same order: the file determines them. -/
theorem C69_file (aux : Bool) (wd wd' : Txt) (w w' : Disk) (cs cs' : List Content) (hcs : ∀ c ∈ cs, c.WellFormed)
    (hcs' : ∀ c ∈ cs', c.WellFormed) (h : HoldsContents (Content.BareJson true aux) true wd w cs)
    (h' : HoldsContents (Content.BareJson true aux) true wd' w' cs') (k : Nat) (hk : k ≠ 1041) (h1 : ∃ c ∈ cs, c.number = k)
    (h2 : ∃ c ∈ cs', c.number = k)
    (he : w.read (Disk.join wd (jsonFile k).toList) = w'.read (Disk.join wd' (jsonFile k).toList)) :
    cs.filter (·.number = k) = cs'.filter (·.number = k) := by
  obtain ⟨t, vs, r1, r2, r3⟩ := h k h1
  obtain ⟨t', vs', s1, s2, s3⟩ := h' k h2
  rw [r1, s1] at he
  cases he
  have := r2.unique s2
  unfold fileJson at this
  obtain ⟨-, rfl⟩ := List.cons.inj (JV.arr.inj this)
  refine Lossless.forall₂_unique (Q := fun c : Content => c.WellFormed ∧ c.number = k) ?_ ?_ ?_ r3 s3
  · rintro a a' b ⟨q1, q2⟩ ⟨q1', q2'⟩ p p'
    exact Lossless.content_inj q1 q1' (q2.trans q2'.symm) (by rw [q2]; exact hk) p p'
  · intro a ha
    obtain ⟨a1, a2⟩ := List.mem_filter.1 ha
    exact ⟨hcs a a1, of_decide_eq_true a2⟩
  · intro a ha
    obtain ⟨a1, a2⟩ := List.mem_filter.1 ha
    exact ⟨hcs' a a1, of_decide_eq_true a2⟩

namespace Json

/-- Printing leaves the paths alone that belong to no object. -/
theorem printAll_rest (fr : Rat → Txt) (q : Txt) (objs : List PyObj) : ∀ {p : Printer} {w : Disk} {H : List PyObj} (_ : Inv fr p w H),
    (∀ o ∈ objs, ∀ n row, objNum o = some n → JSON_SPEC.get? n = some row → q ≠ pathOf p.wd row) →
    (printAll fr p w objs).1.2.read q = w.read q := by
  induction objs with
  | nil => intro p w H _ _; rfl
  | cons o rest ih =>
    intro p w H h hq
    obtain ⟨h1, h2, h3, h4⟩ := h.step o
    have h3 := h3 q (hq o (by simp))
    unfold printAll
    cases hp : p.print fr w o with
    | mk s r =>
      obtain ⟨p', w'⟩ := s
      rw [hp] at h1 h2 h3 h4
      dsimp only at h1 h2 h3 h4
      have hq' : ∀ o ∈ rest, ∀ n row, objNum o = some n → JSON_SPEC.get? n = some row → q ≠ pathOf p'.wd row := by
        rw [h1]; exact fun o ho => hq o (by simp [ho])
      cases r with
      | ok u =>
        cases u
        rcases h4 with ⟨-, h4⟩ | ⟨h4, -⟩
        · dsimp only; rw [ih h4 hq', h3]
        · cases h4
      | error e =>
        rcases h4 with ⟨h4, -⟩ | ⟨-, h4⟩
        · cases h4
        · dsimp only; rw [ih h4 hq', h3]

theorem printAll_sub (fr : Rat → Txt) (objs : List PyObj) : ∀ {p : Printer} {w : Disk} {o : PyObj}, o ∈ (printAll fr p w objs).2 → o ∈ objs := by
  induction objs with
  | nil => intro p w o h; exact h
  | cons x rest ih =>
    intro p w o h
    unfold printAll at h
    split at h
    · rcases List.mem_cons.1 h with rfl | h
      · simp
      · exact List.mem_cons_of_mem _ (ih h)
    · exact List.mem_cons_of_mem _ (ih h)

end Json

namespace Run

/-- The file system after the run of a JSON mode: paths that belong to no object are as before. -/
theorem json_rest {m : Mode} (hm : m = .json ∨ m = .jsonB) {w0 : Disk} {wd : Txt} {box : Box} {c : Converter}
    (h : strategy m w0 wd box = .ok (some c)) (fr : Rat → Txt) (n : Nat) (hn : 0 < n) (w : Disk) (bytes : Bytes) {c' : Converter} {w' : Disk}
    {ok : Bool} (hr : decodeRtcmFile fr n (some bytes) c w = some ((c', w'), ok)) (q : Txt)
    (hq : ∀ o ∈ (messages bytes).filterMap (outcome m), ∀ n row, Json.objNum o = some n → Json.JSON_SPEC.get? n = some row →
      q ≠ Json.pathOf wd row) : w'.read q = w.read q := by
  obtain ⟨c1, a1, -⟩ := json_run hm h fr n hn bytes w
  rw [a1] at hr
  simp only [Option.some.injEq, Prod.mk.injEq] at hr
  obtain ⟨⟨-, rfl⟩, -⟩ := hr
  have hi := Json.Inv.init fr box.json wd w
  obtain ⟨h1, h2, h3⟩ := hi.all ((messages bytes).filterMap (outcome m))
  rw [List.nil_append] at h3
  rw [h3.close.2 q, Json.printAll_rest fr q _ hi hq]
  intro k row hk hne he
  rw [h1] at he
  obtain ⟨o, ho⟩ := List.exists_mem_of_ne_nil _ hne
  obtain ⟨o1, o2⟩ := List.mem_filter.1 ho
  exact hq o (Json.printAll_sub fr _ o1) k row (by simpa using o2) hk he

end Run

/-- **C69** (partial) Two files that are concatenations of frames of accepted well-formed contents, converted in mode JSON-B with header
data enabled, on file systems without failures, each into its work folder: if the files of a message number other than 1041 are the same
afterwards (or both do not exist), then both sources have the same contents with this number, in the same order. Missing: 1041, see
`C69_violated`, and the contents that are not `Accepted`, see `C52_violated`. -/
theorem C69_partial (fr : Rat → Txt) (hfr : ∀ x, IsNum (fr x)) (src : Txt → Option Bytes) (box : Box) (hb : box.json.enable_hdr_data = true)
    (f f' : Txt) (v v' : Disk) (hv : ∀ i, v.fault i = false) (hv' : ∀ i, v'.fault i = false) (hc : Clear v (workFolder f "JSON-B".toList))
    (hc' : Clear v' (workFolder f' "JSON-B".toList)) (cs cs' : List Content) (hcs : ∀ c ∈ cs, c.WellFormed ∧ c.Accepted)
    (hcs' : ∀ c ∈ cs', c.WellFormed ∧ c.Accepted) (hsrc : src f = some (cs.map Content.frame).flatten)
    (hsrc' : src f' = some (cs'.map Content.frame).flatten) :
    ∃ w w', convertFile fr src "JSON-B" (some box) v false f = some ((w, false), .ok .finishedWithoutErrors) ∧
      convertFile fr src "JSON-B" (some box) v' false f' = some ((w', false), .ok .finishedWithoutErrors) ∧
      ∀ k, k ≠ 1041 →
        w.read (Disk.join (workFolder f "JSON-B".toList) (jsonFile k).toList) =
          w'.read (Disk.join (workFolder f' "JSON-B".toList) (jsonFile k).toList) →
        cs.filter (·.number = k) = cs'.filter (·.number = k) := by
  have key : ∀ (f : Txt) (v : Disk), (∀ i, v.fault i = false) → Clear v (workFolder f "JSON-B".toList) → ∀ cs : List Content,
      (∀ c ∈ cs, c.WellFormed ∧ c.Accepted) → src f = some (cs.map Content.frame).flatten →
      ∃ w, convertFile fr src "JSON-B" (some box) v false f = some ((w, false), .ok .finishedWithoutErrors) ∧
        HoldsContents (Content.BareJson true box.json.enable_aux_data) true (workFolder f "JSON-B".toList) w cs ∧
        ∀ k : Nat, (∃ row, Json.JSON_SPEC.get? (k : Int) = some row) → (∀ c ∈ cs, c.number ≠ k) →
          w.read (Disk.join (workFolder f "JSON-B".toList) (jsonFile k).toList) = none := by
    intro f v hv hc cs hcs hsrc
    have hm : modeOf "JSON-B" = some .jsonB := by decide
    obtain ⟨w2, c, s1, s2, s3, s4⟩ := convert_start hm box f v hv
    obtain ⟨c', w', a1, a2, a3⟩ := C52_partial fr hfr w2 _ box c s1 FILE_CHUNK_LEN (by decide) w2 s2 cs hcs
    rw [hb] at a3
    refine ⟨w', ?_, a3, ?_⟩
    · rw [s4 fr src c' w' true (by rw [hsrc]; exact a1), if_pos rfl, a2]; rfl
    · rintro k ⟨row, hrow⟩ hno
      have hpath := Json.path_of (workFolder f "JSON-B".toList) k row hrow
      rw [json_rest (.inr rfl) s1 fr FILE_CHUNK_LEN (by decide) w2 _ a1, ← hpath]
      · exact s3 hc _ (json_under (workFolder_ok hm f) hrow) (json_not_log _ f hrow)
      · obtain ⟨hmsg, -⟩ := messages_clean (cs.map Content.frame) (by
          intro g hg
          obtain ⟨c, hc, rfl⟩ := List.mem_map.1 hg
          exact frame_valid (hcs c hc).1)
        rw [hmsg, ← hpath]
        intro o ho n r hn hr he
        obtain ⟨g, hg, ho⟩ := List.mem_filterMap.1 ho
        obtain ⟨c, hc, rfl⟩ := List.mem_map.1 hg
        obtain ⟨g1, -⟩ := outcome_num (hcs c hc).1 ho
        rw [g1] at hn
        cases hn
        have := Json.path_inj _ hrow hr he
        exact hno c hc (by exact_mod_cast this.symm)
  obtain ⟨w, a1, a2, a3⟩ := key f v hv hc cs hcs hsrc
  obtain ⟨w', b1, b2, b3⟩ := key f' v' hv' hc' cs' hcs' hsrc'
  refine ⟨w, w', a1, b1, fun k hk he => ?_⟩
  have hsome : ∀ cs : List Content, (∀ c ∈ cs, c.WellFormed ∧ c.Accepted) → ∀ c ∈ cs, ∃ row, Json.JSON_SPEC.get? (c.number : Int) = some row :=
    fun cs hcs c hc => (outcome_num (hcs c hc).1 (outcome_bare (hcs c hc).1 (hcs c hc).2)).2.1
  have hempty : ∀ cs : List Content, (¬ ∃ c ∈ cs, c.number = k) → cs.filter (·.number = k) = [] := by
    intro cs h
    rw [List.filter_eq_nil_iff]
    intro c hc hk
    exact h ⟨c, hc, of_decide_eq_true hk⟩
  by_cases h1 : ∃ c ∈ cs, c.number = k <;> by_cases h2 : ∃ c ∈ cs', c.number = k
  · exact C69_file _ _ _ w w' cs cs' (fun c hc => (hcs c hc).1) (fun c hc => (hcs' c hc).1) a2 b2 k hk h1 h2 he
  · exfalso
    obtain ⟨t, -, r1, -⟩ := a2 k h1
    obtain ⟨c, hc, rfl⟩ := h1
    rw [r1, b3 _ (hsome cs hcs c hc) (fun x hx he => h2 ⟨x, hx, he⟩)] at he
    cases he
  · exfalso
    obtain ⟨t, -, r1, -⟩ := b2 k h2
    obtain ⟨c, hc, rfl⟩ := h2
    rw [r1, a3 _ (hsome cs' hcs' c hc) (fun x hx he => h1 ⟨x, hx, he⟩)] at he
    cases he
  · rw [hempty cs h1, hempty cs' h2]

/-- The signal health flags of a NavIC ephemeris set to other values. -/
def Spec.withFlags (e : EphNAVIC Int) (l5 s : Int) : Content := .eph (.navic { e with L5_Flag := l5, S_Flag := s })

/-- **C69** is violated for 1041: files whose NavIC ephemerides have different signal health flags are converted to the same output. -/
theorem C69_violated (fr : Rat → Txt) (src src' : Txt → Option Bytes) (box : Box) (f : Txt) (w : Disk) (hw : ∀ i, w.fault i = false)
    (e : EphNAVIC Int) (a b a' b' : Int) (h : (withFlags e a b).WellFormed) (h' : (withFlags e a' b').WellFormed)
    (hsrc : src f = some (withFlags e a b).frame) (hsrc' : src' f = some (withFlags e a' b').frame) :
    convertFile fr src "JSON-B" (some box) w false f = convertFile fr src' "JSON-B" (some box) w false f := by
  have hm : modeOf "JSON-B" = some .jsonB := by decide
  obtain ⟨w2, c, s1, s2, -, s4⟩ := convert_start hm box f w hw
  have one : ∀ x y, (withFlags e x y).WellFormed → (messages (withFlags e x y).frame).filterMap (outcome .jsonB) = [(withFlags e x y).bareObj] ∧
      (messages (withFlags e x y).frame).countP (supportedMsg .jsonB) = 1 ∧ dirtyGaps (scan [] (withFlags e x y).frame).segs = 0 := by
    intro x y h
    obtain ⟨m1, m2⟩ := messages_clean [(withFlags e x y).frame] (by intro g hg; rw [List.mem_singleton.1 hg]; exact frame_valid h)
    rw [List.flatten_cons, List.flatten_nil, List.append_nil] at m1 m2
    have ho := outcome_bare h (by intro q hq; cases hq)
    refine ⟨by rw [m1, List.filterMap_cons, ho]; rfl, ?_, m2⟩
    rw [m1, List.countP_cons, outcome_supported ho]
    rfl
  obtain ⟨o1, o2, o3⟩ := one a b h
  obtain ⟨o1', o2', o3'⟩ := one a' b' h'
  obtain ⟨c1, r1, r2⟩ := json_run (.inr rfl) s1 fr FILE_CHUNK_LEN (by decide) (withFlags e a b).frame w2
  obtain ⟨c1', r1', r2'⟩ := json_run (.inr rfl) s1 fr FILE_CHUNK_LEN (by decide) (withFlags e a' b').frame w2
  rw [o1] at r1
  rw [o1'] at r1'
  rw [o1, o2, o3] at r2
  rw [o1', o2', o3'] at r2'
  have hp : ∀ p : Json.Printer, p.print fr w2 (withFlags e a b).bareObj = p.print fr w2 (withFlags e a' b').bareObj := fun p => rfl
  have he : ∀ p : Json.Printer, (Json.printAll fr p w2 [(withFlags e a b).bareObj]).1 = (Json.printAll fr p w2 [(withFlags e a' b').bareObj]).1 ∧
      (Json.printAll fr p w2 [(withFlags e a b).bareObj]).2.length = (Json.printAll fr p w2 [(withFlags e a' b').bareObj]).2.length := by
    intro p
    unfold Json.printAll
    rw [hp p]
    split <;> exact ⟨rfl, rfl⟩
  obtain ⟨he1, he2⟩ := he { ctrls := box.json, wd := workFolder f "JSON-B".toList }
  rw [s4 fr src _ _ _ (by rw [hsrc]; exact r1), s4 fr src' _ _ _ (by rw [hsrc']; exact r1'), r2, r2', he1, he2]
  rfl

/-- A NavIC ephemeris. -/
def sampleNavic : EphNAVIC Int :=
  { msgNum := 1041, satNum := 5, weekNum := 200, af0 := -7, af1 := 3, af2 := 0, URA := 2, tc := 100, TGD := -1, delta_n := 5, IODEC := 9,
    L5_Flag := 0, S_Flag := 1, cuc := 1, cus := 2, cic := 3, cis := 4, crc := 5, crs := 6, i_dot := 7, m0 := 8, te := 9, e := 10,
    sqrt_a := 11, omega0 := 12, w := 13, omega_dot := 14, i0 := 15 }

/-- Well-formed ephemerides that differ in the flags. -/
example : (withFlags sampleNavic 0 0).WellFormed ∧ (withFlags sampleNavic 1 0).WellFormed ∧
    withFlags sampleNavic 0 0 ≠ withFlags sampleNavic 1 0 := by
  refine ⟨⟨by simp only [Content.layout, Content.vals, tableOf, withFlags]; decide, by decide +kernel, rfl⟩,
    ⟨by simp only [Content.layout, Content.vals, tableOf, withFlags]; decide, by decide +kernel, rfl⟩, fun h => ?_⟩
  have := congrArg (fun c => match c with | .eph (.navic e) => e.L5_Flag | _ => 0) h
  exact absurd this (by decide)

/-- The hypotheses of `C69_partial` are met, for equal and for different contents. -/
example (f : Txt) : ∃ (w : Disk) (src : Txt → Option Bytes), (∀ i, w.fault i = false) ∧ Clear w (workFolder f "JSON-B".toList) ∧
    (∀ c ∈ exContents, c.WellFormed ∧ c.Accepted) ∧ src f = some (exContents.map Content.frame).flatten ∧
    exContents.filter (·.number = 1095) ≠ (exContents.take 1).filter (·.number = 1095) :=
  ⟨{}, fun _ => some (exContents.map Content.frame).flatten, fun _ => rfl, .inr (fun _ _ => rfl), exContents_ok, rfl, by
    intro h; exact absurd (congrArg List.length h) (by decide +kernel)⟩

end Verif
