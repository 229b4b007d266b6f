import Verif.Lemmas.Margo
import Verif.Spec.MargoText

/-!
# Files of the MARGO printer
-/

namespace Verif
open Spec Decoder

namespace Margo
open Text

/-- A row with a regular file name. -/
structure Named (g : Nat) (k : ObsKind) (slot u : String) (r : Txt × Row) : Prop where
  lt : g < 7
  code : ∃ t, sigCode g t = some slot
  name : r.1 = margoName g k slot u
  len : r.2.2.length = margoSats g

theorem Named.chars {g : Nat} {k : ObsKind} {slot u : String} {r : Txt × Row} (h : Named g k slot u r) :
    charAt r.1 0 = .ok (gnssLetter g) ∧ charAt r.1 1 = .ok (String.ofList [k.letter]) ∧
    String.ofList ((r.1.drop 2).take 2) = slot ∧ r.1.head? ≠ some '/' := by
  obtain ⟨ch, hch, -⟩ := gnss_letter g h.lt
  obtain ⟨t, ht⟩ := h.code
  obtain ⟨b, a, hba⟩ := code_chars ht
  have hne : ch ≠ '/' := by
    have : ∀ g < 7, '/' ∉ (gnssLetter g).toList := by decide +kernel
    intro he
    have := this g h.lt
    rw [hch, he] at this
    simp at this
  have e : String.ofList [ch] = gnssLetter g := by rw [← String.toList_inj, hch]; simp
  have e2 : String.ofList [b, a] = slot := by rw [← String.toList_inj, hba]; simp
  rw [h.name]
  unfold margoName charAt
  rw [hch, hba]
  simp [e, e2, hne]

theorem format_ok (k : ObsKind) : format (String.ofList [k.letter]) = .ok k.format := by
  cases k <;> rfl

theorem code_ok (k : ObsKind) : margoFileId (String.ofList [k.letter]) = .ok k.code := by
  cases k <;> rfl

theorem dir_ok (g : Nat) (hg : g < 7) : dirName (gnssLetter g) = .ok (margoDir g) := by
  have : ∀ g < 7, (match dirName (gnssLetter g) with | .ok n => decide (n = margoDir g) | .error _ => false) = true := by decide +kernel
  have := this g hg
  cases h : dirName (gnssLetter g) with
  | error e => rw [h] at this; simp at this
  | ok n => rw [h] at this; simp at this; rw [this]

theorem join_cons (sep : Txt) (a : Txt) (l : List Txt) (h : l ≠ []) : Text.join sep (a :: l) = a ++ sep ++ Text.join sep l := by
  cases l with
  | nil => exact absurd rfl h
  | cons b l => rfl

theorem join_pair (sep a b : Txt) : Text.join sep [a, b] = a ++ sep ++ b := rfl

theorem sats_pos (g : Nat) (hg : g < 7) : 0 < margoSats g := by
  have : ∀ g < 7, 0 < margoSats g := by decide
  exact this g hg

theorem range_ne {α : Type} (g : Nat) (hg : g < 7) (f : Nat → α) : (List.range (margoSats g)).map f ≠ [] := by
  have := sats_pos g hg
  intro h
  have := congrArg List.length h
  simp at this
  omega

theorem formatCell_eq (k : ObsKind) (x : Cell) (h : x = ofVal k x.val) : formatCell k.format.1 k.format.2 x = cellText k x.val := by
  cases x with
  | nan => rfl
  | num x =>
    simp only [Cell.val, ofVal] at h
    have h : ¬ (k = .doppler ∧ x = 0) := by
      intro he
      rw [if_pos he] at h
      cases h
    unfold formatCell cellText Cell.val
    dsimp only
    rw [if_neg h]
    rfl
  | negZero =>
    dsimp only [Cell.val, ofVal] at h
    have h : k = .doppler ∧ (0 : Rat) = 0 := by
      by_contra he
      rw [if_neg he] at h
      cases h
    unfold formatCell cellText Cell.val
    dsimp only
    rw [if_pos h]
    rfl

/-- In rows of Doppler values zero is negative, and in no others. -/
def Signed (k : ObsKind) (r : Txt × Row) : Prop := ∀ x ∈ r.2.2, x = ofVal k x.val

/-- The text of a row. -/
theorem row_text {g : Nat} {k : ObsKind} {slot u : String} {r : Txt × Row} (h : Named g k slot u r) (hs : Signed k r) :
    formatObsString r.2 k.format.1 k.format.2 = rowText k r.2.1 (r.2.2.map Cell.val) := by
  unfold formatObsString rowText commaLine
  have hne : (r.2.2.map Cell.val).map (cellText k) ≠ [] := by
    intro h0
    have := congrArg List.length h0
    have h2 := sats_pos g h.lt
    simp [h.len] at this
    omega
  rw [join_cons _ _ _ hne, List.map_map]
  congr 3
  apply List.map_congr_left
  intro x hx
  exact formatCell_eq _ _ (hs x hx)

/-- The header of a file. -/
theorem header_text (c : Controls) {g : Nat} {k : ObsKind} {slot u : String} {r : Txt × Row} (h : Named g k slot u r)
    (hc : g = 1 → ChannelsOK c) : ∃ h1 h2, makeHeader c r.1 = .ok (h1, h2) ∧ h1 ++ h2 = headText (settings c) g k slot := by
  obtain ⟨c0, c1, c2, -⟩ := h.chars
  obtain ⟨t, ht⟩ := h.code
  obtain ⟨b, a, hb, -, hf⟩ := (C56_codes g t).2 slot ht
  unfold makeHeader
  rw [c0, ok_bind, c1, ok_bind, format_ok, ok_bind]
  dsimp only
  rw [(gnss_mem g h.lt).2.1, ok_bind, code_ok, ok_bind, c2, makeCrrFrq_ok c h.lt ht hc, ok_bind, hf, ok_bind, pure_ok]
  refine ⟨_, _, rfl, ?_⟩
  · unfold headText commaLine
    rw [join_cons _ _ _ (range_ne g h.lt _), join_cons _ _ _ (range_ne g h.lt _), join_pair, join_pair, hb]
    have e1 : (if k.format.1 < 9 then 9 else k.format.1) = max 9 k.format.1 := by split <;> omega
    have e2 : (if k.format.2 < 4 then 4 else k.format.2) = max 4 k.format.2 := by split <;> omega
    rw [e1, e2, List.map_map]
    rfl

/-- Path of a file. -/
def pathOf (wd : Txt) (g : Nat) (name : Txt) : Txt := Disk.join (Disk.join wd (margoDir g).toList) name

theorem dir_names (g : Nat) (hg : g < 7) : (margoDir g).toList.head? ≠ some '/' ∧ (margoDir g).toList ≠ [] ∧
    (margoDir g).toList.getLast? ≠ some '/' ∧ '/' ∉ (margoDir g).toList := by
  have : ∀ g < 7, (margoDir g).toList.head? ≠ some '/' ∧ (margoDir g).toList ≠ [] ∧
    (margoDir g).toList.getLast? ≠ some '/' ∧ '/' ∉ (margoDir g).toList := by decide +kernel
  exact this g hg

theorem pathOf_inj {wd : Txt} {g g' : Nat} {n n' : Txt} (hg : g < 7) (hg' : g' < 7) (hn : n.head? ≠ some '/') (hn' : n'.head? ≠ some '/')
    (h : pathOf wd g n = pathOf wd g' n') : n = n' := by
  obtain ⟨a1, a2, a3, a4⟩ := dir_names g hg
  obtain ⟨b1, b2, b3, b4⟩ := dir_names g' hg'
  unfold pathOf at h
  rw [Disk.join_join _ _ _ a1 a2 a3 hn, Disk.join_join _ _ _ b1 b2 b3 hn'] at h
  have hd : ∀ (d t : Txt), d ≠ [] → d.head? ≠ some '/' → (d ++ t).head? ≠ some '/' := by
    intro d t h1 h2
    cases d with
    | nil => exact absurd rfl h1
    | cons c d => simpa using h2
  have := Disk.join_inj (hd _ _ a2 a1) (hd _ _ b2 b1) h
  exact (Disk.split_slash a4 b4 this).2

/-- Creating a file. -/
theorem createOfile_cases (p : Printer) (w : Disk) {g : Nat} {k : ObsKind} {slot u : String} {r : Txt × Row} (h : Named g k slot u r) :
    (∃ w' : Disk, p.createOfile w r.1 = ((p, w'), .ok false) ∧ (∀ q, w'.read q = w.read q) ∧ w'.fault = w.fault ∧ ∃ i, w.fault i = true) ∨
    (∃ w' : Disk, p.createOfile w r.1 = (({ p with ofiles := p.ofiles.set r.1 (pathOf p.wd g r.1) }, w'), .ok true) ∧
      (∀ q, w'.read q = if q = pathOf p.wd g r.1 then some [] else w.read q) ∧ w'.fault = w.fault) := by
  obtain ⟨c0, -⟩ := h.chars
  unfold Printer.createOfile
  rw [c0, ok_bind, dir_ok g h.lt]
  dsimp only
  have hm : ∀ path, (∃ w1 : Disk, (if w.isdir path then (w, true) else w.makedirs path) = (w1, true) ∧ (∀ q, w1.read q = w.read q) ∧ w1.fault = w.fault) ∨
      (∃ w1 : Disk, (if w.isdir path then (w, true) else w.makedirs path) = (w1, false) ∧ (∀ q, w1.read q = w.read q) ∧ w1.fault = w.fault ∧
        ∃ i, w.fault i = true) := by
    intro path
    split
    · exact .inl ⟨w, rfl, fun _ => rfl, rfl⟩
    · unfold Disk.makedirs
      split
      · rename_i hf
        exact .inr ⟨_, rfl, fun _ => rfl, rfl, _, hf⟩
      · exact .inl ⟨_, rfl, fun _ => rfl, rfl⟩
  rcases hm (Disk.join p.wd (margoDir g).toList) with ⟨w1, e1, r1, f1⟩ | ⟨w1, e1, r1, f1, i, hi⟩
  · rw [e1]
    dsimp only
    rw [if_pos rfl]
    by_cases hf : w1.fault w1.calls = true
    · left
      have : w1.openW (Disk.join (Disk.join p.wd (margoDir g).toList) r.1) = ({ w1 with calls := w1.calls + 1 }, false) := by
        unfold Disk.openW; rw [if_pos hf]
      rw [this]
      exact ⟨_, rfl, fun q => r1 q, f1, _, by rw [← f1]; exact hf⟩
    · right
      have : w1.openW (Disk.join (Disk.join p.wd (margoDir g).toList) r.1) =
          ({ w1 with calls := w1.calls + 1, files := w1.files.set (Disk.join (Disk.join p.wd (margoDir g).toList) r.1) [] }, true) := by
        unfold Disk.openW; rw [if_neg hf]
      rw [this]
      refine ⟨_, rfl, ?_, f1⟩
      intro q
      show PyDict.get? (PyDict.set _ _ _) q = _
      rw [PyDict.get?_set]
      split
      · rw [if_pos (by assumption)]
      · rw [if_neg (by assumption)]
        exact r1 q
  · left
    rw [e1]
    exact ⟨w1, rfl, r1, f1, i, hi⟩

/-- Appending a row: to the open file; or to a new file with header; or, if the file cannot be created, nowhere. -/
theorem append_cases (p : Printer) (w : Disk) {g : Nat} {k : ObsKind} {slot u : String} {r : Txt × Row} (h : Named g k slot u r)
    (hc : g = 1 → ChannelsOK p.ctrl) (line : Txt) :
    (∃ path, p.ofiles.get? r.1 = some path ∧ p.append w r.1 line = ((p, w.write path line), .ok ())) ∨
    (p.ofiles.get? r.1 = none ∧ ∃ w' : Disk, p.append w r.1 line = ((p, w'), .ok ()) ∧ (∀ q, w'.read q = w.read q) ∧ w'.fault = w.fault ∧
      ∃ i, w.fault i = true) ∨
    (p.ofiles.get? r.1 = none ∧ ∃ w' : Disk,
      p.append w r.1 line = (({ p with ofiles := p.ofiles.set r.1 (pathOf p.wd g r.1) }, w'), .ok ()) ∧
      (∀ q, w'.read q = if q = pathOf p.wd g r.1 then some (headText (settings p.ctrl) g k slot ++ line) else w.read q) ∧
      w'.fault = w.fault) := by
  unfold Printer.append
  cases hg : p.ofiles.get? r.1 with
  | some path =>
    left
    refine ⟨path, rfl, ?_⟩
    rw [if_pos (by rw [PyDict.mem_eq, hg]; rfl)]
    unfold Printer.writeTo
    rw [hg]
  | none =>
    right
    rw [if_neg (by rw [PyDict.mem_eq, hg]; simp)]
    rcases createOfile_cases p w h with ⟨w', e1, r1, f1, hi⟩ | ⟨w', e1, r1, f1⟩
    · left
      rw [e1]
      exact ⟨rfl, w', rfl, r1, f1, hi⟩
    · right
      refine ⟨rfl, ?_⟩
      rw [e1]
      dsimp only
      obtain ⟨h1, h2, e2, e3⟩ := header_text p.ctrl h hc
      rw [e2]
      dsimp only
      have hget : (p.ofiles.set r.1 (pathOf p.wd g r.1)).get? r.1 = some (pathOf p.wd g r.1) := by rw [PyDict.get?_set, if_pos rfl]
      have hwr : ∀ (w : Disk) (t : Txt), Printer.writeTo { p with ofiles := p.ofiles.set r.1 (pathOf p.wd g r.1) } w r.1 t =
          (({ p with ofiles := p.ofiles.set r.1 (pathOf p.wd g r.1) }, w.write (pathOf p.wd g r.1) t), .ok ()) := by
        intro w t
        unfold Printer.writeTo
        dsimp only
        rw [hget]
      rw [hwr]
      dsimp only
      rw [hwr]
      dsimp only
      rw [hwr]
      refine ⟨_, rfl, ?_, f1⟩
      intro q
      simp only [Disk.read_write, r1]
      by_cases hq : q = pathOf p.wd g r.1
      · simp [hq, ← e3]
      · simp [hq]

/-- Rows of a file. -/
def rowsIn (n : Txt) (R : List (Txt × Row)) : List (Txt × Row) := R.filter (fun r => r.1 == n)

theorem rowsIn_append (n : Txt) (R S : List (Txt × Row)) : rowsIn n (R ++ S) = rowsIn n R ++ rowsIn n S := by
  unfold rowsIn; exact List.filter_append ..

/-- The text of the rows of a file. -/
def rowsText (k : ObsKind) (R : List (Txt × Row)) : Txt := R.flatMap (fun r => rowText k r.2.1 (r.2.2.map Cell.val))

/-- State of the printer and the files after the rows `R` were printed. -/
structure FInv (c : Controls) (wd : Txt) (w0 : Disk) (p : Printer) (w : Disk) (R : List (Txt × Row)) : Prop where
  ctrl : p.ctrl = c
  dir : p.wd = wd
  fault : w.fault = w0.fault
  opened : ∀ g k slot u t path, g < 7 → sigCode g t = some slot → p.ofiles.get? (margoName g k slot u) = some path →
    path = pathOf wd g (margoName g k slot u) ∧ ∃ pre suf, rowsIn (margoName g k slot u) R = pre ++ suf ∧
      w.read path = some (headText (settings c) g k slot ++ rowsText k suf) ∧ ((∀ i, w0.fault i = false) → pre = [])
  all : (∀ i, w0.fault i = false) → ∀ r ∈ R, p.ofiles.get? r.1 ≠ none
  frame : ∀ q, (∀ r ∈ R, ∀ g k slot u, Named g k slot u r → q ≠ pathOf wd g r.1) → w.read q = w0.read q

theorem FInv.init (c : Controls) (wd : Txt) (w : Disk) : FInv c wd w { ctrl := c, wd := wd } w [] :=
  ⟨rfl, rfl, rfl, fun _ _ _ _ _ _ _ _ h => by simp [PyDict.get?_nil] at h, fun _ _ h => by simp at h, fun _ _ => rfl⟩

theorem FInv.step {c : Controls} {wd : Txt} {w0 : Disk} {p : Printer} {w : Disk} {R : List (Txt × Row)} (hI : FInv c wd w0 p w R)
    {g : Nat} {k : ObsKind} {slot u : String} {r : Txt × Row} (h : Named g k slot u r) (hc : g = 1 → ChannelsOK c) :
    ∃ p' w', p.append w r.1 (rowText k r.2.1 (r.2.2.map Cell.val)) = ((p', w'), .ok ()) ∧ FInv c wd w0 p' w' (R ++ [r]) := by
  obtain ⟨t0, ht0⟩ := h.code
  have hlen : slot.toList.length = 2 := by obtain ⟨b, a, hb⟩ := code_chars ht0; simp [hb]
  have hr0 : r.1.head? ≠ some '/' := h.chars.2.2.2
  -- names that are regular
  have hhead : ∀ g' k' slot' u' t', g' < 7 → sigCode g' t' = some slot' → (margoName g' k' slot' u').head? ≠ some '/' := by
    intro g' k' slot' u' t' h1 h2
    exact (Named.chars (r := (margoName g' k' slot' u', 0, List.replicate (margoSats g') .nan))
      ⟨h1, ⟨t', h2⟩, rfl, by simp⟩).2.2.2
  have hsame : ∀ g' k' slot' u' t', g' < 7 → sigCode g' t' = some slot' → margoName g' k' slot' u' = r.1 →
      g' = g ∧ k' = k ∧ slot' = slot ∧ u' = u := by
    intro g' k' slot' u' t' h1 h2 he
    obtain ⟨b, a, hb⟩ := code_chars h2
    rw [h.name] at he
    exact name_inj h1 h.lt (by simp [hb]) hlen he
  have hframe : ∀ q, (∀ r' ∈ R ++ [r], ∀ g k slot u, Named g k slot u r' → q ≠ pathOf wd g r'.1) → w.read q = w0.read q ∧ q ≠ pathOf wd g r.1 := by
    intro q hq
    exact ⟨hI.frame q (fun r' hr' => hq r' (by simp [hr'])), hq r (by simp) g k slot u h⟩
  have hone : rowsIn r.1 [r] = [r] := by simp [rowsIn]
  have hnone : ∀ n, n ≠ r.1 → rowsIn n [r] = [] := by
    intro n hn; simp [rowsIn, Ne.symm hn]
  rcases append_cases p w h (by rw [hI.ctrl]; exact hc) (rowText k r.2.1 (r.2.2.map Cell.val)) with
    ⟨path, hg, e⟩ | ⟨hg, w', e, r1, f1, i, hi⟩ | ⟨hg, w', e, r1, f1⟩
  · obtain ⟨hpath, pre, suf, s1, s2, s3⟩ := hI.opened g k slot u t0 path h.lt ht0 (by rw [← h.name]; exact hg)
    rw [← h.name] at hpath s1
    refine ⟨_, _, e, hI.ctrl, hI.dir, hI.fault, ?_, ?_, ?_⟩
    · intro g' k' slot' u' t' path' h1 h2 h3
      obtain ⟨hp', pre', suf', q1, q2, q3⟩ := hI.opened g' k' slot' u' t' path' h1 h2 h3
      refine ⟨hp', ?_⟩
      by_cases he : margoName g' k' slot' u' = r.1
      · obtain ⟨rfl, rfl, rfl, rfl⟩ := hsame _ _ _ _ _ h1 h2 he
        rw [he] at h3 hp' ⊢
        rw [hg] at h3; cases h3
        refine ⟨pre, suf ++ [r], ?_, ?_, s3⟩
        · rw [rowsIn_append, s1, hone, List.append_assoc]
        · rw [Disk.read_write, if_pos rfl, s2]
          simp [rowsText, List.append_assoc]
      · refine ⟨pre', suf', ?_, ?_, q3⟩
        · rw [rowsIn_append, q1, hnone _ he, List.append_nil]
        · rw [Disk.read_write, if_neg, q2]
          intro hpp
          rw [hp', hpath] at hpp
          exact he (pathOf_inj h1 h.lt (hhead _ _ _ _ _ h1 h2) hr0 hpp)
    · intro hnf r' hr'
      rcases List.mem_append.1 hr' with hr' | hr'
      · exact hI.all hnf r' hr'
      · rw [List.mem_singleton.1 hr', hg]; simp
    · intro q hq
      obtain ⟨a1, a2⟩ := hframe q hq
      rw [Disk.read_write, if_neg (by rw [hpath]; exact a2), a1]
  · refine ⟨_, _, e, hI.ctrl, hI.dir, f1.trans hI.fault, ?_, ?_, ?_⟩
    · intro g' k' slot' u' t' path' h1 h2 h3
      obtain ⟨hp', pre', suf', q1, q2, q3⟩ := hI.opened g' k' slot' u' t' path' h1 h2 h3
      refine ⟨hp', pre', suf', ?_, by rw [r1]; exact q2, q3⟩
      rw [rowsIn_append, q1, hnone, List.append_nil]
      intro he
      rw [he, hg] at h3; cases h3
    · intro hnf
      rw [hI.fault, hnf] at hi; cases hi
    · intro q hq
      rw [r1]; exact (hframe q hq).1
  · refine ⟨_, _, e, hI.ctrl, hI.dir, f1.trans hI.fault, ?_, ?_, ?_⟩
    · intro g' k' slot' u' t' path' h1 h2 h3
      dsimp only at h3
      rw [PyDict.get?_set, hI.dir] at h3
      by_cases he : margoName g' k' slot' u' = r.1
      · obtain ⟨rfl, rfl, rfl, rfl⟩ := hsame _ _ _ _ _ h1 h2 he
        rw [if_pos he] at h3
        cases h3
        rw [he]
        refine ⟨rfl, rowsIn r.1 R, [r], ?_, ?_, ?_⟩
        · rw [rowsIn_append, hone]
        · rw [r1, hI.dir, if_pos rfl, hI.ctrl]; simp [rowsText]
        · intro hnf
          unfold rowsIn
          rw [List.filter_eq_nil_iff]
          intro r' hr' heq
          have heq : r'.1 = r.1 := by simpa using heq
          exact hI.all hnf r' hr' (by rw [heq, hg])
      · rw [if_neg he] at h3
        obtain ⟨hp', pre', suf', q1, q2, q3⟩ := hI.opened g' k' slot' u' t' path' h1 h2 h3
        refine ⟨hp', pre', suf', ?_, ?_, q3⟩
        · rw [rowsIn_append, q1, hnone _ he, List.append_nil]
        · rw [r1, hI.dir, if_neg, q2]
          intro hpp
          rw [hp'] at hpp
          exact he (pathOf_inj h1 h.lt (hhead _ _ _ _ _ h1 h2) hr0 hpp)
    · intro hnf r' hr'
      dsimp only
      rw [PyDict.get?_set]
      split
      · simp
      · rename_i hne
        rcases List.mem_append.1 hr' with hr' | hr'
        · exact hI.all hnf r' hr'
        · exact absurd (by rw [List.mem_singleton.1 hr']) hne
    · intro q hq
      obtain ⟨a1, a2⟩ := hframe q hq
      rw [r1, hI.dir, if_neg a2, a1]

theorem FInv.rows {c : Controls} {wd : Txt} {w0 : Disk} : ∀ (rs : List (Txt × Row)) {p : Printer} {w : Disk} {R : List (Txt × Row)},
    FInv c wd w0 p w R → (∀ r ∈ rs, ∃ g k slot u, Named g k slot u r ∧ Signed k r ∧ (g = 1 → ChannelsOK c)) →
    ∃ p' w', p.printRows w rs = ((p', w'), .ok ()) ∧ FInv c wd w0 p' w' (R ++ rs)
  | [], p, w, R, hI, _ => ⟨p, w, rfl, by simpa using hI⟩
  | r :: rs, p, w, R, hI, hn => by
    obtain ⟨g, k, slot, u, h, hs, hc⟩ := hn r (by simp)
    obtain ⟨p', w', e, hI'⟩ := hI.step h hc
    obtain ⟨p'', w'', e', hI''⟩ := FInv.rows rs hI' (fun r' hr' => hn r' (by simp [hr']))
    refine ⟨p'', w'', ?_, by simpa using hI''⟩
    obtain ⟨f, row⟩ := r
    unfold Printer.printRows
    have hcs := h.chars.2.1
    dsimp only at hcs
    rw [hcs, ok_bind, format_ok]
    have htext := row_text h hs
    dsimp only at htext e ⊢
    rw [htext, e]
    exact e'

end Margo
end Verif
