import Verif.Lemmas.Dict
import Verif.Lemmas.Json
import Verif.Props.Printer
import Verif.Spec.EphNames

/-!
# C45, C46, C55: JSON output
-/

namespace Verif
open Spec Decoder Conv

namespace Json

/-- Path of the file of a message number. -/
def pathOf (wd : Txt) (row : SpecRow) : Txt := Disk.join (Disk.join wd row.dir.toList) row.file.toList

theorem spec_nodup : (JSON_SPEC.map (fun p => p.2.dir.toList ++ '/' :: p.2.file.toList)).Nodup := by decide +kernel

theorem spec_keys : (PyDict.keys JSON_SPEC).Nodup := by decide +kernel

theorem spec_names : ∀ p ∈ JSON_SPEC, p.2.dir.toList.head? ≠ some '/' ∧ p.2.dir.toList ≠ [] ∧
    p.2.dir.toList.getLast? ≠ some '/' ∧ p.2.file.toList.head? ≠ some '/' := by decide +kernel

/-- The file of a row is `wd/dir/file`. -/
theorem pathOf_eq (wd : Txt) {n : Int} {row : SpecRow} (h : JSON_SPEC.get? n = some row) :
    pathOf wd row = Disk.join wd (row.dir.toList ++ '/' :: row.file.toList) := by
  obtain ⟨h1, h2, h3, h4⟩ := spec_names _ (PyDict.mem_of_get? h)
  exact Disk.join_join wd _ _ h1 h2 h3 h4

/-- Different numbers have different files. -/
theorem path_inj (wd : Txt) {n m : Int} {r s : SpecRow} (hn : JSON_SPEC.get? n = some r) (hm : JSON_SPEC.get? m = some s)
    (h : pathOf wd r = pathOf wd s) : n = m := by
  rw [pathOf_eq wd hn, pathOf_eq wd hm] at h
  have hh : ∀ {n : Int} {r : SpecRow}, JSON_SPEC.get? n = some r → (r.dir.toList ++ '/' :: r.file.toList).head? ≠ some '/' := by
    intro n r hr
    obtain ⟨h1, h2, -, -⟩ := spec_names _ (PyDict.mem_of_get? hr)
    dsimp only at h1 h2
    cases hd : r.dir.toList with
    | nil => exact absurd hd h2
    | cons c cs => rw [hd] at h1; simpa using h1
  have he := Disk.join_inj (hh hn) (hh hm) h
  have h1 := PyDict.mem_of_get? hn
  have h2 := PyDict.mem_of_get? hm
  exact congrArg Prod.fst (List.inj_on_of_nodup_map spec_nodup h1 h2 he)

/-- The header element: the class of the objects in the file. -/
def header (c : Cls) : PyVal := .dict [(.str "source_type", .str (clsName c))]

/-- What `__append` writes before the first element. -/
def headText (fr : Rat → Txt) (c : Cls) : Txt := ['[', '\r'] ++ dumps fr none (header c)

/-- What is written for one object. -/
def lineText (fr : Rat → Txt) (c : Controls) (o : PyObj) : Txt := [',', '\r'] ++ objText fr c o

/-- Creation of a file. -/
theorem createOfile_cases (p : Printer) (w : Disk) (n : Int) (row : SpecRow) :
    (∃ w', p.createOfile w n row = ((p, w'), .error .assertionError) ∧ ∀ q, w'.read q = w.read q) ∨
    (∃ w', p.createOfile w n row = (({ p with ofiles := p.ofiles.set n (pathOf p.wd row) }, w'), .ok ()) ∧
      ∀ q, w'.read q = if q = pathOf p.wd row then some [] else w.read q) := by
  unfold Printer.createOfile
  dsimp only
  have hmk : ∀ w1 : Disk, ∀ ok : Bool, (∀ q, w1.read q = w.read q) →
      (∃ w', (if ok then
          (if (w1.openW (pathOf p.wd row)).2 then
            (({ p with ofiles := p.ofiles.set n (pathOf p.wd row) }, (w1.openW (pathOf p.wd row)).1), .ok ())
          else ((p, (w1.openW (pathOf p.wd row)).1), .error .assertionError))
        else ((p, w1), .error .assertionError)) = ((p, w'), (.error .assertionError : Py Unit)) ∧ ∀ q, w'.read q = w.read q) ∨
      (∃ w', (if ok then
          (if (w1.openW (pathOf p.wd row)).2 then
            (({ p with ofiles := p.ofiles.set n (pathOf p.wd row) }, (w1.openW (pathOf p.wd row)).1), .ok ())
          else ((p, (w1.openW (pathOf p.wd row)).1), .error .assertionError))
        else ((p, w1), .error .assertionError)) =
          (({ p with ofiles := p.ofiles.set n (pathOf p.wd row) }, w'), (.ok () : Py Unit)) ∧
        ∀ q, w'.read q = if q = pathOf p.wd row then some [] else w.read q) := by
    intro w1 ok h1
    cases ok with
    | false => exact .inl ⟨w1, rfl, h1⟩
    | true =>
      have h2 := fun q => Disk.read_openW w1 (pathOf p.wd row) q
      cases hb : (w1.openW (pathOf p.wd row)).2 with
      | false =>
        refine .inl ⟨(w1.openW (pathOf p.wd row)).1, rfl, fun q => ?_⟩
        rw [h2, hb, h1]; simp
      | true =>
        refine .inr ⟨(w1.openW (pathOf p.wd row)).1, rfl, fun q => ?_⟩
        rw [h2, hb, h1]; simp
  cases hd : w.isdir (Disk.join p.wd row.dir.toList) with
  | true => exact hmk w true (fun _ => rfl)
  | false => exact hmk _ _ (fun q => Disk.read_makedirs w _ q)

/-- What `print` does: nothing is changed and `AssertionError` is raised, or the text of the object is added to the file of its
number, which is created if it is not open yet. -/
theorem print_cases (fr : Rat → Txt) (p : Printer) (w : Disk) (o : PyObj) :
    (∃ w', p.print fr w o = ((p, w'), .error .assertionError) ∧ ∀ q, w'.read q = w.read q) ∨
    (∃ n row, objNum o = some n ∧ JSON_SPEC.get? n = some row ∧
      ((∃ path, p.ofiles.get? n = some path ∧ p.print fr w o = ((p, w.write path (lineText fr p.ctrls o)), .ok ())) ∨
       (p.ofiles.get? n = none ∧ ∃ w' : Disk, (∀ q, w'.read q = if q = pathOf p.wd row then some [] else w.read q) ∧
        p.print fr w o = (({ p with ofiles := p.ofiles.set n (pathOf p.wd row) },
          (w'.write (pathOf p.wd row) (headText fr o.cls)).write (pathOf p.wd row) (lineText fr p.ctrls o)), .ok ())))) := by
  unfold Printer.print
  dsimp only
  cases hn : objNum o with
  | none => exact .inl ⟨w, rfl, fun _ => rfl⟩
  | some n =>
    cases hr : JSON_SPEC.get? n with
    | none =>
      rw [Option.bind_some, hr]
      exact .inl ⟨w, rfl, fun _ => rfl⟩
    | some row =>
      rw [Option.bind_some, hr]
      dsimp only [Option.map_some]
      unfold Printer.append
      cases hg : p.ofiles.get? n with
      | some path =>
        right
        refine ⟨n, row, rfl, hr, .inl ⟨path, hg, ?_⟩⟩
        rw [if_pos (by rw [PyDict.mem_eq, hg]; rfl)]
        unfold Printer.writeTo
        rw [hg]
        rfl
      | none =>
        rw [if_neg (by rw [PyDict.mem_eq, hg]; simp)]
        rcases createOfile_cases p w n row with ⟨w', h1, h2⟩ | ⟨w', h1, h2⟩
        · rw [h1]
          exact .inl ⟨w', rfl, h2⟩
        · rw [h1]
          right
          refine ⟨n, row, rfl, hr, .inr ⟨hg, w', h2, ?_⟩⟩
          dsimp only
          unfold Printer.writeTo
          dsimp only
          rw [PyDict.get?_set, if_pos rfl]
          dsimp only
          rw [PyDict.get?_set, if_pos rfl]
          rfl

/-- The objects with a message number. -/
def ofNumber (n : Int) (l : List PyObj) : List PyObj := l.filter (fun o => objNum o == some n)

/-- Contents of an open file to which the objects `l` have been printed. -/
def openText (fr : Rat → Txt) (c : Controls) : List PyObj → Txt
  | [] => []
  | o :: l => headText fr o.cls ++ (o :: l).flatMap (lineText fr c)

theorem openText_snoc (fr : Rat → Txt) (c : Controls) (l : List PyObj) (o : PyObj) (h : l ≠ []) :
    openText fr c (l ++ [o]) = openText fr c l ++ lineText fr c o := by
  cases l with
  | nil => exact absurd rfl h
  | cons x l => simp [openText, List.append_assoc]

/-- `H` are the objects printed successfully so far; `p` and `w` are the printer and the file system. -/
structure Inv (fr : Rat → Txt) (p : Printer) (w : Disk) (H : List PyObj) : Prop where
  nodup : (PyDict.keys p.ofiles).Nodup
  closed : ∀ n, ofNumber n H = [] → p.ofiles.get? n = none
  opened : ∀ n, ofNumber n H ≠ [] → ∃ row, JSON_SPEC.get? n = some row ∧ p.ofiles.get? n = some (pathOf p.wd row) ∧
    w.read (pathOf p.wd row) = some (openText fr p.ctrls (ofNumber n H))

/-- The invariant depends only on the files of the printer. -/
theorem Inv.frame {fr : Rat → Txt} {p : Printer} {w w' : Disk} {H : List PyObj} (h : Inv fr p w H)
    (hw : ∀ n row, JSON_SPEC.get? n = some row → w'.read (pathOf p.wd row) = w.read (pathOf p.wd row)) : Inv fr p w' H := by
  refine ⟨h.nodup, h.closed, fun n hn => ?_⟩
  obtain ⟨row, h1, h2, h3⟩ := h.opened n hn
  exact ⟨row, h1, h2, by rw [hw n row h1, h3]⟩

theorem Inv.init (fr : Rat → Txt) (c : Controls) (wd : Txt) (w : Disk) : Inv fr { ctrls := c, wd := wd } w [] :=
  ⟨by simp [PyDict.keys], fun _ _ => rfl, fun _ h => absurd rfl h⟩

theorem ofNumber_snoc (n : Int) (H : List PyObj) (o : PyObj) :
    ofNumber n (H ++ [o]) = if objNum o = some n then ofNumber n H ++ [o] else ofNumber n H := by
  unfold ofNumber
  rw [List.filter_append]
  by_cases h : objNum o = some n
  · rw [if_pos h, List.filter_cons_of_pos (by simp [h])]; rfl
  · rw [if_neg h, List.filter_cons_of_neg (by simp [h])]; simp

/-- One step keeps the invariant; only the file of the number of the object is changed. -/
theorem Inv.step {fr : Rat → Txt} {p : Printer} {w : Disk} {H : List PyObj} (h : Inv fr p w H) (o : PyObj) :
    (p.print fr w o).1.1.wd = p.wd ∧ (p.print fr w o).1.1.ctrls = p.ctrls ∧
    (∀ q, (∀ n row, objNum o = some n → JSON_SPEC.get? n = some row → q ≠ pathOf p.wd row) →
      (p.print fr w o).1.2.read q = w.read q) ∧
    (((p.print fr w o).2 = .ok () ∧ Inv fr (p.print fr w o).1.1 (p.print fr w o).1.2 (H ++ [o])) ∨
     ((p.print fr w o).2 = .error .assertionError ∧ Inv fr (p.print fr w o).1.1 (p.print fr w o).1.2 H)) := by
  rcases print_cases fr p w o with ⟨w', h1, h2⟩ | ⟨n, row, hn, hr, ⟨path, hg, h1⟩ | ⟨hg, w', h2, h1⟩⟩
  · rw [h1]
    exact ⟨rfl, rfl, fun q _ => h2 q, .inr ⟨rfl, h.frame (fun _ _ _ => h2 _)⟩⟩
  · rw [h1]
    have hne : ofNumber n H ≠ [] := fun h0 => by rw [h.closed n h0] at hg; cases hg
    obtain ⟨row', r1, r2, r3⟩ := h.opened n hne
    rw [hr] at r1; cases r1
    rw [hg] at r2; cases r2
    refine ⟨rfl, rfl, fun q hq => ?_, .inl ⟨rfl, h.nodup, fun m hm => ?_, fun m hm => ?_⟩⟩
    · rw [Disk.read_write, if_neg (hq n row hn hr)]
    · rw [ofNumber_snoc] at hm
      by_cases e : objNum o = some m
      · rw [if_pos e] at hm; simp at hm
      · rw [if_neg e] at hm; exact h.closed m hm
    · dsimp only
      rw [ofNumber_snoc] at hm ⊢
      by_cases e : objNum o = some m
      · rw [hn] at e; cases e
        rw [if_pos hn]
        refine ⟨row, hr, hg, ?_⟩
        rw [Disk.read_write, if_pos rfl, r3, openText_snoc _ _ _ _ hne]
        rfl
      · rw [if_neg e] at hm ⊢
        obtain ⟨row', s1, s2, s3⟩ := h.opened m hm
        refine ⟨row', s1, s2, ?_⟩
        rw [Disk.read_write, if_neg, s3]
        intro he
        exact e (by rw [hn, path_inj p.wd s1 hr he])
  · rw [h1]
    have hno : ofNumber n H = [] := by
      by_contra h0
      obtain ⟨row', -, r2, -⟩ := h.opened n h0
      rw [hg] at r2; cases r2
    refine ⟨rfl, rfl, fun q hq => ?_, .inl ⟨rfl, ?_, fun m hm => ?_, fun m hm => ?_⟩⟩
    · have := hq n row hn hr
      rw [Disk.read_write, if_neg this, Disk.read_write, if_neg this, h2, if_neg this]
    · exact PyDict.nodup_set h.nodup _ _
    · dsimp only
      rw [ofNumber_snoc] at hm
      by_cases e : objNum o = some m
      · rw [if_pos e] at hm; simp at hm
      · rw [if_neg e] at hm
        rw [PyDict.get?_set, if_neg (by intro he; subst he; exact e hn)]
        exact h.closed m hm
    · dsimp only
      rw [ofNumber_snoc] at hm ⊢
      by_cases e : objNum o = some m
      · rw [hn] at e; cases e
        rw [if_pos hn]
        refine ⟨row, hr, by rw [PyDict.get?_set, if_pos rfl], ?_⟩
        rw [Disk.read_write, if_pos rfl, Disk.read_write, if_pos rfl, h2, if_pos rfl, hno]
        simp [openText]
      · rw [if_neg e] at hm ⊢
        obtain ⟨row', s1, s2, s3⟩ := h.opened m hm
        refine ⟨row', s1, ?_, ?_⟩
        · rw [PyDict.get?_set, if_neg (by intro he; subst he; exact e hn)]
          exact s2
        · have hne : pathOf p.wd row' ≠ pathOf p.wd row := by
            intro he
            exact e (by rw [hn, path_inj p.wd s1 hr he])
          rw [Disk.read_write, if_neg hne, Disk.read_write, if_neg hne, h2, if_neg hne, s3]

theorem read_close_fold (l : List (Int × Txt)) (w : Disk) (q : Txt) (hn : (l.map (·.2)).Nodup) :
    (l.foldl (fun w f => w.write f.2 ['\r', ']']) w).read q =
      if q ∈ l.map (·.2) then some ((w.read q).getD [] ++ ['\r', ']']) else w.read q := by
  induction l generalizing w with
  | nil => simp
  | cons f l ih =>
    rw [List.foldl_cons, ih _ (List.nodup_cons.1 (by simpa using hn)).2, List.map_cons]
    have hf : f.2 ∉ l.map (·.2) := (List.nodup_cons.1 (by simpa using hn)).1
    by_cases hq : q = f.2
    · subst hq
      rw [if_neg hf, if_pos (by simp), Disk.read_write, if_pos rfl]
    · rw [Disk.read_write, if_neg hq]
      by_cases h2 : q ∈ l.map (·.2)
      · rw [if_pos h2, if_pos (List.mem_cons_of_mem _ h2)]
      · rw [if_neg h2, if_neg (by simp only [List.mem_cons, not_or]; exact ⟨hq, h2⟩)]

/-- Closing ends each open file and changes no other. -/
theorem Inv.close {fr : Rat → Txt} {p : Printer} {w : Disk} {H : List PyObj} (h : Inv fr p w H) :
    (∀ n row, JSON_SPEC.get? n = some row → ofNumber n H ≠ [] →
      (p.close w).2.read (pathOf p.wd row) = some (openText fr p.ctrls (ofNumber n H) ++ ['\r', ']'])) ∧
    (∀ q, (∀ n row, JSON_SPEC.get? n = some row → ofNumber n H ≠ [] → q ≠ pathOf p.wd row) → (p.close w).2.read q = w.read q) := by
  have hent : ∀ n path, (n, path) ∈ p.ofiles → ∃ row, JSON_SPEC.get? n = some row ∧ path = pathOf p.wd row ∧ ofNumber n H ≠ [] := by
    intro n path hm
    have hg := PyDict.get?_of_mem h.nodup hm
    have hne : ofNumber n H ≠ [] := fun h0 => by rw [h.closed n h0] at hg; cases hg
    obtain ⟨row, r1, r2, -⟩ := h.opened n hne
    rw [hg] at r2
    exact ⟨row, r1, Option.some.inj r2, hne⟩
  have hnd : (p.ofiles.map (·.2)).Nodup := by
    apply List.Nodup.map_on _ h.nodup.of_map
    rintro ⟨n, a⟩ hx ⟨m, b⟩ hy hab
    dsimp only at hab
    subst hab
    obtain ⟨r, r1, r2, -⟩ := hent n a hx
    obtain ⟨s, s1, s2, -⟩ := hent m a hy
    rw [path_inj p.wd r1 s1 (r2.symm.trans s2)]
  unfold Printer.close
  dsimp only
  constructor
  · intro n row hr hne
    obtain ⟨row', r1, r2, r3⟩ := h.opened n hne
    rw [hr] at r1; cases r1
    rw [read_close_fold _ _ _ hnd, if_pos (List.mem_map.2 ⟨_, PyDict.mem_of_get? r2, rfl⟩), r3]
    rfl
  · intro q hq
    rw [read_close_fold _ _ _ hnd, if_neg]
    intro hm
    obtain ⟨⟨n, path⟩, hm', rfl⟩ := List.mem_map.1 hm
    obtain ⟨row, r1, r2, r3⟩ := hent n path hm'
    exact hq n row r1 r3 r2

/-- A sequence of calls of `print`: the final state and the objects for which the call did not raise. -/
def printAll (fr : Rat → Txt) (p : Printer) (w : Disk) : List PyObj → (Printer × Disk) × List PyObj
  | [] => ((p, w), [])
  | o :: rest =>
    match p.print fr w o with
    | ((p, w), .ok ()) => ((printAll fr p w rest).1, o :: (printAll fr p w rest).2)
    | ((p, w), .error _) => printAll fr p w rest

theorem Inv.all {fr : Rat → Txt} (objs : List PyObj) : ∀ {p : Printer} {w : Disk} {H : List PyObj} (_ : Inv fr p w H),
    (printAll fr p w objs).1.1.wd = p.wd ∧ (printAll fr p w objs).1.1.ctrls = p.ctrls ∧
    Inv fr (printAll fr p w objs).1.1 (printAll fr p w objs).1.2 (H ++ (printAll fr p w objs).2) := by
  induction objs with
  | nil => intro p w H h; simpa [printAll] using h
  | cons o rest ih =>
    intro p w H h
    obtain ⟨h1, h2, -, h4⟩ := h.step o
    unfold printAll
    cases hp : p.print fr w o with
    | mk s r =>
      obtain ⟨p', w'⟩ := s
      rw [hp] at h1 h2 h4
      dsimp only at h1 h2 h4
      cases r with
      | ok u =>
        cases u
        rcases h4 with ⟨-, h4⟩ | ⟨h4, -⟩
        · obtain ⟨i1, i2, i3⟩ := ih h4
          refine ⟨by rw [← h1]; exact i1, by rw [← h2]; exact i2, ?_⟩
          simpa [List.append_assoc] using i3
        · cases h4
      | error e =>
        rcases h4 with ⟨h4, -⟩ | ⟨-, h4⟩
        · cases h4
        · obtain ⟨i1, i2, i3⟩ := ih h4
          exact ⟨by rw [← h1]; exact i1, by rw [← h2]; exact i2, i3⟩

/-- The text of a closed file is a JSON array. -/
theorem openText_json (fr : Rat → Txt) (hfr : ∀ x, IsNum (fr x)) (c : Controls) (o : PyObj) (l : List PyObj) :
    JsonText (.arr (jv fr (header o.cls) :: (o :: l).map (fun x => jv fr (objVal c x)))) (openText fr c (o :: l) ++ ['\r', ']']) := by
  have hcr : Ws ['\r'] := by intro c hc; exact .inr (.inr (.inr (List.mem_singleton.1 hc)))
  have hel := elems_join hcr hcr ['\r'] hcr (jv fr (header o.cls) :: (o :: l).map (fun x => jv fr (objVal c x)))
    (dumps fr none (header o.cls) :: (o :: l).map (objText fr c)) ?_ (by simp)
  · have := Padded.mk ws_nil (Denotes.arr hel) ws_nil
    have e : openText fr c (o :: l) ++ ['\r', ']'] =
        [] ++ ('[' :: (['\r'] ++ Text.join [',', '\r'] (dumps fr none (header o.cls) :: (o :: l).map (objText fr c)) ++ ['\r']) ++ [']'])
          ++ [] := by
      have hj : ∀ (t : Txt) (l : List PyObj), Text.join [',', '\r'] (t :: l.map (objText fr c)) = t ++ l.flatMap (lineText fr c) := by
        intro t l
        induction l generalizing t with
        | nil => simp [Text.join]
        | cons x l ih => rw [List.map_cons, Text.join, ih]; simp [lineText, List.append_assoc]
      rw [hj]
      simp [openText, headText, List.append_assoc]
    rw [e]
    exact this
  · refine .cons (dumps_denotes fr hfr none _) ?_
    rw [List.forall₂_map_left_iff, List.forall₂_map_right_iff, List.forall₂_same]
    intro x _
    exact dumps_denotes fr hfr _ _

theorem print_ok (fr : Rat → Txt) (p : Printer) (w : Disk) (hw : ∀ i, w.fault i = false) (o : PyObj) {n : Int} {row : SpecRow}
    (hn : objNum o = some n) (hr : JSON_SPEC.get? n = some row) :
    (p.print fr w o).2 = .ok () ∧ (p.print fr w o).1.2.fault = w.fault := by
  have hm : ∀ d q, ((w.makedirs d).1.openW q).2 = true ∧ ((w.makedirs d).1.openW q).1.fault = w.fault ∧ (w.makedirs d).2 = true := by
    intro d q
    simp [Disk.makedirs, Disk.openW, hw]
  have ho : ∀ q, (w.openW q).2 = true ∧ (w.openW q).1.fault = w.fault := by
    intro q
    unfold Disk.openW
    rw [hw]
    exact ⟨rfl, rfl⟩
  have hc : ∃ w', p.createOfile w n row = (({ p with ofiles := p.ofiles.set n (pathOf p.wd row) }, w'), .ok ()) ∧ w'.fault = w.fault := by
    unfold Printer.createOfile
    dsimp only
    cases hd : w.isdir (Disk.join p.wd row.dir.toList) with
    | true =>
      obtain ⟨h1, h2⟩ := ho (pathOf p.wd row)
      refine ⟨_, ?_, h2⟩
      simp only [if_true]
      rw [show Disk.join (Disk.join p.wd row.dir.toList) row.file.toList = pathOf p.wd row from rfl, h1]
      rfl
    | false =>
      obtain ⟨h1, h2, h3⟩ := hm (Disk.join p.wd row.dir.toList) (pathOf p.wd row)
      refine ⟨_, ?_, h2⟩
      simp only [Bool.false_eq_true, if_false]
      rw [show Disk.join (Disk.join p.wd row.dir.toList) row.file.toList = pathOf p.wd row from rfl, h3, h1]
      rfl
  unfold Printer.print
  rw [hn, Option.bind_some, hr]
  dsimp only [Option.map_some]
  unfold Printer.append
  cases hg : p.ofiles.get? n with
  | some path =>
    rw [if_pos (by rw [PyDict.mem_eq, hg]; rfl)]
    unfold Printer.writeTo
    rw [hg]
    exact ⟨rfl, rfl⟩
  | none =>
    rw [if_neg (by rw [PyDict.mem_eq, hg]; simp)]
    obtain ⟨w', h1, h2⟩ := hc
    rw [h1]
    unfold Printer.writeTo
    dsimp only
    rw [PyDict.get?_set, if_pos rfl]
    dsimp only
    rw [PyDict.get?_set, if_pos rfl]
    exact ⟨rfl, h2⟩

theorem printAll_ok (fr : Rat → Txt) (objs : List PyObj) : ∀ (p : Printer) (w : Disk), (∀ i, w.fault i = false) →
    (∀ o ∈ objs, ∃ n row, objNum o = some n ∧ JSON_SPEC.get? n = some row) → (printAll fr p w objs).2 = objs := by
  induction objs with
  | nil => intro p w _ _; rfl
  | cons o rest ih =>
    intro p w hw ho
    obtain ⟨n, row, hn, hr⟩ := ho o (by simp)
    obtain ⟨h1, h2⟩ := print_ok fr p w hw o hn hr
    unfold printAll
    cases hp : p.print fr w o with
    | mk s r =>
      obtain ⟨p', w'⟩ := s
      rw [hp] at h1 h2
      dsimp only at h1 h2
      subst h1
      dsimp only
      rw [ih p' w' (by rw [h2]; exact hw) (fun x hx => ho x (by simp [hx]))]

end Json

/-- **C45** After any sequence of objects was given to a new JSON printer (on any file system, with any pattern of failing file creations)
and the printer was closed, for each message number of which an object was printed: its file denotes the JSON array of a header
that names the class of the first object and of the values of the objects printed with this number, in order. The text is exactly
`[\r` header `,\r` element … `,\r` element `\r]`. `float.__repr__` is assumed to yield JSON numbers. -/
theorem C45_files (fr : Rat → Txt) (hfr : ∀ x, IsNum (fr x)) (c : Json.Controls) (wd : Txt) (w : Disk) (objs : List PyObj) (n : Int)
    (o : PyObj) (l : List PyObj)
    (hl : (Json.printAll fr { ctrls := c, wd := wd } w objs).2.filter (fun x => Json.objNum x == some n) = o :: l) :
    ∃ row t, Json.JSON_SPEC.get? n = some row ∧
      ((Json.printAll fr { ctrls := c, wd := wd } w objs).1.1.close (Json.printAll fr { ctrls := c, wd := wd } w objs).1.2).2.read
        (Json.pathOf wd row) = some t ∧
      t = "[\r".toList ++ Json.dumps fr none (Json.header o.cls) ++ (o :: l).flatMap (fun x => ",\r".toList ++ Json.objText fr c x) ++
        "\r]".toList ∧
      JsonText (.arr (.obj [("source_type".toList, .str (Json.clsName o.cls).toList)] ::
        (o :: l).map (fun x => jv fr (Json.objVal c x)))) t := by
  obtain ⟨h1, h2, h3⟩ := (Json.Inv.init fr c wd w).all objs
  rw [List.nil_append] at h3
  have hne : Json.ofNumber n (Json.printAll fr { ctrls := c, wd := wd } w objs).2 ≠ [] := by
    unfold Json.ofNumber; rw [hl]; simp
  obtain ⟨row, r1, r2, r3⟩ := h3.opened n hne
  refine ⟨row, _, r1, ?_, rfl, ?_⟩
  · have := h3.close.1 n row r1 hne
    rw [h1, h2] at this
    dsimp only at this
    rw [this]
    unfold Json.ofNumber
    rw [hl]
    simp only [Json.openText, Json.headText]
    rfl
  · have := Json.openText_json fr hfr c o l
    have e1 : jv fr (Json.header o.cls) = .obj [("source_type".toList, .str (Json.clsName o.cls).toList)] := by
      simp [Json.header, jv, jvDict, jvItem, keyText]
    rw [e1] at this
    have e2 : Json.openText fr c (o :: l) ++ ['\r', ']'] = "[\r".toList ++ Json.dumps fr none (Json.header o.cls) ++
        (o :: l).flatMap (fun x => ",\r".toList ++ Json.objText fr c x) ++ "\r]".toList := by
      simp only [Json.openText, Json.headText]
      rfl
    rw [← e2]
    exact this

/-- **C45** If no file creation fails, every object with a number of the table is printed. -/
theorem C45_all (fr : Rat → Txt) (c : Json.Controls) (wd : Txt) (w : Disk) (hw : ∀ i, w.fault i = false) (objs : List PyObj)
    (ho : ∀ o ∈ objs, ∃ n row, Json.objNum o = some n ∧ Json.JSON_SPEC.get? n = some row) :
    (Json.printAll fr { ctrls := c, wd := wd } w objs).2 = objs := Json.printAll_ok fr objs _ w hw ho

/-- The hypothesis of `C45_files` about `float.__repr__` can be met. -/
example : ∃ fr : Rat → Txt, ∀ x, IsNum (fr x) := ⟨fun x => decText x.num, fun x => Json.isNum_dec x.num⟩

/-- Two messages 1007 printed on an empty disk: the hypothesis of `C45_files` is met with two objects in the file. -/
def exAD (sid : Int) : PyObj := .baseBare (.ad { msgNum := 1007, bsID := sid, descrLength := 1, descr := "A", setupID := 3 })

example (fr : Rat → Txt) : ((Json.printAll fr { ctrls := {}, wd := "out".toList } {} [exAD 1, exAD 2]).2.filter
    (fun x => Json.objNum x == some 1007)) = [exAD 1, exAD 2] := by rfl

/-- The text of a number: of an int its decimal digits, of a float what `float.__repr__` gives. -/
def numText (fr : Rat → Txt) : PyNum → List Char
  | .int i => decText i
  | .flt x => fr x

/-- **C46** Different message numbers have different files, whatever the work folder. -/
theorem C46_distinct (wd : Txt) (n m : Int) (r s : Json.SpecRow) (hn : Json.JSON_SPEC.get? n = some r) (hm : Json.JSON_SPEC.get? m = some s)
    (h : n ≠ m) : Json.pathOf wd r ≠ Json.pathOf wd s := fun he => h (Json.path_inj wd hn hm he)

/-- **C46** Printing an object, after any sequence of printed objects, changes no file but the one of its message number; it raises
`AssertionError` or appends to (or starts) that file. -/
theorem C46_only (fr : Rat → Txt) (c : Json.Controls) (wd : Txt) (w : Disk) (objs : List PyObj) (o : PyObj) :
    let s := (Json.printAll fr { ctrls := c, wd := wd } w objs).1
    (∀ q, (∀ n row, Json.objNum o = some n → Json.JSON_SPEC.get? n = some row → q ≠ Json.pathOf wd row) →
      (s.1.print fr s.2 o).1.2.read q = s.2.read q) ∧
    ((s.1.print fr s.2 o).2 = .ok () → ∃ n row t, Json.objNum o = some n ∧ Json.JSON_SPEC.get? n = some row ∧
      (s.1.print fr s.2 o).1.2.read (Json.pathOf wd row) = some (t ++ Json.objText fr c o)) := by
  intro s
  obtain ⟨h1, h2, h3⟩ := (Json.Inv.init fr c wd w).all objs
  dsimp only at h1 h2
  obtain ⟨-, -, g3, g4⟩ := h3.step o
  refine ⟨?_, ?_⟩
  · intro q hq
    exact g3 q (by rw [h1]; exact hq)
  · intro hok
    rcases Json.print_cases fr s.1 s.2 o with ⟨w', p1, -⟩ | ⟨n, row, hn, hr, ⟨path, hg, p1⟩ | ⟨hg, w', p2, p1⟩⟩
    · rw [p1] at hok; cases hok
    · have hne : Json.ofNumber n ([] ++ (Json.printAll fr { ctrls := c, wd := wd } w objs).2) ≠ [] := fun h0 => by
        rw [h3.closed n h0] at hg; cases hg
      obtain ⟨row', r1, r2, r3⟩ := h3.opened n hne
      rw [hr] at r1; cases r1
      rw [r2] at hg; cases hg
      rw [p1, h1]
      refine ⟨n, row, (s.2.read (Json.pathOf wd row)).getD [] ++ [',', '\r'], hn, hr, ?_⟩
      dsimp only
      rw [Disk.read_write, if_pos rfl, h2]
      simp [Json.lineText]
    · rw [p1, h1]
      refine ⟨n, row, Json.headText fr o.cls ++ [',', '\r'], hn, hr, ?_⟩
      dsimp only
      rw [h1] at p2
      rw [Disk.read_write, if_pos rfl, Disk.read_write, if_pos rfl, p2, if_pos rfl, h2]
      simp [Json.lineText]

theorem Json.objNum_of_recorded {o : PyObj} {n : Int} (h : recorded o = some n) : Json.objNum o = some n := by
  have key : ∀ x : PyNum, asInt x = some n → x = .int n := by
    intro x hx
    cases x with
    | int i => simpa [asInt] using hx
    | flt r => simp [asInt] at hx
  cases o with
  | msmBare b => exact h
  | msm o => exact h
  | eph e =>
    cases e <;> (simp only [recorded] at h; have := key _ h; simp [Json.objNum, Json.ephFields, Json.fieldsGPS, Json.fieldsGLO,
      Json.fieldsNAVIC, Json.fieldsBDS, Json.fieldsQZS, Json.fieldsGALF, Json.fieldsGALI, PyDict.get?_cons, this])
  | baseBare b =>
    cases b <;> (simp only [recorded] at h; simp [Json.objNum, Json.baseFields, Json.fieldsRP, Json.fieldsAD, Json.fieldsADSN,
      PyDict.get?_cons]; simpa using h)
  | baseScaled b =>
    cases b <;> (simp only [recorded] at h; simp [Json.objNum, Json.baseFields, Json.fieldsRP, Json.fieldsAD, Json.fieldsADSN,
      PyDict.get?_cons]; simpa using h)

theorem Json.row_of_declared (n : Nat) (bare : Bool) (c : Cls) (h : declared bare n = some c) :
    ∃ row, Json.JSON_SPEC.get? (n : Int) = some row ∧ c ∈ row.classes := by
  have key : ∀ i < 226, ∀ b, ∀ c, declared b (1005 + i) = some c →
      ((Json.JSON_SPEC.get? ((1005 + i : Nat) : Int)).any (fun row => row.classes.contains c)) = true := by
    intro i hi b c
    revert i
    cases b <;> cases c <;> decide +kernel
  by_cases hr : n < 1005 ∨ 1231 ≤ n
  · unfold declared at h
    rw [family_none hr] at h
    cases h
  · obtain ⟨i, rfl⟩ := Nat.exists_eq_add_of_le (show 1005 ≤ n by omega)
    have := key i (by omega) bare c h
    rw [Option.any_eq_true] at this
    obtain ⟨row, h1, h2⟩ := this
    exact ⟨row, h1, by simpa using h2⟩

/-- **C46** Every object that can be decoded has a file: its message number is in the table, in a row that lists its class. -/
theorem C46_total (m : Mode) (d : DecoderTop) (h : Reach m d) (msg : Bytes) (o : PyObj) (hd : (d.decode msg).2 = some o) :
    ∃ (n : Nat) (row : Json.SpecRow), numberIn msg = some n ∧ Json.objNum o = some (n : Int) ∧ Json.JSON_SPEC.get? (n : Int) = some row ∧
      o.cls ∈ row.classes := by
  obtain ⟨n, h1, -, h3, h4⟩ := C17_typed m d h msg o hd
  obtain ⟨row, r1, r2⟩ := Json.row_of_declared n _ _ h3
  exact ⟨n, row, h1, Json.objNum_of_recorded h4, r1, r2⟩

example : Json.JSON_SPEC.get? 1019 = some ⟨"GPS", "EPH", [.ephGPS], "GPS-EPH-1019.json"⟩ ∧
    Json.pathOf "out".toList ⟨"GPS", "EPH", [.ephGPS], "GPS-EPH-1019.json"⟩ = "out/EPH/GPS-EPH-1019.json".toList := by decide +kernel

set_option maxRecDepth 4000 in
set_option maxHeartbeats 1000000 in
private theorem Json.mem1019 (e : EphGPS PyNum) : ∀ p ∈ names1019.zip (vals1019 e), p.1 ≠ "L5_Flag" → p.1 ≠ "S_Flag" →
    p ∈ Json.fieldsGPS e := by
  simp only [names1019, vals1019, List.zip_cons_cons, List.zip_nil_left, List.forall_mem_cons, List.not_mem_nil]
  simp [Json.fieldsGPS]

set_option maxRecDepth 4000 in
set_option maxHeartbeats 1000000 in
private theorem Json.mem1020 (e : EphGLO PyNum) : ∀ p ∈ names1020.zip (vals1020 e), p.1 ≠ "L5_Flag" → p.1 ≠ "S_Flag" →
    p ∈ Json.fieldsGLO e := by
  simp only [names1020, vals1020, List.zip_cons_cons, List.zip_nil_left, List.forall_mem_cons, List.not_mem_nil]
  simp [Json.fieldsGLO]

set_option maxRecDepth 4000 in
set_option maxHeartbeats 1000000 in
private theorem Json.mem1041 (e : EphNAVIC PyNum) : ∀ p ∈ names1041.zip (vals1041 e), p.1 ≠ "L5_Flag" → p.1 ≠ "S_Flag" →
    p ∈ Json.fieldsNAVIC e := by
  simp only [names1041, vals1041, List.zip_cons_cons, List.zip_nil_left, List.forall_mem_cons, List.not_mem_nil]
  simp [Json.fieldsNAVIC]

set_option maxRecDepth 4000 in
set_option maxHeartbeats 1000000 in
private theorem Json.mem1042 (e : EphBDS PyNum) : ∀ p ∈ names1042.zip (vals1042 e), p.1 ≠ "L5_Flag" → p.1 ≠ "S_Flag" →
    p ∈ Json.fieldsBDS e := by
  simp only [names1042, vals1042, List.zip_cons_cons, List.zip_nil_left, List.forall_mem_cons, List.not_mem_nil]
  simp [Json.fieldsBDS]

set_option maxRecDepth 4000 in
set_option maxHeartbeats 1000000 in
private theorem Json.mem1044 (e : EphQZS PyNum) : ∀ p ∈ names1044.zip (vals1044 e), p.1 ≠ "L5_Flag" → p.1 ≠ "S_Flag" →
    p ∈ Json.fieldsQZS e := by
  simp only [names1044, vals1044, List.zip_cons_cons, List.zip_nil_left, List.forall_mem_cons, List.not_mem_nil]
  simp [Json.fieldsQZS]

set_option maxRecDepth 4000 in
set_option maxHeartbeats 1000000 in
private theorem Json.mem1045 (e : EphGALF PyNum) : ∀ p ∈ names1045.zip (vals1045 e), p.1 ≠ "L5_Flag" → p.1 ≠ "S_Flag" →
    p ∈ Json.fieldsGALF e := by
  simp only [names1045, vals1045, List.zip_cons_cons, List.zip_nil_left, List.forall_mem_cons, List.not_mem_nil]
  simp [Json.fieldsGALF]

set_option maxRecDepth 4000 in
set_option maxHeartbeats 1000000 in
private theorem Json.mem1046 (e : EphGALI PyNum) : ∀ p ∈ names1046.zip (vals1046 e), p.1 ≠ "L5_Flag" → p.1 ≠ "S_Flag" →
    p ∈ Json.fieldsGALI e := by
  simp only [names1046, vals1046, List.zip_cons_cons, List.zip_nil_left, List.forall_mem_cons, List.not_mem_nil]
  simp [Json.fieldsGALI]

theorem Json.ephFields_mem (e : Eph.Obj PyNum) (name : String) (v : PyNum) (hm : (name, v) ∈ (namesOf e).zip (valsOf e))
    (h1 : name ≠ "L5_Flag") (h2 : name ≠ "S_Flag") : (name, v) ∈ Json.ephFields e := by
  cases e with
  | gps e => exact Json.mem1019 e _ hm h1 h2
  | glo e => exact Json.mem1020 e _ hm h1 h2
  | navic e => exact Json.mem1041 e _ hm h1 h2
  | bds e => exact Json.mem1042 e _ hm h1 h2
  | qzs e => exact Json.mem1044 e _ hm h1 h2
  | galf e => exact Json.mem1045 e _ hm h1 h2
  | gali e => exact Json.mem1046 e _ hm h1 h2

/-- **C55** (partial) Every field of the message table of an ephemeris except the NavIC flags `L5_Flag` and `S_Flag` is a member of the
JSON object printed for it, under its name, with its value. Missing: the two NavIC flags, see `C55_violated`. -/
theorem C55_partial (fr : Rat → Txt) (c : Json.Controls) (e : Eph.Obj PyNum) :
    (namesOf e).length = (valsOf e).length ∧ (namesOf e).Nodup ∧
    ∃ l, jv fr (Json.objVal c (.eph e)) = .obj l ∧ (l.map (·.1)).Nodup ∧
      ∀ name v, (name, v) ∈ (namesOf e).zip (valsOf e) → name ≠ "L5_Flag" → name ≠ "S_Flag" →
        (name.toList, JV.num (numText fr v)) ∈ l := by
  have hj : ∀ d : PyDict String PyNum, jv fr (Json.strDictOf Json.ofNum d) =
      .obj (d.map (fun p => (p.1.toList, JV.num (numText fr p.2)))) := by
    intro d
    unfold Json.strDictOf
    rw [jv]
    congr 1
    induction d with
    | nil => rfl
    | cons p d ih =>
      rw [List.map_cons, jvDict, jvItem, ih, List.map_cons]
      congr 2
      cases hp : p.2 <;> simp [Json.ofNum, jv, numText]
  refine ⟨by cases e <;> rfl, by cases e <;> (simp only [namesOf]; decide +kernel), _, hj (Json.ephFields e), ?_, ?_⟩
  · rw [List.map_map]
    have : ∀ d : PyDict String PyNum, d.map ((fun x => x.1) ∘ fun p => (p.1.toList, JV.num (numText fr p.2))) =
        (d.map (·.1)).map String.toList := by
      intro d; rw [List.map_map]; rfl
    rw [this]
    cases e <;> (simp only [Json.ephFields, Json.fieldsGPS, Json.fieldsGLO, Json.fieldsNAVIC, Json.fieldsBDS, Json.fieldsQZS,
      Json.fieldsGALF, Json.fieldsGALI, List.map_cons, List.map_nil]; decide +kernel)
  · intro name v hm h1 h2
    have hin : (name, v) ∈ Json.ephFields e := Json.ephFields_mem e name v hm h1 h2
    exact List.mem_map.2 ⟨_, hin, rfl⟩

/-- **C55** is violated for NavIC: two ephemerides that differ in the signal health flags are printed identically. -/
theorem C55_violated (fr : Rat → Txt) (c : Json.Controls) (e : EphNAVIC PyNum) (l5 s : PyNum) :
    Json.objText fr c (.eph (.navic { e with L5_Flag := l5, S_Flag := s })) = Json.objText fr c (.eph (.navic e)) := rfl

/-- An object covered by `C55_partial` with a printed member. -/
example (e : Eph.Obj PyNum) : (namesOf e).zip (valsOf e) ≠ [] := by cases e <;> simp [namesOf, valsOf, names1019, names1020, names1041,
  names1042, names1044, names1045, names1046, vals1019, vals1020, vals1041, vals1042, vals1044, vals1045, vals1046]

end Verif
