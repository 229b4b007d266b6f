import Verif.Lemmas.Frame

/-!
# Printers work below their folder only
-/

namespace Verif
open Spec Decoder Conv Run Disk

/-- A folder to which names can be appended with `/`. -/
def Folder (d : Txt) : Prop := d ≠ [] ∧ d.getLast? ≠ some '/'

theorem mem_set {κ α : Type} [BEq κ] [LawfulBEq κ] [DecidableEq κ] {d : PyDict κ α} {k : κ} {v : α} {f : κ × α} (h : f ∈ d.set k v) :
    f ∈ d ∨ f.2 = v := by
  unfold PyDict.set at h
  split at h
  · obtain ⟨g, hg, e⟩ := List.mem_map.1 h
    split at e
    · exact .inr (by rw [← e])
    · exact .inl (e ▸ hg)
  · rcases List.mem_append.1 h with h | h
    · exact .inl h
    · rw [List.mem_singleton] at h
      exact .inr (by rw [h])

/-! ### JSON printer -/

/-- The printer works in `d`. -/
def Json.Printer.In (d : Txt) (p : Json.Printer) : Prop := p.wd = d ∧ ∀ f ∈ p.ofiles, Under d f.2

theorem json_writeTo {d : Txt} {p : Json.Printer} (hp : p.In d) (num : Int) (t : Txt) :
    (∀ w, Frame d w (p.writeTo w num t).1.2 ∧ (p.writeTo w num t).1.1 = p) ∧
    ∀ w v, Like d w v → (p.writeTo w num t).2 = (p.writeTo v num t).2 ∧ Like d (p.writeTo w num t).1.2 (p.writeTo v num t).1.2 := by
  unfold Json.Printer.writeTo
  cases h : p.ofiles.get? num with
  | none => exact ⟨fun w => ⟨.refl _ _, rfl⟩, fun w v l => ⟨rfl, l⟩⟩
  | some path => exact ⟨fun w => ⟨frame_write _ _ (hp.2 _ (PyDict.mem_of_get? h)), rfl⟩, fun w v l => ⟨rfl, like_write _ (hp.2 _ (PyDict.mem_of_get? h)) l⟩⟩

theorem json_names {n : Int} {row : Json.SpecRow} (h : Json.JSON_SPEC.get? n = some row) :
    row.dir.toList.head? ≠ some '/' ∧ row.file.toList.head? ≠ some '/' := by
  have hall : ∀ r ∈ Json.JSON_SPEC, r.2.dir.toList.head? ≠ some '/' ∧ r.2.file.toList.head? ≠ some '/' := by decide +kernel
  exact hall _ (PyDict.mem_of_get? h)

theorem json_create {d : Txt} (hd : Folder d) {p : Json.Printer} (hp : p.In d) (num : Int) {row : Json.SpecRow}
    (hr : row.dir.toList.head? ≠ some '/' ∧ row.file.toList.head? ≠ some '/') :
    (∀ w, Frame d w (p.createOfile w num row).1.2 ∧ (p.createOfile w num row).1.1.In d) ∧
    ∀ w v, Like d w v → (p.createOfile w num row).2 = (p.createOfile v num row).2 ∧
      (p.createOfile w num row).1.1 = (p.createOfile v num row).1.1 ∧ Like d (p.createOfile w num row).1.2 (p.createOfile v num row).1.2 := by
  have hu1 : Under d (Disk.join p.wd row.dir.toList) := by rw [hp.1]; exact under_join hd hr.1 rfl
  have hu2 : Under d (Disk.join (Disk.join p.wd row.dir.toList) row.file.toList) := by rw [hp.1]; exact under_join_join hd hr.1 hr.2
  have hset : ∀ path, Under d path → Json.Printer.In d { p with ofiles := p.ofiles.set num path } := by
    intro path hu
    refine ⟨hp.1, ?_⟩
    intro f h
    rcases mem_set h with h | h
    · exact hp.2 _ h
    · rw [h]; exact hu
  unfold Json.Printer.createOfile
  dsimp only
  generalize Disk.join (Disk.join p.wd row.dir.toList) row.file.toList = path at hu2 ⊢
  generalize Disk.join p.wd row.dir.toList = dir at hu1 ⊢
  constructor
  · intro w
    have hf : Frame d w (if w.isdir dir = true then (w, true) else w.makedirs dir).1 := by
      split
      · exact .refl _ _
      · exact frame_makedirs w hu1
    generalize (if w.isdir dir = true then (w, true) else w.makedirs dir) = x at hf ⊢
    obtain ⟨w1, ok⟩ := x
    cases ok with
    | false => exact ⟨hf, hp⟩
    | true =>
      dsimp only at hf ⊢
      rw [if_pos rfl]
      have hf2 := hf.trans (frame_openW w1 hu2)
      generalize w1.openW path = y at hf2 ⊢
      obtain ⟨w2, ok⟩ := y
      cases ok with
      | false => exact ⟨hf2, hp⟩
      | true => exact ⟨hf2, hset _ hu2⟩
  · intro w v l
    have hl : (if w.isdir dir = true then (w, true) else w.makedirs dir).2 = (if v.isdir dir = true then (v, true) else v.makedirs dir).2 ∧
        Like d (if w.isdir dir = true then (w, true) else w.makedirs dir).1 (if v.isdir dir = true then (v, true) else v.makedirs dir).1 := by
      rw [l.isdir dir hu1]
      split
      · exact ⟨rfl, l⟩
      · exact like_makedirs l
    generalize (if w.isdir dir = true then (w, true) else w.makedirs dir) = x at hl ⊢
    generalize (if v.isdir dir = true then (v, true) else v.makedirs dir) = x' at hl ⊢
    obtain ⟨w1, ok⟩ := x
    obtain ⟨v1, ok'⟩ := x'
    obtain ⟨rfl, l1⟩ := hl
    dsimp only at l1
    cases ok with
    | false => exact ⟨rfl, rfl, l1⟩
    | true =>
      dsimp only
      rw [if_pos rfl, if_pos rfl]
      have l2 := like_openW (path := path) l1
      generalize w1.openW path = y at l2 ⊢
      generalize v1.openW path = y' at l2 ⊢
      obtain ⟨w2, ok⟩ := y
      obtain ⟨v2, ok'⟩ := y'
      obtain ⟨rfl, l2⟩ := l2
      cases ok with
      | false => exact ⟨rfl, rfl, l2⟩
      | true => exact ⟨rfl, rfl, l2⟩

theorem json_append {d : Txt} (hd : Folder d) (fr : Rat → Txt) {p : Json.Printer} (hp : p.In d) (cls : Cls) (num : Int) {row : Json.SpecRow}
    (hr : row.dir.toList.head? ≠ some '/' ∧ row.file.toList.head? ≠ some '/') (line : Txt) :
    (∀ w, Frame d w (p.append fr w cls num row line).1.2 ∧ (p.append fr w cls num row line).1.1.In d) ∧
    ∀ w v, Like d w v → (p.append fr w cls num row line).2 = (p.append fr v cls num row line).2 ∧
      (p.append fr w cls num row line).1.1 = (p.append fr v cls num row line).1.1 ∧
      Like d (p.append fr w cls num row line).1.2 (p.append fr v cls num row line).1.2 := by
  unfold Json.Printer.append
  cases hm : p.ofiles.mem num with
  | true =>
    simp only [if_true]
    obtain ⟨h1, h2⟩ := json_writeTo hp num line
    refine ⟨fun w => ⟨(h1 w).1, by rw [(h1 w).2]; exact hp⟩, fun w v l => ⟨(h2 w v l).1, (h1 w).2.trans (h1 v).2.symm, (h2 w v l).2⟩⟩
  | false =>
    simp only [Bool.false_eq_true, if_false]
    generalize ['[', '\r'] ++ Json.dumps fr none (.dict [(.str "source_type", .str (Json.clsName cls))]) = head
    obtain ⟨hc1, hc2⟩ := json_create hd hp num hr
    constructor
    · intro w
      have h := hc1 w
      generalize p.createOfile w num row = x at h ⊢
      obtain ⟨⟨p1, w1⟩, r1⟩ := x
      dsimp only at h
      cases r1 with
      | error e => exact h
      | ok u =>
        dsimp only
        have h2 := (json_writeTo h.2 num head).1 w1
        generalize p1.writeTo w1 num head = y at h2 ⊢
        obtain ⟨⟨p2, w2⟩, r2⟩ := y
        dsimp only at h2
        obtain ⟨h2, rfl⟩ := h2
        cases r2 with
        | error e => exact ⟨h.1.trans h2, h.2⟩
        | ok u =>
          dsimp only
          have h3 := (json_writeTo h.2 num line).1 w2
          exact ⟨(h.1.trans h2).trans h3.1, by rw [h3.2]; exact h.2⟩
    · intro w v l
      have h := hc2 w v l
      have hin := (hc1 w).2
      generalize p.createOfile w num row = x at h hin ⊢
      generalize p.createOfile v num row = x' at h ⊢
      obtain ⟨⟨p1, w1⟩, r1⟩ := x
      obtain ⟨⟨p1', v1⟩, r1'⟩ := x'
      dsimp only at h hin
      obtain ⟨rfl, rfl, l1⟩ := h
      cases r1 with
      | error e => exact ⟨rfl, rfl, l1⟩
      | ok u =>
        dsimp only
        have h2 := (json_writeTo hin num head).2 w1 v1 l1
        have e2 := ((json_writeTo hin num head).1 w1).2
        have e2' := ((json_writeTo hin num head).1 v1).2
        generalize p1.writeTo w1 num head = y at h2 e2 ⊢
        generalize p1.writeTo v1 num head = y' at h2 e2' ⊢
        obtain ⟨⟨p2, w2⟩, r2⟩ := y
        obtain ⟨⟨p2', v2⟩, r2'⟩ := y'
        dsimp only at h2 e2 e2'
        obtain ⟨rfl, l2⟩ := h2
        subst e2 e2'
        cases r2 with
        | error e => exact ⟨rfl, rfl, l2⟩
        | ok u =>
          dsimp only
          obtain ⟨h1, h2⟩ := json_writeTo hin num line
          exact ⟨(h2 _ _ l2).1, (h1 w2).2.trans (h1 v2).2.symm, (h2 _ _ l2).2⟩

theorem json_print {d : Txt} (hd : Folder d) (fr : Rat → Txt) {p : Json.Printer} (hp : p.In d) (o : PyObj) :
    (∀ w, Frame d w (p.print fr w o).1.2 ∧ (p.print fr w o).1.1.In d) ∧
    ∀ w v, Like d w v → (p.print fr w o).2 = (p.print fr v o).2 ∧ (p.print fr w o).1.1 = (p.print fr v o).1.1 ∧
      Like d (p.print fr w o).1.2 (p.print fr v o).1.2 := by
  unfold Json.Printer.print
  dsimp only
  cases h : (Json.objNum o).bind (fun n => (Json.JSON_SPEC.get? n).map (fun row => (n, row))) with
  | none => exact ⟨fun w => ⟨.refl _ _, hp⟩, fun w v l => ⟨rfl, rfl, l⟩⟩
  | some x =>
    obtain ⟨num, row⟩ := x
    dsimp only
    refine json_append hd fr hp _ num ?_ _
    rw [Option.bind_eq_some_iff] at h
    obtain ⟨n, _, h⟩ := h
    rw [Option.map_eq_some_iff] at h
    obtain ⟨row', h, e⟩ := h
    cases e
    exact json_names h

theorem json_close {d : Txt} {p : Json.Printer} (hp : p.In d) :
    (∀ w, Frame d w (p.close w).2 ∧ (p.close w).1.In d) ∧
    ∀ w v, Like d w v → (p.close w).1 = (p.close v).1 ∧ Like d (p.close w).2 (p.close v).2 := by
  unfold Json.Printer.close
  dsimp only
  have hin : Json.Printer.In d { p with ofiles := [] } := ⟨hp.1, fun f h => by simp at h⟩
  replace hp := hp.2
  refine ⟨fun w => ⟨?_, hin⟩, fun w v l => ⟨rfl, ?_⟩⟩
  · revert w
    generalize p.ofiles = fs at hp
    induction fs with
    | nil => exact fun w => .refl _ _
    | cons f fs ih =>
      intro w
      rw [List.foldl_cons]
      exact (frame_write _ _ (hp f List.mem_cons_self)).trans (ih (fun g hg => hp g (List.mem_cons_of_mem _ hg)) _)
  · revert w v
    generalize p.ofiles = fs at hp
    induction fs with
    | nil => exact fun w v l => l
    | cons f fs ih =>
      intro w v l
      rw [List.foldl_cons, List.foldl_cons]
      exact ih (fun g hg => hp g (List.mem_cons_of_mem _ hg)) _ _ (like_write _ (hp f List.mem_cons_self) l)

/-! ### MARGO printer -/

/-- The printer works in `d`. -/
def Margo.Printer.In (d : Txt) (p : Margo.Printer) : Prop := p.wd = d ∧ ∀ f ∈ p.ofiles, Under d f.2

theorem margo_writeTo {d : Txt} {p : Margo.Printer} (hp : p.In d) (name t : Txt) :
    (∀ w, Frame d w (p.writeTo w name t).1.2 ∧ (p.writeTo w name t).1.1 = p) ∧
    ∀ w v, Like d w v → (p.writeTo w name t).2 = (p.writeTo v name t).2 ∧ Like d (p.writeTo w name t).1.2 (p.writeTo v name t).1.2 := by
  unfold Margo.Printer.writeTo
  cases h : p.ofiles.get? name with
  | none => exact ⟨fun w => ⟨.refl _ _, rfl⟩, fun w v l => ⟨rfl, l⟩⟩
  | some path =>
    exact ⟨fun w => ⟨frame_write _ _ (hp.2 _ (PyDict.mem_of_get? h)), rfl⟩, fun w v l => ⟨rfl, like_write _ (hp.2 _ (PyDict.mem_of_get? h)) l⟩⟩

/-- Names that have a directory do not begin with `/`. -/
theorem margo_names {name : Txt} {dir : String} (h : (do Margo.dirName (← Margo.charAt name 0)) = .ok dir) :
    dir.toList.head? ≠ some '/' ∧ name.head? ≠ some '/' := by
  obtain ⟨c, h1, h⟩ := bind_ok h
  unfold Margo.charAt at h1
  cases name with
  | nil => simp at h1
  | cons x name =>
    simp only [List.getElem?_cons_zero, Except.ok.injEq] at h1
    subst h1
    unfold Margo.dirName Margo.getAssert at h
    split at h
    · cases h
    · next y hy =>
      cases h
      have hall : ∀ r ∈ Margo.ofileLt1, r.2.toList.head? ≠ some '/' ∧ r.1.toList.head? ≠ some '/' := by decide +kernel
      have := hall _ (PyDict.mem_of_get? hy)
      refine ⟨this.1, ?_⟩
      have h2 := this.2
      dsimp only at h2
      rw [String.toList_ofList] at h2
      simpa using h2

theorem margo_create {d : Txt} (hd : Folder d) {p : Margo.Printer} (hp : p.In d) (name : Txt) :
    (∀ w, Frame d w (p.createOfile w name).1.2 ∧ (p.createOfile w name).1.1.In d) ∧
    ∀ w v, Like d w v → (p.createOfile w name).2 = (p.createOfile v name).2 ∧
      (p.createOfile w name).1.1 = (p.createOfile v name).1.1 ∧ Like d (p.createOfile w name).1.2 (p.createOfile v name).1.2 := by
  unfold Margo.Printer.createOfile
  cases hdir : (do Margo.dirName (← Margo.charAt name 0)) with
  | error e => exact ⟨fun w => ⟨.refl _ _, hp⟩, fun w v l => ⟨rfl, rfl, l⟩⟩
  | ok dir =>
    have hr := margo_names hdir
    have hu1 : Under d (Disk.join p.wd dir.toList) := by rw [hp.1]; exact under_join hd hr.1 rfl
    have hu2 : Under d (Disk.join (Disk.join p.wd dir.toList) name) := by rw [hp.1]; exact under_join_join hd hr.1 hr.2
    have hset : ∀ path, Under d path → Margo.Printer.In d { p with ofiles := p.ofiles.set name path } := by
      intro path hu
      refine ⟨hp.1, ?_⟩
      intro f h
      rcases mem_set h with h | h
      · exact hp.2 _ h
      · rw [h]; exact hu
    dsimp only
    generalize Disk.join (Disk.join p.wd dir.toList) name = path at hu2 ⊢
    generalize Disk.join p.wd dir.toList = dir at hu1 ⊢
    constructor
    · intro w
      have hf : Frame d w (if w.isdir dir = true then (w, true) else w.makedirs dir).1 := by
        split
        · exact .refl _ _
        · exact frame_makedirs w hu1
      generalize (if w.isdir dir = true then (w, true) else w.makedirs dir) = x at hf ⊢
      obtain ⟨w1, ok⟩ := x
      cases ok with
      | false => exact ⟨hf, hp⟩
      | true =>
        dsimp only at hf ⊢
        rw [if_pos rfl]
        have hf2 := hf.trans (frame_openW w1 hu2)
        generalize w1.openW path = y at hf2 ⊢
        obtain ⟨w2, ok⟩ := y
        cases ok with
        | false => exact ⟨hf2, hp⟩
        | true => exact ⟨hf2, hset _ hu2⟩
    · intro w v l
      have hl : (if w.isdir dir = true then (w, true) else w.makedirs dir).2 = (if v.isdir dir = true then (v, true) else v.makedirs dir).2 ∧
          Like d (if w.isdir dir = true then (w, true) else w.makedirs dir).1 (if v.isdir dir = true then (v, true) else v.makedirs dir).1 := by
        rw [l.isdir dir hu1]
        split
        · exact ⟨rfl, l⟩
        · exact like_makedirs l
      generalize (if w.isdir dir = true then (w, true) else w.makedirs dir) = x at hl ⊢
      generalize (if v.isdir dir = true then (v, true) else v.makedirs dir) = x' at hl ⊢
      obtain ⟨w1, ok⟩ := x
      obtain ⟨v1, ok'⟩ := x'
      obtain ⟨rfl, l1⟩ := hl
      dsimp only at l1
      cases ok with
      | false => exact ⟨rfl, rfl, l1⟩
      | true =>
        dsimp only
        rw [if_pos rfl, if_pos rfl]
        have l2 := like_openW (path := path) l1
        generalize w1.openW path = y at l2 ⊢
        generalize v1.openW path = y' at l2 ⊢
        obtain ⟨w2, ok⟩ := y
        obtain ⟨v2, ok'⟩ := y'
        obtain ⟨rfl, l2⟩ := l2
        cases ok with
        | false => exact ⟨rfl, rfl, l2⟩
        | true => exact ⟨rfl, rfl, l2⟩

theorem margo_append {d : Txt} (hd : Folder d) {p : Margo.Printer} (hp : p.In d) (name line : Txt) :
    (∀ w, Frame d w (p.append w name line).1.2 ∧ (p.append w name line).1.1.In d) ∧
    ∀ w v, Like d w v → (p.append w name line).2 = (p.append v name line).2 ∧ (p.append w name line).1.1 = (p.append v name line).1.1 ∧
      Like d (p.append w name line).1.2 (p.append v name line).1.2 := by
  unfold Margo.Printer.append
  cases hm : p.ofiles.mem name with
  | true =>
    simp only [if_true]
    obtain ⟨h1, h2⟩ := margo_writeTo hp name line
    refine ⟨fun w => ⟨(h1 w).1, by rw [(h1 w).2]; exact hp⟩, fun w v l => ⟨(h2 w v l).1, (h1 w).2.trans (h1 v).2.symm, (h2 w v l).2⟩⟩
  | false =>
    simp only [Bool.false_eq_true, if_false]
    obtain ⟨hc1, hc2⟩ := margo_create hd hp name
    constructor
    · intro w
      have h := hc1 w
      generalize p.createOfile w name = x at h ⊢
      obtain ⟨⟨p1, w1⟩, r1⟩ := x
      dsimp only at h
      rcases r1 with e | (_ | _)
      · exact h
      · exact h
      · dsimp only
        cases Margo.makeHeader p1.ctrl name with
        | error e => exact h
        | ok hh =>
          obtain ⟨hh1, hh2⟩ := hh
          dsimp only
          have h2 := (margo_writeTo h.2 name hh1).1 w1
          generalize p1.writeTo w1 name hh1 = y at h2 ⊢
          obtain ⟨⟨p2, w2⟩, r2⟩ := y
          dsimp only at h2
          obtain ⟨h2, rfl⟩ := h2
          cases r2 with
          | error e => exact ⟨h.1.trans h2, h.2⟩
          | ok u =>
            dsimp only
            have h3 := (margo_writeTo h.2 name hh2).1 w2
            generalize p2.writeTo w2 name hh2 = y at h3 ⊢
            obtain ⟨⟨p3, w3⟩, r3⟩ := y
            dsimp only at h3
            obtain ⟨h3, rfl⟩ := h3
            cases r3 with
            | error e => exact ⟨(h.1.trans h2).trans h3, h.2⟩
            | ok u =>
              dsimp only
              have h4 := (margo_writeTo h.2 name line).1 w3
              exact ⟨((h.1.trans h2).trans h3).trans h4.1, by rw [h4.2]; exact h.2⟩
    · intro w v l
      have h := hc2 w v l
      have hin := (hc1 w).2
      generalize p.createOfile w name = x at h hin ⊢
      generalize p.createOfile v name = x' at h ⊢
      obtain ⟨⟨p1, w1⟩, r1⟩ := x
      obtain ⟨⟨p1', v1⟩, r1'⟩ := x'
      dsimp only at h hin
      obtain ⟨rfl, rfl, l1⟩ := h
      rcases r1 with e | (_ | _)
      · exact ⟨rfl, rfl, l1⟩
      · exact ⟨rfl, rfl, l1⟩
      · dsimp only
        cases Margo.makeHeader p1.ctrl name with
        | error e => exact ⟨rfl, rfl, l1⟩
        | ok hh =>
          obtain ⟨hh1, hh2⟩ := hh
          dsimp only
          have h2 := (margo_writeTo hin name hh1).2 w1 v1 l1
          have e2 := ((margo_writeTo hin name hh1).1 w1).2
          have e2' := ((margo_writeTo hin name hh1).1 v1).2
          generalize p1.writeTo w1 name hh1 = y at h2 e2 ⊢
          generalize p1.writeTo v1 name hh1 = y' at h2 e2' ⊢
          obtain ⟨⟨p2, w2⟩, r2⟩ := y
          obtain ⟨⟨p2', v2⟩, r2'⟩ := y'
          dsimp only at h2 e2 e2'
          obtain ⟨rfl, l2⟩ := h2
          subst e2 e2'
          cases r2 with
          | error e => exact ⟨rfl, rfl, l2⟩
          | ok u =>
            dsimp only
            have h3 := (margo_writeTo hin name hh2).2 w2 v2 l2
            have e3 := ((margo_writeTo hin name hh2).1 w2).2
            have e3' := ((margo_writeTo hin name hh2).1 v2).2
            generalize Margo.Printer.writeTo _ w2 name hh2 = y at h3 e3 ⊢
            generalize Margo.Printer.writeTo _ v2 name hh2 = y' at h3 e3' ⊢
            obtain ⟨⟨p3, w3⟩, r3⟩ := y
            obtain ⟨⟨p3', v3⟩, r3'⟩ := y'
            dsimp only at h3 e3 e3'
            obtain ⟨rfl, l3⟩ := h3
            subst e3 e3'
            cases r3 with
            | error e => exact ⟨rfl, rfl, l3⟩
            | ok u =>
              dsimp only
              obtain ⟨h1, h2⟩ := margo_writeTo hin name line
              exact ⟨(h2 _ _ l3).1, (h1 w3).2.trans (h1 v3).2.symm, (h2 _ _ l3).2⟩

theorem margo_rows {d : Txt} (hd : Folder d) : ∀ (rs : PyDict Txt Margo.Row) {p : Margo.Printer}, p.In d →
    (∀ w, Frame d w (p.printRows w rs).1.2 ∧ (p.printRows w rs).1.1.In d) ∧
    ∀ w v, Like d w v → (p.printRows w rs).2 = (p.printRows v rs).2 ∧ (p.printRows w rs).1.1 = (p.printRows v rs).1.1 ∧
      Like d (p.printRows w rs).1.2 (p.printRows v rs).1.2
  | [], p, hp => ⟨fun w => ⟨.refl _ _, hp⟩, fun w v l => ⟨rfl, rfl, l⟩⟩
  | (f, row) :: rest, p, hp => by
    unfold Margo.Printer.printRows
    cases (do Margo.format (← Margo.charAt f 1)) with
    | error e => exact ⟨fun w => ⟨.refl _ _, hp⟩, fun w v l => ⟨rfl, rfl, l⟩⟩
    | ok q =>
      obtain ⟨width, frc⟩ := q
      dsimp only
      generalize Margo.formatObsString row width frc = line
      obtain ⟨h1, h2⟩ := margo_append hd hp f line
      constructor
      · intro w
        have h := h1 w
        generalize p.append w f line = x at h ⊢
        obtain ⟨⟨p1, w1⟩, r1⟩ := x
        dsimp only at h
        cases r1 with
        | error e => exact h
        | ok u =>
          dsimp only
          have h3 := (margo_rows hd rest h.2).1 w1
          exact ⟨h.1.trans h3.1, h3.2⟩
      · intro w v l
        have h := h2 w v l
        have hin := (h1 w).2
        generalize p.append w f line = x at h hin ⊢
        generalize p.append v f line = x' at h ⊢
        obtain ⟨⟨p1, w1⟩, r1⟩ := x
        obtain ⟨⟨p1', v1⟩, r1'⟩ := x'
        dsimp only at h hin
        obtain ⟨rfl, rfl, l1⟩ := h
        cases r1 with
        | error e => exact ⟨rfl, rfl, l1⟩
        | ok u => exact (margo_rows hd rest hin).2 w1 v1 l1

theorem margo_print {d : Txt} (hd : Folder d) {p : Margo.Printer} (hp : p.In d) (o : PyObj) :
    (∀ w, Frame d w (p.print w o).1.2 ∧ (p.print w o).1.1.In d) ∧
    ∀ w v, Like d w v → (p.print w o).2 = (p.print v o).2 ∧ (p.print w o).1.1 = (p.print v o).1.1 ∧
      Like d (p.print w o).1.2 (p.print v o).1.2 := by
  unfold Margo.Printer.print
  cases o with
  | msm obs =>
    dsimp only
    cases Margo.printBuffer p.ctrl obs with
    | error e => exact ⟨fun w => ⟨.refl _ _, hp⟩, fun w v l => ⟨rfl, rfl, l⟩⟩
    | ok pbuf => exact margo_rows hd pbuf hp
  | _ => exact ⟨fun w => ⟨.refl _ _, hp⟩, fun w v l => ⟨rfl, rfl, l⟩⟩

/-! ### Any printer -/

/-- The sub-printer works in `d`. -/
def Conv.Impl.In (d : Txt) : Impl → Prop
  | .json p => p.In d
  | .margo p => p.In d

theorem impl_print {d : Txt} (hd : Folder d) (fr : Rat → Txt) {i : Impl} (hi : i.In d) (o : PyObj) :
    (∀ w, Frame d w (i.print fr w o).1.2 ∧ (i.print fr w o).1.1.In d) ∧
    ∀ w v, Like d w v → (i.print fr w o).2 = (i.print fr v o).2 ∧ (i.print fr w o).1.1 = (i.print fr v o).1.1 ∧
      Like d (i.print fr w o).1.2 (i.print fr v o).1.2 := by
  cases i with
  | json p =>
    obtain ⟨h1, h2⟩ := json_print hd fr hi o
    exact ⟨h1, fun w v l => ⟨(h2 w v l).1, congrArg Impl.json (h2 w v l).2.1, (h2 w v l).2.2⟩⟩
  | margo p =>
    obtain ⟨h1, h2⟩ := margo_print hd hi o
    exact ⟨h1, fun w v l => ⟨(h2 w v l).1, congrArg Impl.margo (h2 w v l).2.1, (h2 w v l).2.2⟩⟩

theorem impl_close {d : Txt} {i : Impl} (hi : i.In d) :
    (∀ w, Frame d w (i.close w).2 ∧ (i.close w).1.In d) ∧
    ∀ w v, Like d w v → (i.close w).1 = (i.close v).1 ∧ Like d (i.close w).2 (i.close v).2 := by
  cases i with
  | json p =>
    obtain ⟨h1, h2⟩ := json_close hi
    exact ⟨h1, fun w v l => ⟨congrArg Impl.json (h2 w v l).1, (h2 w v l).2⟩⟩
  | margo p => exact ⟨fun w => ⟨.refl _ _, hi.1, fun f h => by simp at h⟩, fun w v l => ⟨rfl, l⟩⟩

theorem print_loop {d : Txt} (hd : Folder d) (fr : Rat → Txt) (o : PyObj) (a s : Nat) : ∀ (ps : List SubPrinter), (∀ p ∈ ps, p.impl.In d) →
    (∀ w, Frame d w (printLoop fr o a s w ps).1.2.2.2 ∧ ∀ p ∈ (printLoop fr o a s w ps).1.2.2.1, p.impl.In d) ∧
    ∀ w v, Like d w v → (printLoop fr o a s w ps).2 = (printLoop fr o a s v ps).2 ∧
      (printLoop fr o a s w ps).1.1 = (printLoop fr o a s v ps).1.1 ∧ (printLoop fr o a s w ps).1.2.1 = (printLoop fr o a s v ps).1.2.1 ∧
      (printLoop fr o a s w ps).1.2.2.1 = (printLoop fr o a s v ps).1.2.2.1 ∧
      Like d (printLoop fr o a s w ps).1.2.2.2 (printLoop fr o a s v ps).1.2.2.2
  | [], _ => ⟨fun w => ⟨.refl _ _, by simp [printLoop]⟩, fun w v l => ⟨rfl, rfl, rfl, rfl, l⟩⟩
  | p :: ps, hp => by
    unfold printLoop
    have hps : ∀ q ∈ ps, q.impl.In d := fun q hq => hp q (List.mem_cons_of_mem _ hq)
    cases p.handles o.cls with
    | true =>
      simp only [if_true]
      obtain ⟨h1, h2⟩ := impl_print hd fr (hp p List.mem_cons_self) o
      constructor
      · intro w
        have h := h1 w
        generalize p.impl.print fr w o = x at h ⊢
        obtain ⟨⟨i, w1⟩, r⟩ := x
        have hin : ∀ q ∈ ({ p with impl := i } : SubPrinter) :: ps, q.impl.In d := by
          intro q hq
          rcases List.mem_cons.1 hq with rfl | hq
          · exact h.2
          · exact hps q hq
        cases r with
        | error e => exact ⟨h.1, hin⟩
        | ok u => exact ⟨h.1, hin⟩
      · intro w v l
        have h := h2 w v l
        generalize p.impl.print fr w o = x at h ⊢
        generalize p.impl.print fr v o = x' at h ⊢
        obtain ⟨⟨i, w1⟩, r⟩ := x
        obtain ⟨⟨i', v1⟩, r'⟩ := x'
        dsimp only at h
        obtain ⟨rfl, rfl, l1⟩ := h
        cases r with
        | error e => exact ⟨rfl, rfl, rfl, rfl, l1⟩
        | ok u => exact ⟨rfl, rfl, rfl, rfl, l1⟩
    | false =>
      simp only [Bool.false_eq_true, if_false]
      obtain ⟨h1, h2⟩ := print_loop hd fr o a s ps hps
      constructor
      · intro w
        refine ⟨(h1 w).1, ?_⟩
        intro q hq
        rcases List.mem_cons.1 hq with rfl | hq
        · exact hp _ List.mem_cons_self
        · exact (h1 w).2 q hq
      · intro w v l
        obtain ⟨e1, e2, e3, e4, l1⟩ := h2 w v l
        exact ⟨e1, e2, e3, by rw [e4], l1⟩

theorem close_loop {d : Txt} : ∀ (ps : List SubPrinter), (∀ p ∈ ps, p.impl.In d) →
    (∀ w, Frame d w (closeLoop w ps).2) ∧ ∀ w v, Like d w v → (closeLoop w ps).1 = (closeLoop v ps).1 ∧ Like d (closeLoop w ps).2 (closeLoop v ps).2
  | [], _ => ⟨fun w => .refl _ _, fun w v l => ⟨rfl, l⟩⟩
  | p :: ps, hp => by
    obtain ⟨h1, h2⟩ := impl_close (hp p List.mem_cons_self)
    obtain ⟨g1, g2⟩ := close_loop ps (fun q hq => hp q (List.mem_cons_of_mem _ hq))
    unfold closeLoop
    dsimp only
    constructor
    · intro w
      exact (h1 w).1.trans (g1 _)
    · intro w v l
      obtain ⟨e1, l1⟩ := h2 w v l
      obtain ⟨e2, l2⟩ := g2 _ _ l1
      exact ⟨by rw [e1, e2], l2⟩

/-! ### Converter -/

/-- All printers of the converter work in `d`. -/
def Conv.Converter.In (d : Txt) (c : Converter) : Prop := ∀ p ∈ c.printer.printers, p.impl.In d

theorem conv_print {d : Txt} (hd : Folder d) (fr : Rat → Txt) {c : Converter} (hc : c.In d) (o : PyObj) :
    (∀ w, Frame d w (c.print fr w o).1.2 ∧ (c.print fr w o).1.1.In d) ∧
    ∀ w v, Like d w v → (c.print fr w o).2 = (c.print fr v o).2 ∧ (c.print fr w o).1.1 = (c.print fr v o).1.1 ∧
      Like d (c.print fr w o).1.2 (c.print fr v o).1.2 := by
  obtain ⟨h1, h2⟩ := print_loop hd fr o c.printer.attempts c.printer.succeeded c.printer.printers hc
  unfold Converter.print PrinterTop.print
  dsimp only
  refine ⟨fun w => h1 w, fun w v l => ?_⟩
  obtain ⟨e1, e2, e3, e4, l1⟩ := h2 w v l
  refine ⟨by rw [e1], by rw [e2, e3, e4], l1⟩

theorem conv_release {d : Txt} {c : Converter} (hc : c.In d) :
    (∀ w, Frame d w (c.release w).2) ∧ ∀ w v, Like d w v → (c.release w).1 = (c.release v).1 ∧ Like d (c.release w).2 (c.release v).2 := by
  obtain ⟨h1, h2⟩ := close_loop c.printer.printers hc
  unfold Converter.release PrinterTop.close
  dsimp only
  exact ⟨h1, fun w v l => ⟨by rw [(h2 w v l).1], (h2 w v l).2⟩⟩

theorem conv_process {d : Txt} (hd : Folder d) (fr : Rat → Txt) : ∀ (ms : List Bytes) {c : Converter}, c.In d →
    (∀ w, Frame d w (processMsgs fr c w ms).1.2 ∧ (processMsgs fr c w ms).1.1.In d) ∧
    ∀ w v, Like d w v → (processMsgs fr c w ms).2 = (processMsgs fr c v ms).2 ∧ (processMsgs fr c w ms).1.1 = (processMsgs fr c v ms).1.1 ∧
      Like d (processMsgs fr c w ms).1.2 (processMsgs fr c v ms).1.2
  | [], c, hc => ⟨fun w => ⟨.refl _ _, hc⟩, fun w v l => ⟨rfl, rfl, l⟩⟩
  | m :: ms, c, hc => by
    unfold processMsgs
    have hc' : (c.decode m).1.In d := hc
    generalize c.decode m = x at hc' ⊢
    obtain ⟨c1, o⟩ := x
    dsimp only at hc'
    cases o with
    | none => exact conv_process hd fr ms hc'
    | some o =>
      dsimp only
      obtain ⟨h1, h2⟩ := conv_print hd fr hc' o
      constructor
      · intro w
        have h := h1 w
        generalize c1.print fr w o = x at h ⊢
        obtain ⟨⟨c2, w1⟩, r1⟩ := x
        dsimp only at h
        cases r1 with
        | error e => exact h
        | ok u =>
          dsimp only
          have h3 := (conv_process hd fr ms h.2).1 w1
          exact ⟨h.1.trans h3.1, h3.2⟩
      · intro w v l
        have h := h2 w v l
        have hin := (h1 w).2
        generalize c1.print fr w o = x at h hin ⊢
        generalize c1.print fr v o = x' at h ⊢
        obtain ⟨⟨c2, w1⟩, r1⟩ := x
        obtain ⟨⟨c2', v1⟩, r1'⟩ := x'
        dsimp only at h hin
        obtain ⟨rfl, rfl, l1⟩ := h
        cases r1 with
        | error e => exact ⟨rfl, rfl, l1⟩
        | ok u => exact (conv_process hd fr ms hin).2 w1 v1 l1

end Verif
