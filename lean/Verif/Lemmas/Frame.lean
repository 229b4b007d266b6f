import Verif.Spec.Paths
import Verif.Lemmas.Run
import Verif.Lemmas.Dict

/-!
# The conversion of a file touches its work folder only, and depends on nothing else of the file system
-/

namespace Verif
open Spec Conv Run

namespace Disk

/-- Everything that is not below `d` is as before. -/
structure Outside (d : Txt) (w w' : Disk) : Prop where
  fault : w'.fault = w.fault
  read : ∀ q, ¬ Under d q → w'.read q = w.read q
  isdir : ∀ q, ¬ Under d q → w'.isdir q = w.isdir q

theorem Outside.refl (d : Txt) (w : Disk) : Outside d w w := ⟨rfl, fun _ _ => rfl, fun _ _ => rfl⟩

theorem Outside.trans {d : Txt} {w w' w'' : Disk} (h : Outside d w w') (h' : Outside d w' w'') : Outside d w w'' :=
  ⟨h'.fault.trans h.fault, fun q hq => (h'.read q hq).trans (h.read q hq), fun q hq => (h'.isdir q hq).trans (h.isdir q hq)⟩

/-- Besides, no directory is deleted. -/
structure Frame (d : Txt) (w w' : Disk) : Prop extends Outside d w w' where
  grow : ∀ q, w.isdir q = true → w'.isdir q = true

theorem Frame.refl (d : Txt) (w : Disk) : Frame d w w := ⟨.refl d w, fun _ h => h⟩

theorem Frame.trans {d : Txt} {w w' w'' : Disk} (h : Frame d w w') (h' : Frame d w' w'') : Frame d w w'' :=
  ⟨h.toOutside.trans h'.toOutside, fun q hq => h'.grow q (h.grow q hq)⟩

/-- Two file systems agree below `d`, and the next calls succeed or fail alike. -/
structure Like (d : Txt) (w v : Disk) : Prop where
  fault : ∀ i, w.fault (w.calls + i) = v.fault (v.calls + i)
  read : ∀ q, Under d q → w.read q = v.read q
  isdir : ∀ q, Under d q → w.isdir q = v.isdir q

theorem fault_step {w v : Disk} (h : ∀ i, w.fault (w.calls + i) = v.fault (v.calls + i)) (i : Nat) :
    w.fault (w.calls + 1 + i) = v.fault (v.calls + 1 + i) := by
  have := h (1 + i)
  rwa [← Nat.add_assoc, ← Nat.add_assoc] at this

theorem frame_write {d path : Txt} (w : Disk) (t : Txt) (h : Under d path) : Frame d w (w.write path t) := by
  refine ⟨⟨rfl, fun q hq => ?_, fun _ _ => rfl⟩, fun _ h => h⟩
  rw [read_write, if_neg]
  rintro rfl
  exact hq h

theorem like_write {d path : Txt} {w v : Disk} (t : Txt) (h : Under d path) (l : Like d w v) : Like d (w.write path t) (v.write path t) := by
  refine ⟨l.fault, fun q hq => ?_, l.isdir⟩
  rw [read_write, read_write, l.read q hq, l.read path h]

theorem frame_openW {d path : Txt} (w : Disk) (h : Under d path) : Frame d w (w.openW path).1 := by
  refine ⟨⟨?_, fun q hq => ?_, fun q hq => ?_⟩, fun q hq => ?_⟩
  · unfold openW; split <;> rfl
  · rw [read_openW, if_neg]
    rintro ⟨_, rfl⟩
    exact hq h
  · unfold openW; split <;> rfl
  · unfold openW; split <;> exact hq

theorem like_openW {d path : Txt} {w v : Disk} (l : Like d w v) :
    (w.openW path).2 = (v.openW path).2 ∧ Like d (w.openW path).1 (v.openW path).1 := by
  have e : (w.openW path).2 = (v.openW path).2 := by
    have := l.fault 0
    unfold openW
    simp only [Nat.add_zero] at this
    rw [this]
    split <;> rfl
  refine ⟨e, ?_, fun q hq => ?_, fun q hq => ?_⟩
  · intro i
    have := fault_step l.fault i
    unfold openW
    split <;> split <;> exact this
  · rw [read_openW, read_openW, e, l.read q hq]
  · have := l.isdir q hq
    unfold openW
    split <;> split <;> exact this

theorem frame_makedirs {d path : Txt} (w : Disk) (h : Under d path) : Frame d w (w.makedirs path).1 := by
  refine ⟨⟨?_, fun q _ => read_makedirs w path q, fun q hq => ?_⟩, fun q hq => ?_⟩
  · unfold makedirs; split <;> rfl
  · unfold makedirs
    split
    · rfl
    · unfold isdir
      have : (q == path) = false := by
        rw [beq_eq_false_iff_ne]
        rintro rfl
        exact hq h
      rw [List.contains_cons, this, Bool.false_or]
  · unfold makedirs
    split
    · exact hq
    · unfold isdir at hq ⊢
      rw [List.contains_cons, hq, Bool.or_true]

theorem like_makedirs {d path : Txt} {w v : Disk} (l : Like d w v) :
    (w.makedirs path).2 = (v.makedirs path).2 ∧ Like d (w.makedirs path).1 (v.makedirs path).1 := by
  have h0 := l.fault 0
  simp only [Nat.add_zero] at h0
  refine ⟨?_, ?_, fun q hq => ?_, fun q hq => ?_⟩
  · unfold makedirs
    rw [h0]
    split <;> rfl
  · intro i
    have := fault_step l.fault i
    unfold makedirs
    split <;> split <;> exact this
  · rw [read_makedirs, read_makedirs, l.read q hq]
  · have := l.isdir q hq
    unfold makedirs
    rw [h0]
    split
    · exact this
    · unfold isdir at this ⊢
      simp only [List.contains_cons, this]

/-- What `rmtree` deletes. -/
theorem gone_iff (path q : Txt) : (q == path || (path ++ ['/']).isPrefixOf q) = true ↔ Under path q := by
  unfold Under
  rw [Bool.or_eq_true, beq_iff_eq, List.isPrefixOf_iff_prefix]

theorem lookup_filter {κ α : Type} [BEq κ] [LawfulBEq κ] [DecidableEq κ] (p : κ → Bool) (l : PyDict κ α) (k : κ) :
    PyDict.get? (List.filter (fun f : κ × α => p f.1) l) k = if p k then PyDict.get? l k else none := by
  induction l with
  | nil => simp [PyDict.get?_nil]
  | cons e l ih =>
    obtain ⟨j, x⟩ := e
    rw [List.filter_cons]
    by_cases hj : p j = true
    · rw [if_pos (by exact hj), PyDict.get?_cons, PyDict.get?_cons, ih]
      by_cases h : k = j
      · subst h; simp [hj]
      · simp [h]
    · rw [if_neg (by exact hj), ih, PyDict.get?_cons]
      by_cases h : k = j
      · subst h; simp [hj]
      · simp [h]

theorem read_rmtree (w : Disk) (path q : Txt) :
    ((w.rmtree path).2 = false → (w.rmtree path).1.read q = w.read q) ∧
    ((w.rmtree path).2 = true → (Under path q → (w.rmtree path).1.read q = none) ∧ (¬ Under path q → (w.rmtree path).1.read q = w.read q)) := by
  unfold rmtree
  split
  · exact ⟨fun _ => rfl, fun h => absurd h (by simp)⟩
  · refine ⟨fun h => absurd h (by simp), fun _ => ?_⟩
    unfold read
    dsimp only
    rw [lookup_filter (fun q => !(q == path || (path ++ ['/']).isPrefixOf q))]
    constructor
    · intro h
      rw [(gone_iff path q).2 h]
      rfl
    · intro h
      have : (q == path || (path ++ ['/']).isPrefixOf q) = false := by
        rw [← Bool.not_eq_true, gone_iff]; exact h
      rw [this]
      rfl

theorem isdir_rmtree (w : Disk) (path q : Txt) :
    ((w.rmtree path).2 = false → (w.rmtree path).1.isdir q = w.isdir q) ∧
    ((w.rmtree path).2 = true → (Under path q → (w.rmtree path).1.isdir q = false) ∧
      (¬ Under path q → (w.rmtree path).1.isdir q = w.isdir q)) := by
  unfold rmtree
  split
  · exact ⟨fun _ => rfl, fun h => absurd h (by simp)⟩
  · refine ⟨fun h => absurd h (by simp), fun _ => ?_⟩
    unfold isdir
    dsimp only
    constructor
    · intro h
      rw [List.contains_eq_mem, decide_eq_false_iff_not, List.mem_filter, (gone_iff path q).2 h]
      simp
    · intro h
      have h' : (q == path || (path ++ ['/']).isPrefixOf q) = false := by
        rw [← Bool.not_eq_true, gone_iff]; exact h
      rw [List.contains_eq_mem, List.contains_eq_mem, decide_eq_decide, List.mem_filter, h']
      simp

theorem frame_rmtree {d path : Txt} (w : Disk) (h : ∀ q, Under path q → Under d q) : Outside d w (w.rmtree path).1 := by
  refine ⟨?_, fun q hq => ?_, fun q hq => ?_⟩
  · unfold rmtree; split <;> rfl
  · cases hr : (w.rmtree path).2 with
    | false => exact (read_rmtree w path q).1 hr
    | true => exact ((read_rmtree w path q).2 hr).2 (fun hu => hq (h q hu))
  · cases hr : (w.rmtree path).2 with
    | false => exact (isdir_rmtree w path q).1 hr
    | true => exact ((isdir_rmtree w path q).2 hr).2 (fun hu => hq (h q hu))

theorem like_rmtree {d : Txt} {w v : Disk} (l : Like d w v) :
    (w.rmtree d).2 = (v.rmtree d).2 ∧ Like d (w.rmtree d).1 (v.rmtree d).1 := by
  have h0 := l.fault 0
  simp only [Nat.add_zero] at h0
  have e : (w.rmtree d).2 = (v.rmtree d).2 := by
    unfold rmtree
    rw [h0]
    split <;> rfl
  refine ⟨e, ?_, fun q hq => ?_, fun q hq => ?_⟩
  · intro i
    have := fault_step l.fault i
    unfold rmtree
    split <;> split <;> exact this
  · cases hr : (v.rmtree d).2 with
    | false => rw [(read_rmtree v d q).1 hr, (read_rmtree w d q).1 (e.trans hr), l.read q hq]
    | true => rw [((read_rmtree v d q).2 hr).1 hq, ((read_rmtree w d q).2 (e.trans hr)).1 hq]
  · cases hr : (v.rmtree d).2 with
    | false => rw [(isdir_rmtree v d q).1 hr, (isdir_rmtree w d q).1 (e.trans hr), l.isdir q hq]
    | true => rw [((isdir_rmtree v d q).2 hr).1 hq, ((isdir_rmtree w d q).2 (e.trans hr)).1 hq]

/-- Below a folder. -/
theorem under_join {d b q : Txt} (hd : d ≠ [] ∧ d.getLast? ≠ some '/') (hb : b.head? ≠ some '/') (hq : q = join d b) : Under d q := by
  subst hq
  unfold join
  rw [if_neg hb, if_neg (by rintro (h | h); exact hd.1 h; exact hd.2 h)]
  right
  exact ⟨b, by simp⟩

theorem under_join_join {d a b : Txt} (hd : d ≠ [] ∧ d.getLast? ≠ some '/') (ha : a.head? ≠ some '/') (hb : b.head? ≠ some '/') :
    Under d (join (join d a) b) := by
  have h1 : join d a = d ++ '/' :: a := by
    unfold join
    rw [if_neg ha, if_neg (by rintro (h | h); exact hd.1 h; exact hd.2 h)]
  right
  rw [h1]
  unfold join
  rw [if_neg hb]
  split
  · exact ⟨a ++ b, by simp⟩
  · exact ⟨a ++ '/' :: b, by simp⟩

end Disk
end Verif
