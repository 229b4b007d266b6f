import Verif.Model.Disk
import Mathlib.Tactic

/-!
# Lemmas about dictionaries and the file system
-/

namespace Verif
namespace PyDict
variable {κ α : Type} [BEq κ] [LawfulBEq κ] [DecidableEq κ]

theorem get?_nil (k : κ) : get? ([] : PyDict κ α) k = none := rfl

theorem get?_cons (k k' : κ) (v : α) (d : PyDict κ α) :
    get? ((k', v) :: d) k = if k = k' then some v else get? d k := by
  unfold get?
  by_cases h : k = k'
  · subst h; simp
  · rw [List.lookup_cons, if_neg h]
    have : (k == k') = false := by simpa using h
    rw [this]

theorem mem_eq (d : PyDict κ α) (k : κ) : mem d k = (get? d k).isSome := rfl

theorem get?_append (d e : PyDict κ α) (k : κ) : get? (d ++ e) k = (get? d k).or (get? e k) := by
  induction d with
  | nil => rfl
  | cons p d ih =>
    obtain ⟨k', v⟩ := p
    rw [List.cons_append, get?_cons, get?_cons, ih]
    split <;> rfl

theorem get?_map_set (d : PyDict κ α) (k k' : κ) (v : α) :
    get? (d.map (fun p => if p.1 == k then (p.1, v) else p)) k' =
      if k' = k then (get? d k').map (fun _ => v) else get? d k' := by
  induction d with
  | nil => simp [get?_nil]
  | cons p d ih =>
    obtain ⟨j, x⟩ := p
    rw [List.map_cons]
    by_cases hj : j = k
    · subst hj
      rw [if_pos (by simp), get?_cons, get?_cons, ih]
      by_cases h : k' = j
      · simp [h]
      · simp [h]
    · rw [if_neg (by simpa using hj), get?_cons, get?_cons, ih]
      by_cases h : k' = j
      · subst h; simp [hj]
      · simp [h]

theorem get?_set (d : PyDict κ α) (k k' : κ) (v : α) :
    get? (set d k v) k' = if k' = k then some v else get? d k' := by
  unfold set
  by_cases hm : mem d k = true
  · rw [if_pos hm, get?_map_set]
    by_cases h : k' = k
    · subst h
      rw [if_pos rfl, if_pos rfl]
      rw [mem_eq] at hm
      obtain ⟨x, hx⟩ := Option.isSome_iff_exists.1 hm
      rw [hx]; rfl
    · rw [if_neg h, if_neg h]
  · rw [if_neg hm, get?_append, get?_cons]
    by_cases h : k' = k
    · subst h
      rw [mem_eq] at hm
      have : get? d k' = none := by simpa using hm
      rw [this]; simp
    · rw [if_neg h, if_neg h]; simp [get?_nil]

theorem keys_set (d : PyDict κ α) (k : κ) (v : α) : keys (set d k v) = if mem d k then keys d else keys d ++ [k] := by
  unfold set keys
  split
  · rw [List.map_map]
    apply List.map_congr_left
    intro p _
    simp only [Function.comp]
    split <;> rfl
  · simp

theorem get?_isSome_iff (d : PyDict κ α) (k : κ) : (get? d k).isSome ↔ k ∈ keys d := by
  induction d with
  | nil => simp [get?_nil, keys]
  | cons p d ih =>
    obtain ⟨j, x⟩ := p
    rw [get?_cons]
    by_cases h : k = j
    · simp [h, keys]
    · rw [if_neg h, ih]; simp [keys, h]

theorem nodup_set {d : PyDict κ α} (h : (keys d).Nodup) (k : κ) (v : α) : (keys (set d k v)).Nodup := by
  rw [keys_set]
  split
  · exact h
  · rename_i hm
    rw [List.nodup_append]
    refine ⟨h, by simp, ?_⟩
    intro a ha b hb hab
    rw [List.mem_singleton.1 hb] at hab
    subst hab
    exact hm ((get?_isSome_iff d a).2 ha)

theorem get?_of_mem {d : PyDict κ α} (hn : (keys d).Nodup) {k : κ} {v : α} (h : (k, v) ∈ d) : get? d k = some v := by
  induction d with
  | nil => simp at h
  | cons p d ih =>
    obtain ⟨j, x⟩ := p
    rw [get?_cons]
    have hn' : j ∉ keys d ∧ (keys d).Nodup := by simpa [keys] using hn
    rcases List.mem_cons.1 h with h | h
    · cases h; simp
    · have hk : k ∈ keys d := List.mem_map.2 ⟨_, h, rfl⟩
      rw [if_neg (by intro e; subst e; exact hn'.1 hk)]
      exact ih hn'.2 h

theorem mem_of_get? {d : PyDict κ α} {k : κ} {v : α} (h : get? d k = some v) : (k, v) ∈ d := by
  induction d with
  | nil => simp [get?_nil] at h
  | cons p d ih =>
    obtain ⟨j, x⟩ := p
    rw [get?_cons] at h
    split at h
    · rename_i e; subst e; cases h; simp
    · exact List.mem_cons_of_mem _ (ih h)

end PyDict

namespace Disk

theorem read_write (w : Disk) (p q t : Txt) :
    (w.write p t).read q = if q = p then some ((w.read p).getD [] ++ t) else w.read q := by
  unfold read write
  exact PyDict.get?_set _ _ _ _

theorem read_makedirs (w : Disk) (p q : Txt) : (w.makedirs p).1.read q = w.read q := by
  unfold makedirs; split <;> rfl

theorem read_openW (w : Disk) (p q : Txt) :
    (w.openW p).1.read q = if (w.openW p).2 = true ∧ q = p then some [] else w.read q := by
  unfold openW
  split
  · simp [read]
  · simp only [read, true_and]; exact PyDict.get?_set _ _ _ _

/-- Joining twice. -/
theorem join_join (wd dir file : Txt) (h1 : dir.head? ≠ some '/') (h2 : dir ≠ []) (h3 : dir.getLast? ≠ some '/')
    (h4 : file.head? ≠ some '/') : join (join wd dir) file = join wd (dir ++ '/' :: file) := by
  have h5 : ∀ t, (dir ++ t).head? ≠ some '/' := by
    intro t
    cases hd : dir with
    | nil => exact absurd hd h2
    | cons c cs => rw [hd] at h1; simpa using h1
  unfold join
  rw [if_neg h1, if_neg h4, if_neg (h5 _)]
  have hlast : ∀ a : Txt, (a ++ dir).getLast? = dir.getLast? := by
    intro a
    rw [List.getLast?_append]
    cases hg : dir.getLast? with
    | none => rw [List.getLast?_eq_none_iff] at hg; exact absurd hg h2
    | some x => rfl
  by_cases hw : wd = [] ∨ wd.getLast? = some '/'
  · rw [if_pos hw, if_pos hw, if_neg, List.append_assoc]
    rintro (h | h)
    · exact h2 (List.append_eq_nil_iff.1 h).2
    · rw [hlast] at h; exact h3 h
  · rw [if_neg hw, if_neg hw, if_neg]
    · simp [List.append_assoc]
    · rintro (h | h)
      · simp at h
      · rw [show wd ++ '/' :: dir = (wd ++ ['/']) ++ dir by simp, hlast] at h; exact h3 h

theorem join_inj {wd a b : Txt} (ha : a.head? ≠ some '/') (hb : b.head? ≠ some '/') (h : join wd a = join wd b) : a = b := by
  unfold join at h
  rw [if_neg ha, if_neg hb] at h
  split at h
  · exact List.append_cancel_left h
  · exact (List.cons.inj (List.append_cancel_left h)).2

/-- The first `/` separates. -/
theorem split_slash {a b x y : Txt} (ha : '/' ∉ a) (hb : '/' ∉ b) (h : a ++ '/' :: x = b ++ '/' :: y) : a = b ∧ x = y := by
  induction a generalizing b with
  | nil =>
    cases b with
    | nil => simpa using h
    | cons c b => simp at h; simp [← h.1] at hb
  | cons c a ih =>
    cases b with
    | nil => simp at h; simp [h.1] at ha
    | cons c' b =>
      simp only [List.cons_append, List.cons.injEq] at h
      obtain ⟨h1, h2⟩ := ih (by simp at ha; tauto) (by simp at hb; tauto) h.2
      exact ⟨by rw [h.1, h1], h2⟩

end Disk
end Verif
