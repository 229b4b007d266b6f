import Verif.Model.IniText
import Verif.Spec.IniText
import Verif.Props.Controls

/-!
# Lemmas on reading the text of configuration files
-/

namespace Verif
open Spec Run

/-! ### Dictionaries -/

namespace PyDict
variable {κ α β : Type} [BEq κ] [LawfulBEq κ] [DecidableEq κ]

theorem mem_keys {d : PyDict κ α} {k : κ} : mem d k = true ↔ k ∈ keys d := by rw [mem_eq, get?_isSome_iff]

theorem set_cons_self (k : κ) (v w : α) (d : PyDict κ α) (h : k ∉ keys d) : set ((k, v) :: d) k w = (k, w) :: d := by
  have hm : mem ((k, v) :: d) k = true := mem_keys.2 (by simp [keys])
  unfold set
  rw [if_pos hm, List.map_cons]
  congr 1
  · simp
  · conv_rhs => rw [← List.map_id d]
    apply List.map_congr_left
    intro p hp
    have : p.1 ≠ k := fun e => h (e ▸ List.mem_map.2 ⟨p, hp, rfl⟩)
    simp [this]

theorem set_cons_ne {k k' : κ} (v w : α) (d : PyDict κ α) (h : k' ≠ k) : set ((k', v) :: d) k w = (k', v) :: set d k w := by
  have hm : mem ((k', v) :: d) k = mem d k := by
    rw [mem_eq, mem_eq, get?_cons, if_neg (Ne.symm h)]
  unfold set
  rw [hm]
  split
  · simp [h]
  · rfl

theorem set_new {k : κ} (v : α) {d : PyDict κ α} (h : k ∉ keys d) : set d k v = d ++ [(k, v)] := by
  unfold set
  rw [if_neg (fun hm => h (mem_keys.1 hm))]

theorem set_set (d : PyDict κ α) (k : κ) (v w : α) : set (set d k v) k w = set d k w := by
  have hm : mem (set d k v) k = true := by rw [mem_eq, get?_set, if_pos rfl]; rfl
  rw [set, if_pos hm]
  unfold set
  split
  · rw [List.map_map]
    apply List.map_congr_left
    intro p _
    by_cases hp : p.1 = k <;> simp [hp]
  · next h =>
    rw [List.map_append]
    have : List.map (fun p => if (p.1 == k) = true then (p.1, w) else p) d = d := by
      conv_rhs => rw [← List.map_id d]
      apply List.map_congr_left
      intro p hp
      have : p.1 ≠ k := fun e => h (mem_keys.2 (e ▸ List.mem_map.2 ⟨p, hp, rfl⟩))
      simp [this]
    rw [this]
    simp

theorem set_comm {d : PyDict κ α} {k o : κ} (v w : α) (ho : o ∈ keys d) (h : k ≠ o) : set (set d k w) o v = set (set d o v) k w := by
  have h1 : mem d o = true := mem_keys.2 ho
  have h2 : mem (set d k w) o = true := by rw [mem_eq, get?_set, if_neg (Ne.symm h), ← mem_eq, h1]
  have h3 : mem (set d o v) k = mem d k := by rw [mem_eq, get?_set, if_neg h, ← mem_eq]
  rw [set, if_pos h2]
  conv_rhs => rw [set, h3]
  unfold set
  rw [if_pos h1]
  split
  · rw [List.map_map, List.map_map]
    apply List.map_congr_left
    intro p _
    by_cases hp : p.1 = k
    · simp [hp, h]
    · by_cases hq : p.1 = o
      · simp [hq, Ne.symm h]
      · simp [hp, hq]
  · rw [List.map_append]
    simp [h]

theorem update_cons (d : PyDict κ α) (k : κ) (v : α) (e : PyDict κ α) : update d ((k, v) :: e) = update (set d k v) e := rfl

theorem mem_keys_set {d : PyDict κ α} {k o : κ} {v : α} : o ∈ keys (set d k v) ↔ o = k ∨ o ∈ keys d := by
  rw [← mem_keys, mem_eq, get?_set]
  by_cases h : o = k
  · simp [h]
  · rw [if_neg h, ← mem_eq, mem_keys]
    simp [h]

theorem update_set_comm : ∀ (e d : PyDict κ α) (o : κ) (v : α), o ∈ keys d → o ∉ keys e → set (update d e) o v = update (set d o v) e
  | [], _, _, _, _, _ => rfl
  | (k, w) :: e, d, o, v, h1, h2 => by
    have h2' : o ≠ k ∧ o ∉ keys e := by simpa [keys] using h2
    rw [update_cons, update_set_comm e _ o v (mem_keys_set.2 (.inr h1)) h2'.2, set_comm _ _ h1 (Ne.symm h2'.1), ← update_cons]

/-- Setting an entry of the dictionary that is added is the same as setting it afterwards. -/
theorem update_set : ∀ (e d : PyDict κ α) (o : κ) (v : α), (keys e).Nodup → update d (set e o v) = set (update d e) o v
  | [], _, _, _, _ => rfl
  | (k, w) :: e, d, o, v, hn => by
    have hn' : k ∉ keys e ∧ (keys e).Nodup := by simpa [keys] using hn
    by_cases h : k = o
    · subst h
      rw [set_cons_self _ _ _ _ hn'.1, update_cons, update_cons, update_set_comm e _ k v (mem_keys_set.2 (.inl rfl)) hn'.1, set_set]
    · rw [set_cons_ne _ _ _ h, update_cons, update_cons, update_set e _ o v hn'.2]

theorem mem_keys_update : ∀ (e d : PyDict κ α) (o : κ), o ∈ keys (update d e) ↔ o ∈ keys d ∨ o ∈ keys e
  | [], d, o => by simp [update, keys]
  | (k, w) :: e, d, o => by
    rw [update_cons, mem_keys_update e, mem_keys_set]
    simp only [keys, List.map_cons, List.mem_cons]
    tauto

/-- The values of a dictionary changed by a function of key and value. -/
def mapV (f : κ → α → β) (d : PyDict κ α) : PyDict κ β := d.map (fun p => (p.1, f p.1 p.2))

theorem keys_mapV (f : κ → α → β) (d : PyDict κ α) : keys (mapV f d) = keys d := by
  simp [keys, mapV, Function.comp_def]

theorem get?_mapV (f : κ → α → β) (d : PyDict κ α) (k : κ) : get? (mapV f d) k = (get? d k).map (f k) := by
  induction d with
  | nil => rfl
  | cons p d ih =>
    obtain ⟨k', v⟩ := p
    rw [get?_cons]
    change get? ((k', f k' v) :: mapV f d) k = _
    rw [get?_cons, ih]
    split
    · next h => subst h; rfl
    · rfl

theorem mapV_set (f : κ → α → β) (d : PyDict κ α) (k : κ) (v : α) : mapV f (set d k v) = set (mapV f d) k (f k v) := by
  have hm : mem (mapV f d) k = mem d k := by rw [Bool.eq_iff_iff, mem_keys, mem_keys, keys_mapV]
  unfold set
  rw [hm]
  split
  · unfold mapV
    rw [List.map_map, List.map_map]
    apply List.map_congr_left
    intro p _
    by_cases hp : p.1 = k <;> simp [hp]
  · simp [mapV]

theorem mapV_update (f : κ → α → β) : ∀ (e d : PyDict κ α), mapV f (update d e) = update (mapV f d) (mapV f e)
  | [], _ => rfl
  | (k, v) :: e, d => by
    rw [update_cons, mapV_update f e, mapV_set]
    rfl

theorem mapV_mapV {γ : Type} (f : κ → α → β) (g : κ → β → γ) (d : PyDict κ α) : mapV g (mapV f d) = mapV (fun k a => g k (f k a)) d := by
  simp [mapV, Function.comp_def]

theorem mapV_congr {f g : κ → α → β} {d : PyDict κ α} (h : ∀ p ∈ d, f p.1 p.2 = g p.1 p.2) : mapV f d = mapV g d := by
  apply List.map_congr_left
  intro p hp
  rw [h p hp]

/-- Putting back a value that looks the same under `f`. -/
theorem mapV_set_same (f : κ → α → β) {d : PyDict κ α} (hn : (keys d).Nodup) {k : κ} {v w : α} (h : get? d k = some v) (hf : f k w = f k v) :
    mapV f (set d k w) = mapV f d := by
  have hm : mem d k = true := by rw [mem_eq, h]; rfl
  unfold set
  rw [if_pos hm]
  unfold mapV
  rw [List.map_map]
  apply List.map_congr_left
  intro p hp
  by_cases hk : p.1 = k
  · have : p.2 = v := by
      have := get?_of_mem hn (k := p.1) (v := p.2) hp
      rw [hk, h] at this
      exact (Option.some.inj this).symm
    simp [hk, this, hf]
  · simp [hk]

end PyDict

/-! ### Texts -/

theorem dropWhile_head {p : Char → Bool} {x : Txt} (h : ∀ c ∈ x.head?, p c = false) : x.dropWhile p = x := by
  cases x with
  | nil => rfl
  | cons c cs => rw [List.dropWhile_cons, h c (by simp)]; rfl

theorem trimmed_head {x : Txt} (h : Trimmed x) : ∀ c ∈ x.head?, isSpace c = false := by
  intro c hc
  have := h.1 c hc
  rw [← isSpace_iff] at this
  simpa using this

theorem trimmed_last {x : Txt} (h : Trimmed x) : ∀ c ∈ x.reverse.head?, isSpace c = false := by
  intro c hc
  rw [List.head?_reverse] at hc
  have := h.2 c hc
  rw [← isSpace_iff] at this
  simpa using this

theorem blanks_space {b : Txt} (h : Blanks b) : ∀ c ∈ b, isSpace c = true := fun c hc => (isSpace_iff c).2 (h.1 c hc)

theorem strip_trim {a x b : Txt} (ha : Blanks a) (hx : Trimmed x) (hb : Blanks b) : strip (a ++ x ++ b) = x := by
  unfold strip
  rw [List.append_assoc, Ctl.dropWhile_all _ (blanks_space ha)]
  cases x with
  | nil =>
    have : b.dropWhile isSpace = [] := by
      rw [List.dropWhile_eq_nil_iff]
      exact blanks_space hb
    rw [List.nil_append, this]
    rfl
  | cons c cs =>
    have h1 : ((c :: cs) ++ b).dropWhile isSpace = (c :: cs) ++ b := dropWhile_head (by
      intro d hd
      exact trimmed_head hx d (by simpa using hd))
    rw [h1, List.reverse_append, Ctl.dropWhile_all _ (by intro d hd; exact blanks_space hb d (List.mem_reverse.1 hd)),
      dropWhile_head (trimmed_last hx), List.reverse_reverse]

theorem rstrip_trim {x b : Txt} (hx : Trimmed x) (hb : Blanks b) : Ctl.rstrip (x ++ b) = x := by
  unfold Ctl.rstrip
  rw [List.reverse_append, Ctl.dropWhile_all _ (by intro d hd; exact blanks_space hb d (List.mem_reverse.1 hd)),
    dropWhile_head (trimmed_last hx), List.reverse_reverse]

theorem blanks_nil : Blanks [] := by simp [Blanks, Inline]

theorem trimmed_nil : Trimmed [] := by simp [Trimmed]

theorem strip_blanks {a : Txt} (ha : Blanks a) : strip a = [] := by
  have := strip_trim ha trimmed_nil blanks_nil
  simpa using this

theorem joinLines_snoc : ∀ (l : List Txt) (t : Txt), l ≠ [] → Ctl.joinLines (l ++ [t]) = Ctl.joinLines l ++ '\n' :: t
  | [], _, h => absurd rfl h
  | [a], t, _ => rfl
  | a :: b :: l, t, _ => by
    have := joinLines_snoc (b :: l) t (by simp)
    simp only [List.cons_append] at this ⊢
    have e : ∀ x y : List Txt, y ≠ [] → Ctl.joinLines (x.head?.getD [] :: y) = x.head?.getD [] ++ '\n' :: Ctl.joinLines y := by
      intro x y hy
      cases y with
      | nil => exact absurd rfl hy
      | cons y ys => rw [Ctl.joinLines]; simp
    have e1 := e [a] (b :: (l ++ [t])) (by simp)
    have e2 := e [a] (b :: l) (by simp)
    simp only [List.head?_cons, Option.getD_some] at e1 e2
    rw [e1, this, e2]
    simp

theorem joinLines_cons (a : Txt) : ∀ l : List Txt, Ctl.joinLines (a :: l) = a ++ l.flatMap ('\n' :: ·)
  | [] => by simp [Ctl.joinLines]
  | b :: l => by
    rw [Ctl.joinLines, joinLines_cons b l]
    · simp
    · simp

theorem rstrip_newline (t : Txt) : Ctl.rstrip (t ++ ['\n']) = Ctl.rstrip t := by
  unfold Ctl.rstrip
  rw [List.reverse_append]
  rfl

namespace Ctl

/-- Empty lines at the end of a value disappear. -/
theorem join_append_nil (v : Val) : (v.append []).join = v.join := by
  cases v with
  | text t => rfl
  | lines l =>
    by_cases h : l = []
    · subst h; rfl
    · change rstrip (joinLines (l ++ [[]])) = rstrip (joinLines l)
      rw [joinLines_snoc _ _ h, rstrip_newline]

/-! ### The invariant of the loop -/

/-- Names are unique and in lower case. -/
def DictWF (d : PyDict Txt Val) : Prop := d.keys.Nodup ∧ ∀ o ∈ d.keys, o.map Char.toLower = o

structure Reader.WF (r : Reader) : Prop where
  names : r.sects.keys.Nodup
  opts : ∀ s d, r.sects.get? s = some d → DictWF d
  defaults : DictWF r.defaults
  /-- the current section exists -/
  cur : ∀ s, r.cur = some s → s = defaultName ∨ s ∈ r.sects.keys
  noDefault : defaultName ∉ r.sects.keys

theorem dictWF_set {d : PyDict Txt Val} (h : DictWF d) {o : Txt} (ho : o.map Char.toLower = o) (v : Val) : DictWF (d.set o v) := by
  refine ⟨PyDict.nodup_set h.1 _ _, ?_⟩
  intro k hk
  rcases PyDict.mem_keys_set.1 hk with rfl | hk
  · exact ho
  · exact h.2 k hk

theorem dictWF_append {d : PyDict Txt Val} (h : DictWF d) (o t : Txt) : DictWF (appendLine o t d) := by
  unfold appendLine
  cases hg : d.get? o with
  | none => exact h
  | some v =>
    refine dictWF_set h (h.2 o ?_) _
    rw [← PyDict.get?_isSome_iff, hg]
    rfl

theorem modify_wf {r : Reader} (h : r.WF) (s : Txt) {f : PyDict Txt Val → PyDict Txt Val} (hf : ∀ d, DictWF d → DictWF (f d)) :
    (r.modify s f).WF := by
  unfold Reader.modify
  split
  · exact ⟨h.names, h.opts, hf _ h.defaults, h.cur, h.noDefault⟩
  · next hs =>
    cases hg : r.sects.get? s with
    | none => exact h
    | some d =>
      have hmem : s ∈ r.sects.keys := by rw [← PyDict.get?_isSome_iff, hg]; rfl
      refine ⟨PyDict.nodup_set h.names _ _, ?_, h.defaults, ?_, ?_⟩
      · intro s' d' h'
        dsimp only at h'
        rw [PyDict.get?_set] at h'
        split at h'
        · cases h'; exact hf _ (h.opts s d hg)
        · exact h.opts s' d' h'
      · intro s' h'
        rcases h.cur s' h' with rfl | h''
        · exact .inl rfl
        · exact .inr (PyDict.mem_keys_set.2 (.inr h''))
      · intro h'
        rcases PyDict.mem_keys_set.1 h' with h' | h'
        · exact hs h'.symm
        · exact h.noDefault h'

theorem lower_lower (t : Txt) : (t.map Char.toLower).map Char.toLower = t.map Char.toLower := by
  rw [List.map_map]
  apply List.map_congr_left
  intro c _
  simp only [Function.comp_apply]
  apply toLower_of
  intro ⟨h1, h2⟩
  by_cases h : 65 ≤ c.toNat ∧ c.toNat ≤ 90
  · have : c.toLower.toNat = c.toNat + 32 := by
      have h65 : c.val ≥ 'A'.val := by
        rw [ge_iff_le, UInt32.le_iff_toNat_le]; exact h.1
      have h90 : c.val ≤ 'Z'.val := by
        rw [UInt32.le_iff_toNat_le]; exact h.2
      have hc : c.toLower.val = c.val + 32 := by
        unfold Char.toLower
        rw [dif_pos ⟨h65, h90⟩]
        rfl
      show c.toLower.val.toNat = c.val.toNat + 32
      rw [hc, UInt32.toNat_add]
      have : c.val.toNat ≤ 90 := h.2
      show (c.val.toNat + 32) % _ = _
      omega
    omega
  · rw [toLower_of h] at h1 h2
    exact h ⟨h1, h2⟩

theorem header_wf {r r' : Reader} (h : r.WF) {v : Txt} (hr : r.header v = some r') : r'.WF := by
  unfold Reader.header at hr
  split at hr
  · next s hs =>
    split at hr
    · next hm =>
      split at hr
      · exact absurd hr (by simp)
      · cases hr
        refine ⟨h.names, h.opts, h.defaults, ?_, h.noDefault⟩
        intro s' h'
        cases h'
        exact .inr (PyDict.mem_keys.1 hm)
    · next hm =>
      split at hr
      · next hd =>
        cases hr
        refine ⟨h.names, h.opts, h.defaults, ?_, h.noDefault⟩
        intro s' h'
        cases h'
        exact .inl hd
      · next hd =>
        cases hr
        refine ⟨PyDict.nodup_set h.names _ _, ?_, h.defaults, ?_, ?_⟩
        · intro s' d' h'
          dsimp only at h'
          rw [PyDict.get?_set] at h'
          split at h'
          · cases h'; exact ⟨by simp [PyDict.keys], by simp [PyDict.keys]⟩
          · exact h.opts s' d' h'
        · intro s' h'
          cases h'
          exact .inr (PyDict.mem_keys_set.2 (.inl rfl))
        · intro h'
          rcases PyDict.mem_keys_set.1 h' with h' | h'
          · exact hd h'.symm
          · exact h.noDefault h'
  · split at hr
    · exact absurd hr (by simp)
    · next s hs =>
      split at hr
      · cases hr
        exact ⟨h.names, h.opts, h.defaults, h.cur, h.noDefault⟩
      · next o val ho =>
        dsimp only at hr
        split at hr
        · exact absurd hr (by simp)
        · cases hr
          have h2 := modify_wf h s (f := fun d => d.set ((rstrip o).map Char.toLower) (.lines [strip val]))
            (fun d hd => dictWF_set hd (lower_lower _) _)
          exact ⟨h2.names, h2.opts, h2.defaults, h2.cur, h2.noDefault⟩

theorem step_wf {r r' : Reader} (h : r.WF) {line : Txt} (hr : r.step line = some r') : r'.WF := by
  unfold Reader.step at hr
  split at hr
  · cases hr; exact h
  split at hr
  · split at hr
    · cases hr; exact modify_wf h _ (fun d hd => dictWF_append hd _ _)
    · cases hr; exact h
  dsimp only at hr
  split at hr
  · cases hr; exact modify_wf h _ (fun d hd => dictWF_append hd _ _)
  · have h' : Reader.WF { r with indent := (line.takeWhile isSpace).length } := ⟨h.names, h.opts, h.defaults, h.cur, h.noDefault⟩
    exact header_wf h' hr

theorem run_wf : ∀ (ls : List Txt) {r : Reader}, r.WF → (r.run ls).1.WF
  | [], _, h => h
  | l :: ls, r, h => by
    rw [Reader.run]
    cases hs : r.step l with
    | none => exact h
    | some r' => exact run_wf ls (step_wf h hs)

/-! ### Contents -/

theorem joinSect_eq (d : PyDict Txt Val) : joinSect d = d.mapV (fun _ v => v.join) := rfl

theorem contents_sects (r : Reader) : r.contents.sects = r.sects.mapV (fun _ d => joinSect d) := rfl

theorem joinSect_set (d : PyDict Txt Val) (o : Txt) (v : Val) : joinSect (d.set o v) = (joinSect d).set o v.join :=
  PyDict.mapV_set (fun _ v => Val.join v) d o v

theorem joinSect_append_nil {d : PyDict Txt Val} (h : DictWF d) (o : Txt) : joinSect (appendLine o [] d) = joinSect d := by
  unfold appendLine
  cases hg : d.get? o with
  | none => rfl
  | some v => exact PyDict.mapV_set_same (fun _ v => Val.join v) h.1 hg (join_append_nil v)

/-- An empty line does not change the contents. -/
theorem contents_blank {r : Reader} (h : r.WF) (s o : Txt) : (r.modify s (appendLine o [])).contents = r.contents := by
  unfold Reader.modify
  split
  · unfold Reader.contents
    dsimp only
    rw [joinSect_append_nil h.defaults]
  · cases hg : r.sects.get? s with
    | none => rfl
    | some d =>
      have := PyDict.mapV_set_same (fun _ d => joinSect d) h.names hg (joinSect_append_nil (h.opts s d hg) o)
      unfold Reader.contents
      dsimp only
      congr 1

/-- Sets an option of a section that exists. -/
def putIni (a : Ini) (s o t : Txt) : Ini :=
  if s = defaultName then { a with defaults := a.defaults.set o t }
  else
    match a.sects.get? s with
    | some d => { a with sects := a.sects.set s (d.set o t) }
    | none => a

theorem contents_set (r : Reader) (s o : Txt) (v : Val) :
    (r.modify s (fun d => d.set o v)).contents = putIni r.contents s o v.join := by
  unfold Reader.modify putIni
  split
  · unfold Reader.contents
    dsimp only
    rw [joinSect_set]
  · rw [contents_sects, PyDict.get?_mapV]
    cases hg : r.sects.get? s with
    | none => rfl
    | some d =>
      unfold Reader.contents
      dsimp only [Option.map_some]
      congr 1
      rw [← joinSect_set]
      exact PyDict.mapV_set (fun _ d => joinSect d) r.sects s _

/-! ### The lines of a document -/

/-- The same contents and the same local variables. -/
structure Same (r r' : Reader) : Prop where
  contents : r'.contents = r.contents
  addedS : r'.addedS = r.addedS
  addedO : r'.addedO = r.addedO
  cur : r'.cur = r.cur
  indent : r'.indent = r.indent
  bad : r'.bad = r.bad

theorem same_refl (r : Reader) : Same r r := ⟨rfl, rfl, rfl, rfl, rfl, rfl⟩

theorem same_trans {a b c : Reader} (h : Same a b) (h' : Same b c) : Same a c :=
  ⟨h'.contents.trans h.contents, h'.addedS.trans h.addedS, h'.addedO.trans h.addedO, h'.cur.trans h.cur, h'.indent.trans h.indent,
    h'.bad.trans h.bad⟩

theorem dropWhile_snoc {p : Char → Bool} {c : Char} (hc : p c = false) : ∀ x : Txt, (x ++ [c]).dropWhile p = x.dropWhile p ++ [c]
  | [] => by simp [hc]
  | d :: x => by
    rw [List.cons_append, List.dropWhile_cons, List.dropWhile_cons]
    split
    · exact dropWhile_snoc hc x
    · rfl

theorem mark_notSpace {c : Char} (h : CommentMark c) : isSpace c = false := by
  rcases h with rfl | rfl <;> decide

theorem isComment_comment {ws : Txt} (h : Blanks ws) {c : Char} (hc : CommentMark c) (t : Txt) : isComment (ws ++ c :: t) = true := by
  unfold isComment strip
  have e : (c :: t).dropWhile isSpace = c :: t := dropWhile_head (by
    intro d hd
    rw [List.head?_cons, Option.mem_some_iff] at hd
    exact hd ▸ mark_notSpace hc)
  rw [dropWhile_all _ (blanks_space h), e, List.reverse_cons, dropWhile_snoc (mark_notSpace hc), List.reverse_append]
  simpa [CommentMark] using hc

theorem isComment_false {line : Txt} (h : ∀ c ∈ (strip line).head?, ¬ CommentMark c) : isComment line = false := by
  unfold isComment
  cases hs : strip line with
  | nil => rfl
  | cons c cs =>
    rw [hs] at h
    simpa [CommentMark] using h c (by simp)

theorem modify_same {r : Reader} (s : Txt) (f : PyDict Txt Val → PyDict Txt Val) (hc : (r.modify s f).contents = r.contents) :
    Same r (r.modify s f) := by
  refine ⟨hc, ?_, ?_, ?_, ?_, ?_⟩ <;> (unfold Reader.modify; split <;> [rfl; (split <;> rfl)])

theorem step_filler {r : Reader} (h : r.WF) {f : Filler} (hf : f.OK) : ∃ r', r.step f.line = some r' ∧ Same r r' ∧ r'.WF := by
  cases f with
  | comment ws mark text =>
    refine ⟨r, ?_, same_refl r, h⟩
    unfold Reader.step Filler.line
    rw [isComment_comment hf.1 hf.2.1]
    rfl
  | blank ws =>
    have hf : Blanks ws := hf
    have e1 : strip ws = [] := strip_blanks hf
    have e2 : isComment ws = false := isComment_false (by rw [e1]; simp)
    cases ho : r.open_ with
    | none =>
      refine ⟨r, ?_, same_refl r, h⟩
      unfold Reader.step Filler.line
      rw [e2, e1, ho]
      rfl
    | some p =>
      obtain ⟨s, o⟩ := p
      refine ⟨r.modify s (appendLine o []), ?_, modify_same s _ (contents_blank h s o), modify_wf h _ (fun d hd => dictWF_append hd _ _)⟩
      unfold Reader.step Filler.line
      rw [e2, e1, ho]
      rfl

theorem run_fillers : ∀ (fs : List Filler) {r : Reader} (_ : r.WF) (_ : ∀ f ∈ fs, f.OK) (rest : List Txt),
    ∃ r', r.run (fs.map Filler.line ++ rest) = r'.run rest ∧ Same r r' ∧ r'.WF
  | [], r, h, _, rest => ⟨r, rfl, same_refl r, h⟩
  | f :: fs, r, h, hf, rest => by
    obtain ⟨r1, h1, h2, h3⟩ := step_filler h (hf f List.mem_cons_self)
    obtain ⟨r2, h4, h5, h6⟩ := run_fillers fs h3 (fun f' hf' => hf f' (List.mem_cons_of_mem _ hf')) rest
    refine ⟨r2, ?_, same_trans h2 h5, h6⟩
    rw [List.map_cons, List.cons_append, Reader.run, h1]
    exact h4

/-! ### Option lines -/

theorem delim_iff (c : Char) : isDelim c = true ↔ Delimiter c := by simp [isDelim, Delimiter]

theorem delim_notSpace {c : Char} (h : Delimiter c) : isSpace c = false := by
  rcases h with rfl | rfl <;> decide

theorem space_notDelim {c : Char} (h : isSpace c = true) : isDelim c = false := by
  cases hd : isDelim c with
  | false => rfl
  | true =>
    rw [delim_notSpace ((delim_iff c).1 hd)] at h
    exact absurd h (by simp)

/-- What is left of an option line, and how it is split. -/
theorem option_line {e : Entry} (h : e.OK) : ∃ s, strip e.line = s ∧ matchOption s = some (e.name, (s.dropWhile (fun c => !isDelim c)).tail.dropWhile isSpace) ∧
    strip ((s.dropWhile (fun c => !isDelim c)).tail.dropWhile isSpace) = e.value ∧ s.head? = e.name.head? := by
  obtain ⟨c, cs, hn⟩ : ∃ c cs, e.name = c :: cs := by
    cases hn : e.name with
    | nil => exact absurd hn h.name.2.2
    | cons c cs => exact ⟨c, cs, rfl⟩
  have hdel : ∀ d ∈ e.name ++ e.sp1, (fun c => !isDelim c) d = true := by
    intro d hd
    rcases List.mem_append.1 hd with hd | hd
    · have := h.plain d hd
      rw [← delim_iff] at this
      simpa using this
    · simpa using space_notDelim (blanks_space h.blanks.1 d hd)
  have hne : (fun c => !isDelim c) e.delim = false := by simpa using (delim_iff _).2 h.delim
  have key : ∀ v : Txt, Trimmed v → (∀ c ∈ v.head?, isSpace c = false) → ∀ sp : Txt, Blanks sp →
      matchOption (e.name ++ e.sp1 ++ e.delim :: (sp ++ v)) = some (e.name, v) ∧
      ((e.name ++ e.sp1 ++ e.delim :: (sp ++ v)).dropWhile (fun c => !isDelim c)).tail.dropWhile isSpace = v := by
    intro v hv hv' sp hsp
    obtain ⟨e1, e2⟩ := takeWhile_until (p := fun c => !isDelim c) (sp ++ v) hdel hne
    have e3 : (sp ++ v).dropWhile isSpace = v := by
      rw [dropWhile_all _ (blanks_space hsp), dropWhile_head hv']
    refine ⟨?_, ?_⟩
    · unfold matchOption
      rw [e2]
      dsimp only
      rw [e1, rstrip_trim h.name.2.1 h.blanks.1, e3]
    · rw [e2, List.tail_cons, e3]
  by_cases hv : e.value = []
  · refine ⟨e.name ++ e.sp1 ++ e.delim :: ([] ++ []), ?_, ?_, ?_, ?_⟩
    · have : e.line = [] ++ (e.name ++ e.sp1 ++ e.delim :: ([] ++ [])) ++ (e.sp2 ++ e.trail) := by
        unfold Entry.line
        rw [hv]
        simp
      rw [this]
      refine strip_trim blanks_nil ⟨?_, ?_⟩ ⟨?_, ?_, ?_⟩
      · intro d hd
        refine h.name.2.1.1 d ?_
        rw [hn] at hd ⊢
        simpa using hd
      · intro d hd
        simp at hd
        subst hd
        rw [← isSpace_iff, delim_notSpace h.delim]
        simp
      · intro d hd
        rcases List.mem_append.1 hd with hd | hd
        · exact h.blanks.2.1.1 d hd
        · exact h.blanks.2.2.1 d hd
      · simp [h.blanks.2.1.2.1, h.blanks.2.2.2.1]
      · simp [h.blanks.2.1.2.2, h.blanks.2.2.2.2]
    · obtain ⟨k1, k2⟩ := key [] trimmed_nil (by simp) [] blanks_nil
      rw [k1, k2]
    · obtain ⟨k1, k2⟩ := key [] trimmed_nil (by simp) [] blanks_nil
      rw [k2, hv]
      rfl
    · rw [hn]; simp
  · refine ⟨e.name ++ e.sp1 ++ e.delim :: (e.sp2 ++ e.value), ?_, ?_, ?_, ?_⟩
    · have : e.line = [] ++ (e.name ++ e.sp1 ++ e.delim :: (e.sp2 ++ e.value)) ++ e.trail := by
        unfold Entry.line
        simp
      rw [this]
      refine strip_trim blanks_nil ⟨?_, ?_⟩ h.blanks.2.2
      · intro d hd
        refine h.name.2.1.1 d ?_
        rw [hn] at hd ⊢
        simpa using hd
      · intro d hd
        refine h.value.2.2 d ?_
        have e1 : e.name ++ e.sp1 ++ e.delim :: (e.sp2 ++ e.value) = (e.name ++ e.sp1 ++ e.delim :: e.sp2) ++ e.value := by simp
        rw [e1, List.getLast?_append] at hd
        cases hl : e.value.getLast? with
        | none => rw [List.getLast?_eq_none_iff] at hl; exact absurd hl hv
        | some x => rw [hl] at hd; simpa using hd
    · obtain ⟨k1, k2⟩ := key e.value h.value.2 (trimmed_head h.value.2) e.sp2 h.blanks.2.1
      rw [k1, k2]
    · obtain ⟨k1, k2⟩ := key e.value h.value.2 (trimmed_head h.value.2) e.sp2 h.blanks.2.1
      rw [k2]
      have := strip_trim blanks_nil h.value.2 blanks_nil
      simpa using this
    · rw [hn]; simp

/-- The state after the first lines of an option. -/
def optState (r : Reader) (s o : Txt) (ls : List Txt) (added : List (Txt × Txt)) : Reader :=
  { r.modify s (fun d => d.set o (.lines ls)) with addedO := added, opt := some o }

theorem modify_fields (r : Reader) (s : Txt) (f : PyDict Txt Val → PyDict Txt Val) :
    (r.modify s f).addedS = r.addedS ∧ (r.modify s f).addedO = r.addedO ∧ (r.modify s f).cur = r.cur ∧ (r.modify s f).opt = r.opt ∧
    (r.modify s f).indent = r.indent ∧ (r.modify s f).bad = r.bad := by
  unfold Reader.modify
  split
  · exact ⟨rfl, rfl, rfl, rfl, rfl, rfl⟩
  · split <;> exact ⟨rfl, rfl, rfl, rfl, rfl, rfl⟩

theorem matchSection_none {v : Txt} (h : ∀ c ∈ v.head?, c ≠ '[') : matchSection v = none := by
  cases v with
  | nil => rfl
  | cons c cs =>
    unfold matchSection
    dsimp only
    rw [if_neg (h c (by simp))]

theorem takeWhile_none {p : Char → Bool} {x : Txt} (h : ∀ c ∈ x.head?, p c = false) : x.takeWhile p = [] := by
  cases x with
  | nil => rfl
  | cons c cs => rw [List.takeWhile_cons, h c (by simp)]; rfl

theorem step_option {r : Reader} {s : Txt} (hc : r.cur = some s) (hi : r.indent = 0) (hb : r.bad = false) {e : Entry} (he : e.OK)
    (ha : (s, e.key) ∉ r.addedO) : r.step e.line = some (optState r s e.key [e.value] (r.addedO ++ [(s, e.key)])) := by
  obtain ⟨v, h1, h2, h3, h4⟩ := option_line he
  obtain ⟨c, cs, hn⟩ : ∃ c cs, e.name = c :: cs := by
    cases hn : e.name with
    | nil => exact absurd hn he.name.2.2
    | cons c cs => exact ⟨c, cs, rfl⟩
  have hhead : v.head? = some c := by rw [h4, hn]; rfl
  have hcm : isComment e.line = false := isComment_false (by
    rw [h1, h4]
    intro d hd
    exact (he.start d hd).1)
  have hne : v ≠ [] := by rintro rfl; simp at hhead
  have hlev : (e.line.takeWhile isSpace) = [] := takeWhile_none (by
    intro d hd
    refine trimmed_head he.name.2.1 d ?_
    unfold Entry.line at hd
    rw [hn] at hd ⊢
    simpa using hd)
  unfold Reader.step
  rw [hcm, h1, if_neg (by simp), if_neg hne, hlev]
  dsimp only [List.length_nil]
  rw [if_neg (by omega)]
  dsimp only
  have hr0 : ({ r with indent := 0 } : Reader) = r := by rw [← hi]
  rw [hr0]
  unfold Reader.header
  rw [matchSection_none (by
    rw [h4]
    intro d hd
    exact (he.start d hd).2)]
  dsimp only
  rw [hc]
  dsimp only
  rw [h2]
  dsimp only
  have hr : rstrip e.name = e.name := by
    have := rstrip_trim he.name.2.1 blanks_nil
    rwa [List.append_nil] at this
  have hk : (rstrip e.name).map Char.toLower = e.key := by rw [hr]; rfl
  rw [hk, if_neg ha, h3]
  unfold optState
  have hb' : (r.bad || e.name.isEmpty) = r.bad := by rw [hb, hn]; rfl
  obtain ⟨f1, f2, f3, f4, f5, f6⟩ := modify_fields r s (fun d => d.set e.key (.lines [e.value]))
  rw [hb']
  dsimp only
  rw [f6]

theorem key_ne {e : Entry} (he : e.OK) : ∃ c cs, e.key = c :: cs := by
  cases hn : e.name with
  | nil => exact absurd hn he.name.2.2
  | cons c cs => exact ⟨c.toLower, cs.map Char.toLower, by unfold Entry.key; rw [hn]; rfl⟩

theorem modify_append {r : Reader} (s o : Txt) (ls : List Txt) (t : Txt) :
    (r.modify s (fun d => d.set o (.lines ls))).modify s (appendLine o t) = r.modify s (fun d => d.set o (.lines (ls ++ [t]))) := by
  have ha : ∀ d : PyDict Txt Val, appendLine o t (d.set o (.lines ls)) = d.set o (.lines (ls ++ [t])) := by
    intro d
    unfold appendLine
    rw [PyDict.get?_set, if_pos rfl]
    exact PyDict.set_set _ _ _ _
  unfold Reader.modify
  by_cases hs : s = defaultName
  · rw [if_pos hs, if_pos hs, if_pos hs]
    dsimp only
    rw [ha]
  · rw [if_neg hs, if_neg hs, if_neg hs]
    cases hg : r.sects.get? s with
    | none =>
      dsimp only
      rw [hg]
    | some d =>
      dsimp only
      rw [PyDict.get?_set, if_pos rfl]
      dsimp only
      rw [ha, PyDict.set_set]

theorem step_more {r : Reader} {s o : Txt} (hc : r.cur = some s) (hi : r.indent = 0) (ho : ∃ c cs, o = c :: cs) (ls : List Txt)
    (added : List (Txt × Txt)) {m : MoreLine} (hm : m.OK) :
    (optState r s o ls added).step m.line = some (optState r s o (ls ++ [m.text]) added) := by
  have e1 : strip m.line = m.text := strip_trim hm.indent.1 hm.text.2.1 hm.trail
  have e2 : isComment m.line = false := isComment_false (by rw [e1]; exact hm.text.2.2.2)
  obtain ⟨f1, f2, f3, f4, f5, f6⟩ := modify_fields r s (fun d => d.set o (.lines ls))
  have hlev : (optState r s o ls added).indent < (m.line.takeWhile isSpace).length := by
    have h0 : (optState r s o ls added).indent = 0 := f5.trans hi
    rw [h0]
    cases hx : m.indent with
    | nil => exact absurd hx hm.indent.2
    | cons c cs =>
      have hsp := blanks_space hm.indent.1 c (by rw [hx]; simp)
      unfold MoreLine.line
      rw [hx, List.cons_append, List.cons_append, List.takeWhile_cons, hsp]
      simp
  have hopen : (optState r s o ls added).open_ = some (s, o) := by
    obtain ⟨c, cs, rfl⟩ := ho
    unfold Reader.open_ optState
    dsimp only
    rw [f3, hc]
  unfold Reader.step
  rw [e2, e1, if_neg (by simp), if_neg hm.text.2.2.1]
  dsimp only
  rw [if_pos hlev, hopen]
  dsimp only
  congr 1
  have := modify_append (r := r) s o ls m.text
  unfold optState
  rw [← this]
  generalize (r.modify s fun d => d.set o (.lines ls)) = q
  unfold Reader.modify
  split
  · rfl
  · dsimp only
    split <;> rfl

theorem run_more {r : Reader} {s o : Txt} (hc : r.cur = some s) (hi : r.indent = 0) (ho : ∃ c cs, o = c :: cs) (added : List (Txt × Txt)) :
    ∀ (ms : List MoreLine) (ls : List Txt) (_ : ∀ m ∈ ms, m.OK) (rest : List Txt),
    (optState r s o ls added).run (ms.map MoreLine.line ++ rest) = (optState r s o (ls ++ ms.map MoreLine.text) added).run rest
  | [], ls, _, rest => by simp
  | m :: ms, ls, h, rest => by
    rw [List.map_cons, List.cons_append, Reader.run, step_more hc hi ho ls added (h m List.mem_cons_self)]
    dsimp only
    rw [run_more hc hi ho added ms _ (fun m' hm' => h m' (List.mem_cons_of_mem _ hm')) rest]
    simp

theorem rstrip_snoc {x y : Txt} (h : Trimmed y) (hy : y ≠ []) : rstrip (x ++ y) = x ++ y := by
  unfold rstrip
  rw [dropWhile_head, List.reverse_reverse]
  intro c hc
  refine trimmed_last h c ?_
  rw [List.reverse_append] at hc
  cases hr : y.reverse with
  | nil => exact absurd (List.reverse_eq_nil_iff.1 hr) hy
  | cons d ds => rw [hr] at hc; simpa using hc

theorem entry_content {e : Entry} (he : e.OK) : (Val.lines (e.value :: e.more.map MoreLine.text)).join = e.content := by
  unfold Val.join Entry.content
  dsimp only
  rw [joinLines_cons, List.flatMap_map]
  rcases List.eq_nil_or_concat e.more with hm | ⟨ms, m, hm⟩
  · rw [hm]
    have := rstrip_trim he.value.2 blanks_nil
    simpa using this
  · rw [hm, List.concat_eq_append, List.flatMap_append]
    have hmo := he.more m (by rw [hm]; simp)
    have : e.value ++ (ms.flatMap (fun m => '\n' :: m.text) ++ [m].flatMap (fun m => '\n' :: m.text)) =
        (e.value ++ ms.flatMap (fun m => '\n' :: m.text) ++ ['\n']) ++ m.text := by simp
    rw [this]
    exact rstrip_snoc hmo.text.2.1 hmo.text.2.2.1

/-- What is needed in the middle of a section, and what is known of the parser. -/
structure Inside (r : Reader) (s : Txt) (a : Ini) : Prop where
  wf : r.WF
  cur : r.cur = some s
  indent : r.indent = 0
  bad : r.bad = false
  contents : r.contents = a

theorem run_entry {r : Reader} {s : Txt} {a : Ini} (h : Inside r s a) {e : Entry} (he : e.OK) (ha : (s, e.key) ∉ r.addedO) (rest : List Txt) :
    ∃ r', r.run (e.lines ++ rest) = r'.run rest ∧ Inside r' s (putIni a s e.key e.content) ∧ r'.addedO = r.addedO ++ [(s, e.key)] ∧
      r'.addedS = r.addedS := by
  unfold Entry.lines
  rw [List.append_assoc]
  obtain ⟨r1, h1, h2, h3⟩ := run_fillers e.before h.wf he.before (e.line :: e.more.map MoreLine.line ++ rest)
  rw [h1]
  have hc : r1.cur = some s := h2.cur.trans h.cur
  have hi : r1.indent = 0 := h2.indent.trans h.indent
  have hb : r1.bad = false := h2.bad.trans h.bad
  rw [List.cons_append, Reader.run, step_option hc hi hb he (by rw [h2.addedO]; exact ha)]
  dsimp only
  rw [run_more hc hi (key_ne he) _ _ _ he.more]
  obtain ⟨f1, f2, f3, f4, f5, f6⟩ := modify_fields r1 s (fun d => d.set e.key (.lines ([e.value] ++ e.more.map MoreLine.text)))
  refine ⟨_, rfl, ⟨?_, f3.trans hc, f5.trans hi, f6.trans hb, ?_⟩, ?_, ?_⟩
  · have := modify_wf h3 s (f := fun d => d.set e.key (.lines ([e.value] ++ e.more.map MoreLine.text))) (fun d hd => dictWF_set hd (lower_lower _) _)
    exact ⟨this.names, this.opts, this.defaults, this.cur, this.noDefault⟩
  · rw [← h.contents, ← h2.contents, ← entry_content he]
    exact contents_set r1 s e.key _
  · change r1.addedO ++ _ = _
    rw [h2.addedO]
  · exact f1.trans h2.addedS

/-- A new section. -/
def addTo (a : Ini) (s : Txt) (opts : PyDict Txt Txt) : Ini :=
  if s = defaultName then { a with defaults := opts } else { a with sects := a.sects ++ [(s, opts)] }

theorem put_addTo {a : Ini} {s : Txt} (hs : s ∉ a.sects.keys) {opts : PyDict Txt Txt} {o : Txt} (ho : o ∉ opts.keys) (t : Txt) :
    putIni (addTo a s opts) s o t = addTo a s (opts ++ [(o, t)]) := by
  unfold putIni addTo
  by_cases h : s = defaultName
  · rw [if_pos h, if_pos h, if_pos h, PyDict.set_new _ ho]
  · rw [if_neg h, if_neg h, if_neg h]
    dsimp only
    have hn : PyDict.get? a.sects s = none := by
      cases hg : PyDict.get? a.sects s with
      | none => rfl
      | some d => exact absurd ((PyDict.get?_isSome_iff _ _).1 (by rw [hg]; rfl)) hs
    have hg : PyDict.get? (a.sects ++ [(s, opts)]) s = some opts := by
      rw [PyDict.get?_append, hn, PyDict.get?_cons, if_pos rfl]
      rfl
    rw [hg]
    dsimp only
    congr 1
    rw [PyDict.set_new _ ho]
    unfold PyDict.set
    rw [if_pos (by rw [PyDict.mem_eq, hg]; rfl), List.map_append]
    congr 1
    · conv_rhs => rw [← List.map_id a.sects]
      apply List.map_congr_left
      intro p hp
      have : p.1 ≠ s := fun e => hs (e ▸ List.mem_map.2 ⟨p, hp, rfl⟩)
      simp [this]
    · simp

theorem run_entries {s : Txt} {a : Ini} (hs : s ∉ a.sects.keys) : ∀ (es : List Entry) {r : Reader} {opts : PyDict Txt Txt}
    (_ : Inside r s (addTo a s opts)) (_ : ∀ e ∈ es, e.OK) (_ : (opts.keys ++ es.map Entry.key).Nodup)
    (_ : ∀ p ∈ r.addedO, p.1 = s → p.2 ∈ opts.keys) (rest : List Txt),
    ∃ r', r.run (es.flatMap Entry.lines ++ rest) = r'.run rest ∧ Inside r' s (addTo a s (opts ++ es.map (fun e => (e.key, e.content)))) ∧
      (∀ p ∈ r'.addedO, p ∈ r.addedO ∨ p.1 = s) ∧ r'.addedS = r.addedS
  | [], r, opts, h, _, _, _, rest => ⟨r, rfl, by simpa using h, fun p hp => .inl hp, rfl⟩
  | e :: es, r, opts, h, he, hn, ha, rest => by
    have hk : e.key ∉ opts.keys := by
      intro hk
      rw [List.map_cons, List.nodup_append] at hn
      exact hn.2.2 _ hk _ List.mem_cons_self rfl
    have hnot : (s, e.key) ∉ r.addedO := fun hp => hk (ha _ hp rfl)
    rw [List.flatMap_cons, List.append_assoc]
    obtain ⟨r1, h1, h2, h3, h4⟩ := run_entry h (he e List.mem_cons_self) hnot (es.flatMap Entry.lines ++ rest)
    rw [put_addTo hs hk] at h2
    have ek : (PyDict.keys (opts ++ [(e.key, e.content)])) = opts.keys ++ [e.key] := by simp [PyDict.keys]
    obtain ⟨r2, h5, h6, h7, h8⟩ := run_entries hs es h2 (fun e' he' => he e' (List.mem_cons_of_mem _ he')) (by
      rw [ek, List.append_assoc]
      exact hn) (by
      intro p hp hps
      rw [ek]
      rw [h3] at hp
      rcases List.mem_append.1 hp with hp | hp
      · exact List.mem_append.2 (.inl (ha p hp hps))
      · rw [List.mem_singleton] at hp
        subst hp
        simp) rest
    refine ⟨r2, by rw [h1, h5], ?_, ?_, h8.trans h4⟩
    · rw [List.append_assoc] at h6
      exact h6
    · intro p hp
      rcases h7 p hp with hp | hp
      · rw [h3] at hp
        rcases List.mem_append.1 hp with hp | hp
        · exact .inl hp
        · rw [List.mem_singleton] at hp
          subst hp
          exact .inr rfl
      · exact .inr hp

/-! ### Sections and documents -/

theorem matchSection_header {n : Txt} (hn : n ≠ []) : matchSection ('[' :: (n ++ [']'])) = some n := by
  unfold matchSection
  dsimp only
  rw [if_pos rfl, List.reverse_append]
  have hr : n.reverse ≠ [] := fun h => hn (List.reverse_eq_nil_iff.1 h)
  cases h : n.reverse with
  | nil => exact absurd h hr
  | cons x xs =>
    have : (List.reverse [']'] ++ x :: xs).dropWhile (fun c => decide (c ≠ ']')) = ']' :: x :: xs := by
      simp
    rw [this]
    dsimp only
    rw [← h, List.reverse_reverse]

/-- What is known between sections. -/
structure Between (r : Reader) (a : Ini) (names : List Txt) : Prop where
  wf : r.WF
  bad : r.bad = false
  contents : r.contents = a
  sects : ∀ s ∈ a.sects.keys, s ∈ names
  defaults : defaultName ∉ names → a.defaults = []
  added : ∀ p ∈ r.addedO, p.1 ∈ names

theorem contents_keys (r : Reader) : r.contents.sects.keys = r.sects.keys := by
  rw [contents_sects, PyDict.keys_mapV]

theorem step_header {r : Reader} {a : Ini} {names : List Txt} (h : Between r a names) {b : Block} (hb : b.OK) (hn : b.name ∉ names)
    : ∃ r', r.step b.line = some r' ∧ Inside r' b.name (addTo a b.name []) ∧ r'.addedO = r.addedO := by
  have hns : b.name ∉ r.sects.keys := by
    rw [← contents_keys, h.contents]
    exact fun hk => hn (h.sects _ hk)
  have e1 : strip b.line = '[' :: (b.name ++ [']']) := by
    have hl : b.line = [] ++ ('[' :: (b.name ++ [']'])) ++ b.trail := by
      unfold Block.line; simp
    rw [hl]
    refine strip_trim blanks_nil ⟨?_, ?_⟩ hb.trail
    · intro d hd
      simp at hd
      subst hd
      rw [← isSpace_iff]; decide
    · intro d hd
      have : ('[' :: (b.name ++ [']'])).getLast? = some ']' := by
        rw [← List.cons_append, List.getLast?_append]; rfl
      rw [this] at hd
      simp at hd
      subst hd
      rw [← isSpace_iff]; decide
  have e2 : isComment b.line = false := isComment_false (by
    rw [e1]
    intro c hc
    simp at hc
    subst hc
    simp [CommentMark])
  have hlev : b.line.takeWhile isSpace = [] := takeWhile_none (by
    intro d hd
    unfold Block.line at hd
    simp at hd
    subst hd
    decide)
  have hm : r.sects.mem b.name = false := by
    cases hx : r.sects.mem b.name with
    | false => rfl
    | true => exact absurd (PyDict.mem_keys.1 hx) hns
  unfold Reader.step
  rw [e2, e1, if_neg (by simp), if_neg (by simp), hlev]
  dsimp only [List.length_nil]
  rw [if_neg (by omega)]
  dsimp only
  unfold Reader.header
  rw [matchSection_header hb.name.2]
  dsimp only
  rw [hm, if_neg (by simp)]
  by_cases hd : b.name = defaultName
  · rw [if_pos hd]
    refine ⟨_, rfl, ⟨⟨h.wf.names, h.wf.opts, h.wf.defaults, ?_, h.wf.noDefault⟩, rfl, rfl, h.bad, ?_⟩, rfl⟩
    · intro s hs
      cases hs
      exact .inl hd
    · unfold addTo
      rw [if_pos hd]
      have : r.contents = a := h.contents
      have hnil := h.defaults (hd ▸ hn)
      rw [show ({ a with defaults := [] } : Ini) = a by rw [← hnil]]
      exact this
  · rw [if_neg hd]
    refine ⟨_, rfl, ⟨⟨PyDict.nodup_set h.wf.names _ _, ?_, h.wf.defaults, ?_, ?_⟩, rfl, rfl, h.bad, ?_⟩, rfl⟩
    · intro s' d' h'
      dsimp only at h'
      rw [PyDict.get?_set] at h'
      split at h'
      · cases h'; exact ⟨by simp [PyDict.keys], by simp [PyDict.keys]⟩
      · exact h.wf.opts s' d' h'
    · intro s hs
      cases hs
      exact .inr (PyDict.mem_keys_set.2 (.inl rfl))
    · intro h'
      rcases PyDict.mem_keys_set.1 h' with h' | h'
      · exact hd h'.symm
      · exact h.wf.noDefault h'
    · unfold addTo
      rw [if_neg hd, ← h.contents]
      unfold Reader.contents
      dsimp only
      congr 1
      rw [PyDict.set_new _ hns, List.map_append]
      rfl

theorem run_block {r : Reader} {a : Ini} {names : List Txt} (h : Between r a names) {b : Block} (hb : b.OK) (hn : b.name ∉ names)
    (rest : List Txt) : ∃ r', r.run (b.lines ++ rest) = r'.run rest ∧ Between r' (addTo a b.name b.options) (names ++ [b.name]) := by
  unfold Block.lines
  rw [List.append_assoc]
  obtain ⟨r1, h1, h2, h3⟩ := run_fillers b.before h.wf hb.before (b.line :: b.entries.flatMap Entry.lines ++ rest)
  rw [h1]
  have hb1 : Between r1 a names :=
    ⟨h3, h2.bad.trans h.bad, h2.contents.trans h.contents, h.sects, h.defaults, by rw [h2.addedO]; exact h.added⟩
  obtain ⟨r2, h4, h5, h6⟩ := step_header hb1 hb hn
  rw [List.cons_append, Reader.run, h4]
  dsimp only
  have hs : b.name ∉ a.sects.keys := fun hk => hn (h.sects _ hk)
  obtain ⟨r3, h7, h8, h9, h10⟩ := run_entries hs b.entries h5 hb.entries (by simpa [PyDict.keys] using hb.unique) (by
    intro p hp hps
    rw [h6] at hp
    exact absurd (hps ▸ hb1.added p hp) hn) rest
  refine ⟨r3, h7, h8.wf, h8.bad, ?_, ?_, ?_, ?_⟩
  · rw [h8.contents]
    rfl
  · intro s hs'
    unfold addTo at hs'
    split at hs'
    · exact List.mem_append.2 (.inl (h.sects s hs'))
    · simp only [PyDict.keys, List.map_append, List.mem_append, List.map_cons, List.map_nil, List.mem_singleton] at hs' ⊢
      rcases hs' with hs' | hs'
      · exact .inl (h.sects s hs')
      · exact .inr hs'
  · intro hnd
    unfold addTo
    rw [List.mem_append, not_or, List.mem_singleton] at hnd
    rw [if_neg (Ne.symm hnd.2)]
    exact h.defaults hnd.1
  · intro p hp
    rw [List.mem_append, List.mem_singleton]
    rcases h9 p hp with hp | hp
    · rw [h6] at hp
      exact .inl (hb1.added p hp)
    · exact .inr hp

theorem addTo_contents (bs : List Block) (b : Block) (hn : b.name ∉ bs.map Block.name) (fs fs' : List Filler) :
    addTo (Document.contents ⟨bs, fs⟩) b.name b.options = Document.contents ⟨bs ++ [b], fs'⟩ := by
  unfold addTo Document.contents defaultName
  dsimp only
  generalize "DEFAULT".toList = D
  by_cases h : b.name = D
  · rw [if_pos h]
    have : bs.filter (fun b => decide (b.name = D)) = [] := by
      rw [List.filter_eq_nil_iff]
      intro b' hb'
      have : b'.name ≠ b.name := fun e => hn (e ▸ List.mem_map.2 ⟨b', hb', rfl⟩)
      simpa [← h] using this
    rw [List.filter_append, List.filter_append, this]
    simp [h]
  · rw [if_neg h, List.filter_append, List.filter_append]
    simp [h]

theorem run_blocks : ∀ (bs done : List Block) {r : Reader} (_ : Between r (Document.contents ⟨done, []⟩) (done.map Block.name))
    (_ : ∀ b ∈ bs, b.OK) (_ : ((done ++ bs).map Block.name).Nodup) (rest : List Txt),
    ∃ r', r.run (bs.flatMap Block.lines ++ rest) = r'.run rest ∧
      Between r' (Document.contents ⟨done ++ bs, []⟩) ((done ++ bs).map Block.name)
  | [], done, r, h, _, _, rest => ⟨r, rfl, by simpa using h⟩
  | b :: bs, done, r, h, hb, hn, rest => by
    have hk : b.name ∉ done.map Block.name := by
      intro hk
      rw [List.map_append, List.nodup_append] at hn
      exact hn.2.2 _ hk _ (by simp) rfl
    rw [List.flatMap_cons, List.append_assoc]
    obtain ⟨r1, h1, h2⟩ := run_block h (hb b List.mem_cons_self) hk (bs.flatMap Block.lines ++ rest)
    rw [addTo_contents done b hk [] []] at h2
    have h2' : Between r1 (Document.contents ⟨done ++ [b], []⟩) ((done ++ [b]).map Block.name) := by simpa using h2
    obtain ⟨r2, h3, h4⟩ := run_blocks bs (done ++ [b]) h2' (fun b' hb' => hb b' (List.mem_cons_of_mem _ hb')) (by simpa using hn) rest
    exact ⟨r2, by rw [h1, h3], by simpa using h4⟩

/-! ### Lines -/

theorem newlines_inline : ∀ {l : Txt} (_ : Inline l) (x : Txt), newlines.go false (l ++ x) = l ++ newlines.go false x
  | [], _, _ => rfl
  | c :: l, h, x => by
    have h1 : c ≠ '\n' ∧ c ≠ '\r' := by
      constructor
      · rintro rfl; exact h.1 List.mem_cons_self
      · rintro rfl; exact h.2 List.mem_cons_self
    have h2 : Inline l := ⟨fun hc => h.1 (List.mem_cons_of_mem _ hc), fun hc => h.2 (List.mem_cons_of_mem _ hc)⟩
    rw [List.cons_append, newlines.go, if_neg h1.2, if_neg (fun hc => h1.1 hc.1), newlines_inline h2 x]
    rfl

/-- After a carriage return only a line feed is treated differently. -/
theorem newlines_true {x : Txt} (h : x.head? ≠ some '\n') : newlines.go true x = newlines.go false x := by
  cases x with
  | nil => rfl
  | cons c t =>
    have hc : c ≠ '\n' := by rintro rfl; exact h rfl
    rw [newlines.go, newlines.go]
    simp [hc]

theorem newlines_lines : ∀ (ls : List Txt) (_ : ∀ l ∈ ls, Inline l) {eol : Txt} (_ : LineEnd eol),
    newlines.go false (ls.flatMap (· ++ eol)) = ls.flatMap (· ++ ['\n'])
  | [], _, _, _ => rfl
  | l :: ls, h, eol, he => by
    have ih := newlines_lines ls (fun l' hl' => h l' (List.mem_cons_of_mem _ hl')) he
    rw [List.flatMap_cons, List.flatMap_cons, List.append_assoc, newlines_inline (h l List.mem_cons_self), List.append_assoc]
    congr 1
    rw [← ih]
    rcases he with rfl | rfl | rfl
    · rfl
    · rfl
    · change '\n' :: newlines.go true _ = '\n' :: _
      congr 1
      refine newlines_true ?_
      cases ls with
      | nil => simp
      | cons l' ls =>
        rw [List.flatMap_cons]
        have := h l' (by simp)
        cases l' with
        | nil => simp
        | cons c l' =>
          intro hh
          have hc : c = '\n' := Option.some.inj hh
          subst hc
          exact this.1 List.mem_cons_self

theorem splitLines_line : ∀ {l : Txt} (_ : '\n' ∉ l) (x : Txt), splitLines (l ++ '\n' :: x) = l :: splitLines x
  | [], _, x => by
    rw [List.nil_append, splitLines, if_pos rfl]
  | c :: l, h, x => by
    rw [List.mem_cons, not_or] at h
    rw [List.cons_append, splitLines, if_neg (Ne.symm h.1), splitLines_line h.2 x]

theorem splitLines_lines : ∀ (ls : List Txt) (_ : ∀ l ∈ ls, Inline l), splitLines (ls.flatMap (· ++ ['\n'])) = ls
  | [], _ => rfl
  | l :: ls, h => by
    have : (l :: ls).flatMap (· ++ ['\n']) = l ++ '\n' :: ls.flatMap (· ++ ['\n']) := by simp
    rw [this, splitLines_line (h l List.mem_cons_self).1, splitLines_lines ls (fun l' hl' => h l' (List.mem_cons_of_mem _ hl'))]

theorem read_lines {ls : List Txt} (h : ∀ l ∈ ls, Inline l) {eol : Txt} (he : LineEnd eol) :
    splitLines (newlines (ls.flatMap (· ++ eol))) = ls := by
  unfold newlines
  rw [newlines_lines ls h he, splitLines_lines ls h]

theorem inline_append {a b : Txt} (ha : Inline a) (hb : Inline b) : Inline (a ++ b) := by
  constructor <;> rw [List.mem_append, not_or]
  · exact ⟨ha.1, hb.1⟩
  · exact ⟨ha.2, hb.2⟩

theorem inline_cons {c : Char} {b : Txt} (h1 : c ≠ '\n') (h2 : c ≠ '\r') (hb : Inline b) : Inline (c :: b) := by
  constructor <;> rw [List.mem_cons, not_or]
  · exact ⟨Ne.symm h1, hb.1⟩
  · exact ⟨Ne.symm h2, hb.2⟩

theorem filler_inline {f : Filler} (h : f.OK) : Inline f.line := by
  cases f with
  | blank ws => exact h.2
  | comment ws mark text =>
    obtain ⟨h1, h2, h3⟩ := h
    refine inline_append h1.2 (inline_cons ?_ ?_ h3) <;> (rcases h2 with rfl | rfl <;> decide)

theorem entry_inline {e : Entry} (h : e.OK) : ∀ l ∈ e.lines, Inline l := by
  intro l hl
  unfold Entry.lines at hl
  simp only [List.mem_append, List.mem_map, List.mem_cons] at hl
  rcases hl with ⟨f, hf, rfl⟩ | rfl | ⟨m, hm, rfl⟩
  · exact filler_inline (h.before f hf)
  · have hd := h.delim
    unfold Entry.line
    refine inline_append (inline_append h.name.1 h.blanks.1.2)
      (inline_cons ?_ ?_ (inline_append (inline_append h.blanks.2.1.2 h.value.1) h.blanks.2.2.2)) <;>
      (rcases hd with hd | hd <;> rw [hd] <;> decide)
  · have := h.more m hm
    exact inline_append (inline_append this.indent.1.2 this.text.1) this.trail.2

theorem block_inline {b : Block} (h : b.OK) : ∀ l ∈ b.lines, Inline l := by
  intro l hl
  unfold Block.lines at hl
  simp only [List.mem_append, List.mem_map, List.mem_cons, List.mem_flatMap] at hl
  rcases hl with ⟨f, hf, rfl⟩ | rfl | ⟨e, he, hl⟩
  · exact filler_inline (h.before f hf)
  · unfold Block.line
    exact inline_cons (by decide) (by decide) (inline_append h.name.1 (inline_cons (by decide) (by decide) h.trail.2))
  · exact entry_inline (h.entries e he) l hl

theorem document_inline {d : Document} (h : d.OK) : ∀ l ∈ d.lines, Inline l := by
  intro l hl
  unfold Document.lines at hl
  simp only [List.mem_append, List.mem_map, List.mem_flatMap] at hl
  rcases hl with ⟨b, hb, hl⟩ | ⟨f, hf, rfl⟩
  · exact block_inline (h.blocks b hb) l hl
  · exact filler_inline (h.after f hf)

theorem start_wf : (Reader.start {}).WF :=
  ⟨by simp [Reader.start, PyDict.keys], by intro s d h; simp [Reader.start, PyDict.get?] at h,
    ⟨by simp [Reader.start, PyDict.keys], by simp [Reader.start, PyDict.keys]⟩, by intro s h; simp [Reader.start] at h,
    by simp [Reader.start, PyDict.keys]⟩

/-- A document is read as what it says. -/
theorem readText_document {d : Document} (h : d.OK) {eol : Txt} (he : LineEnd eol) :
    ({} : Ini).readText (d.text eol) = (d.contents, .ok ()) := by
  unfold Ini.readText Document.text
  rw [read_lines (document_inline h) he]
  obtain ⟨r1, h1, h2⟩ := run_blocks d.blocks [] (r := Reader.start {})
    ⟨start_wf, rfl, rfl, by intro s hs; simp [Document.contents, PyDict.keys] at hs, fun _ => rfl, by simp [Reader.start]⟩
    h.blocks (by simpa using h.unique) (d.after.map Filler.line)
  obtain ⟨r2, h3, h4, h5⟩ := run_fillers d.after h2.wf h.after []
  rw [List.append_nil] at h3
  have hrun : (Reader.start {}).run d.lines = (r2, false) := by
    unfold Document.lines
    rw [h1, h3]
    rfl
  dsimp only
  rw [hrun]
  dsimp only
  rw [h4.bad, h2.bad, h4.contents, h2.contents]
  rfl

end Ctl
end Verif
