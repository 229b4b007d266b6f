import Verif.Lemmas.IniText

/-!
# Reading a file into a parser that has contents already
-/

namespace Verif
open Spec Run

namespace PyDict
variable {κ α : Type} [BEq κ] [LawfulBEq κ] [DecidableEq κ]

theorem set_same {d : PyDict κ α} (hn : (keys d).Nodup) {k : κ} {v : α} (h : get? d k = some v) : set d k v = d := by
  have hm : mem d k = true := by rw [mem_eq, h]; rfl
  unfold set
  rw [if_pos hm]
  conv_rhs => rw [← List.map_id d]
  apply List.map_congr_left
  intro p hp
  by_cases hk : p.1 = k
  · have : p.2 = v := by
      have := get?_of_mem hn (k := p.1) (v := p.2) hp
      rw [hk, h] at this
      exact (Option.some.inj this).symm
    simp only [hk, beq_self_eq_true, if_true, id_eq]
    rw [← hk, ← this]
  · simp [hk]

theorem nodup_update : ∀ (e d : PyDict κ α), (keys d).Nodup → (keys (update d e)).Nodup
  | [], _, h => h
  | (k, v) :: e, d, h => by
    rw [update_cons]
    exact nodup_update e _ (nodup_set h k v)

end PyDict

namespace Ctl

/-- Sections `b` of a file added to the sections `a`. -/
def mergeS {α : Type} (a b : PyDict Txt (PyDict Txt α)) : PyDict Txt (PyDict Txt α) :=
  a.update (b.mapV (fun s d => ((a.get? s).getD []).update d))

theorem merge_fold {α : Type} (b : PyDict Txt (PyDict Txt α)) : ∀ (a : PyDict Txt (PyDict Txt α)), b.keys.Nodup →
    b.foldl (fun d s => d.set s.1 (((d.get? s.1).getD []).update s.2)) a = mergeS a b := by
  induction b with
  | nil => intro a _; rfl
  | cons p b ih =>
    intro a hn
    obtain ⟨s, d⟩ := p
    have hn' : s ∉ PyDict.keys b ∧ (PyDict.keys b).Nodup := by simpa [PyDict.keys] using hn
    rw [List.foldl_cons, ih _ hn'.2]
    unfold mergeS
    have e : PyDict.mapV (fun s d => ((a.get? s).getD []).update d) ((s, d) :: b) =
        (s, ((a.get? s).getD []).update d) :: PyDict.mapV (fun s d => ((a.get? s).getD []).update d) b := rfl
    rw [e, PyDict.update_cons]
    congr 1
    apply PyDict.mapV_congr
    intro p hp
    have : p.1 ≠ s := fun e => hn'.1 (e ▸ List.mem_map.2 ⟨p, hp, rfl⟩)
    rw [PyDict.get?_set, if_neg this]

theorem merge_eq (a b : Ini) (h : b.sects.keys.Nodup) :
    a.merge b = { sects := mergeS a.sects b.sects, defaults := a.defaults.update b.defaults } := by
  unfold Ini.merge
  rw [merge_fold _ _ h]

theorem mergeS_set {α : Type} (a b : PyDict Txt (PyDict Txt α)) (h : b.keys.Nodup) (s : Txt) (d : PyDict Txt α) :
    mergeS a (b.set s d) = (mergeS a b).set s (((a.get? s).getD []).update d) := by
  unfold mergeS
  rw [PyDict.mapV_set, PyDict.update_set _ _ _ _ (by rw [PyDict.keys_mapV]; exact h)]

theorem mergeS_get {α : Type} (a b : PyDict Txt (PyDict Txt α)) (h : b.keys.Nodup) (s : Txt) :
    (mergeS a b).get? s = ((b.get? s).map (fun d => ((a.get? s).getD []).update d)).or (a.get? s) := by
  unfold mergeS
  rw [lookup_update _ _ _ (by
    have := PyDict.keys_mapV (fun s d => ((a.get? s).getD []).update d) b
    unfold PyDict.keys at this h
    rw [this]; exact h), PyDict.get?_mapV]

/-- Contents of a parser: names are unique, and `DEFAULT` is not among the sections. -/
def Proper (a : Ini) : Prop := UniqueNames a ∧ LowerKeys a ∧ "DEFAULT".toList ∉ a.sects.map Prod.fst

/-- Reading a file into an empty parser (`f`) and into a parser with contents `a` (`i`). -/
structure Sim (a : Ini) (f i : Reader) : Prop where
  wf : f.WF
  sects : i.sects = mergeS (Reader.start a).sects f.sects
  defaults : i.defaults = (Reader.start a).defaults.update f.defaults
  addedS : i.addedS = f.addedS
  addedO : i.addedO = f.addedO
  cur : i.cur = f.cur
  opt : i.opt = f.opt
  indent : i.indent = f.indent
  bad : i.bad = f.bad
  names : ∀ s, s ∈ f.sects.keys ↔ s ∈ f.addedS
  known : ∀ s o, f.open_ = some (s, o) → (s = defaultName → o ∈ f.defaults.keys) ∧
    (s ≠ defaultName → ∃ d, f.sects.get? s = some d ∧ o ∈ d.keys)

theorem start_names (a : Ini) : (Reader.start a).sects.keys = a.sects.map Prod.fst := by
  unfold Reader.start PyDict.keys
  simp [Function.comp_def]

/-- A change of the current section that commutes with adding to a dictionary. -/
theorem sim_modify {a : Ini} {f i : Reader} (h : Sim a f i) (s : Txt) (F : PyDict Txt Val → PyDict Txt Val)
    (hd : s = defaultName → ∀ X : PyDict Txt Val, F (X.update f.defaults) = X.update (F f.defaults))
    (hs : s ≠ defaultName → ∃ d, f.sects.get? s = some d ∧ ∀ X : PyDict Txt Val, F (X.update d) = X.update (F d)) :
    (i.modify s F).sects = mergeS (Reader.start a).sects (f.modify s F).sects ∧
    (i.modify s F).defaults = (Reader.start a).defaults.update (f.modify s F).defaults := by
  unfold Reader.modify
  by_cases he : s = defaultName
  · rw [if_pos he, if_pos he]
    dsimp only
    refine ⟨h.sects, ?_⟩
    rw [h.defaults, hd he]
  · rw [if_neg he, if_neg he]
    obtain ⟨d, h1, h2⟩ := hs he
    rw [h1]
    have hg : i.sects.get? s = some ((((Reader.start a).sects.get? s).getD []).update d) := by
      rw [h.sects, mergeS_get _ _ h.wf.names, h1]
      rfl
    rw [hg]
    dsimp only
    refine ⟨?_, h.defaults⟩
    rw [mergeS_set _ _ h.wf.names, ← h.sects, h2]

theorem append_update {o t : Txt} {d : PyDict Txt Val} (hn : d.keys.Nodup) (ho : o ∈ d.keys) (X : PyDict Txt Val) :
    appendLine o t (X.update d) = X.update (appendLine o t d) := by
  obtain ⟨v, hv⟩ := Option.isSome_iff_exists.1 ((PyDict.get?_isSome_iff d o).2 ho)
  unfold appendLine
  rw [lookup_update _ _ _ hn, hv]
  dsimp only [Option.some_or]
  rw [PyDict.update_set _ _ _ _ hn]

theorem append_keys (o t : Txt) (d : PyDict Txt Val) (k : Txt) (hk : k ∈ d.keys) : k ∈ (appendLine o t d).keys := by
  unfold appendLine
  split
  · exact PyDict.mem_keys_set.2 (.inr hk)
  · exact hk

theorem modify_names (r : Reader) (s : Txt) (F : PyDict Txt Val → PyDict Txt Val) (k : Txt) :
    k ∈ (r.modify s F).sects.keys ↔ k ∈ r.sects.keys := by
  unfold Reader.modify
  split
  · rfl
  · split
    · next d hd =>
      dsimp only
      rw [PyDict.mem_keys_set]
      constructor
      · rintro (rfl | h)
        · exact (PyDict.get?_isSome_iff _ _).1 (by rw [hd]; rfl)
        · exact h
      · exact .inr
    · rfl

/-- A line appended to the open value. -/
theorem sim_append {a : Ini} {f i : Reader} (h : Sim a f i) {s o : Txt} (ho : f.open_ = some (s, o)) (t : Txt) :
    Sim a (f.modify s (appendLine o t)) (i.modify s (appendLine o t)) := by
  obtain ⟨k1, k2⟩ := h.known s o ho
  obtain ⟨e1, e2⟩ := sim_modify h s (appendLine o t) (fun he X => append_update h.wf.defaults.1 (k1 he) X) (fun he => by
    obtain ⟨d, hd, hod⟩ := k2 he
    exact ⟨d, hd, fun X => append_update (h.wf.opts s d hd).1 hod X⟩)
  obtain ⟨a1, a2, a3, a4, a5, a6⟩ := modify_fields f s (appendLine o t)
  obtain ⟨b1, b2, b3, b4, b5, b6⟩ := modify_fields i s (appendLine o t)
  refine ⟨modify_wf h.wf s (fun d hd => dictWF_append hd _ _), e1, e2, by rw [a1, b1, h.addedS], by rw [a2, b2, h.addedO],
    by rw [a3, b3, h.cur], by rw [a4, b4, h.opt], by rw [a5, b5, h.indent], by rw [a6, b6, h.bad], ?_, ?_⟩
  · intro s'
    rw [modify_names, a1]
    exact h.names s'
  · intro s' o' ho'
    have ho'' : f.open_ = some (s', o') := by
      unfold Reader.open_ at ho' ⊢
      rw [a3, a4] at ho'
      exact ho'
    rw [ho] at ho''
    obtain ⟨rfl, rfl⟩ := Prod.mk.inj (Option.some.inj ho'')
    refine ⟨?_, ?_⟩
    · intro he
      unfold Reader.modify
      rw [if_pos he]
      exact append_keys _ _ _ _ (k1 he)
    · intro he
      obtain ⟨d, hd, hod⟩ := k2 he
      unfold Reader.modify
      rw [if_neg he, hd]
      refine ⟨appendLine o t d, ?_, append_keys _ _ _ _ hod⟩
      dsimp only
      rw [PyDict.get?_set, if_pos rfl]

theorem open_eq {a : Ini} {f i : Reader} (h : Sim a f i) : i.open_ = f.open_ := by
  unfold Reader.open_
  rw [h.cur, h.opt]

theorem open_none_of {r : Reader} (h : r.opt = none) : r.open_ = none := by
  unfold Reader.open_
  rw [h]
  cases r.cur <;> rfl

theorem sim_header {a : Ini} (ha : Proper a) {f i : Reader} (h : Sim a f i) (v : Txt) :
    (f.header v = none ∧ i.header v = none) ∨ ∃ f' i', f.header v = some f' ∧ i.header v = some i' ∧ Sim a f' i' := by
  have hnA : (Reader.start a).sects.keys.Nodup := by rw [start_names]; exact ha.1.1
  have hdA : defaultName ∉ (Reader.start a).sects.keys := by rw [start_names]; exact ha.2.2
  cases hv : f.header v with
  | none =>
    left
    refine ⟨rfl, ?_⟩
    unfold Reader.header at hv ⊢
    cases hm : matchSection v with
    | some s =>
      rw [hm] at hv
      dsimp only at hv ⊢
      by_cases hs : f.sects.mem s = true
      · rw [if_pos hs] at hv
        have hin : i.sects.mem s = true := by
          rw [PyDict.mem_keys, h.sects]
          unfold mergeS
          rw [PyDict.mem_keys_update, PyDict.keys_mapV]
          exact .inr (PyDict.mem_keys.1 hs)
        rw [if_pos hin, h.addedS]
        by_cases hadd : s ∈ f.addedS
        · rw [if_pos hadd]
        · rw [if_neg hadd] at hv
          exact absurd hv (by simp)
      · rw [if_neg hs] at hv
        split at hv <;> exact absurd hv (by simp)
    | none =>
      rw [hm] at hv
      dsimp only at hv ⊢
      rw [h.cur]
      cases hc : f.cur with
      | none => rfl
      | some s =>
        rw [hc] at hv
        dsimp only at hv ⊢
        cases ho : matchOption v with
        | none => rw [ho] at hv; exact absurd hv (by simp)
        | some p =>
          rw [ho] at hv
          dsimp only at hv ⊢
          rw [h.addedO]
          by_cases hadd : (s, (rstrip p.1).map Char.toLower) ∈ f.addedO
          · rw [if_pos hadd]
          · rw [if_neg hadd] at hv
            exact absurd hv (by simp)
  | some f' =>
    right
    have hwf' := header_wf h.wf hv
    refine ⟨f', ?_⟩
    unfold Reader.header at hv ⊢
    cases hm : matchSection v with
    | some s =>
      rw [hm] at hv
      dsimp only at hv ⊢
      have hmi : i.sects.mem s = true ↔ s ∈ (Reader.start a).sects.keys ∨ s ∈ f.sects.keys := by
        rw [PyDict.mem_keys, h.sects]
        unfold mergeS
        rw [PyDict.mem_keys_update, PyDict.keys_mapV]
      by_cases hs : f.sects.mem s = true
      · rw [if_pos hs, if_pos ((h.names s).1 (PyDict.mem_keys.1 hs))] at hv
        exact absurd hv (by simp)
      · rw [if_neg hs] at hv
        have hs' : s ∉ f.sects.keys := fun hk => hs (PyDict.mem_keys.2 hk)
        by_cases hd : s = defaultName
        · rw [if_pos hd] at hv
          cases hv
          have : ¬ i.sects.mem s = true := by
            rw [hmi]
            rintro (hk | hk)
            · exact hdA (hd ▸ hk)
            · exact hs' hk
          rw [if_neg this, if_pos hd]
          refine ⟨_, rfl, rfl, hwf', h.sects, h.defaults, h.addedS, h.addedO, rfl, rfl, h.indent, h.bad, h.names, ?_⟩
          intro s' o' ho'
          rw [open_none_of rfl] at ho'
          exact absurd ho' (by simp)
        · rw [if_neg hd] at hv
          cases hv
          have hns : s ∉ f.addedS := fun hk => hs' ((h.names s).2 hk)
          have hnames : ∀ s', s' ∈ (f.sects.set s []).keys ↔ s' ∈ f.addedS ++ [s] := by
            intro s'
            rw [PyDict.mem_keys_set, List.mem_append, List.mem_singleton, h.names]
            tauto
          by_cases hmi' : i.sects.mem s = true
          · rw [if_pos hmi', h.addedS, if_neg hns]
            refine ⟨_, rfl, rfl, hwf', ?_, h.defaults, rfl, h.addedO, rfl, rfl, h.indent, h.bad, hnames, ?_⟩
            · dsimp only
              rw [mergeS_set _ _ h.wf.names, ← h.sects]
              symm
              refine PyDict.set_same ?_ ?_
              · rw [h.sects]
                exact PyDict.nodup_update _ _ hnA
              · rw [h.sects, mergeS_get _ _ h.wf.names]
                have h1 : f.sects.get? s = none := by
                  cases hg : f.sects.get? s with
                  | none => rfl
                  | some d => exact absurd ((PyDict.get?_isSome_iff _ _).1 (by rw [hg]; rfl)) hs'
                have h2 : s ∈ (Reader.start a).sects.keys := (hmi.1 hmi').resolve_right hs'
                obtain ⟨d, hd⟩ := Option.isSome_iff_exists.1 ((PyDict.get?_isSome_iff _ _).2 h2)
                rw [h1, hd]
                rfl
            · intro s' o' ho'
              rw [open_none_of rfl] at ho'
              exact absurd ho' (by simp)
          · rw [if_neg hmi', if_neg hd]
            refine ⟨_, rfl, rfl, hwf', ?_, h.defaults, by dsimp only; rw [h.addedS], h.addedO, rfl, rfl, h.indent, h.bad, hnames, ?_⟩
            · dsimp only
              rw [mergeS_set _ _ h.wf.names, ← h.sects]
              have h1 : (Reader.start a).sects.get? s = none := by
                cases hg : (Reader.start a).sects.get? s with
                | none => rfl
                | some d => exact absurd (hmi.2 (.inl ((PyDict.get?_isSome_iff _ _).1 (by rw [hg]; rfl)))) hmi'
              rw [h1]
              rfl
            · intro s' o' ho'
              rw [open_none_of rfl] at ho'
              exact absurd ho' (by simp)
    | none =>
      rw [hm] at hv
      dsimp only at hv ⊢
      rw [h.cur]
      cases hc : f.cur with
      | none => rw [hc] at hv; exact absurd hv (by simp)
      | some s =>
        rw [hc] at hv
        dsimp only at hv ⊢
        cases ho : matchOption v with
        | none =>
          rw [ho] at hv
          cases hv
          refine ⟨_, rfl, rfl, hwf', h.sects, h.defaults, h.addedS, h.addedO, ?_, h.opt, h.indent, rfl, h.names, ?_⟩
          · rfl
          · intro s' o' ho'
            exact h.known s' o' (by
              unfold Reader.open_ at ho' ⊢
              rw [hc]
              exact ho')
        | some p =>
          obtain ⟨nm, vl⟩ := p
          rw [ho] at hv
          dsimp only at hv ⊢
          rw [h.addedO]
          by_cases hadd : (s, (rstrip nm).map Char.toLower) ∈ f.addedO
          · rw [if_pos hadd] at hv
            exact absurd hv (by simp)
          · rw [if_neg hadd] at hv
            rw [if_neg hadd]
            generalize ho' : (rstrip nm).map Char.toLower = o at hv hadd ⊢
            have hcur : s ≠ defaultName → ∃ d, f.sects.get? s = some d := by
              intro hne
              rcases h.wf.cur s hc with hk | hk
              · exact absurd hk hne
              · exact Option.isSome_iff_exists.1 ((PyDict.get?_isSome_iff _ _).2 hk)
            obtain ⟨e1, e2⟩ := sim_modify h s (fun d => d.set o (.lines [strip vl]))
              (fun _ X => (PyDict.update_set _ _ _ _ h.wf.defaults.1).symm) (fun hne => by
                obtain ⟨d, hd⟩ := hcur hne
                exact ⟨d, hd, fun X => (PyDict.update_set _ _ _ _ (h.wf.opts s d hd).1).symm⟩)
            obtain ⟨a1, a2, a3, a4, a5, a6⟩ := modify_fields f s (fun d => d.set o (.lines [strip vl]))
            obtain ⟨b1, b2, b3, b4, b5, b6⟩ := modify_fields i s (fun d => d.set o (.lines [strip vl]))
            cases hv
            refine ⟨_, rfl, rfl, hwf', e1, e2, b1.trans (h.addedS.trans a1.symm), rfl, b3.trans (h.cur.trans a3.symm), rfl,
              b5.trans (h.indent.trans a5.symm), by dsimp only; rw [h.bad], ?_, ?_⟩
            · intro s'
              dsimp only
              rw [modify_names, a1]
              exact h.names s'
            · intro s' o'' hop
              have hso : s' = s ∧ o'' = o := by
                unfold Reader.open_ at hop
                dsimp only at hop
                rw [a3, hc] at hop
                cases o with
                | nil => exact absurd hop (by simp)
                | cons c cs =>
                  obtain ⟨x, y⟩ := Prod.mk.inj (Option.some.inj hop)
                  exact ⟨x.symm, y.symm⟩
              obtain ⟨rfl, rfl⟩ := hso
              refine ⟨?_, ?_⟩
              · intro he
                dsimp only
                unfold Reader.modify
                rw [if_pos he]
                exact PyDict.mem_keys_set.2 (.inl rfl)
              · intro he
                obtain ⟨d, hd⟩ := hcur he
                dsimp only
                unfold Reader.modify
                rw [if_neg he, hd]
                dsimp only
                refine ⟨d.set o'' (.lines [strip vl]), ?_, PyDict.mem_keys_set.2 (.inl rfl)⟩
                rw [PyDict.get?_set, if_pos rfl]

theorem sim_step {a : Ini} (ha : Proper a) {f i : Reader} (h : Sim a f i) (line : Txt) :
    (f.step line = none ∧ i.step line = none) ∨ ∃ f' i', f.step line = some f' ∧ i.step line = some i' ∧ Sim a f' i' := by
  unfold Reader.step
  split
  · exact .inr ⟨f, i, rfl, rfl, h⟩
  split
  · rw [open_eq h]
    cases ho : f.open_ with
    | none => exact .inr ⟨f, i, rfl, rfl, h⟩
    | some p => exact .inr ⟨_, _, rfl, rfl, sim_append h ho []⟩
  dsimp only
  rw [open_eq h, h.indent]
  cases hx : (if f.indent < (line.takeWhile isSpace).length then f.open_ else none) with
  | some p =>
    have ho : f.open_ = some p := by
      split at hx
      · exact hx
      · exact absurd hx (by simp)
    exact .inr ⟨_, _, rfl, rfl, sim_append h ho _⟩
  | none =>
    dsimp only
    refine sim_header ha (f := { f with indent := (line.takeWhile isSpace).length }) (i := { i with indent := (line.takeWhile isSpace).length }) ⟨⟨h.wf.names, h.wf.opts, h.wf.defaults, h.wf.cur, h.wf.noDefault⟩, h.sects, h.defaults, h.addedS, h.addedO,
      h.cur, h.opt, rfl, h.bad, h.names, h.known⟩ _

theorem sim_run {a : Ini} (ha : Proper a) : ∀ (ls : List Txt) {f i : Reader} (_ : Sim a f i),
    Sim a (f.run ls).1 (i.run ls).1 ∧ (i.run ls).2 = (f.run ls).2
  | [], _, _, h => ⟨h, rfl⟩
  | l :: ls, f, i, h => by
    rw [Reader.run, Reader.run]
    rcases sim_step ha h l with ⟨h1, h2⟩ | ⟨f', i', h1, h2, h3⟩
    · rw [h1, h2]; exact ⟨h, rfl⟩
    · rw [h1, h2]; exact sim_run ha ls h3

theorem joinSect_update (d e : PyDict Txt Val) : joinSect (d.update e) = (joinSect d).update (joinSect e) := PyDict.mapV_update (fun _ v => Val.join v) e d

theorem joinSect_text (d : PyDict Txt Txt) : joinSect (d.map (fun o => (o.1, Val.text o.2))) = d := by
  unfold joinSect
  rw [List.map_map]
  conv_rhs => rw [← List.map_id d]
  rfl

theorem start_contents (a : Ini) : (Reader.start a).contents = a := by
  unfold Reader.contents Reader.start
  dsimp only
  rw [joinSect_text]
  congr 1
  rw [List.map_map]
  conv_rhs => rw [← List.map_id a.sects]
  apply List.map_congr_left
  intro p _
  simp only [Function.comp_apply, id_eq]
  rw [joinSect_text]

theorem sim_contents {a : Ini} {f i : Reader} (h : Sim a f i) : i.contents = a.merge f.contents := by
  have hn : f.contents.sects.keys.Nodup := by rw [contents_keys]; exact h.wf.names
  rw [merge_eq _ _ hn]
  have hs := congrArg Ini.sects (start_contents a)
  have hd := congrArg Ini.defaults (start_contents a)
  have e1 : i.contents.sects = mergeS a.sects f.contents.sects := by
    rw [contents_sects, h.sects]
    unfold mergeS
    rw [PyDict.mapV_update, PyDict.mapV_mapV, ← contents_sects, hs, contents_sects f, PyDict.mapV_mapV]
    congr 1
    apply PyDict.mapV_congr
    intro p _
    rw [joinSect_update]
    congr 1
    have : a.sects.get? p.1 = ((Reader.start a).sects.get? p.1).map joinSect := by
      rw [← hs, contents_sects, PyDict.get?_mapV]
    rw [this]
    cases (Reader.start a).sects.get? p.1 <;> rfl
  have e2 : i.contents.defaults = a.defaults.update f.contents.defaults := by
    change joinSect i.defaults = _
    rw [h.defaults, joinSect_update]
    congr 1
  have e3 : i.contents = ⟨i.contents.sects, i.contents.defaults⟩ := rfl
  rw [e3, e1, e2]

theorem sim_start (a : Ini) : Sim a (Reader.start {}) (Reader.start a) :=
  ⟨start_wf, rfl, rfl, rfl, rfl, rfl, rfl, rfl, rfl, by intro s; simp [Reader.start, PyDict.keys], by
    intro s o h; simp [Reader.start, Reader.open_] at h⟩

/-- Reading a file into a parser is the same as reading it on its own and adding what it says. -/
theorem readText_merge {a : Ini} (ha : Proper a) (t : Txt) :
    a.readText t = (a.merge (({} : Ini).readText t).1, (({} : Ini).readText t).2) := by
  obtain ⟨h1, h2⟩ := sim_run ha (splitLines (newlines t)) (sim_start a)
  unfold Ini.readText
  dsimp only
  rw [h2, h1.bad, sim_contents h1]

/-! ### What is read is proper -/

theorem wf_proper {r : Reader} (h : r.WF) : Proper r.contents := by
  have hk : ∀ s ∈ r.contents.sects, ∃ d, r.sects.get? s.1 = some d ∧ s.2 = joinSect d := by
    intro s hs
    rw [contents_sects] at hs
    obtain ⟨p, hp, rfl⟩ := List.mem_map.1 hs
    exact ⟨p.2, PyDict.get?_of_mem h.names hp, rfl⟩
  have hj : ∀ d : PyDict Txt Val, (joinSect d).map Prod.fst = d.keys := by
    intro d
    exact PyDict.keys_mapV (fun _ v => Val.join v) d
  have hlow : ∀ d : PyDict Txt Val, DictWF d → ∀ o ∈ joinSect d, o.1.map Char.toLower = o.1 := by
    intro d hd o ho
    refine hd.2 o.1 ?_
    rw [← hj]
    exact List.mem_map.2 ⟨o, ho, rfl⟩
  have hn := contents_keys r
  refine ⟨⟨?_, ?_, ?_⟩, ⟨?_, ?_⟩, ?_⟩
  · change (PyDict.keys r.contents.sects).Nodup
    rw [hn]; exact h.names
  · intro s hs
    obtain ⟨d, hd, e⟩ := hk s hs
    rw [e, hj]
    exact (h.opts _ d hd).1
  · change ((joinSect r.defaults).map Prod.fst).Nodup
    rw [hj]; exact h.defaults.1
  · intro s hs o ho
    obtain ⟨d, hd, e⟩ := hk s hs
    rw [e] at ho
    exact hlow d (h.opts _ d hd) o ho
  · exact hlow _ h.defaults
  · change defaultName ∉ PyDict.keys r.contents.sects
    rw [hn]; exact h.noDefault

theorem start_proper {a : Ini} (h : Proper a) : (Reader.start a).WF := by
  have hs : (Reader.start a).sects = a.sects.mapV (fun _ d => d.map (fun o => (o.1, Val.text o.2))) := rfl
  have hk : ∀ d : PyDict Txt Txt, PyDict.keys (d.map (fun o => (o.1, Val.text o.2))) = d.keys := by
    intro d
    exact PyDict.keys_mapV (fun _ t => Val.text t) d
  refine ⟨by rw [start_names]; exact h.1.1, ?_, ?_, by intro s hs; simp [Reader.start] at hs, by rw [start_names]; exact h.2.2⟩
  · intro s d hd
    rw [hs, PyDict.get?_mapV] at hd
    cases hg : a.sects.get? s with
    | none => rw [hg] at hd; exact absurd hd (by simp)
    | some d' =>
      rw [hg] at hd
      cases hd
      have hm := PyDict.mem_of_get? hg
      refine ⟨?_, ?_⟩
      · rw [hk]; exact h.1.2.1 _ hm
      · rw [hk]
        intro o ho
        obtain ⟨p, hp, rfl⟩ := List.mem_map.1 ho
        exact h.2.1.1 _ hm p hp
  · have : (Reader.start a).defaults = a.defaults.map (fun o => (o.1, Val.text o.2)) := rfl
    rw [this]
    refine ⟨by rw [hk]; exact h.1.2.2, ?_⟩
    rw [hk]
    intro o ho
    obtain ⟨p, hp, rfl⟩ := List.mem_map.1 ho
    exact h.2.1.2 p hp

theorem readText_proper {a : Ini} (h : Proper a) (t : Txt) : Proper (a.readText t).1 :=
  wf_proper (run_wf _ (start_proper h))

end Ctl
end Verif
