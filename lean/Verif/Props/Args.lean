import Verif.Lemmas.ArgsLoop
import Verif.Props.Controls

/-!
# C74, C75: the command line
-/

namespace Verif
open Args Spec.Cmd Conv Run Ctl

namespace Args

theorem parse_sound {argv : List Txt} {r : Request} (h : parseArgs argv = .ok r) : CmdLine r.source r.format r.ini r.ext argv := by
  unfold parseArgs at h
  cases hc : classify argv with
  | error x => rw [hc] at h; simp at h
  | ok ks =>
    rw [hc] at h
    dsimp only at h
    cases hl : loop ks.length {} ks with
    | error x => rw [hl] at h; simp at h
    | ok st =>
      rw [hl] at h
      dsimp only at h
      cases hs : st.source with
      | none => rw [hs] at h; simp at h
      | some src =>
        rw [hs] at h
        dsimp only at h
        split at h
        · simp at h
        · rename_i he
          simp only [Except.ok.injEq] at h
          subst h
          obtain ⟨_, l1, K1, ps, st1, h1, h2, h3, h4⟩ := loop_before le_rfl (classify_wf hc) hl (by simpa using he) rfl hs
          rcases h4 with ⟨l2, K2, hne, rfl, h5, h6⟩ | ⟨more, hne, rfl, h5⟩
          · rw [List.append_assoc] at hc
            obtain ⟨ws1, wsr, rfl, c1, c2, _⟩ := classify_split hc h1.nodash
            obtain ⟨wsp, ws2, rfl, c3, c4, _⟩ := classify_split c2 (by simp)
            obtain ⟨rfl, hp⟩ := classify_plain_inv c3
            obtain ⟨k1, _, _⟩ := takeAll_keep h6
            have hall : takeAll ({ source := some wsp } : State) (l1 ++ l2) = .ok st := by
              rw [takeAll_append, (takeAll_keep h3).2.2 (some wsp)]; exact h6
            obtain ⟨v1, v2, v3, v4⟩ := takeAll_value hall
            have hsrc : src = wsp := by
              rw [hs] at k1
              simpa using k1
            refine ⟨l1, l2, ws1, ws2, wsp, classify_options h1 c1, hp, hsrc ▸ hne, .inl ⟨classify_options h5 c4, ?_, hsrc⟩, v1, v2, ?_, v4⟩
            · rw [List.append_assoc]
            · simpa using v3
          · rw [List.append_assoc] at hc
            obtain ⟨ws1, wsr, rfl, c1, c2, _⟩ := classify_split hc h1.nodash
            obtain ⟨wsp, ws2, rfl, c3, c4, _⟩ := classify_split c2 (by simp)
            obtain ⟨rfl, hp⟩ := classify_plain_inv c3
            obtain ⟨more', rfl, hm⟩ := classify_dash_inv c4
            have hm' : more' = more := by
              have := congrArg texts hm
              rw [texts_plain, texts_plain] at this
              exact this.symm
            subst hm'
            obtain ⟨v1, v2, v3, v4⟩ := takeAll_value h3
            subst h5
            have hsrc : src = wsp ++ more' := by simpa using hs.symm
            refine ⟨l1, [], ws1, [], wsp, classify_options h1 c1, hp, hsrc ▸ hne, .inr ⟨rfl, more', ?_, hsrc⟩, ?_, ?_, ?_, ?_⟩
            · rw [List.append_assoc]
            · simpa using v1
            · simpa using v2
            · simpa using v3
            · simpa using v4

/-- What follows the options before the sources. -/
theorem loop_sources {st : State} (hs : st.source = none) {ps : List Txt} (hp : ['-', '-'] ∉ ps) (hne : ps ≠ []) {l : List (Setting × Txt)}
    {K : List Tok} (hK : TokOptions l K) {st1 : State} (ht : takeAll { st with source := some ps } l = .ok st1) {n : Nat}
    (hn : (ps.map Tok.plain ++ K).length ≤ n) : loop n st (ps.map .plain ++ K) = .ok st1 := by
  cases hK with
  | nil =>
    rw [List.append_nil, loop_end _ _ _ (any_plain ps), finish_plain hs hp hne]
    exact ht
  | @cons s v K1 l' K2 hg hr =>
    have hK : ∃ f K', K1 = .opt f :: K' := by cases hg <;> exact ⟨_, _, rfl⟩
    obtain ⟨f, K', rfl⟩ := hK
    rw [List.cons_append] at hn ⊢
    obtain ⟨m, h1, h2⟩ := loop_run hs hp hne hn
    rw [h2]
    have hopt : TokOptions ((s, v) :: l') ((.opt f :: K') ++ K2) := .cons hg hr
    obtain ⟨m', _, h4⟩ := loop_options hopt ht (n := m) (ks := []) (by simpa using h1)
    rw [List.append_nil] at h4
    rw [← List.cons_append, h4, loop_end _ _ _ rfl]
    have : st1.source = some ps := (takeAll_keep ht).1
    unfold finish
    rw [this]
    have : ({ st1 with source := some ps } : State) = st1 := by rw [← this]
    simp [this]

theorem parse_complete {argv : List Txt} {r : Request} (h : CmdLine r.source r.format r.ini r.ext argv) : parseArgs argv = .ok r := by
  obtain ⟨before, after, ws1, ws2, first, hb, hp, hne, hform, hf, e1, e2, e3⟩ := h
  obtain ⟨K1, t1, c1, d1⟩ := options_classify hb
  obtain ⟨c2, d2⟩ := classify_plain hp
  obtain ⟨st1, s1⟩ := takeAll_total ({} : State) (l := before) (fun v hv => hf v (by simp [hv]))
  have k1 := takeAll_keep s1
  rcases hform with ⟨ho, rfl, hsrc⟩ | ⟨rfl, more, rfl, hsrc⟩
  · obtain ⟨K2, t2, c3, d3⟩ := options_classify ho
    obtain ⟨st2, s2⟩ := takeAll_total ({ st1 with source := some first } : State) (l := after) (fun v hv => hf v (by simp [hv]))
    have hcl : classify (ws1 ++ first ++ ws2) = .ok (K1 ++ (first.map .plain ++ K2)) := by
      rw [List.append_assoc, classify_append c1 d1, classify_append c2 d2, c3]
    have hloop : loop (K1 ++ (first.map Tok.plain ++ K2)).length {} (K1 ++ (first.map .plain ++ K2)) = .ok st2 := by
      obtain ⟨m, h1, h2⟩ := loop_options t1 s1 (ks := first.map .plain ++ K2) le_rfl
      rw [h2]
      exact loop_sources k1.1 d2 (hsrc ▸ hne) t2 s2 h1
    have hall : takeAll ({ source := some first } : State) (before ++ after) = .ok st2 := by
      rw [takeAll_append, k1.2.2 (some first)]; exact s2
    obtain ⟨_, v2, v3, v4⟩ := takeAll_value hall
    have k2 := takeAll_keep hall
    unfold parseArgs
    rw [hcl]
    dsimp only
    rw [hloop]
    dsimp only
    rw [k2.1, k2.2.1]
    simp only [Bool.false_eq_true, if_false]
    rw [v2, v3, v4]
    obtain ⟨rs, rf, ri, re⟩ := r
    dsimp only at hsrc e1 e2 e3
    subst hsrc e1 e2 e3
    simp
  · have hcl : classify (ws1 ++ first ++ ['-', '-'] :: more) = .ok (K1 ++ (first.map .plain ++ .dashes :: more.map .plain)) := by
      rw [List.append_assoc, classify_append c1 d1, classify_append c2 d2, classify_dash]
    have hany : (first.map Tok.plain ++ .dashes :: more.map Tok.plain).any Tok.isOption = false := by
      rw [List.any_append, any_plain, List.any_cons, any_plain]; rfl
    have hloop : loop (K1 ++ (first.map Tok.plain ++ Tok.dashes :: more.map Tok.plain)).length {}
        (K1 ++ (first.map .plain ++ .dashes :: more.map .plain)) = .ok { st1 with source := some (first ++ more) } := by
      obtain ⟨m, h1, h2⟩ := loop_options t1 s1 (ks := first.map .plain ++ .dashes :: more.map .plain) le_rfl
      rw [h2, loop_end _ _ _ hany, finish_dashes k1.1 d2 (hsrc ▸ hne)]
    obtain ⟨_, v2, v3, v4⟩ := takeAll_value s1
    unfold parseArgs
    rw [hcl]
    dsimp only
    rw [hloop]
    dsimp only
    rw [k1.2.1]
    simp only [Bool.false_eq_true, if_false]
    rw [v2, v3, v4]
    obtain ⟨rs, rf, ri, re⟩ := r
    dsimp only at hsrc e1 e2 e3
    subst hsrc e1 e2 e3
    simp

end Args

/-- C74: a command line is accepted exactly if it has the form of the grammar, and then it means what the grammar says: every word is
used, as a source, as an option or as the value of an option. -/
theorem C74_accepted (argv : List Txt) (r : Request) : parseArgs argv = .ok r ↔ CmdLine r.source r.format r.ini r.ext argv :=
  ⟨parse_sound, parse_complete⟩

/-- `-o JSON -i addons.ini a.rtcm3 -- -b` -/
example : CmdLine ["a.rtcm3".toList, "-b".toList] "JSON".toList (some "addons.ini".toList) "rtcm3".toList
    ["-o".toList, "JSON".toList, "-i".toList, "addons.ini".toList, "a.rtcm3".toList, "--".toList, "-b".toList] := by
  refine ⟨[(.format, "JSON".toList), (.ini, "addons.ini".toList)], [], _, [], ["a.rtcm3".toList],
    .cons (.short .o (.inl (by decide))) (.cons (.short .i (.inl (by decide))) .nil), ?_, by decide,
    .inr ⟨rfl, ["-b".toList], rfl, rfl⟩, ?_, rfl, rfl, rfl⟩
  · intro w hw
    simp only [List.mem_singleton] at hw
    subst hw
    exact .inl (by decide)
  · intro v hv
    simp at hv
    subst hv
    simp [formats]

/-- `--out=MARGO a b -oJARGO -ext ubx`: abbreviation, value glued to the option, options after the sources, the last format counts -/
example : parseArgs ["--out=MARGO".toList, "a".toList, "b".toList, "-oJARGO".toList, "-ext".toList, "ubx".toList] =
    .ok ⟨["a".toList, "b".toList], "JARGO".toList, none, "ubx".toList⟩ := by decide

/-- sources in two places are not accepted -/
example : parseArgs ["a".toList, "-o".toList, "JSON".toList, "b".toList] = .error .error := by decide

/-- C74: the program ends with exit code 0 only if a word before `--` asks for help or version. -/
theorem C74_exit {argv : List Txt} {x : Exit} (h : parseArgs argv = .error x) (h0 : x.code = 0) :
    ∃ w ∈ argv.takeWhile (· ≠ ['-', '-']), Asks w := by
  have hx : x ≠ .error := by rintro rfl; simp [Exit.code] at h0
  unfold parseArgs at h
  cases hc : classify argv with
  | error y =>
    rw [hc] at h
    simp only [Except.error.injEq] at h
    subst h
    exact absurd (classify_error hc).1 hx
  | ok ks =>
    rw [hc] at h
    dsimp only at h
    cases hl : loop ks.length {} ks with
    | error y =>
      rw [hl] at h
      simp only [Except.error.injEq] at h
      subst h
      obtain ⟨f, h1, h2, h3⟩ := loop_exit hl hx
      obtain ⟨w, h4, h5, h6⟩ := classify_mem hc h1
      refine ⟨w, h4, ?_⟩
      cases read_opt h5 h6 with
      | bare _ => simp at h2
      | attached _ => simp at h2
      | @flag a n _ e v _ hw _ =>
        rcases hw with hw | ⟨hv, hn⟩
        · exact hw
        · exfalso
          dsimp only at h3
          rcases h3 with h3 | h3
          · rw [h3] at hv; simp at hv
          · exact h3 hn
    | ok st =>
      rw [hl] at h
      dsimp only at h
      cases hs : st.source with
      | none =>
        rw [hs] at h
        simp only [Except.error.injEq] at h
        exact absurd h.symm hx
      | some src =>
        rw [hs] at h
        dsimp only at h
        split at h
        · simp only [Except.error.injEq] at h
          exact absurd h.symm hx
        · simp at h

example : parseArgs ["-i".toList, "x".toList, "-vfoo".toList] = .error .version := by decide

/-- C74: any other command line is rejected with exit code 2. -/
theorem C74_rejected {argv : List Txt} (h1 : ∀ source format ini ext, ¬ CmdLine source format ini ext argv)
    (h2 : ∀ w ∈ argv.takeWhile (· ≠ ['-', '-']), ¬ Asks w) : ∃ x, parseArgs argv = .error x ∧ x.code = 2 := by
  cases h : parseArgs argv with
  | ok r => exact absurd ((C74_accepted argv r).mp h) (h1 _ _ _ _)
  | error x =>
    refine ⟨x, rfl, ?_⟩
    cases x with
    | error => rfl
    | help => obtain ⟨w, hw, ha⟩ := C74_exit h rfl; exact absurd ha (h2 w hw)
    | version => obtain ⟨w, hw, ha⟩ := C74_exit h rfl; exact absurd ha (h2 w hw)

example : parseArgs ["-o".toList, "XML".toList, "a".toList] = .error .error := by decide

/-- C74: a request for help or version after proper options and sources is granted, whatever follows, unless an ambiguous abbreviation
follows. -/
theorem C74_help {before after : List (Setting × Txt)} {ws1 ws2 first rest : List Txt} {w m : Txt} {x : Exit}
    (hb : Options before ws1) (hp : ∀ w ∈ first, Plain w) (ha : Options after ws2)
    (hf : ∀ v, (Setting.format, v) ∈ before ++ after → v ∈ formats)
    (hw : (w = "-h".toList ∧ x = .help) ∨ (w = "-v".toList ∧ x = .version) ∨
      (m = "--help".toList ∧ x = .help ∨ m = "--version".toList ∧ x = .version) ∧ w <+: m ∧ 3 ≤ w.length)
    (hr : ∀ v ∈ rest.takeWhile (· ≠ ['-', '-']), ¬ Ambiguous v) :
    parseArgs (ws1 ++ first ++ ws2 ++ w :: rest) = .error x := by
  have hread : ∃ f, parseOptional w = .ok (.opt f) ∧ (f.act = .help ∨ f.act = .version) ∧ f.arg = none ∧
      (if f.act = .help then Exit.help else .version) = x ∧ w ≠ ['-', '-'] := by
    rcases hw with ⟨rfl, rfl⟩ | ⟨rfl, rfl⟩ | ⟨⟨rfl, rfl⟩ | ⟨rfl, rfl⟩, hpre, hl⟩
    · exact ⟨_, rfl, .inl rfl, rfl, rfl, by decide⟩
    · exact ⟨_, rfl, .inr rfl, rfl, rfl, by decide⟩
    · obtain ⟨k, hk, rfl⟩ := prefix_cases hpre
      simp only [List.length_take] at hl
      have hk' : k ≤ 6 := hk
      have : 3 ≤ k := by omega
      interval_cases k <;> exact ⟨_, rfl, .inl rfl, rfl, rfl, by decide⟩
    · obtain ⟨k, hk, rfl⟩ := prefix_cases hpre
      simp only [List.length_take] at hl
      have hk' : k ≤ 9 := hk
      have : 3 ≤ k := by omega
      interval_cases k <;> exact ⟨_, rfl, .inr rfl, rfl, rfl, by decide⟩
  obtain ⟨f, hread, hflag, harg, hx, hwne⟩ := hread
  obtain ⟨K1, t1, c1, d1⟩ := options_classify hb
  obtain ⟨c2, d2⟩ := classify_plain hp
  obtain ⟨K2, t2, c3, d3⟩ := options_classify ha
  have hrest : ∃ ks, classify rest = .ok ks := by
    cases hc : classify rest with
    | ok ks => exact ⟨ks, rfl⟩
    | error y =>
      obtain ⟨_, v, hv, hamb⟩ := classify_error hc
      exact absurd hamb (hr v hv)
  obtain ⟨ks, c4⟩ := hrest
  have c5 : classify (w :: rest) = .ok (.opt f :: ks) := by rw [classify_cons hwne, hread, c4]
  have hcl : classify (ws1 ++ first ++ ws2 ++ w :: rest) = .ok (K1 ++ (first.map .plain ++ (K2 ++ .opt f :: ks))) := by
    rw [List.append_assoc, List.append_assoc, classify_append c1 d1, classify_append c2 d2, classify_append c3 d3, c5]
  obtain ⟨st1, s1⟩ := takeAll_total ({} : State) (l := before) (fun v hv => hf v (by simp [hv]))
  have k1 := takeAll_keep s1
  obtain ⟨m1, n1, l1⟩ := loop_options t1 s1 (ks := first.map .plain ++ (K2 ++ .opt f :: ks)) le_rfl
  have hend : ∀ (st : State) (n : Nat), (K2 ++ Tok.opt f :: ks).length ≤ n → loop n st (K2 ++ .opt f :: ks) = .error x := by
    intro st n hn
    obtain ⟨st2, s2⟩ := takeAll_total st (l := after) (fun v hv => hf v (by simp [hv]))
    obtain ⟨m2, n2, l2⟩ := loop_options t2 s2 (ks := .opt f :: ks) hn
    rw [l2]
    cases m2 with
    | zero => simp at n2
    | succ m2 => rw [loop_opt, consume_flag st2 hflag harg, hx]
  have hloop : loop (K1 ++ (first.map Tok.plain ++ (K2 ++ .opt f :: ks))).length {} (K1 ++ (first.map .plain ++ (K2 ++ .opt f :: ks))) =
      .error x := by
    rw [l1]
    by_cases hne : first = []
    · subst hne
      exact hend st1 m1 n1
    · have : ∃ g k, K2 ++ Tok.opt f :: ks = .opt g :: k := by
        cases t2 with
        | nil => exact ⟨f, ks, rfl⟩
        | cons hg _ => cases hg <;> exact ⟨_, _, rfl⟩
      obtain ⟨g, k, hg⟩ := this
      rw [hg] at n1 hend ⊢
      obtain ⟨m3, n3, l3⟩ := loop_run k1.1 d2 hne n1
      rw [l3]
      exact hend _ _ n3
  unfold parseArgs
  rw [hcl]
  dsimp only
  rw [hloop]

example : parseArgs ["-o".toList, "JSON".toList, "--he".toList, "--nonsense".toList] = .error .help :=
  C74_help (before := [(.format, "JSON".toList)]) (after := []) (ws2 := []) (first := []) (m := "--help".toList)
    (.cons (.short .o (.inl (by decide))) .nil) (by simp) .nil (by simp [formats]) (.inr (.inr ⟨.inl ⟨rfl, rfl⟩, ⟨['l', 'p'], rfl⟩, by decide⟩))
    (by
      intro v hv
      have : v = "--nonsense".toList := by
        have h : ["--nonsense".toList].takeWhile (· ≠ ['-', '-']) = ["--nonsense".toList] := by decide
        rw [h] at hv
        simpa using hv
      subst this
      rintro ⟨u, hu⟩
      simp at hu)

/-- C74: a text with words between single blanks, as it is given to `main`, is the same as the list of the words. -/
theorem C74_text (prompt : List Txt) {words : List Txt} (h : words ≠ []) (hb : ∀ w ∈ words, ' ' ∉ w) :
    argv prompt (some ([' '].intercalate words)) = words := by
  have key : ∀ (w : Txt) (ws : List Txt), (∀ v ∈ w :: ws, ' ' ∉ v) → splitOn ' ' ([' '].intercalate (w :: ws)) = w :: ws := by
    intro w ws
    induction ws generalizing w with
    | nil =>
      intro hb
      have hw := hb w (by simp)
      clear hb
      rw [show [' '].intercalate [w] = w by simp [List.intercalate]]
      induction w with
      | nil => rfl
      | cons c cs ih =>
        simp only [List.mem_cons, not_or] at hw
        have := ih hw.2
        unfold splitOn at this ⊢
        rw [List.foldr_cons, this, if_neg (fun e => hw.1 e.symm)]
    | cons v ws ih =>
      intro hb
      have hrest := ih v (fun u hu => hb u (by simp only [List.mem_cons] at hu ⊢; exact .inr hu))
      have hw := hb w (by simp)
      clear hb ih
      rw [show [' '].intercalate (w :: v :: ws) = w ++ ' ' :: [' '].intercalate (v :: ws) by simp [List.intercalate]]
      generalize [' '].intercalate (v :: ws) = t at hrest
      induction w with
      | nil =>
        unfold splitOn at hrest ⊢
        rw [List.nil_append, List.foldr_cons, hrest, if_pos rfl]
      | cons c cs ih =>
        simp only [List.mem_cons, not_or] at hw
        have := ih hw.2
        unfold splitOn at this ⊢
        rw [List.cons_append, List.foldr_cons, this, if_neg (fun e => hw.1 e.symm)]
  obtain ⟨w, ws, rfl⟩ := List.exists_cons_of_ne_nil h
  exact key w ws hb

example : argv [] (some "-o JSON a.rtcm3".toList) = ["-o".toList, "JSON".toList, "a.rtcm3".toList] :=
  C74_text [] (words := ["-o".toList, "JSON".toList, "a.rtcm3".toList]) (by decide) (by decide)

/-! ## The program -/

/-- How the end of the conversion is the end of the program. -/
def Args.ended : (Disk × Bool) × Py (List Verdict) → (Disk × Bool) × Ending
  | (s, .error e) => (s, .raised e)
  | (s, .ok vs) => (s, .finished vs)

variable (fr : Rat → Txt) (sh : Shell) (src : Txt → Option Bytes) (ini : Txt → IniFile) (order1 order2 : List Txt → List Txt)

/-- C75: with an accepted command line the program converts exactly the sources it names, with the format, the configuration file and
the extension it names. -/
theorem C75_accepted {prompt : List Txt} {localArgs : Option Txt} {source : List Txt} {format : Txt} {path : Option Txt} {ext : Txt}
    (h : CmdLine source format path ext (argv prompt localArgs)) (w : Disk) (ready : Bool) :
    command fr sh src ini order1 order2 prompt localArgs w ready =
      (Ctl.main fr sh src order1 order2 (ini "defaults.ini".toList) (path.map ini) (String.ofList format) source ext w ready).map ended := by
  have hp := (C74_accepted (argv prompt localArgs) ⟨source, format, path, ext⟩).mpr h
  unfold command Ctl.main
  cases h1 : ({} : Manager).initFromFile order1 (ini "defaults.ini".toList) with
  | mk m r =>
    cases r with
    | error e => rfl
    | ok _ =>
      dsimp only
      rw [hp]
      dsimp only
      cases path with
      | none =>
        dsimp only [Option.map_none]
        cases mainLoop fr src (String.ofList format) m.boxed w ready (makeListOfSourceFiles sh source ext) with
        | none => rfl
        | some p =>
          obtain ⟨s, r⟩ := p
          cases r <;> rfl
      | some p =>
        dsimp only [Option.map_some]
        cases m.updateFromFile order2 (ini p) with
        | mk m r =>
          cases r with
          | error e => rfl
          | ok _ =>
            dsimp only
            cases mainLoop fr src (String.ofList format) m.boxed w ready (makeListOfSourceFiles sh source ext) with
            | none => rfl
            | some p =>
              obtain ⟨s, r⟩ := p
              cases r <;> rfl

example : CmdLine ["a".toList] "MARGO".toList none "rtcm3".toList (argv ["a".toList] none) :=
  (C74_accepted ["a".toList] ⟨["a".toList], "MARGO".toList, none, "rtcm3".toList⟩).mp (by decide)

/-- C75: with any other command line nothing is read or written except the default configuration, and the program ends with an exit code
or with the exception that the default configuration causes. -/
theorem C75_rejected {prompt : List Txt} {localArgs : Option Txt}
    (h : ∀ source format path ext, ¬ CmdLine source format path ext (argv prompt localArgs)) (w : Disk) (ready : Bool) :
    ∃ e, command fr sh src ini order1 order2 prompt localArgs w ready = some ((w, ready), e) ∧
      ((∃ c, e = .exited c ∧ (c = 0 ∨ c = 2)) ∨
        ∃ x, e = .raised x ∧ (({} : Manager).initFromFile order1 (ini "defaults.ini".toList)).2 = .error x) := by
  unfold command
  cases h1 : ({} : Manager).initFromFile order1 (ini "defaults.ini".toList) with
  | mk m r =>
    cases r with
    | error e => exact ⟨_, rfl, .inr ⟨e, rfl, rfl⟩⟩
    | ok _ =>
      dsimp only
      cases hp : parseArgs (argv prompt localArgs) with
      | ok r => exact absurd ((C74_accepted _ r).mp hp) (h _ _ _ _)
      | error x =>
        refine ⟨_, rfl, .inl ⟨x.code, rfl, ?_⟩⟩
        cases x <;> simp [Exit.code]

example : ∀ source format path ext, ¬ CmdLine source format path ext (argv [] (some "-o XML a".toList)) := by
  intro source format path ext h
  have h := (C74_accepted _ ⟨source, format, path, ext⟩).mpr h
  have h2 : parseArgs (argv [] (some "-o XML a".toList)) = .error .error := by decide
  rw [h2] at h
  simp at h

/-- C75: a converter exists for every format that a command line can name: the factory is never asked for an unknown one. -/
theorem C75_format {argv : List Txt} {r : Request} (h : parseArgs argv = .ok r) :
    ∃ m, modeOf (String.ofList r.format) = some m ∧ r.format ∈ formats := by
  obtain ⟨before, after, _, _, _, _, _, _, _, hf, e1, _, _⟩ := (C74_accepted argv r).mp h
  have hmem : r.format ∈ formats := by
    rw [e1]
    unfold last
    cases hl : ((before ++ after).filter (·.1 = Setting.format)).getLast? with
    | none => simp [formats]
    | some p =>
      obtain ⟨s, v⟩ := p
      have h1 := List.mem_of_getLast? hl
      rw [List.mem_filter] at h1
      have hs : s = Setting.format := by simpa using h1.2
      exact hf v (hs ▸ h1.1)
  refine (?_ : ∃ m, modeOf (String.ofList r.format) = some m).imp fun m hm => ⟨hm, hmem⟩
  generalize r.format = f at hmem
  simp only [formats, List.mem_cons, List.not_mem_nil, or_false] at hmem
  rcases hmem with rfl | rfl | rfl | rfl <;> exact ⟨_, rfl⟩

example : parseArgs ["a".toList, "-o".toList, "JSON-B".toList] = .ok ⟨["a".toList], "JSON-B".toList, none, "rtcm3".toList⟩ ∧
    modeOf (String.ofList "JSON-B".toList) = some .jsonB := by decide

end Verif
