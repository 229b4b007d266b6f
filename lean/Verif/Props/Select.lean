import Verif.Model.Run
import Verif.Spec.Select
import Verif.Spec.ReadText
import Verif.Lemmas.ReadText
import Mathlib.Data.List.TakeWhile

/-!
# C54: selection of source files
-/

namespace Verif
namespace Run
open Spec

theorem isSpace_iff (c : Char) : isSpace c = true ↔ WhiteSpace c := by
  have key : ∀ n : Nat, ((9 ≤ n ∧ n ≤ 13) ∨ (28 ≤ n ∧ n ≤ 31)) ↔
      (n = 9 ∨ n = 10 ∨ n = 11 ∨ n = 12 ∨ n = 13 ∨ n = 28 ∨ n = 29 ∨ n = 30 ∨ n = 31) := by intro n; omega
  have inj : ∀ d : Char, c = d ↔ c.toNat = d.toNat := by
    intro d
    constructor
    · rintro rfl; rfl
    · intro h; exact Char.ext (UInt32.toNat_inj.1 h)
  unfold isSpace WhiteSpace
  simp only [decide_eq_true_eq, List.mem_cons, List.not_mem_nil, or_false]
  rw [key, inj '\t', inj '\n', inj '\x0b', inj '\x0c', inj '\r', inj '\x1c', inj '\x1d', inj '\x1e', inj '\x1f']
  rfl

theorem go_cons (acc : Option Nat) (c : Char) (cs : Txt) : digitsVal.go acc (c :: cs) =
    if c.isDigit then digitsVal.go (some ((acc.getD 0) * 10 + (c.toNat - 48))) cs
    else if c = '_' then
      match acc, cs with
      | some v, d :: ds => if d.isDigit then digitsVal.go (some (v * 10 + (d.toNat - 48))) ds else none
      | _, _ => none
    else none := by
  cases acc <;> cases cs <;> rfl

theorem go_some {t : Txt} : ∀ {acc : Option Nat} {v : Nat}, digitsVal.go acc t = some v →
    (acc = none ∧ ∃ (d : Txt) (gs : List Txt), t = d ++ gs.flatMap ('_' :: ·) ∧ DigitGroup d ∧ (∀ g ∈ gs, DigitGroup g) ∧ v = digitsValue (d ++ gs.flatten)) ∨
    (∃ (n : Nat) (d : Txt) (gs : List Txt), acc = some n ∧ t = d ++ gs.flatMap ('_' :: ·) ∧ (∀ c ∈ d, c.isDigit = true) ∧ (∀ g ∈ gs, DigitGroup g) ∧
      v = (d ++ gs.flatten).foldl (fun a c => a * 10 + (c.toNat - 48)) n) := by
  induction t using List.twoStepInduction with
  | nil =>
    intro acc v h
    cases acc with
    | none => cases h
    | some n => exact .inr ⟨n, [], [], rfl, rfl, by simp, by simp, (Option.some.inj h).symm⟩
  | singleton c =>
    intro acc v h
    rw [go_cons] at h
    split at h
    · rename_i hc
      have hv := Option.some.inj (show some _ = some v from h)
      cases acc with
      | none =>
        refine .inl ⟨rfl, [c], [], rfl, ⟨by simp, by simpa using hc⟩, by simp, ?_⟩
        rw [← hv]; simp [digitsValue]
      | some n =>
        refine .inr ⟨n, [c], [], rfl, rfl, by simpa using hc, by simp, ?_⟩
        rw [← hv]; simp
    · split at h
      · cases acc <;> cases h
      · cases h
  | cons_cons c d ds ih1 ih2 =>
    intro acc v h
    rw [go_cons] at h
    split at h
    · rename_i hc
      rcases ih2 _ h with ⟨h1, _⟩ | ⟨n, d', gs, h1, h2, h3, h4, h5⟩
      · cases h1
      · have h1 := Option.some.inj h1
        cases acc with
        | none =>
          refine .inl ⟨rfl, c :: d', gs, by rw [h2]; rfl, ⟨by simp, ?_⟩, h4, ?_⟩
          · intro x hx
            rcases List.mem_cons.1 hx with rfl | hx
            · exact hc
            · exact h3 x hx
          · rw [h5, ← h1]; rfl
        | some k =>
          refine .inr ⟨k, c :: d', gs, rfl, by rw [h2]; rfl, ?_, h4, ?_⟩
          · intro x hx
            rcases List.mem_cons.1 hx with rfl | hx
            · exact hc
            · exact h3 x hx
          · rw [h5, ← h1]; rfl
    · split at h
      · rename_i hu
        cases acc with
        | none => cases h
        | some k =>
          dsimp only at h
          split at h
          · rename_i hd
            rcases ih1 h with ⟨h1, _⟩ | ⟨n, d', gs, h1, h2, h3, h4, h5⟩
            · cases h1
            · have h1 := Option.some.inj h1
              refine .inr ⟨k, [], (d :: d') :: gs, rfl, ?_, by simp, ?_, ?_⟩
              · rw [h2, hu]; simp
              · intro g hg
                rcases List.mem_cons.1 hg with rfl | hg
                · refine ⟨by simp, fun x hx => ?_⟩
                  rcases List.mem_cons.1 hx with rfl | hx
                  · exact hd
                  · exact h3 x hx
                · exact h4 g hg
              · rw [h5, ← h1]; rfl
          · cases h
      · cases h

theorem go_digits (t : Txt) : ∀ (n : Nat) (d : Txt), (∀ c ∈ d, c.isDigit = true) →
    digitsVal.go (some n) (d ++ t) = digitsVal.go (some (d.foldl (fun a c => a * 10 + (c.toNat - 48)) n)) t := by
  intro n d
  induction d generalizing n with
  | nil => intro _; rfl
  | cons c d ih =>
    intro h
    show digitsVal.go (some n) (c :: (d ++ t)) = _
    rw [go_cons, if_pos (h c (by simp))]
    exact ih _ (fun x hx => h x (by simp [hx]))

theorem go_groups (gs : List Txt) : ∀ n : Nat, (∀ g ∈ gs, DigitGroup g) →
    digitsVal.go (some n) (gs.flatMap ('_' :: ·)) = some (gs.flatten.foldl (fun a c => a * 10 + (c.toNat - 48)) n) := by
  induction gs with
  | nil => intro n _; rfl
  | cons g gs ih =>
    intro n h
    have hg := h g (by simp)
    cases g with
    | nil => exact absurd rfl hg.1
    | cons d ds =>
      have e : ((d :: ds) :: gs).flatMap ('_' :: ·) = '_' :: d :: (ds ++ gs.flatMap ('_' :: ·)) := by simp
      rw [e, go_cons, if_neg (by decide), if_pos rfl]
      dsimp only
      rw [if_pos (hg.2 d (by simp)), go_digits _ _ _ (fun x hx => hg.2 x (by simp [hx])), ih _ (fun x hx => h x (by simp [hx]))]
      simp

theorem digitsVal_iff (t : Txt) (v : Nat) : digitsVal t = some v ↔
    ∃ (d : Txt) (gs : List Txt), t = d ++ gs.flatMap ('_' :: ·) ∧ DigitGroup d ∧ (∀ g ∈ gs, DigitGroup g) ∧ v = digitsValue (d ++ gs.flatten) := by
  constructor
  · intro h
    unfold digitsVal at h
    dsimp only at h
    split at h
    · cases h
    · rcases go_some h with ⟨_, h⟩ | ⟨n, d, gs, h1, _⟩
      · exact h
      · cases h1
  · rintro ⟨d, gs, rfl, hd, hg, rfl⟩
    cases d with
    | nil => exact absurd rfl hd.1
    | cons c ds =>
      unfold digitsVal
      dsimp only
      rw [if_neg (by simp)]
      show digitsVal.go none (c :: (ds ++ gs.flatMap ('_' :: ·))) = _
      rw [go_cons, if_pos (hd.2 c (by simp)), go_digits _ _ _ (fun x hx => hd.2 x (by simp [hx])), go_groups _ _ hg]
      simp [digitsValue]

theorem strip_split (t : Txt) : ∃ a b, t = a ++ strip t ++ b ∧ (∀ c ∈ a, isSpace c = true) ∧ (∀ c ∈ b, isSpace c = true) := by
  refine ⟨t.takeWhile isSpace, ((t.dropWhile isSpace).reverse.takeWhile isSpace).reverse, ?_, ?_, ?_⟩
  · unfold strip
    rw [List.append_assoc, ← List.reverse_append, List.takeWhile_append_dropWhile, List.reverse_reverse, List.takeWhile_append_dropWhile]
  · intro c hc; exact List.mem_takeWhile_imp hc
  · intro c hc; exact List.mem_takeWhile_imp (List.mem_reverse.1 hc)

theorem strip_core (a x b : Txt) (ha : ∀ c ∈ a, isSpace c = true) (hb : ∀ c ∈ b, isSpace c = true) (hx : x ≠ [])
    (h1 : ∀ c, x.head? = some c → isSpace c = false) (h2 : ∀ c, x.getLast? = some c → isSpace c = false) : strip (a ++ x ++ b) = x := by
  have dr : ∀ (p y : Txt), (∀ c ∈ p, isSpace c = true) → (p ++ y).dropWhile isSpace = y.dropWhile isSpace := by
    intro p y hp
    rw [List.dropWhile_append_of_pos hp]
  have st : ∀ y : Txt, y ≠ [] → (∀ c, y.head? = some c → isSpace c = false) → y.dropWhile isSpace = y := by
    intro y hy h
    cases y with
    | nil => exact absurd rfl hy
    | cons c y => rw [List.dropWhile_cons_of_neg]; simp [h c rfl]
  unfold strip
  rw [List.append_assoc, dr _ _ ha, st (x ++ b) (by simp [hx]), List.reverse_append, dr _ _ (by simpa using hb), st, List.reverse_reverse]
  · simp [hx]
  · intro c hc; rw [List.head?_reverse] at hc; exact h2 c hc
  · intro c hc
    apply h1
    cases x with
    | nil => exact absurd rfl hx
    | cons => simpa using hc

theorem digit_notSpace {c : Char} (h : c.isDigit = true) : isSpace c = false := by
  cases hs : isSpace c with
  | false => rfl
  | true =>
    rw [isSpace_iff] at hs
    unfold WhiteSpace at hs
    simp only [List.mem_cons, List.not_mem_nil, or_false] at hs
    rcases hs with h1 | h1 | h1 | h1 | h1 | h1 | h1 | h1 | h1 | h1 <;> · subst h1; cases h

theorem groups_last (d : Txt) (gs : List Txt) (hd : DigitGroup d) (hg : ∀ g ∈ gs, DigitGroup g) :
    ∀ c, (d ++ gs.flatMap ('_' :: ·)).getLast? = some c → c.isDigit = true := by
  rcases List.eq_nil_or_concat gs with rfl | ⟨gs', g, rfl⟩
  · intro c hc
    simp only [List.flatMap_nil, List.append_nil] at hc
    exact hd.2 c (List.mem_of_getLast? hc)
  · intro c hc
    have hgg := hg g (by simp)
    have e : d ++ (gs' ++ [g]).flatMap ('_' :: ·) = (d ++ gs'.flatMap ('_' :: ·) ++ ['_']) ++ g := by simp
    rw [List.concat_eq_append, e, List.getLast?_append_of_ne_nil _ hgg.1] at hc
    exact hgg.2 c (List.mem_of_getLast? hc)

/-- `int` accepts exactly the texts of integers and gives their values. -/
theorem pyInt_iff (t : Txt) (v : Int) : pyInt t = some v ↔ IntText t v := by
  constructor
  · intro h
    obtain ⟨a, b, h1, h2, h3⟩ := strip_split t
    have sp : ∀ l : Txt, (∀ c ∈ l, isSpace c = true) → ∀ c ∈ l, WhiteSpace c := fun l hl c hc => (isSpace_iff c).1 (hl c hc)
    have fin : ∀ (sign ds : Txt) (n : Nat), strip t = sign ++ ds → digitsVal ds = some n →
        ((sign = [] ∨ sign = ['+']) ∧ v = n ∨ sign = ['-'] ∧ v = -(n : Int)) → IntText t v := by
      intro sign ds n e1 e2 e3
      obtain ⟨d, gs, g1, g2, g3, g4⟩ := (digitsVal_iff ds n).1 e2
      refine ⟨a, sign, d, gs, b, ?_, sp a h2, sp b h3, g2, g3, ?_⟩
      · rw [← g1, ← e1]; exact h1
      · rw [← g4]; exact e3
    unfold pyInt at h
    split at h
    · rename_i ds e
      obtain ⟨n, hn, hv⟩ := Option.map_eq_some_iff.1 h
      exact fin ['-'] ds n e hn (.inr ⟨rfl, hv.symm⟩)
    · rename_i ds e
      obtain ⟨n, hn, hv⟩ := Option.map_eq_some_iff.1 h
      exact fin ['+'] ds n e hn (.inl ⟨.inr rfl, hv.symm⟩)
    · obtain ⟨n, hn, hv⟩ := Option.map_eq_some_iff.1 h
      exact fin [] _ n rfl hn (.inl ⟨.inl rfl, hv.symm⟩)
  · rintro ⟨a, sign, d, gs, b, rfl, ha, hb, hd, hg, hs⟩
    have hval := (digitsVal_iff (d ++ gs.flatMap ('_' :: ·)) _).2 ⟨d, gs, rfl, hd, hg, rfl⟩
    have hne : d ++ gs.flatMap ('_' :: ·) ≠ [] := by simp [hd.1]
    have hst : strip (a ++ (sign ++ (d ++ gs.flatMap ('_' :: ·))) ++ b) = sign ++ (d ++ gs.flatMap ('_' :: ·)) := by
      apply strip_core
      · exact fun c hc => (isSpace_iff c).2 (ha c hc)
      · exact fun c hc => (isSpace_iff c).2 (hb c hc)
      · simp [hd.1]
      · intro c hc
        rcases hs with ⟨rfl | rfl, _⟩ | ⟨rfl, _⟩
        · cases d with
          | nil => exact absurd rfl hd.1
          | cons x d =>
            have : c = x := by simpa using hc.symm
            exact digit_notSpace (hd.2 c (by simp [this]))
        · have : c = '+' := by simpa using hc.symm
          subst this; decide
        · have : c = '-' := by simpa using hc.symm
          subst this; decide
      · intro c hc
        rw [List.getLast?_append_of_ne_nil _ hne] at hc
        exact digit_notSpace (groups_last d gs hd hg c hc)
    unfold pyInt
    rw [hst]
    rcases hs with ⟨rfl | rfl, hv⟩ | ⟨rfl, hv⟩
    · rw [List.nil_append]
      split
      · rename_i ds e
        exfalso
        cases d with
        | nil => exact absurd rfl hd.1
        | cons x d =>
          have : x = '-' := by injection e
          have h2 := hd.2 x (by simp)
          rw [this] at h2; cases h2
      · rename_i ds e
        exfalso
        cases d with
        | nil => exact absurd rfl hd.1
        | cons x d =>
          have : x = '+' := by injection e
          have h2 := hd.2 x (by simp)
          rw [this] at h2; cases h2
      · rw [hval, hv]; rfl
    · show (digitsVal (d ++ gs.flatMap ('_' :: ·))).map _ = _
      rw [hval, hv]; rfl
    · show (digitsVal (d ++ gs.flatMap ('_' :: ·))).map _ = _
      rw [hval, hv]; rfl

theorem splitOn_eq (sep : Char) (t : Txt) : splitOn sep t = splitAt sep t := by
  induction t with
  | nil => rfl
  | cons c cs ih =>
    rw [splitAt, ← ih]
    rfl

end Run

open Run Spec

/-- **C54** Unless the only argument is a directory (and not a file), the result is the absolute paths of those arguments that are
files, in order. -/
theorem C54_arguments (sh : Shell) (args : List Txt) (ext : Txt)
    (h : ¬∃ a, args = [a] ∧ sh.isfile (sh.abspath a) = false ∧ sh.isdir (sh.abspath a) = true) :
    makeListOfSourceFiles sh args ext = (args.map sh.abspath).filter sh.isfile := by
  unfold makeListOfSourceFiles
  have hs : srcDir sh args = none := by
    unfold srcDir
    split
    · rename_i a
      rw [if_neg]
      intro hc
      rw [Bool.and_eq_true, Bool.not_eq_true'] at hc
      exact h ⟨a, rfl, hc⟩
    · rfl
  rw [hs]

/-- The files of a list that are selected by numbers counted from one; other numbers select nothing. -/
def Spec.selected (l : List Txt) (idx : List Int) : List Txt :=
  idx.flatMap (fun i => (((l.zipIdx 1).filter (fun f => (f.2 : Int) = i)).map (·.1)))

theorem Run.selected_eq (l : List Txt) (i : Int) :
    (((l.zipIdx 1).filter (fun f => (f.2 : Int) = i)).map (·.1)) = if 0 < i ∧ i ≤ l.length then (l[(i - 1).toNat]?).toList else [] := by
  have gen : ∀ (l : List Txt) (k : Nat), (((l.zipIdx k).filter (fun f => (f.2 : Int) = i)).map (·.1)) =
      if (k : Int) ≤ i ∧ i < k + l.length then (l[(i - k).toNat]?).toList else [] := by
    intro l
    induction l with
    | nil =>
      intro k
      rw [if_neg (by simp)]
      rfl
    | cons x l ih =>
      intro k
      rw [List.zipIdx_cons, List.filter_cons]
      dsimp only
      by_cases hk : (k : Int) = i
      · rw [if_pos (by simpa using hk), List.map_cons, ih, if_neg (by omega), if_pos (by simp; omega)]
        have : (i - (k : Int)).toNat = 0 := by omega
        rw [this]; rfl
      · rw [if_neg (by simpa using hk), ih]
        by_cases hc : ((k + 1 : Nat) : Int) ≤ i ∧ i < (k + 1 : Nat) + l.length
        · rw [if_pos hc, if_pos (by simp; omega)]
          have : (i - (k : Int)).toNat = (i - ((k + 1 : Nat) : Int)).toNat + 1 := by omega
          rw [this, List.getElem?_cons_succ]
        · rw [if_neg hc, if_neg (by simp; omega)]
  rw [gen l 1]
  have : ((1 : Nat) : Int) ≤ i ∧ i < (1 : Nat) + (l.length : Int) ↔ 0 < i ∧ i ≤ (l.length : Int) := by omega
  simp only [this]
  rfl

/-- **C54** If the only argument is a directory, the result depends on the line that the user enters, taken apart at the blanks: if every
part is the text of an integer, the result is the files with these numbers, in the order in which they were entered. -/
theorem C54_directory (sh : Shell) (a ext : Txt) (idx : List Int) (h1 : sh.isfile (sh.abspath a) = false) (h2 : sh.isdir (sh.abspath a) = true)
    (h : List.Forall₂ IntText (splitAt ' ' sh.input) idx) :
    makeListOfSourceFiles sh [a] ext = selected (sh.glob (sh.abspath a) ext) idx := by
  have hm : (splitOn ' ' sh.input).mapM pyInt = some idx := by
    rw [splitOn_eq]
    generalize splitAt ' ' sh.input = l at h
    induction h with
    | nil => rfl
    | cons hx _ ih => simp [List.mapM_cons, (pyInt_iff _ _).2 hx, ih]
  unfold makeListOfSourceFiles srcDir
  simp only [h1, h2, Bool.not_false, Bool.and_self, if_true]
  rw [hm]
  have e : selected (sh.glob (sh.abspath a) ext) idx = (idx.filter (fun i : Int => 0 < i ∧ i ≤ (sh.glob (sh.abspath a) ext).length)).filterMap
      (fun i : Int => (sh.glob (sh.abspath a) ext)[(i - 1).toNat]?) := by
    unfold selected
    generalize sh.glob (sh.abspath a) ext = l
    clear hm h
    induction idx with
    | nil => rfl
    | cons i idx ih =>
      rw [List.flatMap_cons, ih, selected_eq, List.filter_cons]
      by_cases hc : 0 < i ∧ i ≤ (l.length : Int)
      · rw [if_pos hc, if_pos (by simpa using hc), List.filterMap_cons]
        cases l[(i - 1).toNat]? <;> rfl
      · rw [if_neg hc, if_neg (by simpa using hc)]; rfl
  split
  · rename_i hl
    rw [List.length_eq_zero_iff.1 hl]
    unfold selected
    simp
  · exact e.symm

/-- **C54** If some part is not the text of an integer, nothing is selected. -/
theorem C54_not_integer (sh : Shell) (a ext t : Txt) (h1 : sh.isfile (sh.abspath a) = false) (h2 : sh.isdir (sh.abspath a) = true)
    (ht : t ∈ splitAt ' ' sh.input) (hn : ∀ v, ¬IntText t v) : makeListOfSourceFiles sh [a] ext = [] := by
  have hm : (splitOn ' ' sh.input).mapM pyInt = none := by
    rw [splitOn_eq]
    generalize splitAt ' ' sh.input = l at ht
    induction l with
    | nil => cases ht
    | cons x l ih =>
      rw [List.mapM_cons]
      cases hx : pyInt x with
      | none => rfl
      | some v =>
        rcases List.mem_cons.1 ht with rfl | ht
        · exact absurd ((pyInt_iff _ _).1 hx) (hn v)
        · rw [ih ht]; rfl
  unfold makeListOfSourceFiles srcDir
  simp only [h1, h2, Bool.not_false, Bool.and_self, if_true]
  rw [hm]
  split <;> rfl

/-- **C54** Whatever is returned exists: it is a file or was found by the search in the directory. -/
theorem C54_exist (sh : Shell) (args : List Txt) (ext f : Txt) (h : f ∈ makeListOfSourceFiles sh args ext) :
    (sh.isfile f = true ∧ ∃ a ∈ args, f = sh.abspath a) ∨ ∃ a ∈ args, f ∈ sh.glob (sh.abspath a) ext := by
  by_cases hc : ∃ a, args = [a] ∧ sh.isfile (sh.abspath a) = false ∧ sh.isdir (sh.abspath a) = true
  · obtain ⟨a, rfl, h1, h2⟩ := hc
    refine .inr ⟨a, by simp, ?_⟩
    unfold makeListOfSourceFiles srcDir at h
    simp only [h1, h2, Bool.not_false, Bool.and_self, if_true] at h
    split at h
    · cases h
    · split at h
      · cases h
      · obtain ⟨i, _, hi⟩ := List.mem_filterMap.1 h
        exact List.mem_of_getElem? hi
  · rw [C54_arguments sh args ext hc, List.mem_filter, List.mem_map] at h
    obtain ⟨⟨a, ha, rfl⟩, hf⟩ := h
    exact .inl ⟨hf, a, ha, rfl⟩

/-- A directory with three files and the line `2 1 9`; a line with two blanks in a row is refused because `int('')` raises. -/
def exShell (line : String) : Shell :=
  { abspath := id, isfile := fun _ => false, isdir := fun _ => true, glob := fun _ _ => ["a".toList, "b".toList, "c".toList],
    input := line.toList }

example : List.Forall₂ IntText (splitAt ' ' (exShell "2 +1 9").input) [2, 1, 9] := by
  have h : splitAt ' ' (exShell "2 +1 9").input = [['2'], ['+', '1'], ['9']] := by decide
  rw [h]
  refine .cons ((pyInt_iff _ _).1 (by decide)) (.cons ((pyInt_iff _ _).1 (by decide)) (.cons ((pyInt_iff _ _).1 (by decide)) .nil))

example : makeListOfSourceFiles (exShell "2 +1 9") [['d']] [] = [['b'], ['a']] := by decide

example : (∃ t ∈ splitAt ' ' (exShell "1  2").input, ∀ v, ¬IntText t v) := by
  refine ⟨[], by decide, fun v h => ?_⟩
  have := (pyInt_iff _ _).2 h
  cases this

example : Spec.selected [['a'], ['b'], ['c']] [3, 0, -1, 4, 3] = [['c'], ['c']] := by decide

end Verif
