import Verif.Lemmas.ReadText
import Verif.Props.Margo

/-!
# C57: MARGO files can be read back
-/

namespace Verif
open Spec ReadText Text

/-- **C57** A printed number reads back to the value rounded to the number of decimals: it differs by at most half a unit of the last
decimal. -/
theorem C57_number (width decimals : Nat) (x : Rat) :
    ∃ y, readFixed (rjust width (fixedRepr decimals x)) = some y ∧ RoundedTo decimals x y := readFixed_fixed width decimals x

/-- A field of a table shows a value. -/
def Spec.Shows (d : Nat) (cell : Option Rat) (field : Txt) : Prop :=
  match cell with
  | none => readCell field = some none
  | some x => ∃ y, readCell field = some (some y) ∧ RoundedTo d x y

/-- A line shows a row: the time exactly, then one field for each column. -/
def Spec.ShowsRow (k : ObsKind) (t : Int) (cells : List (Option Rat)) (line : Txt) : Prop :=
  ∃ f fs, readFields line = f :: fs ∧ readFixed f = some (t : Rat) ∧ List.Forall₂ (Shows k.format.2) cells fs

namespace ReadText

theorem readCell_fixed (w d : Nat) (x : Rat) : ∃ y, readCell (rjust w (fixedRepr d x)) = some (some y) ∧ RoundedTo d x y := by
  obtain ⟨y, h1, h2⟩ := readFixed_fixed w d x
  obtain ⟨g1, g2, -⟩ := fixed_head d x
  refine ⟨y, ?_, h2⟩
  unfold readCell
  rw [drop_blanks w _ g1, if_neg g2, h1]
  rfl

/-- The text of a number in a column: the fixed text, or that of the negative zero in a Doppler column. -/
theorem cellText_some (k : ObsKind) (x : Rat) :
    cellText k (some x) = rjust k.format.1 (fixedRepr k.format.2 x) ∨ (k = .doppler ∧ x = 0 ∧ cellText k (some x) = rjust 15 "-0.000".toList) := by
  by_cases h : k = .doppler ∧ x = 0
  · obtain ⟨rfl, rfl⟩ := h
    exact .inr ⟨rfl, rfl, by decide +kernel⟩
  · left
    unfold cellText
    dsimp only
    rw [if_neg h]
    rfl

theorem readCell_negZero : readCell (rjust 15 "-0.000".toList) = some (some 0) := by decide +kernel

theorem shows_cell (k : ObsKind) (cell : Option Rat) : Shows k.format.2 cell (cellText k cell) := by
  cases cell with
  | none =>
    unfold Shows cellText readCell
    dsimp only
    rw [drop_blanks _ _ (by decide), if_pos (by decide)]
  | some x =>
    rcases cellText_some k x with e | ⟨-, rfl, e⟩
    · rw [e]; exact readCell_fixed _ _ x
    · rw [e]; exact ⟨0, readCell_negZero, by simp, 0, by simp⟩

/-- Characters of numbers. -/
def Plain (t : Txt) : Prop := ',' ∉ t ∧ '\n' ∉ t

theorem plain_fixed (w d : Nat) (x : Rat) : Plain (rjust w (fixedRepr d x)) := by
  have h := (fixed_head d x).2.2
  constructor
  · intro hm
    rcases rjust_mem hm with e | e
    · revert e; decide
    · have := h _ e; revert this; decide
  · intro hm
    rcases rjust_mem hm with e | e
    · revert e; decide
    · have := h _ e; revert this; decide

theorem plain_cell (k : ObsKind) (cell : Option Rat) : Plain (cellText k cell) := by
  cases cell with
  | none =>
    unfold cellText
    constructor
    · intro hm
      rcases rjust_mem hm with e | e
      · revert e; decide
      · revert e; decide
    · intro hm
      rcases rjust_mem hm with e | e
      · revert e; decide
      · revert e; decide
  | some x =>
    rcases cellText_some k x with e | ⟨-, rfl, e⟩
    · rw [e]; exact plain_fixed _ _ x
    · rw [e]; unfold Plain; decide +kernel

theorem plain_int (w : Nat) (t : Int) : Plain (rjust w (intRepr t)) := by
  rw [int_fixed]; exact plain_fixed w 0 t

/-- A line of fields. -/
theorem line_fields (l : List Txt) (h0 : l ≠ []) (h : ∀ t ∈ l, Plain t) :
    ∃ line, commaLine l = line ++ ['\n'] ∧ '\n' ∉ line ∧ readFields line = l := by
  refine ⟨join [','] l, rfl, ?_, splitAt_join ',' l h0 (fun t ht => (h t ht).1)⟩
  clear h0
  induction l with
  | nil => simp [join]
  | cons t l ih =>
    cases l with
    | nil => unfold join; exact (h t (by simp)).2
    | cons u l =>
      unfold join
      intro hm
      rcases List.mem_append.1 hm with hm | hm
      · rcases List.mem_append.1 hm with hm | hm
        · exact (h t (by simp)).2 hm
        · simp at hm
      · exact ih (fun x hx => h x (by simp [hx])) hm

end ReadText

/-- **C57** Each row is one line that splits at the commas into the time and one field for each satellite, which shows its value. -/
theorem C57_row (k : ObsKind) (t : Int) (cells : List (Option Rat)) :
    ∃ line, rowText k t cells = line ++ ['\n'] ∧ '\n' ∉ line ∧ ShowsRow k t cells line := by
  obtain ⟨line, h1, h2, h3⟩ := line_fields (rjust 10 (intRepr t) :: cells.map (cellText k)) (by simp) (by
    intro x hx
    rcases List.mem_cons.1 hx with rfl | hx
    · exact plain_int 10 t
    · obtain ⟨c, -, rfl⟩ := List.mem_map.1 hx
      exact plain_cell _ c)
  refine ⟨line, h1, h2, _, _, h3, readFixed_int 10 t, ?_⟩
  rw [List.forall₂_map_right_iff, List.forall₂_same]
  intro c _
  exact shows_cell _ c

/-- **C57** The header is two lines: the number of the kind and the satellite numbers; the frequency of the band and the carrier frequencies
of the satellites in MHz with at least four decimals. -/
theorem C57_header (m : MargoSettings) (g : Nat) (k : ObsKind) (slot : String) :
    ∃ l1 l2, headText m g k slot = l1 ++ ['\n'] ++ (l2 ++ ['\n']) ∧ '\n' ∉ l1 ∧ '\n' ∉ l2 ∧
      (readFields l1).map readFixed = some (k.code : Rat) :: (List.range (margoSats g)).map (fun i => some ((i + 1 : Nat) : Rat)) ∧
      List.Forall₂ (fun x f => ∃ y, readFixed f = some y ∧ RoundedTo (max 4 k.format.2) x y)
        (((slot.toList.head?.map (bandMHz g)).getD 0) :: (List.range (margoSats g)).map (fun i => carrier m.channel g slot (i + 1)))
        (readFields l2) := by
  obtain ⟨l1, a1, a2, a3⟩ := line_fields (rjust 10 (intRepr k.code) :: (List.range (margoSats g)).map (fun i : Nat => rjust k.format.1 (intRepr ((i + 1 : Nat) : Int)))) (by simp) (by
    intro x hx
    rcases List.mem_cons.1 hx with rfl | hx
    · exact plain_int _ _
    · obtain ⟨c, -, rfl⟩ := List.mem_map.1 hx
      exact plain_int _ _)
  obtain ⟨l2, b1, b2, b3⟩ := line_fields (rjust 10 (fixedRepr (max 4 k.format.2) ((slot.toList.head?.map (bandMHz g)).getD 0)) ::
    (List.range (margoSats g)).map (fun i => rjust (max 9 k.format.1) (fixedRepr (max 4 k.format.2) (carrier m.channel g slot (i + 1))))) (by simp) (by
    intro x hx
    rcases List.mem_cons.1 hx with rfl | hx
    · exact plain_fixed _ _ _
    · obtain ⟨c, -, rfl⟩ := List.mem_map.1 hx
      exact plain_fixed _ _ _)
  refine ⟨l1, l2, ?_, a2, b2, ?_, ?_⟩
  · unfold headText
    rw [a1, b1]
  · rw [a3, List.map_cons, readFixed_int, List.map_map]
    congr 1
    apply List.map_congr_left
    intro i _
    simp only [Function.comp_apply]
    rw [readFixed_int]
    push_cast
    rfl
  · rw [b3]
    refine .cons (readFixed_fixed _ _ _) ?_
    rw [List.forall₂_map_right_iff, List.forall₂_map_left_iff, List.forall₂_same]
    intro i _
    exact readFixed_fixed _ _ _

/-- **C57** A file has exactly the two lines of the header and then one line for each row, in order. -/
theorem C57_file (m : MargoSettings) (g : Nat) (k : ObsKind) (slot u : String) (rows : List (Txt × Int × List (Option Rat))) :
    ∃ l1 l2 ls, readLines (fileText m g k slot u rows) = l1 :: l2 :: ls ∧ headText m g k slot = l1 ++ ['\n'] ++ (l2 ++ ['\n']) ∧
      List.Forall₂ (fun r l => ShowsRow k r.2.1 r.2.2 l) (rows.filter (fun r => r.1 == margoName g k slot u)) ls := by
  obtain ⟨l1, l2, h1, h2, h3, -⟩ := C57_header m g k slot
  have hrows : ∀ R : List (Txt × Int × List (Option Rat)), ∃ ls, R.flatMap (fun r => rowText k r.2.1 r.2.2) = ls.flatMap (fun t => t ++ ['\n']) ∧
      (∀ t ∈ ls, '\n' ∉ t) ∧ List.Forall₂ (fun r l => ShowsRow k r.2.1 r.2.2 l) R ls := by
    intro R
    induction R with
    | nil => exact ⟨[], rfl, by simp, .nil⟩
    | cons r R ih =>
      obtain ⟨ls, i1, i2, i3⟩ := ih
      obtain ⟨l, e1, e2, e3⟩ := C57_row k r.2.1 r.2.2
      refine ⟨l :: ls, ?_, ?_, .cons e3 i3⟩
      · rw [List.flatMap_cons, List.flatMap_cons, i1, e1]
      · intro t ht
        rcases List.mem_cons.1 ht with rfl | ht
        · exact e2
        · exact i2 t ht
  obtain ⟨ls, e1, e2, e3⟩ := hrows (rows.filter (fun r => r.1 == margoName g k slot u))
  refine ⟨l1, l2, ls, ?_, h1, e3⟩
  unfold fileText
  rw [h1, e1]
  have : l1 ++ ['\n'] ++ (l2 ++ ['\n']) ++ ls.flatMap (fun t => t ++ ['\n']) = (l1 :: l2 :: ls).flatMap (fun t => t ++ ['\n']) := by
    simp [List.flatMap_cons, List.append_assoc]
  rw [this]
  apply readLines_flat
  intro t ht
  rcases List.mem_cons.1 ht with rfl | ht
  · exact h2
  · rcases List.mem_cons.1 ht with rfl | ht
    · exact h3
    · exact e2 t ht

/-- Values that round, also ties and negative ones, and rows; a Doppler of zero has a sign. -/
example : fixedRepr 3 (-12345 / 10000) = "-1.234".toList ∧ fixedRepr 2 (1005 / 1000) = "1.00".toList ∧ fixedRepr 0 (5 / 2) = "2".toList ∧
    fixedRepr 4 (999999 / 10000 + 96 / 1000000) = "100.0000".toList ∧
    rowText .half 604799000 [some 1, none, some 0] = " 604799000,   1, nan,   0\n".toList ∧
    rowText .doppler 5 [some 0, some (1 / 2)] = "         5,         -0.000,          0.500\n".toList := by decide +kernel

end Verif
