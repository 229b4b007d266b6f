import Verif.Spec.JsonVal
import Mathlib.Tactic

/-!
# `json.dumps` writes a JSON text of its argument
-/

namespace Verif
namespace Json
open Spec Text

theorem escapes_mem {e c : Char} (h : escapes.contains (e, c) = true) : (e, c) ∈ escapes := by simpa using h

theorem hexValue_digitChar : ∀ n < 16, hexValue (Nat.digitChar n) = some n := by decide

theorem strBody_cons (c : Char) {s t : List Char} (h : StrBody s t) : StrBody (c :: s) (escChar c ++ t) := by
  unfold escChar
  by_cases h1 : c = '"'
  · subst h1; exact .esc '"' '"' (by decide) h
  rw [if_neg h1]
  by_cases h2 : c = '\\'
  · subst h2; exact .esc '\\' '\\' (by decide) h
  rw [if_neg h2]
  by_cases h3 : c = '\n'
  · subst h3; exact .esc 'n' '\n' (by decide) h
  rw [if_neg h3]
  by_cases h4 : c = '\r'
  · subst h4; exact .esc 'r' '\r' (by decide) h
  rw [if_neg h4]
  by_cases h5 : c = '\t'
  · subst h5; exact .esc 't' '\t' (by decide) h
  rw [if_neg h5]
  have hofNat : ∀ n, c.toNat = n → c = Char.ofNat n := by
    intro n hn; rw [← hn, Char.ofNat_toNat]
  by_cases h6 : c.toNat = 8
  · rw [if_pos h6, hofNat 8 h6]; exact .esc 'b' _ (by decide) h
  rw [if_neg h6]
  by_cases h7 : c.toNat = 12
  · rw [if_pos h7, hofNat 12 h7]; exact .esc 'f' _ (by decide) h
  rw [if_neg h7]
  by_cases h8 : c.toNat < 32
  · rw [if_pos h8]
    refine .uni '0' '0' _ _ 0 0 _ _ (by decide) (by decide) (hexValue_digitChar _ (by omega)) (hexValue_digitChar _ (by omega)) c ?_ h
    omega
  · rw [if_neg h8]
    exact .plain c h1 h2 (by omega) h

theorem strBody_enc (s : List Char) : StrBody s (s.flatMap escChar) := by
  induction s with
  | nil => exact .nil
  | cons c s ih => exact strBody_cons c ih

theorem digits_digit (n : Nat) : ∀ c ∈ Nat.toDigits 10 n, '0' ≤ c ∧ c ≤ '9' := by
  intro c hc
  have := Nat.isDigit_of_mem_toDigits (by omega) (by omega) hc
  simpa [Char.isDigit, Char.le_def] using this

theorem toDigits_head (n : Nat) (h : n ≠ 0) : ∃ d ds, Nat.toDigits 10 n = d :: ds ∧ '1' ≤ d ∧ d ≤ '9' ∧ Digits ds := by
  induction n using Nat.strong_induction_on with
  | _ n ih =>
    by_cases hlt : n < 10
    · refine ⟨n.digitChar, [], Nat.toDigits_of_lt_base hlt, ?_, ?_, by intro c hc; simp at hc⟩
      · interval_cases n <;> first | exact absurd rfl h | decide
      · interval_cases n <;> decide
    · rw [Nat.toDigits_of_base_le (by omega) (by omega)]
      obtain ⟨d, ds, h1, h2, h3, h4⟩ := ih (n / 10) (by omega) (by omega)
      refine ⟨d, ds ++ [(n % 10).digitChar], by rw [h1]; rfl, h2, h3, ?_⟩
      intro c hc
      rcases List.mem_append.1 hc with hc | hc
      · exact h4 c hc
      · rw [List.mem_singleton.1 hc]
        have : n % 10 < 10 := Nat.mod_lt _ (by omega)
        generalize n % 10 = m at this
        interval_cases m <;> decide

theorem isNum_nat (n : Nat) (sign : List Char) (hs : sign = [] ∨ sign = ['-']) : IsNum (sign ++ Nat.toDigits 10 n) := by
  refine ⟨sign, Nat.toDigits 10 n, [], [], by simp, hs, ?_, .inl rfl, .inl rfl⟩
  by_cases h : n = 0
  · left; subst h; decide
  · right; exact toDigits_head n h

theorem isNum_dec (i : Int) : IsNum (decText i) := by
  unfold decText
  split
  · exact isNum_nat _ ['-'] (.inr rfl)
  · exact isNum_nat _ [] (.inl rfl)

theorem ws_nil : Ws [] := by intro c hc; simp at hc

theorem ws_nl (indent : Option Nat) (level : Nat) : Ws (nl indent level) := by
  intro c hc
  unfold nl at hc
  cases indent with
  | none => simp at hc
  | some k =>
    rcases List.mem_cons.1 hc with hc | hc
    · exact .inr (.inr (.inl hc))
    · exact .inl (List.mem_replicate.1 hc).2

theorem sep_eq (indent : Option Nat) (level : Nat) : ∃ w, Ws w ∧ itemSep indent ++ nl indent level = ',' :: w := by
  cases indent with
  | none => exact ⟨[' '], by intro c hc; simp at hc; exact .inl hc, rfl⟩
  | some k => exact ⟨nl (some k) level, ws_nl _ _, rfl⟩

/-- White space around the text of a sequence of values is absorbed. -/
theorem elems_join {w b : List Char} (hw : Ws w) (hb : Ws b) :
    ∀ (a : List Char) (_ : Ws a) (vs : List JV) (ts : List Txt), List.Forall₂ Denotes vs ts → vs ≠ [] →
      Elems vs (a ++ join (',' :: w) ts ++ b)
  | a, ha, [v], [t], .cons h .nil, _ => .one (.mk ha h hb)
  | a, ha, v :: v' :: vs, t :: t' :: ts, .cons h hs, _ => by
    have ih := elems_join hw hb w hw (v' :: vs) (t' :: ts) hs (by simp)
    have := Elems.cons (.mk ha h ws_nil) ih
    simpa [join, List.append_assoc] using this

/-- A text of a member: key, colon, padded value. -/
def MemberText (m : List Char × JV) (t : List Char) : Prop :=
  ∃ s b v, t = '"' :: s ++ '"' :: b ++ ':' :: v ∧ StrBody m.1 s ∧ Ws b ∧ ∃ c u, v = c ++ u ∧ Ws c ∧ Denotes m.2 u

theorem members_join {w b : List Char} (hw : Ws w) (hb : Ws b) :
    ∀ (a : List Char) (_ : Ws a) (ms : List (List Char × JV)) (ts : List Txt), List.Forall₂ MemberText ms ts → ms ≠ [] →
      Members ms (a ++ join (',' :: w) ts ++ b)
  | a, ha, [(k, v)], [t], .cons h .nil, _ => by
    obtain ⟨s, b', v', rfl, hs, hb', c, u, rfl, hc, hu⟩ := h
    have := Members.one ha hs hb' (.mk hc hu hb)
    simpa [join, List.append_assoc] using this
  | a, ha, (k, v) :: m :: ms, t :: t' :: ts, .cons h hs', _ => by
    have ih := members_join hw hb w hw (m :: ms) (t' :: ts) hs' (by simp)
    obtain ⟨s, b', v', rfl, hs, hb', c, u, rfl, hc, hu⟩ := h
    have := Members.cons ha hs hb' (.mk hc hu ws_nil) ih
    simpa [join, List.append_assoc] using this

theorem jvSeq_length (fr : Rat → List Char) (l : List PyVal) : jvSeq fr l = [] ↔ l = [] := by
  cases l <;> simp [jvSeq]

mutual
theorem dumpsAt_denotes (fr : Rat → Txt) (hfr : ∀ x, IsNum (fr x)) (indent : Option Nat) :
    ∀ (v : PyVal) (level : Nat), Denotes (jv fr v) (dumpsAt fr indent level v)
  | .none, _ => by rw [jv, dumpsAt]; exact .null
  | .bool true, _ => by rw [jv, dumpsAt]; exact .true
  | .bool false, _ => by rw [jv, dumpsAt]; exact .false
  | .int i, _ => by rw [jv, dumpsAt]; exact .num (isNum_dec i)
  | .flt x, _ => by rw [jv, dumpsAt]; exact .num (hfr x)
  | .str s, _ => by rw [jv, dumpsAt]; exact .str (strBody_enc s.toList)
  | .seq l, level => by
    rw [jv, dumpsAt]
    have h := dumpsSeq_denotes fr hfr indent l (level + 1)
    unfold brackets
    obtain ⟨w, hw, hsep⟩ := sep_eq indent (level + 1)
    by_cases hl : l = []
    · subst hl; rw [dumpsSeq, if_pos rfl, jvSeq]; exact .arrNil ws_nil
    · have h1 : jvSeq fr l ≠ [] := fun h => hl ((jvSeq_length fr l).1 h)
      rw [if_neg (by intro h2; rw [h2] at h; cases l with | nil => exact hl rfl | cons => rw [jvSeq] at h; cases h), hsep]
      have := Denotes.arr (elems_join hw (ws_nl indent level) (nl indent (level + 1)) (ws_nl _ _) _ _ h h1)
      simpa [List.append_assoc] using this
  | .dict d, level => by
    rw [jv, dumpsAt]
    have h := dumpsDict_denotes fr hfr indent d (level + 1)
    unfold brackets
    obtain ⟨w, hw, hsep⟩ := sep_eq indent (level + 1)
    by_cases hl : d = []
    · subst hl; rw [dumpsDict, if_pos rfl, jvDict]; exact .objNil ws_nil
    · have h1 : jvDict fr d ≠ [] := by cases d with | nil => exact absurd rfl hl | cons => rw [jvDict]; simp
      rw [if_neg (by intro h2; rw [h2] at h; cases d with | nil => exact hl rfl | cons => rw [jvDict] at h; cases h), hsep]
      have := Denotes.obj (members_join hw (ws_nl indent level) (nl indent (level + 1)) (ws_nl _ _) _ _ h h1)
      simpa [List.append_assoc] using this
theorem dumpsSeq_denotes (fr : Rat → Txt) (hfr : ∀ x, IsNum (fr x)) (indent : Option Nat) :
    ∀ (l : List PyVal) (level : Nat), List.Forall₂ Denotes (jvSeq fr l) (dumpsSeq fr indent level l)
  | [], _ => by rw [jvSeq, dumpsSeq]; exact .nil
  | v :: vs, level => by
    rw [jvSeq, dumpsSeq]
    exact .cons (dumpsAt_denotes fr hfr indent v level) (dumpsSeq_denotes fr hfr indent vs level)
theorem dumpsDict_denotes (fr : Rat → Txt) (hfr : ∀ x, IsNum (fr x)) (indent : Option Nat) :
    ∀ (l : List (PyKey × PyVal)) (level : Nat), List.Forall₂ MemberText (jvDict fr l) (dumpsDict fr indent level l)
  | [], _ => by rw [jvDict, dumpsDict]; exact .nil
  | v :: vs, level => by
    rw [jvDict, dumpsDict]
    exact .cons (dumpsItem_denotes fr hfr indent v level) (dumpsDict_denotes fr hfr indent vs level)
theorem dumpsItem_denotes (fr : Rat → Txt) (hfr : ∀ x, IsNum (fr x)) (indent : Option Nat) :
    ∀ (p : PyKey × PyVal) (level : Nat), MemberText (jvItem fr p) (dumpsItem fr indent level p)
  | (k, v), level => by
    rw [jvItem, dumpsItem]
    have h := dumpsAt_denotes fr hfr indent v level
    refine ⟨(keyText k).flatMap escChar, [], ' ' :: dumpsAt fr indent level v, ?_, strBody_enc _, ws_nil, [' '], _, rfl, ?_, h⟩
    · cases k <;> simp [encKey, encStr, keyText, decText, intRepr, natRepr, List.append_assoc]
    · intro c hc; exact .inl (List.mem_singleton.1 hc)
end

/-- `json.dumps` writes a text that denotes the value. -/
theorem dumps_denotes (fr : Rat → Txt) (hfr : ∀ x, IsNum (fr x)) (indent : Option Nat) (v : PyVal) :
    Denotes (jv fr v) (dumps fr indent v) := dumpsAt_denotes fr hfr indent v 0

end Json
end Verif
