import Verif.Spec.Json
import Mathlib.Tactic.ByContra

/-!
# A JSON text denotes at most one value
-/

namespace Verif
namespace Spec
namespace Unique

/-- Two ways to split a text after the longest part with `p`. -/
theorem split_while {p : Char → Bool} {t t' r r' : List Char} (h : ∀ c ∈ t, p c = true) (h' : ∀ c ∈ t', p c = true)
    (hr : ∀ c ∈ r.head?, p c = false) (hr' : ∀ c ∈ r'.head?, p c = false) (e : t ++ r = t' ++ r') : t = t' ∧ r = r' := by
  induction t generalizing t' with
  | nil =>
    cases t' with
    | nil => exact ⟨rfl, e⟩
    | cons c t' =>
      have := hr c (by rw [List.nil_append] at e; rw [e]; rfl)
      rw [h' c (by simp)] at this
      cases this
  | cons c t ih =>
    cases t' with
    | nil =>
      have := hr' c (by rw [List.nil_append] at e; rw [← e]; rfl)
      rw [h c (by simp)] at this
      cases this
    | cons c' t' =>
      simp only [List.cons_append, List.cons.injEq] at e
      obtain ⟨rfl, e⟩ := e
      obtain ⟨rfl, rfl⟩ := ih (fun x hx => h x (by simp [hx])) (fun x hx => h' x (by simp [hx])) e
      exact ⟨rfl, rfl⟩

/-- White space. -/
def ws (c : Char) : Bool := c = ' ' ∨ c = '\t' ∨ c = '\n' ∨ c = '\r'

theorem ws_all {t : List Char} (h : Ws t) : ∀ c ∈ t, ws c = true := fun c hc => decide_eq_true (h c hc)

/-- Characters of numbers. -/
def numChar (c : Char) : Bool := ('0' ≤ c ∧ c ≤ '9') ∨ c = '-' ∨ c = '+' ∨ c = '.' ∨ c = 'e' ∨ c = 'E'

theorem digits_num {t : List Char} (h : Digits t) : ∀ c ∈ t, numChar c = true := fun c hc => decide_eq_true (.inl (h c hc))

theorem num_all {t : List Char} (h : IsNum t) : ∀ c ∈ t, numChar c = true := by
  obtain ⟨sign, int, frac, exp, rfl, h1, h2, h3, h4⟩ := h
  intro c hc
  simp only [List.mem_append] at hc
  rcases hc with ((hc | hc) | hc) | hc
  · rcases h1 with rfl | rfl
    · cases hc
    · obtain rfl := List.mem_singleton.1 hc; decide
  · rcases h2 with rfl | ⟨d, ds, rfl, a, b, h⟩
    · obtain rfl := List.mem_singleton.1 hc; decide
    · rcases List.mem_cons.1 hc with rfl | hc
      · exact decide_eq_true (.inl ⟨Char.le_trans (by decide : '0' ≤ '1') a, b⟩)
      · exact digits_num h c hc
  · rcases h3 with rfl | ⟨ds, rfl, -, h⟩
    · cases hc
    · rcases List.mem_cons.1 hc with rfl | hc
      · decide
      · exact digits_num h c hc
  · rcases h4 with rfl | ⟨e, s, ds, rfl, he, hs, -, h⟩
    · cases hc
    · rcases List.mem_cons.1 hc with rfl | hc
      · rcases he with rfl | rfl <;> decide
      · rcases List.mem_append.1 hc with hc | hc
        · rcases hs with rfl | rfl | rfl
          · cases hc
          · obtain rfl := List.mem_singleton.1 hc; decide
          · obtain rfl := List.mem_singleton.1 hc; decide
        · exact digits_num h c hc

/-- First character of a number. -/
theorem num_first {t : List Char} (h : IsNum t) : ∃ c u, t = c :: u ∧ numChar c = true := by
  have := num_all h
  obtain ⟨sign, int, frac, exp, rfl, h1, h2, -, -⟩ := h
  have hne : sign ++ int ++ frac ++ exp ≠ [] := by
    rcases h2 with rfl | ⟨d, ds, rfl, -⟩ <;> simp
  obtain ⟨c, u, e⟩ := List.exists_cons_of_ne_nil hne
  exact ⟨c, u, e, this c (by rw [e]; simp)⟩

theorem escapes_fun {e c c' : Char} (h : (e, c) ∈ escapes) (h' : (e, c') ∈ escapes) : c = c' := by
  have : ∀ p ∈ escapes, ∀ q ∈ escapes, p.1 = q.1 → p.2 = q.2 := by decide +kernel
  exact this _ h _ h' rfl

theorem escapes_u {c : Char} : ('u', c) ∉ escapes := by
  intro h
  have : ∀ p ∈ escapes, p.1 ≠ 'u' := by decide +kernel
  exact this _ h rfl

theorem toNat_inj {a b : Char} (h : a.toNat = b.toNat) : a = b := by
  rw [← Char.ofNat_toNat a, ← Char.ofNat_toNat b, h]

/-- A string ends at the first quotation mark that is not escaped, and its characters are determined. -/
theorem str {s t s' t' r r' : List Char} (h : StrBody s t) (h' : StrBody s' t') (e : t ++ '"' :: r = t' ++ '"' :: r') :
    s = s' ∧ t = t' ∧ r = r' := by
  induction h generalizing s' t' with
  | nil =>
    cases h' with
    | nil => exact ⟨rfl, rfl, (List.cons.inj e).2⟩
    | plain c h1 => exact absurd (List.cons.inj e).1.symm h1
    | esc => exact absurd (List.cons.inj e).1 (by decide)
    | uni => exact absurd (List.cons.inj e).1 (by decide)
  | plain c h1 h2 h3 h ih =>
    cases h' with
    | nil => exact absurd (List.cons.inj e).1 h1
    | plain c' _ _ _ h' =>
      simp only [List.cons_append, List.cons.injEq] at e
      obtain ⟨rfl, e⟩ := e
      obtain ⟨rfl, rfl, rfl⟩ := ih h' e
      exact ⟨rfl, rfl, rfl⟩
    | esc => exact absurd (List.cons.inj e).1 h2
    | uni => exact absurd (List.cons.inj e).1 h2
  | esc a c he h ih =>
    cases h' with
    | nil => exact absurd (List.cons.inj e).1 (by decide)
    | plain c' _ h2 => exact absurd (List.cons.inj e).1.symm h2
    | esc a' c' he' h' =>
      simp only [List.cons_append, List.cons.injEq] at e
      obtain ⟨-, rfl, e⟩ := e
      obtain ⟨rfl, rfl, rfl⟩ := ih h' e
      obtain rfl := escapes_fun he he'
      exact ⟨rfl, rfl, rfl⟩
    | uni =>
      obtain ⟨rfl, e1⟩ := List.cons.inj (List.cons.inj e).2
      exact absurd he escapes_u
  | uni a b c d i j k l ha hb hc hd ch hch h ih =>
    cases h' with
    | nil => exact absurd (List.cons.inj e).1 (by decide)
    | plain c' _ h2 => exact absurd (List.cons.inj e).1.symm h2
    | esc a' c' he' h' =>
      obtain ⟨rfl, e1⟩ := List.cons.inj (List.cons.inj e).2
      exact absurd he' escapes_u
    | uni a' b' c' d' i' j' k' l' ha' hb' hc' hd' ch' hch' h' =>
      simp only [List.cons_append, List.cons.injEq, true_and] at e
      obtain ⟨rfl, rfl, rfl, rfl, e⟩ := e
      obtain ⟨rfl, rfl, rfl⟩ := ih h' e
      rw [ha] at ha'; rw [hb] at hb'; rw [hc] at hc'; rw [hd] at hd'
      cases ha'; cases hb'; cases hc'; cases hd'
      obtain rfl := toNat_inj (hch.trans hch'.symm)
      exact ⟨rfl, rfl, rfl⟩

/-- What starts a value. -/
def starts (c : Char) : Bool := numChar c ∨ c = 'n' ∨ c = 't' ∨ c = 'f' ∨ c = '"' ∨ c = '[' ∨ c = '{'

theorem starts_not_ws {c : Char} (h : starts c = true) : ws c = false := by
  by_contra hw
  have hw := of_decide_eq_true (Bool.not_eq_false _ ▸ hw : ws c = true)
  rcases hw with rfl | rfl | rfl | rfl <;> revert h <;> decide

theorem first {v : JV} {t : List Char} (h : Denotes v t) : ∃ c u, t = c :: u ∧ starts c = true := by
  cases h with
  | num h =>
    obtain ⟨c, u, e, hc⟩ := num_first h
    exact ⟨c, u, e, decide_eq_true (.inl hc)⟩
  | _ => exact ⟨_, _, rfl, by decide⟩

/-- A value with white space begins with something that starts a value. -/
theorem first_padded {v : JV} {t : List Char} (h : Padded v t) : ∃ a c u, t = a ++ c :: u ∧ Ws a ∧ starts c = true := by
  cases h with
  | mk ha h hb =>
    obtain ⟨c, u, rfl, hc⟩ := first h
    exact ⟨_, c, _, by rw [List.append_assoc]; rfl, ha, hc⟩

theorem first_elems {l : List JV} {t : List Char} (h : Elems l t) : ∃ a c u, t = a ++ c :: u ∧ Ws a ∧ starts c = true := by
  cases h with
  | one h => exact first_padded h
  | cons h hl =>
    obtain ⟨a, c, u, rfl, ha, hc⟩ := first_padded h
    exact ⟨a, c, _, by rw [List.append_assoc]; rfl, ha, hc⟩

/-- What ends a value with white space. -/
def Close (r : List Char) : Prop := ∀ c ∈ r.head?, c = ',' ∨ c = ']' ∨ c = '}'

theorem Close.ws {r : List Char} (h : Close r) : ∀ c ∈ r.head?, ws c = false := by
  intro c hc
  rcases h c hc with rfl | rfl | rfl <;> decide

/-- What ends a value. -/
def Stop (r : List Char) : Prop := ∀ c ∈ r.head?, numChar c = false

theorem Close.stop {b r : List Char} (hb : Ws b) (h : Close r) : Stop (b ++ r) := by
  intro c hc
  cases b with
  | nil => rcases h c hc with rfl | rfl | rfl <;> decide
  | cons d b =>
    cases hc
    rcases hb c (by simp) with rfl | rfl | rfl | rfl <;> decide

/-- White space is determined by what follows. -/
theorem ws_split {a a' t t' : List Char} {c c' : Char} (ha : Ws a) (ha' : Ws a') (hc : ws c = false) (hc' : ws c' = false)
    (e : a ++ c :: t = a' ++ c' :: t') : a = a' ∧ c = c' ∧ t = t' := by
  obtain ⟨h1, h2⟩ := split_while (ws_all ha) (ws_all ha') (by intro x hx; cases hx; exact hc) (by intro x hx; cases hx; exact hc') e
  exact ⟨h1, List.cons.inj h2⟩

/-- The closing bracket does not start a value. -/
theorem ws_ne_elems {w t r r' : List Char} {l : List JV} {x : Char} (hw : Ws w) (h : Elems l t) (hx : starts x = false) (hx' : ws x = false) :
    w ++ x :: r ≠ t ++ r' := by
  intro e
  obtain ⟨a, c, u, rfl, ha, hc⟩ := first_elems h
  rw [List.append_assoc, List.cons_append] at e
  obtain ⟨-, h2, -⟩ := ws_split hw ha hx' (starts_not_ws hc) e
  rw [h2, hc] at hx
  cases hx

/-- Members begin with a quotation mark. -/
theorem first_members {l : List (List Char × JV)} {t : List Char} (h : Members l t) : ∃ a u, t = a ++ '"' :: u ∧ Ws a := by
  cases h with
  | one ha => exact ⟨_, _, by simp only [List.append_assoc, List.cons_append]; rfl, ha⟩
  | cons ha => exact ⟨_, _, by simp only [List.append_assoc, List.cons_append]; rfl, ha⟩

theorem ws_ne_members {w t r r' : List Char} {l : List (List Char × JV)} (hw : Ws w) (h : Members l t) : w ++ '}' :: r ≠ t ++ r' := by
  intro e
  obtain ⟨a, u, rfl, ha⟩ := first_members h
  rw [List.append_assoc, List.cons_append] at e
  exact absurd (ws_split hw ha (by decide) (by decide) e).2.1 (by decide)

theorem stop_num {t r : List Char} {c : Char} (h : IsNum t) (hc : numChar c = false) {r' : List Char} : t ++ r ≠ c :: r' := by
  obtain ⟨d, u, rfl, hd⟩ := num_first h
  intro e
  rw [(List.cons.inj e).1, hc] at hd
  cases hd

/-- The part of a member before its value. -/
theorem key {a a' k k' s s' b b' r r' : List Char} (ha : Ws a) (ha' : Ws a') (hk : StrBody k s) (hk' : StrBody k' s') (hb : Ws b)
    (hb' : Ws b') (e : a ++ '"' :: (s ++ '"' :: (b ++ ':' :: r)) = a' ++ '"' :: (s' ++ '"' :: (b' ++ ':' :: r'))) :
    a = a' ∧ k = k' ∧ s = s' ∧ b = b' ∧ r = r' := by
  obtain ⟨rfl, -, e1⟩ := ws_split ha ha' (by decide) (by decide) e
  obtain ⟨rfl, rfl, e2⟩ := str hk hk' e1
  obtain ⟨rfl, -, rfl⟩ := ws_split hb hb' (by decide) (by decide) e2
  exact ⟨rfl, rfl, rfl, rfl, rfl⟩

theorem close_cons {c : Char} {r : List Char} (h : c = ',' ∨ c = ']' ∨ c = '}') : Close (c :: r) := by
  intro x hx
  cases hx
  exact h

mutual
theorem denotes {v v' : JV} {t t' r r' : List Char} (h : Denotes v t) (h' : Denotes v' t') (hr : Stop r) (hr' : Stop r')
    (e : t ++ r = t' ++ r') : v = v' ∧ t = t' ∧ r = r' := by
  match h with
  | .null =>
    cases h' with
    | null => simpa using e
    | num h' => exact absurd e.symm (stop_num h' (by decide))
    | _ => exact absurd (List.cons.inj e).1 (by decide)
  | .true =>
    cases h' with
    | true => simpa using e
    | num h' => exact absurd e.symm (stop_num h' (by decide))
    | _ => exact absurd (List.cons.inj e).1 (by decide)
  | .false =>
    cases h' with
    | false => simpa using e
    | num h' => exact absurd e.symm (stop_num h' (by decide))
    | _ => exact absurd (List.cons.inj e).1 (by decide)
  | .num h =>
    cases h' with
    | num h' =>
      obtain ⟨rfl, rfl⟩ := split_while (num_all h) (num_all h') hr hr' e
      exact ⟨rfl, rfl, rfl⟩
    | _ => exact absurd e (stop_num h (by decide))
  | .str h =>
    cases h' with
    | str h' =>
      simp only [List.cons_append, List.append_assoc, List.nil_append, List.cons.injEq, true_and] at e
      obtain ⟨rfl, rfl, rfl⟩ := str h h' e
      exact ⟨rfl, rfl, rfl⟩
    | num h' => exact absurd e.symm (stop_num h' (by decide))
    | _ => exact absurd (List.cons.inj e).1 (by decide)
  | .arrNil h =>
    cases h' with
    | arrNil h' =>
      simp only [List.cons_append, List.append_assoc, List.nil_append, List.cons.injEq, true_and] at e
      obtain ⟨rfl, -, rfl⟩ := ws_split h h' (by decide) (by decide) e
      exact ⟨rfl, rfl, rfl⟩
    | arr h' =>
      simp only [List.cons_append, List.append_assoc, List.nil_append, List.cons.injEq, true_and] at e
      exact absurd e (ws_ne_elems h h' (by decide) (by decide))
    | num h' => exact absurd e.symm (stop_num h' (by decide))
    | _ => exact absurd (List.cons.inj e).1 (by decide)
  | .arr h =>
    cases h' with
    | arrNil h' =>
      simp only [List.cons_append, List.append_assoc, List.nil_append, List.cons.injEq, true_and] at e
      exact absurd e.symm (ws_ne_elems h' h (by decide) (by decide))
    | arr h' =>
      simp only [List.cons_append, List.append_assoc, List.nil_append, List.cons.injEq, true_and] at e
      obtain ⟨rfl, rfl, rfl⟩ := elems h h' e
      exact ⟨rfl, rfl, rfl⟩
    | num h' => exact absurd e.symm (stop_num h' (by decide))
    | _ => exact absurd (List.cons.inj e).1 (by decide)
  | .objNil h =>
    cases h' with
    | objNil h' =>
      simp only [List.cons_append, List.append_assoc, List.nil_append, List.cons.injEq, true_and] at e
      obtain ⟨rfl, -, rfl⟩ := ws_split h h' (by decide) (by decide) e
      exact ⟨rfl, rfl, rfl⟩
    | obj h' =>
      simp only [List.cons_append, List.append_assoc, List.nil_append, List.cons.injEq, true_and] at e
      exact absurd e (ws_ne_members h h')
    | num h' => exact absurd e.symm (stop_num h' (by decide))
    | _ => exact absurd (List.cons.inj e).1 (by decide)
  | .obj h =>
    cases h' with
    | objNil h' =>
      simp only [List.cons_append, List.append_assoc, List.nil_append, List.cons.injEq, true_and] at e
      exact absurd e.symm (ws_ne_members h' h)
    | obj h' =>
      simp only [List.cons_append, List.append_assoc, List.nil_append, List.cons.injEq, true_and] at e
      obtain ⟨rfl, rfl, rfl⟩ := members h h' e
      exact ⟨rfl, rfl, rfl⟩
    | num h' => exact absurd e.symm (stop_num h' (by decide))
    | _ => exact absurd (List.cons.inj e).1 (by decide)

theorem padded {v v' : JV} {t t' r r' : List Char} (h : Padded v t) (h' : Padded v' t') (hr : Close r) (hr' : Close r')
    (e : t ++ r = t' ++ r') : v = v' ∧ t = t' ∧ r = r' := by
  match h with
  | .mk (a := a) (t := t) (b := b) ha h hb =>
    cases h' with
    | @mk _ a' t' b' ha' h' hb' =>
      have hne : a = a' ∧ t ++ (b ++ r) = t' ++ (b' ++ r') := by
        obtain ⟨c, u, rfl, hc⟩ := first h
        obtain ⟨c', u', rfl, hc'⟩ := first h'
        simp only [List.append_assoc, List.cons_append] at e ⊢
        obtain ⟨rfl, rfl, e1⟩ := ws_split ha ha' (starts_not_ws hc) (starts_not_ws hc') e
        exact ⟨rfl, by rw [e1]⟩
      obtain ⟨rfl, e2⟩ := hne
      obtain ⟨rfl, rfl, e3⟩ := denotes h h' (Close.stop hb hr) (Close.stop hb' hr') e2
      obtain ⟨rfl, rfl⟩ := split_while (ws_all hb) (ws_all hb') hr.ws hr'.ws e3
      exact ⟨rfl, rfl, rfl⟩

theorem elems {l l' : List JV} {t t' r r' : List Char} (h : Elems l t) (h' : Elems l' t') (e : t ++ ']' :: r = t' ++ ']' :: r') :
    l = l' ∧ t = t' ∧ r = r' := by
  match h with
  | .one h =>
    cases h' with
    | one h' =>
      obtain ⟨rfl, rfl, e1⟩ := padded h h' (close_cons (by decide)) (close_cons (by decide)) e
      exact ⟨rfl, rfl, (List.cons.inj e1).2⟩
    | cons h' hl' =>
      rw [List.append_assoc, List.cons_append] at e
      obtain ⟨-, -, e⟩ := padded h h' (close_cons (by decide)) (close_cons (by decide)) e
      exact absurd (List.cons.inj e).1 (by decide)
  | .cons h hl =>
    rw [List.append_assoc, List.cons_append] at e
    cases h' with
    | one h' =>
      obtain ⟨-, -, e⟩ := padded h h' (close_cons (by decide)) (close_cons (by decide)) e
      exact absurd (List.cons.inj e).1 (by decide)
    | cons h' hl' =>
      rw [List.append_assoc, List.cons_append] at e
      obtain ⟨rfl, rfl, e1⟩ := padded h h' (close_cons (by decide)) (close_cons (by decide)) e
      obtain ⟨rfl, rfl, rfl⟩ := elems hl hl' (List.cons.inj e1).2
      exact ⟨rfl, rfl, rfl⟩

theorem members {l l' : List (List Char × JV)} {t t' r r' : List Char} (h : Members l t) (h' : Members l' t')
    (e : t ++ '}' :: r = t' ++ '}' :: r') : l = l' ∧ t = t' ∧ r = r' := by
  match h with
  | .one ha hk hb h =>
    cases h' with
    | one ha' hk' hb' h' =>
      simp only [List.append_assoc, List.cons_append] at e
      obtain ⟨rfl, rfl, rfl, rfl, e1⟩ := key ha ha' hk hk' hb hb' e
      obtain ⟨rfl, rfl, e2⟩ := padded h h' (close_cons (by decide)) (close_cons (by decide)) e1
      exact ⟨rfl, rfl, (List.cons.inj e2).2⟩
    | cons ha' hk' hb' h' hl' =>
      simp only [List.append_assoc, List.cons_append] at e
      obtain ⟨-, -, -, -, e⟩ := key ha ha' hk hk' hb hb' e
      obtain ⟨-, -, e⟩ := padded h h' (close_cons (by decide)) (close_cons (by decide)) e
      exact absurd (List.cons.inj e).1 (by decide)
  | .cons ha hk hb h hl =>
    cases h' with
    | one ha' hk' hb' h' =>
      simp only [List.append_assoc, List.cons_append] at e
      obtain ⟨-, -, -, -, e⟩ := key ha ha' hk hk' hb hb' e
      obtain ⟨-, -, e⟩ := padded h h' (close_cons (by decide)) (close_cons (by decide)) e
      exact absurd (List.cons.inj e).1 (by decide)
    | cons ha' hk' hb' h' hl' =>
      simp only [List.append_assoc, List.cons_append] at e
      obtain ⟨rfl, rfl, rfl, rfl, e1⟩ := key ha ha' hk hk' hb hb' e
      obtain ⟨rfl, rfl, e2⟩ := padded h h' (close_cons (by decide)) (close_cons (by decide)) e1
      obtain ⟨rfl, rfl, rfl⟩ := members hl hl' (List.cons.inj e2).2
      exact ⟨rfl, rfl, rfl⟩
end

end Unique

/-- A JSON text denotes at most one value. -/
theorem JsonText.unique {v v' : JV} {t : List Char} (h : JsonText v t) (h' : JsonText v' t) : v = v' :=
  (Unique.padded (r := []) (r' := []) h h' (by intro c hc; cases hc) (by intro c hc; cases hc) rfl).1

end Spec
end Verif
