import Verif.Props.SourceSound

/-!
Claims about conversions at the level of the text: messages with different contents are never written as the same JSON text.
-/

namespace Verif
open Spec PyCore Refine Framer Decoder Run

/-- The characters of a text, with floats written by `fr`. -/
def Spec.TextIs (fr : Rat → List Char) (x : Val) (t : List Char) : Prop := ∃ j i, x = .json j i ∧ t = Json.dumps fr i j

/-- Contents with the same number and the same value are equal. -/
theorem carried_inj {m m' : Bytes} {c c' : Content} (h : CarriedIn m c) (h' : CarriedIn m' c') (hn : c.number = c'.number) (h0 : c.number ≠ 1041) {aux : Bool}
    {v : JV} (hv : c.BareJson true aux v) (hv' : c'.BareJson true aux v) : c = c' := by
  cases c <;> cases c'
  case eph.eph e e' => rw [Lossless.eph_inj hn h0 hv hv']
  case base.base m m' => rw [Lossless.base_inj (show m.json bareStyle = m'.json bareStyle from hv.symm.trans hv')]
  case msm.msm d d' => rw [Lossless.msm_inj h.1 h'.1 hn (show d.bareJson true aux = d'.bareJson true aux from hv.symm.trans hv')]
  case eph.base e m => cases e <;> cases m <;> simp [Content.number, ephNum] at hn
  case base.eph m e => cases e <;> cases m <;> simp [Content.number, ephNum] at hn
  case eph.msm e d =>
    have := Lossless.number_msm_range (d := d) h'.1
    cases e <;> simp only [Content.number, ephNum] at hn <;> omega
  case msm.eph d e =>
    have := Lossless.number_msm_range (d := d) h.1
    cases e <;> simp only [Content.number, ephNum] at hn <;> omega
  case base.msm m d =>
    have := Lossless.number_msm_range (d := d) h'.1
    cases m <;> simp only [Content.number] at hn <;> omega
  case msm.base d m =>
    have := Lossless.number_msm_range (d := d) h.1
    cases m <;> simp only [Content.number] at hn <;> omega

theorem padded {v : JV} {t : List Char} (h : Denotes v t) : JsonText v t := by
  have := Padded.mk (a := []) (t := t) (b := []) (v := v) (by intro c h; cases h) h (by intro c h; cases h)
  simp only [List.nil_append, List.append_nil] at this
  exact this

/-- Texts of the same characters are texts of the same content. -/
theorem same_text {fr : Rat → List Char} (hfr : ∀ x, IsNum (fr x)) {aux pretty pretty' : Bool} {m m' : Bytes} {x y : Val} {t : List Char} (hx : TextIs fr x t) (hy : TextIs fr y t)
    {c c' : Content} (h : CarriedIn m c) (h' : CarriedIn m' c') (hj : IsJsonText pretty (fun _ w => ¬ Repeats c → c.BareJson true aux w) x)
    (hj' : IsJsonText pretty' (fun _ w => ¬ Repeats c' → c'.BareJson true aux w) y) (hr : ¬ Repeats c) (hr' : ¬ Repeats c') (hn : c.number = c'.number)
    (h0 : c.number ≠ 1041) : c = c' := by
  obtain ⟨j, i, rfl, rfl⟩ := hx
  obtain ⟨j', i', rfl, ht⟩ := hy
  obtain ⟨k, e, f⟩ := hj
  obtain ⟨k', e', f'⟩ := hj'
  cases e
  cases e'
  obtain ⟨w, w1, w2⟩ := f fr hfr
  obtain ⟨w', w3, w4⟩ := f' fr hfr
  rw [← ht] at w4
  cases (padded w2).unique (padded w4)
  exact carried_inj h h' hn h0 (w1 hr) (w3 hr')

theorem forall_two_join {α β γ δ : Type} {r : α → β → Prop} {q : β → γ → Prop} {s : δ → γ → Prop} {p : α → δ → Prop} (h : ∀ a b c d, r a b → q b c → s d c → p a d)
    {l : List α} {m : List β} {n : List γ} {k : List δ} (h1 : List.Forall₂ r l m) (h2 : List.Forall₂ q m n) (h3 : List.Forall₂ s k n) : List.Forall₂ p l k := by
  induction h1 generalizing n k with
  | nil => cases h2; cases h3; exact .nil
  | cons a _ ih =>
    cases h2 with
    | cons b b' =>
      cases h3 with
      | cons c c' => exact .cons (h _ _ _ _ a b c) (ih b' c')

/-- **C114** Two conversions to JSON as transmitted integers, with header data, of any bytes: if the texts have the same characters, then the messages that have been written have,
one by one, the same content if they have the same number (in the files of the program, they have; 1041 is exempt, see C69, and so are schedules that announce a message twice). -/
theorem C114_lossless {a K : Nat} {h : Heap} (hu : @InUse exactArith true true a K [] [] [] h) {aux pretty : Bool} {s : Nat} (hc : IsCore true aux pretty h s)
    {a' K' : Nat} {g : Heap} (hu' : @InUse exactArith true true a' K' [] [] [] g) {pretty' : Bool} {s' : Nat} (hc' : IsCore true aux pretty' g s') {chunks chunks' : List Bytes}
    {xs ys : List Val} {h1 g1 : Heap} (hs : @Session exactArith a s chunks h xs h1) (hs' : @Session exactArith a' s' chunks' g ys g1)
    {fr : Rat → List Char} (hfr : ∀ x, IsNum (fr x)) (hxy : List.Forall₂ (fun x y => ∃ t, TextIs fr x t ∧ TextIs fr y t) xs ys) :
    ∃ keep keep' : Bytes → Bool,
      (∀ m ∈ messages chunks.flatten, keep m = true ↔ ∃ c, CarriedIn m c ∧ c.Accepted) ∧
      (∀ m ∈ messages chunks'.flatten, keep' m = true ↔ ∃ c, CarriedIn m c ∧ c.Accepted) ∧
      List.Forall₂ (fun m m' => ∃ c c', CarriedIn m c ∧ CarriedIn m' c' ∧
          (c.number = c'.number → c.number ≠ 1041 → ¬ Repeats c → ¬ Repeats c' → c = c'))
        ((messages chunks.flatten).filter keep) ((messages chunks'.flatten).filter keep') := by
  obtain ⟨xs', h2, -, u, ⟨keep, e2, e3⟩, -⟩ := C113_bare hu hc chunks
  obtain ⟨ys', g2, -, u', ⟨keep', f2, f3⟩, -⟩ := C113_bare hu' hc' chunks'
  rw [← (u _ _ hs).1] at e3
  rw [← (u' _ _ hs').1] at f3
  refine ⟨keep, keep', e2, f2, forall_two_join ?_ e3 hxy f3⟩
  rintro m x y m' ⟨-, c, c1, c2⟩ ⟨t, t1, t2⟩ ⟨-, c', c3, c4⟩
  exact ⟨c, c', c1, c3, fun hn h0 hr hr' => same_text hfr t1 t2 c1 c3 c2 c4 hr hr' hn h0⟩

/-- **C114** in double precision. -/
theorem C114_double {rnd : Rat → Rat} (hr : Nearest rnd) {a K : Nat} {h : Heap} (hu : @InUse (doubleArith hr) true true a K [] [] [] h) {aux pretty : Bool} {s : Nat} (hc : IsCore true aux pretty h s)
    {a' K' : Nat} {g : Heap} (hu' : @InUse (doubleArith hr) true true a' K' [] [] [] g) {pretty' : Bool} {s' : Nat} (hc' : IsCore true aux pretty' g s') {chunks chunks' : List Bytes}
    {xs ys : List Val} {h1 g1 : Heap} (hs : @Session (doubleArith hr) a s chunks h xs h1) (hs' : @Session (doubleArith hr) a' s' chunks' g ys g1)
    {fr : Rat → List Char} (hfr : ∀ x, IsNum (fr x)) (hxy : List.Forall₂ (fun x y => ∃ t, TextIs fr x t ∧ TextIs fr y t) xs ys) :
    ∃ keep keep' : Bytes → Bool,
      (∀ m ∈ messages chunks.flatten, keep m = true ↔ ∃ c, CarriedIn m c ∧ c.Accepted) ∧
      (∀ m ∈ messages chunks'.flatten, keep' m = true ↔ ∃ c, CarriedIn m c ∧ c.Accepted) ∧
      List.Forall₂ (fun m m' => ∃ c c', CarriedIn m c ∧ CarriedIn m' c' ∧
          (c.number = c'.number → c.number ≠ 1041 → ¬ Repeats c → ¬ Repeats c' → c = c'))
        ((messages chunks.flatten).filter keep) ((messages chunks'.flatten).filter keep') := by
  obtain ⟨xs', h2, -, u, ⟨keep, e2, e3⟩, -⟩ := C113_bare_double hr hu hc chunks
  obtain ⟨ys', g2, -, u', ⟨keep', f2, f3⟩, -⟩ := C113_bare_double hr hu' hc' chunks'
  rw [← (u _ _ hs).1] at e3
  rw [← (u' _ _ hs').1] at f3
  refine ⟨keep, keep', e2, f2, forall_two_join ?_ e3 hxy f3⟩
  rintro m x y m' ⟨-, c, c1, c2⟩ ⟨t, t1, t2⟩ ⟨-, c', c3, c4⟩
  exact ⟨c, c', c1, c3, fun hn h0 hr hr' => same_text hfr t1 t2 c1 c3 c2 c4 hr hr' hn h0⟩

/-! ## The hypotheses are met -/

/-- Two conversions of the same bytes: there are texts, and they have the same characters. -/
example (aux pretty : Bool) (bytes : Bytes) (fr : Rat → List Char) : ∃ a s h xs h1, IsCore true aux pretty h s ∧
    @Session exactArith a s [bytes] h xs h1 ∧ List.Forall₂ (fun x y => ∃ t, TextIs fr x t ∧ TextIs fr y t) xs xs := by
  obtain ⟨a, K, h, s, hu, hc⟩ := @inUse_core exactArith true true true aux pretty
  obtain ⟨xs, h1, e1, -, ⟨keep, -, e3⟩, -⟩ := C113_bare hu hc [bytes]
  refine ⟨a, s, h, xs, h1, hc, e1, ?_⟩
  clear e1
  generalize (messages [bytes].flatten).filter keep = l at e3
  induction e3 with
  | nil => exact .nil
  | cons r _ ih =>
    obtain ⟨-, c, -, j, rfl, -⟩ := r
    exact .cons ⟨_, ⟨_, _, rfl, rfl⟩, ⟨_, _, rfl, rfl⟩⟩ ih

/-- A way of writing numbers. -/
example : ∃ fr : Rat → List Char, ∀ x, IsNum (fr x) :=
  ⟨fun _ => "1".toList, fun _ => ⟨[], "1".toList, [], [], rfl, .inl rfl, .inr ⟨'1', [], rfl, by decide, by decide, by intro c h; cases h⟩, .inl rfl, .inl rfl⟩⟩

end Verif
