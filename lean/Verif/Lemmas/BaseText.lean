import Verif.Lemmas.Carries
import Verif.Model.Base

/-!
# Texts in base station messages
-/

namespace Verif
open Spec Bits Base PyStr

/-- What the loops build up. -/
def rawHex (t : List UInt8) : String := t.foldl (fun s b => s ++ (hex b.toNat ++ " ")) ""

theorem rawHex_foldl (t : List UInt8) (s : String) :
    (t.foldl (fun s b => s ++ (hex b.toNat ++ " ")) s).toList = s.toList ++ t.flatMap (fun b => (hex b.toNat).toList ++ [' ']) := by
  induction t generalizing s with
  | nil => simp
  | cons b t ih => rw [List.foldl_cons, ih]; simp

theorem slice8_lt (bits : List Bool) (off : Nat) : natOfBits (slice bits off 8) < 256 := by
  have h := natOfBits_lt (slice bits off 8)
  have hl : (slice bits off 8).length ≤ 8 := by simp [slice]
  exact lt_of_lt_of_le h (le_trans (Nat.pow_le_pow_right (by omega) hl) (by norm_num))

/-- Reading bytes forwards: success gives the bytes. -/
theorem readHex_ok (buf : Bytes) (n off : Nat) (symb : String) (hb : off + 8 * n ≤ 8 * buf.length) :
    ∃ d : List UInt8, d.length = n ∧
      readHex buf n off symb = .ok (d.foldl (fun s b => s ++ (hex b.toNat ++ " ")) symb, off + 8 * n) ∧
      readAt (d.map (fun _ => U 8)) (bitsOf buf) off = d.map (fun b => (b.toNat : Int)) := by
  induction n generalizing off symb with
  | zero => exact ⟨[], rfl, rfl, rfl⟩
  | succ n ih =>
    obtain ⟨d, h1, h2, h3⟩ := ih (off + 8) (symb ++ (hex (natOfBits (slice (bitsOf buf) off 8)) ++ " ")) (by omega)
    have hlt := slice8_lt (bitsOf buf) off
    have hb8 : (UInt8.ofNat (natOfBits (slice (bitsOf buf) off 8))).toNat = natOfBits (slice (bitsOf buf) off 8) := by
      simp only [UInt8.toNat_ofNat']; omega
    refine ⟨UInt8.ofNat (natOfBits (slice (bitsOf buf) off 8)) :: d, by simp [h1], ?_, ?_⟩
    · unfold readHex
      rw [gbu_ok (by omega) (by omega) (by omega), ok_bind, h2, List.foldl_cons, hb8]
      congr 2; omega
    · rw [List.map_cons, List.map_cons, readAt, if_neg (by simp), h3]
      simp [Field.value, hb8]

theorem readHex_bound (buf : Bytes) (n off : Nat) (symb : String) (r) (h : readHex buf n off symb = .ok r) :
    n = 0 ∨ off + 8 * n ≤ 8 * buf.length := by
  induction n generalizing off symb with
  | zero => left; rfl
  | succ n ih =>
    right
    unfold readHex at h
    obtain ⟨b, h1, h2⟩ := bind_ok h
    have := ih _ _ h2
    rw [gbu_eq] at h1
    split at h1
    · omega
    · cases h1

theorem gbu_inv {buf : Bytes} {s l v : Nat} (h : gbu buf s l = .ok v) :
    v = natOfBits (slice (bitsOf buf) s l) ∧ s + l ≤ 8 * buf.length ∧ 1 ≤ l ∧ l ≤ 128 := by
  rw [gbu_eq] at h
  split at h
  · rename_i hc; cases h; exact ⟨rfl, hc.2.2, hc.1, hc.2.1⟩
  · cases h

theorem gbs_inv {buf : Bytes} {s l : Nat} {v : Int} (h : gbs buf s l = .ok v) :
    v = intOfBits (slice (bitsOf buf) s l) ∧ s + l ≤ 8 * buf.length ∧ 1 ≤ l ∧ l ≤ 128 := by
  rw [gbs_eq] at h
  split at h
  · rename_i hc; cases h; exact ⟨rfl, hc.2.2, hc.1, hc.2.1⟩
  · cases h

theorem readAt_nil (bits : List Bool) (o : Nat) : readAt [] bits o = [] := rfl

theorem readAt_U (w : Nat) (L : List Spec.Field) (bits : List Bool) (o : Nat) :
    readAt (U w :: L) bits o = (natOfBits (slice bits o w) : Int) :: readAt L bits (o + w) := rfl

theorem readAt_S (w : Nat) (L : List Spec.Field) (bits : List Bool) (o : Nat) :
    readAt (S w :: L) bits o = intOfBits (slice bits o w) :: readAt L bits (o + w) := rfl

theorem readAt_R (w : Nat) (L : List Spec.Field) (bits : List Bool) (o : Nat) :
    readAt (R w :: L) bits o = readAt L bits (o + w) := rfl

theorem width_U8 (d : List UInt8) : layoutWidth (d.map (fun _ => U 8)) = 8 * d.length := by
  induction d with
  | nil => rfl
  | cons b d ih => simp [layoutWidth, ih]; omega

theorem width_text (d : List UInt8) : layoutWidth (textLayout d) = 8 + 8 * d.length := by
  simp [textLayout, layoutWidth, width_U8]

/-- Decoding a length byte and a text. -/
theorem text_fwd {buf : Bytes} {off n : Nat} {r : String × Nat} (h1 : gbu buf off 8 = .ok n)
    (h2 : readHex buf n (off + 8) "" = .ok r) :
    ∃ d : List UInt8, d.length = n ∧ r = (rawHex d, off + 8 + 8 * d.length) ∧ off + 8 + 8 * d.length ≤ 8 * buf.length ∧
      readAt (textLayout d) (bitsOf buf) off = textVals d := by
  obtain ⟨hv, hb, _⟩ := gbu_inv h1
  have hb2 : off + 8 + 8 * n ≤ 8 * buf.length := by
    rcases readHex_bound buf n _ _ _ h2 with h | h <;> omega
  obtain ⟨d, hd1, hd2, hd3⟩ := readHex_ok buf n (off + 8) "" hb2
  rw [hd2] at h2
  cases h2
  refine ⟨d, hd1, by rw [hd1]; rfl, by omega, ?_⟩
  rw [textLayout, readAt_U, hd3, textVals, ← hv, hd1]

theorem map_toNat_inj {d d' : List UInt8} (h : d.map (fun b => (b.toNat : Int)) = d'.map (fun b => (b.toNat : Int))) :
    d = d' := by
  induction d generalizing d' with
  | nil => cases d' <;> simp_all
  | cons b d ih =>
    cases d' with
    | nil => simp at h
    | cons b' d' =>
      simp only [List.map_cons, List.cons.injEq, Nat.cast_inj] at h
      rw [ih h.2, UInt8.toNat.inj h.1]

theorem map_const_length {d d' : List UInt8} (h : d.length = d'.length) :
    d.map (fun _ => U 8) = d'.map (fun _ => U 8) := by
  simp [List.map_const', h]

/-- A text that is present is decoded. -/
theorem text_bwd {buf : Bytes} {off : Nat} {d : List UInt8} (hb : off + 8 + 8 * d.length ≤ 8 * buf.length)
    (h : readAt (textLayout d) (bitsOf buf) off = textVals d) :
    gbu buf off 8 = .ok d.length ∧ readHex buf d.length (off + 8) "" = .ok (rawHex d, off + 8 + 8 * d.length) := by
  rw [textLayout, readAt_U, textVals, List.cons.injEq] at h
  obtain ⟨d', h1, h2, h3⟩ := readHex_ok buf d.length (off + 8) "" hb
  have : d' = d := by
    apply map_toNat_inj
    rw [← h3, ← h.2, map_const_length h1]
  subst this
  constructor
  · rw [gbu_ok (by omega) (by omega) (by omega)]
    congr 1
    exact_mod_cast h.1
  · exact h2

/-! ## Text form -/

theorem hex_chars : ∀ n, n < 256 → ((hex n).toList.all (fun c => !c.isWhitespace && c ≠ ' ')) = true ∧ (hex n).toList ≠ [] ∧
    int16 (hex n).toList = .ok n := by decide +kernel

theorem hex_byte (b : UInt8) : (∀ c ∈ (hex b.toNat).toList, c.isWhitespace = false ∧ c ≠ ' ') ∧ (hex b.toNat).toList ≠ [] ∧
    int16 (hex b.toNat).toList = .ok b.toNat := by
  obtain ⟨h1, h2, h3⟩ := hex_chars b.toNat b.toNat_lt
  refine ⟨?_, h2, h3⟩
  intro c hc
  have := List.all_eq_true.1 h1 c hc
  simpa using this

/-- Words separated by single blanks. -/
def joinBlank : List (List Char) → List Char
  | [] => []
  | [w] => w
  | w :: ws => w ++ ' ' :: joinBlank ws

theorem intercalate_toList (l : List String) : (" ".intercalate l).toList = joinBlank (l.map String.toList) := by
  cases l with
  | nil => rfl
  | cons a l =>
    induction l generalizing a with
    | nil => simp [joinBlank]
    | cons b l ih =>
      have := ih b
      simp only [List.map_cons] at this ⊢
      rw [String.intercalate_cons_cons]
      simp only [String.toList_append, this, joinBlank]
      simp

theorem flatMap_join (ws : List (List Char)) : ws ≠ [] →
    ws.flatMap (fun w => w ++ [' ']) = joinBlank ws ++ [' '] := by
  induction ws with
  | nil => simp
  | cons w ws ih =>
    intro _
    cases ws with
    | nil => simp [joinBlank]
    | cons v ws => rw [List.flatMap_cons, ih (by simp)]; simp [joinBlank]

theorem joinBlank_ends (ws : List (List Char)) (h : ws ≠ []) (hw : ∀ w ∈ ws, w ≠ [] ∧ ∀ c ∈ w, c.isWhitespace = false) :
    ∃ c, (joinBlank ws).head? = some c ∧ c.isWhitespace = false ∧ ∃ c', (joinBlank ws).getLast? = some c' ∧
      c'.isWhitespace = false := by
  induction ws with
  | nil => simp at h
  | cons w ws ih =>
    obtain ⟨hw1, hw2⟩ := hw w (by simp)
    obtain ⟨a, w', rfl⟩ := List.exists_cons_of_ne_nil hw1
    have hlast : ∃ c', (a :: w').getLast? = some c' ∧ c'.isWhitespace = false :=
      ⟨(a :: w').getLast (by simp), by simp [List.getLast?_eq_some_getLast], hw2 _ (List.getLast_mem _)⟩
    cases ws with
    | nil => exact ⟨a, by simp [joinBlank], hw2 a (by simp), by simpa [joinBlank] using hlast⟩
    | cons v ws =>
      obtain ⟨c, _, _, c', h3, h4⟩ := ih (by simp) (fun w hw' => hw w (by simp [hw']))
      refine ⟨a, by simp [joinBlank], hw2 a (by simp), c', ?_, h4⟩
      rw [joinBlank]
      · rw [List.getLast?_append, List.getLast?_cons, h3]; simp
      · simp

theorem strip_rawHex (d : List UInt8) : strip (rawHex d) = hexText d := by
  rw [← String.toList_inj]
  unfold strip
  rw [String.toList_ofList]
  unfold rawHex
  rw [rawHex_foldl]
  unfold hexText
  rw [intercalate_toList]
  simp only [String.toList_empty, List.nil_append]
  have e : d.flatMap (fun b => (hex b.toNat).toList ++ [' ']) = (d.map (fun b => (hex b.toNat).toList)).flatMap (fun w => w ++ [' ']) := by
    rw [List.flatMap_map]
  rw [e]
  have e2 : List.map String.toList (List.map (fun b => "0x" ++ String.ofList (Nat.toDigits 16 b.toNat)) d)
      = d.map (fun b => (hex b.toNat).toList) := by
    rw [List.map_map]; rfl
  rw [e2]
  by_cases hd : d = []
  · subst hd; rfl
  · have hne : d.map (fun b : UInt8 => (hex b.toNat).toList) ≠ [] := by simpa using hd
    rw [flatMap_join _ hne]
    obtain ⟨c, h1, h2, c', h3, h4⟩ := joinBlank_ends _ hne (by
      intro w hw
      obtain ⟨b, _, rfl⟩ := List.mem_map.1 hw
      exact ⟨(hex_byte b).2.1, fun c hc => ((hex_byte b).1 c hc).1⟩)
    generalize joinBlank (d.map (fun b : UInt8 => (hex b.toNat).toList)) = J at *
    cases J with
    | nil => simp at h1
    | cons a J =>
      simp only [List.head?_cons, Option.some.injEq] at h1
      subst h1
      rw [List.cons_append, List.dropWhile_cons_of_neg (by simp [h2]), ← List.cons_append, List.reverse_append,
        List.reverse_singleton, List.singleton_append, List.dropWhile_cons_of_pos (by decide)]
      rw [← List.head?_reverse] at h3
      generalize hR : (a :: J).reverse = Rv at *
      cases Rv with
      | nil => simp at h3
      | cons x Rv =>
        simp only [List.head?_cons, Option.some.injEq] at h3
        subst h3
        rw [List.dropWhile_cons_of_neg (by simp [h4]), ← hR, List.reverse_reverse]

theorem splitBlank_word (w : List Char) (hw : ∀ c ∈ w, c ≠ ' ') : splitBlank w = [w] := by
  induction w with
  | nil => rfl
  | cons c w ih =>
    rw [splitBlank, if_neg (hw c (by simp)), ih (fun x hx => hw x (by simp [hx]))]

theorem splitBlank_cons (w rest : List Char) (hw : ∀ c ∈ w, c ≠ ' ') :
    splitBlank (w ++ ' ' :: rest) = w :: splitBlank rest := by
  induction w with
  | nil => simp [splitBlank]
  | cons c w ih =>
    rw [List.cons_append, splitBlank, if_neg (hw c (by simp)), ih (fun x hx => hw x (by simp [hx]))]

theorem splitBlank_join (ws : List (List Char)) (h : ws ≠ []) (hw : ∀ w ∈ ws, ∀ c ∈ w, c ≠ ' ') :
    splitBlank (joinBlank ws) = ws := by
  induction ws with
  | nil => simp at h
  | cons w ws ih =>
    cases ws with
    | nil => exact splitBlank_word w (hw w (by simp))
    | cons v ws =>
      rw [show joinBlank (w :: v :: ws) = w ++ ' ' :: joinBlank (v :: ws) from rfl, splitBlank_cons _ _ (hw w (by simp)), ih (by simp) (fun w hw' => hw w (by simp [hw']))]

theorem mapM_ok {α β : Type} (f : α → Py β) (g : α → β) (l : List α) (h : ∀ a ∈ l, f a = .ok (g a)) :
    l.mapM f = .ok (l.map g) := by
  induction l with
  | nil => rfl
  | cons a l ih =>
    rw [List.mapM_cons, h a (by simp), ok_bind, ih (fun x hx => h x (by simp [hx]))]; rfl

/-- The text function of scaled mode on a non-empty transmitted text: its UTF-8 decoding. -/
theorem hexTextDecode_hexText (d : List UInt8) (hd : d ≠ []) : hexTextDecode (hexText d) = utf8Decode d := by
  unfold hexTextDecode hexText
  rw [intercalate_toList]
  have e2 : List.map String.toList (List.map (fun b => "0x" ++ String.ofList (Nat.toDigits 16 b.toNat)) d)
      = d.map (fun b => (hex b.toNat).toList) := by
    rw [List.map_map]; rfl
  have hne : d.map (fun b : UInt8 => (hex b.toNat).toList) ≠ [] := by simpa using hd
  rw [e2, splitBlank_join _ hne (by
    intro w hw c hc
    obtain ⟨b, _, rfl⟩ := List.mem_map.1 hw
    exact ((hex_byte b).1 c hc).2)]
  have : (d.map (fun b : UInt8 => (hex b.toNat).toList)).mapM int16 = .ok (d.map (fun b => b.toNat)) := by
    have := mapM_ok (int16 ∘ fun b : UInt8 => (hex b.toNat).toList) (fun b => b.toNat) d (fun b _ => (hex_byte b).2.2)
    rw [← this]
    induction d with
    | nil => rfl
    | cons b d ih => simp [List.mapM_cons]
  rw [this, ok_bind]
  have h2 : toBytes (d.map (fun b => b.toNat)) = .ok d := by
    unfold toBytes
    rw [if_pos]
    · congr 1; rw [List.map_map]; conv_rhs => rw [← List.map_id d]
      apply List.map_congr_left; intro b _; simp
    · simp only [List.all_map, List.all_eq_true]; intro b _; simpa using b.toNat_lt
  rw [h2, ok_bind]

theorem hexTextDecode_empty : hexTextDecode (hexText []) = .error .valueError := by
  decide +kernel

theorem utf8Decode_iff (d : List UInt8) (s : String) : utf8Decode d = .ok s ↔ IsUtf8Of d s := by
  unfold utf8Decode IsUtf8Of String.fromUTF8?
  by_cases h : d.toByteArray.IsValidUTF8
  · rw [dif_pos h]
    simp only [Except.ok.injEq]
    constructor
    · rintro rfl; rfl
    · intro hs
      rw [← String.toByteArray_inj]
      exact hs.symm
  · rw [dif_neg h]
    simp only [reduceCtorEq, false_iff]
    intro hs
    exact h (hs ▸ s.isValidUTF8)

end Verif
