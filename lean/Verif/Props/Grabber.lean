import Verif.Model.Grabber
import Verif.Spec.Grabber
import Verif.Lemmas.Dict
import Verif.Lemmas.Decoder

/-!
# C84: the test data grabber
-/

namespace Verif
namespace Grabber
open Spec

/-- The entry for `n` after `k` messages with that number. -/
def slotAfter (p : Plan) (ok : Bool) (n k : Nat) : Slot :=
  { fname := grabFile n
    delay := p.skip - k
    cnt := if ok then p.keep - (k - p.skip) else p.keep
    fp := if ok && decide (p.skip < k) then some (decide (k - p.skip < p.keep)) else none }

/-- The scenario after some messages. -/
def scenarioAfter (p : Plan) (ns : List Nat) (openable : Txt → Bool) (cntOf : Nat → Nat) : Scenario :=
  ns.map (fun n => (n, slotAfter p (openable (grabFile n)) n (cntOf n)))

/-- The directory after some messages. -/
def filesAfter (p : Plan) (openable : Txt → Bool) (files : Txt → Option Bytes) (msgs : List Bytes) (x : Txt) : Option Bytes :=
  match p.numbers.find? (fun n => grabFile n == x) with
  | some n => if openable x && decide (p.skip < (numbered n msgs).length) then some (p.saved n msgs).flatten else files x
  | none => files x

theorem get_scenario (p : Plan) (ns : List Nat) (openable : Txt → Bool) (c : Nat → Nat) (n : Nat) :
    (scenarioAfter p ns openable c).get? n = if n ∈ ns then some (slotAfter p (openable (grabFile n)) n (c n)) else none := by
  induction ns with
  | nil => rfl
  | cons a ns ih =>
    unfold scenarioAfter at ih ⊢
    rw [List.map_cons, PyDict.get?_cons, ih]
    by_cases h : a = n
    · subst h; simp
    · simp [Ne.symm h]

theorem set_scenario (p : Plan) (ns : List Nat) (openable : Txt → Bool) (c : Nat → Nat) (n : Nat) (hn : n ∈ ns) :
    (scenarioAfter p ns openable c).set n (slotAfter p (openable (grabFile n)) n (c n + 1)) =
      scenarioAfter p ns openable (fun i => if i = n then c i + 1 else c i) := by
  unfold PyDict.set
  rw [PyDict.mem_eq, get_scenario, if_pos hn]
  simp only [Option.isSome_some, if_true, scenarioAfter, List.map_map]
  apply List.map_congr_left
  intro a _
  by_cases h : a = n
  · subst h; simp
  · simp [h]


/-- The directory after some messages. -/
def dirAfter (p : Plan) (w : Dir) (msgs : List Bytes) : Dir :=
  { files := filesAfter p w.openable w.files msgs, openable := w.openable }

theorem numbered_snoc (n : Nat) (pre : List Bytes) (m : Bytes) :
    numbered n (pre ++ [m]) = if numberIn m = some n then numbered n pre ++ [m] else numbered n pre := by
  unfold numbered
  rw [List.filter_append]
  by_cases h : numberIn m = some n <;> simp [h]

theorem find_file (p : Plan) (hinj : ∀ a ∈ p.numbers, ∀ b ∈ p.numbers, grabFile a = grabFile b → a = b) (n : Nat) (hn : n ∈ p.numbers) :
    p.numbers.find? (fun a => grabFile a == grabFile n) = some n := by
  cases h : p.numbers.find? (fun a => grabFile a == grabFile n) with
  | none => have := List.find?_eq_none.1 h n hn; simp at this
  | some a =>
    have h1 := List.mem_of_find?_eq_some h
    have h2 := List.find?_some h
    rw [hinj a h1 n hn (by simpa using h2)]

theorem files_other (p : Plan) (op : Txt → Bool) (f : Txt → Option Bytes) (pre : List Bytes) (m : Bytes) (x : Txt)
    (h : ∀ n ∈ p.numbers, numberIn m = some n → grabFile n ≠ x) :
    filesAfter p op f (pre ++ [m]) x = filesAfter p op f pre x := by
  unfold filesAfter
  cases hf : p.numbers.find? (fun a => grabFile a == x) with
  | none => rfl
  | some a =>
    have h1 := List.mem_of_find?_eq_some hf
    have h2 : grabFile a = x := by simpa using List.find?_some hf
    have h3 : numberIn m ≠ some a := fun e => h a h1 e h2
    simp only [Plan.saved, numbered_snoc, if_neg h3]

theorem drop_take_snoc {α : Type} (l : List α) (m : α) (d c : Nat) (h : d ≤ l.length) :
    ((l ++ [m]).drop d).take c = if l.length - d < c then (l.drop d).take c ++ [m] else (l.drop d).take c := by
  rw [List.drop_append_of_le_length h, List.take_append, List.length_drop]
  split
  · rename_i h'
    obtain ⟨k, hk⟩ : ∃ k, c - (l.length - d) = k + 1 := ⟨c - (l.length - d) - 1, by omega⟩
    rw [hk]; simp
  · rename_i h'
    have : c - (l.length - d) = 0 := by omega
    rw [this]; simp

theorem step_slot (p : Plan) (hk : 0 < p.keep) (hinj : ∀ a ∈ p.numbers, ∀ b ∈ p.numbers, grabFile a = grabFile b → a = b) (w : Dir)
    (pre : List Bytes) (m : Bytes) (n : Nat) (hn : n ∈ p.numbers) (hm : numberIn m = some n) :
    saveSlot (slotAfter p (w.openable (grabFile n)) n (numbered n pre).length) m (dirAfter p w pre) =
      if p.blocked w.openable pre m then .error .osError
      else .ok (slotAfter p (w.openable (grabFile n)) n ((numbered n pre).length + 1), dirAfter p w (pre ++ [m])) := by
  have hb : p.blocked w.openable pre m = (!w.openable (grabFile n) && decide (p.skip ≤ (numbered n pre).length)) := by
    simp [Plan.blocked, hm, hn]
  have hsame : ∀ x, grabFile n ≠ x → filesAfter p w.openable w.files (pre ++ [m]) x = filesAfter p w.openable w.files pre x := by
    intro x hx
    refine files_other p w.openable w.files pre m x ?_
    intro a _ ha
    rw [hm] at ha; injection ha with ha; subst ha; exact hx
  have hsn : numbered n (pre ++ [m]) = numbered n pre ++ [m] := by rw [numbered_snoc, if_pos hm]
  have hfile : ∀ l : List Bytes, filesAfter p w.openable w.files l (grabFile n) =
      if w.openable (grabFile n) && decide (p.skip < (numbered n l).length) then some (p.saved n l).flatten
      else w.files (grabFile n) := by
    intro l; unfold filesAfter; rw [find_file p hinj n hn]
  rw [hb]
  generalize hl : (numbered n pre).length = k at *
  by_cases hd : k < p.skip
  · have h0 : (slotAfter p (w.openable (grabFile n)) n k).delay ≠ 0 := by simp only [slotAfter]; omega
    unfold saveSlot
    rw [if_pos h0]
    have h1 : ¬ p.skip ≤ k := by omega
    simp only [h1, decide_false, Bool.and_false, Bool.false_eq_true, if_false]
    congr 2
    · simp only [slotAfter]
      have a1 : k - p.skip = 0 := by omega
      have a2 : k + 1 - p.skip = 0 := by omega
      have a3 : ¬ p.skip < k := by omega
      have a4 : ¬ p.skip < k + 1 := by omega
      have a5 : p.skip - k - 1 = p.skip - (k + 1) := by omega
      simp [a1, a2, a3, a4, a5]
    · unfold dirAfter
      congr 1
      funext x
      by_cases hx : grabFile n = x
      · subst hx
        rw [hfile, hfile, hsn, List.length_append, hl]
        have a3 : ¬ p.skip < k := by omega
        have a4 : ¬ p.skip < k + 1 := by omega
        simp [a3, a4]
      · exact (hsame x hx).symm
  · have h0 : ¬ (slotAfter p (w.openable (grabFile n)) n k).delay ≠ 0 := by simp only [slotAfter]; omega
    have h1 : p.skip ≤ k := by omega
    unfold saveSlot
    rw [if_neg h0]
    cases hop : w.openable (grabFile n) with
    | false =>
      have h2 : (slotAfter p false n k).cnt ≠ 0 := by simp only [slotAfter]; simp; omega
      rw [if_neg h2]
      simp [slotAfter, dirAfter, Dir.openWb, hop, h1, bind, Except.bind]
    | true =>
      simp only [Bool.not_true, Bool.false_and, Bool.false_eq_true, if_false]
      have hcnt : (slotAfter p true n k).cnt = p.keep - (k - p.skip) := by simp [slotAfter]
      have hdt : p.saved n (pre ++ [m]) = if k - p.skip < p.keep then p.saved n pre ++ [m] else p.saved n pre := by
        unfold Plan.saved
        rw [hsn, drop_take_snoc _ _ _ _ (by omega), hl]
      have hlen : (numbered n (pre ++ [m])).length = k + 1 := by rw [hsn, List.length_append, hl]; rfl
      by_cases hc : p.keep - (k - p.skip) = 0
      · rw [if_pos (by rw [hcnt]; exact hc)]
        have hlt : ¬ k - p.skip < p.keep := by omega
        congr 2
        · simp only [slotAfter]
          have a1 : p.keep - (k + 1 - p.skip) = 0 := by omega
          have a2 : p.skip < k := by omega
          have a3 : p.skip < k + 1 := by omega
          have a4 : p.skip - k = p.skip - (k + 1) := by omega
          have a5 : ¬ k + 1 - p.skip < p.keep := by omega
          simp [a1, hc, a2, a3, a4, a5, hlt]
        · unfold dirAfter
          congr 1
          funext x
          by_cases hx : grabFile n = x
          · subst hx
            rw [hfile, hfile, hlen, hl, hdt, if_neg hlt]
            have a2 : p.skip < k := by omega
            have a3 : p.skip < k + 1 := by omega
            simp [a2, a3]
          · exact (hsame x hx).symm
      · rw [if_neg (by rw [hcnt]; exact hc)]
        have hlt : k - p.skip < p.keep := by omega
        have a3 : p.skip < k + 1 := by omega
        have hdir : ∀ f : Txt → Option Bytes, (∀ x, grabFile n ≠ x → f x = filesAfter p w.openable w.files pre x) →
            f (grabFile n) = some (p.saved n pre).flatten →
            ({ files := f, openable := w.openable } : Dir).append (grabFile n) m = dirAfter p w (pre ++ [m]) := by
          intro f h1 h2
          unfold dirAfter Dir.append
          congr 1
          funext x
          by_cases hx : grabFile n = x
          · subst hx
            rw [hfile, hlen, hdt, if_pos hlt]
            simp [h2, hop, a3]
          · have : ¬ x = grabFile n := fun e => hx e.symm
            simp only [if_neg this]
            rw [h1 x hx, hsame x hx]
        by_cases hk0 : p.skip < k
        · have hfp : (slotAfter p true n k).fp = some true := by simp [slotAfter, hk0, hlt]
          simp only [hfp, pure, Except.pure, bind, Except.bind]
          congr 2
          · by_cases hz : p.keep - (k - p.skip) - 1 = 0
            · have a6 : p.keep - (k + 1 - p.skip) = 0 := by omega
              have a7 : ¬ k + 1 - p.skip < p.keep := by omega
              rw [if_pos (by show (slotAfter p true n k).cnt - 1 = 0; rw [hcnt]; exact hz)]
              simp only [slotAfter]
              simp [a3, a6, a7, hz]; omega
            · have a7 : k + 1 - p.skip < p.keep := by omega
              rw [if_neg (by show ¬ (slotAfter p true n k).cnt - 1 = 0; rw [hcnt]; exact hz)]
              simp only [slotAfter]
              simp [a3, a7]; omega
          · exact hdir _ (fun _ _ => rfl) (by rw [hfile, hl]; simp [hop, hk0])
        · have hke : k = p.skip := by omega
          have hfp : (slotAfter p true n k).fp = none := by simp [slotAfter, hk0]
          have hsv : p.saved n pre = [] := by
            unfold Plan.saved
            rw [List.drop_eq_nil_of_le (by omega)]; simp
          have hop' : (dirAfter p w pre).openable (slotAfter p true n k).fname = true := hop
          simp only [hfp, pure, Except.pure, bind, Except.bind, Dir.openWb, hop', if_true]
          congr 2
          · by_cases hz : p.keep - (k - p.skip) - 1 = 0
            · have a6 : p.keep - (k + 1 - p.skip) = 0 := by omega
              have a7 : ¬ k + 1 - p.skip < p.keep := by omega
              rw [if_pos (by show (slotAfter p true n k).cnt - 1 = 0; rw [hcnt]; exact hz)]
              simp only [slotAfter]
              simp [a3, a6, a7, hz]; omega
            · have a7 : k + 1 - p.skip < p.keep := by omega
              rw [if_neg (by show ¬ (slotAfter p true n k).cnt - 1 = 0; rw [hcnt]; exact hz)]
              simp only [slotAfter]
              simp [a3, a7]; omega
          · refine hdir _ (fun x hx => ?_) ?_
            · have : ¬ x = grabFile n := fun e => hx e.symm
              show (if x = grabFile n then _ else _) = _
              rw [if_neg this]; rfl
            · show (if grabFile n = grabFile n then _ else _) = _
              rw [if_pos rfl, hsv]; rfl

theorem step_in (p : Plan) (ns : List Nat) (hns : ∀ n, n ∈ ns ↔ n ∈ p.numbers) (hk : 0 < p.keep)
    (hinj : ∀ a ∈ p.numbers, ∀ b ∈ p.numbers, grabFile a = grabFile b → a = b) (w : Dir) (pre : List Bytes) (m : Bytes) :
    saveIn (scenarioAfter p ns w.openable (fun n => (numbered n pre).length)) (numberIn m) m (dirAfter p w pre) =
      if p.blocked w.openable pre m then .error .osError
      else .ok (scenarioAfter p ns w.openable (fun n => (numbered n (pre ++ [m])).length), dirAfter p w (pre ++ [m])) := by
  have hcount : ∀ n, numberIn m ≠ some n → numbered n (pre ++ [m]) = numbered n pre := by
    intro n h; rw [numbered_snoc, if_neg h]
  have hdir : (∀ n ∈ p.numbers, numberIn m ≠ some n) → dirAfter p w (pre ++ [m]) = dirAfter p w pre := by
    intro h
    unfold dirAfter
    congr 1
    funext x
    exact files_other p w.openable w.files pre m x (fun n hn hm => absurd hm (h n hn))
  have hsc : (∀ n ∈ ns, numberIn m ≠ some n) →
      scenarioAfter p ns w.openable (fun n => (numbered n (pre ++ [m])).length) =
        scenarioAfter p ns w.openable (fun n => (numbered n pre).length) := by
    intro h
    unfold scenarioAfter
    apply List.map_congr_left
    intro n hn
    dsimp only
    rw [hcount n (h n hn)]
  unfold saveIn
  cases hm : numberIn m with
  | none =>
    have hb : p.blocked w.openable pre m = false := by simp [Plan.blocked, hm]
    rw [hb, hdir (fun n _ => by rw [hm]; simp), hsc (fun n _ => by rw [hm]; simp)]
    rfl
  | some n =>
    dsimp only
    rw [get_scenario]
    by_cases hn : n ∈ ns
    · rw [if_pos hn]
      dsimp only
      rw [step_slot p hk hinj w pre m n ((hns n).1 hn) hm]
      by_cases hb : p.blocked w.openable pre m = true
      · rw [if_pos hb, if_pos hb]; rfl
      · rw [if_neg hb, if_neg hb]
        show Except.ok (_, _) = _
        rw [set_scenario p ns w.openable (fun n => (numbered n pre).length) n hn]
        congr 3
        funext i
        rw [numbered_snoc, hm]
        by_cases hi : i = n
        · subst hi; simp
        · have : ¬ n = i := fun e => hi e.symm
          simp [hi, this]
    · rw [if_neg hn]
      have hb : p.blocked w.openable pre m = false := by
        have hp : n ∉ p.numbers := fun h => hn ((hns n).2 h)
        simp [Plan.blocked, hm, hp]
      rw [hb, hdir (fun a ha => by rw [hm]; intro e; injection e with e; subst e; exact hn ((hns n).2 ha)),
        hsc (fun a ha => by rw [hm]; intro e; injection e with e; subst e; exact hn ha)]
      rfl

theorem step_blocked (p : Plan) (ns : List Nat) (w : Dir) (pre : List Bytes) (m : Bytes)
    (hinj : ∀ a ∈ p.numbers, ∀ b ∈ p.numbers, grabFile a = grabFile b → a = b) (hb : p.blocked w.openable pre m = true) :
    scenarioAfter p ns w.openable (fun n => (numbered n (pre ++ [m])).length) =
        scenarioAfter p ns w.openable (fun n => (numbered n pre).length) ∧
      dirAfter p w (pre ++ [m]) = dirAfter p w pre := by
  unfold Plan.blocked at hb
  cases hm : numberIn m with
  | none => simp [hm] at hb
  | some n =>
    simp only [hm, Bool.and_eq_true, List.contains_iff_mem, Bool.not_eq_true', decide_eq_true_eq] at hb
    obtain ⟨⟨hn, hop⟩, hs⟩ := hb
    constructor
    · unfold scenarioAfter
      apply List.map_congr_left
      intro a _
      dsimp only
      rw [numbered_snoc]
      by_cases h : n = a
      · subst h
        rw [if_pos hm, hop, List.length_append]
        simp only [slotAfter]
        have : p.skip - (numbered n pre).length = 0 := by omega
        have h2 : p.skip - ((numbered n pre).length + 1) = 0 := by omega
        simp [this, h2]
      · rw [if_neg (by rw [hm]; simpa using h)]
    · unfold dirAfter
      congr 1
      funext x
      by_cases hx : grabFile n = x
      · subst hx
        unfold filesAfter
        rw [find_file p hinj n hn]
        simp [hop]
      · refine files_other p w.openable w.files pre m x ?_
        intro a _ ha
        rw [hm] at ha; injection ha with ha; subst ha; exact hx

/-- The grabber after some messages. -/
def grabberAfter (mode : Txt) (openable : Txt → Bool) (msgs : List Bytes) : Grabber :=
  let sc := fun ns => scenarioAfter (plan mode) ns openable (fun n => (numbered n msgs).length)
  if mode = "EPH".toList then { eph := sc [1019, 1020, 1041, 1042, 1044, 1045, 1046] }
  else if mode = "BASE".toList then { base := sc [1005, 1007, 1230, 1006, 1033] }
  else if mode = "MSM7".toList then { msm7 := sc [1077, 1087, 1097, 1127, 1137] }
  else if mode = "MSM5".toList then { msm5 := sc [1075, 1085, 1095, 1125, 1135] }
  else {}

theorem plan_inj (mode : Txt) : ∀ a ∈ (plan mode).numbers, ∀ b ∈ (plan mode).numbers, grabFile a = grabFile b → a = b := by
  unfold plan
  split
  · decide +kernel
  split
  · decide +kernel
  split
  · decide +kernel
  split
  · decide +kernel
  · simp

theorem slot_start (p : Plan) (ok : Bool) (n : Nat) :
    slotAfter p ok n 0 = { fname := grabFile n, delay := p.skip, cnt := p.keep, fp := none } := by
  simp [slotAfter]

theorem grabber_start (mode : Txt) (openable : Txt → Bool) : grabberAfter mode openable [] = {} := by
  unfold grabberAfter scenarioAfter
  simp only [numbered, List.filter_nil, List.length_nil, slot_start]
  split
  · rename_i h; subst h; decide +kernel
  split
  · rename_i h; subst h; decide +kernel
  split
  · rename_i h; subst h; decide +kernel
  split
  · rename_i h; subst h; decide +kernel
  · rfl

theorem dir_start (p : Plan) (w : Dir) : dirAfter p w [] = w := by
  unfold dirAfter filesAfter
  cases w with
  | mk f o =>
    congr 1
    funext x
    simp only [numbered, List.filter_nil, List.length_nil, Nat.not_lt_zero, decide_false, Bool.and_false, Bool.false_eq_true, if_false]
    split <;> rfl

theorem step_save (mode : Txt) (w : Dir) (pre : List Bytes) (m : Bytes) :
    (grabberAfter mode w.openable pre).save (numberIn m) m mode (dirAfter (plan mode) w pre) =
      if (plan mode).blocked w.openable pre m then .error .osError
      else .ok (grabberAfter mode w.openable (pre ++ [m]), dirAfter (plan mode) w (pre ++ [m])) := by
  have key := step_in (plan mode) (hinj := plan_inj mode) (w := w) (pre := pre) (m := m)
  unfold Grabber.save grabberAfter
  by_cases h1 : mode = "EPH".toList
  · simp only [if_pos h1]
    rw [key [1019, 1020, 1041, 1042, 1044, 1045, 1046] (by subst h1; intro n; rfl) (by subst h1; decide)]
    split <;> rfl
  by_cases h2 : mode = "BASE".toList
  · simp only [if_neg h1, if_pos h2]
    rw [key [1005, 1007, 1230, 1006, 1033] (by
      subst h2; intro n
      show n ∈ [1005, 1007, 1230, 1006, 1033] ↔ n ∈ [1005, 1006, 1007, 1033, 1230]
      simp only [List.mem_cons, List.not_mem_nil, or_false]; tauto) (by subst h2; decide)]
    split <;> rfl
  by_cases h3 : mode = "MSM7".toList
  · simp only [if_neg h1, if_neg h2, if_pos h3]
    rw [key [1077, 1087, 1097, 1127, 1137] (by subst h3; intro n; rfl) (by subst h3; decide)]
    split <;> rfl
  by_cases h4 : mode = "MSM5".toList
  · simp only [if_neg h1, if_neg h2, if_neg h3, if_pos h4]
    rw [key [1075, 1085, 1095, 1125, 1135] (by subst h4; intro n; rfl) (by subst h4; decide)]
    split <;> rfl
  · simp only [if_neg h1, if_neg h2, if_neg h3, if_neg h4]
    have hp : plan mode = ⟨[], 0, 0⟩ := by unfold plan; simp only [if_neg h1, if_neg h2, if_neg h3, if_neg h4]
    have hb : (plan mode).blocked w.openable pre m = false := by
      rw [hp]; unfold Plan.blocked; split <;> rfl
    rw [hb]
    simp only [Bool.false_eq_true, if_false]
    rw [hp]; rfl

theorem step_after (mode : Txt) (w : Dir) (pre : List Bytes) (m : Bytes) (hb : (plan mode).blocked w.openable pre m = true) :
    grabberAfter mode w.openable (pre ++ [m]) = grabberAfter mode w.openable pre ∧
      dirAfter (plan mode) w (pre ++ [m]) = dirAfter (plan mode) w pre := by
  refine ⟨?_, (step_blocked _ [] w pre m (plan_inj mode) hb).2⟩
  unfold grabberAfter
  simp only [fun ns => (step_blocked (plan mode) ns w pre m (plan_inj mode) hb).1]

end Grabber

open Spec Decoder Grabber

/-- The results of decoding and the decoder afterwards, if the messages that are `blocked` are left out. -/
def decodeUnblocked (p : Plan) (openable : Txt → Bool) (d : DecoderTop) (before : List Bytes) :
    List Bytes → DecoderTop × List (Option PyObj)
  | [] => (d, [])
  | m :: ms =>
    if p.blocked openable before m then
      let r := decodeUnblocked p openable d (before ++ [m]) ms
      (r.1, none :: r.2)
    else
      let r := decodeUnblocked p openable (d.decode m).1 (before ++ [m]) ms
      (r.1, (d.decode m).2 :: r.2)

/-- Decoding of messages one after the other. -/
def decodePlain (d : DecoderTop) : List Bytes → DecoderTop × List (Option PyObj)
  | [] => (d, [])
  | m :: ms =>
    let r := decodePlain (d.decode m).1 ms
    (r.1, (d.decode m).2 :: r.2)

theorem Grabber.decode_all (mode : Txt) (w : Dir) (msgs pre : List Bytes) (d : DecoderTop) :
    Top.decodeAll (some mode) { dec := d, tdg := grabberAfter mode w.openable pre, dir := dirAfter (plan mode) w pre } msgs =
      ({ dec := (decodeUnblocked (plan mode) w.openable d pre msgs).1
         tdg := grabberAfter mode w.openable (pre ++ msgs)
         dir := dirAfter (plan mode) w (pre ++ msgs) }, (decodeUnblocked (plan mode) w.openable d pre msgs).2) := by
  induction msgs generalizing pre d with
  | nil => simp [Top.decodeAll, decodeUnblocked]
  | cons m ms ih =>
    have hdec : Top.decode (some mode) { dec := d, tdg := grabberAfter mode w.openable pre, dir := dirAfter (plan mode) w pre } m =
        (if (plan mode).blocked w.openable pre m then
          ({ dec := d, tdg := grabberAfter mode w.openable (pre ++ [m]), dir := dirAfter (plan mode) w (pre ++ [m]) }, none)
        else ({ dec := (d.decode m).1, tdg := grabberAfter mode w.openable (pre ++ [m]), dir := dirAfter (plan mode) w (pre ++ [m]) },
          (d.decode m).2)) := by
      unfold Top.decode
      dsimp only
      rw [mnum_eq, step_save mode w pre m]
      by_cases hb : (plan mode).blocked w.openable pre m = true
      · obtain ⟨h1, h2⟩ := step_after mode w pre m hb
        rw [if_pos hb, if_pos hb, h1, h2]
      · rw [if_neg hb, if_neg hb]
    unfold Top.decodeAll decodeUnblocked
    rw [hdec]
    by_cases hb : (plan mode).blocked w.openable pre m = true
    · simp only [if_pos hb]
      rw [ih (pre ++ [m]) d]
      simp
    · simp only [if_neg hb]
      rw [ih (pre ++ [m]) (d.decode m).1]
      simp

/-- **C84.** The files of the grabber: whatever messages come in and whatever the directory contains, the file of a number in the plan
holds exactly the messages with this number that are to be saved, one after the other, and is created with the first of them; all
other files stay as they are. -/
theorem C84_files (mode : Txt) (w : Dir) (d : DecoderTop) (msgs : List Bytes) :
    let w' := (Top.decodeAll (some mode) { dec := d, tdg := {}, dir := w } msgs).1.dir
    (∀ n ∈ (plan mode).numbers, w.openable (grabFile n) = true →
      w'.files (grabFile n) =
        if (numbered n msgs).length ≤ (plan mode).skip then w.files (grabFile n) else some ((plan mode).saved n msgs).flatten) ∧
    ∀ x, (∀ n ∈ (plan mode).numbers, w.openable (grabFile n) = true → x ≠ grabFile n) → w'.files x = w.files x := by
  have h := Grabber.decode_all mode w msgs [] d
  rw [grabber_start, dir_start] at h
  simp only [List.nil_append] at h
  rw [h]
  dsimp only [dirAfter]
  constructor
  · intro n hn hop
    unfold filesAfter
    rw [find_file _ (plan_inj mode) n hn]
    by_cases hl : (numbered n msgs).length ≤ (plan mode).skip
    · simp [hl, hop]
    · have : (plan mode).skip < (numbered n msgs).length := by omega
      simp [hop, this]
  · intro x hx
    unfold filesAfter
    cases hf : (plan mode).numbers.find? (fun a => grabFile a == x) with
    | none => rfl
    | some a =>
      have h1 := List.mem_of_find?_eq_some hf
      have h2 : grabFile a = x := by simpa using List.find?_some hf
      have h3 : w.openable x = false := by
        cases ho : w.openable x with
        | false => rfl
        | true => exact absurd h2.symm (hx a h1 (by rw [h2]; exact ho))
      simp [h3]

/-- **C84.** Decoding with the grabber: a message is decoded and counted as without it, unless it is to be saved in a file that cannot
be created; then the result is nothing and the message is not counted. -/
theorem C84_decode (mode : Txt) (w : Dir) (d : DecoderTop) (msgs : List Bytes) :
    let r := Top.decodeAll (some mode) { dec := d, tdg := {}, dir := w } msgs
    (r.1.dec, r.2) = decodeUnblocked (plan mode) w.openable d [] msgs := by
  have h := Grabber.decode_all mode w msgs [] d
  rw [grabber_start, dir_start] at h
  simp only [h]

/-- **C84.** If the files of the plan can be created, the grabber does not disturb decoding. -/
theorem C84_undisturbed (mode : Txt) (w : Dir) (d : DecoderTop) (msgs : List Bytes)
    (hw : ∀ n ∈ (plan mode).numbers, w.openable (grabFile n) = true) :
    let r := Top.decodeAll (some mode) { dec := d, tdg := {}, dir := w } msgs
    (r.1.dec, r.2) = decodePlain d msgs := by
  intro r
  rw [C84_decode mode w d msgs]
  have hb : ∀ pre m, (plan mode).blocked w.openable pre m = false := by
    intro pre m
    unfold Plan.blocked
    cases hm : numberIn m with
    | none => rfl
    | some n =>
      by_cases hn : n ∈ (plan mode).numbers
      · simp [hw n hn]
      · simp [hn]
  suffices ∀ ms pre d, decodeUnblocked (plan mode) w.openable d pre ms = decodePlain d ms from this msgs [] d
  intro ms
  induction ms with
  | nil => intro pre d; rfl
  | cons m ms ih =>
    intro pre d
    unfold decodeUnblocked decodePlain
    simp only [hb pre m, ih, Bool.false_eq_true, if_false]

/-- **C84.** Without the switch the grabber does nothing. -/
theorem C84_off (t : Top) (msgs : List Bytes) :
    let r := Top.decodeAll none t msgs
    (r.1.dec, r.2) = decodePlain t.dec msgs ∧ r.1.dir = t.dir := by
  induction msgs generalizing t with
  | nil => exact ⟨rfl, rfl⟩
  | cons m ms ih =>
    have := ih { t with dec := (t.dec.decode m).1 }
    simp only [Top.decodeAll, Top.decode, decodePlain]
    simp only at this
    exact ⟨by rw [← this.1], this.2⟩

/-! ## Examples -/

/-- A message with number 1019 and one more byte. -/
def grabSample (b : UInt8) : Bytes := [0xD3, 0, 3, 0x3F, 0xB0, b]

/-- An empty directory in which everything can be created except the file for 1020. -/
def grabDir : Dir := { files := fun _ => none, openable := fun x => x != grabFile 1020 }

/-- Three of four messages with number 1019 are saved; a message with number 1020 is blocked. -/
example :
    let msgs := [grabSample 1, grabSample 2, [0xD3, 0, 3, 0x3F, 0xC0, 7], grabSample 3, grabSample 4]
    (plan "EPH".toList).saved 1019 msgs = [grabSample 1, grabSample 2, grabSample 3] ∧
      1019 ∈ (plan "EPH".toList).numbers ∧ grabDir.openable (grabFile 1019) = true ∧
      (plan "EPH".toList).blocked grabDir.openable [grabSample 1, grabSample 2] [0xD3, 0, 3, 0x3F, 0xC0, 7] = true := by
  decide +kernel

example (d : DecoderTop) :
    (Top.decodeAll (some "EPH".toList) { dec := d, tdg := {}, dir := grabDir }
      [grabSample 1, grabSample 2, [0xD3, 0, 3, 0x3F, 0xC0, 7], grabSample 3, grabSample 4]).1.dir.files (grabFile 1019) =
      some (grabSample 1 ++ grabSample 2 ++ grabSample 3) := by
  rw [(C84_files _ _ _ _).1 1019 (by decide +kernel) (by decide +kernel)]
  decide +kernel

/-- In the mode MSM7 the eleventh message is saved. -/
example :
    let msgs := (List.range 13).map (fun i => ([0xD3, 0, 3, 0x43, 0x50, UInt8.ofNat i] : Bytes))
    (plan "MSM7".toList).saved 1077 msgs = [[0xD3, 0, 3, 0x43, 0x50, 10]] := by
  decide +kernel

/-- A directory that meets the hypothesis of `C84_undisturbed`. -/
example : ∀ n ∈ (plan "BASE".toList).numbers, grabDir.openable (grabFile n) = true := by decide +kernel

end Verif
