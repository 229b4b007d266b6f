import Verif.Refine.Sc47

/-! # Loops of the conversion of MSM data -/

namespace Verif
namespace PyCore
namespace Refine
open Verif.Msm Verif.RtcmUtil

open Rounding (rnd)
variable [Rounding]

section
variable {n : Nat} {call : CallT} {σ : Type} {P : σ → Nat → Nat → St → Prop} {B : List Stmt} {fr : Heap → Prop} {body : Nat → Bool → σ → Py σ}

/-- The loop `while slots`. -/
theorem while_sim (hl : ∀ x i sl st, P x i sl st → st.loc.lookup n!"slots" = some (.int sl))
    (hround : ∀ x i sl st, P x i sl st → match body i (sl &&& 1 != 0) x with
      | .ok x' => ∃ fl st', execBlock src n call B st = (.ok fl, st') ∧ (fl = .next ∨ fl = .cont) ∧ P x' (i + 1) (sl >>> 1) st'
      | .error _ => ∃ c st', execBlock src n call B st = (.error (.py c), st') ∧ catches src c n!"Exception" = true ∧ fr st'.heap) :
    ∀ (k sl i : Nat) (x : σ) (st : St), sl < k → P x i sl st →
      Sim (whileSlots body sl i x) (whileLoop (eval src call (.name n!"slots") >>= fun v => truth src v) (execBlock src n call B)
        (execBlock src n call []) k st) (fun x st => ∃ i, P x i 0 st) fr := by
  intro k
  induction k with
  | zero => intro sl _ _ _ h; omega
  | succ k ih =>
    rintro sl i x ⟨loc, h⟩ hk hP
    have e1 := hl _ _ _ _ hP
    dsimp only at e1
    rw [whileLoop_succ]
    unfold whileSlots
    by_cases h0 : sl = 0
    · subst h0
      rw [if_pos rfl]
      refine Sim.ok (st := ⟨loc, h⟩) ?_ ⟨i, hP⟩
      have e3 : (((0 : Nat) : Int) != (0 : Int)) = false := rfl
      pyexec [e1, e3]
    · rw [if_neg h0]
      have e2 : ((sl : Int) != (0 : Int)) = true := by rw [bne_iff_ne]; omega
      have hr := hround x i sl _ hP
      have hlt : sl >>> 1 < k := by rw [Nat.shiftRight_eq_div_pow]; omega
      have hc : (eval src call (.name n!"slots") >>= fun v => truth src v) ⟨loc, h⟩ = (.ok true, ⟨loc, h⟩) := by
        pyexec [e1, e2]
      rw [hc, M.seq_ok, M.choose_true, M.bind_apply]
      cases hb : body i (sl &&& 1 != 0) x with
      | error e =>
        rw [hb] at hr
        obtain ⟨c, st', h1, h2, h3⟩ := hr
        rw [h1]
        exact ⟨c, st', rfl, h2, h3⟩
      | ok x' =>
        rw [hb] at hr
        obtain ⟨fl, st', h1, h2, h3⟩ := hr
        rw [h1]
        have := ih (sl >>> 1) (i + 1) x' st' hlt h3
        rcases h2 with rfl | rfl
        · exact this
        · exact this

end

section
variable {n : Nat} {call : CallT} {α σ : Type} {B : List Stmt} {fr : Heap → Prop} {f : σ → α → Py σ} {enc : α → Val} {y : Ident}
  {l0 : List α} {P : List α → σ → St → Prop}

/-- A loop `for` over a list. -/
theorem for_sim (hbody : ∀ pre a post x loc h, l0 = pre ++ a :: post → P pre x ⟨loc, h⟩ →
      Sim (f x a) (execBlock src n call B ⟨M.bindKey loc y (enc a), h⟩) (P (pre ++ [a])) fr) :
    ∀ (post pre : List α) (x : σ) (st : St), l0 = pre ++ post → P pre x st →
      Sim (post.foldlM f x) (forLoop (assign src call (.name y)) (execBlock src n call B) (execBlock src n call []) (post.map enc) st) (P l0) fr := by
  intro post
  induction post with
  | nil =>
    rintro pre x ⟨loc, h⟩ he hP
    rw [List.append_nil] at he
    subst he
    refine Sim.ok (st := ⟨loc, h⟩) ?_ hP
    pyexec [List.map_nil, forLoop_nil]
  | cons a post ih =>
    rintro pre x ⟨loc, h⟩ he hP
    have hb := hbody pre a post x loc h he hP
    rw [List.map_cons, forLoop_cons, assign_name, M.setLoc_apply, M.seq_ok, M.bind_apply, List.foldlM_cons]
    cases hf : f x a with
    | error e =>
      rw [hf] at hb
      obtain ⟨c, st', h1, h2, h3⟩ := hb
      rw [h1]
      exact ⟨c, st', rfl, h2, h3⟩
    | ok x' =>
      rw [hf] at hb
      obtain ⟨st', h1, h2⟩ := hb
      rw [h1]
      exact ih (pre ++ [a]) x' st' (by rw [he, List.append_assoc]; rfl) h2
end

end Refine
end PyCore
end Verif
