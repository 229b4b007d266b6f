import Verif.Props.Json
import Verif.Props.Margo

/-!
# C58: an object that is counted as printed has been written
-/

namespace Verif
open Spec Decoder

/-- **C58** (partial) JSON: if printing an object raises nothing, then afterwards its text is the end of the open file of its number.
Missing: MARGO, see `C58_violated`. -/
theorem C58_partial (fr : Rat → Txt) (p : Json.Printer) (w : Disk) (o : PyObj) (h : (p.print fr w o).2 = .ok ()) :
    ∃ n path before, Json.objNum o = some n ∧ (p.print fr w o).1.1.ofiles.get? n = some path ∧
      (p.print fr w o).1.2.read path = some (before ++ ",\r".toList ++ Json.objText fr p.ctrls o) := by
  rcases Json.print_cases fr p w o with ⟨w', h1, -⟩ | ⟨n, row, hn, -, ⟨path, hg, h1⟩ | ⟨-, w', hw, h1⟩⟩
  · rw [h1] at h; cases h
  · refine ⟨n, path, (w.read path).getD [], hn, by rw [h1]; exact hg, ?_⟩
    rw [h1]
    dsimp only
    rw [Disk.read_write, if_pos rfl]
    simp [Json.lineText]
  · refine ⟨n, Json.pathOf p.wd row, Json.headText fr o.cls, hn, ?_, ?_⟩
    · rw [h1]
      dsimp only
      rw [PyDict.get?_set, if_pos rfl]
    · rw [h1]
      dsimp only
      rw [Disk.read_write, if_pos rfl, Disk.read_write, if_pos rfl, hw, if_pos rfl]
      simp [Json.lineText]

/-- A file system on which nothing can be created. -/
def readOnly : Disk := { fault := fun _ => true }

/-- **C58** is violated by MARGO: on a file system where no file can be created, printing a decoded message raises nothing and counts as
a success; nothing is written. -/
theorem C58_violated : ∃ (buf : Bytes) (o : Msm.ObservablesMSM), ValidFrame buf ∧ Msm.decodeMsm17 false buf = some (.inr o) ∧
    slotsOf o .cnr ≠ [] ∧
    ∀ (c : Margo.Controls) (wd : Txt) (fr : Rat → Txt), ∃ t' : Conv.PrinterTop, ∃ w' : Disk,
      (Conv.PrinterTop.mk "MARGO" [⟨[.observablesMSM], [.observablesMSM], .margo { ctrl := c, wd := wd }⟩] 0 0).print fr readOnly (.msm o) =
        ((t', w'), .ok ()) ∧ t'.attempts = 1 ∧ t'.succeeded = 1 ∧ t'.errors = 0 ∧ ∀ q, w'.read q = none := by
  have h1 : exMsm5.WF := by decide +kernel
  have h2 : exMsm5.InRange := by unfold MsmData.InRange; decide +kernel
  have h3 : exMsm5.SignalsKnown := by decide +kernel
  refine ⟨_, exMsm5.scaledObj, (msm_frame h1 h2).1, C24_roundtrip exMsm5 h1 h2 (by decide) h3, by decide +kernel, ?_⟩
  intro c wd fr
  have key : ∀ (rows : PyDict Txt Margo.Row) (p : Margo.Printer) (w : Disk), p.ofiles = [] → (∀ i, w.fault i = true) → w.files = [] →
      (∀ r ∈ rows, ∃ g k slot u, Margo.Named g k slot u r) →
      ∃ w', p.printRows w rows = ((p, w'), .ok ()) ∧ w'.files = [] := by
    intro rows
    induction rows with
    | nil => intro p w _ _ hf _; exact ⟨w, rfl, hf⟩
    | cons r rows ih =>
      intro p w hp hw hf hr
      obtain ⟨g, k, slot, u, hn⟩ := hr r (by simp)
      have e1 : ∀ l, ∃ w', p.append w r.1 l = ((p, w'), .ok ()) ∧ (∀ i, w'.fault i = true) ∧ w'.files = [] := by
        intro l
        unfold Margo.Printer.append Margo.Printer.createOfile
        have hc := hn.chars.1
        rw [hp, hc]
        simp only [ok_bind, Margo.dir_ok g hn.lt]
        have hmem : PyDict.mem ([] : PyDict Txt Txt) r.1 = false := rfl
        rw [hmem]
        simp only [Bool.false_eq_true, if_false]
        cases hd : w.isdir (Disk.join p.wd (margoDir g).toList) with
        | true =>
          refine ⟨{ w with calls := w.calls + 1 }, ?_, hw, hf⟩
          simp [Disk.openW, hw]
        | false =>
          refine ⟨{ w with calls := w.calls + 1 }, ?_, hw, hf⟩
          simp [Disk.makedirs, hw]
      obtain ⟨f, row⟩ := r
      unfold Margo.Printer.printRows
      have hcs := hn.chars.2.1
      dsimp only at hcs
      rw [hcs, ok_bind, Margo.format_ok]
      dsimp only
      obtain ⟨w', e, e2, e3⟩ := e1 (Margo.formatObsString row k.format.1 k.format.2)
      dsimp only at e
      rw [e]
      exact ih p w' hp e2 e3 (fun r' hr' => hr r' (by simp [hr']))
  have hreg := Margo.exMsm5_regular
  obtain ⟨w', e, e'⟩ := key _ { ctrl := c, wd := wd } readOnly rfl (fun _ => rfl) rfl
    (fun r hr => (Margo.mrows_named c (t := _) hreg (fun h => absurd h (by decide)) (kindsOf (Margo.settings c)) r hr).imp
      (fun g h => h.imp (fun k h => h.imp (fun s h => h.imp (fun u h => h.1)))))
  have hp : Margo.Printer.print { ctrl := c, wd := wd } readOnly (.msm exMsm5.scaledObj) = (({ ctrl := c, wd := wd }, w'), .ok ()) := by
    unfold Margo.Printer.print
    dsimp only
    rw [Margo.printBuffer_ok c hreg (fun h => absurd h (by decide))]
    exact e
  refine ⟨⟨"MARGO", [⟨[.observablesMSM], [.observablesMSM], .margo { ctrl := c, wd := wd }⟩], 1, 1⟩, w', ?_, rfl, rfl, rfl, ?_⟩
  · unfold Conv.PrinterTop.print Conv.printLoop
    dsimp only
    rw [if_pos (show (Conv.SubPrinter.handles _ _) = true from rfl)]
    unfold Conv.Impl.print
    dsimp only
    rw [hp]
    rfl
  · intro q
    unfold Disk.read
    rw [e']
    rfl

/-- The hypothesis of `C58_partial` is met by an MSM object on a file system without failures. -/
example (fr : Rat → Txt) (c : Json.Controls) (wd : Txt) : (Json.Printer.print fr { ctrls := c, wd := wd } {} (.msm exMsm5.scaledObj)).2 = .ok () := by
  have h : ∃ n row, Json.objNum (.msm exMsm5.scaledObj) = some n ∧ Json.JSON_SPEC.get? n = some row := by
    have : Json.objNum (.msm exMsm5.scaledObj) = some 1095 := by decide +kernel
    exact ⟨1095, _, this, rfl⟩
  obtain ⟨n, row, h1, h2⟩ := h
  exact (Json.print_ok fr _ _ (fun _ => rfl) _ h1 h2).1

end Verif
