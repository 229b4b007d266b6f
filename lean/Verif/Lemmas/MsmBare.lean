import Verif.Lemmas.Msm
import Verif.Props.RtcmUtil

/-!
# Bare decoding of multiple signal messages: complete characterisation
-/

namespace Verif
open Spec Bits Msm RtcmUtil

/-! ## The content found in a bit string -/

/-- Number of satellites in the header. -/
def nsatAt (bits : List Bool) : Nat := (slice bits 97 64).count true
/-- Number of signals in the header. -/
def nsigAt (bits : List Bool) : Nat := (slice bits 161 32).count true
/-- Cell mask. -/
def cellsAt (bits : List Bool) : List Bool := slice bits 193 (nsatAt bits * nsigAt bits)
/-- Number of cells. -/
def ncellAt (bits : List Bool) : Nat := (cellsAt bits).count true

/-- Bits per satellite and per cell. -/
def satWidth (k : Nat) : Nat := let w := msmWidths k; w.ms + w.ext + w.rough + w.rate
def cellWidth (k : Nat) : Nat := let w := msmWidths k; w.fine + w.phs + w.lock + w.half + w.cnr + w.fineRate

/-- The content found in a bit string. -/
def dataAt (g k : Nat) (bits : List Bool) : MsmData :=
  let w := msmWidths k
  let N := nsatAt bits
  let C := ncellAt bits
  let o := 193 + N * nsigAt bits
  let o1 := o + w.ms * N
  let o2 := o1 + w.ext * N
  let o3 := o2 + w.rough * N
  let o4 := o3 + w.rate * N
  let o5 := o4 + w.fine * C
  let o6 := o5 + w.phs * C
  let o7 := o6 + w.lock * C
  let o8 := o7 + w.half * C
  let o9 := o8 + w.cnr * C
  { g := g, k := k, station := natOfBits (slice bits 36 12), time := natOfBits (slice bits 48 30),
    multiple := natOfBits (slice bits 78 1), iods := natOfBits (slice bits 79 3), steering := natOfBits (slice bits 89 2),
    external := natOfBits (slice bits 91 2), smoothing := natOfBits (slice bits 93 1),
    interval := natOfBits (slice bits 94 3), sats := slice bits 97 64, sigs := slice bits 161 32, cells := cellsAt bits,
    rngMs := colU bits o w.ms N, extInfo := colU bits o1 w.ext N, rngRough := colU bits o2 w.rough N,
    rateRough := colS bits o3 w.rate N, rngFine := colS bits o4 w.fine C, phsFine := colS bits o5 w.phs C,
    lock := colU bits o6 w.lock C, half := colU bits o7 w.half C, cnr := colU bits o8 w.cnr C,
    rateFine := colS bits o9 w.fineRate C }

theorem mul_colLen (w n : Nat) : w * MsmData.colLen w n = w * n := by
  unfold MsmData.colLen; split <;> simp_all

/-- The conditions on a bit string under which it carries a content. -/
structure GoodBits (g k : Nat) (buf : Bytes) : Prop where
  hg : g < 7
  hk : 1 ≤ k ∧ k ≤ 7
  num : natOfBits (slice (bitsOf buf) 24 12) = 1070 + 10 * g + k
  size : nsatAt (bitsOf buf) * nsigAt (bitsOf buf) ≤ 64
  ne : 0 < ncellAt (bitsOf buf)
  len : buf.length = 6 + (169 + nsatAt (bitsOf buf) * nsigAt (bitsOf buf) + satWidth k * nsatAt (bitsOf buf) +
    cellWidth k * ncellAt (bitsOf buf) + 7) / 8

theorem GoodBits.pos {g k : Nat} {buf : Bytes} (h : GoodBits g k buf) :
    0 < nsatAt (bitsOf buf) ∧ 0 < nsigAt (bitsOf buf) := by
  have h1 : ncellAt (bitsOf buf) ≤ nsatAt (bitsOf buf) * nsigAt (bitsOf buf) := by
    refine le_trans List.count_le_length ?_
    simp [cellsAt, slice]
  have := h.ne
  have h2 : 0 < nsatAt (bitsOf buf) * nsigAt (bitsOf buf) := by omega
  exact ⟨Nat.pos_of_mul_pos_right h2, Nat.pos_of_mul_pos_left h2⟩

theorem GoodBits.bits_len {g k : Nat} {buf : Bytes} (h : GoodBits g k buf) :
    193 + nsatAt (bitsOf buf) * nsigAt (bitsOf buf) + satWidth k * nsatAt (bitsOf buf) +
    cellWidth k * ncellAt (bitsOf buf) + 24 ≤ (bitsOf buf).length := by
  rw [bitsOf_length, h.len]; omega

theorem GoodBits.cells_length {g k : Nat} {buf : Bytes} (h : GoodBits g k buf) :
    (cellsAt (bitsOf buf)).length = nsatAt (bitsOf buf) * nsigAt (bitsOf buf) := by
  have := h.bits_len
  exact slice_length _ _ _ (by omega)

theorem dataAt_wf {g k : Nat} {buf : Bytes} (h : GoodBits g k buf) : (dataAt g k (bitsOf buf)).WF := by
  have hl := h.bits_len
  exact
    { g := h.hg, k := h.hk, sats := slice_length _ _ _ (by omega), sigs := slice_length _ _ _ (by omega),
      cells := h.cells_length, size := h.size, nonempty := h.ne,
      rngMs := natCol_length .., extInfo := natCol_length .., rngRough := natCol_length .., rateRough := intCol_length ..,
      rngFine := intCol_length .., phsFine := intCol_length .., lock := natCol_length .., half := natCol_length ..,
      cnr := natCol_length .., rateFine := intCol_length .. }

theorem wf_widths {d : MsmData} (h : d.WF) : ∀ f ∈ d.layout, 0 < f.width ∧ f.kind ≠ .sm := by
  intro f hf
  simp only [MsmData.layout, List.mem_append, MsmData.hdrLayout, List.mem_cons, List.not_mem_nil, or_false,
    List.mem_flatMap, List.mem_map] at hf
  rcases hf with hf | hf | ⟨c, hc, x, hx, rfl⟩
  · rcases hf with rfl | rfl | rfl | rfl | rfl | rfl | rfl | rfl | rfl | rfl | rfl | rfl <;> decide
  · subst hf
    have : d.ncell ≤ d.cells.length := List.count_le_length
    have := h.nonempty
    exact ⟨by simp only; omega, by simp⟩
  · have key : ∀ {α : Type} {w n : Nat} {l : List α} {x : α}, l.length = MsmData.colLen w n → x ∈ l → 0 < w := by
      intro α w n l x hl hx
      unfold MsmData.colLen at hl
      split at hl
      · rw [List.length_eq_zero_iff] at hl; subst hl; simp at hx
      · omega
    have key' : ∀ {w n : Nat} {l : List Nat} {x : Int}, l.length = MsmData.colLen w n → x ∈ MsmData.ints l → 0 < w := by
      intro w n l x hl hx
      exact key (by rw [ints_length]; exact hl) hx
    simp only [MsmData.columns, List.mem_cons, List.not_mem_nil, or_false] at hc
    rcases hc with rfl | rfl | rfl | rfl | rfl | rfl | rfl | rfl | rfl | rfl
    · exact ⟨key' h.rngMs hx, by simp⟩
    · exact ⟨key' h.extInfo hx, by simp⟩
    · exact ⟨key' h.rngRough hx, by simp⟩
    · exact ⟨key h.rateRough hx, by simp⟩
    · exact ⟨key h.rngFine hx, by simp⟩
    · exact ⟨key h.phsFine hx, by simp⟩
    · exact ⟨key' h.lock hx, by simp⟩
    · exact ⟨key' h.half hx, by simp⟩
    · exact ⟨key' h.cnr hx, by simp⟩
    · exact ⟨key h.rateFine hx, by simp⟩

theorem wf_layoutWidth {d : MsmData} (h : d.WF) :
    layoutWidth d.layout = 169 + d.nsat * d.nsig + satWidth d.k * d.nsat + cellWidth d.k * d.ncell := by
  rw [MsmData.layout, layoutWidth_append, layoutWidth_append, width_cols]
  simp only [MsmData.columns, List.map_cons, List.map_nil, List.sum_cons, List.sum_nil, ints_length, h.rngMs, h.extInfo,
    h.rngRough, h.rateRough, h.rngFine, h.phsFine, h.lock, h.half, h.cnr, h.rateFine, mul_colLen, h.cells, satWidth,
    cellWidth]
  simp only [MsmData.hdrLayout, layoutWidth]
  ring

theorem col_kinds (d : MsmData) : ∀ c ∈ d.columns, c.1.kind ≠ .res := by
  intro c hc
  simp only [MsmData.columns, List.mem_cons, List.not_mem_nil, or_false] at hc
  rcases hc with rfl | rfl | rfl | rfl | rfl | rfl | rfl | rfl | rfl | rfl <;> simp

theorem msm_hdr_len : (MsmData.hdrLayout.filter (fun f => f.kind ≠ .res)).length = 11 := by decide

theorem hdr_width : layoutWidth MsmData.hdrLayout = 169 := by decide

theorem carried_split {d : MsmData} (h : d.WF) (buf : Bytes) : d.CarriedBy buf ↔
    buf.length = 6 + (169 + d.nsat * d.nsig + satWidth d.k * d.nsat + cellWidth d.k * d.ncell + 7) / 8 ∧
    readAt MsmData.hdrLayout (bitsOf buf) 24 = d.hdrVals ∧
    natOfBits (slice (bitsOf buf) 193 d.cells.length) = natOfBits d.cells ∧
    ColsAt d.columns (bitsOf buf) (193 + d.cells.length) := by
  unfold MsmData.CarriedBy
  rw [carriesExact_iff _ _ _ (wf_widths h), wf_layoutWidth h, ← readAt_eq, MsmData.layout, MsmData.vals,
    readAt_split (by rw [msm_hdr_len]; rfl), hdr_width, readAt_split (by rfl), cols_iff _ (col_kinds d)]
  simp only [readAt_U, readAt_nil, List.cons.injEq, and_true, nat_int_eq, layoutWidth]
  rfl

theorem carried_good {d : MsmData} (h : d.WF) {buf : Bytes} (hc : d.CarriedBy buf) :
    GoodBits d.g d.k buf ∧ d = dataAt d.g d.k (bitsOf buf) := by
  obtain ⟨hl, hh, hm, hcol⟩ := (carried_split h buf).1 hc
  simp only [MsmData.hdrLayout, readAt_U, readAt_R, readAt_nil, MsmData.hdrVals, List.cons.injEq, and_true, nat_int_eq]
    at hh
  obtain ⟨h0, h1, h2, h3, h4, h5, h6, h7, h8, h9, h10⟩ := hh
  have hbl : 193 + d.nsat * d.nsig ≤ (bitsOf buf).length := by rw [bitsOf_length, hl]; omega
  have hs : slice (bitsOf buf) 97 64 = d.sats :=
    natOfBits_inj (by rw [slice_length _ _ _ (by omega), h.sats]) h9
  have hg : slice (bitsOf buf) 161 32 = d.sigs :=
    natOfBits_inj (by rw [slice_length _ _ _ (by omega), h.sigs]) h10
  have hN : nsatAt (bitsOf buf) = d.nsat := by unfold nsatAt; rw [hs]; rfl
  have hM : nsigAt (bitsOf buf) = d.nsig := by unfold nsigAt; rw [hg]; rfl
  have hcl : cellsAt (bitsOf buf) = d.cells := by
    unfold cellsAt
    rw [hN, hM, ← h.cells]
    exact natOfBits_inj (by rw [slice_length _ _ _ (by rw [h.cells]; omega)]) hm
  have hC : ncellAt (bitsOf buf) = d.ncell := by unfold ncellAt; rw [hcl]; rfl
  refine ⟨⟨h.g, h.k, h0, ?_, ?_, ?_⟩, ?_⟩
  · rw [hN, hM]; exact h.size
  · rw [hC]; exact h.nonempty
  · rw [hN, hM, hC]; exact hl
  · simp only [MsmData.columns, ColsAt, ints_length, colAt_U, colAt_S, ints_inj, h.rngMs, h.extInfo, h.rngRough,
      h.rateRough, h.rngFine, h.phsFine, h.lock, h.half, h.cnr, h.rateFine, mul_colLen, h.cells, and_true] at hcol
    obtain ⟨c0, c1, c2, c3, c4, c5, c6, c7, c8, c9⟩ := hcol
    simp only [dataAt, colU, colS, hN, hM, hC, hs, hg, hcl]
    obtain ⟨dg, dk, f1, f2, f3, f4, f5, f6, f7, f8, ds, dsg, dc, e1, e2, e3, e4, e5, e6, e7, e8, e9, e10⟩ := d
    simp only [MsmData.mk.injEq, true_and] at *
    exact ⟨h1.symm, h2.symm, h3.symm, h4.symm, h5.symm, h6.symm, h7.symm, h8.symm, c0, c1, c2, c3, c4, c5, c6, c7, c8, c9⟩

theorem good_carried {g k : Nat} {buf : Bytes} (h : GoodBits g k buf) : (dataAt g k (bitsOf buf)).CarriedBy buf := by
  rw [carried_split (dataAt_wf h)]
  refine ⟨h.len, ?_, ?_, ?_⟩
  · simp only [MsmData.hdrLayout, readAt_U, readAt_R, readAt_nil, MsmData.hdrVals, List.cons.injEq, and_true, nat_int_eq]
    exact ⟨h.num, rfl, rfl, rfl, rfl, rfl, rfl, rfl, rfl, rfl, rfl⟩
  · have : (dataAt g k (bitsOf buf)).cells.length = nsatAt (bitsOf buf) * nsigAt (bitsOf buf) := h.cells_length
    rw [this]; rfl
  · have : (dataAt g k (bitsOf buf)).cells.length = nsatAt (bitsOf buf) * nsigAt (bitsOf buf) := h.cells_length
    rw [this]
    simp only [MsmData.columns, dataAt, ColsAt, colU, colS, ints_length, natCol_length, intCol_length, colAt_U, colAt_S,
      mul_colLen, and_true]

end Verif
