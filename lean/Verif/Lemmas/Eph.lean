import Verif.Lemmas.Layout
import Verif.Spec.Eph
import Verif.Model.Eph

/-!
# Ephemeris decoders against their layouts
-/

namespace Verif
open Spec Bits Eph
set_option linter.unusedSimpArgs false

theorem dec1019 (buf : Bytes) (h : 67 ≤ buf.length) :
    ∃ e, decode1019 buf = .ok e ∧ vals1019 e = readAt (fieldsOf T1019) (bitsOf buf) 24 := by
  refine ⟨?e, ?h1, ?h2⟩
  case h1 =>
    unfold decode1019
    simp (disch := omega) only [gbu_ok, gbs_ok, gbS_ok, ok_bind, pure_ok]
    rw [show lengthCheck 488 _ buf.length = .ok () from by
      unfold lengthCheck; rw [if_neg (by decide), if_neg (by simp; omega)]]
    rfl
  case h2 => rfl

theorem short1019 (buf : Bytes) (e) (h : decode1019 buf = .ok e) : 67 ≤ buf.length := by
  unfold decode1019 at h
  repeat (obtain ⟨_, h1, h⟩ := bind_ok h)
  unfold lengthCheck at h1
  simp at h1
  omega

theorem vals1019_inj {ν : Type} {e e' : EphGPS ν} (h : vals1019 e = vals1019 e') : e = e' := by
  cases e; cases e'
  simp only [vals1019, List.cons.injEq, and_true] at h
  simp only [EphGPS.mk.injEq]
  tauto

theorem dec1019_iff (buf : Bytes) (e : EphGPS Int) :
    decode1019 buf = .ok e ↔ 67 ≤ buf.length ∧ readAll (fieldsOf T1019) ((bitsOf buf).drop 24) = vals1019 e := by
  rw [← readAt_eq]
  constructor
  · intro h
    have hl := short1019 buf e h
    obtain ⟨e', h1, h2⟩ := dec1019 buf hl
    rw [h] at h1
    cases h1
    exact ⟨hl, h2.symm⟩
  · rintro ⟨hl, h⟩
    obtain ⟨e', h1, h2⟩ := dec1019 buf hl
    rw [h1, vals1019_inj (h2.trans h)]

theorem dec1020 (buf : Bytes) (h : 51 ≤ buf.length) :
    ∃ e, decode1020 buf = .ok e ∧ vals1020 e = readAt (fieldsOf T1020) (bitsOf buf) 24 := by
  refine ⟨?e, ?h1, ?h2⟩
  case h1 =>
    unfold decode1020
    simp (disch := omega) only [gbu_ok, gbs_ok, gbS_ok, ok_bind, pure_ok]
    rw [show lengthCheck 360 _ buf.length = .ok () from by
      unfold lengthCheck; rw [if_neg (by decide), if_neg (by simp; omega)]]
    rfl
  case h2 => rfl

theorem short1020 (buf : Bytes) (e) (h : decode1020 buf = .ok e) : 51 ≤ buf.length := by
  unfold decode1020 at h
  repeat (obtain ⟨_, h1, h⟩ := bind_ok h)
  unfold lengthCheck at h1
  simp at h1
  omega

theorem vals1020_inj {ν : Type} {e e' : EphGLO ν} (h : vals1020 e = vals1020 e') : e = e' := by
  cases e; cases e'
  simp only [vals1020, List.cons.injEq, and_true] at h
  simp only [EphGLO.mk.injEq]
  tauto

theorem dec1020_iff (buf : Bytes) (e : EphGLO Int) :
    decode1020 buf = .ok e ↔ 51 ≤ buf.length ∧ readAll (fieldsOf T1020) ((bitsOf buf).drop 24) = vals1020 e := by
  rw [← readAt_eq]
  constructor
  · intro h
    have hl := short1020 buf e h
    obtain ⟨e', h1, h2⟩ := dec1020 buf hl
    rw [h] at h1
    cases h1
    exact ⟨hl, h2.symm⟩
  · rintro ⟨hl, h⟩
    obtain ⟨e', h1, h2⟩ := dec1020 buf hl
    rw [h1, vals1020_inj (h2.trans h)]

theorem dec1041 (buf : Bytes) (h : 67 ≤ buf.length) :
    ∃ e, decode1041 buf = .ok e ∧ vals1041 e = readAt (fieldsOf T1041) (bitsOf buf) 24 := by
  refine ⟨?e, ?h1, ?h2⟩
  case h1 =>
    unfold decode1041
    simp (disch := omega) only [gbu_ok, gbs_ok, gbS_ok, ok_bind, pure_ok]
    rw [show lengthCheck 482 _ buf.length = .ok () from by
      unfold lengthCheck; rw [if_neg (by decide), if_neg (by simp; omega)]]
    rfl
  case h2 => rfl

theorem short1041 (buf : Bytes) (e) (h : decode1041 buf = .ok e) : 67 ≤ buf.length := by
  unfold decode1041 at h
  repeat (obtain ⟨_, h1, h⟩ := bind_ok h)
  unfold lengthCheck at h1
  simp at h1
  omega

theorem vals1041_inj {ν : Type} {e e' : EphNAVIC ν} (h : vals1041 e = vals1041 e') : e = e' := by
  cases e; cases e'
  simp only [vals1041, List.cons.injEq, and_true] at h
  simp only [EphNAVIC.mk.injEq]
  tauto

theorem dec1041_iff (buf : Bytes) (e : EphNAVIC Int) :
    decode1041 buf = .ok e ↔ 67 ≤ buf.length ∧ readAll (fieldsOf T1041) ((bitsOf buf).drop 24) = vals1041 e := by
  rw [← readAt_eq]
  constructor
  · intro h
    have hl := short1041 buf e h
    obtain ⟨e', h1, h2⟩ := dec1041 buf hl
    rw [h] at h1
    cases h1
    exact ⟨hl, h2.symm⟩
  · rintro ⟨hl, h⟩
    obtain ⟨e', h1, h2⟩ := dec1041 buf hl
    rw [h1, vals1041_inj (h2.trans h)]

theorem dec1042 (buf : Bytes) (h : 70 ≤ buf.length) :
    ∃ e, decode1042 buf = .ok e ∧ vals1042 e = readAt (fieldsOf T1042) (bitsOf buf) 24 := by
  refine ⟨?e, ?h1, ?h2⟩
  case h1 =>
    unfold decode1042
    simp (disch := omega) only [gbu_ok, gbs_ok, gbS_ok, ok_bind, pure_ok]
    rw [show lengthCheck 511 _ buf.length = .ok () from by
      unfold lengthCheck; rw [if_neg (by decide), if_neg (by simp; omega)]]
    rfl
  case h2 => rfl

theorem short1042 (buf : Bytes) (e) (h : decode1042 buf = .ok e) : 70 ≤ buf.length := by
  unfold decode1042 at h
  repeat (obtain ⟨_, h1, h⟩ := bind_ok h)
  unfold lengthCheck at h1
  simp at h1
  omega

theorem vals1042_inj {ν : Type} {e e' : EphBDS ν} (h : vals1042 e = vals1042 e') : e = e' := by
  cases e; cases e'
  simp only [vals1042, List.cons.injEq, and_true] at h
  simp only [EphBDS.mk.injEq]
  tauto

theorem dec1042_iff (buf : Bytes) (e : EphBDS Int) :
    decode1042 buf = .ok e ↔ 70 ≤ buf.length ∧ readAll (fieldsOf T1042) ((bitsOf buf).drop 24) = vals1042 e := by
  rw [← readAt_eq]
  constructor
  · intro h
    have hl := short1042 buf e h
    obtain ⟨e', h1, h2⟩ := dec1042 buf hl
    rw [h] at h1
    cases h1
    exact ⟨hl, h2.symm⟩
  · rintro ⟨hl, h⟩
    obtain ⟨e', h1, h2⟩ := dec1042 buf hl
    rw [h1, vals1042_inj (h2.trans h)]

theorem dec1045 (buf : Bytes) (h : 68 ≤ buf.length) :
    ∃ e, decode1045 buf = .ok e ∧ vals1045 e = readAt (fieldsOf T1045) (bitsOf buf) 24 := by
  refine ⟨?e, ?h1, ?h2⟩
  case h1 =>
    unfold decode1045
    simp (disch := omega) only [gbu_ok, gbs_ok, gbS_ok, ok_bind, pure_ok]
    rw [show lengthCheck 496 _ buf.length = .ok () from by
      unfold lengthCheck; rw [if_neg (by decide), if_neg (by simp; omega)]]
    rfl
  case h2 => rfl

theorem short1045 (buf : Bytes) (e) (h : decode1045 buf = .ok e) : 68 ≤ buf.length := by
  unfold decode1045 at h
  repeat (obtain ⟨_, h1, h⟩ := bind_ok h)
  unfold lengthCheck at h1
  simp at h1
  omega

theorem vals1045_inj {ν : Type} {e e' : EphGALF ν} (h : vals1045 e = vals1045 e') : e = e' := by
  cases e; cases e'
  simp only [vals1045, List.cons.injEq, and_true] at h
  simp only [EphGALF.mk.injEq]
  tauto

theorem dec1045_iff (buf : Bytes) (e : EphGALF Int) :
    decode1045 buf = .ok e ↔ 68 ≤ buf.length ∧ readAll (fieldsOf T1045) ((bitsOf buf).drop 24) = vals1045 e := by
  rw [← readAt_eq]
  constructor
  · intro h
    have hl := short1045 buf e h
    obtain ⟨e', h1, h2⟩ := dec1045 buf hl
    rw [h] at h1
    cases h1
    exact ⟨hl, h2.symm⟩
  · rintro ⟨hl, h⟩
    obtain ⟨e', h1, h2⟩ := dec1045 buf hl
    rw [h1, vals1045_inj (h2.trans h)]

theorem dec1046 (buf : Bytes) (h : 69 ≤ buf.length) :
    ∃ e, decode1046 buf = .ok e ∧ vals1046 e = readAt (fieldsOf T1046) (bitsOf buf) 24 := by
  refine ⟨?e, ?h1, ?h2⟩
  case h1 =>
    unfold decode1046
    simp (disch := omega) only [gbu_ok, gbs_ok, gbS_ok, ok_bind, pure_ok]
    rw [show lengthCheck 504 _ buf.length = .ok () from by
      unfold lengthCheck; rw [if_neg (by decide), if_neg (by simp; omega)]]
    rfl
  case h2 => rfl

theorem short1046 (buf : Bytes) (e) (h : decode1046 buf = .ok e) : 69 ≤ buf.length := by
  unfold decode1046 at h
  repeat (obtain ⟨_, h1, h⟩ := bind_ok h)
  unfold lengthCheck at h1
  simp at h1
  omega

theorem vals1046_inj {ν : Type} {e e' : EphGALI ν} (h : vals1046 e = vals1046 e') : e = e' := by
  cases e; cases e'
  simp only [vals1046, List.cons.injEq, and_true] at h
  simp only [EphGALI.mk.injEq]
  tauto

theorem dec1046_iff (buf : Bytes) (e : EphGALI Int) :
    decode1046 buf = .ok e ↔ 69 ≤ buf.length ∧ readAll (fieldsOf T1046) ((bitsOf buf).drop 24) = vals1046 e := by
  rw [← readAt_eq]
  constructor
  · intro h
    have hl := short1046 buf e h
    obtain ⟨e', h1, h2⟩ := dec1046 buf hl
    rw [h] at h1
    cases h1
    exact ⟨hl, h2.symm⟩
  · rintro ⟨hl, h⟩
    obtain ⟨e', h1, h2⟩ := dec1046 buf hl
    rw [h1, vals1046_inj (h2.trans h)]

theorem vals1044_inj {ν : Type} {e e' : EphQZS ν} (h : vals1044 e = vals1044 e') : e = e' := by
  cases e; cases e'
  simp only [vals1044, List.cons.injEq, and_true] at h
  simp only [EphQZS.mk.injEq]
  tauto

theorem dec1044_err (buf : Bytes) : ∀ e, decode1044 buf ≠ .ok e := by
  intro e h
  unfold decode1044 at h
  repeat (obtain ⟨_, h1, h⟩ := bind_ok h)
  unfold lengthCheck at h1
  simp at h1

end Verif
