import Verif.Spec.JsonDouble
import Verif.Lemmas.RunDouble
import Verif.Lemmas.ContentJson

/-!
# Lemmas: JSON values of objects in double precision
-/

namespace Verif
namespace Json
open Spec Decoder

variable {fr : Rat → Txt}

theorem near_obj {tol : Option (Rat → Rat)} {l l' : List (List Char × JV)}
    (h : List.Forall₂ (fun p q => p.1 = q.1 ∧ NearJson fr (tol.or (memberTolerance p.1)) p.2 q.2) l l') :
    NearJson fr tol (.obj l) (.obj l') := by
  induction h with
  | nil => exact .same _
  | @cons p q l l' hpq _ ih =>
    obtain ⟨k, v⟩ := p
    obtain ⟨k', v'⟩ := q
    obtain ⟨h1, h2⟩ := hpq
    dsimp only at h1 h2
    subst h1
    exact .member h2 ih

theorem near_jObj {tol : Option (Rat → Rat)} {l l' : List (String × JV)}
    (h : List.Forall₂ (fun p q => p.1 = q.1 ∧ NearJson fr (tol.or (memberTolerance p.1.toList)) p.2 q.2) l l') :
    NearJson fr tol (jObj l) (jObj l') := by
  unfold jObj
  refine near_obj ?_
  rw [List.forall₂_map_left_iff, List.forall₂_map_right_iff]
  exact h.imp (fun p q hpq => ⟨by rw [hpq.1], hpq.2⟩)

/-- A table of numbers. -/
theorem near_table {R : Rat → Rat → Prop} {t : Rat → Rat} (hR : ∀ x y, R x y → Within (t x) x y) {d e : PyDict String (PyDict Nat Rat)}
    (h : Msm.D2 R d e) : NearJson fr (some t) (jv fr (strDictOf (natDictOf .flt) d)) (jv fr (strDictOf (natDictOf .flt) e)) := by
  rw [jv_table, jv_table]
  unfold jTable
  refine near_jObj ?_
  rw [List.forall₂_map_left_iff, List.forall₂_map_right_iff]
  refine List.Forall₂.imp ?_ h
  rintro ⟨n, a⟩ ⟨n', b⟩ ⟨h1, h2⟩
  refine ⟨h1, near_obj ?_⟩
  rw [List.forall₂_map_left_iff, List.forall₂_map_right_iff]
  refine List.Forall₂.imp ?_ h2
  rintro ⟨s, x⟩ ⟨s', y⟩ ⟨h3, h4⟩
  dsimp only at h3 h4
  subst h3
  exact ⟨rfl, .num (hR x y h4)⟩

theorem tolerance_dec (n : Nat) : memberTolerance (decText (n : Int)) = none := by
  have h : ∃ c t, decText (n : Int) = c :: t ∧ '0' ≤ c ∧ c ≤ '9' := by
    have e : decText (n : Int) = Nat.toDigits 10 n := by unfold decText; rw [if_neg (by omega)]; rfl
    rw [e]
    have := digits_digit n
    cases hd : Nat.toDigits 10 n with
    | nil => exact absurd hd (Nat.toDigits_ne_nil)
    | cons c t => exact ⟨c, t, rfl, this c (by rw [hd]; simp)⟩
  obtain ⟨c, t, e, h1, h2⟩ := h
  rw [e]
  unfold memberTolerance
  have hne : ∀ (x : Char) (l : List Char), ¬ (x ≤ '9') → c :: t ≠ x :: l := by
    intro x l hx he
    injection he with he
    subst he
    exact hx h2
  have hne' : ∀ s : String, (∃ x l, s.toList = x :: l ∧ ¬ (x ≤ '9')) → c :: t ≠ s.toList := by
    rintro s ⟨x, l, hs, hx⟩
    rw [hs]
    exact hne x l hx
  rw [if_neg, if_neg, if_neg, if_neg, if_neg]
  · rintro (h | h) <;> exact hne' _ ⟨_, _, rfl, by decide⟩ h
  · rintro (h | h) <;> exact hne' _ ⟨_, _, rfl, by decide⟩ h
  · rintro (h | h | h | h) <;> exact hne' _ ⟨_, _, rfl, by decide⟩ h
  · rintro (h | h) <;> exact hne' _ ⟨_, _, rfl, by decide⟩ h
  · rintro (h | h) <;> exact hne' _ ⟨_, _, rfl, by decide⟩ h

theorem tol_rng : memberTolerance "rng".toList = some (fun _ => 1 / 10 ^ 7) := by simp [memberTolerance]
theorem tol_phs : memberTolerance "phs".toList = some (fun _ => 1 / 10 ^ 7) := by simp [memberTolerance]
theorem tol_dpl : memberTolerance "dpl".toList = some (fun _ => 1 / 10 ^ 12) := by simp [memberTolerance]
theorem tol_signals : memberTolerance "signals".toList = some (fun _ => 1 / 10 ^ 12) := by simp [memberTolerance]
theorem tol_hdr : memberTolerance "hdr".toList = none := by simp [memberTolerance]
theorem tol_obs : memberTolerance "obs".toList = none := by simp [memberTolerance]
theorem tol_tgd1 : memberTolerance "TGD1".toList = some (fun x => |x| / 2 ^ 51) := by simp [memberTolerance]
theorem tol_tgd2 : memberTolerance "TGD2".toList = some (fun x => |x| / 2 ^ 51) := by simp [memberTolerance]

theorem near_at {k : List Char} {t : Option (Rat → Rat)} (hk : memberTolerance k = t) {v v' : JV} (h : NearJson fr t v v') :
    NearJson fr ((none : Option (Rat → Rat)).or (memberTolerance k)) v v' := by
  rw [Option.none_or, hk]
  exact h

theorem near_msm {rnd : Rat → Rat} (h : Nearest rnd) (c : Controls) {r r' : Msm.ObservablesMSM} (hr : Msm.ObjRel rnd r r') :
    NearJson fr none (jv fr (msmVal c r)) (jv fr (msmVal c r')) := by
  have hobs : NearJson fr none (jv fr (slotsObs r.obs)) (jv fr (slotsObs r'.obs)) := by
    unfold slotsObs
    rw [jv_strDict, jv_strDict, ← hr.obs.c2n, ← hr.obs.ltm, ← hr.obs.hca]
    refine near_jObj (.cons ⟨rfl, ?_⟩ (.cons ⟨rfl, ?_⟩ (.cons ⟨rfl, .same _⟩ (.cons ⟨rfl, .same _⟩ (.cons ⟨rfl, ?_⟩ (.cons ⟨rfl, .same _⟩ .nil))))))
    · refine near_at tol_rng ?_
      exact near_table (fun _ _ => rngRel_within h) hr.obs.rng
    · refine near_at tol_phs ?_
      exact near_table (fun _ _ => rngRel_within h) hr.obs.phs
    · refine near_at tol_dpl ?_
      exact near_table (fun _ _ => dplRel_within h) hr.obs.dpl
  have hhdr : NearJson fr none (jv fr (slotsHdr r.hdr)) (jv fr (slotsHdr r'.hdr)) := by
    unfold slotsHdr
    rw [jv_strDict, jv_strDict, hr.sats, hr.time, hr.day]
    refine near_jObj (.cons ⟨rfl, ?_⟩ (.cons ⟨rfl, .same _⟩ (.cons ⟨rfl, .same _⟩ (.cons ⟨rfl, .same _⟩ .nil))))
    refine near_at tol_signals ?_
    dsimp only
    rw [jv_strDictOf, jv_strDictOf]
    refine near_jObj ?_
    rw [List.forall₂_map_left_iff, List.forall₂_map_right_iff]
    refine List.Forall₂.imp ?_ hr.signals
    rintro ⟨n, x⟩ ⟨n', y⟩ ⟨h1, h2, h3⟩
    dsimp only at h1 h2 h3
    subst h3
    refine ⟨h1, ?_⟩
    refine .num (tol := fun _ => 1 / 10 ^ 12) ⟨h.double x, (h.error_of h2).trans ?_⟩
    unfold ulp; norm_num
  unfold msmVal
  dsimp only
  rw [jv_dict1, jv_dict1, hr.time, hr.day, hr.aux]
  refine .member ?_ (.same _)
  have : memberTolerance (keyText (.int ((r.hdr.time + r.hdr.day * 86400000 : Nat) : Int))) = none := tolerance_dec _
  rw [this, jv_strDict, jv_strDict, List.map_append, List.map_append, List.map_append, List.map_append]
  refine near_jObj (List.rel_append (List.rel_append ?_ ?_) ?_)
  · split
    · refine .cons ⟨rfl, ?_⟩ .nil
      refine near_at tol_hdr ?_
      exact hhdr
    · exact .nil
  · split
    · exact .cons ⟨rfl, .same _⟩ .nil
    · exact .nil
  · refine .cons ⟨rfl, ?_⟩ .nil
    refine near_at tol_obs ?_
    exact hobs

theorem near_eph {rnd : Rat → Rat} (h : Nearest rnd) (o : Eph.Obj Int) (hv : ∀ v ∈ valsOf o, |v| ≤ 2 ^ 40) :
    NearJson fr none (jv fr (strDictOf ofNum (ephFields (Eph.scale o)))) (jv fr (strDictOf ofNum (ephFields (Nav.tgdR rnd o)))) := by
  cases o with
  | bds e =>
    have key : ∀ n : Int, |n| ≤ 2 ^ 40 → Within (|(n : Rat) * (1 / 10 ^ 10)| / 2 ^ 51) (n * (1 / 10 ^ 10)) (Eph.mulR rnd n (1 / 10 ^ 10)) := by
      intro n hn
      refine ⟨h.double _, le_trans (Nav.prod_within h n hn _ le_rfl) (le_of_eq ?_)⟩
      rw [abs_mul, abs_of_pos (by norm_num : (0 : Rat) < 1 / 10 ^ 10)]
      unfold ulp
      norm_num
      ring
    have k1 := key e.TGD1 (hv _ (by simp [valsOf, vals1042]))
    have k2 := key e.TGD2 (hv _ (by simp [valsOf, vals1042]))
    rw [jv_strDictOf, jv_strDictOf]
    refine near_jObj ?_
    unfold ephFields Nav.tgdR Eph.scale fieldsBDS
    dsimp only
    simp only [List.map_cons, List.map_nil]
    repeat' first
      | exact List.Forall₂.nil
      | refine List.Forall₂.cons ⟨rfl, NearJson.same _⟩ ?_
      | refine List.Forall₂.cons ⟨rfl, ?_⟩ ?_
    · refine near_at tol_tgd1 ?_
      exact .num k1
    · refine near_at tol_tgd2 ?_
      exact .num k2
  | gps e => exact .same _
  | glo e => exact .same _
  | galf e => exact .same _
  | gali e => exact .same _
  | navic e => exact .same _
  | qzs e => exact .same _

theorem tol_x : memberTolerance "refPoint_X".toList = some (fun _ => 2 / 10 ^ 8) := by simp [memberTolerance]
theorem tol_y : memberTolerance "refPoint_Y".toList = some (fun _ => 2 / 10 ^ 8) := by simp [memberTolerance]
theorem tol_z : memberTolerance "refPoint_Z".toList = some (fun _ => 2 / 10 ^ 8) := by simp [memberTolerance]
theorem tol_height : memberTolerance "height".toList = some (fun _ => 2 / 10 ^ 8) := by simp [memberTolerance]
theorem tol_shedule : memberTolerance "shedule".toList = some (fun _ => 2 / 10 ^ 11) := by simp [memberTolerance]
theorem tol_correction : memberTolerance "correction".toList = some (fun _ => 2 / 10 ^ 11) := by simp [memberTolerance]

theorem near_fieldsRP {o o' : BaseRP Bool Rat String} (h : snapRP o' = o) (hx : Within (2 / 10 ^ 8) o.refPoint_X o'.refPoint_X)
    (hy : Within (2 / 10 ^ 8) o.refPoint_Y o'.refPoint_Y) (hz : Within (2 / 10 ^ 8) o.refPoint_Z o'.refPoint_Z) :
    List.Forall₂ (fun p q => p.1 = q.1 ∧ NearJson fr ((none : Option (Rat → Rat)).or (memberTolerance p.1.toList)) p.2 q.2)
      ((fieldsRP scaledRepr o).map (fun p => (p.1, jv fr p.2))) ((fieldsRP scaledRepr o').map (fun p => (p.1, jv fr p.2))) := by
  subst h
  unfold fieldsRP
  simp only [List.map_cons, List.map_nil]
  refine .cons ⟨rfl, .same _⟩ (.cons ⟨rfl, .same _⟩ (.cons ⟨rfl, .same _⟩ (.cons ⟨rfl, .same _⟩ (.cons ⟨rfl, .same _⟩ (.cons ⟨rfl, .same _⟩
    (.cons ⟨rfl, .same _⟩ (.cons ⟨rfl, near_at tol_x ?_⟩ (.cons ⟨rfl, .same _⟩ (.cons ⟨rfl, near_at tol_y ?_⟩ (.cons ⟨rfl, .same _⟩
    (.cons ⟨rfl, near_at tol_z ?_⟩ .nil)))))))))))
  · exact .num (tol := fun _ => 2 / 10 ^ 8) hx
  · exact .num (tol := fun _ => 2 / 10 ^ 8) hy
  · exact .num (tol := fun _ => 2 / 10 ^ 8) hz

theorem jv_intDict {α : Type} (f : α → PyVal) (d : List (Int × α)) :
    jv fr (.dict (d.map (fun p => (.int p.1, f p.2)))) = .obj (d.map (fun p => (decText p.1, jv fr (f p.2)))) := by
  rw [jv]
  congr 1
  induction d with
  | nil => rfl
  | cons p d ih => rw [List.map_cons, List.map_cons, ← ih]; rfl

theorem near_base {b b' : Base.ScaledObj} (h : snapBase b' = b) (hq : List.Forall₂ (Within (baseTolerance b)) (quantities b) (quantities b')) :
    NearJson fr none (jv fr (strDict (baseFields scaledRepr b))) (jv fr (strDict (baseFields scaledRepr b'))) := by
  cases b' with
  | rp o =>
    subst h
    cases hq with | cons hx hq => cases hq with | cons hy hq => cases hq with | cons hz hq =>
    rw [jv_strDict, jv_strDict]
    exact near_jObj (near_fieldsRP rfl hx hy hz)
  | rph o =>
    subst h
    cases hq with | cons hx hq => cases hq with | cons hy hq => cases hq with | cons hz hq => cases hq with | cons hh hq =>
    rw [jv_strDict, jv_strDict]
    unfold snapBase baseFields
    dsimp only
    rw [List.map_append, List.map_append]
    refine near_jObj (List.rel_append (near_fieldsRP rfl hx hy hz) (.cons ⟨rfl, near_at tol_height ?_⟩ .nil))
    exact .num (tol := fun _ => 2 / 10 ^ 8) hh
  | ad o => subst h; exact .same _
  | adsn o => subst h; exact .same _
  | adsnrc o => subst h; exact .same _
  | ts o => subst h; exact .same _
  | sp o =>
    subst h
    rw [jv_strDict, jv_strDict]
    unfold snapBase baseFields
    dsimp only
    simp only [List.map_cons, List.map_nil]
    refine near_jObj (.cons ⟨rfl, .same _⟩ (.cons ⟨rfl, .same _⟩ (.cons ⟨rfl, .same _⟩ (.cons ⟨rfl, .same _⟩ (.cons ⟨rfl, .same _⟩
      (.cons ⟨rfl, .same _⟩ (.cons ⟨rfl, near_at tol_shedule ?_⟩ .nil)))))))
    have hq : List.Forall₂ (Within (2 / 10 ^ 11)) (quantities (snapBase (.sp o))) (quantities (.sp o)) := hq
    unfold quantities snapBase at hq
    dsimp only at hq
    generalize o.shedule = l at hq ⊢
    rw [jv_intDict (fun v : Bool × Rat => .seq [scaledRepr.flag v.1, scaledRepr.num v.2]),
      jv_intDict (fun v : Bool × Rat => .seq [scaledRepr.flag v.1, scaledRepr.num v.2])]
    rw [List.map_map] at hq
    refine near_obj ?_
    induction l with
    | nil => exact .nil
    | cons kv l ih =>
      simp only [List.map_cons] at hq ⊢
      cases hq with | cons hk hq =>
      refine .cons ⟨rfl, ?_⟩ (ih hq)
      exact .item (.same _) (.item (.num hk) (.same _))
  | glbs o =>
    subst h
    rw [jv_strDict, jv_strDict]
    unfold snapBase baseFields
    dsimp only
    simp only [List.map_cons, List.map_nil]
    refine near_jObj (.cons ⟨rfl, .same _⟩ (.cons ⟨rfl, .same _⟩ (.cons ⟨rfl, .same _⟩ (.cons ⟨rfl, .same _⟩
      (.cons ⟨rfl, near_at tol_correction ?_⟩ .nil)))))
    have hq : List.Forall₂ (Within (2 / 10 ^ 11)) (quantities (snapBase (.glbs o))) (quantities (.glbs o)) := hq
    unfold quantities snapBase at hq
    dsimp only at hq
    generalize o.correction = l at hq ⊢
    rw [jv_strDictOf, jv_strDictOf]
    rw [List.map_map] at hq
    refine near_jObj ?_
    induction l with
    | nil => exact .nil
    | cons kv l ih =>
      simp only [List.map_cons] at hq ⊢
      cases hq with | cons hk hq =>
      exact .cons ⟨rfl, .num hk⟩ (ih hq)

/-- The JSON value of an object in double precision. -/
theorem near_json {rnd : Rat → Rat} (h : Nearest rnd) (c : Controls) {o o' : PyObj} (hr : ORel rnd o o') :
    NearJson fr none (jv fr (objVal c o)) (jv fr (objVal c o')) := by
  cases hr with
  | msm hr => exact near_msm h c hr
  | msmBare b => exact .same _
  | baseBare b => exact .same _
  | ephBare e => exact .same _
  | eph o hv => exact near_eph h o hv
  | base b hb ho ho' =>
    have hn := (ORel.base b hb ho ho').near h
    cases hn with
    | same => exact .same _
    | base h1 h2 => exact near_base h1 h2

end Json
end Verif
