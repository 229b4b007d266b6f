import Verif.Lemmas.Compare
import Verif.Model.JsonPrinter

/-!
# C53: `DataClassMethods.compare`

The property does not hold for negative floats: because of `math.fabs(B > f_tolerance)` (line 75) they are compared with the absolute
tolerance. `C53_violated` gives two GPS ephemerides. `C53_partial` covers all other floats; `C53_reflexive` is the first half.
-/

namespace Verif
open Cmp Spec

/-! ## The objects of gnss_types -/

/-- Name of a class. -/
def Cmp.className : Decoder.Cls → String
  | .bareMSM4567 => "BareObservablesMSM4567"
  | .bareMSM123 => "BareObservablesMSM123"
  | .observablesMSM => "ObservablesMSM"
  | .ephGALF => "EphGALF"
  | .ephGALI => "EphGALI"
  | .ephGLO => "EphGLO"
  | .ephGPS => "EphGPS"
  | .ephQZS => "EphQZS"
  | .ephBDS => "EphBDS"
  | .ephNAVIC => "EphNAVIC"
  | .baseRP => "BaseRP"
  | .baseRPH => "BaseRPH"
  | .baseAD => "BaseAD"
  | .baseADSN => "BaseADSN"
  | .baseADSNRC => "BaseADSNRC"
  | .baseSP => "BaseSP"
  | .baseTS => "BaseTS"
  | .baseGLBS => "BaseGLBS"

/-- The dataclasses of gnss_types/ephemeris.py and base_station.py; the bases `DataClassMethods`, `Keplerians`, `ClockBias` and
`EphHdr` have no instances in the program and are left out. `BaseSPitem` is the only dataclass without the methods. -/
def Cmp.gnssClasses : Classes where
  bases c := if c = "BaseRPH" then ["BaseRP"] else if c = "BaseADSN" then ["BaseAD"]
    else if c = "BaseADSNRC" then ["BaseADSN", "BaseAD"] else []
  methods c := c != "BaseSPitem"

/-- A number. -/
def Cmp.ofNum : PyNum → Val
  | .int i => .int i
  | .flt x => .flt (.fin x)

/-- An ephemeris object as a Python value. -/
def Cmp.ofEph (e : Eph.Obj PyNum) : Val := .obj (className (Decoder.ephCls e)) ((Json.ephFields e).map (fun q => (q.1, ofNum q.2)))

mutual
/-- Fields of base station objects; sequences are tuples. -/
def Cmp.ofVal : PyVal → Val
  | .none => .none
  | .bool b => .bool b
  | .int i => .int i
  | .flt x => .flt (.fin x)
  | .str s => .str s
  | .seq l => .tuple (Cmp.ofValList l)
  | .dict d => .dict (Cmp.ofValDict d)
/-- The elements of a sequence. -/
def Cmp.ofValList : List PyVal → List Val
  | [] => []
  | v :: vs => Cmp.ofVal v :: Cmp.ofValList vs
/-- The items of a dictionary. -/
def Cmp.ofValDict : List (PyKey × PyVal) → List (PyKey × Val)
  | [] => []
  | (k, v) :: vs => (k, Cmp.ofVal v) :: Cmp.ofValDict vs
end

/-- A base station object as a Python value. -/
def Cmp.ofBase {β ν σ : Type} (r : Json.BaseRepr β ν σ) (b : Base.Obj β ν σ) : Val :=
  .obj (className (Decoder.baseCls b)) ((Json.baseFields r b).map (fun q => (q.1, ofVal q.2)))

/-! ## Reflexivity -/

/-- **C53, first half.** An object compared with itself is accepted: for every positive tolerance, if it contains neither `None` nor
infinite numbers, and if every object inside it belongs to a class with the methods. -/
theorem C53_reflexive (K : Classes) (tol : Rat) (ht : 0 < tol) (c : String) (fs : List (String × Val)) (hp : Plain (.obj c fs))
    (hm : ∀ p c' fs', p ≠ [] → nodeAt (.obj c fs) p = some (.obj c' fs') → K.methods c' = true) :
    Cmp.compare K (.obj c fs) (.obj c fs) tol = .ok true :=
  compare_refl (sizeFields fs + 1) c fs tol ht (by omega) hp hm

/-! ## Soundness -/

theorem compare_agree {K : Classes} {tol : Rat} {x y : Val} (hn : NoNested x) (hi : Inherits x y)
    (h : Cmp.compare K x y tol = .ok true) : Agree (codeClose tol) x y := by
  unfold Cmp.compare at h
  split at h
  · exact absurd h (by simp)
  · next hinst =>
    split at h
    · next c fs =>
      cases y with
      | obj d gs =>
        have ht := compareFields_true hn h
        refine agree_of_children (by trivial) (fun s => ?_)
        cases s with
        | index n => left; exact ⟨rfl, rfl⟩
        | key k =>
          cases k with
          | int i => left; exact ⟨rfl, rfl⟩
          | str s =>
            cases hs : List.lookup s fs with
            | none =>
              left
              refine ⟨hs, ?_⟩
              show List.lookup s gs = none
              cases hg : List.lookup s gs with
              | none => rfl
              | some w =>
                have := hi s (by rw [hg]; rfl)
                rw [hs] at this
                exact absurd this (by simp)
            | some v =>
              right
              obtain ⟨w, hw, hc⟩ := ht _ (mem_lookup hs)
              refine ⟨v, w, hs, ?_, compareVal_sound hc⟩
              show List.lookup s gs = some w
              simp only [getattr, PyDict.get?] at hw
              split at hw
              · next u hu => rw [hu, Except.ok.inj hw]
              · exact absurd hw (by simp)
      | _ => simp [isInstanceOf] at hinst
    · exact absurd h (by simp)

theorem agree_mono {R S : Fl → Fl → Prop} {x y : Val}
    (h : ∀ a b, R a b → (∃ p, nodeAt y p = some (.flt b)) → S a b) (hxy : Agree R x y) : Agree S x y := by
  intro p
  have hp := hxy p
  cases hx : nodeAt x p with
  | none =>
    rw [hx] at hp
    cases hy : nodeAt y p with
    | none => trivial
    | some b => rw [hy] at hp; cases b <;> simp [SameNode] at hp
  | some a =>
    rw [hx] at hp
    cases hy : nodeAt y p with
    | none => rw [hy] at hp; cases a <;> simp [SameNode] at hp
    | some b =>
      rw [hy] at hp
      cases a <;> cases b <;> simp_all [SameNode]
      exact h _ _ hp p hy

/-- What line 75 of the code makes of the tolerance: relative for numbers above the tolerance, absolute for all others. -/
def Spec.OneSidedClose (tol : Rat) : Fl → Fl → Prop
  | .nan, .nan => True
  | .fin a, .fin b => if b > tol then |b - a| < tol * b else |b - a| < tol
  | _, _ => False

theorem oneSided_of_code {tol : Rat} (ht : 0 < tol) {a b : Fl} (h : codeClose tol a b) : OneSidedClose tol a b := by
  unfold codeClose at h
  cases a <;> cases b <;> simp only [compareFloat, OneSidedClose, Bool.false_eq_true] at h ⊢
  case fin.fin a b =>
    split
    · next hb =>
      rw [if_pos hb] at h
      have h := of_decide_eq_true h
      have hb0 : 0 < b := lt_trans ht hb
      rwa [abs_div, abs_of_pos hb0, div_lt_iff₀ hb0] at h
    · next hb =>
      rw [if_neg hb] at h
      exact of_decide_eq_true h

/-- **C53, second half, as the code is.** If `x.compare(y)` is true then on every path there are nodes of the same kind in both, integers
and texts are equal, and floats are within the one-sided tolerance. -/
theorem C53_sound (K : Classes) (tol : Rat) (ht : 0 < tol) (x y : Val) (hn : NoNested x) (hi : Inherits x y)
    (h : Cmp.compare K x y tol = .ok true) : Agree (OneSidedClose tol) x y :=
  agree_mono (fun _ _ hab _ => oneSided_of_code ht hab) (compare_agree hn hi h)

/-- **C53, second half.** Full statement: if `x.compare(y)` is true then `Agree (RelClose tol) x y`. Missing: numbers of `y` between -1
and minus the tolerance, for which `C53_violated` shows that it is false. -/
theorem C53_partial (K : Classes) (tol : Rat) (ht : 0 < tol) (x y : Val) (hn : NoNested x) (hi : Inherits x y)
    (hpos : ∀ b, Occurs b y → b ≤ -1 ∨ -tol ≤ b)
    (h : Cmp.compare K x y tol = .ok true) : Agree (RelClose tol) x y := by
  refine agree_mono (fun a b hab hocc => ?_) (C53_sound K tol ht x y hn hi h)
  cases a <;> cases b <;> simp only [OneSidedClose, RelClose] at hab ⊢
  case fin.fin a b =>
    rcases hpos b hocc with h1 | h1
    · have hbn : b < 0 := by linarith
      rw [if_neg (by linarith)] at hab
      rw [abs_of_neg hbn]
      split
      · have : tol * 1 ≤ tol * -b := by apply mul_le_mul_of_nonneg_left _ ht.le; linarith
        linarith
      · exact hab
    · by_cases hb : b > tol
      · rw [if_pos hb] at hab
        have : 0 < b := lt_trans ht hb
        rwa [abs_of_pos this, if_pos hb]
      · rw [if_neg hb] at hab
        rwa [if_neg]
        rw [gt_iff_lt, not_lt, abs_le]
        exact ⟨h1, not_lt.1 hb⟩

/-- Integers and texts need no assumption about floats: equal on every path. -/
theorem C53_exact (K : Classes) (tol : Rat) (x y : Val) (hn : NoNested x) (hi : Inherits x y)
    (h : Cmp.compare K x y tol = .ok true) (p : List Step) :
    (∀ i, nodeAt y p = some (.int i) → nodeAt x p = some (.int i) ∨ nodeAt x p = some (.bool true) ∧ i = 1 ∨
      nodeAt x p = some (.bool false) ∧ i = 0) ∧
    (∀ s, nodeAt y p = some (.str s) ↔ nodeAt x p = some (.str s)) := by
  have hp := compare_agree hn hi h p
  cases hx : nodeAt x p with
  | none =>
    rw [hx] at hp
    cases hy : nodeAt y p with
    | none => simp
    | some b => rw [hy] at hp; cases b <;> simp [SameNode] at hp
  | some a =>
    rw [hx] at hp
    cases hy : nodeAt y p with
    | none => rw [hy] at hp; cases a <;> simp [SameNode] at hp
    | some b =>
      rw [hy] at hp
      cases a <;> cases b <;> simp_all [SameNode]


/-! ## The objects of the program -/

theorem plain_leaf {v : Val} (hc : ∀ s, child v s = none) (h1 : v ≠ .none) (h2 : ∀ b, v ≠ .flt (.inf b))
    (h3 : ∀ d, v = .dict d → (d.map Prod.fst).Nodup) (h4 : ∀ c fs, v = .obj c fs → (fs.map Prod.fst).Nodup) : Plain v := by
  have hn : ∀ p w, nodeAt v p = some w → v = w := by
    intro p w hp
    cases p with
    | nil => exact Option.some.inj hp
    | cons s p => simp [nodeAt, hc] at hp
  exact ⟨fun p hp => h1 (hn p _ hp), fun p b hp => h2 b (hn p _ hp), fun p d hp => h3 d (hn p _ hp),
    fun p c fs hp => h4 c fs (hn p _ hp)⟩

theorem plain_children {v : Val} (hc : ∀ s w, child v s = some w → Plain w) (h1 : v ≠ .none) (h2 : ∀ b, v ≠ .flt (.inf b))
    (h3 : ∀ d, v = .dict d → (d.map Prod.fst).Nodup) (h4 : ∀ c fs, v = .obj c fs → (fs.map Prod.fst).Nodup) : Plain v := by
  have hn : ∀ p u, nodeAt v p = some u → v = u ∨ ∃ s w q, child v s = some w ∧ nodeAt w q = some u := by
    intro p u hp
    cases p with
    | nil => exact .inl (Option.some.inj hp)
    | cons s p =>
      cases hs : child v s with
      | none => simp [nodeAt, hs] at hp
      | some w =>
        rw [nodeAt, hs] at hp
        exact .inr ⟨s, w, p, hs, hp⟩
  constructor
  · intro p hp
    rcases hn p _ hp with h | ⟨s, w, q, hs, hq⟩
    · exact h1 h
    · exact (hc s w hs).noNone q hq
  · intro p b hp
    rcases hn p _ hp with h | ⟨s, w, q, hs, hq⟩
    · exact h2 b h
    · exact (hc s w hs).noInf q b hq
  · intro p d hp
    rcases hn p _ hp with h | ⟨s, w, q, hs, hq⟩
    · exact h3 d h
    · exact (hc s w hs).keys q d hq
  · intro p c fs hp
    rcases hn p _ hp with h | ⟨s, w, q, hs, hq⟩
    · exact h4 c fs h
    · exact (hc s w hs).names q c fs hq

theorem plain_obj {c : String} {fs : List (String × Val)} (hk : (fs.map Prod.fst).Nodup) (h : ∀ q ∈ fs, Plain q.2) :
    Plain (.obj c fs) := by
  refine plain_children ?_ (by simp) (by simp) (by simp) (by rintro _ _ ⟨⟩; exact hk)
  intro s w hw
  cases s with
  | index n => exact absurd hw (by simp [child])
  | key k =>
    cases k with
    | int i => exact absurd hw (by simp [child])
    | str s => exact h (s, w) (mem_lookup (show List.lookup s fs = some w from hw))

theorem plain_dict {d : List (PyKey × Val)} (hk : (d.map Prod.fst).Nodup) (h : ∀ q ∈ d, Plain q.2) : Plain (.dict d) := by
  refine plain_children ?_ (by simp) (by simp) (by rintro _ ⟨⟩; exact hk) (by simp)
  intro s w hw
  cases s with
  | index n => exact absurd hw (by simp [child])
  | key k => exact h (k, w) (mem_lookup (show List.lookup k d = some w from hw))

theorem plain_tuple {l : List Val} (h : ∀ v ∈ l, Plain v) : Plain (.tuple l) := by
  refine plain_children ?_ (by simp) (by simp) (by simp) (by simp)
  intro s w hw
  cases s with
  | index n => exact h w (List.mem_of_getElem? (show l[n]? = some w from hw))
  | key k => exact absurd hw (by simp [child])

theorem plain_int (i : Int) : Plain (.int i) :=
  plain_leaf (by intro s; cases s <;> rfl) (by simp) (by simp) (by simp) (by simp)
theorem plain_bool (i : Bool) : Plain (.bool i) :=
  plain_leaf (by intro s; cases s <;> rfl) (by simp) (by simp) (by simp) (by simp)
theorem plain_str (i : String) : Plain (.str i) :=
  plain_leaf (by intro s; cases s <;> rfl) (by simp) (by simp) (by simp) (by simp)
theorem plain_fin (x : Rat) : Plain (.flt (.fin x)) :=
  plain_leaf (by intro s; cases s <;> rfl) (by simp) (by simp) (by simp) (by simp)

theorem plain_num (x : PyNum) : Plain (Cmp.ofNum x) := by
  cases x
  · exact plain_int _
  · exact plain_fin _

theorem ephNames_nodup (e : Eph.Obj PyNum) : ((Json.ephFields e).map Prod.fst).Nodup := by
  cases e <;> simp only [Json.ephFields, Json.fieldsGPS, Json.fieldsGLO, Json.fieldsNAVIC, Json.fieldsBDS, Json.fieldsQZS, Json.fieldsGALF,
    Json.fieldsGALI, List.map_cons, List.map_nil] <;> decide

theorem plain_ofEph (e : Eph.Obj PyNum) : Plain (ofEph e) := by
  refine plain_obj ?_ ?_
  · rw [List.map_map]
    exact ephNames_nodup e
  · intro q hq
    obtain ⟨q', _, rfl⟩ := List.mem_map.1 hq
    exact plain_num _

theorem noNested_ofEph (e : Eph.Obj PyNum) : NoNested (ofEph e) := by
  intro q hq
  obtain ⟨q', _, rfl⟩ := List.mem_map.1 hq
  cases q'.2 <;> rfl

theorem node_isObj {c : String} {fs : List (String × Val)} (h : ∀ q ∈ fs, ∀ p, ∀ c' fs', nodeAt q.2 p ≠ some (.obj c' fs'))
    {p : List Step} {c' : String} {fs' : List (String × Val)} (hp : p ≠ []) : nodeAt (.obj c fs) p ≠ some (.obj c' fs') := by
  intro hn
  cases p with
  | nil => exact hp rfl
  | cons s p =>
    cases s with
    | index n => simp [nodeAt, child] at hn
    | key k =>
      cases k with
      | int i => simp [nodeAt, child] at hn
      | str s =>
        cases hs : List.lookup s fs with
        | none => simp [nodeAt, child, hs] at hn
        | some w =>
          have : nodeAt w p = some (.obj c' fs') := by simpa [nodeAt, child, hs] using hn
          exact h (s, w) (mem_lookup hs) p c' fs' this

/-- Every decoded ephemeris compares equal to itself. -/
theorem C53_ephemeris_reflexive (tol : Rat) (ht : 0 < tol) (e : Eph.Obj PyNum) :
    Cmp.compare gnssClasses (ofEph e) (ofEph e) tol = .ok true := by
  refine C53_reflexive _ _ ht _ _ (plain_ofEph e) ?_
  intro p c' fs' hp hn
  refine absurd hn (node_isObj ?_ hp)
  intro q hq p c' fs'
  obtain ⟨q', _, rfl⟩ := List.mem_map.1 hq
  cases hx : q'.2 <;> cases p <;> simp [Cmp.ofNum, nodeAt, child, hx]

/-! ### Integer ephemerides -/

theorem zip_lookup {α : Type} : ∀ {d e : List (String × α)}, d.map Prod.fst = e.map Prod.fst → (d.map Prod.fst).Nodup →
    (∀ s, List.lookup s d = List.lookup s e) → d = e
  | [], [], _, _, _ => rfl
  | [], _ :: _, h, _, _ => by simp at h
  | _ :: _, [], h, _, _ => by simp at h
  | (k, v) :: d, (k', v') :: e, h, hn, hl => by
    simp only [List.map_cons, List.cons.injEq] at h
    obtain ⟨rfl, h⟩ := h
    rw [List.map_cons, List.nodup_cons] at hn
    have h0 := hl k
    simp only [List.lookup_cons, beq_self_eq_true] at h0
    have := Option.some.inj h0
    subst this
    congr 1
    refine zip_lookup h hn.2 (fun s => ?_)
    by_cases hs : s = k
    · subst hs
      have h1 : ∀ {l : List (String × α)}, s ∉ l.map Prod.fst → List.lookup s l = none := by
        intro l hl
        cases hx : List.lookup s l with
        | none => rfl
        | some w => exact absurd (List.mem_map_of_mem (f := Prod.fst) (mem_lookup hx)) hl
      rw [h1 hn.1, h1 (h ▸ hn.1)]
    · have h1 := hl s
      rw [List.lookup_cons, List.lookup_cons, show (s == k) = false by simp [hs]] at h1
      exact h1

theorem className_inj : ∀ {c d : Decoder.Cls}, className c = className d → c = d := by
  intro c d h
  cases c <;> cases d <;> first | rfl | exact absurd h (by decide)

theorem ephNames_eq {e f : Eph.Obj PyNum} (h : Decoder.ephCls e = Decoder.ephCls f) :
    (Json.ephFields e).map Prod.fst = (Json.ephFields f).map Prod.fst := by
  cases e <;> cases f <;> first | (simp [Decoder.ephCls] at h; done) | rfl

theorem gnss_eph_class {e f : Eph.Obj PyNum} (h : isInstanceOf gnssClasses (ofEph e) (ofEph f) = true) :
    Decoder.ephCls e = Decoder.ephCls f := by
  simp only [ofEph, isInstanceOf, Bool.or_eq_true, beq_iff_eq] at h
  rcases h with h | h
  · exact className_inj h
  · exfalso
    revert h
    cases e <;> simp [gnssClasses, Decoder.ephCls, className]

theorem compare_instance {K : Classes} {x y : Val} {tol : Rat} (h : Cmp.compare K x y tol = .ok true) : isInstanceOf K x y = true := by
  unfold Cmp.compare at h
  split at h
  · exact absurd h (by simp)
  · next hi => simpa using hi

theorem lookup_map_snd {α β : Type} (f : α → β) (s : String) : ∀ d : List (String × α),
    List.lookup s (d.map (fun q => (q.1, f q.2))) = (List.lookup s d).map f
  | [] => rfl
  | (k, v) :: d => by
    rw [List.map_cons, List.lookup_cons, List.lookup_cons]
    cases (s == k) with
    | true => rfl
    | false => exact lookup_map_snd f s d

theorem inherits_ofEph {e f : Eph.Obj PyNum} (hc : Decoder.ephCls e = Decoder.ephCls f) : Inherits (ofEph e) (ofEph f) := by
  have hnames := ephNames_eq hc
  intro s hs
  simp only [lookup_map_snd, Option.isSome_map] at hs ⊢
  obtain ⟨w, hw⟩ := Option.isSome_iff_exists.1 hs
  have h1 : s ∈ (Json.ephFields e).map Prod.fst := hnames ▸ List.mem_map_of_mem (f := Prod.fst) (mem_lookup hw)
  obtain ⟨q, hq, rfl⟩ := List.mem_map.1 h1
  rw [lookup_of_nodup (ephNames_nodup e) q hq]
  rfl

/-- Ephemerides whose fields are integers (bare mode, `JSON-B`) compare equal exactly if they are of the same class and all fields
are equal. -/
theorem C53_integer_ephemeris (tol : Rat) (ht : 0 < tol) (e f : Eph.Obj PyNum) (hint : ∀ q ∈ Json.ephFields e, ∃ i, q.2 = .int i) :
    Cmp.compare gnssClasses (ofEph e) (ofEph f) tol = .ok true ↔
      Decoder.ephCls e = Decoder.ephCls f ∧ Json.ephFields e = Json.ephFields f := by
  constructor
  · intro h
    have hc := gnss_eph_class (compare_instance h)
    refine ⟨hc, zip_lookup (ephNames_eq hc) (ephNames_nodup e) (fun s => ?_)⟩
    have hi := inherits_ofEph hc
    have hp := compare_agree (noNested_ofEph e) hi h [.key (.str s)]
    have e1 : ∀ g : Eph.Obj PyNum, nodeAt (ofEph g) [.key (.str s)] = (List.lookup s (Json.ephFields g)).map Cmp.ofNum := by
      intro g
      simp only [nodeAt, ofEph, child, lookup_map_snd]
      cases List.lookup s (Json.ephFields g) <;> rfl
    rw [e1, e1] at hp
    cases hx : List.lookup s (Json.ephFields e) with
    | none =>
      rw [hx] at hp
      cases hy : List.lookup s (Json.ephFields f) with
      | none => rfl
      | some b => rw [hy] at hp; cases b <;> simp [SameNode, Cmp.ofNum] at hp
    | some a =>
      obtain ⟨i, hi'⟩ := hint _ (mem_lookup hx)
      dsimp only at hi'
      subst hi'
      rw [hx] at hp
      cases hy : List.lookup s (Json.ephFields f) with
      | none => rw [hy] at hp; simp [SameNode, Cmp.ofNum] at hp
      | some b =>
        rw [hy] at hp
        cases b with
        | int j => simp only [Option.map_some, Cmp.ofNum, SameNode] at hp; rw [hp]
        | flt x => simp [SameNode, Cmp.ofNum] at hp
  · rintro ⟨hc, hf⟩
    have : ofEph e = ofEph f := by simp only [ofEph, hc, hf]
    rw [← this]
    exact C53_ephemeris_reflexive tol ht e

/-! ### Base station objects -/

theorem ofValDict_eq (d : List (PyKey × PyVal)) : ofValDict d = d.map (fun q => (q.1, ofVal q.2)) := by
  induction d with
  | nil => simp [ofValDict]
  | cons q d ih => obtain ⟨k, v⟩ := q; simp [ofValDict, ih]

theorem ofValList_eq (d : List PyVal) : ofValList d = d.map ofVal := by
  induction d with
  | nil => simp [ofValList]
  | cons q d ih => simp [ofValList, ih]

/-- A value without `None` whose dictionaries have each key once, and which is no object. -/
def Cmp.Good (v : PyVal) : Prop := Plain (ofVal v) ∧ ∀ p c fs, nodeAt (ofVal v) p ≠ some (.obj c fs)

theorem good_int (i : Int) : Good (.int i) :=
  ⟨by simpa [ofVal] using plain_int i, by intro p c fs; cases p with
    | nil => simp [ofVal, nodeAt]
    | cons s p => cases s <;> simp [ofVal, nodeAt, child]⟩
theorem good_bool (i : Bool) : Good (.bool i) :=
  ⟨by simpa [ofVal] using plain_bool i, by intro p c fs; cases p with
    | nil => simp [ofVal, nodeAt]
    | cons s p => cases s <;> simp [ofVal, nodeAt, child]⟩
theorem good_str (i : String) : Good (.str i) :=
  ⟨by simpa [ofVal] using plain_str i, by intro p c fs; cases p with
    | nil => simp [ofVal, nodeAt]
    | cons s p => cases s <;> simp [ofVal, nodeAt, child]⟩
theorem good_flt (i : Rat) : Good (.flt i) :=
  ⟨by simpa [ofVal] using plain_fin i, by intro p c fs; cases p with
    | nil => simp [ofVal, nodeAt]
    | cons s p => cases s <;> simp [ofVal, nodeAt, child]⟩

theorem good_dict {d : List (PyKey × PyVal)} (hk : (d.map Prod.fst).Nodup) (h : ∀ q ∈ d, Good q.2) : Good (.dict d) := by
  constructor
  · rw [ofVal, ofValDict_eq]
    refine plain_dict (by rw [List.map_map]; exact hk) ?_
    intro q hq
    obtain ⟨q', hq', rfl⟩ := List.mem_map.1 hq
    exact (h q' hq').1
  · intro p c fs
    rw [ofVal, ofValDict_eq]
    cases p with
    | nil => simp [nodeAt]
    | cons s p =>
      cases s with
      | index n => simp [nodeAt, child]
      | key k =>
        simp only [nodeAt, child]
        cases hl : List.lookup k (d.map (fun q => (q.1, ofVal q.2))) with
        | none => simp
        | some w =>
          obtain ⟨q', hq', e⟩ := List.mem_map.1 (mem_lookup hl)
          rw [Option.bind_some]
          obtain ⟨_, rfl⟩ := Prod.mk.inj e
          exact (h q' hq').2 p c fs

theorem good_seq {l : List PyVal} (h : ∀ v ∈ l, Good v) : Good (.seq l) := by
  constructor
  · rw [ofVal, ofValList_eq]
    refine plain_tuple ?_
    intro v hv
    obtain ⟨v', hv', rfl⟩ := List.mem_map.1 hv
    exact (h v' hv').1
  · intro p c fs
    rw [ofVal, ofValList_eq]
    cases p with
    | nil => simp [nodeAt]
    | cons s p =>
      cases s with
      | key n => simp [nodeAt, child]
      | index n =>
        simp only [nodeAt, child]
        cases hl : (l.map ofVal)[n]? with
        | none => simp
        | some w =>
          obtain ⟨v', hv', rfl⟩ := List.mem_map.1 (List.mem_of_getElem? hl)
          rw [Option.bind_some]
          exact (h v' hv').2 p c fs

/-- The dictionaries of a base station object have each key once. -/
def Cmp.UniqueKeys {β ν σ : Type} : Base.Obj β ν σ → Prop
  | .sp o => (o.shedule.map Prod.fst).Nodup
  | .glbs o => (o.validity.map Prod.fst).Nodup ∧ (o.correction.map Prod.fst).Nodup
  | _ => True

section
variable {β ν σ : Type} (r : Json.BaseRepr β ν σ) (h1 : ∀ b, Good (r.flag b)) (h2 : ∀ b, Good (r.num b)) (h3 : ∀ b, Good (r.txt b))
include h1 h2 h3

theorem good_fieldsRP (o : BaseRP β ν σ) : ∀ q ∈ Json.fieldsRP r o, Good q.2 := by
  simp only [Json.fieldsRP, List.mem_cons, List.not_mem_nil, or_false, forall_eq_or_imp, forall_eq]
  simp only [good_int, h1, h2, h3, and_self]

theorem good_fields {o : Base.Obj β ν σ} (hu : UniqueKeys o) : ∀ q ∈ Json.baseFields r o, Good q.2 := by
  have hAD : ∀ o : BaseAD, ∀ q ∈ Json.fieldsAD o, Good q.2 := by
    intro o
    simp only [Json.fieldsAD, List.mem_cons, List.not_mem_nil, or_false, forall_eq_or_imp, forall_eq, good_int, good_str, and_self]
  have hADSN : ∀ o : BaseADSN, ∀ q ∈ Json.fieldsADSN o, Good q.2 := by
    intro o q hq
    rcases List.mem_append.1 hq with hq' | hq'
    · exact hAD _ q hq'
    · clear hq
      revert q hq'
      simp only [List.mem_cons, List.not_mem_nil, or_false, forall_eq_or_imp, forall_eq, good_int, good_str, and_self]
  cases o with
  | rp o => exact good_fieldsRP r h1 h2 h3 o
  | rph o =>
    intro q hq
    rcases List.mem_append.1 hq with hq | hq
    · exact good_fieldsRP r h1 h2 h3 o.rp q hq
    · rw [List.mem_singleton] at hq
      subst hq
      exact h2 _
  | ad o => exact hAD o
  | adsn o => exact hADSN o
  | adsnrc o =>
    intro q hq
    rcases List.mem_append.1 hq with hq' | hq'
    · exact hADSN _ q hq'
    · clear hq
      revert q hq'
      simp only [List.mem_cons, List.not_mem_nil, or_false, forall_eq_or_imp, forall_eq, good_int, good_str, and_self]
  | sp o =>
    simp only [Json.baseFields, List.mem_cons, List.not_mem_nil, or_false, forall_eq_or_imp, forall_eq, good_int, true_and]
    refine good_dict ?_ ?_
    · rw [List.map_map, show (Prod.fst ∘ fun p : Int × (β × ν) => (PyKey.int p.1, PyVal.seq [r.flag p.2.1, r.num p.2.2])) =
        PyKey.int ∘ Prod.fst from rfl, ← List.map_map]
      exact List.Nodup.map (fun a b h => PyKey.int.inj h) hu
    · intro q hq
      obtain ⟨q', _, rfl⟩ := List.mem_map.1 hq
      refine good_seq ?_
      simp only [List.mem_cons, List.not_mem_nil, or_false, forall_eq_or_imp, forall_eq, h1, h2, and_self]
  | ts o =>
    simp only [Json.baseFields, List.mem_cons, List.not_mem_nil, or_false, forall_eq_or_imp, forall_eq, good_int, good_str, and_self]
  | glbs o =>
    have hd : ∀ {α : Type} (f : α → PyVal), (∀ a, Good (f a)) → ∀ d : PyDict String α, (d.map Prod.fst).Nodup → Good (Json.strDictOf f d) := by
      intro α f hf d hd
      refine good_dict ?_ ?_
      · rw [List.map_map, show (Prod.fst ∘ fun p : String × α => (PyKey.str p.1, f p.2)) = PyKey.str ∘ Prod.fst from rfl,
          ← List.map_map]
        exact List.Nodup.map (fun a b h => PyKey.str.inj h) hd
      · intro q hq
        obtain ⟨q', _, rfl⟩ := List.mem_map.1 hq
        exact hf _
    simp only [Json.baseFields, List.mem_cons, List.not_mem_nil, or_false, forall_eq_or_imp, forall_eq, good_int, true_and, h1]
    exact ⟨hd _ h1 _ hu.1, hd _ h2 _ hu.2⟩

omit h1 h2 h3 in
theorem baseNames_nodup (o : Base.Obj β ν σ) : ((Json.baseFields r o).map Prod.fst).Nodup := by
  cases o <;> simp only [Json.baseFields, Json.fieldsRP, Json.fieldsAD, Json.fieldsADSN, List.map_append, List.map_cons, List.map_nil,
    List.cons_append, List.nil_append] <;> decide

theorem base_reflexive (tol : Rat) (ht : 0 < tol) {o : Base.Obj β ν σ} (hu : UniqueKeys o) :
    Cmp.compare gnssClasses (ofBase r o) (ofBase r o) tol = .ok true := by
  have hg := good_fields r h1 h2 h3 hu
  refine C53_reflexive _ _ ht _ _ (plain_obj ?_ ?_) ?_
  · rw [List.map_map]
    exact baseNames_nodup r o
  · intro q hq
    obtain ⟨q', hq', rfl⟩ := List.mem_map.1 hq
    exact (hg q' hq').1
  · intro p c' fs' hp hn
    refine absurd hn (node_isObj ?_ hp)
    intro q hq p c' fs'
    obtain ⟨q', hq', rfl⟩ := List.mem_map.1 hq
    exact (hg q' hq').2 p c' fs'
end

/-- Every base station object compares equal to itself, in bare and in scaled form. -/
theorem C53_base_reflexive (tol : Rat) (ht : 0 < tol) :
    (∀ o : Base.BareObj, UniqueKeys o → Cmp.compare gnssClasses (ofBase Json.bareRepr o) (ofBase Json.bareRepr o) tol = .ok true) ∧
    (∀ o : Base.ScaledObj, UniqueKeys o → Cmp.compare gnssClasses (ofBase Json.scaledRepr o) (ofBase Json.scaledRepr o) tol = .ok true) :=
  ⟨fun _ hu => base_reflexive _ good_int good_int good_int tol ht hu,
    fun _ hu => base_reflexive _ good_bool good_flt good_str tol ht hu⟩

/-! ## Counterexamples -/

theorem compareFields_of {K : Classes} {tol : Rat} {refs : Val} : ∀ {fs : List (String × Val)},
    (∀ q ∈ fs, isDataclass q.2 = false ∧ ∃ w, getattr refs q.1 = .ok w ∧ compareVal K tol q.2 w = .ok true) →
    compareFields K fs refs tol = .ok true
  | [], _ => by rw [compareFields]
  | (k, v) :: rest, h => by
    obtain ⟨h0, w, hw, hc⟩ := h (k, v) List.mem_cons_self
    have hr := compareFields_of (K := K) (tol := tol) (refs := refs) (fs := rest) (fun q hq => h q (List.mem_cons_of_mem _ hq))
    rw [compareFields, hw, ok_bind]
    cases v with
    | obj c fs => simp [isDataclass] at h0
    | _ => dsimp only at hc ⊢; rw [hc, ok_bind]; exact hr

theorem compareVal_int (K : Classes) (tol : Rat) (i j : Int) : compareVal K tol (.int i) (.int j) = .ok (decide (i = j)) := by
  simp [compareVal, isInstanceOf]

theorem compareVal_flt (K : Classes) (tol : Rat) (x y : Fl) : compareVal K tol (.flt x) (.flt y) = .ok (compareFloat tol x y) := by
  simp [compareVal, isInstanceOf]

/-- Two numbers are accepted. -/
def Cmp.numOk (tol : Rat) : PyNum → PyNum → Bool
  | .int i, .int j => i == j
  | .flt x, .flt y => compareFloat tol (.fin x) (.fin y)
  | _, _ => false

theorem eph_accepted {tol : Rat} {e f : Eph.Obj PyNum} (hc : Decoder.ephCls e = Decoder.ephCls f)
    (h : ∀ q ∈ (Json.ephFields e), ∃ y, List.lookup q.1 (Json.ephFields f) = some y ∧ numOk tol q.2 y = true) :
    Cmp.compare gnssClasses (ofEph e) (ofEph f) tol = .ok true := by
  have hi : isInstanceOf gnssClasses (ofEph e) (ofEph f) = true := by simp [ofEph, isInstanceOf, hc]
  unfold Cmp.compare
  rw [hi]
  refine compareFields_of ?_
  intro q hq
  obtain ⟨q', hq', rfl⟩ := List.mem_map.1 hq
  obtain ⟨y, hy, hok⟩ := h q' hq'
  refine ⟨by cases q'.2 <;> rfl, Cmp.ofNum y, ?_, ?_⟩
  · simp only [getattr, ofEph, PyDict.get?, lookup_map_snd, hy, Option.map_some]
  · revert hok
    cases q'.2 <;> cases y <;> simp [numOk, Cmp.ofNum, compareVal_int, compareVal_flt]

/-- A GPS ephemeris with transmitted clock drift rate `n`; `af2` is `n * 2 ** -55` (sub_decoders/RTCM_EPH.py). -/
def exGpsAf2 (n : Int) : EphGPS PyNum where
  msgNum := .int 1019
  satNum := .int 7
  weekNum := .int 100
  tc := .int 16
  af0 := .flt (1 / 2 ^ 31)
  af1 := .flt 0
  af2 := .flt (n / 2 ^ 55)
  te := .int 16
  delta_n := .flt 0
  m0 := .flt 0
  e := .flt 0
  sqrt_a := .flt 5153
  w := .flt 0
  i0 := .flt 0
  i_dot := .flt 0
  omega0 := .flt 0
  omega_dot := .flt 0
  crs := .flt 0
  crc := .flt 0
  cuc := .flt 0
  cus := .flt 0
  cic := .flt 0
  cis := .flt 0
  IODE := .int 1
  IODC := .int 1
  Fit := .int 0
  L2_Codes := .int 1
  L2P_Data := .int 0
  SVH := .int 0
  URA := .int 2
  TGD := .flt 0

theorem exGps_accepted : Cmp.compare gnssClasses (ofEph (.gps (exGpsAf2 (-120)))) (ofEph (.gps (exGpsAf2 (-119)))) DEF_FLOAT_CMP_TOLR = .ok true := by
  refine eph_accepted rfl ?_
  have : ∀ q ∈ Json.ephFields (.gps (exGpsAf2 (-120))), (match List.lookup q.1 (Json.ephFields (.gps (exGpsAf2 (-119)))) with
      | some y => numOk DEF_FLOAT_CMP_TOLR q.2 y | none => false) = true := by decide +kernel
  intro q hq
  have := this q hq
  split at this
  · next y hy => exact ⟨y, hy, this⟩
  · exact absurd this (by simp)

theorem C53_violated_aux : Cmp.compare gnssClasses (ofEph (.gps (exGpsAf2 (-120)))) (ofEph (.gps (exGpsAf2 (-119)))) DEF_FLOAT_CMP_TOLR = .ok true ∧
    ¬ Agree (RelClose DEF_FLOAT_CMP_TOLR) (ofEph (.gps (exGpsAf2 (-120)))) (ofEph (.gps (exGpsAf2 (-119)))) := by
  refine ⟨exGps_accepted, fun h => ?_⟩
  have h1 := h [.key (.str "af2")]
  have e1 : ∀ n, nodeAt (ofEph (.gps (exGpsAf2 n))) [.key (.str "af2")] = some (.flt (.fin (n / 2 ^ 55))) := fun n => rfl
  rw [e1, e1] at h1
  simp only [SameNode, RelClose, DEF_FLOAT_CMP_TOLR] at h1
  norm_num [abs_of_neg, abs_of_pos] at h1

/-- **C53 does not hold.** Two objects without nested objects, `None` or infinite numbers, of the same class, that `compare` accepts with the
default tolerance although a float differs by more than the relative tolerance: GPS ephemerides with transmitted clock drift rates -120
and -119. -/
theorem C53_violated : ∃ x y : Val, Plain x ∧ Plain y ∧ NoNested x ∧ Inherits x y ∧
    Cmp.compare gnssClasses x y = .ok true ∧ ¬ Agree (RelClose DEF_FLOAT_CMP_TOLR) x y :=
  ⟨_, _, plain_ofEph _, plain_ofEph _, noNested_ofEph _, inherits_ofEph (by rfl),
    C53_violated_aux⟩

/-- An object with an infinite number is not equal to itself: `C53_reflexive` needs its assumption. -/
theorem C53_infinite : Cmp.compare gnssClasses (.obj "EphGPS" [("af0", .flt (.inf false))]) (.obj "EphGPS" [("af0", .flt (.inf false))]) =
    .ok false := by
  simp [Cmp.compare, isInstanceOf, compareFields, getattr, PyDict.get?, compareVal_flt, compareFloat, ok_bind, pure, Except.pure]

/-- A base station position with height (1006) compared with one without (1005): `AttributeError`, since the `except` clause of line 112
waits for an `IndexError`. Compared the other way round the answer is false. -/
theorem C53_raises (x : BaseRPH Int Int Int) :
    Cmp.compare gnssClasses (ofBase Json.bareRepr (.rph x)) (ofBase Json.bareRepr (.rp x.rp)) = .error .attributeError ∧
    Cmp.compare gnssClasses (ofBase Json.bareRepr (.rp x.rp)) (ofBase Json.bareRepr (.rph x)) = .ok false := by
  constructor
  · simp [ofBase, Json.baseFields, Json.fieldsRP, Json.bareRepr, Decoder.baseCls, className, ofVal, Cmp.compare, isInstanceOf, gnssClasses,
      compareFields, getattr, PyDict.get?, List.lookup_cons, ok_bind, err_bind, compareVal_int]
  · simp [ofBase, Decoder.baseCls, className, Cmp.compare, isInstanceOf, gnssClasses]

/-- An attribute that is an object of a class without the methods makes every comparison fail. -/
theorem C53_item (o : Val) (ho : ∃ fs, o = .obj "BaseSPitem" fs) : Cmp.compare gnssClasses (.obj "X" [("item", o)]) (.obj "X" [("item", o)]) = .ok false := by
  obtain ⟨fs, rfl⟩ := ho
  simp [Cmp.compare, isInstanceOf, compareFields, getattr, PyDict.get?, gnssClasses, ok_bind, pure, Except.pure]

/-! ## The assumptions are satisfiable -/

/-- Positive clock drift rates: `C53_partial` applies and tells 120 from 119. -/
example : Cmp.compare gnssClasses (ofEph (.gps (exGpsAf2 120))) (ofEph (.gps (exGpsAf2 119))) ≠ .ok true := by
  intro h
  have ha := C53_partial gnssClasses DEF_FLOAT_CMP_TOLR (by norm_num [DEF_FLOAT_CMP_TOLR]) _ _ (noNested_ofEph _) (inherits_ofEph (by rfl)) ?_ h
    [.key (.str "af2")]
  · have e1 : ∀ n, nodeAt (ofEph (.gps (exGpsAf2 n))) [.key (.str "af2")] = some (.flt (.fin (n / 2 ^ 55))) := fun n => rfl
    rw [e1, e1] at ha
    simp only [SameNode, RelClose, DEF_FLOAT_CMP_TOLR] at ha
    norm_num [abs_of_neg, abs_of_pos] at ha
  · rintro b ⟨p, hp⟩
    right
    have key : ∀ q ∈ Json.ephFields (.gps (exGpsAf2 119)), ∀ x, q.2 = .flt x → 0 ≤ x := by
      simp only [Json.ephFields, Json.fieldsGPS, exGpsAf2, List.mem_cons, List.not_mem_nil, or_false, forall_eq_or_imp, forall_eq,
        reduceCtorEq, false_imp_iff, implies_true, PyNum.flt.injEq, true_and, and_true]
      norm_num
    cases p with
    | nil => simp [nodeAt, ofEph] at hp
    | cons s p =>
      cases s with
      | index n => simp [nodeAt, ofEph, child] at hp
      | key k =>
        cases k with
        | int i => simp [nodeAt, ofEph, child] at hp
        | str s =>
          simp only [nodeAt, ofEph, child, lookup_map_snd] at hp
          cases hl : List.lookup s (Json.ephFields (.gps (exGpsAf2 119))) with
          | none => simp [hl] at hp
          | some y =>
            rw [hl] at hp
            cases y with
            | int i => cases p <;> simp [Cmp.ofNum, nodeAt, child] at hp
            | flt x =>
              cases p with
              | nil =>
                simp only [Cmp.ofNum, nodeAt, Option.map_some, Option.bind_some, Option.some.injEq, Val.flt.injEq, Fl.fin.injEq] at hp
                have := key _ (mem_lookup hl) x rfl
                subst hp
                have ht : (0 : Rat) < DEF_FLOAT_CMP_TOLR := by norm_num [DEF_FLOAT_CMP_TOLR]
                linarith
              | cons s p => simp [Cmp.ofNum, nodeAt, child] at hp

/-- An integer ephemeris. -/
example : ∀ q ∈ Json.ephFields (.navic (ν := PyNum) ⟨.int 1, .int 1, .int 1, .int 1, .int 1, .int 1, .int 1, .int 1, .int 1, .int 1, .int 1, .int 1,
    .int 1, .int 1, .int 1, .int 1, .int 1, .int 1, .int 1, .int 1, .int 1, .int 1, .int 1, .int 1, .int 1, .int 1, .int 1, .int 1⟩), ∃ i, q.2 = .int i := by
  simp [Json.ephFields, Json.fieldsNAVIC]

end Verif
