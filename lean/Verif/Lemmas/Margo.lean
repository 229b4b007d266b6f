import Verif.Model.MargoPrinter
import Verif.Spec.Margo
import Verif.Lemmas.Dict
import Verif.Lemmas.MsmObject

/-!
# Lemmas about the MARGO printer
-/

namespace Verif
open Spec Decoder

namespace Margo

/-- A column as number, `none` is NaN. -/
def Cell.val : Cell → Option Rat
  | .num x => some x
  | .negZero => some 0
  | .nan => none

/-- A column of a kind from a number; a Doppler of zero is the negative zero. -/
def ofVal (k : ObsKind) : Option Rat → Cell
  | some x => if k = .doppler ∧ x = 0 then .negZero else .num x
  | none => .nan

/-- The column of a satellite; a Doppler of zero is the negative zero if the wave length is positive. -/
def cellOf (m : MargoSettings) (g : Nat) (p : Msm.ObservablesMSM) (k : ObsKind) (slot : String) (sat : Nat) : Cell :=
  match margoCell m g p k slot sat with
  | some x => if k = .doppler ∧ x = 0 ∧ 0 < waveLength m.channel g slot sat then .negZero else .num x
  | none => .nan

theorem val_cellOf (m : MargoSettings) (g : Nat) (p : Msm.ObservablesMSM) (k : ObsKind) (slot : String) (sat : Nat) :
    (cellOf m g p k slot sat).val = margoCell m g p k slot sat := by
  unfold cellOf
  cases margoCell m g p k slot sat with
  | none => rfl
  | some x =>
    dsimp only
    split_ifs with h
    · rw [h.2.1]; rfl
    · rfl

theorem cellOf_ofVal {m : MargoSettings} {g : Nat} {p : Msm.ObservablesMSM} {k : ObsKind} {slot : String} {sat : Nat}
    (h : k = .doppler → 0 < waveLength m.channel g slot sat) :
    cellOf m g p k slot sat = ofVal k (margoCell m g p k slot sat) := by
  unfold cellOf ofVal
  cases margoCell m g p k slot sat with
  | none => rfl
  | some x =>
    dsimp only
    congr 1
    apply propext
    constructor
    · exact fun e => ⟨e.1, e.2.1⟩
    · exact fun e => ⟨e.1, e.2, h e.1⟩

theorem cellOf_plain {m : MargoSettings} {g : Nat} {p : Msm.ObservablesMSM} {k : ObsKind} {slot : String} {sat : Nat} (h : k ≠ .doppler) :
    cellOf m g p k slot sat = ofVal k (margoCell m g p k slot sat) := cellOf_ofVal (fun e => absurd e h)

theorem set_fresh {κ α : Type} [BEq κ] [LawfulBEq κ] [DecidableEq κ] (d : PyDict κ α) (k : κ) (v : α) (h : k ∉ PyDict.keys d) :
    d.set k v = d ++ [(k, v)] := by
  unfold PyDict.set
  rw [if_neg]
  intro hm
  exact h ((PyDict.get?_isSome_iff d k).1 hm)

theorem columns_ok (n : Nat) (f : Nat → Py Cell) (g : Nat → Cell) (h : ∀ i, i < n → f (i + 1) = .ok (g (i + 1))) :
    columns n f = .ok ((List.range n).map (fun i => g (i + 1))) := by
  unfold columns
  exact mapM_ok' _ _ _ (fun i hi => h i (by simpa using hi))

theorem slotLoop_ok {α : Type} (gnss param subset : String) (time : Int) (n : Nat)
    (cell : String → PyDict Nat α → Py (Nat → Py Cell)) (g : String → Nat → Cell) (obs : PyDict String (PyDict Nat α)) :
    ∀ (rv : PyDict Txt Row),
    (∀ p ∈ obs, makeObsFileName gnss param p.1 subset ≠ []) →
    (∀ p ∈ obs, ∃ f, cell p.1 p.2 = .ok f ∧ ∀ i, i < n → f (i + 1) = .ok (g p.1 (i + 1))) →
    (PyDict.keys rv ++ obs.map (fun p => makeObsFileName gnss param p.1 subset)).Nodup →
    slotLoop gnss param subset time n cell rv obs =
      .ok (rv ++ (obs.map (·.1)).map (fun s => (makeObsFileName gnss param s subset, time, (List.range n).map (fun i => g s (i + 1))))) := by
  unfold slotLoop
  induction obs with
  | nil => intro rv _ _ _; simp [pure, Except.pure]
  | cons p obs ih =>
    intro rv h1 h2 h3
    rw [List.foldlM_cons]
    dsimp only
    obtain ⟨f, hf, hg⟩ := h2 p (by simp)
    rw [if_neg (h1 p (by simp)), hf, ok_bind, columns_ok n f (g p.1) hg, ok_bind, pure_ok, ok_bind]
    have hfresh : makeObsFileName gnss param p.1 subset ∉ PyDict.keys rv := by
      rw [List.map_cons, List.nodup_append] at h3
      intro hm
      exact h3.2.2 _ hm _ (by simp) rfl
    rw [set_fresh _ _ _ hfresh, ih _ (fun q hq => h1 q (by simp [hq])) (fun q hq => h2 q (by simp [hq]))]
    · simp
    · rw [List.map_cons] at h3
      simpa [PyDict.keys] using h3

theorem get2_of_mem {α : Type} {d : PyDict String (PyDict Nat α)} (hn : (d.map (·.1)).Nodup) {p : String × PyDict Nat α}
    (hp : p ∈ d) (s : Nat) : get2 d p.1 s = p.2.get? s := by
  unfold get2
  rw [PyDict.get?_of_mem (d := d) hn (k := p.1) (v := p.2) hp]
  rfl

/-- The settings given by the controls. -/
def settings (c : Controls) : MargoSettings :=
  { half := c.half_cycle_enable, lock := c.lock_time_enable, leap := c.gps_utc_shift
    channel := fun s => (c.glo_lit_tab.get? s).getD 0 }

/-- The control table has a frequency channel for each GLONASS satellite, and no carrier frequency is zero. -/
def ChannelsOK (c : Controls) : Prop :=
  ∀ s, 1 ≤ s → s ≤ 24 → ∃ ch : Int, c.glo_lit_tab.get? s = some ch ∧ (1602 + 9 / 16 * ch : Rat) ≠ 0 ∧ (1246 + 7 / 16 * ch : Rat) ≠ 0

/-- The control table has a frequency channel for each GLONASS satellite, and all carrier frequencies are positive. -/
def ChannelsPos (c : Controls) : Prop :=
  ∀ s, 1 ≤ s → s ≤ 24 → ∃ ch : Int, c.glo_lit_tab.get? s = some ch ∧ (0 : Rat) < 1602 + 9 / 16 * ch ∧ (0 : Rat) < 1246 + 7 / 16 * ch

theorem ChannelsPos.ok {c : Controls} (h : ChannelsPos c) : ChannelsOK c := by
  intro s h1 h2
  obtain ⟨ch, e, a, b⟩ := h s h1 h2
  exact ⟨ch, e, ne_of_gt a, ne_of_gt b⟩

theorem gnss_mem (g : Nat) (hg : g < 7) : ofileLt1.mem (gnssLetter g) = true ∧ maxSats (gnssLetter g) = .ok (margoSats g) ∧
    (gnssLetter g = "R" ↔ g = 1) ∧ (gnssLetter g = "G" ↔ g = 0) ∧ (gnssLetter g = "B" ↔ g = 5) ∧ (gnssLetter g).toList.length = 1 := by
  have : ∀ g < 7, ofileLt1.mem (gnssLetter g) = true ∧
      (match maxSats (gnssLetter g) with | .ok n => decide (n = margoSats g) | .error _ => false) = true ∧
      (gnssLetter g = "R" ↔ g = 1) ∧ (gnssLetter g = "G" ↔ g = 0) ∧ (gnssLetter g = "B" ↔ g = 5) ∧ (gnssLetter g).toList.length = 1 := by
    decide +kernel
  obtain ⟨h1, h2, h3⟩ := this g hg
  refine ⟨h1, ?_, h3⟩
  cases h : maxSats (gnssLetter g) with
  | error e => rw [h] at h2; simp at h2
  | ok n => rw [h] at h2; simp at h2; rw [h2]

theorem gloCode {t : Nat} {n : String} (h : sigCode 1 t = some n) : n = "1C" ∨ n = "1P" ∨ n = "2C" ∨ n = "2P" := by
  rw [← rnxLit_eq] at h
  have h : RtcmUtil.glnLit.get? t = some n := h
  have := PyDict.mem_of_get? h
  simp [RtcmUtil.glnLit] at this
  tauto

theorem zipIdx_replicate_map {α β : Type} (n : Nat) (x : α) (f : α × Nat → β) :
    ((List.replicate n x).zipIdx 1).map f = (List.range n).map (fun i => f (x, i + 1)) := by
  apply List.ext_getElem
  · simp
  · intro i h1 h2
    simp [Nat.add_comm]

theorem makeCrrFrq_ok (c : Controls) {g t : Nat} {slot : String} (hg : g < 7) (hs : sigCode g t = some slot) (hc : g = 1 → ChannelsOK c) :
    makeCrrFrq c (gnssLetter g) slot = .ok ((List.range (margoSats g)).map (fun i => carrier (settings c).channel g slot (i + 1))) := by
  obtain ⟨b, a, h1, -, h3⟩ := (C56_codes g t).2 slot hs
  obtain ⟨-, hm, hR, -⟩ := gnss_mem g hg
  unfold makeCrrFrq
  rw [h3, ok_bind, hm, ok_bind]
  by_cases hg1 : g = 1
  · subst hg1
    rw [if_neg (by simp [gnssLetter])]
    have h4 := gloCode hs
    rw [if_neg (by
      rw [not_not]
      rcases h4 with h | h | h | h <;> simp [h])]
    rw [mapM_ok' _ (fun p => p.1 + (if slot ∈ ["1C", "1P"] then (5625 / 10000 : Rat) else 4375 / 10000) * ((settings c).channel p.2 : Rat)) _ ?_]
    · rw [zipIdx_replicate_map]
      congr 1
      apply List.map_congr_left
      intro i _
      unfold carrier
      rw [h1]
      dsimp only [List.head?]
      rw [if_pos rfl]
      have hb : (slot ∈ ["1C", "1P"] ∧ b = '1') ∨ (slot ∉ ["1C", "1P"] ∧ b = '2') := by
        rcases h4 with h | h | h | h <;> subst h <;> (simp at h1; simp [← h1.1])
      rcases hb with ⟨hb1, rfl⟩ | ⟨hb1, rfl⟩
      · rw [if_pos hb1]
        simp only [channelStep]
        norm_num
      · rw [if_neg hb1]
        simp only [channelStep]
        norm_num
    · intro p hp
      obtain ⟨x, i⟩ := p
      have hp := List.mem_zipIdx hp
      simp only [List.length_replicate] at hp
      obtain ⟨ch, hch, -⟩ := hc rfl i hp.1 (by have : margoSats 1 = 24 := rfl; omega)
      dsimp only
      rw [hch]
      simp [settings, hch, pure, Except.pure]
  · rw [if_pos (by rw [ne_eq, hR]; exact hg1)]
    rw [pure_ok]
    congr 1
    apply List.ext_getElem
    · simp
    · intro i _ _
      simp [carrier, h1, hg1]

theorem carrier_ne (c : Controls) {g t : Nat} {slot : String} (hs : sigCode g t = some slot) (hc : g = 1 → ChannelsOK c)
    (i : Nat) (hi : i < margoSats g) : carrier (settings c).channel g slot (i + 1) ≠ 0 := by
  obtain ⟨b, a, h1, h2, -⟩ := (C56_codes g t).2 slot hs
  unfold carrier
  rw [h1]
  dsimp only [List.head?]
  by_cases hg1 : g = 1
  · subst hg1
    rw [if_pos rfl]
    obtain ⟨ch, hch, h5, h6⟩ := hc rfl (i + 1) (by omega) (by have : margoSats 1 = 24 := rfl; omega)
    have h4 := gloCode hs
    have hset : (settings c).channel (i + 1) = ch := by simp [settings, hch]
    rw [hset]
    have hb : b = '1' ∨ b = '2' := by
      rcases h4 with h | h | h | h <;> subst h <;> (simp at h1; simp [← h1.1])
    rcases hb with rfl | rfl
    · simpa [bandMHz, channelStep] using h5
    · simpa [bandMHz, channelStep] using h6
  · rw [if_neg hg1]
    exact ne_of_gt h2

theorem carrier_pos (c : Controls) {g t : Nat} {slot : String} (hs : sigCode g t = some slot) (hc : g = 1 → ChannelsPos c)
    (i : Nat) (hi : i < margoSats g) : 0 < carrier (settings c).channel g slot (i + 1) := by
  obtain ⟨b, a, h1, h2, -⟩ := (C56_codes g t).2 slot hs
  unfold carrier
  rw [h1]
  dsimp only [List.head?]
  by_cases hg1 : g = 1
  · subst hg1
    rw [if_pos rfl]
    obtain ⟨ch, hch, h5, h6⟩ := hc rfl (i + 1) (by omega) (by have : margoSats 1 = 24 := rfl; omega)
    have h4 := gloCode hs
    have hset : (settings c).channel (i + 1) = ch := by simp [settings, hch]
    rw [hset]
    have hb : b = '1' ∨ b = '2' := by
      rcases h4 with h | h | h | h <;> subst h <;> (simp at h1; simp [← h1.1])
    rcases hb with rfl | rfl
    · simpa [bandMHz, channelStep] using h5
    · simpa [bandMHz, channelStep] using h6
  · rw [if_neg hg1]
    exact h2

theorem waveLength_pos (c : Controls) {g t : Nat} {slot : String} (hs : sigCode g t = some slot) (hc : g = 1 → ChannelsPos c)
    (i : Nat) (hi : i < margoSats g) : 0 < waveLength (settings c).channel g slot (i + 1) := by
  unfold waveLength
  exact div_pos (by norm_num) (carrier_pos c hs hc i hi)

theorem makeLambdas_ok (c : Controls) {g t : Nat} {slot : String} (hg : g < 7) (hs : sigCode g t = some slot) (hc : g = 1 → ChannelsOK c) :
    makeLambdas c (gnssLetter g) slot =
      .ok ((List.range (margoSats g)).map (fun i => waveLength (settings c).channel g slot (i + 1))) := by
  unfold makeLambdas
  rw [makeCrrFrq_ok c hg hs hc, ok_bind]
  rw [mapM_ok' _ (fun f => (299792458 / 1000000 : Rat) / f) _ ?_]
  · rw [List.map_map]
    rfl
  · intro f hf
    obtain ⟨i, hi, rfl⟩ := List.mem_map.1 hf
    rw [if_neg (carrier_ne c hs hc i (by simpa using hi))]
    rw [pure_ok]
    congr 2
    unfold RtcmUtil.CRNG_1MS
    norm_num

theorem waveLength_ne (c : Controls) {g t : Nat} {slot : String} (hs : sigCode g t = some slot) (hc : g = 1 → ChannelsOK c)
    (i : Nat) (hi : i < margoSats g) : waveLength (settings c).channel g slot (i + 1) ≠ 0 := by
  unfold waveLength
  exact div_ne_zero (by norm_num) (carrier_ne c hs hc i hi)

theorem lamAt_ok (n : Nat) (f : Nat → Rat) (i : Nat) (hi : i < n) :
    lamAt ((List.range n).map (fun i => f (i + 1))) (i + 1) = .ok (f (i + 1)) := by
  unfold lamAt
  simp [hi]

/-- The letter of a constellation as character. -/
theorem gnss_letter (g : Nat) (hg : g < 7) : ∃ ch, (gnssLetter g).toList = [ch] ∧ ∀ g' < 7, (gnssLetter g').toList = [ch] → g' = g := by
  have : ∀ g < 7, ∀ g' < 7, (gnssLetter g').toList = (gnssLetter g).toList → g' = g := by decide +kernel
  obtain ⟨ch, hch⟩ := List.length_eq_one_iff.1 (gnss_mem g hg).2.2.2.2.2
  exact ⟨ch, hch, fun g' hg' h => this g hg g' hg' (h.trans hch.symm)⟩

theorem letter_inj {k k' : ObsKind} (h : k.letter = k'.letter) : k = k' := by
  cases k <;> cases k' <;> first | rfl | (exact absurd h (by decide))

theorem code_chars {g t : Nat} {slot : String} (hs : sigCode g t = some slot) : ∃ b a, slot.toList = [b, a] := by
  obtain ⟨b, a, h1, -⟩ := (C56_codes g t).2 slot hs
  exact ⟨b, a, h1⟩

theorem name_inj {g g' : Nat} {k k' : ObsKind} {s s' u u' : String} (hg : g < 7) (hg' : g' < 7) (hs : s.toList.length = 2)
    (hs' : s'.toList.length = 2) (h : margoName g k s u = margoName g' k' s' u') : g = g' ∧ k = k' ∧ s = s' ∧ u = u' := by
  obtain ⟨c, hc, hcu⟩ := gnss_letter g hg
  obtain ⟨c', hc', -⟩ := gnss_letter g' hg'
  obtain ⟨a, b, hab⟩ := List.length_eq_two.1 hs
  obtain ⟨a', b', hab'⟩ := List.length_eq_two.1 hs'
  unfold margoName at h
  rw [hc, hc', hab, hab'] at h
  simp only [List.cons_append, List.nil_append, List.cons.injEq, List.append_cancel_right_eq, true_and] at h
  obtain ⟨h1, h2, h3, h4, h5⟩ := h
  refine ⟨(hcu g' hg' (by rw [hc', h1])).symm, letter_inj h2, ?_, ?_⟩
  · rw [← String.toList_inj, hab, hab', h3, h4]
  · rw [← String.toList_inj, h5]

theorem fileName_eq {g : Nat} {k : ObsKind} {param slot subset : String} (hg : g < 7) (hparam : param.toList = [k.letter])
    (hs : slot.toList.length = 2) (hu : subset.toList.length ≤ 5) :
    makeObsFileName (gnssLetter g) param slot subset = margoName g k slot subset := by
  unfold makeObsFileName
  rw [(gnss_mem g hg).1, hparam]
  simp only [Bool.not_true, Bool.false_eq_true, if_false]
  rw [if_neg (by simp [hs]), List.take_of_length_le hu]
  unfold margoName
  simp

theorem name_ne (g : Nat) (k : ObsKind) (s u : String) : margoName g k s u ≠ [] := by
  unfold margoName; simp

/-- The rows in the form of the model. -/
def mrows (m : MargoSettings) (g : Nat) (t : Int) (p : Msm.ObservablesMSM) (ks : List ObsKind) : PyDict Txt Row :=
  ks.flatMap (fun k => (slotsOf p k).map (fun slot =>
    (margoName g k slot p.atr.subset, t, (List.range (margoSats g)).map (fun i => cellOf m g p k slot (i + 1)))))

theorem mrows_view (m : MargoSettings) (g : Nat) (t : Int) (p : Msm.ObservablesMSM) :
    (mrows m g t p (kindsOf m)).map (fun r => (r.1, r.2.1, r.2.2.map Cell.val)) = margoRows m g t p := by
  unfold mrows margoRows
  rw [List.map_flatMap]
  congr 1
  funext k
  rw [List.map_map]
  apply List.map_congr_left
  intro s _
  simp [Function.comp_def, val_cellOf]

theorem regular_len {g : Nat} {p : Msm.ObservablesMSM} (h : Regular g p) (k : ObsKind) (n : String) (hn : n ∈ slotsOf p k) :
    n.toList.length = 2 := by
  obtain ⟨t, ht⟩ := h.signals k n hn
  obtain ⟨b, a, hc⟩ := code_chars ht
  simp [hc]

theorem mrows_keys (m : MargoSettings) {g : Nat} (t : Int) {p : Msm.ObservablesMSM} (h : Regular g p) (ks : List ObsKind) (hk : ks.Nodup) :
    (PyDict.keys (mrows m g t p ks)).Nodup := by
  unfold PyDict.keys mrows
  rw [List.map_flatMap, List.nodup_flatMap]
  constructor
  · intro k _
    rw [List.map_map]
    apply List.Nodup.map_on _ (h.nodup k)
    intro a ha b hb he
    exact (name_inj h.lt h.lt (regular_len h k a ha) (regular_len h k b hb) he).2.2.1
  · apply List.Pairwise.imp_of_mem _ hk
    intro k k' _ _ hne
    simp only [Function.onFun, List.map_map]
    intro x hx hx'
    obtain ⟨a, ha, rfl⟩ := List.mem_map.1 hx
    obtain ⟨b, hb, he⟩ := List.mem_map.1 hx'
    exact hne ((name_inj h.lt h.lt (regular_len h k' b hb) (regular_len h k a ha) he).2.1).symm

theorem slotLoop_step {α : Type} (m : MargoSettings) {g : Nat} (t : Int) {p : Msm.ObservablesMSM} (h : Regular g p) (k : ObsKind)
    (ks : List ObsKind) (hk : (ks ++ [k]).Nodup) (param : String) (hparam : param.toList = [k.letter])
    (obs : PyDict String (PyDict Nat α)) (hobs : obs.map (·.1) = slotsOf p k) (cell : String → PyDict Nat α → Py (Nat → Py Cell))
    (hcell : ∀ q ∈ obs, ∃ f, cell q.1 q.2 = .ok f ∧ ∀ i, i < margoSats g → f (i + 1) = .ok (cellOf m g p k q.1 (i + 1))) :
    slotLoop (gnssLetter g) param p.atr.subset t (margoSats g) cell (mrows m g t p ks) obs = .ok (mrows m g t p (ks ++ [k])) := by
  have hin : ∀ q ∈ obs, q.1 ∈ slotsOf p k := fun q hq => by rw [← hobs]; exact List.mem_map.2 ⟨q, hq, rfl⟩
  have hfn : ∀ s ∈ slotsOf p k, makeObsFileName (gnssLetter g) param s p.atr.subset = margoName g k s p.atr.subset :=
    fun s hs => fileName_eq h.lt hparam (regular_len h k s hs) h.subset
  rw [slotLoop_ok _ _ _ _ _ _ (fun s i => cellOf m g p k s i) obs]
  · rw [hobs]
    congr 1
    have : mrows m g t p (ks ++ [k]) = mrows m g t p ks ++ (slotsOf p k).map (fun slot =>
        (margoName g k slot p.atr.subset, t, (List.range (margoSats g)).map (fun i => cellOf m g p k slot (i + 1)))) := by
      unfold mrows; rw [List.flatMap_append]; simp
    rw [this]
    congr 1
    apply List.map_congr_left
    intro s hs
    rw [hfn s hs]
  · intro q hq
    rw [hfn _ (hin q hq)]
    exact name_ne _ _ _ _
  · exact hcell
  · have := mrows_keys m t h (ks ++ [k]) hk
    unfold mrows PyDict.keys at this
    rw [List.flatMap_append, List.map_append] at this
    convert this using 2
    · rfl
    rw [show obs.map (fun p_1 => makeObsFileName (gnssLetter g) param p_1.1 p.atr.subset) =
      (obs.map (·.1)).map (fun s => makeObsFileName (gnssLetter g) param s p.atr.subset) by rw [List.map_map]; rfl, hobs]
    simp only [List.flatMap_cons, List.flatMap_nil, List.append_nil, List.map_map]
    apply List.map_congr_left
    intro s hs
    exact hfn s hs

theorem plain_ok (obs : PyDict Nat Rat) (slot : String) (v : Nat → Option Rat) (h : ∀ i, v i = obs.get? i) (n : Nat) :
    ∃ f, cellPlain slot obs = .ok f ∧ ∀ i, i < n → f (i + 1) = .ok (match v (i + 1) with | some x => .num x | none => .nan) := by
  refine ⟨_, rfl, ?_⟩
  intro i _
  rw [h]
  cases obs.get? (i + 1) <;> rfl

theorem printBuffer_ok (c : Controls) {g : Nat} {p : Msm.ObservablesMSM} (h : Regular g p) (hc : g = 1 → ChannelsOK c) :
    printBuffer c p = .ok (mrows (settings c) g
      (if g = 0 then (p.hdr.time : Int) else convToGpsTime p.hdr.time p.hdr.day c.gps_utc_shift (gnssLetter g)) p
      (kindsOf (settings c))) := by
  obtain ⟨g1, g2, -, g4, -⟩ := gnss_mem g h.lt
  have ht : (if gnssLetter g ≠ "G" then convToGpsTime p.hdr.time p.hdr.day c.gps_utc_shift (gnssLetter g) else (p.hdr.time : Int)) =
      (if g = 0 then (p.hdr.time : Int) else convToGpsTime p.hdr.time p.hdr.day c.gps_utc_shift (gnssLetter g)) := by
    by_cases h0 : g = 0
    · rw [if_neg (by simpa using g4.2 h0), if_pos h0]
    · rw [if_pos (by rw [ne_eq, g4]; exact h0), if_neg h0]
  unfold printBuffer
  dsimp only
  rw [h.gnss, g1, ht, g2]
  generalize (if g = 0 then (p.hdr.time : Int) else convToGpsTime p.hdr.time p.hdr.day c.gps_utc_shift (gnssLetter g)) = t
  simp only [Bool.not_true, Bool.false_eq_true, if_false]
  rw [ok_bind]
  -- code ranges
  rw [show ([] : PyDict Txt Row) = mrows (settings c) g t p [] from rfl]
  rw [slotLoop_step (settings c) t h .range [] (by simp) "C" (by decide) p.obs.rng rfl _ (fun q hq =>
    plain_ok q.2 q.1 (fun i => get2 p.obs.rng q.1 i) (fun i => get2_of_mem (h.nodup .range) hq i) _), ok_bind]
  -- phases
  rw [slotLoop_step (settings c) t h .phase _ (by decide) "L" (by decide) p.obs.phs rfl _ ?phase, ok_bind]
  -- Doppler
  rw [slotLoop_step (settings c) t h .doppler _ (by decide) "D" (by decide) p.obs.dpl rfl _ ?dpl, ok_bind]
  -- carrier to noise
  rw [slotLoop_step (settings c) t h .cnr _ (by decide) "S" (by decide) p.obs.c2n rfl _ (fun q hq =>
    plain_ok q.2 q.1 (fun i => get2 p.obs.c2n q.1 i) (fun i => get2_of_mem (h.nodup .cnr) hq i) _), ok_bind]
  · have hT : ∀ q ∈ p.obs.ltm, ∃ f, cellLock q.1 q.2 = .ok f ∧ ∀ i, i < margoSats g →
        f (i + 1) = .ok (cellOf (settings c) g p .lock q.1 (i + 1)) := by
      intro q hq
      refine ⟨_, rfl, ?_⟩
      intro i _
      simp only [cellOf, margoCell]
      rw [get2_of_mem (h.nodup .lock) hq]
      cases q.2.get? (i + 1) with
      | none => rfl
      | some v => simp [pure, Except.pure, div_eq_mul_inv]
    have hA : ∀ q ∈ p.obs.hca, ∃ f, cellHca q.1 q.2 = .ok f ∧ ∀ i, i < margoSats g →
        f (i + 1) = .ok (cellOf (settings c) g p .half q.1 (i + 1)) := by
      intro q hq
      refine ⟨_, rfl, ?_⟩
      intro i _
      simp only [cellOf, margoCell]
      rw [get2_of_mem (h.nodup .half) hq]
      cases q.2.get? (i + 1) <;> rfl
    unfold kindsOf
    cases hl : c.lock_time_enable <;> cases hh : c.half_cycle_enable <;>
      simp only [settings, hl, hh, Bool.false_eq_true, if_false, if_true, pure_ok, ok_bind, List.append_nil] <;>
      rw [show ({ half := _, lock := _, leap := _, channel := _ } : MargoSettings) = settings c by simp [settings, hl, hh]]
    · rfl
    · exact slotLoop_step (settings c) t h .half _ (by decide) "A" (by decide) p.obs.hca rfl _ hA
    · rw [slotLoop_step (settings c) t h .lock ([] ++ [ObsKind.range] ++ [ObsKind.phase] ++ [ObsKind.doppler] ++ [ObsKind.cnr]) (by decide) "T" (by decide) p.obs.ltm rfl _ hT, ok_bind]
      rfl
    · rw [slotLoop_step (settings c) t h .lock ([] ++ [ObsKind.range] ++ [ObsKind.phase] ++ [ObsKind.doppler] ++ [ObsKind.cnr]) (by decide) "T" (by decide) p.obs.ltm rfl _ hT, ok_bind]
      exact slotLoop_step (settings c) t h .half _ (by decide) "A" (by decide) p.obs.hca rfl _ hA
  case dpl =>
    intro q hq
    have hq1 : q.1 ∈ slotsOf p .doppler := List.mem_map.2 ⟨q, hq, rfl⟩
    obtain ⟨u, hu⟩ := h.signals _ _ hq1
    unfold cellDoppler
    rw [makeLambdas_ok c h.lt hu hc, ok_bind]
    refine ⟨_, rfl, ?_⟩
    intro i hi
    simp only [cellOf, margoCell]
    rw [get2_of_mem (h.nodup .doppler) hq]
    cases q.2.get? (i + 1) with
    | none => rfl
    | some v =>
      dsimp only
      rw [lamAt_ok _ (fun i => waveLength (settings c).channel g q.1 i) i hi, ok_bind]
      unfold divide
      have hne := waveLength_ne c hu hc i hi
      rw [if_neg hne, ok_bind]
      simp [isNegZero, pure, Except.pure, neg_div, hne]
  case phase =>
    intro q hq
    have hq1 : q.1 ∈ slotsOf p .phase := List.mem_map.2 ⟨q, hq, rfl⟩
    obtain ⟨u, hu⟩ := h.signals _ _ hq1
    unfold cellPhase
    rw [makeLambdas_ok c h.lt hu hc, ok_bind]
    refine ⟨_, rfl, ?_⟩
    intro i hi
    simp only [cellOf, margoCell]
    rw [get2_of_mem (h.nodup .phase) hq]
    cases hv : q.2.get? (i + 1) with
    | none => simp [ofVal, pure, Except.pure]
    | some v =>
      dsimp only
      have hamb : ambOk c p.obs.hca q.1 (i + 1) = !decide ((settings c).half = false ∧ get2 p.obs.hca q.1 (i + 1) = some true) := by
        unfold ambOk
        by_cases hh : c.half_cycle_enable = true
        · simp [hh, settings]
        · rw [if_neg hh]
          have hh' : (settings c).half = false := by simpa [settings] using hh
          rw [hh']
          cases hd : p.obs.hca.get? q.1 with
          | none => simp [get2, hd]
          | some d =>
            have hmem : q.1 ∈ slotsOf p .half := List.mem_map.2 ⟨_, PyDict.mem_of_get? hd, rfl⟩
            have := h.flags q.1 (i + 1) (by rw [get2_of_mem (h.nodup .phase) hq, hv]; simp) hmem
            unfold get2 at this ⊢
            rw [hd] at this ⊢
            simp only [Option.bind_some] at this ⊢
            cases hb : d.get? (i + 1) with
            | none => exact absurd hb this
            | some b => cases b <;> simp
      rw [hamb]
      by_cases hx : (settings c).half = false ∧ get2 p.obs.hca q.1 (i + 1) = some true
      · simp [hx, ofVal, pure, Except.pure]
      · rw [if_neg hx]
        simp only [hx, decide_false, Bool.not_false, if_true]
        rw [lamAt_ok _ (fun i => waveLength (settings c).channel g q.1 i) i hi, ok_bind]
        unfold divide
        rw [if_neg (waveLength_ne c hu hc i hi), ok_bind]
        simp [ofVal, pure, Except.pure]

end Margo
end Verif
