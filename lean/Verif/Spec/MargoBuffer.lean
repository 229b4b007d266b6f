import Verif.Spec.TopText
import Verif.Spec.Margo
import Verif.Spec.MargoDouble

/-!
Vocabulary for claims about the text of the MARGO printer, printers/margo_printer.py:27-124 and 143-343.
-/

namespace Verif
namespace Spec
open PyCore Msm

/-- Controls of the MARGO printer: half-cycle flags on, lock times on, GPS time − UTC [s], GLONASS frequency channels by satellite. -/
structure MargoSetup where
  half : Bool
  lock : Bool
  leap : Int
  table : List (Nat × Int)

/-- The settings in the sense of the specification of the rows. -/
def MargoSetup.settings (c : MargoSetup) : MargoSettings :=
  { half := c.half, lock := c.lock, leap := c.leap, channel := fun s => (c.table.lookup s).getD 0 }

/-- The table has a frequency channel for each of the 24 GLONASS satellites, and no carrier frequency is zero. -/
def MargoSetup.Tuned (c : MargoSetup) : Prop :=
  ∀ s, 1 ≤ s → s ≤ 24 → ∃ ch : Int, c.table.lookup s = some ch ∧ (1602 + 9 / 16 * ch : Rat) ≠ 0 ∧ (1246 + 7 / 16 * ch : Rat) ≠ 0

/-- The frequency channels are small numbers (those in use are −7 … 6). -/
def MargoSetup.Moderate (c : MargoSetup) : Prop := ∀ s ch, c.table.lookup s = some ch → |ch| ≤ 1000

variable [Rounding]

/-- In the heap, `a` is a `MargoCore` whose controls are set as given. -/
def IsMargo (c : MargoSetup) (h : Heap) (a : Nat) : Prop :=
  ∃ k g, h[a]? = some (.inst n!"MargoCore" [(n!"ctrl", .ref k)]) ∧
    h[k]? = some (.inst n!"MargoControls" [(n!"half_cycle_enable", .bool c.half), (n!"lock_time_enable", .bool c.lock), (n!"gps_utc_shift", .int c.leap),
      (n!"glo_lit_tab", .ref g)]) ∧
    h[g]? = some (.dict (c.table.map (fun p => (.int (p.1 : Nat), .int p.2))))

/-- A column: the text `NaN` where there is no value, otherwise a float that is related to the value. -/
def ColumnIs (R : Rat → Rat → Prop) : Option Rat → Val → Prop
  | none, v => v = .str "NaN"
  | some x, v => ∃ y, v = .flt y ∧ R x y

/-- The value is a dictionary with one entry for each row of the message: for each printed kind of observable and each signal of it the name of the file, and under it a list
of the time and one column for each satellite of the constellation. -/
def RowsAre (R : ObsKind → Rat → Rat → Prop) (m : MargoSettings) (g : Nat) (t : Int) (p : ObservablesMSM) (h : Heap) (v : Val) : Prop :=
  ∃ b d, v = .ref b ∧ h[b]? = some (.dict d) ∧
    List.Forall₂ (fun ks e => e.1 = .str (String.ofList (margoName g ks.1 ks.2 p.atr.subset)) ∧
      ∃ w l, e.2 = .ref w ∧ h[w]? = some (.list (.int t :: l)) ∧ List.Forall₂ (ColumnIs (R ks.1)) (margoCols m g p ks.1 ks.2) l) (margoPlan m p) d

/-- `RowsAre` with the GPS time of week of the message, if its time is a valid one. -/
def PrintsRows (R : ObsKind → Rat → Rat → Prop) (c : MargoSetup) (g : Nat) (p : ObservablesMSM) (h : Heap) (v : Val) : Prop :=
  ∃ t, (ValidTime c.leap g p → t = gpsTimeOfWeek c.leap g p.hdr.time p.hdr.day) ∧ RowsAre R c.settings g t p h v

/-- The object that the value `v` is in the heap `h` is printed with the property: in every heap in which the objects of `h` are what they were and in which a `MargoCore` with
the given controls is, printers/margo_printer.py:212-343 returns a value with the property. It changes no object. -/
def PrintedAs (c : MargoSetup) (prop : Heap → Val → Prop) (h : Heap) (v : Val) : Prop :=
  ∃ b fs, v = .ref b ∧ h[b]? = some (.inst n!"ObservablesMSM" fs) ∧
    ∀ (g : Heap) (a : Nat), (∀ (b : Nat) (o : Obj), h[b]? = some o → g[b]? = some o) → IsMargo c g a →
      Ends n!"MargoCore.ObservablesMSMtoPrintBuffer" [.ref a, v] g (fun res => ∃ x t, res = (.ok x, g ++ t) ∧ prop (g ++ t) x)

/-- The value is a dictionary of lists, and in the list under the name the column of satellite `s` is `x`. -/
def ColumnAt (name : Txt) (s : Nat) (x : Val) (h : Heap) (v : Val) : Prop :=
  ∃ b d w t l, v = .ref b ∧ h[b]? = some (.dict d) ∧ (.str (String.ofList name), .ref w) ∈ d ∧ h[w]? = some (.list (t :: l)) ∧ l[s - 1]? = some x

/-- The value is a dictionary of lists, and there is no number in them but the time. -/
def NoNumbers (h : Heap) (v : Val) : Prop :=
  ∃ b d, v = .ref b ∧ h[b]? = some (.dict d) ∧ ∀ e ∈ d, ∃ w t l, e.2 = .ref w ∧ h[w]? = some (.list (t :: l)) ∧ ∀ x ∈ l, x = .str "NaN"

/-- What is printed of the observables of a satellite: each pseudorange, each phase range without half-cycle ambiguity in cycles, each phase range rate as Doppler in Hz and each
carrier to noise ratio is in the column of the satellite. -/
def SatellitePrinted (c : MargoSetup) (g : Nat) (p : ObservablesMSM) (s : Nat) (h : Heap) (v : Val) : Prop :=
  ∀ n x,
    (get2 p.obs.rng n s = some x → ColumnAt (margoName g .range n p.atr.subset) s (.flt x) h v) ∧
    (get2 p.obs.phs n s = some x → get2 p.obs.hca n s ≠ some true →
      ColumnAt (margoName g .phase n p.atr.subset) s (.flt (x / waveLength c.settings.channel g n s)) h v) ∧
    (get2 p.obs.dpl n s = some x → ColumnAt (margoName g .doppler n p.atr.subset) s (.flt (-(x / waveLength c.settings.channel g n s))) h v) ∧
    (get2 p.obs.c2n n s = some x → ColumnAt (margoName g .cnr n p.atr.subset) s (.flt x) h v)

end Spec
end Verif
