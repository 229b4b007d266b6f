import Verif.Model.RunDouble
import Verif.Spec.RunDouble
import Verif.Lemmas.RunTotal
import Verif.Props.Double
import Verif.Props.DoubleMargo
import Verif.Props.DoubleNav

/-!
# Lemmas: the program with exact and with rounded arithmetic step by step
-/

namespace Verif
open Spec Decoder Conv Run

/-! ## File systems -/

namespace Spec
variable {fr : Rat → Txt} {c : Json.Controls}

theorem NearText.refl (t : Txt) : NearText fr c t t := NearText.write .nil (.same t)

theorem nearDisk_refl (w : Disk) : NearDisk fr c w w :=
  ⟨rfl, rfl, rfl, List.forall₂_same.2 (fun p _ => ⟨rfl, .refl p.2⟩)⟩

/-- Files by path. -/
theorem files_get {l l' : PyDict Txt Txt} (h : List.Forall₂ (fun p q => p.1 = q.1 ∧ NearText fr c p.2 q.2) l l') (k : Txt) :
    Option.Rel (NearText fr c) (PyDict.get? l k) (PyDict.get? l' k) := by
  induction h with
  | nil => exact .none
  | @cons a b l l' hab _ ih =>
    obtain ⟨k1, v⟩ := a
    obtain ⟨k2, v'⟩ := b
    obtain ⟨h1, h2⟩ := hab
    dsimp only at h1 h2
    subst h1
    rw [PyDict.get?_cons, PyDict.get?_cons]
    split
    · exact .some h2
    · exact ih

theorem files_mem {l l' : PyDict Txt Txt} (h : List.Forall₂ (fun p q => p.1 = q.1 ∧ NearText fr c p.2 q.2) l l') (k : Txt) :
    PyDict.mem l' k = PyDict.mem l k := by
  rw [PyDict.mem_eq, PyDict.mem_eq]
  have := files_get h k
  generalize PyDict.get? l k = a at this ⊢
  generalize PyDict.get? l' k = b at this ⊢
  cases this <;> rfl

theorem files_set {l l' : PyDict Txt Txt} (h : List.Forall₂ (fun p q => p.1 = q.1 ∧ NearText fr c p.2 q.2) l l') (k : Txt) {v v' : Txt}
    (hv : NearText fr c v v') :
    List.Forall₂ (fun p q => p.1 = q.1 ∧ NearText fr c p.2 q.2) (PyDict.set l k v) (PyDict.set l' k v') := by
  unfold PyDict.set
  rw [files_mem h k]
  split
  · rw [List.forall₂_map_left_iff, List.forall₂_map_right_iff]
    refine List.Forall₂.imp ?_ h
    rintro ⟨k1, t⟩ ⟨k2, t'⟩ ⟨h1, h2⟩
    dsimp only at h1 h2 ⊢
    subst h1
    split
    · exact ⟨rfl, hv⟩
    · exact ⟨rfl, h2⟩
  · exact List.rel_append h (.cons ⟨rfl, hv⟩ .nil)

theorem NearDisk.read {w w' : Disk} (h : NearDisk fr c w w') (q : Txt) : Option.Rel (NearText fr c) (w.read q) (w'.read q) :=
  files_get h.files q

theorem NearDisk.isdir {w w' : Disk} (h : NearDisk fr c w w') (q : Txt) : w'.isdir q = w.isdir q := by
  unfold Disk.isdir
  rw [h.dirs]

theorem NearDisk.write {w w' : Disk} (h : NearDisk fr c w w') (q : Txt) {t t' : Txt} (ht : NearPiece fr c t t') :
    NearDisk fr c (w.write q t) (w'.write q t') := by
  refine ⟨h.dirs, h.fault, h.calls, files_set h.files q (.write ?_ ht)⟩
  have := files_get h.files q
  generalize PyDict.get? w.files q = a at this ⊢
  generalize PyDict.get? w'.files q = b at this ⊢
  cases this with
  | none => exact .nil
  | some h => exact h

/-- A call that may fail gives related file systems and the same verdict. -/
def NearCall (fr : Rat → Txt) (c : Json.Controls) (x x' : Disk × Bool) : Prop := NearDisk fr c x.1 x'.1 ∧ x'.2 = x.2

theorem NearDisk.makedirs {w w' : Disk} (h : NearDisk fr c w w') (q : Txt) : NearCall fr c (w.makedirs q) (w'.makedirs q) := by
  unfold Disk.makedirs
  rw [h.fault, h.calls]
  split
  · exact ⟨⟨h.dirs, rfl, rfl, h.files⟩, rfl⟩
  · exact ⟨⟨by rw [h.dirs], rfl, rfl, h.files⟩, rfl⟩

theorem NearDisk.openW {w w' : Disk} (h : NearDisk fr c w w') (q : Txt) : NearCall fr c (w.openW q) (w'.openW q) := by
  unfold Disk.openW
  rw [h.fault, h.calls]
  split
  · exact ⟨⟨h.dirs, rfl, rfl, h.files⟩, rfl⟩
  · exact ⟨⟨h.dirs, rfl, rfl, files_set h.files q .nil⟩, rfl⟩

theorem files_filter {l l' : PyDict Txt Txt} (h : List.Forall₂ (fun p q => p.1 = q.1 ∧ NearText fr c p.2 q.2) l l') (f : Txt → Bool) :
    List.Forall₂ (fun p q => p.1 = q.1 ∧ NearText fr c p.2 q.2) (l.filter (fun p => f p.1)) (l'.filter (fun p => f p.1)) := by
  induction h with
  | nil => exact .nil
  | @cons a b l l' hab _ ih =>
    rw [List.filter_cons, List.filter_cons, hab.1]
    split
    · exact .cons hab ih
    · exact ih

theorem NearDisk.rmtree {w w' : Disk} (h : NearDisk fr c w w') (q : Txt) : NearCall fr c (w.rmtree q) (w'.rmtree q) := by
  unfold Disk.rmtree
  rw [h.fault, h.calls]
  split
  · exact ⟨⟨h.dirs, rfl, rfl, h.files⟩, rfl⟩
  · exact ⟨⟨by rw [h.dirs], rfl, rfl, files_filter h.files (fun p => !(p == q || (q ++ ['/']).isPrefixOf p))⟩, rfl⟩

end Spec

/-! ## Decoders -/

namespace Decoder

/-- A decoded object with exact and with rounded arithmetic. -/
inductive ORel (rnd : Rat → Rat) : PyObj → PyObj → Prop
  | msm {r r' : Msm.ObservablesMSM} (h : Msm.ObjRel rnd r r') : ORel rnd (.msm r) (.msm r')
  | msmBare (b : Msm.Bare) : ORel rnd (.msmBare b) (.msmBare b)
  | baseBare (b : Base.BareObj) : ORel rnd (.baseBare b) (.baseBare b)
  | ephBare (e : Eph.Obj PyNum) : ORel rnd (.eph e) (.eph e)
  | eph (o : Eph.Obj Int) (hv : ∀ v ∈ valsOf o, |v| ≤ 2 ^ 40) : ORel rnd (.eph (Eph.scale o)) (.eph (Nav.tgdR rnd o))
  | base (b : Base.BareObj) (hb : Nav.SmallBase b) {o o' : Base.ScaledObj} (ho : Base.scale b = .ok o) (ho' : Base.scaleR rnd b = .ok o') :
      ORel rnd (.baseScaled o) (.baseScaled o')

theorem ORel.near {rnd : Rat → Rat} (h : Nearest rnd) {o o' : PyObj} (hr : ORel rnd o o') : NearObj o o' := by
  cases hr with
  | msm hr => exact .msm (inDoubles_of h hr)
  | msmBare b => exact .same _
  | baseBare b => exact .same _
  | ephBare e => exact .same _
  | eph o hv =>
    cases o with
    | bds e => exact .bds (Nav.snap_tgd h _ hv)
    | gps e => exact .same _
    | glo e => exact .same _
    | galf e => exact .same _
    | gali e => exact .same _
    | navic e => exact .same _
    | qzs e => exact .same _
  | base b hb ho ho' =>
    refine .base ?_ (Nav.scale_near h b hb ho ho')
    have := Nav.scale_snap h b hb
    rw [ho, ho'] at this
    exact (Except.ok.inj this).symm

theorem near_cls {o o' : PyObj} (h : NearObj o o') : o'.cls = o.cls := by
  cases h with
  | same o => rfl
  | msm h => rfl
  | bds h => rfl
  | @base b b' h hq => subst h; cases b' <;> rfl

theorem near_num {o o' : PyObj} (h : NearObj o o') : Json.objNum o' = Json.objNum o := by
  cases h with
  | same o => rfl
  | msm h => unfold Json.objNum; dsimp only; rw [h.atr]
  | @bds e e' h => cases h; rfl
  | @base b b' h hq => subst h; cases b' <;> rfl

/-- The registered sub-decoders with rounded arithmetic. -/
def r47 (rnd : Rat → Rat) (bare : Bool) : SubDecoder :=
  { s47 bare with decode := some (fun buf => pure ((Msm.decodeMsm17R rnd bare buf).map msmObj)) }
/-- see `r47` -/
def r13 (rnd : Rat → Rat) (bare : Bool) : SubDecoder :=
  { s13 bare with decode := some (fun buf => pure ((Msm.decodeMsm17R rnd bare buf).map msmObj)) }
/-- see `r47` -/
def rEph (rnd : Rat → Rat) (bare : Bool) : SubDecoder :=
  { sEph bare with decode := some (fun buf => pure ((Eph.subDecodeR rnd bare buf).map PyObj.eph)) }
/-- see `r47` -/
def rBase (rnd : Rat → Rat) (bare : Bool) : SubDecoder :=
  { sBase bare with decode := some (fun buf => do return (← Base.subDecodeR rnd bare buf).map baseObj) }

/-- The dictionary of sub-decoders of a mode with rounded arithmetic. -/
def registeredR (rnd : Rat → Rat) (m : Mode) : PyDict String SubDecoder :=
  if m.obsOnly then [("MSM47O", r47 rnd m.bare), ("MSM13O", r13 rnd m.bare)]
  else [("MSM47O", r47 rnd m.bare), ("MSM13O", r13 rnd m.bare), ("EPH", rEph rnd m.bare), ("BASE", rBase rnd m.bare)]

theorem strategyR_eq (rnd : Rat → Rat) (m : Mode) : strategyDecoderR rnd m = .ok (some { decoders := registeredR rnd m }) := by
  cases m <;> rfl

/-- Two sub-decoders that differ by rounding on a message. -/
structure DecRel (rnd : Rat → Rat) (msg : Bytes) (d d' : SubDecoder) : Prop where
  spec : d'.ioSpec = d.ioSpec
  actual : d'.actualMessages = d.actualMessages
  run : PyRel (Option.Rel (ORel rnd)) (d.run msg) (d'.run msg)

theorem msm_rel {rnd : Rat → Rat} (h : Nearest rnd) (bare : Bool) (msg : Bytes) :
    Option.Rel (ORel rnd) ((Msm.decodeMsm17 bare msg).map msmObj) ((Msm.decodeMsm17R rnd bare msg).map msmObj) := by
  have := Msm.decodeMsm17_rel h bare msg
  generalize Msm.decodeMsm17 bare msg = a at this ⊢
  generalize Msm.decodeMsm17R rnd bare msg = b at this ⊢
  cases this with
  | none => exact .none
  | @some x y hxy =>
    refine .some ?_
    cases x with
    | inl x =>
      cases y with
      | inl y => cases (show y = x from hxy); exact .msmBare x
      | inr y => exact hxy.elim
    | inr x =>
      cases y with
      | inl y => exact hxy.elim
      | inr y => exact .msm hxy

theorem eph_rel {rnd : Rat → Rat} (h : Nearest rnd) (bare : Bool) (msg : Bytes) :
    Option.Rel (ORel rnd) ((Eph.subDecode bare msg).map PyObj.eph) ((Eph.subDecodeR rnd bare msg).map PyObj.eph) := by
  cases bare with
  | true =>
    rw [(C68_eph h msg).1]
    cases Eph.subDecode true msg with
    | none => exact .none
    | some e => exact .some (.ephBare e)
  | false =>
    rcases Nav.subDecodeEph h msg with ⟨h1, h2⟩ | ⟨o, hv, h1, h2⟩
    · rw [h1, h2]; exact .none
    · rw [h1, h2]; exact .some (.eph o hv)

theorem base_rel {rnd : Rat → Rat} (h : Nearest rnd) (bare : Bool) (msg : Bytes) (hl : msg.length < 2 ^ 40) :
    PyRel (Option.Rel (ORel rnd)) (do return (← Base.subDecode bare msg).map baseObj : Py (Option PyObj))
      (do return (← Base.subDecodeR rnd bare msg).map baseObj) := by
  unfold Base.subDecodeR Base.subDecode Base.decodeR Base.decode
  rw [Nav.decodeBareR_eq h msg hl]
  cases Base.getMsgNum msg with
  | error e => exact rfl
  | ok n =>
    cases hb : Base.decodeBare msg with
    | error e => exact .none
    | ok o =>
      cases bare with
      | true => exact .some (.baseBare o)
      | false =>
        have hs := Nav.scale_snap h o (Nav.small_base hb)
        simp only [ok_bind]
        rw [if_neg Bool.false_ne_true, if_neg Bool.false_ne_true]
        cases hr : Base.scaleR rnd o with
        | error e =>
          rw [hr] at hs
          rw [hs]
          exact .none
        | ok r' =>
          rw [hr] at hs
          rw [hs]
          exact .some (.base o (Nav.small_base hb) hs hr)

theorem registered_rel {rnd : Rat → Rat} (h : Nearest rnd) (m : Mode) (msg : Bytes) (hl : msg.length < 2 ^ 40) :
    List.Forall₂ (DecRel rnd msg) ((registered m).map (·.2)) ((registeredR rnd m).map (·.2)) := by
  have h1 : DecRel rnd msg (s47 m.bare) (r47 rnd m.bare) := ⟨rfl, rfl, msm_rel h m.bare msg⟩
  have h2 : DecRel rnd msg (s13 m.bare) (r13 rnd m.bare) := ⟨rfl, rfl, msm_rel h m.bare msg⟩
  have h3 : DecRel rnd msg (sEph m.bare) (rEph rnd m.bare) := ⟨rfl, rfl, eph_rel h m.bare msg⟩
  have h4 : DecRel rnd msg (sBase m.bare) (rBase rnd m.bare) := ⟨rfl, rfl, base_rel h m.bare msg hl⟩
  unfold registered registeredR
  split
  · exact .cons h1 (.cons h2 .nil)
  · exact .cons h1 (.cons h2 (.cons h3 (.cons h4 .nil)))

theorem loop_rel {rnd : Rat → Rat} (h : Nearest rnd) (num : Option Nat) (msg : Bytes) (a s : Nat) {l l' : List SubDecoder}
    (hl : List.Forall₂ (DecRel rnd msg) l l') :
    (decodeLoop num msg a s l').1 = (decodeLoop num msg a s l).1 ∧
      PyRel (Option.Rel (ORel rnd)) (decodeLoop num msg a s l).2 (decodeLoop num msg a s l').2 := by
  induction hl with
  | nil => exact ⟨rfl, .none⟩
  | @cons d d' l l' hd _ ih =>
    rw [decodeLoop_cons, decodeLoop_cons]
    have hr : resp d' num = resp d num := by unfold resp; rw [hd.spec, hd.actual]
    rw [hr]
    cases resp d num with
    | none => exact ih
    | some cls =>
      dsimp only
      unfold attempt
      have := hd.run
      generalize d.run msg = x at this ⊢
      generalize d'.run msg = y at this ⊢
      cases x with
      | error e =>
        cases y with
        | error e' => exact ⟨rfl, this⟩
        | ok y => exact this.elim
      | ok x =>
        cases y with
        | error e' => exact this.elim
        | ok y =>
          have this : Option.Rel (ORel rnd) x y := this
          cases this with
          | none => exact ⟨rfl, rfl⟩
          | some hxy =>
            dsimp only
            unfold isInstance
            rw [near_cls (hxy.near h)]
            split
            · exact ⟨rfl, .some hxy⟩
            · exact ⟨rfl, rfl⟩

end Decoder

/-! ## Printers -/

namespace Conv

/-- The decoder of a converter with rounded arithmetic. -/
def rounded (rnd : Rat → Rat) (m : Mode) (c : Converter) : Converter :=
  { c with decoder := { c.decoder with decoders := registeredR rnd m } }

/-- Decoding a message. -/
theorem decode_rounded {rnd : Rat → Rat} (h : Nearest rnd) {m : Mode} {c : Converter} (hc : c.decoder.decoders = registered m) (msg : Bytes)
    (hl : msg.length < 2 ^ 40) :
    ∃ o', (rounded rnd m c).decode msg = (rounded rnd m (c.decode msg).1, o') ∧ Option.Rel (ORel rnd) (c.decode msg).2 o' := by
  obtain ⟨h1, h2⟩ := loop_rel h (Framer.mnum msg) msg c.decoder.attempts c.decoder.succeeded (registered_rel h m msg hl)
  rw [← hc] at h1 h2
  unfold Converter.decode DecoderTop.decode rounded
  dsimp only
  generalize decodeLoop (Framer.mnum msg) msg c.decoder.attempts c.decoder.succeeded (c.decoder.decoders.map (·.2)) = x at h1 h2 ⊢
  generalize decodeLoop (Framer.mnum msg) msg c.decoder.attempts c.decoder.succeeded ((registeredR rnd m).map (·.2)) = y at h1 h2 ⊢
  obtain ⟨x1, x⟩ := x
  obtain ⟨y1, y⟩ := y
  dsimp only at h1 h2 ⊢
  subst h1
  refine ⟨_, rfl, ?_⟩
  cases x with
  | error e =>
    cases y with
    | error e' => exact .none
    | ok y => exact h2.elim
  | ok x =>
    cases y with
    | error e' => exact h2.elim
    | ok y => exact h2

end Conv

/-- A step with the same new state and the same result, and with related file systems. -/
structure NearStep (fr : Rat → Txt) (c : Json.Controls) {P R : Type} (x x' : (P × Disk) × R) : Prop where
  st : x'.1.1 = x.1.1
  res : x'.2 = x.2
  disk : NearDisk fr c x.1.2 x'.1.2

namespace Json
variable {fr : Rat → Txt} {c : Json.Controls}

theorem near_writeTo (p : Printer) {w w' : Disk} (h : NearDisk fr c w w') (n : Int) {t t' : Txt} (ht : NearPiece fr c t t') :
    NearStep fr c (p.writeTo w n t) (p.writeTo w' n t') := by
  unfold Printer.writeTo
  cases p.ofiles.get? n with
  | none => exact ⟨rfl, rfl, h⟩
  | some q => exact ⟨rfl, rfl, h.write q ht⟩

theorem near_createOfile (p : Printer) {w w' : Disk} (h : NearDisk fr c w w') (n : Int) (row : SpecRow) :
    NearStep fr c (p.createOfile w n row) (p.createOfile w' n row) := by
  unfold Printer.createOfile
  dsimp only
  rw [h.isdir]
  have h1 : NearCall fr c (if w.isdir (Disk.join p.wd row.dir.toList) then (w, true) else w.makedirs (Disk.join p.wd row.dir.toList))
      (if w.isdir (Disk.join p.wd row.dir.toList) then (w', true) else w'.makedirs (Disk.join p.wd row.dir.toList)) := by
    split
    · exact ⟨h, rfl⟩
    · exact h.makedirs _
  generalize (if w.isdir (Disk.join p.wd row.dir.toList) then (w, true) else w.makedirs (Disk.join p.wd row.dir.toList)) = x at h1 ⊢
  generalize (if w.isdir (Disk.join p.wd row.dir.toList) then (w', true) else w'.makedirs (Disk.join p.wd row.dir.toList)) = y at h1 ⊢
  obtain ⟨w1, ok⟩ := x
  obtain ⟨w1', ok'⟩ := y
  obtain ⟨h1, h2⟩ := h1
  dsimp only at h1 h2 ⊢
  subst h2
  cases ok'
  · exact ⟨rfl, rfl, h1⟩
  · have h3 := h1.openW (Disk.join (Disk.join p.wd row.dir.toList) row.file.toList)
    generalize w1.openW (Disk.join (Disk.join p.wd row.dir.toList) row.file.toList) = x at h3 ⊢
    generalize w1'.openW (Disk.join (Disk.join p.wd row.dir.toList) row.file.toList) = y at h3 ⊢
    obtain ⟨w2, ok⟩ := x
    obtain ⟨w2', ok'⟩ := y
    obtain ⟨h3, h4⟩ := h3
    dsimp only at h3 h4 ⊢
    subst h4
    cases ok' <;> exact ⟨rfl, rfl, h3⟩

theorem near_append (p : Printer) {w w' : Disk} (h : NearDisk fr c w w') (cls : Cls) (n : Int) (row : SpecRow) {t t' : Txt}
    (ht : NearPiece fr c t t') : NearStep fr c (p.append fr w cls n row t) (p.append fr w' cls n row t') := by
  unfold Printer.append
  split
  · exact near_writeTo p h n ht
  · have h1 := near_createOfile p h n row
    generalize p.createOfile w n row = x at h1 ⊢
    generalize p.createOfile w' n row = y at h1 ⊢
    obtain ⟨⟨p1, w1⟩, r⟩ := x
    obtain ⟨⟨p1', w1'⟩, r'⟩ := y
    obtain ⟨a1, a2, a3⟩ := h1
    dsimp only at a1 a2 a3
    subst a1 a2
    cases r' with
    | error e => exact ⟨rfl, rfl, a3⟩
    | ok u =>
      dsimp only
      have h2 := near_writeTo p1' a3 n (.same (['[', '\r'] ++ dumps fr none (.dict [(.str "source_type", .str (clsName cls))])))
      generalize p1'.writeTo w1 n _ = x at h2 ⊢
      generalize p1'.writeTo w1' n _ = y at h2 ⊢
      obtain ⟨⟨p2, w2⟩, r⟩ := x
      obtain ⟨⟨p2', w2'⟩, r'⟩ := y
      obtain ⟨a1, a2, a3⟩ := h2
      dsimp only at a1 a2 a3
      subst a1 a2
      cases r' with
      | error e => exact ⟨rfl, rfl, a3⟩
      | ok u => exact near_writeTo p2' a3 n ht

theorem near_print (p : Printer) (hc : p.ctrls = c) {w w' : Disk} (h : NearDisk fr c w w') {o o' : PyObj} (ho : NearObj o o') :
    NearStep fr c (p.print fr w o) (p.print fr w' o') := by
  unfold Printer.print
  dsimp only
  rw [near_num ho, near_cls ho]
  cases (objNum o).bind (fun n => (JSON_SPEC.get? n).map (fun row => (n, row))) with
  | none => exact ⟨rfl, rfl, h⟩
  | some x =>
    obtain ⟨n, row⟩ := x
    refine near_append p h _ n row ?_
    rw [hc]
    exact .json ho

theorem near_close (p : Printer) {w w' : Disk} (h : NearDisk fr c w w') :
    (p.close w').1 = (p.close w).1 ∧ NearDisk fr c (p.close w).2 (p.close w').2 := by
  refine ⟨rfl, ?_⟩
  unfold Printer.close
  dsimp only
  generalize p.ofiles = l
  induction l generalizing w w' with
  | nil => exact h
  | cons f l ih => exact ih (h.write f.2 (.same _))

theorem createOfile_ctrls (p : Printer) (w : Disk) (n : Int) (row : SpecRow) : (p.createOfile w n row).1.1.ctrls = p.ctrls := by
  unfold Printer.createOfile
  dsimp only
  generalize (if w.isdir (Disk.join p.wd row.dir.toList) then (w, true) else w.makedirs (Disk.join p.wd row.dir.toList)) = x
  obtain ⟨w1, ok⟩ := x
  dsimp only
  cases ok
  · rfl
  · rw [if_pos rfl]
    generalize w1.openW _ = y
    obtain ⟨w2, ok⟩ := y
    cases ok <;> rfl

theorem writeTo_ctrls (p : Printer) (w : Disk) (n : Int) (t : Txt) : (p.writeTo w n t).1.1.ctrls = p.ctrls := by
  unfold Printer.writeTo
  split <;> rfl

theorem print_ctrls (fr : Rat → Txt) (p : Printer) (w : Disk) (o : PyObj) : (p.print fr w o).1.1.ctrls = p.ctrls := by
  unfold Printer.print
  dsimp only
  cases (objNum o).bind (fun n => (JSON_SPEC.get? n).map (fun row => (n, row))) with
  | none => rfl
  | some x =>
    obtain ⟨n, row⟩ := x
    dsimp only
    unfold Printer.append
    split
    · exact writeTo_ctrls p w n _
    · have h1 := createOfile_ctrls p w n row
      generalize p.createOfile w n row = x at h1 ⊢
      obtain ⟨⟨p1, w1⟩, r⟩ := x
      dsimp only at h1
      cases r with
      | error e => exact h1
      | ok u =>
        dsimp only
        have h2 := writeTo_ctrls p1 w1 n (['[', '\r'] ++ dumps fr none (.dict [(.str "source_type", .str (clsName o.cls))]))
        generalize p1.writeTo w1 n _ = x at h2 ⊢
        obtain ⟨⟨p2, w2⟩, r⟩ := x
        dsimp only at h2
        cases r with
        | error e => exact h2.trans h1
        | ok u => exact (writeTo_ctrls p2 w2 n _).trans (h2.trans h1)

end Json

namespace Margo
variable {fr : Rat → Txt} {c : Json.Controls}

theorem near_writeTo (p : Printer) {w w' : Disk} (h : NearDisk fr c w w') (n : Txt) {t t' : Txt} (ht : NearPiece fr c t t') :
    NearStep fr c (p.writeTo w n t) (p.writeTo w' n t') := by
  unfold Printer.writeTo
  cases p.ofiles.get? n with
  | none => exact ⟨rfl, rfl, h⟩
  | some q => exact ⟨rfl, rfl, h.write q ht⟩

theorem near_createOfile (p : Printer) {w w' : Disk} (h : NearDisk fr c w w') (n : Txt) :
    NearStep fr c (p.createOfile w n) (p.createOfile w' n) := by
  unfold Printer.createOfile
  cases (do dirName (← charAt n 0) : Py String) with
  | error e => exact ⟨rfl, rfl, h⟩
  | ok dir =>
    dsimp only
    rw [h.isdir]
    have h1 : NearCall fr c (if w.isdir (Disk.join p.wd dir.toList) then (w, true) else w.makedirs (Disk.join p.wd dir.toList))
        (if w.isdir (Disk.join p.wd dir.toList) then (w', true) else w'.makedirs (Disk.join p.wd dir.toList)) := by
      split
      · exact ⟨h, rfl⟩
      · exact h.makedirs _
    generalize (if w.isdir (Disk.join p.wd dir.toList) then (w, true) else w.makedirs (Disk.join p.wd dir.toList)) = x at h1 ⊢
    generalize (if w.isdir (Disk.join p.wd dir.toList) then (w', true) else w'.makedirs (Disk.join p.wd dir.toList)) = y at h1 ⊢
    obtain ⟨w1, ok⟩ := x
    obtain ⟨w1', ok'⟩ := y
    obtain ⟨h1, h2⟩ := h1
    dsimp only at h1 h2 ⊢
    subst h2
    cases ok'
    · exact ⟨rfl, rfl, h1⟩
    · have h3 := h1.openW (Disk.join (Disk.join p.wd dir.toList) n)
      generalize w1.openW (Disk.join (Disk.join p.wd dir.toList) n) = x at h3 ⊢
      generalize w1'.openW (Disk.join (Disk.join p.wd dir.toList) n) = y at h3 ⊢
      obtain ⟨w2, ok⟩ := x
      obtain ⟨w2', ok'⟩ := y
      obtain ⟨h3, h4⟩ := h3
      dsimp only at h3 h4 ⊢
      subst h4
      cases ok' <;> exact ⟨rfl, rfl, h3⟩

theorem near_append (p : Printer) {w w' : Disk} (h : NearDisk fr c w w') (n : Txt) {t t' : Txt} (ht : NearPiece fr c t t') :
    NearStep fr c (p.append w n t) (p.append w' n t') := by
  unfold Printer.append
  split
  · exact near_writeTo p h n ht
  · have h1 := near_createOfile p h n
    generalize p.createOfile w n = x at h1 ⊢
    generalize p.createOfile w' n = y at h1 ⊢
    obtain ⟨⟨p1, w1⟩, r⟩ := x
    obtain ⟨⟨p1', w1'⟩, r'⟩ := y
    obtain ⟨a1, a2, a3⟩ := h1
    dsimp only at a1 a2 a3
    subst a1 a2
    cases r' with
    | error e => exact ⟨rfl, rfl, a3⟩
    | ok b =>
      cases b with
      | false => exact ⟨rfl, rfl, a3⟩
      | true =>
        dsimp only
        cases makeHeader p1'.ctrl n with
        | error e => exact ⟨rfl, rfl, a3⟩
        | ok hh =>
          obtain ⟨t1, t2⟩ := hh
          dsimp only
          have h2 := near_writeTo p1' a3 n (.same t1)
          generalize p1'.writeTo w1 n t1 = x at h2 ⊢
          generalize p1'.writeTo w1' n t1 = y at h2 ⊢
          obtain ⟨⟨p2, w2⟩, r⟩ := x
          obtain ⟨⟨p2', w2'⟩, r'⟩ := y
          obtain ⟨a1, a2, a3⟩ := h2
          dsimp only at a1 a2 a3
          subst a1 a2
          cases r' with
          | error e => exact ⟨rfl, rfl, a3⟩
          | ok u =>
            dsimp only
            have h2 := near_writeTo p2' a3 n (.same t2)
            generalize p2'.writeTo w2 n t2 = x at h2 ⊢
            generalize p2'.writeTo w2' n t2 = y at h2 ⊢
            obtain ⟨⟨p3, w3⟩, r⟩ := x
            obtain ⟨⟨p3', w3'⟩, r'⟩ := y
            obtain ⟨a1, a2, a3⟩ := h2
            dsimp only at a1 a2 a3
            subst a1 a2
            cases r' with
            | error e => exact ⟨rfl, rfl, a3⟩
            | ok u => exact near_writeTo p3' a3 n ht

/-- Two rows of a file with near values. -/
def PairRow (r r' : Txt × Row) : Prop :=
  r'.1 = r.1 ∧ ∃ k : ObsKind, (do format (← charAt r.1 1) : Py (Nat × Nat)) = .ok k.format ∧ ∃ t l l',
    formatObsString r.2 k.format.1 k.format.2 = rowText k t l ∧ formatObsString r'.2 k.format.1 k.format.2 = rowText k t l' ∧
    List.Forall₂ (Option.Rel (fun x y => |y - x| ≤ k.tolerance x)) l l'

theorem near_printRows {rows rows' : PyDict Txt Row} (hr : List.Forall₂ PairRow rows rows') : ∀ (p : Printer) {w w' : Disk}, NearDisk fr c w w' →
    NearStep fr c (p.printRows w rows) (p.printRows w' rows') := by
  induction hr with
  | nil => exact fun p w w' h => ⟨rfl, rfl, h⟩
  | @cons a b l l' hab _ ih =>
    intro p w w' h
    obtain ⟨n, row⟩ := a
    obtain ⟨n', row'⟩ := b
    obtain ⟨h1, k, h2, t, cells, cells', h3, h4, h5⟩ := hab
    dsimp only at h1 h2 h3 h4
    subst h1
    unfold Printer.printRows
    rw [h2]
    dsimp only
    rw [h3, h4]
    have h6 := near_append p h n' (NearPiece.row (fr := fr) (c := c) k t h5)
    generalize p.append w n' _ = x at h6 ⊢
    generalize p.append w' n' _ = y at h6 ⊢
    obtain ⟨⟨p1, w1⟩, r⟩ := x
    obtain ⟨⟨p1', w1'⟩, r'⟩ := y
    obtain ⟨a1, a2, a3⟩ := h6
    dsimp only at a1 a2 a3
    subst a1 a2
    cases r' with
    | error e => exact ⟨rfl, rfl, a3⟩
    | ok u => exact ih p1' a3

/-- The rows of an object with exact and with rounded arithmetic. -/
theorem pair_rows {rnd : Rat → Rat} (h : Nearest rnd) (c : Controls) (hc : Channels c) {g : Nat} {p p' : Msm.ObservablesMSM}
    (hp : Msm.ObjRel rnd p p') (hR : Regular g p) (hC : ChannelsPos c) :
    ∃ rows rows', printBuffer c p = .ok rows ∧ printBufferR rnd c p' = .ok rows' ∧ List.Forall₂ PairRow rows rows' := by
  have hOK : g = 1 → ChannelsOK c := fun _ => hC.ok
  have e1 := printBuffer_ok c hR hOK
  have hs := mrows_signed c (t := if g = 0 then (p.hdr.time : Int) else convToGpsTime p.hdr.time p.hdr.day c.gps_utc_shift (gnssLetter g))
    hR (fun _ => hC) (kindsOf (settings c))
  have hrel := printBuffer_rel h c hc hp
  rw [e1] at hrel
  generalize hpb : printBufferR rnd c p' = b at hrel ⊢
  cases b with
  | error e => exact hrel.elim
  | ok rows' =>
    refine ⟨_, rows', e1, rfl, ?_⟩
    have hrel : BufRel _ rows' := hrel
    refine List.Forall₂.imp ?_ (forall₂_getElem hrel hs)
    rintro ⟨n, r⟩ ⟨n', r'⟩ ⟨⟨g1, k, slot, u, hN, hS, -⟩, h1, h2, h3⟩
    dsimp only at h1 h2 h3
    subst h1
    have hk : n[1]? = some k.letter := by
      have := name_second hN.lt k slot u
      rwa [← hN.name] at this
    have h4 := h3 k hk
    have hN' : Named g1 k slot u (n, r') := ⟨hN.lt, hN.code, hN.name, h4.length_eq.symm.trans hN.len⟩
    have h5 : Signed k (n, r') := by
      intro x hx
      obtain ⟨y, -, -, hy⟩ := forall₂_right h4 hx
      exact hy
    refine ⟨rfl, k, ?_, r.1, r.2.map Cell.val, r'.2.map Cell.val, row_text hN hS, ?_, ?_⟩
    · have := hN.chars.2.1
      dsimp only at this ⊢
      rw [this, ok_bind, format_ok]
    · have := row_text hN' h5
      rw [this]
      dsimp only
      rw [h2]
    · rw [List.forall₂_map_left_iff, List.forall₂_map_right_iff]
      exact List.Forall₂.imp (fun _ _ hab => hab.1) h4

end Margo

namespace Run
open Framer

/-- The controls of a sub-printer are those of the box. -/
def HasCtrls (box : Box) : Impl → Prop
  | .json p => p.ctrls = box.json
  | .margo p => p.ctrl = box.margo

theorem printRows_ctrl : ∀ (rows : PyDict Txt Margo.Row) (p : Margo.Printer) (w : Disk), (p.printRows w rows).1.1.ctrl = p.ctrl
  | [], _, _ => rfl
  | (f, row) :: rest, p, w => by
    unfold Margo.Printer.printRows
    cases (do Margo.format (← Margo.charAt f 1) : Py (Nat × Nat)) with
    | error e => rfl
    | ok x =>
      obtain ⟨a, b⟩ := x
      dsimp only
      have h1 := Margo.append_ctrl p w f (Margo.formatObsString row a b)
      generalize p.append w f _ = x at h1 ⊢
      obtain ⟨⟨p1, w1⟩, r⟩ := x
      dsimp only at h1
      cases r with
      | error e => exact h1
      | ok u => exact (printRows_ctrl rest p1 w1).trans h1

theorem impl_ctrls (fr : Rat → Txt) {box : Box} (i : Impl) (w : Disk) (o : PyObj) (hi : HasCtrls box i) : HasCtrls box (i.print fr w o).1.1 := by
  cases i with
  | json p => exact (Json.print_ctrls fr p w o).trans hi
  | margo p =>
    unfold Impl.print
    dsimp only
    show (p.print w o).1.1.ctrl = box.margo
    rw [← (show p.ctrl = box.margo from hi)]
    unfold Margo.Printer.print
    cases o with
    | msm q =>
      dsimp only
      cases Margo.printBuffer p.ctrl q with
      | error e => rfl
      | ok rows => exact printRows_ctrl rows p w
    | msmBare b => rfl
    | eph e => rfl
    | baseBare b => rfl
    | baseScaled b => rfl

theorem near_impl {rnd : Rat → Rat} (h : Nearest rnd) (fr : Rat → Txt) {box : Box} (hb : Margo.Channels box.margo) (hC : Margo.ChannelsPos box.margo)
    (i : Impl) (hi : HasCtrls box i) {w w' : Disk} (hw : NearDisk fr box.json w w') {o o' : PyObj} (ho : ORel rnd o o')
    (hR : ∀ p, o = .msm p → ∃ g, Regular g p) : NearStep fr box.json (i.print fr w o) (i.printR rnd fr w' o') := by
  cases i with
  | json p =>
    obtain ⟨a1, a2, a3⟩ := Json.near_print p hi hw (ho.near h)
    exact ⟨congrArg Impl.json a1, a2, a3⟩
  | margo p =>
    have hi : p.ctrl = box.margo := hi
    have key : NearStep fr box.json (p.print w o) (p.printR rnd w' o') := by
      cases ho with
      | @msm r r' hr =>
        obtain ⟨g, hg⟩ := hR r rfl
        obtain ⟨rows, rows', e1, e2, e3⟩ := Margo.pair_rows h p.ctrl (by rw [hi]; exact hb) hr hg (by rw [hi]; exact hC)
        unfold Margo.Printer.print Margo.Printer.printR
        dsimp only
        rw [e1, e2]
        dsimp only
        rw [Margo.printRowsR_eq h rows' p w' (by rw [hi]; exact hb)]
        exact Margo.near_printRows e3 p hw
      | msmBare b => exact ⟨rfl, rfl, hw⟩
      | baseBare b => exact ⟨rfl, rfl, hw⟩
      | ephBare b => exact ⟨rfl, rfl, hw⟩
      | eph b hv => exact ⟨rfl, rfl, hw⟩
      | base b hb ho ho' => exact ⟨rfl, rfl, hw⟩
    exact ⟨congrArg Impl.margo key.st, key.res, key.disk⟩

theorem loop_ctrls (fr : Rat → Txt) {box : Box} (o : PyObj) : ∀ (l : List SubPrinter) (a s : Nat) (w : Disk), (∀ x ∈ l, HasCtrls box x.impl) →
    ∀ x ∈ (printLoop fr o a s w l).1.2.2.1, HasCtrls box x.impl
  | [], _, _, _, _ => by simp [printLoop]
  | p :: rest, a, s, w, hl => by
    unfold printLoop
    split
    · have h1 := impl_ctrls fr p.impl w o (hl p (by simp))
      generalize p.impl.print fr w o = x at h1 ⊢
      obtain ⟨⟨i, w1⟩, r⟩ := x
      dsimp only at h1
      cases r <;>
      · intro x hx
        rcases List.mem_cons.1 hx with rfl | hx
        · exact h1
        · exact hl x (by simp [hx])
    · intro x hx
      have ih := loop_ctrls fr o rest a s w (fun x hx => hl x (by simp [hx]))
      generalize printLoop fr o a s w rest = y at ih hx
      obtain ⟨⟨a1, s1, l1, w1⟩, r⟩ := y
      dsimp only at ih hx
      rcases List.mem_cons.1 hx with rfl | hx
      · exact hl x (by simp)
      · exact ih x hx

theorem near_loop {rnd : Rat → Rat} (h : Nearest rnd) (fr : Rat → Txt) {box : Box} (hb : Margo.Channels box.margo) (hC : Margo.ChannelsPos box.margo)
    {o o' : PyObj} (ho : ORel rnd o o') (hR : ∀ p, o = .msm p → ∃ g, Regular g p) :
    ∀ (l : List SubPrinter) (a s : Nat) {w w' : Disk}, NearDisk fr box.json w w' → (∀ x ∈ l, HasCtrls box x.impl) →
    ∃ a1 s1 l1 w1 w1' r, printLoop fr o a s w l = ((a1, s1, l1, w1), r) ∧ printLoopR rnd fr o' a s w' l = ((a1, s1, l1, w1'), r) ∧
      NearDisk fr box.json w1 w1'
  | [], a, s, w, w', hw, _ => ⟨a, s, [], w, w', _, rfl, rfl, hw⟩
  | p :: rest, a, s, w, w', hw, hl => by
    unfold printLoop printLoopR
    rw [near_cls (ho.near h)]
    split
    · have h1 := near_impl h fr hb hC p.impl (hl p (by simp)) hw ho hR
      generalize p.impl.print fr w o = x at h1 ⊢
      generalize p.impl.printR rnd fr w' o' = y at h1 ⊢
      obtain ⟨⟨i, w1⟩, r⟩ := x
      obtain ⟨⟨i', w1'⟩, r'⟩ := y
      obtain ⟨a1, a2, a3⟩ := h1
      dsimp only at a1 a2 a3
      subst a1 a2
      cases r' with
      | ok u => exact ⟨_, _, _, _, _, _, rfl, rfl, a3⟩
      | error e => exact ⟨_, _, _, _, _, _, rfl, rfl, a3⟩
    · obtain ⟨a1, s1, l1, w1, w1', r, e1, e2, e3⟩ := near_loop h fr hb hC ho hR rest a s hw (fun x hx => hl x (by simp [hx]))
      rw [e1, e2]
      exact ⟨_, _, _, _, _, _, rfl, rfl, e3⟩

/-- Printing an object. -/
theorem near_converter {rnd : Rat → Rat} (h : Nearest rnd) (fr : Rat → Txt) {box : Box} (hb : Margo.Channels box.margo)
    (hC : Margo.ChannelsPos box.margo) (m : Mode) {o o' : PyObj} (ho : ORel rnd o o') (hR : ∀ p, o = .msm p → ∃ g, Regular g p)
    (c : Converter) (hc : ∀ x ∈ c.printer.printers, HasCtrls box x.impl) {w w' : Disk} (hw : NearDisk fr box.json w w') :
    ∃ c1 w1 w1' r, c.print fr w o = ((c1, w1), r) ∧ (rounded rnd m c).printR rnd fr w' o' = ((rounded rnd m c1, w1'), r) ∧
      NearDisk fr box.json w1 w1' ∧ c1.decoder = c.decoder ∧ ∀ x ∈ c1.printer.printers, HasCtrls box x.impl := by
  obtain ⟨a1, s1, l1, w1, w1', r, e1, e2, e3⟩ := near_loop h fr hb hC ho hR c.printer.printers c.printer.attempts c.printer.succeeded hw hc
  have hl := loop_ctrls fr o c.printer.printers c.printer.attempts c.printer.succeeded w hc
  rw [e1] at hl
  refine ⟨{ c with printer := { c.printer with attempts := a1, succeeded := s1, printers := l1 } }, w1, w1', catchAsserts r, ?_, ?_, e3, rfl, hl⟩
  · unfold Converter.print PrinterTop.print
    rw [e1]
  · unfold Converter.printR PrinterTop.printR rounded
    dsimp only
    rw [e2]

theorem decode_decoders {m : Mode} {c : Converter} (hc : c.decoder.decoders = registered m) (msg : Bytes) :
    (c.decode msg).2 = outcome m msg ∧ (c.decode msg).1.printer = c.printer ∧ (c.decode msg).1.decoder.decoders = registered m := by
  obtain ⟨c1, e1, e2, e3, -⟩ := decode_outcome hc msg
  rw [e1]
  exact ⟨rfl, e2, e3⟩

theorem frame_short {msg : Bytes} (h : ValidFrame msg) : msg.length < 2 ^ 40 := by
  have h1 := h.length
  unfold payloadLen at h1
  have h2 := (msg.getD 1 0).toNat_lt
  have h3 := (msg.getD 2 0).toNat_lt
  omega

/-- Processing messages. -/
theorem near_process {rnd : Rat → Rat} (h : Nearest rnd) (fr : Rat → Txt) {box : Box} (hb : Margo.Channels box.margo)
    (hC : Margo.ChannelsPos box.margo) (m : Mode) : ∀ (ms : List Bytes), (∀ x ∈ ms, ValidFrame x) → ∀ (c : Converter) {w w' : Disk},
    c.decoder.decoders = registered m → (∀ x ∈ c.printer.printers, HasCtrls box x.impl) → NearDisk fr box.json w w' →
    ∃ c1 w1 w1' r, processMsgs fr c w ms = ((c1, w1), r) ∧ processMsgsR rnd fr (rounded rnd m c) w' ms = ((rounded rnd m c1, w1'), r) ∧
      NearDisk fr box.json w1 w1' ∧ c1.decoder.decoders = registered m ∧ ∀ x ∈ c1.printer.printers, HasCtrls box x.impl
  | [], _, c, w, w', hd, hc, hw => ⟨c, w, w', _, rfl, rfl, hw, hd, hc⟩
  | msg :: ms, hv, c, w, w', hd, hc, hw => by
    have hv1 := hv msg (by simp)
    have hlen := frame_short hv1
    obtain ⟨o', e1, e2⟩ := decode_rounded h hd msg hlen
    obtain ⟨d1, d2, d3⟩ := decode_decoders hd msg
    unfold processMsgs processMsgsR
    rw [e1]
    generalize c.decode msg = x at e1 e2 d1 d2 d3 ⊢
    obtain ⟨c1, o⟩ := x
    dsimp only at e1 e2 d1 d2 d3 ⊢
    cases e2 with
    | none => exact near_process h fr hb hC m ms (fun x hx => hv x (by simp [hx])) c1 d3 (by rw [d2]; exact hc) hw
    | @some o o' ho =>
      have hR : ∀ p, o = .msm p → ∃ g, Regular g p := by
        rintro p rfl
        obtain ⟨d, h1, -, -, -, rfl⟩ := outcome_msm hv1 d1.symm
        exact ⟨d.g, Margo.regular_decoded d h1⟩
      obtain ⟨c2, w1, w1', r, f1, f2, f3, f4, f5⟩ := near_converter h fr hb hC m ho hR c1 (by rw [d2]; exact hc) hw
      dsimp only
      rw [f1, f2]
      cases r with
      | error e => exact ⟨c2, w1, w1', _, rfl, rfl, f3, by rw [f4]; exact d3, f5⟩
      | ok u => exact near_process h fr hb hC m ms (fun x hx => hv x (by simp [hx])) c2 (by rw [f4]; exact d3) f5 f3

/-- The loop over the chunks of a file. -/
theorem near_readLoop {rnd : Rat → Rat} (h : Nearest rnd) (fr : Rat → Txt) {box : Box} (hb : Margo.Channels box.margo)
    (hC : Margo.ChannelsPos box.margo) (m : Mode) (n : Nat) (bytes : Bytes) : ∀ (c : Converter) {w w' : Disk},
    Reachable c.decoder.parser → c.decoder.decoders = registered m → (∀ x ∈ c.printer.printers, HasCtrls box x.impl) → NearDisk fr box.json w w' →
    ∃ c1 w1 w1' r, readLoop fr n c w bytes = some ((c1, w1), r) ∧ readLoopR rnd fr n (rounded rnd m c) w' bytes = some ((rounded rnd m c1, w1'), r) ∧
      NearDisk fr box.json w1 w1' ∧ ∀ x ∈ c1.printer.printers, HasCtrls box x.impl := by
  induction hl : bytes.length using Nat.strongRecOn generalizing bytes with
  | ind k ih =>
    intro c w w' hr hd hc hw
    unfold readLoop readLoopR
    by_cases ht : bytes.take n = []
    · rw [dif_pos ht, dif_pos ht]
      exact ⟨c, w, w', _, rfl, rfl, hw, hc⟩
    · rw [dif_neg ht, dif_neg ht]
      obtain ⟨st1, ms1, e1, hr1⟩ := C09_total c.decoder.parser hr (bytes.take n)
      rw [parseBytes_eq c _ st1 ms1 e1, parseBytes_eq (rounded rnd m c) _ st1 ms1 e1]
      dsimp only
      rw [show setParser (rounded rnd m c) st1 = rounded rnd m (setParser c st1) from rfl]
      have hp := process_parser fr ms1 (setParser c st1) w
      obtain ⟨c1, w1, w1', r, f1, f2, f3, f4, f5⟩ := near_process h fr hb hC m ms1 (C03_sound _ _ _ _ hr e1) (setParser c st1) hd hc hw
      rw [f1] at hp
      rw [f1, f2]
      cases r with
      | error e => exact ⟨c1, w1, w1', _, rfl, rfl, f3, f5⟩
      | ok u =>
        have hn : n ≠ 0 := by rintro rfl; exact ht rfl
        have hne : bytes ≠ [] := by rintro rfl; exact ht (by simp)
        have hpos := List.length_pos_iff.2 hne
        exact ih (bytes.drop n).length (by rw [List.length_drop]; omega) (bytes.drop n) rfl c1 (by rw [show c1.decoder.parser = st1 from hp]; exact hr1) f4 f5 f3

theorem near_closeLoop {fr : Rat → Txt} {j : Json.Controls} : ∀ (l : List SubPrinter) {w w' : Disk}, NearDisk fr j w w' →
    (closeLoop w' l).1 = (closeLoop w l).1 ∧ NearDisk fr j (closeLoop w l).2 (closeLoop w' l).2
  | [], _, _, hw => ⟨rfl, hw⟩
  | p :: rest, w, w', hw => by
    unfold closeLoop
    have h1 : (p.impl.close w').1 = (p.impl.close w).1 ∧ NearDisk fr j (p.impl.close w).2 (p.impl.close w').2 := by
      cases p.impl with
      | json q => exact ⟨rfl, (Json.near_close q hw).2⟩
      | margo q => exact ⟨rfl, hw⟩
    generalize p.impl.close w = x at h1 ⊢
    generalize p.impl.close w' = y at h1 ⊢
    obtain ⟨i, w1⟩ := x
    obtain ⟨i', w1'⟩ := y
    obtain ⟨h1, h2⟩ := h1
    dsimp only at h1 h2 ⊢
    subst h1
    obtain ⟨h3, h4⟩ := near_closeLoop rest h2
    generalize closeLoop w1 rest = x at h3 h4 ⊢
    generalize closeLoop w1' rest = y at h3 h4 ⊢
    obtain ⟨l1, w2⟩ := x
    obtain ⟨l1', w2'⟩ := y
    dsimp only at h3 h4 ⊢
    exact ⟨by rw [h3], h4⟩

theorem near_release {fr : Rat → Txt} {j : Json.Controls} (rnd : Rat → Rat) (m : Mode) (c : Converter) {w w' : Disk} (hw : NearDisk fr j w w') :
    ((rounded rnd m c).release w').1 = rounded rnd m (c.release w).1 ∧ NearDisk fr j (c.release w).2 ((rounded rnd m c).release w').2 := by
  obtain ⟨h1, h2⟩ := near_closeLoop c.printer.printers hw
  refine ⟨?_, h2⟩
  unfold Converter.release PrinterTop.close rounded
  dsimp only
  rw [h1]

/-- One source file. -/
theorem near_file {rnd : Rat → Rat} (h : Nearest rnd) (fr : Rat → Txt) {box : Box} (hb : Margo.Channels box.margo)
    (hC : Margo.ChannelsPos box.margo) (m : Mode) (n : Nat) (content : Option Bytes) (c : Converter) {w w' : Disk}
    (hr : Reachable c.decoder.parser) (hd : c.decoder.decoders = registered m) (hc : ∀ x ∈ c.printer.printers, HasCtrls box x.impl)
    (hw : NearDisk fr box.json w w') :
    ∃ c1 w1 w1' ok, decodeRtcmFile fr n content c w = some ((c1, w1), ok) ∧
      decodeRtcmFileR rnd fr n content (rounded rnd m c) w' = some ((rounded rnd m c1, w1'), ok) ∧ NearDisk fr box.json w1 w1' := by
  cases content with
  | none =>
    obtain ⟨h1, h2⟩ := near_release rnd m c hw
    exact ⟨_, _, _, false, rfl, congrArg (fun x => some ((x, _), false)) h1, h2⟩
  | some bytes =>
    obtain ⟨c1, w1, w1', r, e1, e2, e3, -⟩ := near_readLoop h fr hb hC m n bytes c hr hd hc hw
    obtain ⟨h1, h2⟩ := near_release rnd m c1 e3
    unfold decodeRtcmFile decodeRtcmFileR
    dsimp only
    rw [e1, e2]
    exact ⟨_, _, _, _, rfl, congrArg (fun x => some ((x, _), _)) h1, h2⟩

end Run
end Verif
