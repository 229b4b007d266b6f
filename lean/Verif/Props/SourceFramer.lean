import Verif.Props.SourceText
import Verif.Props.Framer
import Verif.Refine.Framer
import Verif.Spec.Arithmetic

/-!
Claims about the text of the parsing part of decoder_top.py: `DecoderTop.__init__`, `catch_message`, `__rebase_to_D3`, `mlen`, `mcrc`.
-/

namespace Verif
open Spec PyCore Refine Framer

section
variable [Rounding]

theorem set_self {H : Heap} {a : Nat} {o : Obj} (h : H[a]? = some o) : H.set a o = H := by
  apply List.ext_getElem?
  intro i
  by_cases hi : a = i
  · subst hi
    rw [h, List.getElem?_set_self (List.getElem?_eq_some_iff.1 h).1]
  · rw [List.getElem?_set_ne hi]

theorem catchAll_feed (a : Nat) (d x y : Val) (chunks : List Bytes) : ∀ (H : Heap) (p : Parser), a < H.length → Reachable p →
    ∃ (outs : List (List Bytes)) (H' : Heap) (q : Parser), CatchAll a chunks (H.set a (topObj d x y p)) outs (H'.set a (topObj d x y q)) ∧
      feed p chunks = pure (q, outs.flatten) ∧ Reachable q ∧ H.length ≤ H'.length ∧ ∀ b, b < H.length → H'[b]? = H[b]? := by
  induction chunks with
  | nil =>
    intro H p ha hp
    exact ⟨[], H, p, ⟨rfl, rfl⟩, rfl, hp, le_refl _, fun _ _ => rfl⟩
  | cons c cs ih =>
    intro H p ha hp
    obtain ⟨p1, ms, hc, hp1⟩ := C09_total p hp c
    obtain ⟨outs, H', q, h1, h2, h3, h4, h5⟩ := ih (H ++ [.list (ms.map .bytes), .list [.bytes p.tail, .bytes c]]) p1
      (by rw [List.length_append]; omega) hp1
    rw [List.length_append] at h4
    refine ⟨ms :: outs, H', q, ⟨H.length, _, ms, outs, ⟨p.tail.length + c.length + 6, fun n hn => ?_⟩, ?_, rfl, h1⟩, ?_, h3, by omega, ?_⟩
    · obtain ⟨n, rfl⟩ : ∃ n', n = n' + 1 := ⟨n - 1, by omega⟩
      exact catch_src n H a ha d x y p p1 c ms hc (by omega)
    · rw [List.getElem?_set_ne (by omega)]; simp
    · rw [feed, hc, pure_bind]
      simp only
      rw [h2, pure_bind]; rfl
    · intro b hb
      rw [h5 b (by rw [List.length_append]; omega), List.getElem?_append_left hb]

theorem newDecoder_eq {h0 h : Heap} {a : Nat} (hn : NewDecoder h0 a h) :
    a < h0.length ∧ h = (h0 ++ [Obj.dict []]).set a (topObj (.ref h0.length) (.int 0) (.int 0) Parser.init) := by
  obtain ⟨h1, N, h2⟩ := hn
  have ha := (List.getElem?_eq_some_iff.1 h1).1
  refine ⟨ha, ?_⟩
  have h3 := top_init_src N h0 a ha
  rw [set_self h1] at h3
  have h4 := h2 (N + 1) (by omega)
  rw [h3] at h4
  exact (Prod.mk.injEq _ _ _ _ ▸ h4).2.symm

theorem newDecoder_exists {h0 : Heap} {a : Nat} (h : h0[a]? = some (.inst n!"DecoderTop" [])) : ∃ h1, NewDecoder h0 a h1 := by
  have ha := (List.getElem?_eq_some_iff.1 h).1
  refine ⟨(h0 ++ [Obj.dict []]).set a (topObj (.ref h0.length) (.int 0) (.int 0) Parser.init), h, 1, fun n hn => ?_⟩
  obtain ⟨n, rfl⟩ : ∃ n', n = n' + 1 := ⟨n - 1, by omega⟩
  have h3 := top_init_src n h0 a ha
  rw [set_self h] at h3
  exact h3

theorem newDecoder_feed {h0 h : Heap} {a : Nat} (hn : NewDecoder h0 a h) (chunks : List Bytes) :
    ∃ (outs : List (List Bytes)) (h' : Heap) (q : Parser), CatchAll a chunks h outs h' ∧ feed Parser.init chunks = pure (q, outs.flatten) ∧ Reachable q ∧
      (∃ d x y, h'[a]? = some (topObj d x y q)) ∧ ∀ b, b < h0.length → b ≠ a → h'[b]? = h0[b]? := by
  obtain ⟨ha, rfl⟩ := newDecoder_eq hn
  obtain ⟨outs, H', q, h1, h2, h3, h4, h5⟩ := catchAll_feed a (.ref h0.length) (.int 0) (.int 0) chunks (h0 ++ [Obj.dict []]) Parser.init
    (by rw [List.length_append]; omega) .init
  rw [List.length_append] at h4
  refine ⟨outs, _, q, h1, h2, h3, ⟨_, _, _, List.getElem?_set_self (by omega)⟩, ?_⟩
  intro b hb hba
  rw [List.getElem?_set_ne (fun h => hba h.symm), h5 b (by rw [List.length_append]; omega), List.getElem?_append_left hb]

/-- `DecoderTop()` comes to an end. -/
theorem C89_new (h0 : Heap) (a : Nat) (h : h0[a]? = some (.inst n!"DecoderTop" [])) : ∃ h1, NewDecoder h0 a h1 := newDecoder_exists h

/-- **C89** the text of `catch_message`, called on a new object with any chunks: every call comes to an end and returns a list; all
lists together are the messages of the stream; the counter of errors is the number of messages that discarded bytes separate from the
message before; no more than 1028 bytes are kept; no other object is changed. -/
theorem C89_messages (h0 h : Heap) (a : Nat) (hn : NewDecoder h0 a h) (chunks : List Bytes) :
    ∃ (outs : List (List Bytes)) (h' : Heap), CatchAll a chunks h outs h' ∧
      outs.flatten = messages chunks.flatten ∧
      Returns n!"DecoderTop.parse_errors" [.ref a] h' (.int (dirtyGaps (scan [] chunks.flatten).segs)) ∧
      (∃ o t, h'[a]? = some o ∧ attrVal o "_tail" = some (.bytes t) ∧ t.length ≤ 1028) ∧
      ∀ b, b < h0.length → b ≠ a → h'[b]? = h0[b]? := by
  obtain ⟨outs, h', q, h1, h2, h3, ⟨d, x, y, h4⟩, h5⟩ := newDecoder_feed hn chunks
  obtain ⟨st, f1, f2, -⟩ := feed_init chunks
  rw [f1] at h2
  have h6 := pureD_inj h2
  simp only [Prod.mk.injEq] at h6
  obtain ⟨rfl, h6⟩ := h6
  refine ⟨outs, h', h1, h6.symm, ?_, ⟨_, st.tail, h4, rfl, C08_bounded st h3⟩, h5⟩
  rw [← f2]
  exact Ends.of_call 1 (fun n => parse_errors_src n h' a d x y st h4)

/-- **C89** what the calls return is determined by the chunks: `CatchAll` is a function. -/
theorem catchAll_unique (a : Nat) (chunks : List Bytes) : ∀ (h : Heap) (o1 o2 : List (List Bytes)) (h1 h2 : Heap),
    CatchAll a chunks h o1 h1 → CatchAll a chunks h o2 h2 → o1 = o2 ∧ h1 = h2 := by
  induction chunks with
  | nil =>
    rintro h o1 o2 h1 h2 ⟨rfl, rfl⟩ ⟨rfl, rfl⟩
    exact ⟨rfl, rfl⟩
  | cons c cs ih =>
    rintro h o1 o2 h1 h2 ⟨r, k, ms, rest, ⟨N, hN⟩, hk, rfl, hr⟩ ⟨r', k', ms', rest', ⟨N', hN'⟩, hk', rfl, hr'⟩
    have e := (hN (max N N') (le_max_left _ _)).symm.trans (hN' (max N N') (le_max_right _ _))
    simp only [Prod.mk.injEq, Except.ok.injEq, Val.ref.injEq] at e
    obtain ⟨rfl, rfl⟩ := e
    rw [hk] at hk'
    simp only [Option.some.injEq, Obj.list.injEq] at hk'
    have hms : ms = ms' := by
      have hj : Function.Injective (fun b : Bytes => Val.bytes b) := fun x y e => by injection e
      exact (List.map_injective_iff.2 hj) hk'
    obtain ⟨rfl, rfl⟩ := ih _ _ _ _ _ hr hr'
    exact ⟨by rw [hms], rfl⟩

/-- **C89** a stream of valid frames, cut in any way: the calls return the frames, each once and in order, and no error is counted. -/
theorem C89_clean (h0 h : Heap) (a : Nat) (hn : NewDecoder h0 a h) (fs : List Bytes) (hv : ∀ f ∈ fs, ValidFrame f)
    (chunks : List Bytes) (hc : chunks.flatten = fs.flatten) (outs : List (List Bytes)) (h' : Heap)
    (hr : CatchAll a chunks h outs h') :
    outs.flatten = fs ∧ Returns n!"DecoderTop.parse_errors" [.ref a] h' (.int 0) := by
  obtain ⟨outs2, h2, q, h1, h3, -, ⟨d, x, y, h4⟩, -⟩ := newDecoder_feed hn chunks
  obtain ⟨rfl, rfl⟩ := catchAll_unique _ _ _ _ _ _ _ hr h1
  obtain ⟨st, e1, e2, -⟩ := C05_clean fs hv chunks hc
  rw [e1] at h3
  have h6 := pureD_inj h3
  simp only [Prod.mk.injEq] at h6
  obtain ⟨rfl, h6⟩ := h6
  refine ⟨h6.symm, ?_⟩
  have := Ends.of_call 1 (fun n => parse_errors_src n h' a d x y st h4) (post := fun r => r = (.ok (.int st.parsErrCnt), h'))
  rw [e2] at this
  exact this

/-- **C89** every element of a returned list is a valid frame. -/
theorem C89_sound (h0 h : Heap) (a : Nat) (hn : NewDecoder h0 a h) (chunks : List Bytes) (outs : List (List Bytes)) (h' : Heap)
    (hr : CatchAll a chunks h outs h') : ∀ m ∈ outs.flatten, ValidFrame m := by
  obtain ⟨outs2, h2, h1, h3, -⟩ := C89_messages h0 h a hn chunks
  obtain ⟨rfl, rfl⟩ := catchAll_unique _ _ _ _ _ _ _ hr h1
  rw [h3]
  intro m hm
  obtain ⟨g, hg, rfl⟩ := List.mem_map.1 hm
  exact scan_valid _ _ g hg

/-- **C89** the same stream cut in another way: the same messages and the same count. -/
theorem C89_chunks (h0 h : Heap) (a : Nat) (hn : NewDecoder h0 a h) (c1 c2 : List Bytes) (he : c1.flatten = c2.flatten)
    (o1 o2 : List (List Bytes)) (h1 h2 : Heap) (r1 : CatchAll a c1 h o1 h1) (r2 : CatchAll a c2 h o2 h2) :
    o1.flatten = o2.flatten ∧ ∃ k : Nat, Returns n!"DecoderTop.parse_errors" [.ref a] h1 (.int k) ∧
      Returns n!"DecoderTop.parse_errors" [.ref a] h2 (.int k) := by
  obtain ⟨p1, q1, a1, b1, d1, -⟩ := C89_messages h0 h a hn c1
  obtain ⟨p2, q2, a2, b2, d2, -⟩ := C89_messages h0 h a hn c2
  obtain ⟨rfl, rfl⟩ := catchAll_unique _ _ _ _ _ _ _ r1 a1
  obtain ⟨rfl, rfl⟩ := catchAll_unique _ _ _ _ _ _ _ r2 a2
  rw [he] at b1 d1
  exact ⟨b1.trans b2.symm, _, d1, d2⟩

end

attribute [local instance] exactArith

/-- A run of the text: two chunks that hold some noise and one message without content. -/
example : (match callFn src 12 n!"DecoderTop.__init__" [.ref 0] [.inst n!"DecoderTop" []] with
    | (.ok .none, h1) =>
      match callFn src 20 n!"DecoderTop.catch_message" [.ref 0, .bytes [0x11, 0xD3, 0x00, 0x00, 0x47]] h1 with
      | (.ok (.ref r1), h2) =>
        match callFn src 20 n!"DecoderTop.catch_message" [.ref 0, .bytes [0xEA, 0x4B, 0x55]] h2 with
        | (.ok (.ref r2), h3) =>
          match h3[r1]?, h3[r2]? with
          | some (.list []), some (.list [.bytes [0xD3, 0x00, 0x00, 0x47, 0xEA, 0x4B]]) => true
          | _, _ => false
        | _ => false
      | _ => false
    | _ => false) = true := by
  decide +kernel

end Verif
