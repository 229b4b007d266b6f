import Verif.Lemmas.ScanClean
import Verif.Props.CRC

/-!
# C01 – C10: message extraction

`Framer.feed Parser.init chunks` is the model of feeding the chunks one by one to a fresh decoder.
-/

namespace Verif
open Spec Framer

/-- State of a decoder after some calls of `catch_message`. -/
inductive Reachable : Parser → Prop
  | init : Reachable Parser.init
  | step {st st' : Parser} {chunk : Bytes} {ms : List Bytes} :
      Reachable st → catchMessage st chunk = pure (st', ms) → Reachable st'

theorem pureD_inj {α : Type} {a b : α} (h : (pure a : PyD α) = pure b) : a = b := by
  have h2 : (some (Except.ok a) : Option (Except PyErr α)) = some (Except.ok b) := h
  simpa using h2

theorem Reachable.rel {st : Parser} (h : Reachable st) :
    ∃ seen gap rest, ParserRel st seen gap rest ∧ verdict rest = .wait := by
  induction h with
  | init => exact ⟨_, _, _, ParserRel_init, verdict_nil⟩
  | step _ hc ih =>
    obtain ⟨seen, gap, rest, h1, _⟩ := ih
    obtain ⟨st2, e1, _, e3⟩ := catchMessage_spec h1 _ _ rfl
    rw [hc] at e1
    have := congrArg Prod.fst (pureD_inj e1)
    simp only at this
    rw [this]
    exact ⟨_, _, _, e3, scan_rest_wait _ _⟩

theorem feed_init (chunks : List Bytes) :
    ∃ st, feed Parser.init chunks = pure (st, messages chunks.flatten) ∧
      st.parsErrCnt = dirtyGaps (scan [] chunks.flatten).segs ∧
      ∃ seen, ParserRel st seen (scan [] chunks.flatten).gap (scan [] chunks.flatten).rest := by
  obtain ⟨st', e1, e2, e3⟩ := feed_spec chunks ParserRel_init verdict_nil
  simp only [List.nil_append] at e1 e2 e3
  refine ⟨st', e1, ?_, _, e3⟩
  rw [e2]
  simp [Parser.init, errsOf, dirtyGaps]

/-- **C01** for every chunking the returned messages are those of the left-to-right scan of the whole stream. -/
theorem C01_scan (chunks : List Bytes) :
    ∃ st, feed Parser.init chunks = pure (st, messages chunks.flatten) := by
  obtain ⟨st, h, _⟩ := feed_init chunks
  exact ⟨st, h⟩

/-- **C01** two chunkings of the same stream give the same messages. -/
theorem C01_chunk_invariance (chunks chunks' : List Bytes) (h : chunks.flatten = chunks'.flatten) :
    ∃ st st' ms, feed Parser.init chunks = pure (st, ms) ∧ feed Parser.init chunks' = pure (st', ms) := by
  obtain ⟨st, h1, _⟩ := feed_init chunks
  obtain ⟨st', h2, _⟩ := feed_init chunks'
  exact ⟨st, st', _, h1, by rw [h, h2]⟩

example : [[0xD3, 0x00], [], [0x27, 0x40]].flatten = [[0xD3], [0x00, 0x27, 0x40]].flatten ∧
    messages (0x11 :: sample1029 ++ [0xD3]) = [sample1029] := by
  refine ⟨by decide, ?_⟩
  have h1 : scan [] ([0x11] ++ (sample1029 ++ [0xD3])) = _ := scan_noise (by decide) [] (sample1029 ++ [0xD3])
  have h2 := scan_valid_cons sample1029_valid ([] ++ [0x11]) [0xD3]
  rw [h2, scan_wait (s := [0xD3]) (by decide)] at h1
  show List.map _ (scan [] ([0x11] ++ (sample1029 ++ [0xD3]))).segs = _
  rw [h1]; rfl

/-- **C02** two chunkings of the same stream give the same error counter. -/
theorem C02_chunk_invariance_errors (chunks chunks' : List Bytes) (h : chunks.flatten = chunks'.flatten)
    (st st' : Parser) (ms ms' : List Bytes) (h1 : feed Parser.init chunks = pure (st, ms))
    (h2 : feed Parser.init chunks' = pure (st', ms')) : st.parsErrCnt = st'.parsErrCnt := by
  obtain ⟨a, a1, a2, _⟩ := feed_init chunks
  obtain ⟨b, b1, b2, _⟩ := feed_init chunks'
  rw [h1] at a1; rw [h2] at b1
  have ha := congrArg Prod.fst (pureD_inj a1)
  have hb := congrArg Prod.fst (pureD_inj b1)
  simp only at ha hb
  rw [ha, hb, a2, b2, h]

/-- **C03** whatever was fed before, every returned message is a valid RTCM3 frame. -/
theorem C03_sound (st st' : Parser) (chunk : Bytes) (ms : List Bytes) (hr : Reachable st)
    (h : catchMessage st chunk = pure (st', ms)) : ∀ m ∈ ms, ValidFrame m := by
  obtain ⟨seen, gap, rest, hrel, hw⟩ := hr.rel
  obtain ⟨st2, e1, _⟩ := catchMessage_spec hrel chunk _ rfl
  rw [h] at e1
  have := congrArg Prod.snd (pureD_inj e1)
  simp only at this
  subst this
  intro m hm
  obtain ⟨g, hg, rfl⟩ := List.mem_map.1 hm
  exact scan_valid _ _ g hg

/-- **C03/C12** a frame altered by a burst of at most 24 bits is never returned. -/
theorem C12_burst_not_returned (f f' : Bytes) (hf : ValidFrame f) (hl : f'.length = f.length) (hne : f' ≠ f)
    (hb : IsBurst 24 (diffBits f f')) (st st' : Parser) (chunk : Bytes) (ms : List Bytes)
    (hr : Reachable st) (h : catchMessage st chunk = pure (st', ms)) : f' ∉ ms :=
  fun hm => C12_burst f f' hf hl hne hb (C03_sound st st' chunk ms hr h f' hm)

/-- **C04, C10** the stream is gap₁ msg₁ gap₂ msg₂ … gap rest, where the msgᵢ are exactly the returned
messages in order, and the error counter is the number of consecutive messages with a non-empty gap between. -/
theorem C04_C10_segmentation (chunks : List Bytes) (st : Parser) (ms : List Bytes)
    (h : feed Parser.init chunks = pure (st, ms)) :
    ∃ (segs : List Seg) (gap rest : Bytes),
      chunks.flatten = (segs.map (fun g => g.gap ++ g.msg)).flatten ++ gap ++ rest ∧
      ms = segs.map (·.msg) ∧
      st.parsErrCnt = (segs.drop 1).countP (fun g => g.gap ≠ []) := by
  obtain ⟨a, a1, a2, _⟩ := feed_init chunks
  rw [h] at a1
  have ha := pureD_inj a1
  simp only [Prod.mk.injEq] at ha
  refine ⟨(scan [] chunks.flatten).segs, _, _, by simpa using scan_flatten [] chunks.flatten, ha.2, ?_⟩
  rw [ha.1, a2]; rfl

/-- **C05** a concatenation of valid frames is returned completely, without errors, with empty buffer. -/
theorem C05_clean (fs : List Bytes) (hv : ∀ f ∈ fs, ValidFrame f) (chunks : List Bytes)
    (hc : chunks.flatten = fs.flatten) :
    ∃ st, feed Parser.init chunks = pure (st, fs) ∧ st.parsErrCnt = 0 ∧ st.tail = [] := by
  obtain ⟨st, e1, e2, seen, e3, e4⟩ := feed_init chunks
  have hs := scan_noisy (fs.map (fun f => ⟨[], f⟩)) [] (by simpa using hv) (by simp) (by simp)
  have hfl : (List.map (fun g : Seg => g.gap ++ g.msg) (fs.map (fun f => ⟨[], f⟩))).flatten = fs.flatten := by
    congr 1; simp [Function.comp_def]
  rw [hfl, List.append_nil] at hs
  rw [hc] at e1 e2 e3 e4
  unfold messages at e1
  rw [hs] at e1 e2 e3 e4
  refine ⟨st, ?_, ?_, ?_⟩
  · rw [e1]; congr 2; simp [Function.comp_def]
  · rw [e2]; unfold dirtyGaps
    rw [List.countP_eq_zero]
    intro g hg
    have := List.mem_of_mem_drop hg
    simp only [List.mem_map] at this
    obtain ⟨f, _, rfl⟩ := this
    simp
  · rcases e4 with h | ⟨_, h, _⟩
    · exact h
    · exact absurd rfl h

example : ∀ f ∈ [sample1029, frame [0x3E, 0xD0], sample1029], ValidFrame f := by decide +kernel

/-- **C06** frames separated, preceded and followed by D3-free noise: exactly the frames are returned; the
error counter is the number of non-empty noise runs strictly between two frames. -/
theorem C06_noise (segs : List Seg) (last : Bytes) (hv : ∀ g ∈ segs, ValidFrame g.msg)
    (hn : ∀ g ∈ segs, (0xD3 : UInt8) ∉ g.gap) (hl : (0xD3 : UInt8) ∉ last) (chunks : List Bytes)
    (hc : chunks.flatten = (segs.map (fun g => g.gap ++ g.msg)).flatten ++ last) :
    ∃ st, feed Parser.init chunks = pure (st, segs.map (·.msg)) ∧
      st.parsErrCnt = (segs.drop 1).countP (fun g => g.gap ≠ []) := by
  obtain ⟨st, e1, e2, _⟩ := feed_init chunks
  unfold messages at e1
  rw [hc, scan_noisy segs last hv hn hl] at e1 e2
  exact ⟨st, e1, e2⟩

example : (∀ g ∈ [Seg.mk [1, 2] sample1029, Seg.mk [0, 0xFF] (frame [1, 2, 3])], ValidFrame g.msg) ∧
    (∀ g ∈ [Seg.mk [1, 2] sample1029, Seg.mk [0, 0xFF] (frame [1, 2, 3])], (0xD3 : UInt8) ∉ g.gap) := by
  decide +kernel

/-- **C07** a valid frame `f` anywhere in any stream, with at least 1029 bytes of stream from its start on,
is returned at its position unless a returned message that starts earlier overlaps its start. -/
theorem C07_complete (chunks : List Bytes) (pre f post : Bytes) (hs : chunks.flatten = pre ++ f ++ post)
    (hf : ValidFrame f) (hlong : 1029 ≤ (f ++ post).length)
    (st : Parser) (ms : List Bytes) (h : feed Parser.init chunks = pure (st, ms)) :
    ∃ (segs : List Seg) (gap rest : Bytes),
      chunks.flatten = (segs.map (fun g => g.gap ++ g.msg)).flatten ++ gap ++ rest ∧
      ms = segs.map (·.msg) ∧
      ((pre.length, f) ∈ located 0 segs ∨
        ∃ p m, (p, m) ∈ located 0 segs ∧ p < pre.length ∧ pre.length < p + m.length) := by
  obtain ⟨a, a1, a2, _⟩ := feed_init chunks
  rw [h] at a1
  have ha := pureD_inj a1
  simp only [Prod.mk.injEq] at ha
  refine ⟨(scan [] chunks.flatten).segs, _, _, by simpa using scan_flatten [] chunks.flatten, ha.2, ?_⟩
  simpa using scan_complete [] chunks.flatten pre f post 0 hs hf hlong

example : ValidFrame sample1029 ∧
    1029 ≤ (sample1029 ++ List.replicate 1000 (0xD3 : UInt8)).length := by
  exact ⟨sample1029_valid, by rw [List.length_append, List.length_replicate]; decide⟩

/-- **C08** at most 1028 bytes are retained between calls. -/
theorem C08_bounded (st : Parser) (hr : Reachable st) : st.tail.length ≤ 1028 := by
  obtain ⟨seen, gap, rest, ⟨_, ht⟩, hw⟩ := hr.rel
  rcases ht with h | ⟨_, _, b, _, h⟩
  · rw [h]; exact wait_short hw
  · rw [h]; simp

/-- **C09** in every reachable state `catch_message` terminates and returns normally. -/
theorem C09_total (st : Parser) (hr : Reachable st) (chunk : Bytes) :
    ∃ st' ms, catchMessage st chunk = pure (st', ms) ∧ Reachable st' := by
  obtain ⟨seen, gap, rest, hrel, hw⟩ := hr.rel
  obtain ⟨st2, e1, _⟩ := catchMessage_spec hrel chunk _ rfl
  exact ⟨st2, _, e1, hr.step e1⟩

end Verif
