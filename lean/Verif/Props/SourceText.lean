import Verif.Spec.SourceText
import Verif.Refine.Bits
import Verif.Refine.CRC24Q
import Verif.Refine.RtcmUtil
import Verif.Refine.Fields
import Verif.Props.Bits
import Verif.Props.CRC
import Verif.Props.RtcmUtil

/-!
Claims about the text of the program itself: `sources/Bits.py`, `sources/CRC24Q.py`, `sources/RTCM_utilities.py`.
-/

namespace Verif
open Spec PyCore Refine
open Rounding (rnd)

variable [Rounding]

theorem Ends.of_call {f : Ident} {args : List Val} {h : Heap} {post : Except Exc Val × Heap → Prop} (k : Nat)
    (hp : ∀ n, post (callFn src (n + k) f args h)) : Ends f args h post :=
  ⟨k, fun n hn => by have := hp (n - k); rwa [Nat.sub_add_cancel hn] at this⟩

/-- The classes of the program that read bits: `Bits` and those that inherit from it. -/
def bitsClasses : List Ident :=
  [n!"Bits", n!"EphemerisDecoder", n!"BaseStationDataDecoder", n!"BareObservablesMSM17Decoder"]

theorem bitsClasses_ok {c : Ident} (hc : c ∈ bitsClasses) : BitsClass c := by
  simp only [bitsClasses, List.mem_cons, List.not_mem_nil, or_false] at hc
  rcases hc with rfl | rfl | rfl | rfl <;> exact ⟨rfl, rfl, rfl, rfl, rfl⟩

/-- **C85** the text of `Bits.getbitu`: the big-endian value of the addressed bits of a legal field. -/
theorem C85_getbitu (c : Ident) (hc : c ∈ bitsClasses) (buf : Bytes) (start length : Int) (h : Heap) :
    (FieldOk buf start length →
      Returns n!"Bits.getbitu" [.cls c, .bytes buf, .int start, .int length] h
        (.int (natOfBits (slice (bitsOf buf) start.toNat length.toNat) : Nat))) ∧
    (¬ FieldOk buf start length →
      Raises n!"Bits.getbitu" [.cls c, .bytes buf, .int start, .int length] h n!"ExceptionBitsError") := by
  have hb := bitsClasses_ok hc
  constructor <;> intro hf <;> refine Ends.of_call 1 (fun n => ?_) <;>
    rw [getbitu_src n c hb, C14_getbitu] <;> unfold FieldOk at hf
  · rw [if_pos hf]; rfl
  · rw [if_neg hf]; rfl

example : FieldOk [0xD3, 0x01, 0x27, 0x40] 14 10 ∧ natOfBits (slice (bitsOf [0xD3, 0x01, 0x27, 0x40]) 14 10) = 295 := by
  unfold FieldOk; decide
example : (callFn src 1 n!"Bits.getbitu" [.cls n!"Bits", .bytes [0xD3, 0x01, 0x27, 0x40], .int 14, .int 10] []).1 = .ok (.int 295) := by
  rfl

/-- **C85** the text of `Bits.getbits`: the two's complement value of the addressed bits of a legal field. -/
theorem C85_getbits (c : Ident) (hc : c ∈ bitsClasses) (buf : Bytes) (start length : Int) (h : Heap) :
    (FieldOk buf start length →
      Returns n!"Bits.getbits" [.cls c, .bytes buf, .int start, .int length] h
        (.int (intOfBits (slice (bitsOf buf) start.toNat length.toNat)))) ∧
    (¬ FieldOk buf start length →
      Raises n!"Bits.getbits" [.cls c, .bytes buf, .int start, .int length] h n!"ExceptionBitsError") := by
  have hb := bitsClasses_ok hc
  constructor <;> intro hf <;> refine Ends.of_call 2 (fun n => ?_) <;>
    rw [getbits_src n c hb, C15_getbits] <;> unfold FieldOk at hf
  · rw [if_pos hf]; rfl
  · rw [if_neg hf]; rfl

example : FieldOk [0xD3, 0xF1] 8 4 ∧ intOfBits (slice (bitsOf [0xD3, 0xF1]) 8 4) = -1 := by unfold FieldOk; decide

/-- **C85** the text of `EphemerisDecoder.getbitS`: the sign-magnitude value of the addressed bits of a legal field. -/
theorem C85_getbitS (fs : List (Ident × Val)) (hs : SelfObj n!"EphemerisDecoder" fs) (a : Nat) (h : Heap)
    (ha : h[a]? = some (.inst n!"EphemerisDecoder" fs)) (buf : Bytes) (start length : Nat) :
    (FieldOk buf start length →
      Returns n!"EphemerisDecoder.getbitS" [.ref a, .bytes buf, .int start, .int length] h
        (.int (smOfBits (slice (bitsOf buf) start length)))) ∧
    (¬ FieldOk buf start length →
      Raises n!"EphemerisDecoder.getbitS" [.ref a, .bytes buf, .int start, .int length] h
        (if length = 0 then n!"ValueError" else n!"ExceptionBitsError")) := by
  constructor <;> intro hf <;> refine Ends.of_call 2 (fun n => ?_) <;>
    rw [getbitS_src n a fs h hs ha, Bits.gbS, C15_getbitS] <;> unfold FieldOk at hf
  · rw [if_neg (by omega), if_pos (by omega)]
    simp only [Int.toNat_natCast]
    rfl
  · by_cases h0 : length = 0
    · subst h0; rfl
    · rw [if_neg (by omega), if_neg (by omega), if_neg h0]; rfl

example : SelfObj n!"EphemerisDecoder" [(n!"msgList", .none)] := ⟨⟨rfl, rfl, rfl, rfl, rfl⟩, by rfl, by rfl⟩

/-- **C85** the text of `Bits.revbitu`: the reversal of `n` bits. -/
theorem C85_revbitu (c : Ident) (hc : c ∈ bitsClasses) (a n ofs : Nat) (h : Heap) :
    (128 < n + ofs → Raises n!"Bits.revbitu" [.cls c, .int a, .int n, .int ofs] h n!"ExceptionBitsError") ∧
    (n + ofs ≤ 128 → ∃ r : Nat, Returns n!"Bits.revbitu" [.cls c, .int a, .int n, .int ofs] h (.int r) ∧ r < 2 ^ n ∧
      bitsOfNat n r = (bitsOfNat n (a >>> ofs)).reverse) := by
  have hb := bitsClasses_ok hc
  obtain ⟨h1, h2⟩ := C16_revbitu a n ofs
  constructor <;> intro hf
  · refine Ends.of_call 1 (fun k => ?_)
    rw [revbitu_src k c hb, h1 hf]; rfl
  · obtain ⟨r, hr, hlt, _, hrev⟩ := h2 hf
    refine ⟨r, Ends.of_call 1 (fun k => ?_), hlt, hrev⟩
    rw [revbitu_src k c hb, hr]; rfl

example : bitsOfNat 7 0b1101000 = (bitsOfNat 7 (0b0001011 >>> 0)).reverse := by decide

/-- **C86** the text of `CRC24Q.calc` never raises and returns the remainder of (message · x^24) modulo the CRC-24Q
generator. -/
theorem C86_crc (data : Bytes) (h : Heap) :
    ∃ r : Nat, Returns n!"CRC24Q.calc" [.cls n!"CRC24Q", .bytes data] h (.int r) ∧ r < 2 ^ 24 ∧
      bitsPoly (bitsOfNat 24 r) = (bitsPoly (bitsOf data) * Polynomial.X ^ 24) %ₘ genPoly := by
  obtain ⟨r, hr, hlt, hp⟩ := C11_crc_remainder data
  refine ⟨r, Ends.of_call 1 (fun k => ?_), hlt, hp⟩
  rw [crc_src, hr]; rfl

/-- **C86** a valid frame: the text computes the value of the three parity bytes. -/
theorem C86_frame (f : Bytes) (hf : ValidFrame f) (h : Heap) :
    Returns n!"CRC24Q.calc" [.cls n!"CRC24Q", .bytes (f.take (f.length - 3))] h
      (.int (natOfBits (bitsOf (f.drop (f.length - 3))) : Nat)) := by
  refine Ends.of_call 1 (fun k => ?_)
  rw [crc_src, C11_crc_bitwise, hf.crc]
  rfl

example : ValidFrame sample1029 := sample1029_valid

/-- **C87** the text of `getSubset` never raises and returns the pair of the message plan, and a pair of empty strings for
all other numbers. -/
theorem C87_getSubset (num : Int) (h : Heap) :
    ∃ c : String × String, Returns n!"getSubset" [.int num] h (.tup [.str c.1, .str c.2]) ∧
      (c ≠ ("", "") ↔ ((num, c) ∈ planOther ∨ ∃ g k : Nat, g < 7 ∧ k < 7 ∧ num = 1071 + 10 * g + k ∧
        c = (msmLetters.getD g "", msmNames.getD k ""))) := by
  refine ⟨RtcmUtil.getSubset num, Ends.of_call 2 (fun k => ?_), ?_⟩
  · rw [getSubset_src]; rfl
  · rw [← C20_getSubset]; simp

example : (1045, ("E", "EPH")) ∈ planOther := by decide

/-- **C87** the text of the checks for invalid fields: over the whole range of a field, exactly the value reserved by the
standard is refused. -/
theorem C87_markers (f : Ident) (w : Nat)
    (hf : (f, w) ∈ [(n!"MSMT.isDF400_OK", 15), (n!"MSMT.isDF401_OK", 22), (n!"MSMT.isDF404_OK", 15),
      (n!"MSMT.isDF405_OK", 20), (n!"MSMT.isDF406_OK", 24)])
    (x : Int) (h1 : -(2 ^ (w - 1)) ≤ x) (h2 : x < 2 ^ (w - 1)) (h : Heap) :
    Returns f [.int x] h (.bool (x ≠ -(2 ^ (w - 1)))) := by
  obtain ⟨m0, m1, m5, m6, m4⟩ := C26_markers x
  simp only [List.mem_cons, Prod.mk.injEq, List.not_mem_nil, or_false] at hf
  rcases hf with ⟨rfl, rfl⟩ | ⟨rfl, rfl⟩ | ⟨rfl, rfl⟩ | ⟨rfl, rfl⟩ | ⟨rfl, rfl⟩ <;>
    refine Ends.of_call 1 (fun k => ?_) <;> simp only [Nat.reduceSub] at h1 h2 ⊢
  · rw [df400_src, Bool.eq_iff_iff.2 ((m0 h1 h2).trans decide_eq_true_iff.symm)]
  · rw [df401_src, Bool.eq_iff_iff.2 ((m1 h1 h2).trans decide_eq_true_iff.symm)]
  · rw [df404_src, Bool.eq_iff_iff.2 ((m4 h1 h2).trans decide_eq_true_iff.symm)]
  · rw [df405_src, Bool.eq_iff_iff.2 ((m5 h1 h2).trans decide_eq_true_iff.symm)]
  · rw [df406_src, Bool.eq_iff_iff.2 ((m6 h1 h2).trans decide_eq_true_iff.symm)]

example : -(2 ^ (20 - 1)) ≤ (-524288 : Int) ∧ (-524288 : Int) < 2 ^ (20 - 1) := by decide

/-- **C87** the text of the lock time tables DF407 and DF402. -/
theorem C87_locktime (t : Nat) (h : Heap) :
    (∃ v : Nat, Returns n!"MSMT.unpack_tlock10" [.int t] h (.int v) ∧
      (∀ row ∈ df407Table, row.1 ≤ t → t ≤ row.2.1 → v = if t = 704 then 67108864 else row.2.2.1 * t - row.2.2.2) ∧
      (704 < t → v = 0)) ∧
    Returns n!"MSMT.unpack_tlock4" [.int t] h (.int (if t = 0 then 0 else 32 * 2 ^ (t - 1) : Nat)) := by
  refine ⟨⟨_, Ends.of_call 1 (fun k => tlock10_src k t h), ?_, ?_⟩, Ends.of_call 1 (fun k => ?_)⟩
  · intro row hr a b; exact C28_table10 row hr t a b
  · exact (C28_cover10 t).2
  · rw [tlock4_src]
    by_cases h0 : t = 0
    · subst h0; rfl
    · rw [if_neg h0, (C28_tlock4 0 t).2.1 (by omega)]

example : ∃ row ∈ df407Table, row.1 ≤ 100 ∧ 100 ≤ row.2.1 := by decide

/-- **C87** the text of the tables of signals: the code of the standard, and for a defined code the carrier frequency of its
band, as the arithmetic represents it. -/
theorem C87_signals (g t : Nat) (h : Heap) :
    (sigCode g t = none → Returns n!"MSMT.rnx_lit" [.cls n!"MSMT", .str (gnssLetter g), .int t] h .none) ∧
    ∀ n, sigCode g t = some n →
      Returns n!"MSMT.rnx_lit" [.cls n!"MSMT", .str (gnssLetter g), .int t] h (.str n) ∧
      ∃ b a, n.toList = [b, a] ∧ 0 < bandMHz g b ∧
        Returns n!"MSMT.crr_frq" [.cls n!"MSMT", .str (gnssLetter g), .str n] h (.flt (rnd (bandMHz g b))) := by
  obtain ⟨h1, h2⟩ := C56_codes g t
  refine ⟨fun hn => Ends.of_call 1 (fun k => ?_), fun n hn => ⟨Ends.of_call 1 (fun k => ?_), ?_⟩⟩
  · rw [rnx_lit_src, h1, hn]; rfl
  · rw [rnx_lit_src, h1, hn]; rfl
  · obtain ⟨b, a, e1, e2, e3⟩ := h2 n hn
    refine ⟨b, a, e1, e2, Ends.of_call 1 (fun k => ?_)⟩
    have := crr_frq_src k (gnssLetter g) (some n) h
    rw [e3] at this
    exact this

example : sigCode 0 2 = some "1C" ∧ bandMHz 0 '1' = 1575.42 := by constructor <;> decide +kernel

end Verif
