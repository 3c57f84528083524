import Verif.Model.Footprint.Codec
import Verif.Lemmas.Num
import Verif.Basic.Nm
/-!
# C22: time stamps
-/

namespace Verif
open Flt Fp

variable {F : Type} [Flt F]

/-- A stamp element that is written reads back as the same element, for every
nonnegative 64-bit number. -/
theorem C22_stamp_roundtrip (i : Int) (h0 : 0 ≤ i) (h : inI64 i) :
    Elem.de (Elem.ser (.tedit i : Elem F)) = .ok (.tedit i : Elem F) ∧
    Elem.de (Elem.ser (.tstamp i : Elem F)) = .ok (.tstamp i : Elem F) := by
  have hx := readI64_hex i h0 h
  constructor <;>
  · simp [Elem.de, Elem.ser, Sx.pair, Sx.listName, stamp, firstValue, Sx.iter, Sx.eat, Sx.string, hx]

example : inI64 0x5A3D1F00 ∧ showHexI64 0x5A3D1F00 = str! "5A3D1F00" := by decide

/-- The stamp is written as its upper-case hexadecimal digits: only the
characters 0-9 and A-F. -/
theorem C22_stamp_digits (i : Int) : ∀ c ∈ showHexI64 i, c ∈ str! "0123456789ABCDEF" := by
  have key : ∀ d : Nat, d < 16 → digitChar d ∈ str! "0123456789ABCDEF" := by decide
  cases i with
  | ofNat n =>
    intro c hc
    obtain ⟨d, hd, rfl⟩ := showBase_digits (b := 16) (by omega) n c hc
    exact key d hd
  | negSucc n =>
    intro c hc
    obtain ⟨d, hd, rfl⟩ := showBase_digits (b := 16) (by omega) _ c hc
    exact key d hd

theorem Fp.readI64_too_big (b n : Nat) (h2 : 2 ≤ b) (hb : b ≤ 36) (h : ¬ inI64 n) :
    readI64 b (showBase b n) = none := by
  have hr := readBase_showBase h2 hb n
  have hd := showBase_digits (b := b) (by omega) n
  unfold readI64
  split
  · rename_i cs heq
    obtain ⟨d, hd, hc⟩ := hd '-' (by simp [heq])
    exact absurd hc.symm (digitChar_ne_minus d (by omega)).1
  · rename_i cs heq
    obtain ⟨d, hd, hc⟩ := hd '+' (by simp [heq])
    exact absurd hc.symm (digitChar_ne_minus d (by omega)).2
  · rw [hr]
    simpa using h

/-- A negative stamp (any in the 64-bit range) is written as its two's
complement, which the reader rejects. -/
theorem C22_negative_stamp_unreadable (i : Int) (h0 : i < 0) (h : inI64 i) :
    Elem.de (Elem.ser (.tedit i : Elem F)) = (.err .sexp : Res (Elem F)) ∧
    Elem.de (Elem.ser (.tstamp i : Elem F)) = (.err .sexp : Res (Elem F)) := by
  have hx : readI64 16 (showHexI64 i) = none := by
    cases i with
    | ofNat n => simp at h0; omega
    | negSucc n =>
      rw [showHexI64]
      apply Fp.readI64_too_big _ _ (by omega) (by omega)
      unfold inI64 at *
      omega
  constructor <;>
  · simp [Elem.de, Elem.ser, Sx.pair, Sx.listName, stamp, firstValue, Sx.iter, Sx.eat, Sx.string, hx]
    rfl

example : inI64 (-1) := by decide

end Verif
