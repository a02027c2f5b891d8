import Verif.Props.AscWrite
import Verif.Model.AscChar
/-!
# ASCII grids with cells of a character type (C08)
-/
namespace CCGL
open Spec

/-- C08 is false of the code for cells of the 8-bit types: cells are written as characters. A grid of numbers from 48 to 57 (the codes of the digits)
is read back without error, and every cell has lost 48. -/
theorem C08_false_char (h : Header) (vals : List Nat) (hdr : AscHeader)
    (hr : 0 < h.rows) (hc : 0 < h.cols) (hn : h.rows * h.cols < 2 ^ 31)
    (hl : (vals.length : Int) = h.rows * h.cols) (hcs : 0 ≤ h.cellsize) (hx : |h.xll| < 10 ^ 38) (hy : |h.yll| < 10 ^ 38)
    (sx : SixSig h.xll) (sy : SixSig h.yll) (sc : SixSig h.cellsize) (sn : SixSig h.noData) (hv : ∀ v ∈ vals, 48 ≤ v ∧ v ≤ 57) :
    ∃ text, writeAsc charCell h (some vals) = .ok text ∧
      readAsc toChar8 (some text) hdr none = .ok (true, readHeader h id, some (vals.map (fun v => v - 48))) := by
  have hp : ∀ v ∈ vals, Prints charCell (fun v => ((v - 48 : Nat) : ℚ)) v := by
    intro v hv'
    obtain ⟨h1, h2⟩ := hv v hv'
    have e : charCell v = intToDec ((v - 48 : Nat) : Int) := by
      obtain ⟨d, rfl⟩ : ∃ d, v = 48 + d := ⟨v - 48, by omega⟩
      rw [Nat.add_sub_cancel_left]
      have hd : d < 10 := by omega
      have : ∀ d, d < 10 → charCell (48 + d) = intToDec (d : Int) := by decide +kernel
      exact this d hd
    have q := intToDec_prints ((v - 48 : Nat) : Int)
    refine ⟨?_, ?_, ?_, ?_⟩
    · rw [e]; exact_mod_cast q.text
    · rw [e]; exact q.ne
    · rw [e]; exact q.chars
    · rw [e]; exact q.head
  obtain ⟨text, h1, h2⟩ := C08_roundtrip_general charCell (fun v => ((v - 48 : Nat) : ℚ)) toChar8 h vals hdr hr hc hn hl hcs hx hy hp
  refine ⟨text, h1, ?_⟩
  rw [h2]
  congr 3
  simp only [readHeader, gRound_exact sx, gRound_exact sy, gRound_exact sc, gRound_exact sn, id]

/-- Other codes: a grid with the cells 65 and 66 is refused; in a grid with the cells 32 (a space) and 55 the first cell gets the value 7 and the second
none at all. -/
theorem C08_false_char_text : (∃ text, writeAsc charCell ⟨1, 2, 1, 0, 0, -9999, 1, 2⟩ (some [65, 66]) = .ok text ∧
      readAsc toChar8 (some text) hdr0 none = .ok (false, hdr0, none)) ∧
    ∃ text, writeAsc charCell ⟨1, 2, 1, 0, 0, 255, 1, 2⟩ (some [32, 55]) = .ok text ∧
      readAsc toChar8 (some text) hdr0 none = .ok (true, readHeader ⟨1, 2, 1, 0, 0, 255, 1, 2⟩ id, some [7, 255]) :=
  ⟨⟨_, rfl, by decide +kernel⟩, ⟨_, rfl, by decide +kernel⟩⟩

/-- A grid with the cells 50 and 57 is read as 2 and 9. -/
example : ∃ text, writeAsc charCell ⟨1, 2, 30, 0, 0, -9999, 1, 2⟩ (some [50, 57]) = .ok text ∧
    readAsc toChar8 (some text) hdr0 none = .ok (true, readHeader ⟨1, 2, 30, 0, 0, -9999, 1, 2⟩ id, some [2, 9]) := by
  apply C08_false_char
  · decide
  · decide
  · decide
  · decide
  · decide
  · norm_num
  · norm_num
  · exact ⟨0, 0, by decide, by norm_num⟩
  · exact ⟨0, 0, by decide, by norm_num⟩
  · exact ⟨30, 0, by decide, by norm_num⟩
  · exact ⟨-9999, 0, by decide, by norm_num⟩
  · decide

end CCGL
