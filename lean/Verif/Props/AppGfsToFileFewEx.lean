import Verif.Props.AppGfsToFileFew
import Verif.Props.AppGfsFewDecReadEx
/-!
# A file stored without NoData cells is reclassified and written to files (C100): example
-/
namespace CCGL
namespace App
open Fs Disk Main Raster Gfs Disk.Spec App.Spec

def exFewRecls : Job := { exJobB with inputs := ["0_x".toList], inFmt := .gfs, table := [(10, [.fin 50])] }

/-- The cells of the mask are read from the bucket and reclassified, with the groups of the mask, in the mode MASKDEC: the hypotheses of `C100_few_units` hold;
three cells of the combined file `/0_o.tif`: the table's value, the default value, NoData outside the groups. -/
example : ∃ m st d' v, layerJobDb exSys false .maskdec (exRunDisk, st, some m) (exFewRecls, exDb) = .ok (d', st, some m) ∧ CutMask m (exH 3) exMaskV ∧
    ReadsAs d' "/0_o.tif".toList exHS v ∧ v 0 0 = 50 ∧ v 1 0 = 7 ∧ v 0 1 = -1 := by
  obtain ⟨M, eM, hb, hcl, hg, hn, hval, h2, hl, hnc⟩ := mask_file exRun_m NODATA
  have v00 := exMask_value 0 0 (by decide) (by decide) (by decide) (by decide) (by decide +kernel)
  have v10 := exMask_value 1 0 (by decide) (by decide) (by decide) (by decide) (by decide +kernel)
  obtain ⟨m, b, eb, hm⟩ := cutMask_of (vM := exMaskV) hb hcl hg hn hval h2 ⟨0, 0, v00⟩
  obtain ⟨M', -, hM'⟩ := mask_loaded exRun_m
  obtain ⟨st, w, H, -, hc, -, w00, w10, -⟩ := exFew_store M' hM'
  obtain ⟨pl, hpl⟩ : ∃ pl : RPlan, pl = ⟨[], exHS, (fun row col => if floatEqual (exMaskV row col) (-9999) = false then w row col else -1), [], "/".toList, "o".toList,
    "tif".toList, 1⟩ := ⟨_, rfl⟩
  obtain ⟨d', e, -, hD⟩ := C100_few_units (sys := exSys) (d := exRunDisk) (st := st) (mode := .maskdec) (j := exFewRecls) (jd := exDb) (pl := pl) (v := w) exRun_wf hm
    (by rw [hpl]; exact ⟨rfl, H.ex, H.ok1, H.ok2, H.rd, H.rows, H.cols, H.gap⟩) (by rw [hpl]; exact hc)
    (by
      rw [hpl]
      exact ⟨rfl, (fun _ => exRun_can (m := 1) rfl ⟨by decide, by decide, by decide⟩ (by decide) rfl (show (0 : Int) < 2 ∧ (0 : Int) < 3 by decide)), (fun h => by cases h)⟩)
  subst hpl
  have hin := exIn 3
  have hB := hD.recls rfl
  have g00 : byValue (exH 3) exMaskV 1 0 0 := ⟨v00, by decide +kernel⟩
  have g10 : byValue (exH 3) exMaskV 2 1 0 := ⟨v10, by decide +kernel⟩
  obtain ⟨u, u1, u2⟩ := hB.all (.inr rfl) ⟨1, 0, 0, g00⟩ 0 (show ((0 : Nat) : Int) < 1 by decide)
  have hname : outFile "/".toList "o".toList "tif".toList 1 0 0 = "/0_o.tif".toList := by decide +kernel
  dsimp only at u1
  rw [hname] at u1
  refine ⟨m, st, d', u, e, hm, u1, ?_, ?_, ?_⟩
  · rw [(u2 0 0 (hin 0 0 (by decide) (by decide) (by decide) (by decide))).1 ⟨1, g00⟩]
    show CCGL.Spec.tableValue (numTable exFewRecls) (truncQ (renamed true (-1) (-1) (if floatEqual (exMaskV 0 0) (-9999) = false then w 0 0 else -1))) 0 (jobFill exFewRecls exHS) = 50
    rw [w00]
    decide +kernel
  · rw [(u2 1 0 (hin 1 0 (by decide) (by decide) (by decide) (by decide))).1 ⟨2, g10⟩]
    show CCGL.Spec.tableValue (numTable exFewRecls) (truncQ (renamed true (-1) (-1) (if floatEqual (exMaskV 1 0) (-9999) = false then w 1 0 else -1))) 0 (jobFill exFewRecls exHS) = 7
    rw [w10]
    decide +kernel
  · rw [(u2 0 1 (hin 0 1 (by decide) (by decide) (by decide) (by decide))).2 (by
      rintro ⟨k, ⟨-, h⟩, -⟩
      revert h
      decide +kernel)]
    rfl

end App
end CCGL
