import Verif.Props.AppGfsFewRun
import Verif.Props.AppGfsFewEx
import Verif.Props.AppGfsRunEx
/-!
# Examples for the runs with `-include_nodata 0` (C91)
-/
namespace CCGL
namespace App
open Fs Disk Main Raster Gfs Disk.Spec App.Spec

def exFewArgs : List Str := ["-mode".toList, "mask".toList, "-mask".toList, "/m.tif".toList, "-mongo".toList, "localhost".toList,
  "27017".toList, "db".toList, "g".toList, "-include_nodata".toList, "0".toList, "-configfile".toList, "/c.txt".toList]

/-- `mask_rasterio -mode mask -mask /m.tif -mongo … -include_nodata 0` with the configuration file line `/a.tif;x;7;-1;DOUBLE`. -/
example (md : MaskDb) : ∃ st', runDb exSys (exWorld "/a.tif;x;7;-1;DOUBLE\n") md (fun _ => exDb) exRunDisk [] exFewArgs = .ok (0, exRunDisk, st') ∧
    (∃ v, HoldsCells exSys.rnd st' (storedName "x".toList) (fewOpts .double) { exH 3 with noData := -1 } v (HasValue (exH 3) exMaskV) ∧ v 1 0 = 7) := by
  have hj : jobsOf (exWorld "/a.tif;x;7;-1;DOUBLE\n") exFewArgs = .ok (some [exToDb]) := by decide +kernel
  have hcfg : (configure (exWorld "/a.tif;x;7;-1;DOUBLE\n") exFewArgs).bind (fun | .exit _ => .ub | .go c => .ok (c.mode, c.maskFmt, c.maskPath, c.useMongo, c.incNodata)) =
      .ok (.mask, .sfile, "/m.tif".toList, true, false) := by decide +kernel
  obtain ⟨c, h1, h2⟩ := jobsOf_go hj
  rw [h1] at hcfg
  have hcfg' : (c.mode, c.maskFmt, c.maskPath, c.useMongo, c.incNodata) = (IOMode.mask, DataFmt.sfile, "/m.tif".toList, true, false) := Out.ok.inj hcfg
  injection hcfg' with q1 q2
  injection q2 with q2 q3
  injection q3 with q3 q4
  injection q4 with q4 q5
  obtain ⟨hg, hov⟩ := exRun_overlap exMaskV (by decide +kernel)
  obtain ⟨st', e, -, hF⟩ := C91_few_run (sys := exSys) (fun v _ => rfl) (md := md) (dbs := fun _ => exDb) (st := []) h1 h2 q4 q5 q1
    (hM := exH 3) (vM := exMaskV) (.file q2 (by rw [q3]; exact exRun_m))
    (ss := [⟨exH 2, fun row col => [10, 20, -9999, (40 : ℚ)].getD (row * 2 + col).toNat 0⟩])
    (.cons (by simp) .nil)
    (.cons ⟨⟨rfl, rfl⟩, .file _ rfl rfl exRun_a hg hov
        ⟨ex_few_key, ex_storable, ⟨by decide, by decide, by decide⟩, fun _ => rfl, fun _ => .inl ⟨rfl, rfl⟩, by simp⟩ ex_fitsAll⟩ .nil)
  refine ⟨st', e, ?_⟩
  cases hF with
  | cons h2 _ =>
  obtain ⟨h, w, hr, hb, -⟩ := h2
  rcases hr with ⟨-, rfl, hw⟩ | ⟨q, -⟩
  · have := hb ⟨0, by decide, rfl⟩
    refine ⟨_, this, ?_⟩
    have c10 := (hw 1 0 (exIn 3 _ _ (by decide) (by decide) (by decide) (by decide))).taken
      ⟨exIn 3 _ _ (by decide) (by decide) (by decide) (by decide), by decide +kernel⟩ 1 0
      ⟨exIn 2 _ _ (by decide) (by decide) (by decide) (by decide), by decide +kernel⟩
    dsimp only
    rw [c10]
    decide +kernel
  · cases q

end App
end CCGL
