import Verif.Props.AppCrashDbMaskFew
import Verif.Props.AppCrashDbComFewEx
import Verif.Props.AppGfsFewRunEx
/-!
# Example: a run with `-include_nodata 0` is stopped while it stores (C101)
-/
namespace CCGL
namespace App
open Fs Disk Main Raster Gfs Disk.Spec App.Spec

/-- `mask_rasterio -mode mask -mask /m.tif -mongo … -include_nodata 0` with the configuration file line `/a.tif;x;7;-1;DOUBLE` is stopped while it stores, three bytes are
left; started again, it stores the cells of the mask. -/
example (md : MaskDb) : ∃ c, configure (exWorld "/a.tif;x;7;-1;DOUBLE\n") exFewArgs = .ok (.go c) ∧
    StoppedDbMaskFew exSys md exRunDisk c [(exToDb, exDb)] [] [exComTornFew] [] ∧
    ∃ st', runDb exSys (exWorld "/a.tif;x;7;-1;DOUBLE\n") md (fun _ => exDb) exRunDisk [exComTornFew] exFewArgs = .ok (0, exRunDisk, st') ∧
    (∃ v, HoldsCells exSys.rnd st' (storedName "x".toList) (fewOpts .double) { exH 3 with noData := -1 } v (HasValue (exH 3) exMaskV) ∧ v 1 0 = 7) := by
  have hj : jobsOf (exWorld "/a.tif;x;7;-1;DOUBLE\n") exFewArgs = .ok (some [exToDb]) := by decide +kernel
  have hcfg : (configure (exWorld "/a.tif;x;7;-1;DOUBLE\n") exFewArgs).bind (fun | .exit _ => .ub | .go c => .ok (c.mode, c.maskFmt, c.maskPath, c.useMongo, c.incNodata)) =
      .ok (.mask, .sfile, "/m.tif".toList, true, false) := by decide +kernel
  obtain ⟨c, h1, h2⟩ := jobsOf_go hj
  rw [h1] at hcfg
  have hcfg' : (c.mode, c.maskFmt, c.maskPath, c.useMongo, c.incNodata) = (IOMode.mask, DataFmt.sfile, "/m.tif".toList, true, false) := Out.ok.inj hcfg
  injection hcfg' with q1 q2
  injection q2 with q2 q3
  injection q3 with q3 q4
  injection q4 with q4 q5
  obtain ⟨hg, hov⟩ := exRun_overlap exMaskV (by decide +kernel)
  have hmask : MaskFrom exSys md exRunDisk [] c (exH 3) exMaskV := .file q2 (by rw [q3]; exact exRun_m)
  have hst : StoppedDbMaskFew exSys md exRunDisk c [(exToDb, exDb)] [] [exComTornFew] [] := by
    obtain ⟨M, eM, -⟩ := full_mask_source hmask
    refine ⟨some ⟨M, []⟩, ⟨_, eM, ?_⟩, _, rfl, [], some ⟨M, []⟩, rfl, fun R hR => ?_⟩
    · unfold prepareMask
      dsimp only
      rw [if_pos q1]
    · have hne : storedName "x".toList ≠ R.name := fun h => hR _ rfl h.symm
      unfold CCGL.Spec.filesOf
      rw [List.filter_cons_of_neg (by simpa using fun h => hne h.1)]
  refine ⟨c, h1, hst, ?_⟩
  have hj2 : List.Forall₂ (fun (jj : Job × JobDb) s => (jj.1.outFmt = .gfs ∧ jj.1.recls = false) ∧ FewJob exSys exRunDisk [] (exH 3) exMaskV jj s)
      (withDb (fun _ => exDb) [exToDb]) [⟨exH 2, fun row col => [10, 20, -9999, (40 : ℚ)].getD (row * 2 + col).toNat 0⟩] :=
    .cons ⟨⟨rfl, rfl⟩, .file _ rfl rfl exRun_a hg hov
        ⟨ex_few_key, ex_storable, ⟨by decide, by decide, by decide⟩, fun _ => rfl, fun _ => .inl ⟨rfl, rfl⟩, by simp⟩ ex_fitsAll⟩ .nil
  obtain ⟨-, -, st', e, -, hF⟩ := C101_db_few_cells (sys := exSys) (fun v _ => rfl) (md := md) (md' := md) (dbs := fun _ => exDb) (dbs' := fun _ => exDb) (st := []) h1 h2 q4 q5 q1
    hmask hmask (fun h => by rw [q2] at h; cases h) (by
      refine ⟨?_, List.pairwise_singleton _ _⟩
      intro a _ b hb hg
      rw [List.mem_singleton.1 hb] at hg
      cases hg) hj2 hj2 hst (by
      have ho : outOpts .double exDb.own (fewOpts .double) false = fewOpts .double := by decide +kernel
      intro x hx f _ hh
      have hx' : x = (exToDb, exDb) := List.mem_singleton.1 hx
      subst hx'
      exact ho ▸ hh)
  refine ⟨st', e, ?_⟩
  cases hF with
  | cons h2 _ =>
  obtain ⟨h, w, hr, hb, -⟩ := h2
  rcases hr with ⟨-, rfl, hw⟩ | ⟨q, -⟩
  · have := hb ⟨0, by decide, rfl⟩
    refine ⟨_, this, ?_⟩
    have c10 := (hw 1 0 (exIn 3 _ _ (by decide) (by decide) (by decide) (by decide))).taken
      ⟨exIn 3 _ _ (by decide) (by decide) (by decide) (by decide), by decide +kernel⟩ 1 0
      ⟨exIn 2 _ _ (by decide) (by decide) (by decide) (by decide), by decide +kernel⟩
    dsimp only
    rw [c10]
    decide +kernel
  · cases q

end App
end CCGL
