import Verif.Props.AppGfsMixed
import Verif.Props.AppGfsDecEx
/-!
# A run of `mask_rasterio` that writes a file and stores in the bucket (C91): example
-/
namespace CCGL
namespace App
open Fs Disk Main Raster Gfs Disk.Spec App.Spec

theorem exJobA_disk (V : View) (hh : 0 < V.hdr.rows ∧ 0 < V.hdr.cols) (mode : IOMode) (st : Store) : DiskJob exSys exRunDisk st mode V (exJobA, exDb) exPlanA := by
  have h := exJobA_ok V hh mode
  exact ⟨.file _ rfl rfl exRun_a, fun _ => ⟨_, rfl, by decide +kernel⟩, by decide, rfl, h.recls, h.whole⟩

def exMixed : List ((Job × JobDb) × MixPlan) := [((exJobA, exDb), .file exPlanA), ((exDecB, exDb), .db exDecPlanB ["b.tif".toList])]

theorem exMixed_apart : exMixed.Pairwise (MixApart .maskdec (fun j h v => unitsView j (exH 3) exMaskV h v)) := by
  unfold exMixed
  simp only [List.pairwise_cons, List.mem_cons, List.not_mem_nil, or_false, forall_eq]
  refine ⟨⟨?_, fun n hn => hn.elim⟩, fun _ h => h.elim, .nil⟩
  rintro q (⟨h, -⟩ | ⟨-, -, rfl⟩)
  · cases h
  · exact ⟨fun h => absurd h.2 (by decide +kernel), fun h => h.elim⟩

/-- Two jobs of the mode MASKDEC, the first writes a file, the second stores in the bucket: the hypotheses of `C91_mixed_units_jobs` hold, and what it says
about some of the cells of the stored file `0_gb` and of the file `/a_masked.tif`. -/
example : ∃ m d' st', runJobsDb exSys true .maskdec (some m) exRunDisk [] [(exJobA, exDb), (exDecB, exDb)] = .ok (0, d', st') ∧
    (∃ w, HoldsLayers exSys.rnd st' "0_gb".toList (wholeOpts .double) { exH 3 with noData := -1 } 1 w ∧
      w 0 0 0 = 50 ∧ w 0 0 1 = -1 ∧ w 0 1 1 = 80 ∧ w 0 1 0 = 7 ∧ w 0 0 2 = 7) ∧
    JobDone d' .maskdec (unitsView exJobA (exH 3) exMaskV (exH 2) exPlanA.val) exJobA exPlanA := by
  obtain ⟨M, eM, hb, hcl, hg, hn, hval, h2, hl, hnc⟩ := mask_file exRun_m NODATA
  have v00 := exMask_value 0 0 (by decide) (by decide) (by decide) (by decide) (by decide +kernel)
  obtain ⟨m, b, eb, hm⟩ := cutMask_of (vM := exMaskV) hb hcl hg hn hval h2 ⟨0, 0, v00⟩
  obtain ⟨d', st', e, hd⟩ := C91_mixed_units_jobs (sys := exSys) (fun v _ => rfl) (d := exRunDisk) (st := []) exRun_wf hm ex_coords (mode := .maskdec)
    (.inr rfl) (xs := exMixed) exMixed_apart
    (by
      intro x hx
      unfold exMixed at hx
      simp only [List.mem_cons, List.not_mem_nil, or_false] at hx
      rcases hx with rfl | rfl
      · exact ⟨exRun_overlap _ (by decide +kernel), exJobA_disk _ ⟨by decide, by decide⟩ _ _⟩
      · exact ⟨exRun_overlap _ (by decide +kernel), exDecB_ok _ (fun _ _ f hf => by cases hf), fun _ => ⟨_, rfl, by decide +kernel⟩⟩)
  exact ⟨m, d', st', e, exDecB_cells (hd.done ((exDecB, exDb), .db exDecPlanB ["b.tif".toList]) (by unfold exMixed; simp)),
    hd.done ((exJobA, exDb), .file exPlanA) (by unfold exMixed; simp)⟩

end App
end CCGL
