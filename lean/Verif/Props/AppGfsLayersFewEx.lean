import Verif.Props.AppGfsLayersFew
import Verif.Props.AppGfsLayersEx
/-!
# Examples for C92 with output to GridFS without the NoData cells
-/
namespace CCGL
namespace App
open Fs Disk Main Raster Gfs Disk.Spec App.Spec

theorem ex_stack_few_key : CCGL.Spec.GoodKey ⟨storedName "ga".toList, outOpts .double [] (fewOpts .double) false⟩ := by
  have h1 : CCGL.Spec.withType .double (outOpts .double [] (fewOpts .double) false) = outOpts .double [] (fewOpts .double) false := by
    rw [← curOpts_eq]; decide +kernel
  rw [← h1]
  exact goodKey_of (by decide +kernel)

/-- Two raster files with a mask: one file `0_ga` with two numbers for each cell of the mask in the bucket. Cell (0, 0) has 10 and 5; cell (0, 1), NoData in the
mask, is not stored. -/
example : ∃ m m' st w, layerJobDb exSys false .mask (exRunDisk, [], some ⟨m, []⟩) (exJobGL, exDb) = .ok (exRunDisk, st, some ⟨m', []⟩) ∧
    HoldsSome exSys.rnd st "0_ga".toList (fewOpts .double) { exH 3 with noData := -1 } 2 w (HasValue (exH 3) exMaskV) ∧
    w 0 0 0 = 10 ∧ w 1 0 0 = 5 ∧ HasValue (exH 3) exMaskV 0 0 ∧ ¬ HasValue (exH 3) exMaskV 0 1 := by
  obtain ⟨m, -, hm⟩ := full_mask_loaded exRun_m
  obtain ⟨hg, hov⟩ := exRun_overlap exMaskV (by decide +kernel)
  obtain ⟨st, m', e, -, -, hS, -⟩ := C92_gfs_few_mask_partial (sys := exSys) (fun v _ => rfl) (d := exRunDisk) (st := []) hm.isMask (j := exJobGL) (jd := exDb)
    (rest := exRestL) (s := "/a.tif".toList) rfl rfl (by unfold exRestL; simp) exRun_a ex_restL hg (by
      intro l hl
      have hl : l ∈ [(⟨"/b.tif".toList, exH 2, exPlanB.val⟩ : LayerFile)] := hl
      rw [List.mem_singleton.1 hl]
      exact hg) hov rfl rfl
    ⟨ex_stack_few_key, ex_storableL 3 (.inr rfl), ⟨by decide, by decide, by decide⟩, fun _ => rfl, fun _ => .inl ⟨rfl, rfl⟩, by simp⟩ ex_fitLayers
  obtain ⟨w, hw, hH⟩ := hS ⟨0, by decide, rfl⟩
  have hin := exIn 3 0 0 (by decide) (by decide) (by decide) (by decide)
  have hin2 := exIn 2 0 0 (by decide) (by decide) (by decide) (by decide)
  refine ⟨m, m', st, _, e, hH, ?_, ?_, ⟨hin, by decide +kernel⟩, by rintro ⟨-, h⟩; revert h; decide +kernel⟩
  · have := ((hw 0 0 hin 0 (by decide)).1 rfl).taken ⟨hin, by decide +kernel⟩ 0 0 ⟨hin2, by decide +kernel⟩
    rw [this]
    decide +kernel
  · have := ((hw 0 0 hin 1 (by decide)).2 0 (by decide) rfl).taken ⟨hin, by decide +kernel⟩ 0 0 ⟨hin2, by decide +kernel⟩
    rw [this]
    decide +kernel

/-- The same without a mask: cell (1, 0), NoData in the first file, is not stored. -/
example : ∃ st w, layerJobDb exSys false .mask (exRunDisk, [], none) (exJobGL, exDb) = .ok (exRunDisk, st, none) ∧
    HoldsSome exSys.rnd st "0_ga".toList (fewOpts .double) { exH 2 with noData := -1 } 2 w (plainCells exJobGL (exH 2) exPlanA.val) ∧
    w 0 0 0 = 10 ∧ w 1 0 0 = 5 ∧ ¬ plainCells exJobGL (exH 2) exPlanA.val 1 0 := by
  obtain ⟨st, e, -, hS, -⟩ := C92_gfs_few_plain_partial (sys := exSys) (fun v _ => rfl) (d := exRunDisk) (st := []) (j := exJobGL) (jd := exDb)
    (rest := exRestL) (s := "/a.tif".toList) rfl rfl (by unfold exRestL; simp) exRun_a ex_restL (by
      intro l hl
      have hl : l ∈ [(⟨"/b.tif".toList, exH 2, exPlanB.val⟩ : LayerFile)] := hl
      rw [List.mem_singleton.1 hl]
      exact ⟨by decide, rfl, 0, 0, by decide +kernel, by decide +kernel⟩) rfl rfl
    ⟨0, 0, exIn 2 _ _ (by decide) (by decide) (by decide) (by decide), by unfold plainCells NotNoData; decide +kernel⟩
    ⟨ex_stack_few_key, ex_storableL 2 (.inl rfl), ⟨by decide, by decide, by decide⟩, fun _ => rfl, fun _ => .inl ⟨rfl, rfl⟩, by simp⟩ ex_fitLayers
  obtain ⟨w, hw, hH⟩ := hS ⟨0, by decide, rfl⟩
  have hin2 := exIn 2 0 0 (by decide) (by decide) (by decide) (by decide)
  refine ⟨st, _, e, hH, ?_, ?_, by unfold plainCells NotNoData; decide +kernel⟩
  · have := (hw 0 0 hin2 0 (by decide)).1 rfl
    rw [this]
    decide +kernel
  · have := ((hw 0 0 hin2 1 (by decide)).2 0 (by decide) rfl).taken ⟨hin2, by decide +kernel⟩ 0 0 ⟨hin2, by decide +kernel⟩
    rw [this]
    decide +kernel

end App
end CCGL
