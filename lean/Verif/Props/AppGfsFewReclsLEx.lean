import Verif.Props.AppGfsFewReclsLRun
import Verif.Props.AppGfsStackEx
import Verif.Props.AppGfsFewDecEx
/-!
# Examples for C98: several files, output to GridFS without NoData cells
-/
namespace CCGL
namespace App
open Fs Disk Main Raster Gfs Disk.Spec App.Spec

theorem exFewA_full : FewFullJob exRunDisk [] .maskdec (exDecA, exDb) exFullA (unitsView exDecA (exH 3) exMaskV (exH 2) exPlanA.val)
    (maskNum exDecA (exH 3) exMaskV (exH 2) exPlanA.val []) where
  fmt := ⟨rfl, rfl⟩
  inputs := ⟨⟨_, rfl, exRun_a⟩, fun l hl => by cases hl⟩
  single := fun _ => ⟨fun _ => rfl, (exFewA_ok .maskdec).out⟩
  table := fun h => absurd rfl h
  stack := fun h => absurd rfl h

theorem exFewM_full : FewFullJob exRunDisk [] .maskdec (exDecM, exDb) exFullM (unitsView exDecM (exH 3) exMaskV (exH 2) exPlanA.val)
    (maskNum exDecM (exH 3) exMaskV (exH 2) exPlanA.val exRestL) where
  fmt := ⟨rfl, rfl⟩
  inputs := ⟨⟨_, rfl, exRun_a⟩, ex_restL⟩
  single := fun h => by cases h
  table := by
    intro _ _
    have O := exDecM_out .maskdec
    exact ⟨by decide, ⟨O.name, ex_few_dec_key _ (.inr rfl), O.type, O.rm, O.rms, O.att, O.atts, O.done, O.table, O.one, O.whole, O.single, O.vals, O.cells, O.nodata,
      fun _ _ f hf => by cases hf⟩⟩
  stack := fun _ h => by cases h

theorem exFewS_full : FewFullJob exRunDisk [] .maskdec (exDecS, exDb) exFullM (unitsView exDecS (exH 3) exMaskV (exH 2) exPlanA.val)
    (maskNum exDecS (exH 3) exMaskV (exH 2) exPlanA.val exRestL) where
  fmt := ⟨rfl, rfl⟩
  inputs := ⟨⟨_, rfl, exRun_a⟩, ex_restL⟩
  single := fun h => by cases h
  table := fun _ h => by cases h
  stack := by
    intro _ _
    have O := exDecS_out .maskdec
    exact ⟨O.name, ex_few_dec_key _ (.inr rfl), O.type, O.rm, O.rms, O.att, O.atts, O.done, O.whole, O.single, O.cells, O.nodata, fun _ _ f hf => by cases hf⟩

/-- The program in the mode MASKDEC with output to an empty bucket; the second job has two files and a table with two columns. The file `0_gb` has two
layers: at cell (0, 0) the table's first entry for 10 (first file) and its second for 5 (second file), (0, 1), NoData in the mask, is not stored. -/
example (md : MaskDb) : ∃ st', runDb exSys (exWorld "/a.tif;ga;;;DOUBLE\n/a.tif,/b.tif;gb;7;-1;DOUBLE;5:50|51,10:100|101,40:400|401\n") md (fun _ => exDb) exRunDisk []
      exFewDecArgs = .ok (0, exRunDisk, st') ∧
    ∃ w, HoldsSome exSys.rnd st' "0_gb".toList (fewOpts .double) { exH 3 with noData := -1 } 2 w (HasValue (exH 3) exMaskV) ∧
      w 0 0 0 = 100 ∧ w 1 0 0 = 51 ∧ ¬ HasValue (exH 3) exMaskV 0 1 := by
  have hj : jobsOf (exWorld "/a.tif;ga;;;DOUBLE\n/a.tif,/b.tif;gb;7;-1;DOUBLE;5:50|51,10:100|101,40:400|401\n") exFewDecArgs =
      .ok (some [exDecA, exDecM]) := by decide +kernel
  have hcfg : (configure (exWorld "/a.tif;ga;;;DOUBLE\n/a.tif,/b.tif;gb;7;-1;DOUBLE;5:50|51,10:100|101,40:400|401\n") exFewDecArgs).bind
      (fun | .exit _ => .ub | .go c => .ok (c.mode, c.maskFmt, c.maskPath, c.useMongo, c.incNodata)) =
      .ok (.maskdec, .sfile, "/m.tif".toList, true, false) := by decide +kernel
  obtain ⟨c, h1, h2⟩ := jobsOf_go hj
  rw [h1] at hcfg
  have hcfg' : (c.mode, c.maskFmt, c.maskPath, c.useMongo, c.incNodata) = (IOMode.maskdec, DataFmt.sfile, "/m.tif".toList, true, false) := Out.ok.inj hcfg
  injection hcfg' with q1 q2
  injection q2 with q2 q3
  injection q3 with q3 q4
  injection q4 with q4 q5
  have v00 := exMask_value 0 0 (by decide) (by decide) (by decide) (by decide) (by decide +kernel)
  obtain ⟨hg, hov⟩ := exRun_overlap exMaskV (by decide +kernel)
  obtain ⟨st', e, -, hd⟩ := C98_gfs_few_groups_run_partial (sys := exSys) (fun v _ => rfl) (md := md) (dbs := fun _ => exDb) (st := []) h1 h2 q4 q5 (.inr q1)
    (.file q2 (by rw [q3]; exact exRun_m)) ex_coords ⟨0, 0, v00⟩ (xs := [((exDecA, exDb), exFullA), ((exDecM, exDb), exFullM)]) rfl
    (by rw [q1]; exact exFull_apart)
    (by
      rw [q1]
      intro x hx
      simp only [List.mem_cons, List.not_mem_nil, or_false] at hx
      rcases hx with rfl | rfl
      · exact ⟨⟨hg, hov, fun l hl => by cases hl⟩, exFewA_full⟩
      · refine ⟨⟨hg, hov, ?_⟩, exFewM_full⟩
        intro l hl
        have hl : l ∈ [(⟨"/b.tif".toList, exH 2, exPlanB.val⟩ : LayerFile)] := hl
        rw [List.mem_singleton.1 hl]
        exact hg)
  rw [q1] at hd
  have hL : DbLayersFew exSys.rnd st' .maskdec exDecM (unitsView exDecM (exH 3) exMaskV (exH 2) exPlanA.val) (maskNum exDecM (exH 3) exMaskV (exH 2) exPlanA.val exRestL)
      (jobFill exDecM (exH 2)) 2 (HasValue (exH 3) exMaskV) := (hd ((exDecM, exDb), exFullM) (by simp)).table (by unfold exFullM exRestL; simp) rfl
  obtain ⟨u, u1, -, u3⟩ := hL
  have b00 : byValue (exH 3) exMaskV 1 0 0 := ⟨v00, by decide +kernel⟩
  have h00 : maskedVal (exH 3) exMaskV (exH 2) exPlanA.val exDecM.default.toQ 0 0 = filled 7 (-9999) (exPlanA.val 0 0) :=
    maskedVal_at (by decide) v00 ⟨exIn 2 0 0 (by decide) (by decide) (by decide) (by decide), rfl⟩
  have f00 : floatEqual (maskedVal (exH 3) exMaskV (exH 2) exPlanA.val exDecM.default.toQ 0 0) (exH 2).noData = false := by rw [h00]; decide +kernel
  have g00 : maskGroups exDecM (exH 3) exMaskV (exH 2) exPlanA.val 1 0 0 := ⟨b00, 0, 0, b00, f00⟩
  obtain ⟨w, w1, w2⟩ := u3 (.inr rfl) ⟨1, 0, 0, g00⟩
  have hin := exIn 3
  refine ⟨st', e, w, w1, ?_, ?_, ?_⟩
  · rw [(w2 0 0 0 (hin 0 0 (by decide) (by decide) (by decide) (by decide)) v00 (by decide)).1 ⟨1, g00⟩]
    obtain ⟨x, ⟨y, y1, rfl⟩, hx⟩ := u1 1 0 0 0 g00 (by decide)
    have := (y1.1 rfl).taken v00 0 0 ⟨exIn 2 _ _ (by decide) (by decide) (by decide) (by decide), by decide +kernel⟩
    rw [hx, this]
    decide +kernel
  · rw [(w2 0 0 1 (hin 0 0 (by decide) (by decide) (by decide) (by decide)) v00 (by decide)).1 ⟨1, g00⟩]
    obtain ⟨x, ⟨y, y1, rfl⟩, hx⟩ := u1 1 0 0 1 g00 (by decide)
    have := (y1.2 0 (by decide) rfl).taken v00 0 0 ⟨exIn 2 _ _ (by decide) (by decide) (by decide) (by decide), by decide +kernel⟩
    rw [hx, this]
    decide +kernel
  · intro h
    have := h.2
    revert this
    decide +kernel

/-- The program in the mode MASKDEC with output to an empty bucket; the second job has two files and no table. The file `0_gb` has both as layers: at cell
(0, 0) the first has 10 and the second 5. -/
example (md : MaskDb) : ∃ st', runDb exSys (exWorld "/a.tif;ga;;;DOUBLE\n/a.tif,/b.tif;gb;7;-1;DOUBLE\n") md (fun _ => exDb) exRunDisk []
      exFewDecArgs = .ok (0, exRunDisk, st') ∧
    ∃ w, HoldsSome exSys.rnd st' "0_gb".toList (fewOpts .double) { exH 3 with noData := -1 } 2 w (HasValue (exH 3) exMaskV) ∧ w 0 0 0 = 10 ∧ w 1 0 0 = 5 := by
  have hj : jobsOf (exWorld "/a.tif;ga;;;DOUBLE\n/a.tif,/b.tif;gb;7;-1;DOUBLE\n") exFewDecArgs =
      .ok (some [exDecA, exDecS]) := by decide +kernel
  have hcfg : (configure (exWorld "/a.tif;ga;;;DOUBLE\n/a.tif,/b.tif;gb;7;-1;DOUBLE\n") exFewDecArgs).bind
      (fun | .exit _ => .ub | .go c => .ok (c.mode, c.maskFmt, c.maskPath, c.useMongo, c.incNodata)) =
      .ok (.maskdec, .sfile, "/m.tif".toList, true, false) := by decide +kernel
  obtain ⟨c, h1, h2⟩ := jobsOf_go hj
  rw [h1] at hcfg
  have hcfg' : (c.mode, c.maskFmt, c.maskPath, c.useMongo, c.incNodata) = (IOMode.maskdec, DataFmt.sfile, "/m.tif".toList, true, false) := Out.ok.inj hcfg
  injection hcfg' with q1 q2
  injection q2 with q2 q3
  injection q3 with q3 q4
  injection q4 with q4 q5
  have v00 := exMask_value 0 0 (by decide) (by decide) (by decide) (by decide) (by decide +kernel)
  obtain ⟨hg, hov⟩ := exRun_overlap exMaskV (by decide +kernel)
  obtain ⟨st', e, -, hd⟩ := C98_gfs_few_groups_run_partial (sys := exSys) (fun v _ => rfl) (md := md) (dbs := fun _ => exDb) (st := []) h1 h2 q4 q5 (.inr q1)
    (.file q2 (by rw [q3]; exact exRun_m)) ex_coords ⟨0, 0, v00⟩ (xs := [((exDecA, exDb), exFullA), ((exDecS, exDb), exFullM)]) rfl
    (by rw [q1]; exact exStack_apart)
    (by
      rw [q1]
      intro x hx
      simp only [List.mem_cons, List.not_mem_nil, or_false] at hx
      rcases hx with rfl | rfl
      · exact ⟨⟨hg, hov, fun l hl => by cases hl⟩, exFewA_full⟩
      · refine ⟨⟨hg, hov, ?_⟩, exFewS_full⟩
        intro l hl
        have hl : l ∈ [(⟨"/b.tif".toList, exH 2, exPlanB.val⟩ : LayerFile)] := hl
        rw [List.mem_singleton.1 hl]
        exact hg)
  rw [q1] at hd
  have hL : DbStackFew exSys.rnd st' .maskdec exDecS (unitsView exDecS (exH 3) exMaskV (exH 2) exPlanA.val) (maskNum exDecS (exH 3) exMaskV (exH 2) exPlanA.val exRestL) 2 (HasValue (exH 3) exMaskV) :=
    (hd ((exDecS, exDb), exFullM) (by simp)).stack (by unfold exFullM exRestL; simp) rfl
  obtain ⟨w, u1, -, u3⟩ := hL
  have hin := exIn 3 0 0 (by decide) (by decide) (by decide) (by decide)
  refine ⟨st', e, w, u3 (.inr rfl), ?_, ?_⟩
  · obtain ⟨y, y1, hy⟩ := u1 0 0 hin 0 (by decide)
    have := (y1.1 rfl).taken v00 0 0 ⟨exIn 2 _ _ (by decide) (by decide) (by decide) (by decide), by decide +kernel⟩
    rw [hy, this]
    decide +kernel
  · obtain ⟨y, y1, hy⟩ := u1 0 0 hin 1 (by decide)
    have := (y1.2 0 (by decide) rfl).taken v00 0 0 ⟨exIn 2 _ _ (by decide) (by decide) (by decide) (by decide), by decide +kernel⟩
    rw [hy, this]
    decide +kernel

end App
end CCGL
