import Verif.Props.AppGfsFewDecJobs
import Verif.Props.AppGfsRunEx
/-!
# Examples for C90 without NoData cells
-/
namespace CCGL
namespace App
open Fs Disk Main Raster Gfs Disk.Spec App.Spec

theorem ex_few_dec_key (n : Str) (h : n = "ga".toList ∨ n = "gb".toList) : CCGL.Spec.GoodKey ⟨n, outOpts .double [] (fewOpts .double) false⟩ := by
  have h1 : CCGL.Spec.withType .double (outOpts .double [] (fewOpts .double) false) = outOpts .double [] (fewOpts .double) false := by
    rw [← curOpts_eq]; decide +kernel
  rw [← h1]
  rcases h with rfl | rfl <;> exact goodKey_of (by decide +kernel)

theorem exFewA_ok (mode : IOMode) :
    FewDecJob exRunDisk [] mode (exDecA, exDb) exDecPlanA (unitsView exDecA (exH 3) exMaskV (exH 2) exPlanA.val) where
  fmt := rfl
  inFmt := rfl
  input := ⟨_, rfl, exRun_a⟩
  one := fun _ => rfl
  out := by
    have O := (exDecA_ok (st := []) mode (fun _ _ f hf => by cases hf)).out
    exact ⟨O.name, ex_few_dec_key _ (.inl rfl), O.type, O.rm, O.rms, O.att, O.atts, O.done, O.table, O.one, O.whole, O.single, O.vals, O.cells, O.nodata,
      fun _ _ f hf => by cases hf⟩

theorem exFewB_ok (mode : IOMode) :
    FewDecJob exRunDisk [] mode (exDecB, exDb) exDecPlanB (unitsView exDecB (exH 3) exMaskV (exH 2) exPlanB.val) where
  fmt := rfl
  inFmt := rfl
  input := ⟨_, rfl, exRun_b⟩
  one := fun _ => rfl
  out := by
    have O := (exDecB_ok (st := []) mode (fun _ _ f hf => by cases hf)).out
    exact ⟨O.name, ex_few_dec_key _ (.inr rfl), O.type, O.rm, O.rms, O.att, O.atts, O.done, O.table, O.one, O.whole, O.single, O.vals, O.cells, O.nodata,
      fun _ _ f hf => by cases hf⟩

theorem exFewB_cells {st' : Store} (hB : FewDone exSys.rnd st' .maskdec exDecB (unitsView exDecB (exH 3) exMaskV (exH 2) exPlanB.val) (jobFill exDecB (exH 2)) 1
    (HasValue (exH 3) exMaskV)) :
    ∃ w, HoldsSome exSys.rnd st' "0_gb".toList (fewOpts .double) { exH 3 with noData := -1 } 1 w (HasValue (exH 3) exMaskV) ∧
      ¬ HasValue (exH 3) exMaskV 0 1 ∧ w 0 0 0 = 50 ∧ w 0 0 2 = 7 := by
  have v00 := exMask_value 0 0 (by decide) (by decide) (by decide) (by decide) (by decide +kernel)
  have v02 := exMask_value 0 2 (by decide) (by decide) (by decide) (by decide) (by decide +kernel)
  have h00 : maskedVal (exH 3) exMaskV (exH 2) exPlanB.val exDecB.default.toQ 0 0 = filled 7 (-9999) (exPlanB.val 0 0) :=
    maskedVal_at (by decide) v00 ⟨exIn 2 0 0 (by decide) (by decide) (by decide) (by decide), rfl⟩
  have h02 : maskedVal (exH 3) exMaskV (exH 2) exPlanB.val exDecB.default.toQ 0 2 = -9999 := maskedVal_none (.inr (by
    rintro ⟨i, j, h3, h4⟩
    have h5 : 0 ≤ i ∧ i < 2 ∧ 0 ≤ j ∧ j < 2 := h3
    have hj : j = 0 ∨ j = 1 := by omega
    have hi : i = 0 ∨ i = 1 := by omega
    rcases hi with rfl | rfl <;> rcases hj with rfl | rfl <;> revert h4 <;> decide +kernel))
  have b00 : byValue (exH 3) exMaskV 1 0 0 := ⟨v00, by decide +kernel⟩
  have b02 : byValue (exH 3) exMaskV 1 0 2 := ⟨v02, by decide +kernel⟩
  have f00 : floatEqual (maskedVal (exH 3) exMaskV (exH 2) exPlanB.val exDecB.default.toQ 0 0) (exH 2).noData = false := by rw [h00]; decide +kernel
  have g00 : maskGroups exDecB (exH 3) exMaskV (exH 2) exPlanB.val 1 0 0 := ⟨b00, 0, 0, b00, f00⟩
  have g02 : maskGroups exDecB (exH 3) exMaskV (exH 2) exPlanB.val 1 0 2 := ⟨b02, 0, 0, b00, f00⟩
  obtain ⟨w, w1, w2⟩ := hB.all rfl (.inr rfl) ⟨1, 0, 0, g00⟩
  have hv : ∀ row col x, maskedVal (exH 3) exMaskV (exH 2) exPlanB.val exDecB.default.toQ row col = x →
      cellOut exDecB (unitsView exDecB (exH 3) exMaskV (exH 2) exPlanB.val).val (jobFill exDecB (exH 2)) 0 row col =
      CCGL.Spec.tableValue (numTable exDecB) (truncQ (renamed true (-9999) (-1) x)) 0 (jobFill exDecB (exH 2)) := by
    intro row col x h
    rw [← h]
    rfl
  refine ⟨w, w1, ?_, ?_, ?_⟩
  · intro h
    have := h.2
    revert this
    decide +kernel
  · rw [(w2 0 0 0 v00.1 v00 (by decide)).1 ⟨1, g00⟩]
    refine (hv 0 0 _ h00).trans ?_
    decide +kernel
  · rw [(w2 0 2 0 v02.1 v02 (by decide)).1 ⟨1, g02⟩]
    exact (hv 0 2 _ h02).trans (by decide +kernel)

/-- A batch in the mode MASKDEC with output to an empty bucket without NoData cells, one job with and one without reclassification: the hypotheses of
`C90_few_units_jobs` hold, and what it says about some of the cells of the file `0_gb`: (0, 0) has the table's value, (0, 2), which has no value in the
raster but is in group 1, the default value; (0, 1), which is NoData in the mask, is not stored. -/
example : ∃ m st', runJobsDb exSys false .maskdec (some m) exRunDisk [] [(exDecA, exDb), (exDecB, exDb)] = .ok (0, exRunDisk, st') ∧
    CutMask m (exH 3) exMaskV ∧
    ∃ w, HoldsSome exSys.rnd st' "0_gb".toList (fewOpts .double) { exH 3 with noData := -1 } 1 w (HasValue (exH 3) exMaskV) ∧
      ¬ HasValue (exH 3) exMaskV 0 1 ∧ w 0 0 0 = 50 ∧ w 0 0 2 = 7 := by
  obtain ⟨M, eM, hb, hcl, hg, hn, hval, h2, hl, hnc⟩ := mask_file exRun_m NODATA
  have v00 := exMask_value 0 0 (by decide) (by decide) (by decide) (by decide) (by decide +kernel)
  obtain ⟨m, b, eb, hm⟩ := cutMask_of (vM := exMaskV) hb hcl hg hn hval h2 ⟨0, 0, v00⟩
  obtain ⟨st', e, -, hd⟩ := C90_few_units_jobs (sys := exSys) (fun v _ => rfl) (d := exRunDisk) (st := []) hm ex_coords (mode := .maskdec)
    (.inr rfl) (xs := [((exDecA, exDb), exDecPlanA), ((exDecB, exDb), exDecPlanB)])
    exDec_apart
    (by
      intro x hx
      simp only [List.mem_cons, List.not_mem_nil, or_false] at hx
      rcases hx with rfl | rfl
      · exact ⟨exRun_overlap _ (by decide +kernel), exFewA_ok _⟩
      · exact ⟨exRun_overlap _ (by decide +kernel), exFewB_ok _⟩)
  exact ⟨m, st', e, hm, exFewB_cells (hd ((exDecB, exDb), exDecPlanB) (by simp))⟩

def exFewDecArgs : List Str := ["-mode".toList, "maskdec".toList, "-mask".toList, "/m.tif".toList, "-mongo".toList, "localhost".toList,
  "27017".toList, "db".toList, "g".toList, "-include_nodata".toList, "0".toList, "-configfile".toList, "/c.txt".toList]

/-- The same as a run of the program with `-include_nodata 0` (`C91_few_units_run`). -/
example (md : MaskDb) : ∃ st', runDb exSys (exWorld exDbText) md (fun _ => exDb) exRunDisk [] exFewDecArgs = .ok (0, exRunDisk, st') ∧
    ∃ w, HoldsSome exSys.rnd st' "0_gb".toList (fewOpts .double) { exH 3 with noData := -1 } 1 w (HasValue (exH 3) exMaskV) ∧
      ¬ HasValue (exH 3) exMaskV 0 1 ∧ w 0 0 0 = 50 ∧ w 0 0 2 = 7 := by
  have hj : jobsOf (exWorld exDbText) exFewDecArgs = .ok (some [exDecA, exDecB]) := by decide +kernel
  have hcfg : (configure (exWorld exDbText) exFewDecArgs).bind (fun | .exit _ => .ub | .go c => .ok (c.mode, c.maskFmt, c.maskPath, c.useMongo, c.incNodata)) =
      .ok (.maskdec, .sfile, "/m.tif".toList, true, false) := by decide +kernel
  obtain ⟨c, h1, h2⟩ := jobsOf_go hj
  rw [h1] at hcfg
  have hcfg' : (c.mode, c.maskFmt, c.maskPath, c.useMongo, c.incNodata) = (IOMode.maskdec, DataFmt.sfile, "/m.tif".toList, true, false) := Out.ok.inj hcfg
  injection hcfg' with q1 q2
  injection q2 with q2 q3
  injection q3 with q3 q4
  injection q4 with q4 q5
  have v00 := exMask_value 0 0 (by decide) (by decide) (by decide) (by decide) (by decide +kernel)
  obtain ⟨st', e, -, hd⟩ := C91_few_units_run (sys := exSys) (fun v _ => rfl) (md := md) (dbs := fun _ => exDb) (d := exRunDisk) (st := []) h1 h2 q4 q5 (.inr q1)
    (hM := exH 3) (vM := exMaskV) (.file q2 (by rw [q3]; exact exRun_m)) ex_coords ⟨0, 0, v00⟩
    (xs := [((exDecA, exDb), exDecPlanA), ((exDecB, exDb), exDecPlanB)]) rfl
    (by rw [q1]; exact exDec_apart)
    (by
      rw [q1]
      intro x hx
      simp only [List.mem_cons, List.not_mem_nil, or_false] at hx
      rcases hx with rfl | rfl
      · exact ⟨exRun_overlap _ (by decide +kernel), exFewA_ok _⟩
      · exact ⟨exRun_overlap _ (by decide +kernel), exFewB_ok _⟩)
  rw [q1] at hd
  exact ⟨st', e, exFewB_cells (hd ((exDecB, exDb), exDecPlanB) (by simp))⟩

/-- The job that reclassifies in the mode MASK, with the mask (`C90_few_mask_recls`). -/
example : ∃ m st' m', layerJobDb exSys false .mask (exRunDisk, [], some ⟨m, []⟩) (exDecB, exDb) = .ok (exRunDisk, st', some ⟨m', []⟩) ∧
    FewDone exSys.rnd st' .mask exDecB (maskedView exDecB (exH 3) exMaskV (exH 2) exPlanB.val) (jobFill exDecB (exH 2)) 1 (HasValue (exH 3) exMaskV) := by
  obtain ⟨M, eM, hb, hcl, hg, hn, hval, h2, hl, hnc⟩ := mask_file exRun_m NODATA
  have v00 := exMask_value 0 0 (by decide) (by decide) (by decide) (by decide) (by decide +kernel)
  obtain ⟨m, b, eb, hm⟩ := cutMask_of (vM := exMaskV) hb hcl hg hn hval h2 ⟨0, 0, v00⟩
  obtain ⟨hg', hov⟩ := exRun_overlap exMaskV (by decide +kernel)
  have O := (exFewB_ok .mask).out
  have hns : ¬ WantsSingle .mask := by rintro (h | h) <;> cases h
  obtain ⟨st', m', e, -, -, hd⟩ := C90_few_mask_recls (sys := exSys) (fun v _ => rfl) (d := exRunDisk) (st := []) hm.isMask (j := exDecB) (jd := exDb) (n := 1)
    rfl rfl exRun_b hg' hov rfl rfl ⟨O.name, O.key, O.type, O.rm, O.rms, O.att, O.atts, O.done, O.table, O.one, O.whole, fun h => absurd h hns, O.vals,
      (fun h => by cases h), O.nodata, fun _ _ f hf => by cases hf⟩
  exact ⟨m.ras, st', m', e, hd⟩

/-- The same without a mask (`C90_few_recls`). -/
example : ∃ st', layerJobDb exSys false .mask (exRunDisk, [], none) (exDecB, exDb) = .ok (exRunDisk, st', none) ∧
    FewDone exSys.rnd st' .mask exDecB (ownView exDecB (exH 2) exPlanB.val) (jobFill exDecB (exH 2)) 1
      (HasValue (plainHdr exDecB (exH 2)) (plainVal exDecB (exH 2) exPlanB.val)) := by
  have O := (exFewB_ok .mask).out
  have hns : ¬ WantsSingle .mask := by rintro (h | h) <;> cases h
  obtain ⟨st', e, -, hd⟩ := C90_few_recls (sys := exSys) (fun v _ => rfl) (d := exRunDisk) (st := []) (mode := .mask) (j := exDecB) (jd := exDb) (n := 1)
    rfl rfl exRun_b rfl rfl ⟨O.name, O.key, O.type, O.rm, O.rms, O.att, O.atts, O.done, O.table, O.one,
      (fun _ => ex_storable_of (h := plainHdr exDecB (exH 2)) (a := 0) (b := 0) ⟨by decide, by decide⟩ ⟨by decide, by decide⟩ rfl (by decide +kernel) (by decide +kernel)),
      (fun h => absurd h hns), O.vals,
      (fun h => by cases h), O.nodata, fun _ _ f hf => by cases hf⟩
  exact ⟨st', e, hd⟩

end App
end CCGL
