import Verif.Props.AppCrashMany
import Verif.Props.AppCrashEx
/-!
# Example: a run with a job with two input files is stopped while its first job writes (C101)
-/
namespace CCGL
namespace App
open Fs Disk Main Raster Disk.Spec App.Spec

/-- What is no output of the second job. -/
theorem exNotO2 {x : Str} (hx : x.count '_' ≤ 1) (k : Int) (l : Nat) : [x] ≠ outPath [] "o".toList "tif".toList 2 k l := by
  intro h
  unfold outPath layerCore at h
  rw [if_neg (by decide)] at h
  have h := congrArg (fun x : Path => x.map (fun s => s.count '_')) h
  simp only [List.nil_append, List.map_cons, List.map_nil, List.cons.injEq, and_true] at h
  unfold subsetCore at h
  simp only [List.count_append, List.count_cons, beq_self_eq_true, if_true] at h
  omega

theorem exSeparateMany : SeparateMany .maskdec (groupsView (exH 3) exMaskV) [(exJobA, .inl exPlanA), (exJobM, .inr exPlanM)] := by
  refine ⟨?_, (exMany_apart _ _).imp (fun h q hq => (h q hq).2)⟩
  have hreads : ∀ y ∈ ([(exJobA, .inl exPlanA), (exJobM, .inr exPlanM)] : List (Job × APlan)), ∀ q, y.2.reads q → q = ["a.tif".toList] ∨ q = ["b.tif".toList] := by
    intro y hy q hq
    simp only [List.mem_cons, List.not_mem_nil, or_false] at hy
    rcases hy with rfl | rfl
    · exact .inl hq
    · have hq : q ∈ [["a.tif".toList], ["b.tif".toList]] := hq
      simpa using hq
  intro x hx y hy q hw hq
  simp only [List.mem_cons, List.not_mem_nil, or_false] at hx
  have hr := hreads y hy q hq
  rcases hx with rfl | rfl
  · rcases hw with ⟨h, -⟩ | ⟨-, -, h⟩
    · cases h
    · rcases hr with rfl | rfl <;> (revert h; decide +kernel)
  · rcases hw with ⟨-, ⟨-, k, l, -, -, h⟩ | ⟨-, -, l, -, h⟩⟩ | ⟨h, -⟩
    · rcases hr with rfl | rfl <;> exact exNotO2 (by decide +kernel) k l h
    · rcases hr with rfl | rfl <;> exact exNotO2 (by decide +kernel) 0 l h
    · cases h

/-- The run of the example in AppMany is stopped while the first job writes its file, which is left behind without a raster in it. Nothing else has changed, and
the same command, started again, leaves what it would have left: the file of the second column has 51 at cell (0, 0). -/
example : ∃ c, configure (exWorld exManyText) exManyArgs = .ok (.go c) ∧ StoppedMany exSys c (groupsView (exH 3) exMaskV) [(exJobA, .inl exPlanA), (exJobM, .inr exPlanM)] exRunDisk exTorn [] ∧
    decode exTorn "/a_masked.tif".toList = .ok none ∧
    ∃ d', run exSys (exWorld exManyText) exTorn exManyArgs = .ok (0, d') ∧
      ∃ v, ReadsAs d' "/0_o_2.tif".toList { exH 3 with noData := -1 } v ∧ v 0 0 = 51 ∧ v 0 1 = -1 ∧ v 1 1 = 7 := by
  have hcfg : (configure (exWorld exManyText) exManyArgs).bind (fun | .exit _ => .ub | .go c => .ok (c.mode, c.maskFmt, c.maskPath)) =
      .ok (.maskdec, .sfile, "/m.tif".toList) := by decide +kernel
  obtain ⟨c, h1, h2⟩ := jobsOf_go (show jobsOf (exWorld exManyText) exManyArgs = .ok (some [exJobA, exJobM]) by decide +kernel)
  rw [h1] at hcfg
  have hcfg' : (c.mode, c.maskFmt, c.maskPath) = (IOMode.maskdec, DataFmt.sfile, "/m.tif".toList) := Out.ok.inj hcfg
  injection hcfg' with q1 q2
  injection q2 with q2 q3
  have hin : ∀ row col, 0 ≤ row → row < 2 → 0 ≤ col → col < 3 → (exH 3).grid.CellInside row col := fun row col a b x y => exIn 3 row col a b x y
  have hval : ∀ row col, 0 ≤ row → row < 2 → 0 ≤ col → col < 3 → floatEqual (exMaskV row col) (-9999) = false → HasValue (exH 3) exMaskV row col :=
    fun row col a b x y h => ⟨hin row col a b x y, h⟩
  have hv : ∃ row col, HasValue (exH 3) exMaskV row col := ⟨0, 0, hval 0 0 (by decide) (by decide) (by decide) (by decide) (by decide +kernel)⟩
  have hmask : RasterFile exRunDisk c.maskPath (exH 3) exMaskV := by rw [q3]; exact exRun_m
  have hT : JobTargets c.mode (groupsView (exH 3) exMaskV exJobA exPlanA) exJobA exPlanA ["a_masked.tif".toList] := by
    rw [q1]
    exact .inr ⟨rfl, .inr rfl, rfl⟩
  have hst : StoppedMany exSys c (groupsView (exH 3) exMaskV) [(exJobA, .inl exPlanA), (exJobM, .inr exPlanM)] exRunDisk exTorn [] := by
    obtain ⟨M, eM, hb, hcl, hg, hn, hvv, hM2, hl, hnc⟩ := mask_file hmask NODATA
    obtain ⟨m, b, eb, hm⟩ := cutMask_of hb hcl hg hn hvv hM2 hv
    refine ⟨some m, ⟨_, loadMask_file q2 hmask eM, ?_⟩, _, rfl, exRunDisk, some m, rfl, exTorn_only ⟨_, rfl, hT⟩⟩
    unfold prepareMask
    dsimp only
    rw [if_neg (by rw [q1]; simp), eb]
    rfl
  refine ⟨c, h1, hst, by decide +kernel, ?_⟩
  obtain ⟨-, -, d', e, -, hd⟩ := C101_many_groups exSys (xs := [(exJobA, .inl exPlanA), (exJobM, .inr exPlanM)]) exRun_wf h1 h2 (.inr q1) q2 hmask
    (vM := exMaskV) (by
      refine ⟨by decide +kernel, ?_, ?_⟩
      · intro col a b
        have : col = 0 ∨ col = 1 ∨ col = 2 := by have : col < 3 := b; omega
        rcases this with rfl | rfl | rfl <;> decide +kernel
      · intro row a b
        have : row = 0 ∨ row = 1 := by have : row < 2 := b; omega
        rcases this with rfl | rfl <;> decide +kernel) hv (qM := ["m.tif".toList]) (by rw [q3]; decide +kernel)
    (by
      intro x hx
      simp only [List.mem_cons, List.not_mem_nil, or_false] at hx
      rw [q1]
      rcases hx with rfl | rfl
      · rintro (⟨h, -⟩ | ⟨-, -, h⟩) <;> [cases h; (revert h; decide +kernel)]
      · rintro (⟨-, ⟨-, k, l, -, -, h⟩ | ⟨-, -, l, -, h⟩⟩ | ⟨h, -⟩)
        · exact exNotO2 (by decide +kernel) k l h
        · exact exNotO2 (by decide +kernel) 0 l h
        · cases h) (by rw [q1]; exact exSeparateMany)
    (by
      intro x hx
      simp only [List.mem_cons, List.not_mem_nil, or_false] at hx
      rcases hx with rfl | rfl
      · exact ⟨⟨exRun_overlap _ (by decide +kernel), fun l hl => by cases hl⟩, exJobA_ok _ ⟨by decide, by decide⟩ _⟩
      · refine ⟨⟨exRun_overlap _ (by decide +kernel), fun l hl => ?_⟩, exMany_ok _ ⟨by decide, by decide⟩ _⟩
        have hl : l ∈ [(⟨"/b.tif".toList, exH 2, exPlanB.val⟩ : LayerFile)] := hl
        rw [List.mem_singleton.1 hl]
        exact (exRun_overlap exMaskV (by decide +kernel)).1) hst
  refine ⟨d', e, ?_⟩
  have hD : ManyDone .. := hd (exJobM, .inr exPlanM) (by simp)
  have hB := hD.recls rfl
  rw [q1] at hB
  have hcell : ∀ row col, 0 ≤ row → row < 2 → 0 ≤ col → col < 2 → SameCell (exH 2) (exH 3) row col row col :=
    fun row col a b x y => ⟨exIn 2 row col a b x y, rfl⟩
  have hmv : ∀ row col, 0 ≤ row → row < 2 → 0 ≤ col → col < 2 → floatEqual (exMaskV row col) (-9999) = false →
      maskedVal (exH 3) exMaskV exPlanM.hdr exPlanM.val exJobM.default.toQ row col = filled 7 (-9999) (exPlanM.val row col) :=
    fun row col a b x y h => maskedVal_at (by decide) (hval row col a b x (by omega) h) (hcell row col a b x y)
  have h00 := hmv 0 0 (by decide) (by decide) (by decide) (by decide) (by decide +kernel)
  have h11 := hmv 1 1 (by decide) (by decide) (by decide) (by decide) (by decide +kernel)
  have hb : ∀ k row col, 0 ≤ row → row < 2 → 0 ≤ col → col < 3 → floatEqual (exMaskV row col) (-9999) = false → truncQ (exMaskV row col) = k →
      byValue (exH 3) exMaskV k row col := fun k row col a b x y h t => ⟨hval row col a b x y h, t⟩
  have b00 := hb 1 0 0 (by decide) (by decide) (by decide) (by decide) (by decide +kernel) (by decide +kernel)
  have b02 := hb 1 0 2 (by decide) (by decide) (by decide) (by decide) (by decide +kernel) (by decide +kernel)
  have b11 := hb 2 1 1 (by decide) (by decide) (by decide) (by decide) (by decide +kernel) (by decide +kernel)
  have f00 : floatEqual (maskedVal (exH 3) exMaskV exPlanM.hdr exPlanM.val exJobM.default.toQ 0 0) exPlanM.hdr.noData = false := by rw [h00]; decide +kernel
  have f11 : floatEqual (maskedVal (exH 3) exMaskV exPlanM.hdr exPlanM.val exJobM.default.toQ 1 1) exPlanM.hdr.noData = false := by rw [h11]; decide +kernel
  have g00 : maskGroups exJobM (exH 3) exMaskV exPlanM.hdr exPlanM.val 1 0 0 := ⟨b00, 0, 0, b00, f00⟩
  have g02 : maskGroups exJobM (exH 3) exMaskV exPlanM.hdr exPlanM.val 1 0 2 := ⟨b02, 0, 0, b00, f00⟩
  have g11 : maskGroups exJobM (exH 3) exMaskV exPlanM.hdr exPlanM.val 2 1 1 := ⟨b11, 1, 1, b11, f11⟩
  have n01 : ¬ ∃ k, maskGroups exJobM (exH 3) exMaskV exPlanM.hdr exPlanM.val k 0 1 := by
    rintro ⟨k, ⟨⟨-, h⟩, -⟩, -⟩
    revert h
    decide +kernel
  have hhdr : (groupsView (exH 3) exMaskV exJobM exPlanM.head).hdr = { exH 3 with noData := -1 } := rfl
  obtain ⟨w, w1, w2⟩ := hB.all (.inr rfl) ⟨1, 0, 0, g00⟩ 1 (by decide)
  have hname : outFile exPlanM.dt exPlanM.core exPlanM.suf exPlanM.m 0 1 = "/0_o_2.tif".toList := by decide +kernel
  rw [hname, hhdr] at w1
  refine ⟨w, w1, ?_, ?_, ?_⟩
  · obtain ⟨x, ⟨y, y1, rfl⟩, x2⟩ := (w2 0 0 (hin 0 0 (by decide) (by decide) (by decide) (by decide))).1 ⟨1, g00⟩
    rw [x2, (y1.2 0 (by decide) rfl).taken b00.1 0 0 (hcell 0 0 (by decide) (by decide) (by decide) (by decide))]
    decide +kernel
  · rw [(w2 0 1 (hin 0 1 (by decide) (by decide) (by decide) (by decide))).2 n01]
    decide +kernel
  · obtain ⟨x, ⟨y, y1, rfl⟩, x2⟩ := (w2 1 1 (hin 1 1 (by decide) (by decide) (by decide) (by decide))).1 ⟨2, g11⟩
    rw [x2, (y1.2 0 (by decide) rfl).taken b11.1 1 1 (hcell 1 1 (by decide) (by decide) (by decide) (by decide))]
    decide +kernel

end App
end CCGL
