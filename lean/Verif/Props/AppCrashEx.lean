import Verif.Props.AppCrash
/-!
# Example: a run in the mode MASKDEC is stopped while its first job writes (C101)
-/
namespace CCGL
namespace App
open Fs Disk Main Raster Disk.Spec App.Spec

/-- The disk of the examples with a file "/a_masked.tif" that does not hold a raster. -/
def exTorn : Disk where
  fs := { exRunDisk.fs with entries := exRunDisk.fs.entries ++ [(["a_masked.tif".toList], .file)] }
  data := exRunDisk.data

theorem exTorn_kind (es : List (Path × Kind)) (p q : Path) (k : Kind) (h : p ≠ q) :
    (es ++ [(p, k)]).find? (fun e => decide (e.1 = q)) = es.find? (fun e => decide (e.1 = q)) := by
  rw [List.find?_append, List.find?_cons_of_neg (by simpa using h)]
  simp

theorem exTorn_same (q : Path) (h : q ≠ ["a_masked.tif".toList]) : exTorn.fs.kindOf q = exRunDisk.fs.kindOf q := by
  show (if q = [] then _ else _) = (if q = [] then _ else _)
  rw [show exTorn.fs.entries = exRunDisk.fs.entries ++ [(["a_masked.tif".toList], .file)] from rfl, exTorn_kind _ _ _ _ h.symm]

/-- What is no output of the second job. -/
theorem exNotO (x : Str) (hx : x.reverse.getD 4 ' ' ≠ 'o') (k : Int) (l : Nat) : [x] ≠ outPath [] "o".toList "tif".toList 1 k l := by
  intro h
  unfold outPath layerCore subsetCore at h
  rw [if_pos rfl] at h
  have h := congrArg (fun x : Path => (x.map List.reverse).map (fun s => s.getD 4 ' ')) h
  simp only [List.nil_append, List.map_cons, List.map_nil, List.reverse_append, List.reverse_cons] at h
  revert h
  simpa using hx

theorem exTorn_only {T : Path → Prop} (h : T ["a_masked.tif".toList]) : OnlyAt exRunDisk exTorn T := by
  refine ⟨⟨by decide +kernel, by decide +kernel, by unfold Fs.Spec.GoodName; decide +kernel, by decide +kernel⟩, rfl, rfl, fun q => ?_, fun q hq => ⟨exTorn_same q ?_, rfl⟩⟩
  · by_cases hq : q = ["a_masked.tif".toList]
    · subst hq
      decide +kernel
    · rw [exTorn_same q hq]
  · rintro rfl
    exact hq h

theorem exSeparate : Separate .maskdec (groupsView (exH 3) exMaskV) [(exJobA, exPlanA), (exJobB, exPlanB)] := by
  have hb : ∀ q : Path, (∀ k l, q ≠ outPath [] "o".toList "tif".toList 1 k l) → ¬ JobTargets .maskdec (groupsView (exH 3) exMaskV exJobB exPlanB) exJobB exPlanB q := by
    rintro q hq (⟨-, ⟨-, k, l, -, -, h⟩ | ⟨-, -, l, -, h⟩⟩ | ⟨h, -⟩)
    · exact hq k l h
    · exact hq 0 l h
    · cases h
  refine ⟨?_, ?_⟩
  · intro x hx y hy
    simp only [List.mem_cons, List.not_mem_nil, or_false] at hx hy
    rcases hx with rfl | rfl
    · rcases hy with rfl | rfl <;> (rintro (⟨h, -⟩ | ⟨-, -, h⟩) <;> [cases h; (revert h; decide +kernel)])
    · rcases hy with rfl | rfl
      · exact hb _ (exNotO _ (by decide +kernel))
      · exact hb _ (exNotO _ (by decide +kernel))
  · simp only [List.pairwise_cons, List.mem_cons, List.not_mem_nil, or_false, forall_eq]
    refine ⟨?_, fun _ h => h.elim, .nil⟩
    rintro q (⟨h, -⟩ | ⟨-, -, rfl⟩)
    · cases h
    · exact hb _ exNames

/-- The run of the example in AppRunAll is stopped while the first job writes its file, which is left behind without a raster in it. Nothing else has changed, and
the same command, started again, leaves the rasters of both jobs. -/
example : ∃ c, configure (exWorld exReclsText) exReclsArgs = .ok (.go c) ∧ Stopped exSys c (groupsView (exH 3) exMaskV) [(exJobA, exPlanA), (exJobB, exPlanB)] exRunDisk exTorn [] ∧
    decode exTorn "/a_masked.tif".toList = .ok none ∧
    ∃ d', run exSys (exWorld exReclsText) exTorn exReclsArgs = .ok (0, d') ∧
      (∃ v, ReadsAs d' "/a_masked.tif".toList { exH 3 with noData := -9999 } v ∧ v 0 0 = 10 ∧ v 0 2 = -9999) ∧
      JobDone d' .maskdec (groupsView (exH 3) exMaskV exJobB exPlanB) exJobB exPlanB := by
  have hcfg : (configure (exWorld exReclsText) exReclsArgs).bind (fun | .exit _ => .ub | .go c => .ok (c.mode, c.maskFmt, c.maskPath)) =
      .ok (.maskdec, .sfile, "/m.tif".toList) := by decide +kernel
  obtain ⟨c, h1, h2⟩ := jobsOf_go exRecls_jobs
  rw [h1] at hcfg
  have hcfg' : (c.mode, c.maskFmt, c.maskPath) = (IOMode.maskdec, DataFmt.sfile, "/m.tif".toList) := Out.ok.inj hcfg
  injection hcfg' with q1 q2
  injection q2 with q2 q3
  have hin : ∀ row col, 0 ≤ row → row < 2 → 0 ≤ col → col < 3 → (exH 3).grid.CellInside row col := fun row col a b x y => exIn 3 row col a b x y
  have hval : ∀ row col, 0 ≤ row → row < 2 → 0 ≤ col → col < 3 → floatEqual (exMaskV row col) (-9999) = false → HasValue (exH 3) exMaskV row col :=
    fun row col a b x y h => ⟨hin row col a b x y, h⟩
  have hv : ∃ row col, HasValue (exH 3) exMaskV row col := ⟨0, 0, hval 0 0 (by decide) (by decide) (by decide) (by decide) (by decide +kernel)⟩
  have hmask : RasterFile exRunDisk c.maskPath (exH 3) exMaskV := by rw [q3]; exact exRun_m
  have hT : JobTargets c.mode (groupsView (exH 3) exMaskV exJobA exPlanA) exJobA exPlanA ["a_masked.tif".toList] := by
    rw [q1]
    exact .inr ⟨rfl, .inr rfl, rfl⟩
  have hst : Stopped exSys c (groupsView (exH 3) exMaskV) [(exJobA, exPlanA), (exJobB, exPlanB)] exRunDisk exTorn [] := by
    obtain ⟨M, eM, hb, hcl, hg, hn, hvv, hM2, hl, hnc⟩ := mask_file hmask NODATA
    obtain ⟨m, b, eb, hm⟩ := cutMask_of hb hcl hg hn hvv hM2 hv
    refine ⟨some m, ⟨_, loadMask_file q2 hmask eM, ?_⟩, _, rfl, exRunDisk, some m, rfl, exTorn_only ⟨_, rfl, hT⟩⟩
    unfold prepareMask
    dsimp only
    rw [if_neg (by rw [q1]; simp), eb]
    rfl
  refine ⟨c, h1, hst, by decide +kernel, ?_⟩
  obtain ⟨-, -, d', e, -, hd⟩ := C101_groups exSys (xs := [(exJobA, exPlanA), (exJobB, exPlanB)]) exRun_wf h1 h2 (.inr q1) q2 hmask
    (vM := exMaskV) (by
      refine ⟨by decide +kernel, ?_, ?_⟩
      · intro col a b
        have : col = 0 ∨ col = 1 ∨ col = 2 := by have : col < 3 := b; omega
        rcases this with rfl | rfl | rfl <;> decide +kernel
      · intro row a b
        have : row = 0 ∨ row = 1 := by have : row < 2 := b; omega
        rcases this with rfl | rfl <;> decide +kernel) hv (qM := ["m.tif".toList]) (by rw [q3]; decide +kernel)
    (by
      intro x hx
      simp only [List.mem_cons, List.not_mem_nil, or_false] at hx
      rw [q1]
      rcases hx with rfl | rfl
      · rintro (⟨h, -⟩ | ⟨-, -, h⟩) <;> [cases h; (revert h; decide +kernel)]
      · rintro (⟨-, ⟨-, k, l, -, -, h⟩ | ⟨-, -, l, -, h⟩⟩ | ⟨h, -⟩)
        · exact exNotO _ (by decide +kernel) k l h
        · exact exNotO _ (by decide +kernel) 0 l h
        · cases h) (by rw [q1]; exact exSeparate)
    (by
      intro x hx
      simp only [List.mem_cons, List.not_mem_nil, or_false] at hx
      rcases hx with rfl | rfl
      · exact ⟨exRun_overlap _ (by decide +kernel), exJobA_ok _ ⟨by decide, by decide⟩ _⟩
      · exact ⟨exRun_overlap _ (by decide +kernel), exJobB_ok _ ⟨by decide, by decide⟩ _⟩) hst
  refine ⟨d', e, ?_, ?_⟩
  · have hA := (hd (exJobA, exPlanA) (by simp)).whole rfl
    rw [q1] at hA
    have h00 : maskedVal (exH 3) exMaskV exPlanA.hdr exPlanA.val exJobA.default.toQ 0 0 = filled (-9999) (-9999) (exPlanA.val 0 0) :=
      maskedVal_at (by decide) (hval 0 0 (by decide) (by decide) (by decide) (by decide) (by decide +kernel)) ⟨exIn 2 0 0 (by decide) (by decide) (by decide) (by decide), rfl⟩
    have h02 : maskedVal (exH 3) exMaskV exPlanA.hdr exPlanA.val exJobA.default.toQ 0 2 = -9999 := maskedVal_none (.inr (by
      rintro ⟨i, j, h3, h4⟩
      have h5 : 0 ≤ i ∧ i < 2 ∧ 0 ≤ j ∧ j < 2 := h3
      have hj : j = 0 ∨ j = 1 := by omega
      have hi : i = 0 ∨ i = 1 := by omega
      rcases hi with rfl | rfl <;> rcases hj with rfl | rfl <;> revert h4 <;> decide +kernel))
    have hv' : ∀ row col x, maskedVal (exH 3) exMaskV exPlanA.hdr exPlanA.val exJobA.default.toQ row col = x →
        (groupsView (exH 3) exMaskV exJobA exPlanA).val row col = renamed false (-9999) (-9999) x := by
      intro row col x h
      rw [← h]
      rfl
    refine ⟨_, hA (.inr rfl), ?_, ?_⟩
    · rw [hv' 0 0 _ h00]
      decide +kernel
    · rw [hv' 0 2 _ h02]
      decide +kernel
  · have := hd (exJobB, exPlanB) (by simp)
    rw [q1] at this
    exact this

end App
end CCGL
