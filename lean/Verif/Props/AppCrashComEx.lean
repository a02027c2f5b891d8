import Verif.Props.AppCrashCom
import Verif.Props.AppCrashEx
/-!
# Example: a run in the mode COM is stopped while it writes (C101)
-/
namespace CCGL
namespace App
open Fs Disk Main Raster Disk.Spec App.Spec

/-- The disk of the example of the mode COM with a file "/0_o.tif" that does not hold a raster. -/
def exComTorn : Disk where
  fs := { exComDisk.fs with entries := exComDisk.fs.entries ++ [(["0_o.tif".toList], .file)] }
  data := exComDisk.data

theorem exComTorn_same (q : Path) (h : q ≠ ["0_o.tif".toList]) : exComTorn.fs.kindOf q = exComDisk.fs.kindOf q := by
  show (if q = [] then _ else _) = (if q = [] then _ else _)
  rw [show exComTorn.fs.entries = exComDisk.fs.entries ++ [(["0_o.tif".toList], .file)] from rfl, exTorn_kind _ _ _ _ h.symm]

theorem exComTorn_only {T : Path → Prop} (h : T ["0_o.tif".toList]) : OnlyAt exComDisk exComTorn T := by
  refine ⟨⟨by decide +kernel, by decide +kernel, by unfold Fs.Spec.GoodName; decide +kernel, by decide +kernel⟩, rfl, rfl, fun q => ?_,
    fun q hq => ⟨exComTorn_same q ?_, rfl⟩⟩
  · by_cases hq : q = ["0_o.tif".toList]
    · subst hq
      decide +kernel
    · rw [exComTorn_same q hq]
  · rintro rfl
    exact hq h

/-- The run of the example in AppCom is stopped while it writes the output, which is left behind without a raster in it; the same command, started again, puts the
pieces together. -/
example : ∃ c, configure (exComWorld exComText) exComArgs = .ok (.go c) ∧ StoppedCom exSys c [(exComJob, exComPlan)] exComDisk exComTorn [] ∧
    decode exComTorn "/0_o.tif".toList = .ok none ∧
    ∃ d', run exSys (exComWorld exComText) exComTorn exComArgs = .ok (0, d') ∧ ∃ v, ReadsAs d' "/0_o.tif".toList (exComH 2 3) v ∧ v 0 0 = 5 ∧ v 0 1 = 4 := by
  have hcfg : (configure (exComWorld exComText) exComArgs).bind (fun | .exit _ => .ub | .go c => .ok (c.mode, c.maskFmt, c.maskPath)) =
      .ok (.com, .sfile, "/m.tif".toList) := by decide +kernel
  obtain ⟨c, h1, h2⟩ := jobsOf_go exCom_jobs
  rw [h1] at hcfg
  have hcfg' : (c.mode, c.maskFmt, c.maskPath) = (IOMode.com, DataFmt.sfile, "/m.tif".toList) := Out.ok.inj hcfg
  injection hcfg' with q1 q2
  injection q2 with q2 q3
  have hmask : RasterFile exComDisk c.maskPath (exComH 2 3) exComM := by rw [q3]; exact exCom_m
  have hv : ∃ row col, HasValue (exComH 2 3) exComM row col := ⟨0, 0, exCom_00.1⟩
  have hany : exComPlan.Any := ⟨("/1_x.tif".toList, ["1_x.tif".toList], some (1, exW1)), by unfold exComPlan; simp only [List.mem_cons, true_or], by simp⟩
  have hT : ComTarget exComPlan ["0_o.tif".toList] := ⟨hany, by decide +kernel⟩
  have hst : StoppedCom exSys c [(exComJob, exComPlan)] exComDisk exComTorn [] := by
    obtain ⟨M, eM, hb, hcl, hg, hn, hvv, hM2, hl, hnc⟩ := mask_file hmask NODATA
    obtain ⟨m, b, eb, hm⟩ := cutMask_of hb hcl hg hn hvv hM2 hv
    refine ⟨m, ⟨_, loadMask_file q2 hmask eM, ?_⟩, _, rfl, exComDisk, m, rfl, exComTorn_only ⟨_, rfl, hT⟩⟩
    unfold prepareMask
    dsimp only
    rw [if_neg (by rw [q1]; simp), eb]
    rfl
  refine ⟨c, h1, hst, by decide +kernel, ?_⟩
  obtain ⟨-, -, d', e, -, hd⟩ := C101_com exSys (xs := [(exComJob, exComPlan)]) exCom_wf h1 h2 q1 q2 hmask hv (qM := ["m.tif".toList]) (by rw [q3]; decide +kernel)
    (by
      intro x hx
      rw [List.mem_singleton.1 hx]
      rintro ⟨-, h⟩
      revert h
      decide +kernel)
    (by
      refine ⟨?_, List.pairwise_singleton _ _⟩
      intro x hx y hy i hi
      rw [List.mem_singleton.1 hx]
      rw [List.mem_singleton.1 hy] at hi
      simp only [exComPlan, List.mem_cons, List.not_mem_nil, or_false] at hi
      rintro ⟨-, h⟩
      rcases hi with rfl | rfl | rfl <;> (revert h; decide +kernel))
    (by
      intro x hx
      rw [List.mem_singleton.1 hx]
      exact exCom_ok) hst
  have h := hd _ (List.mem_singleton.2 rfl) hany
  have hname : exComPlan.dt ++ subsetCore 0 exComPlan.core ++ '.' :: exComPlan.suf = "/0_o.tif".toList := by decide +kernel
  dsimp only at h
  rw [hname] at h
  have hval : ∀ k row col, byValue (exComH 2 3) exComM k row col → comVal (exComH 2 3) exComM exComPlan.pieces exComJob.default.toQ row col =
      match lastPiece exComPlan.pieces k with
      | some w => w row col
      | none => if floatEqual (exComH 2 3).noData 4 = true then (exComH 2 3).noData else 4 := by
    intro k row col hk
    unfold comVal
    rw [if_pos hk.1, hk.2]
    rfl
  exact ⟨d', e, _, h, (hval _ _ _ exCom_00).trans rfl, (hval _ _ _ exCom_01).trans (by decide +kernel)⟩

end App
end CCGL
