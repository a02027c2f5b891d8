import Verif.Props.AppGfsRun
import Verif.Props.AppGfsDecEx
/-!
# Examples for C91
-/
namespace CCGL
namespace App
open Fs Disk Main Raster Gfs Disk.Spec App.Spec

def exDbText : String := "/a.tif;ga;;;DOUBLE\n/b.tif;gb;7;-1;DOUBLE;5:50,8:80\n"
def exDbArgs (mask : String) : List Str := ["-mode".toList, "maskdec".toList, "-mask".toList, mask.toList, "-mongo".toList, "localhost".toList,
  "27017".toList, "db".toList, "g".toList, "-configfile".toList, "/c.txt".toList]

/-- A run in the mode MASKDEC that writes to the bucket, for any place of the mask and any bucket without files with the names of the outputs. -/
theorem exDb_run {mask : String} {fmt : DataFmt} {md : MaskDb} {st : Store}
    (hj : jobsOf (exWorld exDbText) (exDbArgs mask) = .ok (some [exDecA, exDecB]))
    (hcfg : (configure (exWorld exDbText) (exDbArgs mask)).bind (fun | .exit _ => .ub | .go c => .ok (c.mode, c.maskFmt, c.maskPath, c.useMongo, c.incNodata)) =
      .ok (.maskdec, fmt, mask.toList, true, true))
    (hm : ∀ c : Cfg, c.maskFmt = fmt → c.maskPath = mask.toList → c.useMongo = true → MaskFrom exSys md exRunDisk st c (exH 3) exMaskV)
    (holdA : ∀ name, name.getLast? = "ga".toList.getLast? → ∀ f ∈ st, ¬ CCGL.Spec.Has f ⟨name, wholeOpts .double⟩)
    (holdB : ∀ name, name.getLast? = "gb".toList.getLast? → ∀ f ∈ st, ¬ CCGL.Spec.Has f ⟨name, wholeOpts .double⟩) :
    ∃ st', runDb exSys (exWorld exDbText) md (fun _ => exDb) exRunDisk st (exDbArgs mask) = .ok (0, exRunDisk, st') ∧
    ∃ w, HoldsLayers exSys.rnd st' "0_gb".toList (wholeOpts .double) { exH 3 with noData := -1 } 1 w ∧
      w 0 0 0 = 50 ∧ w 0 0 1 = -1 ∧ w 0 1 1 = 80 ∧ w 0 1 0 = 7 ∧ w 0 0 2 = 7 := by
  obtain ⟨c, h1, h2⟩ := jobsOf_go hj
  rw [h1] at hcfg
  have hcfg' : (c.mode, c.maskFmt, c.maskPath, c.useMongo, c.incNodata) = (IOMode.maskdec, fmt, mask.toList, true, true) := Out.ok.inj hcfg
  injection hcfg' with q1 q2
  injection q2 with q2 q3
  injection q3 with q3 q4
  injection q4 with q4 q5
  have v00 := exMask_value 0 0 (by decide) (by decide) (by decide) (by decide) (by decide +kernel)
  obtain ⟨st', e, -, hd⟩ := C91_units_run_partial (sys := exSys) (fun v _ => rfl) (md := md) (dbs := fun _ => exDb) (st := st) h1 h2 q4 q5 (.inr q1)
    (hm c q2 q3 q4) ex_coords ⟨0, 0, v00⟩ (xs := [((exDecA, exDb), exDecPlanA), ((exDecB, exDb), exDecPlanB)]) rfl
    (by rw [q1]; exact exDec_apart)
    (by
      rw [q1]
      intro x hx
      simp only [List.mem_cons, List.not_mem_nil, or_false] at hx
      rcases hx with rfl | rfl
      · exact ⟨exRun_overlap _ (by decide +kernel), exDecA_ok _ holdA⟩
      · exact ⟨exRun_overlap _ (by decide +kernel), exDecB_ok _ holdB⟩)
  rw [q1] at hd
  exact ⟨st', e, exDecB_cells (hd ((exDecB, exDb), exDecPlanB) (by simp))⟩

/-- The mask in a file. -/
example (md : MaskDb) : ∃ st', runDb exSys (exWorld exDbText) md (fun _ => exDb) exRunDisk [] (exDbArgs "/m.tif") = .ok (0, exRunDisk, st') ∧
    ∃ w, HoldsLayers exSys.rnd st' "0_gb".toList (wholeOpts .double) { exH 3 with noData := -1 } 1 w ∧
      w 0 0 0 = 50 ∧ w 0 0 1 = -1 ∧ w 0 1 1 = 80 ∧ w 0 1 0 = 7 ∧ w 0 0 2 = 7 :=
  exDb_run (fmt := .sfile) (by decide +kernel) (by decide +kernel) (fun c h1 h2 _ => .file h1 (by rw [h2]; exact exRun_m))
    (fun _ _ f hf => by cases hf) (fun _ _ f hf => by cases hf)

/-- The mask in the bucket, but not there. -/
example (md : MaskDb) : runDb exSys (exWorld exDbText) md (fun _ => exDb) exRunDisk [] (exDbArgs "0_m") = .ok (3, exRunDisk, []) := by
  have hj : jobsOf (exWorld exDbText) (exDbArgs "0_m") = .ok (some [exDecA, exDecB]) := by decide +kernel
  have hcfg : (configure (exWorld exDbText) (exDbArgs "0_m")).bind (fun | .exit _ => .ub | .go c => .ok (c.mode, c.maskFmt, c.maskPath, c.useMongo, c.incNodata)) =
      .ok (.maskdec, .gfs, "0_m".toList, true, true) := by decide +kernel
  obtain ⟨c, h1, h2⟩ := jobsOf_go hj
  rw [h1] at hcfg
  have hcfg' : (c.mode, c.maskFmt, c.maskPath, c.useMongo, c.incNodata) = (IOMode.maskdec, DataFmt.gfs, "0_m".toList, true, true) := Out.ok.inj hcfg
  injection hcfg' with q1 q2
  injection q2 with q2 q3
  injection q3 with q3 q4
  injection q4 with q4 q5
  exact C91_no_mask h1 h2 q2 q4 (by rw [q3]; decide) (by rw [q3]; decide) (fun f hf => by cases hf)

/-- The mask in the bucket, where the library has stored it before. -/
example : ∃ r st o, outputToMongo exSys.rnd .double exDb.rm exDb.att [] r exDb.own exDb.core "0_m".toList (jobOpts true .double) true = .ok (r, o, st, true) ∧
    Shows r (exH 3) exMaskV ∧
    ∃ st', runDb exSys (exWorld exDbText) ⟨fun _ => true, fun _ => true, true⟩ (fun _ => exDb) exRunDisk st (exDbArgs "0_m") = .ok (0, exRunDisk, st') ∧
    ∃ w, HoldsLayers exSys.rnd st' "0_gb".toList (wholeOpts .double) { exH 3 with noData := -1 } 1 w ∧
      w 0 0 0 = 50 ∧ w 0 0 1 = -1 ∧ w 0 1 1 = 80 ∧ w 0 1 0 = 7 ∧ w 0 0 2 = 7 := by
  obtain ⟨M, eM, hb, hcl, hg, hn, hval, h2, hl, hnc⟩ := mask_file exRun_m NODATA
  have hs : Shows M (exH 3) exMaskV := ⟨hb, hnc, h2, hl, hg, hn, hval⟩
  obtain ⟨M', e, hn', -⟩ := shows_rename hs false 0
  have : M = M' := Out.ok.inj e
  subst this
  have hk : CCGL.Spec.GoodKey ⟨storedName "m".toList, outOpts .double [] (wholeOpts .double) true⟩ := by
    have h1 : CCGL.Spec.withType .double (outOpts .double [] (wholeOpts .double) true) = outOpts .double [] (wholeOpts .double) true := by
      rw [← curOpts_eq]; decide +kernel
    rw [← h1]
    exact goodKey_of (by decide +kernel)
  obtain ⟨st, o, e1, e2, e3⟩ := C91_store_mask (rnd := exSys.rnd) (fun v _ => rfl) (st := []) (j := { exDecA with out := "m".toList }) (jd := exDb) hs hn'
    ⟨hk, ex_whole rfl, ⟨by decide, by decide, by decide⟩, fun _ => rfl, fun _ => .inl ⟨rfl, rfl⟩, by simp⟩
    (by
      rintro row col ⟨a, b, c, e⟩
      have b' : row < 2 := b
      have e' : col < 3 := e
      have hr : row = 0 ∨ row = 1 := by omega
      have hc : col = 0 ∨ col = 1 ∨ col = 2 := by omega
      rcases hr with rfl | rfl <;> rcases hc with rfl | rfl | rfl
      · exact (by decide +kernel : ((1 : Int) : ℚ) = exMaskV 0 0) ▸ ex_fits 1 (by decide)
      · exact (by decide +kernel : ((-9999 : Int) : ℚ) = exMaskV 0 1) ▸ ex_fits (-9999) (by decide)
      · exact (by decide +kernel : ((1 : Int) : ℚ) = exMaskV 0 2) ▸ ex_fits 1 (by decide)
      · exact (by decide +kernel : ((2 : Int) : ℚ) = exMaskV 1 0) ▸ ex_fits 2 (by decide)
      · exact (by decide +kernel : ((2 : Int) : ℚ) = exMaskV 1 1) ▸ ex_fits 2 (by decide)
      · exact (by decide +kernel : ((-9999 : Int) : ℚ) = exMaskV 1 2) ▸ ex_fits (-9999) (by decide))
    (by simp) ⟨0, by decide, rfl⟩
  have hold : ∀ x : Option Char, x ≠ "m".toList.getLast? → ∀ name : Str, name.getLast? = x → ∀ f ∈ st, ¬ CCGL.Spec.Has f ⟨name, wholeOpts .double⟩ := by
    intro x hx name hname f hf hh
    have := e3 ⟨name, wholeOpts .double⟩ (by
      intro h
      apply hx
      rw [← hname]
      show name.getLast? = _
      have h' : name = storedName "m".toList := h
      rw [h']
      decide +kernel)
    have hmem := (mem_filesOf (st := st)).2 ⟨hf, hh⟩
    rw [this] at hmem
    cases hmem
  refine ⟨M, st, o, e1, hs, exDb_run (fmt := .gfs) (by decide +kernel) (by decide +kernel)
    (fun c h1 h2 h3 => .bucket h1 h3 (by rw [h2]; decide) (by rw [h2]; exact e2) ⟨0, by decide, rfl⟩ ⟨0, by decide, rfl⟩ rfl)
    (hold _ (by decide)) (hold _ (by decide))⟩

end App
end CCGL
