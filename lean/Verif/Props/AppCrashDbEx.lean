import Verif.Props.AppCrashDb
import Verif.Props.AppGfsRunEx
/-!
# Example: a run that stores in the bucket is stopped while its first job stores (C101)
-/
namespace CCGL
namespace App
open Fs Disk Main Raster Gfs Disk.Spec App.Spec

/-- A file with the name and the options of the first output and three bytes. -/
def exTornFile : Gfs.File := ⟨storedName "ga".toList, [("DATATYPE_OUT".toList, .utf8 (rdtToString RDT.double.code)), ("INCLUDE_NODATA".toList, .utf8 "TRUE".toList)], [1, 2, 3]⟩

theorem exSeparateDb : SeparateDb .maskdec (fun j p => unitsView j (exH 3) exMaskV p.hdr p.val) [((exDecA, exDb), exDecPlanA), ((exDecB, exDb), exDecPlanB)] := by
  refine ⟨?_, exDec_apart.imp (fun h n hn => (h n hn).1)⟩
  intro x _ y hy hg
  simp only [List.mem_cons, List.not_mem_nil, or_false] at hy
  rcases hy with rfl | rfl <;> cases hg

/-- The run of the example in AppGfsRunEx is stopped while the first job stores its file, of which three bytes are left under the name and the options of the output;
the same command, started again, stores what it would have stored. -/
example (md : MaskDb) : ∃ c, configure (exWorld exDbText) (exDbArgs "/m.tif") = .ok (.go c) ∧
    StoppedDb exSys md exRunDisk c (fun j p => unitsView j (exH 3) exMaskV p.hdr p.val) [((exDecA, exDb), exDecPlanA), ((exDecB, exDb), exDecPlanB)] [] [exTornFile] [] ∧
    CCGL.Spec.Has exTornFile ⟨storedName "ga".toList, wholeOpts .double⟩ ∧
    ∃ st', runDb exSys (exWorld exDbText) md (fun _ => exDb) exRunDisk [exTornFile] (exDbArgs "/m.tif") = .ok (0, exRunDisk, st') ∧
      DbDone exSys.rnd st' .maskdec exDecA (unitsView exDecA (exH 3) exMaskV (exH 2) exPlanA.val) (jobFill exDecA (exH 2)) 1 ∧
      ∃ w, HoldsLayers exSys.rnd st' "0_gb".toList (wholeOpts .double) { exH 3 with noData := -1 } 1 w ∧ w 0 0 0 = 50 ∧ w 0 0 1 = -1 := by
  have hj : jobsOf (exWorld exDbText) (exDbArgs "/m.tif") = .ok (some [exDecA, exDecB]) := by decide +kernel
  have hcfg : (configure (exWorld exDbText) (exDbArgs "/m.tif")).bind (fun | .exit _ => .ub | .go c => .ok (c.mode, c.maskFmt, c.maskPath, c.useMongo, c.incNodata)) =
      .ok (.maskdec, .sfile, "/m.tif".toList, true, true) := by decide +kernel
  obtain ⟨c, h1, h2⟩ := jobsOf_go hj
  rw [h1] at hcfg
  have hcfg' : (c.mode, c.maskFmt, c.maskPath, c.useMongo, c.incNodata) = (IOMode.maskdec, DataFmt.sfile, "/m.tif".toList, true, true) := Out.ok.inj hcfg
  injection hcfg' with q1 q2
  injection q2 with q2 q3
  injection q3 with q3 q4
  injection q4 with q4 q5
  have v00 := exMask_value 0 0 (by decide) (by decide) (by decide) (by decide) (by decide +kernel)
  have hmask : MaskFrom exSys md exRunDisk [] c (exH 3) exMaskV := .file q2 (by rw [q3]; exact exRun_m)
  have hkey : CCGL.Spec.Has exTornFile ⟨storedName "ga".toList, wholeOpts .double⟩ := by
    refine ⟨rfl, fun k v hk => ?_⟩
    have : (k, v) = ("DATATYPE_OUT".toList, rdtToString RDT.double.code) ∨ (k, v) = ("INCLUDE_NODATA".toList, "TRUE".toList) := by
      simpa [wholeOpts] using hk
    rcases this with h | h
    · injection h with a b
      subst a b
      exact ⟨.utf8 (rdtToString RDT.double.code), by decide +kernel, .inr ⟨CCGL.Gfs.type_not_number (O := .double) (by decide) (by decide +kernel), rfl⟩⟩
    · injection h with a b
      subst a b
      exact ⟨.utf8 "TRUE".toList, by decide +kernel, .inr ⟨not_number_TRUE, rfl⟩⟩
  have hT : DbTargets c.mode exDecA (unitsView exDecA (exH 3) exMaskV (exH 2) exPlanA.val).grp (storedName "ga".toList) := by
    rw [q1]
    exact .inr ⟨.inr rfl, (fun h => by cases h), rfl⟩
  have hst : StoppedDb exSys md exRunDisk c (fun j p => unitsView j (exH 3) exMaskV p.hdr p.val)
      [((exDecA, exDb), exDecPlanA), ((exDecB, exDb), exDecPlanB)] [] [exTornFile] [] := by
    obtain ⟨M, eM, hb, hcl, hg, hn, hval, hM2⟩ := mask_source hmask
    obtain ⟨m, b, eb, hm⟩ := cutMask_of hb hcl hg hn hval hM2 ⟨0, 0, v00⟩
    refine ⟨some m, ⟨_, eM, prepare_cut (by rw [q1]; simp) eb⟩, _, rfl, exRunDisk, [], some m, rfl, fun R hR => ?_⟩
    have hne : storedName "ga".toList ≠ R.name := fun h => hR _ rfl (h ▸ hT)
    unfold CCGL.Spec.filesOf
    rw [List.filter_cons_of_neg (by simpa using fun h => hne h.1)]
  refine ⟨c, h1, hst, hkey, ?_⟩
  have hjobs : ∀ x ∈ [((exDecA, exDb), exDecPlanA), ((exDecB, exDb), exDecPlanB)], (CCGL.Spec.CommonGrid x.2.hdr (exH 3) ∧ Overlaps (exH 3) exMaskV x.2.hdr) ∧
      DecJob exSys exRunDisk [] c.mode false x.1 x.2 (unitsView x.1.1 (exH 3) exMaskV x.2.hdr x.2.val) := by
    intro x hx
    rw [q1]
    simp only [List.mem_cons, List.not_mem_nil, or_false] at hx
    rcases hx with rfl | rfl
    · exact ⟨exRun_overlap _ (by decide +kernel), exDecA_ok _ (fun _ _ f hf => by cases hf)⟩
    · exact ⟨exRun_overlap _ (by decide +kernel), exDecB_ok _ (fun _ _ f hf => by cases hf)⟩
  obtain ⟨-, -, st', e, -, hd⟩ := C101_db_units (sys := exSys) (fun v _ => rfl) (md := md) (md' := md) (dbs := fun _ => exDb) (dbs' := fun _ => exDb) (st := []) h1 h2 q4 q5
    (.inr q1) hmask hmask ex_coords ⟨0, 0, v00⟩ (xs := [((exDecA, exDb), exDecPlanA), ((exDecB, exDb), exDecPlanB)])
    (ys := [((exDecA, exDb), exDecPlanA), ((exDecB, exDb), exDecPlanB)]) rfl rfl rfl (fun h => by rw [q2] at h; cases h) (by rw [q1]; exact exSeparateDb) hjobs
    (fun x hx => (hjobs x hx).2) hst
    (by
      have ho : outOpts .double exDb.own (wholeOpts .double) true = wholeOpts .double := by decide +kernel
      intro x hx name _ f _ hh
      simp only [List.mem_cons, List.not_mem_nil, or_false] at hx
      rcases hx with rfl | rfl
      · exact ho ▸ hh
      · exact ho ▸ hh)
  rw [q1] at hd
  obtain ⟨w, w1, w2, w3, -⟩ := exDecB_cells (hd ((exDecB, exDb), exDecPlanB) (by simp))
  exact ⟨st', e, hd ((exDecA, exDb), exDecPlanA) (by simp), w, w1, w2, w3⟩

end App
end CCGL
