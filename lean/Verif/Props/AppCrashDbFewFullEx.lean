import Verif.Props.AppCrashDbFewFull
import Verif.Props.AppGfsFewReclsLEx
import Verif.Props.AppCrashDbFullEx
/-!
# Example: a run with several input files of a job that stores in the bucket without NoData cells is stopped while its first job stores (C101)
-/
namespace CCGL
namespace App
open Fs Disk Main Raster Gfs Disk.Spec App.Spec

/-- A file with the name and the options of the first output and three bytes. -/
def exTornFewFull : Gfs.File := ⟨storedName "ga".toList, [("DATATYPE_OUT".toList, .utf8 (rdtToString RDT.double.code)), ("INCLUDE_NODATA".toList, .utf8 "FALSE".toList)], [1, 2, 3]⟩

/-- A run of which the second job has two files and no table is stopped while the first job stores its file, of which three bytes are left under the name and the options of the output;
the same command, started again, stores what it would have stored. -/
example (md : MaskDb) : ∃ c, configure (exWorld "/a.tif;ga;;;DOUBLE\n/a.tif,/b.tif;gb;7;-1;DOUBLE\n") exFewDecArgs = .ok (.go c) ∧
    StoppedDbFull exSys md exRunDisk c (fun j p => unitsView j (exH 3) exMaskV p.hdr p.val) [((exDecA, exDb), exFullA), ((exDecS, exDb), exFullM)] [] [exTornFewFull] [] ∧
    CCGL.Spec.Has exTornFewFull ⟨storedName "ga".toList, fewOpts .double⟩ ∧
    ∃ st', runDb exSys (exWorld "/a.tif;ga;;;DOUBLE\n/a.tif,/b.tif;gb;7;-1;DOUBLE\n") md (fun _ => exDb) exRunDisk [exTornFewFull] exFewDecArgs = .ok (0, exRunDisk, st') ∧
      ∃ w, HoldsSome exSys.rnd st' "0_gb".toList (fewOpts .double) { exH 3 with noData := -1 } 2 w (HasValue (exH 3) exMaskV) ∧ w 0 0 0 = 10 ∧ w 1 0 0 = 5 := by
  have hj : jobsOf (exWorld "/a.tif;ga;;;DOUBLE\n/a.tif,/b.tif;gb;7;-1;DOUBLE\n") exFewDecArgs = .ok (some [exDecA, exDecS]) := by decide +kernel
  have hcfg : (configure (exWorld "/a.tif;ga;;;DOUBLE\n/a.tif,/b.tif;gb;7;-1;DOUBLE\n") exFewDecArgs).bind (fun | .exit _ => .ub | .go c => .ok (c.mode, c.maskFmt, c.maskPath, c.useMongo, c.incNodata)) =
      .ok (.maskdec, .sfile, "/m.tif".toList, true, false) := by decide +kernel
  obtain ⟨c, h1, h2⟩ := jobsOf_go hj
  rw [h1] at hcfg
  have hcfg' : (c.mode, c.maskFmt, c.maskPath, c.useMongo, c.incNodata) = (IOMode.maskdec, DataFmt.sfile, "/m.tif".toList, true, false) := Out.ok.inj hcfg
  injection hcfg' with q1 q2
  injection q2 with q2 q3
  injection q3 with q3 q4
  injection q4 with q4 q5
  have v00 := exMask_value 0 0 (by decide) (by decide) (by decide) (by decide) (by decide +kernel)
  have hmask : MaskFrom exSys md exRunDisk [] c (exH 3) exMaskV := .file q2 (by rw [q3]; exact exRun_m)
  have hkey : CCGL.Spec.Has exTornFewFull ⟨storedName "ga".toList, fewOpts .double⟩ := by
    refine ⟨rfl, fun k v hk => ?_⟩
    have : (k, v) = ("DATATYPE_OUT".toList, rdtToString RDT.double.code) ∨ (k, v) = ("INCLUDE_NODATA".toList, "FALSE".toList) := by
      simpa [fewOpts] using hk
    rcases this with h | h
    · injection h with a b
      subst a b
      exact ⟨.utf8 (rdtToString RDT.double.code), by decide +kernel, .inr ⟨CCGL.Gfs.type_not_number (O := .double) (by decide) (by decide +kernel), rfl⟩⟩
    · injection h with a b
      subst a b
      exact ⟨.utf8 "FALSE".toList, by decide +kernel, .inr ⟨not_number_FALSE, rfl⟩⟩
  have hT : DbTargets c.mode exDecA (unitsView exDecA (exH 3) exMaskV (exH 2) exPlanA.val).grp (storedName "ga".toList) := by
    rw [q1]
    exact .inr ⟨.inr rfl, (fun h => by cases h), rfl⟩
  have hst : StoppedDbFull exSys md exRunDisk c (fun j p => unitsView j (exH 3) exMaskV p.hdr p.val)
      [((exDecA, exDb), exFullA), ((exDecS, exDb), exFullM)] [] [exTornFewFull] [] := by
    obtain ⟨M, eM, hb, hcl, hg, hn, hval, hM2⟩ := mask_source hmask
    obtain ⟨m, b, eb, hm⟩ := cutMask_of hb hcl hg hn hval hM2 ⟨0, 0, v00⟩
    refine ⟨some m, ⟨_, eM, prepare_cut (by rw [q1]; simp) eb⟩, _, rfl, exRunDisk, [], some m, rfl, fun R hR => ?_⟩
    have hne : storedName "ga".toList ≠ R.name := fun h => hR _ rfl (h ▸ hT)
    unfold CCGL.Spec.filesOf
    rw [List.filter_cons_of_neg (by simpa using fun h => hne h.1)]
  refine ⟨c, h1, hst, hkey, ?_⟩
  obtain ⟨hg, hov⟩ := exRun_overlap exMaskV (by decide +kernel)
  have hjobs : ∀ x ∈ [((exDecA, exDb), exFullA), ((exDecS, exDb), exFullM)], (CCGL.Spec.CommonGrid x.2.hdr (exH 3) ∧ Overlaps (exH 3) exMaskV x.2.hdr ∧
      ∀ l ∈ x.2.rest, CCGL.Spec.CommonGrid l.hdr (exH 3)) ∧
      FewFullJob exRunDisk [] c.mode x.1 x.2 (unitsView x.1.1 (exH 3) exMaskV x.2.hdr x.2.val) (maskNum x.1.1 (exH 3) exMaskV x.2.hdr x.2.val x.2.rest) := by
    rw [q1]
    intro x hx
    simp only [List.mem_cons, List.not_mem_nil, or_false] at hx
    rcases hx with rfl | rfl
    · exact ⟨⟨hg, hov, fun l hl => by cases hl⟩, exFewA_full⟩
    · refine ⟨⟨hg, hov, ?_⟩, exFewS_full⟩
      intro l hl
      have hl : l ∈ [(⟨"/b.tif".toList, exH 2, exPlanB.val⟩ : LayerFile)] := hl
      rw [List.mem_singleton.1 hl]
      exact hg
  obtain ⟨-, -, st', e, -, hd⟩ := C101_db_few_full_units (sys := exSys) (fun v _ => rfl) (md := md) (md' := md) (dbs := fun _ => exDb) (dbs' := fun _ => exDb) (st := []) h1 h2 q4 q5
    (.inr q1) hmask hmask ex_coords ⟨0, 0, v00⟩ (xs := [((exDecA, exDb), exFullA), ((exDecS, exDb), exFullM)])
    (ys := [((exDecA, exDb), exFullA), ((exDecS, exDb), exFullM)]) rfl rfl rfl (fun h => by rw [q2] at h; cases h) (by rw [q1]; exact exSeparateFull) hjobs
    (fun x hx => (hjobs x hx).2) hst
    (by
      have ho : outOpts .double exDb.own (fewOpts .double) false = fewOpts .double := by decide +kernel
      intro x hx name _ f _ hh
      simp only [List.mem_cons, List.not_mem_nil, or_false] at hx
      rcases hx with rfl | rfl
      · exact ho ▸ hh
      · exact ho ▸ hh)
  rw [q1] at hd
  have hL : DbStackFew exSys.rnd st' .maskdec exDecS (unitsView exDecS (exH 3) exMaskV (exH 2) exPlanA.val) (maskNum exDecS (exH 3) exMaskV (exH 2) exPlanA.val exRestL) 2 (HasValue (exH 3) exMaskV) :=
    (hd ((exDecS, exDb), exFullM) (by simp)).stack (by unfold exFullM exRestL; simp) rfl
  obtain ⟨w, u1, -, u3⟩ := hL
  have hin := exIn 3 0 0 (by decide) (by decide) (by decide) (by decide)
  refine ⟨st', e, w, u3 (.inr rfl), ?_, ?_⟩
  · obtain ⟨y, y1, hy⟩ := u1 0 0 hin 0 (by decide)
    have := (y1.1 rfl).taken v00 0 0 ⟨exIn 2 _ _ (by decide) (by decide) (by decide) (by decide), by decide +kernel⟩
    rw [hy, this]
    decide +kernel
  · obtain ⟨y, y1, hy⟩ := u1 0 0 hin 1 (by decide)
    have := (y1.2 0 (by decide) rfl).taken v00 0 0 ⟨exIn 2 _ _ (by decide) (by decide) (by decide) (by decide), by decide +kernel⟩
    rw [hy, this]
    decide +kernel

end App
end CCGL
