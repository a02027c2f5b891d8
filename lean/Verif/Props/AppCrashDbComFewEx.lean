import Verif.Props.AppCrashDbComFew
import Verif.Props.AppCrashDbComEx
import Verif.Props.AppGfsFewDecEx
import Verif.Props.AppGfsFewEx
/-!
# Example: a run in the mode COM with output to the bucket and without NoData cells is stopped while it stores (C101)
-/
namespace CCGL
namespace App
open Fs Disk Main Raster Gfs Disk.Spec App.Spec

def exComFewArgs : List Str := ["-mode".toList, "com".toList, "-mask".toList, "/m.tif".toList, "-mongo".toList, "localhost".toList, "27017".toList, "db".toList,
  "g".toList, "-include_nodata".toList, "0".toList, "-configfile".toList, "/c.txt".toList]

/-- A file with the name and the options of the output and three bytes. -/
def exComTornFew : Gfs.File := ⟨storedName "x".toList, [("DATATYPE_OUT".toList, .utf8 (rdtToString RDT.double.code)), ("INCLUDE_NODATA".toList, .utf8 "FALSE".toList)], [1, 2, 3]⟩

theorem exComToFew_jobs : jobsOf exComDbWorld exComFewArgs = .ok (some [exComToDb]) := by decide +kernel

theorem exComToFew_cfg : (configure exComDbWorld exComFewArgs).bind (fun | .exit _ => .ub | .go c => .ok (c.mode, c.maskFmt, c.maskPath, c.useMongo, c.incNodata)) =
    .ok (.com, .sfile, "/m.tif".toList, true, false) := by decide +kernel

theorem exComToFew_ok : ComFewJob exSys exComDisk [] (exComH 2 3) exComM (exComToDb, exDb) exComPlan.pieces := by
  obtain ⟨d00, d01, d02, d10, d11, v12⟩ := exComToDb_vals
  refine ⟨⟨rfl, by decide⟩, .files exComPlan.ins rfl rfl exCom_ok.gives rfl, ⟨some (1, exW1), by unfold ComPlan.pieces exComPlan; simp, by simp⟩,
    ⟨ex_few_key, exComDb_storable 2 3 6 (by decide) (by decide) (by decide) (by decide) (by decide) (by decide), ⟨by decide, by decide, by decide⟩, fun _ => rfl,
      fun _ => .inl ⟨rfl, rfl⟩, fun f hf => by cases hf⟩, ?_⟩
  intro row col hc
  obtain ⟨a1, a2, a3, a4⟩ := hc.1
  have a2 : row < 2 := a2
  have a4 : col < 3 := a4
  have er : row = 0 ∨ row = 1 := by omega
  have ec : col = 0 ∨ col = 1 ∨ col = 2 := by omega
  show Fits .double _
  rcases er with rfl | rfl <;> rcases ec with rfl | rfl | rfl
  · rw [d00]; exact ex_fits 5 (by decide)
  · rw [d01]; exact ex_fits 4 (by decide)
  · rw [d02]; exact ex_fits 6 (by decide)
  · rw [d10]; exact ex_fits 7 (by decide)
  · rw [d11]; exact ex_fits 8 (by decide)
  · rw [v12]; exact_mod_cast ex_fits (-9999) (by decide)

/-- The run is stopped while the job stores its file, of which three bytes are left; the same command, started again, puts the pieces together. -/
example (md : MaskDb) : ∃ c, configure exComDbWorld exComFewArgs = .ok (.go c) ∧
    StoppedDbComFew exSys md exComDisk c [(exComToDb, exDb)] [] [exComTornFew] [] ∧
    CCGL.Spec.Has exComTornFew ⟨storedName "x".toList, fewOpts .double⟩ ∧
    ∃ st', runDb exSys exComDbWorld md (fun _ => exDb) exComDisk [exComTornFew] exComFewArgs = .ok (0, exComDisk, st') ∧
      ∃ v, HoldsCells exSys.rnd st' "0_x".toList (fewOpts .double) (exComH 2 3) v (HasValue (exComH 2 3) exComM) ∧ v 0 0 = 5 ∧ v 0 1 = 4 ∧ v 1 1 = 8 := by
  obtain ⟨c, h1, h2⟩ := jobsOf_go exComToFew_jobs
  have hcfg := exComToFew_cfg
  rw [h1] at hcfg
  have hcfg' : (c.mode, c.maskFmt, c.maskPath, c.useMongo, c.incNodata) = (IOMode.com, DataFmt.sfile, "/m.tif".toList, true, false) := Out.ok.inj hcfg
  injection hcfg' with q1 q2
  injection q2 with q2 q3
  injection q3 with q3 q4
  injection q4 with q4 q5
  have hv : ∃ row col, HasValue (exComH 2 3) exComM row col := ⟨0, 0, exCom_00.1⟩
  have hmask : MaskFrom exSys md exComDisk [] c (exComH 2 3) exComM := .file q2 (by rw [q3]; exact exCom_m)
  have hkey : CCGL.Spec.Has exComTornFew ⟨storedName "x".toList, fewOpts .double⟩ := by
    refine ⟨rfl, fun k v hk => ?_⟩
    have : (k, v) = ("DATATYPE_OUT".toList, rdtToString RDT.double.code) ∨ (k, v) = ("INCLUDE_NODATA".toList, "FALSE".toList) := by
      simpa [fewOpts] using hk
    rcases this with h | h
    · injection h with a b
      subst a b
      exact ⟨.utf8 (rdtToString RDT.double.code), by decide +kernel, .inr ⟨CCGL.Gfs.type_not_number (O := .double) (by decide) (by decide +kernel), rfl⟩⟩
    · injection h with a b
      subst a b
      exact ⟨.utf8 "FALSE".toList, by decide +kernel, .inr ⟨not_number_FALSE, rfl⟩⟩
  have hst : StoppedDbComFew exSys md exComDisk c [(exComToDb, exDb)] [] [exComTornFew] [] := by
    obtain ⟨M, eM, hb, hcl, hg, hn, hval, hM2⟩ := mask_source hmask
    obtain ⟨m, b, eb, hm⟩ := cutMask_of hb hcl hg hn hval hM2 hv
    refine ⟨m, ⟨_, eM, prepare_cut (by rw [q1]; simp) eb⟩, _, rfl, [], m, rfl, fun R hR => ?_⟩
    have hne : storedName "x".toList ≠ R.name := fun h => hR _ rfl h.symm
    unfold CCGL.Spec.filesOf
    rw [List.filter_cons_of_neg (by simpa using fun h => hne h.1)]
  refine ⟨c, h1, hst, hkey, ?_⟩
  have hj : List.Forall₂ (ComFewJob exSys exComDisk [] (exComH 2 3) exComM) (withDb (fun _ => exDb) [exComToDb]) [exComPlan.pieces] := .cons exComToFew_ok .nil
  obtain ⟨-, -, st', e, -, hd⟩ := C101_db_com_few (sys := exSys) (fun v _ => rfl) (md := md) (md' := md) (dbs := fun _ => exDb) (dbs' := fun _ => exDb) (st := []) h1 h2 q4 q5
    q1 hmask hmask hv (fun h => by rw [q2] at h; cases h) (by
      refine ⟨?_, List.pairwise_singleton _ _⟩
      intro a _ b hb hg
      rw [List.mem_singleton.1 hb] at hg
      cases hg) hj hj hst (by
      have ho : outOpts .double exDb.own (fewOpts .double) false = fewOpts .double := by decide +kernel
      intro x hx f _ hh
      have hx' : x = (exComToDb, exDb) := List.mem_singleton.1 hx
      subst hx'
      exact ho ▸ hh)
  obtain ⟨d00, d01, -, -, d11, -⟩ := exComToDb_vals
  have hd' : List.Forall₂ (fun jj p => InBucketFew exSys st' jj (exComH 2 3) (comVal (exComH 2 3) exComM p jj.1.default.toQ) (HasValue (exComH 2 3) exComM)) [(exComToDb, exDb)] [exComPlan.pieces] := hd
  have h := (List.forall₂_cons.1 hd').1.1 ⟨0, by decide, rfl⟩
  have hn : storedName "x".toList = "0_x".toList := by decide +kernel
  have h' : HoldsCells exSys.rnd st' (storedName "x".toList) (fewOpts .double) (exComH 2 3) (comVal (exComH 2 3) exComM exComPlan.pieces exComToDb.default.toQ) (HasValue (exComH 2 3) exComM) := h
  rw [hn] at h'
  exact ⟨st', e, _, h', d00, d01, d11⟩

end App
end CCGL
