import Verif.Props.AppCrashDbCom
import Verif.Props.AppCrashDbEx
import Verif.Props.AppGfsComEx
/-!
# Example: a run in the mode COM with output to the bucket is stopped while it stores (C101)
-/
namespace CCGL
namespace App
open Fs Disk Main Raster Gfs Disk.Spec App.Spec

def exComDbWorld : World := { exComWorld "/1_x.tif,/2_x.tif,/1_y.tif;x;4;;DOUBLE\n" with mongo := (exWorld "").mongo }
def exComDbArgs : List Str := ["-mode".toList, "com".toList, "-mask".toList, "/m.tif".toList, "-mongo".toList, "localhost".toList, "27017".toList, "db".toList,
  "g".toList, "-configfile".toList, "/c.txt".toList]
def exComToDb : Job := { exComJob with out := "x".toList, outFmt := .gfs }

/-- A file with the name and the options of the output and three bytes. -/
def exComTornFile : Gfs.File := ⟨storedName "x".toList, [("DATATYPE_OUT".toList, .utf8 (rdtToString RDT.double.code)), ("INCLUDE_NODATA".toList, .utf8 "TRUE".toList)], [1, 2, 3]⟩

theorem exComToDb_jobs : jobsOf exComDbWorld exComDbArgs = .ok (some [exComToDb]) := by decide +kernel

theorem exComToDb_cfg : (configure exComDbWorld exComDbArgs).bind (fun | .exit _ => .ub | .go c => .ok (c.mode, c.maskFmt, c.maskPath, c.useMongo, c.incNodata)) =
    .ok (.com, .sfile, "/m.tif".toList, true, true) := by decide +kernel

theorem exComToDb_val {k row col : Int} (hk : byValue (exComH 2 3) exComM k row col) :
    comVal (exComH 2 3) exComM exComPlan.pieces exComToDb.default.toQ row col = match lastPiece exComPlan.pieces k with
      | some w => w row col
      | none => if floatEqual (exComH 2 3).noData 4 = true then (exComH 2 3).noData else 4 := by
  unfold comVal
  rw [if_pos hk.1, hk.2]
  rfl

theorem exComToDb_vals : comVal (exComH 2 3) exComM exComPlan.pieces exComToDb.default.toQ 0 0 = 5 ∧ comVal (exComH 2 3) exComM exComPlan.pieces exComToDb.default.toQ 0 1 = 4 ∧
    comVal (exComH 2 3) exComM exComPlan.pieces exComToDb.default.toQ 0 2 = 6 ∧ comVal (exComH 2 3) exComM exComPlan.pieces exComToDb.default.toQ 1 0 = 7 ∧
    comVal (exComH 2 3) exComM exComPlan.pieces exComToDb.default.toQ 1 1 = 8 ∧ comVal (exComH 2 3) exComM exComPlan.pieces exComToDb.default.toQ 1 2 = -9999 := by
  refine ⟨(exComToDb_val exCom_00).trans rfl, (exComToDb_val exCom_01).trans (by decide +kernel), (exComToDb_val exCom_02).trans rfl, (exComToDb_val exCom_10).trans rfl,
    (exComToDb_val exCom_11).trans rfl, ?_⟩
  unfold comVal
  rw [if_neg (by rintro ⟨-, hv⟩; revert hv; decide +kernel)]
  rfl

theorem exComToDb_ok : ComDbJob exSys exComDisk [] (exComH 2 3) exComM (exComToDb, exDb) exComPlan.pieces := by
  obtain ⟨d00, d01, d02, d10, d11, v12⟩ := exComToDb_vals
  refine ⟨⟨rfl, by decide⟩, .files exComPlan.ins rfl rfl exCom_ok.gives rfl, ⟨some (1, exW1), by unfold ComPlan.pieces exComPlan; simp, by simp⟩,
    ⟨ex_key, exComDb_storable 2 3 6 (by decide) (by decide) (by decide) (by decide) (by decide) (by decide), ⟨by decide, by decide, by decide⟩, fun _ => rfl,
      fun _ => .inl ⟨rfl, rfl⟩, fun f hf => by cases hf⟩, ?_⟩
  intro row col hc
  obtain ⟨a1, a2, a3, a4⟩ := hc
  have a2 : row < 2 := a2
  have a4 : col < 3 := a4
  have er : row = 0 ∨ row = 1 := by omega
  have ec : col = 0 ∨ col = 1 ∨ col = 2 := by omega
  show Fits .double _
  rcases er with rfl | rfl <;> rcases ec with rfl | rfl | rfl
  · rw [d00]; exact ex_fits 5 (by decide)
  · rw [d01]; exact ex_fits 4 (by decide)
  · rw [d02]; exact ex_fits 6 (by decide)
  · rw [d10]; exact ex_fits 7 (by decide)
  · rw [d11]; exact ex_fits 8 (by decide)
  · rw [v12]; exact_mod_cast ex_fits (-9999) (by decide)

/-- The run is stopped while the job stores its file, of which three bytes are left; the same command, started again, puts the pieces together. -/
example (md : MaskDb) : ∃ c, configure exComDbWorld exComDbArgs = .ok (.go c) ∧
    StoppedDbCom exSys md exComDisk c [(exComToDb, exDb)] [] [exComTornFile] [] ∧
    CCGL.Spec.Has exComTornFile ⟨storedName "x".toList, wholeOpts .double⟩ ∧
    ∃ st', runDb exSys exComDbWorld md (fun _ => exDb) exComDisk [exComTornFile] exComDbArgs = .ok (0, exComDisk, st') ∧
      ∃ v, HoldsGrid exSys.rnd st' "0_x".toList (wholeOpts .double) (exComH 2 3) v ∧ v 0 0 = 5 ∧ v 0 1 = 4 ∧ v 1 1 = 8 ∧ v 1 2 = -9999 := by
  obtain ⟨c, h1, h2⟩ := jobsOf_go exComToDb_jobs
  have hcfg := exComToDb_cfg
  rw [h1] at hcfg
  have hcfg' : (c.mode, c.maskFmt, c.maskPath, c.useMongo, c.incNodata) = (IOMode.com, DataFmt.sfile, "/m.tif".toList, true, true) := Out.ok.inj hcfg
  injection hcfg' with q1 q2
  injection q2 with q2 q3
  injection q3 with q3 q4
  injection q4 with q4 q5
  have hv : ∃ row col, HasValue (exComH 2 3) exComM row col := ⟨0, 0, exCom_00.1⟩
  have hmask : MaskFrom exSys md exComDisk [] c (exComH 2 3) exComM := .file q2 (by rw [q3]; exact exCom_m)
  have hkey : CCGL.Spec.Has exComTornFile ⟨storedName "x".toList, wholeOpts .double⟩ := by
    refine ⟨rfl, fun k v hk => ?_⟩
    have : (k, v) = ("DATATYPE_OUT".toList, rdtToString RDT.double.code) ∨ (k, v) = ("INCLUDE_NODATA".toList, "TRUE".toList) := by
      simpa [wholeOpts] using hk
    rcases this with h | h
    · injection h with a b
      subst a b
      exact ⟨.utf8 (rdtToString RDT.double.code), by decide +kernel, .inr ⟨CCGL.Gfs.type_not_number (O := .double) (by decide) (by decide +kernel), rfl⟩⟩
    · injection h with a b
      subst a b
      exact ⟨.utf8 "TRUE".toList, by decide +kernel, .inr ⟨not_number_TRUE, rfl⟩⟩
  have hst : StoppedDbCom exSys md exComDisk c [(exComToDb, exDb)] [] [exComTornFile] [] := by
    obtain ⟨M, eM, hb, hcl, hg, hn, hval, hM2⟩ := mask_source hmask
    obtain ⟨m, b, eb, hm⟩ := cutMask_of hb hcl hg hn hval hM2 hv
    refine ⟨m, ⟨_, eM, prepare_cut (by rw [q1]; simp) eb⟩, _, rfl, [], m, rfl, fun R hR => ?_⟩
    have hne : storedName "x".toList ≠ R.name := fun h => hR _ rfl h.symm
    unfold CCGL.Spec.filesOf
    rw [List.filter_cons_of_neg (by simpa using fun h => hne h.1)]
  refine ⟨c, h1, hst, hkey, ?_⟩
  have hj : List.Forall₂ (ComDbJob exSys exComDisk [] (exComH 2 3) exComM) (withDb (fun _ => exDb) [exComToDb]) [exComPlan.pieces] := .cons exComToDb_ok .nil
  obtain ⟨-, -, st', e, -, hd⟩ := C101_db_com (sys := exSys) (fun v _ => rfl) (md := md) (md' := md) (dbs := fun _ => exDb) (dbs' := fun _ => exDb) (st := []) h1 h2 q4 q5
    q1 hmask hmask hv (fun h => by rw [q2] at h; cases h) (by
      refine ⟨?_, List.pairwise_singleton _ _⟩
      intro a _ b hb hg
      rw [List.mem_singleton.1 hb] at hg
      cases hg) hj hj hst (by
      have ho : outOpts .double exDb.own (wholeOpts .double) true = wholeOpts .double := by decide +kernel
      intro x hx f _ hh
      have hx' : x = (exComToDb, exDb) := List.mem_singleton.1 hx
      subst hx'
      exact ho ▸ hh)
  obtain ⟨d00, d01, -, -, d11, v12⟩ := exComToDb_vals
  have hd' : List.Forall₂ (fun jj p => InBucket exSys st' jj (exComH 2 3) (comVal (exComH 2 3) exComM p jj.1.default.toQ)) [(exComToDb, exDb)] [exComPlan.pieces] := hd
  have h := (List.forall₂_cons.1 hd').1.1 ⟨0, by decide, rfl⟩
  have hn : storedName "x".toList = "0_x".toList := by decide +kernel
  have h' : HoldsGrid exSys.rnd st' (storedName "x".toList) (wholeOpts .double) (exComH 2 3) (comVal (exComH 2 3) exComM exComPlan.pieces exComToDb.default.toQ) := h
  rw [hn] at h'
  exact ⟨st', e, _, h', d00, d01, d11, v12⟩

end App
end CCGL
