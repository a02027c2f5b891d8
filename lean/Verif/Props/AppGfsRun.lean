import Verif.Model.AppGfsRun
import Verif.Props.AppGfsDecJobs
import Verif.Props.AppGfsComJobs
/-!
# Whole runs of `mask_rasterio` with a database (C91)
-/
namespace CCGL
namespace App
open Fs Disk Main Raster Gfs Disk.Spec App.Spec

/-- The options under which a mask is looked for: all cells stored; any type. -/
def Spec.maskOpts : Opts := [("INCLUDE_NODATA".toList, "TRUE".toList)]

/-- The mask of the run is a readable raster file or, if the database is connected and answers, a grid in the bucket. -/
inductive Spec.MaskFrom (sys : Sys) (md : MaskDb) (d : Disk) (st : Store) (c : Cfg) (hM : Header) (vM : Int → Int → ℚ) : Prop
  | file : c.maskFmt = .sfile → RasterFile d c.maskPath hM vM → Spec.MaskFrom sys md d st c hM vM
  | bucket : c.maskFmt = .gfs → c.useMongo = true → c.maskPath ≠ [] → HoldsGrid sys.rnd st c.maskPath maskOpts hM vM →
      Answered md.ok1 → Answered md.ok2 → md.rd = true → Spec.MaskFrom sys md d st c hM vM

/-- Reading a stored grid under arbitrary options. -/
theorem gfs_any {rnd : ℚ → ℚ} {st : Store} {name : Str} {opts : Opts} {h : Header} {v : Int → Int → ℚ} (H : HoldsGrid rnd st name (inOpts opts) h v)
    {ok1 ok2 : Nat → Bool} (h1 : Answered ok1) (h2 : Answered ok2) (dv : ℚ) :
    ∃ r, Gfs.readFromMongo rnd .double ok1 true ok2 st name false dv opts = .ok (some r) ∧ Shows r h v ∧ r.posData = none := by
  obtain ⟨cells, hm, sm, q1, q2, q3, q4⟩ := H.reads ok1 ok2 h1 h2
  obtain ⟨hR, hC, -, hv⟩ := stored_grid H.header q4 false dv
  have d1 : (!stringMatch ((some "TRUE".toList).getD []) "FALSE".toList) = true := by decide
  refine ⟨ofStore1 { h with layers := 1, cellsnum := h.rows * h.cols } cells false false dv, ?_, ⟨?_, ?_, rfl, rfl, rfl, rfl, hv⟩, rfl⟩
  · unfold Gfs.readFromMongo
    rw [q1, Out.ok_bind]
    dsimp only
    rw [headerOf_one q2 H.header, Out.ok_bind]
    dsimp only
    rw [mul_one_grid H.header, Out.ok_bind]
    have hnd : conv rnd .double .double h.noData = .ok h.noData := by unfold conv; rw [if_pos rfl]
    rw [hnd, Out.ok_bind]
    have hk : sm kIncNodata = some "TRUE".toList := q3
    rw [hk, d1]
    simp only [Bool.true_and, ne_eq, not_true_eq_false, decide_false, Bool.false_eq_true, if_false, Bool.not_true, if_true, Out.ok_bind]
    rfl
  · exact .file (code := 0) { h with layers := 1, cellsnum := h.rows * h.cols } cells false false dv hR.le hC.le rfl q4.1 rfl
  · show 0 < h.rows * h.cols
    exact Int.mul_pos hR hC

theorem inOpts_nil : inOpts [] = maskOpts := by decide +kernel

/-- The mask is loaded as the grid it is. -/
theorem mask_source {sys : Sys} {md : MaskDb} {d : Disk} {st : Store} {c : Cfg} {hM : Header} {vM : Int → Int → ℚ} (H : MaskFrom sys md d st c hM vM) :
    ∃ M, loadMaskDb sys md d st c = .ok (.go (some ⟨M, []⟩)) ∧ CCGL.Spec.Built M ∧ CCGL.Spec.CleanMask M ∧ M.hdr.grid = hM.grid ∧ M.noData = hM.noData ∧
      (∀ row col, hM.grid.CellInside row col → M.getValue row col 1 = .ok (vM row col)) ∧ M.is2d = false := by
  cases H with
  | file hf hmask =>
    obtain ⟨M, eM, hb, hcl, hg, hn, hval, h2, hl, hnc⟩ := mask_file hmask NODATA
    refine ⟨M, ?_, hb, hcl, hg, hn, hval, h2⟩
    obtain ⟨hex, -⟩ := file_decode hmask
    have hne : c.maskPath ≠ [] := by
      intro h
      rw [h] at hex
      cases hex
    unfold loadMaskDb
    rw [if_neg hne, if_pos ⟨hf, hex⟩]
    unfold initFile
    dsimp only
    rw [eM]
    rfl
  | bucket hf hu hne hh h1 h2 h3 =>
    obtain ⟨r, e, hs, hp⟩ := gfs_any (opts := []) (by rw [inOpts_nil]; exact hh) h1 h2 NODATA
    refine ⟨r, ?_, hs.built, .inl hp, hs.grid, hs.nodata, hs.val, hs.one⟩
    unfold loadMaskDb
    rw [if_neg hne, if_neg (by rw [hf]; simp), if_pos ⟨hf, hu⟩, h3, e]
    rfl

theorem mask_is {sys : Sys} {md : MaskDb} {d : Disk} {st : Store} {c : Cfg} {hM : Header} {vM : Int → Int → ℚ} (H : MaskFrom sys md d st c hM vM) :
    ∃ M, loadMaskDb sys md d st c = .ok (.go (some ⟨M, []⟩)) ∧ IsMask M hM vM := by
  obtain ⟨M, e, h1, h2, h3, h4, h5, -⟩ := mask_source H
  exact ⟨M, e, ⟨⟨M, h1, h2, h3, h4, fun row col hin => ⟨_, h5 row col hin, by rw [h4]⟩, rfl⟩⟩⟩

theorem runDb_go {sys : Sys} {w : World} {md : MaskDb} {dbs : Nat → JobDb} {d : Disk} {st : Store} {args : List Str} {c : Cfg} {js : List Job}
    {mask mask' : Option RasterS} (hc : configure w args = .ok (.go c)) (hjs : jobs c = .ok js) (hu : c.useMongo = true)
    (hm : loadMaskDb sys md d st c = .ok (.go mask)) (hp : prepareMask c.mode mask = .ok mask') :
    runDb sys w md dbs d st args = runJobsDb sys c.incNodata c.mode mask' d st (withDb dbs js) := by
  unfold runDb
  rw [hc, Out.ok_bind]
  dsimp only
  rw [hjs, Out.ok_bind, hm, Out.ok_bind]
  dsimp only
  rw [hp, Out.ok_bind, if_pos hu]

/-- What `C91` says about all runs of the modes MASK, DEC and MASKDEC: exit code 0, no file on disk changed, the files of the bucket that no job writes
as before, and the outputs of every job. -/
def Spec.RunDone (sys : Sys) (mode : IOMode) (V : Job → DecPlan → View) (xs : List ((Job × JobDb) × DecPlan)) (st st' : Store) : Prop :=
  (∀ R : CCGL.Spec.Key, (∀ x ∈ xs, ¬ DbTargets mode x.1.1 (V x.1.1 x.2).grp R.name) → CCGL.Spec.filesOf st' R = CCGL.Spec.filesOf st R) ∧
  ∀ x ∈ xs, DbDone sys.rnd st' mode x.1.1 (V x.1.1 x.2) (jobFill x.1.1 x.2.hdr) x.2.lyrs

/-- C91: a run of the modes MASK, DEC and MASKDEC without mask. -/
theorem C91_plain_run_partial {sys : Sys} (hrnd : ∀ v, CCGL.Spec.Representable .float v → sys.rnd v = v) {w : World} {md : MaskDb} {dbs : Nat → JobDb}
    {d : Disk} {st : Store} {args : List Str} {c : Cfg} {js : List Job} (hc : configure w args = .ok (.go c)) (hjs : jobs c = .ok js)
    (hu : c.useMongo = true) (hinc : c.incNodata = true) (hmode : Layers c.mode) (hno : c.maskPath = [])
    {xs : List ((Job × JobDb) × DecPlan)} (hxs : withDb dbs js = xs.map (·.1))
    (hA : xs.Pairwise (DecApart c.mode (fun j p => ownView j p.hdr p.val)))
    (hj : ∀ x ∈ xs, DecJob sys d st c.mode true x.1 x.2 (ownView x.1.1 x.2.hdr x.2.val)) :
    ∃ st', runDb sys w md dbs d st args = .ok (0, d, st') ∧ RunDone sys c.mode (fun j p => ownView j p.hdr p.val) xs st st' := by
  obtain ⟨st', e, h1, h2⟩ := C90_own_jobs_partial hrnd hmode hA hj
  refine ⟨st', ?_, h1, h2⟩
  have hl : loadMaskDb sys md d st c = .ok (.go none) := by
    unfold loadMaskDb
    rw [if_pos hno]
  rw [runDb_go hc hjs hu hl rfl, hinc, hxs]
  exact e

/-- C91: a run of the mode MASK with a mask in a file or in the bucket. -/
theorem C91_mask_run_partial {sys : Sys} (hrnd : ∀ v, CCGL.Spec.Representable .float v → sys.rnd v = v) {w : World} {md : MaskDb} {dbs : Nat → JobDb}
    {d : Disk} {st : Store} {args : List Str} {c : Cfg} {js : List Job} (hc : configure w args = .ok (.go c)) (hjs : jobs c = .ok js)
    (hu : c.useMongo = true) (hinc : c.incNodata = true) (hmode : c.mode = .mask) {hM : Header} {vM : Int → Int → ℚ} (hmask : MaskFrom sys md d st c hM vM)
    {xs : List ((Job × JobDb) × DecPlan)} (hxs : withDb dbs js = xs.map (·.1))
    (hA : xs.Pairwise (DecApart .mask (fun j p => maskedView j hM vM p.hdr p.val)))
    (hj : ∀ x ∈ xs, (CCGL.Spec.CommonGrid x.2.hdr hM ∧ Overlaps hM vM x.2.hdr) ∧ DecJob sys d st .mask false x.1 x.2 (maskedView x.1.1 hM vM x.2.hdr x.2.val)) :
    ∃ st', runDb sys w md dbs d st args = .ok (0, d, st') ∧ RunDone sys .mask (fun j p => maskedView j hM vM p.hdr p.val) xs st st' := by
  obtain ⟨M, eM, hm⟩ := mask_is hmask
  obtain ⟨st', e, h1, h2⟩ := C90_mask_jobs_partial hrnd hm hA hj
  refine ⟨st', ?_, h1, h2⟩
  have hp : prepareMask c.mode (some ⟨M, []⟩) = .ok (some ⟨M, []⟩) := by
    unfold prepareMask
    dsimp only
    rw [if_pos hmode]
  rw [runDb_go hc hjs hu eM hp, hinc, hxs, hmode]
  exact e

theorem prepare_cut {c : Cfg} {M : Raster} {m : RasterS} {b : Bool} (h : c.mode ≠ .mask) (e : buildSubSet ⟨M, []⟩ [] = .ok (m, b)) :
    prepareMask c.mode (some ⟨M, []⟩) = .ok (some m) := by
  unfold prepareMask
  dsimp only
  rw [if_neg h, e]
  rfl

/-- C91: a run of the modes DEC and MASKDEC with a mask in a file or in the bucket. -/
theorem C91_units_run_partial {sys : Sys} (hrnd : ∀ v, CCGL.Spec.Representable .float v → sys.rnd v = v) {w : World} {md : MaskDb} {dbs : Nat → JobDb}
    {d : Disk} {st : Store} {args : List Str} {c : Cfg} {js : List Job} (hc : configure w args = .ok (.go c)) (hjs : jobs c = .ok js)
    (hu : c.useMongo = true) (hinc : c.incNodata = true) (hmode : c.mode = .dec ∨ c.mode = .maskdec) {hM : Header} {vM : Int → Int → ℚ}
    (hmask : MaskFrom sys md d st c hM vM) (hco : CCGL.Spec.CoordsPresent hM) (hv : ∃ row col, HasValue hM vM row col)
    {xs : List ((Job × JobDb) × DecPlan)} (hxs : withDb dbs js = xs.map (·.1))
    (hA : xs.Pairwise (DecApart c.mode (fun j p => unitsView j hM vM p.hdr p.val)))
    (hj : ∀ x ∈ xs, (CCGL.Spec.CommonGrid x.2.hdr hM ∧ Overlaps hM vM x.2.hdr) ∧ DecJob sys d st c.mode false x.1 x.2 (unitsView x.1.1 hM vM x.2.hdr x.2.val)) :
    ∃ st', runDb sys w md dbs d st args = .ok (0, d, st') ∧ RunDone sys c.mode (fun j p => unitsView j hM vM p.hdr p.val) xs st st' := by
  obtain ⟨M, eM, hb, hcl, hg, hn, hval, h2⟩ := mask_source hmask
  obtain ⟨m, b, eb, hm⟩ := cutMask_of hb hcl hg hn hval h2 hv
  obtain ⟨st', e, h1, h2⟩ := C90_units_jobs_partial hrnd hm hco hmode hA hj
  refine ⟨st', ?_, h1, h2⟩
  rw [runDb_go hc hjs hu eM (prepare_cut (by rcases hmode with h | h <;> rw [h] <;> simp) eb), hinc, hxs]
  exact e

/-- C91: a run of the mode COM with a mask in a file or in the bucket: the pieces, in files or in the bucket, are put together and stored. -/
theorem C91_com_run_partial {sys : Sys} (hrnd : ∀ v, CCGL.Spec.Representable .float v → sys.rnd v = v) {w : World} {md : MaskDb} {dbs : Nat → JobDb}
    {d : Disk} {st : Store} {args : List Str} {c : Cfg} {js : List Job} (hc : configure w args = .ok (.go c)) (hjs : jobs c = .ok js)
    (hu : c.useMongo = true) (hinc : c.incNodata = true) (hmode : c.mode = .com) {hM : Header} {vM : Int → Int → ℚ}
    (hmask : MaskFrom sys md d st c hM vM) (hv : ∃ row col, HasValue hM vM row col)
    {ps : List (List (Option (Int × (Int → Int → ℚ))))} (hA : (withDb dbs js).Pairwise WritesApart)
    (hj : List.Forall₂ (ComDbJob sys d st hM vM) (withDb dbs js) ps) :
    ∃ st', runDb sys w md dbs d st args = .ok (0, d, st') ∧
      (∀ R : CCGL.Spec.Key, (∀ jj ∈ withDb dbs js, R.name ≠ storedName jj.1.out) → CCGL.Spec.filesOf st' R = CCGL.Spec.filesOf st R) ∧
      List.Forall₂ (fun jj p => InBucket sys st' jj hM (comVal hM vM p jj.1.default.toQ)) (withDb dbs js) ps := by
  obtain ⟨M, eM, hb, hcl, hg, hn, hval, h2⟩ := mask_source hmask
  obtain ⟨m, b, eb, hm⟩ := cutMask_of hb hcl hg hn hval h2 hv
  obtain ⟨st', e, h1, h2⟩ := C88_jobs_partial sys hrnd hm.comMask hA hj
  refine ⟨st', ?_, h1, h2⟩
  rw [runDb_go hc hjs hu eM (prepare_cut (by rw [hmode]; simp) eb), hinc, hmode]
  exact e

theorem maskOpts_good {name : Str} (hnul : Char.ofNat 0 ∉ name) : CCGL.Spec.GoodKey ⟨name, maskOpts⟩ := by
  have h := jobOpts_good (name := name) true .double hnul
  have hm : ∀ k v, (k, v) ∈ maskOpts → (k, v) ∈ jobOpts true .double := fun k v hk => List.mem_cons_of_mem _ hk
  exact ⟨hnul, by unfold maskOpts; simp, fun k v hk => h.key k v (hm k v hk), fun k v hk => h.val k v (hm k v hk)⟩

/-- C91: a mask that should be in the bucket and is not there: exit code 3, nothing is changed. -/
theorem C91_no_mask {sys : Sys} {w : World} {md : MaskDb} {dbs : Nat → JobDb} {d : Disk} {st : Store} {args : List Str} {c : Cfg} {js : List Job}
    (hc : configure w args = .ok (.go c)) (hjs : jobs c = .ok js) (hf : c.maskFmt = .gfs) (hu : c.useMongo = true) (hne : c.maskPath ≠ [])
    (hnul : Char.ofNat 0 ∉ c.maskPath) (hno : ∀ f ∈ st, ¬ CCGL.Spec.Has f ⟨c.maskPath, maskOpts⟩) :
    runDb sys w md dbs d st args = .ok (3, d, st) := by
  have hk := maskOpts_good hnul
  have hr := readGridfs_none (rnd := sys.rnd) (T := .double) (ok1 := md.ok1) (ok2 := md.ok2) (rd := md.rd) (st := st) (h := initialHeader) (s := initialStr)
    hk (filesOf_nil_of hno)
  dsimp only at hr
  have hl : loadMaskDb sys md d st c = .ok (.exit 3) := by
    unfold loadMaskDb
    rw [if_neg hne, if_neg (by rw [hf]; simp), if_pos ⟨hf, hu⟩]
    unfold Gfs.readFromMongo
    rw [inOpts_nil, hr]
    rfl
  unfold runDb
  rw [hc, Out.ok_bind]
  dsimp only
  rw [hjs, Out.ok_bind, hl]
  rfl

/-- C91: without a connection (`-mongo` not given or failing) the bucket is not touched, and disk and exit code are those of the run on files. -/
theorem C91_offline {sys : Sys} {w : World} {md : MaskDb} {dbs : Nat → JobDb} {d : Disk} {st : Store} {args : List Str}
    (hu : ∀ c, configure w args = .ok (.go c) → c.useMongo = false) :
    runDb sys w md dbs d st args = (run sys w d args).bind (fun x => .ok (x.1, x.2, st)) := by
  unfold runDb run
  cases hc : configure w args with
  | ub => rfl
  | exn => rfl
  | ok r =>
    cases r with
    | exit n => rfl
    | go c =>
      have hf := hu c hc
      simp only [Out.ok_bind]
      cases hj : jobs c with
      | ub => rfl
      | exn => rfl
      | ok js =>
        simp only [Out.ok_bind]
        have hl : loadMaskDb sys md d st c = loadMask d c := by
          unfold loadMaskDb loadMask
          rw [hf]
          simp only [Bool.false_eq_true, and_false, if_false]
          rfl
        rw [hl]
        cases hm : loadMask d c with
        | ub => rfl
        | exn => rfl
        | ok m =>
          cases m with
          | exit n => rfl
          | go mask =>
            simp only [Out.ok_bind]
            cases hp : prepareMask c.mode mask with
            | ub => rfl
            | exn => rfl
            | ok mask' =>
              simp only [Out.ok_bind]
              rw [hf]
              rfl

/-- C91: a grid stored by the application is found as a mask by a later run, unless a file with its name is stored in another type. -/
theorem C91_stored_mask {rnd : ℚ → ℚ} {st : Store} {name : Str} {ty : RDT} {h : Header} {v : Int → Int → ℚ} (hnul : Char.ofNat 0 ∉ name)
    (H : HoldsGrid rnd st name (wholeOpts ty) h v)
    (honly : ∀ f ∈ st, CCGL.Spec.Has f ⟨name, maskOpts⟩ → CCGL.Spec.Has f ⟨name, wholeOpts ty⟩) : HoldsGrid rnd st name maskOpts h v := by
  have g1 := maskOpts_good hnul
  have g2 := wholeOpts_good (name := name) ty hnul
  have he : CCGL.Spec.filesOf st ⟨name, maskOpts⟩ = CCGL.Spec.filesOf st ⟨name, wholeOpts ty⟩ := by
    unfold CCGL.Spec.filesOf
    apply List.filter_congr
    intro f hf
    rw [decide_eq_decide]
    constructor
    · exact honly f hf
    · rintro ⟨a, b⟩
      exact ⟨a, fun k w hk => b k w (List.mem_cons_of_mem _ hk)⟩
  refine ⟨H.header, fun ok1 ok2 h1 h2 => ?_⟩
  obtain ⟨cells, hm, sm, q1, q2⟩ := H.reads ok1 ok2 h1 h2
  refine ⟨cells, hm, sm, ?_, q2⟩
  rw [← q1]
  unfold readGridfs getStreamData getFileMetadata
  have a1 := getFile_eq g1 ok1 st
  have a2 := getFile_eq g1 ok2 st
  have b1 := getFile_eq g2 ok1 st
  have b2 := getFile_eq g2 ok2 st
  dsimp only at a1 a2 b1 b2
  rw [a1, a2, b1, b2, he]

/-- C91: a raster stored with all its cells by the library or the application is found as a mask afterwards, if the files that had its name and all
cells stored also had the type and the other options (those are replaced). -/
theorem C91_store_mask {rnd : ℚ → ℚ} (hrnd : ∀ v, CCGL.Spec.Representable .float v → rnd v = v) {st : Store} {j : Job} {jd : JobDb} {r : Raster} {h : Header}
    {v : Int → Int → ℚ} (hr : Shows r h v) (hh : r.hdr.noData = h.noData) (ho : BucketOut st j jd h)
    (hv : ∀ row col, h.grid.CellInside row col → Fits j.type (v row col))
    (hold : ∀ f ∈ st, CCGL.Spec.Has f ⟨storedName j.out, maskOpts⟩ → CCGL.Spec.Has f ⟨storedName j.out, outOpts .double jd.own (wholeOpts j.type) true⟩)
    (hrep : ∃ i, i < 4 ∧ (jd.att i).reported = true) :
    ∃ st' o, outputToMongo rnd .double jd.rm jd.att st r jd.own jd.core (storedName j.out) (jobOpts true j.type) true = .ok (r, o, st', true) ∧
      HoldsGrid rnd st' (storedName j.out) maskOpts h v ∧
      (∀ R : CCGL.Spec.Key, R.name ≠ storedName j.out → CCGL.Spec.filesOf st' R = CCGL.Spec.filesOf st R) := by
  obtain ⟨st', ok, e1, e2, e3, e4, -⟩ := store_whole_any hrnd hr hh ho hv
  obtain rfl : ok = true := e2.2 hrep
  have := e4 rfl [] (by rw [inOpts_nil]; exact maskOpts_good ho.key.name) (by
    rw [inOpts_nil]
    intro k x hk
    exact opts_sub jd.own ho.type.1 k x (List.mem_cons_of_mem _ hk)) (by rw [inOpts_nil]; exact hold)
  rw [inOpts_nil] at this
  exact ⟨st', _, e1, this, e3⟩

end App
end CCGL
