import Verif.Lemmas.AppGfs
import Verif.Lemmas.GfsSubset
import Verif.Props.Types
import Verif.Props.Basics
/-!
# The jobs of `mask_rasterio` with files in GridFS (C87)
-/
namespace CCGL
namespace App
open Fs Disk Main Raster Gfs Disk.Spec App.Spec

/-- The input is read, no mask. -/
theorem input_plain {sys : Sys} {d : Disk} {st : Store} {j : Job} {jd : JobDb} {h : Header} {v : Int → Int → ℚ} (H : Input sys d st j jd h v)
    (mode : IOMode) : ∃ r, layerJobDb sys true mode (d, st, none) (j, jd) = finishJobDb sys true mode (d, st, none) (j, jd) (some ⟨r, []⟩, none) ∧
      Shows r h v ∧ r.dflt = checkDefault j.default.toQ h.noData := by
  cases H with
  | file s h1 h2 h3 =>
    obtain ⟨M, eM, k1, -, k3, k4, k5, k6, k7, k8⟩ := mask_file h3 j.default.toQ
    obtain ⟨hex, h', cells, e, -, hn', -⟩ := file_decode h3
    have hdf : M.dflt = checkDefault j.default.toQ h.noData := by
      have e1 := readFromFile_none d s _ hex e j.default.toQ
      rw [eM] at e1
      injection e1 with e1
      injection e1 with e1
      rw [e1, ← hn']
      rfl
    refine ⟨M, ?_, ⟨k1, k8, k6, k7, k3, k4, k5⟩, hdf⟩
    unfold layerJobDb
    have hfe : filesExist d.fs j.inputs = true := by rw [h2]; unfold filesExist; simp [hex]
    dsimp only
    rw [if_pos ⟨h1, hfe⟩]
    have hi : initFiles d j.inputs false none true j.default.toQ = .ok (some ⟨M, []⟩, none) := by
      unfold initFiles
      rw [hfe, h2]
      simp only [Bool.not_true, Bool.false_eq_true, if_false]
      unfold initFile
      dsimp only
      rw [eM]
      rfl
    rw [hi, Out.ok_bind]
  | bucket name more h1 h2 h3 h4 h5 h6 =>
    obtain ⟨r, e, hs, hd⟩ := gfs_plain h3 h4 h5 j.default.toQ
    refine ⟨r, ?_, hs, hd⟩
    unfold layerJobDb
    dsimp only
    rw [if_neg (by rw [h1]; simp), if_pos h1, h2]
    have hv : vecAt (name :: more) 0 = .ok name := rfl
    rw [hv, Out.ok_bind]
    unfold initGfs
    dsimp only
    rw [h6, e]
    rfl

/-- The input is read and masked. -/
theorem input_masked {sys : Sys} {d : Disk} {st : Store} {j : Job} {jd : JobDb} {hM hR : Header} {vM vR : Int → Int → ℚ} {m : Raster}
    (hm : IsMask m hM vM) (H : Input sys d st j jd hR vR) (hg : CCGL.Spec.CommonGrid hR hM) (hov : Overlaps hM vM hR) (mode : IOMode) :
    ∃ r m' w, layerJobDb sys true mode (d, st, some ⟨m, []⟩) (j, jd) =
        finishJobDb sys true mode (d, st, some ⟨m, []⟩) (j, jd) (some ⟨r, []⟩, some ⟨m', []⟩) ∧
      IsMask m' hM vM ∧ Shows r { hM with noData := hR.noData } w ∧
      (∀ row col, hM.grid.CellInside row col → MaskedCell hM vM hR vR j.default.toQ row col (w row col)) ∧
      r.dflt = checkDefault j.default.toQ hR.noData := by
  cases H with
  | file s h1 h2 h3 =>
    obtain ⟨x, res, hex, e1, e2, hcode, hm', hb, hnc, h2d, hly, hgr, hnd, hval⟩ := file_masked hm h3 hg hov j.default.toQ
    have key2 : ∀ rc : Int × Int, ∃ w, hM.grid.CellInside rc.1 rc.2 → res.ras.getValue rc.1 rc.2 1 = .ok w ∧
        MaskedCell hM vM hR vR j.default.toQ rc.1 rc.2 w := by
      intro rc
      by_cases hin : hM.grid.CellInside rc.1 rc.2
      · obtain ⟨w, hw⟩ := hval rc.1 rc.2 hin
        exact ⟨w, fun _ => hw⟩
      · exact ⟨0, fun h => absurd h hin⟩
    choose w hw using key2
    have hdf : res.ras.dflt = checkDefault j.default.toQ hR.noData := by
      obtain ⟨-, h', cells, e, -, hn', -⟩ := file_decode h3
      rw [e] at e1
      injection e1 with e1
      injection e1 with e1
      rw [maskRaster_dflt e2, ← e1, ← hn']
      rfl
    refine ⟨res.ras, res.mask, fun row col => w (row, col), ?_, hm',
      ⟨hb, hnc, h2d, hly, hgr, hnd, fun row col hin => (hw (row, col) hin).1⟩, fun row col hin => (hw (row, col) hin).2, hdf⟩
    unfold layerJobDb
    have hfe : filesExist d.fs j.inputs = true := by rw [h2]; unfold filesExist; simp [hex]
    dsimp only
    rw [if_pos ⟨h1, hfe⟩]
    have hi : initFiles d j.inputs false (some ⟨m, []⟩) true j.default.toQ = .ok (some ⟨res.ras, []⟩, some ⟨res.mask, []⟩) := by
      unfold initFiles
      rw [hfe, h2]
      simp only [Bool.not_true, Bool.false_eq_true, if_false]
      unfold initFile
      rw [hex]
      simp only [Bool.not_true, Bool.false_eq_true, if_false]
      rw [e1]
      simp only [Out.ok_bind]
      unfold maskRasterS
      rw [e2]
      simp only [Out.ok_bind, or_true, if_true, Out.pure_eq, hcode]
      rfl
    rw [hi, Out.ok_bind]
  | bucket name more h1 h2 h3 h4 h5 h6 =>
    obtain ⟨r, m', w, e, k1, k2, k3⟩ := gfs_masked hm h3 h4 h5 hg hov j.default.toQ
    refine ⟨r, m', w, ?_, k1, k2, k3⟩
    unfold layerJobDb
    dsimp only
    rw [if_neg (by rw [h1]; simp), if_pos h1, h2]
    have hv : vecAt (name :: more) 0 = .ok name := rfl
    rw [hv, Out.ok_bind]
    unfold initGfs
    dsimp only
    rw [h6, e]
    rfl

theorem type_stored (own : Opts) {ty : RDT} (h : ty ≠ .unknown) :
    Opts.get (outOpts .double own (wholeOpts ty) true) kTypeOut = some (rdtToString ty.code) := by
  have hk : kTypeOut ≠ kIncNodata := by decide
  have h1 : Opts.get (Opts.copyInto (wholeOpts ty) own) kTypeOut = some (rdtToString ty.code) := by
    have : Opts.copyInto (wholeOpts ty) own = Opts.set (Opts.set own kTypeOut (rdtToString ty.code)) kIncNodata "TRUE".toList := rfl
    rw [this, Opts.get_set, if_neg hk, Opts.get_set, if_pos rfl]
  have h2 : stringMatch "Unknown".toList (rdtToString ty.code) = false := by
    cases ty
    · exact absurd rfl h
    all_goals decide +kernel
  unfold outOpts
  dsimp only
  rw [h1]
  dsimp only
  rw [h2, if_neg (by decide), Opts.get_set, if_neg hk, h1]

theorem type_mem (own : Opts) {ty : RDT} (h : ty ≠ .unknown) :
    ("DATATYPE_OUT".toList, rdtToString ty.code) ∈ outOpts .double own (wholeOpts ty) true := get_mem (type_stored own h)

theorem opts_sub (own : Opts) {ty : RDT} (h : ty ≠ .unknown) : ∀ k v, (k, v) ∈ wholeOpts ty → (k, v) ∈ outOpts .double own (wholeOpts ty) true := by
  intro k v hkv
  unfold wholeOpts at hkv
  simp only [List.mem_cons, List.not_mem_nil, or_false, Prod.mk.injEq] at hkv
  rcases hkv with ⟨rfl, rfl⟩ | ⟨rfl, rfl⟩
  · exact type_mem own h
  · exact inc_mem .double own _

/-- A raster with one layer is stored, and found under any selection of its options. -/
theorem store_whole_any {rnd : ℚ → ℚ} (hrnd : ∀ v, CCGL.Spec.Representable .float v → rnd v = v) {st : Store} {j : Job} {jd : JobDb} {r : Raster} {h : Header}
    {v : Int → Int → ℚ} (hr : Shows r h v) (hh : r.hdr.noData = h.noData) (ho : BucketOut st j jd h)
    (hv : ∀ row col, h.grid.CellInside row col → Fits j.type (v row col)) :
    ∃ st' ok, outputToMongo rnd .double jd.rm jd.att st r jd.own jd.core (storedName j.out) (jobOpts true j.type) true =
        .ok (r, outOpts .double jd.own (wholeOpts j.type) true, st', ok) ∧
      (ok = true ↔ ∃ i, i < 4 ∧ (jd.att i).reported = true) ∧
      (∀ R : CCGL.Spec.Key, R.name ≠ storedName j.out → CCGL.Spec.filesOf st' R = CCGL.Spec.filesOf st R) ∧
      (ok = true → ∀ ropts, CCGL.Spec.GoodKey ⟨storedName j.out, inOpts ropts⟩ →
        (∀ k x, (k, x) ∈ inOpts ropts → (k, x) ∈ outOpts .double jd.own (wholeOpts j.type) true) →
        (∀ f ∈ st, CCGL.Spec.Has f ⟨storedName j.out, inOpts ropts⟩ → CCGL.Spec.Has f ⟨storedName j.out, outOpts .double jd.own (wholeOpts j.type) true⟩) →
        HoldsGrid rnd st' (storedName j.out) (inOpts ropts) h v) ∧
      (ok = false → CCGL.Spec.filesOf st' ⟨storedName j.out, wholeOpts j.type⟩ = []) := by
  have hgr := hr.grid
  unfold Header.grid at hgr
  injection hgr with g1 g2 g3 g4 g5
  obtain ⟨cells, e1, hlen, hcell⟩ := C10_stream hr.built ⟨built_valid hr.built hr.cells, fun _ => hr.cells⟩
  have hly : r.hdr.layers = 1 := by rw [hr.built.hdrOk.lyrs, hr.lyrs]
  have hH : ({ r.hdr with cellsnum := r.hdr.rows * r.hdr.cols } : Header) = { h with layers := 1, cellsnum := h.rows * h.cols } := by
    dsimp only
    rw [g1, g2, g3, g4, g5, hh, hly]
  have hrow : RowByRow h v cells := by
    refine ⟨by rw [hlen, hr.lyrs, g1, g2, one_mul], ?_⟩
    intro row col hin
    obtain ⟨x, x1, x2⟩ := hcell row col 0 hin.1 (by rw [g1]; exact hin.2.1) hin.2.2.1 (by rw [g2]; exact hin.2.2.2) (by rw [hr.lyrs]; decide)
    have hx := hr.val row col hin
    have : ((0 : Nat) : Int) + 1 = 1 := rfl
    rw [this, hx] at x1
    injection x1 with x1
    rw [hr.lyrs, g2] at x2
    rw [x1, ← x2]
    congr 1
    simp
  have hcells : ∀ x ∈ cells, CCGL.Spec.Representable .double x ∧ CCGL.Spec.Representable j.type x := by
    intro x hx
    obtain ⟨i, hi, rfl⟩ := List.getElem_of_mem hx
    have hC : 0 < h.cols := by
      have hN := ho.header.cellsnum
      have hC0 := ho.header.cols.1
      dsimp only at hN hC0
      rcases lt_or_eq_of_le hC0 with q | q
      · exact q
      · rw [← q] at hN; simp at hN
    have hiN : (i : Int) < h.rows * h.cols := by rw [← hrow.1]; exact_mod_cast hi
    have a1 : (i : Int) / h.cols < h.rows := Int.ediv_lt_of_lt_mul hC hiN
    have a0 : 0 ≤ (i : Int) / h.cols := Int.ediv_nonneg (by omega) hC.le
    have c0 := Int.emod_nonneg (i : Int) (by omega : h.cols ≠ 0)
    have c1 := Int.emod_lt_of_pos (i : Int) hC
    have hin : h.grid.CellInside ((i : Int) / h.cols) ((i : Int) % h.cols) := ⟨a0, a1, c0, c1⟩
    have := hrow.2 _ _ hin
    rw [Int.ediv_mul_add_emod, Int.toNat_natCast, List.getElem?_eq_getElem hi] at this
    injection this with this
    rw [this]
    exact hv _ _ hin
  have hwt : CCGL.Spec.withType .double (outOpts .double jd.own (wholeOpts j.type) true) = outOpts .double jd.own (wholeOpts j.type) true := by
    unfold CCGL.Spec.withType; rw [if_pos ⟨_, type_mem jd.own ho.type.1⟩]
  have hTO : CCGL.Spec.StorableAs .double j.type := .inr ho.type
  have hO : stringToRdt (rdtToString j.type.code) = j.type := C25_roundtrip j.type
  have hlen' : (cells.length : Int) = (h.rows * h.cols) * 1 := by rw [hrow.1, mul_one]
  obtain ⟨st1, okb, n, info, w1, w2, -, -, w5, w6⟩ := write_step (rnd := rnd) hrnd (T := .double) (O := j.type) (rm := jd.rm) (att := jd.att) st
    (name := storedName j.out) (h := { h with layers := 1, cellsnum := h.rows * h.cols }) (cells := cells)
    (opts := outOpts .double jd.own (wholeOpts j.type) true) (ty := rdtToString j.type.code) (by rw [hwt]; exact ho.key) ho.header
    (by rw [hwt]; exact type_mem jd.own ho.type.1) hO hTO hcells ho.rm ho.att
  obtain ⟨st2, okb2, z1, z2, z3⟩ := store_read (rnd := rnd) hrnd (T := .double) (O := j.type) (T' := .double) (rm := jd.rm) (att := jd.att) (st := st)
    (own := jd.own) (opts := wholeOpts j.type) (core := jd.core) (name := storedName j.out) (file := storedName j.out)
    (ty := rdtToString j.type.code) e1 rfl (by rw [if_neg (by unfold storedName; simp)]) (by rw [hH]; exact ho.header) ho.key
    (type_mem jd.own ho.type.1) hO hTO (fun x hx => ⟨(hcells x hx).1, (hcells x hx).2, (hcells x hx).1⟩) (by rw [hH]; exact hlen') ho.rm ho.att
  have z1' := z1
  unfold outputToMongo at z1'
  rw [e1, Out.ok_bind] at z1'
  dsimp only at z1'
  rw [if_neg (by unfold storedName; simp), hH, w1, Out.ok_bind] at z1'
  simp only [Out.pure_eq, Out.ok.injEq, Prod.mk.injEq, true_and] at z1'
  obtain ⟨y1, y2⟩ := z1'
  subst y1 y2
  refine ⟨st1, okb, z1, z2, w5, ?_, ?_⟩
  · intro hok ropts k1 k2 k3
    refine ⟨ho.header, ?_⟩
    intro ok1 ok2 h1 h2
    obtain ⟨hm, sm, q1, q2, q3⟩ := z3 hok ropts k1 k2 k3 ok1 ok2 h1 h2
    rw [hH] at q2
    exact ⟨cells, hm, sm, q1, q2, q3, hrow⟩
  · intro hok
    have := w6 ⟨storedName j.out, wholeOpts j.type⟩ rfl (by rw [hwt]; exact opts_sub jd.own ho.type.1) (by rw [hwt]; exact ho.old)
    rw [hok] at this
    exact this

/-- A raster with one layer is stored. -/
theorem store_whole {rnd : ℚ → ℚ} (hrnd : ∀ v, CCGL.Spec.Representable .float v → rnd v = v) {st : Store} {j : Job} {jd : JobDb} {r : Raster} {h : Header}
    {v : Int → Int → ℚ} (hr : Shows r h v) (hh : r.hdr.noData = h.noData) (ho : BucketOut st j jd h)
    (hv : ∀ row col, h.grid.CellInside row col → Fits j.type (v row col)) :
    ∃ st' ok, outputToMongo rnd .double jd.rm jd.att st r jd.own jd.core (storedName j.out) (jobOpts true j.type) true =
        .ok (r, outOpts .double jd.own (wholeOpts j.type) true, st', ok) ∧
      (ok = true ↔ ∃ i, i < 4 ∧ (jd.att i).reported = true) ∧
      (∀ R : CCGL.Spec.Key, R.name ≠ storedName j.out → CCGL.Spec.filesOf st' R = CCGL.Spec.filesOf st R) ∧
      (ok = true → HoldsGrid rnd st' (storedName j.out) (wholeOpts j.type) h v) ∧
      (ok = false → CCGL.Spec.filesOf st' ⟨storedName j.out, wholeOpts j.type⟩ = []) := by
  obtain ⟨st', ok, e1, e2, e3, e4, e5⟩ := store_whole_any hrnd hr hh ho hv
  have hgw : CCGL.Spec.GoodKey ⟨storedName j.out, wholeOpts j.type⟩ := by
    refine ⟨ho.key.name, ?_, fun k x hk => ho.key.key k x (opts_sub jd.own ho.type.1 k x hk), fun k x hk => ho.key.val k x (opts_sub jd.own ho.type.1 k x hk)⟩
    show [("DATATYPE_OUT".toList), ("INCLUDE_NODATA".toList)].Nodup
    decide
  refine ⟨st', ok, e1, e2, e3, fun hok => ?_, e5⟩
  have hin := inOpts_job j.type
  rw [jobOpts_true] at hin
  have := e4 hok (wholeOpts j.type) (by rw [hin]; exact hgw) (by rw [hin]; exact opts_sub jd.own ho.type.1) (by rw [hin]; exact ho.old)
  rw [hin] at this
  exact this

theorem shows_rename {r : Raster} {h : Header} {v : Int → Int → ℚ} (H : Shows r h v) (upd : Bool) (new : ℚ) :
    ∃ r', (if upd then r.replaceNoData new else .ok r : Out Raster) = .ok r' ∧ r'.hdr.noData = renamedNd upd h.noData new ∧
      Shows r' { h with noData := renamedNd upd h.noData new } (fun row col => renamed upd h.noData new (v row col)) := by
  obtain ⟨r', e, k1, k2, k3, k4, k5, k6, k7⟩ := rename_step H.built upd new
  refine ⟨r', e, by rw [k5, H.nodata], ⟨k1, by rw [k2]; exact H.cells, by rw [k3]; exact H.one, by rw [k4]; exact H.lyrs, ?_, ?_, ?_⟩⟩
  · rw [k5]; exact H.grid
  · rw [k6, H.nodata]
  · intro row col hin
    obtain ⟨x, x1, x2⟩ := k7 row col 1
    rw [H.val row col hin] at x1
    injection x1 with x1
    rw [x2, ← x1, H.nodata]

/-- The end of a job of the mode MASK whose result is stored. -/
theorem finish_store {sys : Sys} (hrnd : ∀ v, CCGL.Spec.Representable .float v → sys.rnd v = v) {d : Disk} {st : Store} {mask mask' : Option RasterS}
    {j : Job} {jd : JobDb} {r : Raster} {h : Header} {v : Int → Int → ℚ} (hr : Shows r h v) (hout : j.outFmt = .gfs) (hre : j.recls = false)
    (ho : BucketOut st j jd { h with noData := renamedNd j.update h.noData j.nodata.toQ })
    (hv : ∀ row col, h.grid.CellInside row col → Fits j.type (renamed j.update h.noData j.nodata.toQ (v row col))) :
    ∃ st' ok, finishJobDb sys true .mask (d, st, mask) (j, jd) (some ⟨r, []⟩, mask') = .ok (d, st', mask') ∧
      (ok = true ↔ ∃ i, i < 4 ∧ (jd.att i).reported = true) ∧
      (∀ R : CCGL.Spec.Key, R.name ≠ storedName j.out → CCGL.Spec.filesOf st' R = CCGL.Spec.filesOf st R) ∧
      (ok = true → HoldsGrid sys.rnd st' (storedName j.out) (wholeOpts j.type) { h with noData := renamedNd j.update h.noData j.nodata.toQ }
        (fun row col => renamed j.update h.noData j.nodata.toQ (v row col))) ∧
      (ok = false → CCGL.Spec.filesOf st' ⟨storedName j.out, wholeOpts j.type⟩ = []) := by
  obtain ⟨r', e, hn, hs⟩ := shows_rename hr j.update j.nodata.toQ
  obtain ⟨st', ok, e1, e2, e3, e4, e5⟩ := store_whole hrnd hs hn ho hv
  refine ⟨st', ok, ?_, e2, e3, e4, e5⟩
  unfold finishJobDb
  dsimp only
  rw [e]
  simp only [Out.ok_bind, hre, Bool.false_eq_true, if_false, Out.pure_eq]
  rw [if_neg (by rw [hout]; simp), if_pos hout]
  unfold writeJobDb
  rw [hre]
  have q1 : outSubset .mask = false := by decide
  have q2 : outAll .mask = true := by decide
  rw [q1, q2]
  simp only [Bool.false_eq_true, if_false, if_true, Out.pure_eq, Out.ok_bind]
  unfold storedName at e1
  rw [e1]
  rfl

/-- The end of a job of the mode MASK whose result is written to a file. -/
theorem finish_file {sys : Sys} {d : Disk} {st : Store} {mask mask' : Option RasterS} {j : Job} {jd : JobDb} {r : Raster} {h : Header}
    {v : Int → Int → ℚ} {inc : Bool} (hr : Shows r h v) (hout : j.outFmt = .sfile) (hre : j.recls = false) {p : Path} {dt core suf : Str}
    (ho : j.out = dt ++ core ++ '.' :: suf) (hn : OutName sys.env (sys.fmt j.type) d p dt core suf)
    (hh : CarriesHeader suf { h with noData := renamedNd j.update h.noData j.nodata.toQ })
    (hv : ∀ row col, h.grid.CellInside row col → CarriesValue (sys.fmt j.type) suf (renamed j.update h.noData j.nodata.toQ (v row col)))
    (hnd : CarriesValue (sys.fmt j.type) suf (renamedNd j.update h.noData j.nodata.toQ)) :
    ∃ d', finishJobDb sys inc .mask (d, st, mask) (j, jd) (some ⟨r, []⟩, mask') = .ok (d', st, mask') ∧
      Rewritten d d' (fun q => q = p ++ [core ++ '.' :: suf]) ∧
      ReadsAs d' j.out { h with noData := renamedNd j.update h.noData j.nodata.toQ }
        (fun row col => renamed j.update h.noData j.nodata.toQ (v row col)) := by
  obtain ⟨r', e, hn', hs⟩ := shows_rename hr j.update j.nodata.toQ
  have hgr3 := hs.grid
  unfold Header.grid at hgr3
  injection hgr3 with g1 g2 g3 g4 g5
  have hch : CarriesHeader suf r'.hdr := by
    unfold CarriesHeader at hh ⊢
    rw [g1, g2, g3, g4, g5, hn']
    exact hh
  obtain ⟨d', w, o1, o2, o3, o4⟩ := write_whole hs.built hs.cells hs.one hs.lyrs [] hn hch (by
    intro row col x hin hx
    rw [hs.grid] at hin
    rw [hs.val row col hin] at hx
    injection hx with hx
    rw [← hx]
    exact hv row col hin) (by rw [hs.nodata]; exact hnd)
  refine ⟨d', ?_, o2, ?_⟩
  · unfold finishJobDb
    dsimp only
    rw [e]
    simp only [Out.ok_bind, hre, Bool.false_eq_true, if_false, Out.pure_eq]
    rw [if_pos hout]
    unfold writeJob
    rw [if_neg (by rw [hout]; simp), hre]
    have q1 : outSubset .mask = false := by decide
    have q2 : outAll .mask = true := by decide
    rw [q1, q2]
    simp only [Bool.false_eq_true, if_false, if_true, Out.pure_eq, Out.ok_bind]
    rw [ho, o1]
    rfl
  · rw [ho]
    refine ReadsAs.change o3 hs.grid.symm hn'.symm ?_
    intro row col hin
    have a := o4 row col hin
    rw [hs.grid] at hin
    rw [hs.val row col hin] at a
    injection a

theorem fits_filled {ty hR vR dv upd new} (h : FitsAll ty hR vR dv upd new) {i j : Int} (hij : hR.grid.CellInside i j) :
    Fits ty (filled dv hR.noData (vR i j)) := by
  unfold filled
  split
  · exact h.dflt
  · exact h.cells i j hij

theorem fits_masked {ty hM vM hR vR dv upd new row col w} (h : FitsAll ty hR vR dv upd new)
    (hw : MaskedCell hM vM hR vR dv row col w) : Fits ty (renamed upd hR.noData new w) := by
  unfold renamed
  split
  · next hu => exact h.new hu.1
  · by_cases hv : HasValue hM vM row col
    · by_cases hx : ∃ i j, SameCell hR hM i j row col
      · obtain ⟨i, j, hij⟩ := hx
        rw [hw.taken hv i j hij]
        exact fits_filled h hij.1
      · rw [hw.none (.inr hx)]; exact h.nodata
    · rw [hw.none (.inl hv)]; exact h.nodata

/-- What a job of the mode MASK leaves in the bucket: if one of the four attempts to write succeeds, the grid under the name with `0_` in front
of it; if none does, no file with this name and these options, even if there was one before. All other files stay. -/
def Spec.StoredResult (sys : Sys) (st st' : Store) (j : Job) (jd : JobDb) (h : Header) (v : Int → Int → ℚ) : Prop :=
  (∀ R : CCGL.Spec.Key, R.name ≠ storedName j.out → CCGL.Spec.filesOf st' R = CCGL.Spec.filesOf st R) ∧
  ((∃ i, i < 4 ∧ (jd.att i).reported = true) → HoldsGrid sys.rnd st' (storedName j.out) (wholeOpts j.type) h v) ∧
  ((∀ i, i < 4 → (jd.att i).reported = false) → CCGL.Spec.filesOf st' ⟨storedName j.out, wholeOpts j.type⟩ = [])

/-- C87: a job of the mode MASK with a mask, whose input is a file or a grid in the bucket and whose output goes to the bucket, stores
the grid of the mask, where each cell has the value demanded by `MaskedCell` (NoData renamed if asked for). The disk does not change. -/
theorem C87_mask_store_partial (sys : Sys) (hrnd : ∀ v, CCGL.Spec.Representable .float v → sys.rnd v = v) {d : Disk} {st : Store} {m : Raster}
    {hM hR : Header} {vM vR : Int → Int → ℚ} (hm : IsMask m hM vM) {j : Job} {jd : JobDb} (H : Input sys d st j jd hR vR)
    (hg : CCGL.Spec.CommonGrid hR hM) (hov : Overlaps hM vM hR) (hout : j.outFmt = .gfs) (hre : j.recls = false)
    (ho : BucketOut st j jd { hM with noData := renamedNd j.update hR.noData j.nodata.toQ })
    (hf : FitsAll j.type hR vR j.default.toQ j.update j.nodata.toQ) :
    ∃ (st' : Store) (m' : Raster) (w : Int → Int → ℚ), layerJobDb sys true .mask (d, st, some ⟨m, []⟩) (j, jd) = .ok (d, st', some ⟨m', []⟩) ∧ IsMask m' hM vM ∧
      (∀ row col, hM.grid.CellInside row col → MaskedCell hM vM hR vR j.default.toQ row col (w row col)) ∧
      StoredResult sys st st' j jd { hM with noData := renamedNd j.update hR.noData j.nodata.toQ }
        (fun row col => renamed j.update hR.noData j.nodata.toQ (w row col)) := by
  obtain ⟨r, m', w, e, k1, k2, k3, -⟩ := input_masked hm H hg hov .mask
  obtain ⟨st', ok, e1, e2, e3, e4, e5⟩ := finish_store (sys := sys) hrnd (d := d) (st := st) (mask := some ⟨m, []⟩) (mask' := some ⟨m', []⟩)
    (j := j) (jd := jd) k2 hout hre ho (fun row col hin => by
      have := fits_masked hf (k3 row col hin)
      exact this)
  refine ⟨st', m', w, by rw [e, e1], k1, k3, e3, fun h => e4 (e2.2 h), fun h => e5 ?_⟩
  cases ok
  · rfl
  · obtain ⟨i, hi, a⟩ := e2.1 rfl
    rw [h i hi] at a; cases a

/-- C87: the same without a mask: the input itself is stored (NoData renamed if asked for). -/
theorem C87_plain_store_partial (sys : Sys) (hrnd : ∀ v, CCGL.Spec.Representable .float v → sys.rnd v = v) {d : Disk} {st : Store}
    {hR : Header} {vR : Int → Int → ℚ} {j : Job} {jd : JobDb} (H : Input sys d st j jd hR vR) (hout : j.outFmt = .gfs) (hre : j.recls = false)
    (ho : BucketOut st j jd { hR with noData := renamedNd j.update hR.noData j.nodata.toQ })
    (hf : FitsAll j.type hR vR j.default.toQ j.update j.nodata.toQ) :
    ∃ st', layerJobDb sys true .mask (d, st, none) (j, jd) = .ok (d, st', none) ∧
      StoredResult sys st st' j jd { hR with noData := renamedNd j.update hR.noData j.nodata.toQ }
        (fun row col => renamed j.update hR.noData j.nodata.toQ (vR row col)) := by
  obtain ⟨r, e, k, -⟩ := input_plain H .mask
  obtain ⟨st', ok, e1, e2, e3, e4, e5⟩ := finish_store (sys := sys) hrnd (d := d) (st := st) (mask := none) (mask' := none)
    (j := j) (jd := jd) k hout hre ho (fun row col hin => by
      unfold renamed
      split
      · next hu => exact hf.new hu.1
      · exact hf.cells row col hin)
  refine ⟨st', by rw [e, e1], e3, fun h => e4 (e2.2 h), fun h => e5 ?_⟩
  cases ok
  · rfl
  · obtain ⟨i, hi, a⟩ := e2.1 rfl
    rw [h i hi] at a; cases a

/-- C87: with a mask, and the output goes to a file: as C77_mask_job, also for an input in the bucket. The bucket does not change. -/
theorem C87_mask_file (sys : Sys) {d : Disk} {st : Store} {m : Raster} {hM hR : Header} {vM vR : Int → Int → ℚ} (hm : IsMask m hM vM) {j : Job}
    {jd : JobDb} (H : Input sys d st j jd hR vR) (hg : CCGL.Spec.CommonGrid hR hM) (hov : Overlaps hM vM hR)
    (hout : j.outFmt = .sfile) (hre : j.recls = false) {p : Path} {dt core suf : Str} (ho : j.out = dt ++ core ++ '.' :: suf)
    (hn : OutName sys.env (sys.fmt j.type) d p dt core suf)
    (hh : CarriesHeader suf { hM with noData := renamedNd j.update hR.noData j.nodata.toQ })
    (hc : Carried (sys.fmt j.type) suf hR vR j.default.toQ j.update j.nodata.toQ) :
    ∃ (d' : Disk) (m' : Raster) (w : Int → Int → ℚ), layerJobDb sys true .mask (d, st, some ⟨m, []⟩) (j, jd) = .ok (d', st, some ⟨m', []⟩) ∧ IsMask m' hM vM ∧
      Rewritten d d' (fun q => q = p ++ [core ++ '.' :: suf]) ∧
      (∀ row col, hM.grid.CellInside row col → MaskedCell hM vM hR vR j.default.toQ row col (w row col)) ∧
      ReadsAs d' j.out { hM with noData := renamedNd j.update hR.noData j.nodata.toQ }
        (fun row col => renamed j.update hR.noData j.nodata.toQ (w row col)) := by
  obtain ⟨r, m', w, e, k1, k2, k3, -⟩ := input_masked hm H hg hov .mask
  obtain ⟨d', e1, e2, e3⟩ := finish_file (sys := sys) (d := d) (st := st) (mask := some ⟨m, []⟩) (mask' := some ⟨m', []⟩)
    (j := j) (jd := jd) k2 hout hre ho hn hh (fun row col hin => by
      have := carried_masked hc (k3 row col hin)
      exact this) (by
      have := carried_nd hc
      exact this)
  exact ⟨d', m', w, by rw [e, e1], k1, e2, k3, e3⟩

/-- C87: the same without a mask. -/
theorem C87_plain_file (sys : Sys) {d : Disk} {st : Store} {hR : Header} {vR : Int → Int → ℚ} {j : Job} {jd : JobDb}
    (H : Input sys d st j jd hR vR) (hout : j.outFmt = .sfile) (hre : j.recls = false) {p : Path} {dt core suf : Str}
    (ho : j.out = dt ++ core ++ '.' :: suf) (hn : OutName sys.env (sys.fmt j.type) d p dt core suf)
    (hh : CarriesHeader suf { hR with noData := renamedNd j.update hR.noData j.nodata.toQ })
    (hc : Carried (sys.fmt j.type) suf hR vR j.default.toQ j.update j.nodata.toQ) :
    ∃ d', layerJobDb sys true .mask (d, st, none) (j, jd) = .ok (d', st, none) ∧
      Rewritten d d' (fun q => q = p ++ [core ++ '.' :: suf]) ∧
      ReadsAs d' j.out { hR with noData := renamedNd j.update hR.noData j.nodata.toQ }
        (fun row col => renamed j.update hR.noData j.nodata.toQ (vR row col)) := by
  obtain ⟨r, e, k, -⟩ := input_plain H .mask
  obtain ⟨d', e1, e2, e3⟩ := finish_file (sys := sys) (d := d) (st := st) (mask := none) (mask' := none) (j := j) (jd := jd) k hout hre ho hn hh
    (fun row col hin => by
      unfold renamed
      split
      · next hu => exact hc.new hu.1
      · exact hc.cells row col hin) (carried_nd hc)
  exact ⟨d', by rw [e, e1], e2, e3⟩

end App
end CCGL
