import Verif.Lemmas.AppGfsCom
/-!
# The mode COM of `mask_rasterio` with files in GridFS (C88)
-/
namespace CCGL
namespace App
open Fs Disk Main Raster Gfs Disk.Spec App.Spec

/-- The inputs of the job contribute the pieces `ps`: files on the disk or in the bucket. -/
inductive Spec.ComPieces (sys : Sys) (d : Disk) (st : Store) (inc : Bool) (g : Groups) (j : Job) (jd : JobDb)
    (ps : List (Option (Int × (Int → Int → ℚ)))) : Prop
  | files (ins : List (Str × Path × Option (Int × (Int → Int → ℚ)))) : j.inFmt = .sfile → j.inputs = ins.map (·.1) →
      (∀ x ∈ ins, Gives d g x.1 x.2.1 x.2.2) → ps = ins.map (fun x => x.2.2) → ComPieces sys d st inc g j jd ps
  | bucket (ins : List (Str × Str × Option (Int × (Int → Int → ℚ)))) : DbIns sys.rnd st inc g j jd ins → ps = piecesOf ins →
      ComPieces sys d st inc g j jd ps

/-- The inputs are loaded. -/
theorem com_load {sys : Sys} {d : Disk} {st : Store} {m : RasterS} {hM : Header} {vM : Int → Int → ℚ} (hm : ComMask m hM vM) {inc : Bool} {j : Job}
    {jd : JobDb} {pieces : List (Option (Int × (Int → Int → ℚ)))} (H : ComPieces sys d st inc (byValue hM vM) j jd pieces)
    {ls ps G} (hC : m.ras.Compact ls ps) (hP : PartsOf ps G m.subs) (hasc : ∀ k, (G k).Pairwise (· < ·))
    (hgrp : ∀ k row col, byValue hM vM k row col ↔ ∃ i ∈ G k, posAt ps i = (row, col)) :
    ∃ subs, (if j.inFmt = .sfile then j.inputs.foldlM (comOne d) (m.subs.map (fun e => (e.1, { e.2 with usable := false })))
      else if j.inFmt = .gfs then do
        let z ← j.inputs.foldlM (comOneDb sys.rnd jd d st (jobOpts inc j.type)) (0, m.subs.map (fun e => (e.1, { e.2 with usable := false })))
        return z.2
      else .ok (m.subs.map (fun e => (e.1, { e.2 with usable := false }))) : Out (IMap Subset)) = .ok subs ∧ ComSubs ps G pieces subs ∧
      ∀ k w, some (k, w) ∈ pieces → Present (byValue hM vM) k := by
  have hsort : ∀ k, ((G k).map (posAt ps)).Pairwise Before := fun k =>
    group_sorted (C := m.ras.hdr.cols) (fun a ha => (hC.inside a ha).2.2) hC.sorted (fun i hi => hP.lt hi) (hasc k)
  cases H with
  | files ins h1 h2 h3 h4 =>
    obtain ⟨subs, es, hs⟩ := comOne_all (d := d) hsort hgrp ins [] _ h3 (comMask_start hP hm.old)
    refine ⟨subs, by rw [if_pos h1, h2, es], by rw [h4]; simpa using hs, ?_⟩
    intro k w hk
    rw [h4] at hk
    obtain ⟨x, hx, he⟩ := List.mem_map.1 hk
    have hg := h3 x hx
    rw [he] at hg
    cases hg with
    | piece _ _ h _ _ _ => exact h
  | bucket ins h1 h2 =>
    obtain ⟨z, es, hs⟩ := comOneDb_all (rnd := sys.rnd) (d := d) (st := st) (jd := jd) (opts := jobOpts inc j.type) hsort hgrp
      (fun s hs => jobOpts_good inc j.type hs) ins 0 [] _ h1.name (fun i x hx => by rw [Nat.zero_add]; exact h1.gives i x hx) (comMask_start hP hm.old)
    refine ⟨z.2, ?_, by rw [h2]; simpa using hs, ?_⟩
    · rw [if_neg (by rw [h1.fmt]; decide), if_pos h1.fmt, h1.inputs, es]
      rfl
    · intro k w hk
      rw [h2] at hk
      obtain ⟨x, hx, he⟩ := List.mem_map.1 hk
      obtain ⟨i, hi, hix⟩ := List.getElem_of_mem hx
      have hg := h1.gives i x (by rw [List.getElem?_eq_getElem hi, hix])
      rw [he] at hg
      cases hg with
      | values _ h _ _ _ _ _ _ => exact h
      | box _ h _ _ _ _ _ _ _ => exact h

/-- C88: a job of the mode COM whose output goes to a file: as C79, also for pieces in the bucket. The bucket does not change. -/
theorem C88_file (sys : Sys) {inc : Bool} {d : Disk} {st : Store} {m : RasterS} {hM : Header} {vM : Int → Int → ℚ} (hm : ComMask m hM vM) {j : Job}
    {jd : JobDb} {pl : ComPlan} (hin : ComPieces sys d st inc (byValue hM vM) j jd pl.pieces) (hout : j.outFmt = .sfile)
    (H : ComOut sys d hM vM j pl) :
    ∃ d' m', comJobDb sys inc (d, st, m) (j, jd) = .ok (d', st, m') ∧ ComMask m' hM vM ∧ Rewritten d d' (ComTarget pl) ∧ ComDone d' hM vM j pl := by
  obtain ⟨ls, ps, G, hC, hP, hasc, hgrp⟩ := hm.cut
  obtain ⟨subs, es, hs, hpres⟩ := com_load hm hin hC hP hasc hgrp
  obtain ⟨b, d', e1, e2, e3⟩ := com_file sys hm H hC hgrp hpres hs
  refine ⟨d', ⟨{ m.ras with dflt := j.default.toQ }, subs⟩, ?_, ⟨hm.grid, hm.nd, hm.hnd, ⟨ls, ps, G, ?_, hs.part, hasc, hgrp⟩, hs.old⟩, e2, e3⟩
  · unfold comJobDb
    dsimp only
    rw [es, Out.ok_bind, if_pos hout, e1]
    rfl
  · exact ⟨hC.holds, hC.rows_nn, hC.cols_nn, hC.len, hC.ncells, hC.ne, hC.calcOn, hC.pd, hC.pi, hC.inside, hC.sorted⟩

theorem subOpts_eq (own : Opts) {ty : RDT} (h : ty ≠ .unknown) : subOpts .double own (wholeOpts ty) true = outOpts .double own (wholeOpts ty) true := by
  have hk : kTypeOut ≠ kIncNodata := by decide
  have h1 : Opts.get (Opts.copyInto (wholeOpts ty) own) kTypeOut = some (rdtToString ty.code) := by
    have : Opts.copyInto (wholeOpts ty) own = Opts.set (Opts.set own kTypeOut (rdtToString ty.code)) kIncNodata "TRUE".toList := rfl
    rw [this, Opts.get_set, if_neg hk, Opts.get_set, if_pos rfl]
  have h2 : stringMatch "Unknown".toList (rdtToString ty.code) = false := by
    cases ty
    · exact absurd rfl h
    all_goals decide +kernel
  have h3 : Opts.get (Opts.set (Opts.copyInto (wholeOpts ty) own) kIncNodata "TRUE".toList) kTypeOut = some (rdtToString ty.code) := by
    rw [Opts.get_set, if_neg hk, h1]
  unfold subOpts outOpts
  dsimp only
  rw [if_pos rfl, h3, h1]
  dsimp only
  rw [h2, if_neg (by decide), if_neg (by decide)]

/-- The cells of a grid are stored. -/
theorem store_cells {rnd : ℚ → ℚ} (hrnd : ∀ v, CCGL.Spec.Representable .float v → rnd v = v) {st : Store} {j : Job} {jd : JobDb} {h : Header}
    {v : Int → Int → ℚ} {cells : List ℚ} (hrow : RowByRow h v cells) (ho : BucketOut st j jd h)
    (hv : ∀ row col, h.grid.CellInside row col → Fits j.type (v row col)) :
    ∃ st' ok n, writeGridfs rnd .double jd.rm jd.att st (storedName j.out) (headerMap { h with layers := 1, cellsnum := h.rows * h.cols })
        (some cells) cells.length (outOpts .double jd.own (wholeOpts j.type) true) = .ok (st', ok, n) ∧
      (ok = true ↔ ∃ i, i < 4 ∧ (jd.att i).reported = true) ∧
      (∀ R : CCGL.Spec.Key, R.name ≠ storedName j.out → CCGL.Spec.filesOf st' R = CCGL.Spec.filesOf st R) ∧
      (ok = true → HoldsGrid rnd st' (storedName j.out) (wholeOpts j.type) h v) ∧
      (ok = false → CCGL.Spec.filesOf st' ⟨storedName j.out, wholeOpts j.type⟩ = []) := by
  have hcells : ∀ x ∈ cells, CCGL.Spec.Representable .double x ∧ CCGL.Spec.Representable j.type x := by
    intro x hx
    obtain ⟨i, hi, rfl⟩ := List.getElem_of_mem hx
    have hC : 0 < h.cols := by
      have hN := ho.header.cellsnum
      have hC0 := ho.header.cols.1
      dsimp only at hN hC0
      rcases lt_or_eq_of_le hC0 with q | q
      · exact q
      · rw [← q] at hN; simp at hN
    have hiN : (i : Int) < h.rows * h.cols := by rw [← hrow.1]; exact_mod_cast hi
    have a1 : (i : Int) / h.cols < h.rows := Int.ediv_lt_of_lt_mul hC hiN
    have a0 : 0 ≤ (i : Int) / h.cols := Int.ediv_nonneg (by omega) hC.le
    have c0 := Int.emod_nonneg (i : Int) (by omega : h.cols ≠ 0)
    have c1 := Int.emod_lt_of_pos (i : Int) hC
    have hin : h.grid.CellInside ((i : Int) / h.cols) ((i : Int) % h.cols) := ⟨a0, a1, c0, c1⟩
    have := hrow.2 _ _ hin
    rw [Int.ediv_mul_add_emod, Int.toNat_natCast, List.getElem?_eq_getElem hi] at this
    injection this with this
    rw [this]
    exact hv _ _ hin
  have hwt : CCGL.Spec.withType .double (outOpts .double jd.own (wholeOpts j.type) true) = outOpts .double jd.own (wholeOpts j.type) true := by
    unfold CCGL.Spec.withType; rw [if_pos ⟨_, type_mem jd.own ho.type.1⟩]
  have hTO : CCGL.Spec.StorableAs .double j.type := .inr ho.type
  have hO : stringToRdt (rdtToString j.type.code) = j.type := C25_roundtrip j.type
  have hlen' : (cells.length : Int) = (h.rows * h.cols) * 1 := by rw [hrow.1, mul_one]
  obtain ⟨st1, okb, n, info, w1, w2, -, -, w5, w6⟩ := write_step (rnd := rnd) hrnd (T := .double) (O := j.type) (rm := jd.rm) (att := jd.att) st
    (name := storedName j.out) (h := { h with layers := 1, cellsnum := h.rows * h.cols }) (cells := cells)
    (opts := outOpts .double jd.own (wholeOpts j.type) true) (ty := rdtToString j.type.code) (by rw [hwt]; exact ho.key) ho.header
    (by rw [hwt]; exact type_mem jd.own ho.type.1) hO hTO hcells ho.rm ho.att
  obtain ⟨st2, okb2, n2, z1, z2, z3⟩ := C28_file (rnd := rnd) hrnd (T := .double) (O := j.type) (T' := .double) (rm := jd.rm) (att := jd.att) (st := st)
    (name := storedName j.out) (h := { h with layers := 1, cellsnum := h.rows * h.cols }) (cells := cells)
    (opts := outOpts .double jd.own (wholeOpts j.type) true) (ty := rdtToString j.type.code) (by rw [hwt]; exact ho.key) ho.header
    (by rw [hwt]; exact type_mem jd.own ho.type.1) hO hTO (fun x hx => ⟨(hcells x hx).1, (hcells x hx).2, (hcells x hx).1⟩) hlen' ho.rm ho.att
  rw [w1] at z1
  simp only [Out.ok.injEq, Prod.mk.injEq] at z1
  obtain ⟨y1, y2, y3⟩ := z1
  subst y1 y2 y3
  have hgw : CCGL.Spec.GoodKey ⟨storedName j.out, wholeOpts j.type⟩ := wholeOpts_good j.type ho.key.name
  refine ⟨st1, okb, n, w1, z2, w5, ?_, ?_⟩
  · intro hok
    refine ⟨ho.header, ?_⟩
    intro ok1 ok2 h1 h2
    obtain ⟨hm, sm, q1, q2, q3⟩ := z3 hok ⟨storedName j.out, wholeOpts j.type⟩ hgw rfl (by rw [hwt]; exact opts_sub jd.own ho.type.1)
      (by rw [hwt]; exact ho.old) ok1 ok2 h1 h2
    obtain ⟨out, o1, -, o3⟩ := q3 kIncNodata "TRUE".toList (by rw [hwt]; exact inc_mem .double jd.own _)
    have o3 := o3 not_number_TRUE
    subst o3
    exact ⟨cells, hm, sm, q1, q2, o1, hrow⟩
  · intro hok
    have := w6 ⟨storedName j.out, wholeOpts j.type⟩ rfl (by rw [hwt]; exact opts_sub jd.own ho.type.1) (by rw [hwt]; exact ho.old)
    rw [hok] at this
    exact this

/-- C88: a job of the mode COM whose output goes to the bucket stores the grid of the mask with the values of the pieces (the last one for each
group; the default value for groups without one), if there is a piece at all. The disk does not change. -/
theorem C88_bucket_partial (sys : Sys) (hrnd : ∀ v, CCGL.Spec.Representable .float v → sys.rnd v = v) {d : Disk} {st : Store} {m : RasterS} {hM : Header}
    {vM : Int → Int → ℚ} (hm : ComMask m hM vM) {j : Job} {jd : JobDb} {pieces : List (Option (Int × (Int → Int → ℚ)))}
    (hin : ComPieces sys d st true (byValue hM vM) j jd pieces) (hany : ∃ x ∈ pieces, x ≠ none) (hout : j.outFmt = .gfs) (hne : j.out ≠ [])
    (ho : BucketOut st j jd hM) (hf : ∀ row col, hM.grid.CellInside row col → Fits j.type (comVal hM vM pieces j.default.toQ row col)) :
    ∃ st' m', comJobDb sys true (d, st, m) (j, jd) = .ok (d, st', m') ∧ ComMask m' hM vM ∧
      StoredResult sys st st' j jd hM (comVal hM vM pieces j.default.toQ) := by
  obtain ⟨ls, ps, G, hC, hP, hasc, hgrp⟩ := hm.cut
  obtain ⟨subs, es, hs, hpres⟩ := com_load hm hin hC hP hasc hgrp
  let r : Raster := { m.ras with dflt := j.default.toQ }
  have hCr : r.Compact ls ps := ⟨hC.holds, hC.rows_nn, hC.cols_nn, hC.len, hC.ncells, hC.ne, hC.calcOn, hC.pd, hC.pi, hC.inside, hC.sorted⟩
  obtain ⟨x, hx, hxn⟩ := hany
  obtain ⟨⟨k0, w0⟩, hx2⟩ := Option.ne_none_iff_exists'.1 hxn
  rw [hx2] at hx
  obtain ⟨F, f1, f2, f3, f4⟩ := com_prepare (r := r) hCr hs hm.grid hm.nd hgrp ⟨k0, lastPiece_mem.1 ⟨w0, hx⟩, hpres k0 w0 hx⟩
  have hgr := hm.grid
  unfold Header.grid at hgr
  injection hgr with g1 g2 g3 g4 g5
  have hrows : r.hdr.rows = hM.rows := g1
  have hcols : r.hdr.cols = hM.cols := g2
  have hrow : RowByRow hM (comVal hM vM pieces j.default.toQ) F := by
    refine ⟨by rw [f2, hrows, hcols], ?_⟩
    intro row col hc
    obtain ⟨a1, a2, a3, a4⟩ := hc
    have h2 : row < hM.rows := a2
    have h4 : col < hM.cols := a4
    have hr := f4 row col a1 (by rw [hrows]; exact h2) a3 (by rw [hcols]; exact h4)
    have hi := idx_range a1 h2 a3 h4
    rw [hcols] at hr
    obtain ⟨N, hN⟩ := Int.eq_ofNat_of_zero_le hi.1
    have hlt : N < F.length := by
      have := hi.2
      rw [hN] at this
      rw [hrows, hcols] at f2
      omega
    rw [hN] at hr ⊢
    rw [Int.toNat_natCast, List.getElem?_eq_getElem hlt]
    have hr' := hr
    change readAt (some F) ((N : Nat) : Int) = _ at hr'
    rw [readAt_some_nat _ N hlt] at hr'
    injection hr' with hr'
    rw [hr']
  obtain ⟨st', ok, n, w1, w2, w3, w4, w5⟩ := store_cells (rnd := sys.rnd) hrnd hrow ho hf
  have hH : ({ r.hdr with layers := 1, cellsnum := Int.tdiv (r.hdr.rows * r.hdr.cols) 1 } : Header) = { hM with layers := 1, cellsnum := hM.rows * hM.cols } := by
    have e1 : r.hdr.cellsize = hM.cellsize := g3
    have e2 : r.hdr.xll = hM.xll := g4
    have e3 : r.hdr.yll = hM.yll := g5
    have e4 : r.hdr.noData = hM.noData := hm.hnd
    rw [Int.tdiv_one]
    dsimp only
    rw [e1, e2, e3, e4, hrows, hcols]
  have hout' : outputSubsets sys.rnd .double (fun _ => jd.rm) (fun _ => jd.att) st ⟨r, subs⟩ jd.own jd.core j.out (jobOpts true j.type) true false true []
      NODATA = .ok (outOpts .double jd.own (wholeOpts j.type) true, st', ok) := by
    unfold outputSubsets
    dsimp only
    rw [if_neg (by rw [show r.validData = true from Raster.Holds.valid hCr.holds]; simp), if_neg f3, if_pos rfl, if_neg hne, f1, Out.ok_bind]
    dsimp only
    rw [if_neg (by decide), hH, jobOpts_true, subOpts_eq jd.own ho.type.1]
    rw [show r.hdr.rows * r.hdr.cols = (F.length : Int) from f2.symm]
    have : "0_".toList ++ j.out = storedName j.out := rfl
    rw [this, w1]
    rfl
  refine ⟨st', ⟨r, subs⟩, ?_, ⟨hm.grid, hm.nd, hm.hnd, ⟨ls, ps, G, hCr, hs.part, hasc, hgrp⟩, hs.old⟩, w3, fun h => w4 (w2.2 h), fun h => w5 ?_⟩
  · unfold comJobDb
    dsimp only
    rw [es, Out.ok_bind, if_neg (by rw [hout]; decide), if_pos hout]
    have := hout'
    simp only [r] at this
    rw [this]
    rfl
  · cases ok
    · rfl
    · obtain ⟨i, hi, a⟩ := w2.1 rfl
      rw [h i hi] at a; cases a

/-- C88 is false if nothing contributes: a job of the mode COM with output to the bucket then has undefined behaviour (an uninitialised number
is divided by), while the same job with output to a file writes nothing. -/
theorem C88_false_nothing (sys : Sys) {inc : Bool} {d : Disk} {st : Store} {m : RasterS} {hM : Header} {vM : Int → Int → ℚ} (hm : ComMask m hM vM)
    (hval : ∃ row col, HasValue hM vM row col) {j : Job} {jd : JobDb} {pieces : List (Option (Int × (Int → Int → ℚ)))}
    (hin : ComPieces sys d st inc (byValue hM vM) j jd pieces) (hnone : ∀ x ∈ pieces, x = none) (hout : j.outFmt = .gfs) :
    comJobDb sys inc (d, st, m) (j, jd) = .ub := by
  obtain ⟨ls, ps, G, hC, hP, hasc, hgrp⟩ := hm.cut
  obtain ⟨subs, es, hs, -⟩ := com_load hm hin hC hP hasc hgrp
  let r : Raster := { m.ras with dflt := j.default.toQ }
  have hCr : r.Compact ls ps := ⟨hC.holds, hC.rows_nn, hC.cols_nn, hC.len, hC.ncells, hC.ne, hC.calcOn, hC.pd, hC.pi, hC.inside, hC.sorted⟩
  have hl : ∀ k, lastPiece pieces k = none := by
    intro k
    by_contra h
    obtain ⟨w, hw⟩ := lastPiece_mem.2 h
    cases hnone _ hw
  have hsub : subs ≠ [] := by
    intro h
    obtain ⟨row, col, hv⟩ := hval
    obtain ⟨i, hi, -⟩ := (hgrp (truncQ (vM row col)) row col).1 ⟨hv, rfl⟩
    rw [hs.part.none _ (by rw [h]; exact IMap.get_nil _)] at hi
    cases hi
  unfold comJobDb
  dsimp only
  rw [es, Out.ok_bind, if_neg (by rw [hout]; decide), if_pos hout]
  have := com_nothing (r := r) hs hl inc
  unfold outputSubsets
  dsimp only
  rw [if_neg (by rw [show ({ m.ras with dflt := j.default.toQ } : Raster).validData = true from Raster.Holds.valid hCr.holds]; simp), if_neg hsub, if_pos rfl]
  simp only [r] at this
  rw [this]
  rfl

end App
end CCGL
