import Verif.Lemmas.GfsSubset
/-!
# C70: subsets stored in GridFS
-/
namespace CCGL
namespace Gfs
open Spec Gtiff Raster

open Classical in
theorem getFile_eq {K : Key} (hg : GoodKey K) (ok : Nat → Bool) (st : Store) : getFile ok st K.name K.opts =
    .ok (if ∃ i, i < 5 ∧ ok i = true then (filesOf st K).head? else none) := by
  by_cases h : ∃ i, i < 5 ∧ ok i = true
  · rw [if_pos h, getFile_spec hg ok h]
  · rw [if_neg h]
    obtain ⟨flt, e1, hf⟩ := filter_spec hg
    unfold getFile
    rw [e1, Out.ok_bind, findLoop_spec, if_neg (fun ⟨i, a, b, c⟩ => h ⟨i, by omega, c⟩), Out.pure_eq]

theorem readGridfs_congr {K : Key} (hg : GoodKey K) {rnd : ℚ → ℚ} {T : RDT} {ok1 ok2 : Nat → Bool} {rd : Bool} {st st' : Store} {h : HMap} {s : SMap}
    (he : filesOf st' K = filesOf st K) :
    readGridfs rnd T ok1 rd ok2 st' K.name h s K.opts = readGridfs rnd T ok1 rd ok2 st K.name h s K.opts := by
  unfold readGridfs getStreamData getFileMetadata
  rw [getFile_eq hg, getFile_eq hg, getFile_eq hg, getFile_eq hg, he]

theorem readGridfs_none {K : Key} (hg : GoodKey K) {rnd : ℚ → ℚ} {T : RDT} {ok1 ok2 : Nat → Bool} {rd : Bool} {st : Store} {h : HMap} {s : SMap}
    (he : filesOf st K = []) : readGridfs rnd T ok1 rd ok2 st K.name h s K.opts = .ok none := by
  unfold readGridfs getStreamData
  rw [getFile_eq hg, he]
  simp only [List.head?_nil, ite_self, Out.ok_bind, Out.pure_eq]

theorem digits_no_nul (n : Nat) : Char.ofNat 0 ∉ natToDec n := by
  induction n using Nat.strongRecOn with
  | _ n ih =>
    have hd : ∀ m, m < 10 → Char.ofNat 0 ≠ digitChar m := by decide
    rw [natToDec]
    split
    · rename_i h
      simpa using hd n h
    · simp only [List.mem_append, List.mem_singleton, not_or]
      exact ⟨ih _ (by omega), hd _ (by omega)⟩

theorem good_subFile {name : Str} {o : Opts} (h : GoodKey ⟨name, o⟩) (k : Int) : GoodKey ⟨subFile k name, o⟩ := by
  refine ⟨?_, h.nodup, h.key, h.val⟩
  have h0 : Char.ofNat 0 ∉ intToDec k := by
    cases k with
    | ofNat n => exact digits_no_nul n
    | negSucc n =>
      show Char.ofNat 0 ∉ '-' :: natToDec (n + 1)
      simp only [List.mem_cons, not_or]
      exact ⟨by decide, digits_no_nul _⟩
  have := h.name
  unfold subFile
  simp only [List.mem_append, List.mem_cons, not_or]
  exact ⟨h0, by decide, this⟩

theorem storable_noData {h : Header} (hs : StorableHeader h) (x : ℚ) : StorableHeader { h with noData := x } :=
  ⟨hs.rows, hs.cols, hs.layers, hs.cellsnum, hs.count, hs.cellsize, hs.xll, hs.yll⟩

theorem kType_of {T : RDT} {o : Opts} {ty : Str} (h : (kTypeOut, ty) ∈ o) : withType T o = o := by
  unfold withType; rw [if_pos ⟨ty, h⟩]

/-- C70: storing the subsets of a raster returns true in any case. File names other than those of the subsets are not
affected. Subsets are stored in order until a write fails. A subset written before can be read
back: exactly its cells, with the values of the raster in all layers, and it becomes usable. The subset whose write failed
cannot be read (its old file is lost); the subsets after it are not written, and reading them gives what
it gave before. -/
theorem C70_subsets_partial {rnd : ℚ → ℚ} (hrnd : ∀ v, Representable .float v → rnd v = v) {T O : RDT} {rms : Nat → Nat → Bool}
    {atts : Nat → Nat → Attempt} {st : Store} {r : Raster} (hb : Built r) {groups : List (Int × Int)} {rs' : RasterS} {b : Bool}
    (e : buildSubSet ⟨r, []⟩ groups = .ok (rs', b)) (hne : rs'.subs ≠ []) (h2 : r.is2d = true → 1 < r.nLyrs) {own opts : Opts} {core name file : Str}
    (hfile : file = if name = [] then core else name) {inc : Bool} {dv : ℚ} {ty : Str}
    (hg : GoodKey ⟨file, subOpts T own opts inc⟩) (hty : ("DATATYPE_OUT".toList, ty) ∈ subOpts T own opts inc) (hO : stringToRdt ty = O)
    (hTO : StorableAs T O) (hs : ∀ k s, rs'.subs.get k = some s → StorableHeader (subsetHeader rs'.ras s inc))
    (hv : ∀ row col lyr v, 0 ≤ row → row < r.hdr.rows → 0 ≤ col → col < r.hdr.cols → 1 ≤ lyr → lyr ≤ r.nLyrs →
      r.getValue row col lyr = .ok v → Representable T v ∧ Representable O v ∧ Representable .double v)
    (hnd : Representable T r.noData ∧ Representable O r.noData ∧ Representable .double r.noData)
    (hrm : ∀ i j, rms i j = true) (hatt : ∀ i j, CleanAttempt (atts i j)) :
    ∃ st', outputSubsets rnd T rms atts st rs' own core name opts inc true false [] dv = .ok (subOpts T own opts inc, st', true) ∧
      (∀ R : Key, (∀ k s, rs'.subs.get k = some s → R.name ≠ subsetFile k file) → filesOf st' R = filesOf st R) ∧
      ∀ n k s, rs'.subs[n]? = some (k, s) → ∀ ropts, GoodKey ⟨subsetFile k file, ropts⟩ →
        (∀ x y, (x, y) ∈ ropts → (x, y) ∈ subOpts T own opts inc) →
        (∀ f ∈ st, Has f ⟨subsetFile k file, ropts⟩ → Has f ⟨subsetFile k file, subOpts T own opts inc⟩) →
        ((∀ m, m ≤ n → Written atts m) → ∀ ok1 ok2 : Nat → Bool, (∃ i, i < 5 ∧ ok1 i = true) → (∃ i, i < 5 ∧ ok2 i = true) →
          ∃ s', readSubset rnd ok1 true ok2 st' s (subsetFile k file) ropts = .ok (s', true) ∧ SameCells s s' ∧ s'.usable = true ∧
            s'.nLyrs = r.nLyrs ∧ ∀ (j : Nat) (l lr lc : Int), readAt s.localPos j = .ok (lr, lc) → 0 ≤ l → l < r.nLyrs →
              subsetCell s' r.nLyrs j l = r.getValue (s.srow + lr) (s.scol + lc) (l + 1)) ∧
        ((∀ m, m < n → Written atts m) → ¬ Written atts n → ∀ (ok1 ok2 : Nat → Bool) (rd : Bool),
          readSubset rnd ok1 rd ok2 st' s (subsetFile k file) ropts = .ok (s, false)) ∧
        ((∃ m, m < n ∧ ¬ Written atts m) → ∀ (ok1 ok2 : Nat → Bool) (rd : Bool),
          readSubset rnd ok1 rd ok2 st' s (subsetFile k file) ropts = readSubset rnd ok1 rd ok2 st s (subsetFile k file) ropts) := by
  have hsorted : (rs'.subs.map (·.1)).Pairwise (· < ·) := by
    obtain ⟨-, -, -, -, -, -, -, ⟨ls, ps, hC, hok⟩ | hn⟩ := build_cases2 hb e
    · exact hok.sorted
    · exact absurd hn hne
  have hvalid : rs'.ras.validData = true := by
    obtain ⟨-, -, -, -, -, -, -, ⟨ls, ps, hC, hok⟩ | hn⟩ := build_cases2 hb e
    · exact Holds.valid hC.holds
    · exact absurd hn hne
  have hny : rs'.ras.nLyrs = r.nLyrs := (build_cases2 hb e).2.2.2.1
  have hndr : rs'.ras.noData = r.noData := (build_cases2 hb e).2.2.1
  have hget : ∀ x ∈ rs'.subs, rs'.subs.get x.1 = some x.2 := fun x hx => (IMap.mem_iff_get _ hsorted _ _).1 hx
  have pay : ∀ k s, rs'.subs.get k = some s → ∃ h d s', s.usable = true ∧
      subPayload T rs'.ras k s true inc [] dv = .ok (some (h, some d, (d.length : Int))) ∧ StorableHeader h ∧ h.layers = r.nLyrs ∧
      h.cellsnum = storedCells s inc ∧ (d.length : Int) = h.cellsnum * h.layers ∧
      (∀ v ∈ d, Representable T v ∧ Representable O v ∧ Representable .double v) ∧
      s.readDb h.cellsnum h.layers (some d) = .ok (s', true) ∧ SameCells s s' ∧ s'.usable = true ∧ s'.nLyrs = r.nLyrs ∧
      ∀ (j : Nat) (l lr lc : Int), readAt s.localPos j = .ok (lr, lc) → 0 ≤ l → l < r.nLyrs →
        subsetCell s' r.nLyrs j l = r.getValue (s.srow + lr) (s.scol + lc) (l + 1) := by
    intro k s hk
    obtain ⟨hu, hL, d, s', p1, p2, p3, p4, p5⟩ := store_one hb groups e h2 inc dv hk
    refine ⟨{ subsetHeader rs'.ras s inc with noData := Gtiff.asDbl T rs'.ras.noData }, d, s', hu, ?_, storable_noData (hs k s hk) _, hny, rfl,
      ?_, ?_, ?_, p5⟩
    · unfold subPayload
      rw [p1, Out.ok_bind]
      dsimp only
      rw [if_neg (by omega), Int.mul_tdiv_cancel _ (by omega), p2, Out.pure_eq]
      congr 3
      unfold Subset.getHeader subsetHeader storedCells
      dsimp only
      rw [hny]
      congr 1
      · ring
      · push_cast; ring
    · show (d.length : Int) = storedCells s inc * rs'.ras.nLyrs
      rw [p2, hny]
    · intro v hv'
      rcases p3 v hv' with rfl | ⟨row, col, lyr, h1, h2, h3, h4, h5, h6, h7⟩
      · exact hnd
      · exact hv row col lyr v h1 h2 h3 h4 h5 h6 h7
    · show s.readDb (storedCells s inc) rs'.ras.nLyrs (some d) = _
      rw [hny]; exact p4
  obtain ⟨st', fl, l1, l2, l3⟩ := loop_true (rms := rms) (atts := atts) (r := rs'.ras) (dv := dv) (inc := inc) hrnd (good_subFile hg) (kType_of hty) hty hO hTO hrm hatt
    rs'.subs 0 st hsorted (fun x hx => by
      obtain ⟨h, d, s', q1, q2, q3, -, -, -, q4, -⟩ := pay _ _ (hget x hx)
      exact ⟨q1, h, d, q2, q3, fun v hv => ⟨(q4 v hv).1, (q4 v hv).2.1⟩⟩)
  refine ⟨st', ?_, ?_, ?_⟩
  · unfold outputSubsets
    rw [hvalid]
    simp only [Bool.not_true, Bool.false_eq_true, if_false]
    rw [if_neg hne, ← hfile, l1, Out.ok_bind]
    rfl
  · intro R hR
    exact l2 R (fun x hx => by rw [subFile_eq]; exact hR _ _ (hget x hx))
  · intro n k s hks ropts hgr hsub hst
    obtain ⟨hn, hn'⟩ := List.getElem?_eq_some_iff.1 hks
    have hk : rs'.subs.get k = some s := by
      have := hget _ (List.getElem_mem hn)
      rwa [hn'] at this
    obtain ⟨h, d, s', q1, q2, q3, q4, q5, q6, q7, q8, q9⟩ := pay k s hk
    obtain ⟨t1, t2, t3⟩ := l3 n hn ⟨subsetFile k file, ropts⟩ (by rw [hn', subFile_eq]) hsub hst
    simp only [Nat.zero_add] at t1 t2 t3
    refine ⟨fun hw ok1 ok2 hok1 hok2 => ?_, fun hw hnw ok1 ok2 rd => ?_, fun hex ok1 ok2 rd => ?_⟩
    · obtain ⟨info, u1, u2, u3⟩ := t1 hw h d (by rw [hn']; exact q2)
      obtain ⟨hm, sm, a1, a2, -⟩ := read_file (T := T) (T' := .double) hrnd q3 hty hO q7 q6 u1 u2 hgr rfl u3 hok1 hok2
      refine ⟨s', ?_, q9⟩
      unfold readSubset
      rw [a1, Out.ok_bind]
      dsimp only
      obtain ⟨-, -, c3, c4, -⟩ := a2
      have b3 := q3.layers
      have b4 := q3.cellsnum
      rw [intAt_eq (k := kCellsnum) c4 (by omega) (by omega), Out.ok_bind, intAt_eq (k := kLayers) c3 (by omega) (by omega), Out.ok_bind, q8]
    · unfold readSubset
      have := readGridfs_none (rnd := rnd) (T := .double) (ok1 := ok1) (ok2 := ok2) (rd := rd) (h := initialHeader) (s := initialStr) hgr (t2 hw hnw)
      dsimp only at this
      rw [this]
      rfl
    · unfold readSubset
      have := readGridfs_congr (rnd := rnd) (T := .double) (ok1 := ok1) (ok2 := ok2) (rd := rd) (h := initialHeader) (s := initialStr) hgr (t3 hex)
      dsimp only at this
      rw [this]

/-- The subsets read back from their files after all writes succeeded. -/
theorem loadAll_ok {rnd : ℚ → ℚ} {st' : Store} {r : Raster} {rs' : RasterS} {file : Str} {ropts : Opts} {ok1 ok2 : Int → Nat → Bool}
    (hsorted : (rs'.subs.map (·.1)).Pairwise (· < ·))
    (h : ∀ k s, rs'.subs.get k = some s → ∃ s', readSubset rnd (ok1 k) true (ok2 k) st' s (subsetFile k file) ropts = .ok (s', true) ∧
      SameCells s s' ∧ s'.usable = true ∧ s'.nLyrs = r.nLyrs ∧ ∀ (j : Nat) (l lr lc : Int), readAt s.localPos j = .ok (lr, lc) → 0 ≤ l →
        l < r.nLyrs → subsetCell s' r.nLyrs j l = r.getValue (s.srow + lr) (s.scol + lc) (l + 1)) :
    ∃ subs', loadAll rnd ok1 ok2 st' file ropts rs' = .ok ⟨rs'.ras, subs'⟩ ∧ subs'.map (·.1) = rs'.subs.map (·.1) ∧
      ∀ k s, rs'.subs.get k = some s → ∃ s', subs'.get k = some s' ∧ SameCells s s' ∧ s'.usable = true ∧ s'.nLyrs = r.nLyrs ∧
        ∀ (j : Nat) (l lr lc : Int), readAt s.localPos j = .ok (lr, lc) → 0 ≤ l → l < r.nLyrs →
          subsetCell s' r.nLyrs j l = r.getValue (s.srow + lr) (s.scol + lc) (l + 1) := by
  let F : Int → Subset → Subset := fun k s => match readSubset rnd (ok1 k) true (ok2 k) st' s (subsetFile k file) ropts with
    | .ok x => x.1
    | _ => s
  refine ⟨rs'.subs.map (fun x => (x.1, F x.1 x.2)), ?_, ?_, ?_⟩
  · unfold loadAll
    rw [mapM_ok _ (fun x => (x.1, F x.1 x.2)) rs'.subs]
    · rfl
    · intro x hx
      obtain ⟨s', h1, -⟩ := h x.1 x.2 ((IMap.mem_iff_get _ hsorted _ _).1 hx)
      simp only [F, h1]
      rfl
  · rw [List.map_map]; rfl
  · intro k s hk
    obtain ⟨s', h1, h2⟩ := h k s hk
    refine ⟨F k s, by rw [IMap.get_mapVal, hk]; rfl, ?_⟩
    have : F k s = s' := by simp only [F, h1]
    rw [this]; exact h2

theorem inc_mem_sub (T : RDT) (own opts : Opts) : (kIncNodata, "TRUE".toList) ∈ subOpts T own opts true := by
  have hk : kIncNodata ≠ kTypeOut := by decide
  have h1 : (kIncNodata, "TRUE".toList) ∈ Opts.set (Opts.copyInto opts own) kIncNodata (if true then "TRUE".toList else "FALSE".toList) :=
    set_mem _ _ _
  have keep : ∀ (o : Opts) (v : Str), (kIncNodata, "TRUE".toList) ∈ o → (kIncNodata, "TRUE".toList) ∈ Opts.set o kTypeOut v := by
    intro o v h
    unfold Opts.set
    split
    · exact List.mem_map.2 ⟨_, h, by rw [if_neg hk]⟩
    · exact List.mem_append.2 (.inl h)
  unfold subOpts
  dsimp only
  split
  · exact keep _ _ h1
  · split
    · exact keep _ _ h1
    · exact h1

/-- C70, end to end: the subsets of a raster are stored in files, read back, combined and stored again as one file; if no write fails,
reading that file gives a raster of the same grid with the original values in all layers at all valid cells and NoData
elsewhere. The types `T` of the cells, `O`, `O2` of the files and `T'` of the final raster are any, as long
as the values are numbers of these types. -/
theorem C70_endtoend {rnd : ℚ → ℚ} (hrnd : ∀ v, Representable .float v → rnd v = v) {T O O2 T' : RDT} {rms rms2 : Nat → Nat → Bool}
    {atts atts2 : Nat → Nat → Attempt} {st : Store} {r : Raster} (hb : Built r) {groups : List (Int × Int)} {rs' : RasterS} {b : Bool}
    (e : buildSubSet ⟨r, []⟩ groups = .ok (rs', b)) (hne : rs'.subs ≠ []) (h2 : r.is2d = true → 1 < r.nLyrs)
    -- the files of the subsets
    {own opts : Opts} {core name file : Str} (hfile : file = if name = [] then core else name) {inc : Bool} {dv : ℚ} {ty : Str}
    (hg : GoodKey ⟨file, subOpts T own opts inc⟩) (hty : ("DATATYPE_OUT".toList, ty) ∈ subOpts T own opts inc) (hO : stringToRdt ty = O)
    (hTO : StorableAs T O) (hs : ∀ k s, rs'.subs.get k = some s → StorableHeader (subsetHeader rs'.ras s inc))
    {ropts : Opts} (hgr : GoodKey ⟨file, ropts⟩) (hsub : ∀ x y, (x, y) ∈ ropts → (x, y) ∈ subOpts T own opts inc)
    (hst : ∀ k s, rs'.subs.get k = some s → ∀ f ∈ st, Has f ⟨subsetFile k file, ropts⟩ → Has f ⟨subsetFile k file, subOpts T own opts inc⟩)
    {ok1 ok2 : Int → Nat → Bool} (hok1 : ∀ k, ∃ i, i < 5 ∧ ok1 k i = true) (hok2 : ∀ k, ∃ i, i < 5 ∧ ok2 k i = true)
    -- the combined file
    {own2 opts2 : Opts} {core2 name2 file2 : Str} (hfile2 : file2 = "0_".toList ++ (if name2 = [] then core2 else name2)) {dv2 : ℚ} {ty2 : Str}
    (hg2 : GoodKey ⟨file2, subOpts T own2 opts2 true⟩) (hty2 : ("DATATYPE_OUT".toList, ty2) ∈ subOpts T own2 opts2 true)
    (hO2 : stringToRdt ty2 = O2) (hTO2 : StorableAs T O2)
    (hs2 : StorableHeader { rs'.ras.hdr with layers := r.nLyrs, cellsnum := r.hdr.rows * r.hdr.cols })
    {ropts2 : Opts} (hgr2 : GoodKey ⟨file2, inOpts ropts2⟩) (hsub2 : ∀ x y, (x, y) ∈ inOpts ropts2 → (x, y) ∈ subOpts T own2 opts2 true)
    (hnew : ∀ k s, rs'.subs.get k = some s → file2 ≠ subsetFile k file)
    (hst2 : ∀ f ∈ st, Has f ⟨file2, inOpts ropts2⟩ → Has f ⟨file2, subOpts T own2 opts2 true⟩)
    -- the values
    (hv : ∀ row col lyr v, 0 ≤ row → row < r.hdr.rows → 0 ≤ col → col < r.hdr.cols → 1 ≤ lyr → lyr ≤ r.nLyrs →
      r.getValue row col lyr = .ok v → Representable T v ∧ Representable O v ∧ Representable .double v ∧ Representable O2 v ∧ Representable T' v)
    (hnd : Representable T r.noData ∧ Representable O r.noData ∧ Representable .double r.noData ∧ Representable O2 r.noData ∧
      Representable T' r.noData)
    (hrm : ∀ i j, rms i j = true) (hatt : ∀ i j, CleanAttempt (atts i j)) (hw : ∀ i, Written atts i)
    (hrm2 : ∀ i j, rms2 i j = true) (hatt2 : ∀ i j, CleanAttempt (atts2 i j)) (hw2 : Written atts2 0)
    {ok3 ok4 : Nat → Bool} (hok3 : ∃ i, i < 5 ∧ ok3 i = true) (hok4 : ∃ i, i < 5 ∧ ok4 i = true) (calcPos : Bool) (dflt : ℚ) :
    ∃ st1 rs2 st2 r', outputSubsets rnd T rms atts st rs' own core name opts inc true false [] dv = .ok (subOpts T own opts inc, st1, true) ∧
      loadAll rnd ok1 ok2 st1 file ropts rs' = .ok rs2 ∧
      outputSubsets rnd T rms2 atts2 st1 rs2 own2 core2 name2 opts2 true false true [] dv2 = .ok (subOpts T own2 opts2 true, st2, true) ∧
      readFromMongo rnd T' ok3 true ok4 st2 file2 calcPos dflt ropts2 = .ok (some r') ∧
      r'.hdr.rows = r.hdr.rows ∧ r'.hdr.cols = r.hdr.cols ∧ r'.hdr.cellsize = rs'.ras.hdr.cellsize ∧ r'.hdr.xll = rs'.ras.hdr.xll ∧
      r'.hdr.yll = rs'.ras.hdr.yll ∧ r'.noData = r.noData ∧ r'.nLyrs = r.nLyrs ∧
      ∀ row col lyr, 0 ≤ row → row < r.hdr.rows → 0 ≤ col → col < r.hdr.cols → 1 ≤ lyr → lyr ≤ r.nLyrs →
        ((∃ v, ValidCell r row col v) → r'.getValue row col lyr = r.getValue row col lyr) ∧
        ((¬ ∃ v, ValidCell r row col v) → r'.getValue row col lyr = .ok r.noData) := by
  have hsorted : (rs'.subs.map (·.1)).Pairwise (· < ·) := by
    obtain ⟨-, -, -, -, -, -, -, ⟨ls, ps, hC, hok⟩ | hn⟩ := build_cases2 hb e
    · exact hok.sorted
    · exact absurd hn hne
  have hvalid : rs'.ras.validData = true := by
    obtain ⟨-, -, -, -, -, -, -, ⟨ls, ps, hC, hok⟩ | hn⟩ := build_cases2 hb e
    · exact Holds.valid hC.holds
    · exact absurd hn hne
  obtain ⟨hrw, hcl, hndr, hny, -⟩ := build_cases2 hb e
  have hbuilt : Built rs'.ras := by
    obtain ⟨rs1, b1, e1, hb1, -⟩ := build_spec hb groups
    rw [e] at e1
    injection e1 with e1
    injection e1 with ea eb
    subst ea
    exact hb1
  have hndh : rs'.ras.hdr.noData = r.noData := by rw [hbuilt.hdrOk.2, hndr]
  obtain ⟨st1, w1, w2, w3⟩ := C70_subsets_partial (rms := rms) (atts := atts) (st := st) (inc := inc) (dv := dv) hrnd hb e hne h2 hfile hg hty hO hTO hs
    (fun row col lyr v a1 a2 a3 a4 a5 a6 a7 => by
      obtain ⟨b1, b2, b3, -⟩ := hv row col lyr v a1 a2 a3 a4 a5 a6 a7
      exact ⟨b1, b2, b3⟩) ⟨hnd.1, hnd.2.1, hnd.2.2.1⟩ hrm hatt
  obtain ⟨subs', l1, l2, l3⟩ := loadAll_ok (rnd := rnd) (st' := st1) (r := r) (file := file) (ropts := ropts) (ok1 := ok1) (ok2 := ok2) hsorted (by
    intro k s hk
    obtain ⟨n, hn, hn'⟩ := List.getElem_of_mem (IMap.get_mem hk)
    exact (w3 n k s (by rw [List.getElem?_eq_getElem hn, hn']) ropts (by rw [← subFile_eq]; exact good_subFile hgr k) hsub (hst k s hk)).1
      (fun m _ => hw m) _ _ (hok1 k) (hok2 k))
  obtain ⟨d, c1, c2, c3⟩ := combine_loaded hb groups e hne subs' l2 l3 dv2
  have hL : 1 ≤ r.nLyrs := by have := hs2.layers; dsimp only at this; omega
  have hsubne : subs' ≠ [] := by
    rintro rfl
    rw [List.map_nil] at l2
    exact hne (List.map_eq_nil_iff.1 l2.symm)
  have hCpos : 0 < r.hdr.cols := by
    have h1 := hs2.cellsnum.1
    have h2 := hs2.cols.1
    dsimp only at h1 h2
    rw [hcl] at h2
    rcases lt_or_eq_of_le h2 with h | h
    · exact h
    · rw [← h] at h1; simp at h1
  have hRn : 0 ≤ r.hdr.rows := by have := hs2.rows.1; dsimp only at this; rwa [hrw] at this
  have hdv : ∀ v ∈ d, Representable T v ∧ Representable O2 v ∧ Representable T' v := by
    intro v hvm
    obtain ⟨i, hi, rfl⟩ := List.getElem_of_mem hvm
    have hiN : (i : Int) < r.hdr.rows * r.hdr.cols * r.nLyrs := by rw [← c2]; exact_mod_cast hi
    have a1 : (i : Int) / r.nLyrs < r.hdr.rows * r.hdr.cols := Int.ediv_lt_of_lt_mul (by omega) hiN
    have a0 : 0 ≤ (i : Int) / r.nLyrs := Int.ediv_nonneg (by omega) (by omega)
    have b1 : (i : Int) / r.nLyrs / r.hdr.cols < r.hdr.rows := Int.ediv_lt_of_lt_mul hCpos a1
    have b0 : 0 ≤ (i : Int) / r.nLyrs / r.hdr.cols := Int.ediv_nonneg a0 hCpos.le
    have x0 := Int.emod_nonneg ((i : Int) / r.nLyrs) (by omega : r.hdr.cols ≠ 0)
    have x1 := Int.emod_lt_of_pos ((i : Int) / r.nLyrs) hCpos
    have d0 := Int.emod_nonneg (i : Int) (by omega : r.nLyrs ≠ 0)
    have d1 := Int.emod_lt_of_pos (i : Int) (by omega : 0 < r.nLyrs)
    obtain ⟨g1, g2⟩ := c3 _ _ _ b0 b1 x0 x1 d0 d1
    rw [Int.ediv_mul_add_emod, Int.ediv_mul_add_emod, readAt_some_nat _ i hi] at g1 g2
    by_cases hval : ∃ v, ValidCell r ((i : Int) / r.nLyrs / r.hdr.cols) ((i : Int) / r.nLyrs % r.hdr.cols) v
    · obtain ⟨q1, -, -, q4, q5⟩ := hv _ _ _ _ b0 b1 x0 x1 (by omega) (by omega) (g1 hval).symm
      exact ⟨q1, q4, q5⟩
    · have := g2 hval
      injection this with this
      rw [this]
      exact ⟨hnd.1, hnd.2.2.2.1, hnd.2.2.2.2⟩
  obtain ⟨st2, ok, n, v1, v2, v3⟩ := C28_file (T := T) (O := O2) (T' := T') (rm := rms2 0) (att := atts2 0) (st := st1) (name := file2)
    (h := { rs'.ras.hdr with layers := r.nLyrs, cellsnum := r.hdr.rows * r.hdr.cols }) (cells := d) (opts := subOpts T own2 opts2 true) (ty := ty2) hrnd
    (by rw [kType_of hty2]; exact hg2) hs2 (by rw [kType_of hty2]; exact hty2) hO2 hTO2 hdv c2 (hrm2 0) (hatt2 0)
  have hok : ok = true := v2.2 hw2
  subst hok
  rw [kType_of hty2] at v3
  obtain ⟨hm, sm, q1, q2, q3⟩ := v3 rfl ⟨file2, inOpts ropts2⟩ hgr2 rfl hsub2 (by
    intro f hf hh
    have : f ∈ filesOf st1 ⟨file2, inOpts ropts2⟩ := mem_filesOf.2 ⟨hf, hh⟩
    rw [w2 ⟨file2, inOpts ropts2⟩ hnew] at this
    exact hst2 f (mem_filesOf.1 this).1 hh) ok3 ok4 hok3 hok4
  obtain ⟨out, o1, _, o3⟩ := q3 _ _ (inc_mem_sub T own2 opts2)
  have o3 := o3 not_number_TRUE
  subst o3
  obtain ⟨fr, f1, f2, f3, f4, f5, f6⟩ := read_full (rnd := rnd) (T := T') (ok1 := ok3) (ok2 := ok4) (st := st2) (name := file2)
    (calcPos := calcPos) (dflt := dflt) (opts := ropts2) q1 q2 hs2 o1 c2 (by show _ = rs'.ras.hdr.rows * rs'.ras.hdr.cols; rw [hrw, hcl])
    (conv_exact hrnd (S := .double) (by show Representable .double rs'.ras.hdr.noData; rw [hndh]; exact hnd.2.2.1)
      (by show Representable T' rs'.ras.hdr.noData; rw [hndh]; exact hnd.2.2.2.2))
  have f2r : fr.hdr.rows = r.hdr.rows := by rw [f2]; exact hrw
  have f2c : fr.hdr.cols = r.hdr.cols := by rw [f2]; exact hcl
  have f4' : fr.nLyrs = r.nLyrs := f4
  have f3' : fr.noData = r.noData := by rw [f3]; exact hndh
  have view : ∀ row col lyr, 0 ≤ row → row < r.hdr.rows → 0 ≤ col → col < r.hdr.cols → 1 ≤ lyr → lyr ≤ r.nLyrs →
      ((∃ v, ValidCell r row col v) → fr.getValue row col lyr = r.getValue row col lyr) ∧
      ((¬ ∃ v, ValidCell r row col v) → fr.getValue row col lyr = .ok r.noData) := by
    intro row col lyr h1 h2 h3 h4 h5 h6
    obtain ⟨hi, ev⟩ := f1.getValue row col lyr (by rw [f2r, f2c]; exact ⟨h1, h2, h3, h4⟩) (by rw [f4']; exact ⟨h5, h6⟩)
    have hl : fr.hdr.layers = r.nLyrs := by rw [f2]
    have hk : (lyr - 1).toNat < fr.hdr.layers.toNat := by omega
    have p0 : 0 ≤ row * r.hdr.cols + col := by have := Int.mul_nonneg h1 hCpos.le; omega
    have p1 : row * r.hdr.cols + col < r.hdr.rows * r.hdr.cols := by
      have : (row + 1) * r.hdr.cols ≤ r.hdr.rows * r.hdr.cols := Int.mul_le_mul_of_nonneg_right (by omega) hCpos.le
      have : (row + 1) * r.hdr.cols = row * r.hdr.cols + r.hdr.cols := by ring
      omega
    obtain ⟨P, hP⟩ := Int.eq_ofNat_of_zero_le p0
    obtain ⟨L, hLe⟩ := Int.eq_ofNat_of_zero_le (by omega : 0 ≤ r.nLyrs)
    have hidx : (row * r.hdr.cols + col) * r.nLyrs + (lyr - 1) =
        ((row * fr.hdr.cols + col).toNat * fr.hdr.layers.toNat + (lyr - 1).toNat : Nat) := by
      rw [hl, f2c, hP, hLe]
      simp only [Int.toNat_natCast]
      push_cast
      omega
    have hb' : (row * fr.hdr.cols + col).toNat * fr.hdr.layers.toNat + (lyr - 1).toNat < d.length := by
      have hz : (row * r.hdr.cols + col) * r.nLyrs + (lyr - 1) < r.hdr.rows * r.hdr.cols * r.nLyrs := by
        have : (row * r.hdr.cols + col + 1) * r.nLyrs ≤ r.hdr.rows * r.hdr.cols * r.nLyrs :=
          Int.mul_le_mul_of_nonneg_right (by omega) (by omega)
        have : (row * r.hdr.cols + col + 1) * r.nLyrs = (row * r.hdr.cols + col) * r.nLyrs + r.nLyrs := by ring
        omega
      rw [hidx, ← c2] at hz
      exact_mod_cast hz
    have hval : fr.getValue row col lyr = readAt (some d) ((row * r.hdr.cols + col) * r.nLyrs + (lyr - 1)) := by
      rw [ev, rowsOf_get _ hi _ hk, hidx, readAt_some_nat _ _ hb', List.getD_eq_getElem _ _ hb']
    obtain ⟨g1, g2⟩ := c3 row col (lyr - 1) h1 h2 h3 h4 (by omega) (by omega)
    rw [hval]
    rw [show lyr - 1 + 1 = lyr by omega] at g1
    exact ⟨g1, g2⟩
  have fv : ∀ row col, 0 ≤ row → row < r.hdr.rows → 0 ≤ col → col < r.hdr.cols → (FirstValid fr row col ↔ ∃ v, ValidCell r row col v) := by
    intro row col h1 h2 h3 h4
    obtain ⟨g1, g2⟩ := view row col 1 h1 h2 h3 h4 (by omega) (by omega)
    constructor
    · rintro ⟨v, x1, x2⟩
      by_contra hno
      rw [g2 hno] at x1
      injection x1 with x1
      rw [f3', ← x1, floatEqual_self] at x2
      cases x2
    · intro hx
      have hx' := hx
      obtain ⟨v, x1, x2⟩ := hx
      exact ⟨v, by rw [g1 hx', x1], by rw [f3']; exact x2⟩
  obtain ⟨r', e2, k1, k2, k3, k4, k5, k6, k7, k8⟩ := calc_view f1 (by
    intro _
    obtain ⟨x, hx⟩ := List.exists_mem_of_ne_nil _ hne
    have hk := (IMap.mem_iff_get _ hsorted x.1 x.2).1 hx
    obtain ⟨hin, lp, hlp, -, -, hlne⟩ := C13_only hb groups e x.1 x.2 hk
    obtain ⟨p, hp⟩ := List.exists_mem_of_ne_nil _ hlne
    obtain ⟨v, hval, -⟩ := hin (x.2.srow + p.1) (x.2.scol + p.2) ⟨lp, hlp, by
      rw [show x.2.srow + p.1 - x.2.srow = p.1 by omega, show x.2.scol + p.2 - x.2.scol = p.2 by omega]; exact hp⟩
    obtain ⟨y1, y2, y3, y4⟩ := valid_range hval
    exact ⟨_, _, y1, by rw [f2r]; exact y2, y3, by rw [f2c]; exact y4, (fv _ _ y1 y2 y3 y4).2 ⟨v, hval⟩⟩)
  refine ⟨st1, ⟨rs'.ras, subs'⟩, st2, r', w1, l1, ?_, ?_, by rw [k1, f2r], by rw [k2, f2c], by rw [k3, f2], by rw [k4, f2], by rw [k5, f2],
    by rw [k6, f3'], by rw [k7, f4'], ?_⟩
  · unfold outputSubsets
    dsimp only
    rw [hvalid]
    simp only [Bool.not_true, Bool.false_eq_true, if_false, if_true]
    rw [if_neg hsubne, c1, Out.ok_bind]
    dsimp only
    rw [if_neg (by omega), Int.mul_tdiv_cancel _ (by omega), ← hfile2, ← c2, v1, Out.ok_bind]
    rfl
  · rw [f6, e2]
  · intro row col lyr h1 h2 h3 h4 h5 h6
    obtain ⟨p1, p2⟩ := k8 row col lyr h1 (by omega) h3 (by omega) h5 (by omega)
    obtain ⟨g1, g2⟩ := view row col lyr h1 h2 h3 h4 h5 h6
    rw [fv row col h1 h2 h3 h4] at p1 p2
    constructor
    · intro hx
      rw [p1 (.inr hx), g1 hx]
    · intro hx
      cases hcp : fr.calcPos
      · rw [p1 (.inl hcp), g2 hx]
      · rw [p2 hcp hx, f3']

/-! ## Where C70 fails, and examples -/

/-- Three cells in one row, two with data. -/
def exTwo : Raster := Raster.ofArray1 (some [1, -9999, 2]) 3 1 (-9999) 10 0 0

/-- Its subsets. -/
def exTwoS : RasterS × Bool := match buildSubSet ⟨exTwo, []⟩ [] with
  | .ok x => x
  | _ => (⟨exTwo, []⟩, false)

theorem exTwoS_eq : buildSubSet ⟨exTwo, []⟩ [] = .ok (exTwoS.1, exTwoS.2) := by decide +kernel

/-- C70: a raster without subsets (none built, or no valid cell) stores nothing, removes nothing and returns false, in both modes. -/
theorem C70_none {rnd : ℚ → ℚ} {T : RDT} {rms : Nat → Nat → Bool} {atts : Nat → Nat → Attempt} {st : Store} {r : Raster} {own opts : Opts} {core name : Str}
    {inc oo comb : Bool} {recls : List (Int × List ℚ)} {dv : ℚ} :
    outputSubsets rnd T rms atts st ⟨r, []⟩ own core name opts inc oo comb recls dv = .ok (own, st, false) := by
  unfold outputSubsets
  by_cases h : r.validData = true
  · simp [h]
  · simp [h]

/-- C70 is false: if the file of the first subset cannot be written, the call still returns true and nothing at all is stored — not even
the second subset, whose write would have succeeded. -/
theorem C70_false_failure : outputSubsets id .int32 (fun _ _ => true) (fun i => if i = 0 then badAtt else goodAtt) [] exTwoS.1 memOpts [] "a".toList
      exIn true true false [] (-9999) = .ok (subOpts .int32 memOpts exIn true, [], true) ∧
    ((outputSubsets id .int32 (fun _ _ => true) (fun _ => goodAtt) [] exTwoS.1 memOpts [] "a".toList
      exIn true true false [] (-9999)).bind fun x => .ok (x.2.1.map (·.name), x.2.2)) = .ok (["1_a".toList, "2_a".toList], true) := by
  decide +kernel

/-- C70 is false of the combined output when the combination fails (here: no subset has data): it divides by an uninitialised
number. -/
theorem C70_false_combined : outputSubsets id .int32 (fun _ _ => true) (fun _ => goodAtt) [] exTwoS.1 memOpts [] "a".toList
      exIn true false true [] (-9999) = .ub := by
  decide +kernel

theorem exTwo_key (name : Str) (hn : Char.ofNat 0 ∉ name) : GoodKey ⟨name, subOpts .int32 memOpts exIn true⟩ := by
  have h1 : withType .int32 (subOpts .int32 memOpts exIn true) = subOpts .int32 memOpts exIn true := by
    rw [← curOpts_eq]; decide +kernel
  rw [← h1]
  exact goodKey_of ⟨hn, by decide +kernel⟩

theorem exTwo_rkey (name : Str) (hn : Char.ofNat 0 ∉ name) : GoodKey ⟨name, inOpts exIn⟩ := by
  have h1 : withType .int32 (inOpts exIn) = inOpts exIn := by
    rw [← curOpts_eq]; decide +kernel
  rw [← h1]
  exact goodKey_of ⟨hn, by decide +kernel⟩

theorem int_small (m : Int) (h1 : -(2 ^ 31) ≤ m) (h2 : m < 2 ^ 31) : ∀ z : Int, (m : ℚ) = z → -(2 ^ 31) ≤ z ∧ z < 2 ^ 31 := by
  intro z hz
  have : m = z := by exact_mod_cast hz
  omega

/-- The hypotheses of `C70_endtoend`: two subsets of an int32 raster stored as INT16 (each second attempt succeeds), read, combined, stored and
read as a raster of doubles. -/
example : ∃ st1 rs2 st2 r', outputSubsets id .int32 (fun _ _ => true) (fun _ i => if i = 0 then badAtt 0 else goodAtt 0) [] exTwoS.1 memOpts [] "a".toList
      exIn true true false [] (-9999) = .ok (subOpts .int32 memOpts exIn true, st1, true) ∧
    loadAll id (fun _ _ => true) (fun _ i => i == 3) st1 "a".toList exIn exTwoS.1 = .ok rs2 ∧
    outputSubsets id .int32 (fun _ _ => true) (fun _ => goodAtt) st1 rs2 memOpts [] "b".toList exIn true false true [] (-9999) =
      .ok (subOpts .int32 memOpts exIn true, st2, true) ∧
    readFromMongo id .double (fun _ => true) true (fun _ => true) st2 "0_b".toList true (-9999) exIn = .ok (some r') ∧
    r'.getValue 0 2 1 = .ok 2 ∧ r'.getValue 0 1 1 = .ok (-9999) := by
  have hb : Built exTwo := .grid1 [1, -9999, 2] 1 3 (-9999) 10 0 0 (by decide)
  have hrep : ∀ n : Int, -32768 ≤ n → n ≤ 32767 → Representable .int32 (n : ℚ) ∧ Representable .int16 (n : ℚ) ∧ Representable .double (n : ℚ) ∧
      Representable .int16 (n : ℚ) ∧ Representable .double (n : ℚ) := by
    intro n h1 h2
    have hd : Representable .double (n : ℚ) := by
      refine ⟨n, 0, ?_, by norm_num, by norm_num, by simp⟩
      have : n.natAbs ≤ 32768 := by omega
      exact lt_of_le_of_lt this (by norm_num)
    exact ⟨⟨n, rfl, by omega, by omega⟩, ⟨n, rfl, h1, h2⟩, hd, ⟨n, rfl, h1, h2⟩, hd⟩
  have hsub : ∀ kv ∈ exIn, kv ∈ subOpts .int32 memOpts exIn true := by decide +kernel
  have hsub2 : ∀ kv ∈ inOpts exIn, kv ∈ subOpts .int32 memOpts exIn true := by decide +kernel
  have hkeys : exTwoS.1.subs.map (fun e => (e.1, e.2.srow, e.2.erow, e.2.scol, e.2.ecol)) = [(1, 0, 0, 0, 0), (2, 0, 0, 2, 2)] := by
    decide +kernel
  have hcases : ∀ k s, exTwoS.1.subs.get k = some s → (k = 1 ∧ s.srow = 0 ∧ s.erow = 0 ∧ s.scol = 0 ∧ s.ecol = 0) ∨
      (k = 2 ∧ s.srow = 0 ∧ s.erow = 0 ∧ s.scol = 2 ∧ s.ecol = 2) := by
    intro k s hk
    have : (k, s.srow, s.erow, s.scol, s.ecol) ∈ exTwoS.1.subs.map (fun e => (e.1, e.2.srow, e.2.erow, e.2.scol, e.2.ecol)) :=
      List.mem_map.2 ⟨(k, s), IMap.get_mem hk, rfl⟩
    rw [hkeys] at this
    simpa only [List.mem_cons, List.not_mem_nil, or_false, Prod.mk.injEq] using this
  have g0 : exTwoS.1.ras.hdr.cellsize = ((10 : Int) : ℚ) ∧ exTwoS.1.ras.hdr.xll = 0 ∧ exTwoS.1.ras.hdr.yll = 0 ∧ exTwoS.1.ras.hdr.rows = 1 ∧
      exTwoS.1.ras.hdr.cols = 3 ∧ exTwoS.1.ras.nLyrs = 1 := by decide +kernel
  have g1 : exTwo.nLyrs = 1 ∧ exTwo.hdr.rows = 1 ∧ exTwo.hdr.cols = 3 ∧ exTwo.noData = ((-9999 : Int) : ℚ) ∧ exTwo.is2d = false := by decide +kernel
  have c1 : exTwo.getValue 0 0 1 = .ok ((1 : Int) : ℚ) := by decide +kernel
  have c2 : exTwo.getValue 0 1 1 = .ok ((-9999 : Int) : ℚ) := by decide +kernel
  have c3 : exTwo.getValue 0 2 1 = .ok ((2 : Int) : ℚ) := by decide +kernel
  have hcl : ∀ a, CleanAttempt (if a = 0 then badAtt 0 else goodAtt 0) := by
    intro a
    by_cases ha : a = 0
    · rw [if_pos ha]; exact .inr ⟨rfl, rfl⟩
    · rw [if_neg ha]; exact .inl ⟨rfl, rfl⟩
  obtain ⟨st1, rs2, st2, r', e1, e2, e3, e4, -, -, -, -, -, e10, e11, e12⟩ := C70_endtoend (rnd := id) (T := .int32) (O := .int16) (O2 := .int16)
    (T' := .double) (rms := fun _ _ => true) (rms2 := fun _ _ => true) (atts := fun _ i => if i = 0 then badAtt 0 else goodAtt 0)
    (atts2 := fun _ => goodAtt) (st := []) (r := exTwo) (groups := []) (rs' := exTwoS.1) (b := exTwoS.2) (fun v _ => rfl) hb exTwoS_eq
    (by decide +kernel) (by rw [g1.2.2.2.2]; intro h; cases h)
    (own := memOpts) (opts := exIn) (core := []) (name := "a".toList) (file := "a".toList) (by decide) (inc := true) (dv := -9999) (ty := "INT16".toList)
    (exTwo_key _ (by decide)) (by decide +kernel) (by decide) (.inr (by decide))
    (by
      intro k s hk
      rcases hcases k s hk with ⟨-, a, b, c, d⟩ | ⟨-, a, b, c, d⟩
      all_goals
        refine ⟨?_, ?_, ?_, ?_, ?_, ?_, ?_, ?_⟩ <;> simp only [subsetHeader, a, b, c, d, g0, if_true]
        · decide
        · decide
        · decide
        · decide
        · decide
        · exact int_small 10 (by norm_num) (by norm_num)
        · intro z hz
          push_cast at hz
          have hz' : (z : ℚ) = 0 ∨ (z : ℚ) = 20 := by
            rw [← hz]
            norm_num
          rcases hz' with hz' | hz'
          · exact int_small 0 (by norm_num) (by norm_num) z (by rw [hz']; norm_num)
          · exact int_small 20 (by norm_num) (by norm_num) z (by rw [hz']; norm_num)
        · intro z hz
          exact int_small 0 (by norm_num) (by norm_num) z (by rw [← hz]; norm_num))
    (ropts := exIn) (by
      have h1 : withType .int32 exIn = exIn := by rw [← curOpts_eq]; decide +kernel
      rw [← h1]
      exact goodKey_of (by decide +kernel)) (fun x y h => hsub _ h) (by simp)
    (ok1 := fun _ _ => true) (ok2 := fun _ i => i == 3) (fun _ => ⟨0, by decide, rfl⟩) (fun _ => ⟨3, by decide, rfl⟩)
    (own2 := memOpts) (opts2 := exIn) (core2 := []) (name2 := "b".toList) (file2 := "0_b".toList) (by decide) (dv2 := -9999) (ty2 := "INT16".toList)
    (exTwo_key _ (by decide)) (by decide +kernel) (by decide) (.inr (by decide))
    (by
      refine ⟨?_, ?_, ?_, ?_, ?_, ?_, ?_, ?_⟩ <;> simp only [g0, g1]
      · decide
      · decide
      · decide
      · decide
      · decide
      · exact int_small 10 (by norm_num) (by norm_num)
      · exact int_small 0 (by norm_num) (by norm_num)
      · exact int_small 0 (by norm_num) (by norm_num))
    (ropts2 := exIn) (exTwo_rkey _ (by decide)) (fun x y h => hsub2 _ h)
    (by
      intro k s hk
      rcases hcases k s hk with ⟨rfl, -⟩ | ⟨rfl, -⟩ <;> decide +kernel) (by simp)
    (by
      intro row col lyr v h1 h2 h3 h4 h5 h6 hv
      rw [g1.2.1] at h2
      rw [g1.2.2.1] at h4
      rw [g1.1] at h6
      have q0 : row = 0 := by omega
      have q1 : lyr = 1 := by omega
      have q2 : col = 0 ∨ col = 1 ∨ col = 2 := by omega
      subst q0 q1
      rcases q2 with rfl | rfl | rfl
      · rw [c1] at hv; injection hv with hv; subst hv; exact hrep 1 (by norm_num) (by norm_num)
      · rw [c2] at hv; injection hv with hv; subst hv; exact hrep (-9999) (by norm_num) (by norm_num)
      · rw [c3] at hv; injection hv with hv; subst hv; exact hrep 2 (by norm_num) (by norm_num))
    (by rw [g1.2.2.2.1]; exact hrep (-9999) (by norm_num) (by norm_num))
    (fun _ _ => rfl) (fun _ a => hcl a) (fun _ => ⟨1, by decide, rfl⟩) (fun _ _ => rfl) (fun _ _ => .inl ⟨rfl, rfl⟩) ⟨0, by decide, rfl⟩
    (ok3 := fun _ => true) (ok4 := fun _ => true) ⟨0, by decide, rfl⟩ ⟨0, by decide, rfl⟩ true (-9999)
  refine ⟨st1, rs2, st2, r', e1, e2, e3, e4, ?_, ?_⟩
  · rw [(e12 0 2 1 (by decide) (by rw [g1.2.1]; decide) (by decide) (by rw [g1.2.2.1]; decide) (by decide) (by rw [g1.1])).1
      ⟨2, by decide +kernel, by decide +kernel⟩, c3]
    rfl
  · rw [(e12 0 1 1 (by decide) (by rw [g1.2.1]; decide) (by decide) (by rw [g1.2.2.1]; decide) (by decide) (by rw [g1.1])).2, g1.2.2.2.1]
    · rfl
    · rintro ⟨v, x1, x2⟩
      rw [c2] at x1
      injection x1 with x1
      subst x1
      revert x2
      decide +kernel

end Gfs
end CCGL
