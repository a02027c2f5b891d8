import Verif.Lemmas.GfsRead
import Verif.Props.Gfs
import Verif.Props.Output
import Verif.Lemmas.HdrOk
/-!
# C28: rasters in GridFS are read back as they were written
-/
namespace CCGL
namespace Gfs
open Spec Gtiff

theorem headerMap_keys (h : Header) : (headerMap h).map (·.1) = headerKeys := rfl

theorem headerKeys_nodup : headerKeys.Nodup := by decide

theorem headerMap_mem (h : Header) : ∀ e ∈ headerMap h, e.1 ∈ headerKeys := by
  intro e he
  rw [← headerMap_keys h]
  exact List.mem_map.2 ⟨e, he, rfl⟩

theorem headerMap_ok {h : Header} (hs : StorableHeader h) : ∀ k x, (k, x) ∈ headerMap h →
    ∃ q, x = .fin q ∧ (k = kNoData ∨ ∀ z : Int, q = z → -(2 ^ 31) ≤ z ∧ z < 2 ^ 31) := by
  intro k x hm
  have ii : ∀ n : Int, 0 ≤ n → n < 2 ^ 31 → ∀ z : Int, (n : ℚ) = z → -(2 ^ 31) ≤ z ∧ z < 2 ^ 31 := by
    intro n h1 h2 z hz
    have : n = z := by exact_mod_cast hz
    omega
  simp only [headerMap, List.mem_cons, List.not_mem_nil, or_false, Prod.mk.injEq] at hm
  rcases hm with ⟨rfl, rfl⟩ | ⟨rfl, rfl⟩ | ⟨rfl, rfl⟩ | ⟨rfl, rfl⟩ | ⟨rfl, rfl⟩ | ⟨rfl, rfl⟩ | ⟨rfl, rfl⟩ | ⟨rfl, rfl⟩
  · exact ⟨_, rfl, .inr hs.cellsize⟩
  · exact ⟨_, rfl, .inr (ii _ hs.cellsnum.1.le hs.cellsnum.2)⟩
  · exact ⟨_, rfl, .inr (ii _ hs.layers.1.le hs.layers.2)⟩
  · exact ⟨_, rfl, .inr (ii _ hs.cols.1 hs.cols.2)⟩
  · exact ⟨_, rfl, .inl rfl⟩
  · exact ⟨_, rfl, .inr (ii _ hs.rows.1 hs.rows.2)⟩
  · exact ⟨_, rfl, .inr hs.xll⟩
  · exact ⟨_, rfl, .inr hs.yll⟩

theorem intAt_eq {m : HMap} {k : Str} {n : Int} (h : m k = some (.fin n)) (h1 : -(2 ^ 31) ≤ n) (h2 : n < 2 ^ 31) : intAt m k = .ok n := by
  unfold intAt
  rw [h]
  dsimp only
  rw [truncQ_int, if_pos ⟨h1, h2⟩]

/-- What is written: the metadata hold the header and the options, the contents are the bytes of the cells. -/
theorem write_ok {rnd : ℚ → ℚ} (hrnd : ∀ v, Representable .float v → rnd v = v) {T O : RDT} {rm : Nat → Bool} {att : Nat → Attempt}
    {st : Store} {name : Str} {h : Header} {cells : List ℚ} {opts : Opts} {ty : Str} (hg : GoodKey ⟨name, withType T opts⟩)
    (hs : StorableHeader h) (hty : (kTypeOut, ty) ∈ withType T opts) (hO : stringToRdt ty = O) (hTO : StorableAs T O)
    (hr : ∀ v ∈ cells, Representable T v ∧ Representable O v) :
    ∃ flt info, (∀ f, matchesF flt f = true ↔ Has f ⟨name, withType T opts⟩) ∧
      writeGridfs rnd T rm att st name (headerMap h) (some cells) cells.length opts =
        .ok (writeLoop att name (cells.flatMap (encode O)) info 0 4 (removeLoop rm flt 0 st)) ∧
      (∀ d, Has (File.mk name info d) ⟨name, withType T opts⟩) ∧
      HeaderIs (info.foldl readElem (initialHeader, initialStr)).1 h ∧
      (∀ k v, (k, v) ∈ withType T opts → ∃ out, (info.foldl readElem (initialHeader, initialStr)).2 k = some out ∧ SameMeaning v out ∧
        ((∀ x, ¬ NumText v x) → out = v)) := by
  obtain ⟨flt, e1, hf⟩ := filter_spec hg
  obtain ⟨d, e2, d1, d2⟩ := headerDoc_ok (headerMap h) (headerMap_mem h) (headerMap_ok hs)
  obtain ⟨enc, henc⟩ := exists_enc hg
  dsimp only at henc
  have e3 : appendOptions d (withType T opts) [] = .ok (d ++ (withType T opts).map (fun kv => (kv.1, enc kv.2))) := by
    have := append_eq (withType T opts) [] d (fun kv hkv => by simpa using (hg.key kv.1 kv.2 hkv).1) enc henc
    simpa using this
  obtain ⟨info, e4, hhas, _, _⟩ := info_spec hg e2 (headerMap_mem h)
  dsimp only at e4
  rw [e3] at e4
  injection e4 with e4
  subst e4
  obtain ⟨ty', e5, hty'⟩ := withType_has T opts
  have : ty' = ty := by
    have hnd := hg.nodup
    dsimp only at hnd
    obtain ⟨i, hi, g1⟩ := List.getElem_of_mem hty
    obtain ⟨j, hj, g2⟩ := List.getElem_of_mem hty'
    have : i = j := by
      apply (List.Nodup.getElem_inj_iff (i := i) (j := j) (hi := by simpa using hi) (hj := by simpa using hj) hnd).1
      simp [g1, g2]
    subst this
    rw [g1] at g2
    exact (Prod.mk.inj g2).2.symm
  subst this
  have hnd : ((d ++ (withType T opts).map (fun kv => (kv.1, enc kv.2))).map (·.1)).Nodup := by
    rw [List.map_append, d1, headerMap_keys, List.map_map]
    rw [List.nodup_append]
    refine ⟨headerKeys_nodup, ?_, ?_⟩
    · have := hg.nodup
      dsimp only at this
      exact this
    · intro a ha b hb hab
      subst hab
      obtain ⟨⟨k, v⟩, hkv, rfl⟩ := List.mem_map.1 hb
      exact (hg.key k v hkv).2.2 ha
  obtain ⟨f1, f2, f3⟩ := fold_spec _ initialHeader initialStr hnd
  refine ⟨flt, _, hf, ?_, hhas, ?_, ?_⟩
  · unfold writeGridfs
    dsimp only
    rw [curOpts_eq]
    unfold removeFile
    dsimp only at e1
    rw [e1, Out.ok_bind, Out.pure_eq, Out.ok_bind]
    dsimp only
    rw [e2, Out.ok_bind, e5]
    dsimp only
    rw [hO, streamBytes_eq hrnd rfl hTO hr, Out.ok_bind, e3, Out.ok_bind]
    rfl
  · have get : ∀ k x, (k, x) ∈ headerMap h →
        ((d ++ (withType T opts).map (fun kv => (kv.1, enc kv.2))).foldl readElem (initialHeader, initialStr)).1 k = some x := by
      intro k x hm
      obtain ⟨b, hb, hx⟩ := d2 k x hm
      refine f1 k b x (List.mem_append.2 (.inl hb)) ?_ hx
      have : k ∈ headerKeys := headerMap_mem h _ hm
      unfold initialHeader
      rw [if_pos this]; rfl
    exact ⟨get kRows (.fin h.rows) (by unfold headerMap; simp only [List.mem_cons, true_or, or_true]),
      get kCols (.fin h.cols) (by unfold headerMap; simp only [List.mem_cons, true_or, or_true]),
      get kLayers (.fin h.layers) (by unfold headerMap; simp only [List.mem_cons, true_or, or_true]),
      get kCellsnum (.fin h.cellsnum) (by unfold headerMap; simp only [List.mem_cons, true_or, or_true]),
      get kCellsize (.fin h.cellsize) (by unfold headerMap; simp only [List.mem_cons, true_or, or_true]),
      get kXll (.fin h.xll) (by unfold headerMap; simp only [List.mem_cons, true_or, or_true]),
      get kYll (.fin h.yll) (by unfold headerMap; simp only [List.mem_cons, true_or, or_true]),
      get kNoData (.fin h.noData) (by unfold headerMap; simp only [List.mem_cons, true_or, or_true])⟩
  · intro k v hkv
    have hm : (k, enc v) ∈ d ++ (withType T opts).map (fun kv => (kv.1, enc kv.2)) :=
      List.mem_append.2 (.inr (List.mem_map.2 ⟨(k, v), hkv, rfl⟩))
    have hn : (initialHeader k).isSome = false := by
      unfold initialHeader
      rw [if_neg (hg.key k v hkv).2.2]; rfl
    have hme := encode_meaning v (hg.val k v hkv).1 (enc v) (henc (k, v) hkv)
    exact ⟨_, f2 k (enc v) hm hn, hme.1, hme.1.text⟩

theorem getFile_spec {K : Key} (hg : GoodKey K) (ok : Nat → Bool) (hok : ∃ i, i < 5 ∧ ok i = true) (st : Store) :
    getFile ok st K.name K.opts = .ok (filesOf st K).head? := by
  obtain ⟨flt, e1, hf⟩ := filter_spec hg
  unfold getFile
  obtain ⟨i, hi, ho⟩ := hok
  rw [e1, Out.ok_bind, findLoop_spec, if_pos ⟨i, by omega, by omega, ho⟩, Out.pure_eq]
  congr 1
  unfold filesOf
  rw [List.head?_filter]
  congr 1
  funext f
  by_cases hh : Has f K
  · simp [hh, (hf f).2 hh]
  · have : matchesF flt f = false := by
      cases hm : matchesF flt f
      · rfl
      · exact absurd ((hf f).1 hm) hh
    simp [hh, this]

/-- Reading the only file with the key. -/
theorem read_file {rnd : ℚ → ℚ} (hrnd : ∀ v, Representable .float v → rnd v = v) {T O T' : RDT} {st' : Store} {name : Str} {h : Header}
    {cells : List ℚ} {o : Opts} {ty : Str} {info : BDoc} (hs : StorableHeader h) (hty : (kTypeOut, ty) ∈ o)
    (hO : stringToRdt ty = O) (hr : ∀ v ∈ cells, Representable T v ∧ Representable O v ∧ Representable T' v)
    (hlen : (cells.length : Int) = h.cellsnum * h.layers)
    (hhdr : HeaderIs (info.foldl readElem (initialHeader, initialStr)).1 h)
    (hopts : ∀ k v, (k, v) ∈ o → ∃ out, (info.foldl readElem (initialHeader, initialStr)).2 k = some out ∧ SameMeaning v out ∧
        ((∀ x, ¬ NumText v x) → out = v))
    {R : Key} (hR : GoodKey R) (hRn : R.name = name) (hfiles : filesOf st' R = [File.mk name info (cells.flatMap (encode O))])
    {ok1 ok2 : Nat → Bool} (hok1 : ∃ i, i < 5 ∧ ok1 i = true) (hok2 : ∃ i, i < 5 ∧ ok2 i = true) :
    ∃ hm sm, readGridfs rnd T' ok1 true ok2 st' name initialHeader initialStr R.opts = .ok (some (cells, hm, sm)) ∧
      HeaderIs hm h ∧ ∀ k v, (k, v) ∈ o → ∃ out, sm k = some out ∧ SameMeaning v out ∧
        ((∀ x, ¬ NumText v x) → out = v) := by
  obtain ⟨q1, q2, q3, q4, q5⟩ := hhdr
  have hOu : cells ≠ [] := by
    intro hc
    rw [hc] at hlen
    have := Int.mul_pos hs.cellsnum.1 hs.layers.1
    rw [← hlen] at this
    simp at this
  have hOk : O ≠ .unknown := by
    rintro rfl
    obtain ⟨v, hv⟩ := List.exists_mem_of_ne_nil _ hOu
    exact (hr v hv).2.1
  obtain ⟨out, o1, o2, o3⟩ := hopts _ _ hty
  have o3 := o3 (fun x => type_not_number hOk hO x)
  subst o3
  refine ⟨_, _, ?_, ⟨q1, q2, q3, q4, q5⟩, hopts⟩
  unfold readGridfs getStreamData getFileMetadata
  rw [← hRn, getFile_spec hR ok1 hok1, getFile_spec hR ok2 hok2, hfiles]
  simp only [Out.ok_bind, List.head?_cons, if_true, Out.pure_eq, Option.map_some, Option.getD_some]
  have c1 := hs.rows; have c2 := hs.cols; have c3 := hs.layers; have c4 := hs.cellsnum
  rw [intAt_eq (k := kRows) q1 (by omega) (by omega), Out.ok_bind, intAt_eq (k := kCols) q2 (by omega) (by omega), Out.ok_bind,
    intAt_eq (k := kLayers) q3 (by omega) (by omega), Out.ok_bind, intAt_eq (k := kCellsnum) q4 (by omega) (by omega), Out.ok_bind,
    if_neg (by omega)]
  have hc : mulInt h.cellsnum h.layers = .ok (h.cellsnum * h.layers) := by
    unfold mulInt
    have := Int.mul_pos hs.cellsnum.1 hs.layers.1
    have := hs.count
    rw [if_pos ⟨by omega, by omega⟩]
  rw [hc, Out.ok_bind, ← hlen]
  have ht : (List.foldl readElem (initialHeader, initialStr) info).2 kTypeOut = some out := o1
  rw [ht]
  dsimp only
  rw [hO, readCellsAs_eq hrnd rfl hOu (fun v hv => ⟨(hr v hv).2.2, (hr v hv).2.1⟩)]
  rfl

/-- C28 (files): storing cells with a header in a bucket succeeds or fails as its attempts do; after a success,
reading with a key that the new file but no other file has gives the cells, the header numbers and
the options that were written — for every grid, every number of layers and cells, every cell type `T`, every
stored type `O` and every type `T'` into which it is read, as long as the cells are numbers of these types. -/
theorem C28_file {rnd : ℚ → ℚ} (hrnd : ∀ v, Representable .float v → rnd v = v) {T O T' : RDT} {rm : Nat → Bool} {att : Nat → Attempt}
    {st : Store} {name : Str} {h : Header} {cells : List ℚ} {opts : Opts} {ty : Str} (hg : GoodKey ⟨name, withType T opts⟩)
    (hs : StorableHeader h) (hty : ("DATATYPE_OUT".toList, ty) ∈ withType T opts) (hO : stringToRdt ty = O) (hTO : StorableAs T O)
    (hr : ∀ v ∈ cells, Representable T v ∧ Representable O v ∧ Representable T' v)
    (hlen : (cells.length : Int) = h.cellsnum * h.layers) (hrm : ∀ i, rm i = true) (hatt : ∀ i, CleanAttempt (att i)) :
    ∃ st' ok n, writeGridfs rnd T rm att st name (headerMap h) (some cells) cells.length opts = .ok (st', ok, n) ∧
      (ok = true ↔ ∃ i, i < 4 ∧ (att i).reported = true) ∧
      (ok = true → ∀ (R : Key), GoodKey R → R.name = name → (∀ k v, (k, v) ∈ R.opts → (k, v) ∈ withType T opts) →
        (∀ f ∈ st, Has f R → Has f ⟨name, withType T opts⟩) →
        ∀ ok1 ok2 : Nat → Bool, (∃ i, i < 5 ∧ ok1 i = true) → (∃ i, i < 5 ∧ ok2 i = true) →
        ∃ hm sm, readGridfs rnd T' ok1 true ok2 st' name initialHeader initialStr R.opts = .ok (some (cells, hm, sm)) ∧
          HeaderIs hm h ∧ ∀ k v, (k, v) ∈ withType T opts → ∃ out, sm k = some out ∧ SameMeaning v out ∧
            ((∀ x, ¬ NumText v x) → out = v)) := by
  obtain ⟨flt, info, hf, hw, hhas, hhdr, hopts⟩ := write_ok (rm := rm) (att := att) (st := st) hrnd hg hs hty hO hTO
    (fun v hv => ⟨(hr v hv).1, (hr v hv).2.1⟩)
  obtain ⟨new, g1, g2, _, g3, g4, g5⟩ := writeLoop_spec att name (cells.flatMap (encode O)) info 4 0 (removeLoop rm flt 0 st)
  generalize writeLoop att name (cells.flatMap (encode O)) info 0 4 (removeLoop rm flt 0 st) = W at hw g1 g3 g4 g5
  obtain ⟨st', okW, nW⟩ := W
  dsimp only at g1 g3 g4 g5
  refine ⟨st', okW, nW, hw, ?_, ?_⟩
  · rw [g4]
    constructor
    · rintro ⟨i, _, a, b⟩; exact ⟨i, by omega, b⟩
    · rintro ⟨i, a, b⟩; exact ⟨i, by omega, by omega, b⟩
  · intro hok R hR hRn hRo hRst ok1 ok2 hok1 hok2
    have g5 := g5 hatt
    rw [hok, if_pos rfl, cstr_of_no_nul _ hg.name] at g5
    subst g5
    have hfR : Has (File.mk name info (cells.flatMap (encode O))) R := by
      obtain ⟨a, b⟩ := hhas (cells.flatMap (encode O))
      exact ⟨hRn.symm, fun k v hkv => b k v (hRo k v hkv)⟩
    have hfiles : filesOf st' R =
        [File.mk name info (cells.flatMap (encode O))] := by
      rw [g1, filesOf_append, filesOf_single hfR]
      have : filesOf (removeLoop rm flt 0 st) R = [] := by
        apply filesOf_nil_of
        intro f hfm hfh
        have h1 := (removeLoop_sublist rm flt 0 st).mem hfm
        have h2 := hRst f h1 hfh
        rw [removeLoop_all rm flt hrm, List.mem_filter, (hf f).2 h2] at hfm
        simp at hfm
      rw [this]; rfl
    obtain ⟨hm, sm, a1, a2, a3⟩ := read_file hrnd hs hty hO hr hlen hhdr hopts hR hRn hfiles hok1 hok2
    exact ⟨hm, sm, a1, a2, a3⟩

/-! ## Rasters -/

theorem finAt_eq {m : HMap} {k : Str} {q : ℚ} (h : m k = some (.fin q)) : finAt m k = .ok q := by
  unfold finAt; rw [h]

theorem headerOf_eq {m : HMap} {h : Header} (hm : HeaderIs m h) (hs : StorableHeader h) : headerOf m = .ok h := by
  obtain ⟨q1, q2, q3, q4, q5, q6, q7, q8⟩ := hm
  have c1 := hs.rows; have c2 := hs.cols; have c3 := hs.layers; have c4 := hs.cellsnum
  unfold headerOf
  rw [intAt_eq (k := kRows) q1 (by omega) (by omega), Out.ok_bind, intAt_eq (k := kCols) q2 (by omega) (by omega), Out.ok_bind,
    finAt_eq (k := kCellsize) q5, Out.ok_bind, finAt_eq (k := kXll) q6, Out.ok_bind, finAt_eq (k := kYll) q7, Out.ok_bind,
    finAt_eq (k := kNoData) q8, Out.ok_bind,
    intAt_eq (k := kLayers) q3 (by omega) (by omega), Out.ok_bind, intAt_eq (k := kCellsnum) q4 (by omega) (by omega), Out.ok_bind]
  rfl

/-- The cells as rows of layers. -/
def rowsOf (cells : List ℚ) (n l : Nat) : List (List ℚ) :=
  (List.range n).map (fun (i : Nat) => (List.range l).map (fun (j : Nat) => cells.getD (i * l + j) 0))

theorem interleaved_eq {cells : List ℚ} {n l : Int} (hn : 0 ≤ n) (hl : 0 ≤ l) (hlen : (cells.length : Int) = n * l) :
    interleaved cells n l = .ok (rowsOf cells n.toNat l.toNat) := by
  obtain ⟨N, rfl⟩ := Int.eq_ofNat_of_zero_le hn
  obtain ⟨L, rfl⟩ := Int.eq_ofNat_of_zero_le hl
  have hlen' : cells.length = N * L := by exact_mod_cast hlen
  unfold interleaved rowsOf
  apply Raster.mapM_ok
  intro i hi
  apply Raster.mapM_ok
  intro j hj
  simp only [Int.toNat_natCast, List.mem_range] at hi hj
  have hb : i * L + j < cells.length := by
    rw [hlen']
    have : (i + 1) * L ≤ N * L := Nat.mul_le_mul_right _ hi
    rw [Nat.succ_mul] at this
    omega
  have := readAt_some_nat cells (i * L + j) hb
  push_cast at this
  simp only [Int.toNat_natCast]
  rw [this, List.getD_eq_getElem _ _ hb]

theorem rowsOf_one {cells : List ℚ} : (rowsOf cells cells.length 1).map (fun c => c.headD 0) = cells := by
  unfold rowsOf
  apply List.ext_getElem
  · simp
  · intro i h1 h2
    simp [List.getElem?_eq_getElem h2]

theorem rowsOf_get {cells : List ℚ} {n l : Nat} (i : Nat) (hi : i < (rowsOf cells n l).length) (k : Nat) (hk : k < l) :
    ((rowsOf cells n l)[i]).getD k 0 = cells.getD (i * l + k) 0 := by
  unfold rowsOf
  simp [hk]

theorem not_number_TRUE (x : DVal) : ¬ NumText "TRUE".toList x := by
  intro h
  obtain ⟨c, r, e, hc⟩ := num_head h
  injection e with e1 e2
  subst e1
  rcases hc with hc | hc | ⟨hc, _⟩
  · revert hc; decide
  · have := sameLetter_lower hc (by decide) (by decide); revert this; decide
  · have := sameLetter_lower hc (by decide) (by decide); revert this; decide

theorem set_mem (o : Opts) (k v : Str) : (k, v) ∈ Opts.set o k v := by
  unfold Opts.set
  cases h : Opts.get o k with
  | none => rw [if_neg (by simp)]; simp
  | some w =>
    rw [if_pos (by simp)]
    exact List.mem_map.2 ⟨(k, w), get_mem h, by simp⟩

theorem inc_mem (T : RDT) (own opts : Opts) : (kIncNodata, "TRUE".toList) ∈ outOpts T own opts true := by
  unfold outOpts
  exact set_mem _ _ _

/-- The cell holds data in the first layer. -/
def FirstValid (r : Raster) (row col : Int) : Prop := ∃ v, r.getValue row col 1 = .ok v ∧ floatEqual v r.noData = false

/-- Reading a file without positions. -/
theorem read_full {rnd : ℚ → ℚ} {T : RDT} {ok1 ok2 : Nat → Bool} {st : Store} {name : Str} {calcPos : Bool} {dflt : ℚ} {opts : Opts}
    {cells : List ℚ} {hm : HMap} {sm : SMap} {H : Header}
    (hread : readGridfs rnd T ok1 true ok2 st name initialHeader initialStr (inOpts opts) = .ok (some (cells, hm, sm)))
    (hh : HeaderIs hm H) (hs : StorableHeader H) (hinc : sm kIncNodata = some "TRUE".toList)
    (hlen : (cells.length : Int) = H.cellsnum * H.layers) (hn : H.cellsnum = H.rows * H.cols) (hnd : conv rnd .double T H.noData = .ok H.noData) :
    ∃ fr : Raster, fr.Full (rowsOf cells fr.hdr.cellsnum.toNat fr.hdr.layers.toNat) ∧ fr.hdr = H ∧ fr.noData = H.noData ∧
      fr.nLyrs = H.layers ∧ fr.calcPos = calcPos ∧
      readFromMongo rnd T ok1 true ok2 st name calcPos dflt opts = (fr.calcNoMask >>= fun x => .ok (some x.1)) := by
  have hmul : mulInt H.rows H.cols = .ok H.cellsnum := by
    unfold mulInt
    have := hs.cellsnum
    rw [← hn, if_pos ⟨by omega, by omega⟩]
  have hL := hs.layers
  have hN := hs.cellsnum
  have hrl : ((rowsOf cells H.cellsnum.toNat H.layers.toNat).length : Int) = H.rows * H.cols := by
    unfold rowsOf; rw [List.length_map, List.length_range, ← hn]; omega
  have hrow : ∀ c ∈ rowsOf cells H.cellsnum.toNat H.layers.toNat, (c.length : Int) = H.layers := by
    intro c hc
    unfold rowsOf at hc
    obtain ⟨i, _, rfl⟩ := List.mem_map.1 hc
    rw [List.length_map, List.length_range]; omega
  by_cases h1 : H.layers = 1
  · refine ⟨{ Raster.init false with
        hdr := H, noData := H.noData, nLyrs := H.layers, nCells := H.cellsnum, calcPos := calcPos,
        dflt := Raster.checkDefault dflt H.noData, raster1 := some cells }, ?_, rfl, rfl, rfl, rfl, ?_⟩
    · refine ⟨⟨hL.1, hrow, ?_⟩, hs.rows.1, hs.cols.1, hrl, hn, rfl, rfl⟩
      show H.layers = 1 ∧ some cells = _
      refine ⟨h1, ?_⟩
      dsimp only
      have e : H.cellsnum.toNat = cells.length := by rw [h1, mul_one] at hlen; omega
      rw [h1, e]
      exact congrArg some rowsOf_one.symm
    · unfold readFromMongo
      rw [hread, Out.ok_bind]
      dsimp only
      rw [headerOf_eq hh hs, Out.ok_bind, hinc, hmul, Out.ok_bind, hnd, Out.ok_bind]
      have d1 : (!stringMatch ((some "TRUE".toList).getD []) "FALSE".toList) = true := by decide
      rw [d1]
      simp only [Bool.true_and, ne_eq, not_true_eq_false, decide_false, Bool.false_eq_true, if_false, Bool.not_true, h1, if_true, Out.ok_bind]
      rfl
  · refine ⟨{ Raster.init true with
        hdr := H, noData := H.noData, nLyrs := H.layers, nCells := H.cellsnum, calcPos := calcPos,
        dflt := Raster.checkDefault dflt H.noData, raster2 := some (rowsOf cells H.cellsnum.toNat H.layers.toNat) }, ?_, rfl, rfl, rfl, rfl, ?_⟩
    · exact ⟨⟨hL.1, hrow, rfl⟩, hs.rows.1, hs.cols.1, hrl, hn, rfl, rfl⟩
    · unfold readFromMongo
      rw [hread, Out.ok_bind]
      dsimp only
      rw [headerOf_eq hh hs, Out.ok_bind, hinc, hmul, Out.ok_bind, hnd, Out.ok_bind]
      have d1 : (!stringMatch ((some "TRUE".toList).getD []) "FALSE".toList) = true := by decide
      rw [d1]
      simp only [Bool.true_and, ne_eq, not_true_eq_false, decide_false, Bool.false_eq_true, if_false, Bool.not_true, h1, not_false_eq_true,
        decide_true, interleaved_eq hN.1.le hL.1.le hlen, Out.ok_bind, Out.pure_eq]

/-- A full raster after `calcNoMask`. -/
theorem calc_view {r : Raster} {ls : List (List ℚ)} (h : r.Full ls)
    (hval : r.calcPos = true → ∃ row col, 0 ≤ row ∧ row < r.hdr.rows ∧ 0 ≤ col ∧ col < r.hdr.cols ∧ FirstValid r row col) :
    ∃ r', (r.calcNoMask >>= fun x => Out.ok (some x.1)) = .ok (some r') ∧ r'.hdr.rows = r.hdr.rows ∧ r'.hdr.cols = r.hdr.cols ∧
      r'.hdr.cellsize = r.hdr.cellsize ∧ r'.hdr.xll = r.hdr.xll ∧ r'.hdr.yll = r.hdr.yll ∧ r'.noData = r.noData ∧ r'.nLyrs = r.nLyrs ∧
      ∀ row col lyr, 0 ≤ row → row < r.hdr.rows → 0 ≤ col → col < r.hdr.cols → 1 ≤ lyr → lyr ≤ r.nLyrs →
        (r.calcPos = false ∨ FirstValid r row col → r'.getValue row col lyr = r.getValue row col lyr) ∧
        (r.calcPos = true → ¬ FirstValid r row col → r'.getValue row col lyr = .ok r.noData) := by
  have hmem : ∀ row col, 0 ≤ row → row < r.hdr.rows → 0 ≤ col → col < r.hdr.cols →
      ((row, col) ∈ r.validCells ls ↔ FirstValid r row col) := by
    intro row col h1 h2 h3 h4
    obtain ⟨hi, ev⟩ := h.getValue row col 1 ⟨h1, h2, h3, h4⟩ ⟨by omega, h.holds.1⟩
    unfold Raster.validCells FirstValid
    rw [List.mem_filter, ev, mem_gridCells, List.getD_eq_getElem _ _ hi]
    have e : (ls[(row * r.hdr.cols + col).toNat]).getD (1 - 1 : Int).toNat 0 = (ls[(row * r.hdr.cols + col).toNat]).headD 0 := by
      cases ls[(row * r.hdr.cols + col).toNat] <;> rfl
    rw [e]
    constructor
    · rintro ⟨_, hf⟩
      exact ⟨_, rfl, by simpa using hf⟩
    · rintro ⟨v, hv, hf⟩
      injection hv with hv
      subst hv
      exact ⟨⟨h1, h2, h3, h4⟩, by simpa using hf⟩
  cases hcp : r.calcPos
  · refine ⟨{ r with nCells := r.hdr.rows * r.hdr.cols, hdr := { r.hdr with cellsnum := r.hdr.rows * r.hdr.cols } }, ?_,
      rfl, rfl, rfl, rfl, rfl, rfl, rfl, ?_⟩
    · unfold Raster.calcNoMask
      rw [hcp]; rfl
    · intro row col lyr h1 h2 h3 h4 h5 h6
      refine ⟨fun _ => ?_, fun h => by cases h⟩
      have h' : Raster.Full { r with nCells := r.hdr.rows * r.hdr.cols, hdr := { r.hdr with cellsnum := r.hdr.rows * r.hdr.cols } } ls :=
        ⟨h.holds, h.rows_nn, h.cols_nn, h.len, rfl, h.pd, h.pi⟩
      obtain ⟨hi, ev⟩ := h.getValue row col lyr ⟨h1, h2, h3, h4⟩ ⟨h5, h6⟩
      obtain ⟨hi', ev'⟩ := h'.getValue row col lyr ⟨h1, h2, h3, h4⟩ ⟨h5, h6⟩
      rw [ev, ev']
  · obtain ⟨r', e, g1, g2, g3, g4, _, _, g5, g6⟩ := h.calc
    have hC : r'.Compact ((r.validCells ls).map (fun rc => ls.getD (rc.1 * r.hdr.cols + rc.2).toNat [])) (r.validCells ls) := by
      rcases g6 with ⟨h0, _⟩ | hC
      · obtain ⟨row, col, h1, h2, h3, h4, h5⟩ := hval hcp
        have := (hmem row col h1 h2 h3 h4).2 h5
        rw [h0] at this
        cases this
      · exact hC
    refine ⟨r', ?_, by rw [g1], by rw [g1], by rw [g1], by rw [g1], by rw [g1], g2, g3, ?_⟩
    · unfold Raster.calcNoMask
      rw [hcp, h.pd, e]; rfl
    · intro row col lyr h1 h2 h3 h4 h5 h6
      have gr : r'.hdr.rows = r.hdr.rows := by rw [g1]
      have gc : r'.hdr.cols = r.hdr.cols := by rw [g1]
      refine ⟨?_, ?_⟩
      · rintro (hf | hf)
        · cases hf
        · have hm := (hmem row col h1 h2 h3 h4).2 hf
          obtain ⟨m, hm1, hm2⟩ := List.getElem_of_mem hm
          obtain ⟨_, ev'⟩ := hC.getValue_hit row col lyr m hm1 hm2 ⟨h5, by rw [g3]; exact h6⟩
          obtain ⟨hi, ev⟩ := h.getValue row col lyr ⟨h1, h2, h3, h4⟩ ⟨h5, h6⟩
          rw [ev, ev']
          congr 2
          rw [List.getElem_map, hm2, List.getD_eq_getElem _ _ hi]
      · intro _ hf
        have hm : (row, col) ∉ r.validCells ls := fun hm => hf ((hmem row col h1 h2 h3 h4).1 hm)
        rw [← g2]
        exact (hC.getValue_miss row col lyr (by rw [gr, gc]; exact ⟨h1, h2, h3, h4⟩) hm).2

/-- C28 (rasters): `OutputToMongoDB` of a raster built by the API, NoData cells included, leaves the raster as it is and
reports what the attempts report; after a success `ReadFromMongoDB` without a mask gives a raster with
the same grid, NoData value and number of layers whose `GetValue` gives the stored values: of every cell and layer if no
positions are computed, and otherwise of every cell with data in the first layer, while the other cells read as
NoData. -/
theorem C28_raster_partial {rnd : ℚ → ℚ} (hrnd : ∀ v, Representable .float v → rnd v = v) {T O T' : RDT} {rm : Nat → Bool} {att : Nat → Attempt}
    {st : Store} {r : Raster} {own opts : Opts} {core name file ty : Str} (hb : Built r) (hc : HasCells r)
    (hfile : file = if name = [] then core else name)
    (hs : StorableHeader { r.hdr with cellsnum := r.hdr.rows * r.hdr.cols })
    (hg : GoodKey ⟨file, outOpts T own opts true⟩) (hty : ("DATATYPE_OUT".toList, ty) ∈ outOpts T own opts true)
    (hO : stringToRdt ty = O) (hTO : StorableAs T O)
    (hv : ∀ row col lyr v, 0 ≤ row → row < r.hdr.rows → 0 ≤ col → col < r.hdr.cols → 1 ≤ lyr → lyr ≤ r.nLyrs →
      r.getValue row col lyr = .ok v → Representable T v ∧ Representable O v ∧ Representable T' v)
    (hnd : Representable .double r.noData ∧ Representable T' r.noData)
    (hrm : ∀ i, rm i = true) (hatt : ∀ i, CleanAttempt (att i)) :
    ∃ st' ok, outputToMongo rnd T rm att st r own core name opts true = .ok (r, outOpts T own opts true, st', ok) ∧
      (ok = true ↔ ∃ i, i < 4 ∧ (att i).reported = true) ∧
      (ok = true → ∀ ropts, GoodKey ⟨file, inOpts ropts⟩ → (∀ k v, (k, v) ∈ inOpts ropts → (k, v) ∈ outOpts T own opts true) →
        (∀ f ∈ st, Has f ⟨file, inOpts ropts⟩ → Has f ⟨file, outOpts T own opts true⟩) →
        ∀ ok1 ok2 : Nat → Bool, (∃ i, i < 5 ∧ ok1 i = true) → (∃ i, i < 5 ∧ ok2 i = true) → ∀ (calcPos : Bool) (dflt : ℚ),
        (calcPos = true → ∃ row col, 0 ≤ row ∧ row < r.hdr.rows ∧ 0 ≤ col ∧ col < r.hdr.cols ∧ FirstValid r row col) →
        ∃ r', readFromMongo rnd T' ok1 true ok2 st' file calcPos dflt ropts = .ok (some r') ∧
          r'.hdr.rows = r.hdr.rows ∧ r'.hdr.cols = r.hdr.cols ∧ r'.hdr.cellsize = r.hdr.cellsize ∧ r'.hdr.xll = r.hdr.xll ∧
          r'.hdr.yll = r.hdr.yll ∧ r'.noData = r.noData ∧ r'.nLyrs = r.nLyrs ∧
          ∀ row col lyr, 0 ≤ row → row < r.hdr.rows → 0 ≤ col → col < r.hdr.cols → 1 ≤ lyr → lyr ≤ r.nLyrs →
            (calcPos = false ∨ FirstValid r row col → r'.getValue row col lyr = r.getValue row col lyr) ∧
            (calcPos = true → ¬ FirstValid r row col → r'.getValue row col lyr = .ok r.noData)) := by
  obtain ⟨cells, e1, hlen, hcell⟩ := C10_stream hb hc
  obtain ⟨hly, hndh⟩ := hb.hdrOk
  have hwt : withType T (outOpts T own opts true) = outOpts T own opts true := by
    unfold withType; rw [if_pos ⟨ty, hty⟩]
  have hR : 0 ≤ r.hdr.rows := hs.rows.1
  have hC : 0 ≤ r.hdr.cols := hs.cols.1
  have hN : 0 < r.hdr.rows * r.hdr.cols := hs.cellsnum.1
  have hL : 0 < r.nLyrs := by have : 0 < r.hdr.layers := hs.layers.1; omega
  have hCpos : 0 < r.hdr.cols := by
    rcases lt_or_eq_of_le hC with h | h
    · exact h
    · rw [← h] at hN; simp at hN
  have hcells : ∀ v ∈ cells, Representable T v ∧ Representable O v ∧ Representable T' v := by
    intro v hvm
    obtain ⟨i, hi, rfl⟩ := List.getElem_of_mem hvm
    have hiN : (i : Int) < r.nLyrs * (r.hdr.rows * r.hdr.cols) := by rw [← hlen]; exact_mod_cast hi
    have a1 : (i : Int) / r.nLyrs < r.hdr.rows * r.hdr.cols := by
      apply Int.ediv_lt_of_lt_mul hL
      rw [mul_comm]; exact hiN
    have a0 : 0 ≤ (i : Int) / r.nLyrs := Int.ediv_nonneg (by omega) hL.le
    have b1 : (i : Int) / r.nLyrs / r.hdr.cols < r.hdr.rows := Int.ediv_lt_of_lt_mul hCpos a1
    have b0 : 0 ≤ (i : Int) / r.nLyrs / r.hdr.cols := Int.ediv_nonneg a0 hC
    have c0 := Int.emod_nonneg ((i : Int) / r.nLyrs) (by omega : r.hdr.cols ≠ 0)
    have c1 := Int.emod_lt_of_pos ((i : Int) / r.nLyrs) hCpos
    have d0 := Int.emod_nonneg (i : Int) (by omega : r.nLyrs ≠ 0)
    have d1 := Int.emod_lt_of_pos (i : Int) hL
    obtain ⟨k, hk⟩ := Int.eq_ofNat_of_zero_le d0
    obtain ⟨v, g1, g2⟩ := hcell _ _ k b0 b1 c0 c1 (by omega)
    have e : (((i : Int) / r.nLyrs / r.hdr.cols * r.hdr.cols + (i : Int) / r.nLyrs % r.hdr.cols) * r.nLyrs + k) = i := by
      rw [Int.ediv_mul_add_emod, ← hk, Int.ediv_mul_add_emod]
    rw [e, Int.toNat_natCast, List.getElem?_eq_getElem hi] at g2
    injection g2 with g2
    rw [g2]
    exact hv _ _ _ v b0 b1 c0 c1 (by omega) (by omega) g1
  obtain ⟨st', ok, n, w1, w2, w3⟩ := C28_file (T := T) (O := O) (T' := T') (rm := rm) (att := att) (st := st) (name := file)
    (h := { r.hdr with cellsnum := r.hdr.rows * r.hdr.cols }) (cells := cells) (opts := outOpts T own opts true) (ty := ty) hrnd
    (by rw [hwt]; exact hg) hs (by rw [hwt]; exact hty) hO hTO hcells (by rw [hlen]; show _ = _ * r.hdr.layers; rw [hly]; ring) hrm hatt
  refine ⟨st', ok, ?_, w2, ?_⟩
  · unfold outputToMongo
    rw [e1, Out.ok_bind]
    dsimp only
    rw [← hfile, w1, Out.ok_bind]
    rfl
  · intro hok ropts hgr hsub hst ok1 ok2 hok1 hok2 calcPos dflt hcalc
    rw [hwt] at w3
    obtain ⟨hm, sm, q1, q2, q3⟩ := w3 hok ⟨file, inOpts ropts⟩ hgr rfl hsub hst ok1 ok2 hok1 hok2
    obtain ⟨out, o1, _, o3⟩ := q3 _ _ (inc_mem T own opts)
    have o3 := o3 not_number_TRUE
    subst o3
    obtain ⟨fr, f1, f2, f3, f4, f5, f6⟩ := read_full (rnd := rnd) (T := T') (ok1 := ok1) (ok2 := ok2) (st := st') (name := file)
      (calcPos := calcPos) (dflt := dflt) (opts := ropts) q1 q2 hs o1 (by rw [hlen]; show _ = _ * r.hdr.layers; rw [hly]; ring) rfl
      (conv_exact hrnd (S := .double) (by show Representable .double r.hdr.noData; rw [hndh]; exact hnd.1)
        (by show Representable T' r.hdr.noData; rw [hndh]; exact hnd.2))
    have f2r : fr.hdr.rows = r.hdr.rows := by rw [f2]
    have f2c : fr.hdr.cols = r.hdr.cols := by rw [f2]
    have f4' : fr.nLyrs = r.nLyrs := by rw [f4]; exact hly
    have f3' : fr.noData = r.noData := by rw [f3]; exact hndh
    -- the full raster shows the stored values
    have view : ∀ row col lyr, 0 ≤ row → row < r.hdr.rows → 0 ≤ col → col < r.hdr.cols → 1 ≤ lyr → lyr ≤ r.nLyrs →
        fr.getValue row col lyr = r.getValue row col lyr := by
      intro row col lyr h1 h2 h3 h4 h5 h6
      obtain ⟨hi, ev⟩ := f1.getValue row col lyr (by rw [f2r, f2c]; exact ⟨h1, h2, h3, h4⟩) (by rw [f4']; exact ⟨h5, h6⟩)
      obtain ⟨v, g1, g2⟩ := hcell row col (lyr - 1).toNat h1 h2 h3 h4 (by omega)
      have e2 : (((lyr - 1).toNat : Nat) : Int) + 1 = lyr := by omega
      rw [e2] at g1
      have hl : fr.hdr.layers = r.nLyrs := by rw [f2]; exact hly
      have hk : (lyr - 1).toNat < fr.hdr.layers.toNat := by omega
      rw [ev, g1, rowsOf_get _ hi _ hk]
      have e3 : (row * fr.hdr.cols + col).toNat * fr.hdr.layers.toNat + (lyr - 1).toNat =
          ((row * r.hdr.cols + col) * r.nLyrs + ((lyr - 1).toNat : Int)).toNat := by
        rw [hl, f2c]
        have p0 : 0 ≤ row * r.hdr.cols + col := by have := Int.mul_nonneg h1 hC; omega
        obtain ⟨P, hP⟩ := Int.eq_ofNat_of_zero_le p0
        obtain ⟨L, hLe⟩ := Int.eq_ofNat_of_zero_le hL.le
        rw [hP, hLe]
        simp only [Int.toNat_natCast]
        rw [← Nat.cast_mul, ← Nat.cast_add, Int.toNat_natCast]
      rw [e3, List.getD_eq_getElem?_getD, g2]
      rfl
    have fv : ∀ row col, 0 ≤ row → row < r.hdr.rows → 0 ≤ col → col < r.hdr.cols → (FirstValid fr row col ↔ FirstValid r row col) := by
      intro row col h1 h2 h3 h4
      unfold FirstValid
      rw [view row col 1 h1 h2 h3 h4 (by omega) (by omega), f3']
    obtain ⟨r', e2, k1, k2, k3, k4, k5, k6, k7, k8⟩ := calc_view f1 (by
      intro hcp
      rw [f5] at hcp
      obtain ⟨row, col, h1, h2, h3, h4, h5⟩ := hcalc hcp
      exact ⟨row, col, by omega, by omega, by omega, by omega, (fv row col h1 h2 h3 h4).2 h5⟩)
    refine ⟨r', ?_, by rw [k1, f2r], by rw [k2, f2c], by rw [k3, f2], by rw [k4, f2], by rw [k5, f2], by rw [k6, f3'], by rw [k7, f4'], ?_⟩
    · rw [f6, e2]
    · intro row col lyr h1 h2 h3 h4 h5 h6
      obtain ⟨p1, p2⟩ := k8 row col lyr h1 (by omega) h3 (by omega) h5 (by omega)
      rw [fv row col h1 h2 h3 h4, f5] at p1
      rw [fv row col h1 h2 h3 h4, f5] at p2
      rw [view row col lyr h1 h2 h3 h4 h5 h6] at p1
      rw [f3'] at p2
      exact ⟨p1, p2⟩

/-! ## Where C28 fails, and examples -/

/-- The options of an object built in memory, data_raster.cpp:137-153. -/
def memOpts : Opts := strKeys.map (fun k => (k, []))

/-- A grid of one row, two columns and two layers. -/
def exMem : Raster := Raster.ofArray2 (some [[1, 2], [-9999, 3]]) 2 1 2 (-9999) 10 (5 / 2) 5

def exIn : Opts := [("DATATYPE_OUT".toList, "INT16".toList)]

/-- C28 is false of rasters built in memory and stored without naming a type: the option is the empty text, neither missing nor
`Unknown`, and a null buffer of length -1 is handed to the driver. -/
theorem C28_false_memory : outputToMongo id .int32 (fun _ => true) goodAtt [] exMem memOpts [] "a".toList [] true = .ub := by
  decide +kernel

/-- C28 is false of narrower stored types: 300 stored as `UINT8` is read as 44. -/
theorem C28_false_narrow : ∃ st, writeGridfs id .int32 (fun _ => true) goodAtt [] "a".toList exHdr (some [300]) 1
      [("DATATYPE_OUT".toList, "UINT8".toList)] = .ok (st, true, 1) ∧
    ((readGridfs id .int32 (fun _ => true) true (fun _ => true) st "a".toList initialHeader initialStr []).bind
      fun x => .ok (x.map (·.1))) = .ok (some [44]) :=
  ⟨_, rfl, by decide +kernel⟩

/-- C28 is false of 64-bit stored types for cells of another type: there is no such branch. -/
theorem C28_false_type64 (rnd : ℚ → ℚ) (cells : Ptr ℚ) (n : Int) (T O : RDT) (hT : T ≠ O) (hO : O = .uint64 ∨ O = .int64) :
    streamBytes rnd T O cells n = .ub := by
  unfold streamBytes
  by_cases hn : n < 0
  · rw [if_pos hn]
  · rw [if_neg hn, if_neg (Ne.symm hT), if_pos (.inr hO)]

/-- C28 is false of headers with integral numbers beyond 32 bits. -/
theorem C28_false_header (h : NumMap) (k : Str) (z : Int) (hk : stringMatch kNoData k = false) (hz : ¬ (-(2 ^ 31) ≤ z ∧ z < 2 ^ 31)) :
    headerDoc ((k, .fin z) :: h) = .ub := by
  have : headerVal k (.fin z) = .ub := by
    unfold headerVal
    rw [if_neg (by rw [hk]; simp)]
    dsimp only
    rw [if_pos (Rat.den_intCast z), if_neg]
    rintro ⟨h1, h2⟩
    exact hz ⟨by exact_mod_cast h1, by exact_mod_cast h2⟩
  simp only [headerDoc]
  rw [this]; rfl

/-- C28 is false of rasters stored without their NoData cells: without a mask they cannot be read. -/
theorem C28_false_compact :
    ((outputToMongo id .int32 (fun _ => true) goodAtt [] exMem memOpts [] "a".toList exIn false).bind fun x =>
      (readFromMongo id .int32 (fun _ => true) true (fun _ => true) x.2.2.1 "a".toList false (-9999)
        [("INCLUDE_NODATA".toList, "FALSE".toList)]).bind fun y => .ok (x.2.2.2, y.isNone)) = .ok (true, true) := by
  decide +kernel

theorem exMem_hdr : StorableHeader { exMem.hdr with cellsnum := exMem.hdr.rows * exMem.hdr.cols } := by
  have hi : ∀ m : Int, -(2 ^ 31) ≤ m → m < 2 ^ 31 → ∀ z : Int, (m : ℚ) = z → -(2 ^ 31) ≤ z ∧ z < 2 ^ 31 := by
    intro m h1 h2 z hz
    have : m = z := by exact_mod_cast hz
    omega
  refine ⟨by decide, by decide, by decide, by decide, by decide, ?_, ?_, ?_⟩
  · intro z hz
    exact hi 10 (by norm_num) (by norm_num) z (by rw [← hz]; simp [exMem, Raster.ofArray2])
  · intro z hz
    have e : ((5 / 2 : ℚ)) = z := by rw [← hz]; rfl
    have : (5 : ℚ) = ((2 * z : Int) : ℚ) := by push_cast; linarith
    have : (5 : Int) = 2 * z := by exact_mod_cast this
    omega
  · intro z hz
    exact hi 5 (by norm_num) (by norm_num) z (by rw [← hz]; simp [exMem, Raster.ofArray2])

theorem exMem_key : GoodKey ⟨"a".toList, outOpts .int32 memOpts exIn true⟩ := by
  have h1 : withType .int32 (outOpts .int32 memOpts exIn true) = outOpts .int32 memOpts exIn true := by
    rw [← curOpts_eq]; decide +kernel
  rw [← h1]
  exact goodKey_of (by decide +kernel)

theorem exMem_rkey : GoodKey ⟨"a".toList, inOpts exIn⟩ := by
  have h1 : withType .int32 (inOpts exIn) = inOpts exIn := by
    rw [← curOpts_eq]; decide +kernel
  rw [← h1]
  exact goodKey_of (by decide +kernel)

/-- The hypotheses of `C28_raster_partial` for an int32 raster of two layers stored as INT16, the second attempt succeeding, and read
as a raster of doubles. -/
example : ∃ st' r', outputToMongo id .int32 (fun _ => true) (fun i => if i = 0 then badAtt 0 else goodAtt 0) [] exMem memOpts [] "a".toList exIn true =
      .ok (exMem, outOpts .int32 memOpts exIn true, st', true) ∧
    readFromMongo id .double (fun _ => true) true (fun i => i == 3) st' "a".toList true (-9999) exIn = .ok (some r') ∧
    r'.getValue 0 0 2 = .ok 2 ∧ r'.getValue 0 1 2 = .ok (-9999) := by
  have hb : Built exMem := .grid2 [[1, 2], [-9999, 3]] 1 2 2 (-9999) 10 (5 / 2) 5 rfl (by decide) (by decide)
  have hrep : ∀ n : Int, -32768 ≤ n → n ≤ 32767 → Representable .int32 (n : ℚ) ∧ Representable .int16 (n : ℚ) ∧ Representable .double (n : ℚ) := by
    intro n h1 h2
    refine ⟨⟨n, rfl, by omega, by omega⟩, ⟨n, rfl, h1, h2⟩, ⟨n, 0, ?_, by norm_num, by norm_num, by simp⟩⟩
    have : n.natAbs ≤ 32768 := by omega
    exact lt_of_le_of_lt this (by norm_num)
  have hfv : FirstValid exMem 0 0 := ⟨1, by decide +kernel, by decide +kernel⟩
  obtain ⟨st', ok, e1, e2, e3⟩ := C28_raster_partial (rnd := id) (T := .int32) (O := .int16) (T' := .double) (rm := fun _ => true)
    (att := fun i => if i = 0 then badAtt 0 else goodAtt 0) (st := []) (r := exMem) (own := memOpts) (opts := exIn) (core := [])
    (name := "a".toList) (file := "a".toList) (ty := "INT16".toList) (fun v _ => rfl) hb ⟨rfl, fun _ => by decide⟩ (by decide)
    exMem_hdr exMem_key (by decide +kernel) (by decide) (.inr (by decide))
    (by
      intro row col lyr v h1 h2 h3 h4 h5 h6 hv
      have k1 : row < 1 := h2
      have k2 : col < 2 := h4
      have k3 : lyr ≤ 2 := h6
      have e0 : row = 0 := by omega
      have e1 : col = 0 ∨ col = 1 := by omega
      have e2 : lyr = 1 ∨ lyr = 2 := by omega
      subst e0
      have w1 : exMem.getValue 0 0 1 = .ok ((1 : Int) : ℚ) := by decide +kernel
      have w2 : exMem.getValue 0 0 2 = .ok ((2 : Int) : ℚ) := by decide +kernel
      have w3 : exMem.getValue 0 1 1 = .ok ((-9999 : Int) : ℚ) := by decide +kernel
      have w4 : exMem.getValue 0 1 2 = .ok ((3 : Int) : ℚ) := by decide +kernel
      rcases e1 with rfl | rfl <;> rcases e2 with rfl | rfl
      · rw [w1] at hv; injection hv with hv; subst hv; exact hrep 1 (by norm_num) (by norm_num)
      · rw [w2] at hv; injection hv with hv; subst hv; exact hrep 2 (by norm_num) (by norm_num)
      · rw [w3] at hv; injection hv with hv; subst hv; exact hrep (-9999) (by norm_num) (by norm_num)
      · rw [w4] at hv; injection hv with hv; subst hv; exact hrep 3 (by norm_num) (by norm_num))
    (by
      have : exMem.noData = ((-9999 : Int) : ℚ) := by decide +kernel
      rw [this]
      exact ⟨(hrep (-9999) (by norm_num) (by norm_num)).2.2, (hrep (-9999) (by norm_num) (by norm_num)).2.2⟩)
    (fun _ => rfl) (by
      intro i
      by_cases hi : i = 0
      · rw [if_pos hi]; exact .inr ⟨rfl, rfl⟩
      · rw [if_neg hi]; exact .inl ⟨rfl, rfl⟩)
  have hok : ok = true := e2.2 ⟨1, by decide, rfl⟩
  subst hok
  obtain ⟨r', f1, _, _, _, _, _, f7, f8, f9⟩ := e3 rfl exIn exMem_rkey (by
      have : ∀ kv ∈ inOpts exIn, kv ∈ outOpts .int32 memOpts exIn true := by decide +kernel
      exact fun k v h => this _ h) (by simp) (fun _ => true) (fun i => i == 3) ⟨0, by decide, rfl⟩ ⟨3, by decide, rfl⟩ true (-9999)
    (fun _ => ⟨0, 0, by decide, by decide, by decide, by decide, hfv⟩)
  refine ⟨st', r', e1, f1, ?_, ?_⟩
  · rw [(f9 0 0 2 (by decide) (by decide) (by decide) (by decide) (by decide) (by decide)).1 (.inr hfv)]
    decide +kernel
  · rw [(f9 0 1 2 (by decide) (by decide) (by decide) (by decide) (by decide) (by decide)).2 rfl]
    · decide +kernel
    · rintro ⟨v, h1, h2⟩
      have : exMem.getValue 0 1 1 = .ok (-9999) := by decide +kernel
      rw [this] at h1
      injection h1 with h1
      subst h1
      revert h2
      decide +kernel

end Gfs
end CCGL
