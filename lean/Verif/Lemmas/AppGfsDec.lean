import Verif.Spec.AppGfsDec
import Verif.Props.AppGfsCom
import Verif.Props.AppRecls
/-!
# Lemmas for C90: groups and reclassified grids stored in GridFS
-/
namespace CCGL
namespace App
open Fs Disk Main Raster Gfs Disk.Spec App.Spec

/-- Each number of a list with the length of a grid with `m` layers belongs to a cell and a layer. -/
theorem mem_cells {rows cols m : Int} {cells : List ℚ} (hC : 0 ≤ cols) (hm : 1 ≤ m) (hl : (cells.length : Int) = rows * cols * m) {x : ℚ} (hx : x ∈ cells) :
    ∃ (row col : Int) (l : Nat), 0 ≤ row ∧ row < rows ∧ 0 ≤ col ∧ col < cols ∧ (l : Int) < m ∧ cells[((row * cols + col) * m + l).toNat]? = some x := by
  obtain ⟨i, hi, rfl⟩ := List.getElem_of_mem hx
  have hiN : (i : Int) < rows * cols * m := by rw [← hl]; exact_mod_cast hi
  have a1 : (i : Int) / m < rows * cols := Int.ediv_lt_of_lt_mul (by omega) hiN
  have a0 : 0 ≤ (i : Int) / m := Int.ediv_nonneg (by omega) (by omega)
  have l0 := Int.emod_nonneg (i : Int) (by omega : m ≠ 0)
  have l1 := Int.emod_lt_of_pos (i : Int) (by omega : 0 < m)
  have hC' : 0 < cols := by
    rcases lt_or_eq_of_le hC with q | q
    · exact q
    · rw [← q, mul_zero] at a1; omega
  refine ⟨(i : Int) / m / cols, (i : Int) / m % cols, ((i : Int) % m).toNat, Int.ediv_nonneg a0 hC, Int.ediv_lt_of_lt_mul hC' a1,
    Int.emod_nonneg _ (by omega), Int.emod_lt_of_pos _ hC', by omega, ?_⟩
  rw [Int.ediv_mul_add_emod, Int.toNat_of_nonneg l0, Int.ediv_mul_add_emod, Int.toNat_natCast, List.getElem?_eq_getElem hi]

/-- A list with all cells of `m` layers. -/
structure AllCells (h : Header) (m : Int) (w : Nat → Int → Int → ℚ) (cells : List ℚ) : Prop where
  len : (cells.length : Int) = h.rows * h.cols * m
  val : ∀ row col (l : Nat), h.grid.CellInside row col → (l : Int) < m → cells[((row * h.cols + col) * m + l).toNat]? = some (w l row col)

theorem AllCells.fits {h : Header} {m : Int} {w : Nat → Int → Int → ℚ} {cells : List ℚ} (H : AllCells h m w cells) (hC : 0 ≤ h.cols) (hm : 1 ≤ m) {P : ℚ → Prop}
    (hP : ∀ row col (l : Nat), h.grid.CellInside row col → (l : Int) < m → P (w l row col)) : ∀ x ∈ cells, P x := by
  intro x hx
  obtain ⟨row, col, l, a1, a2, a3, a4, a5, a6⟩ := mem_cells hC hm H.len hx
  have := H.val row col l ⟨a1, a2, a3, a4⟩ a5
  rw [a6] at this
  injection this with this
  rw [this]
  exact hP row col l ⟨a1, a2, a3, a4⟩ a5

/-- The file found under the key is the list of cells. -/
theorem holds_file {rnd : ℚ → ℚ} (hrnd : ∀ v, CCGL.Spec.Representable .float v → rnd v = v) {st' : Store} {name : Str} {ty : RDT} {own : Opts} {h : Header} {m : Int}
    {w : Nat → Int → Int → ℚ} {cells : List ℚ} (H : AllCells h m w cells) (ht : ty ≠ .unknown) (hn : Char.ofNat 0 ∉ name)
    (hh : CCGL.Spec.StorableHeader { h with layers := m, cellsnum := h.rows * h.cols }) {info : BDoc}
    (hf : ∀ x ∈ cells, Fits ty x)
    (hhdr : CCGL.Spec.HeaderIs (info.foldl readElem (initialHeader, initialStr)).1 { h with layers := m, cellsnum := h.rows * h.cols })
    (hopts : ∀ k v, (k, v) ∈ outOpts .double own (wholeOpts ty) true → ∃ out, (info.foldl readElem (initialHeader, initialStr)).2 k = some out ∧
      CCGL.Spec.SameMeaning v out ∧ ((∀ x, ¬ CCGL.Spec.NumText v x) → out = v))
    (hfiles : CCGL.Spec.filesOf st' ⟨name, wholeOpts ty⟩ = [File.mk name info (cells.flatMap (encode ty))]) :
    HoldsLayers rnd st' name (wholeOpts ty) h m w := by
  refine ⟨hh, ?_⟩
  intro ok1 ok2 h1 h2
  obtain ⟨hm, sm, q1, q2, q3⟩ := read_file (rnd := rnd) hrnd (T := .double) (O := ty) (T' := .double) (cells := cells) hh (type_mem own ht) (C25_roundtrip ty)
    (fun x hx => ⟨(hf x hx).1, (hf x hx).2, (hf x hx).1⟩) H.len hhdr hopts (R := ⟨name, wholeOpts ty⟩) (wholeOpts_good ty hn) rfl hfiles h1 h2
  obtain ⟨out, o1, -, o3⟩ := q3 kIncNodata "TRUE".toList (inc_mem .double own _)
  have o3 := o3 not_number_TRUE
  subst o3
  exact ⟨cells, hm, sm, q1, q2, o1, H.len, H.val⟩

theorem type_kept (own : Opts) {ty : RDT} (h : ty ≠ .unknown) : CCGL.Spec.withType .double (outOpts .double own (wholeOpts ty) true) = outOpts .double own (wholeOpts ty) true := by
  unfold CCGL.Spec.withType; rw [if_pos ⟨_, type_mem own h⟩]

/-- A grid with all its layers is stored. -/
theorem store_layers {rnd : ℚ → ℚ} (hrnd : ∀ v, CCGL.Spec.Representable .float v → rnd v = v) {st : Store} {name : Str} {ty : RDT} {own : Opts} {h : Header}
    {m : Int} {w : Nat → Int → Int → ℚ} {cells : List ℚ} (H : AllCells h m w cells) (ht : ty ≠ .unknown ∧ ty ≠ .uint64 ∧ ty ≠ .int64)
    (hk : CCGL.Spec.GoodKey ⟨name, outOpts .double own (wholeOpts ty) true⟩)
    (hh : CCGL.Spec.StorableHeader { h with layers := m, cellsnum := h.rows * h.cols }) (hf : ∀ x ∈ cells, Fits ty x)
    {rm : Nat → Bool} {att : Nat → Attempt} (hrm : ∀ i, rm i = true) (hatt : ∀ i, CCGL.Spec.CleanAttempt (att i)) (hdone : ∃ i, i < 4 ∧ (att i).reported = true)
    (hold : ∀ f ∈ st, CCGL.Spec.Has f ⟨name, wholeOpts ty⟩ → CCGL.Spec.Has f ⟨name, outOpts .double own (wholeOpts ty) true⟩) :
    ∃ st' n, writeGridfs rnd .double rm att st name (headerMap { h with layers := m, cellsnum := h.rows * h.cols }) (some cells) cells.length
        (outOpts .double own (wholeOpts ty) true) = .ok (st', true, n) ∧
      (∀ R : CCGL.Spec.Key, R.name ≠ name → CCGL.Spec.filesOf st' R = CCGL.Spec.filesOf st R) ∧
      HoldsLayers rnd st' name (wholeOpts ty) h m w := by
  have hwt := type_kept own ht.1
  obtain ⟨st1, okb, n, info, w1, w2, w3, w4, w5, w6⟩ := write_step (rnd := rnd) hrnd (T := .double) (O := ty) (rm := rm) (att := att) st
    (name := name) (h := { h with layers := m, cellsnum := h.rows * h.cols }) (cells := cells)
    (opts := outOpts .double own (wholeOpts ty) true) (ty := rdtToString ty.code) (by rw [hwt]; exact hk) hh
    (by rw [hwt]; exact type_mem own ht.1) (C25_roundtrip ty) (.inr ht) (fun x hx => hf x hx) hrm hatt
  have hok : okb = true := w2.2 hdone
  subst hok
  rw [hwt] at w4 w6
  refine ⟨st1, n, w1, w5, holds_file hrnd (own := own) H ht.1 hk.name hh hf w3 w4 ?_⟩
  exact w6 ⟨name, wholeOpts ty⟩ rfl (opts_sub own ht.1) hold

theorem get_of_read {F : List ℚ} {i : Int} {x : ℚ} (h0 : 0 ≤ i) (h : readAt (some F) i = .ok x) : F[i.toNat]? = some x := by
  obtain ⟨n, rfl⟩ := Int.eq_ofNat_of_zero_le h0
  rw [Int.toNat_natCast]
  exact readAt_ok_lt h

/-- The cells of a group on its rectangle, without table. -/
theorem cut_plain {rs : RasterS} {ls ps G} (h : Cut rs ls ps G) (h2 : rs.ras.is2d = false) (hl : rs.ras.nLyrs = 1) (dv : ℚ) {k : Int} {s : Subset}
    (hk : rs.subs.get k = some s) :
    ∃ F, prepareSubsetData rs.ras k s true true [] dv = .ok (some (some F, (s.erow - s.srow + 1) * (s.ecol - s.scol + 1) * 1, 1)) ∧
      (F.length : Int) = (s.erow - s.srow + 1) * (s.ecol - s.scol + 1) * 1 ∧
      ∀ row col, s.srow ≤ row → row ≤ s.erow → s.scol ≤ col → col ≤ s.ecol →
      (CCGL.Spec.InSubset s row col → ∃ w, rs.ras.getValue row col 1 = .ok w ∧
        readAt (some F) (((row - s.srow) * (s.ecol - s.scol + 1) + (col - s.scol)) * 1 + 0) = .ok w) ∧
      (¬ CCGL.Spec.InSubset s row col →
        readAt (some F) (((row - s.srow) * (s.ecol - s.scol + 1) + (col - s.scol)) * 1 + 0) = .ok rs.ras.noData) := by
  have hP := h.part
  have ho := hP.some k s hk
  obtain ⟨F, e1, e2, e3, e4⟩ := decomp_core h.comp (fun q => by rw [h2] at q; cases q) ho (fun i hi => hP.lt hi) (h.asc k) k true dv
  simp only [if_true] at e1 e2 e3 e4
  rw [hl] at e1 e2 e3 e4
  refine ⟨F, e1, e2, ?_⟩
  intro row col r0 r1 c0 c1
  constructor
  · intro hin
    obtain ⟨i, hi, hp⟩ := (ho.in_iff row col).1 hin
    have hv := h.value hi hp (l := 0) le_rfl (fun q => by rw [h2] at q; cases q)
    rw [h2] at hv
    simp only [Bool.false_eq_true, if_false] at hv
    refine ⟨_, hv, ?_⟩
    obtain ⟨j, hj, hij⟩ := List.mem_iff_getElem.1 hi
    have t := e3 j hj 0 le_rfl (by omega)
    rw [hij] at t
    have hx : localOf ps s i = (row - s.srow) * (s.ecol - s.scol + 1) + (col - s.scol) := by
      unfold localOf
      rw [hp]
    rw [hx] at t
    exact t
  · intro hnot
    have hr := idx_range (rows := s.erow - s.srow + 1) (cols := s.ecol - s.scol + 1) (i := row - s.srow) (j := col - s.scol)
      (by omega) (by omega) (by omega) (by omega)
    exact e4 _ 0 hr.1 hr.2 le_rfl (by omega) (fun j hj => sub_outside ho c0 c1 hnot j hj)

/-- The table and the value for unlisted numbers that a job hands over. -/
noncomputable def useTable (j : Job) : IMap (List ℚ) := if j.recls then tableOf j.table else []
noncomputable def useDflt (j : Job) : ℚ := if j.recls then j.default.toQ else NODATA

/-- What is written for a group. -/
theorem group_payload {rs : RasterS} {V : View} {j : Job} {fill : ℚ} {m : Int} (H : Ready rs V.hdr V.val V.grp j.default.toQ fill) (hl : rs.ras.nLyrs = 1)
    (htab : j.recls = true → CCGL.Spec.TableOf (numTable j) m ∧ ((numTable j).map (·.1)).Nodup) (hone : j.recls = false → m = 1) {k : Int} {s : Subset}
    (hk : rs.subs.get k = some s) : 1 ≤ m ∧ s.usable = true ∧ IsBox (V.grp k) s.srow s.erow s.scol s.ecol ∧
    ∃ F w, Gfs.subPayload .double rs.ras k s true true (useTable j) (useDflt j) = .ok (some ({ boxHeader V.hdr s.srow s.erow s.scol s.ecol with
        layers := m, cellsnum := (s.erow - s.srow + 1) * (s.ecol - s.scol + 1) }, some F, (F.length : Int))) ∧
      AllCells (boxHeader V.hdr s.srow s.erow s.scol s.ecol) m w F ∧
      ∀ row col (l : Nat), s.srow ≤ row → row ≤ s.erow → s.scol ≤ col → col ≤ s.ecol → (l : Int) < m →
        (V.grp k row col → w l (row - s.srow) (col - s.scol) = cellOut j V.val fill l row col) ∧
        (¬ V.grp k row col → w l (row - s.srow) (col - s.scol) = V.hdr.noData) := by
  have hne : rs.subs ≠ [] := fun h => by rw [h, IMap.get_nil] at hk; cases hk
  obtain ⟨ls, ps, G, hc⟩ := H.cut hne
  have hg := H.grid
  unfold Header.grid at hg
  injection hg with g1 g2 g3 g4 g5
  have hm : 1 ≤ m := by
    cases hr : j.recls with
    | true => exact (htab hr).1.2.1
    | false => rw [hone hr]
  have hbox := cut_box hc hk
  have hcells := H.cells hk
  have hval : ∀ row col, CCGL.Spec.InSubset s row col → rs.ras.getValue row col 1 = .ok (V.val row col) := fun row col hin =>
    H.val k row col ((H.grp k row col).2 ⟨s, hk, hin⟩)
  have key : ∃ F, prepareSubsetData rs.ras k s true true (useTable j) (useDflt j) =
        .ok (some (some F, (s.erow - s.srow + 1) * (s.ecol - s.scol + 1) * m, m)) ∧
      (F.length : Int) = (s.erow - s.srow + 1) * (s.ecol - s.scol + 1) * m ∧
      ∀ row col (l : Nat), s.srow ≤ row → row ≤ s.erow → s.scol ≤ col → col ≤ s.ecol → (l : Int) < m →
        (CCGL.Spec.InSubset s row col → readAt (some F) (((row - s.srow) * (s.ecol - s.scol + 1) + (col - s.scol)) * m + l) =
          .ok (cellOut j V.val fill l row col)) ∧
        (¬ CCGL.Spec.InSubset s row col → readAt (some F) (((row - s.srow) * (s.ecol - s.scol + 1) + (col - s.scol)) * m + l) = .ok V.hdr.noData) := by
    cases hr : j.recls with
    | true =>
      obtain ⟨t1, t2⟩ := htab hr
      obtain ⟨F, e1, e2, e3⟩ := hc.decomp (table_ok t1) (fun q => by rw [H.flat] at q; cases q) j.default.toQ hk
      refine ⟨F, by unfold useTable useDflt; rw [hr]; exact e1, e2, ?_⟩
      intro row col l a1 a2 a3 a4 a5
      obtain ⟨u1, u2⟩ := e3 row col l a1 a2 a3 a4 (by omega) a5
      constructor
      · intro hin
        obtain ⟨x, x1, x2⟩ := u1 hin
        rw [H.flat] at x1
        simp only [Bool.false_eq_true, if_false] at x1
        rw [hval row col hin] at x1
        injection x1 with x1
        rw [x2, ← x1, H.fill, table_value t2]
        unfold cellOut
        rw [hr, if_pos rfl]
      · intro hin
        rw [u2 hin, H.nd]
    | false =>
      obtain ⟨F, e1, e2, e3⟩ := cut_plain hc H.flat hl NODATA hk
      have := hone hr
      subst this
      refine ⟨F, by unfold useTable useDflt; rw [hr]; exact e1, e2, ?_⟩
      intro row col l a1 a2 a3 a4 a5
      have hl0 : l = 0 := by omega
      subst hl0
      obtain ⟨u1, u2⟩ := e3 row col a1 a2 a3 a4
      constructor
      · intro hin
        obtain ⟨x, x1, x2⟩ := u1 hin
        rw [hval row col hin] at x1
        injection x1 with x1
        rw [Nat.cast_zero, x2, ← x1]
        unfold cellOut
        rw [hr, if_neg (by simp)]
      · intro hin
        rw [Nat.cast_zero, u2 hin, H.nd]
  obtain ⟨F, e1, e2, e3⟩ := key
  have hw : AllCells (boxHeader V.hdr s.srow s.erow s.scol s.ecol) m
      (fun l row col => F.getD ((row * (s.ecol - s.scol + 1) + col) * m + l).toNat 0) F := by
    refine ⟨e2, ?_⟩
    rintro row col l ⟨a1, a2, a3, a4⟩ a5
    have a2 : row < s.erow - s.srow + 1 := a2
    have a4 : col < s.ecol - s.scol + 1 := a4
    obtain ⟨u1, u2⟩ := e3 (row + s.srow) (col + s.scol) l (by omega) (by omega) (by omega) (by omega) a5
    have hpos : 0 ≤ (row * (s.ecol - s.scol + 1) + col) * m + (l : Int) := by
      have : 0 ≤ row * (s.ecol - s.scol + 1) := Int.mul_nonneg a1 (by omega)
      have : 0 ≤ (row * (s.ecol - s.scol + 1) + col) * m := Int.mul_nonneg (by omega) (by omega)
      omega
    rw [Int.add_sub_cancel, Int.add_sub_cancel] at u1 u2
    have : ∃ x, F[((row * (s.ecol - s.scol + 1) + col) * m + (l : Int)).toNat]? = some x := by
      by_cases hin : CCGL.Spec.InSubset s (row + s.srow) (col + s.scol)
      · exact ⟨_, get_of_read hpos (u1 hin)⟩
      · exact ⟨_, get_of_read hpos (u2 hin)⟩
    obtain ⟨x, hx⟩ := this
    show F[((row * (s.ecol - s.scol + 1) + col) * m + (l : Int)).toNat]? = _
    rw [List.getD_eq_getElem?_getD, hx]
    rfl
  refine ⟨hm, hc.use k s hk, by rw [hcells]; exact hbox, F, _, ?_, hw, ?_⟩
  · unfold Gfs.subPayload
    rw [e1, Out.ok_bind]
    dsimp only
    rw [if_neg (by omega), Int.mul_tdiv_cancel _ (by omega), e2, Out.pure_eq]
    congr 3
    unfold Subset.getHeader boxHeader
    have ha : Gtiff.asDbl .double rs.ras.noData = rs.ras.noData := rfl
    dsimp only
    rw [ha, g1, g3, g4, g5, H.nd]
    congr 1
    · ring
    · push_cast; ring
  · intro row col l a1 a2 a3 a4 a5
    obtain ⟨u1, u2⟩ := e3 row col l a1 a2 a3 a4 a5
    have hpos : 0 ≤ ((row - s.srow) * (s.ecol - s.scol + 1) + (col - s.scol)) * m + (l : Int) := by
      have : 0 ≤ (row - s.srow) * (s.ecol - s.scol + 1) := Int.mul_nonneg (by omega) (by omega)
      have : 0 ≤ ((row - s.srow) * (s.ecol - s.scol + 1) + (col - s.scol)) * m := Int.mul_nonneg (by omega) (by omega)
      omega
    rw [hcells]
    constructor
    · intro hin
      rw [List.getD_eq_getElem?_getD, get_of_read hpos (u1 hin)]; rfl
    · intro hin
      rw [List.getD_eq_getElem?_getD, get_of_read hpos (u2 hin)]; rfl

theorem subFile_key {st : Store} {mode : IOMode} {j : Job} {jd : JobDb} {V : View} {fill : ℚ} {m : Int} (O : DbOut st mode j jd V fill m) (k : Int) :
    CCGL.Spec.GoodKey ⟨CCGL.Spec.subsetFile k j.out, outOpts .double jd.own (wholeOpts j.type) true⟩ := by
  rw [← subFile_eq]
  exact good_subFile O.key k

/-- The groups are stored. -/
theorem store_groups {rnd : ℚ → ℚ} (hrnd : ∀ v, CCGL.Spec.Representable .float v → rnd v = v) {st : Store} {mode : IOMode} {j : Job} {jd : JobDb} {V : View}
    {fill : ℚ} {m : Int} {rs : RasterS} (H : Ready rs V.hdr V.val V.grp j.default.toQ fill) (hl : rs.ras.nLyrs = 1) (O : DbOut st mode j jd V fill m)
    (hin : ∀ k row col, V.grp k row col → V.hdr.grid.CellInside row col) (hmode : WantsSingle mode) :
    ∃ st' o b, outputSubsets rnd .double jd.rms jd.atts st rs jd.own jd.core j.out (jobOpts true j.type) true true false (useTable j) (useDflt j) = .ok (o, st', b) ∧
      (∀ R : CCGL.Spec.Key, (∀ k, Present V.grp k → R.name ≠ CCGL.Spec.subsetFile k j.out) → CCGL.Spec.filesOf st' R = CCGL.Spec.filesOf st R) ∧
      ∀ k, Present V.grp k → DbSingle rnd st' (CCGL.Spec.subsetFile k j.out) (wholeOpts j.type) V.hdr m (cellOut j V.val fill) (V.grp k) ∧
        ∀ f ∈ st', CCGL.Spec.Has f ⟨CCGL.Spec.subsetFile k j.out, wholeOpts j.type⟩ →
          CCGL.Spec.Has f ⟨CCGL.Spec.subsetFile k j.out, outOpts .double jd.own (wholeOpts j.type) true⟩ := by
  by_cases hne : rs.subs = []
  · have hno : ∀ k, ¬ Present V.grp k := by
      intro k hk
      obtain ⟨s, hs⟩ := (H.present k).1 hk
      rw [hne, IMap.get_nil] at hs
      cases hs
    cases hvd : rs.ras.validData with
    | false =>
      refine ⟨st, jd.own, false, ?_, fun _ _ => rfl, fun k hk => absurd hk (hno k)⟩
      unfold outputSubsets
      rw [hvd]
      rfl
    | true =>
      refine ⟨st, jd.own, false, ?_, fun _ _ => rfl, fun k hk => absurd hk (hno k)⟩
      unfold outputSubsets
      rw [hvd, if_neg (by simp), if_pos hne]
  · obtain ⟨ls, ps, G, hc⟩ := H.cut hne
    have hsorted := hc.part.sorted
    have hget : ∀ x ∈ rs.subs, rs.subs.get x.1 = some x.2 := fun x hx => (IMap.mem_iff_get _ hsorted _ _).1 hx
    have hvalid : rs.ras.validData = true := Holds.valid hc.comp.holds
    have hwt := type_kept jd.own O.type.1
    have pay : ∀ k s, rs.subs.get k = some s → s.usable = true ∧ ∃ F w, Gfs.subPayload .double rs.ras k s true true (useTable j) (useDflt j) =
          .ok (some ({ boxHeader V.hdr s.srow s.erow s.scol s.ecol with layers := m, cellsnum := (s.erow - s.srow + 1) * (s.ecol - s.scol + 1) }, some F, (F.length : Int))) ∧
        CCGL.Spec.StorableHeader { boxHeader V.hdr s.srow s.erow s.scol s.ecol with layers := m, cellsnum := (s.erow - s.srow + 1) * (s.ecol - s.scol + 1) } ∧
        (∀ x ∈ F, Fits j.type x) ∧ IsBox (V.grp k) s.srow s.erow s.scol s.ecol ∧ AllCells (boxHeader V.hdr s.srow s.erow s.scol s.ecol) m w F ∧
        ∀ row col (l : Nat), s.srow ≤ row → row ≤ s.erow → s.scol ≤ col → col ≤ s.ecol → (l : Int) < m →
          (V.grp k row col → w l (row - s.srow) (col - s.scol) = cellOut j V.val fill l row col) ∧
          (¬ V.grp k row col → w l (row - s.srow) (col - s.scol) = V.hdr.noData) := by
      intro k s hk
      obtain ⟨hm, hu, hbox, F, w, e1, e2, e3⟩ := group_payload H hl O.table O.one hk
      have hst := O.single hmode k ((H.present k).2 ⟨s, hk⟩) _ _ _ _ hbox
      refine ⟨hu, F, w, e1, hst, ?_, hbox, e2, e3⟩
      refine e2.fits hst.cols.1 hm ?_
      rintro row col l ⟨a1, a2, a3, a4⟩ a5
      have a2 : row < s.erow - s.srow + 1 := a2
      have a4 : col < s.ecol - s.scol + 1 := a4
      obtain ⟨u1, u2⟩ := e3 (row + s.srow) (col + s.scol) l (by omega) (by omega) (by omega) (by omega) a5
      rw [Int.add_sub_cancel, Int.add_sub_cancel] at u1 u2
      by_cases hg : V.grp k (row + s.srow) (col + s.scol)
      · rw [u1 hg]
        unfold cellOut
        cases hr : j.recls with
        | true => exact O.vals hr _ _
        | false => exact O.cells hr _ _ (hin _ _ _ hg)
      · rw [u2 hg]; exact O.nodata
    obtain ⟨st', fl, l1, l2, l3⟩ := loop_true (rnd := rnd) (T := .double) (O := j.type) (rms := jd.rms) (atts := jd.atts) (r := rs.ras) (recls := useTable j) (dv := useDflt j) (inc := true)
      (name := j.out) (o := outOpts .double jd.own (wholeOpts j.type) true) (ty := rdtToString j.type.code) hrnd (good_subFile O.key) hwt
      (type_mem jd.own O.type.1) (C25_roundtrip j.type) (.inr O.type) O.rms O.atts rs.subs 0 st hsorted (fun x hx => by
        obtain ⟨q1, F, w, q2, q3, q4, -⟩ := pay _ _ (hget x hx)
        exact ⟨q1, _, F, q2, q3, q4⟩)
    refine ⟨st', outOpts .double jd.own (wholeOpts j.type) true, true, ?_, ?_, ?_⟩
    · unfold outputSubsets
      dsimp only
      rw [hvalid, if_neg (by simp), if_neg hne, if_neg (by simp), if_neg O.name, jobOpts_true, subOpts_eq jd.own O.type.1, l1, Out.ok_bind]
      rfl
    · intro R hR
      exact l2 R (fun x hx => by rw [subFile_eq]; exact hR _ ((H.present _).2 ⟨_, hget x hx⟩))
    · intro k hk
      have hk0 := hk
      obtain ⟨s, hk⟩ := (H.present k).1 hk
      obtain ⟨n, hn, hn'⟩ := List.getElem_of_mem ((IMap.mem_iff_get _ hsorted _ _).2 hk)
      obtain ⟨q1, F, w, q2, q3, q4, q5, q6, q7⟩ := pay k s hk
      have hold := O.old (CCGL.Spec.subsetFile k j.out) (.inl ⟨hmode, k, hk0, rfl⟩)
      have hnm : ∀ o : Opts, (⟨CCGL.Spec.subsetFile k j.out, o⟩ : CCGL.Spec.Key).name = subFile rs.subs[n].1 j.out := fun o => by rw [hn', subFile_eq]
      obtain ⟨t1, -, -⟩ := l3 n hn ⟨CCGL.Spec.subsetFile k j.out, wholeOpts j.type⟩ (hnm _) (opts_sub jd.own O.type.1) hold
      obtain ⟨t2, -, -⟩ := l3 n hn ⟨CCGL.Spec.subsetFile k j.out, outOpts .double jd.own (wholeOpts j.type) true⟩ (hnm _) (fun _ _ h => h) (fun _ _ h => h)
      have hwr : ∀ i, i ≤ n → CCGL.Spec.Written jd.atts (0 + i) := fun i _ => O.done.2 _
      obtain ⟨info, u1, u2, u3⟩ := t1 hwr _ F (by rw [hn']; exact q2)
      obtain ⟨info2, -, -, u6⟩ := t2 hwr _ F (by rw [hn']; exact q2)
      refine ⟨⟨s.srow, s.erow, s.scol, s.ecol, q5, w, ?_, q7⟩, ?_⟩
      · exact holds_file hrnd (own := jd.own) q6 O.type.1 (subFile_key O k).name q3 q4 u1 u2 u3
      · intro f hf hh
        have h1 : f ∈ CCGL.Spec.filesOf st' ⟨CCGL.Spec.subsetFile k j.out, wholeOpts j.type⟩ := mem_filesOf.2 ⟨hf, hh⟩
        have h2 : File.mk (CCGL.Spec.subsetFile k j.out) info2 (F.flatMap (encode j.type)) ∈
            CCGL.Spec.filesOf st' ⟨CCGL.Spec.subsetFile k j.out, outOpts .double jd.own (wholeOpts j.type) true⟩ := by
          rw [u6]; exact List.mem_singleton.2 rfl
        obtain ⟨h3, h4⟩ := mem_filesOf.1 h2
        have h5 : File.mk (CCGL.Spec.subsetFile k j.out) info2 (F.flatMap (encode j.type)) ∈
            CCGL.Spec.filesOf st' ⟨CCGL.Spec.subsetFile k j.out, wholeOpts j.type⟩ :=
          mem_filesOf.2 ⟨h3, h4.1, fun a b hab => h4.2 a b (opts_sub jd.own O.type.1 a b hab)⟩
        rw [u3] at h1 h5
        rw [List.mem_singleton.1 h1, ← List.mem_singleton.1 h5]
        exact h4

theorem stored_zero (out : Str) : storedName out = CCGL.Spec.subsetFile 0 out := by
  unfold storedName CCGL.Spec.subsetFile
  have : intToDec 0 = "0".toList := by decide +kernel
  rw [this]
  rfl

/-- The reclassified groups are stored together. -/
theorem store_comb {rnd : ℚ → ℚ} (hrnd : ∀ v, CCGL.Spec.Representable .float v → rnd v = v) {st0 st : Store} {mode : IOMode} {j : Job} {jd : JobDb} {V : View}
    {fill : ℚ} {m : Int} {rs : RasterS} (H : Ready rs V.hdr V.val V.grp j.default.toQ fill) (O : DbOut st0 mode j jd V fill m) (hre : j.recls = true)
    (hmode : WantsAll mode) (hany : ∃ k, Present V.grp k)
    (hold : ∀ f ∈ st, CCGL.Spec.Has f ⟨storedName j.out, wholeOpts j.type⟩ → CCGL.Spec.Has f ⟨storedName j.out, outOpts .double jd.own (wholeOpts j.type) true⟩) :
    ∃ st' o b, outputSubsets rnd .double (fun _ => jd.rm) (fun _ => jd.att) st rs jd.own jd.core j.out (jobOpts true j.type) true true true (tableOf j.table)
        j.default.toQ = .ok (o, st', b) ∧
      (∀ R : CCGL.Spec.Key, R.name ≠ storedName j.out → CCGL.Spec.filesOf st' R = CCGL.Spec.filesOf st R) ∧
      DbWhole rnd st' (storedName j.out) (wholeOpts j.type) V.hdr m (cellOut j V.val fill) V.grp := by
  have hne := H.any.1 hany
  obtain ⟨ls, ps, G, hc⟩ := H.cut hne
  obtain ⟨t1, t2⟩ := O.table hre
  have hm := t1.2.1
  have hg := H.grid
  unfold Header.grid at hg
  injection hg with g1 g2 g3 g4 g5
  obtain ⟨F, e1, e2, e3⟩ := hc.comb hne (table_ok t1) (fun q => by rw [H.flat] at q; cases q) j.default.toQ
  have hst := O.whole hmode
  rw [g1, g2] at e2
  have e3 : ∀ row col (l : Nat), V.hdr.grid.CellInside row col → (l : Int) < m →
      ((∃ k, V.grp k row col) → F[((row * V.hdr.cols + col) * m + l).toNat]? = some (cellOut j V.val fill l row col)) ∧
      ((¬ ∃ k, V.grp k row col) → F[((row * V.hdr.cols + col) * m + l).toNat]? = some V.hdr.noData) := by
    rintro row col l ⟨a1, a2, a3, a4⟩ a5
    obtain ⟨u1, u2⟩ := e3 row col l a1 (by rw [g1]; exact a2) a3 (by rw [g2]; exact a4) (by omega) a5
    rw [g2] at u1 u2
    have hC : 0 ≤ V.hdr.cols := hst.cols.1
    have hpos : 0 ≤ (row * V.hdr.cols + col) * m + (l : Int) := by
      have : 0 ≤ row * V.hdr.cols := Int.mul_nonneg a1 hC
      have : 0 ≤ (row * V.hdr.cols + col) * m := Int.mul_nonneg (by omega) (by omega)
      omega
    constructor
    · rintro ⟨k, hk⟩
      obtain ⟨s, a, b⟩ := (H.grp k row col).1 hk
      obtain ⟨x, x1, x2⟩ := u1 k s a b
      rw [H.flat] at x1
      simp only [Bool.false_eq_true, if_false] at x1
      rw [H.val k row col hk] at x1
      injection x1 with x1
      rw [get_of_read hpos x2, ← x1, H.fill, table_value t2]
      unfold cellOut
      rw [hre, if_pos rfl]
    · intro hno
      rw [get_of_read hpos (u2 (fun k s a b => hno ⟨k, (H.grp k row col).2 ⟨s, a, b⟩⟩)), H.nd]
  have hw : AllCells V.hdr m (fun l row col => F.getD ((row * V.hdr.cols + col) * m + l).toNat 0) F := by
    refine ⟨e2, ?_⟩
    intro row col l hin hlm
    obtain ⟨u1, u2⟩ := e3 row col l hin hlm
    have : ∃ x, F[((row * V.hdr.cols + col) * m + (l : Int)).toNat]? = some x := by
      by_cases hin : ∃ k, V.grp k row col
      · exact ⟨_, u1 hin⟩
      · exact ⟨_, u2 hin⟩
    obtain ⟨x, hx⟩ := this
    show F[((row * V.hdr.cols + col) * m + (l : Int)).toNat]? = _
    rw [List.getD_eq_getElem?_getD, hx]
    rfl
  have hfit : ∀ x ∈ F, Fits j.type x := by
    refine hw.fits hst.cols.1 hm ?_
    intro row col l hin hlm
    obtain ⟨u1, u2⟩ := e3 row col l hin hlm
    rw [List.getD_eq_getElem?_getD]
    by_cases hg : ∃ k, V.grp k row col
    · rw [u1 hg]
      unfold cellOut
      rw [hre, if_pos rfl]
      exact O.vals hre _ _
    · rw [u2 hg]; exact O.nodata
  obtain ⟨st', n, w1, w2, w3⟩ := store_layers (own := jd.own) hrnd hw O.type (by rw [stored_zero]; exact subFile_key O 0) hst hfit O.rm O.att O.done.1 hold
  refine ⟨st', outOpts .double jd.own (wholeOpts j.type) true, true, ?_, w2, _, w3, ?_⟩
  · unfold outputSubsets
    dsimp only
    rw [if_neg (by rw [show rs.ras.validData = true from Holds.valid hc.comp.holds]; simp), if_neg hne, if_pos rfl, if_neg O.name, e1, Out.ok_bind]
    dsimp only
    have hH : ({ rs.ras.hdr with layers := m, cellsnum := Int.tdiv (rs.ras.hdr.rows * rs.ras.hdr.cols * m) m } : Header) =
        { V.hdr with layers := m, cellsnum := V.hdr.rows * V.hdr.cols } := by
      rw [Int.mul_tdiv_cancel _ (by omega)]
      dsimp only
      rw [g1, g2, g3, g4, g5, H.hnd]
    rw [if_neg (by omega), hH, jobOpts_true, subOpts_eq jd.own O.type.1]
    rw [show rs.ras.hdr.rows * rs.ras.hdr.cols * m = (F.length : Int) by rw [g1, g2]; exact e2.symm]
    have : "0_".toList ++ j.out = storedName j.out := rfl
    rw [this, w1]
    rfl
  · intro row col l hin hlm
    obtain ⟨u1, u2⟩ := e3 row col l hin hlm
    rw [List.getD_eq_getElem?_getD]
    exact ⟨fun h => by rw [u1 h]; rfl, fun h => by rw [u2 h]; rfl⟩

theorem layers_congr {rnd : ℚ → ℚ} {st st' : Store} {name : Str} {ty : RDT} {h : Header} {m : Int} {w : Nat → Int → Int → ℚ} (hn : Char.ofNat 0 ∉ name)
    (hf : CCGL.Spec.filesOf st' ⟨name, wholeOpts ty⟩ = CCGL.Spec.filesOf st ⟨name, wholeOpts ty⟩) (H : HoldsLayers rnd st name (wholeOpts ty) h m w) :
    HoldsLayers rnd st' name (wholeOpts ty) h m w := by
  refine ⟨H.header, ?_⟩
  intro ok1 ok2 h1 h2
  have e := readGridfs_congr (rnd := rnd) (T := .double) (ok1 := ok1) (ok2 := ok2) (rd := true) (h := initialHeader) (s := initialStr)
    (wholeOpts_good ty hn) hf
  dsimp only at e
  rw [e]
  exact H.reads ok1 ok2 h1 h2

theorem single_congr {rnd : ℚ → ℚ} {st st' : Store} {name : Str} {ty : RDT} {h : Header} {m : Int} {u : Nat → Int → Int → ℚ} {c : Int → Int → Prop}
    (hn : Char.ofNat 0 ∉ name) (hf : CCGL.Spec.filesOf st' ⟨name, wholeOpts ty⟩ = CCGL.Spec.filesOf st ⟨name, wholeOpts ty⟩)
    (H : DbSingle rnd st name (wholeOpts ty) h m u c) : DbSingle rnd st' name (wholeOpts ty) h m u c := by
  obtain ⟨r0, r1, c0, c1, hb, w, hw, hv⟩ := H
  exact ⟨r0, r1, c0, c1, hb, w, layers_congr hn hf hw, hv⟩

/-- The files with other names stay as they are. -/
def OthersStay (st st' : Store) (mode : IOMode) (j : Job) (g : Groups) : Prop :=
  ∀ R : CCGL.Spec.Key, (∀ name, DbTargets mode j g name → R.name ≠ name) → CCGL.Spec.filesOf st' R = CCGL.Spec.filesOf st R

/-- What holds after the files of the groups (if any) have been stored. -/
theorem step_groups {rnd : ℚ → ℚ} (hrnd : ∀ v, CCGL.Spec.Representable .float v → rnd v = v) {st : Store} {mode : IOMode} {j : Job} {jd : JobDb} {V : View}
    {fill : ℚ} {m : Int} {rs : RasterS} (H : Ready rs V.hdr V.val V.grp j.default.toQ fill) (hl : rs.ras.nLyrs = 1) (O : DbOut st mode j jd V fill m)
    (hin : ∀ k row col, V.grp k row col → V.hdr.grid.CellInside row col) :
    ∃ s1, (if outSubset mode then do
        let w ← outputSubsets rnd .double jd.rms jd.atts st rs jd.own jd.core j.out (jobOpts true j.type) true true false (useTable j) (useDflt j)
        return w.2.1
      else return st : Out Store) = .ok s1 ∧
      (∀ R : CCGL.Spec.Key, (∀ k, WantsSingle mode → Present V.grp k → R.name ≠ CCGL.Spec.subsetFile k j.out) → CCGL.Spec.filesOf s1 R = CCGL.Spec.filesOf st R) ∧
      (WantsSingle mode → ∀ k, Present V.grp k → DbSingle rnd s1 (CCGL.Spec.subsetFile k j.out) (wholeOpts j.type) V.hdr m (cellOut j V.val fill) (V.grp k)) ∧
      (WantsAll mode → (j.recls = true → ∃ k, Present V.grp k) → ∀ f ∈ s1, CCGL.Spec.Has f ⟨storedName j.out, wholeOpts j.type⟩ →
        CCGL.Spec.Has f ⟨storedName j.out, outOpts .double jd.own (wholeOpts j.type) true⟩) := by
  by_cases hm : WantsSingle mode
  · rw [if_pos ((outSubset_iff mode).2 hm)]
    obtain ⟨s1, o, b, e, h1, h2⟩ := store_groups hrnd H hl O hin hm
    refine ⟨s1, by rw [e]; rfl, fun R hR => h1 R (fun k hk => hR k hm hk), fun _ k hk => (h2 k hk).1, ?_⟩
    intro ha hany f hf hh
    by_cases h0 : Present V.grp 0
    · have := (h2 0 h0).2 f hf
      rw [← stored_zero] at this
      exact this hh
    · have hsame : ∀ o : Opts, CCGL.Spec.filesOf s1 ⟨storedName j.out, o⟩ = CCGL.Spec.filesOf st ⟨storedName j.out, o⟩ := by
        intro o
        apply h1
        intro k hk he
        have he : storedName j.out = CCGL.Spec.subsetFile k j.out := he
        rw [stored_zero, ← subFile_eq, ← subFile_eq] at he
        rw [← subFile_inj he] at hk
        exact h0 hk
      have h3 : f ∈ CCGL.Spec.filesOf s1 ⟨storedName j.out, wholeOpts j.type⟩ := mem_filesOf.2 ⟨hf, hh⟩
      rw [hsame] at h3
      obtain ⟨h4, h5⟩ := mem_filesOf.1 h3
      exact O.old _ (.inr ⟨ha, hany, rfl⟩) f h4 h5
  · rw [if_neg (fun h => hm ((outSubset_iff mode).1 h))]
    exact ⟨st, rfl, fun _ _ => rfl, fun h => absurd h hm, fun ha hany => O.old _ (.inr ⟨ha, hany, rfl⟩)⟩

/-- A reclassification job stores its outputs. -/
theorem write_recls_db {sys : Sys} (hrnd : ∀ v, CCGL.Spec.Representable .float v → sys.rnd v = v) {st : Store} {mode : IOMode} {j : Job} {jd : JobDb} {V : View}
    {fill : ℚ} {m : Int} {rs : RasterS} {noMask : Bool} (hre : j.recls = true) (H : Ready rs V.hdr V.val V.grp j.default.toQ fill) (hl : rs.ras.nLyrs = 1)
    (O : DbOut st mode j jd V fill m) (hin : ∀ k row col, V.grp k row col → V.hdr.grid.CellInside row col) :
    ∃ st', writeJobDb sys.rnd true mode jd j noMask rs st = .ok st' ∧ OthersStay st st' mode j V.grp ∧ DbDone sys.rnd st' mode j V fill m := by
  obtain ⟨s1, e1, f1, d1, o1⟩ := step_groups hrnd H hl O hin
  have hT : useTable j = tableOf j.table := by unfold useTable; rw [hre, if_pos rfl]
  have hD : useDflt j = j.default.toQ := by unfold useDflt; rw [hre, if_pos rfl]
  rw [hT, hD] at e1
  have hw : writeJobDb sys.rnd true mode jd j noMask rs st = (do
      if outAll mode then do
        let w ← outputSubsets sys.rnd .double (fun _ => jd.rm) (fun _ => jd.att) s1 rs jd.own jd.core j.out (jobOpts true j.type) true true true
          (tableOf j.table) j.default.toQ
        return w.2.1
      else return s1 : Out Store) := by
    unfold writeJobDb
    dsimp only
    rw [hre, if_pos rfl, e1]
    rfl
  rw [hw]
  by_cases hm : WantsAll mode
  · rw [if_pos ((outAll_iff mode).2 hm)]
    by_cases hp : ∃ k, Present V.grp k
    · obtain ⟨s2, o, b, e2, f2, d2⟩ := store_comb hrnd H O hre hm hp (o1 hm (fun _ => hp))
      refine ⟨s2, by rw [e2]; rfl, ?_, ⟨?_, fun _ _ _ => d2, fun h => by rw [hre] at h; cases h⟩⟩
      · intro R hR
        rw [f2 R (hR _ (.inr ⟨hm, fun _ => hp, rfl⟩)), f1 R (fun k hs hk => hR _ (.inl ⟨hs, k, hk, rfl⟩))]
      · intro hs k hk h0
        refine single_congr (subFile_key O k).name (f2 _ ?_) (d1 hs k hk)
        intro he
        have he : CCGL.Spec.subsetFile k j.out = storedName j.out := he
        rw [stored_zero, ← subFile_eq, ← subFile_eq] at he
        exact h0 hm (subFile_inj he)
    · have hs : rs.subs = [] := by
        by_contra hne
        exact hp (H.any.2 hne)
      refine ⟨s1, ?_, ?_, ⟨fun h k hk => absurd ⟨k, hk⟩ hp, fun _ _ h => absurd h hp, fun h => by rw [hre] at h; cases h⟩⟩
      · unfold outputSubsets
        cases hvd : rs.ras.validData with
        | false => rfl
        | true =>
          rw [if_neg (by simp), if_pos hs]
          rfl
      · intro R hR
        exact f1 R (fun k hs hk => hR _ (.inl ⟨hs, k, hk, rfl⟩))
  · rw [if_neg (fun h => hm ((outAll_iff mode).1 h))]
    refine ⟨s1, rfl, fun R hR => f1 R (fun k hs hk => hR _ (.inl ⟨hs, k, hk, rfl⟩)), ⟨fun h k hk _ => d1 h k hk, fun _ h => absurd h hm, fun _ h => absurd h hm⟩⟩

/-- A job that stores the groups of a raster as they are. -/
theorem write_groups_db {sys : Sys} (hrnd : ∀ v, CCGL.Spec.Representable .float v → sys.rnd v = v) {st : Store} {mode : IOMode} {j : Job} {jd : JobDb} {V : View}
    {fill : ℚ} {m : Int} {rs y : RasterS} {noMask : Bool} (hre : j.recls = false) (hs : WantsSingle mode)
    (hy : (if noMask then do
            let b ← buildSubSet rs []
            return b.1
          else return rs : Out RasterS) = .ok y)
    (H : Ready y V.hdr V.val V.grp j.default.toQ fill) (hl : y.ras.nLyrs = 1) (O : DbOut st mode j jd V fill m)
    (hin : ∀ k row col, V.grp k row col → V.hdr.grid.CellInside row col) {w : Int → Int → ℚ}
    (hw : WantsAll mode → Shows y.ras V.hdr w ∧ ∀ row col, V.hdr.grid.CellInside row col →
      (w row col = V.val row col ∨ w row col = V.hdr.noData) ∧ (HasValue V.hdr V.val row col → w row col = V.val row col) ∧
      (¬ HasValue V.hdr V.val row col → floatEqual (w row col) V.hdr.noData = true)) :
    ∃ st', writeJobDb sys.rnd true mode jd j noMask rs st = .ok st' ∧ OthersStay st st' mode j V.grp ∧ DbDone sys.rnd st' mode j V fill m := by
  obtain ⟨s1, e1, f1, d1, o1⟩ := step_groups hrnd H hl O hin
  rw [if_pos ((outSubset_iff mode).2 hs)] at e1
  have hT : useTable j = [] := by unfold useTable; rw [hre, if_neg (by simp)]
  have hD : useDflt j = NODATA := by unfold useDflt; rw [hre, if_neg (by simp)]
  rw [hT, hD] at e1
  obtain ⟨x, ex, e1⟩ := Out.bind_ok e1
  simp only [Out.pure_eq, Out.ok.injEq] at e1
  have hwr : writeJobDb sys.rnd true mode jd j noMask rs st = (do
      if outAll mode then do
        let w ← outputToMongo sys.rnd .double jd.rm jd.att s1 y.ras jd.own jd.core ("0_".toList ++ j.out) (jobOpts true j.type) true
        return w.2.2.1
      else return s1 : Out Store) := by
    unfold writeJobDb
    dsimp only
    rw [hre, if_neg (by simp), if_pos ((outSubset_iff mode).2 hs), hy, Out.ok_bind, ex, Out.ok_bind, Out.pure_eq, Out.ok_bind, e1]
  rw [hwr]
  by_cases hm : WantsAll mode
  · rw [if_pos ((outAll_iff mode).2 hm)]
    obtain ⟨w1, w2⟩ := hw hm
    have h1 := O.one hre
    subst h1
    have hB : BucketOut s1 j jd V.hdr := ⟨by rw [stored_zero]; exact subFile_key O 0, O.whole hm, O.type, O.rm, O.att, o1 hm (fun h => by rw [hre] at h; cases h)⟩
    obtain ⟨s2, ok, e2, ok2, f2, d2, -⟩ := store_whole hrnd w1 H.hnd hB (by
      intro row col hin
      rcases (w2 row col hin).1 with q | q
      · rw [q]; exact O.cells hre row col hin
      · rw [q]; exact O.nodata)
    have hok := ok2.2 O.done.1
    refine ⟨s2, ?_, ?_, ⟨?_, fun h => by (rw [hre] at h; cases h), fun _ _ => ⟨w, d2 hok, fun row col hin => (w2 row col hin).2⟩⟩⟩
    · have : "0_".toList ++ j.out = storedName j.out := rfl
      rw [this, e2]
      rfl
    · intro R hR
      rw [f2 R (hR _ (.inr ⟨hm, fun h => by (rw [hre] at h; cases h), rfl⟩)), f1 R (fun k hs hk => hR _ (.inl ⟨hs, k, hk, rfl⟩))]
    · intro _ k hk h0
      refine single_congr (subFile_key O k).name (f2 _ ?_) (d1 hs k hk)
      intro he
      have he : CCGL.Spec.subsetFile k j.out = storedName j.out := he
      rw [stored_zero, ← subFile_eq, ← subFile_eq] at he
      exact h0 hm (subFile_inj he)
  · rw [if_neg (fun h => hm ((outAll_iff mode).1 h))]
    refine ⟨s1, rfl, fun R hR => f1 R (fun k hs hk => hR _ (.inl ⟨hs, k, hk, rfl⟩)), ⟨fun h k hk _ => d1 h k hk, fun _ h => absurd h hm, fun _ h => absurd h hm⟩⟩

end App
end CCGL
