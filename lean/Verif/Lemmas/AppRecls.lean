import Verif.Spec.AppRecls
import Verif.Props.FileRecls
import Verif.Lemmas.AppBatch
/-!
# Lemmas about the reclassification jobs of `mask_rasterio`
-/
namespace CCGL
open Raster

theorem sameShape_dflt {r r' : Raster} (h : r.SameShape r') : r'.dflt = r.dflt := by
  obtain ⟨a, b, rfl⟩ := h
  rfl

theorem withCells_dflt (r : Raster) (cs : List (List ℚ)) : (r.withCells cs).dflt = r.dflt := by
  unfold Raster.withCells; split <;> rfl

theorem maskFinish_dflt {old m : Raster} {ps : List (Int × Int)} {a : MaskAcc} {res : MaskRes} (e : maskFinish old m ps a = .ok res) :
    res.ras.dflt = a.ras.dflt := by
  unfold maskFinish at e
  dsimp only at e
  generalize maskFlags (decide (a.maxRow - a.minRow + 1 = m.hdr.rows) && decide (a.maxCol - a.minCol + 1 = m.hdr.cols))
    a.ras.useMaskExt a.ras.calcPos (decide (a.matched = (ps.length : Int))) = fl at e
  by_cases q1 : (decide (a.maxRow - a.minRow + 1 = m.hdr.rows) && decide (a.maxCol - a.minCol + 1 = m.hdr.cols) &&
      decide (a.masked ≠ (ps.length : Int))) = true
  · rw [if_pos q1] at e; simp at e
  rw [if_neg q1] at e
  by_cases q2 : ((a.ras.posData.isSome || a.ras.posIdx.isSome) && !a.ras.storePos) = true
  · rw [if_pos q2] at e; simp at e
  rw [if_neg q2] at e
  by_cases q3 : (!a.ras.validData) = true
  · rw [if_pos q3] at e; simp at e
  rw [if_neg q3] at e
  by_cases h1 : fl.recalcPos = true
  · rw [if_pos h1] at e
    injection e with e
    subst e
    exact withCells_dflt _ _
  rw [if_neg h1] at e
  by_cases h2 : fl.storeFull = true
  · rw [if_pos h2] at e
    generalize (if fl.updRowCol = true then ({ m.hdr with
        noData := a.ras.noData, layers := a.ras.nLyrs, rows := a.maxRow - a.minRow + 1, cols := a.maxCol - a.minCol + 1,
        xll := m.hdr.xll + a.minCol * m.hdr.cellsize,
        yll := m.hdr.yll + ((m.hdr.rows - a.maxRow - 1 : Int) : ℚ) * m.hdr.cellsize, cellsize := m.hdr.cellsize } : Header)
      else { m.hdr with noData := a.ras.noData, layers := a.ras.nLyrs }) = H at e
    by_cases h3 : old.hdr.rows * old.hdr.cols = H.cols * H.rows
    · rw [if_pos h3] at e
      injection e with e
      subst e
      rfl
    · rw [if_neg h3] at e
      obtain ⟨d, _, e⟩ := Out.bind_ok e
      obtain ⟨l, _, e⟩ := Out.bind_ok e
      injection e with e
      subst e
      exact withCells_dflt _ _
  · rw [if_neg h2] at e
    injection e with e
    subst e
    exact withCells_dflt _ _

theorem maskRaster_dflt {r mask : Raster} {res : MaskRes} (e : maskRaster r mask = .ok res) : res.ras.dflt = r.dflt := by
  unfold maskRaster at e
  obtain ⟨⟨m, n, pd⟩, -, e⟩ := Out.bind_ok e
  dsimp only at e
  split at e
  · cases e
  obtain ⟨ps, _, e⟩ := Out.bind_ok e
  obtain ⟨a, ea, e⟩ := Out.bind_ok e
  have hs := (sameShape_dflt (SameButCells.maskLoop _ ea).1)
  split at e
  · injection e with e
    subst e
    exact hs
  · rw [maskFinish_dflt e]; exact hs

end CCGL

namespace CCGL
namespace App
open Fs Disk Main Raster Disk.Spec App.Spec

theorem find_get {β : Type} (t : IMap β) (k : Int) : IMap.get t k = (t.find? (fun e => decide (e.1 = k))).map (·.2) := rfl

theorem set_mem {β : Type} (m : IMap β) (k : Int) (v : β) : ∀ x ∈ IMap.set m k v, x = (k, v) ∨ x ∈ m := by
  induction m with
  | nil =>
    intro x hx
    have hx : x ∈ [(k, v)] := hx
    simp only [List.mem_cons, List.not_mem_nil, or_false] at hx
    exact .inl hx
  | cons e m ih =>
    intro x hx
    have he : IMap.set (e :: m) k v = if k < e.1 then (k, v) :: e :: m else if k = e.1 then (k, v) :: m else e :: IMap.set m k v := rfl
    rw [he] at hx
    split at hx
    · rcases List.mem_cons.1 hx with h | h
      · exact .inl h
      · exact .inr h
    · split at hx
      · rcases List.mem_cons.1 hx with h | h
        · exact .inl h
        · exact .inr (List.mem_cons_of_mem _ h)
      · rcases List.mem_cons.1 hx with h | h
        · exact .inr (by rw [h]; exact List.mem_cons_self)
        · rcases ih x h with h | h
          · exact .inl h
          · exact .inr (List.mem_cons_of_mem _ h)

theorem set_ne {β : Type} (m : IMap β) (k : Int) (v : β) : IMap.set m k v ≠ [] := by
  cases m with
  | nil => exact List.cons_ne_nil _ _
  | cons e m =>
    have he : IMap.set (e :: m) k v = if k < e.1 then (k, v) :: e :: m else if k = e.1 then (k, v) :: m else e :: IMap.set m k v := rfl
    rw [he]
    split
    · exact List.cons_ne_nil _ _
    · split <;> exact List.cons_ne_nil _ _

theorem tableFold_ne (t : List (Int × List DVal)) : ∀ acc : IMap (List ℚ), (acc ≠ [] ∨ t ≠ []) →
    t.foldl (fun m e => IMap.set m e.1 (e.2.map DVal.toQ)) acc ≠ [] := by
  induction t with
  | nil =>
    intro acc h
    rcases h with h | h
    · exact h
    · exact absurd rfl h
  | cons e t ih =>
    intro acc _
    exact ih _ (.inl (set_ne _ _ _))

theorem tableFold_mem (t : List (Int × List DVal)) : ∀ (acc : IMap (List ℚ)) x, x ∈ t.foldl (fun m e => IMap.set m e.1 (e.2.map DVal.toQ)) acc →
    x ∈ acc ∨ ∃ e ∈ t, x = (e.1, e.2.map DVal.toQ) := by
  induction t with
  | nil => intro acc x h; exact .inl h
  | cons e t ih =>
    intro acc x h
    rcases ih _ _ h with h | ⟨y, h1, h2⟩
    · rcases set_mem _ _ _ x h with h | h
      · exact .inr ⟨e, List.mem_cons_self, h⟩
      · exact .inl h
    · exact .inr ⟨y, List.mem_cons_of_mem _ h1, h2⟩

theorem tableFold_get (t : List (Int × List DVal)) : ∀ (acc : IMap (List ℚ)), (acc.map (·.1)).Pairwise (· < ·) → (t.map (·.1)).Nodup → ∀ k,
    IMap.get (t.foldl (fun m e => IMap.set m e.1 (e.2.map DVal.toQ)) acc) k =
      match t.find? (fun e => decide (e.1 = k)) with
      | some e => some (e.2.map DVal.toQ)
      | none => IMap.get acc k := by
  induction t with
  | nil => intro acc _ _ k; rfl
  | cons e t ih =>
    intro acc ha hn k
    rw [List.map_cons, List.nodup_cons] at hn
    rw [List.foldl_cons, ih _ (IMap.set_sorted _ _ _ ha) hn.2 k]
    rw [List.find?_cons]
    by_cases hk : e.1 = k
    · have hnone : t.find? (fun e => decide (e.1 = k)) = none := by
        rw [List.find?_eq_none]
        intro x hx
        simp only [decide_eq_true_eq]
        intro he
        exact hn.1 (List.mem_map.2 ⟨x, hx, by rw [he, hk]⟩)
      rw [hnone]
      simp only [hk, decide_true]
      rw [IMap.get_set]
      simp
    · simp only [hk, decide_false]
      cases t.find? (fun e => decide (e.1 = k)) with
      | some x => rfl
      | none =>
        dsimp only
        rw [IMap.get_set]
        rw [if_neg (fun h => hk h.symm)]

theorem table_ok {j : Job} {m : Int} (h : CCGL.Spec.TableOf (numTable j) m) : CCGL.Spec.TableOf (tableOf j.table) m := by
  obtain ⟨h1, h2, h3⟩ := h
  have hne : j.table ≠ [] := fun h => h1 (by unfold numTable; rw [h]; rfl)
  refine ⟨tableFold_ne _ _ (.inr hne), h2, ?_⟩
  intro e he
  rcases tableFold_mem _ _ e he with h | ⟨y, y1, y2⟩
  · cases h
  · rw [y2]
    exact h3 (y.1, y.2.map DVal.toQ) (List.mem_map.2 ⟨y, y1, rfl⟩)

theorem table_value {j : Job} (hk : ((numTable j).map (·.1)).Nodup) (key l : Int) (x : ℚ) :
    CCGL.Spec.tableValue (tableOf j.table) key l x = CCGL.Spec.tableValue (numTable j) key l x := by
  have hk' : (j.table.map (·.1)).Nodup := by
    unfold numTable at hk
    rw [List.map_map] at hk
    exact hk
  have h1 := tableFold_get j.table [] (by simp) hk' key
  rw [find_get] at h1
  have h2 : (numTable j).find? (fun e => decide (e.1 = key)) = (j.table.find? (fun e => decide (e.1 = key))).map (fun e => (e.1, e.2.map DVal.toQ)) := by
    unfold numTable
    rw [List.find?_map]
    rfl
  unfold CCGL.Spec.tableValue
  rw [h2]
  have e0 : tableOf j.table = j.table.foldl (fun m e => IMap.set m e.1 (e.2.map DVal.toQ)) [] := rfl
  rw [e0]
  cases hf : j.table.find? (fun e => decide (e.1 = key)) with
  | none =>
    rw [hf] at h1
    have h1 : Option.map _ _ = none := h1
    rw [Option.map_eq_none_iff] at h1
    rw [h1]
    rfl
  | some e =>
    rw [hf] at h1
    have h1 : Option.map _ _ = some (e.2.map DVal.toQ) := h1
    rw [Option.map_eq_some_iff] at h1
    obtain ⟨y, y1, y2⟩ := h1
    rw [y1]
    dsimp only [Option.map]
    rw [y2]

/-- The raster and the subsets a job writes stand for a grid with values `v` and groups `g`. -/
structure Ready (rs : RasterS) (h : Header) (v : Int → Int → ℚ) (g : Groups) (dv fill : ℚ) : Prop where
  cut : rs.subs ≠ [] → ∃ ls ps G, Cut rs ls ps G
  flat : rs.ras.is2d = false
  grid : rs.ras.hdr.grid = h.grid
  nd : rs.ras.noData = h.noData
  hnd : rs.ras.hdr.noData = h.noData
  fill : CCGL.Spec.fillValue rs.ras dv = fill
  grp : ∀ k row col, g k row col ↔ ∃ s, rs.subs.get k = some s ∧ CCGL.Spec.InSubset s row col
  val : ∀ k row col, g k row col → rs.ras.getValue row col 1 = .ok (v row col)

theorem cut_box {rs ls ps G} (hc : Cut rs ls ps G) {k : Int} {s : Subset} (hk : rs.subs.get k = some s) :
    IsBox (CCGL.Spec.InSubset s) s.srow s.erow s.scol s.ecol := by
  have ho := hc.part.some k s hk
  obtain ⟨t0, ⟨i1, m1, q1⟩, ⟨i2, m2, q2⟩, ⟨i3, m3, q3⟩, ⟨i4, m4, q4⟩⟩ := ho.tight
  refine ⟨?_, ⟨(posAt ps i1).2, ?_⟩, ⟨(posAt ps i2).2, ?_⟩, ⟨(posAt ps i3).1, ?_⟩, ⟨(posAt ps i4).1, ?_⟩⟩
  · intro row col hin
    obtain ⟨i, hi, hp⟩ := (ho.in_iff row col).1 hin
    have := t0 i hi
    rw [hp] at this
    exact this
  · exact (ho.in_iff _ _).2 ⟨i1, m1, by rw [← q1]⟩
  · exact (ho.in_iff _ _).2 ⟨i2, m2, by rw [← q2]⟩
  · exact (ho.in_iff _ _).2 ⟨i3, m3, by rw [← q3]⟩
  · exact (ho.in_iff _ _).2 ⟨i4, m4, by rw [← q4]⟩

theorem Ready.cells {rs h v g dv fill} (H : Ready rs h v g dv fill) {k : Int} {s : Subset} (hk : rs.subs.get k = some s) :
    g k = CCGL.Spec.InSubset s := by
  funext row col
  apply propext
  rw [H.grp]
  constructor
  · rintro ⟨s', a, b⟩
    rw [hk] at a
    injection a with a
    rw [a]; exact b
  · exact fun b => ⟨s, hk, b⟩

theorem Ready.present {rs h v g dv fill} (H : Ready rs h v g dv fill) (k : Int) : Present g k ↔ ∃ s, rs.subs.get k = some s := by
  constructor
  · rintro ⟨row, col, hg⟩
    obtain ⟨s, a, -⟩ := (H.grp k row col).1 hg
    exact ⟨s, a⟩
  · rintro ⟨s, hk⟩
    have hne : rs.subs ≠ [] := by
      intro h0
      rw [h0, IMap.get_nil] at hk
      cases hk
    obtain ⟨ls, ps, G, hc⟩ := H.cut hne
    obtain ⟨col, hb⟩ := (cut_box hc hk).top
    exact ⟨_, col, (H.grp _ _ _).2 ⟨s, hk, hb⟩⟩

theorem Ready.any {rs h v g dv fill} (H : Ready rs h v g dv fill) : (∃ k, Present g k) ↔ rs.subs ≠ [] := by
  constructor
  · rintro ⟨k, hk⟩ h0
    obtain ⟨s, hk⟩ := (H.present k).1 hk
    rw [h0, IMap.get_nil] at hk
    cases hk
  · intro hne
    obtain ⟨ls, ps, G, hc⟩ := H.cut hne
    obtain ⟨e, es, he⟩ := List.exists_cons_of_ne_nil hne
    have hm : (e.1, e.2) ∈ rs.subs := by rw [he]; exact List.mem_cons_self
    exact ⟨e.1, (H.present _).2 ⟨e.2, (IMap.mem_iff_get _ hc.part.sorted _ _).1 hm⟩⟩

theorem none_written {env : Env} {fmt : Disk.Fmt} {d : Disk} {rs : RasterS} (h : rs.subs = []) (oo cb : Bool) (name : Str) (t : IMap (List ℚ)) (dv : ℚ) :
    outputSubsetToFile env fmt d rs oo cb name t dv = .ok (false, d) := by
  unfold outputSubsetToFile
  split <;> rfl

/-- The combined output. -/
theorem write_all {sys : Sys} {d : Disk} {mode : IOMode} {j : Job} {rs h v g fill p dt core suf m} (H : Ready rs h v g j.default.toQ fill)
    (W : CanWrite sys d mode j h g fill p dt core suf m) (hm : WantsAll mode) (hp : ∃ k, Present g k) :
    ∃ d', outputSubsetToFile sys.env (sys.fmt j.type) d rs true true j.out (tableOf j.table) j.default.toQ = .ok (true, d') ∧
      Rewritten d d' (fun q => ∃ l : Nat, (l : Int) < m ∧ q = outPath p core suf m 0 l) ∧
      Combined d' (outFile dt core suf m 0) m h v g (numTable j) fill := by
  have hne := H.any.1 hp
  obtain ⟨ls, ps, G, hc⟩ := H.cut hne
  obtain ⟨w1, w2, w3⟩ := W.all hm
  have hg := H.grid
  unfold Header.grid at hg
  injection hg with g1 g2 g3 g4 g5
  obtain ⟨d', o1, o2, o3⟩ := hc.comb_out (env := sys.env) (fmt := sys.fmt j.type) (d := d) (dv := j.default.toQ) hne (table_ok W.table)
    (fun h => by rw [H.flat] at h; cases h) (by rw [H.hnd, H.nd]) W.name (W.kind.imp_right (·.1))
    (fun ht => by
      rcases W.kind with h | h
      · exact (asc_not_tif h ht).elim
      · exact h.2) W.nodir w2 w3 (by
      unfold CarriesHeader at w1 ⊢
      rw [g1, g2, g3, g4, g5, H.hnd]
      exact w1)
    (fun key l => by rw [H.fill, table_value W.keys]; exact W.vals key l) (by rw [H.nd]; exact W.nodata)
  refine ⟨d', by rw [W.out]; exact o1, o2, ?_⟩
  intro l hl
  obtain ⟨w, r1, r2⟩ := o3 l hl
  refine ⟨w, ReadsAs.change r1 H.grid.symm H.hnd.symm (fun _ _ _ => rfl), ?_⟩
  intro row col hin
  have hin' : 0 ≤ row ∧ row < h.rows ∧ 0 ≤ col ∧ col < h.cols := hin
  obtain ⟨u1, u2⟩ := r2 row col hin'.1 (by rw [g1]; exact hin'.2.1) hin'.2.2.1 (by rw [g2]; exact hin'.2.2.2)
  constructor
  · rintro ⟨k, hk⟩
    obtain ⟨s, a, b⟩ := (H.grp k row col).1 hk
    obtain ⟨x, x1, x2⟩ := u1 k s a b
    rw [H.flat] at x1
    simp only [Bool.false_eq_true, if_false] at x1
    rw [H.val k row col hk] at x1
    injection x1 with x1
    rw [x2, ← x1, H.fill, table_value W.keys]
  · intro hno
    rw [u2 (fun k s a b => hno ⟨k, (H.grp k row col).2 ⟨s, a, b⟩⟩), H.nd]

/-- The output of the groups. -/
theorem write_single {sys : Sys} {d : Disk} {mode : IOMode} {j : Job} {rs h v g fill p dt core suf m} (H : Ready rs h v g j.default.toQ fill)
    (W : CanWrite sys d mode j h g fill p dt core suf m) (hm : WantsSingle mode) (hp : ∃ k, Present g k) :
    ∃ d', outputSubsetToFile sys.env (sys.fmt j.type) d rs true false j.out (tableOf j.table) j.default.toQ = .ok (true, d') ∧
      Rewritten d d' (fun q => ∃ k, ∃ l : Nat, Present g k ∧ (l : Int) < m ∧ q = outPath p core suf m k l) ∧
      ∀ k, Present g k → Single d' (outFile dt core suf m k) m h v (g k) (numTable j) fill := by
  have hne := H.any.1 hp
  obtain ⟨ls, ps, G, hc⟩ := H.cut hne
  have hg := H.grid
  unfold Header.grid at hg
  injection hg with g1 g2 g3 g4 g5
  have hx : ∀ s : Subset, rs.ras.hdr.xll = h.xll := fun _ => g4
  obtain ⟨d', o1, o2, o3⟩ := hc.sub_out (env := sys.env) (fmt := sys.fmt j.type) (d := d) (dv := j.default.toQ) hne (table_ok W.table)
    (fun h => by rw [H.flat] at h; cases h) W.name (W.kind.imp_right (·.1))
    (fun ht => by
      rcases W.kind with h | h
      · exact (asc_not_tif h ht).elim
      · exact h.2) W.nodir (fun k s hk => (W.single hm k ((H.present k).2 ⟨s, hk⟩)).2.1)
    (fun k s l hk hl => (W.single hm k ((H.present k).2 ⟨s, hk⟩)).2.2 l hl) (fun k s hk => by
      have hcr := (W.single hm k ((H.present k).2 ⟨s, hk⟩)).1 s.srow s.erow s.scol s.ecol (by rw [H.cells hk]; exact cut_box hc hk)
      have e1 : (s.scol : ℚ) * h.cellsize + h.xll = h.xll + s.scol * h.cellsize := by ring
      have e2 : ((h.rows - s.erow - 1 : Int) : ℚ) * h.cellsize + h.yll = h.yll + ((h.rows - 1 - s.erow : Int) : ℚ) * h.cellsize := by
        push_cast; ring
      unfold CarriesHeader Subset.getHeader
      dsimp only
      rw [g1, g3, g4, g5, H.nd, e1, e2]
      exact hcr)
    (fun key l => by rw [H.fill, table_value W.keys]; exact W.vals key l) (by rw [H.nd]; exact W.nodata)
  refine ⟨d', by rw [W.out]; exact o1, ?_, ?_⟩
  · have hpp : (fun q => ∃ k s, ∃ l : Nat, rs.subs.get k = some s ∧ (l : Int) < m ∧ q = p ++ [layerCore (subsetCore k core) m l ++ '.' :: suf]) =
        (fun q => ∃ k, ∃ l : Nat, Present g k ∧ (l : Int) < m ∧ q = outPath p core suf m k l) := by
      funext q
      apply propext
      constructor
      · rintro ⟨k, s, l, a, b, c⟩
        exact ⟨k, l, (H.present k).2 ⟨s, a⟩, b, c⟩
      · rintro ⟨k, l, a, b, c⟩
        obtain ⟨s, a⟩ := (H.present k).1 a
        exact ⟨k, s, l, a, b, c⟩
    rw [hpp] at o2
    exact o2
  · intro k hk
    obtain ⟨s, hk⟩ := (H.present k).1 hk
    refine ⟨s.srow, s.erow, s.scol, s.ecol, by rw [H.cells hk]; exact cut_box hc hk, ?_⟩
    intro l hl
    obtain ⟨h', w, r1, r2, r3, r4, r5, r6, r7⟩ := o3 k s l hk hl
    refine ⟨w, ReadsAs.change r1 ?_ ?_ (fun _ _ _ => rfl), ?_⟩
    · have hcen := r6 (s.erow - s.srow) 0
      unfold CCGL.Spec.Grid.center CCGL.Spec.Grid.left CCGL.Spec.Grid.top CCGL.Spec.Grid.bottom Header.grid at hcen
      dsimp only at hcen
      rw [r2, r4, g1, g3, g4, g5] at hcen
      injection hcen with x1 x2
      unfold Header.grid boxHeader
      dsimp only
      rw [r2, r3, r4, g3]
      congr 1
      · push_cast at x1
        linarith
      · push_cast at x2 ⊢
        linarith
    · rw [r5, H.nd]; rfl
    · intro row col a1 a2 a3 a4
      obtain ⟨u1, u2⟩ := r7 row col a1 a2 a3 a4
      rw [H.cells hk]
      constructor
      · intro hin
        obtain ⟨x, x1, x2⟩ := u1 hin
        rw [H.flat] at x1
        simp only [Bool.false_eq_true, if_false] at x1
        rw [H.val k row col ((H.grp k row col).2 ⟨s, hk, hin⟩)] at x1
        injection x1 with x1
        rw [x2, ← x1, H.fill, table_value W.keys]
      · intro hno
        rw [u2 hno, H.nd]

theorem outSubset_iff (mode : IOMode) : outSubset mode = true ↔ WantsSingle mode := by
  unfold outSubset WantsSingle; simp
theorem outAll_iff (mode : IOMode) : outAll mode = true ↔ WantsAll mode := by
  unfold outAll WantsAll; simp

theorem rewritten_refl {d : Disk} (hw : Fs.Spec.WF d.fs) {new : Path → Prop} (hn : ∀ q, ¬ new q) : Rewritten d d new :=
  ⟨hw, rfl, rfl, fun q h => absurd h (hn q), fun _ _ => ⟨rfl, rfl⟩⟩

theorem rewritten_trans {d d1 d2 : Disk} {n1 n2 new : Path → Prop} (h1 : Rewritten d d1 n1) (h2 : Rewritten d1 d2 n2)
    (h : ∀ q, new q ↔ n1 q ∨ n2 q) : Rewritten d d2 new := by
  refine ⟨h2.wf, h2.deny.trans h1.deny, h2.cwd.trans h1.cwd, ?_, ?_⟩
  · intro q hq
    by_cases hq2 : n2 q
    · exact h2.file q hq2
    · rcases (h q).1 hq with h' | h'
      · rw [(h2.same q hq2).1]; exact h1.file q h'
      · exact absurd h' hq2
  · intro q hq
    have a : ¬ n1 q := fun x => hq ((h q).2 (.inl x))
    have b : ¬ n2 q := fun x => hq ((h q).2 (.inr x))
    exact ⟨(h2.same q b).1.trans (h1.same q a).1, (h2.same q b).2.trans (h1.same q a).2⟩

theorem writable_same {env : Env} {d d' : Disk} {new : Path → Prop} (hr : Rewritten d d' new) {q : Path} (h : Writable env d.fs q) :
    Writable env d'.fs q := by
  refine ⟨?_, by rw [hr.deny]; exact h.allow, h.rw, h.cut, h.gdal⟩
  by_cases hq : new q
  · rw [hr.file q hq]; simp
  · rw [(hr.same q hq).1]; exact h.nodir

theorem nodir_same {d d' : Disk} {new : Path → Prop} (hr : Rewritten d d' new) {q : Path} (h : d.fs.kindOf q ≠ some .dir) :
    d'.fs.kindOf q ≠ some .dir := by
  by_cases hq : new q
  · rw [hr.file q hq]; simp
  · rw [(hr.same q hq).1]; exact h

theorem nameIn_same {d d' : Disk} {new : Path → Prop} (hr : Rewritten d d' new) (hd : ∀ q, new q → d.fs.kindOf q ≠ some .dir)
    {p : Path} {dt core suf : Str} (h : NameIn d.fs p dt core suf) : NameIn d'.fs p dt core suf := by
  refine ⟨hr.wf, h.dir, h.core, h.suf, ?_⟩
  rw [(hr.same p (fun hn => hd _ hn h.exist)).1]; exact h.exist

theorem canWrite_same {sys : Sys} {d d' : Disk} {mode : IOMode} {j : Job} {h g fill p dt core suf m} {new : Path → Prop}
    (hr : Rewritten d d' new) (hd : ∀ q, new q → d.fs.kindOf q ≠ some .dir) (W : CanWrite sys d mode j h g fill p dt core suf m) :
    CanWrite sys d' mode j h g fill p dt core suf m :=
  ⟨W.out, W.table, W.keys, nameIn_same hr hd W.name, W.kind, nodir_same hr W.nodir,
    fun hm => ⟨(W.all hm).1, nodir_same hr (W.all hm).2.1, fun l hl => writable_same hr ((W.all hm).2.2 l hl)⟩,
    fun hm k hk => ⟨(W.single hm k hk).1, nodir_same hr (W.single hm k hk).2.1, fun l hl => writable_same hr ((W.single hm k hk).2.2 l hl)⟩,
    W.vals, W.nodata⟩

theorem resolve_file {d : Disk} {p : Path} {dt core suf : Str} {m k : Int} {l : Nat} (hn : NameIn d.fs p dt core suf)
    (hf : d.fs.kindOf (outPath p core suf m k l) = some .file) :
    d.fs.resolve (outFile dt core suf m k l) = some (outPath p core suf m k l) :=
  resolve_out (nameIn_core hn (layerCore_slash (subsetCore_slash hn.core k) m l)) hf

/-- Files that are not rewritten keep an output. -/
theorem single_same {d d' : Disk} {p : Path} {dt core suf : Str} {m k : Int} {h v c T fill} {new : Path → Prop} (hn : NameIn d.fs p dt core suf)
    (hr : Rewritten d d' new) (hd : ∀ q, new q → d.fs.kindOf q ≠ some .dir)
    (hf : ∀ l : Nat, (l : Int) < m → d.fs.kindOf (outPath p core suf m k l) = some .file ∧ ¬ new (outPath p core suf m k l))
    (S : Single d (outFile dt core suf m k) m h v c T fill) : Single d' (outFile dt core suf m k) m h v c T fill := by
  obtain ⟨r0, r1, c0, c1, hb, hS⟩ := S
  refine ⟨r0, r1, c0, c1, hb, fun l hl => ?_⟩
  obtain ⟨w, w1, w2⟩ := hS l hl
  exact ⟨w, reads_same hn.wf hr hd (resolve_file hn (hf l hl).1) (hf l hl).2 w1, w2⟩

theorem combined_same {d d' : Disk} {p : Path} {dt core suf : Str} {m : Int} {h v g T fill} {new : Path → Prop} (hn : NameIn d.fs p dt core suf)
    (hr : Rewritten d d' new) (hd : ∀ q, new q → d.fs.kindOf q ≠ some .dir)
    (hf : ∀ l : Nat, (l : Int) < m → d.fs.kindOf (outPath p core suf m 0 l) = some .file ∧ ¬ new (outPath p core suf m 0 l))
    (S : Combined d (outFile dt core suf m 0) m h v g T fill) : Combined d' (outFile dt core suf m 0) m h v g T fill := by
  intro l hl
  obtain ⟨w, w1, w2⟩ := S l hl
  exact ⟨w, reads_same hn.wf hr hd (resolve_file hn (hf l hl).1) (hf l hl).2 w1, w2⟩

theorem outPath_inj {p : Path} {core suf : Str} {m k k' : Int} {l l' : Nat} (hl : (l : Int) < m) (hl' : (l' : Int) < m)
    (h : outPath p core suf m k l = outPath p core suf m k' l') : k = k' ∧ l = l' := by
  unfold outPath at h
  have h := List.append_cancel_left h
  injection h with h
  have h := List.append_cancel_right h
  exact names_inj hl hl' h

theorem targets_nodir {sys : Sys} {d : Disk} {mode : IOMode} {j : Job} {h g fill p dt core suf m} (W : CanWrite sys d mode j h g fill p dt core suf m)
    {q : Path} (hq : Targets mode g p core suf m q) : d.fs.kindOf q ≠ some .dir := by
  rcases hq with ⟨hm, k, l, hk, hl, rfl⟩ | ⟨hm, -, l, hl, rfl⟩
  · exact ((W.single hm k hk).2.2 l hl).nodir
  · exact ((W.all hm).2.2 l hl).nodir

/-- Writing the result of a reclassification job. -/
theorem write_recls {sys : Sys} {d : Disk} {mode : IOMode} {j : Job} {rs h v g fill p dt core suf m} (hout : j.outFmt = .sfile) (hre : j.recls = true)
    (H : Ready rs h v g j.default.toQ fill) (W : CanWrite sys d mode j h g fill p dt core suf m) :
    ∃ d', writeJob sys mode j rs d = .ok d' ∧ Rewritten d d' (Targets mode g p core suf m) ∧
      ReclsOutput d' mode j h v g fill dt core suf m := by
  have hstep1 : ∃ d1, (if outSubset mode then do
        let w ← outputSubsetToFile sys.env (sys.fmt j.type) d rs true false j.out (tableOf j.table) j.default.toQ
        return w.2
      else return d : Out Disk) = .ok d1 ∧
      Rewritten d d1 (fun q => WantsSingle mode ∧ ∃ k, ∃ l : Nat, Present g k ∧ (l : Int) < m ∧ q = outPath p core suf m k l) ∧
      (WantsSingle mode → ∀ k, Present g k → Single d1 (outFile dt core suf m k) m h v (g k) (numTable j) fill) := by
    by_cases hm : WantsSingle mode
    · rw [if_pos ((outSubset_iff mode).2 hm)]
      by_cases hp : ∃ k, Present g k
      · obtain ⟨d1, o1, o2, o3⟩ := write_single H W hm hp
        refine ⟨d1, by rw [o1]; rfl, ?_, fun _ => o3⟩
        have hpp : (fun q => WantsSingle mode ∧ ∃ k, ∃ l : Nat, Present g k ∧ (l : Int) < m ∧ q = outPath p core suf m k l) =
            (fun q => ∃ k, ∃ l : Nat, Present g k ∧ (l : Int) < m ∧ q = outPath p core suf m k l) := by
          funext q
          exact propext ⟨fun h => h.2, fun h => ⟨hm, h⟩⟩
        rw [hpp]
        exact o2
      · have hs : rs.subs = [] := by
          by_contra hne
          exact hp (H.any.2 hne)
        refine ⟨d, by rw [none_written hs]; rfl, rewritten_refl W.name.wf ?_, fun _ k hk => absurd ⟨k, hk⟩ hp⟩
        rintro q ⟨-, k, l, hk, -⟩
        exact hp ⟨k, hk⟩
    · rw [if_neg (fun h => hm ((outSubset_iff mode).1 h))]
      exact ⟨d, rfl, rewritten_refl W.name.wf (fun q h => hm h.1), fun h => absurd h hm⟩
  obtain ⟨d1, e1, r1, s1⟩ := hstep1
  have hd1 : ∀ q, (WantsSingle mode ∧ ∃ k, ∃ l : Nat, Present g k ∧ (l : Int) < m ∧ q = outPath p core suf m k l) → d.fs.kindOf q ≠ some .dir :=
    fun q hq => targets_nodir W (.inl hq)
  have W1 := canWrite_same r1 hd1 W
  have hw : writeJob sys mode j rs d = (do
      if outAll mode then do
        let w ← outputSubsetToFile sys.env (sys.fmt j.type) d1 rs true true j.out (tableOf j.table) j.default.toQ
        return w.2
      else return d1 : Out Disk) := by
    unfold writeJob
    rw [if_neg (by rw [hout]; simp), hre, if_pos rfl, e1]
    rfl
  rw [hw]
  by_cases hm : WantsAll mode
  · rw [if_pos ((outAll_iff mode).2 hm)]
    by_cases hp : ∃ k, Present g k
    · obtain ⟨d2, o1, o2, o3⟩ := write_all H W1 hm hp
      refine ⟨d2, by rw [o1]; rfl, rewritten_trans r1 o2 ?_, ⟨fun _ _ => o3, ?_⟩⟩
      · intro q
        constructor
        · rintro (h | ⟨-, -, h⟩)
          · exact .inl h
          · exact .inr h
        · rintro (h | h)
          · exact .inl h
          · exact .inr ⟨hm, hp, h⟩
      · intro hs k hk h0
        refine single_same W1.name o2 ?_ ?_ (s1 hs k hk)
        · rintro q ⟨l, hl, rfl⟩
          exact ((W1.all hm).2.2 l hl).nodir
        · intro l hl
          refine ⟨r1.file _ ⟨hs, k, l, hk, hl, rfl⟩, ?_⟩
          rintro ⟨l', hl', e⟩
          exact h0 hm (outPath_inj hl hl' e).1
    · have hs : rs.subs = [] := by
        by_contra hne
        exact hp (H.any.2 hne)
      refine ⟨d1, by rw [none_written hs]; rfl, rewritten_trans r1 (rewritten_refl r1.wf (new := fun _ => False) (fun _ h => h)) ?_,
        ⟨fun _ h => absurd h hp, fun _ k hk => absurd ⟨k, hk⟩ hp⟩⟩
      intro q
      constructor
      · rintro (h | ⟨-, h, -⟩)
        · exact .inl h
        · exact absurd h hp
      · rintro (h | h)
        · exact .inl h
        · exact h.elim
  · rw [if_neg (fun h => hm ((outAll_iff mode).1 h))]
    refine ⟨d1, rfl, rewritten_trans r1 (rewritten_refl r1.wf (new := fun _ => False) (fun _ h => h)) ?_, ⟨fun h => absurd h hm, fun hs k hk _ => s1 hs k hk⟩⟩
    intro q
    constructor
    · rintro (h | ⟨h, -⟩)
      · exact .inl h
      · exact absurd h hm
    · rintro (h | h)
      · exact .inl h
      · exact h.elim

/-- What `BuildSubSet` makes of a raster with one layer. -/
theorem ready_own {r : Raster} (hb : CCGL.Spec.Built r) (h2 : r.is2d = false) {h : Header} {v : Int → Int → ℚ} {dv fill : ℚ}
    (hg : r.hdr.grid = h.grid) (hn : r.noData = h.noData) (hv : ∀ row col, h.grid.CellInside row col → r.getValue row col 1 = .ok (v row col))
    (hf : CCGL.Spec.fillValue r dv = fill) :
    ∃ rs' b, buildSubSet ⟨r, []⟩ [] = .ok (rs', b) ∧ Ready rs' h v (byValue h v) dv fill := by
  obtain ⟨rs', b, e, -⟩ := build_spec hb []
  obtain ⟨n0, hhdr⟩ := build_hdr e
  obtain ⟨hrw, hcl, hndr, hly, h2d, hdf, hval, -⟩ := build_cases2 hb e
  have hsub : ∀ x, CCGL.Spec.subsetId [] x = truncQ x := fun _ => rfl
  have hins : ∀ row col x, CCGL.Spec.ValidCell r row col x → h.grid.CellInside row col := by
    intro row col x hx
    by_contra hno
    have := getValue_outside r row col 1 (.inl (by
      intro hh
      apply hno
      rw [← hg]
      exact hh))
    rw [hx.1] at this
    injection this with this
    have h2 := hx.2
    rw [this, floatEqual_self] at h2
    cases h2
  have hhas : ∀ row col, HasValue h v row col → CCGL.Spec.ValidCell r row col (v row col) :=
    fun row col hh => ⟨hv row col hh.1, by rw [hn]; exact hh.2⟩
  refine ⟨rs', b, e, ?_, by rw [h2d, h2], by rw [hhdr]; exact hg, by rw [hndr, hn], ?_, ?_, ?_, ?_⟩
  · intro hne
    exact cut_build hb e hne
  · rw [hhdr]
    show r.hdr.noData = _
    rw [hb.hdrOk.nd, hn]
  · rw [← hf]
    unfold CCGL.Spec.fillValue
    rw [hdf]
  · intro k row col
    constructor
    · rintro ⟨hh, hk⟩
      obtain ⟨⟨s, a, c⟩, -⟩ := C13_partition hb [] e row col _ (hhas row col hh)
      rw [hsub, hk] at a
      exact ⟨s, a, c⟩
    · rintro ⟨s, a, c⟩
      obtain ⟨x, x1, x2⟩ := (C13_only hb [] e k s a).1 row col c
      have hin := hins row col x x1
      have hx : v row col = x := by
        have := hv row col hin
        rw [x1.1] at this
        injection this with this
        exact this.symm
      rw [hsub] at x2
      refine ⟨⟨hin, ?_⟩, by rw [hx]; exact x2⟩
      rw [hx, ← hn]
      exact x1.2
  · rintro k row col ⟨hh, -⟩
    rw [hval row col 1 _ (hhas row col hh)]
    exact hv row col hh.1

theorem rename_dflt {r r' : Raster} {upd : Bool} {new : ℚ} (e : (if upd then r.replaceNoData new else .ok r : Out Raster) = .ok r') :
    r'.dflt = if upd then new else r.dflt := by
  cases upd
  · simp only [Bool.false_eq_true, if_false, Out.ok.injEq] at e
    rw [← e]; simp
  · simp only [if_true] at e ⊢
    unfold Raster.replaceNoData at e
    obtain ⟨x, ex, e⟩ := Out.bind_ok e
    simp only [Out.pure_eq, Out.ok.injEq] at e
    rw [← e]

theorem fill_unlisted {r : Raster} {dv nd new : ℚ} {upd : Bool} (h : r.dflt = if upd then new else checkDefault dv nd) :
    CCGL.Spec.fillValue r dv = unlisted dv upd nd new := by
  unfold CCGL.Spec.fillValue unlisted
  rw [h]
  unfold checkDefault NODATA
  by_cases h1 : floatEqual dv (-9999) = true <;> by_cases h2 : floatEqual nd (-9999) = true <;> cases upd <;> simp_all

theorem masked_eq {hM hR : Header} {vM vR : Int → Int → ℚ} {dv : ℚ} {row col : Int} {w : ℚ} (h : MaskedCell hM vM hR vR dv row col w) :
    w = maskedVal hM vM hR vR dv row col := by
  unfold maskedVal
  split
  · next hx => exact h.taken hx.1 _ _ hx.2.choose_spec.choose_spec
  · next hx =>
    apply h.none
    by_cases ha : HasValue hM vM row col
    · exact .inr (fun hb => hx ⟨ha, hb⟩)
    · exact .inl ha

end App
end CCGL
