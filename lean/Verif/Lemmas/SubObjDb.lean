import Verif.Lemmas.SubObjSim
/-! Several layers of data, and data from stored files. -/
namespace CCGL
namespace SubObj
open Spec

/-- Several layers have been put into `data2d_` of object `i` whose members are now `o'`. -/
theorem Rel.many {w w' R} (h : Rel w R) {i : Nat} {o o' : Obj} {x : Ref} (ho : w.objs i = some o) (hx : R.objs i = some x)
    {l : List (List ℚ)} {L : Nat} (hL : 2 ≤ L) (hlen : l.length = x.shape.count) (hrow : ∀ r ∈ l, r.length = x.room.getD L)
    (hroom : L ≤ x.room.getD L)
    (hm : Mem w') (ho' : w'.objs i = some o') (hoth : ∀ k, k ≠ i → w'.objs k = w.objs k) (hc : w'.cnt = w.cnt)
    (hnew : cont w' i .data2 = some (.rows l))
    (hcont : ∀ k g, (k, g) ≠ (i, Field.data2) → (w.objs k).isSome = true → cont w' k g = cont w k g)
    (hp : ∀ f, f.IsPos → o'.ptr f = o.ptr f)
    (hu : o'.usable = true) (hl : o'.nLyrs = L) (hr : o'.nCells = o.nCells ∧ o'.srow = o.srow ∧ o'.erow = o.erow ∧
      o'.scol = o.scol ∧ o'.ecol = o.ecol ∧ o'.alloc = o.alloc) :
    Rel w' (R.put i (some (x.give (ofRows x.shape.count L l)))) := by
  have hM := h.mems i o x ho hx
  have hC := h.conts i x hx
  have hs : (w.objs i).isSome = true := by rw [ho]; rfl
  have he : ∀ g, g ≠ Field.data2 → cont w' i g = cont w i g := fun g hg => hcont i g (by simp [hg]) hs
  have hlL : (ofRows x.shape.count L l).length = L := by simp [ofRows]
  have hroom' : (x.give (ofRows x.shape.count L l)).room = some (x.room.getD L) := by
    simp [Ref.give, hlL, hL]
  have hlay : (x.give (ofRows x.shape.count L l)).layers = some (ofRows x.shape.count L l) := rfl
  refine h.update ho hx hm ho' hoth hc (fun k g hk => hcont k g (by simp [hk])) hp rfl ?_ ?_
  · refine ⟨hu, by rw [hr.1, hM.n]; rfl, ?_, by rw [hr.2.1, hM.srow]; rfl, by rw [hr.2.2.1, hM.erow]; rfl,
      by rw [hr.2.2.2.1, hM.scol]; rfl, by rw [hr.2.2.2.2.1, hM.ecol]; rfl, by rw [hr.2.2.2.2.2, hM.alloc]; rfl⟩
    rw [hl, hlay]
    simp only [hlL]
  · refine ⟨hC.ok, ?_, ?_, ?_, ?_, ?_, ?_, ?_, ?_, ?_, ?_⟩
    · rw [he _ (by simp)]; exact hC.glob
    · rw [he _ (by simp)]; exact hC.lpos
    · rw [he _ (by simp)]; exact hC.lidx
    · rw [he _ (by simp)]; exact hC.data
    · rw [hroom', hnew]
      exact ⟨by omega, l, rfl, hlen, hrow⟩
    · intro e; cases e
    · rw [hlay]
      intro e
      have e' := Option.some.inj e
      rw [e'] at hlL; simp at hlL; omega
    · intro ls e v' hv'
      rw [hlay] at e
      cases e
      simp only [ofRows, List.mem_map] at hv'
      obtain ⟨j, _, rfl⟩ := hv'
      simp [hlen]
      show x.shape.count = _
      rfl
    · intro v' e
      rw [hlay] at e
      have e' := Option.some.inj e
      rw [e'] at hlL; simp at hlL; omega
    · intro ls e h2
      rw [hlay] at e
      cases e
      exact ⟨l, x.room.getD L, hroom', by rw [hlL]; exact hroom, hnew, by rw [hlL]; rfl⟩

theorem ofRows_take (n m : Nat) (l : List (List ℚ)) :
    ofRows n m ((l.take n).map (List.take m)) = ofRows n m l := by
  unfold ofRows
  refine List.map_congr_left ?_
  intro j hj
  have hj' := List.mem_range.1 hj
  rw [List.take_of_length_le (by simp), List.map_map]
  refine List.map_congr_left ?_
  intro r _
  simp only [Function.comp, List.getD_eq_getElem?_getD, List.getElem?_take_of_lt hj']

theorem set2DData_sim {w R} (h : Rel w R) {i : Nat} {x : Ref} (hx : R.objs i = some x)
    (lyr : Int) (l : List (List ℚ)) (hl : x.shape.count ≤ l.length) (hr : ∀ r ∈ l, lyr ≤ (r.length : Int)) (h2 : 2 ≤ lyr)
    (hf : Fits x.room lyr) :
    ∃ w', set2DData w i x.shape.count lyr (some l) = .ok (w', true) ∧
      Rel w' (R.put i (some (x.give (ofRows x.shape.count lyr.toNat l)))) := by
  obtain ⟨o, ho⟩ := h.obj hx
  obtain ⟨L, rfl⟩ : ∃ L : Nat, lyr = L := ⟨lyr.toNat, by omega⟩
  have hM := h.mems i o x ho hx
  have hC := h.conts i x hx
  obtain ⟨hm1, hc1⟩ := h.mem.set ho (o' := { o with nLyrs := (L : Int), usable := true }) rfl rfl
  have ho1 : (w.set i { o with nLyrs := (L : Int), usable := true }).objs i = some { o with nLyrs := (L : Int), usable := true } := upd_same _ _ _
  have hoth1 : ∀ j, j ≠ i → (w.set i { o with nLyrs := (L : Int), usable := true }).objs j = w.objs j := fun j hj => upd_ne _ _ hj
  have hs1 : ∀ j, (w.objs j).isSome = true → ((w.set i { o with nLyrs := (L : Int), usable := true }).objs j).isSome = true := by
    intro j hj
    by_cases hji : j = i
    · rw [hji, ho1]; rfl
    · rw [hoth1 j hji]; exact hj
  have hr' : ∀ r ∈ l, L ≤ r.length := fun r hrm => by have := hr r hrm; omega
  have hn1 := Shape.Ok.count_pos hC.ok
  rw [Int.toNat_natCast]
  unfold set2DData
  rw [get_ok ho, Out.ok_bind]
  rw [if_neg (by rw [hM.n]; simp)]
  simp only
  have hbuf := hC.data2
  cases hrm : x.room with
  | none =>
    rw [hrm] at hbuf
    have e := h.mem.ptr_none ho hbuf
    rw [e]
    simp only
    have hcp : copyRows o.nCells (L : Int) l = .ok ((l.take x.shape.count).map (List.take L)) := by
      rw [hM.n]; exact copyRows_take _ _ l hn1 (by omega) hl hr'
    rw [hcp, Out.ok_bind]
    obtain ⟨w', a, hw', hP⟩ := hm1.place ho1 (f := .data2) (.rows ((l.take x.shape.count).map (List.take L))) e
      (fun h' => absurd h' not_pos_data2)
    rw [hw', Out.ok_bind]
    refine ⟨w', rfl, ?_⟩
    rw [← ofRows_take]
    refine h.many ho hx (by omega) (by simp; omega) ?_ (by rw [hrm]; simp) hP.mem hP.obj
      (fun j hj => by rw [hP.others j hj, hoth1 j hj]) hP.cnt hP.new
      (fun j g hne hj => by rw [hP.same j g hne (hs1 j hj), hc1]) ?_ rfl rfl ⟨rfl, rfl, rfl, rfl, rfl, rfl⟩
    · intro r hrr
      obtain ⟨r0, hr0, rfl⟩ := List.mem_map.1 hrr
      have := hr' r0 (List.mem_of_mem_take hr0)
      rw [hrm]; simp; omega
    · intro f hf
      exact upd_ne _ _ (by intro e'; rw [e'] at hf; exact hf)
  | some m =>
    rw [hrm] at hbuf
    obtain ⟨hm, old, hold, holdl, holdr⟩ := hbuf
    obtain ⟨a, e, hb⟩ := Mem.ptr_of_cont ho hold
    have hLm : L ≤ m := by
      have := hf m (by rw [hrm]; rfl)
      omega
    rw [e]
    simp only
    have hd : (w.set i { o with nLyrs := (L : Int), usable := true }).rows (some a) = .ok old := by
      have := rows_of_cont (f := .data2) ho1 (l := old) (by rw [hc1, hold])
      rw [show ({ o with nLyrs := (L : Int), usable := true } : Obj).ptr .data2 = some a from e] at this
      exact this
    obtain ⟨l', hl', q1, q2, q3⟩ := overwrite2_spec x.shape.count L m old l holdl hl holdr hr' hLm
    have how : overwrite2 o.nCells (L : Int) old l = .ok l' := by rw [hM.n]; exact hl'
    rw [hd, Out.ok_bind, how, Out.ok_bind]
    have hP := hm1.store (.rows l') ho1 (f := .data2) (a := a) e not_pos_data2
    refine ⟨_, rfl, ?_⟩
    rw [← q3]
    exact h.many ho hx (by omega) q1 (by rw [hrm]; exact q2) (by rw [hrm]; exact hLm) hP.mem hP.obj
      (fun j hj => by rw [hP.others j hj, hoth1 j hj]) hP.cnt hP.new
      (fun j g hne hj => by rw [hP.same j g hne (hs1 j hj), hc1]) (fun _ _ => rfl) rfl rfl ⟨rfl, rfl, rfl, rfl, rfl, rfl⟩

/-- A buffer that is allocated on demand. -/
theorem ensure {w : World} (h : Mem w) {i : Nat} {o : Obj} (ho : w.objs i = some o) {f : Field} (hf : ¬ f.IsPos) (b : Block)
    (stage : Out World) (hst : stage = match o.ptr f with | some _ => .ok w | none => w.place i f b) :
    ∃ w1 p a blk, stage = .ok w1 ∧ w1.objs i = some { o with ptr := p } ∧ p f = some a ∧ cont w1 i f = some blk ∧
      (cont w i f = some blk ∨ (cont w i f = none ∧ blk = b)) ∧ Mem w1 ∧ (∀ k, k ≠ i → w1.objs k = w.objs k) ∧ w1.cnt = w.cnt ∧
      (∀ k g, (k, g) ≠ (i, f) → (w.objs k).isSome = true → cont w1 k g = cont w k g) ∧ ∀ g, g ≠ f → p g = o.ptr g := by
  cases e : o.ptr f with
  | some a =>
    obtain ⟨blk, hb⟩ := h.live i o f a ho e
    rw [e] at hst
    exact ⟨w, o.ptr, a, blk, hst, ho, e, by rw [cont_some ho e, hb], Or.inl (by rw [cont_some ho e, hb]), h, fun _ _ => rfl, rfl,
      fun _ _ _ _ => rfl, fun _ _ => rfl⟩
  | none =>
    rw [e] at hst
    obtain ⟨w', a, hw', hP⟩ := h.place ho (f := f) b e (fun h' => absurd h' hf)
    exact ⟨w', upd o.ptr f (some a), a, b, by rw [hst]; exact hw', hP.obj, upd_same _ _ _, hP.new, Or.inr ⟨cont_none ho e, rfl⟩,
      hP.mem, hP.others, hP.cnt, hP.same, fun g hg => upd_ne _ _ hg⟩

theorem readDb_sim {w R} (h : Rel w R) {i : Nat} {x : Ref} (hx : R.objs i = some x) (dbn dbl : Int) (db : List ℚ)
    (hn : dbn = x.shape.size ∨ dbn = x.shape.count) (hd : dbn * dbl ≤ (db.length : Int)) (h1 : 1 ≤ dbl)
    (hf : 2 ≤ dbl → Fits x.room dbl) :
    ∃ w', readDb w i (some (dbn, dbl, db)) = .ok (w', true) ∧
      Rel w' (R.put i (some (x.give (ofFile x.shape dbn dbl.toNat db)))) := by
  obtain ⟨o, ho⟩ := h.obj hx
  obtain ⟨L, rfl⟩ : ∃ L : Nat, dbl = L := ⟨dbl.toNat, by omega⟩
  have hM := h.mems i o x ho hx
  have hC := h.conts i x hx
  have hn1 := Shape.Ok.count_pos hC.ok
  have hfull : (o.erow - o.srow + 1) * (o.ecol - o.scol + 1) = x.shape.size := by
    rw [hM.erow, hM.srow, hM.ecol, hM.scol]; rfl
  rw [Int.toNat_natCast]
  unfold readDb
  simp only
  rw [get_ok ho, Out.ok_bind]
  simp only [hfull]
  have hin : ¬ ((x.shape.size ≠ dbn ∧ o.nCells ≠ dbn) ∨ (L : Int) < 0) := by
    rw [hM.n]
    rintro (⟨q1, q2⟩ | q)
    · rcases hn with e | e
      · exact q1 e.symm
      · exact q2 e.symm
    · omega
  rw [if_neg hin]
  obtain ⟨hm1, hc1⟩ := h.mem.set ho (o' := { o with nLyrs := (L : Int) }) rfl rfl
  have ho1 : (w.set i { o with nLyrs := (L : Int) }).objs i = some { o with nLyrs := (L : Int) } := upd_same _ _ _
  have hoth1 : ∀ j, j ≠ i → (w.set i { o with nLyrs := (L : Int) }).objs j = w.objs j := fun j hj => upd_ne _ _ hj
  have hs1 : ∀ j, (w.objs j).isSome = true → ((w.set i { o with nLyrs := (L : Int) }).objs j).isSome = true := by
    intro j hj
    by_cases hji : j = i
    · rw [hji, ho1]; rfl
    · rw [hoth1 j hji]; exact hj
  by_cases hL1 : L = 1
  · subst hL1
    rw [if_pos (by simp)]
    by_cases hcd : o.nCells = dbn
    · rw [if_pos hcd]
      have hdb : x.shape.count ≤ db.length := by
        have : (x.shape.count : Int) = dbn := by rw [← hM.n]; exact hcd
        simp at hd; omega
      obtain ⟨w', e, hR⟩ := setData_sim h hx ho 1 db hdb
      have hdn : dbn = x.shape.count := by rw [← hM.n, hcd]
      rw [hdn, ofFile_one hC.ok db hdb]
      exact ⟨w', e, hR⟩
    · rw [if_neg hcd]
      have hds : dbn = x.shape.size := by
        rcases hn with e | e
        · exact e
        · exact absurd (by rw [hM.n, e]) hcd
      obtain ⟨w1, p, a, blk, hst, ho2, hpa, hblk, hor, hm2, hoth2, hcnt2, hsame2, hp2⟩ := ensure hm1 ho1 not_pos_data
        (.dbls (List.replicate o.nCells.toNat NODATA)) (ensure1 (w.set i { o with nLyrs := ((1 : Nat) : Int) }) i o)
        (by unfold ensure1
            cases e : o.ptr .data with
            | some a => simp only
            | none => simp only; rw [if_neg (by rw [hM.n]; omega)])
      rw [hst, Out.ok_bind]
      obtain ⟨old, rfl, hold⟩ : ∃ l, blk = .dbls l ∧ l.length = x.shape.count := by
        rcases hor with e | ⟨_, e⟩
        · rw [hc1] at e
          exact hC.data blk e
        · exact ⟨_, e, by rw [hM.n]; simp⟩
      have hlidx : w1.ints (o.ptr .lidx) = .ok (x.shape.cells.map x.shape.index) := by
        have this : w1.ints (p .lidx) = _ := ints_of_cont (f := .lidx) ho2 (l := x.shape.cells.map x.shape.index)
          (by rw [hsame2 i .lidx (by simp) (by rw [ho1]; rfl), hc1]; exact hC.lidx)
        rw [hp2 .lidx (by simp)] at this
        exact this
      have hpick : pickFull o.nCells (x.shape.cells.map x.shape.index) db =
          .ok (x.shape.cells.map (fun c => db.getD (x.shape.index c).toNat 0)) := by
        rw [hM.n]; exact pickFull_spec hC.ok db (by rw [← hds]; simpa using hd)
      rw [hlidx, Out.ok_bind, hpick, Out.ok_bind, get_ok ho2, Out.ok_bind]
      simp only [hpa]
      have hdb2 : w1.dbls (some a) = .ok old := by
        have this : w1.dbls (p .data) = _ := dbls_of_cont (f := .data) ho2 hblk
        rw [hpa] at this
        exact this
      have how : overwrite o.nCells old (x.shape.cells.map (fun c => db.getD (x.shape.index c).toNat 0)) =
          .ok (x.shape.cells.map (fun c => db.getD (x.shape.index c).toNat 0)) := by
        rw [hM.n, overwrite_all _ old _ hold (by simp [Shape.count]), List.take_of_length_le (by simp [Shape.count])]
      rw [hdb2, Out.ok_bind, how, Out.ok_bind]
      have hP := hm2.store (.dbls (x.shape.cells.map (fun c => db.getD (x.shape.index c).toNat 0))) ho2 (f := .data) (a := a) hpa not_pos_data
      obtain ⟨hm3, hc3⟩ := hP.mem.set hP.obj
        (o' := { { { o with nLyrs := ((1 : Nat) : Int) } with ptr := p } with usable := true }) rfl rfl
      refine ⟨_, rfl, ?_⟩
      rw [hds, ofFile_full_one]
      refine h.one ho hx (by simp [Shape.count]) hm3 (upd_same _ _ _) ?_ ?_ (by rw [hc3]; exact hP.new) ?_ ?_ rfl rfl
        ⟨rfl, rfl, rfl, rfl, rfl, rfl⟩
      · intro j hj
        rw [show ∀ (v : World) ov, (v.set i ov).objs j = v.objs j from fun v ov => upd_ne _ _ hj, hP.others j hj, hoth2 j hj, hoth1 j hj]
      · exact hcnt2
      · intro j g hne hj
        have hs2 : (w1.objs j).isSome = true := by
          by_cases hji : j = i
          · rw [hji, ho2]; rfl
          · rw [hoth2 j hji]; exact hs1 j hj
        rw [hc3, hP.same j g hne hs2, hsame2 j g hne (hs1 j hj), hc1]
      · intro f hf'
        exact hp2 f (by intro e'; rw [e'] at hf'; exact hf')
  · have hL2 : 2 ≤ L := by omega
    rw [if_neg (by intro e; exact hL1 (by exact_mod_cast e))]
    obtain ⟨w1, p, a, blk, hst, ho2, hpa, hblk, hor, hm2, hoth2, hcnt2, hsame2, hp2⟩ := ensure hm1 ho1 not_pos_data2
      (.rows (List.replicate o.nCells.toNat (List.replicate (L : Int).toNat NODATA))) (ensure2 (w.set i { o with nLyrs := (L : Int) }) i o (L : Int))
      (by unfold ensure2
          cases e : o.ptr .data2 with
          | some a => simp only
          | none => simp only; rw [if_neg (by rw [hM.n]; omega)])
    rw [hst, Out.ok_bind]
    have hLr : L ≤ x.room.getD L := by
      cases hrm : x.room with
      | none => simp
      | some m =>
        have := hf (by omega) m (by rw [hrm]; rfl)
        simp; omega
    obtain ⟨old, rfl, hold, holdr⟩ : ∃ l, blk = .rows l ∧ l.length = x.shape.count ∧ ∀ r ∈ l, r.length = x.room.getD L := by
      have hbuf := hC.data2
      rcases hor with e | ⟨e0, e⟩
      · rw [hc1] at e
        cases hrm : x.room with
        | none => rw [hrm] at hbuf; rw [show cont w i .data2 = none from hbuf] at e; cases e
        | some m =>
          rw [hrm] at hbuf
          obtain ⟨_, l, q1, q2, q3⟩ := hbuf
          rw [q1] at e
          cases e
          exact ⟨l, rfl, q2, q3⟩
      · rw [hc1] at e0
        cases hrm : x.room with
        | none =>
          refine ⟨_, e, by rw [hM.n]; simp, ?_⟩
          intro r hr
          rw [List.eq_of_mem_replicate hr]; simp
        | some m =>
          rw [hrm] at hbuf
          obtain ⟨_, l, q1, _⟩ := hbuf
          rw [q1] at e0; cases e0
    have hlidx : w1.ints (o.ptr .lidx) = .ok (x.shape.cells.map x.shape.index) := by
      have this : w1.ints (p .lidx) = _ := ints_of_cont (f := .lidx) ho2 (l := x.shape.cells.map x.shape.index)
        (by rw [hsame2 i .lidx (by simp) (by rw [ho1]; rfl), hc1]; exact hC.lidx)
      rw [hp2 .lidx (by simp)] at this
      exact this
    obtain ⟨rows, hrows, r1, r2, r3⟩ := pickLayers_spec hC.ok db dbn L (by omega) hn hd
    have hpick : pickLayers o.nCells (L : Int) (decide (x.shape.size = dbn)) (x.shape.cells.map x.shape.index) db = .ok rows := by
      rw [hM.n]; exact hrows
    rw [hlidx, Out.ok_bind, hpick, Out.ok_bind, get_ok ho2, Out.ok_bind]
    simp only [hpa]
    have hdb2 : w1.rows (some a) = .ok old := by
      have this : w1.rows (p .data2) = _ := rows_of_cont (f := .data2) ho2 hblk
      rw [hpa] at this
      exact this
    obtain ⟨l', hl', q1, q2, q3⟩ := overwrite2_spec x.shape.count L (x.room.getD L) old rows hold (by omega) holdr
      (fun r hr => by rw [r2 r hr]) hLr
    have how : overwrite2 o.nCells (L : Int) old rows = .ok l' := by rw [hM.n]; exact hl'
    rw [hdb2, Out.ok_bind, how, Out.ok_bind]
    have hP := hm2.store (.rows l') ho2 (f := .data2) (a := a) hpa not_pos_data2
    obtain ⟨hm3, hc3⟩ := hP.mem.set hP.obj
      (o' := { { { o with nLyrs := (L : Int) } with ptr := p } with usable := true }) rfl rfl
    refine ⟨_, rfl, ?_⟩
    rw [← r3, ← q3]
    refine h.many ho hx hL2 q1 q2 hLr hm3 (upd_same _ _ _) ?_ ?_ (by rw [hc3]; exact hP.new) ?_ ?_ rfl rfl
      ⟨rfl, rfl, rfl, rfl, rfl, rfl⟩
    · intro j hj
      rw [show ∀ (v : World) ov, (v.set i ov).objs j = v.objs j from fun v ov => upd_ne _ _ hj, hP.others j hj, hoth2 j hj, hoth1 j hj]
    · exact hcnt2
    · intro j g hne hj
      have hs2 : (w1.objs j).isSome = true := by
        by_cases hji : j = i
        · rw [hji, ho2]; rfl
        · rw [hoth2 j hji]; exact hs1 j hj
      rw [hc3, hP.same j g hne hs2, hsame2 j g hne (hs1 j hj), hc1]
    · intro f hf'
      exact hp2 f (by intro e'; rw [e'] at hf'; exact hf')

end SubObj
end CCGL
