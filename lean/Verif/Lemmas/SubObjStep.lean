import Verif.Lemmas.SubObjDb
/-! Construction, copies, destruction and output of `SubsetPositions` objects. -/
namespace CCGL
namespace SubObj
open Spec

/-- A new object under construction. -/
structure Chain (w w' : World) (o0 : Obj) (c : Field → Option Block) : Prop where
  mem : Mem w'
  obj : ∃ p, w'.objs w.cnt = some { o0 with ptr := p }
  others : ∀ k, k ≠ w.cnt → w'.objs k = w.objs k
  cnt : w'.cnt = w.cnt + 1
  same : ∀ k g, k ≠ w.cnt → (w.objs k).isSome = true → cont w' k g = cont w k g
  conts : ∀ f, cont w' w.cnt f = c f

theorem Chain.create {w : World} (h : Mem w) (o0 : Obj) (hp : o0.ptr = fun _ => none) :
    Chain w (create w o0) o0 (fun _ => none) := by
  have ho : (SubObj.create w o0).objs w.cnt = some o0 := by rw [create_objs, if_pos rfl]
  refine ⟨h.create o0 (by intro f a e; rw [hp] at e; cases e), ⟨o0.ptr, ho⟩, ?_, rfl, ?_, ?_⟩
  · intro k hk; rw [create_objs, if_neg hk]
  · intro k g _ hs; exact create_cont h o0 hs g
  · intro f; exact cont_none ho (by rw [hp])

theorem Chain.place {w w' : World} {o0 : Obj} {c} (h : Chain w w' o0 c) {f : Field} (b : Block) (hc : c f = none)
    (hal : f.IsPos → o0.alloc = true) : ∃ w'', w'.place w.cnt f b = .ok w'' ∧ Chain w w'' o0 (upd c f (some b)) := by
  obtain ⟨p, hp⟩ := h.obj
  have hn := h.mem.ptr_none hp (f := f) (by rw [h.conts, hc])
  obtain ⟨w'', a, hw, hP⟩ := h.mem.place hp (f := f) b hn hal
  refine ⟨w'', hw, hP.mem, ⟨_, hP.obj⟩, fun k hk => by rw [hP.others k hk, h.others k hk], by rw [hP.cnt, h.cnt], ?_, ?_⟩
  · intro k g hk hs
    rw [hP.same k g (by simp [hk]) (by rw [h.others k hk]; exact hs), h.same k g hk hs]
  · intro g
    by_cases hg : g = f
    · rw [hg, hP.new, upd_same]
    · rw [hP.same _ g (by simp [hg]) (by rw [hp]; rfl), h.conts, upd_ne _ _ hg]

theorem Chain.keep {w w' : World} {o0 : Obj} {c} (h : Chain w w' o0 c) (hm : Mem w) {s : Nat} {o : Obj} (ho : w.objs s = some o) :
    w'.objs s = some o ∧ ∀ g, cont w' s g = cont w s g := by
  have hs := Nat.ne_of_lt (hm.cnt s o ho)
  exact ⟨by rw [h.others s hs]; exact ho, fun g => h.same s g hs (by rw [ho]; rfl)⟩

theorem build_sim {w R} (h : Rel w R) (a b c d : Int) (cells : List (Int × Int × Int)) (hok : (Shape.mk a b c d cells).Ok) :
    ∃ w', build w a b c d cells = .ok w' ∧ Rel w' (R.push ⟨⟨a, b, c, d, cells⟩, none, none, none⟩) := by
  unfold build
  have c0 := Chain.create h.mem { fresh a b c d with nCells := cells.length, alloc := true } rfl
  obtain ⟨w1, e1, c1⟩ := c0.place (f := .glob) (.ints (cells.map (·.1))) rfl (fun _ => rfl)
  obtain ⟨w2, e2, c2⟩ := c1.place (f := .lpos) (.pairs (cells.map (·.2))) rfl (fun _ => rfl)
  obtain ⟨w3, e3, c3⟩ := c2.place (f := .lidx) (.ints (cells.map (fun x => x.2.1 * (d - c + 1) + x.2.2))) rfl (fun _ => rfl)
  simp only
  rw [e1, Out.ok_bind, e2, Out.ok_bind, e3]
  refine ⟨w3, rfl, ?_⟩
  obtain ⟨p, hp⟩ := c3.obj
  refine h.push c3.mem hp c3.others c3.cnt c3.same ?_ ?_ ?_
  · exact ⟨rfl, rfl, rfl, rfl, rfl, rfl, rfl, rfl⟩
  · have hcc : cont w3 w.cnt = _ := funext c3.conts
    rw [hcc]
    refine ⟨hok, ?_, ?_, ?_, ?_, ?_, ?_, ?_, ?_, ?_, ?_⟩
    · simp [upd]
    · simp [upd]
    · rw [upd_same]; rfl
    · intro b hb; simp [upd] at hb
    · simp [upd, Buf2]
    · intro _; simp [upd]
    · intro e; cases e
    · intro ls e; cases e
    · intro v e; cases e
    · intro ls e; cases e
  · intro j hj; cases hj

theorem deep_sim {w R} (h : Rel w R) {s : Nat} {x : Ref} (hx : R.objs s = some x) :
    ∃ w', copy w s true = .ok w' ∧
      Rel w' (R.push { x with room := x.room.bind (fun _ => x.layers.map List.length), lender := none }) := by
  obtain ⟨o, ho⟩ := h.obj hx
  have hM := h.mems s o x ho hx
  have hC := h.conts s x hx
  have hn1 := Shape.Ok.count_pos hC.ok
  unfold copy
  rw [get_ok ho, Out.ok_bind]
  simp only [if_true]
  have c0 := Chain.create h.mem { o with alloc := true, ptr := fun _ => none } rfl
  have k0 := c0.keep h.mem ho
  rw [ints_of_cont k0.1 (by rw [k0.2]; exact hC.glob), Out.ok_bind, hM.n, copy1_all x.shape.count _ (by simp [Shape.count]), Out.ok_bind]
  rw [hM.n] at c0
  obtain ⟨w1, e1, c1⟩ := c0.place (f := .glob) (.ints (x.shape.cells.map (·.1))) rfl (fun _ => rfl)
  have k1 := c1.keep h.mem ho
  rw [e1, Out.ok_bind, pairs_of_cont k1.1 (by rw [k1.2]; exact hC.lpos), Out.ok_bind,
    copyPairs_all x.shape.count _ (by simp [Shape.count]) hn1, Out.ok_bind]
  obtain ⟨w2, e2, c2⟩ := c1.place (f := .lpos) (.pairs (x.shape.cells.map (·.2))) rfl (fun _ => rfl)
  have k2 := c2.keep h.mem ho
  rw [e2, Out.ok_bind, ints_of_cont k2.1 (by rw [k2.2]; exact hC.lidx), Out.ok_bind, copy1_all x.shape.count _ (by simp [Shape.count]), Out.ok_bind]
  obtain ⟨w3, e3, c3⟩ := c2.place (f := .lidx) (.ints (x.shape.cells.map x.shape.index)) rfl (fun _ => rfl)
  rw [e3, Out.ok_bind]
  -- data_
  obtain ⟨w4, e4, c4⟩ : ∃ w4, (match o.ptr .data with
      | none => .ok w3
      | some a => do
        let d ← w3.dbls (some a)
        let d ← copy1 (x.shape.count : Int) d
        w3.place w.cnt .data (.dbls d) : Out World) = .ok w4 ∧
      ∃ c, Chain w w4 { { o with alloc := true, ptr := fun _ => none } with nCells := (x.shape.count : Int) } c ∧
        c .glob = some (.ints (x.shape.cells.map (·.1))) ∧ c .lpos = some (.pairs (x.shape.cells.map (·.2))) ∧
        c .lidx = some (.ints (x.shape.cells.map x.shape.index)) ∧ c .data = cont w s .data ∧ c .data2 = none := by
    cases e : o.ptr .data with
    | none =>
      exact ⟨w3, rfl, _, c3, by simp [upd], by simp [upd], by simp [upd], by rw [cont_none ho e]; simp [upd], by simp [upd]⟩
    | some a =>
      have k3 := c3.keep h.mem ho
      obtain ⟨b, hb⟩ := h.mem.live s o .data a ho e
      obtain ⟨l, rfl, hl⟩ := hC.data b (by rw [cont_some ho e, hb])
      have hd : w3.dbls (some a) = .ok l := by
        rw [← e]; exact dbls_of_cont k3.1 (by rw [k3.2, cont_some ho e, hb])
      obtain ⟨w4, e4, c4⟩ := c3.place (f := .data) (.dbls l) (by simp [upd]) (fun h' => absurd h' not_pos_data)
      refine ⟨w4, ?_, _, c4, by simp [upd], by simp [upd], by simp [upd], by rw [cont_some ho e, hb]; simp [upd], by simp [upd]⟩
      simp only
      rw [hd, Out.ok_bind, copy1_all _ l hl, Out.ok_bind, e4]
  obtain ⟨c, c4, g1, g2, g3, g4, g5⟩ := c4
  -- the layers
  have hfin : ∃ w5 c', (match o.ptr .data2 with
      | none => .ok w4
      | some a => do
        let d ← w4.rows (some a)
        let d ← copyRows (x.shape.count : Int) o.nLyrs d
        w4.place w.cnt .data2 (.rows d) : Out World) = .ok w5 ∧
      Chain w w5 { { o with alloc := true, ptr := fun _ => none } with nCells := (x.shape.count : Int) } c' ∧
      Conts c' { x with room := x.room.bind (fun _ => x.layers.map List.length), lender := none } := by
    have hbuf := hC.data2
    cases hrm : x.room with
    | none =>
      rw [hrm] at hbuf
      have e := h.mem.ptr_none ho hbuf
      refine ⟨w4, c, by rw [e], c4, hC.ok, g1, g2, g3, by rw [g4]; exact hC.data, by rw [g5]; rfl, ?_, hC.ne, hC.wid, ?_, ?_⟩
      · intro e'; exact ⟨by rw [g4]; exact (hC.unset e').1, rfl⟩
      · intro v e'; rw [g4]; exact hC.one v e'
      · intro ls e' h2
        obtain ⟨_, m, q, _⟩ := hC.many ls e' h2
        rw [hrm] at q; cases q
    | some m =>
      rw [hrm] at hbuf
      obtain ⟨hm1, l, q1, q2, q3⟩ := hbuf
      obtain ⟨a, e, hb⟩ := Mem.ptr_of_cont ho q1
      cases hly : x.layers with
      | none =>
        have := (hC.unset hly).2
        rw [hrm] at this; cases this
      | some ls =>
        have hlen : 1 ≤ ls.length := by
          cases hls : ls with
          | nil => exact absurd (by rw [hly, hls]) hC.ne
          | cons _ _ => simp
        have hLm : ls.length ≤ m := by
          by_cases h2 : 2 ≤ ls.length
          · obtain ⟨_, m', r1, r2, _⟩ := hC.many ls hly h2
            rw [hrm] at r1; cases r1; exact r2
          · omega
        have k4 := c4.keep h.mem ho
        have hd : w4.rows (some a) = .ok l := by
          rw [← e]; exact rows_of_cont k4.1 (by rw [k4.2]; exact q1)
        have hnl : o.nLyrs = (ls.length : Int) := by rw [hM.lyrs, hly]
        obtain ⟨w5, e5, c5⟩ := c4.place (f := .data2) (.rows ((l.take x.shape.count).map (List.take ls.length))) g5
          (fun h' => absurd h' not_pos_data2)
        refine ⟨w5, _, ?_, c5, ?_⟩
        · rw [e]
          simp only
          rw [hd, Out.ok_bind, hnl, copyRows_take _ _ l hn1 hlen (by omega) (fun r hr => by rw [q3 r hr]; exact hLm), Out.ok_bind, e5]
        · refine ⟨hC.ok, ?_, ?_, ?_, ?_, ?_, ?_, ?_, ?_, ?_, ?_⟩
          · rw [upd_ne _ _ (by simp)]; exact g1
          · rw [upd_ne _ _ (by simp)]; exact g2
          · rw [upd_ne _ _ (by simp)]; exact g3
          · rw [upd_ne _ _ (by simp), g4]; exact hC.data
          · rw [upd_same]
            refine ⟨hlen, _, rfl, ?_, ?_⟩
            · rw [List.length_map, List.length_take, q2]; simp
            · intro r hr
              obtain ⟨r0, hr0, rfl⟩ := List.mem_map.1 hr
              have := q3 r0 (List.mem_of_mem_take hr0)
              simp; omega
          · intro e'; cases e'
          · intro e'
            exact hC.ne (by rw [hly]; exact e')
          · intro ls' e'
            exact hC.wid ls' (by rw [hly]; exact e')
          · intro v e'
            rw [upd_ne _ _ (by simp), g4]
            exact hC.one v (by rw [hly]; exact e')
          · intro ls' e' h2
            cases e'
            obtain ⟨l', m', r1, r2, r3, r4⟩ := hC.many ls hly h2
            rw [q1] at r3; cases r3
            exact ⟨_, ls.length, rfl, le_refl _, upd_same _ _ _, by rw [ofRows_take]; exact r4⟩
  obtain ⟨w5, c', e5, c5, hconts⟩ := hfin
  refine ⟨w5, ?_, ?_⟩
  · refine Eq.trans ?_ e5
    have e4' := e4
    cases ed : o.ptr .data with
    | none =>
      rw [ed] at e4'
      simp only at e4' ⊢
      cases e4'
      cases ed2 : o.ptr .data2 <;> rfl
    | some a =>
      rw [ed] at e4'
      simp only at e4' ⊢
      rw [e4', Out.ok_bind]
      cases ed2 : o.ptr .data2 <;> rfl
  · obtain ⟨p, hp⟩ := c5.obj
    refine h.push c5.mem hp c5.others c5.cnt c5.same ?_ (by rw [show cont w5 w.cnt = c' from funext c5.conts]; exact hconts) ?_
    · exact ⟨hM.usable, rfl, hM.lyrs, hM.srow, hM.erow, hM.scol, hM.ecol, rfl⟩
    · intro j hj; cases hj

theorem shallow_sim {w R} (h : Rel w R) {s : Nat} {x : Ref} (hx : R.objs s = some x) (hl : x.layers = none) :
    ∃ w', copy w s false = .ok w' ∧ Rel w' (R.push { x with lender := some (x.lender.getD s) }) := by
  obtain ⟨o, ho⟩ := h.obj hx
  have hM := h.mems s o x ho hx
  have hC := h.conts s x hx
  obtain ⟨hd, hr⟩ := hC.unset hl
  have hd1 := h.mem.ptr_none ho hd
  have hb := hC.data2
  rw [hr] at hb
  have hd2 := h.mem.ptr_none ho hb
  unfold copy
  rw [get_ok ho, Out.ok_bind]
  simp only [Bool.false_eq_true, if_false]
  refine ⟨_, rfl, ?_⟩
  have hpos : ∀ f a, o.ptr f = some a → f.IsPos := by
    intro f a e
    cases f with
    | lpos => trivial
    | lidx => trivial
    | glob => trivial
    | data => rw [hd1] at e; cases e
    | data2 => rw [hd2] at e; cases e
  have hmem : Mem (create w { o with alloc := false }) := by
    refine h.mem.create _ ?_
    intro f a e
    exact ⟨hpos f a e, rfl, h.mem.held s o f a ho e⟩
  have ho' : (create w { o with alloc := false }).objs w.cnt = some { o with alloc := false } := by rw [create_objs, if_pos rfl]
  have hcont : cont (create w { o with alloc := false }) w.cnt = cont w s := by
    funext f
    unfold cont
    rw [ho', ho]; rfl
  refine h.push hmem ho' (fun k hk => by rw [create_objs, if_neg hk]) rfl (fun k g _ hs => create_cont h.mem _ hs g) ?_ ?_ ?_
  · exact ⟨hM.usable, hM.n, hM.lyrs, hM.srow, hM.erow, hM.scol, hM.ecol, rfl⟩
  · rw [hcont]
    exact ⟨hC.ok, hC.glob, hC.lpos, hC.lidx, hC.data, hC.data2, hC.unset, hC.ne, hC.wid, hC.one, hC.many⟩
  · intro j hj
    have hj' : x.lender.getD s = j := by simpa using hj
    cases hle : x.lender with
    | none =>
      rw [hle] at hj'
      simp only [Option.getD_none] at hj'
      subst hj'
      exact ⟨o, ho, by rw [hM.alloc, hle]; rfl, fun _ _ => rfl⟩
    | some k =>
      rw [hle] at hj'
      simp only [Option.getD_some] at hj'
      subst hj'
      exact h.lent s o x ho hx k hle

/-! #### destruction -/

theorem release_sim {w : World} {i : Nat} {o : Obj} (h : Mem w) (ho : w.objs i = some o) (f : Field)
    (hsz : ∀ b, cont w i f = some b → b.two = true → b.size ≠ 0) (hal : f.IsPos → o.alloc = true)
    (hno : f.IsPos → ∀ k o' a, k ≠ i → w.objs k = some o' → o'.ptr f = some a → o.ptr f ≠ some a) :
    ∃ w', w.release i f = .ok w' ∧ Released w w' i o f := h.release ho hal hsz hno

theorem destroy_sim {w R} (h : Rel w R) {i : Nat} {x : Ref} (hx : R.objs i = some x)
    (hb : ∀ j < R.cnt, ∀ y ∈ R.objs j, y.lender ≠ some i) :
    ∃ w', destroy w i = .ok w' ∧ Rel w' (R.put i none) := by
  obtain ⟨o, ho⟩ := h.obj hx
  have hM := h.mems i o x ho hx
  have hC := h.conts i x hx
  have hn1 := Shape.Ok.count_pos hC.ok
  -- nobody else uses the blocks
  have hno : o.alloc = true → ∀ f, f.IsPos → ∀ k o' a, k ≠ i → w.objs k = some o' → o'.ptr f = some a → o.ptr f ≠ some a := by
    intro hal f hf k o' a hk ho' ha e
    obtain ⟨y, hy⟩ := h.ref ho'
    have hMy := h.mems k o' y ho' hy
    have hown : Owns w i f a := ⟨o, ho, e, fun _ => hal⟩
    cases hl : y.lender with
    | none =>
      have : Owns w k f a := ⟨o', ho', ha, fun _ => by rw [hMy.alloc, hl]; rfl⟩
      exact hk (h.mem.uniq _ _ _ _ _ this hown).1
    | some j =>
      obtain ⟨oj, q1, q2, q3⟩ := h.lent k o' y ho' hy j hl
      have : Owns w j f a := ⟨oj, q1, by rw [q3 f hf]; exact ha, fun _ => q2⟩
      have hji := (h.mem.uniq _ _ _ _ _ this hown).1
      rw [hji] at hl
      exact hb k (by rw [← h.cnt]; exact h.mem.cnt k o' ho') y (by rw [hy]; rfl) hl
  -- the state during the destructor
  let St (w' : World) (done : Field → Bool) : Prop :=
    Mem w' ∧ (∃ p, w'.objs i = some { o with ptr := p } ∧ (∀ f, done f = true → p f = none) ∧ (∀ f, done f = false → p f = o.ptr f)) ∧
    (∀ k, k ≠ i → w'.objs k = w.objs k) ∧ w'.cnt = w.cnt ∧
    (∀ k g, k ≠ i → (w.objs k).isSome = true → cont w' k g = cont w k g) ∧ (∀ f, done f = false → cont w' i f = cont w i f)
  have hst0 : St w (fun _ => false) :=
    ⟨h.mem, ⟨o.ptr, ho, fun _ e => (by cases e), fun _ _ => rfl⟩, fun _ _ => rfl, rfl, fun _ _ _ _ => rfl, fun _ _ => rfl⟩
  have hsize : ∀ f b, cont w i f = some b → b.two = true → b.size ≠ 0 := by
    intro f b hcb ht
    cases f with
    | lpos => rw [hC.lpos] at hcb; cases hcb; simp [Block.size]; exact hC.ok.1
    | lidx => rw [hC.lidx] at hcb; cases hcb; cases ht
    | glob => rw [hC.glob] at hcb; cases hcb; cases ht
    | data =>
      obtain ⟨l, rfl, _⟩ := hC.data b hcb
      cases ht
    | data2 =>
      have hbuf := hC.data2
      cases hrm : x.room with
      | none => rw [hrm] at hbuf; rw [show cont w i .data2 = none from hbuf] at hcb; cases hcb
      | some m =>
        rw [hrm] at hbuf
        obtain ⟨_, l, q1, q2, _⟩ := hbuf
        rw [q1] at hcb; cases hcb
        simp only [Block.size]; omega
  have hstep : ∀ w' done f, St w' done → done f = false → (f.IsPos → o.alloc = true) →
      ∃ w'', w'.release i f = .ok w'' ∧ St w'' (fun g => if g = f then true else done g) := by
    rintro w' done f ⟨s1, ⟨p, s2, s3, s4⟩, s5, s6, s7, s8⟩ hdf hal
    obtain ⟨w'', e, hR⟩ := release_sim s1 s2 f (by rw [s8 f hdf]; exact hsize f) hal (by
      intro hf k o' a hk ho' ha
      show p f ≠ some a
      rw [s4 f hdf]
      exact hno (hal hf) f hf k o' a hk (by rw [← s5 k hk]; exact ho') ha)
    refine ⟨w'', e, hR.mem, ⟨_, hR.obj, ?_, ?_⟩, fun k hk => by rw [hR.others k hk, s5 k hk], by rw [hR.cnt, s6], ?_, ?_⟩
    · intro g hg
      show upd p f none g = none
      by_cases hgf : g = f
      · rw [hgf, upd_same]
      · rw [upd_ne _ _ hgf]
        exact s3 g (by simpa [hgf] using hg)
    · intro g hg
      show upd p f none g = o.ptr g
      have hgf : g ≠ f := by intro e'; simp [e'] at hg
      rw [upd_ne _ _ hgf]
      exact s4 g (by simpa [hgf] using hg)
    · intro k g hk hs
      rw [hR.same k g (by simp [hk]) (by rw [s5 k hk]; exact hs), s7 k g hk hs]
    · intro g hg
      have hgf : g ≠ f := by intro e'; simp [e'] at hg
      rw [hR.same i g (by simp [hgf]) (by rw [s2]; rfl)]
      exact s8 g (by simpa [hgf] using hg)
  have hfin : ∀ w' done, St w' done → done .data = true → done .data2 = true →
      (o.alloc = true → done .lpos = true ∧ done .lidx = true ∧ done .glob = true) →
      Rel { w' with objs := upd w'.objs i none } (R.put i none) := by
    rintro w' done ⟨s1, ⟨p, s2, s3, s4⟩, s5, s6, s7, s8⟩ d1 d2 d3
    obtain ⟨hm, hc⟩ := s1.remove s2 (by
      intro f a e
      have hnd : done f = false := by
        cases hdf : done f with
        | false => rfl
        | true => rw [show ({ o with ptr := p } : Obj).ptr f = p f from rfl, s3 f hdf] at e; cases e
      have hal : ¬ o.alloc = true → o.alloc = false := by cases o.alloc <;> simp
      cases f with
      | data => rw [d1] at hnd; cases hnd
      | data2 => rw [d2] at hnd; cases hnd
      | lpos => exact ⟨trivial, hal (fun h' => by rw [(d3 h').1] at hnd; cases hnd)⟩
      | lidx => exact ⟨trivial, hal (fun h' => by rw [(d3 h').2.1] at hnd; cases hnd)⟩
      | glob => exact ⟨trivial, hal (fun h' => by rw [(d3 h').2.2] at hnd; cases hnd)⟩)
    have hi : ({ w' with objs := upd w'.objs i none } : World).objs i = none := upd_same _ _ _
    have hk' : ∀ k, k ≠ i → ({ w' with objs := upd w'.objs i none } : World).objs k = w.objs k := by
      intro k hk; rw [← s5 k hk]; exact upd_ne _ _ hk
    have hRi : (R.put i none).objs i = none := by simp [Refs.put]
    have hRk : ∀ k, k ≠ i → (R.put i none).objs k = R.objs k := fun k hk => by simp [Refs.put, hk]
    refine ⟨hm, by show w'.cnt = R.cnt; rw [s6, h.cnt], ?_, ?_, ?_, ?_⟩
    · intro k
      by_cases hk : k = i
      · subst hk; rw [hi, hRi]; simp
      · rw [hk' k hk, hRk k hk]; exact h.dom k
    · intro k ok xk h3 h4
      have hk : k ≠ i := by intro e; rw [e, hRi] at h4; cases h4
      rw [hk' k hk] at h3; rw [hRk k hk] at h4
      exact h.mems k ok xk h3 h4
    · intro k xk h4
      have hk : k ≠ i := by intro e; rw [e, hRi] at h4; cases h4
      rw [hRk k hk] at h4
      have : cont { w' with objs := upd w'.objs i none } k = cont w k := by
        funext g
        obtain ⟨ok, hok⟩ := h.obj h4
        rw [hc k g hk, s7 k g hk (by rw [hok]; rfl)]
      rw [this]; exact h.conts k xk h4
    · intro k ok xk h3 h4 j hj
      have hk : k ≠ i := by intro e; rw [e, hRi] at h4; cases h4
      rw [hk' k hk] at h3; rw [hRk k hk] at h4
      obtain ⟨oj, q1, q2, q3⟩ := h.lent k ok xk h3 h4 j hj
      have hji : j ≠ i := by
        intro e; rw [e] at hj
        exact hb k (by rw [← h.cnt]; exact h.mem.cnt k ok h3) xk (by rw [h4]; rfl) hj
      exact ⟨oj, by rw [hk' j hji]; exact q1, q2, q3⟩
  unfold destroy
  rw [get_ok ho, Out.ok_bind]
  cases hal : o.alloc with
  | true =>
    simp only [if_true]
    obtain ⟨w1, e1, t1⟩ := hstep _ _ .lpos hst0 rfl (fun _ => hal)
    obtain ⟨w2, e2, t2⟩ := hstep _ _ .lidx t1 rfl (fun _ => hal)
    obtain ⟨w3, e3, t3⟩ := hstep _ _ .glob t2 rfl (fun _ => hal)
    obtain ⟨w4, e4, t4⟩ := hstep _ _ .data t3 rfl (fun h' => absurd h' not_pos_data)
    obtain ⟨w5, e5, t5⟩ := hstep _ _ .data2 t4 rfl (fun h' => absurd h' not_pos_data2)
    rw [e1, Out.ok_bind, e2, Out.ok_bind, e3, Out.ok_bind, e4, Out.ok_bind, e5, Out.ok_bind]
    exact ⟨_, rfl, hfin _ _ t5 (by simp) (by simp) (fun _ => by simp)⟩
  | false =>
    simp only [Bool.false_eq_true, if_false, Out.ok_bind]
    obtain ⟨w4, e4, t4⟩ := hstep _ _ .data hst0 rfl (fun h' => absurd h' not_pos_data)
    obtain ⟨w5, e5, t5⟩ := hstep _ _ .data2 t4 rfl (fun h' => absurd h' not_pos_data2)
    rw [e4, Out.ok_bind, e5, Out.ok_bind]
    exact ⟨_, rfl, hfin _ _ t5 (by simp) (by simp) (fun h' => by rw [hal] at h'; cases h')⟩

/-! #### output -/

theorem output_sim {w R} (h : Rel w R) {i : Nat} {x : Ref} (hx : R.objs i = some x) (nodata : ℚ) :
    output w i nodata = .ok ((x.layers.getD []).map (x.shape.full nodata)) := by
  obtain ⟨o, ho⟩ := h.obj hx
  have hM := h.mems i o x ho hx
  have hC := h.conts i x hx
  have hfull : (o.erow - o.srow + 1) * (o.ecol - o.scol + 1) = x.shape.size := by
    rw [hM.erow, hM.srow, hM.ecol, hM.scol]; rfl
  unfold output
  rw [get_ok ho, Out.ok_bind]
  cases hly : x.layers with
  | none =>
    obtain ⟨q1, q2⟩ := hC.unset hly
    have hb := hC.data2
    rw [q2] at hb
    rw [if_pos ⟨h.mem.ptr_none ho q1, h.mem.ptr_none ho hb⟩]; rfl
  | some ls =>
    have hnl : o.nLyrs = (ls.length : Int) := by rw [hM.lyrs, hly]
    have hlen : 1 ≤ ls.length := by
      cases hls : ls with
      | nil => exact absurd (by rw [hly, hls]) hC.ne
      | cons _ _ => simp
    have hw := hC.wid ls hly
    -- some buffer exists
    have hsome : ¬ (o.ptr .data = none ∧ o.ptr .data2 = none) := by
      rintro ⟨n1, n2⟩
      by_cases h2 : 2 ≤ ls.length
      · obtain ⟨l, m, _, _, r3, _⟩ := hC.many ls hly h2
        rw [cont_none ho n2] at r3; cases r3
      · obtain ⟨v, rfl⟩ := List.length_eq_one_iff.1 (show ls.length = 1 by omega)
        have := hC.one v hly
        rw [cont_none ho n1] at this; cases this
    rw [if_neg hsome]
    -- one layer of the output
    have hlayer : ∀ j (hj : j < ls.length), layer w o nodata j = .ok (x.shape.full nodata ls[j]) := by
      intro j hj
      have hv : (ls[j]).length = x.shape.count := hw _ (List.getElem_mem _)
      unfold layer
      simp only
      have hitems : (List.range o.nCells.toNat).mapM (fun (vi : Nat) => do
          let x ← w.ints (o.ptr .lidx)
          let jj ← readAt (some x) vi
          if o.nLyrs > 1 ∧ o.ptr .data2 ≠ none then do
            let d ← w.rows (o.ptr .data2)
            let r ← readAt (some d) vi
            let v ← readAt (some r) j
            .ok [(jj, v)]
          else if o.nLyrs = 1 ∧ o.ptr .data ≠ none then do
            let d ← w.dbls (o.ptr .data)
            let v ← readAt (some d) vi
            .ok [(jj, v)]
          else .ok []) = .ok ((List.range x.shape.count).map (fun k => [(x.shape.index (x.shape.cells.getD k (0, 0, 0)), (ls[j]).getD k 0)])) := by
        rw [hM.n, Int.toNat_natCast]
        refine Raster.mapM_ok _ _ _ ?_
        intro k hk
        have hk' := List.mem_range.1 hk
        rw [ints_of_cont ho hC.lidx, Out.ok_bind, lidx_read x.shape k hk', Out.ok_bind]
        by_cases h2 : 2 ≤ ls.length
        · obtain ⟨l, m, r1, r2, r3, r4⟩ := hC.many ls hly h2
          have hb := hC.data2
          rw [r1] at hb
          obtain ⟨_, l', b1, b2, b3⟩ := hb
          rw [r3] at b1; cases b1
          have hp2 : o.ptr .data2 ≠ none := fun e => by rw [cont_none ho e] at r3; cases r3
          rw [if_pos ⟨by omega, hp2⟩, rows_of_cont ho r3, Out.ok_bind, readAt_some_nat l k (by omega), Out.ok_bind]
          have hrl := b3 _ (List.getElem_mem (l := l) (n := k) (by omega))
          rw [readAt_some_nat _ j (by omega), Out.ok_bind]
          have : ls[j] = (ofRows x.shape.count ls.length l)[j]'(by rw [← r4]; exact hj) := by
            congr 1
          rw [this]
          simp [ofRows, List.getD, hk', List.getElem?_eq_getElem (show k < l.length by omega),
            List.getElem?_eq_getElem (show j < (l[k]'(by omega)).length by omega), List.getElem?_take_of_lt hk']
        · have h1 : ls.length = 1 := by omega
          have hj0 : j = 0 := by omega
          subst hj0
          have hone : ls = [ls[0]] := by
            obtain ⟨v, rfl⟩ := List.length_eq_one_iff.1 h1
            rfl
          have hd := hC.one ls[0] (by rw [hly]; exact congrArg some hone)
          have hp1 : o.ptr .data ≠ none := fun e => by rw [cont_none ho e] at hd; cases hd
          rw [if_neg (by rintro ⟨q, _⟩; omega), if_pos ⟨by omega, hp1⟩, dbls_of_cont ho hd, Out.ok_bind,
            readAt_some_nat _ k (by omega), Out.ok_bind]
          simp [List.getD, List.getElem?_eq_getElem (show k < (ls[0]).length by omega)]
      rw [hitems, Out.ok_bind, hfull]
      have hflat : ((List.range x.shape.count).map (fun k => [(x.shape.index (x.shape.cells.getD k (0, 0, 0)), (ls[j]).getD k 0)])).flatten =
          (x.shape.cells.map x.shape.index).zip ls[j] := by
        rw [← List.flatMap_def, ← List.map_eq_flatMap]
        refine List.ext_getElem (by simp [hv, Shape.count]) ?_
        intro k h1 h2
        have hk : k < x.shape.count := by simpa using h1
        have hk' : k < x.shape.cells.length := hk
        simp [List.getD, List.getElem?_eq_getElem hk', List.getElem?_eq_getElem (show k < (ls[j]).length by omega)]
      rw [hflat, scatter_full hC.ok nodata ls[j] hv, Out.ok_bind]
      rfl
    rw [hnl, Int.toNat_natCast]
    have : (List.range ls.length).mapM (layer w o nodata) = .ok ((List.range ls.length).map (fun j => x.shape.full nodata (ls.getD j []))) := by
      refine Raster.mapM_ok _ _ _ ?_
      intro j hj
      have hj' := List.mem_range.1 hj
      rw [hlayer j hj']
      simp [List.getD, List.getElem?_eq_getElem hj']
    rw [this]
    congr 1
    simp only [Option.getD_some]
    refine List.ext_getElem (by simp) ?_
    intro j h1 h2
    have hj : j < ls.length := by simpa using h1
    simp [List.getD, List.getElem?_eq_getElem hj]

end SubObj
end CCGL
