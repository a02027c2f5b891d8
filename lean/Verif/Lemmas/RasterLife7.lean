import Verif.Lemmas.RasterLife6
/-!
# Lemmas on the ownership of arrays: reading from GridFS
-/
namespace CCGL
namespace Life
open Spec

/-- The mask after a change that keeps it usable. -/
theorem maskOk_kept {w w' : World} {i m : Id} {om om' : Obj} (h : MaskOk w i (some m)) (hm : w.objs m = some om) (s : St w.objs m w' om')
    (k : Kept om om') (kc : om'.calcPos = om.calcPos) : MaskOk w' i (some m) := by
  intro x hx
  cases hx
  obtain ⟨b1, o, b2, b3, b4, b5⟩ := h m rfl
  rw [hm] at b2; cases b2
  refine ⟨b1, om', s.at_, by rw [k.valid]; exact b3, ?_, fun q => ⟨by rw [k.subp]; exact (b5 q).1, by rw [k.subp]; exact (b5 q).2⟩⟩
  rcases b4 with h1 | ⟨h1, h2⟩
  · exact Or.inl (by rw [k.mask]; exact h1)
  · exact Or.inr ⟨by rw [kc]; exact h1, by rw [k.keep _ rfl h2]; exact h2⟩

/-- What `gfsMask` leaves. -/
structure GMask (w : World) (i : Id) (o : Obj) (w' : World) (r : Bool) (o' : Obj) : Prop where
  inv : WInv w'
  at_ : w'.objs i = some o'
  fr : Fr w i o.mask w'
  cells : 1 ≤ o'.cells
  null : ∀ f, f.isPos = false → f.isSub = false → o'.ptr f = none
  direct : r = true → (o'.ptr .pos).isSome = true ∧ (o'.ptr .idx).isSome = true
  later : r = false → o'.ptr .pos = none ∧ o'.mask = o.mask ∧ MaskOk w' i o.mask

theorem gfsMask_ok {w : World} (hw : WInv w) {i : Id} {o : Obj} (ho : w.objs i = some o) (he : Spec.Empty o) (hc : 1 ≤ o.cells)
    (hm : MaskOk w i o.mask) {g : Stored} {se : Sees} (hs : Sound se) :
    ∃ w' r o', gfsMask w i g se = .ok (w', r) ∧ GMask w i o w' r o' ∧
      (o.mask ≠ none → o.calcPos = true → o.ext = true → g.fits = true → r = true) := by
  have hsame : GMask w i o w false o :=
    ⟨hw, ho, fun _ _ => Or.inl rfl, hc, fun f _ _ => he.1 f, by simp, fun _ => ⟨he.1 _, rfl, hm⟩⟩
  unfold gfsMask
  rw [get_of ho, Out.ok_bind]
  cases hmask : o.mask with
  | none => exact ⟨w, false, o, rfl, hsame, by simp⟩
  | some m =>
    rw [hmask] at hm
    dsimp only
    by_cases hce : (o.calcPos && o.ext) = true
    swap
    · rw [if_neg hce]
      exact ⟨w, false, o, rfl, hsame, fun _ h1 h2 _ => absurd (by rw [h1, h2]; rfl) hce⟩
    rw [if_pos hce]
    obtain ⟨om, hmm⟩ := maskIs hm
    obtain ⟨w1, om1, e1, s1, i1, k1, kc1⟩ := getStat_st (St.mk' hw.h hmm.at_) (hw.o m om hmm.at_) 0
    have hw1 : WInv w1 := s1.win (fun j oj hj _ => hw.o j oj hj) i1
    have ho1 : w1.objs i = some o := by rw [s1.other (Ne.symm hmm.ne)]; exact ho
    have fr1 : Fr w i (some m) w1 := Fr.of_mask hmm.at_ s1 k1
    rw [e1, Out.ok_bind]
    cases hf : g.fits with
    | false =>
      refine ⟨w1, false, o, rfl, ⟨hw1, ho1, by rw [hmask]; exact fr1, hc, fun f _ _ => he.1 f, by simp, fun _ => ⟨he.1 _, rfl, ?_⟩⟩, by simp⟩
      rw [hmask]
      exact maskOk_kept hm hmm.at_ s1 k1 kc1
    | true =>
      rw [Bool.not_true, if_neg (by simp)]
      obtain ⟨w2, e2, s2⟩ := store_st (St.mk' hw1.h ho1) (fun o => { o with store := false }) (fun _ => rfl) rfl (he.1 _) (he.1 _)
      have i2 : OInv { o with store := false } := bare_inv (fun f _ => he.1 f) he.2.2
      have hw2 : WInv w2 := s2.win (fun j oj hj _ => hw1.o j oj hj) i2
      have hm2 : w2.objs m = some om1 := by rw [s2.other hmm.ne]; exact s1.at_
      obtain ⟨w3, w4, om3, e4, s3, s4, r3⟩ := share_any hw2 hmm.ne s2.at_ hm2 (by rw [k1.valid]; exact hmm.valid) hmask (he.1 _) (he.1 _) rfl hs.2.1
      have hw3 : WInv w3 := s3.win (fun j oj hj _ => hw2.o j oj hj) r3.inv
      have hm4 : w4.objs m = some om3 := by rw [s4.other hmm.ne]; exact s3.at_
      have i4 := shared_inv i2 r3.inv r3.pos
      have hsubs4 : (Obj.shared { o with store := false } om3).subs = [] := he.2.2
      obtain ⟨w5, p5, e5, s5, q5, t5, _⟩ := copySubs_st hmm.ne s3.at_ om3.subs s4 i4.subs
        (fun e hem => ⟨(r3.inv.subs.full e hem).1, (r3.inv.subs.full e hem).2.1, (r3.inv.subs.full e hem).2.2.2.1⟩)
        (by rw [hsubs4]; simpa using r3.inv.subs.nodup)
      have q5 : ∀ f, f.isSub = false → p5 f = (Obj.shared { o with store := false } om3).ptr f := q5
      have i5 : OInv { Obj.shared { o with store := false } om3 with ptr := p5, subs := (Obj.shared { o with store := false } om3).subs ++ om3.subs } := by
        refine ⟨?_, ?_, ?_, t5, fun _ => r3.inv.cells (Or.inl r3.pos)⟩
        · show (p5 .pos).isSome = (p5 .idx).isSome
          rw [q5 _ rfl, q5 _ rfl]; exact i4.posidx
        · show p5 .ras2 ≠ none → _
          rw [q5 _ rfl]; exact i4.ras2
        · intro n hn
          have hn : p5 (.stat n) ≠ none := hn
          rw [q5 _ rfl, shared_ptr _ _ rfl] at hn
          exact absurd (he.1 _) hn
      refine ⟨w5, true, _, ?_, ⟨s5.win (fun j oj hj _ => hw3.o j oj hj) i5, s5.at_, ?_, r3.inv.cells (Or.inl r3.pos), ?_, fun _ => ⟨?_, ?_⟩, by simp⟩,
        fun _ _ _ _ => rfl⟩
      · rw [e2, Out.ok_bind, e4, Out.ok_bind, get_of hm4, Out.ok_bind, e5, Out.ok_bind]
        rfl
      · rw [hmask]
        exact ((fr1.trans (Fr.of_st s2 _)).trans (Fr.of_mask hm2 s3 r3.kept)).trans (Fr.of_st s5 _)
      · intro f hf1 hf2
        show p5 f = none
        rw [q5 f hf2, shared_ptr _ _ hf1]
        exact he.1 f
      · show (p5 .pos).isSome = true
        rw [q5 _ rfl, shared_pos]; exact r3.pos
      · show (p5 .idx).isSome = true
        rw [q5 _ rfl, shared_idx]; exact r3.idx

/-- `gfsData`: the raster gets its cells. -/
theorem gfsData_ok {w : World} (hw : WInv w) {i : Id} {o : Obj} (ho : w.objs i = some o) (hc : 1 ≤ o.cells)
    (hn : ∀ f, f.isPos = false → f.isSub = false → o.ptr f = none) {g : Stored} {direct : Bool} (hd : direct = true → (o.ptr .idx).isSome = true) :
    ∃ w' o', gfsData w i g direct = .ok w' ∧ St w.objs i w' o' ∧ OInv o' ∧ o'.valid = true ∧ o'.mask = o.mask ∧ o'.ptr .pos = o.ptr .pos := by
  have hi := hw.o i o ho
  have s := St.mk' hw.h ho
  have hflag : ∀ x, OInv { o with is2d := x } := by
    intro x
    exact ⟨hi.posidx, fun h => absurd (hn .ras2 rfl rfl) h, fun n h => absurd (hn (.stat n) rfl rfl) h, hi.subs, hi.cells⟩
  unfold gfsData
  rw [get_of ho, Out.ok_bind]
  cases g.two with
  | true =>
    rw [if_pos rfl]
    obtain ⟨w1, p, e1, s1, hp⟩ := alloc2_st s .ras2 hc rfl (by intro h; cases h)
    obtain ⟨w2, e2, s2⟩ := flag_st s1 (fun o => { o with is2d := true }) (fun _ => rfl) rfl rfl
    have ht : (bif g.all && direct then touch w2 i .idx else Out.ok ()) = Out.ok () := by
      cases hb : (g.all && direct) with
      | false => rfl
      | true =>
        rw [cond_true]
        refine touch_ok s2.inv s2.at_ ?_
        show (upd o.ptr .ras2 p .idx).isSome = true
        rw [upd_ne _ _ (by simp)]
        exact hd (by simp at hb; exact hb.2)
    refine ⟨w2, _, by rw [e1, Out.ok_bind, e2, Out.ok_bind, ht, Out.ok_bind]; rfl, s2, data_inv (hflag true) (Or.inr ⟨rfl, rfl, hc⟩) p, ?_, rfl, ?_⟩
    · show (if true = true then (upd o.ptr .ras2 p .ras2).isSome else _) = true
      rw [if_pos rfl, upd_self]; exact hp
    · show upd o.ptr .ras2 p .pos = _
      rw [upd_ne _ _ (by simp)]
  | false =>
    rw [if_neg (by simp)]
    obtain ⟨w1, e1, s1⟩ := flag_st s (fun o => { o with is2d := false }) (fun _ => rfl) rfl rfl
    rw [e1, Out.ok_bind]
    have hval : ∀ p : Option Addr, p.isSome = true → (Obj.setPtr { o with is2d := false } .ras p).valid = true := by
      intro p hp
      show (if false = true then _ else (upd o.ptr .ras p .ras).isSome) = true
      rw [if_neg (by simp), upd_self]; exact hp
    cases hb : (g.all && direct) with
    | true =>
      rw [if_pos rfl]
      obtain ⟨w2, p, e2, s2, hp⟩ := alloc1_st s1 .ras hc rfl (by intro h; cases h)
      refine ⟨w2, _, ?_, s2, data_inv (hflag false) (Or.inl rfl) p, hval p hp, rfl, ?_⟩
      · rw [e2, Out.ok_bind, touch_ok s2.inv s2.at_ (by
          show (upd o.ptr .ras p .idx).isSome = true
          rw [upd_ne _ _ (by simp)]
          exact hd (by simp at hb; exact hb.2)), Out.ok_bind]
        rfl
      · show upd o.ptr .ras p .pos = _
        rw [upd_ne _ _ (by simp)]
    | false =>
      rw [if_neg (by simp)]
      obtain ⟨w2, p, e2, s2⟩ := put_st s1 .ras .one (hn _ rfl rfl) rfl (by intro h; cases h)
      refine ⟨w2, _, e2, s2, data_inv (hflag false) (Or.inl rfl) (some p), hval (some p) rfl, rfl, ?_⟩
      show upd o.ptr .ras (some p) .pos = _
      rw [upd_ne _ _ (by simp)]

theorem readGfs_ok {w : World} (hw : WInv w) {i : Id} {o : Obj} (ho : w.objs i = some o) (he : Spec.Empty o) (hu : URef w.objs i) {mask : Option Id}
    (hm : MaskOk w i mask) (c e : Bool) {g : Stored} {se : Sees} (hs : Sound se)
    (hg : g.good = true → ¬ (g.all = true ∧ g.compact = true) ∧ (g.all = true ∨ (mask ≠ none ∧ (c = true ∨ g.compact = true) ∧ e = true ∧ g.fits = true)))
    (d : Nat) : ∃ w' r o', readGfs (d + 2) w i mask c e g se = .ok (w', r) ∧ WInv w' ∧ w'.objs i = some o' ∧ Fr w i mask w' := by
  obtain ⟨w1, e1, s1⟩ := setArgs_st hw ho he hm c e
  have hothers : ∀ j oj, w.objs j = some oj → j ≠ i → OInv oj := fun j oj hj _ => hw.o j oj hj
  unfold readGfs
  rw [e1, Out.ok_bind]
  cases hgood : g.good with
  | false =>
    exact ⟨w1, false, _, rfl, s1.win hothers (bare_inv (fun f _ => he.1 f) he.2.2), s1.at_, Fr.of_st s1 _⟩
  | true =>
    obtain ⟨g1, g2⟩ := hg hgood
    rw [Bool.not_true, if_neg (by simp)]
    obtain ⟨w2, e2, s2⟩ := flag_st s1 (fun o => { o with cells := se.full }) (fun _ => rfl) rfl rfl
    rw [e2, Out.ok_bind, if_neg (by simpa using g1)]
    obtain ⟨w3, e3, s3⟩ := flag_st s2 (fun o => { o with calcPos := o.calcPos || g.compact }) (fun _ => rfl) rfl rfl
    rw [e3, Out.ok_bind]
    have hw3 : WInv w3 := s3.win hothers (bare_inv (fun f _ => he.1 f) he.2.2)
    obtain ⟨w4, r, o4, e4, g4, h4⟩ := gfsMask_ok hw3 s3.at_ ⟨fun f => he.1 f, he.2.1, he.2.2⟩ hs.2.2.2.1 (maskOk_st hm s3) (g := g) hs
    have fr4 : Fr w i mask w4 := (Fr.of_st s3 mask).trans g4.fr
    rw [e4, Out.ok_bind]
    dsimp only
    rw [get_of g4.at_, Out.ok_bind]
    have hr : g.all = false → r = true := by
      intro ha
      rcases g2 with h | ⟨h1, h2, h3, h5⟩
      · rw [ha] at h; cases h
      · refine h4 h1 ?_ ?_ h5
        · show (c || g.compact) = true
          rcases h2 with h | h <;> simp [h]
        · show (e && mask.isSome) = true
          rw [h3, Bool.true_and]
          exact Option.isSome_iff_ne_none.2 h1
    rw [if_neg]
    swap
    · intro h
      simp only [Bool.and_eq_true, Bool.not_eq_true', Bool.or_eq_true, Option.isNone_iff_eq_none] at h
      obtain ⟨d1, d2⟩ := g4.direct (hr h.1)
      rcases h.2 with h' | h'
      · rw [h'] at d1; cases d1
      · rw [h'] at d2; cases d2
    obtain ⟨w5, o5, e5, s5, i5, v5, m5, p5⟩ := gfsData_ok g4.inv g4.at_ g4.cells g4.null (g := g) (direct := r) (fun h => (g4.direct h).2)
    have hw5 : WInv w5 := s5.win (fun j oj hj _ => g4.inv.o j oj hj) i5
    have fr5 : Fr w i mask w5 := fr4.trans (Fr.of_st s5 _)
    rw [e5, Out.ok_bind]
    cases r with
    | true =>
      rw [Bool.not_true, Bool.and_false, if_neg (by simp)]
      exact ⟨w5, true, o5, rfl, hw5, s5.at_, fr5⟩
    | false =>
      obtain ⟨l1, l2, l3⟩ := g4.later rfl
      have ha : g.all = true := by
        by_contra h
        rw [Bool.not_eq_true] at h
        have := hr h
        cases this
      rw [ha, Bool.not_false, Bool.and_true, if_pos rfl]
      have hm5 : o5.mask = mask := by rw [m5, l2]
      obtain ⟨w6, r6, o6, e6, d6, _⟩ := maskCalc_ok hw5 s5.at_ v5 hs (fun _ => ⟨by rw [hm5]; exact maskOk_st l3 s5, URef.fr fr5 hu, Or.inr (by rw [p5]; exact l1)⟩) d
      exact ⟨w6, r6, o6, e6, d6.inv, d6.at_, fr5.trans (by rw [← hm5]; exact d6.fr)⟩

end Life
end CCGL
