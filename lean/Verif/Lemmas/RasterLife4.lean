import Verif.Lemmas.RasterLife3
/-!
# Lemmas on the ownership of arrays: the calls
-/
namespace CCGL
namespace Life
open Spec

structure WInv (w : World) : Prop where
  h : HInv w
  o : ∀ i o, w.objs i = some o → OInv o

theorem St.win {b : Objs} {i : Id} {w : World} {o : Obj} (s : St b i w o) (hb : ∀ j oj, b j = some oj → j ≠ i → OInv oj) (ho : OInv o) : WInv w := by
  refine ⟨s.inv, ?_⟩
  intro j oj hj
  by_cases e : j = i
  · subst e
    rw [s.at_] at hj; cases hj
    exact ho
  · rw [s.other e] at hj
    exact hb j oj hj e

/-- A raster used as mask: its positions may have been calculated, otherwise it is as before. -/
structure Kept (o o' : Obj) : Prop where
  mask : o'.mask = o.mask
  valid : o'.valid = o.valid
  subs : o'.subs = o.subs
  subp : ∀ k f, o'.ptr (.sub k f) = o.ptr (.sub k f)
  keep : ∀ f, f.isPos = true → (o.ptr f).isSome = true → o'.ptr f = o.ptr f

theorem Ready.kept {o o' : Obj} (h : Ready o o') : Kept o o' := ⟨h.mask, h.valid, h.subs, h.subp, h.keep⟩

theorem Kept.refl (o : Obj) : Kept o o := ⟨rfl, rfl, rfl, fun _ _ => rfl, fun _ _ _ => rfl⟩

theorem Kept.trans {o o' o'' : Obj} (h : Kept o o') (h' : Kept o' o'') : Kept o o'' :=
  ⟨h'.mask.trans h.mask, h'.valid.trans h.valid, h'.subs.trans h.subs, fun k f => (h'.subp k f).trans (h.subp k f),
    fun f hf hs => by
      have := h.keep f hf hs
      rw [← this]
      exact h'.keep f hf (by rw [this]; exact hs)⟩

/-- The rasters other than `i` and the mask `mk` are as before. -/
def Fr (w : World) (i : Id) (mk : Option Id) (w' : World) : Prop :=
  ∀ j, j ≠ i → w'.objs j = w.objs j ∨ (mk = some j ∧ ∃ o o', w.objs j = some o ∧ w'.objs j = some o' ∧ Kept o o')

theorem Fr.of_st {w : World} {i : Id} {w' : World} {o : Obj} (s : St w.objs i w' o) (mk : Option Id) : Fr w i mk w' :=
  fun _ hj => Or.inl (s.other hj)

theorem Fr.of_mask {w : World} {i m : Id} {w' : World} {o o' : Obj} (ho : w.objs m = some o) (s : St w.objs m w' o') (k : Kept o o') :
    Fr w i (some m) w' := by
  intro j _
  by_cases e : j = m
  · subst e
    exact Or.inr ⟨rfl, o, o', ho, s.at_, k⟩
  · exact Or.inl (s.other e)

theorem Fr.trans {w : World} {i : Id} {mk : Option Id} {w' w'' : World} (h : Fr w i mk w') (h' : Fr w' i mk w'') : Fr w i mk w'' := by
  intro j hj
  rcases h j hj with a | ⟨a, o, o', a1, a2, a3⟩ <;> rcases h' j hj with c | ⟨c, p, p', c1, c2, c3⟩
  · left; rw [c, a]
  · right; exact ⟨c, p, p', by rw [← a]; exact c1, c2, c3⟩
  · right; exact ⟨a, o, o', a1, by rw [c]; exact a2, a3⟩
  · right
    rw [a2] at c1; cases c1
    exact ⟨a, o, p', a1, c2, a3.trans c3⟩

/-- A raster that is no mask of another one is none afterwards. -/
theorem URef.fr {w : World} {i : Id} {mk : Option Id} {w' : World} (h : Fr w i mk w') (hu : URef w.objs i) : URef w'.objs i := by
  intro j o hj hne
  rcases h j hne with a | ⟨_, p, p', a1, a2, a3⟩
  · rw [a] at hj
    exact hu j o hj hne
  · rw [a2] at hj; cases hj
    rw [a3.mask]
    exact hu j p a1 hne

theorem NoMaskOf.uref {w : World} {i : Id} (h : NoMaskOf w i) : URef w.objs i := fun j o hj _ => h j o hj

/-- The conditions for a mask. -/
structure MaskIs (w : World) (i m : Id) (om : Obj) : Prop where
  ne : m ≠ i
  at_ : w.objs m = some om
  valid : om.valid = true
  plain : om.mask = none ∨ (om.calcPos = true ∧ (om.ptr .pos).isSome = true)
  nodata : NoSubsetData om

theorem maskIs {w : World} {i m : Id} (h : MaskOk w i (some m)) : ∃ om, MaskIs w i m om := by
  obtain ⟨h1, om, h2, h3, h4, h5⟩ := h m rfl
  exact ⟨om, h1, h2, h3, h4, h5⟩

/-- `maskCalc` of a raster without mask. -/
theorem maskCalc_plain {b : Objs} {i : Id} {w : World} {o : Obj} (s : St b i w o) (hi : OInv o) (hv : o.valid = true) (hm : o.mask = none) {se : Sees}
    (h1 : 1 ≤ se.valid) (h2 : 1 ≤ se.full) (d : Nat) :
    ∃ w' o', maskCalc (d + 1) w i se = .ok (w', true) ∧ St b i w' o' ∧ OInv o' ∧ Kept o o' ∧ o'.is2d = o.is2d ∧
      (∀ n, o'.ptr (.stat n) = o.ptr (.stat n)) ∧ o'.stats = o.stats ∧ o'.statMap = o.statMap ∧ 1 ≤ o'.cells := by
  unfold maskCalc
  rw [s.get, Out.ok_bind, hm]
  dsimp only
  by_cases hc : o.calcPos = true
  · rw [if_pos hc]
    by_cases hp : (o.ptr .pos).isSome = true
    · have hp' : (o.ptr .idx).isSome = true := by rw [← hi.posidx]; exact hp
      have : ((o.ptr .pos).isNone || (o.ptr .idx).isNone) = false := by
        rw [← Option.not_isSome, ← Option.not_isSome, hp, hp']; rfl
      rw [this, if_neg (by simp)]
      exact ⟨w, o, rfl, s, hi, Kept.refl o, rfl, fun _ => rfl, rfl, rfl, hi.cells (Or.inl hp)⟩
    · rw [Bool.not_eq_true] at hp
      have : ((o.ptr .pos).isNone || (o.ptr .idx).isNone) = true := by
        rw [← Option.not_isSome, hp]; rfl
      rw [this, if_pos rfl]
      obtain ⟨w', o', e, s', r, _⟩ := calc_ready s hi hv (by simpa using hp) h1
      exact ⟨w', o', by rw [e]; rfl, s', r.inv, r.kept, r.is2d, r.stat, r.stats.1, r.stats.2.1, r.inv.cells (Or.inl r.pos)⟩
  · rw [if_neg hc]
    obtain ⟨w', e, s'⟩ := flag_st s (fun o => { o with cells := se.full }) (fun _ => rfl) rfl rfl
    refine ⟨w', _, by rw [e]; rfl, s', ⟨hi.posidx, hi.ras2, hi.stat, hi.subs, fun _ => h2⟩, ⟨rfl, rfl, rfl, fun _ _ => rfl, fun _ _ _ => rfl⟩, rfl,
      fun _ => rfl, rfl, rfl, h2⟩

/-- The mask gets its positions. -/
theorem maskReady_st {w : World} {i m : Id} {om : Obj} (hw : WInv w) (hm : MaskIs w i m om) {se : Sees} (h1 : 1 ≤ se.maskValid) (h2 : 1 ≤ se.full)
    (d : Nat) : ∃ w' om', (do
        let w ← bif om.calcPos || !om.valid then .ok w
          else do
            let w ← modify w m (fun o => { o with calcPos := true })
            let x ← maskCalc (d + 1) w m { se with valid := se.maskValid }
            .ok x.1
        getPositions w m .pos se.maskValid) = Out.ok w' ∧ St w.objs m w' om' ∧ OInv om' ∧ (om'.ptr .pos).isSome = true ∧ Kept om om' := by
  have s := St.mk' hw.h hm.at_
  have hi := hw.o m om hm.at_
  cases hc : om.calcPos with
  | true =>
    rw [Bool.true_or, cond_true, Out.ok_bind]
    obtain ⟨w', o', e, s', r⟩ := getPositions_st s hi hm.valid h1 .pos rfl
    exact ⟨w', o', e, s', r.inv, r.pos, r.kept⟩
  | false =>
    have hmn : om.mask = none := by
      rcases hm.plain with h | ⟨h, _⟩
      · exact h
      · rw [hc] at h; cases h
    rw [hm.valid, Bool.not_true, Bool.or_false, cond_false]
    obtain ⟨w1, e1, s1⟩ := flag_st s (fun o => { o with calcPos := true }) (fun _ => rfl) rfl rfl
    have hi1 : OInv { om with calcPos := true } := ⟨hi.posidx, hi.ras2, hi.stat, hi.subs, hi.cells⟩
    obtain ⟨w2, o2, e2, s2, i2, k2, _⟩ := maskCalc_plain s1 hi1 hm.valid hmn (se := { se with valid := se.maskValid }) h1 h2 d
    have hv2 : o2.valid = true := by rw [k2.valid]; exact hm.valid
    obtain ⟨w3, o3, e3, s3, r3⟩ := getPositions_st s2 i2 hv2 h1 .pos rfl
    refine ⟨w3, o3, ?_, s3, r3.inv, r3.pos, ?_⟩
    · rw [e1, Out.ok_bind, e2, Out.ok_bind, Out.ok_bind, e3]
    · have k1 : Kept om { om with calcPos := true } := ⟨rfl, rfl, rfl, fun _ _ => rfl, fun _ _ _ => rfl⟩
      exact (k1.trans k2).trans r3.kept

/-- What a call did to its raster. -/
structure Done (w : World) (i : Id) (o : Obj) (w' : World) (o' : Obj) : Prop where
  inv : WInv w'
  at_ : w'.objs i = some o'
  fr : Fr w i o.mask w'
  valid : o'.valid = true
  is2d : o'.is2d = o.is2d
  stat : ∀ n, o'.ptr (.stat n) = o.ptr (.stat n)
  stats : o'.stats = o.stats ∧ o'.statMap = o.statMap
  maskOf : o'.mask = o.mask ∨ o'.mask = none

theorem maskCalc_ok {w : World} (hw : WInv w) {i : Id} {o : Obj} (ho : w.objs i = some o) (hv : o.valid = true) {se : Sees} (hs : Sound se)
    (hr : o.mask ≠ none → MaskOk w i o.mask ∧ URef w.objs i ∧ OwnPos o) (d : Nat) :
    ∃ w' r o', maskCalc (d + 2) w i se = .ok (w', r) ∧ Done w i o w' o' ∧ (r = true → 1 ≤ o'.cells) := by
  have hi := hw.o i o ho
  have s := St.mk' hw.h ho
  cases hmask : o.mask with
  | none =>
    obtain ⟨w', o', e, s', i', k, a1, a2, a3, a4, a5⟩ := maskCalc_plain s hi hv hmask hs.1 hs.2.2.2.1 (d + 1)
    exact ⟨w', true, o', e, ⟨s'.win (fun j oj hj _ => hw.o j oj hj) i', s'.at_, Fr.of_st s' _, by rw [k.valid]; exact hv, a1, a2, ⟨a3, a4⟩, Or.inl k.mask⟩, fun _ => a5⟩
  | some m =>
    obtain ⟨hok, hu, hown⟩ := hr (by rw [hmask]; simp)
    rw [hmask] at hok
    obtain ⟨om, hm⟩ := maskIs hok
    obtain ⟨w1, om1, e1, s1, i1, p1, k1⟩ := maskReady_st hw hm hs.2.1 hs.2.2.2.1 d
    have hfr : Fr w i (some m) w1 := Fr.of_mask hm.at_ s1 k1
    have hw1 : WInv w1 := s1.win (fun j oj hj _ => hw.o j oj hj) i1
    have ho1 : w1.objs i = some o := by rw [s1.other (Ne.symm hm.ne)]; exact ho
    obtain ⟨vp, hvp⟩ := Option.isSome_iff_exists.1 p1
    have hdone1 : Done w i o w1 o := ⟨hw1, ho1, by rw [hmask]; exact hfr, hv, rfl, fun _ => rfl, ⟨rfl, rfl⟩, Or.inl rfl⟩
    rw [show maskCalc (d + 2) w i se = maskCalc (d + 1 + 1) w i se from rfl]
    unfold maskCalc
    rw [get_of ho, Out.ok_bind, hmask]
    dsimp only
    rw [get_of hm.at_, Out.ok_bind]
    obtain ⟨x, ex, ex'⟩ := Out.bind_ok e1
    rw [ex, Out.ok_bind, ex', Out.ok_bind, s1.get, Out.ok_bind, hvp]
    dsimp only
    rw [touch_ok s1.inv s1.at_ p1, Out.ok_bind, touchCells_ok hw1.h ho1, Out.ok_bind]
    by_cases hz : se.masked = 0
    · rw [if_pos hz]
      exact ⟨w1, false, o, rfl, hdone1, by simp⟩
    · rw [if_neg hz]
      have hu1 : URef w1.objs i := URef.fr hfr hu
      have hnd1 : NoSubsetData om1 := fun k => ⟨by rw [k1.subp]; exact (hm.nodata k).1, by rw [k1.subp]; exact (hm.nodata k).2⟩
      obtain ⟨w2, o2, e2, s2, m2⟩ := maskApply_st (St.mk' hw1.h ho1) hi hv hm.ne s1.at_ i1 hvp hmask hu1 hown hnd1 hs
      refine ⟨w2, true, o2, by rw [e2]; rfl, ⟨s2.win (fun j oj hj _ => hw1.o j oj hj) m2.inv, s2.at_, ?_, m2.valid, m2.is2d, m2.stat, m2.stats, m2.maskOf⟩,
        fun _ => m2.cells⟩
      rw [hmask]
      exact hfr.trans (Fr.of_st s2 _)

/-- `setCalc`, `setExt`: no-ops, or a change of flags and `maskCalc`. -/
theorem setCalc_ok {w : World} (hw : WInv w) {i : Id} {o : Obj} (ho : w.objs i = some o) {se : Sees} (hs : Sound se)
    (hr : o.valid = true → ¬ (o.calcPos = true ∧ (o.ptr .pos).isSome = true) → o.mask ≠ none → MaskOk w i o.mask ∧ URef w.objs i ∧ OwnPos o) (d : Nat) :
    ∃ w' r o', setCalc (d + 2) w i se = .ok (w', r) ∧ WInv w' ∧ w'.objs i = some o' ∧ Fr w i o.mask w' ∧ o'.valid = o.valid := by
  have hi := hw.o i o ho
  have s := St.mk' hw.h ho
  unfold setCalc
  rw [get_of ho, Out.ok_bind]
  by_cases hv : o.valid = true
  · rw [hv, Bool.not_true, if_neg (by simp)]
    by_cases hc : o.calcPos = true ∧ (o.ptr .pos).isSome = true
    · rw [hc.1, hc.2, if_pos (by simp)]
      exact ⟨w, false, o, rfl, hw, ho, fun _ _ => Or.inl rfl, hv⟩
    · rw [if_neg]
      swap
      · intro h
        apply hc
        rw [Bool.and_eq_true, ← hi.posidx, Bool.or_self] at h
        exact h
      obtain ⟨w1, e1, s1⟩ := flag_st s (fun o => { o with calcPos := true }) (fun _ => rfl) rfl rfl
      have hi1 : OInv { o with calcPos := true } := ⟨hi.posidx, hi.ras2, hi.stat, hi.subs, hi.cells⟩
      have hw1 : WInv w1 := s1.win (fun j oj hj _ => hw.o j oj hj) hi1
      have hfr : Fr w i o.mask w1 := Fr.of_st s1 _
      obtain ⟨w2, r, o2, e2, d2, _⟩ := maskCalc_ok hw1 s1.at_ hv hs (by
        intro hm
        obtain ⟨a1, a2, a3⟩ := hr hv hc hm
        refine ⟨?_, URef.fr hfr a2, a3⟩
        intro m hmm
        obtain ⟨b1, om, b2, b3⟩ := a1 m hmm
        exact ⟨b1, om, by rw [s1.other b1]; exact b2, b3⟩) d
      refine ⟨w2, r, o2, by rw [e1, Out.ok_bind, e2], d2.inv, d2.at_, hfr.trans d2.fr, by rw [d2.valid]⟩
  · rw [Bool.not_eq_true] at hv
    rw [hv, Bool.not_false, if_pos rfl]
    exact ⟨w, false, o, rfl, hw, ho, fun _ _ => Or.inl rfl, hv⟩

theorem setExt_ok {w : World} (hw : WInv w) {i : Id} {o : Obj} (ho : w.objs i = some o) {se : Sees} (hs : Sound se)
    (hr : o.valid = true → o.ext = false → o.mask ≠ none → MaskOk w i o.mask ∧ URef w.objs i ∧ OwnPos o) (d : Nat) :
    ∃ w' r o', setExt (d + 2) w i se = .ok (w', r) ∧ WInv w' ∧ w'.objs i = some o' ∧ Fr w i o.mask w' := by
  have hi := hw.o i o ho
  have s := St.mk' hw.h ho
  unfold setExt
  rw [get_of ho, Out.ok_bind]
  by_cases hc : (!o.valid || o.mask.isNone || o.ext) = true
  · rw [if_pos hc]
    exact ⟨w, false, o, rfl, hw, ho, fun _ _ => Or.inl rfl⟩
  · rw [if_neg hc]
    simp only [Bool.or_eq_true, Bool.not_eq_true', not_or, Bool.not_eq_false, Bool.not_eq_true] at hc
    obtain ⟨⟨hv, hmn⟩, hx⟩ := hc
    obtain ⟨w1, e1, s1⟩ := flag_st s (fun o => { o with ext := true }) (fun _ => rfl) rfl rfl
    have hi1 : OInv { o with ext := true } := ⟨hi.posidx, hi.ras2, hi.stat, hi.subs, hi.cells⟩
    have hw1 : WInv w1 := s1.win (fun j oj hj _ => hw.o j oj hj) hi1
    have hfr : Fr w i o.mask w1 := Fr.of_st s1 _
    obtain ⟨w2, r, o2, e2, d2, _⟩ := maskCalc_ok hw1 s1.at_ hv hs (by
      intro hm
      obtain ⟨a1, a2, a3⟩ := hr hv hx hm
      refine ⟨?_, URef.fr hfr a2, a3⟩
      intro m hmm
      obtain ⟨b1, om, b2, b3⟩ := a1 m hmm
      exact ⟨b1, om, by rw [s1.other b1]; exact b2, b3⟩) d
    exact ⟨w2, r, o2, by rw [e1, Out.ok_bind, e2], d2.inv, d2.at_, hfr.trans d2.fr⟩

theorem buildSubSet_ok {w : World} (hw : WInv w) {i : Id} {o : Obj} (ho : w.objs i = some o) {se : Sees} (hs : Sound se)
    (hr : o.valid = true → o.ptr .pos = none → o.mask ≠ none → MaskOk w i o.mask ∧ URef w.objs i ∧ OwnPos o) (d : Nat) :
    ∃ w' r o', buildSubSet (d + 2) w i se = .ok (w', r) ∧ WInv w' ∧ w'.objs i = some o' ∧ Fr w i o.mask w' := by
  have hi := hw.o i o ho
  unfold buildSubSet
  rw [get_of ho, Out.ok_bind]
  by_cases hv : o.valid = true
  swap
  · rw [Bool.not_eq_true] at hv
    rw [hv, Bool.not_false, if_pos rfl]
    exact ⟨w, false, o, rfl, hw, ho, fun _ _ => Or.inl rfl⟩
  rw [hv, Bool.not_true, if_neg (by simp)]
  obtain ⟨w1, r1, o1, e1, hw1, ho1, hfr⟩ : ∃ w1 r1 o1, (bif (o.ptr .pos).isNone || (o.ptr .idx).isNone then setCalc (d + 2) w i se else .ok (w, true)) =
      Out.ok (w1, r1) ∧ WInv w1 ∧ w1.objs i = some o1 ∧ Fr w i o.mask w1 := by
    cases hb : ((o.ptr .pos).isNone || (o.ptr .idx).isNone) with
    | true =>
      have hp : o.ptr .pos = none := by
        rw [← Option.not_isSome, ← Option.not_isSome, ← hi.posidx, Bool.or_self] at hb
        simpa using hb
      obtain ⟨w1, r1, o1, e1, a1, a2, a3, _⟩ := setCalc_ok hw ho hs (fun _ _ => hr hv hp) d
      exact ⟨w1, r1, o1, e1, a1, a2, a3⟩
    | false => exact ⟨w, true, o, rfl, hw, ho, fun _ _ => Or.inl rfl⟩
  rw [e1, Out.ok_bind]
  cases r1 with
  | false => exact ⟨w1, false, o1, rfl, hw1, ho1, hfr⟩
  | true =>
    dsimp only
    rw [Bool.not_true, if_neg (by simp), get_of ho1, Out.ok_bind]
    cases he : o1.subs.isEmpty with
    | false => exact ⟨w1, true, o1, rfl, hw1, ho1, hfr⟩
    | true =>
      rw [Bool.not_true, if_neg (by simp), touchCells_ok hw1.h ho1, Out.ok_bind]
      have hi1 := hw1.o i o1 ho1
      have hnil : o1.subs = [] := List.isEmpty_iff.1 he
      obtain ⟨w2, p2, t2, e2, s2, q2, r2⟩ := buildSubs_st se.groups (St.mk' hw1.h ho1) hi1.subs hs.2.2.2.2.2 (by rw [hnil]; simpa using hs.2.2.2.2.1)
      have hst : ∀ n, p2 (.stat n) = o1.ptr (.stat n) := fun n => q2 _ rfl
      have hi2 : OInv { o1 with ptr := p2, subs := t2 } := by
        refine ⟨?_, ?_, ?_, r2, ?_⟩
        · show (p2 .pos).isSome = (p2 .idx).isSome
          rw [q2 _ rfl, q2 _ rfl]; exact hi1.posidx
        · show p2 .ras2 ≠ none → _
          rw [q2 _ rfl]; exact hi1.ras2
        · intro n hn
          have hn : p2 (.stat n) ≠ none := hn
          rw [hst] at hn
          obtain ⟨a1, a2, a3⟩ := hi1.stat n hn
          exact ⟨a1, a2, fun m => by show p2 _ ≠ none; rw [hst]; exact a3 m⟩
        · intro h
          apply hi1.cells
          have h : (p2 .pos).isSome = true ∨ (p2 .ras2).isSome = true := h
          rw [q2 .pos rfl, q2 .ras2 rfl] at h
          exact h
      exact ⟨w2, true, _, by rw [e2]; rfl, s2.win (fun j oj hj _ => hw1.o j oj hj) hi2, s2.at_, hfr.trans (Fr.of_st s2 _)⟩

end Life
end CCGL
