import Verif.Lemmas.RasterLife5
/-!
# Lemmas on the ownership of arrays: constructors, reading and copying
-/
namespace CCGL
namespace Life
open Spec

/-! ## Positions of a mask that may have to calculate them -/

theorem share_any {w : World} (hw : WInv w) {i m : Id} {o om : Obj} (hmi : m ≠ i) (ho : w.objs i = some o) (hm : w.objs m = some om)
    (hv : om.valid = true) (hmask : o.mask = some m) (n1 : o.ptr .pos = none) (n2 : o.ptr .idx = none) (hs : o.store = false) {n : Nat} (hn : 1 ≤ n) :
    ∃ w1 w' om', share w m i n = .ok w' ∧ St w.objs m w1 om' ∧ St w1.objs i w' (o.shared om') ∧ Ready om om' := by
  obtain ⟨w1, om1, e1, s1, r1⟩ := getPositions_st (St.mk' hw.h hm) (hw.o m om hm) hv hn .pos rfl
  have ho1 : w1.objs i = some o := by rw [s1.other (Ne.symm hmi)]; exact ho
  obtain ⟨w2, e2, s2⟩ := share_st (St.mk' s1.inv ho1) hmi s1.at_ r1.pos r1.idx hmask n1 n2 hs n
  refine ⟨w1, w2, om1, ?_, s1, s2, r1⟩
  rw [← e2]
  unfold share
  rw [e1, getPositions_noop s1.at_ r1.pos, Out.ok_bind]

theorem shared_inv {o om : Obj} (hi : OInv o) (hm : OInv om) (hp : (om.ptr .pos).isSome = true) : OInv (o.shared om) := by
  have h : ∀ f, f.isPos = false → (o.shared om).ptr f = o.ptr f := by
    intro f hf
    have b1 : f ≠ .pos := by intro h; subst h; cases hf
    have b2 : f ≠ .idx := by intro h; subst h; cases hf
    show upd (upd o.ptr _ _) _ _ f = _
    rw [upd_ne _ _ b2, upd_ne _ _ b1]
  have hpos : (o.shared om).ptr .pos = om.ptr .pos := by
    show upd (upd o.ptr Field.pos (om.ptr .pos)) Field.idx (om.ptr .idx) Field.pos = _
    rw [upd_ne _ _ (by simp), upd_self]
  have hidx : (o.shared om).ptr .idx = om.ptr .idx := by
    show upd (upd o.ptr Field.pos (om.ptr .pos)) Field.idx (om.ptr .idx) Field.idx = _
    rw [upd_self]
  refine ⟨by rw [hpos, hidx]; exact hm.posidx, by rw [h _ rfl]; exact hi.ras2, ?_, hi.subs.congr (fun k f => h _ rfl), fun _ => hm.cells (Or.inl hp)⟩
  intro n hn
  rw [h _ rfl] at hn
  obtain ⟨a1, a2, a3⟩ := hi.stat n hn
  exact ⟨a1, a2, fun m => by rw [h _ rfl]; exact a3 m⟩

theorem shared_ptr (o om : Obj) {f : Field} (hf : f.isPos = false) : (o.shared om).ptr f = o.ptr f := by
  have b1 : f ≠ .pos := by intro h; subst h; cases hf
  have b2 : f ≠ .idx := by intro h; subst h; cases hf
  show upd (upd o.ptr _ _) _ _ f = _
  rw [upd_ne _ _ b2, upd_ne _ _ b1]

theorem shared_pos (o om : Obj) : (o.shared om).ptr .pos = om.ptr .pos := by
  show upd (upd o.ptr Field.pos (om.ptr .pos)) Field.idx (om.ptr .idx) Field.pos = _
  rw [upd_ne _ _ (by simp), upd_self]

theorem shared_idx (o om : Obj) : (o.shared om).ptr .idx = om.ptr .idx := by
    show upd (upd o.ptr Field.pos (om.ptr .pos)) Field.idx (om.ptr .idx) Field.idx = _
    rw [upd_self]

/-- An assignment to a data array of a raster. -/
theorem data_inv {o : Obj} (hi : OInv o) {f : Field} (hf : f = .ras ∨ f = .ras2 ∧ o.is2d = true ∧ 1 ≤ o.cells) (p : Option Addr) : OInv (o.setPtr f p) := by
  have hne : ∀ g : Field, g ≠ .ras → g ≠ .ras2 → (o.setPtr f p).ptr g = o.ptr g := by
    intro g h1 h2
    refine setPtr_ne _ _ ?_
    rcases hf with rfl | ⟨rfl, _⟩
    · exact h1
    · exact h2
  refine ⟨by rw [hne _ (by simp) (by simp), hne _ (by simp) (by simp)]; exact hi.posidx, ?_, ?_, hi.subs.congr (fun k g => hne _ (by simp) (by simp)), ?_⟩
  · rcases hf with rfl | ⟨rfl, h2, _⟩
    · rw [setPtr_ne _ _ (by simp)]; exact hi.ras2
    · exact fun _ => h2
  · intro n hn
    rw [hne _ (by simp) (by simp)] at hn
    obtain ⟨a1, a2, a3⟩ := hi.stat n hn
    exact ⟨a1, a2, fun m => by rw [hne _ (by simp) (by simp)]; exact a3 m⟩
  · intro h
    rcases hf with rfl | ⟨rfl, _, h1⟩
    · apply hi.cells
      rwa [setPtr_ne _ _ (by simp), setPtr_ne _ _ (by simp)] at h
    · exact h1

/-! ## Constructors -/

theorem newEmpty_ok {w : World} (hw : WInv w) {i : Id} (hn : w.objs i = none) (is2d : Bool) :
    ∃ w', newEmpty w i is2d = .ok w' ∧ WInv w' ∧ St w.objs i w' (emptyObj is2d) := by
  obtain ⟨w', e, s⟩ := new_st hw.h hn is2d
  exact ⟨w', e, s.win (fun j oj hj _ => hw.o j oj hj) (empty_inv is2d), s⟩

theorem newArray_ok {w : World} (hw : WInv w) {i : Id} (hn : w.objs i = none) (two : Bool) {n : Nat} (h1 : 1 ≤ n) :
    ∃ w', newArray w i two n = .ok w' ∧ WInv w' ∧ Fr w i none w' := by
  obtain ⟨w1, e1, s1⟩ := new_st hw.h hn two
  obtain ⟨w2, e2, s2⟩ := flag_st s1 (fun o => { o with cells := n }) (fun _ => rfl) rfl rfl
  have i2 : OInv { emptyObj two with cells := n } := ⟨rfl, fun h => absurd rfl h, fun _ h => absurd rfl h, SubInv.nil (fun _ _ => rfl), fun _ => h1⟩
  unfold newArray
  rw [e1, Out.ok_bind, e2, Out.ok_bind]
  cases two with
  | true =>
    rw [if_pos rfl]
    obtain ⟨w3, a, e3, s3⟩ := put_st s2 .ras2 (.two n) rfl ⟨rfl, h1⟩ (by intro h; cases h)
    exact ⟨w3, e3, s3.win (fun j oj hj _ => hw.o j oj hj) (data_inv i2 (Or.inr ⟨rfl, rfl, h1⟩) _), Fr.of_st s3 _⟩
  | false =>
    rw [if_neg (by simp)]
    obtain ⟨w3, a, e3, s3⟩ := put_st s2 .ras .one rfl rfl (by intro h; cases h)
    exact ⟨w3, e3, s3.win (fun j oj hj _ => hw.o j oj hj) (data_inv i2 (Or.inl rfl) _), Fr.of_st s3 _⟩

theorem newMask_ok {w : World} (hw : WInv w) {i m : Id} {om : Obj} (hn : w.objs i = none) (hm : w.objs m = some om) (hv : om.valid = true) (two len : Bool)
    {se : Sees} (hs : Sound se) : ∃ w', newMask w i m two len se = .ok w' ∧ WInv w' ∧ Fr w i (some m) w' := by
  have hmi : m ≠ i := by intro h; subst h; rw [hn] at hm; cases hm
  obtain ⟨w1, e1, s1⟩ := new_st hw.h hn two
  obtain ⟨w2, e2, s2⟩ := mask_st s1 (fun o => { o with mask := some m, ext := true }) (fun _ => rfl) (Or.inl ⟨rfl, rfl⟩)
    (fun x hx _ => by cases hx; exact ⟨om, hm⟩)
  have i2 : OInv { emptyObj two with mask := some m, ext := true } := ⟨rfl, fun h => absurd rfl h, fun _ h => absurd rfl h, SubInv.nil (fun _ _ => rfl),
    fun h => by simp [emptyObj] at h⟩
  have hw2 : WInv w2 := s2.win (fun j oj hj _ => hw.o j oj hj) i2
  have hm2 : w2.objs m = some om := by rw [s2.other hmi]; exact hm
  obtain ⟨w3, w4, om3, e4, s3, s4, r3⟩ := share_any hw2 hmi s2.at_ hm2 hv rfl rfl rfl rfl hs.2.1
  have hm4 : w4.objs m = some om3 := by rw [s4.other hmi]; exact s3.at_
  obtain ⟨w5, e5, s5⟩ := flag_st s4 (fun o => { o with cells := om3.cells }) (fun _ => rfl) rfl rfl
  have hc : 1 ≤ om3.cells := r3.inv.cells (Or.inl r3.pos)
  have i5 : OInv (({ emptyObj two with mask := some m, ext := true } : Obj).shared om3) := shared_inv i2 r3.inv r3.pos
  have hothers : ∀ j oj, w3.objs j = some oj → j ≠ i → OInv oj := fun j oj hj _ => (s3.win (fun k ok hk _ => hw2.o k ok hk) r3.inv).o j oj hj
  have fr1 : Fr w i (some m) w2 := Fr.of_st s2 _
  have fr2 : Fr w2 i (some m) w3 := Fr.of_mask hm2 s3 r3.kept
  unfold newMask
  rw [e1, Out.ok_bind, e2, Out.ok_bind, e4, Out.ok_bind, get_of hm4, Out.ok_bind, e5, Out.ok_bind]
  cases len with
  | false => exact ⟨w5, rfl, s5.win hothers i5, (fr1.trans fr2).trans (Fr.of_st s5 _)⟩
  | true =>
    rw [Bool.not_true, if_neg (by simp)]
    cases two with
    | true =>
      rw [if_pos rfl]
      obtain ⟨w6, p, e6, s6, _⟩ := alloc2_st s5 .ras2 hc rfl (by intro h; cases h)
      exact ⟨w6, e6, s6.win hothers (data_inv i5 (Or.inr ⟨rfl, rfl, hc⟩) _), (fr1.trans fr2).trans (Fr.of_st s6 _)⟩
    | false =>
      rw [if_neg (by simp)]
      obtain ⟨w6, p, e6, s6, _⟩ := alloc1d_st s5 .ras rfl (by intro h; cases h)
      exact ⟨w6, e6, s6.win hothers (data_inv i5 (Or.inl rfl) _), (fr1.trans fr2).trans (Fr.of_st s6 _)⟩

/-! ## Reading files -/

theorem maskOk_st {w w' : World} {i : Id} {o : Obj} {mask : Option Id} (h : MaskOk w i mask) (s : St w.objs i w' o) : MaskOk w' i mask := by
  intro m hm
  obtain ⟨b1, om, b2, b3⟩ := h m hm
  exact ⟨b1, om, by rw [s.other b1]; exact b2, b3⟩

/-- A raster with nothing but cells. -/
theorem bare_inv {o : Obj} (h : ∀ f, f ≠ .ras → o.ptr f = none) (hs : o.subs = []) : OInv o := by
  refine ⟨by rw [h _ (by simp), h _ (by simp)], fun h' => absurd (h _ (by simp)) h', fun n h' => absurd (h _ (by simp)) h', ?_, ?_⟩
  · rw [hs]; exact SubInv.nil (fun k f => h _ (by simp))
  · rw [h _ (by simp), h _ (by simp)]
    intro h'; simp at h'

theorem setArgs_st {w : World} (hw : WInv w) {i : Id} {o : Obj} (ho : w.objs i = some o) (he : Spec.Empty o) {mask : Option Id} (hm : MaskOk w i mask)
    (c e : Bool) : ∃ w', setArgs w i mask c e = .ok w' ∧ St w.objs i w' { o with mask := mask, calcPos := c, ext := e && mask.isSome } := by
  unfold setArgs
  exact mask_st (St.mk' hw.h ho) (fun o => { o with mask := mask, calcPos := c, ext := e && mask.isSome }) (fun _ => rfl) (Or.inl ⟨he.1 _, he.1 _⟩)
    (fun m hmm _ => by
      obtain ⟨_, om, h, _⟩ := hm m hmm
      exact ⟨om, h⟩)

theorem readFile_ok {w : World} (hw : WInv w) {i : Id} {o : Obj} (ho : w.objs i = some o) (he : Spec.Empty o) (hu : URef w.objs i) {a : ReadArgs}
    (hm : MaskOk w i a.mask) (hs : Sound a.sees) (d : Nat) :
    ∃ w' r o', readFile (d + 2) w i a = .ok (w', r) ∧ WInv w' ∧ w'.objs i = some o' ∧ Fr w i a.mask w' ∧ (r = true → o'.is2d = false ∧ 1 ≤ o'.cells) := by
  obtain ⟨w1, e1, s1⟩ := setArgs_st hw ho he hm a.calcPos a.ext
  have hothers : ∀ j oj, w.objs j = some oj → j ≠ i → OInv oj := fun j oj hj _ => hw.o j oj hj
  have i1 : OInv { o with mask := a.mask, calcPos := a.calcPos, ext := a.ext && a.mask.isSome } := bare_inv (fun f _ => he.1 f) he.2.2
  unfold readFile
  rw [e1, Out.ok_bind]
  cases a.out with
  | none_ => exact ⟨w1, false, _, rfl, s1.win hothers i1, s1.at_, Fr.of_st s1 _, by simp⟩
  | freed =>
    dsimp only
    cases a.asc with
    | true =>
      obtain ⟨w2, e2, s2⟩ := free_st s1 .ras (Or.inl (he.1 _))
      rw [cond_true, e2, Out.ok_bind]
      exact ⟨w2, false, _, rfl, s2.win hothers (data_inv i1 (Or.inl rfl) _), s2.at_, Fr.of_st s2 _, by simp⟩
    | false => exact ⟨w1, false, _, rfl, s1.win hothers i1, s1.at_, Fr.of_st s1 _, by simp⟩
  | cells =>
    dsimp only
    obtain ⟨w2, p, e2, s2, hp⟩ : ∃ w2 p, (bif a.asc then (do
          let w ← alloc1d w1 i .ras
          touch w i .ras
          .ok w)
        else put w1 i .ras .one) = Out.ok w2 ∧
        St w.objs i w2 (Obj.setPtr { o with mask := a.mask, calcPos := a.calcPos, ext := a.ext && a.mask.isSome } .ras p) ∧ p.isSome = true := by
      cases a.asc with
      | true =>
        obtain ⟨w2, p, e2, s2, hp⟩ := alloc1d_st s1 .ras rfl (by intro h; cases h)
        refine ⟨w2, p, ?_, s2, hp⟩
        rw [cond_true, e2, Out.ok_bind, touch_ok s2.inv s2.at_ (by rw [setPtr_self]; exact hp), Out.ok_bind]
      | false =>
        obtain ⟨w2, p, e2, s2⟩ := put_st s1 .ras .one (he.1 _) rfl (by intro h; cases h)
        exact ⟨w2, some p, e2, s2, rfl⟩
    rw [e2, Out.ok_bind]
    obtain ⟨w3, e3, s3⟩ := flag_st s2 (fun o => { o with is2d := false }) (fun _ => rfl) rfl rfl
    rw [e3, Out.ok_bind]
    have i3 : OInv { Obj.setPtr { o with mask := a.mask, calcPos := a.calcPos, ext := a.ext && a.mask.isSome } .ras p with is2d := false } :=
      bare_inv (fun f hf => by
        show upd o.ptr .ras p f = none
        rw [upd_ne _ _ hf]; exact he.1 f) he.2.2
    have hw3 : WInv w3 := s3.win hothers i3
    obtain ⟨w4, r, o4, e4, d4, c4⟩ := maskCalc_ok hw3 s3.at_ (by
        show (if false = true then _ else (upd o.ptr .ras p .ras).isSome) = true
        rw [if_neg (by simp), upd_self]; exact hp) hs (fun _ => ⟨maskOk_st hm s3, URef.fr (Fr.of_st s3 none) hu, Or.inr (by
          show upd o.ptr .ras p .pos = none
          rw [upd_ne _ _ (by simp)]; exact he.1 _)⟩) d
    refine ⟨w4, r, o4, e4, d4.inv, d4.at_, (Fr.of_st s3 _).trans d4.fr, fun h => ⟨d4.is2d, c4 h⟩⟩

theorem readFiles_ok {w : World} (hw : WInv w) {i : Id} {o : Obj} (ho : w.objs i = some o) (he : Spec.Empty o) (hu : URef w.objs i) {a : ReadArgs}
    (hm : MaskOk w i a.mask) (hs : Sound a.sees) (d : Nat) :
    ∃ w' r o', readFiles (d + 2) w i a = .ok (w', r) ∧ WInv w' ∧ w'.objs i = some o' ∧ Fr w i a.mask w' := by
  obtain ⟨w1, r, o1, e1, hw1, ho1, fr1, c1⟩ := readFile_ok hw ho he hu hm hs d
  unfold readFiles
  rw [e1, Out.ok_bind]
  dsimp only
  cases r with
  | false => exact ⟨w1, false, o1, rfl, hw1, ho1, fr1⟩
  | true =>
    rw [Bool.not_true, if_neg (by simp), get_of ho1, Out.ok_bind]
    obtain ⟨h2d, hc⟩ := c1 rfl
    have i1 := hw1.o i o1 ho1
    obtain ⟨w2, p, e2, s2, hp⟩ := alloc2_st (St.mk' hw1.h ho1) .ras2 hc rfl (by intro h; cases h)
    obtain ⟨w3, e3, s3⟩ := free_st s2 .ras (Or.inr (by intro h; cases h))
    obtain ⟨w4, e4, s4⟩ := flag_st s3 (fun o => { o with is2d := true }) (fun _ => rfl) rfl rfl
    rw [e2, Out.ok_bind, touchCells_ok s2.inv s2.at_, Out.ok_bind, e3, Out.ok_bind, e4, Out.ok_bind]
    have hnone : ∀ n, o1.ptr (.stat n) = none := stat_none i1 (by rw [h2d]; simp)
    have i1' : OInv { o1 with is2d := true } := ⟨i1.posidx, fun _ => rfl, fun n hn => absurd (hnone n) hn, i1.subs, i1.cells⟩
    have i4 := data_inv (data_inv i1' (f := .ras2) (Or.inr ⟨rfl, rfl, hc⟩) p) (f := .ras) (Or.inl rfl) none
    exact ⟨w4, true, _, rfl, s4.win (fun j oj hj _ => hw1.o j oj hj) i4, s4.at_, fr1.trans (Fr.of_st s4 _)⟩

end Life
end CCGL
