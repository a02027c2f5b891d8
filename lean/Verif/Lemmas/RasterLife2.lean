import Verif.Lemmas.RasterLife
/-!
# Lemmas on the ownership of arrays: positions, masking
-/
namespace CCGL
namespace Life
open Spec

/-- What holds of a raster between two calls. -/
structure OInv (o : Obj) : Prop where
  posidx : (o.ptr .pos).isSome = (o.ptr .idx).isSome
  ras2 : o.ptr .ras2 ≠ none → o.is2d = true
  stat : ∀ n, o.ptr (.stat n) ≠ none → o.is2d = true ∧ o.stats = true ∧ ∀ m, o.ptr (.stat m) ≠ none
  subs : SubInv o.ptr o.subs
  cells : (o.ptr .pos).isSome = true ∨ (o.ptr .ras2).isSome = true → 1 ≤ o.cells

theorem isNone_of_eq {o : Obj} (h : (o.ptr .pos).isSome = (o.ptr .idx).isSome) (hp : o.ptr .pos = none) : o.ptr .idx = none := by
  rw [hp] at h
  simpa using h.symm

/-! ## Order of allocation and assignments -/

/-- Assignments that do not concern pointers. -/
def Flags (g : Obj → Obj) : Prop := ∀ o, (g o).ptr = o.ptr ∧ ∀ f a, g (o.setPtr f a) = (g o).setPtr f a

theorem put_comm {w : World} {i : Id} {o : Obj} (ho : w.objs i = some o) {g : Obj → Obj} (hg : Flags g) (f : Field) (blk : Blk) :
    (put w i f blk >>= fun w => modify w i g) = (modify w i g >>= fun w => put w i f blk) := by
  have h1 : put w i f blk = .ok (({ w with heap := upd w.heap w.next (some blk), next := w.next + 1 } : World).set i (o.setPtr f (some w.next))) := by
    unfold put; rw [get_of ho]; rfl
  have h2 : modify w i g = .ok (w.set i (g o)) := by unfold modify; rw [get_of ho]; rfl
  rw [h1, h2, Out.ok_bind, Out.ok_bind]
  have h3 : (World.set ({ w with heap := upd w.heap w.next (some blk), next := w.next + 1 } : World) i (o.setPtr f (some w.next))).objs i = some (o.setPtr f (some w.next)) :=
    upd_self _ _ _
  have h4 : (w.set i (g o)).objs i = some (g o) := upd_self _ _ _
  unfold modify put
  rw [get_of h3, get_of h4]
  simp only [Out.ok_bind, Out.pure_eq, World.set, upd_upd, (hg o).2]

theorem alloc1_comm {w : World} {i : Id} {o : Obj} (ho : w.objs i = some o) {g : Obj → Obj} (hg : Flags g) (f : Field) (n : Nat) :
    (alloc1 w i f n >>= fun w => modify w i g) = (modify w i g >>= fun w => alloc1 w i f n) := by
  have h2 : modify w i g = .ok (w.set i (g o)) := by unfold modify; rw [get_of ho]; rfl
  have h4 : (w.set i (g o)).objs i = some (g o) := upd_self _ _ _
  unfold alloc1
  rw [get_of ho, Out.ok_bind, h2, Out.ok_bind, get_of h4, Out.ok_bind, (hg o).1]
  by_cases hc : ((o.ptr f).isSome || decide (n = 0)) = true
  · rw [if_pos hc, if_pos hc, Out.pure_eq, Out.ok_bind, h2]; rfl
  · rw [if_neg hc, if_neg hc, put_comm ho hg, h2, Out.ok_bind]

theorem alloc2_comm {w : World} {i : Id} {o : Obj} (ho : w.objs i = some o) {g : Obj → Obj} (hg : Flags g) (f : Field) (n : Nat) :
    (alloc2 w i f n >>= fun w => modify w i g) = (modify w i g >>= fun w => alloc2 w i f n) := by
  have h2 : modify w i g = .ok (w.set i (g o)) := by unfold modify; rw [get_of ho]; rfl
  have h4 : (w.set i (g o)).objs i = some (g o) := upd_self _ _ _
  unfold alloc2
  rw [get_of ho, Out.ok_bind, h2, Out.ok_bind, get_of h4, Out.ok_bind, (hg o).1]
  by_cases hc : (o.ptr f).isSome = true
  · rw [if_pos hc, if_pos hc, Out.pure_eq, Out.ok_bind, h2]; rfl
  · rw [if_neg hc, if_neg hc, put_comm ho hg, h2, Out.ok_bind]

/-- The raster stays after an allocation. -/
theorem alloc2_obj {w w' : World} {i : Id} {o : Obj} (ho : w.objs i = some o) {f : Field} {n : Nat} (h : alloc2 w i f n = .ok w') :
    ∃ o', w'.objs i = some o' := by
  unfold alloc2 at h
  rw [get_of ho, Out.ok_bind] at h
  by_cases hc : (o.ptr f).isSome = true
  · rw [if_pos hc, Out.pure_eq] at h
    cases h
    exact ⟨o, ho⟩
  · rw [if_neg hc] at h
    unfold put at h
    rw [get_of ho, Out.ok_bind, Out.pure_eq] at h
    cases h
    exact ⟨_, upd_self _ _ _⟩

theorem pos_comm {w : World} {i : Id} {o : Obj} (ho : w.objs i = some o) {g : Obj → Obj} (hg : Flags g) (n : Nat) :
    (do let w ← alloc2 w i .pos n; let w ← alloc1 w i .idx n; modify w i g) =
    (do let w ← modify w i g; let w ← alloc2 w i .pos n; alloc1 w i .idx n) := by
  have e1 := alloc2_comm ho hg .pos n
  have e : (modify w i g >>= fun w => alloc2 w i .pos n >>= fun w => alloc1 w i .idx n) =
      ((modify w i g >>= fun w => alloc2 w i .pos n) >>= fun w => alloc1 w i .idx n) := by rw [bind_assoc]
  rw [e, ← e1, bind_assoc]
  cases ha : alloc2 w i .pos n with
  | ok w' =>
    obtain ⟨o', ho'⟩ := alloc2_obj ho ha
    rw [Out.ok_bind, Out.ok_bind, alloc1_comm ho' hg]
  | ub => rfl
  | exn => rfl

/-! ## Positions -/

theorem calcPositions_st {b : Objs} {i : Id} {w : World} {o : Obj} (s : St b i w o) (hv : o.valid = true) (h1 : o.ptr .pos = none)
    (h2 : o.ptr .idx = none) {n : Nat} (hn : 1 ≤ n) :
    ∃ w' p, calcPositions w i n = .ok w' ∧ St b i w' { o with ptr := p, cells := n, store := true, calcPos := true } ∧
      (∀ f, f ≠ .ras → f ≠ .ras2 → f.isPos = false → p f = o.ptr f) ∧ (p .pos).isSome = true ∧ (p .idx).isSome = true ∧
      (p .ras).isSome = (o.ptr .ras).isSome ∧ (p .ras2).isSome = (o.ptr .ras2).isSome := by
  unfold calcPositions
  rw [s.get, Out.ok_bind]
  -- the data array
  obtain ⟨w1, p1, e1, s1, q1, r1, r2⟩ : ∃ w1 p1, (bif o.is2d then (do
        touch w i .ras2
        let w ← modify w i (fun o => { o with cells := n })
        let w ← free w i .ras2
        alloc2 w i .ras2 n)
      else (do
        touch w i .ras
        let w ← modify w i (fun o => { o with cells := n })
        let w ← free w i .ras
        alloc1 w i .ras n)) = Out.ok w1 ∧ St b i w1 { o with ptr := p1, cells := n } ∧ (∀ f, f ≠ .ras → f ≠ .ras2 → p1 f = o.ptr f) ∧
      (p1 .ras).isSome = (o.ptr .ras).isSome ∧ (p1 .ras2).isSome = (o.ptr .ras2).isSome := by
    unfold Obj.valid at hv
    rcases Bool.eq_false_or_eq_true o.is2d with h2d | h2d
    · rw [h2d, if_pos rfl] at hv
      obtain ⟨w1, e1, s1⟩ := flag_st s (fun o => { o with cells := n }) (fun _ => rfl) rfl rfl
      obtain ⟨w2, e2, s2⟩ := free_st s1 .ras2 (Or.inr (by intro h; cases h))
      obtain ⟨w3, p3, e3, s3, q3⟩ := alloc2_st s2 .ras2 hn rfl (by intro h; cases h)
      refine ⟨w3, _, ?_, s3, ?_, ?_, ?_⟩
      · simp only [h2d, cond_true, touch_ok s.inv s.at_ hv, e1, e2, e3, Out.ok_bind]
      · intro f hf hf'
        show upd (upd o.ptr .ras2 none) .ras2 p3 f = _
        rw [upd_ne _ _ hf', upd_ne _ _ hf']
      · show (upd (upd o.ptr .ras2 none) .ras2 p3 .ras).isSome = _
        rw [upd_ne _ _ (by simp), upd_ne _ _ (by simp)]
      · show (upd (upd o.ptr .ras2 none) .ras2 p3 .ras2).isSome = _
        rw [upd_self, q3, hv]
    · rw [h2d, if_neg (by simp)] at hv
      obtain ⟨w1, e1, s1⟩ := flag_st s (fun o => { o with cells := n }) (fun _ => rfl) rfl rfl
      obtain ⟨w2, e2, s2⟩ := free_st s1 .ras (Or.inr (by intro h; cases h))
      obtain ⟨w3, p3, e3, s3, q3⟩ := alloc1_st s2 .ras hn rfl (by intro h; cases h)
      refine ⟨w3, _, ?_, s3, ?_, ?_, ?_⟩
      · simp only [h2d, cond_false, touch_ok s.inv s.at_ hv, e1, e2, e3, Out.ok_bind]
      · intro f hf hf'
        show upd (upd o.ptr .ras none) .ras p3 f = _
        rw [upd_ne _ _ hf, upd_ne _ _ hf]
      · show (upd (upd o.ptr .ras none) .ras p3 .ras).isSome = _
        rw [upd_self, q3, hv]
      · show (upd (upd o.ptr .ras none) .ras p3 .ras2).isSome = _
        rw [upd_ne _ _ (by simp), upd_ne _ _ (by simp)]
  rw [e1, Out.ok_bind, pos_comm s1.at_ (g := fun o => { o with store := true, calcPos := true }) (fun o => ⟨rfl, fun _ _ => rfl⟩)]
  obtain ⟨w2, e2, s2⟩ := store_st s1 (fun o => { o with store := true, calcPos := true }) (fun _ => rfl) rfl
    (by show p1 .pos = none; rw [q1 .pos (by simp) (by simp)]; exact h1) (by show p1 .idx = none; rw [q1 .idx (by simp) (by simp)]; exact h2)
  obtain ⟨w3, p3, e3, s3, q3⟩ := alloc2_st s2 .pos hn rfl (fun _ => rfl)
  obtain ⟨w4, p4, e4, s4, q4⟩ := alloc1_st s3 .idx hn rfl (fun _ => rfl)
  refine ⟨w4, upd (upd p1 .pos p3) .idx p4, ?_, s4, ?_, ?_, ?_, ?_, ?_⟩
  · rw [e2, Out.ok_bind, e3, Out.ok_bind, e4]
  · intro f hf hf' hp
    have a1 : f ≠ .idx := by intro h; subst h; cases hp
    have a2 : f ≠ .pos := by intro h; subst h; cases hp
    rw [upd_ne _ _ a1, upd_ne _ _ a2, q1 f hf hf']
  · rw [upd_ne _ _ (by simp), upd_self]; exact q3
  · rw [upd_self]; exact q4
  · rw [upd_ne _ _ (by simp), upd_ne _ _ (by simp)]; exact r1
  · rw [upd_ne _ _ (by simp), upd_ne _ _ (by simp)]; exact r2

/-- The raster after its positions have been calculated. -/
theorem calcPositions_inv {o : Obj} (h : OInv o) {p : Field → Option Addr} {n : Nat} (hn : 1 ≤ n)
    (q : ∀ f, f ≠ .ras → f ≠ .ras2 → f.isPos = false → p f = o.ptr f) (r1 : (p .pos).isSome = true) (r2 : (p .idx).isSome = true)
    (r4 : (p .ras2).isSome = (o.ptr .ras2).isSome) : OInv { o with ptr := p, cells := n, store := true, calcPos := true } := by
  refine ⟨by show (p _).isSome = (p _).isSome; rw [r1, r2], ?_, ?_, ?_, fun _ => hn⟩
  · intro hp
    apply h.ras2
    intro e
    rw [e] at r4
    exact hp (by simpa using r4)
  · intro k hk
    have hq : ∀ m, p (.stat m) = o.ptr (.stat m) := fun m => q _ (by simp) (by simp) rfl
    have hk : p (.stat k) ≠ none := hk
    rw [hq] at hk
    obtain ⟨h1, h2, h3⟩ := h.stat k hk
    exact ⟨h1, h2, fun m => by show p _ ≠ none; rw [hq]; exact h3 m⟩
  · exact h.subs.congr (fun k f => q _ (by simp) (by simp) rfl)

theorem valid_congr {o : Obj} {p : Field → Option Addr} {n : Nat} {st cp : Bool} (r3 : (p .ras).isSome = (o.ptr .ras).isSome)
    (r4 : (p .ras2).isSome = (o.ptr .ras2).isSome) : Obj.valid { o with ptr := p, cells := n, store := st, calcPos := cp } = o.valid := by
  unfold Obj.valid
  simp only [r3, r4]

/-- The raster has positions, as `o` or newly calculated. -/
structure Ready (o o' : Obj) : Prop where
  inv : OInv o'
  pos : (o'.ptr .pos).isSome = true
  mask : o'.mask = o.mask
  valid : o'.valid = o.valid
  is2d : o'.is2d = o.is2d
  subs : o'.subs = o.subs
  subp : ∀ k f, o'.ptr (.sub k f) = o.ptr (.sub k f)
  stat : ∀ n, o'.ptr (.stat n) = o.ptr (.stat n)
  stats : o'.stats = o.stats ∧ o'.statMap = o.statMap ∧ o'.ext = o.ext
  keep : ∀ f, f.isPos = true → (o.ptr f).isSome = true → o'.ptr f = o.ptr f

theorem Ready.idx {o o' : Obj} (h : Ready o o') : (o'.ptr .idx).isSome = true := by rw [← h.inv.posidx]; exact h.pos

theorem calc_ready {b : Objs} {i : Id} {w : World} {o : Obj} (s : St b i w o) (hi : OInv o) (hv : o.valid = true) (h1 : o.ptr .pos = none) {n : Nat}
    (hn : 1 ≤ n) : ∃ w' o', calcPositions w i n = .ok w' ∧ St b i w' o' ∧ Ready o o' ∧ o'.calcPos = true := by
  obtain ⟨w', p, e, s', q, r1, r2, r3, r4⟩ := calcPositions_st s hv h1 (isNone_of_eq hi.posidx h1) hn
  refine ⟨w', _, e, s', ⟨calcPositions_inv hi hn q r1 r2 r4, r1, rfl, valid_congr r3 r4, rfl, rfl, fun k f => q _ (by simp) (by simp) rfl,
    fun n => q _ (by simp) (by simp) rfl, ⟨rfl, rfl, rfl⟩, ?_⟩, rfl⟩
  intro f hf hs
  have h2 := isNone_of_eq hi.posidx h1
  cases f <;> simp [Field.isPos] at hf
  · rw [h1] at hs; cases hs
  · rw [h2] at hs; cases hs

theorem Ready.refl {o : Obj} (hi : OInv o) (hp : (o.ptr .pos).isSome = true) : Ready o o :=
  ⟨hi, hp, rfl, rfl, rfl, rfl, fun _ _ => rfl, fun _ => rfl, ⟨rfl, rfl, rfl⟩, fun _ _ _ => rfl⟩

theorem getPositions_noop {w : World} {i : Id} {o : Obj} (ho : w.objs i = some o) {f : Field} (h : (o.ptr f).isSome = true) (n : Nat) :
    getPositions w i f n = .ok w := by
  unfold getPositions
  rw [get_of ho, Out.ok_bind, h, Bool.true_or, if_pos rfl, Out.pure_eq]

theorem getPositions_st {b : Objs} {i : Id} {w : World} {o : Obj} (s : St b i w o) (hi : OInv o) (hv : o.valid = true) {n : Nat}
    (hn : 1 ≤ n) (f : Field) (hf : f.isPos = true) : ∃ w' o', getPositions w i f n = .ok w' ∧ St b i w' o' ∧ Ready o o' := by
  have hfp : (o.ptr f).isSome = (o.ptr .pos).isSome := by
    cases f <;> simp [Field.isPos] at hf
    · rfl
    · exact hi.posidx.symm
  by_cases h : (o.ptr .pos).isSome = true
  · exact ⟨w, o, getPositions_noop s.at_ (by rw [hfp]; exact h) n, s, Ready.refl hi h⟩
  · rw [Bool.not_eq_true] at h
    obtain ⟨w', o', e, s', r, _⟩ := calc_ready s hi hv (by simpa using h) hn
    refine ⟨w', o', ?_, s', r⟩
    unfold getPositions
    rw [s.get, Out.ok_bind, hfp, h, hv]
    simpa using e

/-- `getPositions` of any raster. -/
theorem getPositions_any {b : Objs} {i : Id} {w : World} {o : Obj} (s : St b i w o) (hi : OInv o) {n : Nat}
    (hn : 1 ≤ n) (f : Field) (hf : f.isPos = true) : ∃ w' o', getPositions w i f n = .ok w' ∧ St b i w' o' ∧ OInv o' := by
  by_cases hv : o.valid = true
  · obtain ⟨w', o', e, s', r⟩ := getPositions_st s hi hv hn f hf
    exact ⟨w', o', e, s', r.inv⟩
  · refine ⟨w, o, ?_, s, hi⟩
    rw [Bool.not_eq_true] at hv
    unfold getPositions
    rw [s.get, Out.ok_bind, hv]
    simp

/-! ## Positions of the mask -/

theorem share_eq {w : World} {i m : Id} {o om : Obj} (hmi : m ≠ i) (ho : w.objs i = some o) (hm : w.objs m = some om)
    (h1 : (om.ptr .pos).isSome = true) (h2 : (om.ptr .idx).isSome = true) (n : Nat) :
    share w m i n = .ok (w.set i { (o.setPtr .pos (om.ptr .pos)).setPtr .idx (om.ptr .idx) with cells := om.cells }) := by
  unfold share
  rw [getPositions_noop hm h1, Out.ok_bind, get_of hm, Out.ok_bind]
  have e1 : modify w i (fun o => o.setPtr .pos (om.ptr .pos)) = .ok (w.set i (o.setPtr .pos (om.ptr .pos))) := by
    unfold modify; rw [get_of ho]; rfl
  rw [e1, Out.ok_bind]
  have hm' : (w.set i (o.setPtr .pos (om.ptr .pos))).objs m = some om := by
    show upd w.objs i _ m = _
    rw [upd_ne _ _ hmi]; exact hm
  have ho' : (w.set i (o.setPtr .pos (om.ptr .pos))).objs i = some (o.setPtr .pos (om.ptr .pos)) := upd_self _ _ _
  rw [getPositions_noop hm' h2, Out.ok_bind, get_of hm', Out.ok_bind]
  unfold modify
  rw [get_of ho', Out.ok_bind]
  simp only [World.set, upd_upd, Out.pure_eq]

/-- The raster with the positions of its mask. -/
def Obj.shared (o om : Obj) : Obj := { (o.setPtr .pos (om.ptr .pos)).setPtr .idx (om.ptr .idx) with cells := om.cells, store := false }

theorem shared_st {b : Objs} {i m : Id} {w : World} {o om : Obj} (s : St b i w o) (hmi : m ≠ i) (hm : b m = some om)
    (h1 : (om.ptr .pos).isSome = true) (h2 : (om.ptr .idx).isSome = true) (hmask : o.mask = some m) (n1 : o.ptr .pos = none) (n2 : o.ptr .idx = none) :
    St b i (w.set i (o.shared om)) (o.shared om) := by
  obtain ⟨a1, ha1⟩ := Option.isSome_iff_exists.1 h1
  obtain ⟨a2, ha2⟩ := Option.isSome_iff_exists.1 h2
  refine set_st s _ ?_ ?_ (Or.inl rfl)
  · intro f hf
    have b1 : f ≠ .pos := by intro h; subst h; cases hf
    have b2 : f ≠ .idx := by intro h; subst h; cases hf
    show upd (upd o.ptr _ _) _ _ f = _
    rw [upd_ne _ _ b2, upd_ne _ _ b1]
  · intro f hf
    right
    cases f <;> simp [Field.isPos] at hf
    · refine ⟨n1, rfl, m, om, a1, hmi, hmask, hm, ha1, ?_⟩
      show upd (upd o.ptr Field.pos (om.ptr .pos)) Field.idx (om.ptr .idx) Field.pos = _
      rw [upd_ne _ _ (by simp), upd_self, ha1]
    · refine ⟨n2, rfl, m, om, a2, hmi, hmask, hm, ha2, ?_⟩
      show upd (upd o.ptr Field.pos (om.ptr .pos)) Field.idx (om.ptr .idx) Field.idx = _
      rw [upd_self, ha2]

/-- `share` for a raster without own positions. -/
theorem share_st {b : Objs} {i m : Id} {w : World} {o om : Obj} (s : St b i w o) (hmi : m ≠ i) (hm : b m = some om)
    (h1 : (om.ptr .pos).isSome = true) (h2 : (om.ptr .idx).isSome = true) (hmask : o.mask = some m) (n1 : o.ptr .pos = none) (n2 : o.ptr .idx = none)
    (hs : o.store = false) (n : Nat) : ∃ w', share w m i n = .ok w' ∧ St b i w' (o.shared om) := by
  refine ⟨_, share_eq hmi s.at_ (by rw [s.other hmi]; exact hm) h1 h2 n, ?_⟩
  have e : ({ (o.setPtr .pos (om.ptr .pos)).setPtr .idx (om.ptr .idx) with cells := om.cells } : Obj) = o.shared om := by
    unfold Obj.shared
    simp only [Obj.setPtr, hs]
  rw [e]
  exact shared_st s hmi hm h1 h2 hmask n1 n2

/-- `share` followed by `store_pos_ = false`. -/
theorem share_false_st {b : Objs} {i m : Id} {w : World} {o om : Obj} (s : St b i w o) (hmi : m ≠ i) (hm : b m = some om)
    (h1 : (om.ptr .pos).isSome = true) (h2 : (om.ptr .idx).isSome = true) (hmask : o.mask = some m) (n1 : o.ptr .pos = none) (n2 : o.ptr .idx = none)
    (n : Nat) : ∃ w', (share w m i n >>= fun w => modify w i (fun o => { o with store := false })) = .ok w' ∧ St b i w' (o.shared om) := by
  refine ⟨w.set i (o.shared om), ?_, shared_st s hmi hm h1 h2 hmask n1 n2⟩
  rw [share_eq hmi s.at_ (by rw [s.other hmi]; exact hm) h1 h2 n, Out.ok_bind]
  unfold modify
  rw [get_of (upd_self _ _ _ : (World.set _ _ _).objs i = _), Out.ok_bind]
  simp only [World.set, upd_upd, Out.pure_eq]
  rfl

end Life
end CCGL
