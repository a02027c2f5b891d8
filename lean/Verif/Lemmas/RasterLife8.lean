import Verif.Lemmas.RasterLife7
/-!
# Lemmas on the ownership of arrays: `Copy`, and all calls together
-/
namespace CCGL
namespace Life
open Spec

/-- A raster whose arrays have been released before copying. -/
structure Clear (o o' : Obj) : Prop where
  null : ∀ f, f ≠ .ras → o'.ptr f = none
  ras : o.is2d = false → o'.ptr .ras = none
  is2d : o'.is2d = o.is2d
  subs : o'.subs = []
  map : o.stats = false → o'.statMap = o.statMap

theorem copyClear_st {b : Objs} {i : Id} {w : World} {o : Obj} (s : St b i w o) (hi : OInv o) (hu : URef b i) (hown : OwnPos o) :
    ∃ w' o', copyClear w i = .ok w' ∧ St b i w' o' ∧ Clear o o' := by
  unfold copyClear
  rw [s.get, Out.ok_bind]
  obtain ⟨w1, e1, s1⟩ : ∃ w1, (bif o.is2d && (o.ptr .ras2).isSome && decide (0 < o.cells) then free w i .ras2 else .ok w) = Out.ok w1 ∧
      St b i w1 (o.setPtr .ras2 none) := by
    cases hp : o.ptr .ras2 with
    | none => exact ⟨w, by simp, by rw [setPtr_same _ _ hp]; exact s⟩
    | some a =>
      have h2 : o.is2d = true := hi.ras2 (by rw [hp]; simp)
      have hc : 1 ≤ o.cells := hi.cells (Or.inr (by rw [hp]; rfl))
      obtain ⟨w1, e1, s1⟩ := free_st s .ras2 (Or.inr (by intro h; cases h))
      refine ⟨w1, ?_, s1⟩
      rw [h2, show decide (0 < o.cells) = true from decide_eq_true hc]
      exact e1
  rw [e1, Out.ok_bind]
  obtain ⟨w2, p2, e2, s2, r2⟩ : ∃ w2 p2, (bif !o.is2d && (o.ptr .ras).isSome then free w1 i .ras else .ok w1) = Out.ok w2 ∧
      St b i w2 ((o.setPtr .ras2 none).setPtr .ras p2) ∧ (o.is2d = false → p2 = none) := by
    by_cases hb : (!o.is2d && (o.ptr .ras).isSome) = true
    · obtain ⟨w2, e2, s2⟩ := free_st s1 .ras (Or.inr (by intro h; cases h))
      exact ⟨w2, none, by rw [hb, cond_true, e2], s2, fun _ => rfl⟩
    · rw [Bool.not_eq_true] at hb
      refine ⟨w1, o.ptr .ras, by rw [hb, cond_false], ?_, ?_⟩
      · have : (o.setPtr .ras2 none).setPtr .ras (o.ptr .ras) = o.setPtr .ras2 none := by
          simp only [Obj.setPtr, Obj.mk.injEq, and_true]
          exact upd_same _ _ _ (upd_ne _ _ (by simp))
        rw [this]; exact s1
      · intro h2
        rw [h2, Bool.not_false, Bool.true_and] at hb
        simpa using hb
  rw [e2, Out.ok_bind]
  have hpos : ∀ f, f.isPos = true → ((o.setPtr .ras2 none).setPtr .ras p2).ptr f = o.ptr f := by
    intro f hf
    rw [setPtr_ne _ _ (by intro h; subst h; cases hf), setPtr_ne _ _ (by intro h; subst h; cases hf)]
  have hfree : ∀ f, f.isPos = true → ((o.setPtr .ras2 none).setPtr .ras p2).ptr f = none ∨ (f.isPos = true → o.store = true ∧ URef b i) := by
    intro f hf
    rcases hown with h | h
    · exact Or.inr (fun _ => ⟨h, hu⟩)
    · refine Or.inl ?_
      rw [hpos f hf]
      cases f <;> simp [Field.isPos] at hf
      · exact h
      · exact isNone_of_eq hi.posidx h
  obtain ⟨w3, e3, s3⟩ := free_st s2 .pos (hfree _ rfl)
  obtain ⟨w4, e4, s4⟩ := free_st s3 .idx (by
    rcases hfree .idx rfl with h | h
    · exact Or.inl (by rw [setPtr_ne _ _ (by simp)]; exact h)
    · exact Or.inr h)
  rw [e3, Out.ok_bind, e4, Out.ok_bind]
  obtain ⟨w5, o5, e5, s5, q5, n5, d5, t5, m5⟩ : ∃ w5 o5, (bif o.stats then (do
        let w ← releaseStats w4 i
        modify w i (fun o => { o with stats := false }))
      else .ok w4) = Out.ok w5 ∧ St b i w5 o5 ∧
      (∀ f, f.isStat = false → o5.ptr f = ((((o.setPtr .ras2 none).setPtr .ras p2).setPtr .pos none).setPtr .idx none).ptr f) ∧
      (∀ n, o5.ptr (.stat n) = none) ∧ o5.is2d = o.is2d ∧ o5.subs = o.subs ∧ (o.stats = false → o5.statMap = o.statMap) := by
    cases hst : o.stats with
    | true =>
      obtain ⟨w5, e5, s5⟩ := releaseStats_st s4
      obtain ⟨w6, e6, s6⟩ := flag_st s5 (fun o => { o with stats := false }) (fun _ => rfl) rfl rfl
      refine ⟨w6, _, by rw [cond_true, e5, Out.ok_bind, e6], s6, ?_, ?_, rfl, rfl, by simp⟩
      · intro f hf
        show (if f.isStat = true then none else _) = _
        rw [hf, if_neg (by simp)]
      · intro n
        simp [Obj.noStats, Field.isStat]
    | false =>
      refine ⟨w4, _, rfl, s4, fun _ _ => rfl, ?_, rfl, rfl, fun _ => rfl⟩
      intro n
      rw [setPtr_ne _ _ (by simp), setPtr_ne _ _ (by simp), setPtr_ne _ _ (by simp), setPtr_ne _ _ (by simp)]
      exact stat_none hi (by rw [hst]; simp) n
  rw [e5, Out.ok_bind]
  obtain ⟨w6, e6, s6⟩ := releaseSubset_st s5 (by
    rw [t5]
    refine hi.subs.congr (fun k f => ?_)
    rw [q5 _ rfl, setPtr_ne _ _ (by simp), setPtr_ne _ _ (by simp), setPtr_ne _ _ (by simp), setPtr_ne _ _ (by simp)])
  refine ⟨w6, _, e6, s6, ⟨?_, ?_, d5, rfl, m5⟩⟩
  · intro f hf
    show (if f.isSub = true then none else o5.ptr f) = none
    cases f with
    | ras => exact absurd rfl hf
    | ras2 =>
      rw [if_neg (by simp [Field.isSub]), q5 _ rfl, setPtr_ne _ _ (by simp), setPtr_ne _ _ (by simp), setPtr_ne _ _ (by simp), setPtr_self]
    | pos => rw [if_neg (by simp [Field.isSub]), q5 _ rfl, setPtr_ne _ _ (by simp), setPtr_self]
    | idx => rw [if_neg (by simp [Field.isSub]), q5 _ rfl, setPtr_self]
    | stat n => rw [if_neg (by simp [Field.isSub]), n5]
    | sub k g => exact if_pos rfl
  · intro h
    show (if (Field.ras).isSub = true then none else o5.ptr .ras) = none
    rw [if_neg (by simp [Field.isSub]), q5 _ rfl, setPtr_ne _ _ (by simp), setPtr_ne _ _ (by simp), setPtr_self, r2 h]

/-- The cells have been copied. -/
theorem copyData_st {b : Objs} {i j : Id} {w : World} {o oj : Obj} (s : St b i w o) (hji : j ≠ i) (hj : b j = some oj) (hv : oj.valid = true)
    (hc : 1 ≤ oj.cells) (h2 : o.is2d = true → oj.is2d = true) (hn : ∀ f, f ≠ .ras → o.ptr f = none) :
    ∃ w' p, copyData w i j oj = .ok w' ∧ St b i w' { o with ptr := p, cells := oj.cells, is2d := oj.is2d } ∧
      (∀ f, f ≠ .ras → f ≠ .ras2 → p f = none) ∧ (oj.is2d = false → p .ras2 = none) := by
  unfold copyData
  obtain ⟨w1, e1, s1⟩ := flag_st s (fun o => { o with cells := oj.cells }) (fun _ => rfl) rfl rfl
  rw [e1, Out.ok_bind]
  have hj1 : w1.objs j = some oj := by rw [s1.other hji]; exact hj
  unfold Obj.valid at hv
  rcases Bool.eq_false_or_eq_true oj.is2d with hd | hd
  · rw [hd, if_pos rfl] at hv
    obtain ⟨w2, e2, s2⟩ := flag_st s1 (fun o => { o with is2d := true }) (fun _ => rfl) rfl rfl
    obtain ⟨w3, p, e3, s3, _⟩ := alloc2_st s2 .ras2 hc rfl (by intro h; cases h)
    refine ⟨w3, _, by rw [hd, cond_true, touch_ok s1.inv hj1 hv, Out.ok_bind, e2, Out.ok_bind, e3], by rw [hd]; exact s3, ?_, by rw [hd]; simp⟩
    intro f hf hf'
    show upd o.ptr .ras2 p f = none
    rw [upd_ne _ _ hf']; exact hn f hf
  · have ho : o.is2d = false := by
      by_contra h
      rw [Bool.not_eq_false] at h
      rw [h2 h] at hd; cases hd
    obtain ⟨w3, p, e3, s3, _⟩ := alloc1d_st s1 .ras rfl (by intro h; cases h)
    refine ⟨w3, _, by rw [hd, cond_false, touchOpt_ok s1.inv hj1, Out.ok_bind, e3], by rw [hd, ← ho]; exact s3, ?_, ?_⟩
    · intro f hf hf'
      show upd o.ptr .ras p f = none
      rw [upd_ne _ _ hf]; exact hn f hf
    · intro _
      show upd o.ptr .ras p .ras2 = none
      rw [upd_ne _ _ (by simp)]; exact hn _ (by simp)

/-- The positions have been copied. -/
theorem copyPos_st {b : Objs} {i j : Id} {w : World} {o oj : Obj} (s : St b i w o) (hji : j ≠ i) (hj : b j = some oj) (hc : 1 ≤ oj.cells)
    (hp : oj.calcPos = true → (oj.ptr .pos).isSome = true) (n1 : o.ptr .pos = none) (n2 : o.ptr .idx = none) :
    ∃ w' p st, copyPos w i j oj = .ok w' ∧ St b i w' { o with ptr := p, store := st } ∧
      (∀ f, f.isPos = false → p f = o.ptr f) ∧ (p .pos).isSome = (p .idx).isSome := by
  unfold copyPos
  cases hcp : oj.calcPos with
  | false => exact ⟨w, o.ptr, o.store, rfl, s, fun _ _ => rfl, by rw [n1, n2]⟩
  | true =>
    obtain ⟨w1, e1, s1⟩ := store_st s (fun o => { o with store := true }) (fun _ => rfl) rfl n1 n2
    obtain ⟨w2, p2, e2, s2, q2⟩ := alloc2_st s1 .pos hc rfl (fun _ => rfl)
    obtain ⟨w3, p3, e3, s3, q3⟩ := alloc1d_st s2 .idx rfl (fun _ => rfl)
    have hj1 : w1.objs j = some oj := by rw [s1.other hji]; exact hj
    have hj2 : w2.objs j = some oj := by rw [s2.other hji]; exact hj
    refine ⟨w3, _, true, ?_, s3, ?_, ?_⟩
    · rw [cond_true, e1, Out.ok_bind, touch_ok s1.inv hj1 (hp hcp), Out.ok_bind, e2, Out.ok_bind, touchOpt_ok s2.inv hj2, Out.ok_bind, e3]
    · intro f hf
      show upd (upd o.ptr .pos p2) .idx p3 f = _
      rw [upd_ne _ _ (by intro h; subst h; cases hf), upd_ne _ _ (by intro h; subst h; cases hf)]
    · show (upd (upd o.ptr .pos p2) .idx p3 .pos).isSome = (upd (upd o.ptr .pos p2) .idx p3 .idx).isSome
      rw [upd_ne _ _ (by simp), upd_self, upd_self, q2, q3]

/-- The statistics have been copied. -/
theorem copyStat_st {b : Objs} {i j : Id} {w : World} {o oj : Obj} (s : St b i w o) (hji : j ≠ i) (hj : b j = some oj) (h2 : o.is2d = oj.is2d)
    (hst : oj.stats = true → oj.is2d = true → o.statMap = true) (hn : ∀ n, o.ptr (.stat n) = none) :
    ∃ w' p, copyStat w i j oj = .ok w' ∧ St b i w' { o with ptr := p, stats := oj.stats } ∧
      (∀ f, f.isStat = false → p f = o.ptr f) ∧ ((∀ n, p (.stat n) = none) ∨ (o.is2d = true ∧ oj.stats = true ∧ ∀ n, p (.stat n) ≠ none)) := by
  unfold copyStat
  obtain ⟨w1, e1, s1⟩ := flag_st s (fun o => { o with stats := oj.stats }) (fun _ => rfl) rfl rfl
  rw [e1, Out.ok_bind, s1.get, Out.ok_bind]
  cases hb : (oj.stats && o.is2d) with
  | false => exact ⟨w1, o.ptr, rfl, s1, fun _ _ => rfl, Or.inl hn⟩
  | true =>
    simp only [Bool.and_eq_true] at hb
    have hmap : o.statMap = true := hst hb.1 (by rw [← h2]; exact hb.2)
    obtain ⟨w2, p, e2, s2, q, r⟩ := copyStats_st hji hj six s1 six_nodup (fun n _ => hn n)
    refine ⟨w2, p, ?_, s2, ?_, Or.inr ⟨hb.2, hb.1, fun n => r n (all_six n)⟩⟩
    · dsimp only
      rw [cond_true, hmap, cond_true, e2]
    · intro f hf
      exact q f (by rw [mem_six, hf]; simp)

theorem copy_ok {w : World} (hw : WInv w) {i j : Id} {o oj : Obj} (hij : i ≠ j) (ho : w.objs i = some o) (hj : w.objs j = some oj) (hu : URef w.objs i)
    (hown : OwnPos o) (hc : CopyOk o oj) : ∃ w', copy w i j = .ok w' ∧ WInv w' ∧ Fr w i none w' := by
  have hji : j ≠ i := Ne.symm hij
  have ij := hw.o j oj hj
  obtain ⟨w1, o1, e1, s1, c1⟩ := copyClear_st (St.mk' hw.h ho) (hw.o i o ho) hu hown
  obtain ⟨w2, e2, s2⟩ := mask_st s1 (fun o => { o with mask := oj.mask, calcPos := oj.calcPos, ext := oj.ext && oj.mask.isSome }) (fun _ => rfl)
    (Or.inl ⟨c1.null _ (by simp), c1.null _ (by simp)⟩) (fun m hm _ => hw.h.alive j oj m hj hm)
  obtain ⟨w3, p3, e3, s3, q3, r3⟩ := copyData_st s2 hji hj hc.1 hc.2.1 (fun h => hc.2.2.2.1 (by rw [← c1.is2d]; exact h)) (fun f hf => c1.null f hf)
  obtain ⟨w4, p4, st4, e4, s4, q4, r4⟩ := copyPos_st s3 hji hj hc.2.1 hc.2.2.1 (q3 _ (by simp) (by simp)) (q3 _ (by simp) (by simp))
  have q4 : ∀ f, f.isPos = false → p4 f = p3 f := q4
  have hn4 : ∀ f, f ≠ .ras → f ≠ .ras2 → f.isPos = false → p4 f = none := fun f h1 h2 h3 => by rw [q4 f h3]; exact q3 f h1 h2
  obtain ⟨w5, p5, e5, s5, q5, r5⟩ := copyStat_st s4 hji hj rfl (fun h1 h2 => by
      obtain ⟨a1, a2⟩ := hc.2.2.2.2 h1 h2
      show o1.statMap = true
      rw [c1.map a2]; exact a1) (fun n => hn4 _ (by simp) (by simp) rfl)
  have q5 : ∀ f, f.isStat = false → p5 f = p4 f := q5
  have hsub5 : ∀ k f, p5 (.sub k f) = none := fun k f => by rw [q5 _ rfl]; exact hn4 _ (by simp) (by simp) rfl
  obtain ⟨w6, p6, e6, s6, q6, t6, _⟩ := copySubs_st hji hj oj.subs s5 (by
      show SubInv p5 o1.subs
      rw [c1.subs]; exact SubInv.nil hsub5)
    (fun e hem => ⟨(ij.subs.full e hem).1, (ij.subs.full e hem).2.1, (ij.subs.full e hem).2.2.2.1⟩)
    (by
      show ((o1.subs ++ oj.subs).map Prod.fst).Nodup
      rw [c1.subs]; simpa using ij.subs.nodup)
  have q6 : ∀ f, f.isSub = false → p6 f = p5 f := q6
  refine ⟨w6, ?_, s6.win (fun k ok hk _ => hw.o k ok hk) ?_, Fr.of_st s6 _⟩
  · unfold copy
    have hj1 : w1.objs j = some oj := by rw [s1.other hji]; exact hj
    have e2 : setArgs w1 i oj.mask oj.calcPos oj.ext = .ok w2 := e2
    rw [e1, Out.ok_bind, get_of hj1, Out.ok_bind, e2, Out.ok_bind, e3, Out.ok_bind, e4, Out.ok_bind, e5, Out.ok_bind, e6]
  · refine ⟨?_, ?_, ?_, t6, fun _ => hc.2.1⟩
    · show (p6 .pos).isSome = (p6 .idx).isSome
      rw [q6 _ rfl, q6 _ rfl, q5 _ rfl, q5 _ rfl]; exact r4
    · intro h
      have h : p6 .ras2 ≠ none := h
      rw [q6 _ rfl, q5 _ rfl, q4 _ rfl] at h
      show oj.is2d = true
      by_contra h2
      exact h (r3 (by simpa using h2))
    · intro n hn
      have hn : p6 (.stat n) ≠ none := hn
      rw [q6 _ rfl] at hn
      rcases r5 with a | ⟨a1, a2, a3⟩
      · exact absurd (a n) hn
      · exact ⟨a1, a2, fun m => by show p6 _ ≠ none; rw [q6 _ rfl]; exact a3 m⟩

/-! ## All calls -/

theorem step_ok {w : World} (hw : WInv w) {op : Op} (ha : Allowed w op) (d : Nat) :
    ∃ w', step (d + 2) w op = .ok w' ∧ WInv w' ∧ Fr w op.target (op.maskIn w) w' := by
  have hothers : ∀ (i : Id) j oj, w.objs j = some oj → j ≠ i → OInv oj := fun _ j oj hj _ => hw.o j oj hj
  have hex : ∀ i, w.objs i ≠ none → ∃ o, w.objs i = some o := fun i h => Option.ne_none_iff_exists'.1 h
  cases op with
  | newEmpty i b =>
    obtain ⟨w', e, h, s⟩ := newEmpty_ok hw ha b
    exact ⟨w', e, h, Fr.of_st s _⟩
  | newArray i two n => exact newArray_ok hw ha.1 two ha.2
  | newMask i m two len s =>
    obtain ⟨h1, h2, om, h3, h4⟩ := ha
    exact newMask_ok hw h1 h3 h4 two len h2
  | read i a =>
    obtain ⟨⟨o, h1, h2⟩, h3, h4, h5⟩ := ha
    obtain ⟨w', r, o', e, h, _, fr, _⟩ := readFile_ok hw h1 h2 (NoMaskOf.uref h3) h4 h5 d
    refine ⟨w', ?_, h, fr⟩
    show (readFile (d + 2) w i a >>= fun x => pure x.1) = _
    rw [e]; rfl
  | readFiles i a =>
    obtain ⟨⟨o, h1, h2⟩, h3, h4, h5⟩ := ha
    obtain ⟨w', r, o', e, h, _, fr⟩ := readFiles_ok hw h1 h2 (NoMaskOf.uref h3) h4 h5 d
    refine ⟨w', ?_, h, fr⟩
    show (readFiles (d + 2) w i a >>= fun x => pure x.1) = _
    rw [e]; rfl
  | readGfs i mask c e g s =>
    obtain ⟨⟨o, h1, h2⟩, h3, h4, h5, h6⟩ := ha
    obtain ⟨w', r, o', e', h, _, fr⟩ := readGfs_ok hw h1 h2 (NoMaskOf.uref h3) h4 c e h5 h6 d
    refine ⟨w', ?_, h, fr⟩
    show (readGfs (d + 2) w i mask c e g s >>= fun x => pure x.1) = _
    rw [e']; rfl
  | init i many a =>
    obtain ⟨h1, h2, h3⟩ := ha
    obtain ⟨w1, e1, hw1, s1⟩ := newEmpty_ok hw h1 false
    have he : Spec.Empty (emptyObj false) := ⟨fun _ => rfl, rfl, rfl⟩
    have hu1 : URef w1.objs i := URef.fr (Fr.of_st s1 none) (uref_new hw.h h1)
    obtain ⟨w2, r, o2, e2, hw2, ho2, fr2⟩ : ∃ w2 r o2, (bif many then readFiles (d + 2) w1 i a else readFile (d + 2) w1 i a) = .ok (w2, r) ∧
        WInv w2 ∧ w2.objs i = some o2 ∧ Fr w1 i a.mask w2 := by
      cases many with
      | true => exact readFiles_ok hw1 s1.at_ he hu1 (maskOk_st h2 s1) h3 d
      | false =>
        obtain ⟨w2, r, o2, e2, a1, a2, a3, _⟩ := readFile_ok hw1 s1.at_ he hu1 (maskOk_st h2 s1) h3 d
        exact ⟨w2, r, o2, e2, a1, a2, a3⟩
    have fr : Fr w i a.mask w2 := (Fr.of_st s1 _).trans fr2
    have hstep : step (d + 2) w (.init i many a) = (newEmpty w i false >>= fun w => (bif many then readFiles (d + 2) w i a else readFile (d + 2) w i a) >>=
        fun x => if x.2 then pure x.1 else destroy x.1 i) := rfl
    rw [hstep, e1, Out.ok_bind, e2, Out.ok_bind]
    cases r with
    | true => exact ⟨w2, rfl, hw2, fr⟩
    | false =>
      obtain ⟨w3, e3, hw3, h3⟩ := destroy_ok hw2 ho2 (URef.fr fr2 hu1)
      refine ⟨w3, e3, hw3, fr.trans ?_⟩
      intro j hj
      exact Or.inl (by rw [h3, upd_ne _ _ hj])
  | newCopy i j =>
    obtain ⟨h1, oj, h2, h3⟩ := ha
    obtain ⟨w1, e1, hw1, s1⟩ := newEmpty_ok hw h1 false
    have hij : i ≠ j := by intro h; subst h; rw [h1] at h2; cases h2
    obtain ⟨w2, e2, hw2, fr2⟩ := copy_ok hw1 hij s1.at_ (by rw [s1.other (Ne.symm hij)]; exact h2) (URef.fr (Fr.of_st s1 none) (uref_new hw.h h1))
      (Or.inr rfl) h3
    refine ⟨w2, ?_, hw2, (Fr.of_st s1 _).trans fr2⟩
    show (newEmpty w i false >>= fun w => copy w i j) = _
    rw [e1, Out.ok_bind, e2]
  | build i s =>
    obtain ⟨h1, o, h2, h3⟩ := ha
    obtain ⟨w', r, o', e, h, _, fr⟩ := buildSubSet_ok hw h2 h1 (fun a b c => by
      obtain ⟨x, y, z⟩ := h3 a b c
      exact ⟨x, NoMaskOf.uref y, z⟩) d
    refine ⟨w', ?_, h, ?_⟩
    · show (buildSubSet (d + 2) w i s >>= fun x => pure x.1) = _
      rw [e]; rfl
    · show Fr w i ((w.objs i).bind (·.mask)) w'
      rw [h2]; exact fr
  | rebuild i s =>
    obtain ⟨h1, o, h2, h3⟩ := ha
    have hi := hw.o i o h2
    obtain ⟨w1, e1, s1⟩ := releaseSubset_st (St.mk' hw.h h2) hi.subs
    have hp : ∀ f, f.isSub = false → o.noSubs.ptr f = o.ptr f := by
      intro f hf
      show (if f.isSub = true then none else o.ptr f) = _
      rw [hf, if_neg (by simp)]
    have i1 : OInv o.noSubs := by
      refine ⟨by rw [hp _ rfl, hp _ rfl]; exact hi.posidx, by rw [hp _ rfl]; exact hi.ras2, ?_, SubInv.nil (fun k f => ?_), by rw [hp _ rfl, hp _ rfl]; exact hi.cells⟩
      · intro n hn
        rw [hp _ rfl] at hn
        obtain ⟨a1, a2, a3⟩ := hi.stat n hn
        exact ⟨a1, a2, fun m => by rw [hp _ rfl]; exact a3 m⟩
      · simp [Obj.noSubs, Field.isSub]
    have hv : o.noSubs.valid = o.valid := by
      unfold Obj.valid
      rw [hp _ rfl, hp _ rfl]; rfl
    obtain ⟨w', r, o', e, h, _, fr⟩ := buildSubSet_ok (s1.win (hothers i) i1) s1.at_ h1 (fun a b c => by
      rw [hv] at a
      rw [hp _ rfl] at b
      obtain ⟨x, y, z⟩ := h3 a b c
      refine ⟨maskOk_st x s1, URef.fr (Fr.of_st s1 none) (NoMaskOf.uref y), ?_⟩
      rcases z with z | z
      · exact Or.inl z
      · exact Or.inr (by rw [hp _ rfl]; exact z)) d
    refine ⟨w', ?_, h, ?_⟩
    · show (releaseSubset w i >>= fun w => buildSubSet (d + 2) w i s >>= fun x => pure x.1) = _
      rw [e1, Out.ok_bind, e]; rfl
    · show Fr w i ((w.objs i).bind (·.mask)) w'
      rw [h2]; exact (Fr.of_st s1 _).trans fr
  | releaseSubset i =>
    obtain ⟨o, h2⟩ := hex i ha
    have hi := hw.o i o h2
    obtain ⟨w1, e1, s1⟩ := releaseSubset_st (St.mk' hw.h h2) hi.subs
    have hp : ∀ f, f.isSub = false → o.noSubs.ptr f = o.ptr f := by
      intro f hf
      show (if f.isSub = true then none else o.ptr f) = _
      rw [hf, if_neg (by simp)]
    have i1 : OInv o.noSubs := by
      refine ⟨by rw [hp _ rfl, hp _ rfl]; exact hi.posidx, by rw [hp _ rfl]; exact hi.ras2, ?_, SubInv.nil (fun k f => ?_), by rw [hp _ rfl, hp _ rfl]; exact hi.cells⟩
      · intro n hn
        rw [hp _ rfl] at hn
        obtain ⟨a1, a2, a3⟩ := hi.stat n hn
        exact ⟨a1, a2, fun m => by rw [hp _ rfl]; exact a3 m⟩
      · simp [Obj.noSubs, Field.isSub]
    exact ⟨w1, e1, s1.win (hothers i) i1, Fr.of_st s1 _⟩
  | setData i k two =>
    obtain ⟨o, h2⟩ := hex i ha
    obtain ⟨w', o', e, s, i'⟩ := setData_st (St.mk' hw.h h2) (hw.o i o h2) k two
    exact ⟨w', e, s.win (hothers i) i', Fr.of_st s _⟩
  | calcStats i =>
    obtain ⟨o, h2, hv⟩ := ha
    obtain ⟨w', o', e, s, i', _⟩ := calcStats_st (St.mk' hw.h h2) (hw.o i o h2) hv
    exact ⟨w', e, s.win (hothers i) i', Fr.of_st s _⟩
  | updateStats i =>
    obtain ⟨o, h2, hv⟩ := ha
    obtain ⟨w', o', e, s, i', _⟩ := updateStats_st (St.mk' hw.h h2) (hw.o i o h2) hv
    exact ⟨w', e, s.win (hothers i) i', Fr.of_st s _⟩
  | getStat i n =>
    obtain ⟨o, h2⟩ := hex i ha
    obtain ⟨w', o', e, s, i', _⟩ := getStat_st (St.mk' hw.h h2) (hw.o i o h2) n
    exact ⟨w', e, s.win (hothers i) i', Fr.of_st s _⟩
  | setCalc i s =>
    obtain ⟨h1, o, h2, h3⟩ := ha
    obtain ⟨w', r, o', e, h, _, fr, _⟩ := setCalc_ok hw h2 h1 (fun a b c => by
      obtain ⟨x, y, z⟩ := h3 a b c
      exact ⟨x, NoMaskOf.uref y, z⟩) d
    refine ⟨w', ?_, h, ?_⟩
    · show (setCalc (d + 2) w i s >>= fun x => pure x.1) = _
      rw [e]; rfl
    · show Fr w i ((w.objs i).bind (·.mask)) w'
      rw [h2]; exact fr
  | setExt i s =>
    obtain ⟨h1, o, h2, h3⟩ := ha
    obtain ⟨w', r, o', e, h, _, fr⟩ := setExt_ok hw h2 h1 (fun a b c => by
      obtain ⟨x, y, z⟩ := h3 a b c
      exact ⟨x, NoMaskOf.uref y, z⟩) d
    refine ⟨w', ?_, h, ?_⟩
    · show (setExt (d + 2) w i s >>= fun x => pure x.1) = _
      rw [e]; rfl
    · show Fr w i ((w.objs i).bind (·.mask)) w'
      rw [h2]; exact fr
  | setPositions i f len => exact ha.elim
  | getPositions i s =>
    obtain ⟨h1, h0⟩ := ha
    obtain ⟨o, h2⟩ := hex i h0
    obtain ⟨w1, o1, e1, s1, i1⟩ := getPositions_any (St.mk' hw.h h2) (hw.o i o h2) h1.1 .pos rfl
    obtain ⟨w2, o2, e2, s2, i2⟩ := getPositions_any s1 i1 h1.1 .idx rfl
    refine ⟨w2, ?_, s2.win (hothers i) i2, Fr.of_st s2 _⟩
    show (getPositions w i .pos s.valid >>= fun w => getPositions w i .idx s.valid) = _
    rw [e1, Out.ok_bind, e2]
  | copy i j =>
    obtain ⟨h1, h2, o, oj, h3, h4, h5, h6⟩ := ha
    exact copy_ok hw h1 h3 h4 (NoMaskOf.uref h2) h5 h6
  | use i =>
    obtain ⟨o, h2⟩ := hex i ha
    refine ⟨w, ?_, hw, fun _ _ => Or.inl rfl⟩
    show (use w i >>= fun _ => pure w) = _
    rw [use_ok hw.h h2]; rfl
  | delete i =>
    obtain ⟨h0, h1⟩ := ha
    obtain ⟨o, h2⟩ := hex i h0
    obtain ⟨w', e, h, h3⟩ := destroy_ok hw h2 (NoMaskOf.uref h1)
    exact ⟨w', e, h, fun j hj => Or.inl (by rw [h3]; exact upd_ne _ _ hj)⟩

theorem start_inv : WInv start := by
  refine ⟨⟨fun _ _ => rfl, ?_, ?_, ?_, ?_, ?_⟩, ?_⟩
  · intro i o f a h; cases h
  · rintro i f j g a ⟨o, h, _⟩; cases h
  · intro a h; exact absurd rfl h
  · intro i o f a h; cases h
  · intro i o m h; cases h
  · intro i o h; cases h

theorem run_ok (ops : List Op) : ∀ {w : World}, WInv w → ∀ d, Disciplined (d + 2) w ops → ∃ w', run (d + 2) w ops = .ok w' ∧ WInv w' := by
  induction ops with
  | nil => intro w hw d _; exact ⟨w, rfl, hw⟩
  | cons op l ih =>
    intro w hw d hd
    obtain ⟨w1, e1, hw1, _⟩ := step_ok hw hd.1 d
    obtain ⟨w2, e2, hw2⟩ := ih hw1 d (hd.2 w1 e1)
    refine ⟨w2, ?_, hw2⟩
    show (step (d + 2) w op >>= fun w => run (d + 2) w l) = _
    rw [e1, Out.ok_bind, e2]

end Life
end CCGL
