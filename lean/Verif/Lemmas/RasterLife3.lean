import Verif.Lemmas.RasterLife2
/-!
# Lemmas on the ownership of arrays: masking
-/
namespace CCGL
namespace Life
open Spec

theorem SubInv.remove {p q : Field → Option Addr} {acc l : List (Int × Sub)} {e : Int × Sub} (h : SubInv p (acc ++ e :: l))
    (hq : ∀ f, f.inSub e.1 = false → q f = p f) (hn : ∀ f, q (.sub e.1 f) = none) : SubInv q (acc ++ l) := by
  have hk : ∀ k f, k ≠ e.1 → q (.sub k f) = p (.sub k f) := fun k f hk => hq _ (by simp [Field.inSub, hk])
  have hnd := h.nodup
  simp only [List.map_append, List.map_cons] at hnd
  have hnd' : (e.1 :: (acc.map Prod.fst ++ l.map Prod.fst)).Nodup := (List.perm_middle).nodup_iff.1 hnd
  have hne : ∀ x ∈ acc ++ l, x.1 ≠ e.1 := by
    intro x hx hxe
    have : e.1 ∈ acc.map Prod.fst ++ l.map Prod.fst := by
      rw [← List.map_append, ← hxe]
      exact List.mem_map.2 ⟨x, hx, rfl⟩
    exact (List.nodup_cons.1 hnd').1 this
  refine ⟨?_, ?_, ?_⟩
  · intro k f hkf
    by_cases hke : k = e.1
    · subst hke; exact absurd (hn f) hkf
    · rw [hk k f hke] at hkf
      have := h.only k f hkf
      simp only [List.map_append, List.map_cons, List.mem_append, List.mem_cons] at this ⊢
      rcases this with h | h | h
      · exact Or.inl h
      · exact absurd h hke
      · exact Or.inr h
  · intro x hx
    simp only [hk _ _ (hne x hx)]
    refine h.full x ?_
    rcases List.mem_append.1 hx with h | h
    · exact List.mem_append.2 (Or.inl h)
    · exact List.mem_append.2 (Or.inr (List.mem_cons_of_mem _ h))
  · rw [List.map_append]
    exact (List.nodup_cons.1 hnd').2

theorem SubInv.replace {p q : Field → Option Addr} {acc l : List (Int × Sub)} {e : Int × Sub} (t : Sub) (h : SubInv p (acc ++ e :: l))
    (hq : ∀ f, f.inSub e.1 = false → q f = p f) (ha : t.alloc = true) (hc : 1 ≤ t.cells) (h1 : (q (.sub e.1 .glob)).isSome = true)
    (h2 : (q (.sub e.1 .lpos)).isSome = true) (h3 : (q (.sub e.1 .lidx)).isSome = true) : SubInv q ((acc ++ [(e.1, t)]) ++ l) := by
  have hk : ∀ k f, k ≠ e.1 → q (.sub k f) = p (.sub k f) := fun k f hk => hq _ (by simp [Field.inSub, hk])
  have hnd := h.nodup
  simp only [List.map_append, List.map_cons] at hnd
  have hnd' : (e.1 :: (acc.map Prod.fst ++ l.map Prod.fst)).Nodup := (List.perm_middle).nodup_iff.1 hnd
  have hne : ∀ x ∈ acc ++ l, x.1 ≠ e.1 := by
    intro x hx hxe
    have : e.1 ∈ acc.map Prod.fst ++ l.map Prod.fst := by
      rw [← List.map_append, ← hxe]
      exact List.mem_map.2 ⟨x, hx, rfl⟩
    exact (List.nodup_cons.1 hnd').1 this
  refine ⟨?_, ?_, ?_⟩
  · intro k f hkf
    by_cases hke : k = e.1
    · simp [hke]
    · rw [hk k f hke] at hkf
      have := h.only k f hkf
      simpa using this
  · intro x hx
    have hx : x ∈ acc ∨ x = (e.1, t) ∨ x ∈ l := by simpa using hx
    rcases hx with hx | hx | hx
    · simp only [hk _ _ (hne x (List.mem_append.2 (Or.inl hx)))]
      exact h.full x (List.mem_append.2 (Or.inl hx))
    · subst hx
      exact ⟨ha, hc, h1, h2, h3⟩
    · simp only [hk _ _ (hne x (List.mem_append.2 (Or.inr hx)))]
      exact h.full x (List.mem_append.2 (Or.inr (List.mem_cons_of_mem _ hx)))
  · simpa using hnd

/-- A subset that is calculated again. -/
theorem recalcSub_st {b : Objs} {i : Id} {w : World} {o : Obj} (s : St b i w o) (k : Int) (n : Nat) (hn : 1 ≤ n)
    (hd : o.ptr (.sub k .data) = none ∧ o.ptr (.sub k .data2) = none) :
    ∃ w' p, (do
        let w ← bif true then do
            let w ← free w i (.sub k .glob)
            let w ← free w i (.sub k .lpos)
            free w i (.sub k .lidx)
          else .ok w
        let w ← modify w i (fun o => ((o.setPtr (.sub k .glob) none).setPtr (.sub k .lpos) none).setPtr (.sub k .lidx) none)
        let w ← alloc1 w i (.sub k .glob) n
        let w ← alloc2 w i (.sub k .lpos) n
        let w ← alloc1 w i (.sub k .lidx) n
        modify w i (fun o => (o.setPtr (.sub k .data) none).setPtr (.sub k .data2) none)) = Out.ok w' ∧
      St b i w' { o with ptr := p } ∧ (∀ f, f.inSub k = false → p f = o.ptr f) ∧ (p (.sub k .glob)).isSome = true ∧
      (p (.sub k .lpos)).isSome = true ∧ (p (.sub k .lidx)).isSome = true ∧ p (.sub k .data) = none ∧ p (.sub k .data2) = none := by
  obtain ⟨w1, e1, s1⟩ := free_st s (.sub k .glob) (Or.inr (by intro h; cases h))
  obtain ⟨w2, e2, s2⟩ := free_st s1 (.sub k .lpos) (Or.inr (by intro h; cases h))
  obtain ⟨w3, e3, s3⟩ := free_st s2 (.sub k .lidx) (Or.inr (by intro h; cases h))
  obtain ⟨w4, e4, s4⟩ := flag_st s3 (fun o => ((o.setPtr (.sub k .glob) none).setPtr (.sub k .lpos) none).setPtr (.sub k .lidx) none)
    (fun f => by
      simp only [Obj.setPtr, upd]
      by_cases a1 : f = .sub k .lidx
      · simp [a1]
      · by_cases a2 : f = .sub k .lpos
        · simp [a2]
        · by_cases a3 : f = .sub k .glob
          · simp [a3]
          · simp [a1, a2, a3]) rfl rfl
  obtain ⟨w5, p5, e5, s5, q5⟩ := alloc1_st s4 (.sub k .glob) hn rfl (by intro h; cases h)
  obtain ⟨w6, p6, e6, s6, q6⟩ := alloc2_st s5 (.sub k .lpos) hn rfl (by intro h; cases h)
  obtain ⟨w7, p7, e7, s7, q7⟩ := alloc1_st s6 (.sub k .lidx) hn rfl (by intro h; cases h)
  obtain ⟨w8, e8, s8⟩ := flag_st s7 (fun o => (o.setPtr (.sub k .data) none).setPtr (.sub k .data2) none)
    (fun f => by
      by_cases a1 : f = .sub k .data
      · subst a1
        simp [Obj.setPtr, upd, hd.1]
      · by_cases a2 : f = .sub k .data2
        · subst a2
          simp [Obj.setPtr, upd, hd.2]
        · rw [setPtr_ne _ _ a2, setPtr_ne _ _ a1]) rfl rfl
  refine ⟨w8, _, ?_, s8, ?_, ?_, ?_, ?_, ?_, ?_⟩
  · simp only [cond_true, e1, e2, e3, e4, e5, e6, e7, e8, Out.ok_bind]
  · intro f hf
    have hne : ∀ g, f ≠ .sub k g := by
      intro g h; rw [h] at hf; simp [Field.inSub] at hf
    simp only [Obj.setPtr, upd, hne, if_false]
  · simpa [Obj.setPtr, upd] using q5
  · simpa [Obj.setPtr, upd] using q6
  · simpa [Obj.setPtr, upd] using q7
  · simp [Obj.setPtr, upd]
  · simp [Obj.setPtr, upd]

theorem trimSubs_st {b : Objs} {i m : Id} {om : Obj} {vp : Addr} (hmi : m ≠ i) (hm : b m = some om) (hvp : om.ptr .pos = some vp)
    (left : Int → Nat) (re : Bool) (l : List (Int × Sub)) : ∀ {w : World} {o : Obj} (acc : List (Int × Sub)), St b i w o → SubInv o.ptr (acc ++ l) →
    (∀ k, o.ptr (.sub k .data) = none ∧ o.ptr (.sub k .data2) = none) →
    ∃ w' p r, trimSubs w i vp left re l = .ok (w', r) ∧ St b i w' { o with ptr := p } ∧ (∀ f, f.isSub = false → p f = o.ptr f) ∧
      SubInv p (acc ++ r) := by
  induction l with
  | nil =>
    intro w o acc s hs _
    exact ⟨w, o.ptr, [], rfl, s, fun _ _ => rfl, hs⟩
  | cons e l ih =>
    intro w o acc s hs hd
    have hmem : e ∈ acc ++ e :: l := by simp
    obtain ⟨hal, hce, hg1, hg2, hg3⟩ := hs.full e hmem
    have hwm : w.objs m = some om := by rw [s.other hmi]; exact hm
    obtain ⟨bl, hbl, _⟩ := s.inv.live m om .pos vp hwm hvp
    have hns : ∀ {f : Field}, f.isSub = false → f.inSub e.1 = false := by
      intro f hf; cases f <;> simp_all [Field.isSub, Field.inSub]
    unfold trimSubs
    rw [touch_ok s.inv s.at_ hg1, Out.ok_bind, hbl, Option.isNone_some, if_neg (by simp), touchCells_ok s.inv s.at_, Out.ok_bind]
    by_cases hz : left e.1 = 0
    · rw [if_pos hz]
      obtain ⟨w1, e1, s1⟩ := freeSub_st s e.1 e.2 hal
      have hs1 : SubInv (fun f => if f.inSub e.1 then none else o.ptr f) (acc ++ l) :=
        hs.remove (fun f hf => by simp [hf]) (fun f => by simp [Field.inSub])
      obtain ⟨w2, p2, r2, e2, s2, q2, t2⟩ := ih acc s1 hs1 (fun k => by
        by_cases hk : k = e.1 <;> simp [Field.inSub, hk, (hd k).1, (hd k).2])
      refine ⟨w2, p2, r2, ?_, s2, ?_, t2⟩
      · rw [e1, Out.ok_bind, e2]
      · intro f hf
        rw [q2 f hf]
        show (if f.inSub e.1 = true then none else o.ptr f) = _
        rw [hns hf]
        simp
    · rw [if_neg hz]
      have hpos : 1 ≤ left e.1 := by omega
      cases re with
      | true =>
        obtain ⟨w1, p1, e1, s1, q1, g1, g2, g3, d1, d2⟩ := recalcSub_st s e.1 (left e.1) hpos (hd e.1)
        have hs1 := hs.replace (q := p1) ⟨left e.1, true⟩ q1 rfl hpos g1 g2 g3
        obtain ⟨w2, p2, r2, e2, s2, q2, t2⟩ := ih (acc ++ [(e.1, ⟨left e.1, true⟩)]) s1 hs1 (fun k => by
          by_cases hk : k = e.1
          · subst hk; exact ⟨d1, d2⟩
          · exact ⟨by show p1 _ = none; rw [q1 _ (by simp [Field.inSub, hk])]; exact (hd k).1,
              by show p1 _ = none; rw [q1 _ (by simp [Field.inSub, hk])]; exact (hd k).2⟩)
        refine ⟨w2, p2, (e.1, ⟨left e.1, true⟩) :: r2, ?_, s2, ?_, by simpa using t2⟩
        · rw [cond_true, hal, e1, Out.ok_bind, e2, Out.ok_bind]
          rfl
        · intro f hf
          rw [q2 f hf]
          exact q1 f (hns hf)
      | false =>
        have hs1 : SubInv o.ptr ((acc ++ [e]) ++ l) := by simpa using hs
        obtain ⟨w2, p2, r2, e2, s2, q2, t2⟩ := ih (acc ++ [e]) s hs1 hd
        refine ⟨w2, p2, e :: r2, ?_, s2, q2, by simpa using t2⟩
        rw [cond_false, Out.ok_bind, e2, Out.ok_bind]
        rfl

/-! ## The stages of masking -/

theorem maskCopy_st {b : Objs} {i m : Id} {w : World} {o om : Obj} (s : St b i w o) (hmi : m ≠ i) (hm : b m = some om) (him : OInv om)
    (hs : SubInv o.ptr o.subs) : ∃ w' p t, maskCopy w i m = .ok w' ∧ St b i w' { o with ptr := p, subs := t } ∧
      (∀ f, f.isSub = false → p f = o.ptr f) ∧ SubInv p t ∧
      (om.subs.isEmpty = false → NoSubsetData om → ∀ k, p (.sub k .data) = none ∧ p (.sub k .data2) = none) := by
  unfold maskCopy
  rw [get_of (show w.objs m = some om by rw [s.other hmi]; exact hm), Out.ok_bind]
  cases he : om.subs.isEmpty with
  | true => exact ⟨w, o.ptr, o.subs, rfl, s, fun _ _ => rfl, hs, by simp⟩
  | false =>
    obtain ⟨w1, e1, s1⟩ := releaseSubset_st s hs
    have hnil : SubInv o.noSubs.ptr o.noSubs.subs := SubInv.nil (fun k f => by simp [Obj.noSubs, Field.isSub])
    obtain ⟨w2, p2, e2, s2, q2, r2, t2⟩ := copySubs_st hmi hm om.subs s1 hnil
      (fun e he => ⟨(him.subs.full e he).1, (him.subs.full e he).2.1, (him.subs.full e he).2.2.2.1⟩)
      (by simpa [Obj.noSubs] using him.subs.nodup)
    refine ⟨w2, p2, om.subs, ?_, ?_, ?_, ?_, ?_⟩
    · rw [Bool.not_false, cond_true, e1, Out.ok_bind, e2]
    · simpa [Obj.noSubs] using s2
    · intro f hf
      rw [q2 f hf]
      simp [Obj.noSubs, hf]
    · simpa [Obj.noSubs] using r2
    · intro _ hnd
      exact t2 hnd (fun k => by simp [Obj.noSubs, Field.isSub])

/-- The positions after masking. -/
structure Placed (o : Obj) (recalc full : Bool) (p : Field → Option Addr) (c : Nat) (st : Bool) : Prop where
  keep : ∀ f, f.isPos = false → p f = o.ptr f
  both : (p .pos).isSome = (p .idx).isSome
  cells : full = false → 1 ≤ c
  own : recalc = true → st = true
  none_ : full = true → p .pos = none ∧ p .idx = none

theorem maskPositions_st {b : Objs} {i m : Id} {w : World} {o om : Obj} (s : St b i w o) (hmi : m ≠ i) (hm : b m = some om)
    (h1 : (om.ptr .pos).isSome = true) (h2 : (om.ptr .idx).isSome = true) (hc : 1 ≤ om.cells) (hmask : o.mask = some m) (hu : URef b i)
    (hbo : (o.ptr .pos).isSome = (o.ptr .idx).isSome) (hown : OwnPos o) (recalc full : Bool) (hrf : ¬ (recalc = true ∧ full = true)) (se : Sees)
    (hk : 1 ≤ se.kept) :
    ∃ w' p c st, maskPositions w i m recalc full se = .ok w' ∧ St b i w' { o with ptr := p, cells := c, store := st } ∧ Placed o recalc full p c st := by
  have hidx : o.store = true ∨ o.ptr .idx = none := by
    rcases hown with h | h
    · exact Or.inl h
    · exact Or.inr (isNone_of_eq hbo h)
  unfold maskPositions
  cases recalc with
  | true =>
    have hf : full = false := by cases full <;> simp_all
    subst hf
    rw [cond_true]
    -- with positions the flag is set before
    obtain ⟨w1, e1, s1⟩ : ∃ w1, modify w i (fun o => { o with store := true, cells := se.kept }) = .ok w1 ∧
        St b i w1 { o with store := true, cells := se.kept } := by
      rcases hown with h | h
      · exact flag_st s (fun o => { o with store := true, cells := se.kept }) (fun _ => rfl) rfl h.symm
      · exact store_st s (fun o => { o with store := true, cells := se.kept }) (fun _ => rfl) rfl h (isNone_of_eq hbo h)
    obtain ⟨w2, e2, s2⟩ := free_st s1 .pos (Or.inr (fun _ => ⟨rfl, hu⟩))
    obtain ⟨w3, e3, s3⟩ := free_st s2 .idx (Or.inr (fun _ => ⟨rfl, hu⟩))
    obtain ⟨w4, p4, e4, s4, q4⟩ := alloc2_st s3 .pos hk rfl (fun _ => rfl)
    obtain ⟨w5, p5, e5, s5, q5⟩ := alloc1_st s4 .idx hk rfl (fun _ => rfl)
    refine ⟨w5, _, se.kept, true, ?_, s5, ?_, ?_, fun _ => hk, fun _ => rfl, by simp⟩
    · simp only [e1, e2, e3, e4, e5, Out.ok_bind]
    · intro f hf
      have b1 : f ≠ .pos := by intro h; subst h; cases hf
      have b2 : f ≠ .idx := by intro h; subst h; cases hf
      simp only [Obj.setPtr, upd, b1, b2, if_false]
    · simp [Obj.setPtr, upd, q4, q5]
  | false =>
    rw [cond_false]
    obtain ⟨w2, e2, s2⟩ := free_st s .pos (by
      rcases hown with h | h
      · exact Or.inr (fun _ => ⟨h, hu⟩)
      · exact Or.inl h)
    obtain ⟨w3, e3, s3⟩ := free_st s2 .idx (by
      rcases hidx with h | h
      · exact Or.inr (fun _ => ⟨h, hu⟩)
      · exact Or.inl (by rw [setPtr_ne _ _ (by simp)]; exact h))
    have n1 : ((o.setPtr .pos none).setPtr .idx none).ptr .pos = none := by simp [Obj.setPtr, upd]
    have n2 : ((o.setPtr .pos none).setPtr .idx none).ptr .idx = none := by simp [Obj.setPtr, upd]
    rw [e2, Out.ok_bind, e3, Out.ok_bind]
    cases full with
    | true =>
      obtain ⟨w4, e4, s4⟩ := store_st s3 (fun o => { o with store := false }) (fun _ => rfl) rfl n1 n2
      refine ⟨w4, _, o.cells, false, ?_, s4, ?_, ?_, by simp, by simp, fun _ => ⟨n1, n2⟩⟩
      · rw [cond_true, Out.ok_bind, e4]
      · intro f hf
        have b1 : f ≠ .pos := by intro h; subst h; cases hf
        have b2 : f ≠ .idx := by intro h; subst h; cases hf
        simp only [Obj.setPtr, upd, b1, b2, if_false]
      · simp [Obj.setPtr, upd]
    | false =>
      obtain ⟨w4, e4, s4⟩ := share_false_st s3 hmi hm h1 h2 hmask n1 n2 se.maskValid
      refine ⟨w4, _, om.cells, false, ?_, s4, ?_, ?_, fun _ => hc, by simp, by simp⟩
      · rw [cond_false, e4]
      · intro f hf
        have b1 : f ≠ .pos := by intro h; subst h; cases hf
        have b2 : f ≠ .idx := by intro h; subst h; cases hf
        simp only [Obj.setPtr, upd, b1, b2, if_false]
      · simp [Obj.setPtr, upd, h1, h2]

theorem renewData_st {b : Objs} {i : Id} {w : World} {o : Obj} (s : St b i w o) (hv : o.valid = true) (hc : 1 ≤ o.cells) :
    ∃ w' p, renewData w i = .ok w' ∧ St b i w' { o with ptr := p } ∧ (∀ f, f ≠ .ras → f ≠ .ras2 → p f = o.ptr f) ∧
      (p .ras).isSome = (o.ptr .ras).isSome ∧ (p .ras2).isSome = (o.ptr .ras2).isSome := by
  unfold renewData
  rw [s.get, Out.ok_bind]
  unfold Obj.valid at hv
  rcases Bool.eq_false_or_eq_true o.is2d with h2d | h2d
  · rw [h2d, if_pos rfl] at hv
    obtain ⟨w2, e2, s2⟩ := free_st s .ras2 (Or.inr (by intro h; cases h))
    obtain ⟨w3, p3, e3, s3, q3⟩ := alloc2_st s2 .ras2 hc rfl (by intro h; cases h)
    refine ⟨w3, _, ?_, s3, ?_, ?_, ?_⟩
    · rw [h2d, hv, Bool.and_true, if_pos rfl, e2, Out.ok_bind, e3]
    · intro f hf hf'
      simp only [Obj.setPtr, upd, hf', if_false]
    · simp [Obj.setPtr, upd]
    · simp [Obj.setPtr, upd, q3, hv]
  · rw [h2d, if_neg (by simp)] at hv
    obtain ⟨w2, e2, s2⟩ := free_st s .ras (Or.inr (by intro h; cases h))
    obtain ⟨w3, p3, e3, s3, q3⟩ := alloc1_st s2 .ras hc rfl (by intro h; cases h)
    refine ⟨w3, _, ?_, s3, ?_, ?_, ?_⟩
    · rw [h2d, Bool.false_and, if_neg (by simp), e2, Out.ok_bind, e3]
    · intro f hf hf'
      simp only [Obj.setPtr, upd, hf, if_false]
    · simp [Obj.setPtr, upd, q3, hv]
    · simp [Obj.setPtr, upd]

theorem maskData_st {b : Objs} {i : Id} {w : World} {o : Obj} (s : St b i w o) (hv : o.valid = true) (full : Bool) (hc : full = false → 1 ≤ o.cells)
    (se : Sees) (hf : 1 ≤ se.full) :
    ∃ w' p c, maskData w i full se = .ok w' ∧ St b i w' { o with ptr := p, cells := c } ∧ 1 ≤ c ∧ (∀ f, f ≠ .ras → f ≠ .ras2 → p f = o.ptr f) ∧
      (p .ras).isSome = (o.ptr .ras).isSome ∧ (p .ras2).isSome = (o.ptr .ras2).isSome := by
  unfold maskData
  obtain ⟨w1, c1, e1, s1, k1⟩ : ∃ w1 c1, (bif full then modify w i (fun o => { o with cells := se.full }) else .ok w) = Out.ok w1 ∧
      St b i w1 { o with cells := c1 } ∧ 1 ≤ c1 := by
    cases full with
    | true =>
      obtain ⟨w1, e1, s1⟩ := flag_st s (fun o => { o with cells := se.full }) (fun _ => rfl) rfl rfl
      exact ⟨w1, se.full, e1, s1, hf⟩
    | false => exact ⟨w, o.cells, rfl, s, hc rfl⟩
  rw [e1, Out.ok_bind]
  cases hx : (full && se.same) with
  | true => exact ⟨w1, o.ptr, c1, rfl, s1, k1, fun _ _ _ => rfl, rfl, rfl⟩
  | false =>
    obtain ⟨w2, p2, e2, s2, q2, r1, r2⟩ := renewData_st s1 hv k1
    exact ⟨w2, p2, c1, e2, s2, k1, q2, r1, r2⟩

theorem maskSubsets_st {b : Objs} {i m : Id} {w : World} {o om : Obj} {vp : Addr} (s : St b i w o) (hmi : m ≠ i) (hm : b m = some om)
    (hvp : om.ptr .pos = some vp) (hs : SubInv o.ptr o.subs) (has re : Bool)
    (hd : has = true → ∀ k, o.ptr (.sub k .data) = none ∧ o.ptr (.sub k .data2) = none) (se : Sees) :
    ∃ w' p t, maskSubsets w i vp has re se = .ok w' ∧ St b i w' { o with ptr := p, subs := t } ∧ (∀ f, f.isSub = false → p f = o.ptr f) ∧ SubInv p t := by
  unfold maskSubsets
  cases has with
  | false => exact ⟨w, o.ptr, o.subs, rfl, s, fun _ _ => rfl, hs⟩
  | true =>
    obtain ⟨w1, p1, r1, e1, s1, q1, t1⟩ := trimSubs_st hmi hm hvp se.left re o.subs [] s (by simpa using hs) (hd rfl)
    obtain ⟨w2, e2, s2⟩ := flag_st s1 (fun o => { o with subs := r1 }) (fun _ => rfl) rfl rfl
    refine ⟨w2, p1, r1, ?_, s2, q1, by simpa using t1⟩
    rw [cond_true, s.get, Out.ok_bind, e1, Out.ok_bind, e2]

/-- The raster after masking. -/
structure Masked (o o' : Obj) : Prop where
  inv : OInv o'
  valid : o'.valid = true
  is2d : o'.is2d = o.is2d
  stat : ∀ n, o'.ptr (.stat n) = o.ptr (.stat n)
  stats : o'.stats = o.stats ∧ o'.statMap = o.statMap
  maskOf : o'.mask = o.mask ∨ o'.mask = none
  cells : 1 ≤ o'.cells

theorem maskApply_st {b : Objs} {i m : Id} {w : World} {o om : Obj} {vp : Addr} (s : St b i w o) (hi : OInv o) (hv : o.valid = true) (hmi : m ≠ i)
    (hm : b m = some om) (him : OInv om) (hvp : om.ptr .pos = some vp) (hmask : o.mask = some m) (hu : URef b i)
    (hown : OwnPos o) (hnd : NoSubsetData om) {se : Sees} (hse : Sound se) :
    ∃ w' o', maskApply w i m vp se = .ok w' ∧ St b i w' o' ∧ Masked o o' := by
  obtain ⟨_, _, hk, hf, _, _⟩ := hse
  have hp1 : (om.ptr .pos).isSome = true := by rw [hvp]; rfl
  have hp2 : (om.ptr .idx).isSome = true := by rw [← him.posidx]; exact hp1
  unfold maskApply
  obtain ⟨w1, e1, s1⟩ := flag_st s (fun o => { o with cells := se.masked }) (fun _ => rfl) rfl rfl
  have hm1 : w1.objs m = some om := by rw [s1.other hmi]; exact hm
  obtain ⟨w2, p2, t2, e2, s2, q2, r2, d2⟩ := maskCopy_st s1 hmi hm him hi.subs
  rw [e1, Out.ok_bind, get_of hm1, Out.ok_bind, e2, Out.ok_bind, s2.get, Out.ok_bind]
  dsimp only
  have hrf : ¬ ((o.calcPos && (!se.within && !o.ext || !se.exact)) = true ∧ (!se.within && !o.ext && !o.calcPos) = true) := by
    cases o.calcPos <;> simp
  revert hrf
  generalize (o.calcPos && (!se.within && !o.ext || !se.exact)) = recalc
  generalize (!se.within && !o.ext && !o.calcPos) = full
  generalize hre : (!om.subs.isEmpty && !se.exact && (!se.within && !o.ext)) = re
  intro hrf
  obtain ⟨w3, e3, s3⟩ := flag_st s2 (fun o => { o with calcPos := !full }) (fun _ => rfl) rfl rfl
  rw [e3, Out.ok_bind]
  have hb3 : (p2 .pos).isSome = (p2 .idx).isSome := by rw [q2 _ rfl, q2 _ rfl]; exact hi.posidx
  obtain ⟨w4, p4, c4, st4, e4, s4, pl⟩ := maskPositions_st s3 hmi hm hp1 hp2 (him.cells (Or.inl hp1)) hmask hu hb3
    (by
      rcases hown with h | h
      · exact Or.inl h
      · exact Or.inr (by show p2 .pos = none; rw [q2 _ rfl]; exact h)) recalc full hrf se hk
  rw [e4, Out.ok_bind]
  have hk4 : ∀ f, f.isPos = false → p4 f = p2 f := pl.keep
  have hv4 : Obj.valid { o with ptr := p4, subs := t2, calcPos := !full, cells := c4, store := st4 } = true := by
    unfold Obj.valid at hv ⊢
    simp only [hk4 .ras rfl, hk4 .ras2 rfl, q2 .ras rfl, q2 .ras2 rfl]
    exact hv
  obtain ⟨w5, p5, c5, e5, s5, k5, q5, r5a, r5b⟩ := maskData_st s4 hv4 full pl.cells se hf
  rw [e5, Out.ok_bind]
  have q5 : ∀ f, f ≠ .ras → f ≠ .ras2 → p5 f = p4 f := q5
  have r5a : (p5 .ras).isSome = (p4 .ras).isSome := r5a
  have r5b : (p5 .ras2).isSome = (p4 .ras2).isSome := r5b
  have q2 : ∀ f, f.isSub = false → p2 f = o.ptr f := q2
  have hsub5 : SubInv p5 t2 := r2.congr (fun k f => by rw [q5 _ (by simp) (by simp)]; exact hk4 _ rfl)
  obtain ⟨w6, p6, t6, e6, s6, q6, r6⟩ := maskSubsets_st s5 hmi hm hvp hsub5 (!om.subs.isEmpty) re
    (fun hh k => by
      have := d2 (by simpa using hh) hnd k
      exact ⟨by show p5 _ = none; rw [q5 _ (by simp) (by simp), hk4 _ rfl]; exact this.1,
        by show p5 _ = none; rw [q5 _ (by simp) (by simp), hk4 _ rfl]; exact this.2⟩) se
  rw [e6, Out.ok_bind]
  have q6 : ∀ f, f.isSub = false → p6 f = p5 f := q6
  -- the final object
  have hfin : ∀ mk : Option Id, Masked o { o with ptr := p6, subs := t6, calcPos := !full, cells := c5, store := st4, mask := mk } ∨
      ¬ (mk = o.mask ∨ mk = none) := by
    intro mk
    by_cases hmk : mk = o.mask ∨ mk = none
    · left
      have h6 : ∀ f, f.isSub = false → f.isPos = false → f ≠ .ras → f ≠ .ras2 → p6 f = o.ptr f := by
        intro f a1 a2 a3 a4
        rw [q6 f a1, q5 f a3 a4, hk4 f a2]
        exact q2 f a1
      have hr2 : (p6 .ras2).isSome = (o.ptr .ras2).isSome := by
        rw [q6 _ rfl, r5b, hk4 _ rfl, q2 _ rfl]
      have hr1 : (p6 .ras).isSome = (o.ptr .ras).isSome := by
        rw [q6 _ rfl, r5a, hk4 _ rfl, q2 _ rfl]
      refine ⟨⟨?_, ?_, ?_, r6, fun _ => k5⟩, ?_, rfl, ?_, ⟨rfl, rfl⟩, hmk, k5⟩
      · show (p6 .pos).isSome = (p6 .idx).isSome
        rw [q6 _ rfl, q6 _ rfl, q5 _ (by simp) (by simp), q5 _ (by simp) (by simp)]
        exact pl.both
      · intro h
        apply hi.ras2
        intro e
        rw [e] at hr2
        exact h (by simpa using hr2)
      · intro n hn
        have hq : ∀ n, p6 (.stat n) = o.ptr (.stat n) := fun n => h6 _ rfl rfl (by simp) (by simp)
        have hn : p6 (.stat n) ≠ none := hn
        rw [hq] at hn
        obtain ⟨a1, a2, a3⟩ := hi.stat n hn
        exact ⟨a1, a2, fun m => by show p6 _ ≠ none; rw [hq]; exact a3 m⟩
      · unfold Obj.valid at hv ⊢
        simp only [hr1, hr2]
        exact hv
      · intro n
        exact h6 _ rfl rfl (by simp) (by simp)
    · right; exact hmk
  have hfin : ∀ mk : Option Id, (mk = o.mask ∨ mk = none) →
      Masked o { o with ptr := p6, subs := t6, calcPos := !full, cells := c5, store := st4, mask := mk } := by
    intro mk hmk
    rcases hfin mk with h | h
    · exact h
    · exact absurd hmk h
  cases hfr : (full || recalc) with
  | false =>
    refine ⟨w6, _, rfl, s6, ?_⟩
    exact hfin o.mask (Or.inl rfl)
  | true =>
    obtain ⟨w7, e7, s7⟩ := mask_st s6 (fun o => { o with mask := none }) (fun _ => rfl)
      (by
        rw [Bool.or_eq_true] at hfr
        rcases hfr with h | h
        · left
          obtain ⟨a1, a2⟩ := pl.none_ h
          exact ⟨by show p6 .pos = none; rw [q6 _ rfl, q5 _ (by simp) (by simp)]; exact a1,
            by show p6 .idx = none; rw [q6 _ rfl, q5 _ (by simp) (by simp)]; exact a2⟩
        · exact Or.inr ⟨rfl, pl.own h, hu⟩)
      (fun m hmm => by simp at hmm)
    exact ⟨w7, _, e7, s7, hfin none (Or.inr rfl)⟩

end Life
end CCGL
