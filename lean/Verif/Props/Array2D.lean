import Verif.Lemmas.Array2D
/-!
# C69: `Array2D` objects are values and release their memory
-/
namespace CCGL.Arr2
open CCGL.Arr
open CCGL.Spec.Arr2 (Op Reply Grid State put newGrid)

variable {τ : Type}

abbrev Own0 (τ : Type) := Own (Option Nat) τ

/-- The relation between objects, values and owned blocks; index `none` is the temporary. -/
structure Rel (s : St τ) (a : State τ) (own : Own0 τ) : Prop where
  hi : HI s.mem own
  tmp : own none = none
  dead : ∀ i, a i = none → s.obj i = none ∧ own (some i) = none
  empty : ∀ i, a i = some none → (∃ r c, s.obj i = some ⟨none, r, c⟩) ∧ own (some i) = none
  full : ∀ i g, a i = some (some g) → ∃ b q, own (some i) = some (b, q, g) ∧ s.obj i = some ⟨some b, g.rows, g.cols⟩

theorem Rel.objNone {s : St τ} {a : State τ} {own : Own0 τ} (h : Rel s a own) {i : Nat} (hi : a i = none) : s.obj i = none :=
  (h.dead i hi).1

theorem Rel.objSome {s : St τ} {a : State τ} {own : Own0 τ} (h : Rel s a own) {i : Nat} {v} (hi : a i = some v) : ∃ o, s.obj i = some o := by
  cases v with
  | none => obtain ⟨⟨r, c, e⟩, _⟩ := h.empty i hi; exact ⟨_, e⟩
  | some g => obtain ⟨b, q, _, e⟩ := h.full i g hi; exact ⟨_, e⟩

/-- Put the temporary's value into object `i`, which owns nothing. -/
theorem Rel.install {s : St τ} {a : State τ} {own : Own0 τ} {m : Mem τ} {b q : Nat} {g : Grid τ} (i : Nat)
    (hm : HI m (fput own none (some (b, q, g)))) (hi : own (some i) = none)
    (dead : ∀ k, k ≠ i → a k = none → s.obj k = none ∧ own (some k) = none)
    (empty : ∀ k, k ≠ i → a k = some none → (∃ r c, s.obj k = some ⟨none, r, c⟩) ∧ own (some k) = none)
    (full : ∀ k g, k ≠ i → a k = some (some g) → ∃ b q, own (some k) = some (b, q, g) ∧ s.obj k = some ⟨some b, g.rows, g.cols⟩) :
    ∃ own', Rel ⟨m, putObj s.obj i (some ⟨some b, g.rows, g.cols⟩)⟩ (put a i (some (some g))) own' := by
  refine ⟨_, hm.map (Equiv.swap none (some i)), ?_, ?_, ?_, ?_⟩
  · simp only [Function.comp, Equiv.swap_apply_left]
    rw [fput_ne _ _ (by simp)]; exact hi
  all_goals
    intro k
    by_cases hk : k = i
    · subst hk
      simp only [put, if_pos, putObj, Function.comp, Equiv.swap_apply_right]
      first
        | (intro h; cases h; done)
        | (intro g' h
           simp only [Option.some.injEq] at h
           subst h
           exact ⟨b, q, fput_same _ _ _, rfl⟩)
    · simp only [put, if_neg hk, putObj, Function.comp]
      rw [Equiv.swap_apply_of_ne_of_ne (by simp) (by simpa using hk), fput_ne _ _ (by simp)]
      first
        | exact dead k hk
        | exact empty k hk
        | exact fun g => full k g hk

/-- Destroying the data of object `i` (if any). -/
theorem Rel.destroyObj {s : St τ} {a : State τ} {own : Own0 τ} {m : Mem τ} (h : Rel s a own) (i : Nat) (o : Obj) (ho : s.obj i = some o)
    {t : Option (Nat × Nat × Grid τ)} (hm : HI m (fput own none t)) :
    ∃ m', destroy m o = .ok m' ∧ HI m' (fput (fput own (some i) none) none t) := by
  have hcomm : ∀ v w, fput (fput own none v) (some i) w = fput (fput own (some i) w) none v := by
    intro v w
    funext k
    unfold fput
    by_cases h1 : k = some i
    · subst h1; simp
    · by_cases h2 : k = none <;> simp [h1, h2]
  cases ha : a i with
  | none => rw [h.objNone ha] at ho; cases ho
  | some v =>
    cases v with
    | none =>
      obtain ⟨⟨r, c, e⟩, hown⟩ := h.empty i ha
      rw [ho] at e
      simp only [Option.some.injEq] at e
      subst e
      refine ⟨m, rfl, ?_⟩
      have : fput own (some i) none = own := by
        funext k; unfold fput; split
        · next hk => rw [hk, hown]
        · rfl
      rw [this]; exact hm
    | some g =>
      obtain ⟨b, q, hown, e⟩ := h.full i g ha
      rw [ho] at e
      simp only [Option.some.injEq] at e
      subst e
      obtain ⟨m', e', h'⟩ := hm.destroy (some i) b q g (by rw [fput_ne _ _ (by simp)]; exact hown) g.rows g.cols
      exact ⟨m', e', by rw [hcomm] at h'; exact h'⟩

theorem fput_none_self {own : Own0 τ} (h : own none = none) : fput own none none = own := by
  funext k; unfold fput; split
  · next hk => rw [hk, h]
  · rfl

/-- One step. -/
theorem Rel.step {s : St τ} {a a' : State τ} {own : Own0 τ} (h : Rel s a own) (dv : τ) (o : Op τ) (r : Reply τ)
    (hs : Spec.Arr2.step a o = some (a', r)) : ∃ s' own', Arr2.step dv true s o = .ok (s', r) ∧ Rel s' a' own' := by
  cases o with
  | dflt i =>
    simp only [Spec.Arr2.step] at hs
    split_ifs at hs with ha
    simp only [Option.some.injEq, Prod.mk.injEq] at hs
    obtain ⟨rfl, rfl⟩ := hs
    refine ⟨{ s with obj := putObj s.obj i (some ⟨none, 0, 0⟩) }, own, ?_, h.hi, h.tmp, ?_, ?_, ?_⟩
    · simp only [Arr2.step, h.objNone ha]
    all_goals
      intro k
      by_cases hk : k = i
      · subst hk
        simp only [put, if_pos, putObj]
        first
          | (intro h; cases h; done)
          | exact fun _ => ⟨⟨0, 0, rfl⟩, (h.dead k ha).2⟩
          | (intro g h; cases h; done)
      · simp only [put, if_neg hk, putObj]
        first
          | exact h.dead k
          | exact h.empty k
          | exact h.full k
  | make i rr c x =>
    simp only [Spec.Arr2.step] at hs
    cases ha : a i with
    | some _ => rw [ha] at hs; simp at hs
    | none =>
      rw [ha] at hs
      unfold newGrid at hs
      by_cases h0 : rr = 0 ∨ c = 0
      · rw [if_pos h0] at hs
        simp only [Option.some.injEq, Prod.mk.injEq] at hs
        obtain ⟨rfl, rfl⟩ := hs
        refine ⟨s, own, ?_, h⟩
        simp only [Arr2.step, h.objNone ha]
        by_cases h1 : rr ≤ 0
        · rw [if_pos h1]
        · rw [if_neg h1, if_pos (by omega)]
      · rw [if_neg h0] at hs
        by_cases h2 : rr * c < 2 ^ 32
        · rw [if_pos h2] at hs
          simp only [Option.some.injEq, Prod.mk.injEq] at hs
          obtain ⟨rfl, rfl⟩ := hs
          obtain ⟨p, m', e, hm⟩ := h.hi.create none h.tmp rr c x (by omega) (by omega) h2
          obtain ⟨own', hr⟩ := Rel.install (s := s) (a := a) i hm (h.dead i ha).2 (fun k _ => h.dead k) (fun k _ => h.empty k) (fun k g _ => h.full k g)
          refine ⟨_, own', ?_, hr⟩
          simp only [Arr2.step, h.objNone ha]
          rw [if_neg (by omega), if_neg (by omega), e]
          rfl
        · rw [if_neg h2] at hs; simp at hs
  | copy i j =>
    simp only [Spec.Arr2.step] at hs
    cases ha : a i with
    | some _ => rw [ha] at hs; simp at hs
    | none =>
      rw [ha] at hs
      cases hb : a j with
      | none => rw [hb] at hs; simp at hs
      | some v =>
        rw [hb] at hs
        cases v with
        | none => simp at hs
        | some g =>
          simp only [Option.some.injEq, Prod.mk.injEq] at hs
          obtain ⟨rfl, rfl⟩ := hs
          obtain ⟨b, q, hown, ho⟩ := h.full j g hb
          obtain ⟨p, m', e, hm⟩ := h.hi.copyCtor none (some j) h.tmp b q g hown dv
          obtain ⟨own', hr⟩ := Rel.install (s := s) (a := a) i hm (h.dead i ha).2 (fun k _ => h.dead k) (fun k _ => h.empty k) (fun k g _ => h.full k g)
          refine ⟨_, own', ?_, hr⟩
          simp only [Arr2.step, h.objNone ha, ho]
          rw [e]; rfl
  | move i j =>
    simp only [Spec.Arr2.step] at hs
    cases ha : a i with
    | some _ => rw [ha] at hs; simp at hs
    | none =>
      rw [ha] at hs
      cases hb : a j with
      | none => rw [hb] at hs; simp at hs
      | some v =>
        rw [hb] at hs
        simp only [Option.some.injEq, Prod.mk.injEq] at hs
        obtain ⟨rfl, rfl⟩ := hs
        have hij : i ≠ j := by rintro rfl; rw [ha] at hb; cases hb
        obtain ⟨o, ho⟩ := h.objSome hb
        have hoi := (h.dead i ha).2
        refine ⟨{ s with obj := putObj (putObj s.obj j (some { o with data := none })) i (some o) },
          own ∘ (Equiv.swap (some i) (some j)), ?_, h.hi.map _, ?_, ?_, ?_, ?_⟩
        · simp only [Arr2.step, h.objNone ha, ho]
        · simp only [Function.comp]
          rw [Equiv.swap_apply_of_ne_of_ne (by simp) (by simp)]; exact h.tmp
        all_goals
          intro k
          by_cases hk : k = i
          · subst hk
            simp only [put, if_pos, putObj, Function.comp, Equiv.swap_apply_left]
            first
              | (intro h; cases h; done)
              | (intro hv
                 simp only [Option.some.injEq] at hv
                 subst hv
                 obtain ⟨⟨r, c, e⟩, e2⟩ := h.empty j hb
                 rw [ho] at e
                 exact ⟨⟨r, c, e⟩, e2⟩)
              | (intro g hv
                 simp only [Option.some.injEq] at hv
                 subst hv
                 obtain ⟨b, q, e1, e2⟩ := h.full j g hb
                 rw [ho] at e2
                 exact ⟨b, q, e1, e2⟩)
          · by_cases hk2 : k = j
            · subst hk2
              simp only [put, if_neg hk, if_pos, putObj, Function.comp, Equiv.swap_apply_right]
              first
                | (intro h; cases h; done)
                | exact fun _ => ⟨⟨_, _, rfl⟩, hoi⟩
                | (intro g h; cases h; done)
            · simp only [put, if_neg hk, if_neg hk2, putObj, Function.comp]
              rw [Equiv.swap_apply_of_ne_of_ne (by simpa using hk) (by simpa using hk2)]
              first
                | exact h.dead k
                | exact h.empty k
                | exact h.full k
  | assign i j =>
    simp only [Spec.Arr2.step] at hs
    cases ha : a i with
    | none => rw [ha] at hs; simp at hs
    | some u =>
      rw [ha] at hs
      cases hb : a j with
      | none => rw [hb] at hs; simp at hs
      | some v =>
        rw [hb] at hs
        obtain ⟨o, ho⟩ := h.objSome ha
        by_cases hij : i = j
        · simp only [if_pos hij, Option.some.injEq, Prod.mk.injEq] at hs
          obtain ⟨rfl, rfl⟩ := hs
          obtain ⟨o', ho'⟩ := h.objSome hb
          refine ⟨s, own, ?_, h⟩
          simp only [Arr2.step, ho, ho', if_pos hij]
        · simp only [if_neg hij] at hs
          cases v with
          | none => simp at hs
          | some g =>
            simp only [Option.some.injEq, Prod.mk.injEq] at hs
            obtain ⟨rfl, rfl⟩ := hs
            obtain ⟨b, q, hown, ho'⟩ := h.full j g hb
            obtain ⟨p, m', e, hm⟩ := h.hi.copyCtor none (some j) h.tmp b q g hown dv
            obtain ⟨m2, e2, hm2⟩ := h.destroyObj i o ho hm
            obtain ⟨own', hr⟩ := Rel.install (s := s) (a := a) i hm2 (fput_same _ _ _)
              (fun k hk => by rw [fput_ne _ _ (by simpa using hk)]; exact h.dead k)
              (fun k hk => by rw [fput_ne _ _ (by simpa using hk)]; exact h.empty k)
              (fun k g hk => by rw [fput_ne _ _ (by simpa using hk)]; exact h.full k g)
            refine ⟨_, own', ?_, hr⟩
            simp only [Arr2.step, ho, ho', if_neg hij]
            rw [e, Out.ok_bind]
            dsimp only
            rw [e2]; rfl
  | moveAssign i j =>
    simp only [Spec.Arr2.step] at hs
    cases ha : a i with
    | none => rw [ha] at hs; simp at hs
    | some u =>
      rw [ha] at hs
      cases hb : a j with
      | none => rw [hb] at hs; simp at hs
      | some v =>
        rw [hb] at hs
        obtain ⟨o, ho⟩ := h.objSome ha
        obtain ⟨o', ho'⟩ := h.objSome hb
        by_cases hij : i = j
        · simp only [if_pos hij, Option.some.injEq, Prod.mk.injEq] at hs
          obtain ⟨rfl, rfl⟩ := hs
          refine ⟨s, own, ?_, h⟩
          simp only [Arr2.step, ho, ho', if_pos hij]
        · simp only [if_neg hij, Option.some.injEq, Prod.mk.injEq] at hs
          obtain ⟨rfl, rfl⟩ := hs
          refine ⟨{ s with obj := putObj (putObj s.obj j (some o)) i (some o') },
            own ∘ (Equiv.swap (some i) (some j)), ?_, h.hi.map _, ?_, ?_, ?_, ?_⟩
          · simp only [Arr2.step, ho, ho', if_neg hij]
          · simp only [Function.comp]
            rw [Equiv.swap_apply_of_ne_of_ne (by simp) (by simp)]; exact h.tmp
          all_goals
            intro k
            by_cases hk : k = i
            · subst hk
              simp only [put, if_pos, putObj, Function.comp, Equiv.swap_apply_left]
              first
                | (intro h; cases h; done)
                | (intro hv
                   simp only [Option.some.injEq] at hv
                   subst hv
                   obtain ⟨⟨r, c, e⟩, e2⟩ := h.empty j hb
                   rw [ho'] at e
                   exact ⟨⟨r, c, e⟩, e2⟩)
                | (intro g hv
                   simp only [Option.some.injEq] at hv
                   subst hv
                   obtain ⟨b, q, e1, e2⟩ := h.full j g hb
                   rw [ho'] at e2
                   exact ⟨b, q, e1, e2⟩)
            · by_cases hk2 : k = j
              · subst hk2
                simp only [put, if_neg hk, if_pos, putObj, Function.comp, Equiv.swap_apply_right]
                first
                  | (intro h; cases h; done)
                  | (intro hv
                     simp only [Option.some.injEq] at hv
                     subst hv
                     obtain ⟨⟨r, c, e⟩, e2⟩ := h.empty i ha
                     rw [ho] at e
                     exact ⟨⟨r, c, e⟩, e2⟩)
                  | (intro g hv
                     simp only [Option.some.injEq] at hv
                     subst hv
                     obtain ⟨b, q, e1, e2⟩ := h.full i g ha
                     rw [ho] at e2
                     exact ⟨b, q, e1, e2⟩)
              · simp only [put, if_neg hk, if_neg hk2, putObj, Function.comp]
                rw [Equiv.swap_apply_of_ne_of_ne (by simpa using hk) (by simpa using hk2)]
                first
                  | exact h.dead k
                  | exact h.empty k
                  | exact h.full k
  | create i rr c x =>
    simp only [Spec.Arr2.step] at hs
    cases ha : a i with
    | none => rw [ha] at hs; simp at hs
    | some u =>
      rw [ha] at hs
      obtain ⟨o, ho⟩ := h.objSome ha
      unfold newGrid at hs
      by_cases h0 : rr = 0 ∨ c = 0
      · rw [if_pos h0] at hs
        simp only [Option.some.injEq, Prod.mk.injEq] at hs
        obtain ⟨rfl, rfl⟩ := hs
        refine ⟨s, own, ?_, h⟩
        simp only [Arr2.step, ho]
        by_cases h1 : rr ≤ 0
        · rw [if_pos h1]
        · rw [if_neg h1, if_pos (by omega)]
      · rw [if_neg h0] at hs
        by_cases h2 : rr * c < 2 ^ 32
        · rw [if_pos h2] at hs
          simp only [Option.some.injEq, Prod.mk.injEq] at hs
          obtain ⟨rfl, rfl⟩ := hs
          obtain ⟨p, m', e, hm⟩ := h.hi.create none h.tmp rr c x (by omega) (by omega) h2
          obtain ⟨m2, e2, hm2⟩ := h.destroyObj i o ho hm
          obtain ⟨own', hr⟩ := Rel.install (s := s) (a := a) i hm2 (fput_same _ _ _)
            (fun k hk => by rw [fput_ne _ _ (by simpa using hk)]; exact h.dead k)
            (fun k hk => by rw [fput_ne _ _ (by simpa using hk)]; exact h.empty k)
            (fun k g hk => by rw [fput_ne _ _ (by simpa using hk)]; exact h.full k g)
          refine ⟨_, own', ?_, hr⟩
          simp only [Arr2.step, ho]
          rw [if_neg (by omega), if_neg (by omega), e, Out.ok_bind]
          dsimp only
          rw [e2]; rfl
        · rw [if_neg h2] at hs; simp at hs
  | destroy i =>
    simp only [Spec.Arr2.step] at hs
    cases ha : a i with
    | none => rw [ha, if_pos rfl] at hs; cases hs
    | some u =>
      rw [ha, if_neg (by simp)] at hs
      simp only [Option.some.injEq, Prod.mk.injEq] at hs
      obtain ⟨rfl, rfl⟩ := hs
      obtain ⟨o, ho⟩ := h.objSome ha
      obtain ⟨m', e, hm⟩ := h.destroyObj i o ho (t := none) (m := s.mem) (by rw [fput_none_self h.tmp]; exact h.hi)
      rw [fput_none_self (by rw [fput_ne _ _ (by simp)]; exact h.tmp)] at hm
      refine ⟨⟨m', putObj s.obj i none⟩, _, ?_, hm, by rw [fput_ne _ _ (by simp)]; exact h.tmp, ?_, ?_, ?_⟩
      · simp only [Arr2.step, ho]
        rw [e]; rfl
      all_goals
        intro k
        by_cases hk : k = i
        · subst hk
          simp only [put, if_pos, putObj, fput_same]
          first
            | exact fun _ => ⟨rfl, rfl⟩
            | (intro h; cases h; done)
            | (intro g h; cases h; done)
            | simp
        · simp only [put, if_neg hk, putObj]
          rw [fput_ne _ _ (by simpa using hk)]
          first
            | exact h.dead k
            | exact h.empty k
            | exact h.full k
  | get i rr c =>
    simp only [Spec.Arr2.step] at hs
    cases ha : a i with
    | none => rw [ha] at hs; simp at hs
    | some u =>
      rw [ha] at hs
      cases u with
      | none => simp at hs
      | some g =>
        dsimp only at hs
        split_ifs at hs with hrc
        simp only [Option.some.injEq, Prod.mk.injEq] at hs
        obtain ⟨rfl, rfl⟩ := hs
        obtain ⟨b, q, hown, ho⟩ := h.full i g ha
        have H := h.hi.holds _ _ _ _ hown
        refine ⟨s, own, ?_, h⟩
        simp only [Arr2.step, ho]
        rw [H.addr rr c hrc.1, Out.ok_bind]
        dsimp only
        rw [H.load rr c hrc.1 hrc.2]
        rfl
  | set i rr c x =>
    simp only [Spec.Arr2.step] at hs
    cases ha : a i with
    | none => rw [ha] at hs; simp at hs
    | some u =>
      rw [ha] at hs
      cases u with
      | none => simp at hs
      | some g =>
        dsimp only at hs
        split_ifs at hs with hrc
        simp only [Option.some.injEq, Prod.mk.injEq] at hs
        obtain ⟨rfl, rfl⟩ := hs
        obtain ⟨b, q, hown, ho⟩ := h.full i g ha
        have H := h.hi.holds _ _ _ _ hown
        obtain ⟨m', e, hm⟩ := h.hi.store (some i) b q g hown rr c hrc.1 hrc.2 x
        refine ⟨{ s with mem := m' }, _, ?_, hm, by rw [fput_ne _ _ (by simp)]; exact h.tmp, ?_, ?_, ?_⟩
        · simp only [Arr2.step, ho]
          rw [H.addr rr c hrc.1, Out.ok_bind]
          dsimp only
          rw [e]
          rfl
        all_goals
          intro k
          by_cases hk : k = i
          · subst hk
            simp only [put, if_pos, fput_same]
            first
              | (intro h; cases h; done)
              | (intro g' hg
                 simp only [Option.some.injEq] at hg
                 subst hg
                 exact ⟨b, q, rfl, ho⟩)
          · simp only [put, if_neg hk]
            rw [fput_ne _ _ (by simpa using hk)]
            first
              | exact h.dead k
              | exact h.empty k
              | exact h.full k
  | rows i =>
    simp only [Spec.Arr2.step] at hs
    cases ha : a i with
    | none => rw [ha] at hs; simp at hs
    | some u =>
      rw [ha] at hs
      cases u with
      | none => simp at hs
      | some g =>
        simp only [Option.some.injEq, Prod.mk.injEq] at hs
        obtain ⟨rfl, rfl⟩ := hs
        obtain ⟨b, q, hown, ho⟩ := h.full i g ha
        exact ⟨s, own, by simp only [Arr2.step, ho], h⟩
  | cols i =>
    simp only [Spec.Arr2.step] at hs
    cases ha : a i with
    | none => rw [ha] at hs; simp at hs
    | some u =>
      rw [ha] at hs
      cases u with
      | none => simp at hs
      | some g =>
        simp only [Option.some.injEq, Prod.mk.injEq] at hs
        obtain ⟨rfl, rfl⟩ := hs
        obtain ⟨b, q, hown, ho⟩ := h.full i g ha
        exact ⟨s, own, by simp only [Arr2.step, ho], h⟩

theorem Rel.start : Rel (St.init : St τ) (fun _ => none) (fun _ => none) where
  hi := ⟨by simp, by simp, by simp [St.init, Mem.init], by simp [St.init, Mem.init]⟩
  tmp := rfl
  dead := fun i _ => ⟨rfl, rfl⟩
  empty := by simp
  full := by simp

theorem Rel.run {s : St τ} {a a' : State τ} {own : Own0 τ} (h : Rel s a own) (dv : τ) (os : List (Op τ)) (rs : List (Reply τ))
    (hs : Spec.Arr2.run a os = some (a', rs)) : ∃ s' own', Arr2.run dv (fun _ => true) s os = .ok (s', rs) ∧ Rel s' a' own' := by
  induction os generalizing s a own rs with
  | nil =>
    simp only [Spec.Arr2.run, Option.some.injEq, Prod.mk.injEq] at hs
    obtain ⟨rfl, rfl⟩ := hs
    exact ⟨s, own, rfl, h⟩
  | cons o os ih =>
    unfold Spec.Arr2.run at hs
    cases h1 : Spec.Arr2.step a o with
    | none => rw [h1] at hs; simp at hs
    | some p =>
      obtain ⟨a1, r⟩ := p
      rw [h1] at hs
      dsimp only [bind, Option.bind] at hs
      cases h2 : Spec.Arr2.run a1 os with
      | none => rw [h2] at hs; simp at hs
      | some p2 =>
        obtain ⟨a2, rs2⟩ := p2
        rw [h2] at hs
        simp only [Option.some.injEq, Prod.mk.injEq] at hs
        obtain ⟨rfl, rfl⟩ := hs
        obtain ⟨s1, own1, e1, r1⟩ := h.step dv o r h1
        obtain ⟨s2, own2, e2, r2⟩ := ih r1 rs2 h2
        refine ⟨s2, own2, ?_, r2⟩
        unfold Arr2.run
        rw [e1, Out.ok_bind]
        dsimp only
        rw [e2]; rfl

/-- **C69** (allocations succeed) Every history of constructing, copying, moving, assigning, re-creating, reading, writing and
destroying `Array2D` objects that stays within the contract of the specification runs without undefined behaviour and shows
exactly what a value type shows: an object never changes through another one. -/
theorem C69_values (dv : τ) (os : List (Op τ)) (a : State τ) (rs : List (Reply τ))
    (h : Spec.Arr2.run (fun _ => none) os = some (a, rs)) :
    ∃ s, Arr2.run dv (fun _ => true) St.init os = .ok (s, rs) ∧ ∀ i, s.obj i = none ↔ a i = none := by
  obtain ⟨s, own, e, r⟩ := Rel.start.run dv os rs h
  refine ⟨s, e, fun i => ⟨fun hi => ?_, r.objNone⟩⟩
  cases ha : a i with
  | none => rfl
  | some v => obtain ⟨o, ho⟩ := r.objSome ha; rw [hi] at ho; cases ho

/-- **C69** When every object has been destroyed no memory is left: nothing leaked on the way. -/
theorem C69_no_leak (dv : τ) (os : List (Op τ)) (a : State τ) (rs : List (Reply τ))
    (h : Spec.Arr2.run (fun _ => none) os = some (a, rs)) (hd : ∀ i, a i = none) :
    ∃ s, Arr2.run dv (fun _ => true) St.init os = .ok (s, rs) ∧ ∀ b, s.mem.heap b = none := by
  obtain ⟨s, own, e, r⟩ := Rel.start.run dv os rs h
  refine ⟨s, e, fun b => ?_⟩
  by_contra hb
  obtain ⟨k, b', q, g, hk, _⟩ := r.hi.live b hb
  cases k with
  | none => rw [r.tmp] at hk; cases hk
  | some i => rw [(r.dead i (hd i)).2] at hk; cases hk

/-- **C69** At any time the memory in use is two blocks for every object that holds a grid: the live blocks are the row blocks
and pools of these objects, all different. -/
theorem C69_memory (dv : τ) (os : List (Op τ)) (a : State τ) (rs : List (Reply τ))
    (h : Spec.Arr2.run (fun _ => none) os = some (a, rs)) :
    ∃ (s : St τ) (rowBlock pool : Nat → Nat), Arr2.run dv (fun _ => true) St.init os = .ok (s, rs) ∧
      (∀ b, s.mem.heap b ≠ none ↔ ∃ i g, a i = some (some g) ∧ (b = rowBlock i ∨ b = pool i)) ∧
      ∀ i j g g', a i = some (some g) → a j = some (some g') →
        rowBlock i ≠ pool j ∧ (rowBlock i = rowBlock j → i = j) ∧ (pool i = pool j → i = j) := by
  obtain ⟨s, own, e, r⟩ := Rel.start.run dv os rs h
  refine ⟨s, fun i => ((own (some i)).map (·.1)).getD 0, fun i => ((own (some i)).map (·.2.1)).getD 0, e, fun b => ⟨fun hb => ?_, ?_⟩, ?_⟩
  · obtain ⟨k, b', q, g, hk, hab⟩ := r.hi.live b hb
    cases k with
    | none => rw [r.tmp] at hk; cases hk
    | some i =>
      cases ha : a i with
      | none => rw [(r.dead i ha).2] at hk; cases hk
      | some u =>
        cases u with
        | none => rw [(r.empty i ha).2] at hk; cases hk
        | some g' => exact ⟨i, g', ha, by simpa [hk] using hab⟩
  · rintro ⟨i, g, ha, hb⟩
    obtain ⟨b', q, hown, _⟩ := r.full i g ha
    have H := r.hi.holds _ _ _ _ hown
    simp only [hown, Option.map_some, Option.getD_some] at hb
    rcases hb with rfl | rfl
    · exact H.liveB
    · exact H.liveQ
  · intro i j g g' hi hj
    obtain ⟨b, q, hown, _⟩ := r.full i g hi
    obtain ⟨b', q', hown', _⟩ := r.full j g' hj
    simp only [hown, hown', Option.map_some, Option.getD_some]
    by_cases hij : i = j
    · subst hij
      rw [hown] at hown'
      simp only [Option.some.injEq, Prod.mk.injEq] at hown'
      obtain ⟨rfl, rfl, _⟩ := hown'
      exact ⟨(r.hi.holds _ _ _ _ hown).ne, fun _ => rfl, fun _ => rfl⟩
    · have := r.hi.disj (some i) (some j) _ _ _ _ _ _ (by simpa using hij) hown hown'
      exact ⟨this.2.1, fun e => absurd e this.1, fun e => absurd e this.2.2.2⟩

/-- A history using every operation; the copy keeps its own value. -/
example : (Spec.Arr2.run (fun _ => none) [.dflt 0, .make 1 2 3 (5 : Int), .copy 2 1, .set 2 1 2 7, .get 1 1 2, .get 2 1 2, .assign 0 2,
      .move 3 2, .moveAssign 1 3, .get 1 1 2, .get 3 1 2, .make 4 0 3 1, .create 0 1 1 9, .get 0 0 0, .rows 1, .cols 1,
      .destroy 0, .destroy 1, .destroy 2, .destroy 3]).map (·.2) =
    some [.done, .done, .done, .done, .val 5, .val 7, .done, .done, .done, .val 7, .val 5, .threw, .done, .val 9, .num 2, .num 3,
      .done, .done, .done, .done] := by
  decide +kernel

/-- **C69** fails for a copy of an object that holds nothing (default-constructed or moved from): undefined behaviour. -/
theorem C69_false_copy_empty (dv : τ) (ok : Nat → Bool) : Arr2.run dv ok St.init [.dflt 0, .copy 1 0] = .ub := by
  cases h : ok 1 <;> simp [Arr2.run, Arr2.step, St.init, putObj, Arr2.copyCtor, create2D, linkRows, Arr2.addr, h]

/-- **C69** fails for 2^32 cells or more: the size wraps around and the row pointers leave the pool. -/
theorem C69_false_wrap (dv x : τ) (r c : Nat) (hr : 0 < r) (hc : 0 < c) (h : 2 ^ 32 ≤ r * c) (ok : Nat → Bool) :
    Arr2.run dv ok St.init [.make 0 r c x] = .ub := by
  have hlink : ∀ n off len q, len < off + n * c → linkRows q c len off n = .ub ∨ n = 0 := by
    intro n
    induction n with
    | zero => intros; exact .inr rfl
    | succ n ih =>
      intro off len q hl
      left
      unfold linkRows
      by_cases h1 : off + c ≤ len
      · rw [if_pos h1]
        rcases ih (off + c) len q (by rw [Nat.add_mul] at hl; omega) with h2 | h2
        · rw [h2]; rfl
        · subst h2; omega
      · rw [if_neg h1]
  have h1 : r * c % 2 ^ 32 < 0 + r * c := by
    have := Nat.mod_lt (r * c) (show 0 < 2 ^ 32 by norm_num)
    omega
  have h2 : linkRows ((Mem.init : Mem τ).next + 1) c (r * c % 2 ^ 32) 0 r = .ub := by
    rcases hlink r 0 _ ((Mem.init : Mem τ).next + 1) h1 with h | h
    · exact h
    · omega
  simp only [Arr2.run, Arr2.step, St.init]
  rw [if_neg (by omega), if_neg (by omega)]
  cases ok 0
  · rfl
  · unfold create2D
    simp only [Bool.not_true, Bool.false_eq_true, if_false]
    rw [h2]; rfl

/-- **C69** fails when memory runs out: the null pointer is written to. -/
theorem C69_false_alloc (dv x : τ) (r c : Nat) (hr : 0 < r) (hc : 0 < c) (ok : Nat → Bool) (hok : ok 0 = false) :
    Arr2.run dv ok St.init [.make 0 r c x] = .ub := by
  simp only [Arr2.run, Arr2.step, St.init]
  rw [if_neg (by omega), if_neg (by omega), hok]
  rfl

/-- An object that was moved from still reports its former size. -/
theorem C69_false_size (dv x : Int) : (Arr2.run dv (fun _ => true) St.init [.make 0 2 3 x, .move 1 0, .rows 0]).bind (fun p => .ok p.2) =
    .ok [.done, .done, .num 2] := rfl

end CCGL.Arr2
