import Verif.Lemmas.RasterLife4
/-!
# Lemmas on the ownership of arrays: statistics, subset data, constructors, destructor
-/
namespace CCGL
namespace Life
open Spec

def Field.isStat : Field → Bool
  | .stat _ => true
  | _ => false

/-! ## Statistics -/

theorem freeStats_st {b : Objs} {i : Id} (l : List (Fin 6)) : ∀ {w : World} {o : Obj}, St b i w o →
    ∃ w', freeStats w i l = .ok w' ∧ St b i w' { o with ptr := fun f => if f ∈ l.map Field.stat then none else o.ptr f } := by
  induction l with
  | nil =>
    intro w o s
    exact ⟨w, rfl, by simpa using s⟩
  | cons n l ih =>
    intro w o s
    obtain ⟨w1, e1, s1⟩ := free_st s (.stat n) (Or.inr (by intro h; cases h))
    obtain ⟨w2, e2, s2⟩ := ih s1
    refine ⟨w2, ?_, ?_⟩
    · have : freeStats w i (n :: l) = (do let w ← free w i (.stat n); freeStats w i l) := rfl
      rw [this, e1, Out.ok_bind, e2]
    · convert s2 using 1
      simp only [Obj.setPtr, Obj.mk.injEq, and_true, true_and]
      funext f
      simp only [List.map_cons, List.mem_cons, upd]
      by_cases h1 : f ∈ l.map Field.stat
      · simp [h1]
      · by_cases h2 : f = .stat n
        · simp [h2]
        · simp [h1, h2]

theorem all_six (n : Fin 6) : n ∈ six := by revert n; decide

theorem mem_six (f : Field) : f ∈ six.map Field.stat ↔ f.isStat = true := by
  cases f with
  | stat n =>
    simp only [Field.isStat, iff_true]
    exact List.mem_map.2 ⟨n, all_six n, rfl⟩
  | _ => simp [Field.isStat]

/-- A raster whose two-dimensional statistics have been released. -/
def Obj.noStats (o : Obj) : Obj := { o with ptr := fun f => if f.isStat then none else o.ptr f, statMap := false }

theorem releaseStats_st {b : Objs} {i : Id} {w : World} {o : Obj} (s : St b i w o) :
    ∃ w', releaseStats w i = .ok w' ∧ St b i w' o.noStats := by
  unfold releaseStats
  obtain ⟨w1, e1, s1⟩ := freeStats_st six s
  obtain ⟨w2, e2, s2⟩ := flag_st s1 (fun o => { o with statMap := false }) (fun _ => rfl) rfl rfl
  refine ⟨w2, by rw [e1, Out.ok_bind, e2], ?_⟩
  convert s2 using 1
  simp only [Obj.noStats, Obj.mk.injEq, and_true, true_and]
  funext f
  simp only [mem_six]

theorem putStats_st {b : Objs} {i : Id} (l : List (Fin 6)) : ∀ {w : World} {o : Obj}, St b i w o → l.Nodup → (∀ n ∈ l, o.ptr (.stat n) = none) →
    ∃ w' p, putStats w i l = .ok w' ∧ St b i w' { o with ptr := p } ∧ (∀ f, f ∉ l.map Field.stat → p f = o.ptr f) ∧ ∀ n ∈ l, p (.stat n) ≠ none := by
  induction l with
  | nil =>
    intro w o s _ _
    exact ⟨w, o.ptr, rfl, s, fun _ _ => rfl, by simp⟩
  | cons n l ih =>
    intro w o s hn hz
    obtain ⟨w1, a, e1, s1⟩ := put_st s (.stat n) .one (hz n (by simp)) rfl (by intro h; cases h)
    have hnl := (List.nodup_cons.1 hn).1
    obtain ⟨w2, p2, e2, s2, q2, r2⟩ := ih s1 (List.nodup_cons.1 hn).2 (fun k hk => by
      have : k ≠ n := fun h => hnl (h ▸ hk)
      rw [setPtr_ne _ _ (by simpa using this)]
      exact hz k (by simp [hk]))
    refine ⟨w2, p2, ?_, s2, ?_, ?_⟩
    · have : putStats w i (n :: l) = (do let w ← put w i (.stat n) .one; putStats w i l) := rfl
      rw [this, e1, Out.ok_bind, e2]
    · intro f hf
      simp only [List.map_cons, List.mem_cons, not_or] at hf
      rw [q2 f hf.2, setPtr_ne _ _ hf.1]
    · intro k hk
      by_cases h : k ∈ l
      · exact r2 k h
      · have : k = n := by
          rcases List.mem_cons.1 hk with h' | h'
          · exact h'
          · exact absurd h' h
        subst this
        rw [q2 _ (by
          intro hm
          obtain ⟨x, hx, hxe⟩ := List.mem_map.1 hm
          cases hxe
          exact h hx), setPtr_self]
        simp

theorem copyStats_st {b : Objs} {i j : Id} {oj : Obj} (hji : j ≠ i) (hj : b j = some oj) (l : List (Fin 6)) : ∀ {w : World} {o : Obj}, St b i w o → l.Nodup →
    (∀ n ∈ l, o.ptr (.stat n) = none) →
    ∃ w' p, copyStats w j i l = .ok w' ∧ St b i w' { o with ptr := p } ∧ (∀ f, f ∉ l.map Field.stat → p f = o.ptr f) ∧ ∀ n ∈ l, p (.stat n) ≠ none := by
  induction l with
  | nil =>
    intro w o s _ _
    exact ⟨w, o.ptr, rfl, s, fun _ _ => rfl, by simp⟩
  | cons n l ih =>
    intro w o s hn hz
    obtain ⟨w1, a, e1, s1⟩ := put_st s (.stat n) .one (hz n (by simp)) rfl (by intro h; cases h)
    have hnl := (List.nodup_cons.1 hn).1
    obtain ⟨w2, p2, e2, s2, q2, r2⟩ := ih s1 (List.nodup_cons.1 hn).2 (fun k hk => by
      have : k ≠ n := fun h => hnl (h ▸ hk)
      rw [setPtr_ne _ _ (by simpa using this)]
      exact hz k (by simp [hk]))
    refine ⟨w2, p2, ?_, s2, ?_, ?_⟩
    · have : copyStats w j i (n :: l) = (do touchOpt w j (.stat n); let w ← put w i (.stat n) .one; copyStats w j i l) := rfl
      rw [this, touchOpt_ok s.inv (show w.objs j = some oj by rw [s.other hji]; exact hj), Out.ok_bind, e1, Out.ok_bind, e2]
    · intro f hf
      simp only [List.map_cons, List.mem_cons, not_or] at hf
      rw [q2 f hf.2, setPtr_ne _ _ hf.1]
    · intro k hk
      by_cases h : k ∈ l
      · exact r2 k h
      · have : k = n := by
          rcases List.mem_cons.1 hk with h' | h'
          · exact h'
          · exact absurd h' h
        subst this
        rw [q2 _ (by
          intro hm
          obtain ⟨x, hx, hxe⟩ := List.mem_map.1 hm
          cases hxe
          exact h hx), setPtr_self]
        simp

theorem six_nodup : six.Nodup := by decide

theorem stat_none {o : Obj} (hi : OInv o) (h : ¬ (o.is2d = true ∧ o.stats = true)) (n : Fin 6) : o.ptr (.stat n) = none := by
  by_contra hn
  obtain ⟨a, c, _⟩ := hi.stat n hn
  exact h ⟨a, c⟩

/-- `CalculateStatistics` of a raster with data whose statistics arrays are null or calculated. -/
theorem calcStats_st {b : Objs} {i : Id} {w : World} {o : Obj} (s : St b i w o) (hi : OInv o) (hv : o.valid = true) :
    ∃ w' o', calcStats w i = .ok w' ∧ St b i w' o' ∧ OInv o' ∧ Kept o o' ∧ o'.is2d = o.is2d ∧ o'.stats = true ∧ o'.calcPos = o.calcPos ∧
      (o.stats = false → o.is2d = true → ∀ n, o'.ptr (.stat n) ≠ none) := by
  unfold calcStats
  rw [s.get, Out.ok_bind]
  by_cases hs : o.stats = true
  · rw [hs, if_pos rfl]
    exact ⟨w, o, rfl, s, hi, Kept.refl o, rfl, hs, rfl, by simp⟩
  rw [if_neg hs]
  rw [Bool.not_eq_true] at hs
  obtain ⟨w1, e1, s1⟩ := flag_st s (fun o => { o with statMap := true }) (fun _ => rfl) rfl rfl
  have hnone := stat_none hi (by rw [hs]; simp)
  rw [e1, Out.ok_bind]
  obtain ⟨w2, p2, e2, s2, q2, r2⟩ : ∃ w2 p2, (bif o.is2d && (o.ptr .ras2).isSome then (do
        touch w1 i .ras2
        putStats w1 i six)
      else (do
        bif decide (0 < o.cells) then touch w1 i .ras else .ok ()
        .ok w1)) = Out.ok w2 ∧ St b i w2 { o with ptr := p2, statMap := true } ∧ (∀ f, f.isStat = false → p2 f = o.ptr f) ∧
        ((∀ n, p2 (.stat n) = none) ∧ o.is2d = false ∨ (∀ n, p2 (.stat n) ≠ none) ∧ o.is2d = true) := by
    unfold Obj.valid at hv
    rcases Bool.eq_false_or_eq_true o.is2d with h2d | h2d
    · rw [h2d, if_pos rfl] at hv
      obtain ⟨w2, p2, e2, s2, q2, r2⟩ := putStats_st six s1 six_nodup (fun n _ => hnone n)
      refine ⟨w2, p2, ?_, s2, ?_, Or.inr ⟨fun n => r2 n (all_six n), h2d⟩⟩
      · rw [h2d, hv, Bool.and_true, cond_true, touch_ok s1.inv s1.at_ hv, Out.ok_bind, e2]
      · intro f hf
        exact q2 f (by rw [mem_six, hf]; simp)
    · rw [h2d, if_neg (by simp)] at hv
      refine ⟨w1, o.ptr, ?_, s1, fun _ _ => rfl, Or.inl ⟨hnone, h2d⟩⟩
      rw [h2d, Bool.false_and, cond_false]
      cases decide (0 < o.cells) with
      | true => rw [cond_true, touch_ok s1.inv s1.at_ hv, Out.ok_bind]
      | false => rfl
  rw [e2, Out.ok_bind]
  obtain ⟨w3, e3, s3⟩ := flag_st s2 (fun o => { o with stats := true }) (fun _ => rfl) rfl rfl
  have hinv : OInv { o with ptr := p2, statMap := true, stats := true } := by
    refine ⟨?_, ?_, ?_, hi.subs.congr (fun k f => q2 _ rfl), ?_⟩
    · show (p2 .pos).isSome = (p2 .idx).isSome
      rw [q2 _ rfl, q2 _ rfl]; exact hi.posidx
    · show p2 .ras2 ≠ none → _
      rw [q2 _ rfl]; exact hi.ras2
    · intro n hn
      rcases r2 with ⟨a, _⟩ | ⟨a, c⟩
      · exact absurd (a n) hn
      · exact ⟨c, rfl, a⟩
    · intro h
      apply hi.cells
      have h : (p2 .pos).isSome = true ∨ (p2 .ras2).isSome = true := h
      rw [q2 .pos rfl, q2 .ras2 rfl] at h
      exact h
  refine ⟨w3, _, e3, s3, hinv, ⟨rfl, ?_, rfl, fun k f => q2 _ rfl, fun f hf _ => q2 f (by cases f <;> simp_all [Field.isPos, Field.isStat])⟩, rfl, rfl, rfl, ?_⟩
  · unfold Obj.valid
    simp only [q2 .ras rfl, q2 .ras2 rfl]
  · intro _ h2
    rcases r2 with ⟨_, a⟩ | ⟨a, _⟩
    · rw [h2] at a; cases a
    · exact a

theorem getStat_st {b : Objs} {i : Id} {w : World} {o : Obj} (s : St b i w o) (hi : OInv o) (n : Fin 6) :
    ∃ w' o', getStat w i n = .ok w' ∧ St b i w' o' ∧ OInv o' ∧ Kept o o' ∧ o'.calcPos = o.calcPos := by
  unfold getStat
  rw [s.get, Out.ok_bind]
  by_cases hv : o.valid = true
  swap
  · rw [Bool.not_eq_true] at hv
    rw [hv, Bool.not_false, if_pos rfl]
    exact ⟨w, o, rfl, s, hi, Kept.refl o, rfl⟩
  rw [hv, Bool.not_true, if_neg (by simp)]
  cases h2d : o.is2d with
  | false =>
    rw [if_neg (by simp)]
    obtain ⟨w', o', e, s', i', k, _, _, kc, _⟩ := calcStats_st s hi hv
    exact ⟨w', o', e, s', i', k, kc⟩
  | true =>
    rw [if_pos rfl]
    cases hmap : o.statMap with
    | false => exact ⟨w, o, rfl, s, hi, Kept.refl o, rfl⟩
    | true =>
      rw [Bool.not_true, if_neg (by simp)]
      obtain ⟨w1, o1, e1, s1, i1, k1, c1, q1⟩ : ∃ w1 o1, (bif (o.ptr (.stat n)).isNone then (do
            let w ← modify w i (fun o => { o with stats := false })
            calcStats w i)
          else .ok w) = Out.ok w1 ∧ St b i w1 o1 ∧ OInv o1 ∧ Kept o o1 ∧ o1.calcPos = o.calcPos ∧ o1.ptr (.stat n) ≠ none := by
        cases hp : o.ptr (.stat n) with
        | some a => exact ⟨w, o, rfl, s, hi, Kept.refl o, rfl, by rw [hp]; simp⟩
        | none =>
          obtain ⟨w1, e1, s1⟩ := flag_st s (fun o => { o with stats := false }) (fun _ => rfl) rfl rfl
          have hall : ∀ m, o.ptr (.stat m) = none := by
            intro m
            by_contra hm
            exact (hi.stat m hm).2.2 n hp
          have i1 : OInv { o with stats := false } := ⟨hi.posidx, hi.ras2, fun m hm => absurd (hall m) hm, hi.subs, hi.cells⟩
          obtain ⟨w2, o2, e2, s2, i2, k2, _, _, c2, r2⟩ := calcStats_st s1 i1 hv
          refine ⟨w2, o2, ?_, s2, i2, ?_, c2, r2 rfl h2d n⟩
          · rw [Option.isNone_none, cond_true, e1, Out.ok_bind, e2]
          · have k1 : Kept o { o with stats := false } := ⟨rfl, rfl, rfl, fun _ _ => rfl, fun _ _ _ => rfl⟩
            exact k1.trans k2
      rw [e1, Out.ok_bind, touch_ok s1.inv s1.at_ (Option.isSome_iff_ne_none.2 q1), Out.ok_bind]
      exact ⟨w1, o1, rfl, s1, i1, k1, c1⟩

theorem noStats_inv {o : Obj} (hi : OInv o) (x : Bool) : OInv { o.noStats with stats := x } := by
  refine ⟨?_, ?_, ?_, hi.subs.congr (fun k f => by simp [Obj.noStats, Field.isStat]), ?_⟩
  · simpa [Obj.noStats, Field.isStat] using hi.posidx
  · simpa [Obj.noStats, Field.isStat] using hi.ras2
  · intro n hn
    simp [Obj.noStats, Field.isStat] at hn
  · simpa [Obj.noStats, Field.isStat] using hi.cells

theorem noStats_kept (o : Obj) (x : Bool) : Kept o { o.noStats with stats := x } := by
  refine ⟨rfl, ?_, rfl, fun k f => by simp [Obj.noStats, Field.isStat], fun f hf _ => ?_⟩
  · simp [Obj.valid, Obj.noStats, Field.isStat]
  · cases f <;> simp_all [Obj.noStats, Field.isStat, Field.isPos]

theorem updateStats_st {b : Objs} {i : Id} {w : World} {o : Obj} (s : St b i w o) (hi : OInv o) (hv : o.valid = true) :
    ∃ w' o', updateStats w i = .ok w' ∧ St b i w' o' ∧ OInv o' ∧ Kept o o' := by
  unfold updateStats
  rw [s.get, Out.ok_bind]
  obtain ⟨w1, o1, e1, s1, i1, k1⟩ : ∃ w1 o1, ((bif o.is2d && o.stats then releaseStats w i else .ok w) >>= fun w =>
      modify w i (fun o => { o with stats := false })) = Out.ok w1 ∧ St b i w1 o1 ∧ OInv o1 ∧ Kept o o1 := by
    cases hc : (o.is2d && o.stats) with
    | true =>
      obtain ⟨w1, e1, s1⟩ := releaseStats_st s
      obtain ⟨w2, e2, s2⟩ := flag_st s1 (fun o => { o with stats := false }) (fun _ => rfl) rfl rfl
      exact ⟨w2, _, by rw [cond_true, e1, Out.ok_bind, e2], s2, noStats_inv hi false, noStats_kept o false⟩
    | false =>
      obtain ⟨w2, e2, s2⟩ := flag_st s (fun o => { o with stats := false }) (fun _ => rfl) rfl rfl
      have hall := stat_none hi (by
        intro h
        rw [h.1, h.2] at hc
        cases hc)
      exact ⟨w2, _, by rw [cond_false, Out.ok_bind, e2], s2, ⟨hi.posidx, hi.ras2, fun m hm => absurd (hall m) hm, hi.subs, hi.cells⟩,
        ⟨rfl, rfl, rfl, fun _ _ => rfl, fun _ _ _ => rfl⟩⟩
  obtain ⟨x, ex, ex'⟩ := Out.bind_ok e1
  rw [ex, Out.ok_bind, ex', Out.ok_bind]
  obtain ⟨w2, o2, e2, s2, i2, k2, _⟩ := calcStats_st s1 i1 (by rw [k1.valid]; exact hv)
  exact ⟨w2, o2, e2, s2, i2, k1.trans k2⟩

/-! ## Data of a subset -/

theorem setData_st {b : Objs} {i : Id} {w : World} {o : Obj} (s : St b i w o) (hi : OInv o) (k : Int) (two : Bool) :
    ∃ w' o', setData w i k two = .ok w' ∧ St b i w' o' ∧ OInv o' := by
  unfold setData
  rw [s.get, Out.ok_bind]
  cases hf : o.subs.find? (fun e => decide (e.1 = k)) with
  | none => exact ⟨w, o, rfl, s, hi⟩
  | some e =>
    have hmem : e ∈ o.subs := List.mem_of_find?_eq_some hf
    have hek : e.1 = k := by simpa using List.find?_some hf
    have hkey : k ∈ o.subs.map Prod.fst := List.mem_map.2 ⟨e, hmem, hek⟩
    have hinv : ∀ f, (f = SF.data ∨ f = SF.data2) → ∀ p, OInv (o.setPtr (.sub k f) p) := by
      intro f hf' p
      have hne : ∀ g : Field, g.isSub = false → g ≠ .sub k f := by
        intro g hg h; rw [h] at hg; cases hg
      refine ⟨?_, ?_, ?_, ⟨?_, ?_, hi.subs.nodup⟩, ?_⟩
      · rw [setPtr_ne _ _ (hne _ rfl), setPtr_ne _ _ (hne _ rfl)]; exact hi.posidx
      · rw [setPtr_ne _ _ (hne _ rfl)]; exact hi.ras2
      · intro n hn
        rw [setPtr_ne _ _ (hne _ rfl)] at hn
        obtain ⟨a1, a2, a3⟩ := hi.stat n hn
        exact ⟨a1, a2, fun m => by rw [setPtr_ne _ _ (hne _ rfl)]; exact a3 m⟩
      · intro k' f' h
        by_cases he : Field.sub k' f' = Field.sub k f
        · cases he; exact hkey
        · rw [setPtr_ne _ _ he] at h
          exact hi.subs.only k' f' h
      · intro x hx
        have h1 : ∀ g, g ≠ SF.data → g ≠ SF.data2 → (o.setPtr (.sub k f) p).ptr (.sub x.1 g) = o.ptr (.sub x.1 g) := by
          intro g h1 h2
          refine setPtr_ne _ _ ?_
          intro h
          cases h
          rcases hf' with h | h
          · exact h1 h
          · exact h2 h
        rw [h1 _ (by simp) (by simp), h1 _ (by simp) (by simp), h1 _ (by simp) (by simp)]
        exact hi.subs.full x hx
      · rw [setPtr_ne _ _ (hne _ rfl), setPtr_ne _ _ (hne _ rfl)]; exact hi.cells
    cases two with
    | true =>
      obtain ⟨w1, p1, e1, s1, q1⟩ := alloc2_st s (.sub k .data2) (hi.subs.full e hmem).2.1 rfl (by intro h; cases h)
      refine ⟨w1, _, ?_, s1, hinv _ (Or.inr rfl) p1⟩
      simp only [if_true, e1, Out.ok_bind]
      rw [touch_ok s1.inv s1.at_ (by rw [setPtr_self]; exact q1)]
      rfl
    | false =>
      obtain ⟨w1, p1, e1, s1, q1⟩ := alloc1d_st s (.sub k .data) rfl (by intro h; cases h)
      refine ⟨w1, _, ?_, s1, hinv _ (Or.inl rfl) p1⟩
      simp only [Bool.false_eq_true, if_false, e1, Out.ok_bind]
      rw [touch_ok s1.inv s1.at_ (by rw [setPtr_self]; exact q1)]
      rfl

/-! ## New rasters -/

/-- A new raster without arrays. -/
theorem new_st {w : World} (hi : HInv w) {i : Id} (hn : w.objs i = none) (is2d : Bool) :
    ∃ w', newEmpty w i is2d = .ok w' ∧ St w.objs i w' (emptyObj is2d) := by
  refine ⟨w.set i (emptyObj is2d), ?_, ?_, rfl⟩
  · unfold newEmpty; rw [hn]
  · have hold : ∀ j x, upd w.objs i (some (emptyObj is2d)) j = some x → (j = i ∧ x = emptyObj is2d) ∨ (j ≠ i ∧ w.objs j = some x) := by
      intro j x hj
      by_cases e : j = i
      · subst e; rw [upd_self] at hj; cases hj; exact Or.inl ⟨rfl, rfl⟩
      · rw [upd_ne _ _ e] at hj; exact Or.inr ⟨e, hj⟩
    have hown : ∀ j g c, owns (upd w.objs i (some (emptyObj is2d))) j g c ↔ owns w.objs j g c := by
      intro j g c
      constructor
      · rintro ⟨x, h1, h2, h3⟩
        rcases hold j x h1 with ⟨_, e⟩ | ⟨_, e⟩
        · subst e; cases h2
        · exact ⟨x, e, h2, h3⟩
      · rintro ⟨x, h1, h2, h3⟩
        have : j ≠ i := by intro e; subst e; rw [hn] at h1; cases h1
        exact ⟨x, by rw [upd_ne _ _ this]; exact h1, h2, h3⟩
    refine ⟨hi.fresh, ?_, ?_, ?_, ?_, ?_⟩
    · intro j x g c hj hg
      rcases hold j x hj with ⟨_, e⟩ | ⟨_, e⟩
      · subst e; cases hg
      · exact hi.live j x g c e hg
    · intro j g k g' c h1 h2
      exact hi.uniq j g k g' c ((hown j g c).1 h1) ((hown k g' c).1 h2)
    · intro c hc
      obtain ⟨j, g, h⟩ := hi.all c hc
      exact ⟨j, g, (hown j g c).2 h⟩
    · intro j x g c hj hg
      rcases hold j x hj with ⟨_, e⟩ | ⟨_, e⟩
      · subst e; cases hg
      · have c0 := hi.chain j x g c e hg
        have hu : URef w.objs i := by
          intro l ol hl _ hm
          obtain ⟨om, hom⟩ := hi.alive l ol i hl hm
          rw [hn] at hom; cases hom
        exact chain_unref hu _ c0 (by assumption)
    · intro j x m hj hm
      rcases hold j x hj with ⟨_, e⟩ | ⟨_, e⟩
      · subst e; cases hm
      · obtain ⟨om, h⟩ := hi.alive j x m e hm
        by_cases e' : m = i
        · subst e'; exact ⟨_, upd_self _ _ _⟩
        · exact ⟨om, by show upd w.objs i _ m = _; rw [upd_ne _ _ e']; exact h⟩

theorem empty_inv (is2d : Bool) : OInv (emptyObj is2d) :=
  ⟨rfl, fun h => absurd rfl h, fun _ h => absurd rfl h, SubInv.nil (fun _ _ => rfl), fun h => by simp [emptyObj] at h⟩

/-- Nobody refers to a raster that does not exist. -/
theorem uref_new {w : World} (hi : HInv w) {i : Id} (hn : w.objs i = none) : URef w.objs i := by
  intro l ol hl _ hm
  obtain ⟨om, hom⟩ := hi.alive l ol i hl hm
  rw [hn] at hom; cases hom

/-- The destructor of a raster whose arrays have been released. -/
theorem remove_st {b : Objs} {i : Id} {w : World} {o : Obj} (s : St b i w o) (hu : URef b i)
    (hz : ∀ f, f.isPos = false ∨ o.store = true → o.ptr f = none) : HInv { w with objs := upd w.objs i none } := by
  have hu' : URef w.objs i := by
    intro l ol hl hne
    rw [s.other hne] at hl
    exact hu l ol hl hne
  have hown : ∀ j g c, owns (upd w.objs i none) j g c ↔ owns w.objs j g c := by
    intro j g c
    by_cases e : j = i
    · subst e
      constructor
      · rintro ⟨x, h1, _⟩; rw [upd_self] at h1; cases h1
      · rintro ⟨x, h1, h2, h3⟩
        rw [s.at_] at h1; cases h1
        have : o.ptr g = none := hz g (by
          by_cases hg : g.isPos = true
          · exact Or.inr (h3 hg)
          · exact Or.inl (by simpa using hg))
        rw [this] at h2; cases h2
    · constructor
      · rintro ⟨x, h1, h2⟩; rw [upd_ne _ _ e] at h1; exact ⟨x, h1, h2⟩
      · rintro ⟨x, h1, h2⟩; exact ⟨x, by rw [upd_ne _ _ e]; exact h1, h2⟩
  have hold : ∀ j x, upd w.objs i none j = some x → j ≠ i ∧ w.objs j = some x := by
    intro j x hj
    by_cases e : j = i
    · subst e; rw [upd_self] at hj; cases hj
    · rw [upd_ne _ _ e] at hj; exact ⟨e, hj⟩
  refine ⟨s.inv.fresh, ?_, ?_, ?_, ?_, ?_⟩
  · intro j x g c hj hg
    exact s.inv.live j x g c (hold j x hj).2 hg
  · intro j g k g' c h1 h2
    exact s.inv.uniq j g k g' c ((hown j g c).1 h1) ((hown k g' c).1 h2)
  · intro c hc
    obtain ⟨j, g, h⟩ := s.inv.all c hc
    exact ⟨j, g, (hown j g c).2 h⟩
  · intro j x g c hj hg
    exact chain_unref hu' _ (s.inv.chain j x g c (hold j x hj).2 hg) (hold j x hj).1
  · intro j x m hj hm
    obtain ⟨hne, hx⟩ := hold j x hj
    obtain ⟨om, h⟩ := s.inv.alive j x m hx hm
    have hmi : m ≠ i := fun e => hu' j x hx hne (e ▸ hm)
    exact ⟨om, by show upd w.objs i _ m = _; rw [upd_ne _ _ hmi]; exact h⟩

theorem destroy_ok {w : World} (hw : WInv w) {i : Id} {o : Obj} (ho : w.objs i = some o) (hu : URef w.objs i) :
    ∃ w', destroy w i = .ok w' ∧ WInv w' ∧ w'.objs = upd w.objs i none := by
  have s := St.mk' hw.h ho
  have hi := hw.o i o ho
  unfold destroy
  rw [get_of ho, Out.ok_bind]
  obtain ⟨w1, e1, s1⟩ := free_st s .ras (Or.inr (by intro h; cases h))
  rw [e1, Out.ok_bind]
  -- positions
  obtain ⟨w3, p3, e3, s3, q3, r3⟩ : ∃ w3 p3, ((bif o.store then free w1 i .pos else .ok w1) >>= fun w => bif o.store then free w i .idx else .ok w) = Out.ok w3 ∧
      St w.objs i w3 { o with ptr := p3 } ∧ (∀ f, f ≠ .ras → f.isPos = false → p3 f = o.ptr f) ∧ (p3 .ras = none ∧ (o.store = true → p3 .pos = none ∧ p3 .idx = none)) := by
    rcases Bool.eq_false_or_eq_true o.store with hst | hst
    · obtain ⟨w2, e2, s2⟩ := free_st s1 .pos (Or.inr (fun _ => ⟨hst, hu⟩))
      obtain ⟨w3, e3, s3⟩ := free_st s2 .idx (Or.inr (fun _ => ⟨hst, hu⟩))
      refine ⟨w3, _, by rw [hst, cond_true, e2, Out.ok_bind, cond_true, e3], s3, ?_, ?_, ?_⟩
      · intro f hf hf'
        have b1 : f ≠ .pos := by intro h; subst h; cases hf'
        have b2 : f ≠ .idx := by intro h; subst h; cases hf'
        simp only [Obj.setPtr, upd, b1, b2, hf, if_false]
      · simp [Obj.setPtr, upd]
      · intro _; simp [Obj.setPtr, upd]
    · refine ⟨w1, _, by rw [hst]; rfl, s1, ?_, ?_, by simp [hst]⟩
      · intro f hf _
        simp only [Obj.setPtr, upd, hf, if_false]
      · simp [Obj.setPtr, upd]
  obtain ⟨x, ex, ex'⟩ := Out.bind_ok e3
  rw [ex, Out.ok_bind, ex', Out.ok_bind]
  -- two-dimensional data and statistics
  obtain ⟨w4, p4, e4, s4, q4, r4⟩ : ∃ w4 p4, (bif o.is2d then free w3 i .ras2 else .ok w3) = Out.ok w4 ∧
      St w.objs i w4 { o with ptr := p4 } ∧ (∀ f, f ≠ .ras2 → p4 f = p3 f) ∧ p4 .ras2 = none := by
    rcases Bool.eq_false_or_eq_true o.is2d with h2d | h2d
    · obtain ⟨w4, e4, s4⟩ := free_st s3 .ras2 (Or.inr (by intro h; cases h))
      refine ⟨w4, _, by rw [h2d, cond_true, e4], s4, ?_, ?_⟩
      · intro f hf; simp only [Obj.setPtr, upd, hf, if_false]
      · simp [Obj.setPtr, upd]
    · refine ⟨w3, p3, by rw [h2d]; rfl, s3, fun _ _ => rfl, ?_⟩
      rw [q3 _ (by simp) rfl]
      by_contra h
      have := hi.ras2 h
      rw [h2d] at this; cases this
  rw [e4, Out.ok_bind]
  obtain ⟨w5, p5, sm5, e5, s5, q5, r5⟩ : ∃ w5 p5 sm5, (bif o.is2d && o.stats then releaseStats w4 i else .ok w4) = Out.ok w5 ∧
      St w.objs i w5 { o with ptr := p5, statMap := sm5 } ∧ (∀ f, f.isStat = false → p5 f = p4 f) ∧ ∀ n, p5 (.stat n) = none := by
    cases hc : (o.is2d && o.stats) with
    | true =>
      obtain ⟨w5, e5, s5⟩ := releaseStats_st s4
      refine ⟨w5, _, _, by rw [cond_true, e5], s5, ?_, ?_⟩
      · intro f hf; simp only [hf, Bool.false_eq_true, if_false]
      · intro n; simp [Field.isStat]
    | false =>
      refine ⟨w4, p4, o.statMap, rfl, s4, fun _ _ => rfl, ?_⟩
      intro n
      rw [q4 _ (by simp), q3 _ (by simp) rfl]
      exact stat_none hi (by
        intro h
        rw [h.1, h.2] at hc
        cases hc) n
  rw [e5, Out.ok_bind]
  have hsub5 : SubInv p5 o.subs := hi.subs.congr (fun k f => by rw [q5 _ rfl, q4 _ (by simp), q3 _ (by simp) rfl])
  obtain ⟨w6, e6, s6⟩ := releaseSubset_st s5 hsub5
  rw [e6, Out.ok_bind]
  refine ⟨_, rfl, ⟨remove_st s6 hu ?_, ?_⟩, ?_⟩
  · intro f hf
    show (if f.isSub = true then none else p5 f) = none
    cases f with
    | ras => simp only [Field.isSub]; rw [q5 _ rfl, q4 _ (by simp)]; simpa using r3.1
    | ras2 => simp only [Field.isSub]; rw [q5 _ rfl]; simpa using r4
    | pos =>
      simp only [Field.isSub]
      rw [q5 _ rfl, q4 _ (by simp)]
      rcases hf with h | h
      · cases h
      · simpa using (r3.2 h).1
    | idx =>
      simp only [Field.isSub]
      rw [q5 _ rfl, q4 _ (by simp)]
      rcases hf with h | h
      · cases h
      · simpa using (r3.2 h).2
    | stat n => simpa [Field.isSub] using r5 n
    | sub k g => simp [Field.isSub]
  · intro j oj hj
    have hj : upd w6.objs i none j = some oj := hj
    by_cases e : j = i
    · subst e; rw [upd_self] at hj; cases hj
    · rw [upd_ne _ _ e, s6.other e] at hj
      exact hw.o j oj hj
  · show upd w6.objs i none = _
    rw [s6.objs, upd_upd]

end Life
end CCGL
