import Verif.Lemmas.MongoLife5
/-! Every allowed call ends normally, and what exists afterwards: the cases. -/
namespace CCGL
namespace MLife

/-- The conclusion for one call. -/
def Good (w : World) (c : Call) : Prop := ∃ w' r, step w c = .ok (w', r) ∧ Inv w' ∧ Live w c w' r

theorem good_unit {w v : World} {c : Call} {f : Out World} (hf : f = .ok v) (hs : step w c = (f >>= fun w => pure (w, .unit)))
    (hi : Inv v) (hl : Live w c v .unit) : Good w c := ⟨v, .unit, by rw [hs, hf, Out.ok_bind, Out.pure_eq], hi, hl⟩

theorem good_obj {w v : World} {c : Call} {f : Out (World × H)} {g : H} (hf : f = .ok (v, g)) (hs : step w c = (f >>= fun r => pure (r.1, .obj r.2)))
    (hi : Inv v) (hl : Live w c v (.obj g)) : Good w c := ⟨v, .obj g, by rw [hs, hf, Out.ok_bind, Out.pure_eq], hi, hl⟩

theorem holds_unique {w : World} {b : Nat} {k k' : Kind} {h h' : H} (h1 : Holds w b k h) (h2 : Holds w b k' h') : k = k' ∧ h = h' := by
  unfold Holds at h1 h2
  rw [h1] at h2
  injection h2 with h2
  injection h2 with h2 h3
  exact ⟨h2, h3⟩

theorem unheld_wr {w : World} {i : Nat} (h : Unheld w i) : ∀ b k', Holds w b k' (some i) → k' = .client := by
  intro b k' hb
  by_contra hk
  exact h b k' i hb hk (Or.inl rfl)

theorem gained_wr (w : World) (k : Kind) (h : H) (i : Nat) : Gained (w.wr [⟨k, h, true⟩]) i (.wrapper w.wraps.length) ↔ h = some i := by
  constructor
  · rintro ⟨k', q⟩
    exact (holds_unique (holds_last w k h) q).2
  · rintro rfl
    exact ⟨k, holds_last w k (some i)⟩

section client
variable {w : World} (h : Inv w) {c i : Nat} (hc : Holds w c .client (some i)) (hs : Sound w .client i)
include h hc hs

theorem good_databaseNames (ok : Bool) : Good w (.databaseNames c ok) := by
  refine ⟨_, .unit, by simp only [step, databaseNames_ok hc hs, Out.ok_bind, Out.pure_eq], h.add (GoodL.ext ?_), live_add (e := if ok then [⟨.buffer, false, []⟩] else []) rfl rfl (fun _ q => q) ?_⟩
  · cases ok
    · trivial
    · exact ⟨goodObj_nil _ _ _ _, trivial⟩
  · intro j; cases ok <;> simp [NewEx, Gained]

theorem good_getDatabase : Good w (.getDatabase c) := by
  refine good_obj (getDatabase_ok hc hs) rfl (h.add (GoodL.ext ⟨goodObj_conn h hs (Nat.le_refl _) _ (by decide) _, trivial⟩))
    (live_add (e := [⟨.database, true, aboveOf w (some i)⟩]) rfl rfl (fun _ q => q) ?_)
  intro j; simp [NewEx, Gained, eq_comm]

theorem good_getCollection (has : Bool) : Good w (.getCollection c has) := by
  cases has
  · refine ⟨w.add [⟨.database, true, aboveOf w (some i)⟩], .obj none, by simp only [step, getCollection_ok hc hs, Out.ok_bind, Out.pure_eq, Bool.false_eq_true, if_false],
      h.add (GoodL.ext ⟨goodObj_conn h hs (Nat.le_refl _) _ (by decide) _, trivial⟩),
      live_leak (e := [⟨.database, true, aboveOf w (some i)⟩]) (k := .database) rfl rfl (fun _ q => q) (by simp [Gained]) 0 _ rfl rfl ?_⟩
    intro j; simp [NewEx]
  · refine ⟨w.add [⟨.database, false, aboveOf w (some i)⟩, ⟨.collection, true, aboveOf w (some i)⟩], .obj (some (w.heap.length + 1)),
      by simp only [step, getCollection_ok hc hs, Out.ok_bind, Out.pure_eq, if_true],
      h.add (GoodL.ext ⟨goodObj_conn h hs (Nat.le_refl _) _ (by decide) _, goodObj_conn h hs (by omega) _ (by decide) _, trivial⟩),
      live_add (e := [⟨.database, false, aboveOf w (some i)⟩, ⟨.collection, true, aboveOf w (some i)⟩]) rfl rfl (fun _ q => q) ?_⟩
    intro j; simp [NewEx, Gained, eq_comm]

/-- The world and the result of asking for a GridFS. -/
theorem getGridFs_world (a b : Bool) : ∃ e g, getGridFs c a b w = .ok (w.add e, g) ∧ GoodL w w.heap.length e ∧ (∀ j, NewEx w.heap.length e j ↔ g = some j) ∧
    ∀ j, g = some j → Sound (w.add e) .gridfs j := by
  obtain ⟨h1, h2, h3⟩ := hs.aboves (by decide) (by decide)
  rw [getGridFs_ok hc hs]
  cases a
  · cases b
    · refine ⟨[⟨.database, false, aboveOf w (some i)⟩], none, rfl, ⟨goodObj_conn h hs (Nat.le_refl _) _ (by decide) _, trivial⟩, ?_, by simp⟩
      intro j; simp [NewEx]
    · refine ⟨[⟨.database, false, aboveOf w (some i)⟩, ⟨.gridfs, true, aboveOf w (some i)⟩], some (w.heap.length + 1), rfl,
        ⟨goodObj_conn h hs (Nat.le_refl _) _ (by decide) _, goodObj_conn h hs (by omega) _ (by decide) _, trivial⟩, ?_, ?_⟩
      · intro j; simp [NewEx, eq_comm]
      · intro j hj
        injection hj with hj; subst hj
        exact sound_new (w := w) (m := 1) (o := ⟨.gridfs, true, aboveOf w (some i)⟩) rfl rfl (Or.inr (Or.inr ⟨h1, h2, fun a ha => (h3 a ha).add _⟩))
  · refine ⟨[⟨.gridfs, true, aboveOf w (some i)⟩], some w.heap.length, rfl, ⟨goodObj_conn h hs (Nat.le_refl _) _ (by decide) _, trivial⟩, ?_, ?_⟩
    · intro j; simp [NewEx, eq_comm]
    · intro j hj
      injection hj with hj; subst hj
      exact sound_new (w := w) (m := 0) (o := ⟨.gridfs, true, aboveOf w (some i)⟩) rfl rfl (Or.inr (Or.inr ⟨h1, h2, fun a ha => (h3 a ha).add _⟩))

theorem good_getGridFs (a b : Bool) : Good w (.getGridFs c a b) := by
  obtain ⟨e, g, he, hg, hn, _⟩ := getGridFs_world h hc hs a b
  refine ⟨w.add e, .obj g, by simp only [step, he, Out.ok_bind, Out.pure_eq], h.add hg.ext, live_add (e := e) rfl rfl (fun _ q => q) ?_⟩
  intro j; rw [hn]; rfl

theorem good_gridFs (a b : Bool) : Good w (.gridFs c a b) := by
  obtain ⟨e, g, he, hg, hn, hsd⟩ := getGridFs_world h hc hs a b
  refine ⟨(w.add e).wr [⟨.gridfs, g, true⟩], .wrapper w.wraps.length, by simp only [step, he, Out.ok_bind, Out.pure_eq, gridFsCtor, wrap_eq]; rfl, ?_,
    live_add (e := e) rfl rfl (fun _ q => q) ?_⟩
  · refine inv_wr (h.add hg.ext) .gridfs g true (by simp) ?_
    intro _ _ j hj
    refine ⟨hsd j hj, ?_⟩
    intro b' k' q
    by_contra hk
    have h1 := (h.snd b' k' j q hk).lt
    obtain ⟨m, o, rfl, _⟩ := (newEx_iff _ _ _).1 ((hn j).2 hj)
    omega
  · intro j; rw [hn]
    have := gained_wr (w.add e) .gridfs g j
    have e1 : (w.add e).wraps.length = w.wraps.length := rfl
    rw [e1] at this
    rw [this]

theorem good_clientCollectionNames (ok : Bool) : Good w (.clientCollectionNames c ok) := by
  refine good_unit (clientCollectionNames_ok hc hs ok) rfl ?_
    (live_add (e := ⟨.database, false, aboveOf w (some i)⟩ :: (if ok then [⟨.buffer, false, []⟩] else [])) rfl rfl (fun _ q => q) ?_)
  · refine inv_wr ?_ .database _ false (by simp) (fun q => by cases q)
    refine h.add (GoodL.ext ⟨goodObj_conn h hs (Nat.le_refl _) _ (by decide) _, ?_⟩)
    cases ok
    · trivial
    · exact ⟨goodObj_nil _ _ _ _, trivial⟩
  · intro j; cases ok <;> simp [NewEx, Gained]

theorem good_clientFileNames (a b : Bool) (hab : a = true ∨ b = true) (k : Nat) : Good w (.clientFileNames c a b k) := by
  refine good_unit (clientFileNames_ok hc hs a b hab k) rfl ?_ ?_
  · refine inv_wr ?_ .gridfs _ false (by simp) (fun q => by cases q)
    refine h.add (GoodL.ext ?_)
    have hlt := above_lt h hs.lt
    cases a
    · refine GoodL.append ⟨goodObj_conn h hs (Nat.le_refl _) _ (by decide) _, goodObj_conn h hs (by omega) _ (by decide) _, trivial⟩ ?_
      have := goodL_list (w := w) (v := w.add [⟨.database, false, aboveOf w (some i)⟩, ⟨.gridfs, true, aboveOf w (some i)⟩]) (g := w.heap.length + 1) (by
        intro x hx
        rw [aboveOf_right w _ 1 ⟨.gridfs, true, aboveOf w (some i)⟩ rfl] at hx
        simp only [World.add, List.length_append, List.length_cons, List.length_nil]
        rcases List.mem_cons.1 hx with rfl | hx
        · omega
        · have := hlt x hx; omega) true k
      simpa [World.add] using this
    · refine GoodL.append ⟨goodObj_conn h hs (Nat.le_refl _) _ (by decide) _, trivial⟩ ?_
      have := goodL_list (w := w) (v := w.add [⟨.gridfs, true, aboveOf w (some i)⟩]) (g := w.heap.length) (by
        intro x hx
        have e1 := aboveOf_right w [⟨.gridfs, true, aboveOf w (some i)⟩] 0 ⟨.gridfs, true, aboveOf w (some i)⟩ rfl
        rw [Nat.add_zero] at e1
        rw [e1] at hx
        simp only [World.add, List.length_append, List.length_cons, List.length_nil]
        rcases List.mem_cons.1 hx with rfl | hx
        · omega
        · have := hlt x hx; omega) true k
      simpa [World.add] using this
  · cases a
    · refine live_leak (k := .bson) rfl rfl (fun _ q => q) (fun _ q => q) 2 ⟨.bson, true, []⟩ rfl rfl ?_
      intro j
      simp only [Bool.false_eq_true, if_false, newEx_append, newEx_list, NewEx, List.length_cons, List.length_nil]
      simp
    · refine live_leak (k := .bson) rfl rfl (fun _ q => q) (fun _ q => q) 1 ⟨.bson, true, []⟩ rfl rfl ?_
      intro j
      simp only [if_true, newEx_append, newEx_list, NewEx, List.length_cons, List.length_nil]
      simp

end client

end MLife
end CCGL
