import Verif.Lemmas.MongoLife3
/-! Listing files through the client, initialisation, and releasing existing objects. -/
namespace CCGL
namespace MLife

theorem clientFileNames_ok {w : World} {c i : Nat} (h : Holds w c .client (some i)) (hs : Sound w .client i) (a b : Bool) (hab : a = true ∨ b = true) (k : Nat) :
    clientFileNames c a b k w =
      .ok ((w.add ((if a then [⟨.gridfs, false, aboveOf w (some i)⟩] else [⟨.database, false, aboveOf w (some i)⟩, ⟨.gridfs, false, aboveOf w (some i)⟩]) ++
          listObjs (w.add (if a then [⟨.gridfs, true, aboveOf w (some i)⟩] else [⟨.database, false, aboveOf w (some i)⟩, ⟨.gridfs, true, aboveOf w (some i)⟩]))
            (if a then w.heap.length else w.heap.length + 1) true k)).wr
        [⟨.gridfs, some (if a then w.heap.length else w.heap.length + 1), false⟩]) := by
  obtain ⟨h1, h2, h3⟩ := hs.aboves (by decide) (by decide)
  set G : Obj := ⟨.gridfs, true, aboveOf w (some i)⟩ with hG
  have main : ∀ (e0 : List Obj) (m : Nat), e0[m]? = some G →
      (do
        let t := gridFsCtor (some (w.heap.length + m)) (w.add e0)
        let w ← fileNames t.2 none k t.1
        gridFsDtor t.2 w : Out World) =
      .ok ((w.add (e0.set m { G with alive := false } ++ listObjs (w.add e0) (w.heap.length + m) true k)).wr [⟨.gridfs, some (w.heap.length + m), false⟩]) := by
    intro e0 m hm
    set W : List Wrap := [⟨.gridfs, some (w.heap.length + m), true⟩] with hW
    have hh : Holds ((w.add e0).wr W) w.wraps.length .gridfs (some (w.heap.length + m)) := holds_last (w.add e0) _ _
    have hsv : Sound ((w.add e0).wr W) .gridfs (w.heap.length + m) :=
      sound_new (w := w) (m := m) (o := G) hm rfl (Or.inr (Or.inr ⟨h1, h2, fun a ha => (h3 a ha).add _⟩))
    have hf := fileNames_ok (g := none) hh rfl hsv k
    have hc : gridFsCtor (some (w.heap.length + m)) (w.add e0) = ((w.add e0).wr W, w.wraps.length) := rfl
    rw [hc]
    show (fileNames w.wraps.length none k ((w.add e0).wr W) >>= fun w' => gridFsDtor w.wraps.length w') = _
    rw [hf, Out.ok_bind]
    have el : listObjs ((w.add e0).wr W) (w.heap.length + m) true k = listObjs (w.add e0) (w.heap.length + m) true k := rfl
    rw [el]
    generalize listObjs (w.add e0) (w.heap.length + m) true k = L
    have hh' : Holds (((w.add e0).wr W).add L) w.wraps.length .gridfs (some (w.heap.length + m)) := hh
    have e1 : ((w.add e0).wr W).add L = (w.wr W).add (e0 ++ L) := by rw [wr_add, add_add]; rfl
    have hm' : (e0 ++ L)[m]? = some G := by rw [List.getElem?_append_left (List.getElem?_eq_some_iff.1 hm).1, hm]
    have hds : destroy .gridfs (some (w.heap.length + m)) ((w.wr W).add (e0 ++ L)) = .ok ((w.wr W).add ((e0 ++ L).set m { G with alive := false })) :=
      destroy_add (w := w.wr W) hm' rfl (Or.inr (Or.inr ⟨h1, h2, fun a ha => (h3 a ha).add _⟩))
    simp only [gridFsDtor, getWrap_ok hh', Out.ok_bind]
    rw [e1, hds, Out.ok_bind, Out.pure_eq, wr_add, List.set_append_left _ _ (List.getElem?_eq_some_iff.1 hm).1]
    congr 1
    exact endWrap_last (w.add (e0.set m { G with alive := false } ++ L)) .gridfs (some (w.heap.length + m))
  simp only [clientFileNames, getGridFs_ok h hs, Out.ok_bind]
  cases a
  · have hb : b = true := by rcases hab with q | q <;> simp_all
    subst hb
    exact main [⟨.database, false, aboveOf w (some i)⟩, G] 1 rfl
  · exact main [G] 0 rfl

/-- The world after `mongoc_init`. -/
def World.rdy (w : World) : World := { w with ready := true }

theorem clientCtor_ok {w : World} (hr : w.ready = true) (he : w.ended = false) (c : Bool) :
    clientCtor c w = .ok ((w.add (⟨.buffer, false, []⟩ :: (if c then [⟨.client, true, []⟩] else []))).wr
      [⟨.client, if c then some (w.heap.length + 1) else none, true⟩], w.wraps.length) := by
  have hc : (!w.ready || w.ended) = false := by rw [hr, he]; rfl
  have e0 : ∀ v, aboveOf v none = [] := fun _ => rfl
  unfold clientCtor
  simp only [hc, Bool.false_eq_true, if_false, new_eq, e0]
  cases c
  · have hd : destroy .buffer (some w.heap.length) (w.add [⟨.buffer, true, []⟩]) = .ok (w.add [⟨.buffer, false, []⟩]) :=
      destroy_add (w := w) (m := 0) (o := ⟨.buffer, true, []⟩) rfl rfl (Or.inr (Or.inl rfl))
    simp only [Bool.false_eq_true, if_false, hd, Out.ok_bind, Out.pure_eq, wrap_eq]
    rfl
  · have hd : destroy .buffer (some w.heap.length) (w.add [⟨.buffer, true, []⟩, ⟨.client, true, []⟩]) =
        .ok (w.add [⟨.buffer, false, []⟩, ⟨.client, true, []⟩]) :=
      destroy_add (w := w) (m := 0) (o := ⟨.buffer, true, []⟩) rfl rfl (Or.inr (Or.inl rfl))
    have e1 : (w.add [⟨.buffer, true, []⟩]).heap.length = w.heap.length + 1 := by simp [World.add]
    simp only [if_true, add_add, List.cons_append, List.nil_append, hd, Out.ok_bind, Out.pure_eq, wrap_eq, e1]
    rfl

theorem init_ok {w : World} (he : w.ended = false) (c1 c2 : Bool) :
    init c1 c2 w = .ok (if c1 then
        ((w.rdy.add (⟨.buffer, false, []⟩ :: ⟨.client, false, []⟩ :: ⟨.buffer, false, []⟩ :: (if c2 then [⟨.client, true, []⟩] else []))).wr
          [⟨.client, if c2 then some (w.heap.length + 3) else none, true⟩], some w.wraps.length)
      else (w.rdy.add [⟨.buffer, false, []⟩], none)) := by
  have e0 : ∀ v, aboveOf v none = [] := fun _ => rfl
  have e1 : (w.rdy.add [⟨.buffer, true, []⟩]).heap.length = w.heap.length + 1 := by simp [World.add, World.rdy]
  have er : ({ w with ready := true } : World) = w.rdy := rfl
  have el : w.rdy.heap.length = w.heap.length := rfl
  unfold init
  simp only [er, new_eq, e0]
  cases c1
  · have hd : destroy .buffer (some w.rdy.heap.length) (w.rdy.add [⟨.buffer, true, []⟩]) = .ok (w.rdy.add [⟨.buffer, false, []⟩]) :=
      destroy_add (w := w.rdy) (m := 0) (o := ⟨.buffer, true, []⟩) rfl rfl (Or.inr (Or.inl rfl))
    have hd0 : ∀ v, destroy .client none v = .ok v := fun _ => rfl
    simp only [Bool.false_eq_true, if_false, hd, Out.ok_bind, hd0, cond_false, Out.pure_eq]
  · have hd : destroy .buffer (some w.rdy.heap.length) (w.rdy.add [⟨.buffer, true, []⟩, ⟨.client, true, []⟩]) =
        .ok (w.rdy.add [⟨.buffer, false, []⟩, ⟨.client, true, []⟩]) :=
      destroy_add (w := w.rdy) (m := 0) (o := ⟨.buffer, true, []⟩) rfl rfl (Or.inr (Or.inl rfl))
    have hd2 : destroy .client (some (w.heap.length + 1)) (w.rdy.add [⟨.buffer, false, []⟩, ⟨.client, true, []⟩]) =
        .ok (w.rdy.add [⟨.buffer, false, []⟩, ⟨.client, false, []⟩]) :=
      destroy_add (w := w.rdy) (m := 1) (o := ⟨.client, true, []⟩) rfl rfl (Or.inr (Or.inr ⟨rfl, he, by simp⟩))
    have hc := clientCtor_ok (w := w.rdy.add [⟨.buffer, false, []⟩, ⟨.client, false, []⟩]) rfl he c2
    simp only [if_true, add_add, List.cons_append, List.nil_append, hd, e1, Out.ok_bind, hd2, cond_true, hc, Out.pure_eq]
    cases c2 <;> simp [World.add, World.rdy, World.wr]

/-! ## Releasing existing objects -/

/-- Object `i` no longer exists. -/
def kill (w : World) (i : Nat) : World :=
  match w.heap[i]? with
  | some o => { w with heap := w.heap.set i { o with alive := false } }
  | none => w

theorem destroy_ok {w : World} {k : Kind} {i : Nat} (h : Sound w k i) : destroy k (some i) w = .ok (kill w i) := by
  have h1 := (usable_iff _ _ _).2 h
  obtain ⟨o, ho, _⟩ := h
  simp only [destroy, h1, if_true, ho, kill]

theorem kill_get {w : World} {i : Nat} {o : Obj} (ho : w.heap[i]? = some o) (j : Nat) :
    (kill w i).heap[j]? = if j = i then some { o with alive := false } else w.heap[j]? := by
  have hl := (List.getElem?_eq_some_iff.1 ho).1
  simp only [kill, ho]
  by_cases hj : j = i
  · subst hj; simp [hl]
  · rw [if_neg hj, List.getElem?_set_ne (fun q => hj q.symm)]

theorem kill_rest (w : World) (i : Nat) : (kill w i).wraps = w.wraps ∧ (kill w i).ready = w.ready ∧ (kill w i).ended = w.ended := by
  unfold kill; cases w.heap[i]? <;> simp

theorem ex_kill {w : World} {i j : Nat} (h : Existing w i) : Existing (kill w i) j ↔ Existing w j ∧ j ≠ i := by
  obtain ⟨o, ho, ha⟩ := h
  unfold Existing
  rw [kill_get ho]
  by_cases hj : j = i
  · subst hj; simp
  · rw [if_neg hj]; simp [hj]

theorem sound_kill {w : World} {i j : Nat} {k : Kind} (h : Existing w i) (hs : Sound w k j) (hd : ¬ DependsOn w j i) : Sound (kill w i) k j := by
  have hji : j ≠ i := fun q => hd (Or.inl q)
  obtain ⟨p, hp, h1, h2, h3⟩ := hs
  obtain ⟨o, ho, ha⟩ := id h
  obtain ⟨_, hr, he⟩ := kill_rest w i
  refine ⟨p, by rw [kill_get ho, if_neg hji, hp], h1, h2, ?_⟩
  rcases h3 with h3 | h3 | ⟨h3, h4, h5⟩
  · exact Or.inl h3
  · exact Or.inr (Or.inl h3)
  · refine Or.inr (Or.inr ⟨by rw [hr]; exact h3, by rw [he]; exact h4, ?_⟩)
    intro a ha'
    refine (ex_kill h).2 ⟨h5 a ha', ?_⟩
    rintro rfl
    exact hd (Or.inr ⟨p, hp, ha'⟩)

theorem holds_kill {w : World} {i b : Nat} {k : Kind} {h : H} : Holds (kill w i) b k h ↔ Holds w b k h := by
  unfold Holds; rw [(kill_rest w i).1]

/-- The shape of the heap is not changed. -/
theorem inv_kill_shape {w : World} (h : Inv w) {i : Nat} (hi : Existing w i)
    (hs : ∀ b k j, Holds w b k (some j) → k ≠ .client → Sound (kill w i) k j) : Inv (kill w i) := by
  obtain ⟨o, ho, ha⟩ := id hi
  have hg : ∀ (j : Nat) (p : Obj), (kill w i).heap[j]? = some p → ∃ q, w.heap[j]? = some q ∧ q.kind = p.kind ∧ q.above = p.above := by
    intro j p hp
    rw [kill_get ho] at hp
    by_cases hj : j = i
    · subst hj; rw [if_pos rfl] at hp; cases hp; exact ⟨o, ho, rfl, rfl⟩
    · rw [if_neg hj] at hp; exact ⟨p, hp, rfl, rfl⟩
  constructor
  · intro j p hp a ha
    obtain ⟨q, hq, _, h2⟩ := hg j p hp
    exact h.up j q hq a (h2 ▸ ha)
  · intro j p hp hk
    obtain ⟨q, hq, h1, h2⟩ := hg j p hp
    rw [← h2]; exact h.cl j q hq (h1 ▸ hk)
  · intro j p hp hk a ha r hr
    obtain ⟨q, hq, h1, h2⟩ := hg j p hp
    obtain ⟨s, hs, h3, _⟩ := hg a r hr
    rw [← h3]
    exact h.ab j q hq (by rw [h1]; exact hk) a (h2 ▸ ha) s hs
  · exact fun b k hh hb => h.kd b k hh (holds_kill.1 hb)
  · exact fun b k j hb hk => hs b k j (holds_kill.1 hb) hk
  · exact fun b b' k k' j hb hb' hk hk' => h.one b b' k k' j (holds_kill.1 hb) (holds_kill.1 hb') hk hk'

theorem inv_kill {w : World} (h : Inv w) {i : Nat} (hi : Existing w i) (hu : Unheld w i) : Inv (kill w i) :=
  inv_kill_shape h hi (fun b k j hb hk => sound_kill hi (h.snd b k j hb hk) (hu b k j hb hk))

theorem endWrap_holds (w : World) (b b' : Nat) (k : Kind) (h : H) : Holds (endWrap b w) b' k h ↔ b' ≠ b ∧ Holds w b' k h := by
  unfold endWrap Holds
  cases hb : w.wraps[b]? with
  | none =>
    simp only
    constructor
    · intro q
      refine ⟨?_, q⟩
      rintro rfl
      rw [hb] at q; cases q
    · exact fun q => q.2
  | some o =>
    have hl := (List.getElem?_eq_some_iff.1 hb).1
    simp only
    by_cases e : b' = b
    · subst e; simp [hl]
    · rw [List.getElem?_set_ne (fun q => e q.symm)]; simp [e]

theorem endWrap_heap (w : World) (b : Nat) : (endWrap b w).heap = w.heap ∧ (endWrap b w).ready = w.ready ∧ (endWrap b w).ended = w.ended := by
  unfold endWrap; cases w.wraps[b]? <;> simp

/-- Only the heap and the driver's state matter for objects. -/
theorem sound_congr {w v : World} (hh : v.heap = w.heap) (hr : v.ready = w.ready) (he : v.ended = w.ended) {k : Kind} {i : Nat} :
    Sound v k i ↔ Sound w k i := by
  unfold Sound Existing; rw [hh, hr, he]

theorem ex_congr {w v : World} (hh : v.heap = w.heap) {i : Nat} : Existing v i ↔ Existing w i := by
  unfold Existing; rw [hh]

theorem inv_sub {w v : World} (h : Inv w) (hh : v.heap = w.heap) (hr : v.ready = w.ready) (he : v.ended = w.ended)
    (hs : ∀ b k g, Holds v b k g → Holds w b k g) : Inv v := by
  constructor
  · rw [hh]; exact h.up
  · rw [hh]; exact h.cl
  · rw [hh]; exact h.ab
  · exact fun b k g q => h.kd b k g (hs b k g q)
  · exact fun b k i q hk => (sound_congr hh hr he).2 (h.snd b k i (hs b k _ q) hk)
  · exact fun b b' k k' i q q' hk hk' => h.one b b' k k' i (hs b k _ q) (hs b' k' _ q') hk hk'

theorem inv_endWrap {w : World} (h : Inv w) (b : Nat) : Inv (endWrap b w) := by
  obtain ⟨h1, h2, h3⟩ := endWrap_heap w b
  exact inv_sub h h1 h2 h3 (fun b' k g q => ((endWrap_holds w b b' k g).1 q).2)

/-- Releasing the object of a wrapper object together with the wrapper. -/
theorem inv_drop {w : World} (h : Inv w) {b : Nat} {k : Kind} {i : Nat} (hb : Holds w b k (some i)) (hk : k ≠ .client) : Inv (endWrap b (kill w i)) := by
  have hs := h.snd b k i hb hk
  obtain ⟨o, ho, hok, _⟩ := id hs
  have h0 : Inv (endWrap b w) := inv_endWrap h b
  obtain ⟨g1, g2, g3⟩ := endWrap_heap w b
  have hi : Existing (endWrap b w) i := (ex_congr g1).2 hs.ex
  have hu : Unheld (endWrap b w) i := by
    intro b' k' j hb' hk' hd
    obtain ⟨hne, hb''⟩ := (endWrap_holds w b b' k' _).1 hb'
    rcases hd with rfl | ⟨p, hp, ha⟩
    · exact hne (h.one b' b k' k j hb'' hb hk' hk)
    · rw [g1] at hp
      obtain ⟨q, hq, hqk, _⟩ := h.snd b' k' j hb'' hk'
      rw [hp] at hq; cases hq
      have hkd := h.kd b' k' _ hb''
      have := h.ab j p hp (by rw [hqk]; tauto) i ha o ho
      exact hk (hok.symm.trans this)
  have h1 := inv_kill h0 hi hu
  have hc : kill (endWrap b w) i = endWrap b (kill w i) := by
    unfold kill
    rw [g1, ho]
    simp only [endWrap]
    cases hw : w.wraps[b]? <;> simp
  rw [← hc]; exact h1

/-- A new wrapper object. -/
theorem inv_wr {w : World} (h : Inv w) (k : Kind) (g : H) (al : Bool) (hk : k = .client ∨ k = .database ∨ k = .collection ∨ k = .gridfs)
    (hg : al = true → k ≠ .client → ∀ i, g = some i → Sound w k i ∧ ∀ b k', Holds w b k' (some i) → k' = .client) : Inv (w.wr [⟨k, g, al⟩]) := by
  have hc : ∀ b k' g', Holds (w.wr [⟨k, g, al⟩]) b k' g' → Holds w b k' g' ∨ (b = w.wraps.length ∧ k' = k ∧ g' = g ∧ al = true) := by
    intro b k' g' q
    have q : (w.wraps ++ [⟨k, g, al⟩])[b]? = some ⟨k', g', true⟩ := q
    by_cases hl : b < w.wraps.length
    · rw [List.getElem?_append_left hl] at q; exact Or.inl q
    · rw [List.getElem?_append_right (by omega)] at q
      have : b - w.wraps.length = 0 := by
        by_contra hne
        obtain ⟨m, hm⟩ : ∃ m, b - w.wraps.length = m + 1 := ⟨b - w.wraps.length - 1, by omega⟩
        rw [hm] at q; simp at q
      rw [this] at q
      simp at q
      exact Or.inr ⟨by omega, q.1.symm, q.2.1.symm, q.2.2⟩
  constructor
  · exact h.up
  · exact h.cl
  · exact h.ab
  · intro b k' g' q
    rcases hc b k' g' q with q | ⟨_, rfl, _⟩
    · exact h.kd b k' g' q
    · exact hk
  · intro b k' i q hk'
    rcases hc b k' _ q with q | ⟨_, rfl, hi, ha⟩
    · exact h.snd b k' i q hk'
    · exact (hg ha hk' i hi.symm).1
  · intro b b' k1 k2 i q q' h1 h2
    rcases hc b k1 _ q with r | ⟨e1, rfl, hi, ha⟩ <;> rcases hc b' k2 _ q' with r' | ⟨e2, rfl, hi', ha'⟩
    · exact h.one b b' k1 k2 i r r' h1 h2
    · exact absurd ((hg ha' h2 i hi'.symm).2 b k1 r) h1
    · exact absurd ((hg ha h1 i hi.symm).2 b' k2 r') h2
    · omega

end MLife
end CCGL
