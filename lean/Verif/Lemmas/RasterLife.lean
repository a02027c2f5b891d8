import Verif.Spec.RasterLife
/-!
# Lemmas on the ownership of arrays
-/
namespace CCGL
namespace Life
open Spec

/-! ## Objects -/

theorem upd_self {α β : Type} [DecidableEq α] (f : α → β) (a : α) (b : β) : upd f a b a = b := if_pos rfl

theorem upd_ne {α β : Type} [DecidableEq α] (f : α → β) {a x : α} (b : β) (h : x ≠ a) : upd f a b x = f x := if_neg h

theorem upd_upd {α β : Type} [DecidableEq α] (f : α → β) (a : α) (b c : β) : upd (upd f a b) a c = upd f a c := by
  funext x; unfold upd; split <;> rfl

theorem upd_same {α β : Type} [DecidableEq α] (f : α → β) (a : α) (b : β) (h : f a = b) : upd f a b = f := by
  funext x; unfold upd; split
  · next e => rw [e, h]
  · rfl

theorem setPtr_self (o : Obj) (f : Field) (a : Option Addr) : (o.setPtr f a).ptr f = a := upd_self _ _ _

theorem setPtr_ne (o : Obj) {f g : Field} (a : Option Addr) (h : g ≠ f) : (o.setPtr f a).ptr g = o.ptr g := upd_ne _ _ h

theorem setPtr_same (o : Obj) (f : Field) (h : o.ptr f = none) : o.setPtr f none = o := by
  unfold Obj.setPtr; rw [upd_same _ _ _ h]

abbrev Objs := Id → Option Obj

/-- Array `a` belongs to raster `i` as member `f`. -/
def owns (b : Objs) (i : Id) (f : Field) (a : Addr) : Prop :=
  ∃ o, b i = some o ∧ o.ptr f = some a ∧ (f.isPos = true → o.store = true)

/-- The position array `a` of raster `i` belongs to it, or to its mask, or to the mask of its mask … -/
inductive Chain (b : Objs) (f : Field) (a : Addr) : Id → Prop
  | own {i : Id} : owns b i f a → Chain b f a i
  | link {i m : Id} {o : Obj} : b i = some o → o.ptr f = some a → o.mask = some m → Chain b f a m → Chain b f a i

/-- A block fits a member. -/
def okBlk (f : Field) : Blk → Prop
  | .one => f.is2 = false
  | .two n => f.is2 = true ∧ 1 ≤ n

/-- No other raster has the mask `i`. -/
def URef (b : Objs) (i : Id) : Prop := ∀ j o, b j = some o → j ≠ i → o.mask ≠ some i

structure HInv (w : World) : Prop where
  fresh : ∀ a, w.next ≤ a → w.heap a = none
  live : ∀ i o f a, w.objs i = some o → o.ptr f = some a → ∃ b, w.heap a = some b ∧ okBlk f b
  uniq : ∀ i f j g a, owns w.objs i f a → owns w.objs j g a → i = j ∧ f = g
  all : ∀ a, w.heap a ≠ none → ∃ i f, owns w.objs i f a
  chain : ∀ i o f a, w.objs i = some o → o.ptr f = some a → Chain w.objs f a i
  alive : ∀ i o m, w.objs i = some o → o.mask = some m → ∃ om, w.objs m = some om

/-- The rasters are `b`, with raster `i` being `o`. -/
structure St (b : Objs) (i : Id) (w : World) (o : Obj) : Prop where
  inv : HInv w
  objs : w.objs = upd b i (some o)

theorem St.at_ {b : Objs} {i : Id} {w : World} {o : Obj} (s : St b i w o) : w.objs i = some o := by
  rw [s.objs, upd_self]

theorem St.other {b : Objs} {i : Id} {w : World} {o : Obj} (s : St b i w o) {j : Id} (h : j ≠ i) : w.objs j = b j := by
  rw [s.objs, upd_ne _ _ h]

theorem St.get {b : Objs} {i : Id} {w : World} {o : Obj} (s : St b i w o) : w.get i = .ok o := by
  unfold World.get; rw [s.at_]

theorem get_of {w : World} {i : Id} {o : Obj} (h : w.objs i = some o) : w.get i = .ok o := by
  unfold World.get; rw [h]

theorem St.mk' {w : World} {i : Id} {o : Obj} (hi : HInv w) (h : w.objs i = some o) : St w.objs i w o :=
  ⟨hi, (upd_same _ _ _ h).symm⟩

theorem chain_ptr {b : Objs} {f : Field} {a : Addr} {i : Id} (c : Chain b f a i) : ∃ o, b i = some o ∧ o.ptr f = some a := by
  cases c with
  | own h => obtain ⟨o, h1, h2, _⟩ := h; exact ⟨o, h1, h2⟩
  | link h1 h2 _ _ => exact ⟨_, h1, h2⟩

/-- The end of the chain. -/
theorem chain_owner {b : Objs} {f : Field} {a : Addr} {i : Id} (c : Chain b f a i) : ∃ k, owns b k f a := by
  induction c with
  | own h => exact ⟨_, h⟩
  | link _ _ _ _ ih => exact ih

/-- A chain is not affected by a raster that no raster has as mask. -/
theorem chain_unref {b : Objs} {i : Id} {f : Field} {a : Addr} (hu : URef b i) (x : Option Obj) {j : Id} (c : Chain b f a j) (hj : j ≠ i) :
    Chain (upd b i x) f a j := by
  induction c with
  | own h =>
    obtain ⟨o, h1, h2, h3⟩ := h
    exact .own ⟨o, by rw [upd_ne _ _ hj]; exact h1, h2, h3⟩
  | @link k m o h1 h2 h3 _ ih =>
    have hm : m ≠ i := fun e => hu k o h1 hj (e ▸ h3)
    exact .link (by rw [upd_ne _ _ hj]; exact h1) h2 h3 (ih hm)

/-- The owner reached from another raster is another raster. -/
theorem chain_unref_owner {b : Objs} {i : Id} {f : Field} {a : Addr} (hu : URef b i) {j : Id} (c : Chain b f a j) (hj : j ≠ i) :
    ∃ k, k ≠ i ∧ owns b k f a := by
  induction c with
  | @own k h => exact ⟨k, hj, h⟩
  | @link k m o h1 h2 h3 _ ih => exact ih (fun e => hu k o h1 hj (e ▸ h3))

/-- A chain is not affected by a raster without this array. -/
theorem chain_null {b : Objs} {i : Id} {o : Obj} {f : Field} {a : Addr} (ho : b i = some o) (hn : o.ptr f ≠ some a) (x : Option Obj) {j : Id}
    (c : Chain b f a j) : j ≠ i ∧ Chain (upd b i x) f a j := by
  have key : ∀ {j : Id}, Chain b f a j → j ≠ i := by
    intro j c e
    obtain ⟨o', h1, h2⟩ := chain_ptr c
    rw [e, ho] at h1
    cases h1
    exact hn h2
  induction c with
  | @own k h =>
    have hj := key (.own h)
    obtain ⟨o', h1, h2, h3⟩ := h
    exact ⟨hj, .own ⟨o', by rw [upd_ne _ _ hj]; exact h1, h2, h3⟩⟩
  | @link k m o' h1 h2 h3 c ih =>
    have hj := key (.link h1 h2 h3 c)
    exact ⟨hj, .link (by rw [upd_ne _ _ hj]; exact h1) h2 h3 ih.2⟩

/-- A chain is not affected if this array, the mask and the flag stay. -/
theorem chain_keep {b : Objs} {i : Id} {o o' : Obj} {f : Field} {a : Addr} (ho : b i = some o) (hp : o'.ptr f = o.ptr f) (hm : o'.mask = o.mask)
    (hs : f.isPos = true → o.store = true → o'.store = true) {j : Id} (c : Chain b f a j) : Chain (upd b i (some o')) f a j := by
  induction c with
  | @own k h =>
    obtain ⟨x, h1, h2, h3⟩ := h
    by_cases e : k = i
    · subst e
      rw [ho] at h1; cases h1
      exact .own ⟨o', upd_self _ _ _, by rw [hp]; exact h2, fun h => hs h (h3 h)⟩
    · exact .own ⟨x, by rw [upd_ne _ _ e]; exact h1, h2, h3⟩
  | @link k m x h1 h2 h3 c ih =>
    by_cases e : k = i
    · subst e
      rw [ho] at h1; cases h1
      exact .link (upd_self _ _ _) (by rw [hp]; exact h2) (by rw [hm]; exact h3) ih
    · exact .link (by rw [upd_ne _ _ e]; exact h1) h2 h3 ih

/-- Two members of a raster with the same array. -/
theorem ptr_inj {w : World} (hi : HInv w) {i : Id} {o : Obj} (ho : w.objs i = some o) {f g : Field} {a : Addr} (hf : o.ptr f = some a)
    (hg : o.ptr g = some a) : f = g := by
  obtain ⟨k, hk⟩ := chain_owner (hi.chain i o f a ho hf)
  obtain ⟨l, hl⟩ := chain_owner (hi.chain i o g a ho hg)
  exact (hi.uniq k f l g a hk hl).2

/-! ## Releasing -/

theorem free_st {b : Objs} {i : Id} {w : World} {o : Obj} (s : St b i w o) (f : Field)
    (h : o.ptr f = none ∨ (f.isPos = true → o.store = true ∧ URef b i)) :
    ∃ w', free w i f = .ok w' ∧ St b i w' (o.setPtr f none) := by
  cases hp : o.ptr f with
  | none =>
    refine ⟨w, ?_, ?_⟩
    · unfold free
      rw [s.get]
      simp only [Out.ok_bind, hp, Out.pure_eq]
    · rw [setPtr_same o f hp]; exact s
  | some a =>
    have h : f.isPos = true → o.store = true ∧ URef b i := by
      rcases h with h | h
      · rw [hp] at h; cases h
      · exact h
    obtain ⟨blk, hb, hk⟩ := s.inv.live i o f a s.at_ hp
    refine ⟨({ w with heap := upd w.heap a none } : World).set i (o.setPtr f none), ?_, ?_, ?_⟩
    · unfold free
      rw [s.get]
      simp only [Out.ok_bind, hp, hb]
      cases blk with
      | one => rw [show f.is2 = false from hk]; rfl
      | two n =>
        obtain ⟨h1, h2⟩ := hk
        have h2 : ¬ n = 0 := by omega
        simp only [h1, Bool.not_true, h2, decide_false, Bool.or_self]
        rfl
    · -- invariant
      have how : owns w.objs i f a := ⟨o, s.at_, hp, fun hf => (h hf).1⟩
      -- nobody else points to the array
      have hothers : ∀ j oj g, w.objs j = some oj → oj.ptr g = some a → j = i ∧ g = f := by
        intro j oj g hj hg
        have c := s.inv.chain j oj g a hj hg
        obtain ⟨k, hko⟩ := chain_owner c
        have hgf : g = f := (s.inv.uniq k g i f a hko how).2
        subst hgf
        by_cases hji : j = i
        · exact ⟨hji, rfl⟩
        · exfalso
          by_cases hgp : g.isPos = true
          · have hu : URef w.objs i := by
              intro l ol hl hne
              rw [s.other hne] at hl
              exact (h hgp).2 l ol hl hne
            obtain ⟨k', hk', hko'⟩ := chain_unref_owner hu c hji
            exact hk' (s.inv.uniq k' g i g a hko' how).1
          · cases c with
            | own h' => exact hji (s.inv.uniq j g i g a h' how).1
            | link _ _ _ _ => exact hji (s.inv.uniq j g i g a ⟨oj, hj, hg, fun h => absurd h hgp⟩ how).1
      have hsub : ∀ j g c, owns (upd w.objs i (some (o.setPtr f none))) j g c → owns w.objs j g c ∧ c ≠ a := by
        intro j g c ⟨x, h1, h2, h3⟩
        by_cases e : j = i
        · subst e
          rw [upd_self] at h1; cases h1
          by_cases eg : g = f
          · subst eg; rw [setPtr_self] at h2; cases h2
          · rw [setPtr_ne _ _ eg] at h2
            refine ⟨⟨o, s.at_, h2, h3⟩, ?_⟩
            intro ec; subst ec
            exact eg (ptr_inj s.inv s.at_ h2 hp)
        · rw [upd_ne _ _ e] at h1
          refine ⟨⟨x, h1, h2, h3⟩, ?_⟩
          intro ec; subst ec
          exact e (hothers j x g h1 h2).1
      refine ⟨?_, ?_, ?_, ?_, ?_, ?_⟩
      · intro c hc
        show upd w.heap a none c = none
        by_cases e : c = a
        · subst e; exact upd_self _ _ _
        · rw [upd_ne _ _ e]; exact s.inv.fresh c hc
      · intro j x g c hj hg
        have hca : c ≠ a ∧ ∃ x', w.objs j = some x' ∧ x'.ptr g = some c := by
          by_cases e : j = i
          · subst e
            rw [show (World.set _ _ _).objs j = _ from upd_self _ _ _] at hj; cases hj
            by_cases eg : g = f
            · subst eg; rw [setPtr_self] at hg; cases hg
            · rw [setPtr_ne _ _ eg] at hg
              refine ⟨?_, o, s.at_, hg⟩
              intro ec; subst ec
              exact eg (ptr_inj s.inv s.at_ hg hp)
          · rw [show (World.set _ _ _).objs j = _ from upd_ne _ _ e] at hj
            refine ⟨?_, x, hj, hg⟩
            intro ec; subst ec
            exact e (hothers j x g hj hg).1
        obtain ⟨hca, x', hx', hg'⟩ := hca
        obtain ⟨blk', hb', hk'⟩ := s.inv.live j x' g c hx' hg'
        exact ⟨blk', by show upd w.heap a none c = _; rw [upd_ne _ _ hca]; exact hb', hk'⟩
      · intro j g k g' c h1 h2
        exact s.inv.uniq j g k g' c (hsub j g c h1).1 (hsub k g' c h2).1
      · intro c hc
        have hc : upd w.heap a none c ≠ none := hc
        have hca : c ≠ a := by intro e; subst e; rw [upd_self] at hc; exact hc rfl
        rw [upd_ne _ _ hca] at hc
        obtain ⟨j, g, x, h1, h2, h3⟩ := s.inv.all c hc
        refine ⟨j, g, ?_⟩
        show owns (upd w.objs i _) j g c
        by_cases e : j = i
        · subst e
          rw [s.at_] at h1; cases h1
          have eg : g ≠ f := by intro e; subst e; rw [hp] at h2; cases h2; exact hca rfl
          exact ⟨_, upd_self _ _ _, by rw [setPtr_ne _ _ eg]; exact h2, h3⟩
        · exact ⟨x, by rw [upd_ne _ _ e]; exact h1, h2, h3⟩
      · intro j x g c hj hg
        have hold : ∃ x', w.objs j = some x' ∧ x'.ptr g = some c ∧ (c ≠ a) := by
          by_cases e : j = i
          · subst e
            rw [show (World.set _ _ _).objs j = _ from upd_self _ _ _] at hj; cases hj
            by_cases eg : g = f
            · subst eg; rw [setPtr_self] at hg; cases hg
            · rw [setPtr_ne _ _ eg] at hg
              refine ⟨o, s.at_, hg, ?_⟩
              intro ec; subst ec
              exact eg (ptr_inj s.inv s.at_ hg hp)
          · rw [show (World.set _ _ _).objs j = _ from upd_ne _ _ e] at hj
            refine ⟨x, hj, hg, ?_⟩
            intro ec; subst ec
            exact e (hothers j x g hj hg).1
        obtain ⟨x', hx', hg', hca⟩ := hold
        have c0 := s.inv.chain j x' g c hx' hg'
        show Chain (upd w.objs i _) g c j
        by_cases eg : g = f
        · subst eg
          exact (chain_null s.at_ (by rw [hp]; exact fun e => hca (by cases e; rfl)) _ c0).2
        · exact chain_keep s.at_ (setPtr_ne _ _ eg) rfl (fun _ h => h) c0
      · intro j x m hj hm
        have hold : ∃ x', w.objs j = some x' ∧ x'.mask = some m := by
          by_cases e : j = i
          · subst e
            rw [show (World.set _ _ _).objs j = _ from upd_self _ _ _] at hj; cases hj
            exact ⟨o, s.at_, hm⟩
          · rw [show (World.set _ _ _).objs j = _ from upd_ne _ _ e] at hj
            exact ⟨x, hj, hm⟩
        obtain ⟨x', hx', hm'⟩ := hold
        obtain ⟨om, h⟩ := s.inv.alive j x' m hx' hm'
        by_cases e : m = i
        · subst e; exact ⟨_, upd_self _ _ _⟩
        · exact ⟨om, by show upd w.objs i _ m = _; rw [upd_ne _ _ e]; exact h⟩
    · show upd w.objs i _ = _
      rw [s.objs, upd_upd]

/-! ## Allocating -/

theorem put_st {b : Objs} {i : Id} {w : World} {o : Obj} (s : St b i w o) (f : Field) (blk : Blk) (hn : o.ptr f = none) (hk : okBlk f blk)
    (hs : f.isPos = true → o.store = true) : ∃ w' a, put w i f blk = .ok w' ∧ St b i w' (o.setPtr f (some a)) := by
  refine ⟨({ w with heap := upd w.heap w.next (some blk), next := w.next + 1 } : World).set i (o.setPtr f (some w.next)), w.next, ?_, ?_, ?_⟩
  · unfold put
    rw [s.get]
    rfl
  · have hnew : ∀ c, w.heap c ≠ none → c ≠ w.next := by
      intro c hc e
      exact hc (s.inv.fresh c (Nat.le_of_eq e.symm))
    have hptr : ∀ j x g c, w.objs j = some x → x.ptr g = some c → c ≠ w.next := by
      intro j x g c h1 h2
      obtain ⟨b', h3, _⟩ := s.inv.live j x g c h1 h2
      exact hnew c (by rw [h3]; simp)
    -- pointers after the allocation
    have hcase : ∀ j x g c, upd w.objs i (some (o.setPtr f (some w.next))) j = some x → x.ptr g = some c →
        (j = i ∧ g = f ∧ c = w.next ∧ x = o.setPtr f (some w.next)) ∨
          ∃ x', w.objs j = some x' ∧ x'.ptr g = some c ∧ x'.store = x.store ∧ x'.mask = x.mask ∧ c ≠ w.next := by
      intro j x g c hj hg
      by_cases e : j = i
      · subst e
        rw [upd_self] at hj; cases hj
        by_cases eg : g = f
        · subst eg
          rw [setPtr_self] at hg; cases hg
          exact Or.inl ⟨rfl, rfl, rfl, rfl⟩
        · rw [setPtr_ne _ _ eg] at hg
          exact Or.inr ⟨o, s.at_, hg, rfl, rfl, hptr _ o g c s.at_ hg⟩
      · rw [upd_ne _ _ e] at hj
        exact Or.inr ⟨x, hj, hg, rfl, rfl, hptr j x g c hj hg⟩
    refine ⟨?_, ?_, ?_, ?_, ?_, ?_⟩
    · intro c hc
      have hc : w.next + 1 ≤ c := hc
      show upd w.heap w.next _ c = none
      rw [upd_ne _ _ (Nat.ne_of_gt hc)]
      exact s.inv.fresh c (Nat.le_of_succ_le hc)
    · intro j x g c hj hg
      rcases hcase j x g c hj hg with ⟨_, h2, h3, _⟩ | ⟨x', h1, h2, _, _, h5⟩
      · subst h2; subst h3
        exact ⟨blk, upd_self _ _ _, hk⟩
      · obtain ⟨b', h3, h4⟩ := s.inv.live j x' g c h1 h2
        exact ⟨b', by show upd w.heap w.next _ c = _; rw [upd_ne _ _ h5]; exact h3, h4⟩
    · intro j g k g' c ⟨x, h1, h2, h3⟩ ⟨y, k1, k2, k3⟩
      rcases hcase j x g c h1 h2 with ⟨e1, e2, e3, _⟩ | ⟨x', e1, e2, e3, _, e5⟩ <;>
        rcases hcase k y g' c k1 k2 with ⟨f1, f2, f3, _⟩ | ⟨y', f1, f2, f3, _, f5⟩
      · exact ⟨by rw [e1, f1], by rw [e2, f2]⟩
      · exact absurd e3 f5
      · exact absurd f3 e5
      · exact s.inv.uniq j g k g' c ⟨x', e1, e2, fun h => by rw [e3]; exact h3 h⟩ ⟨y', f1, f2, fun h => by rw [f3]; exact k3 h⟩
    · intro c hc
      have hc : upd w.heap w.next (some blk) c ≠ none := hc
      by_cases e : c = w.next
      · exact ⟨i, f, _, upd_self _ _ _, by rw [setPtr_self, e], hs⟩
      · rw [upd_ne _ _ e] at hc
        obtain ⟨j, g, x, h1, h2, h3⟩ := s.inv.all c hc
        refine ⟨j, g, ?_⟩
        show owns (upd w.objs i _) j g c
        by_cases e : j = i
        · subst e
          rw [s.at_] at h1; cases h1
          have eg : g ≠ f := by intro e; subst e; rw [hn] at h2; cases h2
          exact ⟨_, upd_self _ _ _, by rw [setPtr_ne _ _ eg]; exact h2, h3⟩
        · exact ⟨x, by rw [upd_ne _ _ e]; exact h1, h2, h3⟩
    · intro j x g c hj hg
      show Chain (upd w.objs i _) g c j
      rcases hcase j x g c hj hg with ⟨h1, h2, h3, h4⟩ | ⟨x', h1, h2, _, _, h5⟩
      · subst h1; subst h2; subst h3
        exact .own ⟨_, upd_self _ _ _, setPtr_self _ _ _, hs⟩
      · have c0 := s.inv.chain j x' g c h1 h2
        by_cases eg : g = f
        · subst eg
          exact (chain_null s.at_ (by rw [hn]; simp) _ c0).2
        · exact chain_keep s.at_ (setPtr_ne _ _ eg) rfl (fun _ h => h) c0
    · intro j x m hj hm
      have hold : ∃ x', w.objs j = some x' ∧ x'.mask = some m := by
        by_cases e : j = i
        · subst e
          rw [show (World.set _ _ _).objs j = _ from upd_self _ _ _] at hj; cases hj
          exact ⟨o, s.at_, hm⟩
        · rw [show (World.set _ _ _).objs j = _ from upd_ne _ _ e] at hj
          exact ⟨x, hj, hm⟩
      obtain ⟨x', hx', hm'⟩ := hold
      obtain ⟨om, h⟩ := s.inv.alive j x' m hx' hm'
      by_cases e : m = i
      · subst e; exact ⟨_, upd_self _ _ _⟩
      · exact ⟨om, by show upd w.objs i _ m = _; rw [upd_ne _ _ e]; exact h⟩
  · show upd w.objs i _ = _
    rw [s.objs, upd_upd]

/-! ## Assignments -/

/-- Assignments to raster `i` that keep the invariant: no array changes hands, or the null position arrays become those of the mask. -/
theorem set_st {b : Objs} {i : Id} {w : World} {o : Obj} (s : St b i w o) (o' : Obj) (hp : ∀ f, f.isPos = false → o'.ptr f = o.ptr f)
    (hq : ∀ f, f.isPos = true →
      (o'.ptr f = o.ptr f ∧ (o.ptr f = none ∨ (o'.store = o.store ∧ (o'.mask = o.mask ∨ (URef b i ∧ o.store = true))))) ∨
      (o.ptr f = none ∧ o'.store = false ∧ ∃ m om a, m ≠ i ∧ o'.mask = some m ∧ b m = some om ∧ om.ptr f = some a ∧ o'.ptr f = some a))
    (hm : o'.mask = o.mask ∨ ∀ m, o'.mask = some m → m ≠ i → ∃ om, b m = some om) : St b i (w.set i o') o' := by
  have hown : ∀ j g c, owns (upd w.objs i (some o')) j g c ↔ owns w.objs j g c := by
    intro j g c
    by_cases e : j = i
    · subst e
      constructor
      · rintro ⟨x, h1, h2, h3⟩
        rw [upd_self] at h1; cases h1
        by_cases hg : g.isPos = true
        · rcases hq g hg with ⟨q1, q2⟩ | ⟨q1, q2, _⟩
          · rcases q2 with q2 | ⟨q2, _⟩
            · rw [q1, q2] at h2; cases h2
            · exact ⟨o, s.at_, by rw [← q1]; exact h2, fun h => by rw [← q2]; exact h3 h⟩
          · rw [q2] at h3; exact absurd (h3 hg) (by simp)
        · rw [hp g (by simpa using hg)] at h2
          exact ⟨o, s.at_, h2, fun h => absurd h hg⟩
      · rintro ⟨x, h1, h2, h3⟩
        rw [s.at_] at h1; cases h1
        by_cases hg : g.isPos = true
        · rcases hq g hg with ⟨q1, q2⟩ | ⟨q1, q2, _⟩
          · rcases q2 with q2 | ⟨q2, _⟩
            · rw [q2] at h2; cases h2
            · exact ⟨o', upd_self _ _ _, by rw [q1]; exact h2, fun h => by rw [q2]; exact h3 h⟩
          · rw [q1] at h2; cases h2
        · exact ⟨o', upd_self _ _ _, by rw [hp g (by simpa using hg)]; exact h2, fun h => absurd h hg⟩
    · constructor
      · rintro ⟨x, h1, h2, h3⟩
        rw [upd_ne _ _ e] at h1
        exact ⟨x, h1, h2, h3⟩
      · rintro ⟨x, h1, h2, h3⟩
        exact ⟨x, by rw [upd_ne _ _ e]; exact h1, h2, h3⟩
  -- every pointer was there before, possibly in the mask
  have hold : ∀ j x g c, upd w.objs i (some o') j = some x → x.ptr g = some c → ∃ k y, w.objs k = some y ∧ y.ptr g = some c := by
    intro j x g c hj hg
    by_cases e : j = i
    · subst e
      rw [upd_self] at hj; cases hj
      by_cases hgp : g.isPos = true
      · rcases hq g hgp with ⟨q1, _⟩ | ⟨_, _, m, om, a, q3, _, q5, q6, q7⟩
        · exact ⟨j, o, s.at_, by rw [← q1]; exact hg⟩
        · exact ⟨m, om, by rw [s.other q3]; exact q5, by rw [q6, ← q7]; exact hg⟩
      · exact ⟨j, o, s.at_, by rw [← hp g (by simpa using hgp)]; exact hg⟩
    · rw [upd_ne _ _ e] at hj
      exact ⟨j, x, hj, hg⟩
  refine ⟨⟨?_, ?_, ?_, ?_, ?_, ?_⟩, ?_⟩
  · exact s.inv.fresh
  · intro j x g c hj hg
    obtain ⟨k, y, h1, h2⟩ := hold j x g c hj hg
    exact s.inv.live k y g c h1 h2
  · intro j g k g' c h1 h2
    exact s.inv.uniq j g k g' c ((hown j g c).1 h1) ((hown k g' c).1 h2)
  · intro c hc
    obtain ⟨j, g, h⟩ := s.inv.all c hc
    exact ⟨j, g, (hown j g c).2 h⟩
  · intro j x g c hj hg
    show Chain (upd w.objs i _) g c j
    by_cases hgp : g.isPos = true
    · have hu : URef b i → URef w.objs i := by
        intro hu l ol hl hne
        rw [s.other hne] at hl
        exact hu l ol hl hne
      by_cases e : j = i
      · subst e
        rw [show (World.set _ _ _).objs j = _ from upd_self _ _ _] at hj; cases hj
        rcases hq g hgp with ⟨q1, q2⟩ | ⟨q1, q2, m, om, a, q3, q4, q5, q6, q7⟩
        · have hgo : o.ptr g = some c := by rw [← q1]; exact hg
          have c0 := s.inv.chain j o g c s.at_ hgo
          rcases q2 with q2 | ⟨q2, q3⟩
          · rw [q2] at hgo; cases hgo
          · rcases q3 with q3 | ⟨_, q3⟩
            · exact chain_keep s.at_ q1 q3 (fun _ h => by rw [q2]; exact h) c0
            · exact .own ⟨o', upd_self _ _ _, hg, fun _ => by rw [q2]; exact q3⟩
        · have hca : c = a := by rw [hg] at q7; cases q7; rfl
          subst hca
          have hw : w.objs m = some om := by rw [s.other q3]; exact q5
          have c0 := s.inv.chain m om g c hw q6
          exact .link (upd_self _ _ _) hg q4 (chain_null s.at_ (by rw [q1]; simp) _ c0).2
      · rw [show (World.set _ _ _).objs j = _ from upd_ne _ _ e] at hj
        have c0 := s.inv.chain j x g c hj hg
        rcases hq g hgp with ⟨q1, q2⟩ | ⟨q1, _⟩
        · rcases q2 with q2 | ⟨q2, q3⟩
          · exact (chain_null s.at_ (by rw [q2]; simp) _ c0).2
          · rcases q3 with q3 | ⟨q3, _⟩
            · exact chain_keep s.at_ q1 q3 (fun _ h => by rw [q2]; exact h) c0
            · exact chain_unref (hu q3) _ c0 e
        · exact (chain_null s.at_ (by rw [q1]; simp) _ c0).2
    · exact .own ⟨x, hj, hg, fun h => absurd h hgp⟩
  · intro j x m hj hx
    have key : ∀ {y : Id}, (∃ om, w.objs y = some om) → ∃ om, upd w.objs i (some o') y = some om := by
      intro y hy
      by_cases e : y = i
      · subst e; exact ⟨_, upd_self _ _ _⟩
      · rw [upd_ne _ _ e]; exact hy
    by_cases e : j = i
    · subst e
      rw [show (World.set _ _ _).objs j = _ from upd_self _ _ _] at hj; cases hj
      by_cases em : m = j
      · subst em; exact ⟨_, upd_self _ _ _⟩
      · rcases hm with hm | hm
        · rw [hm] at hx
          exact key (s.inv.alive j o m s.at_ hx)
        · obtain ⟨om, h⟩ := hm m hx em
          exact key ⟨om, by rw [s.other em]; exact h⟩
    · rw [show (World.set _ _ _).objs j = _ from upd_ne _ _ e] at hj
      exact key (s.inv.alive j x m hj hx)
  · show upd w.objs i _ = _
    rw [s.objs, upd_upd]

/-- Assignments to flags. -/
theorem flag_st {b : Objs} {i : Id} {w : World} {o : Obj} (s : St b i w o) (g : Obj → Obj) (hp : ∀ f, (g o).ptr f = o.ptr f)
    (hm : (g o).mask = o.mask) (hs : (g o).store = o.store) : ∃ w', modify w i g = .ok w' ∧ St b i w' (g o) := by
  refine ⟨w.set i (g o), ?_, ?_⟩
  · unfold modify; rw [s.get]; rfl
  · exact set_st s (g o) (fun f _ => hp f) (fun f _ => Or.inl ⟨hp f, Or.inr ⟨hs, Or.inl hm⟩⟩) (Or.inl hm)

/-- An assignment to the flags and to `store_pos_` while there are no positions. -/
theorem store_st {b : Objs} {i : Id} {w : World} {o : Obj} (s : St b i w o) (g : Obj → Obj) (hp : ∀ f, (g o).ptr f = o.ptr f)
    (hm : (g o).mask = o.mask) (h1 : o.ptr .pos = none) (h2 : o.ptr .idx = none) : ∃ w', modify w i g = .ok w' ∧ St b i w' (g o) := by
  refine ⟨w.set i (g o), ?_, ?_⟩
  · unfold modify; rw [s.get]; rfl
  · refine set_st s (g o) (fun f _ => hp f) (fun f hf => Or.inl ⟨hp f, Or.inl ?_⟩) (Or.inl hm)
    cases f <;> simp [Field.isPos] at hf
    · exact h1
    · exact h2

/-- An assignment to the mask and other flags: without positions, or with own positions of a raster that is no mask. -/
theorem mask_st {b : Objs} {i : Id} {w : World} {o : Obj} (s : St b i w o) (g : Obj → Obj) (hp : ∀ f, (g o).ptr f = o.ptr f)
    (h : (o.ptr .pos = none ∧ o.ptr .idx = none) ∨ ((g o).store = o.store ∧ o.store = true ∧ URef b i))
    (hm : ∀ m, (g o).mask = some m → m ≠ i → ∃ om, b m = some om) : ∃ w', modify w i g = .ok w' ∧ St b i w' (g o) := by
  refine ⟨w.set i (g o), ?_, ?_⟩
  · unfold modify; rw [s.get]; rfl
  · refine set_st s (g o) (fun f _ => hp f) (fun f hf => Or.inl ⟨hp f, ?_⟩) (Or.inr hm)
    rcases h with ⟨h1, h2⟩ | ⟨h1, h2, h3⟩
    · cases f <;> simp [Field.isPos] at hf
      · exact Or.inl h1
      · exact Or.inl h2
    · exact Or.inr ⟨h1, Or.inr ⟨h3, h2⟩⟩

/-! ## Access -/

theorem touch_ok {w : World} (hi : HInv w) {i : Id} {o : Obj} (ho : w.objs i = some o) {f : Field} (h : (o.ptr f).isSome = true) :
    touch w i f = .ok () := by
  obtain ⟨a, ha⟩ := Option.isSome_iff_exists.1 h
  obtain ⟨b, hb, _⟩ := hi.live i o f a ho ha
  unfold touch
  rw [get_of ho]
  simp [ha, hb]

theorem touchOpt_ok {w : World} (hi : HInv w) {i : Id} {o : Obj} (ho : w.objs i = some o) (f : Field) : touchOpt w i f = .ok () := by
  unfold touchOpt
  rw [get_of ho]
  cases ha : o.ptr f with
  | none => simp [ha]
  | some a =>
    obtain ⟨b, hb, _⟩ := hi.live i o f a ho ha
    simp [ha, hb]

theorem touchCells_ok {w : World} (hi : HInv w) {i : Id} {o : Obj} (ho : w.objs i = some o) : touchCells w i = .ok () := by
  unfold touchCells
  simp only [touchOpt_ok hi ho, Out.ok_bind]

theorem touchAll_ok {w : World} (hi : HInv w) {i : Id} {o : Obj} (ho : w.objs i = some o) (l : List Field) : touchAll w i l = .ok () := by
  induction l with
  | nil => rfl
  | cons f l ih =>
    have : touchAll w i (f :: l) = (do touchOpt w i f; touchAll w i l) := rfl
    rw [this, touchOpt_ok hi ho, Out.ok_bind, ih]

theorem use_ok {w : World} (hi : HInv w) {i : Id} {o : Obj} (ho : w.objs i = some o) : use w i = .ok () := by
  unfold use
  simp only [get_of ho, touchCells_ok hi ho, touchAll_ok hi ho, Out.ok_bind]

/-! ## Allocation if the member is null -/

theorem alloc1_st {b : Objs} {i : Id} {w : World} {o : Obj} (s : St b i w o) (f : Field) {n : Nat} (hn : 1 ≤ n) (hf : f.is2 = false)
    (hs : f.isPos = true → o.store = true) : ∃ w' p, alloc1 w i f n = .ok w' ∧ St b i w' (o.setPtr f p) ∧ p.isSome = true := by
  unfold alloc1
  rw [s.get]
  simp only [Out.ok_bind]
  cases hp : o.ptr f with
  | some a =>
    refine ⟨w, some a, by simp, ?_, rfl⟩
    have : o.setPtr f (some a) = o := by unfold Obj.setPtr; rw [upd_same _ _ _ hp]
    rw [this]; exact s
  | none =>
    obtain ⟨w', a, h1, h2⟩ := put_st s f .one hp hf hs
    have hn : ¬ n = 0 := by omega
    refine ⟨w', some a, ?_, h2, rfl⟩
    simp [hn, h1]

theorem alloc1d_st {b : Objs} {i : Id} {w : World} {o : Obj} (s : St b i w o) (f : Field) (hf : f.is2 = false)
    (hs : f.isPos = true → o.store = true) : ∃ w' p, alloc1d w i f = .ok w' ∧ St b i w' (o.setPtr f p) ∧ p.isSome = true := by
  unfold alloc1d
  rw [s.get]
  simp only [Out.ok_bind]
  cases hp : o.ptr f with
  | some a =>
    refine ⟨w, some a, by simp, ?_, rfl⟩
    have : o.setPtr f (some a) = o := by unfold Obj.setPtr; rw [upd_same _ _ _ hp]
    rw [this]; exact s
  | none =>
    obtain ⟨w', a, h1, h2⟩ := put_st s f .one hp hf hs
    refine ⟨w', some a, ?_, h2, rfl⟩
    simp [h1]

theorem alloc2_st {b : Objs} {i : Id} {w : World} {o : Obj} (s : St b i w o) (f : Field) {n : Nat} (hn : 1 ≤ n) (hf : f.is2 = true)
    (hs : f.isPos = true → o.store = true) : ∃ w' p, alloc2 w i f n = .ok w' ∧ St b i w' (o.setPtr f p) ∧ p.isSome = true := by
  unfold alloc2
  rw [s.get]
  simp only [Out.ok_bind]
  cases hp : o.ptr f with
  | some a =>
    refine ⟨w, some a, by simp, ?_, rfl⟩
    have : o.setPtr f (some a) = o := by unfold Obj.setPtr; rw [upd_same _ _ _ hp]
    rw [this]; exact s
  | none =>
    obtain ⟨w', a, h1, h2⟩ := put_st s f (.two n) hp ⟨hf, hn⟩ hs
    refine ⟨w', some a, ?_, h2, rfl⟩
    simp [h1]

/-! ## Subsets -/

/-- The arrays of the subsets: those in the map have their positions, and there are no others. -/
structure SubInv (ptr : Field → Option Addr) (subs : List (Int × Sub)) : Prop where
  only : ∀ k f, ptr (.sub k f) ≠ none → k ∈ subs.map Prod.fst
  full : ∀ e ∈ subs, e.2.alloc = true ∧ 1 ≤ e.2.cells ∧ (ptr (.sub e.1 .glob)).isSome = true ∧ (ptr (.sub e.1 .lpos)).isSome = true ∧
    (ptr (.sub e.1 .lidx)).isSome = true
  nodup : (subs.map Prod.fst).Nodup

def Field.inSub (k : Int) : Field → Bool
  | .sub k' _ => decide (k' = k)
  | _ => false

def Field.isSub : Field → Bool
  | .sub _ _ => true
  | _ => false

theorem freeSub_st {b : Objs} {i : Id} {w : World} {o : Obj} (s : St b i w o) (k : Int) (e : Sub) (ha : e.alloc = true) :
    ∃ w', freeSub w i k e = .ok w' ∧ St b i w' { o with ptr := fun f => if f.inSub k then none else o.ptr f } := by
  unfold freeSub
  rw [ha, cond_true]
  obtain ⟨w1, e1, s1⟩ := free_st s (.sub k .lpos) (Or.inr (by intro h; cases h))
  obtain ⟨w2, e2, s2⟩ := free_st s1 (.sub k .lidx) (Or.inr (by intro h; cases h))
  obtain ⟨w3, e3, s3⟩ := free_st s2 (.sub k .glob) (Or.inr (by intro h; cases h))
  obtain ⟨w4, e4, s4⟩ := free_st s3 (.sub k .data) (Or.inr (by intro h; cases h))
  obtain ⟨w5, e5, s5⟩ := free_st s4 (.sub k .data2) (Or.inr (by intro h; cases h))
  refine ⟨w5, ?_, ?_⟩
  · simp only [e1, e2, e3, e4, e5, Out.ok_bind]
  · convert s5 using 1
    simp only [Obj.setPtr, Obj.mk.injEq, and_true, true_and]
    funext f
    cases f with
    | sub k' g =>
      by_cases hk : k' = k
      · subst hk
        cases g <;> simp [Field.inSub, upd]
      · simp [Field.inSub, upd, hk]
    | _ => simp [Field.inSub, upd]

theorem freeSubs_st {b : Objs} {i : Id} (l : List (Int × Sub)) : ∀ {w : World} {o : Obj}, St b i w o → (∀ e ∈ l, e.2.alloc = true) →
    ∃ w', freeSubs w i l = .ok w' ∧ St b i w' { o with ptr := fun f => if l.any (fun e => f.inSub e.1) then none else o.ptr f } := by
  induction l with
  | nil =>
    intro w o s _
    refine ⟨w, rfl, ?_⟩
    simpa using s
  | cons e l ih =>
    intro w o s h
    obtain ⟨w1, e1, s1⟩ := freeSub_st s e.1 e.2 (h e (by simp))
    obtain ⟨w2, e2, s2⟩ := ih s1 (fun x hx => h x (by simp [hx]))
    refine ⟨w2, ?_, ?_⟩
    · have : freeSubs w i (e :: l) = (do let w ← freeSub w i e.1 e.2; freeSubs w i l) := rfl
      rw [this, e1, Out.ok_bind, e2]
    · convert s2 using 1
      simp only [Obj.mk.injEq, and_true, true_and]
      funext f
      simp only [List.any_cons]
      by_cases h1 : f.inSub e.1 = true
      · simp [h1]
      · rw [Bool.not_eq_true] at h1
        simp only [h1, Bool.false_or, Bool.false_eq_true, if_false]

/-- A raster after its subsets have been deleted. -/
def Obj.noSubs (o : Obj) : Obj := { o with ptr := fun f => if f.isSub then none else o.ptr f, subs := [] }

theorem releaseSubset_st {b : Objs} {i : Id} {w : World} {o : Obj} (s : St b i w o) (hs : SubInv o.ptr o.subs) :
    ∃ w', releaseSubset w i = .ok w' ∧ St b i w' o.noSubs := by
  unfold releaseSubset
  obtain ⟨w1, e1, s1⟩ := freeSubs_st o.subs s (fun e he => (hs.full e he).1)
  obtain ⟨w2, e2, s2⟩ := flag_st s1 (fun o => { o with subs := [] }) (fun _ => rfl) rfl rfl
  refine ⟨w2, ?_, ?_⟩
  · simp only [s.get, e1, e2, Out.ok_bind]
  · convert s2 using 1
    simp only [Obj.noSubs, Obj.mk.injEq, and_true, true_and]
    funext f
    cases f with
    | sub k g =>
      by_cases hk : k ∈ o.subs.map Prod.fst
      · obtain ⟨e, he, hek⟩ := List.mem_map.1 hk
        have : o.subs.any (fun e => (Field.sub k g).inSub e.1) = true := List.any_eq_true.2 ⟨e, he, by simp [Field.inSub, hek]⟩
        simp only [this, Field.isSub, if_true]
      · have : o.ptr (.sub k g) = none := by
          by_contra h
          exact hk (hs.only k g h)
        simp [Field.isSub, this]
    | _ => simp [Field.isSub, Field.inSub]

theorem SubInv.nil {ptr : Field → Option Addr} (h : ∀ k f, ptr (.sub k f) = none) : SubInv ptr [] :=
  ⟨fun k f h' => absurd (h k f) h', fun e he => by simp at he, by simp⟩

theorem SubInv.congr {p q : Field → Option Addr} {l : List (Int × Sub)} (h : SubInv p l) (hq : ∀ k f, q (.sub k f) = p (.sub k f)) : SubInv q l := by
  refine ⟨fun k f hk => h.only k f (by rw [← hq]; exact hk), fun e he => ?_, h.nodup⟩
  simp only [hq]
  exact h.full e he

/-- What a copied subset needs. -/
structure Copyable (o : Obj) (e : Int × Sub) : Prop where
  alloc : e.2.alloc = true
  cells : 1 ≤ e.2.cells
  lpos : (o.ptr (.sub e.1 .lpos)).isSome = true

theorem copySub_st {b : Objs} {i m : Id} {w : World} {o om : Obj} (s : St b i w o) (hmi : m ≠ i) (hm : b m = some om) (e : Int × Sub)
    (he : Copyable om e) (hn : ∀ f, o.ptr (.sub e.1 f) = none) :
    ∃ w' p, copySub w m i e.1 e.2 = .ok w' ∧ St b i w' { o with ptr := p } ∧ (∀ f, f.inSub e.1 = false → p f = o.ptr f) ∧
      (p (.sub e.1 .glob)).isSome = true ∧ (p (.sub e.1 .lpos)).isSome = true ∧ (p (.sub e.1 .lidx)).isSome = true ∧
      (om.ptr (.sub e.1 .data) = none → p (.sub e.1 .data) = none) ∧ (om.ptr (.sub e.1 .data2) = none → p (.sub e.1 .data2) = none) := by
  unfold copySub
  have hmw : ∀ {w : World} {o : Obj}, St b i w o → w.objs m = some om := fun s => by rw [s.other hmi]; exact hm
  obtain ⟨w1, p1, e1, s1, q1⟩ := alloc1d_st s (.sub e.1 .glob) rfl (by intro h; cases h)
  obtain ⟨w2, p2, e2, s2, q2⟩ := alloc2_st s1 (.sub e.1 .lpos) he.cells rfl (by intro h; cases h)
  obtain ⟨w3, p3, e3, s3, q3⟩ := alloc1d_st s2 (.sub e.1 .lidx) rfl (by intro h; cases h)
  rw [touchOpt_ok s.inv (hmw s)]
  simp only [Out.ok_bind, e1]
  rw [touch_ok s1.inv (hmw s1) he.lpos]
  simp only [Out.ok_bind, e2]
  rw [touchOpt_ok s2.inv (hmw s2)]
  simp only [Out.ok_bind, e3, get_of (hmw s3)]
  obtain ⟨w4, p4, e4, s4, q4, r4⟩ : ∃ w4 p4, (bif (om.ptr (.sub e.1 .data)).isSome then (do
        touch w3 m (.sub e.1 .data)
        alloc1d w3 i (.sub e.1 .data)) else .ok w3) = Out.ok w4 ∧
      St b i w4 { o with ptr := p4 } ∧ (∀ f, f ≠ .sub e.1 .data → p4 f = (((o.setPtr (.sub e.1 .glob) p1).setPtr (.sub e.1 .lpos) p2).setPtr (.sub e.1 .lidx) p3).ptr f) ∧
      (om.ptr (.sub e.1 .data) = none → p4 (.sub e.1 .data) = none) := by
    by_cases hd : (om.ptr (.sub e.1 .data)).isSome = true
    · obtain ⟨w4, p4, e4, s4, q4⟩ := alloc1d_st s3 (.sub e.1 .data) rfl (by intro h; cases h)
      rw [hd, cond_true, touch_ok s3.inv (hmw s3) hd, Out.ok_bind, e4]
      exact ⟨w4, _, rfl, s4, fun f hf => upd_ne _ _ hf, fun h => by rw [h] at hd; cases hd⟩
    · rw [Bool.not_eq_true] at hd
      rw [hd, cond_false]
      refine ⟨w3, _, rfl, s3, fun f hf => rfl, fun _ => ?_⟩
      simp only [Obj.setPtr, upd]
      simp only [reduceCtorEq, Field.sub.injEq, and_false, if_false]
      exact hn .data
  rw [e4]
  simp only [Out.ok_bind]
  obtain ⟨w5, p5, e5, s5, q5, r5⟩ : ∃ w5 p5, (if (om.ptr (.sub e.1 .data2)).isSome = true then (do
        touch w4 m (.sub e.1 .data2)
        alloc2 w4 i (.sub e.1 .data2) e.2.cells) else .ok w4) = Out.ok w5 ∧
      St b i w5 { o with ptr := p5 } ∧ (∀ f, f ≠ .sub e.1 .data2 → p5 f = p4 f) ∧
      (om.ptr (.sub e.1 .data2) = none → p5 (.sub e.1 .data2) = none) := by
    by_cases hd : (om.ptr (.sub e.1 .data2)).isSome = true
    · obtain ⟨w5, p5, e5, s5, q5⟩ := alloc2_st s4 (.sub e.1 .data2) he.cells rfl (by intro h; cases h)
      rw [if_pos hd, touch_ok s4.inv (hmw s4) hd, Out.ok_bind, e5]
      exact ⟨w5, _, rfl, s5, fun f hf => upd_ne _ _ hf, fun h => by rw [h] at hd; cases hd⟩
    · rw [if_neg hd]
      refine ⟨w4, _, rfl, s4, fun f hf => rfl, fun _ => ?_⟩
      rw [q4 _ (by simp)]
      simp only [Obj.setPtr, upd]
      simp only [reduceCtorEq, Field.sub.injEq, and_false, if_false]
      exact hn .data2
  rw [e5]
  refine ⟨w5, p5, rfl, s5, ?_, ?_, ?_, ?_, ?_, r5⟩
  · intro f hf
    have hne : ∀ g, f ≠ .sub e.1 g := by
      intro g h; rw [h] at hf; simp [Field.inSub] at hf
    rw [q5 f (hne _), q4 f (hne _), setPtr_ne _ _ (hne _), setPtr_ne _ _ (hne _), setPtr_ne _ _ (hne _)]
  · rw [q5 _ (by simp), q4 _ (by simp)]
    simpa [Obj.setPtr, upd] using q1
  · rw [q5 _ (by simp), q4 _ (by simp)]
    simpa [Obj.setPtr, upd] using q2
  · rw [q5 _ (by simp), q4 _ (by simp)]
    simpa [Obj.setPtr, upd] using q3
  · intro h
    rw [q5 _ (by simp)]
    exact r4 h

/-- One more subset. -/
theorem SubInv.snoc {p q : Field → Option Addr} {l : List (Int × Sub)} (h : SubInv p l) (e : Int × Sub) (he : e.1 ∉ l.map Prod.fst)
    (ha : e.2.alloc = true) (hc : 1 ≤ e.2.cells) (hq : ∀ f, f.inSub e.1 = false → q f = p f) (h1 : (q (.sub e.1 .glob)).isSome = true)
    (h2 : (q (.sub e.1 .lpos)).isSome = true) (h3 : (q (.sub e.1 .lidx)).isSome = true) : SubInv q (l ++ [e]) := by
  have hk : ∀ k f, k ≠ e.1 → q (.sub k f) = p (.sub k f) := fun k f hk => hq _ (by simp [Field.inSub, hk])
  refine ⟨?_, ?_, ?_⟩
  · intro k f hkf
    by_cases hke : k = e.1
    · simp [hke]
    · rw [hk k f hke] at hkf
      have := h.only k f hkf
      simp only [List.map_append, List.mem_append]
      exact Or.inl this
  · intro x hx
    rcases List.mem_append.1 hx with hx | hx
    · have hne : x.1 ≠ e.1 := fun hh => he (hh ▸ List.mem_map.2 ⟨x, hx, rfl⟩)
      simp only [hk _ _ hne]
      exact h.full x hx
    · have : x = e := by simpa using hx
      subst this
      exact ⟨ha, hc, h1, h2, h3⟩
  · rw [List.map_append, List.nodup_append]
    refine ⟨h.nodup, by simp, ?_⟩
    intro a ha b hb
    have : b = e.1 := by simpa using hb
    subst this
    intro hab
    exact he (hab ▸ ha)

theorem copySubs_st {b : Objs} {i m : Id} {om : Obj} (hmi : m ≠ i) (hm : b m = some om) (l : List (Int × Sub)) : ∀ {w : World} {o : Obj}, St b i w o →
    SubInv o.ptr o.subs → (∀ e ∈ l, Copyable om e) → ((o.subs ++ l).map Prod.fst).Nodup →
    ∃ w' p, copySubs w m i l = .ok w' ∧ St b i w' { o with ptr := p, subs := o.subs ++ l } ∧ (∀ f, f.isSub = false → p f = o.ptr f) ∧
      SubInv p (o.subs ++ l) ∧ (NoSubsetData om → NoSubsetData o → ∀ k, p (.sub k .data) = none ∧ p (.sub k .data2) = none) := by
  induction l with
  | nil =>
    intro w o s hs _ _
    refine ⟨w, o.ptr, rfl, ?_, fun _ _ => rfl, by simpa using hs, fun _ h k => h k⟩
    simpa using s
  | cons e l ih =>
    intro w o s hs hc hn
    have hne : e.1 ∉ o.subs.map Prod.fst := by
      rw [List.map_append, List.nodup_append] at hn
      intro hmem
      exact hn.2.2 e.1 hmem e.1 (by simp) rfl
    have hnull : ∀ f, o.ptr (.sub e.1 f) = none := by
      intro f
      by_contra h
      exact hne (hs.only e.1 f h)
    have hce := hc e (by simp)
    obtain ⟨w1, p1, e1, s1, q1, g1, g2, g3, d1, d2⟩ := copySub_st s hmi hm e hce hnull
    obtain ⟨w2, e2, s2⟩ := flag_st s1 (fun o => { o with subs := o.subs ++ [(e.1, { e.2 with alloc := true })] }) (fun _ => rfl) rfl rfl
    have hee : (e.1, ({ e.2 with alloc := true } : Sub)) = e := by
      obtain ⟨k, c, al⟩ := e
      have : al = true := hce.alloc
      subst this; rfl
    rw [hee] at s2
    have hsub := hs.snoc (q := p1) e hne hce.alloc hce.cells q1 g1 g2 g3
    obtain ⟨w3, p3, e3, s3, q3, r3, t3⟩ := ih s2 hsub (fun x hx => hc x (by simp [hx])) (by simpa using hn)
    refine ⟨w3, p3, ?_, by simpa using s3, ?_, by simpa using r3, ?_⟩
    · have : copySubs w m i (e :: l) = (do
          let w ← copySub w m i e.1 e.2
          let w ← modify w i (fun o => { o with subs := o.subs ++ [(e.1, { e.2 with alloc := true })] })
          copySubs w m i l) := rfl
      rw [this, e1, Out.ok_bind, e2, Out.ok_bind, e3]
    · intro f hf
      rw [q3 f hf]
      refine q1 f ?_
      cases f <;> simp_all [Field.isSub, Field.inSub]
    · intro ho hoo k
      refine t3 ho ?_ k
      intro k'
      by_cases hk : k' = e.1
      · rw [hk]; exact ⟨d1 (ho e.1).1, d2 (ho e.1).2⟩
      · exact ⟨by show p1 _ = none; rw [q1 _ (by simp [Field.inSub, hk])]; exact (hoo k').1,
          by show p1 _ = none; rw [q1 _ (by simp [Field.inSub, hk])]; exact (hoo k').2⟩

theorem buildSubs_st {b : Objs} {i : Id} (l : List (Int × Nat)) : ∀ {w : World} {o : Obj}, St b i w o →
    SubInv o.ptr o.subs → (∀ e ∈ l, 1 ≤ e.2) → (o.subs.map Prod.fst ++ l.map Prod.fst).Nodup →
    ∃ w' p t, buildSubs w i l = .ok w' ∧ St b i w' { o with ptr := p, subs := t } ∧ (∀ f, f.isSub = false → p f = o.ptr f) ∧ SubInv p t := by
  induction l with
  | nil =>
    intro w o s hs _ _
    exact ⟨w, o.ptr, o.subs, rfl, s, fun _ _ => rfl, hs⟩
  | cons e l ih =>
    intro w o s hs hc hn
    have hne : e.1 ∉ o.subs.map Prod.fst := by
      rw [List.nodup_append] at hn
      intro hmem
      exact hn.2.2 e.1 hmem e.1 (by simp) rfl
    have hce := hc e (by simp)
    obtain ⟨w1, p1, e1, s1, q1⟩ := alloc1_st s (.sub e.1 .glob) hce rfl (by intro h; cases h)
    obtain ⟨w2, p2, e2, s2, q2⟩ := alloc2_st s1 (.sub e.1 .lpos) hce rfl (by intro h; cases h)
    obtain ⟨w3, p3, e3, s3, q3⟩ := alloc1_st s2 (.sub e.1 .lidx) hce rfl (by intro h; cases h)
    obtain ⟨w4, e4, s4⟩ := flag_st s3 (fun o => { o with subs := o.subs ++ [(e.1, ⟨e.2, true⟩)] }) (fun _ => rfl) rfl rfl
    have hsub := hs.snoc (q := (((o.setPtr (.sub e.1 .glob) p1).setPtr (.sub e.1 .lpos) p2).setPtr (.sub e.1 .lidx) p3).ptr) (e.1, ⟨e.2, true⟩)
      hne rfl hce (by
        intro f hf
        have hne : ∀ g, f ≠ .sub e.1 g := by
          intro g h; rw [h] at hf; simp [Field.inSub] at hf
        rw [setPtr_ne _ _ (hne _), setPtr_ne _ _ (hne _), setPtr_ne _ _ (hne _)])
      (by simpa [Obj.setPtr, upd] using q1) (by simpa [Obj.setPtr, upd] using q2) (by simpa [Obj.setPtr, upd] using q3)
    obtain ⟨w5, p5, t5, e5, s5, q5, r5⟩ := ih s4 hsub (fun x hx => hc x (by simp [hx])) (by simpa [Obj.setPtr] using hn)
    refine ⟨w5, p5, t5, ?_, s5, ?_, r5⟩
    · have : buildSubs w i (e :: l) = (do
          let w ← alloc1 w i (.sub e.1 .glob) e.2
          let w ← alloc2 w i (.sub e.1 .lpos) e.2
          let w ← alloc1 w i (.sub e.1 .lidx) e.2
          let w ← modify w i (fun o => { o with subs := o.subs ++ [(e.1, ⟨e.2, true⟩)] })
          buildSubs w i l) := rfl
      rw [this, e1, Out.ok_bind, e2, Out.ok_bind, e3, Out.ok_bind, e4, Out.ok_bind, e5]
    · intro f hf
      rw [q5 f hf]
      have hne : ∀ k g, f ≠ .sub k g := by
        intro k g h; rw [h] at hf; simp [Field.isSub] at hf
      show (((o.setPtr (.sub e.1 .glob) p1).setPtr (.sub e.1 .lpos) p2).setPtr (.sub e.1 .lidx) p3).ptr f = _
      rw [setPtr_ne _ _ (hne _ _), setPtr_ne _ _ (hne _ _), setPtr_ne _ _ (hne _ _)]

end Life
end CCGL
