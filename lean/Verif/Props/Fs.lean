import Verif.Lemmas.Fs
/-!
# C55: deleting and cleaning directories
-/
namespace CCGL.Fs
open Spec

theorem Spec.OnlyBelow.refl {fs : FS} (h : WF fs) (p : Path) : OnlyBelow fs fs p := ⟨h, rfl, rfl, fun _ => Or.inl rfl⟩

theorem Spec.OnlyBelow.trans {a b c : FS} {p : Path} (h1 : OnlyBelow a b p) (h2 : OnlyBelow b c p) : OnlyBelow a c p := by
  refine ⟨h2.wf, h2.deny.trans h1.deny, h2.cwd.trans h1.cwd, fun q => ?_⟩
  rcases h2.same q with h | h
  · rcases h1.same q with h' | h'
    · left; rw [h, h']
    · right; exact ⟨h'.1, by rw [h, h'.2]⟩
  · exact Or.inr h

theorem Spec.OnlyBelow.up {a b : FS} {p : Path} (m : Path) (h : OnlyBelow a b (p ++ m)) : OnlyBelow a b p :=
  ⟨h.wf, h.deny, h.cwd, fun q => (h.same q).imp_right fun h' => ⟨(List.prefix_append p m).trans h'.1, h'.2⟩⟩

theorem Spec.OnlyBelow.none {a b : FS} {p : Path} (h : OnlyBelow a b p) (q : Path) (hq : a.kindOf q = none) :
    b.kindOf q = none := by
  rcases h.same q with h' | h'
  · rw [h', hq]
  · exact h'.2

theorem Spec.OnlyBelow.exist {a b : FS} {p : Path} (h : OnlyBelow a b p) (q : Path) (hq : (b.kindOf q).isSome) :
    (a.kindOf q).isSome := by
  rcases h.same q with h' | h'
  · rwa [← h']
  · rw [h'.2] at hq; simp at hq

theorem remove_onlyBelow {fs : FS} (h : WF fs) (s : Str) (p : Path) (hs : fs.resolve s = some p ∨ fs.resolve s = none) :
    OnlyBelow fs (fs.remove s).2 p := by
  refine ⟨remove_wf h s, (remove_deny fs s).1, (remove_deny fs s).2, fun q => ?_⟩
  rcases remove_cases h s with h1 | ⟨p', hp', hne, _, _, h1⟩
  · left; rw [h1]
  · rcases hs with hs | hs
    · rw [hs] at hp'
      obtain rfl := Option.some.inj hp'
      rw [h1, kindOf_erase fs p q hne]
      by_cases hq : q = p
      · rw [if_pos hq]; right; exact ⟨by rw [hq]; exact List.prefix_refl p, rfl⟩
      · rw [if_neg hq]; left; rfl
    · rw [hs] at hp'; simp at hp'

/-- Loop body of `DeleteDirectory`. -/
def delStep (sub : Bool) (n : Nat) (fs : FS) (p : Path) (abs : Str) (f : FS) (name : Str) : FS :=
  let path := abs ++ '/' :: name
  let f := if fs.kindOf (p ++ [name]) = some .dir ∧ sub = true then deleteDirLoop sub n f path else f
  (f.remove path).2

theorem deleteDirLoop_succ (sub : Bool) (n : Nat) {fs : FS} (h : WF fs) (s : Str) (p : Path) (hs : fs.resolve s = some p)
    (hk : fs.kindOf p = some .dir) :
    deleteDirLoop sub (n + 1) fs s =
      (((fs.names p).foldl (delStep sub n fs p (render p)) fs).remove (render p)).2 := by
  have hex : (fs.kindOf p).isSome := by rw [hk]; rfl
  rw [deleteDirLoop, abs_some s p hs]
  dsimp only
  rw [if_neg (by rw [not_not, directoryExists_iff h]; exact ⟨p, resolve_exist h p hex, hk⟩), resolve_exist h p hex]
  rfl

theorem deleteDirLoop_none (sub : Bool) (n : Nat) {fs : FS} (h : WF fs) (s : Str)
    (hs : ∀ p, fs.resolve s = some p → fs.kindOf p ≠ some .dir) : deleteDirLoop sub n fs s = fs := by
  cases n with
  | zero => rfl
  | succ n =>
    rw [deleteDirLoop]
    dsimp only
    rw [if_pos]
    rw [directoryExists_iff h, resolve_abs h]
    rintro ⟨p, h1, h2⟩
    exact hs p h1 h2

theorem name_good {fs : FS} (h : WF fs) (p : Path) (m : Str) (hm : m ∈ fs.names p) : GoodName m :=
  wf_good h _ ((mem_names h p m).1 hm) m (by simp)

/-- Deleting changes nothing outside the directory. -/
theorem del_safe (sub : Bool) (n : Nat) : ∀ (fs : FS) (s : Str) (p : Path), WF fs →
    (fs.resolve s = some p ∨ fs.resolve s = none) → OnlyBelow fs (deleteDirLoop sub n fs s) p := by
  induction n with
  | zero => intro fs s p h _; exact OnlyBelow.refl h p
  | succ n ih =>
    intro fs s p h hs
    rcases hs with hs | hs
    case inr => rw [deleteDirLoop_none sub _ h s (by rw [hs]; simp)]; exact OnlyBelow.refl h p
    by_cases hk : fs.kindOf p = some .dir
    case neg =>
      rw [deleteDirLoop_none sub _ h s (by rw [hs]; intro q hq; rw [← Option.some.inj hq]; exact hk)]
      exact OnlyBelow.refl h p
    rw [deleteDirLoop_succ sub n h s p hs hk]
    have hp : ∀ c ∈ p, GoodName c := wf_good h p (by rw [hk]; rfl)
    have loop : ∀ (ns : List Str) (f : FS), (∀ m ∈ ns, GoodName m) → OnlyBelow fs f p →
        OnlyBelow fs (ns.foldl (delStep sub n fs p (render p)) f) p := by
      intro ns
      induction ns with
      | nil => intro f _ hf; exact hf
      | cons m ns ihn =>
        intro f hn hf
        rw [List.foldl_cons]
        apply ihn _ (fun x hx => hn x (List.mem_cons_of_mem _ hx))
        have hg := hn m (by simp)
        have res (g : FS) (hw : WF g) : g.resolve (render p ++ '/' :: m) = some (p ++ [m]) ∨
            g.resolve (render p ++ '/' :: m) = none := by
          rw [resolve_sub hw p m hp hg]
          split
          · exact Or.inl rfl
          · exact Or.inr rfl
        unfold delStep
        dsimp only
        have h1 : OnlyBelow f (if fs.kindOf (p ++ [m]) = some .dir ∧ sub = true
            then deleteDirLoop sub n f (render p ++ '/' :: m) else f) (p ++ [m]) := by
          split
          · exact ih f _ _ hf.wf (res f hf.wf)
          · exact OnlyBelow.refl hf.wf _
        exact (hf.trans h1.up).trans (remove_onlyBelow h1.wf _ _ (res _ h1.wf)).up
    have h2 := loop (fs.names p) fs (fun m hm => name_good h p m hm) (OnlyBelow.refl h p)
    refine h2.trans (remove_onlyBelow h2.wf _ _ ?_)
    rw [resolve_render h2.wf p hp]
    split
    · exact Or.inl rfl
    · exact Or.inr rfl

/-- Recursive deletion with enough fuel leaves nothing below the directory. -/
theorem del_full (n : Nat) : ∀ (fs : FS) (s : Str) (p : Path), WF fs → fs.resolve s = some p →
    fs.kindOf p = some .dir → (∀ q, Below p q → (fs.kindOf q).isSome → q.length < p.length + n) →
    (∀ q, Below p q → fs.deny q = false) → ∀ q, Below p q → q ≠ [] → (deleteDirLoop true n fs s).kindOf q = none := by
  induction n with
  | zero =>
    intro fs s p h hs hk hd
    have := hd p (List.prefix_refl p) (by rw [hk]; rfl)
    omega
  | succ n ih =>
    intro fs s p h hs hk hd hden q hq hq0
    rw [deleteDirLoop_succ true n h s p hs hk]
    have hp : ∀ c ∈ p, GoodName c := wf_good h p (by rw [hk]; rfl)
    have loop : ∀ (ns : List Str) (f : FS), (∀ m ∈ ns, GoodName m) → OnlyBelow fs f p →
        OnlyBelow fs (ns.foldl (delStep true n fs p (render p)) f) p ∧
        (∀ q, f.kindOf q = none → (ns.foldl (delStep true n fs p (render p)) f).kindOf q = none) ∧
        ∀ m ∈ ns, ∀ q, Below (p ++ [m]) q → (ns.foldl (delStep true n fs p (render p)) f).kindOf q = none := by
      intro ns
      induction ns with
      | nil => intro f _ hf; exact ⟨hf, fun _ h => h, by simp⟩
      | cons m ns ihn =>
        intro f hn hf
        rw [List.foldl_cons]
        have hg := hn m (by simp)
        have res (g : FS) (hw : WF g) := resolve_sub hw p m hp hg
        have res' (g : FS) (hw : WF g) : g.resolve (render p ++ '/' :: m) = some (p ++ [m]) ∨
            g.resolve (render p ++ '/' :: m) = none := by
          rw [res g hw]
          split
          · exact Or.inl rfl
          · exact Or.inr rfl
        -- the state after one step
        have step : OnlyBelow f (delStep true n fs p (render p) f m) (p ++ [m]) ∧
            ∀ q, Below (p ++ [m]) q → (delStep true n fs p (render p) f m).kindOf q = none := by
          unfold delStep
          dsimp only
          have key : ∀ g, OnlyBelow f g (p ++ [m]) → (∀ x, Below (p ++ [m]) x → x ≠ p ++ [m] → g.kindOf x = none) →
              OnlyBelow f (g.remove (render p ++ '/' :: m)).2 (p ++ [m]) ∧
              ∀ q, Below (p ++ [m]) q → (g.remove (render p ++ '/' :: m)).2.kindOf q = none := by
            intro g hg1 hg2
            have hob := remove_onlyBelow hg1.wf _ _ (res' g hg1.wf)
            refine ⟨hg1.trans hob, fun q hq => ?_⟩
            by_cases hqe : q = p ++ [m]
            · subst hqe
              have r := res g hg1.wf
              by_cases hex : (g.kindOf (p ++ [m])).isSome
              · rw [if_pos hex] at r
                rw [remove_some hg1.wf _ _ r (by simp), kindOf_erase _ _ _ (by simp), if_pos rfl]
                · rw [hg1.deny, hf.deny]; exact hden _ (List.prefix_append _ _)
                · intro x; exact hg2 _ (List.prefix_append _ _) (by simp)
              · exact hob.none _ (by simpa using hex)
            · exact hob.none _ (hg2 q hq hqe)
          by_cases hdir : fs.kindOf (p ++ [m]) = some .dir
          · rw [if_pos ⟨hdir, rfl⟩]
            have hsafe := del_safe true n f _ _ hf.wf (res' f hf.wf)
            apply key _ hsafe
            intro x hx hne
            by_cases hex : f.kindOf (p ++ [m]) = some .dir
            · have r := res f hf.wf
              rw [if_pos (by rw [hex]; rfl)] at r
              apply ih f _ _ hf.wf r hex _ _ x hx
              · rintro rfl
                have := List.prefix_nil.1 hx
                simp at this
              · intro y hy hys
                have := hd y ((List.prefix_append _ _).trans hy) (hf.exist y hys)
                simp only [List.length_append, List.length_singleton]
                omega
              · intro y hy
                rw [hf.deny]; exact hden y ((List.prefix_append _ _).trans hy)
            · apply hsafe.none
              cases hx2 : f.kindOf x with
              | none => rfl
              | some k =>
                obtain ⟨t, rfl⟩ := hx
                exact absurd (wf_prefix hf.wf t _ (by rintro rfl; simp at hne) (by rw [hx2]; rfl)) hex
          · rw [if_neg (by rintro ⟨h1, _⟩; exact hdir h1)]
            apply key f (OnlyBelow.refl hf.wf _)
            intro x hx hne
            cases hx2 : f.kindOf x with
            | none => rfl
            | some k =>
              obtain ⟨t, rfl⟩ := hx
              have h5 := hf.exist _ (show (f.kindOf (p ++ [m] ++ t)).isSome by rw [hx2]; rfl)
              exact absurd (wf_prefix h t _ (by rintro rfl; simp at hne) h5) hdir
        have hf' := hf.trans step.1.up
        obtain ⟨l1, l2, l3⟩ := ihn _ (fun x hx => hn x (List.mem_cons_of_mem _ hx)) hf'
        refine ⟨l1, fun q hq => l2 q (step.1.none q hq), ?_⟩
        intro x hx q hq
        rcases List.mem_cons.1 hx with rfl | hx
        · exact l2 q (step.2 q hq)
        · exact l3 x hx q hq
    obtain ⟨l1, _, l3⟩ := loop (fs.names p) fs (fun m hm => name_good h p m hm) (OnlyBelow.refl h p)
    set g := (fs.names p).foldl (delStep true n fs p (render p)) fs
    -- nothing strictly below p is left
    have below : ∀ t, t ≠ [] → g.kindOf (p ++ t) = none := by
      intro t ht
      cases t with
      | nil => exact absurd rfl ht
      | cons m t =>
        by_cases hm : m ∈ fs.names p
        · exact l3 m hm _ ⟨t, by simp⟩
        · apply l1.none
          rw [mem_names h] at hm
          cases hx : fs.kindOf (p ++ m :: t) with
          | none => rfl
          | some k =>
            exfalso
            apply hm
            by_cases ht2 : t = []
            · subst ht2; rw [hx]; rfl
            · have := wf_prefix h t (p ++ [m]) ht2 (by simp [hx])
              rw [this]; rfl
    have hgr := resolve_render l1.wf p hp
    obtain ⟨t, rfl⟩ := hq
    have hob : OnlyBelow g (g.remove (render p)).2 p := remove_onlyBelow l1.wf _ _ (by
      rw [hgr]
      split
      · exact Or.inl rfl
      · exact Or.inr rfl)
    by_cases ht : t = []
    · subst ht
      rw [List.append_nil] at hq0 ⊢
      by_cases hex : (g.kindOf p).isSome
      · rw [if_pos hex] at hgr
        rw [remove_some l1.wf _ p hgr hq0, kindOf_erase _ _ _ hq0, if_pos rfl]
        · rw [l1.deny]; exact hden p (List.prefix_refl p)
        · intro x; exact below [x] (by simp)
      · exact hob.none _ (by simpa using hex)
    · exact hob.none _ (below t ht)

/-- C55, deletion, part 1: whatever the arguments and permissions, the call reports success, and afterwards everything
that is not below the directory named by the text is as before; nothing is created or changed in kind. -/
theorem C55_delete_safe (fs : FS) (h : WF fs) (s : Str) (sub : Bool) (p : Path) (hs : fs.resolve s = some p) :
    (deleteDirectory fs s sub).1 = true ∧ OnlyBelow fs (deleteDirectory fs s sub).2 p :=
  ⟨rfl, del_safe sub _ fs s p h (Or.inl hs)⟩

theorem length_le_sum (fs : FS) (h : WF fs) (q : Path) (hq : (fs.kindOf q).isSome) :
    q.length ≤ (fs.entries.map (fun e => e.1.length)).sum := by
  by_cases h0 : q = []
  · simp [h0]
  · obtain ⟨k, hk⟩ := (kindOf_isSome h q h0).1 hq
    exact List.le_sum_of_mem (List.mem_map.2 ⟨_, hk, rfl⟩)

/-- C55, deletion, part 2: recursive deletion removes the directory and everything below it, if the system refuses no
removal there (the root directory itself stays). -/
theorem C55_delete_all (fs : FS) (h : WF fs) (s : Str) (p : Path) (hs : fs.resolve s = some p)
    (hk : fs.kindOf p = some .dir) (hd : ∀ q, Below p q → fs.deny q = false) (q : Path) (hq : Below p q) (h0 : q ≠ []) :
    (deleteDirectory fs s true).2.kindOf q = none := by
  refine del_full _ fs s p h hs hk ?_ hd q hq h0
  intro x _ hx
  have := length_le_sum fs h x hx
  omega

/-- C55, deletion, part 3: a text that does not name a directory changes nothing. -/
theorem C55_delete_missing (fs : FS) (h : WF fs) (s : Str) (sub : Bool)
    (hs : ∀ p, fs.resolve s = some p → fs.kindOf p ≠ some .dir) : (deleteDirectory fs s sub).2 = fs :=
  deleteDirLoop_none sub _ h s hs

/-! ### Removing children one by one -/

/-- One `remove` of a child. -/
theorem remove_child {f : FS} (h : WF f) (p : Path) (hp : ∀ c ∈ p, GoodName c) (m : Str) (hm : GoodName m) :
    ((f.remove (render p ++ '/' :: m)).1 = true ↔ Removable f (p ++ [m])) ∧
    WF (f.remove (render p ++ '/' :: m)).2 ∧
    ∀ q, (f.remove (render p ++ '/' :: m)).2.kindOf q =
      if q = p ++ [m] ∧ (f.remove (render p ++ '/' :: m)).1 = true then none else f.kindOf q := by
  have hr := resolve_sub h p m hp hm
  by_cases hR : Removable f (p ++ [m])
  · rw [if_pos hR.1] at hr
    have := remove_some h _ _ hr (by simp) hR.2.2 hR.2.1
    rw [this]
    refine ⟨by simpa using hR, wf_erase h _ (by simp) hR.2.1, fun q => ?_⟩
    rw [kindOf_erase _ _ _ (by simp)]
    simp
  · have h1 : f.remove (render p ++ '/' :: m) = (false, f) := by
      rcases remove_cases h (render p ++ '/' :: m) with h1 | ⟨q, h2, _, h4, h5, _⟩
      · exact h1
      · exfalso
        split at hr
        · next hex =>
          rw [hr] at h2
          obtain rfl := Option.some.inj h2
          exact hR ⟨hex, h5, h4⟩
        · rw [hr] at h2; simp at h2
    rw [h1]
    refine ⟨by simpa using hR, h, fun q => ?_⟩
    simp

/-- `f` is `fs` without the removable ones among the children `ms` of `p`. -/
structure Stripped (fs f : FS) (p : Path) (ms : List Str) : Prop where
  wf : WF f
  deny : f.deny = fs.deny
  cwd : f.cwd = fs.cwd
  gone : ∀ m ∈ ms, Removable fs (p ++ [m]) → f.kindOf (p ++ [m]) = none
  rest : ∀ q, (¬ ∃ m ∈ ms, q = p ++ [m] ∧ Removable fs q) → f.kindOf q = fs.kindOf q

theorem Stripped.step {fs f : FS} {p : Path} {ms : List Str} (hs : Stripped fs f p ms) (hp : ∀ c ∈ p, GoodName c)
    (m : Str) (hm : GoodName m) :
    Stripped fs (f.remove (render p ++ '/' :: m)).2 p (ms ++ [m]) ∧
    (m ∉ ms → ((f.remove (render p ++ '/' :: m)).1 = true ↔ Removable fs (p ++ [m]))) := by
  obtain ⟨h1, h2, h3⟩ := remove_child hs.wf p hp m hm
  -- the state of the child m itself
  have hself : m ∉ ms → (Removable f (p ++ [m]) ↔ Removable fs (p ++ [m])) := by
    intro hn
    have e1 : f.kindOf (p ++ [m]) = fs.kindOf (p ++ [m]) := by
      apply hs.rest
      rintro ⟨x, hx, he, _⟩
      have : m = x := by simpa using he
      exact hn (this ▸ hx)
    have e2 (n : Str) : f.kindOf (p ++ [m] ++ [n]) = fs.kindOf (p ++ [m] ++ [n]) := by
      apply hs.rest
      rintro ⟨x, _, he, _⟩
      have := congrArg List.length he
      simp at this
    unfold Removable
    rw [e1, hs.deny]
    simp only [e2]
  have hback : Removable f (p ++ [m]) → Removable fs (p ++ [m]) := by
    intro hR
    by_cases hn : m ∈ ms
    · refine ⟨?_, ?_, by rw [← hs.deny]; exact hR.2.2⟩
      · by_contra hc
        have := hs.rest (p ++ [m]) (by rintro ⟨x, _, _, hr⟩; exact hc hr.1)
        rw [← this] at hc
        exact hc hR.1
      · intro n
        rw [← hs.rest (p ++ [m] ++ [n]) (by
          rintro ⟨x, _, he, _⟩
          have := congrArg List.length he
          simp at this)]
        exact hR.2.1 n
    · exact (hself hn).1 hR
  refine ⟨⟨h2, (remove_deny f _).1.trans hs.deny, (remove_deny f _).2.trans hs.cwd, ?_, ?_⟩, fun hn => h1.trans (hself hn)⟩
  · intro x hx hR
    rcases List.mem_append.1 hx with hx | hx
    · rw [h3]
      have := hs.gone x hx hR
      split
      · rfl
      · exact this
    · obtain rfl := List.mem_singleton.1 hx
      rw [h3]
      by_cases hn : x ∈ ms
      · have := hs.gone x hn hR
        split
        · rfl
        · exact this
      · rw [if_pos ⟨rfl, h1.2 ((hself hn).2 hR)⟩]
  · intro q hq
    rw [h3, if_neg, hs.rest q]
    · rintro ⟨x, hx, he, hr⟩
      exact hq ⟨x, by simp [hx], he, hr⟩
    · rintro ⟨rfl, hb⟩
      exact hq ⟨m, by simp, rfl, hback (h1.1 hb)⟩

theorem names_nodup {fs : FS} (h : WF fs) (p : Path) : (fs.names p).Nodup := by
  unfold FS.names
  have h0 := h.nonroot
  have hn := h.nodup
  clear h
  generalize fs.entries = es at h0 hn
  induction es with
  | nil => simp
  | cons e es ih =>
    rw [List.map_cons, List.nodup_cons] at hn
    have ih' := ih (fun x hx => h0 x (List.mem_cons_of_mem _ hx)) hn.2
    rw [List.filterMap_cons]
    split
    · exact ih'
    · next m hm =>
      rw [List.nodup_cons]
      refine ⟨?_, ih'⟩
      intro hc
      obtain ⟨e', he', hm'⟩ := List.mem_filterMap.1 hc
      split at hm
      · next d1 =>
        split at hm'
        · next d2 =>
          have a1 := List.dropLast_append_getLast? m hm
          have a2 := List.dropLast_append_getLast? m hm'
          apply hn.1
          refine List.mem_map.2 ⟨e', he', ?_⟩
          rw [← a1, ← a2, d1, d2]
        · simp at hm'
      · simp at hm

/-- C55, deletion without subdirectories: exactly the files and the empty directories in the directory are removed; the
non-empty subdirectories stay with all their content, and then the directory itself stays as well. -/
theorem C55_delete_flat (fs : FS) (h : WF fs) (s : Str) (p : Path) (hs : fs.resolve s = some p)
    (hk : fs.kindOf p = some .dir) (hp0 : p ≠ []) (hd : ∀ q, Below p q → fs.deny q = false) :
    (∀ m, Removable fs (p ++ [m]) → (deleteDirectory fs s false).2.kindOf (p ++ [m]) = none) ∧
    (∀ q, q ≠ p → (¬ ∃ m, q = p ++ [m] ∧ Removable fs q) → (deleteDirectory fs s false).2.kindOf q = fs.kindOf q) ∧
    ((deleteDirectory fs s false).2.kindOf p = none ↔ ∀ m, (fs.kindOf (p ++ [m])).isSome → Removable fs (p ++ [m])) := by
  have hp : ∀ c ∈ p, GoodName c := wf_good h p (by rw [hk]; rfl)
  unfold deleteDirectory
  dsimp only
  rw [deleteDirLoop_succ false _ h s p hs hk]
  have hstep (n : Nat) (f : FS) (m : Str) : delStep false n fs p (render p) f m = (f.remove (render p ++ '/' :: m)).2 := by
    unfold delStep
    simp
  have loop : ∀ (n : Nat) (ns ms : List Str) (f : FS), (∀ m ∈ ns, GoodName m) → Stripped fs f p ms →
      Stripped fs (ns.foldl (delStep false n fs p (render p)) f) p (ms ++ ns) := by
    intro n ns
    induction ns with
    | nil => intro ms f _ hf; simpa using hf
    | cons m ns ih =>
      intro ms f hn hf
      rw [List.foldl_cons, hstep]
      have := ih (ms ++ [m]) _ (fun x hx => hn x (List.mem_cons_of_mem _ hx)) (hf.step hp m (hn m (by simp))).1
      simpa using this
  have hL := loop ((fs.entries.map (fun e => e.1.length)).sum) (fs.names p) [] fs (fun m hm => name_good h p m hm)
    ⟨h, rfl, rfl, by simp, fun _ _ => rfl⟩
  rw [List.nil_append] at hL
  set g := (fs.names p).foldl (delStep false ((fs.entries.map (fun e => e.1.length)).sum) fs p (render p)) fs
  have hgp : g.kindOf p = some .dir := by
    rw [hL.rest p, hk]
    rintro ⟨m, _, he, _⟩
    have := congrArg List.length he
    simp at this
  have hgr := resolve_exist hL.wf p (by rw [hgp]; rfl)
  have hgd : g.deny p = false := by rw [hL.deny]; exact hd p (List.prefix_refl p)
  have other (q : Path) (hq : q ≠ p) : (g.remove (render p)).2.kindOf q = g.kindOf q := by
    rcases remove_cases hL.wf (render p) with h1 | ⟨x, h2, h3, _, _, h1⟩
    · rw [h1]
    · rw [hgr] at h2
      obtain rfl := Option.some.inj h2
      rw [h1, kindOf_erase _ _ _ h3, if_neg hq]
  refine ⟨?_, ?_, ?_⟩
  · intro m hm
    rw [other _ (by intro h; have := congrArg List.length h; simp at this)]
    exact hL.gone m ((mem_names h p m).2 hm.1) hm
  · intro q hq hno
    rw [other q hq]
    apply hL.rest
    rintro ⟨m, _, h1, h2⟩
    exact hno ⟨m, h1, h2⟩
  · have hleaf : (g.remove (render p)).2.kindOf p = none ↔ ∀ m, g.kindOf (p ++ [m]) = none := by
      constructor
      · intro h1
        rcases remove_cases hL.wf (render p) with h2 | ⟨x, h2, _, _, h3, _⟩
        · rw [h2] at h1; rw [hgp] at h1; simp at h1
        · rw [hgr] at h2
          obtain rfl := Option.some.inj h2
          exact h3
      · intro h1
        rw [remove_some hL.wf _ p hgr hp0 hgd h1, kindOf_erase _ _ _ hp0, if_pos rfl]
    rw [hleaf]
    constructor
    · intro h1 m hm
      by_contra hc
      have h2 := hL.rest (p ++ [m]) (by rintro ⟨x, _, _, hr⟩; exact hc hr)
      rw [h1 m] at h2
      rw [← h2] at hm
      simp at hm
    · intro h1 m
      by_cases hm : (fs.kindOf (p ++ [m])).isSome
      · exact hL.gone m ((mem_names h p m).2 hm) (h1 m hm)
      · rw [hL.rest _ (by rintro ⟨x, _, _, hr⟩; exact hm hr.1)]
        simpa using hm

/-- `FindFiles` with the wildcard lists all entries that are not hidden (files and directories alike). -/
theorem findFiles_wildcard {fs : FS} (h : WF fs) (s : Str) (p : Path) (hs : fs.resolve s = some p)
    (hk : fs.kindOf p = some .dir) :
    findFiles fs s "*.*".toList =
      ((fs.names p).filter (fun n => decide (n.head? ≠ some '.'))).map (fun n => render p ++ '/' :: n) := by
  unfold findFiles
  rw [abs_some s p hs]
  dsimp only
  rw [resolve_exist h p (by rw [hk]; rfl)]
  dsimp only
  rw [if_neg (by simp [hk])]
  congr 1
  apply List.filter_congr
  intro n _
  have : findMatches fs "*.*".toList n = true := by
    unfold findMatches
    have : stringMatchC "*.*".toList "*.*".toList = true := by decide
    dsimp only
    rw [this, Bool.or_true]
  rw [this, Bool.and_true]

/-- C55, cleaning an existing directory: exactly the entries of it that are not hidden and are files or empty directories
are removed (as far as the system allows); everything else stays. It reports success if and only if every entry that
is not hidden could be removed. -/
theorem C55_clean (fs : FS) (h : WF fs) (s : Str) (p : Path) (hs : fs.resolve s = some p)
    (hk : fs.kindOf p = some .dir) :
    (∀ m, ¬ Hidden m → Removable fs (p ++ [m]) → (cleanDirectory fs s).2.kindOf (p ++ [m]) = none) ∧
    (∀ q, (¬ ∃ m, q = p ++ [m] ∧ ¬ Hidden m ∧ Removable fs q) → (cleanDirectory fs s).2.kindOf q = fs.kindOf q) ∧
    ((cleanDirectory fs s).1 = true ↔ ∀ m, ¬ Hidden m → (fs.kindOf (p ++ [m])).isSome → Removable fs (p ++ [m])) := by
  have hex : (fs.kindOf p).isSome := by rw [hk]; rfl
  have hp : ∀ c ∈ p, GoodName c := wf_good h p hex
  have hre := resolve_exist h p hex
  unfold cleanDirectory
  rw [abs_some s p hs]
  dsimp only
  rw [if_pos ((directoryExists_iff h _).2 ⟨p, hre, hk⟩), findFiles_wildcard h _ p hre hk]
  set ns := (fs.names p).filter (fun n => decide (n.head? ≠ some '.')) with hns
  have hmem (m : Str) : m ∈ ns ↔ (fs.kindOf (p ++ [m])).isSome ∧ ¬ Hidden m := by
    rw [hns, List.mem_filter, mem_names h]
    simp [Hidden]
  have hnd : ns.Nodup := (names_nodup h p).filter _
  have hgood : ∀ m ∈ ns, GoodName m := fun m hm => name_good h p m ((mem_names h p m).2 ((hmem m).1 hm).1)
  have loop : ∀ (ns ms : List Str) (c : Nat) (f : FS), (∀ m ∈ ns, GoodName m) → (ms ++ ns).Nodup → Stripped fs f p ms →
      (c = 0 ↔ ∀ m ∈ ms, Removable fs (p ++ [m])) →
      let r := (ns.map (fun n => render p ++ '/' :: n)).foldl (fun (acc : Nat × FS) f =>
        let x := acc.2.remove f
        (if x.1 then acc.1 else acc.1 + 1, x.2)) (c, f)
      Stripped fs r.2 p (ms ++ ns) ∧ (r.1 = 0 ↔ ∀ m ∈ ms ++ ns, Removable fs (p ++ [m])) := by
    intro ns
    induction ns with
    | nil => intro ms c f _ _ hf hc; simpa using ⟨hf, hc⟩
    | cons m ns ih =>
      intro ms c f hn hnd hf hc
      rw [List.map_cons, List.foldl_cons]
      have hm : m ∉ ms := by
        intro hm
        rw [List.nodup_append] at hnd
        exact hnd.2.2 m hm m (by simp) rfl
      obtain ⟨h1, h2⟩ := hf.step hp m (hn m (by simp))
      have h3 := h2 hm
      have := ih (ms ++ [m]) (if (f.remove (render p ++ '/' :: m)).1 then c else c + 1) _
        (fun x hx => hn x (List.mem_cons_of_mem _ hx)) (by simpa using hnd) h1 (by
          by_cases hb : (f.remove (render p ++ '/' :: m)).1 = true
          · rw [if_pos hb, hc]
            constructor
            · intro h4 x hx
              rcases List.mem_append.1 hx with hx | hx
              · exact h4 x hx
              · rw [List.mem_singleton.1 hx]; exact h3.1 hb
            · intro h4 x hx; exact h4 x (by simp [hx])
          · rw [if_neg hb]
            constructor
            · intro h4; omega
            · intro h4; exact absurd (h3.2 (h4 m (by simp))) hb)
      simpa using this
  obtain ⟨h1, h2⟩ := loop ns [] 0 fs hgood (by simpa using hnd) ⟨h, rfl, rfl, by simp, fun _ _ => rfl⟩ (by simp)
  dsimp only at h1 h2
  rw [List.nil_append] at h1 h2
  refine ⟨?_, ?_, ?_⟩
  · intro m hh hR
    exact h1.gone m ((hmem m).2 ⟨hR.1, hh⟩) hR
  · intro q hq
    apply h1.rest
    rintro ⟨m, hm, he, hr⟩
    exact hq ⟨m, he, ((hmem m).1 hm).2, hr⟩
  · rw [decide_eq_true_eq, h2]
    constructor
    · intro h3 m hh hx; exact h3 m ((hmem m).2 ⟨hx, hh⟩)
    · intro h3 m hm; exact h3 m ((hmem m).1 hm).2 ((hmem m).1 hm).1

/-! A concrete tree: /w/a.txt, /w/.hid, /w/sub/x.tif, /k.tif -/

def exTree : FS where
  entries := [([['w']], .dir), ([['w'], "a.txt".toList], .file), ([['w'], ".hid".toList], .file),
    ([['w'], "sub".toList], .dir), ([['w'], "sub".toList, "x.tif".toList], .file), (["k.tif".toList], .file)]
  cwd := []
  deny := fun _ => false

theorem exTree_wf : WF exTree := by
  refine ⟨by decide, by decide, ?_, by decide⟩
  unfold GoodName
  decide

example : exTree.resolve "/w/../w/".toList = some [['w']] ∧ exTree.kindOf [['w']] = some .dir := by decide
example : (deleteDirectory exTree "w".toList true).2.entries = [(["k.tif".toList], .file)] := by decide +kernel
example : (deleteDirectory exTree "w".toList false).2.entries =
    [([['w']], .dir), ([['w'], "sub".toList], .dir), ([['w'], "sub".toList, "x.tif".toList], .file),
      (["k.tif".toList], .file)] := by decide +kernel
example : (cleanDirectory exTree "/w".toList).1 = false ∧ (cleanDirectory exTree "/w".toList).2.entries =
    [([['w']], .dir), ([['w'], ".hid".toList], .file), ([['w'], "sub".toList], .dir),
      ([['w'], "sub".toList, "x.tif".toList], .file), (["k.tif".toList], .file)] := by decide +kernel
example : Removable exTree [['w'], "a.txt".toList] := by
  refine ⟨by decide, fun n => ?_, rfl⟩
  exact file_leaf exTree_wf _ (by decide) n

end CCGL.Fs
