import Verif.Lemmas.MongoLife7
/-!
# C82: every driver object of the Mongo client is released exactly once

For all histories of calls that keep to the contract `Allowed` (`Spec/MongoLife.lean`), whatever the driver answers.
-/
namespace CCGL
namespace MLife

theorem inv_start : Inv World.start := by
  constructor <;> simp [World.start, Holds]

theorem step_good {w : World} (h : Inv w) (c : Call) (ha : Allowed w c) : Good w c := by
  cases c with
  | init c1 c2 => exact good_init h ha c1 c2
  | wrapClient conn =>
    refine good_wrapOld h .client conn rfl (by simp) ?_ rfl (fun _ q => q)
    rintro i rfl
    rcases ha with ha | ⟨j, hj, hs⟩
    · cases ha
    · injection hj with hj; subst hj
      exact ⟨hs, fun q => absurd rfl q⟩
  | destroyClient c =>
    obtain ⟨hr, he, ⟨g, hc, hg⟩, hno⟩ := ha
    exact good_destroyClient h hr he hc hg hno
  | deleteClient c => obtain ⟨g, hc⟩ := ha; exact good_deleteClient h hc
  | databaseNames c ok => obtain ⟨i, hc, hs⟩ := ha; exact good_databaseNames h hc hs ok
  | clientCollectionNames c ok => obtain ⟨i, hc, hs⟩ := ha; exact good_clientCollectionNames h hc hs ok
  | getDatabase c => obtain ⟨i, hc, hs⟩ := ha; exact good_getDatabase h hc hs
  | getCollection c has => obtain ⟨i, hc, hs⟩ := ha; exact good_getCollection h hc hs has
  | getGridFs c a b => obtain ⟨i, hc, hs⟩ := ha; exact good_getGridFs h hc hs a b
  | gridFs c a b => obtain ⟨i, hc, hs⟩ := ha; exact good_gridFs h hc hs a b
  | clientFileNames c a b k => obtain ⟨⟨i, hc, hs⟩, hab⟩ := ha; exact good_clientFileNames h hc hs a b hab k
  | newDatabase db =>
    obtain ⟨i, rfl, hs, hu⟩ := ha
    refine good_wrapOld h .database (some i) ?_ (by simp) ?_ rfl (fun _ q => q)
    · simp only [step, databaseCtor, use_ok hs, Out.ok_bind, wrap_eq, Out.pure_eq]
    · intro j hj
      injection hj with hj; subst hj
      exact ⟨hs, fun _ => hu⟩
  | newDatabase2 conn => obtain ⟨i, rfl, hs⟩ := ha; exact good_newDatabase2 h hs
  | deleteDatabase b => obtain ⟨g, hb⟩ := ha; exact good_drop h hb (by decide) rfl rfl (fun _ => Iff.rfl)
  | collectionNames b ok => obtain ⟨i, hb⟩ := ha; exact good_collectionNames h hb ⟨i, rfl⟩ ok
  | newCollection coll =>
    refine good_wrapOld h .collection coll rfl (by simp) ?_ rfl (fun _ q => q)
    rintro i rfl
    rcases ha with ha | ⟨j, hj, hs, hu⟩
    · cases ha
    · injection hj with hj; subst hj
      exact ⟨hs, fun _ => hu⟩
  | copyCollection b =>
    refine good_wrapOld h .collection none ?_ (by simp) (fun i hi => by cases hi) rfl (fun _ q => q)
    have hb : Holds w b .collection none := ha
    simp only [step, getWrap_ok hb, Out.ok_bind, collectionCtor, wrap_eq, Out.pure_eq]
  | deleteCollection b => obtain ⟨g, hb⟩ := ha; exact good_drop h hb (by decide) rfl rfl (fun _ => Iff.rfl)
  | executeQuery b => obtain ⟨i, hb⟩ := ha; exact good_executeQuery h hb
  | queryCount b => obtain ⟨i, hb⟩ := ha; exact good_queryCount h hb
  | newGridFs g =>
    refine good_wrapOld h .gridfs g rfl (by simp) ?_ rfl (fun _ q => q)
    rintro i rfl
    rcases ha with ha | ⟨j, hj, hs, hu⟩
    · cases ha
    · injection hj with hj; subst hj
      exact ⟨hs, fun _ => hu⟩
  | copyGridFs b =>
    refine good_wrapOld h .gridfs none ?_ (by simp) (fun i hi => by cases hi) rfl (fun _ q => q)
    have hb : Holds w b .gridfs none := ha
    simp only [step, getWrap_ok hb, Out.ok_bind, gridFsCtor, wrap_eq, Out.pure_eq]
  | deleteGridFs b => obtain ⟨g, hb⟩ := ha; exact good_drop h hb (by decide) rfl rfl (fun _ => Iff.rfl)
  | getFile b g n => obtain ⟨own, hb, hg⟩ := ha; exact good_getFile h hb hg n
  | removeFile b g k => obtain ⟨own, hb, hg⟩ := ha; exact good_removeFile h hb hg k
  | fileNames b g k => obtain ⟨own, hb, hg⟩ := ha; exact good_fileNames h hb hg k
  | metadata b g n has =>
    obtain ⟨⟨own, hb, hg⟩, rfl⟩ := ha
    exact good_metadata h hb hg n
  | streamData b g n => obtain ⟨own, hb, hg⟩ := ha; exact good_streamData h hb hg n
  | writeStream b g => obtain ⟨own, hb, hg⟩ := ha; exact good_writeStream h hb hg
  | release k g => exact good_release h ha

theorem run_good {w : World} (h : Inv w) (cs : List Call) (hk : Keeps w cs) : ∃ w' rs, run w cs = .ok (w', rs) ∧ Inv w' := by
  induction cs generalizing w with
  | nil => exact ⟨w, [], rfl, h⟩
  | cons c cs ih =>
    cases hk with
    | cons _ _ _ ha hs =>
      obtain ⟨v, r, h1, h2, _⟩ := step_good h c ha
      obtain ⟨w', rs, h3, h4⟩ := ih h2 (hs v r h1)
      refine ⟨w', r :: rs, ?_, h4⟩
      simp only [run, h1, Out.ok_bind, h3, Out.pure_eq]

/-- No program that keeps to the contract uses or releases an object that does not exist (any more): it runs to its end. -/
theorem C82_safe (cs : List Call) (hk : Keeps World.start cs) : ∃ w rs, run World.start cs = .ok (w, rs) := by
  obtain ⟨w, rs, h, _⟩ := run_good inv_start cs hk
  exact ⟨w, rs, h⟩

/-- The worlds that a program that keeps to the contract can reach. -/
inductive Reach : World → Prop
  | start : Reach World.start
  | call (w c w' r) (h : Reach w) (ha : Allowed w c) (hs : step w c = .ok (w', r)) : Reach w'

theorem Reach.inv {w : World} (h : Reach w) : Inv w := by
  induction h with
  | start => exact inv_start
  | call w c w' r _ ha hs ih =>
    obtain ⟨v, r', h1, h2, _⟩ := step_good ih c ha
    rw [hs] at h1
    cases h1; exact h2

/-- After every call exactly those objects exist that existed before and were not released by it, and the one it returns, directly or in a wrapper object; all
temporary objects are released, whatever the driver answers. -/
theorem C82_call (w w' : World) (c : Call) (r : Res) (h : Reach w) (ha : Allowed w c) (hs : step w c = .ok (w', r)) (hl : Leaks c r = none) (i : Nat) :
    Existing w' i ↔ (Existing w i ∧ ¬ Released w i c) ∨ Gained w' i r := by
  obtain ⟨v, r', h1, _, h3⟩ := step_good h.inv c ha
  rw [hs] at h1
  cases h1
  exact h3.1 hl i

/-- The calls that forget an object forget exactly one: the database object of a collection that does not exist, the query document of counting records and listing
files. -/
theorem C82_forgets (w w' : World) (c : Call) (r : Res) (k : Kind) (h : Reach w) (ha : Allowed w c) (hs : step w c = .ok (w', r)) (hl : Leaks c r = some k) :
    ∃ j, w.heap.length ≤ j ∧ (∃ o, w'.heap[j]? = some o ∧ o.kind = k) ∧
      ∀ i, Existing w' i ↔ (Existing w i ∧ ¬ Released w i c) ∨ Gained w' i r ∨ i = j := by
  obtain ⟨v, r', h1, _, h3⟩ := step_good h.inv c ha
  rw [hs] at h1
  cases h1
  exact h3.2 k hl

/-- Over a whole history without forgetful calls the objects that exist are those the program has not given back. -/
theorem C82_noleak (w : World) (own : Set Nat) (h : History w own) (i : Nat) : Existing w i ↔ i ∈ own := by
  have key : Reach w ∧ ∀ i, Existing w i ↔ i ∈ own := by
    induction h with
    | start => exact ⟨.start, fun i => by simp [Existing, World.start]⟩
    | call w own c w' r _ ha hs hl ih =>
      refine ⟨.call w c w' r ih.1 ha hs, fun i => ?_⟩
      rw [C82_call w w' c r ih.1 ha hs hl i, ih.2 i]
      rfl
  exact key.2 i

/-- A program that gave back all it had leaves nothing behind. -/
theorem C82_clean (w : World) (h : History w ∅) (i : Nat) : ¬ Existing w i := by
  rw [C82_noleak w ∅ h i]; simp

/-- What a live `MongoDatabase`, `MongoCollection` or `MongoGridFs` holds can always be used. -/
theorem C82_held (w : World) (h : Reach w) (b : Nat) (k : Kind) (i : Nat) (hb : Holds w b k (some i)) (hk : k ≠ .client) : Sound w k i :=
  h.inv.snd b k i hb hk

/-! ## Outside the contract -/

/-- The program runs to the end of `cs`, and the next call is undefined. -/
def FailsAt (cs : List Call) (c : Call) : Prop := ∃ w rs, run World.start cs = .ok (w, rs) ∧ step w c = .ub

/-- Copies of a collection or GridFS wrapper release the same object twice. -/
theorem C82_copy :
    FailsAt [.init true true, .getCollection 0 true, .newCollection (some 5), .copyCollection 1, .deleteCollection 1] (.deleteCollection 2) ∧
      FailsAt [.init true true, .gridFs 0 true false, .copyGridFs 1, .deleteGridFs 1] (.deleteGridFs 2) :=
  ⟨⟨_, _, rfl, rfl⟩, ⟨_, _, rfl, rfl⟩⟩

/-- `Destroy` twice, or another client after `Destroy`. -/
theorem C82_destroy_twice :
    FailsAt [.init true true, .destroyClient 0] (.destroyClient 0) ∧
      FailsAt [.init true true, .init true true, .destroyClient 0] (.databaseNames 1 true) :=
  ⟨⟨_, _, rfl, rfl⟩, ⟨_, _, rfl, rfl⟩⟩

/-- The destructor of the client does not close the connection. -/
theorem C82_delete_client : ∃ w rs, run World.start [.init true true, .deleteClient 0] = .ok (w, rs) ∧ Existing w 3 ∧ ∀ b k h, ¬ Holds w b k h := by
  refine ⟨_, _, rfl, ⟨_, rfl, rfl⟩, ?_⟩
  intro b k h q
  have q : (if b = 0 then some ⟨.client, some 3, false⟩ else none : Option Wrap) = some ⟨k, h, true⟩ := by
    rw [← q]; cases b <;> rfl
  by_cases hb : b = 0
  · rw [if_pos hb] at q; injection q with q; injection q with _ _ q; cases q
  · rw [if_neg hb] at q; cases q

/-- A GridFS file without metadata, and listing files without a GridFS. -/
theorem C82_no_metadata :
    FailsAt [.init true true, .gridFs 0 true false] (.metadata 1 none 0 false) ∧
      FailsAt [.init true true, .gridFs 0 false false] (.fileNames 1 none 0) :=
  ⟨⟨_, _, rfl, rfl⟩, ⟨_, _, rfl, rfl⟩⟩

/-! ## A concrete history -/

/-- Checks for concrete programs. -/
def holdsB (w : World) (b : Nat) (k : Kind) : Option H :=
  match w.wraps[b]? with
  | some ⟨k', h, true⟩ => if k' = k then some h else none
  | _ => none

theorem holdsB_sound {w : World} {b : Nat} {k : Kind} {h : H} (q : holdsB w b k = some h) : Holds w b k h := by
  unfold holdsB at q
  unfold Holds
  split at q
  · rename_i k' g hw
    by_cases e : k' = k
    · rw [if_pos e] at q; cases q; subst e; exact hw
    · rw [if_neg e] at q; cases q
  · cases q

def unheldB (w : World) (i : Nat) : Bool :=
  w.wraps.all (fun o => !o.alive || o.kind == .client || (match o.h with
    | none => true
    | some j => j != i && (match w.heap[j]? with | some p => !p.above.contains i | none => true)))

theorem unheldB_sound {w : World} {i : Nat} (q : unheldB w i = true) : Unheld w i := by
  intro b k j hb hk hd
  have hm : (⟨k, some j, true⟩ : Wrap) ∈ w.wraps := List.mem_of_getElem? hb
  have h1 := List.all_eq_true.1 q _ hm
  simp only [Bool.not_true, Bool.false_or, Bool.or_eq_true, beq_iff_eq, Bool.and_eq_true, bne_iff_ne] at h1
  rcases h1 with h1 | ⟨h1, h2⟩
  · exact hk h1
  · rcases hd with hd | ⟨p, hp, ha⟩
    · exact h1 hd
    · rw [hp] at h2
      simp only [Bool.not_eq_true', List.contains_eq_mem, decide_eq_false_iff_not] at h2
      exact h2 ha

/-- A usable argument of kind `k` that nothing holds. -/
def argB (w : World) (k : Kind) (h : H) : Bool :=
  match h with
  | none => true
  | some i => w.usable k i && unheldB w i

theorem argB_sound {w : World} {k : Kind} {h : H} (q : argB w k h = true) : h = none ∨ ∃ i, h = some i ∧ Sound w k i ∧ Unheld w i := by
  cases h with
  | none => exact Or.inl rfl
  | some i =>
    simp only [argB, Bool.and_eq_true] at q
    exact Or.inr ⟨i, rfl, (usable_iff _ _ _).1 q.1, unheldB_sound q.2⟩

def clientB (w : World) (c : Nat) : Bool :=
  match holdsB w c .client with
  | some (some i) => w.usable .client i
  | _ => false

theorem clientB_sound {w : World} {c : Nat} (q : clientB w c = true) : Client w c := by
  unfold clientB at q
  split at q
  · rename_i i hh
    exact ⟨i, holdsB_sound hh, (usable_iff _ _ _).1 q⟩
  · cases q

def gridB (w : World) (b : Nat) : Bool :=
  match holdsB w b .gridfs with
  | some (some _) => true
  | _ => false

theorem gridB_sound {w : World} {b : Nat} (q : gridB w b = true) (g : H) : GridArg w b g := by
  unfold gridB at q
  split at q
  · rename_i i hh
    exact ⟨some i, holdsB_sound hh, fun h => by cases h⟩
  · cases q

/-- Calls that are certainly allowed. -/
def okB (w : World) : Call → Bool
  | .init _ _ => !w.ended
  | .destroyClient c => w.ready && !w.ended && clientB w c && w.wraps.all (fun o => !o.alive || o.kind == .client || o.h == none)
  | .deleteClient c => (holdsB w c .client).isSome
  | .databaseNames c _ => clientB w c
  | .clientCollectionNames c _ => clientB w c
  | .getDatabase c => clientB w c
  | .getCollection c _ => clientB w c
  | .getGridFs c _ _ => clientB w c
  | .gridFs c _ _ => clientB w c
  | .newCollection g => argB w .collection g
  | .newGridFs g => argB w .gridfs g
  | .deleteDatabase b => (holdsB w b .database).isSome
  | .deleteCollection b => (holdsB w b .collection).isSome
  | .deleteGridFs b => (holdsB w b .gridfs).isSome
  | .executeQuery b => match holdsB w b .collection with | some (some _) => true | _ => false
  | .getFile b _ _ => gridB w b
  | .removeFile b _ _ => gridB w b
  | .metadata b _ _ has => gridB w b && has
  | .streamData b _ _ => gridB w b
  | .writeStream b _ => gridB w b
  | .release k h => argB w k h
  | _ => false

theorem isSome_holds {w : World} {b : Nat} {k : Kind} (q : (holdsB w b k).isSome = true) : ∃ h, Holds w b k h := by
  obtain ⟨h, hh⟩ := Option.isSome_iff_exists.1 q
  exact ⟨h, holdsB_sound hh⟩

theorem okB_sound {w : World} {c : Call} (q : okB w c = true) : Allowed w c := by
  cases c with
  | init c1 c2 => simpa [okB, Allowed] using q
  | destroyClient c =>
    simp only [okB, Bool.and_eq_true, Bool.not_eq_true'] at q
    obtain ⟨⟨⟨h1, h2⟩, h3⟩, h4⟩ := q
    obtain ⟨i, hc, hs⟩ := clientB_sound h3
    refine ⟨h1, h2, ⟨some i, hc, Or.inr ⟨i, rfl, hs⟩⟩, ?_⟩
    intro b k j hb
    have hm : (⟨k, some j, true⟩ : Wrap) ∈ w.wraps := List.mem_of_getElem? hb
    have := List.all_eq_true.1 h4 _ hm
    simpa using this
  | deleteClient c => exact isSome_holds q
  | databaseNames c ok => exact clientB_sound q
  | clientCollectionNames c ok => exact clientB_sound q
  | getDatabase c => exact clientB_sound q
  | getCollection c has => exact clientB_sound q
  | getGridFs c a b => exact clientB_sound q
  | gridFs c a b => exact clientB_sound q
  | newCollection g => exact argB_sound q
  | newGridFs g => exact argB_sound q
  | deleteDatabase b => exact isSome_holds q
  | deleteCollection b => exact isSome_holds q
  | deleteGridFs b => exact isSome_holds q
  | executeQuery b =>
    simp only [okB] at q
    split at q
    · rename_i i hh; exact ⟨i, holdsB_sound hh⟩
    · cases q
  | getFile b g n => exact gridB_sound q g
  | removeFile b g k => exact gridB_sound q g
  | metadata b g n has =>
    simp only [okB, Bool.and_eq_true] at q
    exact ⟨gridB_sound q.1 g, q.2⟩
  | streamData b g n => exact gridB_sound q g
  | writeStream b g => exact gridB_sound q g
  | release k h => exact argB_sound q
  | _ => cases q

def keepsB (w : World) : List Call → Bool
  | [] => true
  | c :: cs => okB w c && (match step w c with | .ok x => (Leaks c x.2).isNone && keepsB x.1 cs | _ => true)

theorem keepsB_sound (cs : List Call) (w : World) (q : keepsB w cs = true) : Keeps w cs := by
  induction cs generalizing w with
  | nil => exact .nil w
  | cons c cs ih =>
    simp only [keepsB, Bool.and_eq_true] at q
    refine .cons w c cs (okB_sound q.1) ?_
    intro w' r hs
    rw [hs] at q
    simp only [Bool.and_eq_true] at q
    exact ih w' q.2.2

theorem keepsB_history (cs : List Call) (w : World) (own : Set Nat) (h : History w own) (q : keepsB w cs = true) (w' : World) (rs : List Res)
    (hr : run w cs = .ok (w', rs)) : ∃ own', History w' own' := by
  induction cs generalizing w own rs with
  | nil => cases hr; exact ⟨own, h⟩
  | cons c cs ih =>
    simp only [keepsB, Bool.and_eq_true] at q
    cases hs : step w c with
    | ok x =>
      rw [hs] at q
      simp only [Bool.and_eq_true, Option.isNone_iff_eq_none] at q
      simp only [run, hs, Out.ok_bind] at hr
      cases hy : run x.1 cs with
      | ok y =>
        rw [hy] at hr
        simp only [Out.ok_bind, Out.pure_eq] at hr
        injection hr with hr
        have e1 : y.1 = w' := congrArg Prod.fst hr
        exact ih x.1 _ (.call w own c x.1 x.2 h (okB_sound q.1) hs q.2.1) q.2.2 y.2 (by rw [hy, ← e1])
      | ub => rw [hy] at hr; cases hr
      | exn => rw [hy] at hr; cases hr
    | ub => simp only [run, hs] at hr; cases hr
    | exn => simp only [run, hs] at hr; cases hr

/-- A program that writes a file, reads metadata and data, removes files, queries a collection, lists collections and gives everything back. -/
def exCalls : List Call :=
  [.init true true, .gridFs 0 false true, .writeStream 1 none, .metadata 1 none 2 true, .streamData 1 none 0, .removeFile 1 none 3,
    .getCollection 0 true, .newCollection (some 20), .executeQuery 2, .release .cursor (some 21), .release .bson (some 9), .release .buffer (some 12),
    .deleteCollection 2, .deleteGridFs 1, .clientCollectionNames 0 true, .destroyClient 0, .deleteClient 0]

/-- The example keeps to the contract, runs to its end and leaves nothing behind. -/
theorem C82_example : Keeps World.start exCalls ∧ ∃ w rs, run World.start exCalls = .ok (w, rs) ∧ w.heap.length = 24 ∧ History w ∅ := by
  have hk : keepsB World.start exCalls = true := by decide +kernel
  refine ⟨keepsB_sound _ _ hk, ?_⟩
  obtain ⟨w, rs, hr⟩ := C82_safe exCalls (keepsB_sound _ _ hk)
  have hd : (match run World.start exCalls with | .ok x => x.1.heap.length == 24 && x.1.heap.all (fun o => !o.alive) | _ => false) = true := by decide +kernel
  rw [hr] at hd
  simp only [Bool.and_eq_true, beq_iff_eq] at hd
  obtain ⟨own, ho⟩ := keepsB_history exCalls World.start ∅ .start hk w rs hr
  have e : own = ∅ := by
    ext i
    rw [← C82_noleak w own ho i]
    constructor
    · rintro ⟨o, h1, h2⟩
      have := List.all_eq_true.1 hd.2 o (List.mem_of_getElem? h1)
      rw [h2] at this; cases this
    · exact fun q => False.elim q
  subst e
  exact ⟨w, rs, hr, hd.1, ho⟩

end MLife
end CCGL
