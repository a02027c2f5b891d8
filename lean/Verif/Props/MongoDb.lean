import Verif.Model.MongoDb
import Verif.Spec.MongoDb
import Verif.Props.KeyValues
/-!
# C68: names of collections and buckets
-/
namespace CCGL
namespace MongoDb
open Spec

theorem addNew_spec (v : List Str) (x : Str) (h : v.Nodup) :
    (addNew v x).Nodup ∧ ∀ y, y ∈ addNew v x ↔ y ∈ v ∨ y = x := by
  unfold addNew
  split
  · next hx =>
    refine ⟨h, fun y => ⟨.inl, ?_⟩⟩
    rintro (h | rfl)
    · exact h
    · exact hx
  · next hx =>
    refine ⟨?_, fun y => by simp⟩
    rw [List.nodup_append]
    refine ⟨h, by simp, ?_⟩
    intro a ha b hb
    simp only [List.mem_singleton] at hb
    subst hb
    rintro rfl
    exact hx ha

theorem foldl_addNew (l v : List Str) (h : v.Nodup) :
    (l.foldl addNew v).Nodup ∧ ∀ y, y ∈ l.foldl addNew v ↔ y ∈ v ∨ y ∈ l := by
  induction l generalizing v with
  | nil => exact ⟨h, by simp⟩
  | cons x l ih =>
    obtain ⟨h1, h2⟩ := addNew_spec v x h
    obtain ⟨h3, h4⟩ := ih _ h1
    refine ⟨h3, fun y => ?_⟩
    rw [List.foldl_cons, h4, h2, List.mem_cons]
    tauto

/-- The pieces of a collection name of a bucket without dots. -/
theorem pieces_dotless (b t : Str) (hb : '.' ∉ b) (ht : '.' ∉ t) (hne : t ≠ []) : splitDelim '.' (b ++ '.' :: t) = [b, t] := by
  have hf : Fields '.' (b ++ '.' :: t) [b, t] := by
    refine ⟨?_, .inr (.inl ⟨rfl, by simp, ?_⟩)⟩
    · intro f hf
      simp only [List.mem_cons, List.not_mem_nil, or_false] at hf
      rcases hf with rfl | rfl
      · exact hb
      · exact ht
    · simpa using hne
  exact (fields_iff _ _ _).1 hf

/-- A collection name that is not empty and does not end with a dot is the join of its pieces. -/
theorem pieces_join (n : Str) (h : n ≠ []) (hl : n.getLast? ≠ some '.') :
    join '.' (splitDelim '.' n) = n ∧ splitDelim '.' n ≠ [] := by
  obtain ⟨hd, h1 | ⟨h1, h2, h3⟩ | ⟨h1, h2⟩⟩ := (fields_iff '.' n (splitDelim '.' n)).2 rfl
  · exact absurd h1.1 h
  · exact ⟨h1.symm, h2⟩
  · rw [h1] at hl; simp at hl

theorem join_two (l : List Str) (t : Str) (h : l ≠ []) : join '.' (l ++ [t]) = join '.' l ++ '.' :: t := by
  induction l with
  | nil => exact absurd rfl h
  | cons f l ih =>
    cases l with
    | nil => rfl
    | cons g l =>
      have := ih (by simp)
      simp only [List.cons_append, join] at this ⊢
      rw [this]
      simp

/-- The step for arbitrary suffixes (auxiliary for the proof). -/
def stepG (F C : Str) (coll real : List Str) (name : Str) : Out (List Str) := do
  let pieces := splitDelim '.' name
  let last ← back pieces
  if last = F ∨ last = C then
    let r := pieces.dropLast.flatten
    let other := if last = F then r ++ '.' :: C else r ++ '.' :: F
    if other ∉ coll then .ok real else .ok (addNew real r)
  else .ok real

theorem bucketStep_eq (coll real : List Str) (n : Str) :
    bucketStep coll real n = stepG "files".toList "chunks".toList coll real n := rfl

/-- What a step does for a name that is allowed. -/
theorem stepG_spec (F C : Str) (hf : F ≠ C) (nf : '.' ∉ F) (nc : '.' ∉ C) (f0 : F ≠ []) (c0 : C ≠ []) (coll real : List Str) (n : Str) (h0 : n ≠ []) (hl : n.getLast? ≠ some '.')
    (hd : ∀ b, '.' ∈ b → ¬ (n = b ++ '.' :: F ∨ n = b ++ '.' :: C)) (hr : real.Nodup) :
    ∃ real', stepG F C coll real n = .ok real' ∧ real'.Nodup ∧
      ∀ b, b ∈ real' ↔ b ∈ real ∨ ('.' ∉ b ∧
        ((n = b ++ '.' :: F ∧ b ++ ('.' :: C) ∈ coll) ∨ (n = b ++ '.' :: C ∧ b ++ ('.' :: F) ∈ coll) ∨
          (b = [] ∧ ((n = F ∧ ('.' :: C) ∈ coll) ∨ (n = C ∧ ('.' :: F) ∈ coll))))) := by
  obtain ⟨hj, hne⟩ := pieces_join n h0 hl
  have hfree : ∀ f ∈ splitDelim '.' n, '.' ∉ f := ((fields_iff '.' n (splitDelim '.' n)).2 rfl).1
  obtain ⟨init, t, hit⟩ : ∃ init t, splitDelim '.' n = init ++ [t] :=
    ⟨_, _, (List.dropLast_append_getLast hne).symm⟩
  have hback : back (splitDelim '.' n) = .ok t := by unfold back; rw [hit]; simp
  unfold stepG
  dsimp only
  rw [hback, Out.ok_bind]
  -- the last piece of a name that belongs to a bucket
  have last : ∀ (b s : Str), '.' ∉ b → '.' ∉ s → s ≠ [] → n = b ++ '.' :: s → t = s ∧ init = [b] := by
    intro b s hb hs hs0 e
    have e2 := pieces_dotless b s hb hs hs0
    rw [← e, hit] at e2
    have e3 : init ++ [t] = [b] ++ [s] := e2
    have := List.append_inj' e3 rfl
    exact ⟨by simpa using this.2, this.1⟩
  have last0 : ∀ s : Str, '.' ∉ s → s ≠ [] → n = s → t = s ∧ init = [] := by
    intro s hs hs0 e
    have e2 : splitDelim '.' n = [s] := by
      apply (fields_iff _ _ _).1
      refine ⟨by simpa using hs, .inr (.inl ⟨e, by simp, by simpa using hs0⟩)⟩
    rw [hit] at e2
    have e3 : init ++ [t] = [] ++ [s] := e2
    have := List.append_inj' e3 rfl
    exact ⟨by simpa using this.2, this.1⟩
  by_cases ht : t = F ∨ t = C
  · rw [if_pos ht, hit, List.dropLast_concat]
    -- the name is the bucket's name or the suffix alone
    have hshape : init = [] ∨ ∃ b, init = [b] ∧ '.' ∉ b := by
      cases init with
      | nil => exact .inl rfl
      | cons b l =>
        cases l with
        | nil => exact .inr ⟨b, rfl, hfree b (by rw [hit]; simp)⟩
        | cons c l =>
          exfalso
          have e : n = join '.' (b :: c :: l) ++ '.' :: t := by rw [← hj, hit, join_two _ _ (by simp)]
          refine hd (join '.' (b :: c :: l)) (by simp [join]) ?_
          rcases ht with rfl | rfl
          · exact .inl e
          · exact .inr e
    have hname : n = if init = [] then t else init.flatten ++ '.' :: t := by
      rcases hshape with rfl | ⟨b, rfl, hb⟩
      · rw [← hj, hit]; rfl
      · rw [← hj, hit]; simp [join]
    have hr0 : '.' ∉ init.flatten := by
      rcases hshape with rfl | ⟨b, rfl, hb⟩
      · simp
      · simpa using hb
    set r := init.flatten with hrdef
    -- the characterisation for this name
    have hchar : ∀ b, ('.' ∉ b ∧
        ((n = b ++ '.' :: F ∧ b ++ ('.' :: C) ∈ coll) ∨ (n = b ++ '.' :: C ∧ b ++ ('.' :: F) ∈ coll) ∨
          (b = [] ∧ ((n = F ∧ ('.' :: C) ∈ coll) ∨ (n = C ∧ ('.' :: F) ∈ coll))))) ↔
        b = r ∧ (if t = F then r ++ '.' :: C else r ++ '.' :: F) ∈ coll := by
      intro b
      constructor
      · rintro ⟨hb, h | h | ⟨rfl, h | h⟩⟩
        · obtain ⟨e1, e2⟩ := last b F hb nf f0 h.1
          have : r = b := by rw [hrdef, e2]; simp
          rw [this, if_pos e1]; exact ⟨rfl, h.2⟩
        · obtain ⟨e1, e2⟩ := last b C hb nc c0 h.1
          have : r = b := by rw [hrdef, e2]; simp
          rw [this, if_neg (by rw [e1]; exact fun e => hf e.symm)]; exact ⟨rfl, h.2⟩
        · obtain ⟨e1, e2⟩ := last0 _ nf f0 h.1
          have : r = [] := by rw [hrdef, e2]; rfl
          rw [this, if_pos e1]; exact ⟨rfl, h.2⟩
        · obtain ⟨e1, e2⟩ := last0 _ nc c0 h.1
          have : r = [] := by rw [hrdef, e2]; rfl
          rw [this, if_neg (by rw [e1]; exact fun e => hf e.symm)]; exact ⟨rfl, h.2⟩
      · rintro ⟨rfl, h⟩
        refine ⟨hr0, ?_⟩
        rcases hshape with hi | ⟨b, hi, hb⟩
        · right; right
          have hr' : r = [] := by rw [hrdef, hi]; rfl
          refine ⟨hr', ?_⟩
          rw [hr'] at h
          rw [if_pos hi] at hname
          rcases ht with rfl | rfl
          · rw [if_pos rfl] at h; exact .inl ⟨hname, h⟩
          · rw [if_neg (fun e => hf e.symm)] at h; exact .inr ⟨hname, h⟩
        · rw [if_neg (by rw [hi]; simp)] at hname
          rcases ht with rfl | rfl
          · rw [if_pos rfl] at h; exact .inl ⟨hname, h⟩
          · rw [if_neg (fun e => hf e.symm)] at h; exact .inr (.inl ⟨hname, h⟩)
    by_cases hm : (if t = F then r ++ '.' :: C else r ++ '.' :: F) ∈ coll
    · rw [if_neg (fun h => h hm)]
      obtain ⟨h1, h2⟩ := addNew_spec real r hr
      refine ⟨_, rfl, h1, fun b => ?_⟩
      rw [h2, hchar]
      simp only [hm, and_true]
    · rw [if_pos hm]
      refine ⟨_, rfl, hr, fun b => ?_⟩
      rw [hchar]
      simp only [hm, and_false, or_false]
  · rw [if_neg ht]
    refine ⟨real, rfl, hr, fun b => ?_⟩
    constructor
    · exact .inl
    · rintro (h | ⟨hb, h | h | ⟨_, h | h⟩⟩)
      · exact h
      · exact absurd (.inl (last b _ hb nf f0 h.1).1) ht
      · exact absurd (.inr (last b _ hb nc c0 h.1).1) ht
      · exact absurd (.inl (last0 _ nf f0 h.1).1) ht
      · exact absurd (.inr (last0 _ nc c0 h.1).1) ht

theorem bucketStep_spec (coll real : List Str) (n : Str) (hn : LegalName n) (hd : ¬ DottedBucket n) (hr : real.Nodup) :
    ∃ real', bucketStep coll real n = .ok real' ∧ real'.Nodup ∧
      ∀ b, b ∈ real' ↔ b ∈ real ∨ ('.' ∉ b ∧
        ((n = b ++ ".files".toList ∧ b ++ ".chunks".toList ∈ coll) ∨ (n = b ++ ".chunks".toList ∧ b ++ ".files".toList ∈ coll) ∨
          (b = [] ∧ ((n = "files".toList ∧ ".chunks".toList ∈ coll) ∨ (n = "chunks".toList ∧ ".files".toList ∈ coll))))) := by
  rw [bucketStep_eq]
  exact stepG_spec "files".toList "chunks".toList (by decide) (by decide) (by decide) (by decide) (by decide) coll real n
    hn.1 hn.2.2 (fun b hb h => hd ⟨b, hb, h⟩) hr

theorem fold_buckets (coll : List Str) (hc : ∀ n ∈ coll, LegalName n) (l real : List Str) (hl : ∀ n ∈ l, LegalName n ∧ ¬ DottedBucket n)
    (hr : real.Nodup) :
    ∃ real', l.foldlM (bucketStep coll) real = .ok real' ∧ real'.Nodup ∧
      ∀ b, b ∈ real' ↔ b ∈ real ∨ ('.' ∉ b ∧
        ((b ++ ".files".toList ∈ l ∧ b ++ ".chunks".toList ∈ coll) ∨ (b ++ ".chunks".toList ∈ l ∧ b ++ ".files".toList ∈ coll))) := by
  have d1 : ".chunks".toList ∉ coll := fun h => (hc _ h).2.1 (by decide)
  have d2 : ".files".toList ∉ coll := fun h => (hc _ h).2.1 (by decide)
  induction l generalizing real with
  | nil =>
    refine ⟨real, rfl, hr, fun b => ?_⟩
    simp only [List.not_mem_nil, false_and, or_false, and_false]
  | cons n l ih =>
    obtain ⟨r1, e1, h1, m1⟩ := bucketStep_spec coll real n (hl n (by simp)).1 (hl n (by simp)).2 hr
    obtain ⟨r2, e2, h2, m2⟩ := ih r1 (fun x hx => hl x (by simp [hx])) h1
    refine ⟨r2, ?_, h2, fun b => ?_⟩
    · rw [List.foldlM_cons, e1]; exact e2
    · rw [m2, m1]
      simp only [List.mem_cons]
      generalize ".files".toList = F at *
      generalize ".chunks".toList = C at *
      simp only [d1, d2, and_false, or_false]
      constructor
      · rintro ((h | ⟨h, h' | h'⟩) | ⟨h, h' | h'⟩)
        · exact .inl h
        · exact .inr ⟨h, .inl ⟨.inl h'.1.symm, h'.2⟩⟩
        · exact .inr ⟨h, .inr ⟨.inl h'.1.symm, h'.2⟩⟩
        · exact .inr ⟨h, .inl ⟨.inr h'.1, h'.2⟩⟩
        · exact .inr ⟨h, .inr ⟨.inr h'.1, h'.2⟩⟩
      · rintro (h | ⟨h, ⟨h1 | h1, h2⟩ | ⟨h1 | h1, h2⟩⟩)
        · exact .inl (.inl h)
        · exact .inl (.inr ⟨h, .inl ⟨h1.symm, h2⟩⟩)
        · exact .inr ⟨h, .inl ⟨h1, h2⟩⟩
        · exact .inl (.inr ⟨h, .inr ⟨h1.symm, h2⟩⟩)
        · exact .inr ⟨h, .inr ⟨h1, h2⟩⟩

/-- **C68** (no bucket has a dot in its name) The result is every collection of the database once, followed by every GridFS
bucket once; nothing of the vector's former content is left. -/
theorem C68_names_partial (l old : List Str) (h : ∀ n ∈ l, LegalName n ∧ ¬ DottedBucket n) :
    ∃ coll real, getCollectionNames (some l) old = .ok (coll ++ real) ∧ coll.Nodup ∧ real.Nodup ∧
      (∀ n, n ∈ coll ↔ n ∈ l) ∧ ∀ b, b ∈ real ↔ IsBucket l b := by
  obtain ⟨h1, h2⟩ := foldl_addNew l [] List.nodup_nil
  have h2' : ∀ n, n ∈ l.foldl addNew [] ↔ n ∈ l := fun n => by rw [h2]; simp
  obtain ⟨real, e, hr, hm⟩ := fold_buckets (l.foldl addNew []) (fun n hn => (h n ((h2' n).1 hn)).1) (l.foldl addNew []) []
    (fun n hn => h n ((h2' n).1 hn)) List.nodup_nil
  refine ⟨l.foldl addNew [], real, ?_, h1, hr, h2', fun b => ?_⟩
  · unfold getCollectionNames
    dsimp only
    rw [e]; rfl
  · rw [hm, h2', h2']
    unfold IsBucket
    have hd : b ++ ".files".toList ∈ l → '.' ∉ b := fun hb hdot => (h _ hb).2 ⟨b, hdot, .inl rfl⟩
    generalize ".files".toList = F at *
    generalize ".chunks".toList = C at *
    simp only [List.not_mem_nil, false_or]
    tauto

/-- **C68** When the driver reports an error the vector keeps its content. -/
theorem C68_failure (old : List Str) : getCollectionNames none old = .ok old := rfl

/-- **C68** The collections themselves are always reported, in the driver's order and before everything else, whenever the call
returns. -/
theorem C68_collections (l old v : List Str) (h : getCollectionNames (some l) old = .ok v) :
    (∀ n ∈ l, n ∈ v) ∧ (l.Nodup → l <+: v) := by
  unfold getCollectionNames at h
  dsimp only at h
  obtain ⟨real, _, h3⟩ := Out.bind_ok h
  have h3 : l.foldl addNew [] ++ real = v := by simpa [Out.pure_eq] using h3
  obtain ⟨h1, h2⟩ := foldl_addNew l [] List.nodup_nil
  have hkeep : ∀ (m w : List Str), (w ++ m).Nodup → m.foldl addNew w = w ++ m := by
    intro m
    induction m with
    | nil => simp
    | cons x m ih =>
      intro w hw
      have hx : x ∉ w := fun hx => by
        have := List.nodup_append.1 hw
        exact this.2.2 x hx x (by simp) rfl
      rw [List.foldl_cons]
      unfold addNew
      rw [if_neg hx]
      have := ih (w ++ [x]) (by simpa using hw)
      unfold addNew at this
      rw [this]; simp
  subst h3
  refine ⟨fun n hn => List.mem_append_left _ ((h2 n).2 (.inr hn)), fun hl => ?_⟩
  have := hkeep l [] (by simpa using hl)
  rw [this]
  exact ⟨real, by simp⟩

/-- The hypotheses of `C68_names_partial` hold for an ordinary database, and what it reports there. -/
example : getCollectionNames (some ["PARAMETERS".toList, "SPATIAL.files".toList, "SPATIAL.chunks".toList, "LOG.files".toList]) ["x".toList] =
    .ok ["PARAMETERS".toList, "SPATIAL.files".toList, "SPATIAL.chunks".toList, "LOG.files".toList, "SPATIAL".toList] := by
  decide +kernel

/-- **C68** fails for a bucket with a dot in its name: it is not reported. -/
theorem C68_dotted_counterexample :
    getCollectionNames (some ["a.b.files".toList, "a.b.chunks".toList]) [] = .ok ["a.b.files".toList, "a.b.chunks".toList] ∧
      IsBucket ["a.b.files".toList, "a.b.chunks".toList] "a.b".toList := by
  constructor
  · decide +kernel
  · unfold IsBucket; decide +kernel

/-- **C68** With other collections present a dotted bucket is reported under a name that no bucket has. -/
theorem C68_phantom_counterexample :
    getCollectionNames (some ["a.b.files".toList, "ab.chunks".toList]) [] =
        .ok ["a.b.files".toList, "ab.chunks".toList, "ab".toList] ∧
      ¬ IsBucket ["a.b.files".toList, "ab.chunks".toList] "ab".toList := by
  constructor
  · decide +kernel
  · unfold IsBucket; decide +kernel

/-- **C68** A bucket with the name of a collection makes that name appear twice. -/
theorem C68_twice_counterexample :
    getCollectionNames (some ["S".toList, "S.files".toList, "S.chunks".toList]) [] =
      .ok ["S".toList, "S.files".toList, "S.chunks".toList, "S".toList] := by
  decide +kernel

end MongoDb
end CCGL
