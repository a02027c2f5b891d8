import Verif.Spec.Gfs
import Verif.Props.Bson
import Verif.Props.Types
import Verif.Lemmas.Bytes
/-!
# Lemmas on the GridFS store
-/
namespace CCGL
namespace Gfs
open Spec

theorem numIn_iff (b : BVal) (x : DVal) : NumIn b x ↔ bnum b = some x := by
  constructor
  · intro h; cases h <;> rfl
  · intro h
    cases b <;> simp [bnum] at h <;> subst h
    · exact .int32 _
    · exact .int64 _
    · exact .double _

theorem enc_bnum {v : Str} {x : DVal} (h : NumText v x) {e : BVal} (he : encodeOption v = .ok e) : bnum e = some x := by
  rw [encode_num v x h] at he
  cases x with
  | fin q =>
    simp only at he
    split_ifs at he with h1 h2
    · injection he with he
      subst he
      show some (DVal.fin _) = _
      rw [(Rat.den_eq_one_iff q).1 h1]
    · injection he with he; subst he; rfl
  | inf b => cases he
  | nan => injection he with he; subst he; rfl

theorem valueEq_iff {v : Str} (h0 : Char.ofNat 0 ∉ v) {e : BVal} (he : encodeOption v = .ok e) (b : BVal) :
    valueEq b e = true ↔ SameValue v b := by
  by_cases hn : ∃ x, NumText v x
  · obtain ⟨x, hx⟩ := hn
    have h1 := enc_bnum hx he
    constructor
    · intro h
      unfold valueEq at h
      rw [h1] at h
      cases hb : bnum b with
      | none => rw [hb] at h; simp at h
      | some y =>
        rw [hb] at h
        simp only [decide_eq_true_eq] at h
        subst h
        exact .inl ⟨_, hx, (numIn_iff _ _).2 hb⟩
    · rintro (⟨y, hy, hb⟩ | ⟨h, _⟩)
      · have := C37_value_unique v x y hx hy
        subst this
        unfold valueEq
        rw [h1, (numIn_iff _ _).1 hb]
        simp
      · exact absurd hx (h x)
  · have hn' : ∀ x, ¬ NumText v x := fun x hx => hn ⟨x, hx⟩
    rw [encode_text v hn' h0] at he
    injection he with he
    subst he
    constructor
    · intro h
      unfold valueEq at h
      cases hb : bnum b with
      | none =>
        rw [hb] at h
        simp only [bnum, decide_eq_true_eq] at h
        exact .inr ⟨hn', h⟩
      | some y => rw [hb] at h; simp [bnum] at h
    · rintro (⟨y, hy, _⟩ | ⟨_, h⟩)
      · exact absurd hy (hn' y)
      · subst h
        simp [valueEq, bnum]

/-- The encoded options, if all can be stored. -/
theorem append_eq (opts : Opts) (pre : Str) : ∀ (d : BDoc), (∀ kv ∈ opts, Char.ofNat 0 ∉ pre ++ kv.1) →
    (enc : Str → BVal) → (∀ kv ∈ opts, encodeOption kv.2 = .ok (enc kv.2)) →
    appendOptions d opts pre = .ok (d ++ opts.map (fun kv => (pre ++ kv.1, enc kv.2))) := by
  induction opts with
  | nil => intro d _ _ _; simp [appendOptions]
  | cons kv opts ih =>
    intro d hk enc henc
    obtain ⟨k, v⟩ := kv
    simp only [appendOptions]
    rw [henc (k, v) List.mem_cons_self, Out.ok_bind, cstr_of_no_nul _ (hk (k, v) List.mem_cons_self),
      ih _ (fun kv h => hk kv (List.mem_cons_of_mem _ h)) enc (fun kv h => henc kv (List.mem_cons_of_mem _ h))]
    simp

theorem exists_enc {K : Key} (h : GoodKey K) : ∃ enc : Str → BVal, ∀ kv ∈ K.opts, encodeOption kv.2 = .ok (enc kv.2) := by
  classical
  have hex : ∀ v : Str, ∃ b, (∃ kv ∈ K.opts, kv.2 = v) → encodeOption v = .ok b := by
    intro v
    by_cases hv : ∃ kv ∈ K.opts, kv.2 = v
    · obtain ⟨⟨k, v'⟩, hkv, rfl⟩ := hv
      obtain ⟨b, hb⟩ := encode_total v' (h.val k v' hkv).1 (h.val k v' hkv).2
      exact ⟨b, fun _ => hb⟩
    · exact ⟨.other, fun h' => absurd h' hv⟩
  choose enc henc using hex
  exact ⟨enc, fun kv hkv => henc kv.2 ⟨kv, hkv, rfl⟩⟩

theorem field_name (f : File) : field f "filename".toList = some (.utf8 f.name) := by
  unfold field; rw [if_pos rfl]

theorem field_meta (f : File) {k : Str} (hd : '.' ∉ k) : field f (metaPrefix ++ k) = f.info.find k := by
  unfold field
  have h1 : metaPrefix ++ k ≠ "filename".toList := by
    intro h
    have h' := congrArg List.head? h
    have e1 : (metaPrefix ++ k).head? = some 'm' := rfl
    have e2 : ("filename".toList).head? = some 'f' := rfl
    rw [e1, e2] at h'
    exact absurd h' (by decide)
  have h2 : metaPrefix.isPrefixOf (metaPrefix ++ k) = true := by
    rw [List.isPrefixOf_iff_prefix]; exact List.prefix_append _ _
  rw [if_neg h1, if_pos h2]
  dsimp only
  rw [List.drop_left, if_neg]
  simpa using hd

theorem nul_prefix {k : Str} (h : Char.ofNat 0 ∉ k) : Char.ofNat 0 ∉ metaPrefix ++ k := by
  rw [List.mem_append]
  rintro (h' | h')
  · revert h'; decide
  · exact h h'

/-- The filter finds exactly the files with the key. -/
theorem filter_spec {K : Key} (h : GoodKey K) : ∃ flt, mkFilter K.name K.opts = .ok flt ∧ ∀ f, matchesF flt f = true ↔ Has f K := by
  obtain ⟨enc, henc⟩ := exists_enc h
  refine ⟨[("filename".toList, .utf8 (cstr K.name))] ++ K.opts.map (fun kv => (metaPrefix ++ kv.1, enc kv.2)), ?_, ?_⟩
  · unfold mkFilter
    exact append_eq K.opts metaPrefix _ (fun kv hkv => nul_prefix (h.key kv.1 kv.2 hkv).1) enc henc
  · intro f
    unfold matchesF
    rw [List.all_eq_true]
    constructor
    · intro hall
      refine ⟨?_, ?_⟩
      · have := hall ("filename".toList, .utf8 (cstr K.name)) (by simp)
        rw [field_name, cstr_of_no_nul _ h.name] at this
        simpa [valueEq, bnum] using this
      · intro k v hkv
        have := hall (metaPrefix ++ k, enc v) (by
          rw [List.mem_append]; right
          exact List.mem_map.2 ⟨(k, v), hkv, rfl⟩)
        simp only at this
        rw [field_meta f (h.key k v hkv).2.1] at this
        cases hf : f.info.find k with
        | none => rw [hf] at this; simp at this
        | some b =>
          rw [hf] at this
          exact ⟨b, rfl, (valueEq_iff (h.val k v hkv).1 (henc (k, v) hkv) b).1 this⟩
    · rintro ⟨hn, ho⟩ e he
      rw [List.mem_append] at he
      rcases he with he | he
      · rw [List.mem_singleton] at he
        subst he
        simp only
        rw [field_name, cstr_of_no_nul _ h.name, hn]
        simp [valueEq, bnum]
      · obtain ⟨⟨k, v⟩, hkv, rfl⟩ := List.mem_map.1 he
        simp only
        rw [field_meta f (h.key k v hkv).2.1]
        obtain ⟨b, hb, hs⟩ := ho k v hkv
        rw [hb]
        exact (valueEq_iff (h.val k v hkv).1 (henc (k, v) hkv) b).2 hs

theorem numIn_unique {b : BVal} {x y : DVal} (h : NumIn b x) (h' : NumIn b y) : x = y := by
  rw [numIn_iff] at h h'
  rw [h] at h'; injection h'

theorem apart_has {K L : Key} (h : Apart K L) {f : File} (hf : Has f K) : ¬ Has f L := by
  intro hl
  rcases h with hn | ⟨k, v, w, h1, h2, hs⟩
  · exact hn (hf.1.symm.trans hl.1)
  · obtain ⟨b, hb, sb⟩ := hf.2 k v h1
    obtain ⟨c, hc, sc⟩ := hl.2 k w h2
    rw [hb] at hc
    injection hc with hc
    subst hc
    apply hs
    rcases sb with ⟨x, hx, bx⟩ | ⟨nv, e⟩
    · rcases sc with ⟨y, hy, byy⟩ | ⟨nw, e'⟩
      · rw [numIn_unique byy bx] at hy
        exact .inl ⟨x, hx, hy⟩
      · subst e'; cases bx
    · rcases sc with ⟨y, hy, byy⟩ | ⟨nw, e'⟩
      · subst e; cases byy
      · rw [e] at e'
        injection e' with e'
        exact .inr ⟨nv, nw, e'⟩

theorem apart_symm {K L : Key} (h : Apart K L) : Apart L K := by
  rcases h with hn | ⟨k, v, w, h1, h2, hs⟩
  · exact .inl (Ne.symm hn)
  · refine .inr ⟨k, w, v, h2, h1, fun h => hs ?_⟩
    rcases h with ⟨x, a, b⟩ | ⟨a, b, c⟩
    · exact .inl ⟨x, b, a⟩
    · exact .inr ⟨b, a, c.symm⟩

theorem headerDoc_find {hdr : NumMap} {d : BDoc} (h : headerDoc hdr = .ok d) (hk : ∀ e ∈ hdr, e.1 ∈ headerKeys) {k : Str}
    (hn : k ∉ headerKeys) : d.find k = none := by
  induction hdr generalizing d with
  | nil => injection h with h; subst h; rfl
  | cons e hdr ih =>
    obtain ⟨k', x⟩ := e
    simp only [headerDoc] at h
    obtain ⟨b, h1, h⟩ := Out.bind_ok h
    obtain ⟨d', h2, h⟩ := Out.bind_ok h
    injection h with h
    subst h
    have hk' : k' ∈ headerKeys := hk (k', x) List.mem_cons_self
    have hc : cstr k' = k' := by
      simp only [headerKeys, List.mem_cons, List.not_mem_nil, or_false] at hk'
      rcases hk' with rfl | rfl | rfl | rfl | rfl | rfl | rfl | rfl <;> decide
    have hne : k' ≠ k := fun h => hn (h ▸ hk')
    unfold BDoc.find
    rw [hc, List.find?_cons_of_neg (by simpa using hne)]
    exact ih h2 (fun e he => hk e (List.mem_cons_of_mem _ he))

/-- The metadata written for a key contain its options. -/
theorem info_spec {K : Key} (h : GoodKey K) {hdr : NumMap} {d : BDoc} (hd : headerDoc hdr = .ok d)
    (hk : ∀ e ∈ hdr, e.1 ∈ headerKeys) : ∃ info, appendOptions d K.opts [] = .ok info ∧
      (∀ data, Has (File.mk K.name info data) K) ∧ (∀ key, (∀ kv ∈ K.opts, key ≠ kv.1) → info.find key = d.find key) ∧
      (∀ k v, (k, v) ∈ K.opts → ∃ b, encodeOption v = .ok b ∧ info.find k = some b) := by
  obtain ⟨enc, henc⟩ := exists_enc h
  obtain ⟨info, h1, h2, h3⟩ := append_spec K.opts [] d (by simp) (fun kv hkv => (h.key kv.1 kv.2 hkv).1) h.nodup
    (fun kv hkv => headerDoc_find hd hk (by simpa using (h.key kv.1 kv.2 hkv).2.2)) enc henc
  refine ⟨info, h1, ?_, fun key hkey => h3 key (by simpa using hkey), ?_⟩
  · intro data
    refine ⟨rfl, ?_⟩
    intro k v hkv
    refine ⟨enc v, h2 (k, v) hkv, ?_⟩
    rw [← valueEq_iff (h.val k v hkv).1 (henc (k, v) hkv)]
    unfold valueEq
    cases bnum (enc v) <;> simp
  · intro k v hkv
    exact ⟨enc v, henc (k, v) hkv, h2 (k, v) hkv⟩

/-! ## Removing and writing -/

theorem removeLoop_all (rm : Nat → Bool) (flt : BDoc) (hr : ∀ i, rm i = true) : ∀ (i : Nat) (st : Store),
    removeLoop rm flt i st = st.filter (fun f => !matchesF flt f)
  | _, [] => rfl
  | i, f :: st => by
    rw [removeLoop]
    cases hm : matchesF flt f
    · rw [if_neg (by simp), List.filter_cons_of_pos (by simp [hm]), removeLoop_all rm flt hr]
    · rw [if_pos rfl, hr, if_pos rfl, List.filter_cons_of_neg (by simp [hm]), removeLoop_all rm flt hr]

/-- Removal never touches files that do not match. -/
theorem removeLoop_other (rm : Nat → Bool) (flt : BDoc) (p : File → Bool) (hp : ∀ f, p f = true → matchesF flt f = false) :
    ∀ (i : Nat) (st : Store), (removeLoop rm flt i st).filter p = st.filter p
  | _, [] => rfl
  | i, f :: st => by
    rw [removeLoop]
    cases hm : matchesF flt f
    · rw [if_neg (by simp)]
      cases hpf : p f
      · rw [List.filter_cons_of_neg (by simp [hpf]), List.filter_cons_of_neg (by simp [hpf]), removeLoop_other rm flt p hp]
      · rw [List.filter_cons_of_pos hpf, List.filter_cons_of_pos hpf, removeLoop_other rm flt p hp]
    · have hpf : p f = false := by
        cases h : p f
        · rfl
        · rw [hp f h] at hm; cases hm
      rw [if_pos rfl, List.filter_cons_of_neg (by simp [hpf])]
      split_ifs
      · exact removeLoop_other rm flt p hp _ _
      · rw [List.filter_cons_of_neg (by simp [hpf])]; exact removeLoop_other rm flt p hp _ _

theorem removeLoop_sublist (rm : Nat → Bool) (flt : BDoc) : ∀ (i : Nat) (st : Store), (removeLoop rm flt i st).Sublist st
  | _, [] => .slnil
  | i, f :: st => by
    rw [removeLoop]
    split_ifs
    · exact (removeLoop_sublist rm flt _ st).cons _
    · exact (removeLoop_sublist rm flt _ st).cons_cons _
    · exact (removeLoop_sublist rm flt _ st).cons_cons _

/-- The retry loop: what it appends has the given name and metadata; at most `n` attempts; the result says whether one of the
attempts made reported success. -/
theorem writeLoop_spec (att : Nat → Attempt) (name : Str) (data : List Byte) (info : BDoc) : ∀ (n t : Nat) (st : Store),
    ∃ new : List File, (writeLoop att name data info t n st).1 = st ++ new ∧
      (∀ f ∈ new, f.name = cstr name ∧ f.info = info) ∧
      t ≤ (writeLoop att name data info t n st).2.2 ∧ (writeLoop att name data info t n st).2.2 ≤ t + n ∧
      ((writeLoop att name data info t n st).2.1 = true ↔ ∃ i, t ≤ i ∧ i < t + n ∧ (att i).reported = true) ∧
      ((∀ i, CleanAttempt (att i)) → new = if (writeLoop att name data info t n st).2.1 then
        [{ name := cstr name, info := info, data := data }] else [])
  | 0, t, st => ⟨[], by simp [writeLoop], by simp, by simp [writeLoop], by simp [writeLoop], by simp [writeLoop]; omega,
      by simp [writeLoop]⟩
  | n + 1, t, st => by
    rw [writeLoop]
    have hw : ∃ add : List File, writeStreamData (att t) st name data info = (st ++ add, (att t).reported) ∧
        (∀ f ∈ add, f.name = cstr name ∧ f.info = info) ∧ ((att t).visible = .whole → add =
          [{ name := cstr name, info := info, data := data }]) ∧ ((att t).visible = .nothing → add = []) := by
      unfold writeStreamData
      cases hv : (att t).visible with
      | nothing => exact ⟨[], by simp, by simp, by simp, by simp⟩
      | first m => exact ⟨_, rfl, by simp, by simp, by simp⟩
      | whole => exact ⟨_, rfl, by simp, by simp, by simp⟩
    obtain ⟨add, e, hadd, hwhole, hnone⟩ := hw
    rw [e]
    cases hr : (att t).reported
    · obtain ⟨new, e1, h1, h2, h3, h4, h5⟩ := writeLoop_spec att name data info n (t + 1) (st ++ add)
      rw [if_neg (by simp)]
      refine ⟨add ++ new, by rw [e1, List.append_assoc], ?_, by simpa using (by omega : t ≤ _), by simpa using (by omega : _ ≤ t + (n + 1)), ?_, ?_⟩
      · intro f hf
        rcases List.mem_append.1 hf with hf | hf
        · exact hadd f hf
        · exact h1 f hf
      · rw [h4]
        constructor
        · rintro ⟨i, a, b, c⟩; exact ⟨i, by omega, by omega, c⟩
        · rintro ⟨i, a, b, c⟩
          refine ⟨i, ?_, by omega, c⟩
          by_contra hh
          have : i = t := by omega
          subst this
          rw [hr] at c; cases c
      · intro hc
        have : add = [] := by
          rcases hc t with ⟨a, _⟩ | ⟨_, b⟩
          · rw [hr] at a; cases a
          · exact hnone b
        rw [this, List.nil_append]
        simp only [this, List.append_nil] at h5 ⊢
        exact h5 hc
    · rw [if_pos rfl]
      refine ⟨add, rfl, hadd, by simp, by simp, ?_, ?_⟩
      · simp only [true_iff]
        exact ⟨t, le_refl _, by omega, hr⟩
      · intro hc
        rw [if_pos rfl]
        rcases hc t with ⟨_, b⟩ | ⟨a, _⟩
        · exact hwhole b
        · rw [hr] at a; cases a

theorem get_mem {o : Opts} {k v : Str} (h : o.get k = some v) : (k, v) ∈ o := by
  unfold Opts.get at h
  cases hf : o.find? (fun e => decide (e.1 = k)) with
  | none => rw [hf] at h; simp at h
  | some e =>
    rw [hf] at h
    simp only [Option.map_some, Option.some.injEq] at h
    have h1 := List.mem_of_find?_eq_some hf
    have h2 := List.find?_some hf
    simp only [decide_eq_true_eq] at h2
    obtain ⟨a, b⟩ := e
    simp only at h h2
    subst h; subst h2
    exact h1

theorem get_none {o : Opts} {k : Str} (h : o.get k = none) (v : Str) : (k, v) ∉ o := by
  unfold Opts.get at h
  intro hm
  rw [Option.map_eq_none_iff, List.find?_eq_none] at h
  exact h _ hm (by simp)

theorem curOpts_eq (T : RDT) (opts : Opts) : curOpts T opts = withType T opts := by
  unfold curOpts withType
  cases h : Opts.get opts kTypeOut with
  | none =>
    rw [if_pos (by simp), if_neg]
    · rfl
    · rintro ⟨v, hv⟩; exact get_none h v hv
  | some v =>
    rw [if_neg (by simp), if_pos]
    exact ⟨v, get_mem h⟩

theorem withType_has (T : RDT) (opts : Opts) : ∃ ty, Opts.get (withType T opts) kTypeOut = some ty ∧ (kTypeOut, ty) ∈ withType T opts := by
  have hm : ∃ v, (kTypeOut, v) ∈ withType T opts := by
    unfold withType
    split_ifs with h
    · exact h
    · exact ⟨_, List.mem_append.2 (.inr (List.mem_singleton.2 rfl))⟩
  obtain ⟨v, hv⟩ := hm
  cases h : Opts.get (withType T opts) kTypeOut with
  | none => exact absurd hv (get_none h v)
  | some ty => exact ⟨ty, rfl, get_mem h⟩

/-- What `WriteStreamDataAsGridfs` does to the bucket. -/
theorem write_spec {rnd : ℚ → ℚ} {T : RDT} {rm : Nat → Bool} {att : Nat → Attempt} {st : Store} {name : Str} {hdr : NumMap}
    {values : Ptr ℚ} {n : Int} {opts : Opts} {res : Store × Bool × Nat} (hg : GoodKey ⟨name, withType T opts⟩)
    (hk : ∀ e ∈ hdr, e.1 ∈ headerKeys) (h : writeGridfs rnd T rm att st name hdr values n opts = .ok res) :
    ∃ flt hd ty data info, mkFilter name (withType T opts) = .ok flt ∧ (∀ f, matchesF flt f = true ↔ Has f ⟨name, withType T opts⟩) ∧
      headerDoc hdr = .ok hd ∧ Opts.get (withType T opts) kTypeOut = some ty ∧ (kTypeOut, ty) ∈ withType T opts ∧
      streamBytes rnd T (stringToRdt ty) values n = .ok data ∧ appendOptions hd (withType T opts) [] = .ok info ∧
      (∀ d, Has (File.mk name info d) ⟨name, withType T opts⟩) ∧ res = writeLoop att name data info 0 4 (removeLoop rm flt 0 st) := by
  unfold writeGridfs at h
  dsimp only at h
  rw [curOpts_eq] at h
  obtain ⟨flt, e1, h1⟩ := filter_spec hg
  unfold removeFile at h
  dsimp only at e1
  rw [e1, Out.ok_bind, Out.pure_eq, Out.ok_bind] at h
  dsimp only at h
  obtain ⟨hd, e2, h⟩ := Out.bind_ok h
  obtain ⟨ty, e3, h3⟩ := withType_has T opts
  rw [e3] at h
  dsimp only at h
  obtain ⟨data, e4, h⟩ := Out.bind_ok h
  obtain ⟨info, e5, h5, _, _⟩ := info_spec hg e2 hk
  dsimp only at e5
  rw [e5, Out.ok_bind] at h
  injection h with h
  exact ⟨flt, hd, ty, data, info, e1, h1, e2, e3, h3, e4, e5, h5, h.symm⟩

open Classical in
theorem findLoop_spec (ok : Nat → Bool) (st : Store) (flt : BDoc) : ∀ (n t : Nat), findLoop ok st flt t n =
    if ∃ i, t ≤ i ∧ i < t + n ∧ ok i = true then st.find? (matchesF flt) else none
  | 0, t => by
    rw [if_neg (by rintro ⟨i, a, b, _⟩; omega)]; rfl
  | n + 1, t => by
    rw [findLoop]
    cases hok : ok t
    · simp only [Bool.false_eq_true, if_false]
      rw [findLoop_spec ok st flt n (t + 1)]
      congr 1
      apply propext
      constructor
      · rintro ⟨i, a, b, c⟩; exact ⟨i, by omega, by omega, c⟩
      · rintro ⟨i, a, b, c⟩
        refine ⟨i, ?_, by omega, c⟩
        by_contra hh
        have : i = t := by omega
        subst this
        rw [hok] at c; cases c
    · rw [if_pos rfl, if_pos ⟨t, le_refl _, by omega, hok⟩]
      cases hf : st.find? (matchesF flt) with
      | some f => rfl
      | none =>
        simp only
        rw [findLoop_spec ok st flt n (t + 1), hf]
        split_ifs <;> rfl

end Gfs
end CCGL
