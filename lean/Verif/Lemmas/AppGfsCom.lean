import Verif.Spec.AppGfsCom
import Verif.Props.AppCom
import Verif.Props.AppGfsJobs
/-!
# Lemmas about the mode COM with pieces in GridFS
-/
namespace CCGL
namespace App
open Fs Disk Main Raster Gfs Disk.Spec App.Spec

/-! ### names in a bucket -/

theorem splitSlash_none {s : Str} (h : '/' ∉ s) : splitSlash '/' s = [s] := by
  induction s with
  | nil => rfl
  | cons c s ih =>
    have h1 : c ≠ '/' := fun e => h (by rw [e]; simp)
    have h2 : '/' ∉ s := fun e => h (List.mem_cons_of_mem _ e)
    unfold splitSlash
    rw [if_neg h1, ih h2]

/-- A name without separator is left alone or gets a directory in front of it. -/
theorem abs_rel (fs : FS) {s : Str} (h : '/' ∉ s) (h1 : s ≠ ['.']) (h2 : s ≠ ['.', '.']) :
    getAbsolutePath fs s = s ∨ ∃ a, getAbsolutePath fs s = a ++ '/' :: s := by
  unfold getAbsolutePath
  cases s with
  | nil => exact .inl rfl
  | cons c t =>
    have hc : c ≠ '/' := fun e => h (by rw [e]; simp)
    have hr : fs.resolve (c :: t) = fs.walk fs.cwd [c :: t] := by
      unfold FS.resolve
      dsimp only
      rw [if_neg hc, splitSlash_none h]
    have hw : fs.walk fs.cwd [c :: t] = none ∨ fs.walk fs.cwd [c :: t] = some (fs.cwd ++ [c :: t]) := by
      have e : fs.walk fs.cwd [c :: t] = if fs.kindOf fs.cwd ≠ some .dir then none else
          if c :: t = [] ∨ c :: t = ['.'] then fs.walk fs.cwd [] else if c :: t = ['.', '.'] then fs.walk fs.cwd.dropLast [] else
          fs.walk (fs.cwd ++ [c :: t]) [] := rfl
      rw [e]
      by_cases q : fs.kindOf fs.cwd ≠ some .dir
      · rw [if_pos q]; exact .inl rfl
      · rw [if_neg q, if_neg (by rintro (q | q); cases q; exact h1 q), if_neg h2]
        have e2 : fs.walk (fs.cwd ++ [c :: t]) [] = if (fs.kindOf (fs.cwd ++ [c :: t])).isSome then some (fs.cwd ++ [c :: t]) else none := rfl
        rw [e2]
        split
        · exact .inr rfl
        · exact .inl rfl
    rw [hr]
    rcases hw with e | e
    · rw [e]; exact .inl rfl
    · rw [e]
      right
      refine ⟨fs.cwd.flatMap (fun c => '/' :: c), ?_⟩
      dsimp only
      unfold render
      have : fs.cwd ++ [c :: t] ≠ [] := by simp
      split
      · next h => exact absurd h this
      · rw [List.flatMap_append]; simp

theorem findLastOf_lt (c : Char) (s : Str) {i : Nat} (h : findLastOf c s = some i) : i < s.length := by
  induction s generalizing i with
  | nil => cases h
  | cons x s ih =>
    have e : findLastOf c (x :: s) = match findLastOf c s with
      | some i => some (i + 1)
      | none => if x = c then some 0 else none := rfl
    rw [e] at h
    cases hf : findLastOf c s with
    | some k =>
      rw [hf] at h
      dsimp only at h
      injection h with h
      have := ih hf
      rw [List.length_cons]
      omega
    | none =>
      rw [hf] at h
      dsimp only at h
      split at h
      · injection h with h
        rw [List.length_cons]
        omega
      · cases h

theorem findLastOf_skip (c : Char) (a : Str) {b : Str} (h : c ∉ b) : findLastOf c (a ++ b) = findLastOf c a := by
  induction a with
  | nil => rw [List.nil_append, findLastOf_none c b h]; rfl
  | cons x a ih =>
    have e : ∀ s, findLastOf c (x :: s) = match findLastOf c s with
      | some i => some (i + 1)
      | none => if x = c then some 0 else none := fun _ => rfl
    rw [List.cons_append, e, e, ih]

theorem bucket_core (fs : FS) {s core : Str} (h : BucketName s core) : getCoreFileName fs s = core := by
  obtain ⟨-, h1, h2, h3, h4⟩ := h
  -- the text before the name
  obtain ⟨a, ha, hs⟩ : ∃ a : Str, getAbsolutePath fs s = a ++ s ∧
      ((findLastOf '/' (a ++ s) = none ∧ a.length = 0) ∨ ∃ i, findLastOf '/' (a ++ s) = some i ∧ a.length = i + 1) := by
    rcases abs_rel fs h1 h2 h3 with e | ⟨b, e⟩
    · exact ⟨[], by rw [e]; rfl, .inl ⟨by rw [List.nil_append, findLastOf_none _ _ h1], rfl⟩⟩
    · refine ⟨b ++ ['/'], by rw [e]; simp, .inr ⟨b.length, ?_, by simp⟩⟩
      rw [show b ++ ['/'] ++ s = b ++ '/' :: s by simp, findLastOf_append '/' b s h1]
  have key : getCoreFileName fs s = substr (a ++ s) a.length (if (match findLastOf '.' (a ++ s) with
      | none => (a ++ s).length
      | some i => i) ≥ a.length then (match findLastOf '.' (a ++ s) with
      | none => (a ++ s).length
      | some i => i) - a.length else (a ++ s).length) := by
    unfold getCoreFileName
    rw [ha]
    rcases hs with ⟨e, e2⟩ | ⟨i, e, e2⟩
    · dsimp only
      rw [e, e2]
      rfl
    · dsimp only
      rw [e, e2]
      rfl
  rw [key]
  unfold substr
  rw [List.drop_left]
  rcases h4 with ⟨rfl, h5⟩ | ⟨suf, h5, rfl⟩
  · apply List.take_of_length_le
    rw [findLastOf_skip '.' a h5]
    cases hf : findLastOf '.' a with
    | none =>
      dsimp only
      rw [if_pos (by rw [List.length_append]; omega), List.length_append]
      omega
    | some i =>
      have := findLastOf_lt _ _ hf
      dsimp only
      rw [if_neg (by omega), List.length_append]
      omega
  · rw [show a ++ (core ++ '.' :: suf) = a ++ core ++ '.' :: suf by simp, findLastOf_append '.' (a ++ core) suf h5]
    dsimp only
    rw [if_pos (by rw [List.length_append]; omega), List.length_append, Nat.add_sub_cancel_left, List.take_left]

/-! ### the values of one file -/

theorem range_of_sorted {l : List Nat} (h : l.Pairwise (· < ·)) (hl : ∀ x ∈ l, x < l.length) : l = List.range l.length := by
  have hn : l.Nodup := h.imp (fun h => Nat.ne_of_lt h)
  have hp : l.Perm (List.range l.length) :=
    (List.subperm_of_subset hn (fun x hx => List.mem_range.2 (hl x hx))).perm_of_length_le (by rw [List.length_range])
  exact hp.eq_of_pairwise (le := (· < ·)) (fun a b _ _ h1 h2 => absurd h1 (by omega)) h List.pairwise_lt_range

/-- A list of all cells of a box, row by row. -/
theorem full_box {gs : List (Int × Int)} (hs : gs.Pairwise Before) {r0 r1 c0 c1 : Int}
    (hin : ∀ a ∈ gs, r0 ≤ a.1 ∧ a.1 ≤ r1 ∧ c0 ≤ a.2 ∧ a.2 ≤ c1) (hlen : (gs.length : Int) = (r1 - r0 + 1) * (c1 - c0 + 1)) :
    gs.map (fun a => ((a.1 - r0) * (c1 - c0 + 1) + (a.2 - c0)).toNat) = List.range gs.length := by
  have hb : ∀ a ∈ gs, 0 ≤ (a.1 - r0) * (c1 - c0 + 1) + (a.2 - c0) ∧ (a.1 - r0) * (c1 - c0 + 1) + (a.2 - c0) < gs.length := by
    intro a ha
    obtain ⟨h1, h2, h3, h4⟩ := hin a ha
    have p1 : 0 ≤ (a.1 - r0) * (c1 - c0 + 1) := Int.mul_nonneg (by omega) (by omega)
    have p2 : (a.1 - r0 + 1) * (c1 - c0 + 1) ≤ (r1 - r0 + 1) * (c1 - c0 + 1) := Int.mul_le_mul_of_nonneg_right (by omega) (by omega)
    have p3 : (a.1 - r0 + 1) * (c1 - c0 + 1) = (a.1 - r0) * (c1 - c0 + 1) + (c1 - c0 + 1) := by ring
    constructor <;> omega
  have hp : (gs.map (fun a => ((a.1 - r0) * (c1 - c0 + 1) + (a.2 - c0)).toNat)).Pairwise (· < ·) := by
    rw [List.pairwise_map]
    refine hs.imp_of_mem ?_
    intro a b ha hb' hab
    obtain ⟨a1, a2, a3, a4⟩ := hin a ha
    obtain ⟨b1, b2, b3, b4⟩ := hin b hb'
    have hlt : (a.1 - r0) * (c1 - c0 + 1) + (a.2 - c0) < (b.1 - r0) * (c1 - c0 + 1) + (b.2 - c0) := by
      rcases hab with h | ⟨h, h'⟩
      · have p2 : (a.1 - r0 + 1) * (c1 - c0 + 1) ≤ (b.1 - r0) * (c1 - c0 + 1) := Int.mul_le_mul_of_nonneg_right (by omega) (by omega)
        have p3 : (a.1 - r0 + 1) * (c1 - c0 + 1) = (a.1 - r0) * (c1 - c0 + 1) + (c1 - c0 + 1) := by ring
        omega
      · rw [h]; omega
    have := (hb a ha).1
    omega
  have := range_of_sorted hp (by
    intro x hx
    obtain ⟨a, ha, rfl⟩ := List.mem_map.1 hx
    have := hb a ha
    rw [List.length_map]
    omega)
  rw [this, List.length_map]

theorem read_numbers {rnd : ℚ → ℚ} {st : Store} {name : Str} {opts : Opts} {cells : List ℚ} (H : HoldsNumbers rnd st name opts cells)
    {ok1 ok2 : Nat → Bool} (h1 : Answered ok1) (h2 : Answered ok2) (s : Subset) :
    readSubset rnd ok1 true ok2 st s name opts = s.readDb cells.length 1 (some cells) := by
  obtain ⟨hm, sm, e1, e2, e3⟩ := H.reads ok1 ok2 h1 h2
  have hc := H.count
  unfold readSubset
  rw [e1, Out.ok_bind]
  dsimp only
  rw [intAt_eq (k := kCellsnum) e2 (by omega) (by omega), Out.ok_bind, intAt_eq (k := kLayers) e3 (by omega) (by omega), Out.ok_bind]

/-- The file is not found or not read. -/
theorem read_lost {rnd : ℚ → ℚ} {st : Store} {name : Str} {opts : Opts} (hg : CCGL.Spec.GoodKey ⟨name, opts⟩) {ok1 ok2 : Nat → Bool} {rd : Bool}
    (h : (∀ f ∈ st, ¬ CCGL.Spec.Has f ⟨name, opts⟩) ∨ ¬ Answered ok1 ∨ rd = false ∨ ¬ Answered ok2) (s : Subset) :
    readSubset rnd ok1 rd ok2 st s name opts = .ok (s, false) := by
  have key : readGridfs rnd .double ok1 rd ok2 st name initialHeader initialStr opts = .ok none := by
    unfold readGridfs getStreamData
    have eg := fun ok => getFile_eq hg ok st
    dsimp only at eg
    rw [eg]
    rcases h with h | h | h | h
    · rw [filesOf_nil_of h]
      simp only [List.head?_nil, ite_self, Out.ok_bind, Out.pure_eq]
    · rw [if_neg (show ¬ ∃ i, i < 5 ∧ ok1 i = true from h)]
      rfl
    · rw [h]
      rw [Out.ok_bind]
      split <;> rfl
    · rw [Out.ok_bind]
      have hmeta : getFileMetadata ok2 st name opts = .ok none := by
        unfold getFileMetadata
        rw [eg, if_neg (show ¬ ∃ i, i < 5 ∧ ok2 i = true from h)]
        rfl
      rw [hmeta]
      have e1 : intAt initialHeader kRows = .ok (-9999) := by decide +kernel
      have e2 : intAt initialHeader kCols = .ok (-9999) := by decide +kernel
      have e3 : intAt initialHeader kLayers = .ok (-9999) := by decide +kernel
      have e4 : intAt initialHeader kCellsnum = .ok (-9999) := by decide +kernel
      split
      · rfl
      · simp only [Out.ok_bind, Out.pure_eq]
        split
        · rfl
        · simp only [Option.getD_none, List.foldl_nil, e1, e2, e3, e4, Out.ok_bind]
          rfl
  unfold readSubset
  rw [key]
  rfl

theorem subOk_box {ps : List (Int × Int)} {G : List Nat} {sb : Subset} (hok : SubOk ps G sb) {c : Int → Int → Prop}
    (hgrp : ∀ row col, c row col ↔ ∃ i ∈ G, posAt ps i = (row, col)) {r0 r1 c0 c1 : Int} (hb : IsBox c r0 r1 c0 c1) :
    sb.srow = r0 ∧ sb.erow = r1 ∧ sb.scol = c0 ∧ sb.ecol = c1 := by
  obtain ⟨t1, ⟨i1, a1, b1⟩, ⟨i2, a2, b2⟩, ⟨i3, a3, b3⟩, ⟨i4, a4, b4⟩⟩ := hok.tight
  have hc : ∀ i ∈ G, c (posAt ps i).1 (posAt ps i).2 := fun i hi => (hgrp _ _).2 ⟨i, hi, rfl⟩
  have hin : ∀ {row col}, c row col → sb.srow ≤ row ∧ row ≤ sb.erow ∧ sb.scol ≤ col ∧ col ≤ sb.ecol := by
    intro row col h
    obtain ⟨i, hi, e⟩ := (hgrp row col).1 h
    have := t1 i hi
    rw [e] at this
    exact this
  obtain ⟨x1, q1⟩ := hb.top
  obtain ⟨x2, q2⟩ := hb.bottom
  obtain ⟨x3, q3⟩ := hb.left
  obtain ⟨x4, q4⟩ := hb.right
  have m1 := hb.inside _ _ (hc i1 a1)
  have m2 := hb.inside _ _ (hc i2 a2)
  have m3 := hb.inside _ _ (hc i3 a3)
  have m4 := hb.inside _ _ (hc i4 a4)
  have n1 := hin q1
  have n2 := hin q2
  have n3 := hin q3
  have n4 := hin q4
  refine ⟨?_, ?_, ?_, ?_⟩ <;> omega

/-- Values cell after cell. -/
theorem readDb_values {sb : Subset} {cells : List ℚ} (hn : (cells.length : Int) = sb.nCells) (hpos : 0 < sb.nCells)
    (hold : ∀ old, sb.data = some old → (old.length : Int) = sb.nCells) :
    sb.readDb cells.length 1 (some cells) = .ok ({ sb with nLyrs := 1, usable := true, data := some cells }, true) := by
  unfold Subset.readDb
  dsimp only
  rw [if_neg (by rintro (⟨-, h⟩ | h); exact h hn.symm; cases h), if_pos rfl, if_pos hn.symm]
  have := setData_fit (s := { sb with nLyrs := 1 }) hn hpos hold
  rw [hn]
  exact this

/-- Values of the whole box. -/
theorem readDb_box {ps : List (Int × Int)} {G : List Nat} {sb : Subset} (hok : SubOk ps G sb) (hsort : (G.map (posAt ps)).Pairwise Before)
    {cells : List ℚ} {w : Int → Int → ℚ} (hlen : (cells.length : Int) = (sb.erow - sb.srow + 1) * (sb.ecol - sb.scol + 1))
    (hw : ∀ i ∈ G, cells[(((posAt ps i).1 - sb.srow) * (sb.ecol - sb.scol + 1) + ((posAt ps i).2 - sb.scol)).toNat]? =
      some (w (posAt ps i).1 (posAt ps i).2))
    (hold : ∀ old, sb.data = some old → (old.length : Int) = sb.nCells) :
    sb.readDb cells.length 1 (some cells) =
      .ok ({ sb with nLyrs := 1, usable := true, data := some (G.map (fun i => w (posAt ps i).1 (posAt ps i).2)) }, true) := by
  have hpos : 0 < G.length := List.length_pos_of_ne_nil hok.ne
  have hnn : ∀ i ∈ G, 0 ≤ ((posAt ps i).1 - sb.srow) * (sb.ecol - sb.scol + 1) + ((posAt ps i).2 - sb.scol) := by
    intro i hi
    obtain ⟨h1, h2, h3, h4⟩ := hok.tight.1 i hi
    have := Int.mul_nonneg (by omega : 0 ≤ (posAt ps i).1 - sb.srow) (by omega : 0 ≤ sb.ecol - sb.scol + 1)
    omega
  by_cases hn : (cells.length : Int) = sb.nCells
  · -- the box is full
    rw [readDb_values hn (by rw [hok.n]; omega) hold]
    have hl : cells.length = G.length := by rw [hok.n] at hn; exact_mod_cast hn
    have hf := full_box hsort (r0 := sb.srow) (r1 := sb.erow) (c0 := sb.scol) (c1 := sb.ecol) (by
      intro a ha
      obtain ⟨i, hi, rfl⟩ := List.mem_map.1 ha
      exact hok.tight.1 i hi) (by rw [List.length_map, ← hl]; exact hlen)
    rw [List.length_map, List.map_map] at hf
    have : cells = G.map (fun i => w (posAt ps i).1 (posAt ps i).2) := by
      apply List.ext_getElem (by rw [List.length_map]; exact hl)
      intro n h1 h2
      rw [List.length_map] at h2
      rw [List.getElem_map]
      have hx := hw G[n] (List.getElem_mem h2)
      have hidx : (((posAt ps G[n]).1 - sb.srow) * (sb.ecol - sb.scol + 1) + ((posAt ps G[n]).2 - sb.scol)).toNat = n := by
        have := congrArg (fun l => l[n]?) hf
        rw [List.getElem?_map, List.getElem?_eq_getElem h2, List.getElem?_range h2] at this
        exact Option.some.inj this
      rw [hidx, List.getElem?_eq_getElem h1] at hx
      exact Option.some.inj hx
    rw [← this]
  · unfold Subset.readDb
    dsimp only
    rw [if_neg (by rintro (⟨h, -⟩ | h); exact h hlen.symm; cases h), if_pos rfl, if_neg (fun h => hn h.symm)]
    rw [hok.n, Int.toNat_natCast, hok.lidx]
    rw [mapM_ok _ (fun i : Nat => w (posAt ps (G.getD i 0)).1 (posAt ps (G.getD i 0)).2) (List.range G.length) (by
      intro i hi
      have hi := List.mem_range.1 hi
      rw [readAt_some_nat _ i (by rw [List.length_map]; exact hi), Out.ok_bind, List.getElem_map]
      have hm := List.getElem_mem hi
      have hx := hw G[i] hm
      have h0 := hnn G[i] hm
      obtain ⟨hlt, -⟩ := List.getElem?_eq_some_iff.1 hx
      rw [readAt_some_int _ _ h0 (by omega)]
      rw [List.getElem?_eq_getElem hlt] at hx
      rw [Option.some.inj hx, List.getD_eq_getElem _ _ hi]), Out.ok_bind]
    have hm : (List.range G.length).map (fun i : Nat => w (posAt ps (G.getD i 0)).1 (posAt ps (G.getD i 0)).2) =
        G.map (fun i => w (posAt ps i).1 (posAt ps i).2) := by
      apply List.ext_getElem (by simp)
      intro n h1 h2
      rw [List.length_map] at h2
      rw [List.getElem_map, List.getElem_map, List.getElem_range, List.getD_eq_getElem _ _ h2]
    rw [hm]
    cases ho : sb.data with
    | some old =>
      have := hold old ho
      rw [hok.n] at this
      dsimp only
      rw [if_neg (by omega), List.drop_of_length_le (by omega), List.append_nil]
    | none =>
      dsimp only
      unfold alloc1
      rw [if_neg (by omega)]
      rfl

/-! ### all files -/

theorem ComSubs.keep {ps G done} {subs : IMap Subset} (h : ComSubs ps G done subs) {k : Int} {sb : Subset} (hsb : subs.get k = some sb) :
    ComSubs ps G (done ++ [none]) (IMap.set subs k sb) := by
  have hget : ∀ k' s', (IMap.set subs k sb).get k' = some s' → subs.get k' = some s' := by
    intro k' s' hk'
    rw [IMap.get_set] at hk'
    by_cases e : k' = k
    · rw [if_pos e] at hk'
      rw [e, hsb]
      exact hk'
    · rwa [if_neg e] at hk'
  refine ComSubs.skip ⟨⟨IMap.set_sorted _ _ _ h.part.sorted, fun k' s' hk' => h.part.some k' s' (hget _ _ hk'), ?_, h.part.lt, h.part.nodup, h.part.disj⟩,
    fun k' s' hk' => h.old k' s' (hget _ _ hk'), fun k' s' hk' => h.last k' s' (hget _ _ hk')⟩
  intro k' hk'
  rw [IMap.get_set] at hk'
  by_cases e : k' = k
  · rw [if_pos e] at hk'; cases hk'
  · rw [if_neg e] at hk'; exact h.part.none k' hk'

theorem comOneDb_step {rnd : ℚ → ℚ} {d : Disk} {st : Store} {jd : JobDb} {opts : Opts} {g : Groups} {ps : List (Int × Int)} {G : Int → List Nat}
    (hsort : ∀ k, ((G k).map (posAt ps)).Pairwise Before) (hgrp : ∀ k row col, g k row col ↔ ∃ i ∈ G k, posAt ps i = (row, col)) {s core : Str}
    (hgood : CCGL.Spec.GoodKey ⟨s, opts⟩) (hN : BucketName s core) {n : Nat} {x : Option (Int × (Int → Int → ℚ))}
    (hx : DbGives rnd st opts g (jd.cok1 n) (jd.cok2 n) (jd.crd n) s core x) {done} {subs : IMap Subset} (h : ComSubs ps G done subs) :
    ∃ subs', comOneDb rnd jd d st opts (n, subs) s = .ok (n + 1, subs') ∧ ComSubs ps G (done ++ [x]) subs' := by
  have hpres : ∀ k, Present g k ↔ ∃ sb, subs.get k = some sb := by
    intro k
    constructor
    · rintro ⟨row, col, hc⟩
      obtain ⟨i, hi, -⟩ := (hgrp k row col).1 hc
      cases hk : subs.get k with
      | some sb => exact ⟨sb, rfl⟩
      | none =>
        rw [h.part.none k hk] at hi
        cases hi
    · rintro ⟨sb, hk⟩
      obtain ⟨i, hi⟩ := List.exists_mem_of_ne_nil _ (h.part.some k sb hk).ne
      exact ⟨_, _, (hgrp k _ _).2 ⟨i, hi, rfl⟩⟩
  have hbm : ∀ {c : Str} {k : Int}, isInt c = (k, true) → Int.bmod (isInt c).1 (2 ^ 32) = k := by
    intro c k hc
    have hr := ((C35_isInt c k).1 hc).2
    rw [hc]
    exact Int.bmod_eq_of_le (by omega) (by omega)
  have hlist : ∀ k cs, Listing (g k) cs → cs = (G k).map (posAt ps) := by
    intro k cs hcs
    refine before_unique hcs.1 (hsort k) ?_
    intro a
    rw [hcs.2, hgrp, List.mem_map]
  -- a file for a group
  have hread : ∀ {k sb z}, NumberOf core k → subs.get k = some sb →
      readSubset rnd (jd.cok1 n) (jd.crd n) (jd.cok2 n) st sb s opts = .ok z →
      comOneDb rnd jd d st opts (n, subs) s = .ok (n + 1, IMap.set subs k z.1) := by
    intro k sb z hk hsb hz
    obtain ⟨pre, rest, e1, e2⟩ := numberOf_iff.1 hk
    unfold comOneDb
    rw [bucket_core d.fs hN, e1]
    dsimp only
    rw [hbm e2, e2, hsb]
    dsimp only
    rw [hz]
    rfl
  have hskip : ∀ {k}, NumberOf core k → subs.get k = none → comOneDb rnd jd d st opts (n, subs) s = .ok (n + 1, subs) := by
    intro k hk hsb
    obtain ⟨pre, rest, e1, e2⟩ := numberOf_iff.1 hk
    unfold comOneDb
    rw [bucket_core d.fs hN, e1]
    dsimp only
    rw [hbm e2, e2, hsb]
    rfl
  have hunn : (∀ k, ¬ NumberOf core k) → comOneDb rnd jd d st opts (n, subs) s = .ok (n + 1, subs) := by
    intro hno
    unfold comOneDb
    rw [bucket_core d.fs hN]
    cases hsp : splitDelim '_' core with
    | nil => rfl
    | cons c rest =>
      dsimp only
      have : (isInt c).2 = false := by
        by_contra hb
        have hb : (isInt c).2 = true := by simpa using hb
        exact hno (isInt c).1 (numberOf_iff.2 ⟨c, rest, hsp, by rw [← hb]⟩)
      rw [this]
      rfl
  have hlost : ((∀ f ∈ st, ¬ CCGL.Spec.Has f ⟨s, opts⟩) ∨ ¬ Answered (jd.cok1 n) ∨ jd.crd n = false ∨ ¬ Answered (jd.cok2 n)) →
      ∃ subs', comOneDb rnd jd d st opts (n, subs) s = .ok (n + 1, subs') ∧ ComSubs ps G (done ++ [none]) subs' := by
    intro hl
    by_cases hnum : ∃ k, NumberOf core k
    · obtain ⟨k, hk⟩ := hnum
      cases hsb : subs.get k with
      | none => exact ⟨subs, hskip hk hsb, h.skip⟩
      | some sb => exact ⟨_, hread hk hsb (read_lost hgood hl sb), h.keep hsb⟩
    · exact ⟨subs, hunn (fun k hk => hnum ⟨k, hk⟩), h.skip⟩
  cases hx with
  | @values k cells cs w hk hp h1 h2 h3 hh hcs hcells =>
    obtain ⟨sb, hsb⟩ := (hpres k).1 hp
    have hok := h.part.some k sb hsb
    have hpos : 0 < (G k).length := List.length_pos_of_ne_nil hok.ne
    have hcs' := hlist k cs hcs
    have hcl : cells = (G k).map (fun i => w (posAt ps i).1 (posAt ps i).2) := by
      rw [hcells, hcs', List.map_map]
      rfl
    have hr := read_numbers hh h1 h2 sb
    rw [readDb_values (by rw [hcl, List.length_map, hok.n]) (by rw [hok.n]; omega) (fun old ho => h.old k sb hsb old ho)] at hr
    refine ⟨_, hread hk hsb (by rw [h3]; exact hr), ?_⟩
    rw [hcl]
    exact h.take hsb w
  | @box k cells r0 r1 c0 c1 w hk hp h1 h2 h3 hh hb hlen hw =>
    obtain ⟨sb, hsb⟩ := (hpres k).1 hp
    have hok := h.part.some k sb hsb
    obtain ⟨b1, b2, b3, b4⟩ := subOk_box hok (hgrp k) hb
    have hr := read_numbers hh h1 h2 sb
    rw [readDb_box hok (hsort k) (w := w) (by rw [b1, b2, b3, b4]; exact hlen) (by
      intro i hi
      rw [b1, b3, b4]
      exact hw _ _ ((hgrp k _ _).2 ⟨i, hi, rfl⟩)) (fun old ho => h.old k sb hsb old ho)] at hr
    exact ⟨_, hread hk hsb (by rw [h3]; exact hr), h.take hsb w⟩
  | unnumbered hno => exact ⟨subs, hunn hno, h.skip⟩
  | @nogroup k hk hno =>
    refine ⟨subs, hskip hk ?_, h.skip⟩
    cases hsb : subs.get k with
    | none => rfl
    | some sb => exact absurd ((hpres k).2 ⟨sb, hsb⟩) hno
  | missing hno => exact hlost (.inl hno)
  | lost hl => exact hlost (.inr hl)
  | @unfit k cells cs r0 r1 c0 c1 hk h1 h2 h3 hh hcs hb hn1 hn2 =>
    cases hsb : subs.get k with
    | none => exact ⟨subs, hskip hk hsb, h.skip⟩
    | some sb =>
      have hok := h.part.some k sb hsb
      obtain ⟨b1, b2, b3, b4⟩ := subOk_box hok (hgrp k) hb
      have hr := read_numbers hh h1 h2 sb
      have hcs' := hlist k cs hcs
      have hdb : sb.readDb cells.length 1 (some cells) = .ok (sb, false) := by
        unfold Subset.readDb
        dsimp only
        rw [if_pos (.inl ⟨by rw [b1, b2, b3, b4]; exact fun e => hn2 e.symm, by
          rw [hok.n]
          intro e
          apply hn1
          rw [hcs', List.length_map]
          exact_mod_cast e.symm⟩)]
      rw [hdb] at hr
      exact ⟨_, hread hk hsb (by rw [h3]; exact hr), h.keep hsb⟩

theorem comOneDb_all {rnd : ℚ → ℚ} {d : Disk} {st : Store} {jd : JobDb} {opts : Opts} {g : Groups} {ps : List (Int × Int)} {G : Int → List Nat}
    (hsort : ∀ k, ((G k).map (posAt ps)).Pairwise Before) (hgrp : ∀ k row col, g k row col ↔ ∃ i ∈ G k, posAt ps i = (row, col))
    (hgood : ∀ s, Char.ofNat 0 ∉ s → CCGL.Spec.GoodKey ⟨s, opts⟩) :
    ∀ (ins : List (Str × Str × Option (Int × (Int → Int → ℚ)))) (n : Nat) (done) (subs : IMap Subset), (∀ x ∈ ins, BucketName x.1 x.2.1) →
      (∀ i x, ins[i]? = some x → DbGives rnd st opts g (jd.cok1 (n + i)) (jd.cok2 (n + i)) (jd.crd (n + i)) x.1 x.2.1 x.2.2) →
      ComSubs ps G done subs → ∃ z, (ins.map (·.1)).foldlM (comOneDb rnd jd d st opts) (n, subs) = .ok z ∧ ComSubs ps G (done ++ piecesOf ins) z.2 := by
  intro ins
  induction ins with
  | nil => intro n done subs _ _ h; exact ⟨(n, subs), rfl, by simpa [piecesOf] using h⟩
  | cons x ins ih =>
    intro n done subs hb hg h
    have hbx := hb x List.mem_cons_self
    obtain ⟨s1, e1, h1⟩ := comOneDb_step (d := d) (n := n) hsort hgrp (hgood x.1 hbx.1) hbx (hg 0 x rfl) h
    obtain ⟨z, e2, h2⟩ := ih (n + 1) _ _ (fun y hy => hb y (List.mem_cons_of_mem _ hy)) (fun i y hy => by
      have := hg (i + 1) y (by rw [List.getElem?_cons_succ]; exact hy)
      rw [show n + 1 + i = n + (i + 1) by omega]
      exact this) h1
    refine ⟨z, ?_, by simpa [piecesOf] using h2⟩
    rw [List.map_cons, List.foldlM_cons, e1]
    exact e2

end App
end CCGL
