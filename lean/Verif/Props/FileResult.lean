import Verif.Props.FileWhole
/-!
# C75: what the result of writing files tells, and where it lies
-/
namespace CCGL
namespace Disk
open Fs Fs.Spec Disk.Spec CCGL.Spec

/-- The directories are the same. -/
structure SameDirs (d d' : Disk) : Prop where
  wf : WF d'.fs
  dir : ∀ q, d'.fs.kindOf q = some .dir ↔ d.fs.kindOf q = some .dir

theorem SameDirs.trans {d d1 d2 : Disk} (h1 : SameDirs d d1) (h2 : SameDirs d1 d2) : SameDirs d d2 :=
  ⟨h2.wf, fun q => (h2.dir q).trans (h1.dir q)⟩

theorem SameDirs.nameIn {d d' : Disk} (h : SameDirs d d') {p dt core suf} (hn : NameIn d.fs p dt core suf) : NameIn d'.fs p dt core suf :=
  ⟨h.wf, hn.dir, hn.core, hn.suf, (h.dir p).2 hn.exist⟩

/-- One GeoTIFF file: the result is that of GDAL. -/
theorem tif_result {env : Env} {fmt : Fmt} {d : Disk} {p : Path} {dt core suf : Str} (hn : NameIn d.fs p dt core suf) (hsuf : IsTifSuffix suf)
    (hnd : d.fs.kindOf (p ++ [core ++ '.' :: suf]) ≠ some .dir) {h : Header} {vals : Ptr ℚ} {c : Content}
    (hc : content fmt suf h vals = .ok (some c)) :
    ∃ d', writeRaster env fmt d (dt ++ core ++ '.' :: suf) h vals = .ok (env.gdal (p ++ [core ++ '.' :: suf]), d') ∧ SameDirs d d' := by
  have hg := base_good core suf hn.core hn.suf.1 hn.suf.2.1 hn.suf.2.2
  have hsx := getSuffix_full hn.wf p dt core suf hn.dir hn.core hn.suf.1 hn.suf.2.1 hn.suf.2.2
  rw [List.append_assoc] at hsx ⊢
  have hdt : dt ≠ [] := by rw [hn.dir.2]; simp
  have hm : ¬ stringMatch (getUpper suf) extAsc = true := by
    rw [match_upper]; exact fun hx => asc_not_tif ((stringMatch_iff _ _).1 hx) hsuf
  have hmt : stringMatch (getUpper suf) extTif = true := by
    rw [match_upper]; exact (stringMatch_iff _ _).2 hsuf
  unfold content at hc
  rw [if_neg hm] at hc
  obtain ⟨x, e1, e2⟩ := Out.bind_ok hc
  cases x with
  | none => cases e2
  | some f =>
    unfold writeRaster
    rw [getPath_full hn.wf p dt _ hn.dir hg hnd, if_neg hdt, abs_full hn.wf p dt _ hn.dir hg]
    dsimp only
    rw [hsx, if_neg hm, if_pos hmt]
    unfold writeSingleGeotiff
    rw [e1, Out.ok_bind]
    dsimp only
    rw [needDir_same hn.wf hn.dir hg hn.exist hnd, target_full hn.wf hn.dir hg hn.exist hnd]
    dsimp only
    cases hgd : env.gdal (p ++ [core ++ '.' :: suf])
    · refine ⟨_, rfl, hn.wf, fun q => Iff.rfl⟩
    · refine ⟨_, rfl, ?_⟩
      by_cases hex : (d.fs.kindOf (p ++ [core ++ '.' :: suf])).isSome
      · simp only [hex, if_true]
        exact ⟨hn.wf, fun q => Iff.rfl⟩
      · have hno : d.fs.kindOf (p ++ [core ++ '.' :: suf]) = none := by simpa using hex
        simp only [hno, Option.isSome_none, Bool.false_eq_true, if_false]
        refine ⟨wf_add hn.wf hn.dir.1 hg hn.exist hno, ?_⟩
        intro q
        rw [kindOf_add (by simp) hno]
        by_cases hq : q = p ++ [core ++ '.' :: suf]
        · rw [if_pos hq, hq, hno]; simp
        · rw [if_neg hq]

theorem loop_false {env : Env} {fmt : Fmt} {full : Ptr ℚ} {fsize lyrs : Int} {name : Str} {h : Header} :
    ∀ (ls : List Nat) (d : Disk), (∀ l ∈ ls, ∃ b, deinterleave full fsize lyrs l = .ok b) →
      fullsizeLoop env fmt full fsize lyrs name h false ls d = .ok (false, d)
  | [], d, _ => rfl
  | l :: ls, d, hd => by
    obtain ⟨b, e⟩ := hd l (by simp)
    rw [fullsizeLoop, e, Out.ok_bind]
    simp only [Bool.false_eq_true, if_false]
    exact loop_false ls d (fun m hm => hd m (by simp [hm]))

theorem layer_result {env : Env} {fmt : Fmt} {p : Path} {dt core suf : Str} (hsuf : IsTifSuffix suf) {full : List ℚ} {fsize lyrs : Int}
    (hf : 0 < fsize) (hl : 1 < lyrs) (hlen : (full.length : Int) = fsize * lyrs) {h : Header} : ∀ (ls : List Nat) (d : Disk), NameIn d.fs p dt core suf →
      d.fs.kindOf (p ++ [core ++ '.' :: suf]) ≠ some .dir →
      (∀ l ∈ ls, (l : Int) < lyrs ∧ d.fs.kindOf (p ++ [layerCore core lyrs l ++ '.' :: suf]) ≠ some .dir ∧
        ∃ c, content fmt suf h (some (layerOf full fsize lyrs l)) = .ok (some c)) →
      ∃ b d', fullsizeLoop env fmt (some full) fsize lyrs (dt ++ core ++ '.' :: suf) h true ls d = .ok (b, d') ∧ SameDirs d d' ∧
        (b = true ↔ ∀ l ∈ ls, env.gdal (p ++ [layerCore core lyrs l ++ '.' :: suf]) = true)
  | [], d, hn, _, _ => ⟨true, d, rfl, ⟨hn.wf, fun _ => Iff.rfl⟩, by simp⟩
  | l :: ls, d, hn, hnd, ha => by
    obtain ⟨a1, a2, c, a3⟩ := ha l (by simp)
    have hname : appendCoreFileNameInt d.fs (dt ++ core ++ '.' :: suf) ((l : Int) + 1) '_' = dt ++ layerCore core lyrs l ++ '.' :: suf := by
      rw [(C53_rename_int d.fs hn.wf p dt core suf hn.dir hn.core hn.suf.1 hn.suf.2.1 hn.suf.2.2 hnd _ '_').1]
      unfold layerCore
      rw [if_neg (by omega)]
    obtain ⟨d1, w1, w2⟩ := tif_result (env := env) (nameIn_core hn (layerCore_slash hn.core lyrs l)) hsuf a2 a3
    rw [fullsizeLoop, deint_eq hf (by omega) hlen a1, Out.ok_bind]
    simp only [if_true]
    rw [hname, w1, Out.ok_bind]
    cases hgd : env.gdal (p ++ [layerCore core lyrs l ++ '.' :: suf])
    · refine ⟨false, d1, loop_false _ _ (fun m hm => ⟨_, deint_eq hf (by omega) hlen (ha m (by simp [hm])).1⟩), w2, ?_⟩
      constructor
      · intro hx; cases hx
      · intro hx
        rw [hx l (by simp)] at hgd
        cases hgd
    · obtain ⟨b, d', e, w3, w4⟩ := layer_result hsuf hf hl hlen ls d1 (w2.nameIn hn) (fun hh => hnd ((w2.dir _).1 hh)) (fun m hm => by
        obtain ⟨b1, b2, b3⟩ := ha m (by simp [hm])
        exact ⟨b1, fun hh => b2 ((w2.dir _).1 hh), b3⟩)
      refine ⟨b, d', e, w2.trans w3, ?_⟩
      rw [w4]
      simp [hgd]

theorem fullsize_result {env : Env} {fmt : Fmt} {d : Disk} {p : Path} {dt core suf : Str} (hn : NameIn d.fs p dt core suf) (hsuf : IsTifSuffix suf)
    (hnd : d.fs.kindOf (p ++ [core ++ '.' :: suf]) ≠ some .dir) {full : List ℚ} {fsize lyrs : Int} (hf : 0 < fsize) (hl : 1 ≤ lyrs)
    (hlen : (full.length : Int) = fsize * lyrs) {h : Header}
    (ha : ∀ l : Nat, (l : Int) < lyrs → d.fs.kindOf (p ++ [layerCore core lyrs l ++ '.' :: suf]) ≠ some .dir ∧
        ∃ c, content fmt suf h (some (layerOf full fsize lyrs l)) = .ok (some c)) :
    ∃ b d', fullsizeToFiles env fmt d (some full) fsize lyrs (dt ++ core ++ '.' :: suf) h = .ok (b, d') ∧ SameDirs d d' ∧
      (b = true ↔ ∀ l : Nat, (l : Int) < lyrs → env.gdal (p ++ [layerCore core lyrs l ++ '.' :: suf]) = true) := by
  unfold fullsizeToFiles
  rw [if_neg (by simp), if_neg (by omega)]
  by_cases h1 : lyrs = 1
  · subst h1
    rw [if_pos rfl]
    obtain ⟨a1, c, a2⟩ := ha 0 (by omega)
    rw [layerOf_one (by omega)] at a2
    obtain ⟨d1, w1, w2⟩ := tif_result (env := env) (nameIn_core hn (layerCore_slash hn.core 1 0)) hsuf a1 a2
    refine ⟨_, d1, w1, w2, ?_⟩
    constructor
    · intro hx l hl2
      have : l = 0 := by omega
      subst this
      exact hx
    · intro hx
      exact hx 0 (by omega)
  · rw [if_neg h1]
    obtain ⟨b, d', e, w1, w2⟩ := layer_result (env := env) hsuf hf (by omega) hlen (List.range lyrs.toNat) d hn hnd (fun l hl2 => by
      have := List.mem_range.1 hl2
      have hll : (l : Int) < lyrs := by omega
      exact ⟨hll, ha l hll⟩)
    refine ⟨b, d', e, w1, ?_⟩
    rw [w2]
    constructor
    · intro hx l hl2
      exact hx l (List.mem_range.2 (by omega))
    · intro hx l hl2
      have := List.mem_range.1 hl2
      exact hx l (by omega)

theorem sub_false {env : Env} {fmt : Fmt} {name : Str} {r : Raster} {oo : Bool} {recls : IMap (List ℚ)} {dv : ℚ} :
    ∀ (subs : IMap Subset) (d : Disk), (∀ e ∈ subs, ∃ x, subPayload r e.1 e.2 oo recls dv = .ok x) →
      subLoop env fmt r name oo recls dv false subs d = .ok (false, d)
  | [], d, _ => rfl
  | e :: subs, d, h => by
    obtain ⟨x, ex⟩ := h e (by simp)
    rw [subLoop, ex, Out.ok_bind]
    have ih := sub_false (env := env) (fmt := fmt) (name := name) subs d (fun m hm => h m (by simp [hm]))
    cases x with
    | none => exact ih
    | some y => simpa using ih

theorem sub_result {env : Env} {fmt : Fmt} {p : Path} {dt core suf : Str} (hsuf : IsTifSuffix suf)
    {r : Raster} {oo : Bool} {recls : IMap (List ℚ)} {dv : ℚ} {lyrs : Int} (hl : 1 ≤ lyrs) (H : Int → Header) (F : Int → List ℚ) (N : Int → Int) :
    ∀ (subs : IMap Subset) (d : Disk), NameIn d.fs p dt core suf → d.fs.kindOf (p ++ [core ++ '.' :: suf]) ≠ some .dir →
      (∀ e ∈ subs, subPayload r e.1 e.2 oo recls dv = .ok (some (H e.1, some (F e.1), N e.1, lyrs)) ∧ 0 < N e.1 ∧
        ((F e.1).length : Int) = N e.1 * lyrs ∧ d.fs.kindOf (p ++ [subsetCore e.1 core ++ '.' :: suf]) ≠ some .dir ∧
        ∀ l : Nat, (l : Int) < lyrs → d.fs.kindOf (p ++ [layerCore (subsetCore e.1 core) lyrs l ++ '.' :: suf]) ≠ some .dir ∧
          ∃ c, content fmt suf (H e.1) (some (layerOf (F e.1) (N e.1) lyrs l)) = .ok (some c)) →
      ∃ b d', subLoop env fmt r (dt ++ core ++ '.' :: suf) oo recls dv true subs d = .ok (b, d') ∧
        (b = true ↔ ∀ e ∈ subs, ∀ l : Nat, (l : Int) < lyrs → env.gdal (p ++ [layerCore (subsetCore e.1 core) lyrs l ++ '.' :: suf]) = true)
  | [], d, hn, _, _ => ⟨true, d, rfl, by simp⟩
  | e :: subs, d, hn, hnd, ha => by
    obtain ⟨a1, a2, a3, a4, a5⟩ := ha e (by simp)
    have hname : prefixCoreFileNameInt d.fs (dt ++ core ++ '.' :: suf) e.1 '_' = dt ++ subsetCore e.1 core ++ '.' :: suf :=
      (C53_rename_int d.fs hn.wf p dt core suf hn.dir hn.core hn.suf.1 hn.suf.2.1 hn.suf.2.2 hnd _ '_').2
    obtain ⟨b1, d1, w1, w2, w3⟩ := fullsize_result (env := env) (nameIn_core hn (subsetCore_slash hn.core e.1)) hsuf a4 a2 hl a3 a5
    rw [subLoop, a1, Out.ok_bind]
    dsimp only
    simp only [if_true]
    rw [hname, w1, Out.ok_bind]
    cases b1
    · refine ⟨false, d1, sub_false _ _ (fun m hm => ⟨_, (ha m (by simp [hm])).1⟩), ?_⟩
      constructor
      · intro hx; cases hx
      · intro hx
        exact absurd (w3.2 (hx e (by simp))) (by simp)
    · obtain ⟨b, d', e', w4⟩ := sub_result hsuf hl H F N subs d1 (w2.nameIn hn) (fun hh => hnd ((w2.dir _).1 hh)) (fun m hm => by
        obtain ⟨b1, b2, b3, b4, b5⟩ := ha m (by simp [hm])
        exact ⟨b1, b2, b3, fun hh => b4 ((w2.dir _).1 hh), fun l hl2 => ⟨fun hh => (b5 l hl2).1 ((w2.dir _).1 hh), (b5 l hl2).2⟩⟩)
      refine ⟨b, d', e', ?_⟩
      rw [w4]
      have := w3.1 rfl
      constructor
      · intro hx m hm l hl2
        rcases List.mem_cons.1 hm with rfl | hm
        · exact this l hl2
        · exact hx m hm l hl2
      · intro hx m hm
        exact hx m (List.mem_cons_of_mem _ hm)

/-- C75, failures (GeoTIFF): whatever GDAL does, the call ends normally, and it returns true exactly if GDAL wrote every file. -/
theorem C75_subsets_result {env : Env} {fmt : Fmt} {d : Disk} {r : Raster} (hb : Built r) {groups : List (Int × Int)} {rs' : RasterS} {b : Bool}
    (e : buildSubSet ⟨r, []⟩ groups = .ok (rs', b)) (hne : rs'.subs ≠ []) (h2 : r.is2d = true → 1 < r.nLyrs)
    {p : Path} {dt core suf : Str} (hn : NameIn d.fs p dt core suf) (hsuf : IsTifSuffix suf) (hty : SameType fmt)
    (hnd : d.fs.kindOf (p ++ [core ++ '.' :: suf]) ≠ some .dir) {dv : ℚ}
    (hdir : ∀ k s, rs'.subs.get k = some s → d.fs.kindOf (p ++ [subsetCore k core ++ '.' :: suf]) ≠ some .dir ∧
      ∀ l : Nat, (l : Int) < r.nLyrs → d.fs.kindOf (p ++ [layerCore (subsetCore k core) r.nLyrs l ++ '.' :: suf]) ≠ some .dir)
    (hh : ∀ k s, rs'.subs.get k = some s → CarriesHeader suf (s.getHeader r.hdr.xll r.hdr.yll r.hdr.rows r.hdr.cellsize r.noData))
    (hv : ∀ row col lyr v, 0 ≤ row → row < r.hdr.rows → 0 ≤ col → col < r.hdr.cols → 1 ≤ lyr → lyr ≤ r.nLyrs →
      r.getValue row col lyr = .ok v → CarriesValue fmt suf v) (hnv : CarriesValue fmt suf r.noData) :
    ∃ ok d', outputSubsetToFile env fmt d rs' true false (dt ++ core ++ '.' :: suf) [] dv = .ok (ok, d') ∧
      (ok = true ↔ ∀ k s (l : Nat), rs'.subs.get k = some s → (l : Int) < r.nLyrs →
        env.gdal (p ++ [layerCore (subsetCore k core) r.nLyrs l ++ '.' :: suf]) = true) := by
  obtain ⟨hsorted, hvalid, hL, pay⟩ := subset_pay hb e hne h2 hn (.inr hsuf) (fun _ => hty) dv hh hv hnv
  have hget : ∀ x ∈ rs'.subs, rs'.subs.get x.1 = some x.2 := fun x hx => (IMap.mem_iff_get _ hsorted _ _).1 hx
  choose H F N cs hP using pay
  obtain ⟨ok, d', o1, o2⟩ := sub_result (env := env) (fmt := fmt) (r := rs'.ras) (oo := true) (recls := []) (dv := dv) hsuf hL H F N rs'.subs d hn hnd
    (fun x hx => by
      have hk := hget x hx
      obtain ⟨a1, a2, a3, -, -, -, -, -, -, a4, -⟩ := hP x.1 x.2 hk
      exact ⟨a1, a2, a3, (hdir _ _ hk).1, fun l hl => ⟨(hdir _ _ hk).2 l hl, _, (a4 l hl).1⟩⟩)
  refine ⟨ok, d', ?_, ?_⟩
  · unfold outputSubsetToFile
    rw [hvalid]
    simp only [Bool.not_true, Bool.false_eq_true, if_false]
    rw [if_neg hne]
    exact o1
  · rw [o2]
    constructor
    · intro hx k s l hk hl
      exact hx (k, s) ((IMap.mem_iff_get _ hsorted _ _).2 hk) l hl
    · intro hx m hm l hl
      exact hx m.1 m.2 l (hget m hm) hl

/-! ## Examples -/

/-- A directory `/w`, possibly with a file `a.asc` that cannot be removed. -/
def exDir (old : Bool) : FS where
  entries := if old then [([['w']], .dir), ([['w'], "a.asc".toList], .file)] else [([['w']], .dir)]
  cwd := []
  deny := fun p => old && decide (p = [['w'], "a.asc".toList])

theorem exDir_wf : WF (exDir false) := by
  refine ⟨by decide, by decide, ?_, by decide⟩
  unfold GoodName
  decide

def exFmt : Fmt := ⟨fun q => intToDec q.num, true, id, .double, .unknown⟩
def exHdr : Header := { rows := 1, cols := 2, xll := 0, yll := 0, cellsize := 1, noData := -9999, layers := 1, cellsnum := 2 }
/-- A disk with an old ASCII file. -/
def exOldDisk (t : Str) : Disk := ⟨exDir true, fun p => if p = [['w'], "a.asc".toList] then some (.asc t) else none⟩
def exNewDisk : Disk := ⟨exDir false, fun _ => none⟩
def okEnv : Env := ⟨fun _ => false, fun _ _ => none, fun _ => true, fun _ => none⟩
/-- The disk is full after `n` characters of the second text. -/
def cutEnv (n : Nat) : Env := ⟨fun _ => false, fun _ i => if i = 1 then some n else none, fun _ => true, fun _ => none⟩

/-- C75 is false if an old ASCII file cannot be removed (but written): the new grid is appended to the old one, true is returned, and
the file cannot be read any more. -/
theorem C75_false_append :
    ((writeAsc exFmt.pr exHdr (some [1, 2])).bind fun told => (writeAsc exFmt.pr exHdr (some [7, 8])).bind fun tnew =>
      (writeRaster okEnv exFmt (exOldDisk told) "/w/a.asc".toList exHdr (some [7, 8])).bind fun w =>
      (readFromFile w.2 "/w/a.asc".toList false 0).bind fun x =>
        .ok (w.1, decide (w.2.data [['w'], "a.asc".toList] = some (.asc (told ++ tnew))), x.isSome)) = .ok (true, true, false) := by
  decide +kernel

/-- C75 is false if the disk is full: a truncated ASCII file is reported as written, and it reads back without complaint with other
values (8888 becomes 8; a missing value becomes NoData). -/
theorem C75_false_disk_full :
    ((writeRaster (cutEnv 3) exFmt exNewDisk "/w/a.asc".toList exHdr (some [7, 8888])).bind fun w =>
      (readFromFile w.2 "/w/a.asc".toList false 0).bind fun x => .ok (w.1, x.map (fun r => r.raster1))) = .ok (true, some (some [7, 8])) ∧
    ((writeRaster (cutEnv 1) exFmt exNewDisk "/w/a.asc".toList exHdr (some [7, 8888])).bind fun w =>
      (readFromFile w.2 "/w/a.asc".toList false 0).bind fun x => .ok (w.1, x.map (fun r => r.raster1))) = .ok (true, some (some [7, -9999])) := by
  decide +kernel

theorem prints_int (n : Int) : Prints exFmt.pr id (n : ℚ) := by
  have h := intToDec_prints n
  have e : exFmt.pr (n : ℚ) = intToDec n := by show intToDec ((n : ℚ)).num = _; rw [Rat.num_intCast]
  exact ⟨by rw [e]; exact h.text, by rw [e]; exact h.ne, by rw [e]; exact h.chars, by rw [e]; exact h.head⟩

theorem exMask_values {row col lyr : Int} {v : ℚ} (h1 : 0 ≤ row) (h2 : row < exMask.hdr.rows) (h3 : 0 ≤ col) (h4 : col < exMask.hdr.cols) (h5 : 1 ≤ lyr)
    (h6 : lyr ≤ exMask.nLyrs) (h : exMask.getValue row col lyr = .ok v) : ∃ n : Int, v = n := by
  have e1 : exMask.hdr.rows = 2 := by decide +kernel
  have e2 : exMask.hdr.cols = 3 := by decide +kernel
  have e3 : exMask.nLyrs = 1 := by decide +kernel
  have hall : ∀ i ∈ [(0 : Int), 1], ∀ j ∈ [(0 : Int), 1, 2], ∃ n ∈ [(1 : Int), 2, 3, -9999], exMask.getValue i j 1 = .ok (n : ℚ) := by decide +kernel
  have : lyr = 1 := by omega
  subst this
  have a1 : row = 0 ∨ row = 1 := by omega
  have a2 : col = 0 ∨ col = 1 ∨ col = 2 := by omega
  obtain ⟨n, -, hn⟩ := hall row (by rcases a1 with rfl | rfl <;> simp) col (by rcases a2 with rfl | rfl | rfl <;> simp)
  rw [hn] at h
  injection h with h
  exact ⟨n, h.symm⟩

theorem six_int {n : Int} (h : n.natAbs < 10 ^ 6) : SixSig (n : ℚ) := ⟨n, 0, h, by simp⟩

theorem exFmt_carries (suf : Str) (n : Int) : CarriesValue exFmt suf (n : ℚ) :=
  ⟨fun _ => prints_int n, fun _ h => by cases h⟩

theorem exName (core suf : Str) (hc : '/' ∉ core) (hs : suf ≠ [] ∧ '.' ∉ suf ∧ '/' ∉ suf) : NameIn exNewDisk.fs [['w']] "/w/".toList core suf :=
  ⟨exDir_wf, ⟨by unfold GoodName; decide, by decide⟩, hc, hs, by decide⟩

theorem exKind (n : Str) : exNewDisk.fs.kindOf ([['w']] ++ [n]) = none := by
  show (exDir false).kindOf _ = none
  unfold FS.kindOf exDir
  simp

theorem exWritable (n : Str) : Writable okEnv exNewDisk.fs ([['w']] ++ [n]) :=
  ⟨by rw [exKind]; simp, rfl, rfl, fun _ => rfl, rfl⟩

theorem exAsc : IsAscSuffix "asc".toList := (stringMatch_iff _ _).1 (by decide)
theorem exTif : IsTifSuffix "tif".toList := (stringMatch_iff _ _).1 (by decide)

/-- The subsets of the example mask are written to the empty directory `/w`; the file of subset 2 reads back as its rectangle. -/
example : ∃ d', outputSubsetToFile okEnv exFmt exNewDisk exSubs.1 true false "/w/a.asc".toList [] 0 = .ok (true, d') := by
  have hsubs : exSubs.1.subs.map (fun e => (e.1, e.2.srow, e.2.erow, e.2.scol, e.2.ecol)) = [(1, 0, 1, 0, 2), (2, 0, 1, 1, 2)] := by decide +kernel
  have hk : ∀ k s, exSubs.1.subs.get k = some s → s.srow = 0 ∧ s.erow = 1 ∧ 0 ≤ s.scol ∧ s.scol ≤ 1 ∧ s.ecol = 2 := by
    intro k s hks
    have hm := List.mem_map_of_mem (f := fun e : Int × Subset => (e.1, e.2.srow, e.2.erow, e.2.scol, e.2.ecol)) (IMap.get_mem hks)
    rw [hsubs] at hm
    simp only [List.mem_cons, Prod.mk.injEq, List.not_mem_nil, or_false] at hm
    omega
  obtain ⟨d', o, -, -⟩ := C75_subsets_partial (env := okEnv) (fmt := exFmt) (d := exNewDisk) exMask_built exSubs_eq (by decide +kernel) (by decide +kernel)
    (exName "a".toList "asc".toList (by decide) (by decide)) (.inl exAsc) (fun ht => (asc_not_tif exAsc ht).elim) (by rw [exKind]; simp)
    (dv := 0) (fun k s _ => by rw [exKind]; simp) (fun k s l _ _ => exWritable _)
    (by
      intro k s hks
      obtain ⟨h1, h2, h3, h4, h5⟩ := hk k s hks
      have hsc : s.scol = 0 ∨ s.scol = 1 := by omega
      unfold Subset.getHeader
      have e1 : exMask.hdr.xll = 0 := by decide +kernel
      have e2 : exMask.hdr.yll = 0 := by decide +kernel
      have e3 : exMask.hdr.rows = 2 := by decide +kernel
      have e4 : exMask.hdr.cellsize = 1 := by decide +kernel
      have e5 : exMask.noData = -9999 := by decide +kernel
      rw [e1, e2, e3, e4, e5, h1, h2, h5]
      have six0 : SixSig 0 := ⟨0, 0, by decide, by norm_num⟩
      have six1 : SixSig 1 := ⟨1, 0, by decide, by norm_num⟩
      have six9 : SixSig (-9999) := ⟨-9999, 0, by decide, by norm_num⟩
      unfold CarriesHeader
      rcases hsc with h | h <;> rw [h] <;> norm_num <;> intro _ <;> simp [six0, six1, six9])
    (fun row col lyr v h1 h2 h3 h4 h5 h6 h7 => by
      obtain ⟨n, rfl⟩ := exMask_values h1 h2 h3 h4 h5 h6 h7
      exact exFmt_carries _ n) (by
      have : exMask.noData = ((-9999 : Int) : ℚ) := by decide +kernel
      rw [this]
      exact exFmt_carries _ _)
  exact ⟨d', o⟩

/-- The whole example mask is written as GeoTIFF and read back. -/
example : ∃ d' r', outputToFile okEnv exFmt exNewDisk ⟨exMask, []⟩ "/w/a.tif".toList true = .ok (⟨exMask, []⟩, true, d') ∧
    readFromFile d' "/w/a.tif".toList false 0 = .ok (some r') ∧ r'.getValue 1 2 1 = .ok 3 := by
  obtain ⟨d', o, -, hr⟩ := C75_whole_tif_partial (env := okEnv) (fmt := exFmt) (d := exNewDisk) exMask_built (by decide +kernel) (by decide +kernel) []
    (exName "a".toList "tif".toList (by decide) (by decide)) exTif ⟨by decide, .inl rfl⟩ (by rw [exKind]; simp) (fun l _ => exWritable _)
    ⟨by decide +kernel, by decide +kernel, fun ha => (asc_not_tif ha exTif).elim⟩
    (fun row col lyr v h1 h2 h3 h4 h5 h6 h7 => by
      obtain ⟨n, rfl⟩ := exMask_values h1 h2 h3 h4 h5 h6 h7
      exact exFmt_carries _ n) (by
      have : exMask.noData = ((-9999 : Int) : ℚ) := by decide +kernel
      rw [this]
      exact exFmt_carries _ _)
  obtain ⟨v, hR, hv⟩ := hr 0 (by decide +kernel)
  obtain ⟨r', a0, -, -, -, -, -, -, -, -, a8⟩ := hR false 0 (by simp)
  refine ⟨d', r', o, a0, ?_⟩
  rw [a8 1 2 (by decide) (by decide +kernel) (by decide) (by decide +kernel)]
  have h3 : exMask.getValue 1 2 1 = .ok 3 := by decide +kernel
  have := hv 1 2 (by decide) (by decide +kernel) (by decide) (by decide +kernel)
  rw [show ((0 : Nat) : Int) + 1 = 1 from rfl, h3] at this
  injection this with this
  simp [← this]

/-- The whole example mask is written as an ASCII file and read back. -/
example : ∃ d' r', outputToFile okEnv exFmt exNewDisk ⟨exMask, []⟩ "/w/a.asc".toList true = .ok (⟨exMask, []⟩, true, d') ∧
    readFromFile d' "/w/a.asc".toList true 0 = .ok (some r') ∧ r'.getValue 1 2 1 = .ok 3 := by
  have six0 : SixSig 0 := ⟨0, 0, by decide, by norm_num⟩
  have six1 : SixSig 1 := ⟨1, 0, by decide, by norm_num⟩
  have six9 : SixSig (-9999) := ⟨-9999, 0, by decide, by norm_num⟩
  have hh : exMask.hdr = ⟨2, 3, 1, 0, 0, -9999, 1, 6⟩ := by decide +kernel
  obtain ⟨d', o, -, hr⟩ := C75_whole_asc_partial (env := okEnv) (fmt := exFmt) (d := exNewDisk) exMask_built (by decide +kernel) (by decide +kernel) []
    (exName "a".toList "asc".toList (by decide) (by decide)) exAsc (by rw [exKind]; simp) (fun l _ => exWritable _)
    (by rw [hh]; exact ⟨by decide, by decide, fun _ => ⟨by decide, by norm_num, by norm_num, by norm_num, six0, six0, six1, six9⟩⟩) (fun _ => .inl (by decide +kernel))
    (fun row col lyr v h1 h2 h3 h4 h5 h6 h7 => by
      obtain ⟨n, rfl⟩ := exMask_values h1 h2 h3 h4 h5 h6 h7
      exact exFmt_carries _ n) (by
      have : exMask.noData = ((-9999 : Int) : ℚ) := by decide +kernel
      rw [this]
      exact exFmt_carries _ _)
  obtain ⟨v, hR, hv⟩ := hr 0 (by decide +kernel)
  have h3 : exMask.getValue 1 2 1 = .ok 3 := by decide +kernel
  have := hv 1 2 (by decide) (by decide +kernel) (by decide) (by decide +kernel)
  rw [show ((0 : Nat) : Int) + 1 = 1 from rfl, h3] at this
  injection this with this
  have hne : floatEqual 3 exMask.hdr.noData = false := by decide +kernel
  obtain ⟨r', a0, -, -, -, -, -, -, -, -, a8⟩ := hR true 0 (fun _ => ⟨1, 2, by decide, by decide +kernel, by decide, by decide +kernel, by rw [← this]; exact hne⟩)
  refine ⟨d', r', o, a0, ?_⟩
  rw [a8 1 2 (by decide) (by decide +kernel) (by decide) (by decide +kernel), ← this, hne]
  simp

/-- The subsets of the example mask are reclassified (subset 1: 10, subset 2: 20) into `/w/0_a.tif`. -/
example : ∃ d' r', outputSubsetToFile okEnv exFmt exNewDisk exSubs.1 false true "/w/a.tif".toList [(1, [10]), (2, [20])] (-9999) = .ok (true, d') ∧
    readFromFile d' "/w/0_a.tif".toList false 0 = .ok (some r') ∧ r'.getValue 1 2 1 = .ok 10 := by
  have hval : ∀ k l, ∃ n : Int, tableValue [(1, [10]), (2, [20])] k l (fillValue exMask (-9999)) = n := by
    intro k l
    have hd : fillValue exMask (-9999) = ((-9999 : Int) : ℚ) := by decide +kernel
    rw [hd]
    unfold tableValue
    cases hf : ([(1, [10]), (2, [20])] : List (Int × List ℚ)).find? (fun e => decide (e.1 = k)) with
    | none => exact ⟨-9999, rfl⟩
    | some e =>
      have hm := List.mem_of_find?_eq_some hf
      dsimp only
      simp only [List.mem_cons, List.not_mem_nil, or_false] at hm
      rcases hm with rfl | rfl
      · cases hl : l.toNat with
        | zero => exact ⟨10, by simp⟩
        | succ n => exact ⟨-9999, by simp⟩
      · cases hl : l.toNat with
        | zero => exact ⟨20, by simp⟩
        | succ n => exact ⟨-9999, by simp⟩
  obtain ⟨d', o, -, hr⟩ := C75_reclass_partial (env := okEnv) (fmt := exFmt) (d := exNewDisk) exMask_built exSubs_eq (by decide +kernel) (recls := [(1, [10]), (2, [20])]) (m := 1)
    ⟨by simp, by decide, by simp⟩
    (exName "a".toList "tif".toList (by decide) (by decide)) (.inr exTif) (fun _ => ⟨by decide, .inl rfl⟩) (by rw [exKind]; simp) (by rw [exKind]; simp) (fun l _ => exWritable _)
    ⟨by decide +kernel, by decide +kernel, fun ha => (asc_not_tif ha exTif).elim⟩ (dv := -9999)
    (fun k l => by
      obtain ⟨n, hn⟩ := hval k l
      rw [hn]
      exact exFmt_carries _ n) (by
      have : exMask.noData = ((-9999 : Int) : ℚ) := by decide +kernel
      rw [this]
      exact exFmt_carries _ _)
  obtain ⟨v, hR, hv⟩ := hr 0 (by decide)
  obtain ⟨r', a0, -, -, -, -, -, -, -, -, a8⟩ := hR false 0 (by simp)
  have en : "/w/".toList ++ layerCore (subsetCore 0 "a".toList) 1 0 ++ '.' :: "tif".toList = "/w/0_a.tif".toList := by decide +kernel
  rw [en] at a0
  refine ⟨d', r', o, a0, ?_⟩
  rw [a8 1 2 (by decide) (by decide +kernel) (by decide) (by decide +kernel)]
  have := (hv 1 2 (by decide) (by decide +kernel) (by decide) (by decide +kernel)).1 3 ⟨by decide +kernel, by decide +kernel⟩
  have ht : tableValue [(1, [10]), (2, [20])] (subsetId [(3, 1)] 3) ((0 : Nat) : Int) (fillValue exMask (-9999)) = 10 := by decide +kernel
  rw [ht] at this
  simp [this]

end Disk
end CCGL
