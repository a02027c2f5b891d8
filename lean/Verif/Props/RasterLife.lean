import Verif.Lemmas.RasterLife9
/-!
# C80: rasters, masks and subsets release every array once
-/
namespace CCGL
namespace Life
open Spec

/-- C80: a program that keeps to the contract runs, whatever the data decide: no array is released twice or used after its release, no exception
leaves a call; afterwards every array belongs to exactly one raster, no raster points to a released array, and all arrays of every raster that has not been deleted
can be accessed. Two nested position calculations fit on the stack. -/
theorem C80_safe (d : Nat) (ops : List Op) (h : Disciplined (d + 2) start ops) :
    ∃ w, run (d + 2) start ops = .ok w ∧ NoLeak w ∧ Separate w ∧ NoDangling w ∧ ∀ i, w.objs i ≠ none → use w i = .ok () := by
  obtain ⟨w, e, hw⟩ := run_ok ops start_inv d h
  refine ⟨w, e, hw.h.all, hw.h.uniq, ?_, ?_⟩
  · intro i o f a ho hp
    obtain ⟨b, hb, _⟩ := hw.h.live i o f a ho hp
    rw [hb]; simp
  · intro i hi
    obtain ⟨o, ho⟩ := Option.ne_none_iff_exists'.1 hi
    exact use_ok hw.h ho

/-- C80: when all rasters of such a program have been deleted, all memory has been released. -/
theorem C80_noleak (d : Nat) (ops : List Op) (h : Disciplined (d + 2) start ops) {w : World} (e : run (d + 2) start ops = .ok w)
    (hd : ∀ i, w.objs i = none) (a : Addr) : w.heap a = none := by
  obtain ⟨w', e', hl, _⟩ := C80_safe d ops h
  rw [e] at e'; cases e'
  by_contra hne
  obtain ⟨i, f, o, ho, _⟩ := hl a hne
  rw [hd i] at ho; cases ho

/-- C80: a call within the contract changes its own raster only; the mask it consults may get positions and statistics, but keeps the positions it had, its mask, its data and its
subsets. -/
theorem C80_frame (d : Nat) (ops : List Op) (h : Disciplined (d + 2) start ops) {w : World} (e : run (d + 2) start ops = .ok w) {op : Op}
    (ha : Allowed w op) : ∃ w', step (d + 2) w op = .ok w' ∧ ∀ j, j ≠ op.target →
      w'.objs j = w.objs j ∨ (op.maskIn w = some j ∧ ∃ o o', w.objs j = some o ∧ w'.objs j = some o' ∧ o'.mask = o.mask ∧ o'.valid = o.valid ∧
        o'.subs = o.subs ∧ (∀ k f, o'.ptr (.sub k f) = o.ptr (.sub k f)) ∧ ∀ f, f.isPos = true → o.ptr f ≠ none → o'.ptr f = o.ptr f) := by
  obtain ⟨w0, e0, hw⟩ := run_ok ops start_inv d h
  rw [e] at e0; cases e0
  obtain ⟨w', e', _, fr⟩ := step_ok hw ha d
  refine ⟨w', e', fun j hj => ?_⟩
  rcases fr j hj with a | ⟨a, o, o', b1, b2, k⟩
  · exact Or.inl a
  · exact Or.inr ⟨a, o, o', b1, b2, k.mask, k.valid, k.subs, k.subp, fun f hf hn => k.keep f hf (Option.isSome_iff_ne_none.2 hn)⟩

/-! ## Histories that keep to the contract -/

/-- What the data say in the examples: 4 cells, all valid, the mask covers the raster. -/
def exSees : Sees where
  valid := 4
  maskValid := 4
  masked := 4
  exact := true
  within := true
  kept := 4
  full := 4
  same := true
  groups := [(1, 3), (2, 1)]
  left := fun _ => 1

/-- Reading a file with mask `m`. -/
def exRead (m : Option Id) (s : Sees) : ReadArgs where
  mask := m
  calcPos := true
  ext := true
  asc := true
  out := .cells
  sees := s

/-- The data of a raster that does not cover the mask: own positions, the subsets are checked. -/
def exPart : Sees := { exSees with masked := 3, exact := false, within := false, kept := 2 }

/-- A file in GridFS with as many cells as the mask has valid ones. -/
def exStored (all compact two : Bool) : Stored := ⟨true, all, compact, true, two⟩

/-- How a program ends: the numbers of arrays that are left and of rasters that are left among the first `n`. -/
inductive End where
  | ok (arrays rasters : Nat)
  | ub
  | exn
deriving DecidableEq

def ending (n : Nat) (ops : List Op) : End :=
  match run 2 start ops with
  | .ok w => .ok ((List.range w.next).countP (fun a => (w.heap a).isSome)) ((List.range n).countP (fun i => (w.objs i).isSome))
  | .ub => .ub
  | .exn => .exn

/-- A program with all kinds of calls; the masks are deleted last. -/
def exProg : List Op := [.newArray 0 false 4, .build 0 exSees, .init 1 false (exRead (some 0) exSees), .use 1, .calcStats 1, .setData 1 2 true,
  .newArray 2 true 3, .calcStats 2, .updateStats 2, .getStat 2 3, .getPositions 2 exSees, .init 3 true (exRead (some 0) exPart), .rebuild 3 exSees,
  .newCopy 4 1, .setData 4 1 false, .newEmpty 5 false, .readGfs 5 (some 0) true true (exStored false true true) exSees, .newMask 6 0 true true exSees, .build 6 exSees,
  .releaseSubset 6, .newEmpty 7 true, .copy 7 2, .calcStats 7, .newEmpty 8 false, .read 8 (exRead none exSees), .setCalc 8 exSees, .setExt 8 exSees,
  .newEmpty 9 false, .readFiles 9 (exRead (some 8) exPart), .init 10 false { exRead (some 0) exSees with out := .freed }]

def exEnd : List Op := [.use 9, .delete 9, .delete 8, .delete 7, .delete 6, .delete 5, .delete 4, .delete 3, .delete 2, .delete 1, .delete 0]

/-- C80 is not empty: a program with calls of all kinds keeps to the contract. -/
theorem C80_example : Disciplined 2 start (exProg ++ exEnd) := discB_sound (d := 0) (n := 11) _ start_inv (fun _ _ => rfl) (by decide +kernel)

/-- C80: it uses many arrays, and leaves none. -/
theorem C80_example_arrays : ending 11 exProg = .ok 69 10 ∧ ending 11 (exProg ++ exEnd) = .ok 0 0 := by decide +kernel

/-! ## What happens outside of the contract -/

/-- The mask and a raster that shares its positions. -/
def exShare : List Op := [.newArray 0 false 4, .init 1 false (exRead (some 0) exSees)]

/-- C80: a mask that is deleted before a raster which shares its positions leaves that raster with pointers to released arrays. -/
theorem C80_mask_first : ending 2 (exShare ++ [.use 1]) = .ok 4 2 ∧ ending 2 (exShare ++ [.delete 0, .use 1]) = .ub := by decide +kernel

/-- C80: `Copy` into a raster that shares the positions of its mask releases the arrays of the mask. -/
theorem C80_copy_shared : ending 3 (exShare ++ [.newArray 2 false 3, .copy 1 2]) = .ok 3 3 ∧
    ending 3 (exShare ++ [.newArray 2 false 3, .copy 1 2, .use 0]) = .ub := by decide +kernel

/-- C80: so does `SetUseMaskExt`. -/
theorem C80_setExt_shared : ending 2 [.newArray 0 false 4, .init 1 false { exRead (some 0) exSees with ext := false }, .use 0] = .ok 4 2 ∧
    ending 2 [.newArray 0 false 4, .init 1 false { exRead (some 0) exSees with ext := false }, .setExt 1 exSees, .use 0] = .ub := by decide +kernel

/-- C80: so does `SetCalcPositions` on a raster constructed from a mask and values. -/
theorem C80_setCalc_newMask : ending 2 [.newArray 0 false 4, .newMask 1 0 false true exSees, .use 0] = .ok 4 2 ∧
    ending 2 [.newArray 0 false 4, .newMask 1 0 false true exSees, .setCalc 1 exSees, .use 0] = .ub := by decide +kernel

/-- C80: `SetPositions` on a raster that shares positions releases the array of the mask; on a raster with its own positions it loses the index array: two arrays
are left, one of which is the one the program handed over. -/
theorem C80_setPositions : ending 2 (exShare ++ [.setPositions 1 .pos true, .use 0]) = .ub ∧
    ending 1 [.newArray 0 false 4, .setCalc 0 exSees, .setPositions 0 .pos true, .delete 0] = .ok 2 0 := by decide +kernel

/-- C80: reading a second file into a raster with GDAL loses the first array; with the ASCII reader it does not. -/
theorem C80_reread : ending 1 [.newEmpty 0 false, .read 0 { exRead none exSees with asc := false, calcPos := false }, .read 0 { exRead none exSees with asc := false, calcPos := false },
      .delete 0] = .ok 1 0 ∧
    ending 1 [.newEmpty 0 false, .read 0 { exRead none exSees with calcPos := false }, .read 0 { exRead none exSees with calcPos := false }, .delete 0] = .ok 0 0 := by
  decide +kernel

/-- C80: `ReadFromMongoDB` loses the data it has read when the numbers of cells do not fit, and when a compact file meets no mask. -/
theorem C80_gfs_leak : ending 1 [.newEmpty 0 false, .readGfs 0 none true false (exStored true true false) exSees, .delete 0] = .ok 1 0 ∧
    ending 1 [.newEmpty 0 false, .readGfs 0 none true false (exStored false true false) exSees, .delete 0] = .ok 1 0 := by decide +kernel

/-- C80: data in the subsets of a mask are lost when a raster read with it has to recalculate the subsets. -/
theorem C80_subset_data_leak :
    ending 2 [.newArray 0 false 4, .build 0 exSees, .init 1 false { exRead (some 0) exPart with ext := false }, .delete 1, .delete 0] = .ok 0 0 ∧
    ending 2 [.newArray 0 false 4, .build 0 exSees, .setData 0 1 false, .init 1 false { exRead (some 0) exPart with ext := false }, .delete 1, .delete 0] = .ok 1 0 := by
  decide +kernel

/-- C80: `Copy` of a raster with several layers and statistics into one whose statistics have been calculated throws. -/
theorem C80_copy_stats : ending 2 [.newArray 0 true 4, .calcStats 0, .newArray 1 true 3, .copy 1 0] = .ok 14 2 ∧
    ending 2 [.newArray 0 true 4, .calcStats 0, .newArray 1 true 3, .calcStats 1, .copy 1 0] = .exn := by decide +kernel

/-- C80: positions of a raster with several layers and no valid cell: the raster cannot be deleted. -/
theorem C80_no_valid : ending 1 [.newArray 0 true 4, .setCalc 0 { exSees with valid := 0 }] = .ok 2 1 ∧
    ending 1 [.newArray 0 true 4, .setCalc 0 { exSees with valid := 0 }, .delete 0] = .ub := by decide +kernel

end Life
end CCGL
