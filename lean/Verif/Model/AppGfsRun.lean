import Verif.Model.AppGfs
/-!
# Whole runs of `apps/mask_rasterio.cpp` with a database

As `App.run`, with one bucket that nobody else changes during the run. `-mongo` with a failing connection (`World.mongo`) leaves `use_mongo` unset;
files in GridFS are not looked at then, and the run is `App.runJobs` on files only.
-/
namespace CCGL
namespace App
open Fs Disk Main Gfs

/-- The outcomes of the driver when the mask is read: the two queries and the chunks. -/
structure MaskDb where
  ok1 : Nat → Bool
  ok2 : Nat → Bool
  rd : Bool

/-- apps/mask_rasterio.cpp:484-499: the mask, a file or a file in GridFS (`Init(gfs, mask_path)` with the default arguments); `exit 3` if it cannot be
read. -/
def loadMaskDb (sys : Sys) (md : MaskDb) (d : Disk) (st : Store) (c : Cfg) : Out (Res (Option RasterS)) :=
  if c.maskPath = [] then .ok (.go none)
  else if c.maskFmt = .sfile ∧ fileExists d.fs c.maskPath = true then do
    let x ← initFile d c.maskPath false none true NODATA
    match x.1 with
    | none => return .exit 3
    | some m => return .go (some m)
  else if c.maskFmt = .gfs ∧ c.useMongo = true then do
    let x ← Gfs.readFromMongo sys.rnd .double md.ok1 md.rd md.ok2 st c.maskPath false NODATA []
    match x with
    | none => return .exit 3
    | some r => return .go (some ⟨r, []⟩)
  else .ok (.go none)

/-- The jobs with the outcomes of the driver in each of them. -/
def withDb (dbs : Nat → JobDb) (js : List Job) : List (Job × JobDb) := js.mapIdx (fun i j => (j, dbs i))

/-- apps/mask_rasterio.cpp:165-664 `main`: exit code, disk and bucket. -/
noncomputable def runDb (sys : Sys) (w : World) (md : MaskDb) (dbs : Nat → JobDb) (d : Disk) (st : Store) (args : List Str) : Out (Nat × Disk × Store) := do
  let r ← configure w args
  match r with
  | .exit n => return (n, d, st)
  | .go c =>
    let js ← jobs c
    let m ← loadMaskDb sys md d st c
    match m with
    | .exit n => return (n, d, st)
    | .go mask =>
      let mask' ← prepareMask c.mode mask
      if c.useMongo then runJobsDb sys c.incNodata c.mode mask' d st (withDb dbs js)
      else do
        let x ← runJobs sys c.mode mask' d js
        return (x.1, x.2, st)

end App
end CCGL
