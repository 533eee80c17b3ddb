import Verif.Model.Tiff

/-!
# MultiImageTiff objects in memory

Model of `sumo-api/sumo/images/multi_image_tiff.pyx` with references.  Arrays and the caller's dicts are numbered in the order of
their creation, and so are `MultiImageTiff` objects.  A program is a list of operations.  The private attribute `_page_map` is
not used by callers.
-/

namespace Sumo
namespace Tiff

variable {K : Type} [Field K] [LinearOrder K] [FloorRing K]

/-- A `MultiImageTiff` object (`images/multi_image_tiff.pyx:16-34`): `_page_map` is a dict of the caller, or one that `load`
made and that nobody else refers to. -/
inductive MultiObj
  | shared (dict : ℕ)
  | own (items : Dict String ℕ)

/-- Memory and files.  The values of dicts are array numbers. -/
structure World (K : Type) where
  files : TiffFiles K
  arrays : List (NpImage K)
  dicts : List (Dict String ℕ)
  objs : List MultiObj

/-- What a caller can do.  `fill` stands for any change of an array in place (numpy). -/
inductive MultiOp (K : Type)
  | array (im : NpImage K)
  | fill (array : ℕ) (im : NpImage K)
  | dict (items : Dict String ℕ)
  | setItem (dict : ℕ) (key : String) (array : ℕ)
  | delItem (dict : ℕ) (key : String)
  | make (dict : ℕ)
  | save (obj : ℕ) (path : String) (near : Option K)
  | load (path : String) (options : List String)

/-- `self._page_map`. -/
def World.pageMap (w : World K) (o : ℕ) : Dict String ℕ :=
  match w.objs[o]? with
  | some (.shared d) => w.dicts[d]?.getD []
  | some (.own items) => items
  | none => []

/-- `_get_image` (`images/multi_image_tiff.pyx:62-64`): the array returned, or `None`.  The properties `rgb`, `range`, `category`
and `instance` (66-79) are this with `"rgb"`, `"depth"`, `"category"` and `"instance"`. -/
def World.getImage (w : World K) (o : ℕ) (key : String) : Option ℕ := (w.pageMap o).get? key

/-- The contents of the arrays of a page map, now.  (Array numbers in dicts are in range.) -/
def World.contents (w : World K) (items : Dict String ℕ) : Dict String (NpImage K) :=
  items.map fun kv => (kv.1, w.arrays[kv.2]?.getD .other)

/-- `MultiImageTiff.save` (`images/multi_image_tiff.pyx:36-44`). -/
def World.save (ρ : Rounding K) (writable : String → Bool) (w : World K) (o : ℕ) (path : String) (near : Option K) :
    World K × Except PyErr Unit :=
  let r := Tiff.save ρ writable w.files (w.contents (w.pageMap o)) path (near.getD defaultNear)
  ({ w with files := r.1 }, r.2)

/-- The arrays `load` makes, and the dict of their numbers. -/
def newItems (n : ℕ) (d : Dict String (NpImage K)) : Dict String ℕ := d.zipIdx.map fun x => (x.1.1, n + x.2)

/-- `MultiImageTiff.load` (`images/multi_image_tiff.pyx:46-59`).  `rgbd_tiff.load` has one parameter
(`images/rgbd_tiff.pyx:66`): any option is a `TypeError`. -/
def World.load (ρ : Rounding K) (w : World K) (path : String) (options : List String) : World K × Except PyErr Unit :=
  if options ≠ [] then (w, .error .typeError)
  else
    match Tiff.load ρ w.files path with
    | .error e => (w, .error e)
    | .ok d => ({ w with arrays := w.arrays ++ d.values, objs := w.objs ++ [.own (newItems w.arrays.length d)] }, .ok ())

/-- One operation.  An operation on something the program does not have does nothing. -/
def World.step (ρ : Rounding K) (writable : String → Bool) (w : World K) : MultiOp K → World K × Except PyErr Unit
  | .array im => ({ w with arrays := w.arrays ++ [im] }, .ok ())
  | .fill a im => ({ w with arrays := w.arrays.set a im }, .ok ())
  | .dict items => ({ w with dicts := w.dicts ++ [items] }, .ok ())
  | .setItem d k a => ({ w with dicts := w.dicts.modify d fun items => items.set k a }, .ok ())
  | .delItem d k => ({ w with dicts := w.dicts.modify d fun items => items.pop k }, .ok ())
  | .make d => if d < w.dicts.length then ({ w with objs := w.objs ++ [.shared d] }, .ok ()) else (w, .ok ())
  | .save o path near => w.save ρ writable o path near
  | .load path options => w.load ρ path options

/-- A program; exceptions are caught and ignored. -/
def World.run (ρ : Rounding K) (writable : String → Bool) (w : World K) : List (MultiOp K) → World K
  | [] => w
  | op :: ops => World.run ρ writable (w.step ρ writable op).1 ops

end Tiff
end Sumo
