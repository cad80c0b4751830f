import Verif.Model.Maker

/-!
# Input catalogues with columns of the output (/repo/meds/maker.py:1329-1355)

`InputObj` has none of the columns the maker fills.  Here the catalogue may have them, for example because it is that of an earlier file.
-/

namespace Meds.Maker

/-- Columns of the output in the input: `ncutout`, and the per-epoch columns (all or none of them; each has the same width for all objects). -/
structure Preset where
  ncutout : Option Int
  slots : Option (List Slot)

/-- The row with the count of the input, if it has that column (`copy_fields`, /repo/meds/maker.py:1353). -/
def countedRow (nmax : Nat) (a : InputObj × Preset) : ObjRow :=
  { fullRow nmax a.1 with ncutout := match a.2.ncutout with | some n => n | none => (fullRow nmax a.1).ncutout }

/-- `_get_full_obj_data` (/repo/meds/maker.py:1329-1355), per object: `copy_fields` copies every common column, also those the maker fills.  Per-epoch
columns of another width cannot be assigned (ValueError), except that a single value is repeated. -/
def fullRowPre (nmax : Nat) (a : InputObj × Preset) : Res ObjRow :=
  let o := countedRow nmax a
  match a.2.slots with
  | none => .ok o
  | some [s] => .ok { o with slots := List.replicate nmax s }
  | some ss => if ss.length = nmax then .ok { o with slots := ss } else .error .valueError

/-- `MEDSMaker.__init__` (/repo/meds/maker.py:63-83) with such a catalogue. -/
def initPre (cfg : MakerCfg) (hasNumber : Bool) (objs : List (InputObj × Preset)) (images : List SrcImage)
    (psf : Option (List PsfModel)) (psfInfo : Option String) (metaData : String) : Res Maker := do
  let mk ← init cfg hasNumber (objs.map Prod.fst) images psf psfInfo metaData
  let rows ← mapRes (fullRowPre (initialNmax cfg images.length)) objs
  .ok { mk with objs := rows.map forceEven }

end Meds.Maker
