import Verif.Model.Reader

/-! When an object of one file is the same, for every reader call, as an object of another file. -/

namespace Meds.Spec

/-- Object `i` of `m` and object `j` of `m'` give the same result in every call of the reader: the cutouts, mosaics and lists of the given types,
the PSFs, the source image, the geometry.  Results include exceptions (for instance an epoch that does not exist). -/
structure SameView (types : List String) (m : MEDS) (i : Nat) (m' : MEDS) (j : Nat) : Prop where
  cutout : ∀ t ∈ types, ∀ k : Nat, m.getCutout i k t = m'.getCutout j k t
  mosaic : ∀ t ∈ types, m.getMosaic i t = m'.getMosaic j t
  list : ∀ t ∈ types, m.getCutoutList i t = m'.getCutoutList j t
  psf : ∀ k : Nat, m.getPsf i k = m'.getPsf j k
  psfList : m.getPsfList i = m'.getPsfList j
  source : ∀ k : Nat, m.getSourceInfo i k = m'.getSourceInfo j k
  path : ∀ k : Nat, m.getSourcePath i k = m'.getSourcePath j k
  rowcol : ∀ k : Nat, m.getCutoutRowcol i k = m'.getCutoutRowcol j k
  jacobian : ∀ k : Nat, m.getJacobian i k = m'.getJacobian j k
  matrix : ∀ k : Nat, m.getJacobianMatrix i k = m'.getJacobianMatrix j k

theorem SameView.trans {types : List String} {m m' m'' : MEDS} {i j l : Nat} (h : SameView types m i m' j)
    (h' : SameView types m' j m'' l) : SameView types m i m'' l where
  cutout t ht k := (h.cutout t ht k).trans (h'.cutout t ht k)
  mosaic t ht := (h.mosaic t ht).trans (h'.mosaic t ht)
  list t ht := (h.list t ht).trans (h'.list t ht)
  psf k := (h.psf k).trans (h'.psf k)
  psfList := h.psfList.trans h'.psfList
  source k := (h.source k).trans (h'.source k)
  path k := (h.path k).trans (h'.path k)
  rowcol k := (h.rowcol k).trans (h'.rowcol k)
  jacobian k := (h.jacobian k).trans (h'.jacobian k)
  matrix k := (h.matrix k).trans (h'.matrix k)

theorem SameView.symm {types : List String} {m m' : MEDS} {i j : Nat} (h : SameView types m i m' j) :
    SameView types m' j m i where
  cutout t ht k := (h.cutout t ht k).symm
  mosaic t ht := (h.mosaic t ht).symm
  list t ht := (h.list t ht).symm
  psf k := (h.psf k).symm
  psfList := h.psfList.symm
  source k := (h.source k).symm
  path k := (h.path k).symm
  rowcol k := (h.rowcol k).symm
  jacobian k := (h.jacobian k).symm
  matrix k := (h.matrix k).symm

end Meds.Spec
