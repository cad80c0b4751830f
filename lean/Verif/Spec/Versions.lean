/-! The version fields that makers put into the metadata. -/

namespace Meds.Spec

/-- The names of the version fields. -/
def versionColumns : List String := ["numpy_version", "esutil_version", "fitsio_version", "meds_version", "meds_fmt_version"]

end Meds.Spec
