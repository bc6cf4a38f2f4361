import Verif.FortranFile.Model

/-!
# The format of Fortran record files
-/

namespace Verif.FortranFile

/-- The size marker: four bytes, lowest first. -/
def marker (n : ℕ) : List ℕ := [n % 256, n / 256 % 256, n / 65536 % 256, n / 16777216 % 256]

/-- A record with its two markers. -/
def record (r : List ℕ) : List ℕ := marker r.length ++ r ++ marker r.length

/-- A file with these records. -/
def layout (rs : List (List ℕ)) : List ℕ := rs.flatMap record

end Verif.FortranFile
