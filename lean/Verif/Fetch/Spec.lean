import Verif.Fetch.Model

/-!
# Specification of the downloads (C109)

Which remote file goes where, as tables of urls and names below the download directory.
-/
namespace Verif.Fetch
open Verif.Utilities

/-- files of the Center for Space Research: group, url, place below the download directory -/
def csrTable : List (String × String × String) :=
  [("SLR", "http://download.csr.utexas.edu/pub/slr/degree_5/CSR_Monthly_5x5_Gravity_Harmonics.txt", "CSR_Monthly_5x5_Gravity_Harmonics.txt"),
    ("SLR", "http://download.csr.utexas.edu/pub/slr/degree_2/C20_RL06.txt", "C20_RL06.txt"),
    ("SLR", "http://download.csr.utexas.edu/pub/slr/degree_2/C21_S21_RL06.txt", "C21_S21_RL06.txt"),
    ("SLR", "http://download.csr.utexas.edu/pub/slr/degree_2/C22_S22_RL06.txt", "C22_S22_RL06.txt"),
    ("SLR", "http://download.csr.utexas.edu/pub/slr/TN11E/TN11E.txt", "TN11E.txt"),
    ("geocenter", "http://download.csr.utexas.edu/pub/slr/geocenter/GCN_L1_L2_30d_CF-CM.txt", "geocenter/GCN_L1_L2_30d_CF-CM.txt"),
    ("geocenter", "http://download.csr.utexas.edu/outgoing/cheng/gct2est.220_5s", "geocenter/gct2est.220_5s")]

/-- files of the GeoForschungsZentrum: path on the server with its name, place below the download directory -/
def gfzTable : List (String × String) :=
  [("isdcftp.gfz-potsdam.de/grace/Level-2/GFZ/RL06_SLR_C20/GFZ_RL06_C20_SLR.dat", "GFZ_RL06_C20_SLR.dat"),
    ("isdcftp.gfz-potsdam.de/grace/GravIS/GFZ/Level-2B/aux_data/GRAVIS-2B_GFZOP_GRACE+SLR_LOW_DEGREES_0003.dat",
      "GRAVIS-2B_GFZOP_GRACE+SLR_LOW_DEGREES_0003.dat"),
    ("isdcftp.gfz-potsdam.de/grace/GravIS/GFZ/Level-2B/aux_data/GRAVIS-2B_GFZOP_GEOCENTER_0003.dat",
      "geocenter/GRAVIS-2B_GFZOP_GEOCENTER_0003.dat")]

/-- contents of a local file -/
def contents (d : Disk) (p : Path) : Option Bytes := (d p).map LFile.data

/-- the hash tells the contents of a family apart, and is never empty -/
def Distinguishes (H : Bytes → Str) (C : Bytes → Prop) : Prop := (∀ b, H b ≠ []) ∧ ∀ b b', C b → C b' → H b = H b' → b = b'

/-- all local files belong to the family -/
def Within (C : Bytes → Prop) (d : Disk) : Prop := ∀ p f, d p = some f → C f.data

/-- a place below a directory -/
def below (dir : Str) (rel : String) : Path := path [dir, rel.toList]

end Verif.Fetch
