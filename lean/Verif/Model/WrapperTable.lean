/- Generated by tools/gen_wrappers.py from the wrapper sources of /repo; do not edit. -/
import Verif.Model.Wrapper

namespace BB.Wrap

/-- /repo/src/Interfaces/OpenBLAS/BlasInterface_OpenBLAS.cpp:13-967: one row per `BlasInterface<OpenBLAS, ·>::operator()`, in the order of the file:
the tag, the return type, the parameter types (lower case = pointer to const), the routine
called, the argument list, and whether the result is taken from a local `result`. -/
def openBLAS : List Wrapper := [
  { name := "scabs1", ret := .float, params := sig "c", callee := "scabs1_",
    args := [.v 0], hidden := false },
  { name := "sasum", ret := .float, params := sig "isi", callee := "sasum_",
    args := [.v 0, .v 1, .v 2], hidden := false },
  { name := "saxpy", ret := .void, params := sig "issiSi", callee := "saxpy_",
    args := [.v 0, .v 1, .v 2, .v 3, .v 4, .v 5], hidden := false },
  { name := "saxpby", ret := .void, params := sig "issisSi", callee := "saxpby_",
    args := [.v 0, .v 1, .v 2, .v 3, .v 4, .v 5, .v 6], hidden := false },
  { name := "scasum", ret := .float, params := sig "ici", callee := "scasum_",
    args := [.v 0, .v 1, .v 2], hidden := false },
  { name := "scnrm2", ret := .float, params := sig "ici", callee := "scnrm2_",
    args := [.v 0, .v 1, .v 2], hidden := false },
  { name := "scopy", ret := .void, params := sig "isiSi", callee := "scopy_",
    args := [.v 0, .v 1, .v 2, .v 3, .v 4], hidden := false },
  { name := "sdot", ret := .float, params := sig "isisi", callee := "sdot_",
    args := [.v 0, .v 1, .v 2, .v 3, .v 4], hidden := false },
  { name := "sdsdot", ret := .float, params := sig "issisi", callee := "sdsdot_",
    args := [.v 0, .v 1, .v 2, .v 3, .v 4, .v 5], hidden := false },
  { name := "snrm2", ret := .float, params := sig "isi", callee := "snrm2_",
    args := [.v 0, .v 1, .v 2], hidden := false },
  { name := "srot", ret := .void, params := sig "iSiSiss", callee := "srot_",
    args := [.v 0, .v 1, .v 2, .v 3, .v 4, .v 5, .v 6], hidden := false },
  { name := "srotg", ret := .void, params := sig "SSSS", callee := "srotg_",
    args := [.v 0, .v 1, .v 2, .v 3], hidden := false },
  { name := "srotm", ret := .void, params := sig "iSiSis", callee := "srotm_",
    args := [.v 0, .v 1, .v 2, .v 3, .v 4, .v 5], hidden := false },
  { name := "srotmg", ret := .void, params := sig "SSSsS", callee := "srotmg_",
    args := [.v 0, .v 1, .v 2, .v 3, .v 4], hidden := false },
  { name := "sscal", ret := .void, params := sig "isSi", callee := "sscal_",
    args := [.v 0, .v 1, .v 2, .v 3], hidden := false },
  { name := "sswap", ret := .void, params := sig "iSiSi", callee := "sswap_",
    args := [.v 0, .v 1, .v 2, .v 3, .v 4], hidden := false },
  { name := "isamax", ret := .int, params := sig "isi", callee := "isamax_",
    args := [.v 0, .v 1, .v 2], hidden := false },
  { name := "isamin", ret := .int, params := sig "isi", callee := "isamin_",
    args := [.v 0, .v 1, .v 2], hidden := false },
  { name := "caxpy", ret := .void, params := sig "icciCi", callee := "caxpy_",
    args := [.v 0, .v 1, .v 2, .v 3, .v 4, .v 5], hidden := false },
  { name := "caxpby", ret := .void, params := sig "iccicCi", callee := "caxpby_",
    args := [.v 0, .v 1, .v 2, .v 3, .v 4, .v 5, .v 6], hidden := false },
  { name := "ccopy", ret := .void, params := sig "iciCi", callee := "ccopy_",
    args := [.v 0, .v 1, .v 2, .v 3, .v 4], hidden := false },
  { name := "crotg", ret := .void, params := sig "CcSC", callee := "crotg_",
    args := [.v 0, .v 1, .v 2, .v 3], hidden := false },
  { name := "cscal", ret := .void, params := sig "icCi", callee := "cscal_",
    args := [.v 0, .v 1, .v 2, .v 3], hidden := false },
  { name := "csrot", ret := .void, params := sig "iCiCiss", callee := "csrot_",
    args := [.v 0, .v 1, .v 2, .v 3, .v 4, .v 5, .v 6], hidden := false },
  { name := "csscal", ret := .void, params := sig "isCi", callee := "csscal_",
    args := [.v 0, .v 1, .v 2, .v 3], hidden := false },
  { name := "cswap", ret := .void, params := sig "iCiCi", callee := "cswap_",
    args := [.v 0, .v 1, .v 2, .v 3, .v 4], hidden := false },
  { name := "icamax", ret := .int, params := sig "ici", callee := "icamax_",
    args := [.v 0, .v 1, .v 2], hidden := false },
  { name := "icamin", ret := .int, params := sig "ici", callee := "icamin_",
    args := [.v 0, .v 1, .v 2], hidden := false },
  { name := "dcabs1", ret := .double, params := sig "z", callee := "dcabs1_",
    args := [.v 0], hidden := false },
  { name := "dasum", ret := .double, params := sig "idi", callee := "dasum_",
    args := [.v 0, .v 1, .v 2], hidden := false },
  { name := "daxpy", ret := .void, params := sig "iddiDi", callee := "daxpy_",
    args := [.v 0, .v 1, .v 2, .v 3, .v 4, .v 5], hidden := false },
  { name := "daxpby", ret := .void, params := sig "iddidDi", callee := "daxpby_",
    args := [.v 0, .v 1, .v 2, .v 3, .v 4, .v 5, .v 6], hidden := false },
  { name := "dcopy", ret := .void, params := sig "idiDi", callee := "dcopy_",
    args := [.v 0, .v 1, .v 2, .v 3, .v 4], hidden := false },
  { name := "ddot", ret := .double, params := sig "ididi", callee := "ddot_",
    args := [.v 0, .v 1, .v 2, .v 3, .v 4], hidden := false },
  { name := "dsdot", ret := .double, params := sig "isisi", callee := "dsdot_",
    args := [.v 0, .v 1, .v 2, .v 3, .v 4], hidden := false },
  { name := "dnrm2", ret := .double, params := sig "idi", callee := "dnrm2_",
    args := [.v 0, .v 1, .v 2], hidden := false },
  { name := "drot", ret := .void, params := sig "iDiDidd", callee := "drot_",
    args := [.v 0, .v 1, .v 2, .v 3, .v 4, .v 5, .v 6], hidden := false },
  { name := "drotg", ret := .void, params := sig "DDDD", callee := "drotg_",
    args := [.v 0, .v 1, .v 2, .v 3], hidden := false },
  { name := "drotm", ret := .void, params := sig "iDiDid", callee := "drotm_",
    args := [.v 0, .v 1, .v 2, .v 3, .v 4, .v 5], hidden := false },
  { name := "drotmg", ret := .void, params := sig "DDDdD", callee := "drotmg_",
    args := [.v 0, .v 1, .v 2, .v 3, .v 4], hidden := false },
  { name := "dscal", ret := .void, params := sig "idDi", callee := "dscal_",
    args := [.v 0, .v 1, .v 2, .v 3], hidden := false },
  { name := "dswap", ret := .void, params := sig "iDiDi", callee := "dswap_",
    args := [.v 0, .v 1, .v 2, .v 3, .v 4], hidden := false },
  { name := "dzasum", ret := .double, params := sig "izi", callee := "dzasum_",
    args := [.v 0, .v 1, .v 2], hidden := false },
  { name := "dznrm2", ret := .double, params := sig "izi", callee := "dznrm2_",
    args := [.v 0, .v 1, .v 2], hidden := false },
  { name := "idamax", ret := .int, params := sig "idi", callee := "idamax_",
    args := [.v 0, .v 1, .v 2], hidden := false },
  { name := "idamin", ret := .int, params := sig "idi", callee := "idamin_",
    args := [.v 0, .v 1, .v 2], hidden := false },
  { name := "zaxpy", ret := .void, params := sig "izziZi", callee := "zaxpy_",
    args := [.v 0, .v 1, .v 2, .v 3, .v 4, .v 5], hidden := false },
  { name := "zaxpby", ret := .void, params := sig "izzizZi", callee := "zaxpby_",
    args := [.v 0, .v 1, .v 2, .v 3, .v 4, .v 5, .v 6], hidden := false },
  { name := "zcopy", ret := .void, params := sig "iziZi", callee := "zcopy_",
    args := [.v 0, .v 1, .v 2, .v 3, .v 4], hidden := false },
  { name := "zdrot", ret := .void, params := sig "iZiZidd", callee := "zdrot_",
    args := [.v 0, .v 1, .v 2, .v 3, .v 4, .v 5, .v 6], hidden := false },
  { name := "zdscal", ret := .void, params := sig "idZi", callee := "zdscal_",
    args := [.v 0, .v 1, .v 2, .v 3], hidden := false },
  { name := "zrotg", ret := .void, params := sig "ZzDZ", callee := "zrotg_",
    args := [.v 0, .v 1, .v 2, .v 3], hidden := false },
  { name := "zscal", ret := .void, params := sig "izZi", callee := "zscal_",
    args := [.v 0, .v 1, .v 2, .v 3], hidden := false },
  { name := "zswap", ret := .void, params := sig "iZiZi", callee := "zswap_",
    args := [.v 0, .v 1, .v 2, .v 3, .v 4], hidden := false },
  { name := "izamax", ret := .int, params := sig "izi", callee := "izamax_",
    args := [.v 0, .v 1, .v 2], hidden := false },
  { name := "izamin", ret := .int, params := sig "izi", callee := "izamin_",
    args := [.v 0, .v 1, .v 2], hidden := false },
  { name := "sgbmv", ret := .void, params := sig "hiiiissisisSi", callee := "sgbmv_",
    args := [.v 0, .v 1, .v 2, .v 3, .v 4, .v 5, .v 6, .v 7, .v 8, .v 9, .v 10, .v 11, .v 12], hidden := false },
  { name := "sgemv", ret := .void, params := sig "hiissisisSi", callee := "sgemv_",
    args := [.v 0, .v 1, .v 2, .v 3, .v 4, .v 5, .v 6, .v 7, .v 8, .v 9, .v 10], hidden := false },
  { name := "sger", ret := .void, params := sig "iissisiSi", callee := "sger_",
    args := [.v 0, .v 1, .v 2, .v 3, .v 4, .v 5, .v 6, .v 7, .v 8], hidden := false },
  { name := "ssbmv", ret := .void, params := sig "hiissisisSi", callee := "ssbmv_",
    args := [.v 0, .v 1, .v 2, .v 3, .v 4, .v 5, .v 6, .v 7, .v 8, .v 9, .v 10], hidden := false },
  { name := "sspmv", ret := .void, params := sig "hisssisSi", callee := "sspmv_",
    args := [.v 0, .v 1, .v 2, .v 3, .v 4, .v 5, .v 6, .v 7, .v 8], hidden := false },
  { name := "sspr", ret := .void, params := sig "hissiS", callee := "sspr_",
    args := [.v 0, .v 1, .v 2, .v 3, .v 4, .v 5], hidden := false },
  { name := "sspr2", ret := .void, params := sig "hissisiS", callee := "sspr2_",
    args := [.v 0, .v 1, .v 2, .v 3, .v 4, .v 5, .v 6, .v 7], hidden := false },
  { name := "ssymv", ret := .void, params := sig "hissisisSi", callee := "ssymv_",
    args := [.v 0, .v 1, .v 2, .v 3, .v 4, .v 5, .v 6, .v 7, .v 8, .v 9], hidden := false },
  { name := "ssyr", ret := .void, params := sig "hissiSi", callee := "ssyr_",
    args := [.v 0, .v 1, .v 2, .v 3, .v 4, .v 5, .v 6], hidden := false },
  { name := "ssyr2", ret := .void, params := sig "hissisiSi", callee := "ssyr2_",
    args := [.v 0, .v 1, .v 2, .v 3, .v 4, .v 5, .v 6, .v 7, .v 8], hidden := false },
  { name := "stbmv", ret := .void, params := sig "hhhiisiSi", callee := "stbmv_",
    args := [.v 0, .v 1, .v 2, .v 3, .v 4, .v 5, .v 6, .v 7, .v 8], hidden := false },
  { name := "stbsv", ret := .void, params := sig "hhhiisiSi", callee := "stbsv_",
    args := [.v 0, .v 1, .v 2, .v 3, .v 4, .v 5, .v 6, .v 7, .v 8], hidden := false },
  { name := "stpmv", ret := .void, params := sig "hhhisSi", callee := "stpmv_",
    args := [.v 0, .v 1, .v 2, .v 3, .v 4, .v 5, .v 6], hidden := false },
  { name := "stpsv", ret := .void, params := sig "hhhisSi", callee := "stpsv_",
    args := [.v 0, .v 1, .v 2, .v 3, .v 4, .v 5, .v 6], hidden := false },
  { name := "strmv", ret := .void, params := sig "hhhisiSi", callee := "strmv_",
    args := [.v 0, .v 1, .v 2, .v 3, .v 4, .v 5, .v 6, .v 7], hidden := false },
  { name := "strsv", ret := .void, params := sig "hhhisiSi", callee := "strsv_",
    args := [.v 0, .v 1, .v 2, .v 3, .v 4, .v 5, .v 6, .v 7], hidden := false },
  { name := "cgbmv", ret := .void, params := sig "hiiiiccicicCi", callee := "cgbmv_",
    args := [.v 0, .v 1, .v 2, .v 3, .v 4, .v 5, .v 6, .v 7, .v 8, .v 9, .v 10, .v 11, .v 12], hidden := false },
  { name := "cgemv", ret := .void, params := sig "hiiccicicCi", callee := "cgemv_",
    args := [.v 0, .v 1, .v 2, .v 3, .v 4, .v 5, .v 6, .v 7, .v 8, .v 9, .v 10], hidden := false },
  { name := "cgerc", ret := .void, params := sig "iicciciCi", callee := "cgerc_",
    args := [.v 0, .v 1, .v 2, .v 3, .v 4, .v 5, .v 6, .v 7, .v 8], hidden := false },
  { name := "cgeru", ret := .void, params := sig "iicciciCi", callee := "cgeru_",
    args := [.v 0, .v 1, .v 2, .v 3, .v 4, .v 5, .v 6, .v 7, .v 8], hidden := false },
  { name := "chbmv", ret := .void, params := sig "hiiccicicCi", callee := "chbmv_",
    args := [.v 0, .v 1, .v 2, .v 3, .v 4, .v 5, .v 6, .v 7, .v 8, .v 9, .v 10], hidden := false },
  { name := "chemv", ret := .void, params := sig "hiccicicCi", callee := "chemv_",
    args := [.v 0, .v 1, .v 2, .v 3, .v 4, .v 5, .v 6, .v 7, .v 8, .v 9], hidden := false },
  { name := "cher", ret := .void, params := sig "hisciCi", callee := "cher_",
    args := [.v 0, .v 1, .v 2, .v 3, .v 4, .v 5, .v 6], hidden := false },
  { name := "cher2", ret := .void, params := sig "hicciciCi", callee := "cher2_",
    args := [.v 0, .v 1, .v 2, .v 3, .v 4, .v 5, .v 6, .v 7, .v 8], hidden := false },
  { name := "chpmv", ret := .void, params := sig "hicccicCi", callee := "chpmv_",
    args := [.v 0, .v 1, .v 2, .v 3, .v 4, .v 5, .v 6, .v 7, .v 8], hidden := false },
  { name := "chpr", ret := .void, params := sig "hisciC", callee := "chpr_",
    args := [.v 0, .v 1, .v 2, .v 3, .v 4, .v 5], hidden := false },
  { name := "chpr2", ret := .void, params := sig "hicciciC", callee := "chpr2_",
    args := [.v 0, .v 1, .v 2, .v 3, .v 4, .v 5, .v 6, .v 7], hidden := false },
  { name := "ctbmv", ret := .void, params := sig "hhhiiciCi", callee := "ctbmv_",
    args := [.v 0, .v 1, .v 2, .v 3, .v 4, .v 5, .v 6, .v 7, .v 8], hidden := false },
  { name := "ctbsv", ret := .void, params := sig "hhhiiciCi", callee := "ctbsv_",
    args := [.v 0, .v 1, .v 2, .v 3, .v 4, .v 5, .v 6, .v 7, .v 8], hidden := false },
  { name := "ctpmv", ret := .void, params := sig "hhhicCi", callee := "ctpmv_",
    args := [.v 0, .v 1, .v 2, .v 3, .v 4, .v 5, .v 6], hidden := false },
  { name := "ctpsv", ret := .void, params := sig "hhhicCi", callee := "ctpsv_",
    args := [.v 0, .v 1, .v 2, .v 3, .v 4, .v 5, .v 6], hidden := false },
  { name := "ctrmv", ret := .void, params := sig "hhhiciCi", callee := "ctrmv_",
    args := [.v 0, .v 1, .v 2, .v 3, .v 4, .v 5, .v 6, .v 7], hidden := false },
  { name := "ctrsv", ret := .void, params := sig "hhhiciCi", callee := "ctrsv_",
    args := [.v 0, .v 1, .v 2, .v 3, .v 4, .v 5, .v 6, .v 7], hidden := false },
  { name := "dgbmv", ret := .void, params := sig "hiiiiddididDi", callee := "dgbmv_",
    args := [.v 0, .v 1, .v 2, .v 3, .v 4, .v 5, .v 6, .v 7, .v 8, .v 9, .v 10, .v 11, .v 12], hidden := false },
  { name := "dgemv", ret := .void, params := sig "hiiddididDi", callee := "dgemv_",
    args := [.v 0, .v 1, .v 2, .v 3, .v 4, .v 5, .v 6, .v 7, .v 8, .v 9, .v 10], hidden := false },
  { name := "dger", ret := .void, params := sig "iiddidiDi", callee := "dger_",
    args := [.v 0, .v 1, .v 2, .v 3, .v 4, .v 5, .v 6, .v 7, .v 8], hidden := false },
  { name := "dsbmv", ret := .void, params := sig "hiiddididDi", callee := "dsbmv_",
    args := [.v 0, .v 1, .v 2, .v 3, .v 4, .v 5, .v 6, .v 7, .v 8, .v 9, .v 10], hidden := false },
  { name := "dspmv", ret := .void, params := sig "hidddidDi", callee := "dspmv_",
    args := [.v 0, .v 1, .v 2, .v 3, .v 4, .v 5, .v 6, .v 7, .v 8], hidden := false },
  { name := "dspr", ret := .void, params := sig "hiddiD", callee := "dspr_",
    args := [.v 0, .v 1, .v 2, .v 3, .v 4, .v 5], hidden := false },
  { name := "dspr2", ret := .void, params := sig "hiddidiD", callee := "dspr2_",
    args := [.v 0, .v 1, .v 2, .v 3, .v 4, .v 5, .v 6, .v 7], hidden := false },
  { name := "dsymv", ret := .void, params := sig "hiddididDi", callee := "dsymv_",
    args := [.v 0, .v 1, .v 2, .v 3, .v 4, .v 5, .v 6, .v 7, .v 8, .v 9], hidden := false },
  { name := "dsyr", ret := .void, params := sig "hiddiDi", callee := "dsyr_",
    args := [.v 0, .v 1, .v 2, .v 3, .v 4, .v 5, .v 6], hidden := false },
  { name := "dsyr2", ret := .void, params := sig "hiddidiDi", callee := "dsyr2_",
    args := [.v 0, .v 1, .v 2, .v 3, .v 4, .v 5, .v 6, .v 7, .v 8], hidden := false },
  { name := "dtbmv", ret := .void, params := sig "hhhiidiDi", callee := "dtbmv_",
    args := [.v 0, .v 1, .v 2, .v 3, .v 4, .v 5, .v 6, .v 7, .v 8], hidden := false },
  { name := "dtbsv", ret := .void, params := sig "hhhiidiDi", callee := "dtbsv_",
    args := [.v 0, .v 1, .v 2, .v 3, .v 4, .v 5, .v 6, .v 7, .v 8], hidden := false },
  { name := "dtpmv", ret := .void, params := sig "hhhidDi", callee := "dtpmv_",
    args := [.v 0, .v 1, .v 2, .v 3, .v 4, .v 5, .v 6], hidden := false },
  { name := "dtpsv", ret := .void, params := sig "hhhidDi", callee := "dtpsv_",
    args := [.v 0, .v 1, .v 2, .v 3, .v 4, .v 5, .v 6], hidden := false },
  { name := "dtrmv", ret := .void, params := sig "hhhidiDi", callee := "dtrmv_",
    args := [.v 0, .v 1, .v 2, .v 3, .v 4, .v 5, .v 6, .v 7], hidden := false },
  { name := "dtrsv", ret := .void, params := sig "hhhidiDi", callee := "dtrsv_",
    args := [.v 0, .v 1, .v 2, .v 3, .v 4, .v 5, .v 6, .v 7], hidden := false },
  { name := "zgbmv", ret := .void, params := sig "hiiiizzizizZi", callee := "zgbmv_",
    args := [.v 0, .v 1, .v 2, .v 3, .v 4, .v 5, .v 6, .v 7, .v 8, .v 9, .v 10, .v 11, .v 12], hidden := false },
  { name := "zgemv", ret := .void, params := sig "hiizzizizZi", callee := "zgemv_",
    args := [.v 0, .v 1, .v 2, .v 3, .v 4, .v 5, .v 6, .v 7, .v 8, .v 9, .v 10], hidden := false },
  { name := "zgerc", ret := .void, params := sig "iizziziZi", callee := "zgerc_",
    args := [.v 0, .v 1, .v 2, .v 3, .v 4, .v 5, .v 6, .v 7, .v 8], hidden := false },
  { name := "zgeru", ret := .void, params := sig "iizziziZi", callee := "zgeru_",
    args := [.v 0, .v 1, .v 2, .v 3, .v 4, .v 5, .v 6, .v 7, .v 8], hidden := false },
  { name := "zhbmv", ret := .void, params := sig "hiizzizizZi", callee := "zhbmv_",
    args := [.v 0, .v 1, .v 2, .v 3, .v 4, .v 5, .v 6, .v 7, .v 8, .v 9, .v 10], hidden := false },
  { name := "zhemv", ret := .void, params := sig "hizzizizZi", callee := "zhemv_",
    args := [.v 0, .v 1, .v 2, .v 3, .v 4, .v 5, .v 6, .v 7, .v 8, .v 9], hidden := false },
  { name := "zher", ret := .void, params := sig "hidziZi", callee := "zher_",
    args := [.v 0, .v 1, .v 2, .v 3, .v 4, .v 5, .v 6], hidden := false },
  { name := "zher2", ret := .void, params := sig "hizziziZi", callee := "zher2_",
    args := [.v 0, .v 1, .v 2, .v 3, .v 4, .v 5, .v 6, .v 7, .v 8], hidden := false },
  { name := "zhpmv", ret := .void, params := sig "hizzzizZi", callee := "zhpmv_",
    args := [.v 0, .v 1, .v 2, .v 3, .v 4, .v 5, .v 6, .v 7, .v 8], hidden := false },
  { name := "zhpr", ret := .void, params := sig "hidziZ", callee := "zhpr_",
    args := [.v 0, .v 1, .v 2, .v 3, .v 4, .v 5], hidden := false },
  { name := "zhpr2", ret := .void, params := sig "hizziziZ", callee := "zhpr2_",
    args := [.v 0, .v 1, .v 2, .v 3, .v 4, .v 5, .v 6, .v 7], hidden := false },
  { name := "ztbmv", ret := .void, params := sig "hhhiiziZi", callee := "ztbmv_",
    args := [.v 0, .v 1, .v 2, .v 3, .v 4, .v 5, .v 6, .v 7, .v 8], hidden := false },
  { name := "ztbsv", ret := .void, params := sig "hhhiiziZi", callee := "ztbsv_",
    args := [.v 0, .v 1, .v 2, .v 3, .v 4, .v 5, .v 6, .v 7, .v 8], hidden := false },
  { name := "ztpmv", ret := .void, params := sig "hhhizZi", callee := "ztpmv_",
    args := [.v 0, .v 1, .v 2, .v 3, .v 4, .v 5, .v 6], hidden := false },
  { name := "ztpsv", ret := .void, params := sig "hhhizZi", callee := "ztpsv_",
    args := [.v 0, .v 1, .v 2, .v 3, .v 4, .v 5, .v 6], hidden := false },
  { name := "ztrmv", ret := .void, params := sig "hhhiziZi", callee := "ztrmv_",
    args := [.v 0, .v 1, .v 2, .v 3, .v 4, .v 5, .v 6, .v 7], hidden := false },
  { name := "ztrsv", ret := .void, params := sig "hhhiziZi", callee := "ztrsv_",
    args := [.v 0, .v 1, .v 2, .v 3, .v 4, .v 5, .v 6, .v 7], hidden := false },
  { name := "sgemm", ret := .void, params := sig "hhiiissisisSi", callee := "sgemm_",
    args := [.v 0, .v 1, .v 2, .v 3, .v 4, .v 5, .v 6, .v 7, .v 8, .v 9, .v 10, .v 11, .v 12], hidden := false },
  { name := "ssymm", ret := .void, params := sig "hhiissisisSi", callee := "ssymm_",
    args := [.v 0, .v 1, .v 2, .v 3, .v 4, .v 5, .v 6, .v 7, .v 8, .v 9, .v 10, .v 11], hidden := false },
  { name := "ssyr2k", ret := .void, params := sig "hhiissisisSi", callee := "ssyr2k_",
    args := [.v 0, .v 1, .v 2, .v 3, .v 4, .v 5, .v 6, .v 7, .v 8, .v 9, .v 10, .v 11], hidden := false },
  { name := "ssyrk", ret := .void, params := sig "hhiissisSi", callee := "ssyrk_",
    args := [.v 0, .v 1, .v 2, .v 3, .v 4, .v 5, .v 6, .v 7, .v 8, .v 9], hidden := false },
  { name := "strmm", ret := .void, params := sig "hhhhiissiSi", callee := "strmm_",
    args := [.v 0, .v 1, .v 2, .v 3, .v 4, .v 5, .v 6, .v 7, .v 8, .v 9, .v 10], hidden := false },
  { name := "strsm", ret := .void, params := sig "hhhhiissiSi", callee := "strsm_",
    args := [.v 0, .v 1, .v 2, .v 3, .v 4, .v 5, .v 6, .v 7, .v 8, .v 9, .v 10], hidden := false },
  { name := "cgemm", ret := .void, params := sig "hhiiiccicicCi", callee := "cgemm_",
    args := [.v 0, .v 1, .v 2, .v 3, .v 4, .v 5, .v 6, .v 7, .v 8, .v 9, .v 10, .v 11, .v 12], hidden := false },
  { name := "cgemm3m", ret := .void, params := sig "hhiiiccicicCi", callee := "cgemm3m_",
    args := [.v 0, .v 1, .v 2, .v 3, .v 4, .v 5, .v 6, .v 7, .v 8, .v 9, .v 10, .v 11, .v 12], hidden := false },
  { name := "chemm", ret := .void, params := sig "hhiiccicicCi", callee := "chemm_",
    args := [.v 0, .v 1, .v 2, .v 3, .v 4, .v 5, .v 6, .v 7, .v 8, .v 9, .v 10, .v 11], hidden := false },
  { name := "cher2k", ret := .void, params := sig "hhiiccicisCi", callee := "cher2k_",
    args := [.v 0, .v 1, .v 2, .v 3, .v 4, .v 5, .v 6, .v 7, .v 8, .v 9, .v 10, .v 11], hidden := false },
  { name := "cherk", ret := .void, params := sig "hhiiscisCi", callee := "cherk_",
    args := [.v 0, .v 1, .v 2, .v 3, .v 4, .v 5, .v 6, .v 7, .v 8, .v 9], hidden := false },
  { name := "csymm", ret := .void, params := sig "hhiiccicicCi", callee := "csymm_",
    args := [.v 0, .v 1, .v 2, .v 3, .v 4, .v 5, .v 6, .v 7, .v 8, .v 9, .v 10, .v 11], hidden := false },
  { name := "csyr2k", ret := .void, params := sig "hhiiccicicCi", callee := "csyr2k_",
    args := [.v 0, .v 1, .v 2, .v 3, .v 4, .v 5, .v 6, .v 7, .v 8, .v 9, .v 10, .v 11], hidden := false },
  { name := "csyrk", ret := .void, params := sig "hhiiccicCi", callee := "csyrk_",
    args := [.v 0, .v 1, .v 2, .v 3, .v 4, .v 5, .v 6, .v 7, .v 8, .v 9], hidden := false },
  { name := "ctrmm", ret := .void, params := sig "hhhhiicciCi", callee := "ctrmm_",
    args := [.v 0, .v 1, .v 2, .v 3, .v 4, .v 5, .v 6, .v 7, .v 8, .v 9, .v 10], hidden := false },
  { name := "ctrsm", ret := .void, params := sig "hhhhiicciCi", callee := "ctrsm_",
    args := [.v 0, .v 1, .v 2, .v 3, .v 4, .v 5, .v 6, .v 7, .v 8, .v 9, .v 10], hidden := false },
  { name := "dgemm", ret := .void, params := sig "hhiiiddididDi", callee := "dgemm_",
    args := [.v 0, .v 1, .v 2, .v 3, .v 4, .v 5, .v 6, .v 7, .v 8, .v 9, .v 10, .v 11, .v 12], hidden := false },
  { name := "dsymm", ret := .void, params := sig "hhiiddididDi", callee := "dsymm_",
    args := [.v 0, .v 1, .v 2, .v 3, .v 4, .v 5, .v 6, .v 7, .v 8, .v 9, .v 10, .v 11], hidden := false },
  { name := "dsyr2k", ret := .void, params := sig "hhiiddididDi", callee := "dsyr2k_",
    args := [.v 0, .v 1, .v 2, .v 3, .v 4, .v 5, .v 6, .v 7, .v 8, .v 9, .v 10, .v 11], hidden := false },
  { name := "dsyrk", ret := .void, params := sig "hhiiddidDi", callee := "dsyrk_",
    args := [.v 0, .v 1, .v 2, .v 3, .v 4, .v 5, .v 6, .v 7, .v 8, .v 9], hidden := false },
  { name := "dtrmm", ret := .void, params := sig "hhhhiiddiDi", callee := "dtrmm_",
    args := [.v 0, .v 1, .v 2, .v 3, .v 4, .v 5, .v 6, .v 7, .v 8, .v 9, .v 10], hidden := false },
  { name := "dtrsm", ret := .void, params := sig "hhhhiiddiDi", callee := "dtrsm_",
    args := [.v 0, .v 1, .v 2, .v 3, .v 4, .v 5, .v 6, .v 7, .v 8, .v 9, .v 10], hidden := false },
  { name := "zgemm", ret := .void, params := sig "hhiiizzizizZi", callee := "zgemm_",
    args := [.v 0, .v 1, .v 2, .v 3, .v 4, .v 5, .v 6, .v 7, .v 8, .v 9, .v 10, .v 11, .v 12], hidden := false },
  { name := "zgemm3m", ret := .void, params := sig "hhiiizzizizZi", callee := "zgemm3m_",
    args := [.v 0, .v 1, .v 2, .v 3, .v 4, .v 5, .v 6, .v 7, .v 8, .v 9, .v 10, .v 11, .v 12], hidden := false },
  { name := "zhemm", ret := .void, params := sig "hhiizzizizZi", callee := "zhemm_",
    args := [.v 0, .v 1, .v 2, .v 3, .v 4, .v 5, .v 6, .v 7, .v 8, .v 9, .v 10, .v 11], hidden := false },
  { name := "zher2k", ret := .void, params := sig "hhiizzizidZi", callee := "zher2k_",
    args := [.v 0, .v 1, .v 2, .v 3, .v 4, .v 5, .v 6, .v 7, .v 8, .v 9, .v 10, .v 11], hidden := false },
  { name := "zherk", ret := .void, params := sig "hhiidzidZi", callee := "zherk_",
    args := [.v 0, .v 1, .v 2, .v 3, .v 4, .v 5, .v 6, .v 7, .v 8, .v 9], hidden := false },
  { name := "zsymm", ret := .void, params := sig "hhiizzizizZi", callee := "zsymm_",
    args := [.v 0, .v 1, .v 2, .v 3, .v 4, .v 5, .v 6, .v 7, .v 8, .v 9, .v 10, .v 11], hidden := false },
  { name := "zsyr2k", ret := .void, params := sig "hhiizzizizZi", callee := "zsyr2k_",
    args := [.v 0, .v 1, .v 2, .v 3, .v 4, .v 5, .v 6, .v 7, .v 8, .v 9, .v 10, .v 11], hidden := false },
  { name := "zsyrk", ret := .void, params := sig "hhiizzizZi", callee := "zsyrk_",
    args := [.v 0, .v 1, .v 2, .v 3, .v 4, .v 5, .v 6, .v 7, .v 8, .v 9], hidden := false },
  { name := "ztrmm", ret := .void, params := sig "hhhhiizziZi", callee := "ztrmm_",
    args := [.v 0, .v 1, .v 2, .v 3, .v 4, .v 5, .v 6, .v 7, .v 8, .v 9, .v 10], hidden := false },
  { name := "ztrsm", ret := .void, params := sig "hhhhiizziZi", callee := "ztrsm_",
    args := [.v 0, .v 1, .v 2, .v 3, .v 4, .v 5, .v 6, .v 7, .v 8, .v 9, .v 10], hidden := false },
  { name := "cdotc", ret := .cfloat, params := sig "icici", callee := "cdotc_",
    args := [.res, .v 0, .v 1, .v 2, .v 3, .v 4], hidden := true },
  { name := "cdotu", ret := .cfloat, params := sig "icici", callee := "cdotu_",
    args := [.res, .v 0, .v 1, .v 2, .v 3, .v 4], hidden := true },
  { name := "zdotc", ret := .cdouble, params := sig "izizi", callee := "zdotc_",
    args := [.res, .v 0, .v 1, .v 2, .v 3, .v 4], hidden := true },
  { name := "zdotu", ret := .cdouble, params := sig "izizi", callee := "zdotu_",
    args := [.res, .v 0, .v 1, .v 2, .v 3, .v 4], hidden := true }]

/-- /repo/src/Interfaces/IntelMKL/BlasInterface_IntelMKL.cpp:20-998: one row per `BlasInterface<IntelMKL, ·>::operator()`, in the order of the file:
the tag, the return type, the parameter types (lower case = pointer to const), the routine
called, the argument list, and whether the result is taken from a local `result`. -/
def intelMKL : List Wrapper := [
  { name := "scabs1", ret := .float, params := sig "c", callee := "scabs1_",
    args := [.v 0], hidden := false },
  { name := "sasum", ret := .float, params := sig "isi", callee := "sasum_",
    args := [.v 0, .v 1, .v 2], hidden := false },
  { name := "saxpy", ret := .void, params := sig "issiSi", callee := "saxpy_",
    args := [.v 0, .v 1, .v 2, .v 3, .v 4, .v 5], hidden := false },
  { name := "saxpby", ret := .void, params := sig "issisSi", callee := "saxpby_",
    args := [.v 0, .v 1, .v 2, .v 3, .v 4, .v 5, .v 6], hidden := false },
  { name := "scasum", ret := .float, params := sig "ici", callee := "scasum_",
    args := [.v 0, .v 1, .v 2], hidden := false },
  { name := "scnrm2", ret := .float, params := sig "ici", callee := "scnrm2_",
    args := [.v 0, .v 1, .v 2], hidden := false },
  { name := "scopy", ret := .void, params := sig "isiSi", callee := "scopy_",
    args := [.v 0, .v 1, .v 2, .v 3, .v 4], hidden := false },
  { name := "sdot", ret := .float, params := sig "isisi", callee := "sdot_",
    args := [.v 0, .v 1, .v 2, .v 3, .v 4], hidden := false },
  { name := "sdsdot", ret := .float, params := sig "issisi", callee := "sdsdot_",
    args := [.v 0, .v 1, .v 2, .v 3, .v 4, .v 5], hidden := false },
  { name := "snrm2", ret := .float, params := sig "isi", callee := "snrm2_",
    args := [.v 0, .v 1, .v 2], hidden := false },
  { name := "srot", ret := .void, params := sig "iSiSiss", callee := "srot_",
    args := [.v 0, .v 1, .v 2, .v 3, .v 4, .v 5, .v 6], hidden := false },
  { name := "srotg", ret := .void, params := sig "SSSS", callee := "srotg_",
    args := [.v 0, .v 1, .v 2, .v 3], hidden := false },
  { name := "srotm", ret := .void, params := sig "iSiSis", callee := "srotm_",
    args := [.v 0, .v 1, .v 2, .v 3, .v 4, .v 5], hidden := false },
  { name := "srotmg", ret := .void, params := sig "SSSsS", callee := "srotmg_",
    args := [.v 0, .v 1, .v 2, .v 3, .v 4], hidden := false },
  { name := "sscal", ret := .void, params := sig "isSi", callee := "sscal_",
    args := [.v 0, .v 1, .v 2, .v 3], hidden := false },
  { name := "sswap", ret := .void, params := sig "iSiSi", callee := "sswap_",
    args := [.v 0, .v 1, .v 2, .v 3, .v 4], hidden := false },
  { name := "isamax", ret := .int, params := sig "isi", callee := "isamax_",
    args := [.v 0, .v 1, .v 2], hidden := false },
  { name := "isamin", ret := .int, params := sig "isi", callee := "isamin_",
    args := [.v 0, .v 1, .v 2], hidden := false },
  { name := "caxpy", ret := .void, params := sig "icciCi", callee := "caxpy_",
    args := [.v 0, .v 1, .v 2, .v 3, .v 4, .v 5], hidden := false },
  { name := "caxpby", ret := .void, params := sig "iccicCi", callee := "caxpby_",
    args := [.v 0, .v 1, .v 2, .v 3, .v 4, .v 5, .v 6], hidden := false },
  { name := "ccopy", ret := .void, params := sig "iciCi", callee := "ccopy_",
    args := [.v 0, .v 1, .v 2, .v 3, .v 4], hidden := false },
  { name := "crotg", ret := .void, params := sig "CcSC", callee := "crotg_",
    args := [.v 0, .v 1, .v 2, .v 3], hidden := false },
  { name := "cscal", ret := .void, params := sig "icCi", callee := "cscal_",
    args := [.v 0, .v 1, .v 2, .v 3], hidden := false },
  { name := "csrot", ret := .void, params := sig "iCiCiss", callee := "csrot_",
    args := [.v 0, .v 1, .v 2, .v 3, .v 4, .v 5, .v 6], hidden := false },
  { name := "csscal", ret := .void, params := sig "isCi", callee := "csscal_",
    args := [.v 0, .v 1, .v 2, .v 3], hidden := false },
  { name := "cswap", ret := .void, params := sig "iCiCi", callee := "cswap_",
    args := [.v 0, .v 1, .v 2, .v 3, .v 4], hidden := false },
  { name := "icamax", ret := .int, params := sig "ici", callee := "icamax_",
    args := [.v 0, .v 1, .v 2], hidden := false },
  { name := "icamin", ret := .int, params := sig "ici", callee := "icamin_",
    args := [.v 0, .v 1, .v 2], hidden := false },
  { name := "dcabs1", ret := .double, params := sig "z", callee := "dcabs1_",
    args := [.v 0], hidden := false },
  { name := "dasum", ret := .double, params := sig "idi", callee := "dasum_",
    args := [.v 0, .v 1, .v 2], hidden := false },
  { name := "daxpy", ret := .void, params := sig "iddiDi", callee := "daxpy_",
    args := [.v 0, .v 1, .v 2, .v 3, .v 4, .v 5], hidden := false },
  { name := "daxpby", ret := .void, params := sig "iddidDi", callee := "daxpby_",
    args := [.v 0, .v 1, .v 2, .v 3, .v 4, .v 5, .v 6], hidden := false },
  { name := "dcopy", ret := .void, params := sig "idiDi", callee := "dcopy_",
    args := [.v 0, .v 1, .v 2, .v 3, .v 4], hidden := false },
  { name := "ddot", ret := .double, params := sig "ididi", callee := "ddot_",
    args := [.v 0, .v 1, .v 2, .v 3, .v 4], hidden := false },
  { name := "dsdot", ret := .double, params := sig "isisi", callee := "dsdot_",
    args := [.v 0, .v 1, .v 2, .v 3, .v 4], hidden := false },
  { name := "dnrm2", ret := .double, params := sig "idi", callee := "dnrm2_",
    args := [.v 0, .v 1, .v 2], hidden := false },
  { name := "drot", ret := .void, params := sig "iDiDidd", callee := "drot_",
    args := [.v 0, .v 1, .v 2, .v 3, .v 4, .v 5, .v 6], hidden := false },
  { name := "drotg", ret := .void, params := sig "DDDD", callee := "drotg_",
    args := [.v 0, .v 1, .v 2, .v 3], hidden := false },
  { name := "drotm", ret := .void, params := sig "iDiDid", callee := "drotm_",
    args := [.v 0, .v 1, .v 2, .v 3, .v 4, .v 5], hidden := false },
  { name := "drotmg", ret := .void, params := sig "DDDdD", callee := "drotmg_",
    args := [.v 0, .v 1, .v 2, .v 3, .v 4], hidden := false },
  { name := "dscal", ret := .void, params := sig "idDi", callee := "dscal_",
    args := [.v 0, .v 1, .v 2, .v 3], hidden := false },
  { name := "dswap", ret := .void, params := sig "iDiDi", callee := "dswap_",
    args := [.v 0, .v 1, .v 2, .v 3, .v 4], hidden := false },
  { name := "dzasum", ret := .double, params := sig "izi", callee := "dzasum_",
    args := [.v 0, .v 1, .v 2], hidden := false },
  { name := "dznrm2", ret := .double, params := sig "izi", callee := "dznrm2_",
    args := [.v 0, .v 1, .v 2], hidden := false },
  { name := "idamax", ret := .int, params := sig "idi", callee := "idamax_",
    args := [.v 0, .v 1, .v 2], hidden := false },
  { name := "idamin", ret := .int, params := sig "idi", callee := "idamin_",
    args := [.v 0, .v 1, .v 2], hidden := false },
  { name := "zaxpy", ret := .void, params := sig "izziZi", callee := "zaxpy_",
    args := [.v 0, .v 1, .v 2, .v 3, .v 4, .v 5], hidden := false },
  { name := "zaxpby", ret := .void, params := sig "izzizZi", callee := "zaxpby_",
    args := [.v 0, .v 1, .v 2, .v 3, .v 4, .v 5, .v 6], hidden := false },
  { name := "zcopy", ret := .void, params := sig "iziZi", callee := "zcopy_",
    args := [.v 0, .v 1, .v 2, .v 3, .v 4], hidden := false },
  { name := "zdrot", ret := .void, params := sig "iZiZidd", callee := "zdrot_",
    args := [.v 0, .v 1, .v 2, .v 3, .v 4, .v 5, .v 6], hidden := false },
  { name := "zdscal", ret := .void, params := sig "idZi", callee := "zdscal_",
    args := [.v 0, .v 1, .v 2, .v 3], hidden := false },
  { name := "zrotg", ret := .void, params := sig "ZzDZ", callee := "zrotg_",
    args := [.v 0, .v 1, .v 2, .v 3], hidden := false },
  { name := "zscal", ret := .void, params := sig "izZi", callee := "zscal_",
    args := [.v 0, .v 1, .v 2, .v 3], hidden := false },
  { name := "zswap", ret := .void, params := sig "iZiZi", callee := "zswap_",
    args := [.v 0, .v 1, .v 2, .v 3, .v 4], hidden := false },
  { name := "izamax", ret := .int, params := sig "izi", callee := "izamax_",
    args := [.v 0, .v 1, .v 2], hidden := false },
  { name := "izamin", ret := .int, params := sig "izi", callee := "izamin_",
    args := [.v 0, .v 1, .v 2], hidden := false },
  { name := "sgbmv", ret := .void, params := sig "hiiiissisisSi", callee := "sgbmv_",
    args := [.v 0, .v 1, .v 2, .v 3, .v 4, .v 5, .v 6, .v 7, .v 8, .v 9, .v 10, .v 11, .v 12], hidden := false },
  { name := "sgemv", ret := .void, params := sig "hiissisisSi", callee := "sgemv_",
    args := [.v 0, .v 1, .v 2, .v 3, .v 4, .v 5, .v 6, .v 7, .v 8, .v 9, .v 10], hidden := false },
  { name := "sger", ret := .void, params := sig "iissisiSi", callee := "sger_",
    args := [.v 0, .v 1, .v 2, .v 3, .v 4, .v 5, .v 6, .v 7, .v 8], hidden := false },
  { name := "ssbmv", ret := .void, params := sig "hiissisisSi", callee := "ssbmv_",
    args := [.v 0, .v 1, .v 2, .v 3, .v 4, .v 5, .v 6, .v 7, .v 8, .v 9, .v 10], hidden := false },
  { name := "sspmv", ret := .void, params := sig "hisssisSi", callee := "sspmv_",
    args := [.v 0, .v 1, .v 2, .v 3, .v 4, .v 5, .v 6, .v 7, .v 8], hidden := false },
  { name := "sspr", ret := .void, params := sig "hissiS", callee := "sspr_",
    args := [.v 0, .v 1, .v 2, .v 3, .v 4, .v 5], hidden := false },
  { name := "sspr2", ret := .void, params := sig "hissisiS", callee := "sspr2_",
    args := [.v 0, .v 1, .v 2, .v 3, .v 4, .v 5, .v 6, .v 7], hidden := false },
  { name := "ssymv", ret := .void, params := sig "hissisisSi", callee := "ssymv_",
    args := [.v 0, .v 1, .v 2, .v 3, .v 4, .v 5, .v 6, .v 7, .v 8, .v 9], hidden := false },
  { name := "ssyr", ret := .void, params := sig "hissiSi", callee := "ssyr_",
    args := [.v 0, .v 1, .v 2, .v 3, .v 4, .v 5, .v 6], hidden := false },
  { name := "ssyr2", ret := .void, params := sig "hissisiSi", callee := "ssyr2_",
    args := [.v 0, .v 1, .v 2, .v 3, .v 4, .v 5, .v 6, .v 7, .v 8], hidden := false },
  { name := "stbmv", ret := .void, params := sig "hhhiisiSi", callee := "stbmv_",
    args := [.v 0, .v 1, .v 2, .v 3, .v 4, .v 5, .v 6, .v 7, .v 8], hidden := false },
  { name := "stbsv", ret := .void, params := sig "hhhiisiSi", callee := "stbsv_",
    args := [.v 0, .v 1, .v 2, .v 3, .v 4, .v 5, .v 6, .v 7, .v 8], hidden := false },
  { name := "stpmv", ret := .void, params := sig "hhhisSi", callee := "stpmv_",
    args := [.v 0, .v 1, .v 2, .v 3, .v 4, .v 5, .v 6], hidden := false },
  { name := "stpsv", ret := .void, params := sig "hhhisSi", callee := "stpsv_",
    args := [.v 0, .v 1, .v 2, .v 3, .v 4, .v 5, .v 6], hidden := false },
  { name := "strmv", ret := .void, params := sig "hhhisiSi", callee := "strmv_",
    args := [.v 0, .v 1, .v 2, .v 3, .v 4, .v 5, .v 6, .v 7], hidden := false },
  { name := "strsv", ret := .void, params := sig "hhhisiSi", callee := "strsv_",
    args := [.v 0, .v 1, .v 2, .v 3, .v 4, .v 5, .v 6, .v 7], hidden := false },
  { name := "cgbmv", ret := .void, params := sig "hiiiiccicicCi", callee := "cgbmv_",
    args := [.v 0, .v 1, .v 2, .v 3, .v 4, .v 5, .v 6, .v 7, .v 8, .v 9, .v 10, .v 11, .v 12], hidden := false },
  { name := "cgemv", ret := .void, params := sig "hiiccicicCi", callee := "cgemv_",
    args := [.v 0, .v 1, .v 2, .v 3, .v 4, .v 5, .v 6, .v 7, .v 8, .v 9, .v 10], hidden := false },
  { name := "cgerc", ret := .void, params := sig "iicciciCi", callee := "cgerc_",
    args := [.v 0, .v 1, .v 2, .v 3, .v 4, .v 5, .v 6, .v 7, .v 8], hidden := false },
  { name := "cgeru", ret := .void, params := sig "iicciciCi", callee := "cgeru_",
    args := [.v 0, .v 1, .v 2, .v 3, .v 4, .v 5, .v 6, .v 7, .v 8], hidden := false },
  { name := "chbmv", ret := .void, params := sig "hiiccicicCi", callee := "chbmv_",
    args := [.v 0, .v 1, .v 2, .v 3, .v 4, .v 5, .v 6, .v 7, .v 8, .v 9, .v 10], hidden := false },
  { name := "chemv", ret := .void, params := sig "hiccicicCi", callee := "chemv_",
    args := [.v 0, .v 1, .v 2, .v 3, .v 4, .v 5, .v 6, .v 7, .v 8, .v 9], hidden := false },
  { name := "cher", ret := .void, params := sig "hisciCi", callee := "cher_",
    args := [.v 0, .v 1, .v 2, .v 3, .v 4, .v 5, .v 6], hidden := false },
  { name := "cher2", ret := .void, params := sig "hicciciCi", callee := "cher2_",
    args := [.v 0, .v 1, .v 2, .v 3, .v 4, .v 5, .v 6, .v 7, .v 8], hidden := false },
  { name := "chpmv", ret := .void, params := sig "hicccicCi", callee := "chpmv_",
    args := [.v 0, .v 1, .v 2, .v 3, .v 4, .v 5, .v 6, .v 7, .v 8], hidden := false },
  { name := "chpr", ret := .void, params := sig "hisciC", callee := "chpr_",
    args := [.v 0, .v 1, .v 2, .v 3, .v 4, .v 5], hidden := false },
  { name := "chpr2", ret := .void, params := sig "hicciciC", callee := "chpr2_",
    args := [.v 0, .v 1, .v 2, .v 3, .v 4, .v 5, .v 6, .v 7], hidden := false },
  { name := "ctbmv", ret := .void, params := sig "hhhiiciCi", callee := "ctbmv_",
    args := [.v 0, .v 1, .v 2, .v 3, .v 4, .v 5, .v 6, .v 7, .v 8], hidden := false },
  { name := "ctbsv", ret := .void, params := sig "hhhiiciCi", callee := "ctbsv_",
    args := [.v 0, .v 1, .v 2, .v 3, .v 4, .v 5, .v 6, .v 7, .v 8], hidden := false },
  { name := "ctpmv", ret := .void, params := sig "hhhicCi", callee := "ctpmv_",
    args := [.v 0, .v 1, .v 2, .v 3, .v 4, .v 5, .v 6], hidden := false },
  { name := "ctpsv", ret := .void, params := sig "hhhicCi", callee := "ctpsv_",
    args := [.v 0, .v 1, .v 2, .v 3, .v 4, .v 5, .v 6], hidden := false },
  { name := "ctrmv", ret := .void, params := sig "hhhiciCi", callee := "ctrmv_",
    args := [.v 0, .v 1, .v 2, .v 3, .v 4, .v 5, .v 6, .v 7], hidden := false },
  { name := "ctrsv", ret := .void, params := sig "hhhiciCi", callee := "ctrsv_",
    args := [.v 0, .v 1, .v 2, .v 3, .v 4, .v 5, .v 6, .v 7], hidden := false },
  { name := "dgbmv", ret := .void, params := sig "hiiiiddididDi", callee := "dgbmv_",
    args := [.v 0, .v 1, .v 2, .v 3, .v 4, .v 5, .v 6, .v 7, .v 8, .v 9, .v 10, .v 11, .v 12], hidden := false },
  { name := "dgemv", ret := .void, params := sig "hiiddididDi", callee := "dgemv_",
    args := [.v 0, .v 1, .v 2, .v 3, .v 4, .v 5, .v 6, .v 7, .v 8, .v 9, .v 10], hidden := false },
  { name := "dger", ret := .void, params := sig "iiddidiDi", callee := "dger_",
    args := [.v 0, .v 1, .v 2, .v 3, .v 4, .v 5, .v 6, .v 7, .v 8], hidden := false },
  { name := "dsbmv", ret := .void, params := sig "hiiddididDi", callee := "dsbmv_",
    args := [.v 0, .v 1, .v 2, .v 3, .v 4, .v 5, .v 6, .v 7, .v 8, .v 9, .v 10], hidden := false },
  { name := "dspmv", ret := .void, params := sig "hidddidDi", callee := "dspmv_",
    args := [.v 0, .v 1, .v 2, .v 3, .v 4, .v 5, .v 6, .v 7, .v 8], hidden := false },
  { name := "dspr", ret := .void, params := sig "hiddiD", callee := "dspr_",
    args := [.v 0, .v 1, .v 2, .v 3, .v 4, .v 5], hidden := false },
  { name := "dspr2", ret := .void, params := sig "hiddidiD", callee := "dspr2_",
    args := [.v 0, .v 1, .v 2, .v 3, .v 4, .v 5, .v 6, .v 7], hidden := false },
  { name := "dsymv", ret := .void, params := sig "hiddididDi", callee := "dsymv_",
    args := [.v 0, .v 1, .v 2, .v 3, .v 4, .v 5, .v 6, .v 7, .v 8, .v 9], hidden := false },
  { name := "dsyr", ret := .void, params := sig "hiddiDi", callee := "dsyr_",
    args := [.v 0, .v 1, .v 2, .v 3, .v 4, .v 5, .v 6], hidden := false },
  { name := "dsyr2", ret := .void, params := sig "hiddidiDi", callee := "dsyr2_",
    args := [.v 0, .v 1, .v 2, .v 3, .v 4, .v 5, .v 6, .v 7, .v 8], hidden := false },
  { name := "dtbmv", ret := .void, params := sig "hhhiidiDi", callee := "dtbmv_",
    args := [.v 0, .v 1, .v 2, .v 3, .v 4, .v 5, .v 6, .v 7, .v 8], hidden := false },
  { name := "dtbsv", ret := .void, params := sig "hhhiidiDi", callee := "dtbsv_",
    args := [.v 0, .v 1, .v 2, .v 3, .v 4, .v 5, .v 6, .v 7, .v 8], hidden := false },
  { name := "dtpmv", ret := .void, params := sig "hhhidDi", callee := "dtpmv_",
    args := [.v 0, .v 1, .v 2, .v 3, .v 4, .v 5, .v 6], hidden := false },
  { name := "dtpsv", ret := .void, params := sig "hhhidDi", callee := "dtpsv_",
    args := [.v 0, .v 1, .v 2, .v 3, .v 4, .v 5, .v 6], hidden := false },
  { name := "dtrmv", ret := .void, params := sig "hhhidiDi", callee := "dtrmv_",
    args := [.v 0, .v 1, .v 2, .v 3, .v 4, .v 5, .v 6, .v 7], hidden := false },
  { name := "dtrsv", ret := .void, params := sig "hhhidiDi", callee := "dtrsv_",
    args := [.v 0, .v 1, .v 2, .v 3, .v 4, .v 5, .v 6, .v 7], hidden := false },
  { name := "zgbmv", ret := .void, params := sig "hiiiizzizizZi", callee := "zgbmv_",
    args := [.v 0, .v 1, .v 2, .v 3, .v 4, .v 5, .v 6, .v 7, .v 8, .v 9, .v 10, .v 11, .v 12], hidden := false },
  { name := "zgemv", ret := .void, params := sig "hiizzizizZi", callee := "zgemv_",
    args := [.v 0, .v 1, .v 2, .v 3, .v 4, .v 5, .v 6, .v 7, .v 8, .v 9, .v 10], hidden := false },
  { name := "zgerc", ret := .void, params := sig "iizziziZi", callee := "zgerc_",
    args := [.v 0, .v 1, .v 2, .v 3, .v 4, .v 5, .v 6, .v 7, .v 8], hidden := false },
  { name := "zgeru", ret := .void, params := sig "iizziziZi", callee := "zgeru_",
    args := [.v 0, .v 1, .v 2, .v 3, .v 4, .v 5, .v 6, .v 7, .v 8], hidden := false },
  { name := "zhbmv", ret := .void, params := sig "hiizzizizZi", callee := "zhbmv_",
    args := [.v 0, .v 1, .v 2, .v 3, .v 4, .v 5, .v 6, .v 7, .v 8, .v 9, .v 10], hidden := false },
  { name := "zhemv", ret := .void, params := sig "hizzizizZi", callee := "zhemv_",
    args := [.v 0, .v 1, .v 2, .v 3, .v 4, .v 5, .v 6, .v 7, .v 8, .v 9], hidden := false },
  { name := "zher", ret := .void, params := sig "hidziZi", callee := "zher_",
    args := [.v 0, .v 1, .v 2, .v 3, .v 4, .v 5, .v 6], hidden := false },
  { name := "zher2", ret := .void, params := sig "hizziziZi", callee := "zher2_",
    args := [.v 0, .v 1, .v 2, .v 3, .v 4, .v 5, .v 6, .v 7, .v 8], hidden := false },
  { name := "zhpmv", ret := .void, params := sig "hizzzizZi", callee := "zhpmv_",
    args := [.v 0, .v 1, .v 2, .v 3, .v 4, .v 5, .v 6, .v 7, .v 8], hidden := false },
  { name := "zhpr", ret := .void, params := sig "hidziZ", callee := "zhpr_",
    args := [.v 0, .v 1, .v 2, .v 3, .v 4, .v 5], hidden := false },
  { name := "zhpr2", ret := .void, params := sig "hizziziZ", callee := "zhpr2_",
    args := [.v 0, .v 1, .v 2, .v 3, .v 4, .v 5, .v 6, .v 7], hidden := false },
  { name := "ztbmv", ret := .void, params := sig "hhhiiziZi", callee := "ztbmv_",
    args := [.v 0, .v 1, .v 2, .v 3, .v 4, .v 5, .v 6, .v 7, .v 8], hidden := false },
  { name := "ztbsv", ret := .void, params := sig "hhhiiziZi", callee := "ztbsv_",
    args := [.v 0, .v 1, .v 2, .v 3, .v 4, .v 5, .v 6, .v 7, .v 8], hidden := false },
  { name := "ztpmv", ret := .void, params := sig "hhhizZi", callee := "ztpmv_",
    args := [.v 0, .v 1, .v 2, .v 3, .v 4, .v 5, .v 6], hidden := false },
  { name := "ztpsv", ret := .void, params := sig "hhhizZi", callee := "ztpsv_",
    args := [.v 0, .v 1, .v 2, .v 3, .v 4, .v 5, .v 6], hidden := false },
  { name := "ztrmv", ret := .void, params := sig "hhhiziZi", callee := "ztrmv_",
    args := [.v 0, .v 1, .v 2, .v 3, .v 4, .v 5, .v 6, .v 7], hidden := false },
  { name := "ztrsv", ret := .void, params := sig "hhhiziZi", callee := "ztrsv_",
    args := [.v 0, .v 1, .v 2, .v 3, .v 4, .v 5, .v 6, .v 7], hidden := false },
  { name := "sgemm", ret := .void, params := sig "hhiiissisisSi", callee := "sgemm_",
    args := [.v 0, .v 1, .v 2, .v 3, .v 4, .v 5, .v 6, .v 7, .v 8, .v 9, .v 10, .v 11, .v 12], hidden := false },
  { name := "ssymm", ret := .void, params := sig "hhiissisisSi", callee := "ssymm_",
    args := [.v 0, .v 1, .v 2, .v 3, .v 4, .v 5, .v 6, .v 7, .v 8, .v 9, .v 10, .v 11], hidden := false },
  { name := "ssyr2k", ret := .void, params := sig "hhiissisisSi", callee := "ssyr2k_",
    args := [.v 0, .v 1, .v 2, .v 3, .v 4, .v 5, .v 6, .v 7, .v 8, .v 9, .v 10, .v 11], hidden := false },
  { name := "ssyrk", ret := .void, params := sig "hhiissisSi", callee := "ssyrk_",
    args := [.v 0, .v 1, .v 2, .v 3, .v 4, .v 5, .v 6, .v 7, .v 8, .v 9], hidden := false },
  { name := "strmm", ret := .void, params := sig "hhhhiissiSi", callee := "strmm_",
    args := [.v 0, .v 1, .v 2, .v 3, .v 4, .v 5, .v 6, .v 7, .v 8, .v 9, .v 10], hidden := false },
  { name := "strsm", ret := .void, params := sig "hhhhiissiSi", callee := "strsm_",
    args := [.v 0, .v 1, .v 2, .v 3, .v 4, .v 5, .v 6, .v 7, .v 8, .v 9, .v 10], hidden := false },
  { name := "cgemm", ret := .void, params := sig "hhiiiccicicCi", callee := "cgemm_",
    args := [.v 0, .v 1, .v 2, .v 3, .v 4, .v 5, .v 6, .v 7, .v 8, .v 9, .v 10, .v 11, .v 12], hidden := false },
  { name := "cgemm3m", ret := .void, params := sig "hhiiiccicicCi", callee := "cgemm3m_",
    args := [.v 0, .v 1, .v 2, .v 3, .v 4, .v 5, .v 6, .v 7, .v 8, .v 9, .v 10, .v 11, .v 12], hidden := false },
  { name := "chemm", ret := .void, params := sig "hhiiccicicCi", callee := "chemm_",
    args := [.v 0, .v 1, .v 2, .v 3, .v 4, .v 5, .v 6, .v 7, .v 8, .v 9, .v 10, .v 11], hidden := false },
  { name := "cher2k", ret := .void, params := sig "hhiiccicisCi", callee := "cher2k_",
    args := [.v 0, .v 1, .v 2, .v 3, .v 4, .v 5, .v 6, .v 7, .v 8, .v 9, .v 10, .v 11], hidden := false },
  { name := "cherk", ret := .void, params := sig "hhiiscisCi", callee := "cherk_",
    args := [.v 0, .v 1, .v 2, .v 3, .v 4, .v 5, .v 6, .v 7, .v 8, .v 9], hidden := false },
  { name := "csymm", ret := .void, params := sig "hhiiccicicCi", callee := "csymm_",
    args := [.v 0, .v 1, .v 2, .v 3, .v 4, .v 5, .v 6, .v 7, .v 8, .v 9, .v 10, .v 11], hidden := false },
  { name := "csyr2k", ret := .void, params := sig "hhiiccicicCi", callee := "csyr2k_",
    args := [.v 0, .v 1, .v 2, .v 3, .v 4, .v 5, .v 6, .v 7, .v 8, .v 9, .v 10, .v 11], hidden := false },
  { name := "csyrk", ret := .void, params := sig "hhiiccicCi", callee := "csyrk_",
    args := [.v 0, .v 1, .v 2, .v 3, .v 4, .v 5, .v 6, .v 7, .v 8, .v 9], hidden := false },
  { name := "ctrmm", ret := .void, params := sig "hhhhiicciCi", callee := "ctrmm_",
    args := [.v 0, .v 1, .v 2, .v 3, .v 4, .v 5, .v 6, .v 7, .v 8, .v 9, .v 10], hidden := false },
  { name := "ctrsm", ret := .void, params := sig "hhhhiicciCi", callee := "ctrsm_",
    args := [.v 0, .v 1, .v 2, .v 3, .v 4, .v 5, .v 6, .v 7, .v 8, .v 9, .v 10], hidden := false },
  { name := "dgemm", ret := .void, params := sig "hhiiiddididDi", callee := "dgemm_",
    args := [.v 0, .v 1, .v 2, .v 3, .v 4, .v 5, .v 6, .v 7, .v 8, .v 9, .v 10, .v 11, .v 12], hidden := false },
  { name := "dsymm", ret := .void, params := sig "hhiiddididDi", callee := "dsymm_",
    args := [.v 0, .v 1, .v 2, .v 3, .v 4, .v 5, .v 6, .v 7, .v 8, .v 9, .v 10, .v 11], hidden := false },
  { name := "dsyr2k", ret := .void, params := sig "hhiiddididDi", callee := "dsyr2k_",
    args := [.v 0, .v 1, .v 2, .v 3, .v 4, .v 5, .v 6, .v 7, .v 8, .v 9, .v 10, .v 11], hidden := false },
  { name := "dsyrk", ret := .void, params := sig "hhiiddidDi", callee := "dsyrk_",
    args := [.v 0, .v 1, .v 2, .v 3, .v 4, .v 5, .v 6, .v 7, .v 8, .v 9], hidden := false },
  { name := "dtrmm", ret := .void, params := sig "hhhhiiddiDi", callee := "dtrmm_",
    args := [.v 0, .v 1, .v 2, .v 3, .v 4, .v 5, .v 6, .v 7, .v 8, .v 9, .v 10], hidden := false },
  { name := "dtrsm", ret := .void, params := sig "hhhhiiddiDi", callee := "dtrsm_",
    args := [.v 0, .v 1, .v 2, .v 3, .v 4, .v 5, .v 6, .v 7, .v 8, .v 9, .v 10], hidden := false },
  { name := "zgemm", ret := .void, params := sig "hhiiizzizizZi", callee := "zgemm_",
    args := [.v 0, .v 1, .v 2, .v 3, .v 4, .v 5, .v 6, .v 7, .v 8, .v 9, .v 10, .v 11, .v 12], hidden := false },
  { name := "zgemm3m", ret := .void, params := sig "hhiiizzizizZi", callee := "zgemm3m_",
    args := [.v 0, .v 1, .v 2, .v 3, .v 4, .v 5, .v 6, .v 7, .v 8, .v 9, .v 10, .v 11, .v 12], hidden := false },
  { name := "zhemm", ret := .void, params := sig "hhiizzizizZi", callee := "zhemm_",
    args := [.v 0, .v 1, .v 2, .v 3, .v 4, .v 5, .v 6, .v 7, .v 8, .v 9, .v 10, .v 11], hidden := false },
  { name := "zher2k", ret := .void, params := sig "hhiizzizidZi", callee := "zher2k_",
    args := [.v 0, .v 1, .v 2, .v 3, .v 4, .v 5, .v 6, .v 7, .v 8, .v 9, .v 10, .v 11], hidden := false },
  { name := "zherk", ret := .void, params := sig "hhiidzidZi", callee := "zherk_",
    args := [.v 0, .v 1, .v 2, .v 3, .v 4, .v 5, .v 6, .v 7, .v 8, .v 9], hidden := false },
  { name := "zsymm", ret := .void, params := sig "hhiizzizizZi", callee := "zsymm_",
    args := [.v 0, .v 1, .v 2, .v 3, .v 4, .v 5, .v 6, .v 7, .v 8, .v 9, .v 10, .v 11], hidden := false },
  { name := "zsyr2k", ret := .void, params := sig "hhiizzizizZi", callee := "zsyr2k_",
    args := [.v 0, .v 1, .v 2, .v 3, .v 4, .v 5, .v 6, .v 7, .v 8, .v 9, .v 10, .v 11], hidden := false },
  { name := "zsyrk", ret := .void, params := sig "hhiizzizZi", callee := "zsyrk_",
    args := [.v 0, .v 1, .v 2, .v 3, .v 4, .v 5, .v 6, .v 7, .v 8, .v 9], hidden := false },
  { name := "ztrmm", ret := .void, params := sig "hhhhiizziZi", callee := "ztrmm_",
    args := [.v 0, .v 1, .v 2, .v 3, .v 4, .v 5, .v 6, .v 7, .v 8, .v 9, .v 10], hidden := false },
  { name := "ztrsm", ret := .void, params := sig "hhhhiizziZi", callee := "ztrsm_",
    args := [.v 0, .v 1, .v 2, .v 3, .v 4, .v 5, .v 6, .v 7, .v 8, .v 9, .v 10], hidden := false },
  { name := "dcsrmm", ret := .void, params := sig "hiiidhdiiididDi", callee := "mkl_dcsrmm",
    args := [.v 0, .v 1, .v 2, .v 3, .v 4, .v 5, .v 6, .v 7, .v 8, .v 9, .v 10, .v 11, .v 12, .v 13, .v 14], hidden := false },
  { name := "dcsrmultcsr", ret := .void, params := sig "hiiiiiDIIDIIDIIiI", callee := "mkl_dcsrmultcsr",
    args := [.v 0, .v 1, .v 2, .v 3, .v 4, .v 5, .v 6, .v 7, .v 8, .v 9, .v 10, .v 11, .v 12, .v 13, .v 14, .v 15, .v 16], hidden := false },
  { name := "scsrmm", ret := .void, params := sig "hiiishsiiisisSi", callee := "mkl_scsrmm",
    args := [.v 0, .v 1, .v 2, .v 3, .v 4, .v 5, .v 6, .v 7, .v 8, .v 9, .v 10, .v 11, .v 12, .v 13, .v 14], hidden := false },
  { name := "scsrmultcsr", ret := .void, params := sig "hiiiiiSIISIISIIiI", callee := "mkl_scsrmultcsr",
    args := [.v 0, .v 1, .v 2, .v 3, .v 4, .v 5, .v 6, .v 7, .v 8, .v 9, .v 10, .v 11, .v 12, .v 13, .v 14, .v 15, .v 16], hidden := false },
  { name := "cdotc", ret := .cfloat, params := sig "icici", callee := "cdotc_",
    args := [.res, .v 0, .v 1, .v 2, .v 3, .v 4], hidden := true },
  { name := "cdotu", ret := .cfloat, params := sig "icici", callee := "cdotu_",
    args := [.res, .v 0, .v 1, .v 2, .v 3, .v 4], hidden := true },
  { name := "zdotc", ret := .cdouble, params := sig "izizi", callee := "zdotc_",
    args := [.res, .v 0, .v 1, .v 2, .v 3, .v 4], hidden := true },
  { name := "zdotu", ret := .cdouble, params := sig "izizi", callee := "zdotu_",
    args := [.res, .v 0, .v 1, .v 2, .v 3, .v 4], hidden := true }]

/-- /repo/include/BlasBooster/BlasInterface/BlasInterface_OpenBLAS.h: the declared call operators. -/
def openBLASDecls : List Sig := [
  { name := "scabs1", ret := .float, params := sig "c" },
  { name := "sasum", ret := .float, params := sig "isi" },
  { name := "saxpy", ret := .void, params := sig "issiSi" },
  { name := "saxpby", ret := .void, params := sig "issisSi" },
  { name := "scasum", ret := .float, params := sig "ici" },
  { name := "scnrm2", ret := .float, params := sig "ici" },
  { name := "scopy", ret := .void, params := sig "isiSi" },
  { name := "sdot", ret := .float, params := sig "isisi" },
  { name := "sdsdot", ret := .float, params := sig "issisi" },
  { name := "snrm2", ret := .float, params := sig "isi" },
  { name := "srot", ret := .void, params := sig "iSiSiss" },
  { name := "srotg", ret := .void, params := sig "SSSS" },
  { name := "srotm", ret := .void, params := sig "iSiSis" },
  { name := "srotmg", ret := .void, params := sig "SSSsS" },
  { name := "sscal", ret := .void, params := sig "isSi" },
  { name := "sswap", ret := .void, params := sig "iSiSi" },
  { name := "isamax", ret := .int, params := sig "isi" },
  { name := "isamin", ret := .int, params := sig "isi" },
  { name := "caxpy", ret := .void, params := sig "icciCi" },
  { name := "caxpby", ret := .void, params := sig "iccicCi" },
  { name := "ccopy", ret := .void, params := sig "iciCi" },
  { name := "crotg", ret := .void, params := sig "CcSC" },
  { name := "cscal", ret := .void, params := sig "icCi" },
  { name := "csrot", ret := .void, params := sig "iCiCiss" },
  { name := "csscal", ret := .void, params := sig "isCi" },
  { name := "cswap", ret := .void, params := sig "iCiCi" },
  { name := "icamax", ret := .int, params := sig "ici" },
  { name := "icamin", ret := .int, params := sig "ici" },
  { name := "dcabs1", ret := .double, params := sig "z" },
  { name := "dasum", ret := .double, params := sig "idi" },
  { name := "daxpy", ret := .void, params := sig "iddiDi" },
  { name := "daxpby", ret := .void, params := sig "iddidDi" },
  { name := "dcopy", ret := .void, params := sig "idiDi" },
  { name := "ddot", ret := .double, params := sig "ididi" },
  { name := "dsdot", ret := .double, params := sig "isisi" },
  { name := "dnrm2", ret := .double, params := sig "idi" },
  { name := "drot", ret := .void, params := sig "iDiDidd" },
  { name := "drotg", ret := .void, params := sig "DDDD" },
  { name := "drotm", ret := .void, params := sig "iDiDid" },
  { name := "drotmg", ret := .void, params := sig "DDDdD" },
  { name := "dscal", ret := .void, params := sig "idDi" },
  { name := "dswap", ret := .void, params := sig "iDiDi" },
  { name := "dzasum", ret := .double, params := sig "izi" },
  { name := "dznrm2", ret := .double, params := sig "izi" },
  { name := "idamax", ret := .int, params := sig "idi" },
  { name := "idamin", ret := .int, params := sig "idi" },
  { name := "zaxpy", ret := .void, params := sig "izziZi" },
  { name := "zaxpby", ret := .void, params := sig "izzizZi" },
  { name := "zcopy", ret := .void, params := sig "iziZi" },
  { name := "zdrot", ret := .void, params := sig "iZiZidd" },
  { name := "zdscal", ret := .void, params := sig "idZi" },
  { name := "zrotg", ret := .void, params := sig "ZzDZ" },
  { name := "zscal", ret := .void, params := sig "izZi" },
  { name := "zswap", ret := .void, params := sig "iZiZi" },
  { name := "izamax", ret := .int, params := sig "izi" },
  { name := "izamin", ret := .int, params := sig "izi" },
  { name := "sgbmv", ret := .void, params := sig "hiiiissisisSi" },
  { name := "sgemv", ret := .void, params := sig "hiissisisSi" },
  { name := "sger", ret := .void, params := sig "iissisiSi" },
  { name := "ssbmv", ret := .void, params := sig "hiissisisSi" },
  { name := "sspmv", ret := .void, params := sig "hisssisSi" },
  { name := "sspr", ret := .void, params := sig "hissiS" },
  { name := "sspr2", ret := .void, params := sig "hissisiS" },
  { name := "ssymv", ret := .void, params := sig "hissisisSi" },
  { name := "ssyr", ret := .void, params := sig "hissiSi" },
  { name := "ssyr2", ret := .void, params := sig "hissisiSi" },
  { name := "stbmv", ret := .void, params := sig "hhhiisiSi" },
  { name := "stbsv", ret := .void, params := sig "hhhiisiSi" },
  { name := "stpmv", ret := .void, params := sig "hhhisSi" },
  { name := "stpsv", ret := .void, params := sig "hhhisSi" },
  { name := "strmv", ret := .void, params := sig "hhhisiSi" },
  { name := "strsv", ret := .void, params := sig "hhhisiSi" },
  { name := "cgbmv", ret := .void, params := sig "hiiiiccicicCi" },
  { name := "cgemv", ret := .void, params := sig "hiiccicicCi" },
  { name := "cgerc", ret := .void, params := sig "iicciciCi" },
  { name := "cgeru", ret := .void, params := sig "iicciciCi" },
  { name := "chbmv", ret := .void, params := sig "hiiccicicCi" },
  { name := "chemv", ret := .void, params := sig "hiccicicCi" },
  { name := "cher", ret := .void, params := sig "hisciCi" },
  { name := "cher2", ret := .void, params := sig "hicciciCi" },
  { name := "chpmv", ret := .void, params := sig "hicccicCi" },
  { name := "chpr", ret := .void, params := sig "hisciC" },
  { name := "chpr2", ret := .void, params := sig "hicciciC" },
  { name := "ctbmv", ret := .void, params := sig "hhhiiciCi" },
  { name := "ctbsv", ret := .void, params := sig "hhhiiciCi" },
  { name := "ctpmv", ret := .void, params := sig "hhhicCi" },
  { name := "ctpsv", ret := .void, params := sig "hhhicCi" },
  { name := "ctrmv", ret := .void, params := sig "hhhiciCi" },
  { name := "ctrsv", ret := .void, params := sig "hhhiciCi" },
  { name := "dgbmv", ret := .void, params := sig "hiiiiddididDi" },
  { name := "dgemv", ret := .void, params := sig "hiiddididDi" },
  { name := "dger", ret := .void, params := sig "iiddidiDi" },
  { name := "dsbmv", ret := .void, params := sig "hiiddididDi" },
  { name := "dspmv", ret := .void, params := sig "hidddidDi" },
  { name := "dspr", ret := .void, params := sig "hiddiD" },
  { name := "dspr2", ret := .void, params := sig "hiddidiD" },
  { name := "dsymv", ret := .void, params := sig "hiddididDi" },
  { name := "dsyr", ret := .void, params := sig "hiddiDi" },
  { name := "dsyr2", ret := .void, params := sig "hiddidiDi" },
  { name := "dtbmv", ret := .void, params := sig "hhhiidiDi" },
  { name := "dtbsv", ret := .void, params := sig "hhhiidiDi" },
  { name := "dtpmv", ret := .void, params := sig "hhhidDi" },
  { name := "dtpsv", ret := .void, params := sig "hhhidDi" },
  { name := "dtrmv", ret := .void, params := sig "hhhidiDi" },
  { name := "dtrsv", ret := .void, params := sig "hhhidiDi" },
  { name := "zgbmv", ret := .void, params := sig "hiiiizzizizZi" },
  { name := "zgemv", ret := .void, params := sig "hiizzizizZi" },
  { name := "zgerc", ret := .void, params := sig "iizziziZi" },
  { name := "zgeru", ret := .void, params := sig "iizziziZi" },
  { name := "zhbmv", ret := .void, params := sig "hiizzizizZi" },
  { name := "zhemv", ret := .void, params := sig "hizzizizZi" },
  { name := "zher", ret := .void, params := sig "hidziZi" },
  { name := "zher2", ret := .void, params := sig "hizziziZi" },
  { name := "zhpmv", ret := .void, params := sig "hizzzizZi" },
  { name := "zhpr", ret := .void, params := sig "hidziZ" },
  { name := "zhpr2", ret := .void, params := sig "hizziziZ" },
  { name := "ztbmv", ret := .void, params := sig "hhhiiziZi" },
  { name := "ztbsv", ret := .void, params := sig "hhhiiziZi" },
  { name := "ztpmv", ret := .void, params := sig "hhhizZi" },
  { name := "ztpsv", ret := .void, params := sig "hhhizZi" },
  { name := "ztrmv", ret := .void, params := sig "hhhiziZi" },
  { name := "ztrsv", ret := .void, params := sig "hhhiziZi" },
  { name := "sgemm", ret := .void, params := sig "hhiiissisisSi" },
  { name := "ssymm", ret := .void, params := sig "hhiissisisSi" },
  { name := "ssyr2k", ret := .void, params := sig "hhiissisisSi" },
  { name := "ssyrk", ret := .void, params := sig "hhiissisSi" },
  { name := "strmm", ret := .void, params := sig "hhhhiissiSi" },
  { name := "strsm", ret := .void, params := sig "hhhhiissiSi" },
  { name := "cgemm", ret := .void, params := sig "hhiiiccicicCi" },
  { name := "cgemm3m", ret := .void, params := sig "hhiiiccicicCi" },
  { name := "chemm", ret := .void, params := sig "hhiiccicicCi" },
  { name := "cher2k", ret := .void, params := sig "hhiiccicisCi" },
  { name := "cherk", ret := .void, params := sig "hhiiscisCi" },
  { name := "csymm", ret := .void, params := sig "hhiiccicicCi" },
  { name := "csyr2k", ret := .void, params := sig "hhiiccicicCi" },
  { name := "csyrk", ret := .void, params := sig "hhiiccicCi" },
  { name := "ctrmm", ret := .void, params := sig "hhhhiicciCi" },
  { name := "ctrsm", ret := .void, params := sig "hhhhiicciCi" },
  { name := "dgemm", ret := .void, params := sig "hhiiiddididDi" },
  { name := "dsymm", ret := .void, params := sig "hhiiddididDi" },
  { name := "dsyr2k", ret := .void, params := sig "hhiiddididDi" },
  { name := "dsyrk", ret := .void, params := sig "hhiiddidDi" },
  { name := "dtrmm", ret := .void, params := sig "hhhhiiddiDi" },
  { name := "dtrsm", ret := .void, params := sig "hhhhiiddiDi" },
  { name := "zgemm", ret := .void, params := sig "hhiiizzizizZi" },
  { name := "zgemm3m", ret := .void, params := sig "hhiiizzizizZi" },
  { name := "zhemm", ret := .void, params := sig "hhiizzizizZi" },
  { name := "zher2k", ret := .void, params := sig "hhiizzizidZi" },
  { name := "zherk", ret := .void, params := sig "hhiidzidZi" },
  { name := "zsymm", ret := .void, params := sig "hhiizzizizZi" },
  { name := "zsyr2k", ret := .void, params := sig "hhiizzizizZi" },
  { name := "zsyrk", ret := .void, params := sig "hhiizzizZi" },
  { name := "ztrmm", ret := .void, params := sig "hhhhiizziZi" },
  { name := "ztrsm", ret := .void, params := sig "hhhhiizziZi" },
  { name := "cdotc", ret := .cfloat, params := sig "icici" },
  { name := "cdotu", ret := .cfloat, params := sig "icici" },
  { name := "zdotc", ret := .cdouble, params := sig "izizi" },
  { name := "zdotu", ret := .cdouble, params := sig "izizi" }]

/-- /repo/include/BlasBooster/BlasInterface/BlasInterface_IntelMKL.h: the declared call operators. -/
def intelMKLDecls : List Sig := [
  { name := "scabs1", ret := .float, params := sig "c" },
  { name := "sasum", ret := .float, params := sig "isi" },
  { name := "saxpy", ret := .void, params := sig "issiSi" },
  { name := "saxpby", ret := .void, params := sig "issisSi" },
  { name := "scasum", ret := .float, params := sig "ici" },
  { name := "scnrm2", ret := .float, params := sig "ici" },
  { name := "scopy", ret := .void, params := sig "isiSi" },
  { name := "sdot", ret := .float, params := sig "isisi" },
  { name := "sdsdot", ret := .float, params := sig "issisi" },
  { name := "snrm2", ret := .float, params := sig "isi" },
  { name := "srot", ret := .void, params := sig "iSiSiss" },
  { name := "srotg", ret := .void, params := sig "SSSS" },
  { name := "srotm", ret := .void, params := sig "iSiSis" },
  { name := "srotmg", ret := .void, params := sig "SSSsS" },
  { name := "sscal", ret := .void, params := sig "isSi" },
  { name := "sswap", ret := .void, params := sig "iSiSi" },
  { name := "isamax", ret := .int, params := sig "isi" },
  { name := "isamin", ret := .int, params := sig "isi" },
  { name := "caxpy", ret := .void, params := sig "icciCi" },
  { name := "caxpby", ret := .void, params := sig "iccicCi" },
  { name := "ccopy", ret := .void, params := sig "iciCi" },
  { name := "crotg", ret := .void, params := sig "CcSC" },
  { name := "cscal", ret := .void, params := sig "icCi" },
  { name := "csrot", ret := .void, params := sig "iCiCiss" },
  { name := "csscal", ret := .void, params := sig "isCi" },
  { name := "cswap", ret := .void, params := sig "iCiCi" },
  { name := "icamax", ret := .int, params := sig "ici" },
  { name := "icamin", ret := .int, params := sig "ici" },
  { name := "dcabs1", ret := .double, params := sig "z" },
  { name := "dasum", ret := .double, params := sig "idi" },
  { name := "daxpy", ret := .void, params := sig "iddiDi" },
  { name := "daxpby", ret := .void, params := sig "iddidDi" },
  { name := "dcopy", ret := .void, params := sig "idiDi" },
  { name := "ddot", ret := .double, params := sig "ididi" },
  { name := "dsdot", ret := .double, params := sig "isisi" },
  { name := "dnrm2", ret := .double, params := sig "idi" },
  { name := "drot", ret := .void, params := sig "iDiDidd" },
  { name := "drotg", ret := .void, params := sig "DDDD" },
  { name := "drotm", ret := .void, params := sig "iDiDid" },
  { name := "drotmg", ret := .void, params := sig "DDDdD" },
  { name := "dscal", ret := .void, params := sig "idDi" },
  { name := "dswap", ret := .void, params := sig "iDiDi" },
  { name := "dzasum", ret := .double, params := sig "izi" },
  { name := "dznrm2", ret := .double, params := sig "izi" },
  { name := "idamax", ret := .int, params := sig "idi" },
  { name := "idamin", ret := .int, params := sig "idi" },
  { name := "zaxpy", ret := .void, params := sig "izziZi" },
  { name := "zaxpby", ret := .void, params := sig "izzizZi" },
  { name := "zcopy", ret := .void, params := sig "iziZi" },
  { name := "zdrot", ret := .void, params := sig "iZiZidd" },
  { name := "zdscal", ret := .void, params := sig "idZi" },
  { name := "zrotg", ret := .void, params := sig "ZzDZ" },
  { name := "zscal", ret := .void, params := sig "izZi" },
  { name := "zswap", ret := .void, params := sig "iZiZi" },
  { name := "izamax", ret := .int, params := sig "izi" },
  { name := "izamin", ret := .int, params := sig "izi" },
  { name := "sgbmv", ret := .void, params := sig "hiiiissisisSi" },
  { name := "sgemv", ret := .void, params := sig "hiissisisSi" },
  { name := "sger", ret := .void, params := sig "iissisiSi" },
  { name := "ssbmv", ret := .void, params := sig "hiissisisSi" },
  { name := "sspmv", ret := .void, params := sig "hisssisSi" },
  { name := "sspr", ret := .void, params := sig "hissiS" },
  { name := "sspr2", ret := .void, params := sig "hissisiS" },
  { name := "ssymv", ret := .void, params := sig "hissisisSi" },
  { name := "ssyr", ret := .void, params := sig "hissiSi" },
  { name := "ssyr2", ret := .void, params := sig "hissisiSi" },
  { name := "stbmv", ret := .void, params := sig "hhhiisiSi" },
  { name := "stbsv", ret := .void, params := sig "hhhiisiSi" },
  { name := "stpmv", ret := .void, params := sig "hhhisSi" },
  { name := "stpsv", ret := .void, params := sig "hhhisSi" },
  { name := "strmv", ret := .void, params := sig "hhhisiSi" },
  { name := "strsv", ret := .void, params := sig "hhhisiSi" },
  { name := "cgbmv", ret := .void, params := sig "hiiiiccicicCi" },
  { name := "cgemv", ret := .void, params := sig "hiiccicicCi" },
  { name := "cgerc", ret := .void, params := sig "iicciciCi" },
  { name := "cgeru", ret := .void, params := sig "iicciciCi" },
  { name := "chbmv", ret := .void, params := sig "hiiccicicCi" },
  { name := "chemv", ret := .void, params := sig "hiccicicCi" },
  { name := "cher", ret := .void, params := sig "hisciCi" },
  { name := "cher2", ret := .void, params := sig "hicciciCi" },
  { name := "chpmv", ret := .void, params := sig "hicccicCi" },
  { name := "chpr", ret := .void, params := sig "hisciC" },
  { name := "chpr2", ret := .void, params := sig "hicciciC" },
  { name := "ctbmv", ret := .void, params := sig "hhhiiciCi" },
  { name := "ctbsv", ret := .void, params := sig "hhhiiciCi" },
  { name := "ctpmv", ret := .void, params := sig "hhhicCi" },
  { name := "ctpsv", ret := .void, params := sig "hhhicCi" },
  { name := "ctrmv", ret := .void, params := sig "hhhiciCi" },
  { name := "ctrsv", ret := .void, params := sig "hhhiciCi" },
  { name := "dgbmv", ret := .void, params := sig "hiiiiddididDi" },
  { name := "dgemv", ret := .void, params := sig "hiiddididDi" },
  { name := "dger", ret := .void, params := sig "iiddidiDi" },
  { name := "dsbmv", ret := .void, params := sig "hiiddididDi" },
  { name := "dspmv", ret := .void, params := sig "hidddidDi" },
  { name := "dspr", ret := .void, params := sig "hiddiD" },
  { name := "dspr2", ret := .void, params := sig "hiddidiD" },
  { name := "dsymv", ret := .void, params := sig "hiddididDi" },
  { name := "dsyr", ret := .void, params := sig "hiddiDi" },
  { name := "dsyr2", ret := .void, params := sig "hiddidiDi" },
  { name := "dtbmv", ret := .void, params := sig "hhhiidiDi" },
  { name := "dtbsv", ret := .void, params := sig "hhhiidiDi" },
  { name := "dtpmv", ret := .void, params := sig "hhhidDi" },
  { name := "dtpsv", ret := .void, params := sig "hhhidDi" },
  { name := "dtrmv", ret := .void, params := sig "hhhidiDi" },
  { name := "dtrsv", ret := .void, params := sig "hhhidiDi" },
  { name := "zgbmv", ret := .void, params := sig "hiiiizzizizZi" },
  { name := "zgemv", ret := .void, params := sig "hiizzizizZi" },
  { name := "zgerc", ret := .void, params := sig "iizziziZi" },
  { name := "zgeru", ret := .void, params := sig "iizziziZi" },
  { name := "zhbmv", ret := .void, params := sig "hiizzizizZi" },
  { name := "zhemv", ret := .void, params := sig "hizzizizZi" },
  { name := "zher", ret := .void, params := sig "hidziZi" },
  { name := "zher2", ret := .void, params := sig "hizziziZi" },
  { name := "zhpmv", ret := .void, params := sig "hizzzizZi" },
  { name := "zhpr", ret := .void, params := sig "hidziZ" },
  { name := "zhpr2", ret := .void, params := sig "hizziziZ" },
  { name := "ztbmv", ret := .void, params := sig "hhhiiziZi" },
  { name := "ztbsv", ret := .void, params := sig "hhhiiziZi" },
  { name := "ztpmv", ret := .void, params := sig "hhhizZi" },
  { name := "ztpsv", ret := .void, params := sig "hhhizZi" },
  { name := "ztrmv", ret := .void, params := sig "hhhiziZi" },
  { name := "ztrsv", ret := .void, params := sig "hhhiziZi" },
  { name := "sgemm", ret := .void, params := sig "hhiiissisisSi" },
  { name := "ssymm", ret := .void, params := sig "hhiissisisSi" },
  { name := "ssyr2k", ret := .void, params := sig "hhiissisisSi" },
  { name := "ssyrk", ret := .void, params := sig "hhiissisSi" },
  { name := "strmm", ret := .void, params := sig "hhhhiissiSi" },
  { name := "strsm", ret := .void, params := sig "hhhhiissiSi" },
  { name := "cgemm", ret := .void, params := sig "hhiiiccicicCi" },
  { name := "cgemm3m", ret := .void, params := sig "hhiiiccicicCi" },
  { name := "chemm", ret := .void, params := sig "hhiiccicicCi" },
  { name := "cher2k", ret := .void, params := sig "hhiiccicisCi" },
  { name := "cherk", ret := .void, params := sig "hhiiscisCi" },
  { name := "csymm", ret := .void, params := sig "hhiiccicicCi" },
  { name := "csyr2k", ret := .void, params := sig "hhiiccicicCi" },
  { name := "csyrk", ret := .void, params := sig "hhiiccicCi" },
  { name := "ctrmm", ret := .void, params := sig "hhhhiicciCi" },
  { name := "ctrsm", ret := .void, params := sig "hhhhiicciCi" },
  { name := "dgemm", ret := .void, params := sig "hhiiiddididDi" },
  { name := "dsymm", ret := .void, params := sig "hhiiddididDi" },
  { name := "dsyr2k", ret := .void, params := sig "hhiiddididDi" },
  { name := "dsyrk", ret := .void, params := sig "hhiiddidDi" },
  { name := "dtrmm", ret := .void, params := sig "hhhhiiddiDi" },
  { name := "dtrsm", ret := .void, params := sig "hhhhiiddiDi" },
  { name := "zgemm", ret := .void, params := sig "hhiiizzizizZi" },
  { name := "zgemm3m", ret := .void, params := sig "hhiiizzizizZi" },
  { name := "zhemm", ret := .void, params := sig "hhiizzizizZi" },
  { name := "zher2k", ret := .void, params := sig "hhiizzizidZi" },
  { name := "zherk", ret := .void, params := sig "hhiidzidZi" },
  { name := "zsymm", ret := .void, params := sig "hhiizzizizZi" },
  { name := "zsyr2k", ret := .void, params := sig "hhiizzizizZi" },
  { name := "zsyrk", ret := .void, params := sig "hhiizzizZi" },
  { name := "ztrmm", ret := .void, params := sig "hhhhiizziZi" },
  { name := "ztrsm", ret := .void, params := sig "hhhhiizziZi" },
  { name := "cdotc", ret := .cfloat, params := sig "icici" },
  { name := "cdotu", ret := .cfloat, params := sig "icici" },
  { name := "zdotc", ret := .cdouble, params := sig "izizi" },
  { name := "zdotu", ret := .cdouble, params := sig "izizi" },
  { name := "dcsrmm", ret := .void, params := sig "hiiidhdiiididDi" },
  { name := "dcsrmultcsr", ret := .void, params := sig "hiiiiiDIIDIIDIIiI" },
  { name := "scsrmm", ret := .void, params := sig "hiiishsiiisisSi" },
  { name := "scsrmultcsr", ret := .void, params := sig "hiiiiiSIISIISIIiI" }]

/-- /repo/include/BlasBooster/BlasInterface/Blas.h: the extern "C" prototypes. -/
def blasProtos : List Sig := [
  { name := "scabs1_", ret := .float, params := sig "c" },
  { name := "sasum_", ret := .float, params := sig "isi" },
  { name := "saxpy_", ret := .void, params := sig "issiSi" },
  { name := "saxpby_", ret := .void, params := sig "issisSi" },
  { name := "scasum_", ret := .float, params := sig "ici" },
  { name := "scnrm2_", ret := .float, params := sig "ici" },
  { name := "scopy_", ret := .void, params := sig "isiSi" },
  { name := "sdot_", ret := .float, params := sig "isisi" },
  { name := "sdsdot_", ret := .float, params := sig "issisi" },
  { name := "snrm2_", ret := .float, params := sig "isi" },
  { name := "srot_", ret := .void, params := sig "iSiSiss" },
  { name := "srotg_", ret := .void, params := sig "SSSS" },
  { name := "srotm_", ret := .void, params := sig "iSiSis" },
  { name := "srotmg_", ret := .void, params := sig "SSSsS" },
  { name := "sscal_", ret := .void, params := sig "isSi" },
  { name := "sswap_", ret := .void, params := sig "iSiSi" },
  { name := "isamax_", ret := .int, params := sig "isi" },
  { name := "isamin_", ret := .int, params := sig "isi" },
  { name := "caxpy_", ret := .void, params := sig "icciCi" },
  { name := "caxpby_", ret := .void, params := sig "iccicCi" },
  { name := "ccopy_", ret := .void, params := sig "iciCi" },
  { name := "crotg_", ret := .void, params := sig "CcSC" },
  { name := "cscal_", ret := .void, params := sig "icCi" },
  { name := "csrot_", ret := .void, params := sig "iCiCiss" },
  { name := "csscal_", ret := .void, params := sig "isCi" },
  { name := "cswap_", ret := .void, params := sig "iCiCi" },
  { name := "icamax_", ret := .int, params := sig "ici" },
  { name := "icamin_", ret := .int, params := sig "ici" },
  { name := "dcabs1_", ret := .double, params := sig "z" },
  { name := "dasum_", ret := .double, params := sig "idi" },
  { name := "daxpy_", ret := .void, params := sig "iddiDi" },
  { name := "daxpby_", ret := .void, params := sig "iddidDi" },
  { name := "dcopy_", ret := .void, params := sig "idiDi" },
  { name := "ddot_", ret := .double, params := sig "ididi" },
  { name := "dsdot_", ret := .double, params := sig "isisi" },
  { name := "dnrm2_", ret := .double, params := sig "idi" },
  { name := "drot_", ret := .void, params := sig "iDiDidd" },
  { name := "drotg_", ret := .void, params := sig "DDDD" },
  { name := "drotm_", ret := .void, params := sig "iDiDid" },
  { name := "drotmg_", ret := .void, params := sig "DDDdD" },
  { name := "dscal_", ret := .void, params := sig "idDi" },
  { name := "dswap_", ret := .void, params := sig "iDiDi" },
  { name := "dzasum_", ret := .double, params := sig "izi" },
  { name := "dznrm2_", ret := .double, params := sig "izi" },
  { name := "idamax_", ret := .int, params := sig "idi" },
  { name := "idamin_", ret := .int, params := sig "idi" },
  { name := "zaxpy_", ret := .void, params := sig "izziZi" },
  { name := "zaxpby_", ret := .void, params := sig "izzizZi" },
  { name := "zcopy_", ret := .void, params := sig "iziZi" },
  { name := "zdrot_", ret := .void, params := sig "iZiZidd" },
  { name := "zdscal_", ret := .void, params := sig "idZi" },
  { name := "zrotg_", ret := .void, params := sig "ZzDZ" },
  { name := "zscal_", ret := .void, params := sig "izZi" },
  { name := "zswap_", ret := .void, params := sig "iZiZi" },
  { name := "izamax_", ret := .int, params := sig "izi" },
  { name := "izamin_", ret := .int, params := sig "izi" },
  { name := "sgbmv_", ret := .void, params := sig "hiiiissisisSi" },
  { name := "sgemv_", ret := .void, params := sig "hiissisisSi" },
  { name := "sger_", ret := .void, params := sig "iissisiSi" },
  { name := "ssbmv_", ret := .void, params := sig "hiissisisSi" },
  { name := "sspmv_", ret := .void, params := sig "hisssisSi" },
  { name := "sspr_", ret := .void, params := sig "hissiS" },
  { name := "sspr2_", ret := .void, params := sig "hissisiS" },
  { name := "ssymv_", ret := .void, params := sig "hissisisSi" },
  { name := "ssyr_", ret := .void, params := sig "hissiSi" },
  { name := "ssyr2_", ret := .void, params := sig "hissisiSi" },
  { name := "stbmv_", ret := .void, params := sig "hhhiisiSi" },
  { name := "stbsv_", ret := .void, params := sig "hhhiisiSi" },
  { name := "stpmv_", ret := .void, params := sig "hhhisSi" },
  { name := "stpsv_", ret := .void, params := sig "hhhisSi" },
  { name := "strmv_", ret := .void, params := sig "hhhisiSi" },
  { name := "strsv_", ret := .void, params := sig "hhhisiSi" },
  { name := "cgbmv_", ret := .void, params := sig "hiiiiccicicCi" },
  { name := "cgemv_", ret := .void, params := sig "hiiccicicCi" },
  { name := "cgerc_", ret := .void, params := sig "iicciciCi" },
  { name := "cgeru_", ret := .void, params := sig "iicciciCi" },
  { name := "chbmv_", ret := .void, params := sig "hiiccicicCi" },
  { name := "chemv_", ret := .void, params := sig "hiccicicCi" },
  { name := "cher_", ret := .void, params := sig "hisciCi" },
  { name := "cher2_", ret := .void, params := sig "hicciciCi" },
  { name := "chpmv_", ret := .void, params := sig "hicccicCi" },
  { name := "chpr_", ret := .void, params := sig "hisciC" },
  { name := "chpr2_", ret := .void, params := sig "hicciciC" },
  { name := "ctbmv_", ret := .void, params := sig "hhhiiciCi" },
  { name := "ctbsv_", ret := .void, params := sig "hhhiiciCi" },
  { name := "ctpmv_", ret := .void, params := sig "hhhicCi" },
  { name := "ctpsv_", ret := .void, params := sig "hhhicCi" },
  { name := "ctrmv_", ret := .void, params := sig "hhhiciCi" },
  { name := "ctrsv_", ret := .void, params := sig "hhhiciCi" },
  { name := "dgbmv_", ret := .void, params := sig "hiiiiddididDi" },
  { name := "dgemv_", ret := .void, params := sig "hiiddididDi" },
  { name := "dger_", ret := .void, params := sig "iiddidiDi" },
  { name := "dsbmv_", ret := .void, params := sig "hiiddididDi" },
  { name := "dspmv_", ret := .void, params := sig "hidddidDi" },
  { name := "dspr_", ret := .void, params := sig "hiddiD" },
  { name := "dspr2_", ret := .void, params := sig "hiddidiD" },
  { name := "dsymv_", ret := .void, params := sig "hiddididDi" },
  { name := "dsyr_", ret := .void, params := sig "hiddiDi" },
  { name := "dsyr2_", ret := .void, params := sig "hiddidiDi" },
  { name := "dtbmv_", ret := .void, params := sig "hhhiidiDi" },
  { name := "dtbsv_", ret := .void, params := sig "hhhiidiDi" },
  { name := "dtpmv_", ret := .void, params := sig "hhhidDi" },
  { name := "dtpsv_", ret := .void, params := sig "hhhidDi" },
  { name := "dtrmv_", ret := .void, params := sig "hhhidiDi" },
  { name := "dtrsv_", ret := .void, params := sig "hhhidiDi" },
  { name := "zgbmv_", ret := .void, params := sig "hiiiizzizizZi" },
  { name := "zgemv_", ret := .void, params := sig "hiizzizizZi" },
  { name := "zgerc_", ret := .void, params := sig "iizziziZi" },
  { name := "zgeru_", ret := .void, params := sig "iizziziZi" },
  { name := "zhbmv_", ret := .void, params := sig "hiizzizizZi" },
  { name := "zhemv_", ret := .void, params := sig "hizzizizZi" },
  { name := "zher_", ret := .void, params := sig "hidziZi" },
  { name := "zher2_", ret := .void, params := sig "hizziziZi" },
  { name := "zhpmv_", ret := .void, params := sig "hizzzizZi" },
  { name := "zhpr_", ret := .void, params := sig "hidziZ" },
  { name := "zhpr2_", ret := .void, params := sig "hizziziZ" },
  { name := "ztbmv_", ret := .void, params := sig "hhhiiziZi" },
  { name := "ztbsv_", ret := .void, params := sig "hhhiiziZi" },
  { name := "ztpmv_", ret := .void, params := sig "hhhizZi" },
  { name := "ztpsv_", ret := .void, params := sig "hhhizZi" },
  { name := "ztrmv_", ret := .void, params := sig "hhhiziZi" },
  { name := "ztrsv_", ret := .void, params := sig "hhhiziZi" },
  { name := "sgemm_", ret := .void, params := sig "hhiiissisisSi" },
  { name := "ssymm_", ret := .void, params := sig "hhiissisisSi" },
  { name := "ssyr2k_", ret := .void, params := sig "hhiissisisSi" },
  { name := "ssyrk_", ret := .void, params := sig "hhiissisSi" },
  { name := "strmm_", ret := .void, params := sig "hhhhiissiSi" },
  { name := "strsm_", ret := .void, params := sig "hhhhiissiSi" },
  { name := "cgemm_", ret := .void, params := sig "hhiiiccicicCi" },
  { name := "cgemm3m_", ret := .void, params := sig "hhiiiccicicCi" },
  { name := "chemm_", ret := .void, params := sig "hhiiccicicCi" },
  { name := "cher2k_", ret := .void, params := sig "hhiiccicisCi" },
  { name := "cherk_", ret := .void, params := sig "hhiiscisCi" },
  { name := "csymm_", ret := .void, params := sig "hhiiccicicCi" },
  { name := "csyr2k_", ret := .void, params := sig "hhiiccicicCi" },
  { name := "csyrk_", ret := .void, params := sig "hhiiccicCi" },
  { name := "ctrmm_", ret := .void, params := sig "hhhhiicciCi" },
  { name := "ctrsm_", ret := .void, params := sig "hhhhiicciCi" },
  { name := "dgemm_", ret := .void, params := sig "hhiiiddididDi" },
  { name := "dsymm_", ret := .void, params := sig "hhiiddididDi" },
  { name := "dsyr2k_", ret := .void, params := sig "hhiiddididDi" },
  { name := "dsyrk_", ret := .void, params := sig "hhiiddidDi" },
  { name := "dtrmm_", ret := .void, params := sig "hhhhiiddiDi" },
  { name := "dtrsm_", ret := .void, params := sig "hhhhiiddiDi" },
  { name := "zgemm_", ret := .void, params := sig "hhiiizzizizZi" },
  { name := "zgemm3m_", ret := .void, params := sig "hhiiizzizizZi" },
  { name := "zhemm_", ret := .void, params := sig "hhiizzizizZi" },
  { name := "zher2k_", ret := .void, params := sig "hhiizzizidZi" },
  { name := "zherk_", ret := .void, params := sig "hhiidzidZi" },
  { name := "zsymm_", ret := .void, params := sig "hhiizzizizZi" },
  { name := "zsyr2k_", ret := .void, params := sig "hhiizzizizZi" },
  { name := "zsyrk_", ret := .void, params := sig "hhiizzizZi" },
  { name := "ztrmm_", ret := .void, params := sig "hhhhiizziZi" },
  { name := "ztrsm_", ret := .void, params := sig "hhhhiizziZi" },
  { name := "cdotc_", ret := .void, params := sig "Cicici" },
  { name := "cdotu_", ret := .void, params := sig "Cicici" },
  { name := "zdotc_", ret := .void, params := sig "Zizizi" },
  { name := "zdotu_", ret := .void, params := sig "Zizizi" }]

/-- /repo/include/BlasBooster/BlasInterface/IntelMKL_SpBlas.h: the extern "C" prototypes. -/
def sparseProtos : List Sig := [
  { name := "mkl_dcsrmm", ret := .void, params := sig "hiiidhdiiididDi" },
  { name := "mkl_dcsrmultcsr", ret := .void, params := sig "hiiiiiDIIDIIDIIiI" },
  { name := "mkl_scsrmm", ret := .void, params := sig "hiiishsiiisisSi" },
  { name := "mkl_scsrmultcsr", ret := .void, params := sig "hiiiiiSIISIISIIiI" }]

/-- /repo/include/BlasBooster/BlasInterface/FunctionTypes.h: the routine tags and what their `name()` returns. -/
def tags : List (String × String) := [
  ("scabs1", "scabs1"),
  ("sasum", "sasum"),
  ("saxpy", "saxpy"),
  ("saxpby", "saxpby"),
  ("scasum", "scasum"),
  ("scnrm2", "scnrm2"),
  ("scopy", "scopy"),
  ("sdot", "sdot"),
  ("sdsdot", "sdsdot"),
  ("snrm2", "snrm2"),
  ("srot", "srot"),
  ("srotg", "srotg"),
  ("srotm", "srotm"),
  ("srotmg", "srotmg"),
  ("sscal", "sscal"),
  ("sswap", "sswap"),
  ("isamax", "isamax"),
  ("isamin", "isamin"),
  ("caxpy", "caxpy"),
  ("caxpby", "caxpby"),
  ("ccopy", "ccopy"),
  ("crotg", "crotg"),
  ("cscal", "cscal"),
  ("csrot", "csrot"),
  ("csscal", "csscal"),
  ("cswap", "cswap"),
  ("icamax", "icamax"),
  ("icamin", "icamin"),
  ("dcabs1", "dcabs1"),
  ("dasum", "dasum"),
  ("daxpy", "daxpy"),
  ("daxpby", "daxpby"),
  ("dcopy", "dcopy"),
  ("ddot", "ddot"),
  ("dsdot", "dsdot"),
  ("dnrm2", "dnrm2"),
  ("drot", "drot"),
  ("drotg", "drotg"),
  ("drotm", "drotm"),
  ("drotmg", "drotmg"),
  ("dscal", "dscal"),
  ("dswap", "dswap"),
  ("dzasum", "dzasum"),
  ("dznrm2", "dznrm2"),
  ("idamax", "idamax"),
  ("idamin", "idamin"),
  ("zaxpy", "zaxpy"),
  ("zaxpby", "zaxpby"),
  ("zcopy", "zcopy"),
  ("zdrot", "zdrot"),
  ("zdscal", "zdscal"),
  ("zrotg", "zrotg"),
  ("zscal", "zscal"),
  ("zswap", "zswap"),
  ("izamax", "izamax"),
  ("izamin", "izamin"),
  ("sgbmv", "sgbmv"),
  ("sgemv", "sgemv"),
  ("sger", "sger"),
  ("ssbmv", "ssbmv"),
  ("sspmv", "sspmv"),
  ("sspr", "sspr"),
  ("sspr2", "sspr2"),
  ("ssymv", "ssymv"),
  ("ssyr", "ssyr"),
  ("ssyr2", "ssyr2"),
  ("stbmv", "stbmv"),
  ("stbsv", "stbsv"),
  ("stpmv", "stpmv"),
  ("stpsv", "stpsv"),
  ("strmv", "strmv"),
  ("strsv", "strsv"),
  ("cgbmv", "cgbmv"),
  ("cgemv", "cgemv"),
  ("cgerc", "cgerc"),
  ("cgeru", "cgeru"),
  ("chbmv", "chbmv"),
  ("chemv", "chemv"),
  ("cher", "cher"),
  ("cher2", "cher2"),
  ("chpmv", "chpmv"),
  ("chpr", "chpr"),
  ("chpr2", "chpr2"),
  ("ctbmv", "ctbmv"),
  ("ctbsv", "ctbsv"),
  ("ctpmv", "ctpmv"),
  ("ctpsv", "ctpsv"),
  ("ctrmv", "ctrmv"),
  ("ctrsv", "ctrsv"),
  ("dgbmv", "dgbmv"),
  ("dgemv", "dgemv"),
  ("dger", "dger"),
  ("dsbmv", "dsbmv"),
  ("dspmv", "dspmv"),
  ("dspr", "dspr"),
  ("dspr2", "dspr2"),
  ("dsymv", "dsymv"),
  ("dsyr", "dsyr"),
  ("dsyr2", "dsyr2"),
  ("dtbmv", "dtbmv"),
  ("dtbsv", "dtbsv"),
  ("dtpmv", "dtpmv"),
  ("dtpsv", "dtpsv"),
  ("dtrmv", "dtrmv"),
  ("dtrsv", "dtrsv"),
  ("zgbmv", "zgbmv"),
  ("zgemv", "zgemv"),
  ("zgerc", "zgerc"),
  ("zgeru", "zgeru"),
  ("zhbmv", "zhbmv"),
  ("zhemv", "zhemv"),
  ("zher", "zher"),
  ("zher2", "zher2"),
  ("zhpmv", "zhpmv"),
  ("zhpr", "zhpr"),
  ("zhpr2", "zhpr2"),
  ("ztbmv", "ztbmv"),
  ("ztbsv", "ztbsv"),
  ("ztpmv", "ztpmv"),
  ("ztpsv", "ztpsv"),
  ("ztrmv", "ztrmv"),
  ("ztrsv", "ztrsv"),
  ("sgemm", "sgemm"),
  ("ssymm", "ssymm"),
  ("ssyr2k", "ssyr2k"),
  ("ssyrk", "ssyrk"),
  ("strmm", "strmm"),
  ("strsm", "strsm"),
  ("cgemm", "cgemm"),
  ("cgemm3m", "cgemm3m"),
  ("chemm", "chemm"),
  ("cher2k", "cher2k"),
  ("cherk", "cherk"),
  ("csymm", "csymm"),
  ("csyr2k", "csyr2k"),
  ("csyrk", "csyrk"),
  ("ctrmm", "ctrmm"),
  ("ctrsm", "ctrsm"),
  ("dgemm", "dgemm"),
  ("dsymm", "dsymm"),
  ("dsyr2k", "dsyr2k"),
  ("dsyrk", "dsyrk"),
  ("dtrmm", "dtrmm"),
  ("dtrsm", "dtrsm"),
  ("zgemm", "zgemm"),
  ("zgemm3m", "zgemm3m"),
  ("zhemm", "zhemm"),
  ("zher2k", "zher2k"),
  ("zherk", "zherk"),
  ("zsymm", "zsymm"),
  ("zsyr2k", "zsyr2k"),
  ("zsyrk", "zsyrk"),
  ("ztrmm", "ztrmm"),
  ("ztrsm", "ztrsm"),
  ("cdotc", "cdotc"),
  ("cdotu", "cdotu"),
  ("zdotc", "zdotc"),
  ("zdotu", "zdotu"),
  ("dcsrmm", "dcsrmm"),
  ("dcsrmultcsr", "dcsrmultcsr"),
  ("scsrmm", "scsrmm"),
  ("scsrmultcsr", "scsrmultcsr")]

end BB.Wrap
