import Verif.Model.RayTables

/-!
# The optics table of DESI

Data of py/desimeter/transform/tan2fp/raytrace/DESI-ADC-2.OPT.CSV: all its records, as `csv.reader`
gives them.  The other two tables (rays, media) are left out.
-/

namespace Verif.RayTrace

open Verif.Py

/-- The records of DESI-ADC-2.OPT.CSV as strings. -/
def desiTexts : List (List String) := [
  ["   26  ",
   "  surfaces   DESI-ADC-2.OPT updated PM curvature & location: DESI-4037v8  22 July 2020 MLL"],
  [" index ", "Type      ", "X ", "Y ", "Z         ", "Diam ", "diam ", "Nspi ", "Wspi ",
   "pitchY ", "tiltX ", "rollZ ", "                   ", "Curvature             ", "Aspher   ",
   "A4              ", "A6              ", "A8              ", "A10             ", ""],
  ["       ", "Retro     ", "  ", "  ", "11001     ", "     ", "     ", "     ", "     ",
   "0      ", "0     ", "      ", "                   ", "                      ", "         ",
   "                ", "                ", "                ", "                ", ""],
  ["       ", "Retro     ", "  ", "  ", "-2000     ", "     ", "     ", "     ", "     ",
   "0      ", "0     ", "      ", "                   ", "                      ", "         ",
   "                ", "                ", "                ", "                ", ""],
  ["       ", "Mirror    ", "  ", "  ", "11115.809 ", "3800 ", "1500 ", "     ", "     ",
   "0      ", "0     ", "      ", "-21318             ", "-4.69087156394E-05    ", "-1.09763 ",
   "                ", "                ", "                ", "                ", ""],
  ["       ", "CBin  HEX ", "0 ", "0 ", "2500      ", "     ", "     ", "     ", "     ",
   "0      ", "0     ", "0     ", "                   ", "0                     ", "         ",
   "                ", "                ", "                ", "                ", ""],
  ["       ", "CBout HEX ", "  ", "  ", "2500      ", "     ", "     ", "     ", "     ",
   "0      ", "0.    ", "0     ", "                   ", "0                     ", "         ",
   "                ", "                ", "                ", "                ", ""],
  ["       ", "Lens C1f  ", "  ", "  ", "2425.007  ", "1139 ", "     ", "     ", "     ",
   "0      ", "0     ", "      ", "-1184.9900         ", "-8.43888977966E-04    ", "         ",
   "                ", "                ", "                ", "                ", ""],
  [" C1    ", "Lens C1b  ", "  ", "  ", "2288.417  ", "1139 ", "     ", "     ", "     ",
   "0      ", "0     ", "      ", "-3296.9700         ", "-3.03308795652E-04    ", "         ",
   "                ", "                ", "                ", "                ", ""],
  ["       ", "Lens C2f  ", "  ", "  ", "1813.200  ", "850  ", "     ", "     ", "     ",
   "0      ", "0     ", "      ", "-12615.9600        ", "-7.92646774403E-05    ", "         ",
   "-1.73045520E-10 ", "1.53525650E-16  ", "3.67541020E-22  ", "-9.73764150E-28 ", ""],
  [" C2    ", "Lens C2b  ", "  ", "  ", "1768.480  ", "850  ", "     ", "     ", "     ",
   "0      ", "0     ", "      ", "-612.4260          ", "-1.63285033620E-03    ", "         ",
   "                ", "                ", "                ", "                ", ""],
  ["       ", "CBin      ", "  ", "  ", "1600      ", "     ", "     ", "     ", "     ",
   "       ", "      ", "0     ", "                   ", "-2E-4                 ", "         ",
   "                ", "                ", "                ", "                ", ""],
  ["       ", "CBout     ", "  ", "  ", "1600      ", "     ", "     ", "     ", "     ",
   "       ", "      ", "      ", "                   ", "-2E-4                 ", "         ",
   "                ", "                ", "                ", "                ", ""],
  ["       ", "Lens A1f  ", "  ", "  ", "1577.606  ", "799  ", "     ", "     ", "     ",
   "0      ", "0     ", "      ", "-4590.1000         ", "-2.17860177338E-04    ", "         ",
   "                ", "                ", "                ", "                ", ""],
  [" ADC1  ", "Lens A1b  ", "  ", "  ", "1517.456  ", "799  ", "     ", "     ", "     ",
   "0.2465 ", "0     ", "      ", "-1371.0000         ", "-7.29394602480E-04    ", "         ",
   "                ", "                ", "                ", "                ", ""],
  ["       ", "CBin      ", "  ", "  ", "1501      ", "     ", "     ", "     ", "     ",
   "       ", "      ", "0     ", "                   ", "-7.2E-4               ", "         ",
   "                ", "                ", "                ", "                ", ""],
  ["       ", "CBout     ", "  ", "  ", "1501      ", "     ", "     ", "     ", "     ",
   "       ", "      ", "      ", "                   ", "-7.2E-4               ", "         ",
   "                ", "                ", "                ", "                ", ""],
  ["       ", "CBin      ", "  ", "  ", "1499      ", "     ", "     ", "     ", "     ",
   "       ", "      ", "0     ", "                   ", "-7.2E-4               ", "         ",
   "                ", "                ", "                ", "                ", ""],
  ["       ", "CBout     ", "  ", "  ", "1499      ", "     ", "     ", "     ", "     ",
   "       ", "      ", "      ", "                   ", "-7.2E-4               ", "         ",
   "                ", "                ", "                ", "                ", ""],
  ["       ", "Lens A2f  ", "  ", "  ", "1492.606  ", "804  ", "     ", "     ", "     ",
   "0.2501 ", "0     ", "      ", "-1392.1200         ", "-7.18328879694E-04    ", "         ",
   "                ", "                ", "                ", "                ", ""],
  [" ADC2  ", "Lens A2b  ", "  ", "  ", "1432.456  ", "804  ", "     ", "     ", "     ",
   "0      ", "0     ", "      ", "-1049.5800         ", "-9.52762057204E-04    ", "         ",
   "                ", "                ", "                ", "                ", ""],
  ["       ", "CBin      ", "  ", "  ", "1400      ", "     ", "     ", "     ", "     ",
   "       ", "      ", "0     ", "                   ", "-9.5E-4               ", "         ",
   "                ", "                ", "                ", "                ", ""],
  ["       ", "CBout     ", "  ", "  ", "1400      ", "     ", "     ", "     ", "     ",
   "       ", "      ", "      ", "                   ", "-9.5E-4               ", "         ",
   "                ", "                ", "                ", "                ", ""],
  ["       ", "Lens C3f  ", "  ", "  ", "1233.199  ", "834  ", "     ", "     ", "     ",
   "0      ", "0     ", "      ", "1339.9970          ", "7.46270327471E-04     ", "         ",
   "1.28761240E-10  ", "-2.47239660E-16 ", "4.43883190E-22  ", "-7.37730760E-27 ", ""],
  [" C3    ", "Lens C3b  ", "  ", "  ", "1153.113  ", "834  ", "     ", "     ", "     ",
   "0      ", "0     ", "      ", "1026.2780          ", "9.74394852077E-04     ", "         ",
   "                ", "                ", "                ", "                ", ""],
  ["       ", "Lens C4f  ", "  ", "  ", "615.927   ", "1034 ", "     ", "     ", "     ",
   "0      ", "0     ", "      ", "-934.2000          ", "-1.07043459645E-03    ", "         ",
   "                ", "                ", "                ", "                ", ""],
  [" C4    ", "Lens C4b  ", "  ", "  ", "399.007   ", "1034 ", "     ", "     ", "     ",
   "0      ", "0     ", "      ", "5185.7900          ", "1.92834650073E-04     ", "         ",
   "                ", "                ", "                ", "                ", ""],
  ["       ", "FocPlane  ", "  ", "  ", "  0       ", "840  ", "     ", "     ", "     ",
   "0      ", "0     ", "      ", "-4977.993649374310 ", "-2.00884145387709E-04 ", "         ",
   "-2.96481970E-10 ", "3.45230870E-15  ", "-1.80419790E-20 ", "3.25707820E-26  ", ""],
  [],
  [],
  ["Curvatu", "es- aspher", "ci", "ie", "- and poly", "omial", "coeff", "cient", " are ", "rom"],
  ["T.Mille", "- DESI-403", "v8",
   "S,mmary of D,SI co,recto, pres,ripti,n\ndata - ,imple.xlsx, 0, A,ril 2019.\n\nZ-axis ,S5 surface, a,e ,rom T.Mill,r- DE,I-403,v8\nLens g",
   "obal coord", "na", "es", "xlsx\" 22 J", "ly 20", "0."]]

/-- DESI-ADC-2.OPT.CSV. -/
def desiOptics : List (List PyStr) := desiTexts.map fun r => r.map String.toList

end Verif.RayTrace
