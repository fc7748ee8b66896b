/-
Nominal extents and documented reference points of the radar grids, from the DWD RADOLAN format descriptions (the
same numbers appear in projection_sphere_test.go:50-100 and projection_wgs84_test.go:8-14). Used to check that the
projection puts the grids where they are documented to be; independent of the calibration the code performs.
-/
import Verif.Spec.Grid

namespace Spec

/-- nominal width and height of a grid in kilometres -/
def extentKm (b : Int × Int) : ℚ × ℚ :=
  if b = (225, 225) then (900, 900)
  else if b = (115, 115) then (920, 920)
  else if b = (225, 275) then (900, 1100)
  else if b = (275, 300) then (1100, 1200)
  else (1400, 1500)

/-- documented points: degrees north, degrees east, kilometres right of and below the top left corner of the grid -/
def refPoints (b : Int × Int) (format : Int) : List (ℚ × ℚ × ℚ × ℚ) :=
  if b = (225, 225) then
    [(54.5877, 2.0715, 0, 0), (54.7405, 15.7208, 900, 0), (51, 9, 450, 450), (46.9526, 3.5889, 0, 900),
     (47.0705, 14.6209, 900, 900)]
  else if b = (115, 115) then
    [(54.66218275, 1.900684377, 0, 0), (54.81884457, 15.88724008, 920, 0), (51, 9, 460, 460),
     (46.86029310, 3.481345126, 0, 920), (46.98044293, 14.73300934, 920, 920)]
  else if b = (225, 275) then
    [(55.5482, 3.0889, 0, 0), (55.5342, 17.1128, 900, 0), (51, 9, 370, 550), (46.1929, 4.6759, 0, 1100),
     (46.1827, 15.4801, 900, 1100)]
  else if b = (275, 300) then
    if 5 ≤ format then
      [(55.86208711, 1.463301510, 0, 0), (55.84543856, 18.73161645, 1100, 0), (45.68460578, 16.58086935, 1100, 1200),
       (45.69642538, 3.566994635, 0, 1200)]
    else
      [(55.86584289, 1.435612143, 0, 0), (55.84848692, 18.76728172, 1100, 0), (51, 9, 470, 600),
       (45.69587048, 3.551921296, 0, 1200), (45.68358331, 16.60186543, 1100, 1200)]
  else
    [(56.5423, -0.8654, 0, 0), (56.4505, 21.6986, 1400, 0), (51, 9, 600, 700), (43.9336, 2.3419, 0, 1500),
     (43.8736, 18.2536, 1400, 1500)]

/-- how well the documented coordinates are met, in kilometres: coordinates documented with four decimals to 25 m,
those documented with eight decimals to 1 mm -/
def refTolerance (b : Int × Int) : ℚ := if b = (115, 115) ∨ b = (275, 300) then 1 / 10 ^ 6 else 25 / 1000

end Spec
