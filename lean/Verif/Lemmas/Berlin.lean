/-
Enclosures of the plane coordinates (km) of Berlin, 52.51861 N 13.40833 E, the place of the example in the documentation
of the package. The numbers are proof hints computed as in tools/mkrefpoints.py; Lean checks every inequality.
-/
import Verif.Lemmas.RefPoints

namespace Radolan.Num
open Real

theorem berlin_enc : Enc (52.51861 : ℝ) (13.40833 : ℝ) (793551027665856 / 10 ^ 15) (608503711155856 / 10 ^ 15) (59451502971111 / 10 ^ 15) (998231195061783 / 10 ^ 15) := by
  apply enc (xn := (916622663070819 / 10 ^ 15)) (xe := (59486580494498 / 10 ^ 15)) <;>
    first | (constructor <;> norm_num) | (simp only [sinP, cosP, abs_le]; constructor <;> norm_num)

theorem berlin_sphere {format : Int} (hf : ¬ 5 ≤ format) :
    |(planeXY realArith format (52.51861 : ℝ) (13.40833 : ℝ)).1 - (239757412930 / 10 ^ 9)| ≤ 3 / 10 ^ 8 ∧
    |(planeXY realArith format (52.51861 : ℝ) (13.40833 : ℝ)).2 - (4025690131840 / 10 ^ 9)| ≤ 3 / 10 ^ 8 := by
  exact sphere_point hf berlin_enc (by rw [abs_le]; constructor <;> norm_num) (by rw [abs_le]; constructor <;> norm_num)

theorem berlin_wgs {format : Int} (hf : 5 ≤ format) :
    |(planeXY realArith format (52.51861 : ℝ) (13.40833 : ℝ)).1 - (783746657346 / 10 ^ 9)| ≤ 3 / 10 ^ 8 ∧
    |(planeXY realArith format (52.51861 : ℝ) (13.40833 : ℝ)).2 - (416406359628 / 10 ^ 9)| ≤ 3 / 10 ^ 8 := by
  apply wgs_point hf berlin_enc (y0 := (64927702975950 / 10 ^ 15)) (v0 := (5319815960063 / 10 ^ 15)) (g0 := (1005333991306585 / 10 ^ 15)) <;>
    first | (constructor <;> norm_num) | (simp only [ecc84, logP, expP, abs_le]; constructor <;> norm_num)

theorem berlin_g900_x {format : Int} (hf : ¬ 5 ≤ format) :
    |((planeXY realArith format (52.51861 : ℝ) (13.40833 : ℝ)).1 - (planeXY realArith format (54.5877 : ℝ) (2.0715 : ℝ)).1) / ((planeXY realArith format (47.0705 : ℝ) (14.6209 : ℝ)).1 - (planeXY realArith format (54.5877 : ℝ) (2.0715 : ℝ)).1) * 900 - 763.2212| ≤ 1 / 1000 := by
  have o := abs_le.mp (pt_g900_0 hf).1
  have c := abs_le.mp (pt_g900_4 hf).1
  have p := abs_le.mp (berlin_sphere hf).1
  norm_num at o c p
  apply ratio_near <;> norm_num <;> linarith [o.1, o.2, c.1, c.2, p.1, p.2]

theorem berlin_g900_y {format : Int} (hf : ¬ 5 ≤ format) :
    |((planeXY realArith format (52.51861 : ℝ) (13.40833 : ℝ)).2 - (planeXY realArith format (54.5877 : ℝ) (2.0715 : ℝ)).2) / ((planeXY realArith format (47.0705 : ℝ) (14.6209 : ℝ)).2 - (planeXY realArith format (54.5877 : ℝ) (2.0715 : ℝ)).2) * 900 - 267.0456| ≤ 1 / 1000 := by
  have o := abs_le.mp (pt_g900_0 hf).2
  have c := abs_le.mp (pt_g900_4 hf).2
  have p := abs_le.mp (berlin_sphere hf).2
  norm_num at o c p
  apply ratio_near <;> norm_num <;> linarith [o.1, o.2, c.1, c.2, p.1, p.2]

theorem berlin_g920_x {format : Int} (hf : ¬ 5 ≤ format) :
    |((planeXY realArith format (52.51861 : ℝ) (13.40833 : ℝ)).1 - (planeXY realArith format (54.66218275 : ℝ) (1.900684377 : ℝ)).1) / ((planeXY realArith format (46.98044293 : ℝ) (14.73300934 : ℝ)).1 - (planeXY realArith format (54.66218275 : ℝ) (1.900684377 : ℝ)).1) * 920 - 773.2176| ≤ 1 / 1000 := by
  have o := abs_le.mp (pt_g920_0 hf).1
  have c := abs_le.mp (pt_g920_4 hf).1
  have p := abs_le.mp (berlin_sphere hf).1
  norm_num at o c p
  apply ratio_near <;> norm_num <;> linarith [o.1, o.2, c.1, c.2, p.1, p.2]

theorem berlin_g920_y {format : Int} (hf : ¬ 5 ≤ format) :
    |((planeXY realArith format (52.51861 : ℝ) (13.40833 : ℝ)).2 - (planeXY realArith format (54.66218275 : ℝ) (1.900684377 : ℝ)).2) / ((planeXY realArith format (46.98044293 : ℝ) (14.73300934 : ℝ)).2 - (planeXY realArith format (54.66218275 : ℝ) (1.900684377 : ℝ)).2) * 920 - 277.0466| ≤ 1 / 1000 := by
  have o := abs_le.mp (pt_g920_0 hf).2
  have c := abs_le.mp (pt_g920_4 hf).2
  have p := abs_le.mp (berlin_sphere hf).2
  norm_num at o c p
  apply ratio_near <;> norm_num <;> linarith [o.1, o.2, c.1, c.2, p.1, p.2]

theorem berlin_g1100_x {format : Int} (hf : ¬ 5 ≤ format) :
    |((planeXY realArith format (52.51861 : ℝ) (13.40833 : ℝ)).1 - (planeXY realArith format (55.5482 : ℝ) (3.0889 : ℝ)).1) / ((planeXY realArith format (46.1827 : ℝ) (15.4801 : ℝ)).1 - (planeXY realArith format (55.5482 : ℝ) (3.0889 : ℝ)).1) * 900 - 683.2207| ≤ 1 / 1000 := by
  have o := abs_le.mp (pt_g1100_0 hf).1
  have c := abs_le.mp (pt_g1100_4 hf).1
  have p := abs_le.mp (berlin_sphere hf).1
  norm_num at o c p
  apply ratio_near <;> norm_num <;> linarith [o.1, o.2, c.1, c.2, p.1, p.2]

theorem berlin_g1100_y {format : Int} (hf : ¬ 5 ≤ format) :
    |((planeXY realArith format (52.51861 : ℝ) (13.40833 : ℝ)).2 - (planeXY realArith format (55.5482 : ℝ) (3.0889 : ℝ)).2) / ((planeXY realArith format (46.1827 : ℝ) (15.4801 : ℝ)).2 - (planeXY realArith format (55.5482 : ℝ) (3.0889 : ℝ)).2) * 1100 - 367.0462| ≤ 1 / 1000 := by
  have o := abs_le.mp (pt_g1100_0 hf).2
  have c := abs_le.mp (pt_g1100_4 hf).2
  have p := abs_le.mp (berlin_sphere hf).2
  norm_num at o c p
  apply ratio_near <;> norm_num <;> linarith [o.1, o.2, c.1, c.2, p.1, p.2]

theorem berlin_g1200s_x {format : Int} (hf : ¬ 5 ≤ format) :
    |((planeXY realArith format (52.51861 : ℝ) (13.40833 : ℝ)).1 - (planeXY realArith format (55.86584289 : ℝ) (1.435612143 : ℝ)).1) / ((planeXY realArith format (45.68358331 : ℝ) (16.60186543 : ℝ)).1 - (planeXY realArith format (55.86584289 : ℝ) (1.435612143 : ℝ)).1) * 1100 - 783.2196| ≤ 1 / 1000 := by
  have o := abs_le.mp (pt_g1200s_0 hf).1
  have c := abs_le.mp (pt_g1200s_4 hf).1
  have p := abs_le.mp (berlin_sphere hf).1
  norm_num at o c p
  apply ratio_near <;> norm_num <;> linarith [o.1, o.2, c.1, c.2, p.1, p.2]

theorem berlin_g1200s_y {format : Int} (hf : ¬ 5 ≤ format) :
    |((planeXY realArith format (52.51861 : ℝ) (13.40833 : ℝ)).2 - (planeXY realArith format (55.86584289 : ℝ) (1.435612143 : ℝ)).2) / ((planeXY realArith format (45.68358331 : ℝ) (16.60186543 : ℝ)).2 - (planeXY realArith format (55.86584289 : ℝ) (1.435612143 : ℝ)).2) * 1200 - 417.0454| ≤ 1 / 1000 := by
  have o := abs_le.mp (pt_g1200s_0 hf).2
  have c := abs_le.mp (pt_g1200s_4 hf).2
  have p := abs_le.mp (berlin_sphere hf).2
  norm_num at o c p
  apply ratio_near <;> norm_num <;> linarith [o.1, o.2, c.1, c.2, p.1, p.2]

theorem berlin_g1500_x {format : Int} (hf : ¬ 5 ≤ format) :
    |((planeXY realArith format (52.51861 : ℝ) (13.40833 : ℝ)).1 - (planeXY realArith format (56.5423 : ℝ) (-0.8654 : ℝ)).1) / ((planeXY realArith format (43.8736 : ℝ) (18.2536 : ℝ)).1 - (planeXY realArith format (56.5423 : ℝ) (-0.8654 : ℝ)).1) * 1400 - 913.2175| ≤ 1 / 1000 := by
  have o := abs_le.mp (pt_g1500_0 hf).1
  have c := abs_le.mp (pt_g1500_4 hf).1
  have p := abs_le.mp (berlin_sphere hf).1
  norm_num at o c p
  apply ratio_near <;> norm_num <;> linarith [o.1, o.2, c.1, c.2, p.1, p.2]

theorem berlin_g1500_y {format : Int} (hf : ¬ 5 ≤ format) :
    |((planeXY realArith format (52.51861 : ℝ) (13.40833 : ℝ)).2 - (planeXY realArith format (56.5423 : ℝ) (-0.8654 : ℝ)).2) / ((planeXY realArith format (43.8736 : ℝ) (18.2536 : ℝ)).2 - (planeXY realArith format (56.5423 : ℝ) (-0.8654 : ℝ)).2) * 1500 - 517.0450| ≤ 1 / 1000 := by
  have o := abs_le.mp (pt_g1500_0 hf).2
  have c := abs_le.mp (pt_g1500_4 hf).2
  have p := abs_le.mp (berlin_sphere hf).2
  norm_num at o c p
  apply ratio_near <;> norm_num <;> linarith [o.1, o.2, c.1, c.2, p.1, p.2]

theorem berlin_g1200w_x {format : Int} (hf : 5 ≤ format) :
    |((planeXY realArith format (52.51861 : ℝ) (13.40833 : ℝ)).1 - (planeXY realArith format (55.86208711 : ℝ) (1.463301510 : ℝ)).1) / ((planeXY realArith format (45.68460578 : ℝ) (16.58086935 : ℝ)).1 - (planeXY realArith format (55.86208711 : ℝ) (1.463301510 : ℝ)).1) * 1100 - 784.2467| ≤ 1 / 1000 := by
  have o := abs_le.mp (pt_g1200w_0 hf).1
  have c := abs_le.mp (pt_g1200w_2 hf).1
  have p := abs_le.mp (berlin_wgs hf).1
  norm_num at o c p
  apply ratio_near <;> norm_num <;> linarith [o.1, o.2, c.1, c.2, p.1, p.2]

theorem berlin_g1200w_y {format : Int} (hf : 5 ≤ format) :
    |((planeXY realArith format (52.51861 : ℝ) (13.40833 : ℝ)).2 - (planeXY realArith format (55.86208711 : ℝ) (1.463301510 : ℝ)).2) / ((planeXY realArith format (45.68460578 : ℝ) (16.58086935 : ℝ)).2 - (planeXY realArith format (55.86208711 : ℝ) (1.463301510 : ℝ)).2) * 1200 - 416.9064| ≤ 1 / 1000 := by
  have o := abs_le.mp (pt_g1200w_0 hf).2
  have c := abs_le.mp (pt_g1200w_2 hf).2
  have p := abs_le.mp (berlin_wgs hf).2
  norm_num at o c p
  apply ratio_near <;> norm_num <;> linarith [o.1, o.2, c.1, c.2, p.1, p.2]

end Radolan.Num
