/-
GENERATED by tools/mkrefpoints.py. Enclosures of the plane coordinates (km) of the documented reference points.
-/
import Verif.Lemmas.TrigNum

namespace Radolan.Num
open Real

theorem pt_g900_0 {format : Int} (hf : ¬ 5 ≤ format) :
    |(planeXY realArith format (54.5877 : ℝ) (2.0715 : ℝ)).1 - (-523460998485 / 10 ^ 9)| ≤ 3 / 10 ^ 8 ∧
    |(planeXY realArith format (54.5877 : ℝ) (2.0715 : ℝ)).2 - (3758646101210 / 10 ^ 9)| ≤ 3 / 10 ^ 8 := by
  have h : Enc (54.5877 : ℝ) (2.0715 : ℝ) (815003419472542 / 10 ^ 15) (579456146958539 / 10 ^ 15) (-137937227078248 / 10 ^ 15) (990440973196265 / 10 ^ 15) := by
    apply enc (xn := (952735096090909 / 10 ^ 15)) (xe := (-138378429744370 / 10 ^ 15)) <;>
      first | (constructor <;> norm_num) | (simp only [sinP, cosP, abs_le]; constructor <;> norm_num)
  exact sphere_point hf h (by rw [abs_le]; constructor <;> norm_num) (by rw [abs_le]; constructor <;> norm_num)

theorem pt_g900_1 {format : Int} (hf : ¬ 5 ≤ format) :
    |(planeXY realArith format (54.7405 : ℝ) (15.7208 : ℝ)).1 - (376541271472 / 10 ^ 9)| ≤ 3 / 10 ^ 8 ∧
    |(planeXY realArith format (54.7405 : ℝ) (15.7208 : ℝ)).2 - (3758649851303 / 10 ^ 9)| ≤ 3 / 10 ^ 8 := by
  have h : Enc (54.7405 : ℝ) (15.7208 : ℝ) (816545849640307 / 10 ^ 15) (577280586400721 / 10 ^ 15) (99680976706518 / 10 ^ 15) (995019448494769 / 10 ^ 15) := by
    apply enc (xn := (955401959187956 / 10 ^ 15)) (xe := (99846795848092 / 10 ^ 15)) <;>
      first | (constructor <;> norm_num) | (simp only [sinP, cosP, abs_le]; constructor <;> norm_num)
  exact sphere_point hf h (by rw [abs_le]; constructor <;> norm_num) (by rw [abs_le]; constructor <;> norm_num)

theorem pt_g900_2 {format : Int} (hf : ¬ 5 ≤ format) :
    |(planeXY realArith format (51 : ℝ) (9 : ℝ)).1 - (-73462166922 / 10 ^ 9)| ≤ 3 / 10 ^ 8 ∧
    |(planeXY realArith format (51 : ℝ) (9 : ℝ)).2 - (4208644724266 / 10 ^ 9)| ≤ 3 / 10 ^ 8 := by
  have h : Enc (51 : ℝ) (9 : ℝ) (777145961456970 / 10 ^ 15) (629320391049830 / 10 ^ 15) (-17452406437283 / 10 ^ 15) (999847695156391 / 10 ^ 15) := by
    apply enc (xn := (890117918517108 / 10 ^ 15)) (xe := (-17453292519943 / 10 ^ 15)) <;>
      first | (constructor <;> norm_num) | (simp only [sinP, cosP, abs_le]; constructor <;> norm_num)
  exact sphere_point hf h (by rw [abs_le]; constructor <;> norm_num) (by rw [abs_le]; constructor <;> norm_num)

theorem pt_g900_3 {format : Int} (hf : ¬ 5 ≤ format) :
    |(planeXY realArith format (46.9526 : ℝ) (3.5889 : ℝ)).1 - (-523464340009 / 10 ^ 9)| ≤ 3 / 10 ^ 8 ∧
    |(planeXY realArith format (46.9526 : ℝ) (3.5889 : ℝ)).2 - (4658642117297 / 10 ^ 9)| ≤ 3 / 10 ^ 8 := by
  have h : Enc (46.9526 : ℝ) (3.5889 : ℝ) (730789243673553 / 10 ^ 15) (682603165339155 / 10 ^ 15) (-111661454309609 / 10 ^ 15) (993746305463051 / 10 ^ 15) := by
    apply enc (xn := (819477462371890 / 10 ^ 15)) (xe := (-111894803674608 / 10 ^ 15)) <;>
      first | (constructor <;> norm_num) | (simp only [sinP, cosP, abs_le]; constructor <;> norm_num)
  exact sphere_point hf h (by rw [abs_le]; constructor <;> norm_num) (by rw [abs_le]; constructor <;> norm_num)

theorem pt_g900_4 {format : Int} (hf : ¬ 5 ≤ format) :
    |(planeXY realArith format (47.0705 : ℝ) (14.6209 : ℝ)).1 - (376535738981 / 10 ^ 9)| ≤ 3 / 10 ^ 8 ∧
    |(planeXY realArith format (47.0705 : ℝ) (14.6209 : ℝ)).2 - (4658640785354 / 10 ^ 9)| ≤ 3 / 10 ^ 8 := by
  have h : Enc (47.0705 : ℝ) (14.6209 : ℝ) (732192317503469 / 10 ^ 15) (681097944637110 / 10 ^ 15) (80562517818041 / 10 ^ 15) (996749557673751 / 10 ^ 15) := by
    apply enc (xn := (821535205559991 / 10 ^ 15)) (xe := (80649919405406 / 10 ^ 15)) <;>
      first | (constructor <;> norm_num) | (simp only [sinP, cosP, abs_le]; constructor <;> norm_num)
  exact sphere_point hf h (by rw [abs_le]; constructor <;> norm_num) (by rw [abs_le]; constructor <;> norm_num)

theorem pt_g920_0 {format : Int} (hf : ¬ 5 ≤ format) :
    |(planeXY realArith format (54.66218275 : ℝ) (1.900684377 : ℝ)).1 - (-533465055413 / 10 ^ 9)| ≤ 3 / 10 ^ 8 ∧
    |(planeXY realArith format (54.66218275 : ℝ) (1.900684377 : ℝ)).2 - (3748641835377 / 10 ^ 9)| ≤ 3 / 10 ^ 8 := by
  have h : Enc (54.66218275 : ℝ) (1.900684377 : ℝ) (815756005772573 / 10 ^ 15) (578396178277441 / 10 ^ 15) (-140889406459294 / 10 ^ 15) (990025340659292 / 10 ^ 15) := by
    apply enc (xn := (954035065314348 / 10 ^ 15)) (xe := (-141359724779566 / 10 ^ 15)) <;>
      first | (constructor <;> norm_num) | (simp only [sinP, cosP, abs_le]; constructor <;> norm_num)
  exact sphere_point hf h (by rw [abs_le]; constructor <;> norm_num) (by rw [abs_le]; constructor <;> norm_num)

theorem pt_g920_1 {format : Int} (hf : ¬ 5 ≤ format) :
    |(planeXY realArith format (54.81884457 : ℝ) (15.88724008 : ℝ)).1 - (386540721835 / 10 ^ 9)| ≤ 3 / 10 ^ 8 ∧
    |(planeXY realArith format (54.81884457 : ℝ) (15.88724008 : ℝ)).2 - (3748641835645 / 10 ^ 9)| ≤ 3 / 10 ^ 8 := by
  have h : Enc (54.81884457 : ℝ) (15.88724008 : ℝ) (817334442603604 / 10 ^ 15) (576163526209207 / 10 ^ 15) (102571011320201 / 10 ^ 15) (994725684616996 / 10 ^ 15) := by
    apply enc (xn := (956769329885515 / 10 ^ 15)) (xe := (102751723251374 / 10 ^ 15)) <;>
      first | (constructor <;> norm_num) | (simp only [sinP, cosP, abs_le]; constructor <;> norm_num)
  exact sphere_point hf h (by rw [abs_le]; constructor <;> norm_num) (by rw [abs_le]; constructor <;> norm_num)

theorem pt_g920_3 {format : Int} (hf : ¬ 5 ≤ format) :
    |(planeXY realArith format (46.86029310 : ℝ) (3.481345126 : ℝ)).1 - (-533465055462 / 10 ^ 9)| ≤ 3 / 10 ^ 8 ∧
    |(planeXY realArith format (46.86029310 : ℝ) (3.481345126 : ℝ)).2 - (4668647612816 / 10 ^ 9)| ≤ 3 / 10 ^ 8 := by
  have h : Enc (46.86029310 : ℝ) (3.481345126 : ℝ) (729688581566924 / 10 ^ 15) (683779623804956 / 10 ^ 15) (-113526703801895 / 10 ^ 15) (993534945295774 / 10 ^ 15) := by
    apply enc (xn := (817866403044580 / 10 ^ 15)) (xe := (-113771990352476 / 10 ^ 15)) <;>
      first | (constructor <;> norm_num) | (simp only [sinP, cosP, abs_le]; constructor <;> norm_num)
  exact sphere_point hf h (by rw [abs_le]; constructor <;> norm_num) (by rw [abs_le]; constructor <;> norm_num)

theorem pt_g920_4 {format : Int} (hf : ¬ 5 ≤ format) :
    |(planeXY realArith format (46.98044293 : ℝ) (14.73300934 : ℝ)).1 - (386540721832 / 10 ^ 9)| ≤ 3 / 10 ^ 8 ∧
    |(planeXY realArith format (46.98044293 : ℝ) (14.73300934 : ℝ)).2 - (4668647613363 / 10 ^ 9)| ≤ 3 / 10 ^ 8 := by
  have h : Enc (46.98044293 : ℝ) (14.73300934 : ℝ) (731120868928801 / 10 ^ 15) (682247957136401 / 10 ^ 15) (82512679392519 / 10 ^ 15) (996590014870442 / 10 ^ 15) := by
    apply enc (xn := (819963413173792 / 10 ^ 15)) (xe := (82606596510644 / 10 ^ 15)) <;>
      first | (constructor <;> norm_num) | (simp only [sinP, cosP, abs_le]; constructor <;> norm_num)
  exact sphere_point hf h (by rw [abs_le]; constructor <;> norm_num) (by rw [abs_le]; constructor <;> norm_num)

theorem pt_g1100_0 {format : Int} (hf : ¬ 5 ≤ format) :
    |(planeXY realArith format (55.5482 : ℝ) (3.0889 : ℝ)).1 - (-443463965742 / 10 ^ 9)| ≤ 3 / 10 ^ 8 ∧
    |(planeXY realArith format (55.5482 : ℝ) (3.0889 : ℝ)).2 - (3658645668477 / 10 ^ 9)| ≤ 3 / 10 ^ 8 := by
  have h : Enc (55.5482 : ℝ) (3.0889 : ℝ) (824602385459215 / 10 ^ 15) (565712741499550 / 10 ^ 15) (-120329164994580 / 10 ^ 15) (992734049003915 / 10 ^ 15) := by
    apply enc (xn := (969498983556314 / 10 ^ 15)) (xe := (-120621449934580 / 10 ^ 15)) <;>
      first | (constructor <;> norm_num) | (simp only [sinP, cosP, abs_le]; constructor <;> norm_num)
  exact sphere_point hf h (by rw [abs_le]; constructor <;> norm_num) (by rw [abs_le]; constructor <;> norm_num)

theorem pt_g1100_1 {format : Int} (hf : ¬ 5 ≤ format) :
    |(planeXY realArith format (55.5342 : ℝ) (17.1128 : ℝ)).1 - (456537941079 / 10 ^ 9)| ≤ 3 / 10 ^ 8 ∧
    |(planeXY realArith format (55.5342 : ℝ) (17.1128 : ℝ)).2 - (3658641502633 / 10 ^ 9)| ≤ 3 / 10 ^ 8 := by
  have h : Enc (55.5342 : ℝ) (17.1128 : ℝ) (824464131144707 / 10 ^ 15) (565914212982646 / 10 ^ 15) (123823162737002 / 10 ^ 15) (992304300287873 / 10 ^ 15) := by
    apply enc (xn := (969254637461035 / 10 ^ 15)) (xe := (124141779035853 / 10 ^ 15)) <;>
      first | (constructor <;> norm_num) | (simp only [sinP, cosP, abs_le]; constructor <;> norm_num)
  exact sphere_point hf h (by rw [abs_le]; constructor <;> norm_num) (by rw [abs_le]; constructor <;> norm_num)

theorem pt_g1100_3 {format : Int} (hf : ¬ 5 ≤ format) :
    |(planeXY realArith format (46.1929 : ℝ) (4.6759 : ℝ)).1 - (-443464766289 / 10 ^ 9)| ≤ 3 / 10 ^ 8 ∧
    |(planeXY realArith format (46.1929 : ℝ) (4.6759 : ℝ)).2 - (4758641893680 / 10 ^ 9)| ≤ 3 / 10 ^ 8 := by
  have h : Enc (46.1929 : ℝ) (4.6759 : ℝ) (721674453298309 / 10 ^ 15) (692232607911953 / 10 ^ 15) (-92789405316570 / 10 ^ 15) (995685756783232 / 10 ^ 15) := by
    apply enc (xn := (806218196044489 / 10 ^ 15)) (xe := (-92923074705430 / 10 ^ 15)) <;>
      first | (constructor <;> norm_num) | (simp only [sinP, cosP, abs_le]; constructor <;> norm_num)
  exact sphere_point hf h (by rw [abs_le]; constructor <;> norm_num) (by rw [abs_le]; constructor <;> norm_num)

theorem pt_g1100_4 {format : Int} (hf : ¬ 5 ≤ format) :
    |(planeXY realArith format (46.1827 : ℝ) (15.4801 : ℝ)).1 - (456536908712 / 10 ^ 9)| ≤ 3 / 10 ^ 8 ∧
    |(planeXY realArith format (46.1827 : ℝ) (15.4801 : ℝ)).2 - (4758640352583 / 10 ^ 9)| ≤ 3 / 10 ^ 8 := by
  have h : Enc (46.1827 : ℝ) (15.4801 : ℝ) (721551208133547 / 10 ^ 15) (692361072014463 / 10 ^ 15) (95500025219800 / 10 ^ 15) (995429427525135 / 10 ^ 15) := by
    apply enc (xn := (806040172460785 / 10 ^ 15)) (xe := (95645788338541 / 10 ^ 15)) <;>
      first | (constructor <;> norm_num) | (simp only [sinP, cosP, abs_le]; constructor <;> norm_num)
  exact sphere_point hf h (by rw [abs_le]; constructor <;> norm_num) (by rw [abs_le]; constructor <;> norm_num)

theorem pt_g1200s_0 {format : Int} (hf : ¬ 5 ≤ format) :
    |(planeXY realArith format (55.86584289 : ℝ) (1.435612143 : ℝ)).1 - (-543462166973 / 10 ^ 9)| ≤ 3 / 10 ^ 8 ∧
    |(planeXY realArith format (55.86584289 : ℝ) (1.435612143 : ℝ)).2 - (3608644724455 / 10 ^ 9)| ≤ 3 / 10 ^ 8 := by
  have h : Enc (55.86584289 : ℝ) (1.435612143 : ℝ) (827725960298759 / 10 ^ 15) (561132546416137 / 10 ^ 15) (-148920753911534 / 10 ^ 15) (988849133616661 / 10 ^ 15) := by
    apply enc (xn := (975042897832364 / 10 ^ 15)) (xe := (-149476766522471 / 10 ^ 15)) <;>
      first | (constructor <;> norm_num) | (simp only [sinP, cosP, abs_le]; constructor <;> norm_num)
  exact sphere_point hf h (by rw [abs_le]; constructor <;> norm_num) (by rw [abs_le]; constructor <;> norm_num)

theorem pt_g1200s_1 {format : Int} (hf : ¬ 5 ≤ format) :
    |(planeXY realArith format (55.84848692 : ℝ) (18.76728172 : ℝ)).1 - (556537832888 / 10 ^ 9)| ≤ 3 / 10 ^ 8 ∧
    |(planeXY realArith format (55.84848692 : ℝ) (18.76728172 : ℝ)).2 - (3608644723930 / 10 ^ 9)| ≤ 3 / 10 ^ 8 := by
  have h : Enc (55.84848692 : ℝ) (18.76728172 : ℝ) (827555944715773 / 10 ^ 15) (561383254439911 / 10 ^ 15) (152421491744855 / 10 ^ 15) (988315581610587 / 10 ^ 15) := by
    apply enc (xn := (974739979010987 / 10 ^ 15)) (xe := (153017932463912 / 10 ^ 15)) <;>
      first | (constructor <;> norm_num) | (simp only [sinP, cosP, abs_le]; constructor <;> norm_num)
  exact sphere_point hf h (by rw [abs_le]; constructor <;> norm_num) (by rw [abs_le]; constructor <;> norm_num)

theorem pt_g1200s_3 {format : Int} (hf : ¬ 5 ≤ format) :
    |(planeXY realArith format (45.69587048 : ℝ) (3.551921296 : ℝ)).1 - (-543462166948 / 10 ^ 9)| ≤ 3 / 10 ^ 8 ∧
    |(planeXY realArith format (45.69587048 : ℝ) (3.551921296 : ℝ)).2 - (4808644724399 / 10 ^ 9)| ≤ 3 / 10 ^ 8 := by
  have h : Enc (45.69587048 : ℝ) (3.551921296 : ℝ) (715642394456809 / 10 ^ 15) (698466866255030 / 10 ^ 15) (-112302795011883 / 10 ^ 15) (993674032181841 / 10 ^ 15) := by
    apply enc (xn := (797543394440882 / 10 ^ 15)) (xe := (-112540203812529 / 10 ^ 15)) <;>
      first | (constructor <;> norm_num) | (simp only [sinP, cosP, abs_le]; constructor <;> norm_num)
  exact sphere_point hf h (by rw [abs_le]; constructor <;> norm_num) (by rw [abs_le]; constructor <;> norm_num)

theorem pt_g1200s_4 {format : Int} (hf : ¬ 5 ≤ format) :
    |(planeXY realArith format (45.68358331 : ℝ) (16.60186543 : ℝ)).1 - (556537833466 / 10 ^ 9)| ≤ 3 / 10 ^ 8 ∧
    |(planeXY realArith format (45.68358331 : ℝ) (16.60186543 : ℝ)).2 - (4808644724507 / 10 ^ 9)| ≤ 3 / 10 ^ 8 := by
  have h : Enc (45.68358331 : ℝ) (16.60186543 : ℝ) (715492590684313 / 10 ^ 15) (698620320829453 / 10 ^ 15) (114969492558604 / 10 ^ 15) (993369022962170 / 10 ^ 15) := by
    apply enc (xn := (797328942868629 / 10 ^ 15)) (xe := (115224288527091 / 10 ^ 15)) <;>
      first | (constructor <;> norm_num) | (simp only [sinP, cosP, abs_le]; constructor <;> norm_num)
  exact sphere_point hf h (by rw [abs_le]; constructor <;> norm_num) (by rw [abs_le]; constructor <;> norm_num)

theorem pt_g1500_0 {format : Int} (hf : ¬ 5 ≤ format) :
    |(planeXY realArith format (56.5423 : ℝ) (-0.8654 : ℝ)).1 - (-673461239178 / 10 ^ 9)| ≤ 3 / 10 ^ 8 ∧
    |(planeXY realArith format (56.5423 : ℝ) (-0.8654 : ℝ)).2 - (3508644167185 / 10 ^ 9)| ≤ 3 / 10 ^ 8 := by
  have h : Enc (56.5423 : ℝ) (-0.8654 : ℝ) (834293075652785 / 10 ^ 15) (551321198502081 / 10 ^ 15) (-188502419468799 / 10 ^ 15) (982072725338816 / 10 ^ 15) := by
    apply enc (xn := (986849301650390 / 10 ^ 15)) (xe := (-189637004546192 / 10 ^ 15)) <;>
      first | (constructor <;> norm_num) | (simp only [sinP, cosP, abs_le]; constructor <;> norm_num)
  exact sphere_point hf h (by rw [abs_le]; constructor <;> norm_num) (by rw [abs_le]; constructor <;> norm_num)

theorem pt_g1500_1 {format : Int} (hf : ¬ 5 ≤ format) :
    |(planeXY realArith format (56.4505 : ℝ) (21.6986 : ℝ)).1 - (726516971044 / 10 ^ 9)| ≤ 3 / 10 ^ 8 ∧
    |(planeXY realArith format (56.4505 : ℝ) (21.6986 : ℝ)).2 - (3508649495087 / 10 ^ 9)| ≤ 3 / 10 ^ 8 := by
  have h : Enc (56.4505 : ℝ) (21.6986 : ℝ) (833408671600938 / 10 ^ 15) (552657204875061 / 10 ^ 15) (202763368368960 / 10 ^ 15) (979227765357822 / 10 ^ 15) := by
    apply enc (xn := (985247089397059 / 10 ^ 15)) (xe := (204179087873809 / 10 ^ 15)) <;>
      first | (constructor <;> norm_num) | (simp only [sinP, cosP, abs_le]; constructor <;> norm_num)
  exact sphere_point hf h (by rw [abs_le]; constructor <;> norm_num) (by rw [abs_le]; constructor <;> norm_num)

theorem pt_g1500_3 {format : Int} (hf : ¬ 5 ≤ format) :
    |(planeXY realArith format (43.9336 : ℝ) (2.3419 : ℝ)).1 - (-673465665632 / 10 ^ 9)| ≤ 3 / 10 ^ 8 ∧
    |(planeXY realArith format (43.9336 : ℝ) (2.3419 : ℝ)).2 - (5008642536447 / 10 ^ 9)| ≤ 3 / 10 ^ 8 := by
  have h : Enc (43.9336 : ℝ) (2.3419 : ℝ) (693824262262259 / 10 ^ 15) (720144355734482 / 10 ^ 15) (-133261450621646 / 10 ^ 15) (991080917876141 / 10 ^ 15) := by
    apply enc (xn := (766785972254181 / 10 ^ 15)) (xe := (-133659059446978 / 10 ^ 15)) <;>
      first | (constructor <;> norm_num) | (simp only [sinP, cosP, abs_le]; constructor <;> norm_num)
  exact sphere_point hf h (by rw [abs_le]; constructor <;> norm_num) (by rw [abs_le]; constructor <;> norm_num)

theorem pt_g1500_4 {format : Int} (hf : ¬ 5 ≤ format) :
    |(planeXY realArith format (43.8736 : ℝ) (18.2536 : ℝ)).1 - (726540556962 / 10 ^ 9)| ≤ 3 / 10 ^ 8 ∧
    |(planeXY realArith format (43.8736 : ℝ) (18.2536 : ℝ)).2 - (5008646880601 / 10 ^ 9)| ≤ 3 / 10 ^ 8 := by
  have h : Enc (43.8736 : ℝ) (18.2536 : ℝ) (693069748562571 / 10 ^ 15) (720870531806796 / 10 ^ 15) (143554803338424 / 10 ^ 15) (989642368958841 / 10 ^ 15) := by
    apply enc (xn := (765738774702984 / 10 ^ 15)) (xe := (144052495142604 / 10 ^ 15)) <;>
      first | (constructor <;> norm_num) | (simp only [sinP, cosP, abs_le]; constructor <;> norm_num)
  exact sphere_point hf h (by rw [abs_le]; constructor <;> norm_num) (by rw [abs_le]; constructor <;> norm_num)

theorem pt_g1200w_0 {format : Int} (hf : 5 ≤ format) :
    |(planeXY realArith format (55.86208711 : ℝ) (1.463301510 : ℝ)).1 - (-499999987 / 10 ^ 9)| ≤ 3 / 10 ^ 8 ∧
    |(planeXY realArith format (55.86208711 : ℝ) (1.463301510 : ℝ)).2 - (-500000199 / 10 ^ 9)| ≤ 3 / 10 ^ 8 := by
  have h : Enc (55.86208711 : ℝ) (1.463301510 : ℝ) (827689175874109 / 10 ^ 15) (561186803248971 / 10 ^ 15) (-148442854804068 / 10 ^ 15) (988920987166123 / 10 ^ 15) := by
    apply enc (xn := (974977347105384 / 10 ^ 15)) (xe := (-148993495900528 / 10 ^ 15)) <;>
      first | (constructor <;> norm_num) | (simp only [sinP, cosP, abs_le]; constructor <;> norm_num)
  apply wgs_point hf h (y0 := (67720858639215 / 10 ^ 15)) (v0 := (5549359590023 / 10 ^ 15)) (g0 := (1005564785807962 / 10 ^ 15)) <;>
    first | (constructor <;> norm_num) | (simp only [ecc84, logP, expP, abs_le]; constructor <;> norm_num)

theorem pt_g1200w_1 {format : Int} (hf : 5 ≤ format) :
    |(planeXY realArith format (55.84543856 : ℝ) (18.73161645 : ℝ)).1 - (1099499999761 / 10 ^ 9)| ≤ 3 / 10 ^ 8 ∧
    |(planeXY realArith format (55.84543856 : ℝ) (18.73161645 : ℝ)).2 - (-499999589 / 10 ^ 9)| ≤ 3 / 10 ^ 8 := by
  have h : Enc (55.84543856 : ℝ) (18.73161645 : ℝ) (827526075755446 / 10 ^ 15) (561427282864622 / 10 ^ 15) (151806259139152 / 10 ^ 15) (988410268909716 / 10 ^ 15) := by
    apply enc (xn := (974686775092201 / 10 ^ 15)) (xe := (152395456073799 / 10 ^ 15)) <;>
      first | (constructor <;> norm_num) | (simp only [sinP, cosP, abs_le]; constructor <;> norm_num)
  apply wgs_point hf h (y0 := (67707513919480 / 10 ^ 15)) (v0 := (5548262706410 / 10 ^ 15)) (g0 := (1005563682821031 / 10 ^ 15)) <;>
    first | (constructor <;> norm_num) | (simp only [ecc84, logP, expP, abs_le]; constructor <;> norm_num)

theorem pt_g1200w_2 {format : Int} (hf : 5 ≤ format) :
    |(planeXY realArith format (45.68460578 : ℝ) (16.58086935 : ℝ)).1 - (1099500000137 / 10 ^ 9)| ≤ 3 / 10 ^ 8 ∧
    |(planeXY realArith format (45.68460578 : ℝ) (16.58086935 : ℝ)).2 - (1199500000151 / 10 ^ 9)| ≤ 3 / 10 ^ 8 := by
  have h : Enc (45.68460578 : ℝ) (16.58086935 : ℝ) (715505057776966 / 10 ^ 15) (698607552418079 / 10 ^ 15) (114605464047684 / 10 ^ 15) (993411086917402 / 10 ^ 15) := by
    apply enc (xn := (797346788336632 / 10 ^ 15)) (xe := (114857837801079 / 10 ^ 15)) <;>
      first | (constructor <;> norm_num) | (simp only [sinP, cosP, abs_le]; constructor <;> norm_num)
  apply wgs_point hf h (y0 := (58542044871114 / 10 ^ 15)) (v0 := (4795345914035 / 10 ^ 15)) (g0 := (1004806861985743 / 10 ^ 15)) <;>
    first | (constructor <;> norm_num) | (simp only [ecc84, logP, expP, abs_le]; constructor <;> norm_num)

theorem pt_g1200w_3 {format : Int} (hf : 5 ≤ format) :
    |(planeXY realArith format (45.69642538 : ℝ) (3.566994635 : ℝ)).1 - (-499999965 / 10 ^ 9)| ≤ 3 / 10 ^ 8 ∧
    |(planeXY realArith format (45.69642538 : ℝ) (3.566994635 : ℝ)).2 - (1199499999686 / 10 ^ 9)| ≤ 3 / 10 ^ 8 := by
  have h : Enc (45.69642538 : ℝ) (3.566994635 : ℝ) (715649158957518 / 10 ^ 15) (698459935345898 / 10 ^ 15) (-112041375965583 / 10 ^ 15) (993703542346377 / 10 ^ 15) := by
    apply enc (xn := (797553079272901 / 10 ^ 15)) (xe := (-112277124417710 / 10 ^ 15)) <;>
      first | (constructor <;> norm_num) | (simp only [sinP, cosP, abs_le]; constructor <;> norm_num)
  apply wgs_point hf h (y0 := (58553835113106 / 10 ^ 15)) (v0 := (4796313900217 / 10 ^ 15)) (g0 := (1004807834625372 / 10 ^ 15)) <;>
    first | (constructor <;> norm_num) | (simp only [ecc84, logP, expP, abs_le]; constructor <;> norm_num)

/-- position in kilometres from enclosures of the plane coordinates of the point and of the two corners -/
theorem ratio_near {p o e W km t : ℝ} (hD : 0 < e - o) (h1 : (p - o) * W - km * (e - o) ≤ t * (e - o))
    (h2 : -(t * (e - o)) ≤ (p - o) * W - km * (e - o)) : |(p - o) / (e - o) * W - km| ≤ t := by
  have e1 : (p - o) / (e - o) * W - km = ((p - o) * W - km * (e - o)) / (e - o) := by
    field_simp
  rw [e1, abs_div, abs_of_pos hD, div_le_iff₀ hD, abs_le]
  exact ⟨h2, h1⟩

theorem g900_x {format : Int} (hf : ¬ 5 ≤ format) :
    |(planeXY realArith format (47.0705 : ℝ) (14.6209 : ℝ)).1 - (planeXY realArith format (54.5877 : ℝ) (2.0715 : ℝ)).1 - 900| ≤ 900 / 10 ^ 5 := by
  have o := abs_le.mp (pt_g900_0 hf).1
  have c := abs_le.mp (pt_g900_4 hf).1
  rw [abs_le]; constructor <;> norm_num at o c ⊢ <;> linarith [o.1, o.2, c.1, c.2]

theorem g900_x_0 {format : Int} (hf : ¬ 5 ≤ format) :
    |((planeXY realArith format (54.5877 : ℝ) (2.0715 : ℝ)).1 - (planeXY realArith format (54.5877 : ℝ) (2.0715 : ℝ)).1) / ((planeXY realArith format (47.0705 : ℝ) (14.6209 : ℝ)).1 - (planeXY realArith format (54.5877 : ℝ) (2.0715 : ℝ)).1) * 900 - 0| ≤ 25 / 1000 := by
  have o := abs_le.mp (pt_g900_0 hf).1
  have c := abs_le.mp (pt_g900_4 hf).1
  have p := abs_le.mp (pt_g900_0 hf).1
  norm_num at o c p
  apply ratio_near <;> norm_num <;> linarith [o.1, o.2, c.1, c.2, p.1, p.2]

theorem g900_x_1 {format : Int} (hf : ¬ 5 ≤ format) :
    |((planeXY realArith format (54.7405 : ℝ) (15.7208 : ℝ)).1 - (planeXY realArith format (54.5877 : ℝ) (2.0715 : ℝ)).1) / ((planeXY realArith format (47.0705 : ℝ) (14.6209 : ℝ)).1 - (planeXY realArith format (54.5877 : ℝ) (2.0715 : ℝ)).1) * 900 - 900| ≤ 25 / 1000 := by
  have o := abs_le.mp (pt_g900_0 hf).1
  have c := abs_le.mp (pt_g900_4 hf).1
  have p := abs_le.mp (pt_g900_1 hf).1
  norm_num at o c p
  apply ratio_near <;> norm_num <;> linarith [o.1, o.2, c.1, c.2, p.1, p.2]

theorem g900_x_2 {format : Int} (hf : ¬ 5 ≤ format) :
    |((planeXY realArith format (51 : ℝ) (9 : ℝ)).1 - (planeXY realArith format (54.5877 : ℝ) (2.0715 : ℝ)).1) / ((planeXY realArith format (47.0705 : ℝ) (14.6209 : ℝ)).1 - (planeXY realArith format (54.5877 : ℝ) (2.0715 : ℝ)).1) * 900 - 450| ≤ 25 / 1000 := by
  have o := abs_le.mp (pt_g900_0 hf).1
  have c := abs_le.mp (pt_g900_4 hf).1
  have p := abs_le.mp (pt_g900_2 hf).1
  norm_num at o c p
  apply ratio_near <;> norm_num <;> linarith [o.1, o.2, c.1, c.2, p.1, p.2]

theorem g900_x_3 {format : Int} (hf : ¬ 5 ≤ format) :
    |((planeXY realArith format (46.9526 : ℝ) (3.5889 : ℝ)).1 - (planeXY realArith format (54.5877 : ℝ) (2.0715 : ℝ)).1) / ((planeXY realArith format (47.0705 : ℝ) (14.6209 : ℝ)).1 - (planeXY realArith format (54.5877 : ℝ) (2.0715 : ℝ)).1) * 900 - 0| ≤ 25 / 1000 := by
  have o := abs_le.mp (pt_g900_0 hf).1
  have c := abs_le.mp (pt_g900_4 hf).1
  have p := abs_le.mp (pt_g900_3 hf).1
  norm_num at o c p
  apply ratio_near <;> norm_num <;> linarith [o.1, o.2, c.1, c.2, p.1, p.2]

theorem g900_x_4 {format : Int} (hf : ¬ 5 ≤ format) :
    |((planeXY realArith format (47.0705 : ℝ) (14.6209 : ℝ)).1 - (planeXY realArith format (54.5877 : ℝ) (2.0715 : ℝ)).1) / ((planeXY realArith format (47.0705 : ℝ) (14.6209 : ℝ)).1 - (planeXY realArith format (54.5877 : ℝ) (2.0715 : ℝ)).1) * 900 - 900| ≤ 25 / 1000 := by
  have o := abs_le.mp (pt_g900_0 hf).1
  have c := abs_le.mp (pt_g900_4 hf).1
  have p := abs_le.mp (pt_g900_4 hf).1
  norm_num at o c p
  apply ratio_near <;> norm_num <;> linarith [o.1, o.2, c.1, c.2, p.1, p.2]

theorem g900_y {format : Int} (hf : ¬ 5 ≤ format) :
    |(planeXY realArith format (47.0705 : ℝ) (14.6209 : ℝ)).2 - (planeXY realArith format (54.5877 : ℝ) (2.0715 : ℝ)).2 - 900| ≤ 900 / 10 ^ 5 := by
  have o := abs_le.mp (pt_g900_0 hf).2
  have c := abs_le.mp (pt_g900_4 hf).2
  rw [abs_le]; constructor <;> norm_num at o c ⊢ <;> linarith [o.1, o.2, c.1, c.2]

theorem g900_y_0 {format : Int} (hf : ¬ 5 ≤ format) :
    |((planeXY realArith format (54.5877 : ℝ) (2.0715 : ℝ)).2 - (planeXY realArith format (54.5877 : ℝ) (2.0715 : ℝ)).2) / ((planeXY realArith format (47.0705 : ℝ) (14.6209 : ℝ)).2 - (planeXY realArith format (54.5877 : ℝ) (2.0715 : ℝ)).2) * 900 - 0| ≤ 25 / 1000 := by
  have o := abs_le.mp (pt_g900_0 hf).2
  have c := abs_le.mp (pt_g900_4 hf).2
  have p := abs_le.mp (pt_g900_0 hf).2
  norm_num at o c p
  apply ratio_near <;> norm_num <;> linarith [o.1, o.2, c.1, c.2, p.1, p.2]

theorem g900_y_1 {format : Int} (hf : ¬ 5 ≤ format) :
    |((planeXY realArith format (54.7405 : ℝ) (15.7208 : ℝ)).2 - (planeXY realArith format (54.5877 : ℝ) (2.0715 : ℝ)).2) / ((planeXY realArith format (47.0705 : ℝ) (14.6209 : ℝ)).2 - (planeXY realArith format (54.5877 : ℝ) (2.0715 : ℝ)).2) * 900 - 0| ≤ 25 / 1000 := by
  have o := abs_le.mp (pt_g900_0 hf).2
  have c := abs_le.mp (pt_g900_4 hf).2
  have p := abs_le.mp (pt_g900_1 hf).2
  norm_num at o c p
  apply ratio_near <;> norm_num <;> linarith [o.1, o.2, c.1, c.2, p.1, p.2]

theorem g900_y_2 {format : Int} (hf : ¬ 5 ≤ format) :
    |((planeXY realArith format (51 : ℝ) (9 : ℝ)).2 - (planeXY realArith format (54.5877 : ℝ) (2.0715 : ℝ)).2) / ((planeXY realArith format (47.0705 : ℝ) (14.6209 : ℝ)).2 - (planeXY realArith format (54.5877 : ℝ) (2.0715 : ℝ)).2) * 900 - 450| ≤ 25 / 1000 := by
  have o := abs_le.mp (pt_g900_0 hf).2
  have c := abs_le.mp (pt_g900_4 hf).2
  have p := abs_le.mp (pt_g900_2 hf).2
  norm_num at o c p
  apply ratio_near <;> norm_num <;> linarith [o.1, o.2, c.1, c.2, p.1, p.2]

theorem g900_y_3 {format : Int} (hf : ¬ 5 ≤ format) :
    |((planeXY realArith format (46.9526 : ℝ) (3.5889 : ℝ)).2 - (planeXY realArith format (54.5877 : ℝ) (2.0715 : ℝ)).2) / ((planeXY realArith format (47.0705 : ℝ) (14.6209 : ℝ)).2 - (planeXY realArith format (54.5877 : ℝ) (2.0715 : ℝ)).2) * 900 - 900| ≤ 25 / 1000 := by
  have o := abs_le.mp (pt_g900_0 hf).2
  have c := abs_le.mp (pt_g900_4 hf).2
  have p := abs_le.mp (pt_g900_3 hf).2
  norm_num at o c p
  apply ratio_near <;> norm_num <;> linarith [o.1, o.2, c.1, c.2, p.1, p.2]

theorem g900_y_4 {format : Int} (hf : ¬ 5 ≤ format) :
    |((planeXY realArith format (47.0705 : ℝ) (14.6209 : ℝ)).2 - (planeXY realArith format (54.5877 : ℝ) (2.0715 : ℝ)).2) / ((planeXY realArith format (47.0705 : ℝ) (14.6209 : ℝ)).2 - (planeXY realArith format (54.5877 : ℝ) (2.0715 : ℝ)).2) * 900 - 900| ≤ 25 / 1000 := by
  have o := abs_le.mp (pt_g900_0 hf).2
  have c := abs_le.mp (pt_g900_4 hf).2
  have p := abs_le.mp (pt_g900_4 hf).2
  norm_num at o c p
  apply ratio_near <;> norm_num <;> linarith [o.1, o.2, c.1, c.2, p.1, p.2]

theorem g920_x {format : Int} (hf : ¬ 5 ≤ format) :
    |(planeXY realArith format (46.98044293 : ℝ) (14.73300934 : ℝ)).1 - (planeXY realArith format (54.66218275 : ℝ) (1.900684377 : ℝ)).1 - 920| ≤ 920 / 10 ^ 5 := by
  have o := abs_le.mp (pt_g920_0 hf).1
  have c := abs_le.mp (pt_g920_4 hf).1
  rw [abs_le]; constructor <;> norm_num at o c ⊢ <;> linarith [o.1, o.2, c.1, c.2]

theorem g920_x_0 {format : Int} (hf : ¬ 5 ≤ format) :
    |((planeXY realArith format (54.66218275 : ℝ) (1.900684377 : ℝ)).1 - (planeXY realArith format (54.66218275 : ℝ) (1.900684377 : ℝ)).1) / ((planeXY realArith format (46.98044293 : ℝ) (14.73300934 : ℝ)).1 - (planeXY realArith format (54.66218275 : ℝ) (1.900684377 : ℝ)).1) * 920 - 0| ≤ 1 / 10 ^ 6 := by
  have o := abs_le.mp (pt_g920_0 hf).1
  have c := abs_le.mp (pt_g920_4 hf).1
  have p := abs_le.mp (pt_g920_0 hf).1
  norm_num at o c p
  apply ratio_near <;> norm_num <;> linarith [o.1, o.2, c.1, c.2, p.1, p.2]

theorem g920_x_1 {format : Int} (hf : ¬ 5 ≤ format) :
    |((planeXY realArith format (54.81884457 : ℝ) (15.88724008 : ℝ)).1 - (planeXY realArith format (54.66218275 : ℝ) (1.900684377 : ℝ)).1) / ((planeXY realArith format (46.98044293 : ℝ) (14.73300934 : ℝ)).1 - (planeXY realArith format (54.66218275 : ℝ) (1.900684377 : ℝ)).1) * 920 - 920| ≤ 1 / 10 ^ 6 := by
  have o := abs_le.mp (pt_g920_0 hf).1
  have c := abs_le.mp (pt_g920_4 hf).1
  have p := abs_le.mp (pt_g920_1 hf).1
  norm_num at o c p
  apply ratio_near <;> norm_num <;> linarith [o.1, o.2, c.1, c.2, p.1, p.2]

theorem g920_x_2 {format : Int} (hf : ¬ 5 ≤ format) :
    |((planeXY realArith format (51 : ℝ) (9 : ℝ)).1 - (planeXY realArith format (54.66218275 : ℝ) (1.900684377 : ℝ)).1) / ((planeXY realArith format (46.98044293 : ℝ) (14.73300934 : ℝ)).1 - (planeXY realArith format (54.66218275 : ℝ) (1.900684377 : ℝ)).1) * 920 - 460| ≤ 1 / 10 ^ 6 := by
  have o := abs_le.mp (pt_g920_0 hf).1
  have c := abs_le.mp (pt_g920_4 hf).1
  have p := abs_le.mp (pt_g900_2 hf).1
  norm_num at o c p
  apply ratio_near <;> norm_num <;> linarith [o.1, o.2, c.1, c.2, p.1, p.2]

theorem g920_x_3 {format : Int} (hf : ¬ 5 ≤ format) :
    |((planeXY realArith format (46.86029310 : ℝ) (3.481345126 : ℝ)).1 - (planeXY realArith format (54.66218275 : ℝ) (1.900684377 : ℝ)).1) / ((planeXY realArith format (46.98044293 : ℝ) (14.73300934 : ℝ)).1 - (planeXY realArith format (54.66218275 : ℝ) (1.900684377 : ℝ)).1) * 920 - 0| ≤ 1 / 10 ^ 6 := by
  have o := abs_le.mp (pt_g920_0 hf).1
  have c := abs_le.mp (pt_g920_4 hf).1
  have p := abs_le.mp (pt_g920_3 hf).1
  norm_num at o c p
  apply ratio_near <;> norm_num <;> linarith [o.1, o.2, c.1, c.2, p.1, p.2]

theorem g920_x_4 {format : Int} (hf : ¬ 5 ≤ format) :
    |((planeXY realArith format (46.98044293 : ℝ) (14.73300934 : ℝ)).1 - (planeXY realArith format (54.66218275 : ℝ) (1.900684377 : ℝ)).1) / ((planeXY realArith format (46.98044293 : ℝ) (14.73300934 : ℝ)).1 - (planeXY realArith format (54.66218275 : ℝ) (1.900684377 : ℝ)).1) * 920 - 920| ≤ 1 / 10 ^ 6 := by
  have o := abs_le.mp (pt_g920_0 hf).1
  have c := abs_le.mp (pt_g920_4 hf).1
  have p := abs_le.mp (pt_g920_4 hf).1
  norm_num at o c p
  apply ratio_near <;> norm_num <;> linarith [o.1, o.2, c.1, c.2, p.1, p.2]

theorem g920_y {format : Int} (hf : ¬ 5 ≤ format) :
    |(planeXY realArith format (46.98044293 : ℝ) (14.73300934 : ℝ)).2 - (planeXY realArith format (54.66218275 : ℝ) (1.900684377 : ℝ)).2 - 920| ≤ 920 / 10 ^ 5 := by
  have o := abs_le.mp (pt_g920_0 hf).2
  have c := abs_le.mp (pt_g920_4 hf).2
  rw [abs_le]; constructor <;> norm_num at o c ⊢ <;> linarith [o.1, o.2, c.1, c.2]

theorem g920_y_0 {format : Int} (hf : ¬ 5 ≤ format) :
    |((planeXY realArith format (54.66218275 : ℝ) (1.900684377 : ℝ)).2 - (planeXY realArith format (54.66218275 : ℝ) (1.900684377 : ℝ)).2) / ((planeXY realArith format (46.98044293 : ℝ) (14.73300934 : ℝ)).2 - (planeXY realArith format (54.66218275 : ℝ) (1.900684377 : ℝ)).2) * 920 - 0| ≤ 1 / 10 ^ 6 := by
  have o := abs_le.mp (pt_g920_0 hf).2
  have c := abs_le.mp (pt_g920_4 hf).2
  have p := abs_le.mp (pt_g920_0 hf).2
  norm_num at o c p
  apply ratio_near <;> norm_num <;> linarith [o.1, o.2, c.1, c.2, p.1, p.2]

theorem g920_y_1 {format : Int} (hf : ¬ 5 ≤ format) :
    |((planeXY realArith format (54.81884457 : ℝ) (15.88724008 : ℝ)).2 - (planeXY realArith format (54.66218275 : ℝ) (1.900684377 : ℝ)).2) / ((planeXY realArith format (46.98044293 : ℝ) (14.73300934 : ℝ)).2 - (planeXY realArith format (54.66218275 : ℝ) (1.900684377 : ℝ)).2) * 920 - 0| ≤ 1 / 10 ^ 6 := by
  have o := abs_le.mp (pt_g920_0 hf).2
  have c := abs_le.mp (pt_g920_4 hf).2
  have p := abs_le.mp (pt_g920_1 hf).2
  norm_num at o c p
  apply ratio_near <;> norm_num <;> linarith [o.1, o.2, c.1, c.2, p.1, p.2]

theorem g920_y_2 {format : Int} (hf : ¬ 5 ≤ format) :
    |((planeXY realArith format (51 : ℝ) (9 : ℝ)).2 - (planeXY realArith format (54.66218275 : ℝ) (1.900684377 : ℝ)).2) / ((planeXY realArith format (46.98044293 : ℝ) (14.73300934 : ℝ)).2 - (planeXY realArith format (54.66218275 : ℝ) (1.900684377 : ℝ)).2) * 920 - 460| ≤ 1 / 10 ^ 6 := by
  have o := abs_le.mp (pt_g920_0 hf).2
  have c := abs_le.mp (pt_g920_4 hf).2
  have p := abs_le.mp (pt_g900_2 hf).2
  norm_num at o c p
  apply ratio_near <;> norm_num <;> linarith [o.1, o.2, c.1, c.2, p.1, p.2]

theorem g920_y_3 {format : Int} (hf : ¬ 5 ≤ format) :
    |((planeXY realArith format (46.86029310 : ℝ) (3.481345126 : ℝ)).2 - (planeXY realArith format (54.66218275 : ℝ) (1.900684377 : ℝ)).2) / ((planeXY realArith format (46.98044293 : ℝ) (14.73300934 : ℝ)).2 - (planeXY realArith format (54.66218275 : ℝ) (1.900684377 : ℝ)).2) * 920 - 920| ≤ 1 / 10 ^ 6 := by
  have o := abs_le.mp (pt_g920_0 hf).2
  have c := abs_le.mp (pt_g920_4 hf).2
  have p := abs_le.mp (pt_g920_3 hf).2
  norm_num at o c p
  apply ratio_near <;> norm_num <;> linarith [o.1, o.2, c.1, c.2, p.1, p.2]

theorem g920_y_4 {format : Int} (hf : ¬ 5 ≤ format) :
    |((planeXY realArith format (46.98044293 : ℝ) (14.73300934 : ℝ)).2 - (planeXY realArith format (54.66218275 : ℝ) (1.900684377 : ℝ)).2) / ((planeXY realArith format (46.98044293 : ℝ) (14.73300934 : ℝ)).2 - (planeXY realArith format (54.66218275 : ℝ) (1.900684377 : ℝ)).2) * 920 - 920| ≤ 1 / 10 ^ 6 := by
  have o := abs_le.mp (pt_g920_0 hf).2
  have c := abs_le.mp (pt_g920_4 hf).2
  have p := abs_le.mp (pt_g920_4 hf).2
  norm_num at o c p
  apply ratio_near <;> norm_num <;> linarith [o.1, o.2, c.1, c.2, p.1, p.2]

theorem g1100_x {format : Int} (hf : ¬ 5 ≤ format) :
    |(planeXY realArith format (46.1827 : ℝ) (15.4801 : ℝ)).1 - (planeXY realArith format (55.5482 : ℝ) (3.0889 : ℝ)).1 - 900| ≤ 900 / 10 ^ 5 := by
  have o := abs_le.mp (pt_g1100_0 hf).1
  have c := abs_le.mp (pt_g1100_4 hf).1
  rw [abs_le]; constructor <;> norm_num at o c ⊢ <;> linarith [o.1, o.2, c.1, c.2]

theorem g1100_x_0 {format : Int} (hf : ¬ 5 ≤ format) :
    |((planeXY realArith format (55.5482 : ℝ) (3.0889 : ℝ)).1 - (planeXY realArith format (55.5482 : ℝ) (3.0889 : ℝ)).1) / ((planeXY realArith format (46.1827 : ℝ) (15.4801 : ℝ)).1 - (planeXY realArith format (55.5482 : ℝ) (3.0889 : ℝ)).1) * 900 - 0| ≤ 25 / 1000 := by
  have o := abs_le.mp (pt_g1100_0 hf).1
  have c := abs_le.mp (pt_g1100_4 hf).1
  have p := abs_le.mp (pt_g1100_0 hf).1
  norm_num at o c p
  apply ratio_near <;> norm_num <;> linarith [o.1, o.2, c.1, c.2, p.1, p.2]

theorem g1100_x_1 {format : Int} (hf : ¬ 5 ≤ format) :
    |((planeXY realArith format (55.5342 : ℝ) (17.1128 : ℝ)).1 - (planeXY realArith format (55.5482 : ℝ) (3.0889 : ℝ)).1) / ((planeXY realArith format (46.1827 : ℝ) (15.4801 : ℝ)).1 - (planeXY realArith format (55.5482 : ℝ) (3.0889 : ℝ)).1) * 900 - 900| ≤ 25 / 1000 := by
  have o := abs_le.mp (pt_g1100_0 hf).1
  have c := abs_le.mp (pt_g1100_4 hf).1
  have p := abs_le.mp (pt_g1100_1 hf).1
  norm_num at o c p
  apply ratio_near <;> norm_num <;> linarith [o.1, o.2, c.1, c.2, p.1, p.2]

theorem g1100_x_2 {format : Int} (hf : ¬ 5 ≤ format) :
    |((planeXY realArith format (51 : ℝ) (9 : ℝ)).1 - (planeXY realArith format (55.5482 : ℝ) (3.0889 : ℝ)).1) / ((planeXY realArith format (46.1827 : ℝ) (15.4801 : ℝ)).1 - (planeXY realArith format (55.5482 : ℝ) (3.0889 : ℝ)).1) * 900 - 370| ≤ 25 / 1000 := by
  have o := abs_le.mp (pt_g1100_0 hf).1
  have c := abs_le.mp (pt_g1100_4 hf).1
  have p := abs_le.mp (pt_g900_2 hf).1
  norm_num at o c p
  apply ratio_near <;> norm_num <;> linarith [o.1, o.2, c.1, c.2, p.1, p.2]

theorem g1100_x_3 {format : Int} (hf : ¬ 5 ≤ format) :
    |((planeXY realArith format (46.1929 : ℝ) (4.6759 : ℝ)).1 - (planeXY realArith format (55.5482 : ℝ) (3.0889 : ℝ)).1) / ((planeXY realArith format (46.1827 : ℝ) (15.4801 : ℝ)).1 - (planeXY realArith format (55.5482 : ℝ) (3.0889 : ℝ)).1) * 900 - 0| ≤ 25 / 1000 := by
  have o := abs_le.mp (pt_g1100_0 hf).1
  have c := abs_le.mp (pt_g1100_4 hf).1
  have p := abs_le.mp (pt_g1100_3 hf).1
  norm_num at o c p
  apply ratio_near <;> norm_num <;> linarith [o.1, o.2, c.1, c.2, p.1, p.2]

theorem g1100_x_4 {format : Int} (hf : ¬ 5 ≤ format) :
    |((planeXY realArith format (46.1827 : ℝ) (15.4801 : ℝ)).1 - (planeXY realArith format (55.5482 : ℝ) (3.0889 : ℝ)).1) / ((planeXY realArith format (46.1827 : ℝ) (15.4801 : ℝ)).1 - (planeXY realArith format (55.5482 : ℝ) (3.0889 : ℝ)).1) * 900 - 900| ≤ 25 / 1000 := by
  have o := abs_le.mp (pt_g1100_0 hf).1
  have c := abs_le.mp (pt_g1100_4 hf).1
  have p := abs_le.mp (pt_g1100_4 hf).1
  norm_num at o c p
  apply ratio_near <;> norm_num <;> linarith [o.1, o.2, c.1, c.2, p.1, p.2]

theorem g1100_y {format : Int} (hf : ¬ 5 ≤ format) :
    |(planeXY realArith format (46.1827 : ℝ) (15.4801 : ℝ)).2 - (planeXY realArith format (55.5482 : ℝ) (3.0889 : ℝ)).2 - 1100| ≤ 1100 / 10 ^ 5 := by
  have o := abs_le.mp (pt_g1100_0 hf).2
  have c := abs_le.mp (pt_g1100_4 hf).2
  rw [abs_le]; constructor <;> norm_num at o c ⊢ <;> linarith [o.1, o.2, c.1, c.2]

theorem g1100_y_0 {format : Int} (hf : ¬ 5 ≤ format) :
    |((planeXY realArith format (55.5482 : ℝ) (3.0889 : ℝ)).2 - (planeXY realArith format (55.5482 : ℝ) (3.0889 : ℝ)).2) / ((planeXY realArith format (46.1827 : ℝ) (15.4801 : ℝ)).2 - (planeXY realArith format (55.5482 : ℝ) (3.0889 : ℝ)).2) * 1100 - 0| ≤ 25 / 1000 := by
  have o := abs_le.mp (pt_g1100_0 hf).2
  have c := abs_le.mp (pt_g1100_4 hf).2
  have p := abs_le.mp (pt_g1100_0 hf).2
  norm_num at o c p
  apply ratio_near <;> norm_num <;> linarith [o.1, o.2, c.1, c.2, p.1, p.2]

theorem g1100_y_1 {format : Int} (hf : ¬ 5 ≤ format) :
    |((planeXY realArith format (55.5342 : ℝ) (17.1128 : ℝ)).2 - (planeXY realArith format (55.5482 : ℝ) (3.0889 : ℝ)).2) / ((planeXY realArith format (46.1827 : ℝ) (15.4801 : ℝ)).2 - (planeXY realArith format (55.5482 : ℝ) (3.0889 : ℝ)).2) * 1100 - 0| ≤ 25 / 1000 := by
  have o := abs_le.mp (pt_g1100_0 hf).2
  have c := abs_le.mp (pt_g1100_4 hf).2
  have p := abs_le.mp (pt_g1100_1 hf).2
  norm_num at o c p
  apply ratio_near <;> norm_num <;> linarith [o.1, o.2, c.1, c.2, p.1, p.2]

theorem g1100_y_2 {format : Int} (hf : ¬ 5 ≤ format) :
    |((planeXY realArith format (51 : ℝ) (9 : ℝ)).2 - (planeXY realArith format (55.5482 : ℝ) (3.0889 : ℝ)).2) / ((planeXY realArith format (46.1827 : ℝ) (15.4801 : ℝ)).2 - (planeXY realArith format (55.5482 : ℝ) (3.0889 : ℝ)).2) * 1100 - 550| ≤ 25 / 1000 := by
  have o := abs_le.mp (pt_g1100_0 hf).2
  have c := abs_le.mp (pt_g1100_4 hf).2
  have p := abs_le.mp (pt_g900_2 hf).2
  norm_num at o c p
  apply ratio_near <;> norm_num <;> linarith [o.1, o.2, c.1, c.2, p.1, p.2]

theorem g1100_y_3 {format : Int} (hf : ¬ 5 ≤ format) :
    |((planeXY realArith format (46.1929 : ℝ) (4.6759 : ℝ)).2 - (planeXY realArith format (55.5482 : ℝ) (3.0889 : ℝ)).2) / ((planeXY realArith format (46.1827 : ℝ) (15.4801 : ℝ)).2 - (planeXY realArith format (55.5482 : ℝ) (3.0889 : ℝ)).2) * 1100 - 1100| ≤ 25 / 1000 := by
  have o := abs_le.mp (pt_g1100_0 hf).2
  have c := abs_le.mp (pt_g1100_4 hf).2
  have p := abs_le.mp (pt_g1100_3 hf).2
  norm_num at o c p
  apply ratio_near <;> norm_num <;> linarith [o.1, o.2, c.1, c.2, p.1, p.2]

theorem g1100_y_4 {format : Int} (hf : ¬ 5 ≤ format) :
    |((planeXY realArith format (46.1827 : ℝ) (15.4801 : ℝ)).2 - (planeXY realArith format (55.5482 : ℝ) (3.0889 : ℝ)).2) / ((planeXY realArith format (46.1827 : ℝ) (15.4801 : ℝ)).2 - (planeXY realArith format (55.5482 : ℝ) (3.0889 : ℝ)).2) * 1100 - 1100| ≤ 25 / 1000 := by
  have o := abs_le.mp (pt_g1100_0 hf).2
  have c := abs_le.mp (pt_g1100_4 hf).2
  have p := abs_le.mp (pt_g1100_4 hf).2
  norm_num at o c p
  apply ratio_near <;> norm_num <;> linarith [o.1, o.2, c.1, c.2, p.1, p.2]

theorem g1200s_x {format : Int} (hf : ¬ 5 ≤ format) :
    |(planeXY realArith format (45.68358331 : ℝ) (16.60186543 : ℝ)).1 - (planeXY realArith format (55.86584289 : ℝ) (1.435612143 : ℝ)).1 - 1100| ≤ 1100 / 10 ^ 5 := by
  have o := abs_le.mp (pt_g1200s_0 hf).1
  have c := abs_le.mp (pt_g1200s_4 hf).1
  rw [abs_le]; constructor <;> norm_num at o c ⊢ <;> linarith [o.1, o.2, c.1, c.2]

theorem g1200s_x_0 {format : Int} (hf : ¬ 5 ≤ format) :
    |((planeXY realArith format (55.86584289 : ℝ) (1.435612143 : ℝ)).1 - (planeXY realArith format (55.86584289 : ℝ) (1.435612143 : ℝ)).1) / ((planeXY realArith format (45.68358331 : ℝ) (16.60186543 : ℝ)).1 - (planeXY realArith format (55.86584289 : ℝ) (1.435612143 : ℝ)).1) * 1100 - 0| ≤ 1 / 10 ^ 6 := by
  have o := abs_le.mp (pt_g1200s_0 hf).1
  have c := abs_le.mp (pt_g1200s_4 hf).1
  have p := abs_le.mp (pt_g1200s_0 hf).1
  norm_num at o c p
  apply ratio_near <;> norm_num <;> linarith [o.1, o.2, c.1, c.2, p.1, p.2]

theorem g1200s_x_1 {format : Int} (hf : ¬ 5 ≤ format) :
    |((planeXY realArith format (55.84848692 : ℝ) (18.76728172 : ℝ)).1 - (planeXY realArith format (55.86584289 : ℝ) (1.435612143 : ℝ)).1) / ((planeXY realArith format (45.68358331 : ℝ) (16.60186543 : ℝ)).1 - (planeXY realArith format (55.86584289 : ℝ) (1.435612143 : ℝ)).1) * 1100 - 1100| ≤ 1 / 10 ^ 6 := by
  have o := abs_le.mp (pt_g1200s_0 hf).1
  have c := abs_le.mp (pt_g1200s_4 hf).1
  have p := abs_le.mp (pt_g1200s_1 hf).1
  norm_num at o c p
  apply ratio_near <;> norm_num <;> linarith [o.1, o.2, c.1, c.2, p.1, p.2]

theorem g1200s_x_2 {format : Int} (hf : ¬ 5 ≤ format) :
    |((planeXY realArith format (51 : ℝ) (9 : ℝ)).1 - (planeXY realArith format (55.86584289 : ℝ) (1.435612143 : ℝ)).1) / ((planeXY realArith format (45.68358331 : ℝ) (16.60186543 : ℝ)).1 - (planeXY realArith format (55.86584289 : ℝ) (1.435612143 : ℝ)).1) * 1100 - 470| ≤ 1 / 10 ^ 6 := by
  have o := abs_le.mp (pt_g1200s_0 hf).1
  have c := abs_le.mp (pt_g1200s_4 hf).1
  have p := abs_le.mp (pt_g900_2 hf).1
  norm_num at o c p
  apply ratio_near <;> norm_num <;> linarith [o.1, o.2, c.1, c.2, p.1, p.2]

theorem g1200s_x_3 {format : Int} (hf : ¬ 5 ≤ format) :
    |((planeXY realArith format (45.69587048 : ℝ) (3.551921296 : ℝ)).1 - (planeXY realArith format (55.86584289 : ℝ) (1.435612143 : ℝ)).1) / ((planeXY realArith format (45.68358331 : ℝ) (16.60186543 : ℝ)).1 - (planeXY realArith format (55.86584289 : ℝ) (1.435612143 : ℝ)).1) * 1100 - 0| ≤ 1 / 10 ^ 6 := by
  have o := abs_le.mp (pt_g1200s_0 hf).1
  have c := abs_le.mp (pt_g1200s_4 hf).1
  have p := abs_le.mp (pt_g1200s_3 hf).1
  norm_num at o c p
  apply ratio_near <;> norm_num <;> linarith [o.1, o.2, c.1, c.2, p.1, p.2]

theorem g1200s_x_4 {format : Int} (hf : ¬ 5 ≤ format) :
    |((planeXY realArith format (45.68358331 : ℝ) (16.60186543 : ℝ)).1 - (planeXY realArith format (55.86584289 : ℝ) (1.435612143 : ℝ)).1) / ((planeXY realArith format (45.68358331 : ℝ) (16.60186543 : ℝ)).1 - (planeXY realArith format (55.86584289 : ℝ) (1.435612143 : ℝ)).1) * 1100 - 1100| ≤ 1 / 10 ^ 6 := by
  have o := abs_le.mp (pt_g1200s_0 hf).1
  have c := abs_le.mp (pt_g1200s_4 hf).1
  have p := abs_le.mp (pt_g1200s_4 hf).1
  norm_num at o c p
  apply ratio_near <;> norm_num <;> linarith [o.1, o.2, c.1, c.2, p.1, p.2]

theorem g1200s_y {format : Int} (hf : ¬ 5 ≤ format) :
    |(planeXY realArith format (45.68358331 : ℝ) (16.60186543 : ℝ)).2 - (planeXY realArith format (55.86584289 : ℝ) (1.435612143 : ℝ)).2 - 1200| ≤ 1200 / 10 ^ 5 := by
  have o := abs_le.mp (pt_g1200s_0 hf).2
  have c := abs_le.mp (pt_g1200s_4 hf).2
  rw [abs_le]; constructor <;> norm_num at o c ⊢ <;> linarith [o.1, o.2, c.1, c.2]

theorem g1200s_y_0 {format : Int} (hf : ¬ 5 ≤ format) :
    |((planeXY realArith format (55.86584289 : ℝ) (1.435612143 : ℝ)).2 - (planeXY realArith format (55.86584289 : ℝ) (1.435612143 : ℝ)).2) / ((planeXY realArith format (45.68358331 : ℝ) (16.60186543 : ℝ)).2 - (planeXY realArith format (55.86584289 : ℝ) (1.435612143 : ℝ)).2) * 1200 - 0| ≤ 1 / 10 ^ 6 := by
  have o := abs_le.mp (pt_g1200s_0 hf).2
  have c := abs_le.mp (pt_g1200s_4 hf).2
  have p := abs_le.mp (pt_g1200s_0 hf).2
  norm_num at o c p
  apply ratio_near <;> norm_num <;> linarith [o.1, o.2, c.1, c.2, p.1, p.2]

theorem g1200s_y_1 {format : Int} (hf : ¬ 5 ≤ format) :
    |((planeXY realArith format (55.84848692 : ℝ) (18.76728172 : ℝ)).2 - (planeXY realArith format (55.86584289 : ℝ) (1.435612143 : ℝ)).2) / ((planeXY realArith format (45.68358331 : ℝ) (16.60186543 : ℝ)).2 - (planeXY realArith format (55.86584289 : ℝ) (1.435612143 : ℝ)).2) * 1200 - 0| ≤ 1 / 10 ^ 6 := by
  have o := abs_le.mp (pt_g1200s_0 hf).2
  have c := abs_le.mp (pt_g1200s_4 hf).2
  have p := abs_le.mp (pt_g1200s_1 hf).2
  norm_num at o c p
  apply ratio_near <;> norm_num <;> linarith [o.1, o.2, c.1, c.2, p.1, p.2]

theorem g1200s_y_2 {format : Int} (hf : ¬ 5 ≤ format) :
    |((planeXY realArith format (51 : ℝ) (9 : ℝ)).2 - (planeXY realArith format (55.86584289 : ℝ) (1.435612143 : ℝ)).2) / ((planeXY realArith format (45.68358331 : ℝ) (16.60186543 : ℝ)).2 - (planeXY realArith format (55.86584289 : ℝ) (1.435612143 : ℝ)).2) * 1200 - 600| ≤ 1 / 10 ^ 6 := by
  have o := abs_le.mp (pt_g1200s_0 hf).2
  have c := abs_le.mp (pt_g1200s_4 hf).2
  have p := abs_le.mp (pt_g900_2 hf).2
  norm_num at o c p
  apply ratio_near <;> norm_num <;> linarith [o.1, o.2, c.1, c.2, p.1, p.2]

theorem g1200s_y_3 {format : Int} (hf : ¬ 5 ≤ format) :
    |((planeXY realArith format (45.69587048 : ℝ) (3.551921296 : ℝ)).2 - (planeXY realArith format (55.86584289 : ℝ) (1.435612143 : ℝ)).2) / ((planeXY realArith format (45.68358331 : ℝ) (16.60186543 : ℝ)).2 - (planeXY realArith format (55.86584289 : ℝ) (1.435612143 : ℝ)).2) * 1200 - 1200| ≤ 1 / 10 ^ 6 := by
  have o := abs_le.mp (pt_g1200s_0 hf).2
  have c := abs_le.mp (pt_g1200s_4 hf).2
  have p := abs_le.mp (pt_g1200s_3 hf).2
  norm_num at o c p
  apply ratio_near <;> norm_num <;> linarith [o.1, o.2, c.1, c.2, p.1, p.2]

theorem g1200s_y_4 {format : Int} (hf : ¬ 5 ≤ format) :
    |((planeXY realArith format (45.68358331 : ℝ) (16.60186543 : ℝ)).2 - (planeXY realArith format (55.86584289 : ℝ) (1.435612143 : ℝ)).2) / ((planeXY realArith format (45.68358331 : ℝ) (16.60186543 : ℝ)).2 - (planeXY realArith format (55.86584289 : ℝ) (1.435612143 : ℝ)).2) * 1200 - 1200| ≤ 1 / 10 ^ 6 := by
  have o := abs_le.mp (pt_g1200s_0 hf).2
  have c := abs_le.mp (pt_g1200s_4 hf).2
  have p := abs_le.mp (pt_g1200s_4 hf).2
  norm_num at o c p
  apply ratio_near <;> norm_num <;> linarith [o.1, o.2, c.1, c.2, p.1, p.2]

theorem g1500_x {format : Int} (hf : ¬ 5 ≤ format) :
    |(planeXY realArith format (43.8736 : ℝ) (18.2536 : ℝ)).1 - (planeXY realArith format (56.5423 : ℝ) (-0.8654 : ℝ)).1 - 1400| ≤ 1400 / 10 ^ 5 := by
  have o := abs_le.mp (pt_g1500_0 hf).1
  have c := abs_le.mp (pt_g1500_4 hf).1
  rw [abs_le]; constructor <;> norm_num at o c ⊢ <;> linarith [o.1, o.2, c.1, c.2]

theorem g1500_x_0 {format : Int} (hf : ¬ 5 ≤ format) :
    |((planeXY realArith format (56.5423 : ℝ) (-0.8654 : ℝ)).1 - (planeXY realArith format (56.5423 : ℝ) (-0.8654 : ℝ)).1) / ((planeXY realArith format (43.8736 : ℝ) (18.2536 : ℝ)).1 - (planeXY realArith format (56.5423 : ℝ) (-0.8654 : ℝ)).1) * 1400 - 0| ≤ 25 / 1000 := by
  have o := abs_le.mp (pt_g1500_0 hf).1
  have c := abs_le.mp (pt_g1500_4 hf).1
  have p := abs_le.mp (pt_g1500_0 hf).1
  norm_num at o c p
  apply ratio_near <;> norm_num <;> linarith [o.1, o.2, c.1, c.2, p.1, p.2]

theorem g1500_x_1 {format : Int} (hf : ¬ 5 ≤ format) :
    |((planeXY realArith format (56.4505 : ℝ) (21.6986 : ℝ)).1 - (planeXY realArith format (56.5423 : ℝ) (-0.8654 : ℝ)).1) / ((planeXY realArith format (43.8736 : ℝ) (18.2536 : ℝ)).1 - (planeXY realArith format (56.5423 : ℝ) (-0.8654 : ℝ)).1) * 1400 - 1400| ≤ 25 / 1000 := by
  have o := abs_le.mp (pt_g1500_0 hf).1
  have c := abs_le.mp (pt_g1500_4 hf).1
  have p := abs_le.mp (pt_g1500_1 hf).1
  norm_num at o c p
  apply ratio_near <;> norm_num <;> linarith [o.1, o.2, c.1, c.2, p.1, p.2]

theorem g1500_x_2 {format : Int} (hf : ¬ 5 ≤ format) :
    |((planeXY realArith format (51 : ℝ) (9 : ℝ)).1 - (planeXY realArith format (56.5423 : ℝ) (-0.8654 : ℝ)).1) / ((planeXY realArith format (43.8736 : ℝ) (18.2536 : ℝ)).1 - (planeXY realArith format (56.5423 : ℝ) (-0.8654 : ℝ)).1) * 1400 - 600| ≤ 25 / 1000 := by
  have o := abs_le.mp (pt_g1500_0 hf).1
  have c := abs_le.mp (pt_g1500_4 hf).1
  have p := abs_le.mp (pt_g900_2 hf).1
  norm_num at o c p
  apply ratio_near <;> norm_num <;> linarith [o.1, o.2, c.1, c.2, p.1, p.2]

theorem g1500_x_3 {format : Int} (hf : ¬ 5 ≤ format) :
    |((planeXY realArith format (43.9336 : ℝ) (2.3419 : ℝ)).1 - (planeXY realArith format (56.5423 : ℝ) (-0.8654 : ℝ)).1) / ((planeXY realArith format (43.8736 : ℝ) (18.2536 : ℝ)).1 - (planeXY realArith format (56.5423 : ℝ) (-0.8654 : ℝ)).1) * 1400 - 0| ≤ 25 / 1000 := by
  have o := abs_le.mp (pt_g1500_0 hf).1
  have c := abs_le.mp (pt_g1500_4 hf).1
  have p := abs_le.mp (pt_g1500_3 hf).1
  norm_num at o c p
  apply ratio_near <;> norm_num <;> linarith [o.1, o.2, c.1, c.2, p.1, p.2]

theorem g1500_x_4 {format : Int} (hf : ¬ 5 ≤ format) :
    |((planeXY realArith format (43.8736 : ℝ) (18.2536 : ℝ)).1 - (planeXY realArith format (56.5423 : ℝ) (-0.8654 : ℝ)).1) / ((planeXY realArith format (43.8736 : ℝ) (18.2536 : ℝ)).1 - (planeXY realArith format (56.5423 : ℝ) (-0.8654 : ℝ)).1) * 1400 - 1400| ≤ 25 / 1000 := by
  have o := abs_le.mp (pt_g1500_0 hf).1
  have c := abs_le.mp (pt_g1500_4 hf).1
  have p := abs_le.mp (pt_g1500_4 hf).1
  norm_num at o c p
  apply ratio_near <;> norm_num <;> linarith [o.1, o.2, c.1, c.2, p.1, p.2]

theorem g1500_y {format : Int} (hf : ¬ 5 ≤ format) :
    |(planeXY realArith format (43.8736 : ℝ) (18.2536 : ℝ)).2 - (planeXY realArith format (56.5423 : ℝ) (-0.8654 : ℝ)).2 - 1500| ≤ 1500 / 10 ^ 5 := by
  have o := abs_le.mp (pt_g1500_0 hf).2
  have c := abs_le.mp (pt_g1500_4 hf).2
  rw [abs_le]; constructor <;> norm_num at o c ⊢ <;> linarith [o.1, o.2, c.1, c.2]

theorem g1500_y_0 {format : Int} (hf : ¬ 5 ≤ format) :
    |((planeXY realArith format (56.5423 : ℝ) (-0.8654 : ℝ)).2 - (planeXY realArith format (56.5423 : ℝ) (-0.8654 : ℝ)).2) / ((planeXY realArith format (43.8736 : ℝ) (18.2536 : ℝ)).2 - (planeXY realArith format (56.5423 : ℝ) (-0.8654 : ℝ)).2) * 1500 - 0| ≤ 25 / 1000 := by
  have o := abs_le.mp (pt_g1500_0 hf).2
  have c := abs_le.mp (pt_g1500_4 hf).2
  have p := abs_le.mp (pt_g1500_0 hf).2
  norm_num at o c p
  apply ratio_near <;> norm_num <;> linarith [o.1, o.2, c.1, c.2, p.1, p.2]

theorem g1500_y_1 {format : Int} (hf : ¬ 5 ≤ format) :
    |((planeXY realArith format (56.4505 : ℝ) (21.6986 : ℝ)).2 - (planeXY realArith format (56.5423 : ℝ) (-0.8654 : ℝ)).2) / ((planeXY realArith format (43.8736 : ℝ) (18.2536 : ℝ)).2 - (planeXY realArith format (56.5423 : ℝ) (-0.8654 : ℝ)).2) * 1500 - 0| ≤ 25 / 1000 := by
  have o := abs_le.mp (pt_g1500_0 hf).2
  have c := abs_le.mp (pt_g1500_4 hf).2
  have p := abs_le.mp (pt_g1500_1 hf).2
  norm_num at o c p
  apply ratio_near <;> norm_num <;> linarith [o.1, o.2, c.1, c.2, p.1, p.2]

theorem g1500_y_2 {format : Int} (hf : ¬ 5 ≤ format) :
    |((planeXY realArith format (51 : ℝ) (9 : ℝ)).2 - (planeXY realArith format (56.5423 : ℝ) (-0.8654 : ℝ)).2) / ((planeXY realArith format (43.8736 : ℝ) (18.2536 : ℝ)).2 - (planeXY realArith format (56.5423 : ℝ) (-0.8654 : ℝ)).2) * 1500 - 700| ≤ 25 / 1000 := by
  have o := abs_le.mp (pt_g1500_0 hf).2
  have c := abs_le.mp (pt_g1500_4 hf).2
  have p := abs_le.mp (pt_g900_2 hf).2
  norm_num at o c p
  apply ratio_near <;> norm_num <;> linarith [o.1, o.2, c.1, c.2, p.1, p.2]

theorem g1500_y_3 {format : Int} (hf : ¬ 5 ≤ format) :
    |((planeXY realArith format (43.9336 : ℝ) (2.3419 : ℝ)).2 - (planeXY realArith format (56.5423 : ℝ) (-0.8654 : ℝ)).2) / ((planeXY realArith format (43.8736 : ℝ) (18.2536 : ℝ)).2 - (planeXY realArith format (56.5423 : ℝ) (-0.8654 : ℝ)).2) * 1500 - 1500| ≤ 25 / 1000 := by
  have o := abs_le.mp (pt_g1500_0 hf).2
  have c := abs_le.mp (pt_g1500_4 hf).2
  have p := abs_le.mp (pt_g1500_3 hf).2
  norm_num at o c p
  apply ratio_near <;> norm_num <;> linarith [o.1, o.2, c.1, c.2, p.1, p.2]

theorem g1500_y_4 {format : Int} (hf : ¬ 5 ≤ format) :
    |((planeXY realArith format (43.8736 : ℝ) (18.2536 : ℝ)).2 - (planeXY realArith format (56.5423 : ℝ) (-0.8654 : ℝ)).2) / ((planeXY realArith format (43.8736 : ℝ) (18.2536 : ℝ)).2 - (planeXY realArith format (56.5423 : ℝ) (-0.8654 : ℝ)).2) * 1500 - 1500| ≤ 25 / 1000 := by
  have o := abs_le.mp (pt_g1500_0 hf).2
  have c := abs_le.mp (pt_g1500_4 hf).2
  have p := abs_le.mp (pt_g1500_4 hf).2
  norm_num at o c p
  apply ratio_near <;> norm_num <;> linarith [o.1, o.2, c.1, c.2, p.1, p.2]

theorem g1200w_x {format : Int} (hf : 5 ≤ format) :
    |(planeXY realArith format (45.68460578 : ℝ) (16.58086935 : ℝ)).1 - (planeXY realArith format (55.86208711 : ℝ) (1.463301510 : ℝ)).1 - 1100| ≤ 1100 / 10 ^ 5 := by
  have o := abs_le.mp (pt_g1200w_0 hf).1
  have c := abs_le.mp (pt_g1200w_2 hf).1
  rw [abs_le]; constructor <;> norm_num at o c ⊢ <;> linarith [o.1, o.2, c.1, c.2]

theorem g1200w_x_0 {format : Int} (hf : 5 ≤ format) :
    |((planeXY realArith format (55.86208711 : ℝ) (1.463301510 : ℝ)).1 - (planeXY realArith format (55.86208711 : ℝ) (1.463301510 : ℝ)).1) / ((planeXY realArith format (45.68460578 : ℝ) (16.58086935 : ℝ)).1 - (planeXY realArith format (55.86208711 : ℝ) (1.463301510 : ℝ)).1) * 1100 - 0| ≤ 1 / 10 ^ 6 := by
  have o := abs_le.mp (pt_g1200w_0 hf).1
  have c := abs_le.mp (pt_g1200w_2 hf).1
  have p := abs_le.mp (pt_g1200w_0 hf).1
  norm_num at o c p
  apply ratio_near <;> norm_num <;> linarith [o.1, o.2, c.1, c.2, p.1, p.2]

theorem g1200w_x_1 {format : Int} (hf : 5 ≤ format) :
    |((planeXY realArith format (55.84543856 : ℝ) (18.73161645 : ℝ)).1 - (planeXY realArith format (55.86208711 : ℝ) (1.463301510 : ℝ)).1) / ((planeXY realArith format (45.68460578 : ℝ) (16.58086935 : ℝ)).1 - (planeXY realArith format (55.86208711 : ℝ) (1.463301510 : ℝ)).1) * 1100 - 1100| ≤ 1 / 10 ^ 6 := by
  have o := abs_le.mp (pt_g1200w_0 hf).1
  have c := abs_le.mp (pt_g1200w_2 hf).1
  have p := abs_le.mp (pt_g1200w_1 hf).1
  norm_num at o c p
  apply ratio_near <;> norm_num <;> linarith [o.1, o.2, c.1, c.2, p.1, p.2]

theorem g1200w_x_2 {format : Int} (hf : 5 ≤ format) :
    |((planeXY realArith format (45.68460578 : ℝ) (16.58086935 : ℝ)).1 - (planeXY realArith format (55.86208711 : ℝ) (1.463301510 : ℝ)).1) / ((planeXY realArith format (45.68460578 : ℝ) (16.58086935 : ℝ)).1 - (planeXY realArith format (55.86208711 : ℝ) (1.463301510 : ℝ)).1) * 1100 - 1100| ≤ 1 / 10 ^ 6 := by
  have o := abs_le.mp (pt_g1200w_0 hf).1
  have c := abs_le.mp (pt_g1200w_2 hf).1
  have p := abs_le.mp (pt_g1200w_2 hf).1
  norm_num at o c p
  apply ratio_near <;> norm_num <;> linarith [o.1, o.2, c.1, c.2, p.1, p.2]

theorem g1200w_x_3 {format : Int} (hf : 5 ≤ format) :
    |((planeXY realArith format (45.69642538 : ℝ) (3.566994635 : ℝ)).1 - (planeXY realArith format (55.86208711 : ℝ) (1.463301510 : ℝ)).1) / ((planeXY realArith format (45.68460578 : ℝ) (16.58086935 : ℝ)).1 - (planeXY realArith format (55.86208711 : ℝ) (1.463301510 : ℝ)).1) * 1100 - 0| ≤ 1 / 10 ^ 6 := by
  have o := abs_le.mp (pt_g1200w_0 hf).1
  have c := abs_le.mp (pt_g1200w_2 hf).1
  have p := abs_le.mp (pt_g1200w_3 hf).1
  norm_num at o c p
  apply ratio_near <;> norm_num <;> linarith [o.1, o.2, c.1, c.2, p.1, p.2]

theorem g1200w_y {format : Int} (hf : 5 ≤ format) :
    |(planeXY realArith format (45.68460578 : ℝ) (16.58086935 : ℝ)).2 - (planeXY realArith format (55.86208711 : ℝ) (1.463301510 : ℝ)).2 - 1200| ≤ 1200 / 10 ^ 5 := by
  have o := abs_le.mp (pt_g1200w_0 hf).2
  have c := abs_le.mp (pt_g1200w_2 hf).2
  rw [abs_le]; constructor <;> norm_num at o c ⊢ <;> linarith [o.1, o.2, c.1, c.2]

theorem g1200w_y_0 {format : Int} (hf : 5 ≤ format) :
    |((planeXY realArith format (55.86208711 : ℝ) (1.463301510 : ℝ)).2 - (planeXY realArith format (55.86208711 : ℝ) (1.463301510 : ℝ)).2) / ((planeXY realArith format (45.68460578 : ℝ) (16.58086935 : ℝ)).2 - (planeXY realArith format (55.86208711 : ℝ) (1.463301510 : ℝ)).2) * 1200 - 0| ≤ 1 / 10 ^ 6 := by
  have o := abs_le.mp (pt_g1200w_0 hf).2
  have c := abs_le.mp (pt_g1200w_2 hf).2
  have p := abs_le.mp (pt_g1200w_0 hf).2
  norm_num at o c p
  apply ratio_near <;> norm_num <;> linarith [o.1, o.2, c.1, c.2, p.1, p.2]

theorem g1200w_y_1 {format : Int} (hf : 5 ≤ format) :
    |((planeXY realArith format (55.84543856 : ℝ) (18.73161645 : ℝ)).2 - (planeXY realArith format (55.86208711 : ℝ) (1.463301510 : ℝ)).2) / ((planeXY realArith format (45.68460578 : ℝ) (16.58086935 : ℝ)).2 - (planeXY realArith format (55.86208711 : ℝ) (1.463301510 : ℝ)).2) * 1200 - 0| ≤ 1 / 10 ^ 6 := by
  have o := abs_le.mp (pt_g1200w_0 hf).2
  have c := abs_le.mp (pt_g1200w_2 hf).2
  have p := abs_le.mp (pt_g1200w_1 hf).2
  norm_num at o c p
  apply ratio_near <;> norm_num <;> linarith [o.1, o.2, c.1, c.2, p.1, p.2]

theorem g1200w_y_2 {format : Int} (hf : 5 ≤ format) :
    |((planeXY realArith format (45.68460578 : ℝ) (16.58086935 : ℝ)).2 - (planeXY realArith format (55.86208711 : ℝ) (1.463301510 : ℝ)).2) / ((planeXY realArith format (45.68460578 : ℝ) (16.58086935 : ℝ)).2 - (planeXY realArith format (55.86208711 : ℝ) (1.463301510 : ℝ)).2) * 1200 - 1200| ≤ 1 / 10 ^ 6 := by
  have o := abs_le.mp (pt_g1200w_0 hf).2
  have c := abs_le.mp (pt_g1200w_2 hf).2
  have p := abs_le.mp (pt_g1200w_2 hf).2
  norm_num at o c p
  apply ratio_near <;> norm_num <;> linarith [o.1, o.2, c.1, c.2, p.1, p.2]

theorem g1200w_y_3 {format : Int} (hf : 5 ≤ format) :
    |((planeXY realArith format (45.69642538 : ℝ) (3.566994635 : ℝ)).2 - (planeXY realArith format (55.86208711 : ℝ) (1.463301510 : ℝ)).2) / ((planeXY realArith format (45.68460578 : ℝ) (16.58086935 : ℝ)).2 - (planeXY realArith format (55.86208711 : ℝ) (1.463301510 : ℝ)).2) * 1200 - 1200| ≤ 1 / 10 ^ 6 := by
  have o := abs_le.mp (pt_g1200w_0 hf).2
  have c := abs_le.mp (pt_g1200w_2 hf).2
  have p := abs_le.mp (pt_g1200w_3 hf).2
  norm_num at o c p
  apply ratio_near <;> norm_num <;> linarith [o.1, o.2, c.1, c.2, p.1, p.2]

end Radolan.Num
