/-
GENERATED by tools/mkborders.py. Enclosures of the plane coordinates (km) of points enclosing the border of Germany.
-/
import Verif.Lemmas.TrigNum

namespace Radolan.Num
open Real

theorem bs_e {format : Int} (hf : ¬ 5 ≤ format) :
    |(planeXY realArith format (47.27 : ℝ) (15.04 : ℝ)).1 - (408504146228 / 10 ^ 9)| ≤ 3 / 10 ^ 8 ∧
    |(planeXY realArith format (47.27 : ℝ) (15.04 : ℝ)).2 - (4631976859838 / 10 ^ 9)| ≤ 3 / 10 ^ 8 := by
  have h : Enc (47.27 : ℝ) (15.04 : ℝ) (734559410852880 / 10 ^ 15) (678544377272016 / 10 ^ 15) (87851196550743 / 10 ^ 15) (996133609143172 / 10 ^ 15) := by
    apply enc (xn := (825017137417720 / 10 ^ 15)) (xe := (87964594300514 / 10 ^ 15)) <;>
      first | (constructor <;> norm_num) | (simp only [sinP, cosP, abs_le]; constructor <;> norm_num)
  exact sphere_point hf h (by rw [abs_le]; constructor <;> norm_num) (by rw [abs_le]; constructor <;> norm_num)

theorem bs_w {format : Int} (hf : ¬ 5 ≤ format) :
    |(planeXY realArith format (47.27 : ℝ) (4.96 : ℝ)).1 - (-408504146228 / 10 ^ 9)| ≤ 3 / 10 ^ 8 ∧
    |(planeXY realArith format (47.27 : ℝ) (4.96 : ℝ)).2 - (4631976859838 / 10 ^ 9)| ≤ 3 / 10 ^ 8 := by
  have h : Enc (47.27 : ℝ) (4.96 : ℝ) (734559410852880 / 10 ^ 15) (678544377272016 / 10 ^ 15) (-87851196550743 / 10 ^ 15) (996133609143172 / 10 ^ 15) := by
    apply enc (xn := (825017137417720 / 10 ^ 15)) (xe := (-87964594300514 / 10 ^ 15)) <;>
      first | (constructor <;> norm_num) | (simp only [sinP, cosP, abs_le]; constructor <;> norm_num)
  exact sphere_point hf h (by rw [abs_le]; constructor <;> norm_num) (by rw [abs_le]; constructor <;> norm_num)

theorem bs_s {format : Int} (hf : ¬ 5 ≤ format) :
    |(planeXY realArith format (47.27 : ℝ) (10 : ℝ)).1 - (0 / 10 ^ 9)| ≤ 3 / 10 ^ 8 ∧
    |(planeXY realArith format (47.27 : ℝ) (10 : ℝ)).2 - (4649955404900 / 10 ^ 9)| ≤ 3 / 10 ^ 8 := by
  have h : Enc (47.27 : ℝ) (10 : ℝ) (734559410852880 / 10 ^ 15) (678544377272016 / 10 ^ 15) (0 / 10 ^ 15) (1000000000000000 / 10 ^ 15) := by
    apply enc (xn := (825017137417720 / 10 ^ 15)) (xe := (0 / 10 ^ 15)) <;>
      first | (constructor <;> norm_num) | (simp only [sinP, cosP, abs_le]; constructor <;> norm_num)
  exact sphere_point hf h (by rw [abs_le]; constructor <;> norm_num) (by rw [abs_le]; constructor <;> norm_num)

theorem bs_n {format : Int} (hf : ¬ 5 ≤ format) :
    |(planeXY realArith format (54.97 : ℝ) (15.04 : ℝ)).1 - (329553554114 / 10 ^ 9)| ≤ 3 / 10 ^ 8 ∧
    |(planeXY realArith format (54.97 : ℝ) (15.04 : ℝ)).2 - (3736766078942 / 10 ^ 9)| ≤ 3 / 10 ^ 8 := by
  have h : Enc (54.97 : ℝ) (15.04 : ℝ) (818851608095338 / 10 ^ 15) (574005264714226 / 10 ^ 15) (87851196550743 / 10 ^ 15) (996133609143172 / 10 ^ 15) := by
    apply enc (xn := (959407489821283 / 10 ^ 15)) (xe := (87964594300514 / 10 ^ 15)) <;>
      first | (constructor <;> norm_num) | (simp only [sinP, cosP, abs_le]; constructor <;> norm_num)
  exact sphere_point hf h (by rw [abs_le]; constructor <;> norm_num) (by rw [abs_le]; constructor <;> norm_num)

theorem bs_e1 {format : Int} (hf : ¬ 5 ≤ format) :
    |(planeXY realArith format (50.6 : ℝ) (15.04 : ℝ)).1 - (373898135154 / 10 ^ 9)| ≤ 3 / 10 ^ 8 ∧
    |(planeXY realArith format (50.6 : ℝ) (15.04 : ℝ)).2 - (4239583676103 / 10 ^ 9)| ≤ 3 / 10 ^ 8 := by
  have h : Enc (50.6 : ℝ) (15.04 : ℝ) (772733573497351 / 10 ^ 15) (634730513202261 / 10 ^ 15) (87851196550743 / 10 ^ 15) (996133609143172 / 10 ^ 15) := by
    apply enc (xn := (883136601509131 / 10 ^ 15)) (xe := (87964594300514 / 10 ^ 15)) <;>
      first | (constructor <;> norm_num) | (simp only [sinP, cosP, abs_le]; constructor <;> norm_num)
  exact sphere_point hf h (by rw [abs_le]; constructor <;> norm_num) (by rw [abs_le]; constructor <;> norm_num)

theorem bs_e2 {format : Int} (hf : ¬ 5 ≤ format) :
    |(planeXY realArith format (47.27 : ℝ) (14 : ℝ)).1 - (324364492113 / 10 ^ 9)| ≤ 3 / 10 ^ 8 ∧
    |(planeXY realArith format (47.27 : ℝ) (14 : ℝ)).2 - (4638628347240 / 10 ^ 9)| ≤ 3 / 10 ^ 8 := by
  have h : Enc (47.27 : ℝ) (14 : ℝ) (734559410852880 / 10 ^ 15) (678544377272016 / 10 ^ 15) (69756473744125 / 10 ^ 15) (997564050259824 / 10 ^ 15) := by
    apply enc (xn := (825017137417720 / 10 ^ 15)) (xe := (69813170079773 / 10 ^ 15)) <;>
      first | (constructor <;> norm_num) | (simp only [sinP, cosP, abs_le]; constructor <;> norm_num)
  exact sphere_point hf h (by rw [abs_le]; constructor <;> norm_num) (by rw [abs_le]; constructor <;> norm_num)

theorem bs_n1 {format : Int} (hf : ¬ 5 ≤ format) :
    |(planeXY realArith format (54.97 : ℝ) (12.1 : ℝ)).1 - (137460443503 / 10 ^ 9)| ≤ 3 / 10 ^ 8 ∧
    |(planeXY realArith format (54.97 : ℝ) (12.1 : ℝ)).2 - (3748750578557 / 10 ^ 9)| ≤ 3 / 10 ^ 8 := by
  have h : Enc (54.97 : ℝ) (12.1 : ℝ) (818851608095338 / 10 ^ 15) (574005264714226 / 10 ^ 15) (36643708706556 / 10 ^ 15) (999328393778656 / 10 ^ 15) := by
    apply enc (xn := (959407489821283 / 10 ^ 15)) (xe := (36651914291881 / 10 ^ 15)) <;>
      first | (constructor <;> norm_num) | (simp only [sinP, cosP, abs_le]; constructor <;> norm_num)
  exact sphere_point hf h (by rw [abs_le]; constructor <;> norm_num) (by rw [abs_le]; constructor <;> norm_num)

theorem bs_n2 {format : Int} (hf : ¬ 5 ≤ format) :
    |(planeXY realArith format (54.85 : ℝ) (15.04 : ℝ)).1 - (330756406811 / 10 ^ 9)| ≤ 3 / 10 ^ 8 ∧
    |(planeXY realArith format (54.85 : ℝ) (15.04 : ℝ)).2 - (3750405073581 / 10 ^ 9)| ≤ 3 / 10 ^ 8 := by
  have h : Enc (54.85 : ℝ) (15.04 : ℝ) (817647619217190 / 10 ^ 15) (575719003324045 / 10 ^ 15) (87851196550743 / 10 ^ 15) (996133609143172 / 10 ^ 15) := by
    apply enc (xn := (957313094718890 / 10 ^ 15)) (xe := (87964594300514 / 10 ^ 15)) <;>
      first | (constructor <;> norm_num) | (simp only [sinP, cosP, abs_le]; constructor <;> norm_num)
  exact sphere_point hf h (by rw [abs_le]; constructor <;> norm_num) (by rw [abs_le]; constructor <;> norm_num)

theorem bs_n3 {format : Int} (hf : ¬ 5 ≤ format) :
    |(planeXY realArith format (54.89 : ℝ) (11.74 : ℝ)).1 - (114180921775 / 10 ^ 9)| ≤ 3 / 10 ^ 8 ∧
    |(planeXY realArith format (54.89 : ℝ) (11.74 : ℝ)).2 - (3758663004522 / 10 ^ 9)| ≤ 3 / 10 ^ 8 := by
  have h : Enc (54.89 : ℝ) (11.74 : ℝ) (818049347615755 / 10 ^ 15) (575148037348132 / 10 ^ 15) (30364061224136 / 10 ^ 15) (999538905588961 / 10 ^ 15) := by
    apply enc (xn := (958011226419688 / 10 ^ 15)) (xe := (30368728984701 / 10 ^ 15)) <;>
      first | (constructor <;> norm_num) | (simp only [sinP, cosP, abs_le]; constructor <;> norm_num)
  exact sphere_point hf h (by rw [abs_le]; constructor <;> norm_num) (by rw [abs_le]; constructor <;> norm_num)

theorem bs_n4 {format : Int} (hf : ¬ 5 ≤ format) :
    |(planeXY realArith format (54.77 : ℝ) (15.04 : ℝ)).1 - (331558751847 / 10 ^ 9)| ≤ 3 / 10 ^ 8 ∧
    |(planeXY realArith format (54.77 : ℝ) (15.04 : ℝ)).2 - (3759502762482 / 10 ^ 9)| ≤ 3 / 10 ^ 8 := by
  have h : Enc (54.77 : ℝ) (15.04 : ℝ) (816842967081502 / 10 ^ 15) (576860093202381 / 10 ^ 15) (87851196550743 / 10 ^ 15) (996133609143172 / 10 ^ 15) := by
    apply enc (xn := (955916831317294 / 10 ^ 15)) (xe := (87964594300514 / 10 ^ 15)) <;>
      first | (constructor <;> norm_num) | (simp only [sinP, cosP, abs_le]; constructor <;> norm_num)
  exact sphere_point hf h (by rw [abs_le]; constructor <;> norm_num) (by rw [abs_le]; constructor <;> norm_num)

theorem bs_out {format : Int} (hf : ¬ 5 ≤ format) :
    |(planeXY realArith format (54.91 : ℝ) (10 : ℝ)).1 - (0 / 10 ^ 9)| ≤ 3 / 10 ^ 8 ∧
    |(planeXY realArith format (54.91 : ℝ) (10 : ℝ)).2 - (3758114788002 / 10 ^ 9)| ≤ 3 / 10 ^ 8 := by
  have h : Enc (54.91 : ℝ) (10 : ℝ) (818250062312024 / 10 ^ 15) (574862449222716 / 10 ^ 15) (0 / 10 ^ 15) (1000000000000000 / 10 ^ 15) := by
    apply enc (xn := (958360292270086 / 10 ^ 15)) (xe := (0 / 10 ^ 15)) <;>
      first | (constructor <;> norm_num) | (simp only [sinP, cosP, abs_le]; constructor <;> norm_num)
  exact sphere_point hf h (by rw [abs_le]; constructor <;> norm_num) (by rw [abs_le]; constructor <;> norm_num)

theorem bs_edge {format : Int} (hf : ¬ 5 ≤ format) :
    |(planeXY realArith format (54.900917 : ℝ) (8.707681 : ℝ)).1 - (-84781298627 / 10 ^ 9)| ≤ 3 / 10 ^ 8 ∧
    |(planeXY realArith format (54.900917 : ℝ) (8.707681 : ℝ)).2 - (3758195008059 / 10 ^ 9)| ≤ 3 / 10 ^ 8 := by
  have h : Enc (54.900917 : ℝ) (8.707681 : ℝ) (818158920089108 / 10 ^ 15) (574992157753994 / 10 ^ 15) (-22553309134942 / 10 ^ 15) (999745641774478 / 10 ^ 15) := by
    apply enc (xn := (958201764014128 / 10 ^ 15)) (xe := (-22555221536081 / 10 ^ 15)) <;>
      first | (constructor <;> norm_num) | (simp only [sinP, cosP, abs_le]; constructor <;> norm_num)
  exact sphere_point hf h (by rw [abs_le]; constructor <;> norm_num) (by rw [abs_le]; constructor <;> norm_num)

theorem bw_e {format : Int} (hf : 5 ≤ format) :
    |(planeXY realArith format (47.27 : ℝ) (15.04 : ℝ)).1 - (952888646671 / 10 ^ 9)| ≤ 3 / 10 ^ 8 ∧
    |(planeXY realArith format (47.27 : ℝ) (15.04 : ℝ)).2 - (1022854783724 / 10 ^ 9)| ≤ 3 / 10 ^ 8 := by
  have h : Enc (47.27 : ℝ) (15.04 : ℝ) (734559410852880 / 10 ^ 15) (678544377272016 / 10 ^ 15) (87851196550743 / 10 ^ 15) (996133609143172 / 10 ^ 15) := by
    apply enc (xn := (825017137417720 / 10 ^ 15)) (xe := (87964594300514 / 10 ^ 15)) <;>
      first | (constructor <;> norm_num) | (simp only [sinP, cosP, abs_le]; constructor <;> norm_num)
  apply wgs_point hf h (y0 := (60101056621815 / 10 ^ 15)) (v0 := (4923353484864 / 10 ^ 15)) (g0 := (1004935493104001 / 10 ^ 15)) <;>
    first | (constructor <;> norm_num) | (simp only [ecc84, logP, expP, abs_le]; constructor <;> norm_num)

theorem bw_w {format : Int} (hf : 5 ≤ format) :
    |(planeXY realArith format (47.27 : ℝ) (4.96 : ℝ)).1 - (133505023764 / 10 ^ 9)| ≤ 3 / 10 ^ 8 ∧
    |(planeXY realArith format (47.27 : ℝ) (4.96 : ℝ)).2 - (1022854783724 / 10 ^ 9)| ≤ 3 / 10 ^ 8 := by
  have h : Enc (47.27 : ℝ) (4.96 : ℝ) (734559410852880 / 10 ^ 15) (678544377272016 / 10 ^ 15) (-87851196550743 / 10 ^ 15) (996133609143172 / 10 ^ 15) := by
    apply enc (xn := (825017137417720 / 10 ^ 15)) (xe := (-87964594300514 / 10 ^ 15)) <;>
      first | (constructor <;> norm_num) | (simp only [sinP, cosP, abs_le]; constructor <;> norm_num)
  apply wgs_point hf h (y0 := (60101056621815 / 10 ^ 15)) (v0 := (4923353484864 / 10 ^ 15)) (g0 := (1004935493104001 / 10 ^ 15)) <;>
    first | (constructor <;> norm_num) | (simp only [ecc84, logP, expP, abs_le]; constructor <;> norm_num)

theorem bw_s {format : Int} (hf : 5 ≤ format) :
    |(planeXY realArith format (47.27 : ℝ) (10 : ℝ)).1 - (543196835218 / 10 ^ 9)| ≤ 3 / 10 ^ 8 ∧
    |(planeXY realArith format (47.27 : ℝ) (10 : ℝ)).2 - (1040885598739 / 10 ^ 9)| ≤ 3 / 10 ^ 8 := by
  have h : Enc (47.27 : ℝ) (10 : ℝ) (734559410852880 / 10 ^ 15) (678544377272016 / 10 ^ 15) (0 / 10 ^ 15) (1000000000000000 / 10 ^ 15) := by
    apply enc (xn := (825017137417720 / 10 ^ 15)) (xe := (0 / 10 ^ 15)) <;>
      first | (constructor <;> norm_num) | (simp only [sinP, cosP, abs_le]; constructor <;> norm_num)
  apply wgs_point hf h (y0 := (60101056621815 / 10 ^ 15)) (v0 := (4923353484864 / 10 ^ 15)) (g0 := (1004935493104001 / 10 ^ 15)) <;>
    first | (constructor <;> norm_num) | (simp only [ecc84, logP, expP, abs_le]; constructor <;> norm_num)

theorem bw_n {format : Int} (hf : 5 ≤ format) :
    |(planeXY realArith format (54.97 : ℝ) (15.04 : ℝ)).1 - (873895829937 / 10 ^ 9)| ≤ 3 / 10 ^ 8 ∧
    |(planeXY realArith format (54.97 : ℝ) (15.04 : ℝ)).2 - (127165223203 / 10 ^ 9)| ≤ 3 / 10 ^ 8 := by
  have h : Enc (54.97 : ℝ) (15.04 : ℝ) (818851608095338 / 10 ^ 15) (574005264714226 / 10 ^ 15) (87851196550743 / 10 ^ 15) (996133609143172 / 10 ^ 15) := by
    apply enc (xn := (959407489821283 / 10 ^ 15)) (xe := (87964594300514 / 10 ^ 15)) <;>
      first | (constructor <;> norm_num) | (simp only [sinP, cosP, abs_le]; constructor <;> norm_num)
  apply wgs_point hf h (y0 := (66997775994539 / 10 ^ 15)) (v0 := (5489927892375 / 10 ^ 15)) (g0 := (1005505025161502 / 10 ^ 15)) <;>
    first | (constructor <;> norm_num) | (simp only [ecc84, logP, expP, abs_le]; constructor <;> norm_num)

end Radolan.Num
