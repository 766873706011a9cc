import Verif.ConstexprMath
import Mathlib.Analysis.SpecialFunctions.Log.Deriv

/-!
# The table of logarithms is correct

The table of `constexpr_log` is compared with the real logarithm.  A finer table (`10^30 log i`, rounded) is
proved correct step by step with the series of `log ((1 + y) / (1 - y))` at `y = 1 / (2 i - 1)`; the comparison of the
rational numbers is done by the kernel.
-/

namespace Verif

/-- `10^30 log i`, rounded, for `i = 1, 2, ...` (a certificate; nothing is assumed about it). -/
def fineDigits : List Nat :=
  [0, 693147180559945309417232121458, 1098612288668109691395245236923,
   1386294361119890618834464242916, 1609437912434100374600759333226, 1791759469228055000812477358381,
   1945910149055313305105352743443, 2079441541679835928251696364375, 2197224577336219382790490473845,
   2302585092994045684017991454684, 2397895272798370544061943577965, 2484906649788000310229709479839,
   2564949357461536736053487441565, 2639057329615258614522584864901, 2708050201102210065996004570149,
   2772588722239781237668928485833, 2833213344056216080249534617873, 2890371757896164692207722595303,
   2944438979166440460009027431888, 2995732273553990993435223576143, 3044522437723422996500597980366,
   3091042453358315853479175699423, 3135494215929149690806752831810, 3178053830347945619646941601297,
   3218875824868200749201518666452, 3258096538021482045470719563023, 3295836866004329074185735710768,
   3332204510175203923939816986360, 3367295829986474027183272032362, 3401197381662155375413236691607,
   3433987204485146245929164324542, 3465735902799726547086160607291, 3496507561466480235457188814888,
   3526360524616161389666766739331, 3555348061489413679706112076669, 3583518938456110001624954716761,
   3610917912644224444368095671031, 3637586159726385769426259553346, 3663561646129646427448732678488,
   3688879454113936302852455697601, 3713572066704307803866763373037, 3737669618283368305917830101824,
   3761200115693562423472842513346, 3784189633918261162896407820881, 3806662489770319757391249807071,
   3828641396489095000223984953268, 3850147601710058586820950669772, 3871201010907890929064173722755,
   3891820298110626610210705486886, 3912023005428146058618750787911, 3931825632724325771644779854796,
   3951243718581427354887951684482, 3970291913552121834144469139029, 3988984046564274383602967832226,
   4007333185232470918662702911191, 4025351690735149233357049107818, 4043051267834550151404272668810,
   4060443010546419336600504153820, 4077537443905719450616050373720, 4094344562222100684830468813065,
   4110873864173311248751389103426, 4127134385045091555346396446001, 4143134726391532687895843217288,
   4158883083359671856503392728749, 4174387269895637110654246774792, 4189654742026425544874420936346,
   4204692619390966059670071996364, 4219507705176106699083998860789, 4234106504597259382201998068733,
   4248495242049358989123344198128, 4262679877041315421329454532513, 4276666119016055311042186838220,
   4290459441148391129092108857439, 4304065093204169753785327792490, 4317488113536310440596763903375,
   4330733340286331078843491674804, 4343805421853683849167296321408, 4356708826689591736865964799946,
   4369447852467021494172945541481, 4382026634673881612269687819059, 4394449154672438765580980947690,
   4406719247264253113283995494496, 4418840607796597923475472223291, 4430816798843313615335062223282,
   4442651256490316454850293951099, 4454347296253507732890074634804, 4465908118654583718578517269284,
   4477336814478206472313639942340, 4488636369732139838317815540670, 4499809670330265066808481928529,
   4510859506516850041158840185008, 4521788577049040309641217074727, 4532599493153255937324409561465,
   4543294782270003896238182791230, 4553876891600540834609786765114, 4564348191467836238481405844213,
   4574710978503382822116721621704, 4584967478670571919627937608345, 4595119850134589926852434051810]

/-- The finer table. -/
def fine (i : Nat) : ℚ := (fineDigits.getD (i - 1) 0 : ℚ) / 10 ^ 30

/-- Partial sums of the series `y + y³/3 + y⁵/5 + ...`; `k` terms beginning with the one of index `n`. -/
def artanhSum (y : ℚ) : Nat → ℚ
  | 0 => 0
  | k + 1 => artanhSum y k + y ^ (2 * k + 1) / (2 * k + 1)

theorem artanhSum_cast (y : ℚ) (n : Nat) :
    ((artanhSum y n : ℚ) : ℝ) = ∑ i ∈ Finset.range n, (y : ℝ) ^ (2 * i + 1) / (2 * i + 1) := by
  induction n with
  | zero => simp [artanhSum]
  | succ n ih => rw [Finset.sum_range_succ, ← ih]; simp [artanhSum]

/-- One step of the finer table, checked by the kernel. -/
theorem fine_step : ∀ i ∈ List.range' 2 98, |fine i - fine (i - 1) - 2 * artanhSum (1 / (2 * i - 1)) 30| +
    2 * ((1 / (2 * i - 1)) ^ 61 / (1 - (1 / (2 * i - 1)) ^ 2)) ≤ 1 / 10 ^ 20 := by decide +kernel

theorem fine_one : fine 1 = 0 := by decide +kernel

theorem log_step {i : Nat} (hi : 2 ≤ i) (hi' : i ≤ 99) :
    |((fine i : ℚ) : ℝ) - (fine (i - 1) : ℚ) - (Real.log i - Real.log (i - 1 : ℕ))| ≤ 1 / 10 ^ 20 := by
  have h := fine_step i (by simp; omega)
  have h1 : (2 : ℝ) ≤ i := by exact_mod_cast hi
  have hy0 : (0 : ℝ) ≤ 1 / (2 * i - 1) := by apply div_nonneg <;> linarith
  have hy1 : (1 : ℝ) / (2 * i - 1) < 1 := by rw [div_lt_one (by linarith)]; linarith
  have e := Real.sum_range_sub_log_div_le (x := 1 / (2 * (i : ℝ) - 1)) (by rwa [abs_of_nonneg hy0]) 30
  have hlog : Real.log ((1 + 1 / (2 * (i : ℝ) - 1)) / (1 - 1 / (2 * (i : ℝ) - 1))) = Real.log i - Real.log (i - 1 : ℕ) := by
    have hc : ((i - 1 : ℕ) : ℝ) = (i : ℝ) - 1 := by push_cast [Nat.cast_sub (by omega : 1 ≤ i)]; ring
    rw [hc, ← Real.log_div (by linarith) (by linarith)]
    congr 1
    have : (2 * (i : ℝ) - 1) ≠ 0 := by linarith
    have : (i : ℝ) - 1 ≠ 0 := by linarith
    have : 2 * (i : ℝ) - 1 - 1 ≠ 0 := by
      intro hz
      apply this
      linarith
    field_simp
    ring
  rw [hlog, abs_of_nonneg hy0] at e
  have hr : ((|fine i - fine (i - 1) - 2 * artanhSum (1 / (2 * i - 1)) 30| +
      2 * ((1 / (2 * i - 1)) ^ 61 / (1 - (1 / (2 * i - 1)) ^ 2)) : ℚ) : ℝ) ≤ ((1 / 10 ^ 20 : ℚ) : ℝ) := by exact_mod_cast h
  push_cast at hr
  rw [artanhSum_cast] at hr
  push_cast at hr
  have e1 := abs_le.mp e
  have e2 := (abs_le.mp (le_refl |((fine i : ℚ) : ℝ) - (fine (i - 1) : ℚ) -
    2 * ∑ x ∈ Finset.range 30, (1 / (2 * (i : ℝ) - 1)) ^ (2 * x + 1) / (2 * x + 1)|))
  generalize |((fine i : ℚ) : ℝ) - (fine (i - 1) : ℚ) -
    2 * ∑ x ∈ Finset.range 30, (1 / (2 * (i : ℝ) - 1)) ^ (2 * x + 1) / (2 * x + 1)| = a at *
  generalize ∑ x ∈ Finset.range 30, (1 / (2 * (i : ℝ) - 1)) ^ (2 * x + 1) / (2 * x + 1) = b at *
  norm_num only at e1 hr e2 ⊢
  rw [abs_le]
  constructor <;> linarith [e1.1, e1.2, e2.1, e2.2]

theorem fine_log : ∀ {i : Nat}, 1 ≤ i → i ≤ 99 → |((fine i : ℚ) : ℝ) - Real.log i| ≤ (i - 1) / 10 ^ 20
  | 0, h, _ => by omega
  | 1, _, _ => by rw [fine_one]; simp
  | i + 2, _, h => by
    have h1 := fine_log (i := i + 1) (by omega) (by omega)
    have h2 := log_step (i := i + 2) (by omega) h
    simp only [show i + 2 - 1 = i + 1 by omega] at h2
    rw [abs_le] at *
    push_cast at *
    constructor <;> linarith [h1.1, h1.2, h2.1, h2.2]

/-- The difference of the two tables, checked by the kernel. -/
theorem table_fine : ∀ i ∈ List.range' 1 99, |logTable id i - fine i| ≤ 45 / 10 ^ 17 := by decide +kernel

/-- Every element of `log_table` is correct to 15 decimals (they are doubles printed with 16 decimals). -/
theorem table_log {i : Nat} (h1 : 1 ≤ i) (h2 : i ≤ 99) : |((logTable id i : ℚ) : ℝ) - Real.log i| ≤ 46 / 10 ^ 17 := by
  have h := table_fine i (by simp; omega)
  have hr : ((|logTable id i - fine i| : ℚ) : ℝ) ≤ ((45 / 10 ^ 17 : ℚ) : ℝ) := by exact_mod_cast h
  push_cast at hr
  have hf := fine_log h1 h2
  have hi : (i : ℝ) ≤ 99 := by exact_mod_cast h2
  rw [abs_le] at *
  constructor <;> linarith [hr.1, hr.2, hf.1, hf.2]

end Verif
