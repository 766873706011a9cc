import Verif.IeeeKalman
import Verif.Props.IeeePointProps
import Verif.Props.KalmanProps

/-!
# The Kalman filters of the examples with IEEE numbers (C90)

The specification is arithmetic on rational numbers: the exact gain p / (p + r), the exact variance p r / (p + r), weighted means.
-/

namespace Verif

open FltTy

/-! ### Floating point operations -/

section
variable {f : FltTy}

theorem roundKey_in {y : FVal} (hf : y.Finite) (hy : y.In f) : roundKey f y.q = y.q := by
  rw [← roundKey_self hf hy, FVal.key_fin hf]

/-- A value whose position is among the finite values. -/
theorem finite_of_key {y : FVal} (hn : y ≠ .nan) (h : |y.key f| < 2 ^ (f.emax + 1)) : y.Finite ∧ y.q = y.key f := by
  cases y with
  | fin s m => exact ⟨trivial, rfl⟩
  | nan => exact absurd rfl hn
  | inf s =>
    exfalso
    have := two_zpow_pos (f.emax + 1)
    cases s
    · simp only [FVal.key] at h; rw [abs_of_pos this] at h; exact lt_irrefl _ h
    · simp only [FVal.key] at h; rw [abs_neg, abs_of_pos this] at h; exact lt_irrefl _ h

theorem FVal.In.q_lt {y : FVal} (hf : y.Finite) (hy : y.In f) : |y.q| < 2 ^ f.emax := by
  obtain ⟨s, m, rfl, -, e⟩ := hf.abs_eq hy
  rw [e]; exact hy.lt.2

theorem sign_mul (s t : Bool) (a b : ℚ) : (if s != t then -(a * b) else a * b) = (FVal.fin s a).q * (FVal.fin t b).q := by
  cases s <;> cases t <;> simp [FVal.q]

theorem sign_div (s t : Bool) (a b : ℚ) : (if s != t then -(a / b) else a / b) = (FVal.fin s a).q / (FVal.fin t b).q := by
  cases s <;> cases t <;> simp [FVal.q, neg_div, div_neg]

/-- The position of a product of finite values. -/
theorem key_mul {x y : FVal} (ix : x.In f) (iy : y.In f) (hx : x.Finite) (hy : y.Finite) :
    (x.mul f y).key f = roundKey f (x.q * y.q) ∧ (x.mul f y).In f ∧ x.mul f y ≠ .nan := by
  obtain ⟨s, a, rfl, ha, -⟩ := hx.abs_eq ix
  obtain ⟨t, b, rfl, hb, -⟩ := hy.abs_eq iy
  have h0 : 0 ≤ a * b := mul_nonneg ha hb
  refine ⟨?_, round_in h0, round_ne_nan⟩
  show (FVal.round f (s != t) (a * b)).key f = _
  rw [key_round h0, sign_mul]

/-- The position of a quotient of finite values. -/
theorem key_div {x y : FVal} (ix : x.In f) (iy : y.In f) (hx : x.Finite) (hy : y.Finite) (h : y.q ≠ 0) :
    (x.div f y).key f = roundKey f (x.q / y.q) ∧ (x.div f y).In f ∧ x.div f y ≠ .nan := by
  obtain ⟨s, a, rfl, ha, -⟩ := hx.abs_eq ix
  obtain ⟨t, b, rfl, hb, -⟩ := hy.abs_eq iy
  have b0 : b ≠ 0 := by rintro rfl; apply h; cases t <;> simp [FVal.q]
  have h0 : 0 ≤ a / b := div_nonneg ha hb
  have e : FVal.div f (.fin s a) (.fin t b) = FVal.round f (s != t) (a / b) := by simp [FVal.div, b0]
  rw [e]
  exact ⟨by rw [key_round h0, sign_div], round_in h0, round_ne_nan⟩

theorem roundKey_err {w : ℚ} (h : |w| ≤ 2 ^ (f.emax - 1)) : |roundKey f w - w| ≤ f.u * |w| + f.tiny / 2 ∧ |roundKey f w| ≤ 2 ^ (f.emax - 1) := by
  have pos : ∀ x : ℚ, 0 ≤ x → x ≤ 2 ^ (f.emax - 1) → |posKey f x - x| ≤ f.u * x + f.tiny / 2 ∧ |posKey f x| ≤ 2 ^ (f.emax - 1) := by
    intro x hx hb
    have hle : f.rndU x ≤ 2 ^ (f.emax - 1) := rndU_le_pow (by unfold FltTy.emin; have := f.emax_ge; omega) hx hb
    unfold posKey
    rw [if_pos (hle.trans_lt (two_zpow_lt (by omega)))]
    exact ⟨rndU_any hx, by rwa [abs_of_nonneg (rndU_nonneg hx)]⟩
  unfold roundKey
  split_ifs with hw
  · rw [abs_of_neg hw] at h ⊢
    obtain ⟨h1, h2⟩ := pos _ (by linarith) h
    exact ⟨by rwa [show -posKey f (-w) - w = -(posKey f (-w) - -w) by ring, abs_neg], by rwa [abs_neg]⟩
  · rw [abs_of_nonneg (not_lt.mp hw)] at h ⊢
    exact pos _ (not_lt.mp hw) h

/-- A finite value with its number. -/
structure Is (f : FltTy) (y : FVal) (w : ℚ) : Prop where
  finite : y.Finite
  within : y.In f
  eq : y.q = w

theorem finite_round {y : FVal} {w : ℚ} (h : y.key f = roundKey f w ∧ y.In f ∧ y ≠ .nan) (hb : |w| ≤ 2 ^ (f.emax - 1)) :
    Is f y (roundKey f w) := by
  have hk : |y.key f| < 2 ^ (f.emax + 1) := by
    rw [h.1]; exact (roundKey_err hb).2.trans_lt (two_zpow_lt (by omega))
  obtain ⟨h1, h2⟩ := finite_of_key h.2.2 hk
  exact ⟨h1, h.2.1, by rw [h2, h.1]⟩

/-- Sums have no underflow: only a relative error. -/
theorem add_rel {x y : FVal} (ix : x.In f) (iy : y.In f) (hx : x.Finite) (hy : y.Finite) (hb : |x.q + y.q| ≤ 2 ^ (f.emax - 1)) :
    (x.add f y).Finite ∧ (x.add f y).In f ∧ |(x.add f y).q - (x.q + y.q)| ≤ f.u * |x.q + y.q| := by
  rcases lt_or_ge |x.q + y.q| (2 ^ f.emin) with hs | hs
  · obtain ⟨k, e, -, he, ek⟩ := ix.form hx
    obtain ⟨l, g, -, hg, el⟩ := iy.form hy
    set c := f.emin - (f.prec - 1) with hc
    have form : ∀ {z : ℚ} {j d : Int}, c ≤ d → z = (j : ℚ) * 2 ^ d → ∃ i : Int, z = (i : ℚ) * 2 ^ c := by
      intro z j d hd hz
      obtain ⟨n, hn⟩ := Int.eq_ofNat_of_zero_le (sub_nonneg.mpr hd)
      refine ⟨j * 2 ^ n, ?_⟩
      rw [hz, show d = n + c by omega, zpow_add₀ (by norm_num), zpow_natCast]; push_cast; ring
    obtain ⟨i1, e1⟩ := form he ek
    obtain ⟨i2, e2⟩ := form hg el
    have e3 : x.q + y.q = ((i1 + i2 : Int) : ℚ) * 2 ^ c := by rw [e1, e2]; push_cast; ring
    have e4 : |x.q + y.q| = ((|i1 + i2| : Int) : ℚ) * 2 ^ c := by rw [e3, abs_mul, abs_of_pos (two_zpow_pos c)]; push_cast; rfl
    have hlt : ((|i1 + i2| : Int) : ℚ) < 2 ^ f.prec := by
      rw [e4] at hs
      have : (2 : ℚ) ^ f.emin ≤ 2 ^ f.prec * 2 ^ c := by rw [← zpow_add₀ (by norm_num)]; exact two_zpow_le (by omega)
      exact lt_of_mul_lt_mul_right (hs.trans_le this) (two_zpow_pos c).le
    have hr : f.rndMag |x.q + y.q| = some |x.q + y.q| := by
      refine rndMag_some.mpr ⟨?_, hs.trans_le (two_zpow_le (by unfold FltTy.emin; have := f.emax_ge; omega))⟩
      rw [e4]; exact (rndU_exact (abs_nonneg _) hlt le_rfl).symm
    obtain ⟨h1, h2, h3⟩ := add_of hx hy hr rfl
    exact ⟨h1, h2, by rw [h3, sub_self, abs_zero]; exact mul_nonneg f.u_pos.le (abs_nonneg _)⟩
  · obtain ⟨h1, h2, h3⟩ := finite_round (key_add hx hy) hb
    refine ⟨h1, h2, ?_⟩
    rw [h3]
    have hle : ∀ z : ℚ, 2 ^ f.emin ≤ z → z ≤ 2 ^ (f.emax - 1) → |posKey f z - z| ≤ f.u * z := by
      intro z h1 h2
      have hle : f.rndU z ≤ 2 ^ (f.emax - 1) := rndU_le_pow (by unfold FltTy.emin; have := f.emax_ge; omega) ((two_zpow_pos _).le.trans h1) h2
      unfold posKey
      rw [if_pos (hle.trans_lt (two_zpow_lt (by omega)))]
      exact rndU_rel h1
    unfold roundKey
    split_ifs with hw
    · rw [abs_of_neg hw] at hs hb ⊢
      have := hle _ hs hb
      rwa [show -posKey f (-(x.q + y.q)) - (x.q + y.q) = -(posKey f (-(x.q + y.q)) - -(x.q + y.q)) by ring, abs_neg]
    · rw [abs_of_nonneg (not_lt.mp hw)] at hs hb ⊢
      exact hle _ hs hb

theorem one_rnd : f.rndMag 1 = some 1 := by
  have := rndMag_int (f := f) (k := 1) (by norm_num) (by
    have := f.one_le_prec
    calc ((1 : Int) : ℚ) = 2 ^ (0 : Int) := by norm_num
      _ < 2 ^ f.prec := two_zpow_lt (by omega))
  exact_mod_cast this

theorem zero_in (s : Bool) : (FVal.fin s 0).In f := ⟨le_rfl, rndMag_some.mpr ⟨(rndU_zero f).symm, two_zpow_pos _⟩⟩

/-- The position of a rounded number between two values. -/
theorem between {y a b : FVal} {w : ℚ} (h : y.key f = roundKey f w ∧ y.In f ∧ y ≠ .nan) (fa : a.Finite) (ia : a.In f) (fb : b.Finite) (ib : b.In f)
    (h1 : a.q ≤ w) (h2 : w ≤ b.q) : y.Finite ∧ y.In f ∧ a.q ≤ y.q ∧ y.q ≤ b.q := by
  have k1 : a.q ≤ y.key f := by rw [h.1, ← roundKey_in fa ia]; exact roundKey_mono h1
  have k2 : y.key f ≤ b.q := by rw [h.1, ← roundKey_in fb ib]; exact roundKey_mono h2
  have ha := FVal.In.q_lt fa ia
  have hb := FVal.In.q_lt fb ib
  have hk : |y.key f| < 2 ^ (f.emax + 1) := by
    have := two_zpow_lt (show f.emax < f.emax + 1 by omega)
    rw [abs_lt] at ha hb ⊢
    exact ⟨by linarith [ha.1], by linarith [hb.2]⟩
  obtain ⟨g1, g2⟩ := finite_of_key h.2.2 hk
  exact ⟨g1, h.2.1, by rw [g2]; exact k1, by rw [g2]; exact k2⟩

end

/-! ### The formulas on numbers -/

/-- A finite value that is not negative. -/
structure NonNeg (f : FltTy) (y : FVal) : Prop where
  finite : y.Finite
  within : y.In f
  nonneg : 0 ≤ y.q

/-- The gain, the variance after the update and the state after it, with rounded operations. -/
def gainF (f : FltTy) (p r : FVal) : FVal := p.div f (p.add f r)
def covF (f : FltTy) (p k : FVal) : FVal := ((FVal.fin false 1).sub f k).mul f p
def stateF (f : FltTy) (s m k : FVal) : FVal := s.add f (k.mul f (m.sub f s))

section
variable {f : FltTy}

theorem one_in : (FVal.fin false 1).In f := ⟨by norm_num, one_rnd⟩

theorem one_q : (FVal.fin false 1).q = 1 := rfl

theorem zero_q : (FVal.fin false 0).q = 0 := rfl

theorem tiny_le_u : f.tiny ≤ f.u := by
  have : f.u = 2 ^ (-f.prec) := by unfold FltTy.u; rw [zpow_neg, one_div]
  rw [this]
  exact two_zpow_le (by have := f.emin_neg; omega)

/-- A sum of nonnegative values that are not both zero: positive, perhaps infinite. -/
theorem sum_cases {p r : FVal} (hp : NonNeg f p) (hr : NonNeg f r) (h : 0 < p.q + r.q) :
    (∃ b, p.add f r = .inf b) ∨ (p.add f r).Finite ∧ (p.add f r).In f ∧ 0 < (p.add f r).q ∧ p.q ≤ (p.add f r).q ∧ r.q ≤ (p.add f r).q := by
  obtain ⟨h1, h2, h3⟩ := key_add (f := f) hp.finite hr.finite
  cases e : p.add f r with
  | nan => exact absurd e h3
  | inf b => exact Or.inl ⟨b, rfl⟩
  | fin b m =>
    right
    rw [e] at h1 h2
    have k : (FVal.fin b m).q = roundKey f (p.q + r.q) := h1
    have a1 : p.q ≤ (FVal.fin b m).q := by
      rw [k, ← roundKey_in hp.finite hp.within]; exact roundKey_mono (by linarith [hr.nonneg, roundKey_in hp.finite hp.within])
    have a2 : r.q ≤ (FVal.fin b m).q := by
      rw [k, ← roundKey_in hr.finite hr.within]; exact roundKey_mono (by linarith [hp.nonneg, roundKey_in hr.finite hr.within])
    refine ⟨trivial, h2, ?_, a1, a2⟩
    have := hp.nonneg
    have := hr.nonneg
    rcases lt_or_ge 0 p.q with h0 | h0 <;> linarith

theorem gainF_bounds {p r : FVal} (hp : NonNeg f p) (hr : NonNeg f r) (h : 0 < p.q + r.q) : NonNeg f (gainF f p r) ∧ (gainF f p r).q ≤ 1 := by
  unfold gainF
  rcases sum_cases hp hr h with ⟨b, e⟩ | ⟨s1, s2, s3, s4, -⟩
  · rw [e]
    obtain ⟨s, m, rfl, -, -⟩ := hp.finite.abs_eq hp.within
    have : (FVal.fin s m).div f (.inf b) = .fin (s != b) 0 := rfl
    rw [this]
    have h0 : (FVal.fin (s != b) 0).q = 0 := by cases s <;> cases b <;> simp [FVal.q]
    exact ⟨⟨trivial, zero_in _, h0.ge⟩, by rw [h0]; norm_num⟩
  · obtain ⟨k1, k2, k3, k4⟩ := between (key_div hp.within s2 hp.finite s1 s3.ne') (a := .fin false 0) (b := .fin false 1) trivial (zero_in _) trivial
      one_in (by rw [zero_q]; exact div_nonneg hp.nonneg s3.le) (by rw [one_q]; exact (div_le_one s3).mpr s4)
    exact ⟨⟨k1, k2, k3⟩, k4⟩

theorem gainF_err {p r : FVal} (hp : NonNeg f p) (hr : NonNeg f r) (h : 0 < p.q + r.q) (hb : p.q + r.q ≤ 2 ^ (f.emax - 1)) :
    |(gainF f p r).q - p.q / (p.q + r.q)| ≤ 3 * f.u * (p.q / (p.q + r.q)) + f.tiny / 2 := by
  have u0 := f.u_pos
  have u1 := f.u_small
  obtain ⟨s1, s2, s3⟩ := add_rel hp.within hr.within hp.finite hr.finite (by rwa [abs_of_pos h])
  rw [abs_of_pos h] at s3
  set T := p.q + r.q with hT
  set S := (p.add f r).q with hS
  obtain ⟨l1, l2⟩ := abs_le.mp s3
  have S0 : 0 < S := by nlinarith
  have p0 := hp.nonneg
  have pS : p.q / S ≤ 1 := by
    rcases sum_cases hp hr h with ⟨b, e⟩ | ⟨-, -, -, s4, -⟩
    · rw [e] at s1; exact s1.elim
    · exact (div_le_one S0).mpr s4
  have pS0 : 0 ≤ p.q / S := div_nonneg p0 S0.le
  have big : (1 : ℚ) ≤ 2 ^ (f.emax - 1) := one_le_zpow₀ (by norm_num) (by have := f.emax_ge; omega)
  have hk := finite_round (key_div hp.within s2 hp.finite s1 S0.ne') (by rw [abs_of_nonneg pS0]; exact pS.trans big)
  have he := (roundKey_err (f := f) (w := p.q / S) (by rw [abs_of_nonneg pS0]; exact pS.trans big)).1
  rw [abs_of_nonneg pS0, ← hk.eq] at he
  have hd : p.q / S - p.q / T = p.q / T * ((T - S) / S) := by field_simp
  have pT0 : 0 ≤ p.q / T := div_nonneg p0 h.le
  have hx : |(T - S) / S| ≤ f.u * (1 + 2 * f.u) := by
    rw [abs_div, abs_of_pos S0, div_le_iff₀ S0, abs_sub_comm]
    refine s3.trans ?_
    have a1 : 0 ≤ (1 + 2 * f.u) * (S - (1 - f.u) * T) := mul_nonneg (by linarith) (by linarith)
    have a2 : 0 ≤ f.u * T * (1 - 2 * f.u) := mul_nonneg (mul_nonneg u0.le h.le) (by linarith)
    have a3 : T ≤ (1 + 2 * f.u) * S := by nlinarith
    have := mul_le_mul_of_nonneg_left a3 u0.le
    linarith
  have e1 : |p.q / S - p.q / T| ≤ p.q / T * (f.u * (1 + 2 * f.u)) := by
    rw [hd, abs_mul, abs_of_nonneg pT0]; exact mul_le_mul_of_nonneg_left hx pT0
  have e2 : p.q / S ≤ p.q / T * (1 + f.u * (1 + 2 * f.u)) := by
    have := (abs_le.mp e1).2; linarith
  have t1 : |(gainF f p r).q - p.q / T| ≤ |(gainF f p r).q - p.q / S| + |p.q / S - p.q / T| := by
    have := abs_add_le ((gainF f p r).q - p.q / S) (p.q / S - p.q / T)
    rwa [sub_add_sub_cancel] at this
  have e3 : f.u * (p.q / S) ≤ f.u * (p.q / T * (1 + f.u * (1 + 2 * f.u))) := mul_le_mul_of_nonneg_left e2 u0.le
  have e4 : f.u * (1 + f.u * (1 + 2 * f.u)) + f.u * (1 + 2 * f.u) ≤ 3 * f.u := by
    have : f.u * (1 + f.u * (1 + 2 * f.u) + (1 + 2 * f.u)) ≤ f.u * 3 := mul_le_mul_of_nonneg_left (by nlinarith) u0.le
    linarith
  have e5 := mul_le_mul_of_nonneg_left e4 pT0
  unfold gainF at t1 ⊢
  linarith

theorem sub_one {k : FVal} (hk : NonNeg f k) (h1 : k.q ≤ 1) :
    NonNeg f ((FVal.fin false 1).sub f k) ∧ ((FVal.fin false 1).sub f k).q ≤ 1 ∧ |((FVal.fin false 1).sub f k).q - (1 - k.q)| ≤ f.u * (1 - k.q) := by
  have e : (FVal.fin false 1).q + k.neg.q = 1 - k.q := by rw [one_q, FVal.neg_q]; ring
  have big : (1 : ℚ) ≤ 2 ^ (f.emax - 1) := one_le_zpow₀ (by norm_num) (by have := f.emax_ge; omega)
  have h0 := hk.nonneg
  obtain ⟨k1, k2, k3, k4⟩ := between (key_add (f := f) (x := .fin false 1) trivial hk.finite.neg) (a := .fin false 0) (b := .fin false 1) trivial (zero_in _)
    trivial one_in (by rw [e, zero_q]; linarith) (by rw [e, one_q]; linarith)
  have := (add_rel (f := f) (x := .fin false 1) one_in hk.within.neg trivial hk.finite.neg (by rw [e, abs_of_nonneg (by linarith)]; linarith)).2.2
  rw [e, abs_of_nonneg (show 0 ≤ 1 - k.q by linarith)] at this
  exact ⟨⟨k1, k2, k3⟩, k4, this⟩

theorem covF_bounds {p k : FVal} (hp : NonNeg f p) (hk : NonNeg f k) (h1 : k.q ≤ 1) : NonNeg f (covF f p k) ∧ (covF f p k).q ≤ p.q := by
  obtain ⟨c1, c2, -⟩ := sub_one hk h1
  obtain ⟨k1, k2, k3, k4⟩ := between (key_mul c1.within hp.within c1.finite hp.finite) (a := .fin false 0) (b := p) trivial (zero_in _) hp.finite hp.within
    (by rw [zero_q]; exact mul_nonneg c1.nonneg hp.nonneg) (mul_le_of_le_one_left hp.nonneg c2)
  exact ⟨⟨k1, k2, k3⟩, k4⟩

theorem covF_err {p r : FVal} (hp : NonNeg f p) (hr : NonNeg f r) (h : 0 < p.q + r.q) (hb : p.q + r.q ≤ 2 ^ (f.emax - 1)) :
    |(covF f p (gainF f p r)).q - p.q * r.q / (p.q + r.q)| ≤ 6 * f.u * p.q + f.tiny := by
  have u0 := f.u_pos
  have tu := tiny_le_u (f := f)
  have t0 := f.tiny_pos
  obtain ⟨hk, k1⟩ := gainF_bounds hp hr h
  have ke := gainF_err hp hr h hb
  set k := gainF f p r
  set T := p.q + r.q with hT
  have p0 := hp.nonneg
  have r0 := hr.nonneg
  have k0 := hk.nonneg
  have κ1 : p.q / T ≤ 1 := (div_le_one h).mpr (by linarith)
  obtain ⟨c1, c2, c3⟩ := sub_one hk k1
  set c := (FVal.fin false 1).sub f k
  have c0 := c1.nonneg
  have cp : c.q * p.q ≤ p.q := mul_le_of_le_one_left p0 c2
  have cp0 : 0 ≤ c.q * p.q := mul_nonneg c0 p0
  have pb : |c.q * p.q| ≤ 2 ^ (f.emax - 1) := by rw [abs_of_nonneg cp0]; linarith
  have hx := finite_round (key_mul c1.within hp.within c1.finite hp.finite) pb
  have he := (roundKey_err (f := f) pb).1
  rw [← hx.eq, abs_of_nonneg cp0] at he
  have e1 : |c.q * p.q - (1 - k.q) * p.q| ≤ f.u * p.q := by
    rw [← sub_mul, abs_mul, abs_of_nonneg p0]
    refine mul_le_mul_of_nonneg_right (c3.trans ?_) p0
    nlinarith
  have e2 : |(1 - k.q) * p.q - (1 - p.q / T) * p.q| ≤ (3 * f.u + f.tiny / 2) * p.q := by
    rw [← sub_mul, abs_mul, abs_of_nonneg p0, show 1 - k.q - (1 - p.q / T) = -(k.q - p.q / T) by ring, abs_neg]
    refine mul_le_mul_of_nonneg_right (ke.trans ?_) p0
    nlinarith
  have e3 : p.q * r.q / T = (1 - p.q / T) * p.q := by
    have hT0 : T ≠ 0 := h.ne'
    have : r.q = T - p.q := by rw [hT]; ring
    rw [this]; field_simp
  rw [e3]
  have t1 := abs_add_le ((covF f p k).q - c.q * p.q) (c.q * p.q - (1 - k.q) * p.q)
  have t2 := abs_add_le ((covF f p k).q - (1 - k.q) * p.q) ((1 - k.q) * p.q - (1 - p.q / T) * p.q)
  rw [sub_add_sub_cancel] at t1 t2
  have he' : |(covF f p k).q - c.q * p.q| ≤ f.u * p.q + f.tiny / 2 := he.trans (by nlinarith)
  nlinarith

/-- The state after an update. -/
theorem stateF_err {s m k : FVal} {A : ℚ} (fs : s.Finite) (is : s.In f) (fm : m.Finite) (im : m.In f) (hk : NonNeg f k) (k1 : k.q ≤ 1) (hs : |s.q| ≤ A)
    (hm : |m.q| ≤ A) (hA : A + 2 ^ f.emin ≤ 2 ^ (f.emax - 3)) :
    (stateF f s m k).Finite ∧ (stateF f s m k).In f ∧ |(stateF f s m k).q - (s.q + k.q * (m.q - s.q))| ≤ 6 * f.u * (A + 2 ^ f.emin) := by
  have u0 := f.u_pos
  have u1 := f.u_small
  have t0 := f.tiny_pos
  have A0 : 0 ≤ A := (abs_nonneg _).trans hs
  have m0 : (0 : ℚ) < 2 ^ f.emin := two_zpow_pos _
  have big : (2 : ℚ) ^ (f.emax - 1) = 4 * 2 ^ (f.emax - 3) := by
    rw [show f.emax - 1 = f.emax - 3 + 2 by ring, zpow_add₀ (by norm_num)]; norm_num; ring
  have ht : f.tiny = 2 * f.u * 2 ^ f.emin := by
    have : f.u = 2 ^ (-f.prec) := by unfold FltTy.u; rw [zpow_neg, one_div]
    rw [this, FltTy.tiny, show f.emin - f.prec + 1 = 1 + (-f.prec) + f.emin by ring, zpow_add₀ (by norm_num), zpow_add₀ (by norm_num)]
    norm_num
  obtain ⟨s1, s2⟩ := abs_le.mp hs
  obtain ⟨m1, m2⟩ := abs_le.mp hm
  have hD : |m.q - s.q| ≤ 2 * A := abs_le.mpr ⟨by linarith, by linarith⟩
  obtain ⟨d1, d2, d3⟩ := add_rel (f := f) im is.neg fm fs.neg (by rw [FVal.neg_q, ← sub_eq_add_neg]; linarith)
  rw [FVal.neg_q, ← sub_eq_add_neg] at d3
  change |(m.sub f s).q - _| ≤ _ at d3
  change (m.sub f s).Finite at d1
  change (m.sub f s).In f at d2
  set d := m.sub f s with hd
  set D := m.q - s.q with hD'
  have dD : |d.q - D| ≤ f.u * (2 * A) := d3.trans (mul_le_mul_of_nonneg_left hD u0.le)
  have dA : |d.q| ≤ 2 * A + f.u * (2 * A) := by
    have := abs_add_le (d.q - D) D
    rw [sub_add_cancel] at this; linarith
  have k0 := hk.nonneg
  have kd : |k.q * d.q| ≤ 2 * A + f.u * (2 * A) := by
    rw [abs_mul, abs_of_nonneg k0]; exact (mul_le_of_le_one_left (abs_nonneg _) k1).trans dA
  have kb : |k.q * d.q| ≤ 2 ^ (f.emax - 1) := by nlinarith
  have hx := finite_round (key_mul hk.within d2 hk.finite d1) kb
  have xe := (roundKey_err (f := f) kb).1
  rw [← hx.eq] at xe
  set x := k.mul f d with hx'
  have kD : |k.q * d.q - k.q * D| ≤ f.u * (2 * A) := by
    rw [← mul_sub, abs_mul, abs_of_nonneg k0]; exact (mul_le_of_le_one_left (abs_nonneg _) k1).trans dD
  have xD : |x.q - k.q * D| ≤ 4 * f.u * A + f.u * f.u * (2 * A) + f.tiny / 2 := by
    have := abs_add_le (x.q - k.q * d.q) (k.q * d.q - k.q * D)
    rw [sub_add_sub_cancel] at this
    have := mul_le_mul_of_nonneg_left kd u0.le
    nlinarith
  have cv : |s.q + k.q * D| ≤ A := by
    have : s.q + k.q * D = (1 - k.q) * s.q + k.q * m.q := by rw [hD']; ring
    rw [this]
    refine (abs_add_le _ _).trans ?_
    rw [abs_mul, abs_mul, abs_of_nonneg k0, abs_of_nonneg (show 0 ≤ 1 - k.q by linarith)]
    nlinarith
  have sx : |s.q + x.q| ≤ A + (4 * f.u * A + f.u * f.u * (2 * A) + f.tiny / 2) := by
    have := abs_add_le (s.q + k.q * D) (x.q - k.q * D)
    rw [show s.q + k.q * D + (x.q - k.q * D) = s.q + x.q by ring] at this
    linarith
  have uA : 0 ≤ f.u * A := mul_nonneg u0.le A0
  have uuA : f.u * (f.u * A) ≤ 1 / 2 ^ 24 * (f.u * A) := mul_le_mul_of_nonneg_right u1 uA
  have uA' : f.u * A ≤ 1 / 2 ^ 24 * A := mul_le_mul_of_nonneg_right u1 A0
  have ue0 : 0 ≤ f.u * 2 ^ f.emin := mul_nonneg u0.le m0.le
  have ue : f.u * 2 ^ f.emin ≤ 1 / 2 ^ 24 * 2 ^ f.emin := mul_le_mul_of_nonneg_right u1 m0.le
  have sb : |s.q + x.q| ≤ 2 ^ (f.emax - 1) := by rw [ht] at sx; nlinarith
  obtain ⟨y1, y2, y3⟩ := add_rel is hx.within fs hx.finite sb
  refine ⟨y1, y2, ?_⟩
  have t := abs_add_le ((s.add f x).q - (s.q + x.q)) (x.q - k.q * D)
  rw [show (s.add f x).q - (s.q + x.q) + (x.q - k.q * D) = (s.add f x).q - (s.q + k.q * D) by ring] at t
  have y4 := y3.trans (mul_le_mul_of_nonneg_left sx u0.le)
  have uue : f.u * (f.u * 2 ^ f.emin) ≤ 1 / 2 ^ 24 * (f.u * 2 ^ f.emin) := mul_le_mul_of_nonneg_right u1 ue0
  have uuuA : f.u * (f.u * (f.u * A)) ≤ f.u * (1 / 2 ^ 24 * (f.u * A)) := mul_le_mul_of_nonneg_left uuA u0.le
  rw [ht] at xD y4
  show |(s.add f x).q - (s.q + k.q * D)| ≤ _
  nlinarith

/-- A measurement equal to the state does not change it. -/
theorem stateF_same {s m k : FVal} (fs : s.Finite) (is : s.In f) (fm : m.Finite) (im : m.In f) (fk : k.Finite) (ik : k.In f)
    (h : m.q = s.q ∨ k.q = 0 ∧ |m.q - s.q| ≤ 2 ^ (f.emax - 1)) : (stateF f s m k).Finite ∧ (stateF f s m k).In f ∧ (stateF f s m k).q = s.q := by
  have e : m.q + s.neg.q = m.q - s.q := by rw [FVal.neg_q]; ring
  have hd : |m.q + s.neg.q| ≤ 2 ^ (f.emax - 1) := by
    rw [e]
    rcases h with h | ⟨-, h⟩
    · rw [h, sub_self, abs_zero]; exact (two_zpow_pos _).le
    · exact h
  obtain ⟨d1, d2, d3⟩ := add_rel im is.neg fm fs.neg hd
  rw [e] at d3
  change |(m.sub f s).q - _| ≤ _ at d3
  change (m.sub f s).Finite at d1
  change (m.sub f s).In f at d2
  have kd : k.q * (m.sub f s).q = 0 := by
    rcases h with h | ⟨h, -⟩
    · rw [h, sub_self, abs_zero, mul_zero, sub_zero] at d3
      rw [abs_nonpos_iff.mp d3, mul_zero]
    · rw [h, zero_mul]
  have hx := finite_round (key_mul ik d2 fk d1) (show |k.q * (m.sub f s).q| ≤ 2 ^ (f.emax - 1) by rw [kd, abs_zero]; exact (two_zpow_pos _).le)
  have x0 : (k.mul f (m.sub f s)).q = 0 := by
    rw [hx.eq]
    show roundKey f (k.q * (m.sub f s).q) = 0
    rw [kd]; unfold roundKey; rw [if_neg (lt_irrefl _), posKey_zero]
  exact add_of fs hx.finite (is.mag fs) (by rw [x0, add_zero])

end

/-! ### Gains that round to one -/

section
variable {f : FltTy}

theorem rndU_near_one {x : ℚ} (h1 : 1 - f.u / 4 ≤ x) (h2 : x ≤ 1) : f.rndU x = 1 := by
  have u0 := f.u_pos
  have u1 := f.u_small
  have hu : f.u = 2 ^ (-f.prec) := by unfold FltTy.u; rw [zpow_neg, one_div]
  rcases h2.eq_or_lt with rfl | hlt
  · have := (rndMag_some.mp (one_rnd (f := f))).1; exact this.symm
  have x0 : 0 < x := by linarith
  have hlog : Int.log 2 x = -1 := by
    have a : (2 : ℚ) ^ (-1 : Int) ≤ x := by norm_num; linarith
    have b : x < (2 : ℚ) ^ (0 : Int) := by simpa using hlt
    have c1 := (Int.zpow_le_iff_le_log (b := 2) (by norm_num) x0 (x := (-1 : Int))).mp (by exact_mod_cast a)
    have c2 := (Int.lt_zpow_iff_log_lt (b := 2) (by norm_num) x0 (x := (0 : Int))).mp (by exact_mod_cast b)
    omega
  have hle : f.lastExp x = -f.prec := by
    unfold FltTy.lastExp; rw [hlog]; have := f.emin_neg; omega
  have up : f.rndU x ≤ 1 := by
    have := rndU_le_pow (f := f) (k := 0) (by have := f.emin_neg; omega) x0.le (by simpa using h2)
    simpa using this
  have err := rndU_err f x
  rw [hle, ← hu] at err
  set j := roundEven (x * 2 ^ (-f.lastExp x)) with hj
  have ej : f.rndU x = (j : ℚ) * f.u := by unfold FltTy.rndU; rw [← hj, hle, hu]
  have pu : (2 : ℚ) ^ f.prec * f.u = 1 := by rw [hu, ← zpow_add₀ (by norm_num)]; simp
  have pz : ((2 : Int) ^ f.prec.toNat : ℚ) = 2 ^ f.prec := by
    have : (f.prec.toNat : Int) = f.prec := by have := f.one_le_prec; omega
    conv_rhs => rw [← this]
    rw [zpow_natCast]; norm_num
  have lo : (2 : ℚ) ^ f.prec - 1 < j := by
    have := (abs_le.mp err).1
    rw [ej] at this
    by_contra hc
    have := mul_le_mul_of_nonneg_right (not_lt.mp hc) u0.le
    rw [sub_mul, pu] at this
    linarith
  have hi : (j : ℚ) ≤ 2 ^ f.prec := by
    rw [ej] at up
    by_contra hc
    have := mul_lt_mul_of_pos_right (not_le.mp hc) u0
    rw [pu] at this
    linarith
  have : j = 2 ^ f.prec.toNat := by
    rw [← pz] at lo hi
    have a : (2 : Int) ^ f.prec.toNat - 1 < j := by exact_mod_cast lo
    have b : j ≤ (2 : Int) ^ f.prec.toNat := by exact_mod_cast hi
    omega
  rw [ej, this]
  push_cast at pz ⊢
  rw [pz, pu]

theorem roundKey_pos {x : ℚ} (hx : 0 ≤ x) (hb : x ≤ 2 ^ (f.emax - 1)) : roundKey f x = f.rndU x := by
  have hle : f.rndU x ≤ 2 ^ (f.emax - 1) := rndU_le_pow (by unfold FltTy.emin; have := f.emax_ge; omega) hx hb
  unfold roundKey posKey
  rw [if_neg (not_lt.mpr hx), if_pos (hle.trans_lt (two_zpow_lt (by omega)))]

theorem gainF_one {p r : FVal} (hp : NonNeg f p) (hr : NonNeg f r) (h : 0 < p.q) (hb : p.q + r.q ≤ 2 ^ (f.emax - 1)) (hrp : 2 ^ (f.prec + 3) * r.q ≤ p.q) :
    (gainF f p r).q = 1 := by
  have u0 := f.u_pos
  have r0 := hr.nonneg
  have h0 : 0 < p.q + r.q := by linarith
  have ab : |p.q + r.q| ≤ 2 ^ (f.emax - 1) := by rwa [abs_of_pos h0]
  obtain ⟨s1, s2, s3⟩ := finite_round (key_add (f := f) hp.finite hr.finite) ab
  rw [roundKey_pos h0.le hb] at s3
  set S := (p.add f r).q with hS
  obtain ⟨k, e, hk, he, ek⟩ := hp.within.form hp.finite
  have k0 : 0 ≤ k := by
    rw [ek] at h
    have := pos_of_mul_pos_left h (two_zpow_pos e).le
    exact_mod_cast this.le
  have hn := rndU_nearest (f := f) h0.le k0 (by rwa [abs_of_nonneg (by exact_mod_cast k0)] at hk) he
  rw [← ek, ← s3, show p.q - (p.q + r.q) = -r.q by ring, abs_neg, abs_of_nonneg r0] at hn
  have S2 := (abs_le.mp hn).2
  have S1 : p.q ≤ S := by linarith [(abs_le.mp hn).1]
  have S0 : 0 < S := h.trans_le S1
  have hu : f.u * 2 ^ (f.prec + 3) = 8 := by
    have : f.u = 2 ^ (-f.prec) := by unfold FltTy.u; rw [zpow_neg, one_div]
    rw [this, ← zpow_add₀ (by norm_num), show -f.prec + (f.prec + 3) = 3 by ring]; norm_num
  have hr8 : 8 * r.q ≤ f.u * p.q := by
    have := mul_le_mul_of_nonneg_left hrp u0.le
    rw [← mul_assoc, hu] at this; exact this
  have x1 : 1 - f.u / 4 ≤ p.q / S := by
    rw [le_div_iff₀ S0]
    have : (1 - f.u / 4) * S ≤ (1 - f.u / 4) * (p.q + 2 * r.q) := mul_le_mul_of_nonneg_left (by linarith) (by linarith [f.u_small])
    nlinarith
  have x2 : p.q / S ≤ 1 := (div_le_one S0).mpr S1
  have x0 : 0 ≤ p.q / S := div_nonneg h.le S0.le
  have big : (1 : ℚ) ≤ 2 ^ (f.emax - 1) := one_le_zpow₀ (by norm_num) (by have := f.emax_ge; omega)
  have hg := finite_round (key_div hp.within s2 hp.finite s1 S0.ne') (by rw [abs_of_nonneg x0]; exact x2.trans big)
  have hge := hg.eq
  rw [roundKey_pos x0 (x2.trans big), rndU_near_one x1 x2] at hge
  exact hge

theorem covF_one {p k : FVal} (hp : NonNeg f p) (hk : NonNeg f k) (h1 : k.q = 1) : (covF f p k).q = 0 := by
  obtain ⟨c1, -, c3⟩ := sub_one hk h1.le
  rw [h1, sub_self, mul_zero, sub_zero] at c3
  have c0 := abs_nonpos_iff.mp c3
  have e : ((FVal.fin false 1).sub f k).q * p.q = 0 := by rw [c0, zero_mul]
  have hx := (finite_round (key_mul c1.within hp.within c1.finite hp.finite) (by rw [e, abs_zero]; exact (two_zpow_pos _).le)).eq
  rw [e] at hx
  unfold covF
  rw [hx]; unfold roundKey; rw [if_neg (lt_irrefl _), posKey_zero]

theorem gainF_zero {p r : FVal} (hp : NonNeg f p) (hr : NonNeg f r) (h0 : p.q = 0) (h : 0 < r.q) : (gainF f p r).q = 0 := by
  have hs : 0 < p.q + r.q := by linarith
  obtain ⟨s1, s2, s3⟩ := add_of (f := f) hp.finite hr.finite (hr.within.mag hr.finite) (by rw [h0, zero_add])
  have e : p.q / (p.add f r).q = 0 := by rw [h0, zero_div]
  have hx := (finite_round (key_div hp.within s2 hp.finite s1 (by rw [s3]; exact h.ne')) (by rw [e, abs_zero]; exact (two_zpow_pos _).le)).eq
  rw [e] at hx
  unfold gainF
  rw [hx]; unfold roundKey; rw [if_neg (lt_irrefl _), posKey_zero]

end

/-! ### The functions of the example on numbers -/

/-- A floating point type that products with numbers without unit keep. -/
structure Steady (E : Env) (t : QTy) : Prop where
  rep : t.rep = .flt .f64
  times : refMultiply E (.named dimOne) unitOne t.dim t.unit = .ok (t.dim, t.unit)
  ratio : Ratio.div t.unit.ratio t.unit.ratio = .ok Ratio.one
  ref : t.unit.ref = t.dim.unit.ref

/-- The type of a squared uncertainty: quotients are numbers without unit. -/
structure SteadyVariance (E : Env) (t : QTy) : Prop extends Steady E t where
  over : refDivide E t.dim t.unit t.dim t.unit = .ok (.named dimOne, unitOne)

instance (E : Env) (t : QTy) : Decidable (Steady E t) :=
  decidable_of_iff (t.rep = .flt .f64 ∧ refMultiply E (.named dimOne) unitOne t.dim t.unit = .ok (t.dim, t.unit) ∧
    Ratio.div t.unit.ratio t.unit.ratio = .ok Ratio.one ∧ t.unit.ref = t.dim.unit.ref)
    ⟨fun h => ⟨h.1, h.2.1, h.2.2.1, h.2.2.2⟩, fun h => ⟨h.rep, h.times, h.ratio, h.ref⟩⟩

instance (E : Env) (t : QTy) : Decidable (SteadyVariance E t) :=
  decidable_of_iff (Steady E t ∧ refDivide E t.dim t.unit t.dim t.unit = .ok (.named dimOne, unitOne)) ⟨fun h => ⟨h.1, h.2⟩, fun h => ⟨h.toSteady, h.over⟩⟩

/-- The variable of a type with a number. -/
def VarTy.make : VarTy → FNum → VarI
  | .qty t, x => .qty ⟨t, x⟩
  | .pt t, x => .pt ⟨t, x⟩

/-- The type with another representation. -/
def VarTy.withRep : VarTy → Rep → VarTy
  | .qty t, r => .qty ⟨t.dim, t.unit, r⟩
  | .pt t, r => .pt ⟨t.origin, t.unit, r⟩

/-- A measurement in the unit of the state, in double precision or an integer that is one of its numbers. -/
def Measured (t : VarTy) (m : VarI) (v : FVal) : Prop :=
  m = t.make (.f v) ∨ ∃ i z, m = (t.withRep (.int i)).make (.i z) ∧ i.In z ∧ |(z : ℚ)| < 2 ^ 53 ∧ v = .fin (decide (z < 0)) |(z : ℚ)|

section
variable {E : Env} {R : Rebinds}

theorem mulQtyI_gain {t : QTy} (ht : Steady E t) (k x : FVal) : mulQtyI E ⟨gainTy, .f k⟩ ⟨t, .f x⟩ = .ok ⟨t, .f (k.mul .f64 x)⟩ := by
  obtain ⟨d, u, r⟩ := t
  have hr : r = .flt .f64 := ht.rep
  subst hr
  unfold mulQtyI
  rw [show refMultiply E gainTy.dim gainTy.unit d u = .ok (d, u) from ht.times, ok_bind]
  rfl

/-- The difference of an integral measurement and a number of the state. -/
theorem subI_int {t : QTy} (ht : Steady E t) {i : IntTy} {z : Int} (hi : i.In z) (hz : |(z : ℚ)| < 2 ^ 53) (x : FVal) :
    addSubI E true ⟨⟨t.dim, t.unit, .int i⟩, .i z⟩ ⟨t, .f x⟩ = .ok ⟨t, .f ((FVal.fin (decide (z < 0)) |(z : ℚ)|).sub .f64 x)⟩ := by
  obtain ⟨d, u, r⟩ := t
  have hr : r = .flt .f64 := ht.rep
  subst hr
  have hc : commonQty E ⟨d, u, .int i⟩ ⟨d, u, .flt .f64⟩ (.flt .f64) = .ok ⟨d, u, .flt .f64⟩ := by
    unfold commonQty commonUnit
    simp only
    rw [C17_reflexive, ok_bind, if_pos rfl]
    rfl
  have hval : Ratio.one.val = 1 := by norm_num [Ratio.val, Ratio.one]
  have hp : |(z : ℚ)| < 2 ^ FltTy.f64.prec := lt_of_lt_of_eq hz (by norm_num [FltTy.prec])
  have hv := convertQtyI_int (E := E) (d := d) (u := u) (v := u) (f := .f64) (z := z) (ρ := Ratio.one)
    (by unfold castRatio; rw [if_pos (by simp [sameUnitReference])]; exact ht.ratio) (by decide +kernel) (by rw [hval]; norm_num) hi hp (by
      have hrn := rndMag_int (f := .f64) (k := |z|) (abs_nonneg _) (by push_cast; exact hp)
      push_cast at hrn
      rw [hval, mul_one]; exact hrn)
  rw [hval, mul_one] at hv
  unfold addSubI
  show (commonQty E ⟨d, u, .int i⟩ ⟨d, u, .flt .f64⟩ (.flt .f64) >>= _) = _
  rw [hc, ok_bind, hv, ok_bind, show convertQtyI E ⟨d, u, .flt .f64⟩ ⟨⟨d, u, .flt .f64⟩, .f x⟩ = _ from convertQtyI_self E _, ok_bind]
  rfl

theorem measured_sub {t : VarTy} (ht : Steady E t.under) {m : VarI} {v : FVal} (hm : Measured t m v) (s : FVal) :
    m.sub E R (t.make (.f s)) = .ok ⟨t.under, .f (v.sub .f64 s)⟩ := by
  cases t with
  | qty t =>
    rcases hm with rfl | ⟨i, z, rfl, hi, hz, rfl⟩
    · exact addSubI_self E true t .f64 ht.rep v s
    · exact subI_int ht hi hz s
  | pt t =>
    rcases hm with rfl | ⟨i, z, rfl, hi, hz, rfl⟩
    · exact subPointsI_self E R t .f64 ht.rep v s
    · show subPointsI E R ⟨⟨t.origin, t.unit, .int i⟩, .i z⟩ ⟨t, .f s⟩ = _
      unfold subPointsI
      rw [show originEquivalent R t.origin t.origin = .ok true from if_pos rfl, ok_bind, if_pos rfl]
      exact subI_int (t := t.qty) ht hi hz s

theorem make_under (t : VarTy) (x : FNum) : (t.make x).under = ⟨t.under, x⟩ := by cases t <;> rfl

theorem measured_dim {t : VarTy} {m : VarI} {v : FVal} (hm : Measured t m v) : m.under.ty.dim = t.under.dim := by
  rcases hm with rfl | ⟨i, z, rfl, -, -, -⟩ <;> cases t <;> rfl

theorem stateUpdate1I_eq {t : VarTy} (ht : Steady E t.under) {m : VarI} {v : FVal} (hm : Measured t m v) (s k : FVal) :
    stateUpdate1I E R (t.make (.f s)) m ⟨gainTy, .f k⟩ = .ok (t.make (.f (stateF .f64 s v k))) := by
  unfold stateUpdate1I
  rw [make_under, measured_dim hm, C17_reflexive, ok_bind, if_pos ⟨rfl, rfl⟩, measured_sub ht hm, ok_bind, mulQtyI_gain ht, ok_bind]
  cases t with
  | qty t =>
    show (addSubI E false ⟨t, .f s⟩ ⟨t, _⟩ >>= fun r => Except.ok (VarI.qty r)) >>= _ = _
    rw [addSubI_self E false t .f64 ht.rep, ok_bind, ok_bind]
    show (convertQtyI E t ⟨t, _⟩ >>= _) = _
    rw [show convertQtyI E t ⟨t, _⟩ = _ from convertQtyI_self E ⟨t, _⟩]
    rfl
  | pt t =>
    show (addSubPointI E R false ⟨t, .f s⟩ ⟨t.qty, _⟩ >>= fun r => Except.ok (VarI.pt r)) >>= _ = _
    rw [addSubPointI_self E R false t .f64 ht.ref ht.rep, ok_bind, ok_bind]
    show (convertPointI E R t ⟨t, _⟩ >>= _) = _
    rw [show convertPointI E R t ⟨t, _⟩ = .ok ⟨t, _⟩ from if_pos rfl]
    rfl

theorem kalmanGainI_eq {t : QTy} (ht : SteadyVariance E t) (p r : FVal) : kalmanGainI E ⟨t, .f p⟩ ⟨t, .f r⟩ = .ok ⟨gainTy, .f (gainF .f64 p r)⟩ := by
  unfold kalmanGainI
  rw [if_pos rfl, addSubI_self E false t .f64 ht.rep, ok_bind]
  obtain ⟨d, u, rep⟩ := t
  have hr : rep = .flt .f64 := ht.rep
  subst hr
  unfold divQtyI
  simp only
  rw [show refDivide E d u d u = .ok (.named dimOne, unitOne) from ht.over]
  rfl

theorem covarianceUpdateI_eq {t : QTy} (ht : Steady E t) (p k : FVal) : covarianceUpdateI E ⟨t, .f p⟩ ⟨gainTy, .f k⟩ = .ok ⟨t, .f (covF .f64 p k)⟩ := by
  unfold covarianceUpdateI
  rw [if_pos (show gainTy.dim = .named dimOne from rfl)]
  have h1 : FVal.ofInt .f64 1 = .fin false 1 := by decide +kernel
  have : addSubNumLeftI .sub (.int .i32) (.i 1) ⟨gainTy, .f k⟩ = .ok ⟨gainTy, .f ((FVal.fin false 1).sub .f64 k)⟩ := by
    unfold addSubNumLeftI numOpI
    rw [if_pos (show gainTy.unit = unitOne from rfl)]
    show Except.ok (⟨gainTy, .f ((FVal.ofInt .f64 1).sub .f64 k)⟩ : QtyI) = _
    rw [h1]
  rw [this, ok_bind, mulQtyI_gain ht, ok_bind]
  exact convertQtyI_self E ⟨t, _⟩

theorem covarianceExtrapolateI_eq {t : QTy} (ht : Steady E t) (p n : FVal) :
    covarianceExtrapolateI E ⟨t, .f p⟩ ⟨t, .f n⟩ = .ok ⟨t, .f (p.add .f64 n)⟩ := by
  unfold covarianceExtrapolateI
  rw [if_pos rfl, addSubI_self E false t .f64 ht.rep, ok_bind]
  exact convertQtyI_self E ⟨t, _⟩

end

/-! ### C90 -/

/-- A finite number of the type between two bounds. -/
structure FloatIn (f : FltTy) (lo hi : ℚ) (v : FVal) : Prop where
  finite : v.Finite
  within : v.In f
  lower : lo ≤ v.q
  upper : v.q ≤ hi

section
variable {E : Env} {R : Rebinds}

/-- C90: the gain computed from two variances, not both zero, lies between zero and one and is close to `p / (p + r)`. -/
theorem C90_gain {t : QTy} (ht : SteadyVariance E t) {p r : FVal} (hp : NonNeg .f64 p) (hr : NonNeg .f64 r) (h : 0 < p.q + r.q) :
    ∃ k, kalmanGainI E ⟨t, .f p⟩ ⟨t, .f r⟩ = .ok ⟨gainTy, .f k⟩ ∧ FloatIn .f64 0 1 k ∧
      (p.q + r.q ≤ 2 ^ (FltTy.f64.emax - 1) → |k.q - p.q / (p.q + r.q)| ≤ 3 * FltTy.f64.u * (p.q / (p.q + r.q)) + FltTy.f64.tiny / 2) := by
  obtain ⟨k0, k1⟩ := gainF_bounds hp hr h
  exact ⟨_, kalmanGainI_eq ht p r, ⟨k0.finite, k0.within, k0.nonneg, k1⟩, gainF_err hp hr h⟩

/-- C90: the variance after a measurement is not negative, not above the variance before it, and close to `p r / (p + r)`. -/
theorem C90_covariance {t : QTy} (ht : SteadyVariance E t) {p r : FVal} (hp : NonNeg .f64 p) (hr : NonNeg .f64 r) (h : 0 < p.q + r.q) :
    ∃ k p', kalmanGainI E ⟨t, .f p⟩ ⟨t, .f r⟩ = .ok k ∧ covarianceUpdateI E ⟨t, .f p⟩ k = .ok ⟨t, .f p'⟩ ∧ FloatIn .f64 0 p.q p' ∧
      (p.q + r.q ≤ 2 ^ (FltTy.f64.emax - 1) → |p'.q - p.q * r.q / (p.q + r.q)| ≤ 6 * FltTy.f64.u * p.q + FltTy.f64.tiny) := by
  obtain ⟨k0, k1⟩ := gainF_bounds hp hr h
  obtain ⟨c0, c1⟩ := covF_bounds hp k0 k1
  exact ⟨_, _, kalmanGainI_eq ht p r, covarianceUpdateI_eq ht.toSteady _ _, ⟨c0.finite, c0.within, c0.nonneg, c1⟩, covF_err hp hr h⟩

/-- C90: a gain between zero and one moves the state to within rounding of `s + k (m - s)`; a measurement equal to the state leaves it as it is. -/
theorem C90_update {t : VarTy} (ht : Steady E t.under) {m : VarI} {v s k : FVal} {A : ℚ} (hm : Measured t m v) (hv : FloatIn .f64 (-A) A v)
    (hs : FloatIn .f64 (-A) A s) (hk : FloatIn .f64 0 1 k) (hA : A + 2 ^ FltTy.f64.emin ≤ 2 ^ (FltTy.f64.emax - 3)) :
    ∃ s', stateUpdate1I E R (t.make (.f s)) m ⟨gainTy, .f k⟩ = .ok (t.make (.f s')) ∧ s'.Finite ∧ s'.In .f64 ∧
      |s'.q - (s.q + k.q * (v.q - s.q))| ≤ 6 * FltTy.f64.u * (A + 2 ^ FltTy.f64.emin) ∧ (v.q = s.q → s'.q = s.q) := by
  obtain ⟨h1, h2, h3⟩ := stateF_err hs.finite hs.within hv.finite hv.within ⟨hk.finite, hk.within, hk.lower⟩ hk.upper (abs_le.mpr ⟨hs.lower, hs.upper⟩)
    (abs_le.mpr ⟨hv.lower, hv.upper⟩) hA
  exact ⟨_, stateUpdate1I_eq ht hm s k, h1, h2, h3, fun e => (stateF_same hs.finite hs.within hv.finite hv.within hk.finite hk.within (.inl e)).2.2⟩

theorem convex_between {s v k lo hi e : ℚ} (k0 : 0 ≤ k) (k1 : k ≤ 1) (e0 : 0 ≤ e) (s1 : lo - e ≤ s) (s2 : s ≤ hi + e) (v1 : lo ≤ v) (v2 : v ≤ hi) :
    lo - e ≤ s + k * (v - s) ∧ s + k * (v - s) ≤ hi + e := by
  constructor <;> nlinarith

/-- The variance of the next iteration. -/
theorem noise_step {p r n : FVal} {B : ℚ} (hp : NonNeg .f64 p) (hr : NonNeg .f64 r) (hn : NonNeg .f64 n) (r0 : 0 < r.q) (hB : 4 * (r.q + n.q) ≤ B)
    (hB2 : B ≤ 2 ^ (FltTy.f64.emax - 2)) (hpB : p.q ≤ B) :
    FloatIn .f64 n.q B ((covF .f64 p (gainF .f64 p r)).add .f64 n) := by
  have h : 0 < p.q + r.q := by linarith [hp.nonneg]
  have n0 := hn.nonneg
  have p0 := hp.nonneg
  obtain ⟨k0, k1⟩ := gainF_bounds hp hr h
  obtain ⟨c0, c1⟩ := covF_bounds hp k0 k1
  have e2 : (2 : ℚ) ^ (FltTy.f64.emax - 1) = 2 * 2 ^ (FltTy.f64.emax - 2) := by
    rw [show FltTy.f64.emax - 1 = 1 + (FltTy.f64.emax - 2) by ring, zpow_add₀ (by norm_num), zpow_one]
  generalize hZ : (2 : ℚ) ^ (FltTy.f64.emax - 2) = Z at e2 hB2
  have err := covF_err hp hr h (by rw [e2]; linarith)
  have hrt : FltTy.f64.tiny ≤ r.q := by
    obtain ⟨k, e, -, he, ek⟩ := hr.within.form hr.finite
    have k0 : 0 < k := by
      rw [ek] at r0
      have := pos_of_mul_pos_left r0 (two_zpow_pos e).le
      exact_mod_cast this
    rw [ek]
    calc FltTy.f64.tiny ≤ 2 ^ e := by unfold FltTy.tiny; exact two_zpow_le he
      _ ≤ k * 2 ^ e := le_mul_of_one_le_left (two_zpow_pos e).le (by exact_mod_cast k0)
  have q1 : p.q * r.q / (p.q + r.q) ≤ r.q := by
    rw [div_le_iff₀ h]; nlinarith
  have u0 := FltTy.f64.u_pos
  have u1 := FltTy.f64.u_small
  set c := (covF .f64 p (gainF .f64 p r)) with hc
  have c2 : c.q ≤ 2 * r.q + 6 * FltTy.f64.u * B := by
    have := (abs_le.mp err).2
    have := mul_le_mul_of_nonneg_left hpB (by linarith : 0 ≤ 6 * FltTy.f64.u)
    linarith
  have B0 : 0 ≤ B := by linarith
  have uB : FltTy.f64.u * B ≤ 1 / 2 ^ 24 * B := mul_le_mul_of_nonneg_right u1 B0
  have s0 : 0 ≤ c.q + n.q := by linarith [c0.nonneg]
  have sB : c.q + n.q ≤ B / 2 + 6 * (1 / 2 ^ 24 * B) := by linarith
  obtain ⟨a1, a2, a3⟩ := add_rel c0.within hn.within c0.finite hn.finite (by rw [abs_of_nonneg s0, e2]; linarith)
  rw [abs_of_nonneg s0] at a3
  refine ⟨a1, a2, ?_, ?_⟩
  · have hk := (key_add (f := .f64) c0.finite hn.finite).1
    have : n.q ≤ (c.add .f64 n).key .f64 := by
      rw [hk, ← roundKey_in hn.finite hn.within]
      apply roundKey_mono
      rw [roundKey_in hn.finite hn.within]
      linarith [c0.nonneg]
    rwa [FVal.key_fin a1] at this
  · have := (abs_le.mp a3).2
    have := mul_le_mul u1 sB s0 (by norm_num)
    linarith

/-- C90: a filter with positive measurement variance, with or without process noise: after any number of measurements the state is within accumulated rounding of the range
of the first state and the measurements, and the variance is bounded (without noise it never grows). -/
theorem C90_filter {t : VarTy} (ht : Steady E t.under) {tv : QTy} (hv : SteadyVariance E tv) {r : FVal} (hr : NonNeg .f64 r) (r0 : 0 < r.q) (noise : Option FVal)
    {B lo hi M : ℚ} (hB2 : B ≤ 2 ^ (FltTy.f64.emax - 2)) (hB : ∀ n, noise = some n → NonNeg .f64 n ∧ 4 * (r.q + n.q) ≤ B) (hlo : -M ≤ lo) (hhi : hi ≤ M) :
    ∀ (ms : List VarI) (vs : List FVal) (j : ℕ) (s p : FVal), List.Forall₂ (Measured t) ms vs → (∀ v ∈ vs, FloatIn .f64 lo hi v) →
      (M + 2 ^ FltTy.f64.emin) * (1 + 6 * FltTy.f64.u) ^ (j + ms.length) ≤ 2 ^ (FltTy.f64.emax - 3) →
      FloatIn .f64 (lo - (M + 2 ^ FltTy.f64.emin) * ((1 + 6 * FltTy.f64.u) ^ j - 1)) (hi + (M + 2 ^ FltTy.f64.emin) * ((1 + 6 * FltTy.f64.u) ^ j - 1)) s →
      FloatIn .f64 0 B p →
      ∃ s' p', filterLoopI E R (noise.map fun n => ⟨tv, .f n⟩) ⟨tv, .f r⟩ (t.make (.f s), ⟨tv, .f p⟩) ms = .ok (t.make (.f s'), ⟨tv, .f p'⟩) ∧
        FloatIn .f64 (lo - (M + 2 ^ FltTy.f64.emin) * ((1 + 6 * FltTy.f64.u) ^ (j + ms.length) - 1))
          (hi + (M + 2 ^ FltTy.f64.emin) * ((1 + 6 * FltTy.f64.u) ^ (j + ms.length) - 1)) s' ∧
        FloatIn .f64 0 B p' ∧ (noise = none → p'.q ≤ p.q) ∧ (∀ n, noise = some n → ms ≠ [] → n.q ≤ p'.q) := by
  intro ms
  induction ms with
  | nil =>
    intro vs j s p hms _ _ hs hp
    exact ⟨s, p, rfl, hs, hp, fun _ => le_rfl, fun _ _ h => absurd rfl h⟩
  | cons m ms ih =>
    intro vs j s p hms0 hvs hbig hs hp
    obtain ⟨v, vs, hm, hms, rfl⟩ := List.forall₂_cons_left_iff.mp hms0
    have u0 := FltTy.f64.u_pos
    have np : NonNeg .f64 p := ⟨hp.finite, hp.within, hp.lower⟩
    have h : 0 < p.q + r.q := by linarith [hp.lower]
    obtain ⟨k0, k1⟩ := gainF_bounds np hr h
    obtain ⟨c0, c1⟩ := covF_bounds np k0 k1
    have hv0 := hvs v List.mem_cons_self
    have w0 : (0 : ℚ) < 2 ^ FltTy.f64.emin := two_zpow_pos _
    have M0 : 0 ≤ M := by linarith [hv0.lower, hv0.upper]
    have hpow : (1 : ℚ) ≤ (1 + 6 * FltTy.f64.u) ^ j := one_le_pow₀ (by linarith)
    have hmono : (1 + 6 * FltTy.f64.u) ^ j ≤ (1 + 6 * FltTy.f64.u) ^ (j + (m :: ms).length) := pow_le_pow_right₀ (by linarith) (by omega)
    have hsucc : (1 + 6 * FltTy.f64.u) ^ (j + 1) = (1 + 6 * FltTy.f64.u) ^ j + 6 * FltTy.f64.u * (1 + 6 * FltTy.f64.u) ^ j := by rw [pow_succ]; ring
    have hlen : j + (m :: ms).length = (j + 1) + ms.length := by simp [List.length_cons]; omega
    have hA : (M + 2 ^ FltTy.f64.emin) * (1 + 6 * FltTy.f64.u) ^ j ≤ 2 ^ (FltTy.f64.emax - 3) :=
      (mul_le_mul_of_nonneg_left hmono (by linarith)).trans hbig
    rw [hlen] at hbig ⊢
    generalize hP : (1 + 6 * FltTy.f64.u) ^ j = P at *
    generalize hW : (2 : ℚ) ^ FltTy.f64.emin = W at *
    have e0 : 0 ≤ (M + W) * (P - 1) := mul_nonneg (by linarith) (by linarith)
    set A := M + (M + W) * (P - 1) with hAd
    have hAW : A + W = (M + W) * P := by rw [hAd]; ring
    obtain ⟨x1, x2, x3⟩ := stateF_err (A := A) hs.finite hs.within hv0.finite hv0.within k0 k1
      (abs_le.mpr ⟨by linarith [hs.lower], by linarith [hs.upper]⟩) (abs_le.mpr ⟨by linarith [hv0.lower], by linarith [hv0.upper]⟩) (by rw [hW, hAW]; exact hA)
    rw [hW, hAW] at x3
    obtain ⟨b1, b2⟩ := convex_between k0.nonneg k1 e0 hs.lower hs.upper hv0.lower hv0.upper
    have hs' : FloatIn .f64 (lo - (M + W) * ((1 + 6 * FltTy.f64.u) ^ (j + 1) - 1)) (hi + (M + W) * ((1 + 6 * FltTy.f64.u) ^ (j + 1) - 1))
        (stateF .f64 s v (gainF .f64 p r)) := by
      have y1 := (abs_le.mp x3).1
      have y2 := (abs_le.mp x3).2
      rw [hsucc]
      refine ⟨x1, x2, ?_, ?_⟩ <;> linarith
    obtain ⟨q, hq, hqB, hq1, hq2⟩ : ∃ q, (match (noise.map fun n => (⟨tv, .f n⟩ : QtyI)) with
        | none => (.ok ⟨tv, .f (covF .f64 p (gainF .f64 p r))⟩ : C QtyI)
        | some n => covarianceExtrapolateI E ⟨tv, .f (covF .f64 p (gainF .f64 p r))⟩ n) = .ok ⟨tv, .f q⟩ ∧ FloatIn .f64 0 B q ∧
        (noise = none → q.q ≤ p.q) ∧ (∀ n, noise = some n → n.q ≤ q.q) := by
      cases noise with
      | none => exact ⟨_, rfl, ⟨c0.finite, c0.within, c0.nonneg, c1.trans hp.upper⟩, fun _ => c1, fun _ h => by cases h⟩
      | some n =>
        obtain ⟨hn, hnB⟩ := hB n rfl
        obtain ⟨z1, z2, z3, z4⟩ := noise_step np hr hn r0 hnB hB2 hp.upper
        refine ⟨_, covarianceExtrapolateI_eq hv.toSteady _ _, ⟨z1, z2, hn.nonneg.trans z3, z4⟩, ?_, ?_⟩
        · intro h; cases h
        · intro n' h; cases h; exact z3
    obtain ⟨s', p', g1, g2, g3, g4, g5⟩ := ih vs (j + 1) (stateF .f64 s v (gainF .f64 p r)) q hms (fun v hv => hvs v (List.mem_cons_of_mem _ hv))
      hbig hs' hqB
    refine ⟨s', p', ?_, g2, g3, fun h => (g4 h).trans (hq1 h), fun n hn _ => ?_⟩
    · unfold filterLoopI
      rw [kalmanGainI_eq hv, ok_bind, stateUpdate1I_eq ht hm, ok_bind, covarianceUpdateI_eq hv.toSteady, ok_bind]
      refine Eq.trans ?_ g1
      cases noise with
      | none =>
        have e : (⟨tv, .f (covF .f64 p (gainF .f64 p r))⟩ : QtyI) = ⟨tv, .f q⟩ := Except.ok.inj hq
        rw [e]; rfl
      | some n =>
        have e : covarianceExtrapolateI E ⟨tv, .f (covF .f64 p (gainF .f64 p r))⟩ ⟨tv, .f n⟩ = .ok ⟨tv, .f q⟩ := hq
        show (covarianceExtrapolateI E ⟨tv, .f (covF .f64 p (gainF .f64 p r))⟩ ⟨tv, .f n⟩ >>= _) = _
        rw [e]; rfl
    · cases ms with
      | nil => cases hms; simp only [filterLoopI, Except.ok.injEq, Prod.mk.injEq] at g1
               have : (⟨tv, .f q⟩ : QtyI) = ⟨tv, .f p'⟩ := g1.2
               simp only [QtyI.mk.injEq, FNum.f.injEq, true_and] at this
               rw [← this]; exact hq2 n hn
      | cons a as => exact g5 n hn (by simp)

/-- C90: with an initial variance of `2^56` times the measurement variance or more, the gain is exactly one and the variance after the measurement exactly zero. -/
theorem C90_collapse {t : QTy} (ht : SteadyVariance E t) {p r : FVal} (hp : NonNeg .f64 p) (hr : NonNeg .f64 r) (h : 0 < p.q)
    (hb : p.q + r.q ≤ 2 ^ (FltTy.f64.emax - 1)) (hrp : 2 ^ 56 * r.q ≤ p.q) :
    ∃ k p', kalmanGainI E ⟨t, .f p⟩ ⟨t, .f r⟩ = .ok ⟨gainTy, .f k⟩ ∧ k.q = 1 ∧ covarianceUpdateI E ⟨t, .f p⟩ ⟨gainTy, .f k⟩ = .ok ⟨t, .f p'⟩ ∧ FloatIn .f64 0 0 p' := by
  have hk := gainF_one hp hr h hb (by rw [show FltTy.f64.prec + 3 = (56 : ℕ) by decide, zpow_natCast]; exact hrp)
  obtain ⟨k0, k1⟩ := gainF_bounds hp hr (by linarith [hr.nonneg])
  obtain ⟨c0, -⟩ := covF_bounds hp k0 k1
  have hc := covF_one hp k0 hk
  exact ⟨_, _, kalmanGainI_eq ht p r, hk, covarianceUpdateI_eq ht.toSteady _ _, ⟨c0.finite, c0.within, hc.ge, hc.le⟩⟩

/-- C90: without process noise a filter whose variance is zero ignores every further measurement. -/
theorem C90_frozen {t : VarTy} (ht : Steady E t.under) {tv : QTy} (hv : SteadyVariance E tv) {r : FVal} (hr : NonNeg .f64 r) (r0 : 0 < r.q) :
    ∀ (ms : List VarI) (vs : List FVal) (s p : FVal), List.Forall₂ (Measured t) ms vs → (∀ v ∈ vs, FloatIn .f64 (-2 ^ (FltTy.f64.emax - 2)) (2 ^ (FltTy.f64.emax - 2)) v) →
      FloatIn .f64 (-2 ^ (FltTy.f64.emax - 2)) (2 ^ (FltTy.f64.emax - 2)) s → FloatIn .f64 0 0 p →
      ∃ s' p', filterLoopI E R none ⟨tv, .f r⟩ (t.make (.f s), ⟨tv, .f p⟩) ms = .ok (t.make (.f s'), ⟨tv, .f p'⟩) ∧ s'.Finite ∧ s'.q = s.q ∧ FloatIn .f64 0 0 p'
  | [], _, s, p, .nil, _, hs, hp => ⟨s, p, rfl, hs.finite, rfl, hp⟩
  | m :: ms, v :: vs, s, p, .cons hm hms, hvs, hs, hp => by
    have np : NonNeg .f64 p := ⟨hp.finite, hp.within, hp.lower⟩
    have p0 : p.q = 0 := le_antisymm hp.upper hp.lower
    obtain ⟨k0, k1⟩ := gainF_bounds np hr (by rw [p0]; linarith)
    have kz := gainF_zero np hr p0 r0
    obtain ⟨c0, c1⟩ := covF_bounds np k0 k1
    have hv0 := hvs v List.mem_cons_self
    have e2 : (2 : ℚ) ^ (FltTy.f64.emax - 1) = 2 * 2 ^ (FltTy.f64.emax - 2) := by
      rw [show FltTy.f64.emax - 1 = 1 + (FltTy.f64.emax - 2) by ring, zpow_add₀ (by norm_num), zpow_one]
    obtain ⟨x1, x2, x3⟩ := stateF_same hs.finite hs.within hv0.finite hv0.within k0.finite k0.within (.inr ⟨kz, by
      rw [e2]
      have h1 := hs.lower; have h2 := hs.upper; have h3 := hv0.lower; have h4 := hv0.upper
      generalize (2 : ℚ) ^ (FltTy.f64.emax - 2) = Z at *
      exact abs_le.mpr ⟨by linarith, by linarith⟩⟩)
    obtain ⟨s', p', g1, g2, g3, g4⟩ := C90_frozen ht hv hr r0 ms vs (stateF .f64 s v (gainF .f64 p r)) (covF .f64 p (gainF .f64 p r)) hms
      (fun v hv => hvs v (List.mem_cons_of_mem _ hv)) ⟨x1, x2, x3 ▸ hs.lower, x3 ▸ hs.upper⟩ ⟨c0.finite, c0.within, c0.nonneg, c1.trans hp.upper⟩
    refine ⟨s', p', ?_, g2, g3.trans x3, g4⟩
    unfold filterLoopI
    rw [kalmanGainI_eq hv, ok_bind, stateUpdate1I_eq ht hm, ok_bind, covarianceUpdateI_eq hv.toSteady, ok_bind]
    exact g1

/-- The gain `1. / index` of the first example. -/
theorem average_gain {i : Int} (i1 : 1 ≤ i) (hi : IntTy.i32.In i) :
    ∃ k, numOpI .div (.flt .f64) (.int .i32) (.f (.fin false 1)) (.i i) = .ok (.f k) ∧ FloatIn .f64 0 1 k ∧ |k.q - 1 / i| ≤ 2 * FltTy.f64.u * (1 / i) := by
  have i31 : i ≤ 2 ^ 31 := by have := hi.2; rw [show IntTy.i32.hi = 2147483647 by decide] at this; omega
  have iq : (1 : ℚ) ≤ i := by exact_mod_cast i1
  have iq2 : (i : ℚ) ≤ 2 ^ 31 := by exact_mod_cast i31
  have hrn := rndMag_int (f := .f64) (k := i) (by omega) (lt_of_le_of_lt iq2 (by norm_num [FltTy.prec]))
  have hof : FVal.ofInt .f64 i = .fin false (i : ℚ) := by
    unfold FVal.ofInt FVal.round
    rw [abs_of_nonneg (by linarith), hrn]
    simp; omega
  refine ⟨(FVal.fin false 1).div .f64 (.fin false (i : ℚ)), ?_, ?_⟩
  · rw [← hof]; rfl
  have ii : (FVal.fin false (i : ℚ)).In .f64 := ⟨by linarith, hrn⟩
  have hq : (FVal.fin false (i : ℚ)).q = i := rfl
  have hk := key_div (f := .f64) (x := .fin false 1) (y := .fin false (i : ℚ)) one_in ii trivial trivial (by rw [hq]; linarith)
  rw [hq, one_q] at hk
  have x0 : (0 : ℚ) ≤ 1 / i := by positivity
  have x1 : (1 : ℚ) / i ≤ 1 := by rw [div_le_one (by linarith)]; exact iq
  obtain ⟨b1, b2, b3, b4⟩ := between hk (a := .fin false 0) (b := .fin false 1) trivial (zero_in _) trivial one_in (by rw [zero_q]; exact x0) (by rw [one_q]; exact x1)
  rw [zero_q] at b3
  rw [one_q] at b4
  refine ⟨⟨b1, b2, b3, b4⟩, ?_⟩
  have big : (1 : ℚ) ≤ 2 ^ (FltTy.f64.emax - 1) := one_le_zpow₀ (by norm_num) (by decide)
  have hx := finite_round hk (by rw [abs_of_nonneg x0]; exact x1.trans big)
  have he := (roundKey_err (f := .f64) (w := 1 / (i : ℚ)) (by rw [abs_of_nonneg x0]; exact x1.trans big)).1
  rw [← hx.eq, abs_of_nonneg x0] at he
  have ht : FltTy.f64.tiny ≤ FltTy.f64.u * (1 / 2 ^ 31) := by
    have : FltTy.f64.u = 2 ^ (-53 : Int) := by norm_num [FltTy.u, FltTy.prec]
    rw [this, show ((1 : ℚ) / 2 ^ 31) = 2 ^ (-31 : Int) by norm_num, ← zpow_add₀ (by norm_num)]
    exact two_zpow_le (by decide)
  have : (1 : ℚ) / 2 ^ 31 ≤ 1 / i := one_div_le_one_div_of_le (by linarith) iq2
  have := mul_le_mul_of_nonneg_left this FltTy.f64.u_pos.le
  linarith [FltTy.f64.tiny_pos]

theorem average_step {u A W s v k s' i T D : ℚ} (u0 : 0 ≤ u) (i1 : 1 ≤ i) (W0 : 0 ≤ W) (hk : |k - 1 / i| ≤ 2 * u * (1 / i)) (hs : |s| ≤ A) (hv : |v| ≤ A)
    (hs' : |s' - (s + k * (v - s))| ≤ 6 * u * (A + W)) (hD : |(i - 1) * s - T| ≤ D) : |i * s' - (T + v)| ≤ D + (6 * i + 4) * (u * (A + W)) := by
  have i0 : 0 < i := by linarith
  have A0 : 0 ≤ A := (abs_nonneg _).trans hs
  have e : i * s' - (T + v) = ((i - 1) * s - T) + i * (s' - (s + k * (v - s))) + (i * (k - 1 / i)) * (v - s) := by field_simp; ring
  have h1 : |i * (s' - (s + k * (v - s)))| ≤ i * (6 * u * (A + W)) := by rw [abs_mul, abs_of_pos i0]; exact mul_le_mul_of_nonneg_left hs' i0.le
  have h2 : |i * (k - 1 / i)| ≤ 2 * u := by
    rw [abs_mul, abs_of_pos i0]
    calc i * |k - 1 / i| ≤ i * (2 * u * (1 / i)) := mul_le_mul_of_nonneg_left hk i0.le
      _ = 2 * u := by field_simp
  have h3 : |v - s| ≤ 2 * A := by
    have := abs_sub v s
    linarith
  have h4 : |(i * (k - 1 / i)) * (v - s)| ≤ 2 * u * (2 * A) := by
    rw [abs_mul]; exact mul_le_mul h2 h3 (abs_nonneg _) (by linarith)
  rw [e]
  have := abs_add_le ((i - 1) * s - T + i * (s' - (s + k * (v - s)))) ((i * (k - 1 / i)) * (v - s))
  have := abs_add_le ((i - 1) * s - T) (i * (s' - (s + k * (v - s))))
  have : 0 ≤ u * W := mul_nonneg u0 W0
  linarith

theorem average_loop {t : VarTy} (ht : Steady E t.under) {M : ℚ} (hM : 2 * (M + 2 ^ FltTy.f64.emin) ≤ 2 ^ (FltTy.f64.emax - 3)) :
    ∀ (ms : List VarI) (vs : List FVal) (i : Int) (T : ℚ) (s : FVal), List.Forall₂ (Measured t) ms vs → (∀ v ∈ vs, FloatIn .f64 (-M) M v) → 1 ≤ i →
      IntTy.i32.In (i + ms.length) → s.Finite → s.In .f64 → (i = 1 → |s.q| ≤ M) → |T| ≤ (i - 1) * M →
      |(i - 1) * s.q - T| ≤ (i - 1) * (3 * i + 4) * (FltTy.f64.u * (2 * (M + 2 ^ FltTy.f64.emin))) →
      ∃ s', averageLoopI E R i (t.make (.f s)) ms = .ok (t.make (.f s')) ∧ s'.Finite ∧ s'.In .f64 ∧
        |(i + ms.length - 1) * s'.q - (T + (vs.map FVal.q).sum)| ≤
          (i + ms.length - 1) * (3 * (i + ms.length) + 4) * (FltTy.f64.u * (2 * (M + 2 ^ FltTy.f64.emin)))
  | [], _, i, T, s, .nil, _, _, _, fs, is, _, _, h => ⟨s, rfl, fs, is, by simpa using h⟩
  | m :: ms, v :: vs, i, T, s, .cons hm hms, hvs, i1, hin, fs, is, h1, hT, h => by
    have hv0 := hvs v List.mem_cons_self
    have w0 : (0 : ℚ) < 2 ^ FltTy.f64.emin := two_zpow_pos _
    have M0 : 0 ≤ M := by linarith [hv0.lower, hv0.upper]
    have u0 := FltTy.f64.u_pos
    have iq : (1 : ℚ) ≤ i := by exact_mod_cast i1
    have i31 : i + 1 + ms.length ≤ 2 ^ 31 - 1 := by have := hin.2; rw [show IntTy.i32.hi = 2147483647 by decide] at this; simp at this; omega
    have hin' : IntTy.i32.In (i + 1 + ms.length) := by
      have : i + 1 + (ms.length : Int) = i + (m :: ms).length := by simp; ring
      rw [this]; exact hin
    have hini : IntTy.i32.In i := ⟨by rw [show IntTy.i32.lo = -2147483648 by decide]; omega, by rw [show IntTy.i32.hi = 2147483647 by decide]; omega⟩
    have i32 : (i : ℚ) ≤ 2 ^ 31 := by
      have : i ≤ 2 ^ 31 := by omega
      exact_mod_cast this
    have usm : FltTy.f64.u * (3 * i + 4) ≤ 1 / 2 := by
      have hu : FltTy.f64.u = 1 / 2 ^ 53 := by norm_num [FltTy.u, FltTy.prec]
      rw [hu]
      linarith
    generalize hW : (2 : ℚ) ^ FltTy.f64.emin = W at *
    have hs : |s.q| ≤ 2 * M + W := by
      rcases i1.eq_or_lt with e | e
      · have := h1 e.symm; linarith
      · have iq2 : (2 : ℚ) ≤ i := by exact_mod_cast e
        have b := abs_le.mp h
        have b' := abs_le.mp hT
        have i0 : (0 : ℚ) < i - 1 := by linarith
        have key : (3 * (i : ℚ) + 4) * (FltTy.f64.u * (2 * (M + W))) ≤ M + W := by
          have := mul_le_mul_of_nonneg_right usm (by linarith : 0 ≤ 2 * (M + W))
          linarith
        have key2 := mul_le_mul_of_nonneg_left key i0.le
        rw [← mul_assoc] at key2
        refine abs_le.mpr ⟨?_, ?_⟩ <;> refine le_of_mul_le_mul_left ?_ i0 <;> linarith
    obtain ⟨k, g1, g2, g3⟩ := average_gain i1 hini
    obtain ⟨x1, x2, x3⟩ := stateF_err (A := 2 * M + W) fs is hv0.finite hv0.within ⟨g2.finite, g2.within, g2.lower⟩ g2.upper hs
      (abs_le.mpr ⟨by linarith [hv0.lower], by linarith [hv0.upper]⟩) (by rw [hW]; linarith)
    rw [hW] at x3
    have st := average_step (W := W) u0.le iq w0.le g3 hs (abs_le.mpr ⟨by linarith [hv0.lower], by linarith [hv0.upper]⟩) x3 h
    obtain ⟨s', y1, y2, y3, y4⟩ := average_loop ht (by rw [hW]; exact hM) ms vs (i + 1) (T + v.q) (stateF .f64 s v k) hms
      (fun v hv => hvs v (List.mem_cons_of_mem _ hv)) (by omega) hin' x1 x2 (fun e => by omega) (by
        push_cast
        have := abs_le.mp hT
        refine abs_le.mpr ⟨?_, ?_⟩ <;> linarith [hv0.lower, hv0.upper]) (by
        rw [hW]; push_cast
        rw [show (i : ℚ) + 1 - 1 = i by ring]
        refine st.trans (le_of_eq ?_); ring)
    rw [hW] at y4
    refine ⟨s', ?_, y2, y3, ?_⟩
    · unfold averageLoopI
      rw [g1, ok_bind, stateUpdate1I_eq ht hm, ok_bind]
      exact y1
    · have e : ((i + 1 : Int) : ℚ) + ms.length = i + (m :: ms).length := by simp; ring
      rw [e] at y4
      rw [List.map_cons, List.sum_cons, ← add_assoc]
      exact y4

/-- C90: the running average of the first example stays within rounding of the mean of the measurements, whatever the initial guess (`index` is an `int`, so there are fewer
than `2^31` measurements). -/
theorem C90_average {t : VarTy} (ht : Steady E t.under) {M : ℚ} (hM : 2 * (M + 2 ^ FltTy.f64.emin) ≤ 2 ^ (FltTy.f64.emax - 3)) (ms : List VarI) (vs : List FVal)
    (s : FVal) (hms : List.Forall₂ (Measured t) ms vs) (hvs : ∀ v ∈ vs, FloatIn .f64 (-M) M v) (hs : FloatIn .f64 (-M) M s) (hn : ms ≠ [])
    (hin : IntTy.i32.In (1 + ms.length)) :
    ∃ s', averageLoopI E R 1 (t.make (.f s)) ms = .ok (t.make (.f s')) ∧ s'.Finite ∧
      |s'.q - (vs.map FVal.q).sum / vs.length| ≤ 2 * (3 * vs.length + 7) * FltTy.f64.u * (M + 2 ^ FltTy.f64.emin) := by
  obtain ⟨s', h1, h2, -, h3⟩ := average_loop (R := R) ht hM ms vs 1 0 s hms hvs le_rfl hin hs.finite hs.within
    (fun _ => abs_le.mpr ⟨hs.lower, hs.upper⟩) (by simp) (by simp)
  refine ⟨s', h1, h2, ?_⟩
  rw [← hms.length_eq]
  have n0 : (0 : ℚ) < ms.length := by exact_mod_cast List.length_pos_of_ne_nil hn
  push_cast at h3
  rw [zero_add, show (1 : ℚ) + ms.length - 1 = ms.length by ring] at h3
  have e : s'.q - (vs.map FVal.q).sum / ms.length = (ms.length * s'.q - (vs.map FVal.q).sum) / ms.length := by field_simp
  rw [e, abs_div, abs_of_pos n0, div_le_iff₀ n0]
  refine h3.trans (le_of_eq ?_); ring

/-- C90: two variances that are zero give a gain that is not a number; the state and the variance are not numbers afterwards. -/
theorem C90_zero_variances {t : VarTy} (ht : Steady E t.under) {tv : QTy} (hv : SteadyVariance E tv) (a b : Bool) (m : VarI) (v s : FVal) (hm : Measured t m v) :
    filterLoopI E R none ⟨tv, .f (.fin b 0)⟩ (t.make (.f s), ⟨tv, .f (.fin a 0)⟩) [m] = .ok (t.make (.f .nan), ⟨tv, .f .nan⟩) := by
  have hg : gainF .f64 (.fin a 0) (.fin b 0) = .nan := by cases a <;> cases b <;> decide +kernel
  have hs : stateF .f64 s v .nan = .nan := by
    unfold stateF
    rw [show FVal.mul .f64 .nan (v.sub .f64 s) = .nan by cases (v.sub .f64 s) <;> rfl]
    cases s <;> rfl
  have hc : covF .f64 (.fin a 0) .nan = .nan := rfl
  unfold filterLoopI
  rw [kalmanGainI_eq hv, ok_bind, stateUpdate1I_eq ht hm, ok_bind, covarianceUpdateI_eq hv.toSteady, ok_bind, hg, hs, hc]
  rfl

end

/-! ### Examples -/

/-- The example dimensions with the units of the examples registered (`downcast`, src/core/include/units/unit.h:60-63). -/
def exSteadyUnits : UnitReg := fun r ref => [exMetre, unknownCoherentUnit, unitOne].find? fun u => u.ratio = r ∧ u.ref = ref

def exSteadyEnv : Env := { exKalEnv with units := exSteadyUnits }

def exM2Ty : QTy := ⟨.named exArea, unknownCoherentUnit, .flt .f64⟩
def exMTy : VarTy := .qty (exMetres (.flt .f64))
def exPTy : VarTy := .pt ⟨dynamicOrigin (.base exL), exMetre, .flt .f64⟩

theorem exM2_steady : SteadyVariance exSteadyEnv exM2Ty := by decide +kernel
theorem exM_steady : Steady exSteadyEnv exMTy.under := by decide +kernel
theorem exP_steady : Steady exSteadyEnv exPTy.under := by decide +kernel

theorem exFloat {x : ℚ} (h0 : 0 ≤ x) (hx : FltTy.f64.rndMag x = some x) (lo hi : ℚ) (h1 : lo ≤ x) (h2 : x ≤ hi) : FloatIn .f64 lo hi (.fin false x) :=
  ⟨trivial, ⟨h0, hx⟩, h1, h2⟩

theorem exInt (n : ℕ) (h : n < 2 ^ 53) : FltTy.f64.rndMag (n : ℚ) = some (n : ℚ) := by
  have := rndMag_int (f := .f64) (k := n) (by omega) (by
    have : (n : ℚ) < 2 ^ 53 := by exact_mod_cast h
    have e : (2 : ℚ) ^ FltTy.f64.prec = 2 ^ 53 := by norm_num [FltTy.prec]
    rw [e]; exact_mod_cast this)
  exact_mod_cast this

theorem exNonNeg (n : ℕ) (h : n < 2 ^ 53) : NonNeg .f64 (.fin false n) := ⟨trivial, ⟨by positivity, exInt n h⟩, by simp [FVal.q]⟩

theorem two_le_big {x : ℚ} (hx : x ≤ 2 ^ 80) (k : Int) (hk : 80 ≤ k) : x ≤ 2 ^ k :=
  hx.trans (by
    have := two_zpow_le hk
    exact_mod_cast this)

-- the variances of kalman_filter-example_5.cpp: 225 m² and 25 m²
example : kalmanGainI exSteadyEnv ⟨exM2Ty, .f (.fin false (225 : ℕ))⟩ ⟨exM2Ty, .f (.fin false (25 : ℕ))⟩ = .ok ⟨gainTy, .f (gainF .f64 (.fin false (225 : ℕ)) (.fin false (25 : ℕ)))⟩ ∧
    ∃ k, kalmanGainI exSteadyEnv ⟨exM2Ty, .f (.fin false (225 : ℕ))⟩ ⟨exM2Ty, .f (.fin false (25 : ℕ))⟩ = .ok ⟨gainTy, .f k⟩ ∧ FloatIn .f64 0 1 k := by
  obtain ⟨k, h1, h2, -⟩ := C90_gain exM2_steady (exNonNeg 225 (by norm_num)) (exNonNeg 25 (by norm_num)) (by norm_num [FVal.q])
  exact ⟨kalmanGainI_eq exM2_steady _ _, k, h1, h2⟩

-- the gain of 9/10 is not a double: 225 / 250 rounds to 8106479329266893 / 2^53
example : kalmanGainI exSteadyEnv ⟨exM2Ty, .f (.fin false 225)⟩ ⟨exM2Ty, .f (.fin false 25)⟩ = .ok ⟨gainTy, .f (.fin false (8106479329266893 / 2 ^ 53))⟩ := by decide +kernel

example : ∃ k p', kalmanGainI exSteadyEnv ⟨exM2Ty, .f (.fin false (225 : ℕ))⟩ ⟨exM2Ty, .f (.fin false (25 : ℕ))⟩ = .ok k ∧
    covarianceUpdateI exSteadyEnv ⟨exM2Ty, .f (.fin false (225 : ℕ))⟩ k = .ok ⟨exM2Ty, .f p'⟩ ∧ FloatIn .f64 0 225 p' := by
  obtain ⟨k, p', h1, h2, h3, -⟩ := C90_covariance exM2_steady (exNonNeg 225 (by norm_num)) (exNonNeg 25 (by norm_num)) (by norm_num [FVal.q])
  exact ⟨k, p', h1, h2, by simpa [FVal.q] using h3⟩

-- an integral measurement of 48 m updates a state of 60 m
example : Measured exMTy ((exMTy.withRep (.int .i32)).make (.i 48)) (.fin false 48) := by
  refine .inr ⟨.i32, 48, rfl, by decide, by norm_num, ?_⟩
  norm_num

example : stateUpdate1I exSteadyEnv exNoRebinds (exMTy.make (.f (.fin false 60))) ((exMTy.withRep (.int .i32)).make (.i 48)) ⟨gainTy, .f (.fin false (1 / 4))⟩ =
    .ok (exMTy.make (.f (.fin false 57))) := by decide +kernel

example : ∃ s', stateUpdate1I exSteadyEnv exNoRebinds (exPTy.make (.f (.fin false (60 : ℕ)))) (exPTy.make (.f (.fin false (48 : ℕ)))) ⟨gainTy, .f (.fin false 1)⟩ =
    .ok (exPTy.make (.f s')) ∧ s'.Finite ∧ |s'.q - 48| ≤ 6 * FltTy.f64.u * (60 + 2 ^ FltTy.f64.emin) := by
  obtain ⟨s', h1, h2, -, h3, -⟩ := C90_update (R := exNoRebinds) (A := 60) exP_steady (.inl rfl) (exFloat (x := (48 : ℕ)) (by norm_num) (exInt 48 (by norm_num)) (-60) 60 (by norm_num) (by norm_num))
    (exFloat (x := (60 : ℕ)) (by norm_num) (exInt 60 (by norm_num)) (-60) 60 (by norm_num) (by norm_num)) (⟨trivial, one_in, by norm_num [FVal.q], by norm_num [FVal.q]⟩ : FloatIn .f64 0 1 (.fin false 1))
    (two_le_big (by have : (2 : ℚ) ^ FltTy.f64.emin ≤ 2 ^ (0 : Int) := two_zpow_le (by decide)
                    linarith [this, show (2 : ℚ) ^ (0 : Int) = 1 by norm_num]) _ (by decide))
  refine ⟨s', h1, h2, ?_⟩
  have e : (FVal.fin false ((60 : ℕ) : ℚ)).q + (FVal.fin false 1).q * ((FVal.fin false ((48 : ℕ) : ℚ)).q - (FVal.fin false ((60 : ℕ) : ℚ)).q) = 48 := by norm_num [FVal.q]
  rwa [e] at h3

theorem exEmin_le : (2 : ℚ) ^ FltTy.f64.emin ≤ 1 := by
  have : (2 : ℚ) ^ FltTy.f64.emin ≤ 2 ^ (0 : Int) := two_zpow_le (by decide)
  simpa using this

theorem exMeasured {t : VarTy} {l : List ℕ} : List.Forall₂ (Measured t) (l.map fun n : ℕ => t.make (.f (.fin false n))) (l.map fun n : ℕ => .fin false n) := by
  induction l with
  | nil => exact .nil
  | cons a l ih => exact .cons (.inl rfl) ih

-- three measurements of a building of about 50 m, from a guess of 60 m, as in kalman_filter-example_5.cpp, without noise and with a noise of 1 m²
example (noise : Option FVal) (hn : noise = none ∨ noise = some (.fin false (1 : ℕ))) :
    ∃ s' p', filterLoopI exSteadyEnv exNoRebinds (noise.map fun n => ⟨exM2Ty, .f n⟩) ⟨exM2Ty, .f (.fin false (25 : ℕ))⟩
      (exMTy.make (.f (.fin false (60 : ℕ))), ⟨exM2Ty, .f (.fin false (225 : ℕ))⟩) ([48, 47, 55].map fun n : ℕ => exMTy.make (.f (.fin false n))) =
        .ok (exMTy.make (.f s'), ⟨exM2Ty, .f p'⟩) ∧ FloatIn .f64 0 225 p' ∧ s'.Finite := by
  obtain ⟨s', p', h1, h2, h3, -⟩ := C90_filter (R := exNoRebinds) exM_steady exM2_steady (exNonNeg 25 (by norm_num)) (by norm_num [FVal.q]) noise
    (B := 225) (lo := 47) (hi := 60) (M := 60) (two_le_big (by norm_num) _ (by decide))
    (fun n h => by
      rcases hn with rfl | rfl
      · cases h
      · cases h; exact ⟨exNonNeg 1 (by norm_num), by norm_num [FVal.q]⟩)
    (by norm_num) (by norm_num) ([48, 47, 55].map fun n : ℕ => exMTy.make (.f (.fin false n))) _ 0 (.fin false (60 : ℕ)) (.fin false (225 : ℕ)) exMeasured
    (by
      intro v hv
      simp only [List.map_cons, List.map_nil, List.mem_cons, List.not_mem_nil, or_false] at hv
      rcases hv with rfl | rfl | rfl
      · exact exFloat (by norm_num) (exInt 48 (by norm_num)) _ _ (by norm_num) (by norm_num)
      · exact exFloat (by norm_num) (exInt 47 (by norm_num)) _ _ (by norm_num) (by norm_num)
      · exact exFloat (by norm_num) (exInt 55 (by norm_num)) _ _ (by norm_num) (by norm_num))
    (two_le_big (by
      have hp : (1 + 6 * FltTy.f64.u) ^ 3 ≤ 2 := by norm_num [FltTy.u, FltTy.prec]
      have hp0 : 0 ≤ (1 + 6 * FltTy.f64.u) ^ 3 := by have := FltTy.f64.u_pos; positivity
      have := exEmin_le
      have := two_zpow_pos FltTy.f64.emin
      simp only [List.length_map, List.length_cons, List.length_nil, zero_add, Nat.reduceAdd]
      nlinarith) _ (by decide))
    (exFloat (by norm_num) (exInt 60 (by norm_num)) _ _ (by norm_num) (by norm_num)) (exFloat (by norm_num) (exInt 225 (by norm_num)) _ _ (by norm_num) (by norm_num))
  exact ⟨s', p', h1, h3, h2.finite⟩

-- exact measurements: an initial variance of 2^52 m² with a measurement variance of zero
example : ∃ k p', kalmanGainI exSteadyEnv ⟨exM2Ty, .f (.fin false (2 ^ 52 : ℕ))⟩ ⟨exM2Ty, .f (.fin false 0)⟩ = .ok ⟨gainTy, .f k⟩ ∧ k.q = 1 ∧
    covarianceUpdateI exSteadyEnv ⟨exM2Ty, .f (.fin false (2 ^ 52 : ℕ))⟩ ⟨gainTy, .f k⟩ = .ok ⟨exM2Ty, .f p'⟩ ∧ FloatIn .f64 0 0 p' :=
  C90_collapse exM2_steady (exNonNeg (2 ^ 52) (by norm_num)) ⟨trivial, zero_in _, le_rfl⟩ (by norm_num [FVal.q]) (two_le_big (by norm_num [FVal.q]) _ (by decide)) (by norm_num [FVal.q])

-- the same with a measurement variance that is not zero, computed: the later measurements 5 and 7 are ignored
example : filterLoopI exSteadyEnv exNoRebinds none ⟨exM2Ty, .f (.fin false 1)⟩ (exMTy.make (.f (.fin false 0)), ⟨exM2Ty, .f (.fin false (2 ^ 60))⟩)
    ([3, 5, 7].map fun n : ℕ => exMTy.make (.f (.fin false n))) = .ok (exMTy.make (.f (.fin false 3)), ⟨exM2Ty, .f (.fin false 0)⟩) := by decide +kernel

example : ∃ s' p', filterLoopI exSteadyEnv exNoRebinds none ⟨exM2Ty, .f (.fin false (1 : ℕ))⟩ (exMTy.make (.f (.fin false (3 : ℕ))), ⟨exM2Ty, .f (.fin false 0)⟩)
    ([5, 7].map fun n : ℕ => exMTy.make (.f (.fin false n))) = .ok (exMTy.make (.f s'), ⟨exM2Ty, .f p'⟩) ∧ s'.Finite ∧ s'.q = 3 ∧ FloatIn .f64 0 0 p' := by
  have big : ∀ x : ℚ, 0 ≤ x → x ≤ 2 ^ 53 → -2 ^ (FltTy.f64.emax - 2) ≤ x ∧ x ≤ 2 ^ (FltTy.f64.emax - 2) := fun x h0 h1 =>
    ⟨by have := two_zpow_pos (FltTy.f64.emax - 2); linarith, two_le_big (h1.trans (by norm_num)) _ (by decide)⟩
  obtain ⟨s', p', h1, h2, h3, h4⟩ := C90_frozen (R := exNoRebinds) exM_steady exM2_steady (exNonNeg 1 (by norm_num)) (by norm_num [FVal.q])
    ([5, 7].map fun n : ℕ => exMTy.make (.f (.fin false n))) _ (.fin false (3 : ℕ)) (.fin false 0) exMeasured
    (by
      intro v hv
      simp only [List.map_cons, List.map_nil, List.mem_cons, List.not_mem_nil, or_false] at hv
      rcases hv with rfl | rfl
      · exact exFloat (by norm_num) (exInt 5 (by norm_num)) _ _ (big _ (by norm_num) (by norm_num)).1 (big _ (by norm_num) (by norm_num)).2
      · exact exFloat (by norm_num) (exInt 7 (by norm_num)) _ _ (big _ (by norm_num) (by norm_num)).1 (big _ (by norm_num) (by norm_num)).2)
    (exFloat (by norm_num) (exInt 3 (by norm_num)) _ _ (big _ (by norm_num) (by norm_num)).1 (big _ (by norm_num) (by norm_num)).2) ⟨trivial, zero_in _, le_rfl, le_rfl⟩
  exact ⟨s', p', h1, h2, by rw [h3]; norm_num [FVal.q], h4⟩

-- three measurements averaged, from a guess of 1000
example : ∃ s', averageLoopI exSteadyEnv exNoRebinds 1 (exMTy.make (.f (.fin false (1000 : ℕ)))) ([1030, 989, 1017].map fun n : ℕ => exMTy.make (.f (.fin false n))) =
    .ok (exMTy.make (.f s')) ∧ s'.Finite ∧ |s'.q - 3036 / 3| ≤ 32 * FltTy.f64.u * (1030 + 2 ^ FltTy.f64.emin) := by
  obtain ⟨s', h1, h2, h3⟩ := C90_average (R := exNoRebinds) exM_steady (M := 1030) (two_le_big (by have := exEmin_le; linarith) _ (by decide))
    ([1030, 989, 1017].map fun n : ℕ => exMTy.make (.f (.fin false n))) _ (.fin false (1000 : ℕ)) exMeasured
    (by
      intro v hv
      simp only [List.map_cons, List.map_nil, List.mem_cons, List.not_mem_nil, or_false] at hv
      rcases hv with rfl | rfl | rfl
      · exact exFloat (by norm_num) (exInt 1030 (by norm_num)) _ _ (by norm_num) (by norm_num)
      · exact exFloat (by norm_num) (exInt 989 (by norm_num)) _ _ (by norm_num) (by norm_num)
      · exact exFloat (by norm_num) (exInt 1017 (by norm_num)) _ _ (by norm_num) (by norm_num))
    (exFloat (by norm_num) (exInt 1000 (by norm_num)) _ _ (by norm_num) (by norm_num)) (by simp) (by decide)
  refine ⟨s', h1, h2, ?_⟩
  have e : (([1030, 989, 1017].map fun n : ℕ => FVal.fin false n).map FVal.q).sum = 3036 := by norm_num [FVal.q]
  rw [e] at h3
  simp only [List.length_map, List.length_cons, List.length_nil] at h3
  norm_num at h3 ⊢
  exact h3

example : filterLoopI exSteadyEnv exNoRebinds none ⟨exM2Ty, .f (.fin false 0)⟩ (exMTy.make (.f (.fin false 60)), ⟨exM2Ty, .f (.fin false 0)⟩) [exMTy.make (.f (.fin false 48))] =
    .ok (exMTy.make (.f .nan), ⟨exM2Ty, .f .nan⟩) := C90_zero_variances exM_steady exM2_steady false false _ _ _ (.inl rfl)

/-- C90: the estimate can leave the range of the state and the measurement: a state of 1, a measurement of `-3 · 2^-54` and a gain of 1 (which the variances 1 and `2^-60` give)
lead to `-2^-52`, below both. -/
theorem C90_overshoot : ∃ p, filterLoopI exSteadyEnv exNoRebinds none ⟨exM2Ty, .f (.fin false (1 / 2 ^ 60))⟩ (exMTy.make (.f (.fin false 1)), ⟨exM2Ty, .f (.fin false 1)⟩)
    [exMTy.make (.f (.fin true (3 / 2 ^ 54)))] = .ok (exMTy.make (.f (.fin true (1 / 2 ^ 52))), p) ∧
    (FVal.fin true (1 / 2 ^ 52)).q < (FVal.fin true (3 / 2 ^ 54)).q := ⟨⟨exM2Ty, .f (.fin false 0)⟩, by decide +kernel, by norm_num [FVal.q]⟩

end Verif
