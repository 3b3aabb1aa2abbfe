import Verif.Spec.Rounding
import Mathlib.Data.Int.Log
import Mathlib.Algebra.Order.Round
import Mathlib.Data.Set.Finite.Lattice
import Mathlib.Data.Int.Interval
import Mathlib.Tactic.Linarith
import Mathlib.Tactic.Positivity
import Mathlib.Tactic.NormNum
import Mathlib.Tactic.FieldSimp

/-
Rounding to nearest: existence, relative error, exact evaluation, spacing.
-/
namespace OpenNTN

open Spec

/-- Every number in the normal range has a number of the format within half a unit of the last place. -/
theorem exists_near (f : Format) (hd : 1 ≤ f.digits) {x : ℝ} (lo : (2 : ℝ) ^ (f.emin + f.digits - 1) ≤ |x|) (hi : |x| < f.range) :
    ∃ y, f.Num y ∧ |y - x| ≤ (2 : ℝ) ^ (-(f.digits : ℤ)) * |x| := by
  have hx : 0 < |x| := lt_of_lt_of_le (by positivity) lo
  set k := Int.log 2 |x| with hk
  have h1 : (2 : ℝ) ^ k ≤ |x| := by simpa using Int.zpow_log_le_self (b := 2) (by norm_num) hx
  have h2 : |x| < (2 : ℝ) ^ (k + 1) := by simpa using Int.lt_zpow_succ_log_self (b := 2) (by norm_num) |x|
  have kl : f.emin + f.digits - 1 ≤ k := by
    have := lt_of_le_of_lt lo h2
    rw [zpow_lt_zpow_iff_right₀ (by norm_num)] at this; omega
  have kh : k < f.emax + f.digits - 1 := by
    have := lt_of_le_of_lt h1 hi
    rwa [Format.range, zpow_lt_zpow_iff_right₀ (by norm_num)] at this
  set e : ℤ := k - (f.digits - 1) with he
  have pe : (0 : ℝ) < 2 ^ e := by positivity
  set m : ℤ := round (x / 2 ^ e) with hm
  have hr : |x / 2 ^ e - m| ≤ 1 / 2 := abs_sub_round _
  have near : |(m : ℝ) * 2 ^ e - x| ≤ (2 : ℝ) ^ (-(f.digits : ℤ)) * |x| := by
    have e1 : (m : ℝ) * 2 ^ e - x = -((x / 2 ^ e - m) * 2 ^ e) := by field_simp; ring
    rw [e1, abs_neg, abs_mul, abs_of_pos pe]
    calc |x / 2 ^ e - m| * 2 ^ e ≤ 1 / 2 * 2 ^ e := by gcongr
      _ = (2 : ℝ) ^ (-(f.digits : ℤ)) * 2 ^ k := by
        rw [← zpow_add₀ (by norm_num), show -(f.digits : ℤ) + k = e - 1 by omega, zpow_sub_one₀ (by norm_num)]; ring
      _ ≤ _ := by gcongr
  have bound : |(m : ℝ)| ≤ 2 ^ f.digits := by
    have q : |x / 2 ^ e| < 2 ^ f.digits := by
      rw [abs_div, abs_of_pos pe, div_lt_iff₀ pe, ← zpow_natCast, ← zpow_add₀ (by norm_num)]
      refine h2.trans_le (zpow_le_zpow_right₀ (by norm_num) (by omega))
    rcases abs_lt.1 q with ⟨q1, q2⟩
    have a1 : m ≤ (2 ^ f.digits : ℤ) := by
      by_contra c
      have c' : (2 ^ f.digits : ℤ) + 1 ≤ m := by omega
      have c'' : (2 : ℝ) ^ f.digits + 1 ≤ m := by exact_mod_cast c'
      have := abs_le.1 hr
      linarith
    have a2 : -(2 ^ f.digits : ℤ) ≤ m := by
      by_contra c
      have c' : m + 1 ≤ -(2 ^ f.digits : ℤ) := by omega
      have c'' : (m : ℝ) + 1 ≤ -2 ^ f.digits := by exact_mod_cast c'
      have := abs_le.1 hr
      linarith
    rw [abs_le]
    exact ⟨by exact_mod_cast a2, by exact_mod_cast a1⟩
  refine ⟨m * 2 ^ e, ?_, near⟩
  rcases lt_or_eq_of_le bound with lt | eq
  · exact ⟨m, e, by exact_mod_cast lt, by omega, by omega, rfl⟩
  · have ei : |m| = 2 ^ f.digits := by exact_mod_cast eq
    obtain ⟨n, hn⟩ := Nat.exists_eq_add_of_le hd
    rcases abs_eq (by positivity) |>.1 ei with h | h
    · refine ⟨2 ^ n, e + 1, ?_, by omega, by omega, ?_⟩
      · rw [abs_of_pos (by positivity), hn]; exact pow_lt_pow_right₀ (by norm_num) (by omega)
      · rw [h, hn, zpow_add_one₀ (by norm_num)]; push_cast; ring
    · refine ⟨-2 ^ n, e + 1, ?_, by omega, by omega, ?_⟩
      · rw [abs_neg, abs_of_pos (by positivity), hn]; exact pow_lt_pow_right₀ (by norm_num) (by omega)
      · rw [h, hn, zpow_add_one₀ (by norm_num)]; push_cast; ring

/-- Relative error in the normal range. -/
theorem Spec.Nearest.rel {f : Format} {rnd : ℝ → ℝ} (h : Nearest f rnd) (hd : 1 ≤ f.digits) {x : ℝ}
    (lo : (2 : ℝ) ^ (f.emin + f.digits - 1) ≤ |x|) (hi : |x| < f.range) : |rnd x - x| ≤ (2 : ℝ) ^ (-(f.digits : ℤ)) * |x| := by
  obtain ⟨y, hy, b⟩ := exists_near f hd lo hi
  exact ((h x hi).2 y hy).trans b

/-- Numbers of the format are kept. -/
theorem Spec.Nearest.num {f : Format} {rnd : ℝ → ℝ} (h : Nearest f rnd) {x : ℝ} (hx : f.Num x) (hi : |x| < f.range) : rnd x = x := by
  have := (h x hi).2 x hx
  rw [sub_self, abs_zero] at this
  exact sub_eq_zero.1 (abs_eq_zero.1 (le_antisymm this (abs_nonneg _)))

theorem Spec.Format.num_zero {f : Format} (h : f.emin ≤ f.emax) : f.Num 0 :=
  ⟨0, f.emin, by simp, le_rfl, h, by simp⟩

theorem Spec.Nearest.zero {f : Format} {rnd : ℝ → ℝ} (h : Nearest f rnd) (he : f.emin ≤ f.emax) : rnd 0 = 0 :=
  h.num (Format.num_zero he) (by rw [abs_zero]; unfold Format.range; positivity)

/-- Error of every rounding that does not overflow. -/
theorem Spec.Nearest.err {f : Format} {rnd : ℝ → ℝ} (h : Nearest f rnd) (hd : 1 ≤ f.digits) (he : f.emin ≤ f.emax) {x : ℝ} (hi : |x| < f.range) :
    |rnd x - x| ≤ (2 : ℝ) ^ (-(f.digits : ℤ)) * |x| + (2 : ℝ) ^ (f.emin + f.digits - 1) := by
  rcases le_or_gt ((2 : ℝ) ^ (f.emin + f.digits - 1)) |x| with lo | lo
  · exact (h.rel hd lo hi).trans (le_add_of_nonneg_right (by positivity))
  · have := (h x hi).2 0 (Format.num_zero he)
    rw [zero_sub, abs_neg] at this
    have : (0 : ℝ) ≤ (2 : ℝ) ^ (-(f.digits : ℤ)) * |x| := by positivity
    linarith

/-- Evaluation: a number strictly nearer than half a unit is the result. -/
theorem Spec.Nearest.eval {f : Format} {rnd : ℝ → ℝ} (h : Nearest f rnd) (hd : 1 ≤ f.digits) {x : ℝ} (m e : ℤ) (m1 : 2 ^ (f.digits - 1) < m)
    (m2 : m < 2 ^ f.digits) (e1 : f.emin ≤ e) (e2 : e ≤ f.emax) (hi : |x| < f.range) (near : |m * (2 : ℝ) ^ e - x| < (2 : ℝ) ^ e / 2) :
    rnd x = m * (2 : ℝ) ^ e := by
  have pe : (0 : ℝ) < 2 ^ e := by positivity
  have mp : 0 < m := lt_trans (by positivity) m1
  obtain ⟨⟨m', e', b', l', u', z⟩, best⟩ := h x hi
  have b := best (m * (2 : ℝ) ^ e) ⟨m, e, by rwa [abs_of_pos mp], e1, e2, rfl⟩
  have close : |rnd x - m * (2 : ℝ) ^ e| < 2 ^ e := by
    calc _ ≤ |rnd x - x| + |x - m * (2 : ℝ) ^ e| := abs_sub_le _ _ _
      _ ≤ |m * (2 : ℝ) ^ e - x| + |m * (2 : ℝ) ^ e - x| := add_le_add b (by rw [abs_sub_comm])
      _ < _ := by linarith
  rcases le_or_gt e e' with le | lt
  · obtain ⟨j, hj⟩ := Int.eq_ofNat_of_zero_le (sub_nonneg.2 le)
    have z' : rnd x = (m' * 2 ^ j : ℤ) * (2 : ℝ) ^ e := by
      rw [z, show e' = j + e by omega, zpow_add₀ (by norm_num), zpow_natCast]; push_cast; ring
    rw [z', ← sub_mul, abs_mul, abs_of_pos pe] at close
    have : |((m' * 2 ^ j : ℤ) : ℝ) - m| < 1 := by
      by_contra c
      have := mul_le_mul_of_nonneg_right (not_lt.1 c) pe.le
      linarith
    have q : |m' * 2 ^ j - m| < 1 := by exact_mod_cast this
    rw [z', show m' * 2 ^ j = m by have := Int.abs_lt_one_iff.1 q; omega]
  · exfalso
    have up : rnd x < (2 : ℝ) ^ (f.digits - 1) * 2 ^ e := by
      rw [z]
      have q : (m' : ℝ) < 2 ^ f.digits := by exact_mod_cast (le_abs_self m').trans_lt b'
      calc (m' : ℝ) * 2 ^ e' < 2 ^ f.digits * 2 ^ e' := by gcongr
        _ ≤ 2 ^ f.digits * 2 ^ (e - 1) := by gcongr; norm_num; omega
        _ = _ := by
          obtain ⟨n, hn⟩ := Nat.exists_eq_add_of_le hd
          rw [hn, show 1 + n - 1 = n by omega, zpow_sub_one₀ (by norm_num), pow_add]; ring
    have dn : (2 : ℝ) ^ (f.digits - 1) * 2 ^ e ≤ (m - 1) * 2 ^ e := by
      gcongr
      have : (2 ^ (f.digits - 1) : ℤ) ≤ m - 1 := by omega
      exact_mod_cast this
    have := (abs_lt.1 close).1
    linarith

/-- Spacing: numbers of at least `2ᵏ` are multiples of `2^(k - digits + 1)`. -/
theorem Spec.Format.Num.spacing {f : Format} {z : ℝ} (h : f.Num z) (k : ℤ) (hz : (2 : ℝ) ^ k ≤ |z|) :
    ∃ n : ℤ, z = n * (2 : ℝ) ^ (k - f.digits + 1) := by
  obtain ⟨m, e, b, _, _, rfl⟩ := h
  have q : (2 : ℝ) ^ k < 2 ^ (f.digits + e) := by
    refine hz.trans_lt ?_
    rw [abs_mul, abs_of_pos (a := (2 : ℝ) ^ e) (by positivity), zpow_add₀ (by norm_num), zpow_natCast]
    gcongr
    exact_mod_cast b
  rw [zpow_lt_zpow_iff_right₀ (by norm_num)] at q
  obtain ⟨j, hj⟩ := Int.eq_ofNat_of_zero_le (show 0 ≤ e - (k - f.digits + 1) by omega)
  refine ⟨m * 2 ^ j, ?_⟩
  rw [show e = j + (k - f.digits + 1) by omega, zpow_add₀ (by norm_num), zpow_natCast]; push_cast; ring

/-- A format has finitely many numbers. -/
theorem Spec.Format.finite (f : Format) : {x | f.Num x}.Finite := by
  have : {x | f.Num x} ⊆ (fun p : ℤ × ℤ => (p.1 : ℝ) * (2 : ℝ) ^ p.2) '' (Set.Icc (-2 ^ f.digits) (2 ^ f.digits) ×ˢ Set.Icc f.emin f.emax) := by
    rintro x ⟨m, e, b, l, u, rfl⟩
    exact ⟨(m, e), ⟨⟨(abs_le.1 b.le).1, (abs_le.1 b.le).2⟩, l, u⟩, rfl⟩
  exact (((Set.finite_Icc _ _).prod (Set.finite_Icc _ _)).image _).subset this

/-- Rounding to nearest exists. -/
theorem exists_nearest (f : Format) (h : f.emin ≤ f.emax) : ∃ rnd, Nearest f rnd := by
  have : ∀ x : ℝ, ∃ y, f.Num y ∧ ∀ z, f.Num z → |y - x| ≤ |z - x| := fun x =>
    Set.exists_min_image _ (fun y => |y - x|) f.finite ⟨0, Format.num_zero h⟩
  choose r hr using this
  exact ⟨r, fun x _ => hr x⟩

/-! ### Products and quotients with several roundings -/

/-- `y` arises from `x` by at most `k` relative errors of at most `u` each. -/
def Rel (u : ℝ) (k : ℕ) (x y : ℝ) : Prop := ∃ r, (1 - u) ^ k ≤ r ∧ r * (1 - u) ^ k ≤ 1 ∧ y = x * r

theorem Rel.refl (u x : ℝ) : Rel u 0 x x := ⟨1, by simp, by simp, by simp⟩

theorem Rel.mono {u : ℝ} (u0 : 0 ≤ u) (u1 : u < 1) {k l : ℕ} (h : k ≤ l) {x y : ℝ} (a : Rel u k x y) : Rel u l x y := by
  obtain ⟨r, r1, r2, e⟩ := a
  have : (1 - u) ^ l ≤ (1 - u) ^ k := pow_le_pow_of_le_one (by linarith) (by linarith) h
  have rp : 0 < r := lt_of_lt_of_le (by have : 0 < 1 - u := by linarith
                                        positivity) r1
  exact ⟨r, this.trans r1, le_trans (by gcongr) r2, e⟩

theorem Rel.mul {u : ℝ} (u1 : u < 1) {k l : ℕ} {x y x' y' : ℝ} (a : Rel u k x y) (b : Rel u l x' y') : Rel u (k + l) (x * x') (y * y') := by
  obtain ⟨r, r1, r2, rfl⟩ := a
  obtain ⟨s, s1, s2, rfl⟩ := b
  have p : 0 < 1 - u := by linarith
  have rp : 0 < r := lt_of_lt_of_le (by positivity) r1
  have sp : 0 < s := lt_of_lt_of_le (by positivity) s1
  refine ⟨r * s, ?_, ?_, by ring⟩
  · rw [pow_add]; gcongr
  · calc r * s * (1 - u) ^ (k + l) = (r * (1 - u) ^ k) * (s * (1 - u) ^ l) := by rw [pow_add]; ring
      _ ≤ 1 * 1 := by gcongr
      _ = 1 := by ring

theorem Rel.div {u : ℝ} (u1 : u < 1) {k l : ℕ} {x y x' y' : ℝ} (a : Rel u k x y) (b : Rel u l x' y') : Rel u (k + l) (x / x') (y / y') := by
  obtain ⟨r, r1, r2, rfl⟩ := a
  obtain ⟨s, s1, s2, rfl⟩ := b
  have p : 0 < 1 - u := by linarith
  have rp : 0 < r := lt_of_lt_of_le (by positivity) r1
  have sp : 0 < s := lt_of_lt_of_le (by positivity) s1
  refine ⟨r / s, ?_, ?_, by rw [mul_div_mul_comm]⟩
  · rw [pow_add, le_div_iff₀ sp]
    calc (1 - u) ^ k * (1 - u) ^ l * s = (1 - u) ^ k * (s * (1 - u) ^ l) := by ring
      _ ≤ (1 - u) ^ k * 1 := by gcongr
      _ ≤ r := by linarith
  · rw [div_mul_eq_mul_div, div_le_one sp, pow_add]
    calc r * ((1 - u) ^ k * (1 - u) ^ l) = (r * (1 - u) ^ k) * (1 - u) ^ l := by ring
      _ ≤ 1 * (1 - u) ^ l := by gcongr
      _ ≤ s := by linarith

theorem Rel.trans {u : ℝ} (u1 : u < 1) {k l : ℕ} {x y z : ℝ} (a : Rel u k x y) (b : Rel u l y z) : Rel u (k + l) x z := by
  obtain ⟨r, r1, r2, rfl⟩ := a
  obtain ⟨s, s1, s2, rfl⟩ := b
  have := Rel.mul u1 (x := x) (y := x * r) (x' := 1) (y' := s) ⟨r, r1, r2, rfl⟩ ⟨s, s1, s2, by ring⟩
  simpa using this

theorem Rel.of_err {u : ℝ} (u0 : 0 ≤ u) (u1 : u < 1) {x y : ℝ} (h : |y - x| ≤ u * |x|) : Rel u 1 x y := by
  rcases eq_or_ne x 0 with rfl | hx
  · rw [abs_zero, mul_zero, sub_zero] at h
    exact ⟨1, by linarith [u0, pow_one (1 - u)], by linarith [pow_one (1 - u)], by rw [abs_eq_zero.1 (le_antisymm h (abs_nonneg _))]; ring⟩
  · have e : |y / x - 1| ≤ u := by
      rw [show y / x - 1 = (y - x) / x by field_simp, abs_div, div_le_iff₀ (abs_pos.2 hx)]; exact h
    rcases abs_le.1 e with ⟨a, b⟩
    refine ⟨y / x, by rw [pow_one]; linarith, ?_, by field_simp⟩
    rw [pow_one]
    calc y / x * (1 - u) ≤ (1 + u) * (1 - u) := mul_le_mul_of_nonneg_right (by linarith) (by linarith)
      _ ≤ 1 := by nlinarith

/-- Absolute error after `k` relative errors. -/
theorem Rel.abs {u : ℝ} (u0 : 0 ≤ u) {k : ℕ} (hk : (k : ℝ) * (k + 1) * u ≤ 1) {x y : ℝ} (h : Rel u k x y) : |y - x| ≤ (k + 1) * u * |x| := by
  obtain ⟨r, r1, r2, rfl⟩ := h
  have hku : (k : ℝ) * u ≤ 1 := by nlinarith [(Nat.cast_nonneg k : (0 : ℝ) ≤ k), mul_nonneg (mul_nonneg (Nat.cast_nonneg k : (0 : ℝ) ≤ k) (Nat.cast_nonneg k : (0 : ℝ) ≤ k)) u0]
  have b : 1 - k * u ≤ (1 - u) ^ k := by
    rcases Nat.eq_zero_or_pos k with rfl | kp
    · simp
    have k1 : (1 : ℝ) ≤ k := by exact_mod_cast kp
    have := one_add_mul_le_pow (a := -u) (by nlinarith) k
    calc 1 - k * u = 1 + k * (-u) := by ring
      _ ≤ (1 + -u) ^ k := this
      _ = _ := by ring
  have rp : r ≤ 1 + (k + 1) * u := by
    by_contra c
    have c := not_le.1 c
    have r0 : 0 ≤ r := by nlinarith [mul_nonneg (by positivity : (0 : ℝ) ≤ (k : ℝ) + 1) u0]
    rcases eq_or_lt_of_le u0 with rfl | up
    · simp at r2 c; linarith
    have h1 : r * (1 - k * u) ≤ 1 := (mul_le_mul_of_nonneg_left b r0).trans r2
    rcases eq_or_lt_of_le hku with eq | lt
    · have : (k : ℝ) * (k + 1) * u = k + 1 := by rw [mul_right_comm, eq, one_mul]
      rw [this] at hk
      have k0 : (k : ℝ) = 0 := by linarith [(Nat.cast_nonneg k : (0 : ℝ) ≤ k)]
      rw [k0] at eq; linarith
    · have h2 : (1 + (k + 1) * u) * (1 - k * u) < r * (1 - k * u) := mul_lt_mul_of_pos_right c (by linarith)
      nlinarith
  have rl : 1 - (k + 1) * u ≤ r := by linarith
  rw [show x * r - x = (r - 1) * x by ring, abs_mul]
  gcongr
  rw [abs_le]; constructor <;> linarith

end OpenNTN
