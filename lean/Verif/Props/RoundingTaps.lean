import Verif.Model.RoundingTaps
import Verif.Props.RoundingConvert
import Verif.Props.RoundingUts

/-
C211: tap range and subcarrier grid in single precision.
-/
namespace OpenNTN

open Spec

/-- C211: with exact arithmetic the lag is that of the model. -/
theorem C211_model (bandwidth maxDelay : ℝ) : Arith.exact.lagMax bandwidth maxDelay = (timeLag bandwidth maxDelay).2 := by
  simp only [Arith.lagMax, Arith.exact, timeLag, id]

/-- Integers of moderate size are numbers of single precision. -/
theorem num_int {n : ℤ} (h : |n| < 2 ^ 24) : single.Num n := ⟨n, 0, h, by norm_num [single], by norm_num [single], by simp⟩

theorem rnd_int {r : ℝ → ℝ} (hr : Nearest single r) {n : ℤ} (h : |n| < 2 ^ 24) : r n = n :=
  hr.num (num_int h) (by
    have : |(n : ℝ)| < 2 ^ 24 := by exact_mod_cast h
    exact this.trans (lt_trans (by norm_num) (range_ge (Or.inl rfl))))

/-- What is very near to an integer is rounded to it. -/
theorem rnd_near_int {r : ℝ → ℝ} (hr : Nearest single r) {n : ℕ} (hn : n < 2 ^ 24) {x : ℝ} (hx : |x - n| ≤ n / 2 ^ 50) : r x = n := by
  rcases Nat.eq_zero_or_pos n with rfl | n0
  · have : x = 0 := by simpa using hx
    rw [this]
    simpa using hr.zero (by norm_num [single])
  have n1 : (1 : ℝ) ≤ n := by exact_mod_cast n0
  have n2 : (n : ℝ) < 16777216 := by exact_mod_cast (show n < 16777216 from hn)
  have hxa : |x| < single.range := by
    refine lt_of_le_of_lt (b := (2 : ℝ) ^ 26) ?_ (lt_trans (by norm_num) (range_ge (Or.inl rfl)))
    have := abs_add_le (x - n) n
    rw [sub_add_cancel, abs_of_pos (show (0 : ℝ) < n by linarith)] at this
    norm_num at hx ⊢
    linarith
  obtain ⟨num, best⟩ := hr x hxa
  have hb := best n (by have := num_int (n := (n : ℤ)) (by rw [abs_of_nonneg (by positivity)]; exact_mod_cast hn); simpa using this)
  have hd : |r x - n| ≤ n / 2 ^ 49 := by
    calc |r x - n| ≤ |r x - x| + |x - n| := abs_sub_le _ _ _
      _ ≤ n / 2 ^ 50 + n / 2 ^ 50 := add_le_add (hb.trans (by rwa [abs_sub_comm])) hx
      _ = n / 2 ^ 49 := by ring
  obtain ⟨d1, d2⟩ := abs_le.1 hd
  set k := Nat.log 2 n
  have k1 : (2 : ℝ) ^ k ≤ n := by exact_mod_cast Nat.pow_log_le_self 2 n0.ne'
  have k2 : (n : ℝ) < 2 ^ (k + 1) := by exact_mod_cast Nat.lt_pow_succ_log_self (by norm_num) n
  have half : (2 : ℝ) ^ ((k : ℤ) - 1) = 2 ^ k / 2 := by rw [zpow_sub_one₀ (by norm_num), zpow_natCast]; ring
  have a1 : (2 : ℝ) ^ ((k : ℤ) - 1) ≤ |r x| := by
    rw [half]
    refine le_trans ?_ (le_abs_self _)
    norm_num at d1 ⊢
    linarith
  have a2 : (2 : ℝ) ^ ((k : ℤ) - 1) ≤ |(n : ℝ)| := by
    rw [half, abs_of_pos (by linarith)]; linarith
  obtain ⟨i, hi⟩ := num.spacing _ a1
  obtain ⟨j, hj⟩ := Spec.Format.Num.spacing (f := single) (z := (n : ℝ))
    (by have := num_int (n := (n : ℤ)) (by rw [abs_of_nonneg (by positivity)]; exact_mod_cast hn); simpa using this) _ a2
  set s := (2 : ℝ) ^ ((k : ℤ) - 1 - (single.digits : ℤ) + 1) with hs
  have s0 : 0 < s := by positivity
  have se : s = 2 ^ k / 16777216 := by
    rw [hs, show (k : ℤ) - 1 - (single.digits : ℤ) + 1 = k - (24 : ℕ) by simp [single]; ring, zpow_sub₀ (by norm_num), zpow_natCast, zpow_natCast]
    norm_num
  have lt : |((i - j : ℤ) : ℝ)| * s < 1 * s := by
    rw [← abs_of_pos s0, ← abs_mul, abs_of_pos s0]
    have : ((i - j : ℤ) : ℝ) * s = r x - n := by rw [hi, hj]; push_cast; ring
    rw [this, se]
    refine hd.trans_lt ?_
    rw [pow_succ] at k2
    norm_num at k2 ⊢
    linarith
  have : |i - j| < 1 := by exact_mod_cast lt_of_mul_lt_mul_right lt s0.le
  have : i = j := by have := Int.abs_lt_one_iff.1 this; omega
  rw [hi, hj, this]

/-- The product that Python computes of the numbers written. -/
theorem py_product {py : ℝ → ℝ} (hp : Nearest double py) {W D : ℝ} (W1 : 1 ≤ W) (W2 : W ≤ 10 ^ 12) (D0 : D = 0 ∨ 1 / 10 ^ 12 ≤ D) (D2 : D ≤ 10 ^ 12) :
    |py (py D * py W) - D * W| ≤ D * W / 2 ^ 51 := by
  have hf : IEEE double := Or.inr rfl
  rcases D0 with rfl | D1
  · rw [hp.zero (by norm_num [double]), zero_mul, hp.zero (by norm_num [double])]; simp
  have Dp : 0 < D := lt_of_lt_of_le (by norm_num) D1
  have Wp : 0 < W := by linarith
  have h1 := rnd_rel hf hp (x := D) (by rw [abs_of_pos Dp]; exact le_trans (by norm_num) D1) (by rw [abs_of_pos Dp]; exact D2.trans (by norm_num))
  have h2 := rnd_rel hf hp (x := W) (by rw [abs_of_pos Wp]; exact le_trans (by norm_num) W1) (by rw [abs_of_pos Wp]; exact W2.trans (by norm_num))
  have h3 := Rel.mul (unit_lt_one hf) h1 h2
  have lo : 1 / 10 ^ 12 ≤ D * W := by nlinarith
  have hi : D * W ≤ 10 ^ 12 * 10 ^ 12 := by gcongr
  have h4 := Rel.rnd hf hp (by norm_num) h3 (le_trans (by norm_num) lo) (hi.trans (by norm_num))
  have h5 := h4.abs (unit_pos _).le (by rw [unit_double]; norm_num)
  rw [abs_of_pos (show 0 < D * W by positivity), unit_double] at h5
  refine h5.trans (le_of_eq ?_)
  norm_num
  ring

/-- What `tf.math.ceil` is given: rounded to single precision it lies between the integers around the exact product, and it is that product if that
is an integer. -/
theorem lag_product {A : Arith} (hr : Nearest single A.rnd) (hp : Nearest double A.py) {W D : ℝ} (W1 : 1 ≤ W) (W2 : W ≤ 10 ^ 12) (D0 : D = 0 ∨ 1 / 10 ^ 12 ≤ D)
    (D2 : D ≤ 10 ^ 12) (hb : D * W ≤ 10 ^ 7) (n : ℕ) :
    (D * W ≤ n → n < 2 ^ 24 → A.rnd (A.py (A.py D * A.py W)) ≤ n) ∧ (n ≤ D * W → n ≤ A.rnd (A.py (A.py D * A.py W))) := by
  have e := py_product hp W1 W2 D0 D2
  have P0 : 0 ≤ D * W := by rcases D0 with rfl | h; simp; have : 0 < D := lt_of_lt_of_le (by norm_num) h; positivity
  obtain ⟨e1, e2⟩ := abs_le.1 e
  have bound : |A.py (A.py D * A.py W)| ≤ 10 ^ 30 := by
    rw [abs_le]; norm_num at e1 e2 hb ⊢; constructor <;> linarith
  constructor
  · intro le lt
    have n2 : (n : ℝ) < 16777216 := by exact_mod_cast (show n < 16777216 from lt)
    have n0 : (0 : ℝ) ≤ n := by positivity
    have q := rnd_near_int hr lt (x := n + n / 2 ^ 51) (by
      rw [add_sub_cancel_left, abs_of_nonneg (by positivity)]; gcongr <;> norm_num)
    rw [← q]
    refine mono_single hr bound ?_ ?_
    · rw [abs_of_nonneg (by positivity)]; norm_num; linarith
    · have : D * W / 2 ^ 51 ≤ n / 2 ^ 51 := by gcongr
      linarith
  · intro le
    have n0 : (0 : ℝ) ≤ n := by positivity
    have n2 : (n : ℝ) ≤ 10 ^ 7 := le.trans hb
    have lt : n < 2 ^ 24 := by
      have : n ≤ 10 ^ 7 := by exact_mod_cast n2
      exact lt_of_le_of_lt this (by norm_num)
    have q := rnd_near_int hr lt (x := n - n / 2 ^ 51) (by
      rw [sub_sub_cancel_left, abs_neg, abs_of_nonneg (by positivity)]; gcongr <;> norm_num)
    rw [← q]
    refine mono_single hr ?_ bound ?_
    · rw [abs_of_nonneg (by norm_num; linarith)]; norm_num at n2 ⊢; linarith
    · norm_num at e1 ⊢
      linarith

/-- Admissible arguments: bandwidths from 1 Hz to 1 THz, no delay spread or one from 1 ps, at most ten million taps. -/
structure Spec.LagArguments (W D : ℝ) : Prop where
  bandwidth : 1 ≤ W ∧ W ≤ 10 ^ 12
  delay : D = 0 ∨ 1 / 10 ^ 12 ≤ D
  taps : D * W ≤ 10 ^ 7

/-- C211 in full: the largest lag is the documented one, `⌈W τ⌉ + 6`. -/
def C211_statement : Prop := ∀ (A : Arith), Nearest single A.rnd → Nearest double A.py → ∀ W D, Spec.LagArguments W D → A.lagMax W D = ⌈D * W⌉ + 6

theorem lagMax_eq {A : Arith} (hr : Nearest single A.rnd) {W D : ℝ} {n : ℤ} (h : ⌈A.rnd (A.py (A.py D * A.py W))⌉ = n) (n0 : 0 ≤ n) (n1 : n ≤ 10 ^ 7 + 1) :
    A.lagMax W D = n + 6 := by
  unfold Arith.lagMax
  rw [h, show ((n : ℝ) + 6) = ((n + 6 : ℤ) : ℝ) by push_cast; ring, rnd_int hr (by rw [abs_of_nonneg (by omega)]; norm_num at n1 ⊢; omega)]
  exact truncInt_int _

/-- C211, the part that holds. The largest lag is the documented one or one less; it is the documented one if the product is an integer. Lags cover all
delays up to the largest, with a margin of six up to `2⁻²²` of the delay. -/
theorem C211_lag_partial (A : Arith) (hr : Nearest single A.rnd) (hp : Nearest double A.py) (W D : ℝ) (h : Spec.LagArguments W D) :
    (A.lagMax W D = ⌈D * W⌉ + 6 ∨ A.lagMax W D = ⌈D * W⌉ + 5) ∧
    (∀ n : ℤ, D * W = n → A.lagMax W D = n + 6) ∧
    ∀ tau, 0 ≤ tau → tau ≤ D → W * tau ≤ (A.lagMax W D - 6 : ℝ) + D * W / 2 ^ 22 := by
  obtain ⟨⟨W1, W2⟩, D0, hb⟩ := h
  have Wp : 0 < W := by linarith
  have D00 : 0 ≤ D := by
    rcases D0 with rfl | h
    · exact le_rfl
    · exact le_trans (by norm_num) h
  have D2 : D ≤ 10 ^ 12 := by nlinarith
  have P0 : 0 ≤ D * W := by positivity
  set q := A.rnd (A.py (A.py D * A.py W)) with hq
  obtain ⟨n, hn⟩ := Int.eq_ofNat_of_zero_le (Int.ceil_nonneg P0)
  have n7 : n ≤ 10 ^ 7 := by
    have : ⌈D * W⌉ ≤ 10 ^ 7 := Int.ceil_le.2 (by norm_num at hb ⊢; exact hb)
    rw [hn] at this; exact_mod_cast this
  have up : q ≤ n := (lag_product hr hp W1 W2 D0 D2 hb n).1 (by have := Int.le_ceil (D * W); rw [hn] at this; simpa using this) (lt_of_le_of_lt n7 (by norm_num))
  have q0 : 0 ≤ q := by have := (lag_product hr hp W1 W2 D0 D2 hb 0).2 (by simpa using P0); simpa using this
  have cup : ⌈q⌉ ≤ n := Int.ceil_le.2 (by exact_mod_cast up)
  have c0 : 0 ≤ ⌈q⌉ := Int.ceil_nonneg q0
  have cdn : (n : ℤ) - 1 ≤ ⌈q⌉ := by
    rcases Nat.eq_zero_or_pos n with rfl | np
    · simp; omega
    · have := (lag_product hr hp W1 W2 D0 D2 hb (n - 1)).2 (by
        have := Int.ceil_lt_add_one (D * W)
        rw [hn] at this
        rw [Nat.cast_sub np]
        push_cast at this ⊢
        linarith)
      have : (((n - 1 : ℕ) : ℤ) : ℝ) ≤ (⌈q⌉ : ℝ) := le_trans (by exact_mod_cast this) (Int.le_ceil q)
      have : ((n - 1 : ℕ) : ℤ) ≤ ⌈q⌉ := by exact_mod_cast this
      omega
  have n7' : (n : ℤ) ≤ 10 ^ 7 := by exact_mod_cast n7
  have L : A.lagMax W D = ⌈q⌉ + 6 := lagMax_eq hr rfl c0 (by omega)
  refine ⟨?_, ?_, ?_⟩
  · rw [L, hn]; omega
  · intro m hm
    have : n = m := by rw [← hn, hm]; simp
    have lo := (lag_product hr hp W1 W2 D0 D2 hb n).2 (by rw [hm, ← this]; simp)
    have e : q = n := le_antisymm up lo
    rw [L, e, ← this]; simp
  · intro tau t0 t1
    rw [L]
    have cq := Int.le_ceil q
    have le : W * tau ≤ D * W := by rw [mul_comm]; gcongr
    push_cast
    rcases D0 with rfl | D1
    · rw [zero_mul] at le ⊢
      linarith
    have lo : 1 / 10 ^ 12 ≤ D * W := by nlinarith
    obtain ⟨e1, e2⟩ := abs_le.1 (py_product hp W1 W2 (Or.inr D1) D2)
    set p := A.py (A.py D * A.py W) with hpp
    have p0 : 0 < p := by norm_num at e1 lo ⊢; linarith
    have r := (abs_le.1 (rnd_err (Or.inl rfl) hr (x := p) (by rw [abs_of_pos p0]; norm_num at e2 hb ⊢; linarith))).1
    rw [abs_of_pos p0, unit_single, ← hq] at r
    norm_num at r e1 e2 lo ⊢
    linarith

/-- The arguments of the default delay spread with a bandwidth of 20 MHz are admissible, and the lag is the documented one. -/
example (A : Arith) (hr : Nearest single A.rnd) (hp : Nearest double A.py) : A.lagMax (20 * 10 ^ 6) (3e-6) = 66 :=
  (C211_lag_partial A hr hp _ _ ⟨by norm_num, Or.inr (by norm_num), by norm_num⟩).2.1 60 (by norm_num)

/-- C211. The frequencies of the subcarriers of 5G, with a spacing of `15 · 2^μ` kHz, are exact in single and double precision, for grids of up to
17895 subcarriers. -/
theorem C211_subcarriers (f : Format) (hf : IEEE f) (A : Arith) (hr : Nearest f A.rnd) (mu : ℕ) (hmu : mu ≤ 10) (k : ℤ) (hk : |k| ≤ 8947) :
    A.subcarrier k (15000 * 2 ^ mu) = k * (15000 * 2 ^ mu) := by
  have key : ∀ j : ℤ, |j| ≤ 8947 → A.rnd (j * (15000 * 2 ^ mu)) = j * (15000 * 2 ^ mu) := by
    intro j hj
    have hj' : |(j : ℝ)| ≤ 8947 := by exact_mod_cast hj
    have m2 : (2 : ℝ) ^ mu ≤ 2 ^ 10 := by gcongr; norm_num
    refine hr.num ⟨1875 * j, 3 + mu, ?_, ?_, ?_, ?_⟩ ?_
    · refine lt_of_lt_of_le (b := 2 ^ 24) ?_ (by rcases hf with rfl | rfl <;> norm_num [single, double])
      rw [abs_mul]; norm_num; omega
    · rcases hf with rfl | rfl <;> simp only [single, double] <;> omega
    · rcases hf with rfl | rfl <;> simp only [single, double] <;> omega
    · rw [show (3 + mu : ℤ) = ((3 + mu : ℕ) : ℤ) by push_cast; ring, zpow_natCast, pow_add]; push_cast; ring
    · refine lt_of_le_of_lt ?_ (range_ge hf)
      rw [abs_mul, abs_of_pos (show (0 : ℝ) < 15000 * 2 ^ mu by positivity)]
      calc |(j : ℝ)| * (15000 * 2 ^ mu) ≤ 8947 * (15000 * 2 ^ 10) := by gcongr
        _ ≤ 10 ^ 38 := by norm_num
  unfold Arith.subcarrier
  have := key 1 (by norm_num)
  rw [Int.cast_one, one_mul] at this
  rw [this, key k hk]

example (A : Arith) (hr : Nearest single A.rnd) : A.subcarrier (-1638) 30000 = -49140000 := by
  have := C211_subcarriers single (Or.inl rfl) A hr 1 (by norm_num) (-1638) (by norm_num)
  norm_num at this ⊢
  exact this

/-- C211 is violated: for a delay spread of 3.00000005 µs and 20 MHz the product 60.000001 is rounded to 60, and the range has one lag less than
documented. -/
theorem C211_violated : ¬ C211_statement := by
  intro h
  obtain ⟨A, hr, hp⟩ := exists_arith single (Or.inl rfl)
  have hl := h A hr hp (20 * 10 ^ 6) 3.00000005e-6 ⟨by norm_num, Or.inr (by norm_num), by norm_num⟩
  have hc : ⌈(3.00000005e-6 * (20 * 10 ^ 6) : ℝ)⌉ = 61 := by rw [Int.ceil_eq_iff]; norm_num
  rw [hc] at hl
  have e := py_product hp (W := 20 * 10 ^ 6) (D := 3.00000005e-6) (by norm_num) (by norm_num) (Or.inr (by norm_num)) (by norm_num)
  obtain ⟨e1, e2⟩ := abs_le.1 e
  set p := A.py (A.py 3.00000005e-6 * A.py (20 * 10 ^ 6))
  norm_num at e1 e2
  have q : A.rnd p = (15728640 : ℤ) * (2 : ℝ) ^ (-18 : ℤ) := by
    refine hr.eval (by norm_num [single]) 15728640 (-18) (by norm_num [single]) (by norm_num [single]) (by norm_num [single]) (by norm_num [single]) ?_ ?_
    · refine lt_trans (b := (10 : ℝ) ^ 38) ?_ (range_ge (Or.inl rfl))
      rw [abs_lt]; constructor <;> norm_num <;> linarith
    · rw [abs_lt]; constructor <;> norm_num <;> linarith
  have := lagMax_eq hr (W := 20 * 10 ^ 6) (D := 3.00000005e-6) (n := 60) (by
    change ⌈A.rnd p⌉ = 60
    rw [q, show (((15728640 : ℤ) : ℝ) * (2 : ℝ) ^ (-18 : ℤ)) = ((60 : ℤ) : ℝ) by norm_num]
    exact Int.ceil_intCast 60) (by norm_num) (by norm_num)
  omega

end OpenNTN
